import Verif.Model.Geometry

/-!
# Model of src/detect.rs

Line numbers refer to src/detect.rs.
-/

namespace Rqrr

open ImageBuffer

/-- `CapStone` (lines 16-25). -/
structure CapStone (F : Type) where
  corners : Vector Point 4
  center : Point
  c : Perspective F

/-- `LinePosition` (lines 79-84). -/
structure LinePosition where
  left : Nat
  stone : Nat
  right : Nat
  deriving DecidableEq, Repr

/-- `LineScanner` (lines 104-111). -/
structure LineScanner where
  lookbehind_buf : Vector Nat 5
  last_color : PixelColor
  run_length : Nat
  color_changes : Nat
  current_position : Nat

/-- `LineScanner::new` (lines 116-124). -/
def LineScanner.new (initial_col : PixelColor) : LineScanner where
  lookbehind_buf := #v[0, 0, 0, 0, 0]
  last_color := initial_col
  run_length := 1
  color_changes := 0
  current_position := 0

/-- The constant `CHECK` (line 165). -/
def capstoneCheck : List Nat := [1, 1, 3, 1, 1]

/-- `LineScanner::test_for_capstone` (lines 163-187). -/
def LineScanner.test_for_capstone (s : LineScanner) : Run Bool :=
  if s.last_color = .White ∧ 5 ≤ s.color_changes then do
    let b := s.lookbehind_buf
    let avg := (b[0] + b[1] + b[3] + b[4]) / 4
    let err := avg * 3 / 4
    -- the `for` loop returns `false` at the first mismatch
    forRange 0 5 true fun i ok => do
      if !ok then pure false else do
        let bi ← aget b i
        let ci ← idx capstoneCheck i
        let lo ← subU (ci * avg) err
        pure (!(bi < lo || bi > ci * avg + err))
  else pure false

/-- `LineScanner::advance` (lines 132-157). -/
def LineScanner.advance (s : LineScanner) (color : PixelColor) : Run (Option LinePosition × LineScanner) := do
  let s := { s with current_position := s.current_position + 1 }
  if s.last_color = color then pure (none, { s with run_length := s.run_length + 1 })
  else do
    let b := s.lookbehind_buf
    let s : LineScanner :=
      { lookbehind_buf := #v[b[1], b[2], b[3], b[4], s.run_length]
        last_color := color
        run_length := 1
        color_changes := s.color_changes + 1
        current_position := s.current_position }
    if ← s.test_for_capstone then do
      let b := s.lookbehind_buf
      let left ← subU s.current_position (b[0] + b[1] + b[2] + b[3] + b[4])
      let stone ← subU s.current_position (b[2] + b[3] + b[4])
      let right ← subU s.current_position b[4]
      pure (some { left := left, stone := stone, right := right }, s)
    else pure (none, s)

variable {S : Type} [ImageBuffer S]

/-- `is_capstone` (lines 200-231). -/
def is_capstone (img : PreparedImage S) (linepos : LinePosition) (y : Nat) : Run (Bool × PreparedImage S) := do
  let (ring_reg, img) ← img.get_region linepos.right y
  let (stone_reg, img) ← img.get_region linepos.stone y
  let l ← img.get_pixel_at linepos.left y
  let r ← img.get_pixel_at linepos.right y
  if l ≠ r then pure (false, img)
  else
    match ring_reg, stone_reg with
    | .Unclaimed ring_color _ _ ring_count, .Unclaimed stone_color _ _ stone_count => do
      let n ← chkU (stone_count * 100)
      if ring_count = 0 then .error .panic else do
        let ratio := n / ring_count
        pure (decide (ring_color ≠ stone_color) && decide (10 < ratio) && decide (ratio < 70), img)
    | _, _ => pure (false, img)

/-- `FirstCornerFinder` (lines 273-278). -/
structure FirstCornerFinder where
  initial : Point
  best : Point
  score : Int

/-- `FirstCornerFinder::new` (lines 281-287). -/
def FirstCornerFinder.new (initial : Point) : FirstCornerFinder where
  initial := initial
  best := { x := 0, y := 0 }
  score := -1

/-- `impl AreaFiller for FirstCornerFinder` (lines 294-319). -/
def FirstCornerFinder.update (self : FirstCornerFinder) (row : Row) : Run FirstCornerFinder := do
  let dy ← subI (asI32 row.y) self.initial.y
  let l_dx ← subI (asI32 row.left) self.initial.x
  let r_dx ← subI (asI32 row.right) self.initial.x
  let l_dist ← addI (← mulI l_dx l_dx) (← mulI dy dy)
  let r_dist ← addI (← mulI r_dx r_dx) (← mulI dy dy)
  let self := if l_dist > self.score then
    { self with score := l_dist, best := { x := asI32 row.left, y := asI32 row.y } } else self
  let self := if r_dist > self.score then
    { self with score := r_dist, best := { x := asI32 row.right, y := asI32 row.y } } else self
  pure self

/-- `AllCornerFinder` (lines 329-334). -/
structure AllCornerFinder where
  baseline : Point
  best : Vector Point 4
  scores : Vector Int 4

/-- The scores of a point (lines 347-348, 370-376): parallel and orthogonal to the baseline, and their negatives. -/
def AllCornerFinder.scoresOf (baseline : Point) (x y : Int) : Run (Vector Int 4) := do
  let par ← addI (← mulI x baseline.x) (← mulI y baseline.y)
  let ort ← addI (← mulI (← negI x) baseline.y) (← mulI y baseline.x)
  let npar ← negI par
  let nort ← negI ort
  pure #v[par, ort, npar, nort]

/-- `AllCornerFinder::new` (lines 337-356). -/
def AllCornerFinder.new (initial corner : Point) : Run AllCornerFinder := do
  let bx ← subI corner.x initial.x
  let by_ ← subI corner.y initial.y
  let baseline : Point := { x := bx, y := by_ }
  let scores ← AllCornerFinder.scoresOf baseline initial.x initial.y
  pure { baseline := baseline, best := #v[initial, initial, initial, initial], scores := scores }

/-- `impl AreaFiller for AllCornerFinder` (lines 363-391). -/
def AllCornerFinder.update (self : AllCornerFinder) (row : Row) : Run AllCornerFinder := do
  let l_scores ← AllCornerFinder.scoresOf self.baseline (asI32 row.left) (asI32 row.y)
  let r_scores ← AllCornerFinder.scoresOf self.baseline (asI32 row.right) (asI32 row.y)
  forRange 0 4 self fun j self => do
    let l ← aget l_scores j
    let r ← aget r_scores j
    let s ← aget self.scores j
    let self ← if l > s then do
        let scores ← aset self.scores j l
        let best ← aset self.best j { x := asI32 row.left, y := asI32 row.y }
        pure { self with scores := scores, best := best }
      else pure self
    let s ← aget self.scores j
    if r > s then do
        let scores ← aset self.scores j r
        let best ← aset self.best j { x := asI32 row.right, y := asI32 row.y }
        pure { self with scores := scores, best := best }
      else pure self

variable {F : Type} [FloatOps F]

open FloatOps

/-- `create_capstone` (lines 241-267). -/
def create_capstone (F : Type) [FloatOps F] (img : PreparedImage S) (linepos : LinePosition) (y : Nat) :
    Run (Option (CapStone F) × PreparedImage S) := do
  let start_point : Point := { x := asI32 linepos.right, y := asI32 y }
  let (img, first) ← img.repaint_and_apply FirstCornerFinder.update linepos.right y .Tmp1 (.new start_point)
  let all ← AllCornerFinder.new start_point first.best
  let (img, all) ← img.repaint_and_apply AllCornerFinder.update linepos.right y .CapStone all
  let corners := all.best
  match Perspective.create (F := F) corners (lit 7 0) (lit 7 0) with
  | none => pure (none, img)
  | some c => do
    let center ← c.map (lit 35 1) (lit 35 1)
    pure (some { corners := corners, center := center, c := c }, img)

/-- The common tail of lines 46-55 and 61-70: check a candidate and record the capstone. -/
def try_capstone (F : Type) [FloatOps F] (linepos : Option LinePosition) (y : Nat) (st : PreparedImage S × List (CapStone F)) :
    Run (PreparedImage S × List (CapStone F)) :=
  match linepos with
  | none => .ok st
  | some linepos => do
    let (img, res) := st
    let (b, img) ← is_capstone img linepos y
    if !b then pure (img, res)
    else do
      let (cap, img) ← create_capstone F img linepos y
      match cap with
      | none => pure (img, res)
      | some cap => pure (img, res ++ [cap])

/-- Lines 40-56: the next pixel of a row. -/
def scan_pixel (F : Type) [FloatOps F] (y x : Nat) (st : LineScanner × PreparedImage S × List (CapStone F)) :
    Run (LineScanner × PreparedImage S × List (CapStone F)) := do
  let (finder, img, res) := st
  let p ← img.get_pixel_at x y
  let (linepos, finder) ← finder.advance p
  let (img, res) ← try_capstone F linepos y (img, res)
  pure (finder, img, res)

/-- Lines 38-71: one row. -/
def scan_row (F : Type) [FloatOps F] (y : Nat) (st : PreparedImage S × List (CapStone F)) : Run (PreparedImage S × List (CapStone F)) := do
  let (img, res) := st
  let p ← img.get_pixel_at 0 y
  let (finder, img, res) ← forRange 1 (width img.buffer) (LineScanner.new p, img, res) fun x st => scan_pixel F y x st
  let (linepos, _) ← finder.advance .White
  try_capstone F linepos y (img, res)

/-- `capstones_from_image` (lines 35-77). -/
def capstones_from_image (F : Type) [FloatOps F] (img : PreparedImage S) : Run (PreparedImage S × List (CapStone F)) :=
  forRange 0 (height img.buffer) (img, []) fun y st => scan_row F y st

end Rqrr
