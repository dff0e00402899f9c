import Verif.Model.Detect
import Verif.Model.Decode

/-!
# Model of src/identify/grid.rs, src/identify/match_capstones.rs and of `find_groupings`, `detect_grids` of src/prepare.rs

Line numbers refer to src/identify/grid.rs unless another file is named. The scores of the fitness functions are plain
integers: they are sums of at most a few thousand terms between -9 and 9, so `i32` overflow is impossible.
-/

namespace Rqrr

open ImageBuffer FloatOps

variable {S : Type} [ImageBuffer S] {F : Type} [FloatOps F]

/-- `i as usize` for an `i32` `i`: sign extension to 64 bits. -/
def asUsize (i : Int) : Nat := (i % 2 ^ 64).toNat

/-- `CapStoneGroup` (src/identify/match_capstones.rs:3-4). -/
structure CapStoneGroup (F : Type) where
  a : CapStone F
  b : CapStone F
  c : CapStone F

/-- `SkewedGridLocation` (lines 17-21). -/
structure SkewedGridLocation (F : Type) where
  grid_size : Nat
  c : Perspective F

/-- `version_from_grid_size` (lines 116-118). -/
def version_from_grid_size (grid_size : Nat) : Run Nat := do
  let n ← subU grid_size 17
  pure (n / 4)

/-! ### Fitness -/

/-- The constant `OFFSETS` (line 448). -/
def offsets (F : Type) [FloatOps F] : List F := [lit 3 1, lit 5 1, lit 7 1]

/-- `fitness_cell` (lines 439-465). -/
def fitness_cell (img : PreparedImage S) (perspective : Perspective F) (x y : Int) : Run Int :=
  forList (fun ov score => forList (fun ou score => do
    let p ← perspective.map (ofInt x + ou) (ofInt y + ov)
    if p.y < 0 ∨ height img.buffer ≤ asUsize p.y ∨ p.x < 0 ∨ width img.buffer ≤ asUsize p.x then pure score
    else do
      let c ← img.get_pixel_at_point p
      if PixelColor.White ≠ c then pure (score + 1) else pure (score - 1)) (offsets F) score) (offsets F) 0

/-- `fitness_ring` (lines 419-437). -/
def fitness_ring (img : PreparedImage S) (perspective : Perspective F) (cx cy : Int) (radius : Nat) : Run Int :=
  forRange 0 (radius * 2) 0 fun i (score : Int) => do
    let s1 ← fitness_cell img perspective (cx - radius + i) (cy - radius)
    let s2 ← fitness_cell img perspective (cx - radius) (cy + radius - i)
    let s3 ← fitness_cell img perspective (cx + radius) (cy - radius + i)
    let s4 ← fitness_cell img perspective (cx + radius - i) (cy + radius)
    pure (score + s1 + s2 + s3 + s4)

/-- `fitness_apat` (lines 406-417). -/
def fitness_apat (img : PreparedImage S) (perspective : Perspective F) (cx cy : Int) : Run Int := do
  let s ← fitness_cell img perspective cx cy
  let r1 ← fitness_ring img perspective cx cy 1
  let r2 ← fitness_ring img perspective cx cy 2
  pure (s - r1 + r2)

/-- `fitness_capstone` (lines 467-479). -/
def fitness_capstone (img : PreparedImage S) (perspective : Perspective F) (x y : Int) : Run Int := do
  let s ← fitness_cell img perspective (x + 3) (y + 3)
  let r1 ← fitness_ring img perspective (x + 3) (y + 3) 1
  let r2 ← fitness_ring img perspective (x + 3) (y + 3) 2
  let r3 ← fitness_ring img perspective (x + 3) (y + 3) 3
  pure (s + r1 - r2 + r3)

/-- `fitness_all` (lines 365-404). -/
def fitness_all (img : PreparedImage S) (perspective : Perspective F) (grid_size : Nat) : Run Int := do
  let version ← version_from_grid_size grid_size
  let info ← idx VERSION_DATA_BASE version
  let score ← forRange 0 (grid_size - 14) 0 fun i (score : Int) => do
    let expect : Int := if i % 2 ≠ 0 then 1 else -1
    let s1 ← fitness_cell img perspective ((i : Int) + 7) 6
    let s2 ← fitness_cell img perspective 6 ((i : Int) + 7)
    pure (score + s1 * expect + s2 * expect)
  let c1 ← fitness_capstone img perspective 0 0
  let c2 ← fitness_capstone img perspective ((grid_size : Int) - 7) 0
  let c3 ← fitness_capstone img perspective 0 ((grid_size : Int) - 7)
  let score := score + c1 + c2 + c3
  let ap_count := (info.apat.takeWhile (· != 0)).length
  let score ← forRange 1 (ap_count - 1) score fun i (score : Int) => do
    let ai ← idx info.apat i
    let s1 ← fitness_apat img perspective 6 ai
    let s2 ← fitness_apat img perspective ai 6
    pure (score + s1 + s2)
  forRange 1 ap_count score fun i (score : Int) =>
    forRange 1 ap_count score fun j (score : Int) => do
      let ai ← idx info.apat i
      let aj ← idx info.apat j
      let s ← fitness_apat img perspective ai aj
      pure (score + s)

/-- Lines 338-352: try one adjustment. The state holds the transform and its score. -/
def jiggle_try (fitness : Perspective F → Run Int) (adjustments : Perspective F) (i : Nat) (st : Perspective F × Int) :
    Run (Perspective F × Int) := do
  let (perspective, best) := st
  let j := i >>> 1
  let old ← aget perspective j
  let step ← aget adjustments j
  let new := if i &&& 1 ≠ 0 then old + step else old - step
  let perspective ← aset perspective j new
  let test ← fitness perspective
  if test > best then pure (perspective, test)
  else do
    let perspective ← aset perspective j old
    pure (perspective, best)

/-- `jiggle_perspective` (lines 317-360), for a given fitness function. -/
def jiggle_with (fitness : Perspective F → Run Int) (perspective : Perspective F) : Run (Perspective F) := do
  let best ← fitness perspective
  let adjustments : Perspective F := Vector.map (fun c => c * lit 2 2) perspective
  let (perspective, _, _) ← forRange 0 5 (perspective, best, adjustments)
    fun _pass (st : Perspective F × Int × Perspective F) => do
      let (perspective, best, adjustments) := st
      let (perspective, best) ← forRange 0 16 (perspective, best) fun i st => jiggle_try fitness adjustments i st
      pure (perspective, best, Vector.map (fun a => a * lit 5 1) adjustments)
  pure perspective

/-- `jiggle_perspective` (lines 317-360). -/
def jiggle_perspective (img : PreparedImage S) (perspective : Perspective F) (grid_size : Nat) : Run (Perspective F) :=
  jiggle_with (fun p => fitness_all img p grid_size) perspective

/-- `setup_perspective` (lines 144-165). -/
def setup_perspective (img : PreparedImage S) (caps : CapStoneGroup F) (align : Point) (grid_size : Nat) :
    Run (Option (Perspective F)) := do
  let n ← subU grid_size 7
  match Perspective.create (F := F) #v[caps.b.corners[0], caps.c.corners[0], align, caps.a.corners[0]]
      (ofInt n) (ofInt n) with
  | none => pure none
  | some initial => do
    let c ← jiggle_perspective img initial grid_size
    pure (some c)

/-! ### Orientation and timing -/

/-- The key of line 172: signed distance of a corner from the hypotenuse, times its length. -/
def rotate_key (h0 hd a : Point) : Run Int := do
  let k1 ← mulI (← subI a.x h0.x) (← negI hd.y)
  let k2 ← mulI (← subI a.y h0.y) hd.x
  addI k1 k2

/-- `rotate_left` on an array of four. -/
def rotateLeft4 {α : Type} (v : Vector α 4) (k : Nat) : Vector α 4 :=
  Vector.ofFn fun i => v[(i.val + k) % 4]'(Nat.mod_lt _ (by omega))

/-- `rotate_capstone` (lines 167-179): `min_by_key` returns the first minimum. -/
def rotate_capstone (cap : CapStone F) (h0 hd : Point) : Run (CapStone F) := do
  let k0 ← rotate_key h0 hd cap.corners[0]
  let k1 ← rotate_key h0 hd cap.corners[1]
  let k2 ← rotate_key h0 hd cap.corners[2]
  let k3 ← rotate_key h0 hd cap.corners[3]
  let (b, k) := if k1 < k0 then (1, k1) else (0, k0)
  let (b, k) := if k2 < k then (2, k2) else (b, k)
  let b := if k3 < k then 3 else b
  let corners := rotateLeft4 cap.corners b
  match Perspective.create (F := F) corners (lit 7 0) (lit 7 0) with
  | none => .error .panic
  | some c => pure { cap with corners := corners, c := c }

/-- `timing_scan` (lines 212-229): colour changes along a line. -/
def timing_scan (img : PreparedImage S) (p0 p1 : Point) : Run Nat := do
  let ps ← BresenhamScan.points p0 p1
  let (count, _) ← forList (fun p (st : Nat × Option PixelColor) => do
    let (count, previous) := st
    let pixel ← img.get_pixel_at_point p
    let count := match previous with
      | some prev => if prev ≠ pixel then count + 1 else count
      | none => count
    pure (count, some pixel)) ps (0, none)
  pure count

/-- Lines 205-209: the grid size for a number of colour changes. -/
def size_from_scan (F : Type) [FloatOps F] (scan : Nat) : Run Nat := do
  Run.assert (1 ≤ scan)
  let size := scan + 13
  let ver := toUsize (FloatOps.floor (ofInt (size : Int) - lit 15 0 : F)) / 4
  pure (ver * 4 + 17)

/-- `measure_timing_pattern` (lines 190-210). -/
def measure_timing_pattern (img : PreparedImage S) (caps : CapStoneGroup F) : Run Nat := do
  let tpet0 ← caps.a.c.map (lit 65 1) (lit 5 1)
  let tpet1 ← caps.b.c.map (lit 65 1) (lit 65 1)
  let tpet2 ← caps.c.c.map (lit 5 1) (lit 65 1)
  let hscan ← timing_scan img tpet1 tpet2
  let vscan ← timing_scan img tpet1 tpet0
  size_from_scan F (max hscan vscan)

/-! ### Alignment pattern -/

/-- `DX_MAP` (line 259). -/
def dxMap : List Int := [1, 0, -1, 0]

/-- `DY_MAP` (line 260). -/
def dyMap : List Int := [0, -1, 0, 1]

/-- Lines 261-281: one step of a side of the spiral. The state is the image, the seed, and the result if found. -/
def align_step (size_estimate dir : Nat) (st : PreparedImage S × Point × Option Point) :
    Run (PreparedImage S × Point × Option Point) := do
  let (img, align_seed, found) := st
  match found with
  | some _ => pure (img, align_seed, found)
  | none => do
    let x := asUsize align_seed.x
    let y := asUsize align_seed.y
    let move (img : PreparedImage S) : Run (PreparedImage S × Point × Option Point) := do
      let dx ← idx dxMap dir
      let dy ← idx dyMap dir
      let sx ← addI align_seed.x dx
      let sy ← addI align_seed.y dy
      pure (img, { x := sx, y := sy }, none)
    if x < width img.buffer ∧ y < height img.buffer then do
      let c ← img.get_pixel_at x y
      if PixelColor.White ≠ c then do
        let (region, img) ← img.get_region x y
        match region with
        | .Unclaimed _ _ _ count => do
          let dbl ← chkU (size_estimate * 2)
          if count ≥ size_estimate / 2 ∧ count ≤ dbl then pure (img, align_seed, some align_seed)
          else move img
        | _ => pure (img, align_seed, none)
      else move img
    else move img

/-- Lines 243-249: the size estimate. -/
def size_estimate (align_seed : Point) (c0 c2 : CapStone F) : Run Nat := do
  let (u, v) := c0.c.unmap align_seed
  let a ← c0.c.map u (v + lit 1 0)
  let (u, v) := c2.c.unmap align_seed
  let c ← c2.c.map (u + lit 1 0) v
  let k1 ← mulI (← subI a.x align_seed.x) (← negI (← subI c.y align_seed.y))
  let k2 ← mulI (← subI a.y align_seed.y) (← subI c.x align_seed.x)
  let k ← addI k1 k2
  pure k.natAbs

/-- Lines 255-289: the spiral. The state is the image, the seed, the result if found, `dir` and `step_size`. -/
def align_spiral (img : PreparedImage S) (align_seed : Point) (size_estimate : Nat) :
    Run (PreparedImage S × Option Point) := do
  let (img, _, found, _, _) ← whileFuel
    (fun st : PreparedImage S × Point × Option Point × Nat × Nat =>
      st.2.2.1.isNone && decide (st.2.2.2.2 * st.2.2.2.2 < size_estimate * 100))
    (fun st => do
      let (img, align_seed, found, dir, step_size) := st
      let (img, align_seed, found) ← forRange 0 step_size (img, align_seed, found) fun _ st =>
        align_step size_estimate dir st
      let dir := (dir + 1) % 4
      let step_size := if dir &&& 1 = 0 then step_size + 1 else step_size
      pure (img, align_seed, found, dir, step_size))
    (2 * (size_estimate * 100) + 4) (img, align_seed, none, 0, 1)
  pure (img, found)

/-- `find_alignment_pattern` (lines 231-290). -/
def find_alignment_pattern (img : PreparedImage S) (align_seed : Point) (c0 c2 : CapStone F) :
    Run (PreparedImage S × Option Point) := do
  let n ← size_estimate align_seed c0 c2
  align_spiral img align_seed n

/-- `LeftMostFinder` (lines 292-296). -/
structure LeftMostFinder where
  line_p : Point
  best : Point
  score : Int

/-- The score of a point with respect to the line (lines 83, 300-301). -/
def LeftMostFinder.scoreOf (line_p : Point) (x y : Int) : Run Int := do
  addI (← mulI (← negI line_p.y) x) (← mulI line_p.x y)

/-- `impl AreaFiller for LeftMostFinder` (lines 298-315). -/
def LeftMostFinder.update (self : LeftMostFinder) (row : Row) : Run LeftMostFinder := do
  let left_d ← LeftMostFinder.scoreOf self.line_p (asI32 row.left) (asI32 row.y)
  let right_d ← LeftMostFinder.scoreOf self.line_p (asI32 row.right) (asI32 row.y)
  let self := if left_d < self.score then
    { self with score := left_d, best := { x := asI32 row.left, y := asI32 row.y } } else self
  let self := if right_d < self.score then
    { self with score := right_d, best := { x := asI32 row.right, y := asI32 row.y } } else self
  pure self

/-- Lines 80-95: the corner of the alignment pattern, which is claimed. -/
def claim_alignment (img : PreparedImage S) (align : Point) (c0 c2 : CapStone F) (hd : Point) :
    Run (PreparedImage S × Option Point) := do
  let (img, found) ← find_alignment_pattern img align c0 c2
  match found with
  | none => pure (img, none)
  | some align => do
    let score ← LeftMostFinder.scoreOf hd align.x align.y
    let (img, found) ← img.repaint_and_apply LeftMostFinder.update (asUsize align.x) (asUsize align.y) .Alignment
      { line_p := hd, best := align, score := score }
    pure (img, some found.best)

/-- `SkewedGridLocation::from_group` (lines 36-104). -/
def SkewedGridLocation.from_group (img : PreparedImage S) (group : CapStoneGroup F) :
    Run (PreparedImage S × Option (SkewedGridLocation F)) := do
  let h0 := group.a.center
  let hdx ← subI group.c.center.x group.a.center.x
  let hdy ← subI group.c.center.y group.a.center.y
  let t1 ← mulI (← subI group.b.center.x h0.x) (← negI hdy)
  let t2 ← mulI (← subI group.b.center.y h0.y) hdx
  let t ← addI t1 t2
  let (group, hd) ← (if t > 0 then do
      let nx ← negI hdx
      let ny ← negI hdy
      pure (({ a := group.c, b := group.b, c := group.a } : CapStoneGroup F), ({ x := nx, y := ny } : Point))
    else pure (group, ({ x := hdx, y := hdy } : Point)) : Run (CapStoneGroup F × Point))
  let ga ← rotate_capstone group.a h0 hd
  let gb ← rotate_capstone group.b h0 hd
  let gc ← rotate_capstone group.c h0 hd
  let group : CapStoneGroup F := { a := ga, b := gb, c := gc }
  let grid_size ← measure_timing_pattern img group
  let inter ← line_intersect group.a.corners[0] group.a.corners[1] group.c.corners[0] group.c.corners[3]
  match inter with
  | none => pure (img, none)
  | some align => do
    let (img, align) ← (if grid_size > 21 then claim_alignment img align group.a group.c hd else pure (img, some align) :
      Run (PreparedImage S × Option Point))
    match align with
    | none => pure (img, none)
    | some align => do
      let version ← version_from_grid_size grid_size
      if version ≥ VERSION_DATA_BASE.length then pure (img, none)
      else do
        let c ← setup_perspective img group align grid_size
        match c with
        | none => pure (img, none)
        | some c => pure (img, some { grid_size := grid_size, c := c })

/-- `RefGridImage` and its `BitGrid` implementation (lines 125-142). -/
def RefGridImage (grid : SkewedGridLocation F) (img : PreparedImage S) : BitGrid where
  size := grid.grid_size
  bit := fun y x => do
    let p ← grid.c.map (ofInt (x : Int) + lit 5 1) (ofInt (y : Int) + lit 5 1)
    let c ← img.get_pixel_at_point p
    pure (decide (PixelColor.White ≠ c))

/-! ### Neighbours (src/identify/match_capstones.rs) -/

/-- `Neighbor` (src/identify/match_capstones.rs:6-10). -/
structure Neighbor (F : Type) where
  index : Nat
  distance : F

/-- `find_possible_neighbors` (src/identify/match_capstones.rs:52-88). -/
def find_possible_neighbors (capstones : List (CapStone F)) (i : Nat) : Run (List (Neighbor F) × List (Neighbor F)) := do
  let cap ← idx capstones i
  forRange 0 capstones.length ([], []) fun others_idx (st : List (Neighbor F) × List (Neighbor F)) => do
    let (hlist, vlist) := st
    if others_idx = i then pure (hlist, vlist)
    else do
      let cmp_cap ← idx capstones others_idx
      let (u, v) := cap.c.unmap cmp_cap.center
      let u := FloatOps.abs (u - lit 35 1)
      let v := FloatOps.abs (v - lit 35 1)
      let hlist := if lt u (lit 2 1 * v) then hlist ++ [{ index := others_idx, distance := v }] else hlist
      let vlist := if lt v (lit 2 1 * u) then vlist ++ [{ index := others_idx, distance := u }] else vlist
      pure (hlist, vlist)

/-- `NeighborSet` (src/identify/match_capstones.rs:19-23). -/
structure NeighborSet (F : Type) where
  score : F
  h_index : Nat
  v_index : Nat

/-- Insertion into a sorted list; `partial_cmp(..).expect(..)` panics for incomparable scores. -/
def insertScore (n : NeighborSet F) : List (NeighborSet F) → Run (List (NeighborSet F))
  | [] => .ok [n]
  | m :: ms =>
    if lt n.score m.score then .ok (n :: m :: ms)
    else if le m.score n.score then do
      let r ← insertScore n ms
      pure (m :: r)
    else .error .panic

/-- `find_and_rank_possible_neighbors` (src/identify/match_capstones.rs:14-50). `sort_unstable_by` is modelled by an
insertion sort; the order of entries with equal scores is not specified by Rust (theorems about grouping hold for every
order). -/
def find_and_rank_possible_neighbors (capstones : List (CapStone F)) (i : Nat) : Run (List (Nat × Nat)) := do
  let (hlist, vlist) ← find_possible_neighbors capstones i
  let res := hlist.flatMap fun hn => vlist.filterMap fun vn =>
    let score : F := if lt hn.distance vn.distance then FloatOps.abs (lit 1 0 - hn.distance / vn.distance)
      else FloatOps.abs (lit 1 0 - vn.distance / hn.distance)
    if lt score (lit 25 2) then some { score := score, h_index := hn.index, v_index := vn.index : NeighborSet F } else none
  let sorted ← forList (fun n sorted => insertScore n sorted) res []
  pure (sorted.map fun n => (n.h_index, n.v_index))

/-! ### Grouping and detection (src/prepare.rs) -/

/-- One candidate pair of `find_groupings` (src/prepare.rs:279-301). The state holds the used indices and the groups with
their indices. -/
def try_pair (viable : CapStoneGroup F → Run Bool) (capstones : List (CapStone F)) (i : Nat) (pair : Nat × Nat)
    (st : List Nat × List (CapStoneGroup F)) : Run (List Nat × List (CapStoneGroup F)) := do
  let (used, groups) := st
  if used.contains pair.1 || used.contains pair.2 then pure (used, groups)
  else do
    let a ← idx capstones pair.1
    let b ← idx capstones i
    let c ← idx capstones pair.2
    let group : CapStoneGroup F := { a := a, b := b, c := c }
    if ← viable group then pure (used ++ [pair.1, i, pair.2], groups ++ [group])
    else pure (used, groups)

/-- `find_groupings` (src/prepare.rs:268-305), for a given ranking and viability test. -/
def find_groupings_with (rank : List (CapStone F) → Nat → Run (List (Nat × Nat))) (viable : CapStoneGroup F → Run Bool)
    (capstones : List (CapStone F)) : Run (List (CapStoneGroup F)) := do
  let (_, groups) ← forRange 0 capstones.length ([], []) fun i (st : List Nat × List (CapStoneGroup F)) => do
    let (used, groups) := st
    if used.contains i then pure (used, groups)
    else do
      let pairs ← rank capstones i
      forList (fun pair st => try_pair viable capstones i pair st) pairs (used, groups)
  pure groups

/-- `find_groupings` (src/prepare.rs:268-305): viability is tested on a clone of the image. -/
def PreparedImage.find_groupings (self : PreparedImage S) (capstones : List (CapStone F)) : Run (List (CapStoneGroup F)) :=
  find_groupings_with find_and_rank_possible_neighbors (fun group => do
    let (_, loc) ← SkewedGridLocation.from_group self.clone group
    pure loc.isSome) capstones

/-- `Grid` with its bounds (src/lib.rs:54-65), as returned by `detect_grids`. -/
structure DetectedGrid (F : Type) where
  location : SkewedGridLocation F
  bounds : List Point

/-- Lines 238-241 of src/prepare.rs: locate every group in turn. -/
def locate_groups (groups : List (CapStoneGroup F)) (img : PreparedImage S) :
    Run (PreparedImage S × List (SkewedGridLocation F)) :=
  forList (fun group (st : PreparedImage S × List (SkewedGridLocation F)) => do
    let (img, locations) := st
    let (img, loc) ← SkewedGridLocation.from_group img group
    match loc with
    | some loc => pure (img, locations ++ [loc])
    | none => pure (img, locations)) groups (img, [])

/-- `detect_grids` (src/prepare.rs:229-266). -/
def PreparedImage.detect_grids (F : Type) [FloatOps F] (self : PreparedImage S) :
    Run (PreparedImage S × List (DetectedGrid F)) := do
  let (img, stones) ← capstones_from_image F self
  let groups ← img.find_groupings stones
  let (img, locations) ← locate_groups groups img
  let grids ← forList (fun (loc : SkewedGridLocation F) (grids : List (DetectedGrid F)) => do
    let n : F := ofInt (loc.grid_size : Int) + lit 1 0
    let b0 ← loc.c.map (lit 0 0) (lit 0 0)
    let b1 ← loc.c.map n (lit 0 0)
    let b2 ← loc.c.map n n
    let b3 ← loc.c.map (lit 0 0) n
    pure (grids ++ [{ location := loc, bounds := [b0, b1, b2, b3] }])) locations []
  pure (img, grids)

end Rqrr
