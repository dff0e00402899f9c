import Verif.Model.Float
import Verif.Model.Prepare

/-!
# Model of src/geometry.rs

Line numbers refer to src/geometry.rs. `i32` arithmetic is `Int` with a range check after each operation.
-/

namespace Rqrr

/-- Signed 32-bit range check after an arithmetic step. -/
def chk32 (n : Int) : Run Int := if -(2 ^ 31) ≤ n ∧ n < 2 ^ 31 then .ok n else .error .panic

/-- `a + b` on `i32`. -/
def addI (a b : Int) : Run Int := chk32 (a + b)
/-- `a - b` on `i32`. -/
def subI (a b : Int) : Run Int := chk32 (a - b)
/-- `a * b` on `i32`. -/
def mulI (a b : Int) : Run Int := chk32 (a * b)
/-- `-a` on `i32`. -/
def negI (a : Int) : Run Int := chk32 (-a)
/-- `a / b` on `i32`: truncates towards zero; panics for `b = 0` and on overflow. -/
def divI (a b : Int) : Run Int := if b = 0 then .error .panic else chk32 (Int.tdiv a b)

section perspective

variable {F : Type} [FloatOps F]

open FloatOps

/-- `Perspective` (lines 3-4). -/
abbrev Perspective (F : Type) := Vector F 8

/-- `Perspective::create` (lines 7-45). -/
def Perspective.create (rect : Vector Point 4) (w h : F) : Option (Perspective F) :=
  let x0 : F := ofInt rect[0].x
  let y0 : F := ofInt rect[0].y
  let x1 : F := ofInt rect[1].x
  let y1 : F := ofInt rect[1].y
  let x2 : F := ofInt rect[2].x
  let y2 : F := ofInt rect[2].y
  let x3 : F := ofInt rect[3].x
  let y3 : F := ofInt rect[3].y
  let wden := w * (x2 * y3 - x3 * y2 + (x3 - x2) * y1 + x1 * (y2 - y3))
  let hden := h * (x2 * y3 + x1 * (y2 - y3) - x3 * y2 + (x3 - x2) * y1)
  if lt wden epsilon || lt hden epsilon then none
  else
    let c0 := (x1 * (x2 * y3 - x3 * y2) + x0 * (-x2 * y3 + x3 * y2 + (x2 - x3) * y1) + x1 * (x3 - x2) * y0) / wden
    let c1 := -(x0 * (x2 * y3 + x1 * (y2 - y3) - x2 * y1) - x1 * x3 * y2 + x2 * x3 * y1 + (x1 * x3 - x2 * x3) * y0) / hden
    let c3 := (y0 * (x1 * (y3 - y2) - x2 * y3 + x3 * y2) + y1 * (x2 * y3 - x3 * y2) + x0 * y1 * (y2 - y3)) / wden
    let c4 := (x0 * (y1 * y3 - y2 * y3) + x1 * y2 * y3 - x2 * y1 * y3 + y0 * (x3 * y2 - x1 * y2 + (x2 - x3) * y1)) / hden
    let c6 := (x1 * (y3 - y2) + x0 * (y2 - y3) + (x2 - x3) * y1 + (x3 - x2) * y0) / wden
    let c7 := (-x2 * y3 + x1 * y3 + x3 * y2 + x0 * (y1 - y2) - x3 * y1 + (x2 - x1) * y0) / hden
    some #v[c0, c1, x0, c3, c4, y0, c6, c7]

/-- Lines 48-50: the mapped point before rounding. -/
def Perspective.mapF (c : Perspective F) (u v : F) : F × F :=
  let den := c[6] * u + c[7] * v + lit 1 0
  ((c[0] * u + c[1] * v + c[2]) / den, (c[3] * u + c[4] * v + c[5]) / den)

/-- `Perspective::map` (lines 47-63). -/
def Perspective.map (c : Perspective F) (u v : F) : Run Point := do
  let (x, y) := c.mapF u v
  let x := FloatOps.round x
  let y := FloatOps.round y
  Run.assert (le x (ofInt 2147483647))
  Run.assert (le (ofInt (-2147483648)) x)
  Run.assert (le y (ofInt 2147483647))
  Run.assert (le (ofInt (-2147483648)) y)
  pure { x := toI32 x, y := toI32 y }

/-- Lines 66-81 with the point given by its coordinates. -/
def Perspective.unmapF (c : Perspective F) (x y : F) : F × F :=
  let den := -c[0] * c[7] * y + c[1] * c[6] * y + (c[3] * c[7] - c[4] * c[6]) * x + c[0] * c[4] - c[1] * c[3]
  let u := -(c[1] * (y - c[5]) - c[2] * c[7] * y + (c[5] * c[7] - c[4]) * x + c[2] * c[4]) / den
  let v := (c[0] * (y - c[5]) - c[2] * c[6] * y + (c[5] * c[6] - c[3]) * x + c[2] * c[3]) / den
  (u, v)

/-- `Perspective::unmap` (lines 65-84). -/
def Perspective.unmap (c : Perspective F) (p : Point) : F × F := c.unmapF (ofInt p.x) (ofInt p.y)

end perspective

/-- `line_intersect` (lines 86-113). -/
def line_intersect (p0 p1 q0 q1 : Point) : Run (Option Point) := do
  let a ← negI (← subI p1.y p0.y)
  let b ← subI p1.x p0.x
  let c ← negI (← subI q1.y q0.y)
  let d ← subI q1.x q0.x
  let e ← addI (← mulI a p1.x) (← mulI b p1.y)
  let f ← addI (← mulI c q1.x) (← mulI d q1.y)
  let det ← subI (← mulI a d) (← mulI b c)
  if det = 0 then pure none
  else do
    let x ← divI (← subI (← mulI d e) (← mulI b f)) det
    let y ← divI (← addI (← mulI (← negI c) e) (← mulI a f)) det
    pure (some { x := x, y := y })

/-- `BresenhamScan` (lines 115-126). -/
structure BresenhamScan where
  x : Int
  y : Int
  dom_step : Int
  non_step : Int
  i : Int
  d : Int
  n : Int
  a : Int
  x_dom : Bool
  deriving DecidableEq, Repr

/-- `BresenhamScan::new` (lines 129-156). -/
def BresenhamScan.new (frm to : Point) : Run BresenhamScan := do
  let n ← subI to.x frm.x
  let d ← subI to.y frm.y
  let x := frm.x
  let y := frm.y
  let an ← chk32 n.natAbs
  let ad ← chk32 d.natAbs
  let (x_dom, n, d) := if an > ad then (true, d, n) else (false, n, d)
  let (n, non_step) ← (if n < 0 then do pure (← negI n, -1) else pure (n, 1) : Run (Int × Int))
  let (d, dom_step) ← (if d < 0 then do pure (← negI d, -1) else pure (d, 1) : Run (Int × Int))
  pure { x := x, y := y, dom_step := dom_step, non_step := non_step, i := 0, d := d, n := n, a := n, x_dom := x_dom }

/-- `BresenhamScan::next` (lines 162-185). -/
def BresenhamScan.next (s : BresenhamScan) : Run (Option (Point × BresenhamScan)) := do
  if s.i > s.d then pure none
  else do
    let ret : Point := { x := s.x, y := s.y }
    let a ← addI s.a s.n
    let dom := if s.x_dom then s.x else s.y
    let non := if s.x_dom then s.y else s.x
    let dom ← addI dom s.dom_step
    let (non, a) ← (if a ≥ s.d then do pure (← addI non s.non_step, ← subI a s.d) else pure (non, a) : Run (Int × Int))
    let i ← addI s.i 1
    let x := if s.x_dom then dom else non
    let y := if s.x_dom then non else dom
    pure (some (ret, { s with x := x, y := y, a := a, i := i }))

/-- The points the iterator yields, at most `fuel` of them. -/
def BresenhamScan.collect : Nat → BresenhamScan → Run (List Point)
  | 0, _ => .error .diverge
  | fuel + 1, s => do
    match ← s.next with
    | none => pure []
    | some (p, s) => do
      let ps ← BresenhamScan.collect fuel s
      pure (p :: ps)

/-- The points of the scan from `frm` to `to`. -/
def BresenhamScan.points (frm to : Point) : Run (List Point) := do
  let s ← BresenhamScan.new frm to
  BresenhamScan.collect (s.d.toNat + 2) s

end Rqrr
