import Verif.Model.Geometry
import Verif.Spec.Geometry
import Verif.Proofs.Bresenham
import Mathlib.Tactic.Ring
import Mathlib.Tactic.Linarith
import Mathlib.Tactic.FieldSimp
import Mathlib.Tactic.LinearCombination
import Mathlib.Tactic.NormNum
import Mathlib.Tactic.Positivity

/-!
# Perspective transforms in exact arithmetic
-/

namespace Rqrr

open Spec

namespace Exact

/-- Denominator of the transform at `(u, v)`. -/
def den (c : Perspective ℚ) (u v : ℚ) : ℚ := c[6] * u + c[7] * v + (1 : ℚ)

/-- Determinant of the transform. -/
def det (c : Perspective ℚ) : ℚ := c[0] * (c[4] - c[5] * c[7]) - c[1] * (c[3] - c[5] * c[6]) + c[2] * (c[3] * c[7] - c[4] * c[6])

theorem mapF_eq (c : Perspective ℚ) (u v : ℚ) :
    c.mapF u v = ((c[0] * u + c[1] * v + c[2]) / den c u v, (c[3] * u + c[4] * v + c[5]) / den c u v) := by
  have : (FloatOps.lit 1 0 : ℚ) = 1 := by show ((1 : Nat) : ℚ) / 10 ^ 0 = 1; norm_num
  show ((c[0] * u + c[1] * v + c[2]) / (c[6] * u + c[7] * v + FloatOps.lit 1 0),
    (c[3] * u + c[4] * v + c[5]) / (c[6] * u + c[7] * v + FloatOps.lit 1 0)) = _
  rw [this]
  rfl

/-- Denominator of the inverse transform. -/
def iden (c : Perspective ℚ) (x y : ℚ) : ℚ :=
  -c[0] * c[7] * y + c[1] * c[6] * y + (c[3] * c[7] - c[4] * c[6]) * x + c[0] * c[4] - c[1] * c[3]

theorem unmapF_eq (c : Perspective ℚ) (x y : ℚ) :
    c.unmapF x y = (-(c[1] * (y - c[5]) - c[2] * c[7] * y + (c[5] * c[7] - c[4]) * x + c[2] * c[4]) / iden c x y,
      (c[0] * (y - c[5]) - c[2] * c[6] * y + (c[5] * c[6] - c[3]) * x + c[2] * c[3]) / iden c x y) := rfl

theorem iden_map (c : Perspective ℚ) {u v : ℚ} (h : den c u v ≠ 0) :
    iden c (c.mapF u v).1 (c.mapF u v).2 * den c u v = det c := by
  rw [mapF_eq]
  unfold iden det
  dsimp only
  have e1 : (c[0] * u + c[1] * v + c[2]) / den c u v * den c u v = c[0] * u + c[1] * v + c[2] := div_mul_cancel₀ _ h
  have e2 : (c[3] * u + c[4] * v + c[5]) / den c u v * den c u v = c[3] * u + c[4] * v + c[5] := div_mul_cancel₀ _ h
  generalize (c[0] * u + c[1] * v + c[2]) / den c u v = X at *
  generalize (c[3] * u + c[4] * v + c[5]) / den c u v = Y at *
  unfold den at *
  linear_combination (-c[0] * c[7] + c[1] * c[6]) * e2 + (c[3] * c[7] - c[4] * c[6]) * e1

theorem unmap_map (c : Perspective ℚ) {u v : ℚ} (h : den c u v ≠ 0) (hd : det c ≠ 0) :
    c.unmapF (c.mapF u v).1 (c.mapF u v).2 = (u, v) := by
  have hi := iden_map c h
  have hi0 : iden c (c.mapF u v).1 (c.mapF u v).2 ≠ 0 := by
    intro e; rw [e, zero_mul] at hi; exact hd hi.symm
  rw [unmapF_eq]
  have e1 : (c.mapF u v).1 * den c u v = c[0] * u + c[1] * v + c[2] := by rw [mapF_eq]; exact div_mul_cancel₀ _ h
  have e2 : (c.mapF u v).2 * den c u v = c[3] * u + c[4] * v + c[5] := by rw [mapF_eq]; exact div_mul_cancel₀ _ h
  generalize (c.mapF u v).1 = X at *
  generalize (c.mapF u v).2 = Y at *
  refine Prod.ext ?_ ?_
  · show _ / _ = u
    rw [div_eq_iff hi0]
    apply mul_right_cancel₀ h
    unfold iden den at *
    linear_combination (-(c[5] * c[7] - c[4])) * e1 - (c[1] - c[2] * c[7]) * e2 - u * (c[3] * c[7] - c[4] * c[6]) * e1 +
      u * (c[0] * c[7] - c[1] * c[6]) * e2
  · show _ / _ = v
    rw [div_eq_iff hi0]
    apply mul_right_cancel₀ h
    unfold iden den at *
    linear_combination (c[5] * c[6] - c[3]) * e1 + (c[0] - c[2] * c[6]) * e2 - v * (c[3] * c[7] - c[4] * c[6]) * e1 +
      v * (c[0] * c[7] - c[1] * c[6]) * e2

theorem map_unmap (c : Perspective ℚ) {x y : ℚ} (h : iden c x y ≠ 0) (hd : det c ≠ 0) :
    c.mapF (c.unmapF x y).1 (c.unmapF x y).2 = (x, y) := by
  have e1 : (c.unmapF x y).1 * iden c x y =
      -(c[1] * (y - c[5]) - c[2] * c[7] * y + (c[5] * c[7] - c[4]) * x + c[2] * c[4]) := by
    rw [unmapF_eq]; exact div_mul_cancel₀ _ h
  have e2 : (c.unmapF x y).2 * iden c x y =
      (c[0] * (y - c[5]) - c[2] * c[6] * y + (c[5] * c[6] - c[3]) * x + c[2] * c[3]) := by
    rw [unmapF_eq]; exact div_mul_cancel₀ _ h
  generalize (c.unmapF x y).1 = u at *
  generalize (c.unmapF x y).2 = v at *
  have hden : den c u v * iden c x y = det c := by
    unfold den det iden at *
    linear_combination c[6] * e1 + c[7] * e2
  have hden0 : den c u v ≠ 0 := by
    intro e; rw [e, zero_mul] at hden; exact hd hden.symm
  rw [mapF_eq]
  refine Prod.ext ?_ ?_
  · show _ / _ = x
    rw [div_eq_iff hden0]
    apply mul_right_cancel₀ h
    unfold den iden at *
    linear_combination (c[0] - x * c[6]) * e1 + (c[1] - x * c[7]) * e2
  · show _ / _ = y
    rw [div_eq_iff hden0]
    apply mul_right_cancel₀ h
    unfold den iden at *
    linear_combination (c[3] - y * c[6]) * e1 + (c[4] - y * c[7]) * e2

/-- What `create` builds, by cross-multiplied equations. -/
structure Built (r : Vector Point 4) (w h : ℚ) (c : Perspective ℚ) : Prop where
  hw : w ≠ 0
  hh : h ≠ 0
  area : (area2 r[1] r[2] r[3] : ℚ) ≠ 0
  c2 : c[2] = r[0].x
  c5 : c[5] = r[0].y
  x1 : (c[0] * w + c[2]) * area2 r[1] r[2] r[3] = r[1].x * area2 r[0] r[2] r[3]
  y1 : (c[3] * w + c[5]) * area2 r[1] r[2] r[3] = r[1].y * area2 r[0] r[2] r[3]
  d1 : (c[6] * w + (1 : ℚ)) * area2 r[1] r[2] r[3] = area2 r[0] r[2] r[3]
  x3 : (c[1] * h + c[2]) * area2 r[1] r[2] r[3] = r[3].x * area2 r[0] r[1] r[2]
  y3 : (c[4] * h + c[5]) * area2 r[1] r[2] r[3] = r[3].y * area2 r[0] r[1] r[2]
  d3 : (c[7] * h + (1 : ℚ)) * area2 r[1] r[2] r[3] = area2 r[0] r[1] r[2]

/-- The body of `create` with the operations of the rationals, for given denominators. -/
def create (ε wden hden x0 y0 x1 y1 x2 y2 x3 y3 : ℚ) : Option (Perspective ℚ) :=
  if decide (wden < ε) || decide (hden < ε) then none
  else some
    #v[(x1 * (x2 * y3 - x3 * y2) + x0 * (-x2 * y3 + x3 * y2 + (x2 - x3) * y1) + x1 * (x3 - x2) * y0) / wden,
      -(x0 * (x2 * y3 + x1 * (y2 - y3) - x2 * y1) - x1 * x3 * y2 + x2 * x3 * y1 + (x1 * x3 - x2 * x3) * y0) / hden,
      x0,
      (y0 * (x1 * (y3 - y2) - x2 * y3 + x3 * y2) + y1 * (x2 * y3 - x3 * y2) + x0 * y1 * (y2 - y3)) / wden,
      (x0 * (y1 * y3 - y2 * y3) + x1 * y2 * y3 - x2 * y1 * y3 + y0 * (x3 * y2 - x1 * y2 + (x2 - x3) * y1)) / hden,
      y0,
      (x1 * (y3 - y2) + x0 * (y2 - y3) + (x2 - x3) * y1 + (x3 - x2) * y0) / wden,
      (-x2 * y3 + x1 * y3 + x3 * y2 + x0 * (y1 - y2) - x3 * y1 + (x2 - x1) * y0) / hden]

theorem area2_cast (a b c : Point) : (area2 a b c : ℚ) = (b.x - a.x) * (c.y - a.y) - (c.x - a.x) * (b.y - a.y) := by
  unfold area2; push_cast; ring

theorem create_raw (r : Vector Point 4) (w h wden hden : ℚ)
    (h1 : w * (r[2].x * r[3].y - r[3].x * r[2].y + (r[3].x - r[2].x) * r[1].y + r[1].x * (r[2].y - r[3].y)) = wden)
    (h2 : h * (r[2].x * r[3].y + r[1].x * (r[2].y - r[3].y) - r[3].x * r[2].y + (r[3].x - r[2].x) * r[1].y) = hden) :
    Perspective.create r w h = create FloatOps.epsilon wden hden r[0].x r[0].y r[1].x r[1].y r[2].x r[2].y r[3].x r[3].y := by
  subst h1 h2
  rfl

theorem create_eq (r : Vector Point 4) (w h : ℚ) :
    Perspective.create r w h = create FloatOps.epsilon (w * area2 r[1] r[2] r[3]) (h * area2 r[1] r[2] r[3])
      r[0].x r[0].y r[1].x r[1].y r[2].x r[2].y r[3].x r[3].y :=
  create_raw r w h _ _ (by rw [area2_cast]; ring) (by rw [area2_cast]; ring)

theorem eps_pos : (0 : ℚ) < FloatOps.epsilon := by show (0 : ℚ) < 1 / 2 ^ 52; norm_num

theorem create_none_iff (r : Vector Point 4) (w h : ℚ) : Perspective.create r w h = none ↔
    w * area2 r[1] r[2] r[3] < FloatOps.epsilon ∨ h * area2 r[1] r[2] r[3] < FloatOps.epsilon := by
  rw [create_eq]
  generalize (area2 r[1] r[2] r[3] : ℚ) = A
  generalize (FloatOps.epsilon : ℚ) = ε
  unfold create
  by_cases h1 : w * A < ε <;> by_cases h2 : h * A < ε <;> simp [h1, h2]

theorem create_some {r : Vector Point 4} {w h : ℚ} {c : Perspective ℚ} (hc : Perspective.create r w h = some c) :
    Built r w h c ∧ FloatOps.epsilon ≤ w * area2 r[1] r[2] r[3] ∧ FloatOps.epsilon ≤ h * area2 r[1] r[2] r[3] := by
  have f1 := area2_cast r[1] r[2] r[3]
  have f2 := area2_cast r[0] r[2] r[3]
  have f3 := area2_cast r[0] r[1] r[2]
  rw [create_eq] at hc
  have he := eps_pos
  generalize (FloatOps.epsilon : ℚ) = ε at *
  by_cases hn : w * (area2 r[1] r[2] r[3] : ℚ) < ε ∨ h * (area2 r[1] r[2] r[3] : ℚ) < ε
  · rw [create, if_pos (by rw [Bool.or_eq_true, decide_eq_true_eq, decide_eq_true_eq]; exact hn)] at hc; simp at hc
  rw [create, if_neg (by rw [Bool.or_eq_true, decide_eq_true_eq, decide_eq_true_eq]; exact hn)] at hc
  have hc := (Option.some.inj hc).symm
  subst hc
  have hn1 := not_lt.1 (fun h => hn (.inl h))
  have hn2 := not_lt.1 (fun h => hn (.inr h))
  refine ⟨?_, hn1, hn2⟩
  have hpw : 0 < w * (area2 r[1] r[2] r[3] : ℚ) := lt_of_lt_of_le he hn1
  have hph : 0 < h * (area2 r[1] r[2] r[3] : ℚ) := lt_of_lt_of_le he hn2
  have hw : w ≠ 0 := by rintro rfl; simp at hpw
  have hh : h ≠ 0 := by rintro rfl; simp at hph
  have hA : (area2 r[1] r[2] r[3] : ℚ) ≠ 0 := by intro e; rw [e, mul_zero] at hpw; exact lt_irrefl _ hpw
  have key : ∀ N b T : ℚ, N + b * (area2 r[1] r[2] r[3] : ℚ) = T →
      (N / (w * (area2 r[1] r[2] r[3] : ℚ)) * w + b) * (area2 r[1] r[2] r[3] : ℚ) = T := by
    intro N b T hT
    rw [← hT]; field_simp
  have key' : ∀ N b T : ℚ, N + b * (area2 r[1] r[2] r[3] : ℚ) = T →
      (N / (h * (area2 r[1] r[2] r[3] : ℚ)) * h + b) * (area2 r[1] r[2] r[3] : ℚ) = T := by
    intro N b T hT
    rw [← hT]; field_simp
  refine ⟨hw, hh, hA, rfl, rfl, key _ _ _ ?_, key _ _ _ ?_, key _ _ _ ?_, key' _ _ _ ?_, key' _ _ _ ?_, key' _ _ _ ?_⟩
  · rw [f1, f2]; simp only [Vector.getElem_mk, List.getElem_toArray, List.getElem_cons_zero, List.getElem_cons_succ]; ring
  · rw [f1, f2]; simp only [Vector.getElem_mk, List.getElem_toArray, List.getElem_cons_zero, List.getElem_cons_succ]; ring
  · rw [f1, f2]; ring
  · rw [f1, f3]; simp only [Vector.getElem_mk, List.getElem_toArray, List.getElem_cons_zero, List.getElem_cons_succ]; ring
  · rw [f1, f3]; simp only [Vector.getElem_mk, List.getElem_toArray, List.getElem_cons_zero, List.getElem_cons_succ]; ring
  · rw [f1, f3]; ring

theorem area2_sum (a b c d : Point) : area2 a b c + area2 a c d = area2 a b d + area2 b c d := by
  unfold area2; ring

theorem area2_moment (a b c d : Point) :
    b.x * area2 a c d + d.x * area2 a b c = a.x * area2 b c d + c.x * area2 a b d ∧
      b.y * area2 a c d + d.y * area2 a b c = a.y * area2 b c d + c.y * area2 a b d := by
  unfold area2; constructor <;> ring

variable {r : Vector Point 4} {w h : ℚ} {c : Perspective ℚ}

theorem Built.sum (_hb : Built r w h c) :
    (area2 r[0] r[1] r[2] : ℚ) + area2 r[0] r[2] r[3] = area2 r[0] r[1] r[3] + area2 r[1] r[2] r[3] := by
  exact_mod_cast area2_sum r[0] r[1] r[2] r[3]

theorem Built.momentX (_hb : Built r w h c) :
    (r[1].x : ℚ) * area2 r[0] r[2] r[3] + r[3].x * area2 r[0] r[1] r[2] =
      r[0].x * area2 r[1] r[2] r[3] + r[2].x * area2 r[0] r[1] r[3] := by
  exact_mod_cast (area2_moment r[0] r[1] r[2] r[3]).1

theorem Built.momentY (_hb : Built r w h c) :
    (r[1].y : ℚ) * area2 r[0] r[2] r[3] + r[3].y * area2 r[0] r[1] r[2] =
      r[0].y * area2 r[1] r[2] r[3] + r[2].y * area2 r[0] r[1] r[3] := by
  exact_mod_cast (area2_moment r[0] r[1] r[2] r[3]).2

/-- The weight of each corner at `(s * w, t * h)`. -/
def weight (r : Vector Point 4) (s t : ℚ) : Vector ℚ 4 :=
  #v[((1 : ℚ) - s) * ((1 : ℚ) - t) * area2 r[1] r[2] r[3], s * ((1 : ℚ) - t) * area2 r[0] r[2] r[3], s * t * area2 r[0] r[1] r[3],
    ((1 : ℚ) - s) * t * area2 r[0] r[1] r[2]]

theorem Built.den_eq (hb : Built r w h c) (s t : ℚ) : den c (s * w) (t * h) * area2 r[1] r[2] r[3] =
    (weight r s t)[0] + (weight r s t)[1] + (weight r s t)[2] + (weight r s t)[3] := by
  show den c (s * w) (t * h) * area2 r[1] r[2] r[3] = ((1 : ℚ) - s) * ((1 : ℚ) - t) * area2 r[1] r[2] r[3] +
    s * ((1 : ℚ) - t) * area2 r[0] r[2] r[3] + s * t * area2 r[0] r[1] r[3] + ((1 : ℚ) - s) * t * area2 r[0] r[1] r[2]
  unfold den
  linear_combination s * hb.d1 + t * hb.d3 + s * t * hb.sum

theorem Built.numX (hb : Built r w h c) (s t : ℚ) :
    (c[0] * (s * w) + c[1] * (t * h) + c[2]) * area2 r[1] r[2] r[3] =
    (weight r s t)[0] * r[0].x + (weight r s t)[1] * r[1].x + (weight r s t)[2] * r[2].x + (weight r s t)[3] * r[3].x := by
  show (c[0] * (s * w) + c[1] * (t * h) + c[2]) * area2 r[1] r[2] r[3] =
    ((1 : ℚ) - s) * ((1 : ℚ) - t) * area2 r[1] r[2] r[3] * r[0].x +
    s * ((1 : ℚ) - t) * area2 r[0] r[2] r[3] * r[1].x + s * t * area2 r[0] r[1] r[3] * r[2].x +
      ((1 : ℚ) - s) * t * area2 r[0] r[1] r[2] * r[3].x
  linear_combination s * hb.x1 + t * hb.x3 + s * t * hb.momentX +
    ((1 : ℚ) - s - t) * (area2 r[1] r[2] r[3] : ℚ) * hb.c2

theorem Built.numY (hb : Built r w h c) (s t : ℚ) :
    (c[3] * (s * w) + c[4] * (t * h) + c[5]) * area2 r[1] r[2] r[3] =
    (weight r s t)[0] * r[0].y + (weight r s t)[1] * r[1].y + (weight r s t)[2] * r[2].y + (weight r s t)[3] * r[3].y := by
  show (c[3] * (s * w) + c[4] * (t * h) + c[5]) * area2 r[1] r[2] r[3] =
    ((1 : ℚ) - s) * ((1 : ℚ) - t) * area2 r[1] r[2] r[3] * r[0].y +
    s * ((1 : ℚ) - t) * area2 r[0] r[2] r[3] * r[1].y + s * t * area2 r[0] r[1] r[3] * r[2].y +
      ((1 : ℚ) - s) * t * area2 r[0] r[1] r[2] * r[3].y
  linear_combination s * hb.y1 + t * hb.y3 + s * t * hb.momentY +
    ((1 : ℚ) - s - t) * (area2 r[1] r[2] r[3] : ℚ) * hb.c5

/-- The image of a point as a weighted mean of the corners. -/
theorem Built.map_eq (hb : Built r w h c) (s t : ℚ) :
    c.mapF (s * w) (t * h) =
      (((weight r s t)[0] * r[0].x + (weight r s t)[1] * r[1].x + (weight r s t)[2] * r[2].x + (weight r s t)[3] * r[3].x) /
        ((weight r s t)[0] + (weight r s t)[1] + (weight r s t)[2] + (weight r s t)[3]),
      ((weight r s t)[0] * r[0].y + (weight r s t)[1] * r[1].y + (weight r s t)[2] * r[2].y + (weight r s t)[3] * r[3].y) /
        ((weight r s t)[0] + (weight r s t)[1] + (weight r s t)[2] + (weight r s t)[3])) := by
  rw [mapF_eq, ← hb.den_eq, ← hb.numX, ← hb.numY, mul_div_mul_right _ _ hb.area, mul_div_mul_right _ _ hb.area]

theorem Built.det_eq (hb : Built r w h c) :
    det c * (w * h * area2 r[1] r[2] r[3] ^ 2) =
      area2 r[0] r[2] r[3] * area2 r[0] r[1] r[2] * area2 r[0] r[1] r[3] := by
  have e013 := area2_cast r[0] r[1] r[3]
  obtain ⟨_, _, _, c2, c5, x1, y1, d1, x3, y3, d3⟩ := hb
  rw [c2] at x1 x3
  rw [c5] at y1 y3
  unfold det
  rw [c2, c5]
  generalize (area2 r[1] r[2] r[3] : ℚ) = A at *
  generalize (area2 r[0] r[2] r[3] : ℚ) = B at *
  generalize (area2 r[0] r[1] r[2] : ℚ) = C at *
  rw [e013]
  generalize (r[0].x : ℚ) = X0 at *
  generalize (r[0].y : ℚ) = Y0 at *
  generalize (r[1].x : ℚ) = X1 at *
  generalize (r[1].y : ℚ) = Y1 at *
  generalize (r[3].x : ℚ) = X3 at *
  generalize (r[3].y : ℚ) = Y3 at *
  have a0 : c[0] * w * A = X1 * B - X0 * A := by linear_combination x1
  have a3 : c[3] * w * A = Y1 * B - Y0 * A := by linear_combination y1
  have a6 : c[6] * w * A = B - A := by linear_combination d1
  have a1 : c[1] * h * A = X3 * C - X0 * A := by linear_combination x3
  have a4 : c[4] * h * A = Y3 * C - Y0 * A := by linear_combination y3
  have a7 : c[7] * h * A = C - A := by linear_combination d3
  have : (c[0] * (c[4] - Y0 * c[7]) - c[1] * (c[3] - Y0 * c[6]) + X0 * (c[3] * c[7] - c[4] * c[6])) * (w * h * A ^ 2) =
      (c[0] * w * A) * (c[4] * h * A - Y0 * (c[7] * h * A)) - (c[1] * h * A) * (c[3] * w * A - Y0 * (c[6] * w * A)) +
        X0 * ((c[3] * w * A) * (c[7] * h * A) - (c[4] * h * A) * (c[6] * w * A)) := by ring
  rw [this, a0, a1, a3, a4, a6, a7]
  ring

theorem Built.det_ne (hb : Built r w h c) (hg : GeneralPosition r) : det c ≠ 0 := by
  obtain ⟨h1, h2, h3, h4⟩ := hg
  intro e
  have := hb.det_eq
  rw [e, zero_mul] at this
  have h1' : (area2 r[0] r[1] r[2] : ℚ) ≠ 0 := by exact_mod_cast h1
  have h2' : (area2 r[0] r[1] r[3] : ℚ) ≠ 0 := by exact_mod_cast h2
  have h3' : (area2 r[0] r[2] r[3] : ℚ) ≠ 0 := by exact_mod_cast h3
  exact mul_ne_zero (mul_ne_zero h3' h1') h2' this.symm

theorem map_corners (hb : Built r w h c) (hg : GeneralPosition r) :
    c.mapF 0 0 = ((r[0].x : ℚ), (r[0].y : ℚ)) ∧ c.mapF w 0 = ((r[1].x : ℚ), (r[1].y : ℚ)) ∧
      c.mapF w h = ((r[2].x : ℚ), (r[2].y : ℚ)) ∧ c.mapF 0 h = ((r[3].x : ℚ), (r[3].y : ℚ)) := by
  obtain ⟨h1, h2, h3, h4⟩ := hg
  have h1' : (area2 r[0] r[1] r[2] : ℚ) ≠ 0 := by exact_mod_cast h1
  have h2' : (area2 r[0] r[1] r[3] : ℚ) ≠ 0 := by exact_mod_cast h2
  have h3' : (area2 r[0] r[2] r[3] : ℚ) ≠ 0 := by exact_mod_cast h3
  have h4' : (area2 r[1] r[2] r[3] : ℚ) ≠ 0 := by exact_mod_cast h4
  have q : ∀ s t : ℚ, c.mapF (s * w) (t * h) =
      ((((1 : ℚ) - s) * ((1 : ℚ) - t) * area2 r[1] r[2] r[3] * r[0].x + s * ((1 : ℚ) - t) * area2 r[0] r[2] r[3] * r[1].x +
        s * t * area2 r[0] r[1] r[3] * r[2].x + ((1 : ℚ) - s) * t * area2 r[0] r[1] r[2] * r[3].x) /
        (((1 : ℚ) - s) * ((1 : ℚ) - t) * area2 r[1] r[2] r[3] + s * ((1 : ℚ) - t) * area2 r[0] r[2] r[3] + s * t * area2 r[0] r[1] r[3] +
          ((1 : ℚ) - s) * t * area2 r[0] r[1] r[2]),
       (((1 : ℚ) - s) * ((1 : ℚ) - t) * area2 r[1] r[2] r[3] * r[0].y + s * ((1 : ℚ) - t) * area2 r[0] r[2] r[3] * r[1].y +
        s * t * area2 r[0] r[1] r[3] * r[2].y + ((1 : ℚ) - s) * t * area2 r[0] r[1] r[2] * r[3].y) /
        (((1 : ℚ) - s) * ((1 : ℚ) - t) * area2 r[1] r[2] r[3] + s * ((1 : ℚ) - t) * area2 r[0] r[2] r[3] + s * t * area2 r[0] r[1] r[3] +
          ((1 : ℚ) - s) * t * area2 r[0] r[1] r[2])) := fun s t => hb.map_eq s t
  refine ⟨?_, ?_, ?_, ?_⟩
  · have := q 0 0
    simp only [zero_mul, mul_zero, sub_zero, one_mul, add_zero, zero_add, mul_one] at this
    rw [this, mul_div_cancel_left₀ _ h4', mul_div_cancel_left₀ _ h4']
  · have := q 1 0
    simp only [zero_mul, mul_zero, sub_zero, one_mul, add_zero, zero_add, mul_one, sub_self] at this
    rw [this, mul_div_cancel_left₀ _ h3', mul_div_cancel_left₀ _ h3']
  · have := q 1 1
    simp only [zero_mul, mul_zero, one_mul, add_zero, zero_add, mul_one, sub_self] at this
    rw [this, mul_div_cancel_left₀ _ h2', mul_div_cancel_left₀ _ h2']
  · have := q 0 1
    simp only [zero_mul, mul_zero, sub_zero, one_mul, add_zero, zero_add, mul_one, sub_self] at this
    rw [this, mul_div_cancel_left₀ _ h1', mul_div_cancel_left₀ _ h1']

/-! ### Rounding -/

theorem nearest_int (z : Int) : nearest (z : ℚ) = z := by
  unfold nearest
  split
  · rw [Int.floor_eq_iff]; constructor <;> norm_num
  · rw [Int.ceil_eq_iff]; constructor <;> norm_num

theorem truncate_int (z : Int) : truncate (z : ℚ) = z := by
  unfold truncate
  split
  · exact Int.floor_intCast z
  · exact Int.ceil_intCast z

theorem map_ok {c : Perspective ℚ} {u v : ℚ} (h1 : -(2 ^ 31) ≤ nearest (c.mapF u v).1) (h2 : nearest (c.mapF u v).1 < 2 ^ 31)
    (h3 : -(2 ^ 31) ≤ nearest (c.mapF u v).2) (h4 : nearest (c.mapF u v).2 < 2 ^ 31) :
    c.map u v = .ok { x := nearest (c.mapF u v).1, y := nearest (c.mapF u v).2 } := by
  show (do
    Run.assert (FloatOps.le (FloatOps.round (c.mapF u v).1) (FloatOps.ofInt 2147483647))
    Run.assert (FloatOps.le (FloatOps.ofInt (-2147483648)) (FloatOps.round (c.mapF u v).1))
    Run.assert (FloatOps.le (FloatOps.round (c.mapF u v).2) (FloatOps.ofInt 2147483647))
    Run.assert (FloatOps.le (FloatOps.ofInt (-2147483648)) (FloatOps.round (c.mapF u v).2))
    pure { x := FloatOps.toI32 (FloatOps.round (c.mapF u v).1), y := FloatOps.toI32 (FloatOps.round (c.mapF u v).2) } : Run Point)
    = _
  have hle : ∀ z : Int, z < 2 ^ 31 → FloatOps.le (z : ℚ) (FloatOps.ofInt 2147483647) = true := by
    intro z hz
    show decide ((z : ℚ) ≤ ((2147483647 : Int) : ℚ)) = true
    rw [decide_eq_true_eq]
    exact_mod_cast (by omega : z ≤ 2147483647)
  have hge : ∀ z : Int, -(2 ^ 31) ≤ z → FloatOps.le (FloatOps.ofInt (-2147483648)) (z : ℚ) = true := by
    intro z hz
    show decide (((-2147483648 : Int) : ℚ) ≤ (z : ℚ)) = true
    rw [decide_eq_true_eq]
    exact_mod_cast (by omega : (-2147483648 : Int) ≤ z)
  have hto : ∀ z : Int, -(2 ^ 31) ≤ z → z < 2 ^ 31 → FloatOps.toI32 (z : ℚ) = z := by
    intro z hz hz'
    show saturate (-(2 ^ 31)) (2 ^ 31 - 1) (truncate (z : ℚ)) = z
    rw [truncate_int]
    unfold saturate
    omega
  rw [show FloatOps.round (c.mapF u v).1 = ((nearest (c.mapF u v).1 : Int) : ℚ) from rfl,
    show FloatOps.round (c.mapF u v).2 = ((nearest (c.mapF u v).2 : Int) : ℚ) from rfl]
  generalize nearest (c.mapF u v).1 = X at *
  generalize nearest (c.mapF u v).2 = Y at *
  rw [hle X h2, hge X h1, hle Y h4, hge Y h3, hto X h1 h2, hto Y h3 h4]
  rfl

/-- Rounding stays between integer bounds. -/
theorem nearest_mem {x : ℚ} {lo hi : Int} (h1 : (lo : ℚ) ≤ x) (h2 : x ≤ hi) : lo ≤ nearest x ∧ nearest x ≤ hi := by
  unfold nearest
  split
  · constructor
    · rw [Int.le_floor]; linarith
    · have : ⌊x + 1 / 2⌋ < hi + 1 := by rw [Int.floor_lt]; push_cast; linarith
      omega
  · constructor
    · have : lo - 1 < ⌈x - 1 / 2⌉ := by rw [Int.lt_ceil]; push_cast; linarith
      omega
    · rw [Int.ceil_le]; linarith

end Exact

end Rqrr
