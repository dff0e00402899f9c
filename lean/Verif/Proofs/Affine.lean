import Verif.Proofs.Perspective
import Verif.Model.Identify
import Mathlib.Tactic.IntervalCases

/-!
# Affine transforms, in exact arithmetic
-/

namespace Rqrr

open Spec

/-- The transform `(u, v) ↦ p + u e + v f`. -/
def affine (ex fx px ey fy py : ℚ) : Perspective ℚ := #v[ex, fx, px, ey, fy, py, 0, 0]

theorem affine_mapF (ex fx px ey fy py u v : ℚ) :
    (affine ex fx px ey fy py).mapF u v = (ex * u + fx * v + px, ey * u + fy * v + py) := by
  rw [Exact.mapF_eq]
  have hd : Exact.den (affine ex fx px ey fy py) u v = 1 := by
    show (0 : ℚ) * u + (0 : ℚ) * v + (1 : ℚ) = 1
    ring
  rw [hd, div_one, div_one]
  rfl

theorem affine_unmapF {ex fx px ey fy py : ℚ} (hd : ex * fy - fx * ey ≠ 0) (u v : ℚ) :
    (affine ex fx px ey fy py).unmapF (ex * u + fx * v + px) (ey * u + fy * v + py) = (u, v) := by
  have h1 : Exact.den (affine ex fx px ey fy py) u v ≠ 0 := by
    have hd : Exact.den (affine ex fx px ey fy py) u v = 1 := by
      show (0 : ℚ) * u + (0 : ℚ) * v + (1 : ℚ) = 1
      ring
    rw [hd]; norm_num
  have h2 : Exact.det (affine ex fx px ey fy py) ≠ 0 := by
    have : Exact.det (affine ex fx px ey fy py) = ex * fy - fx * ey := by
      show ex * (fy - py * (0 : ℚ)) - fx * (ey - py * (0 : ℚ)) + px * (ey * (0 : ℚ) - fy * (0 : ℚ)) = _
      ring
    rw [this]; exact hd
  have := Exact.unmap_map (affine ex fx px ey fy py) h1 h2
  rwa [affine_mapF] at this

/-- The transform of a parallelogram is affine. -/
theorem create_parallelogram {r : Vector Point 4} {w : ℚ} (hw : 1 ≤ w) (hx : r[0].x + r[2].x = r[1].x + r[3].x)
    (hy : r[0].y + r[2].y = r[1].y + r[3].y) (ha : 0 < area2 r[1] r[2] r[3]) :
    Perspective.create r w w = some (affine ((r[1].x - r[0].x) / w) ((r[3].x - r[0].x) / w) r[0].x
      ((r[1].y - r[0].y) / w) ((r[3].y - r[0].y) / w) r[0].y) := by
  have hA : (1 : ℚ) ≤ area2 r[1] r[2] r[3] := by exact_mod_cast (by omega : 1 ≤ area2 r[1] r[2] r[3])
  cases hc : Perspective.create r w w with
  | none =>
    exfalso
    have he : (FloatOps.epsilon : ℚ) < 1 := by show (1 : ℚ) / 2 ^ 52 < 1; norm_num
    rw [Exact.create_none_iff] at hc
    generalize (FloatOps.epsilon : ℚ) = ε at *
    rcases hc with hc | hc <;> nlinarith
  | some c =>
    obtain ⟨b, -⟩ := Exact.create_some hc
    have e1 : area2 r[0] r[2] r[3] = area2 r[1] r[2] r[3] := by
      unfold area2
      have hx' : r[2].x = r[1].x + r[3].x - r[0].x := by omega
      have hy' : r[2].y = r[1].y + r[3].y - r[0].y := by omega
      rw [hx', hy']; ring
    have e2 : area2 r[0] r[1] r[2] = area2 r[1] r[2] r[3] := by
      unfold area2
      have hx' : r[2].x = r[1].x + r[3].x - r[0].x := by omega
      have hy' : r[2].y = r[1].y + r[3].y - r[0].y := by omega
      rw [hx', hy']; ring
    have hA0 : (area2 r[1] r[2] r[3] : ℚ) ≠ 0 := by linarith
    have hw0 : w ≠ 0 := by linarith
    have x1 := b.x1
    have y1 := b.y1
    have d1 := b.d1
    have x3 := b.x3
    have y3 := b.y3
    have d3 := b.d3
    rw [e1] at x1 y1 d1
    rw [e2] at x3 y3 d3
    have x1 := mul_right_cancel₀ hA0 x1
    have y1 := mul_right_cancel₀ hA0 y1
    have x3 := mul_right_cancel₀ hA0 x3
    have y3 := mul_right_cancel₀ hA0 y3
    have d1 := mul_right_cancel₀ hA0 (d1.trans (one_mul _).symm)
    have d3 := mul_right_cancel₀ hA0 (d3.trans (one_mul _).symm)
    have c2 := b.c2
    have c5 := b.c5
    rw [c2] at x1 x3
    rw [c5] at y1 y3
    congr 1
    refine Vector.ext ?_
    intro i hi
    interval_cases i
    · show c[0] = _ / w
      rw [eq_div_iff hw0]; linarith
    · show c[1] = _ / w
      rw [eq_div_iff hw0]; linarith
    · exact c2
    · show c[3] = _ / w
      rw [eq_div_iff hw0]; linarith
    · show c[4] = _ / w
      rw [eq_div_iff hw0]; linarith
    · exact c5
    · show c[6] = 0
      have : c[6] * w = 0 := by linarith
      exact (mul_eq_zero.1 this).resolve_right hw0
    · show c[7] = 0
      have : c[7] * w = 0 := by linarith
      exact (mul_eq_zero.1 this).resolve_right hw0

/-- Rounding, characterised: within one half, strictly so above. -/
theorem nearest_eq {x : ℚ} {n : Int} (h1 : (n : ℚ) - 1 / 2 < x) (h2 : x < n + 1 / 2) : nearest x = n := by
  unfold nearest
  split
  · rw [Int.floor_eq_iff]; constructor <;> linarith
  · rw [Int.ceil_eq_iff]; constructor <;> linarith

theorem nearest_between {x : ℚ} {a b : Int} (h1 : (a : ℚ) - 1 / 2 < x) (h2 : x < b + 1 / 2) : a ≤ nearest x ∧ nearest x ≤ b := by
  unfold nearest
  split
  · constructor
    · rw [Int.le_floor]; linarith
    · have : ⌊x + 1 / 2⌋ < b + 1 := by rw [Int.floor_lt]; push_cast; linarith
      omega
  · constructor
    · have : a - 1 < ⌈x - 1 / 2⌉ := by rw [Int.lt_ceil]; push_cast; linarith
      omega
    · rw [Int.ceil_le]; linarith

/-- Halves of positive numbers round up. -/
theorem nearest_half {n : Int} (hn : 0 ≤ n) : nearest ((n : ℚ) / 2) = (n + 1) / 2 := by
  unfold nearest
  rw [if_pos (by positivity), Int.floor_eq_iff]
  rcases Int.even_or_odd' n with ⟨k, rfl | rfl⟩
  · rw [show (2 * k + 1) / 2 = k by omega]; push_cast; constructor <;> linarith
  · rw [show (2 * k + 1 + 1) / 2 = k + 1 by omega]; push_cast; constructor <;> linarith

/-- A point between moderate bounds is no overflow. -/
theorem affine_map {ex fx px ey fy py u v : ℚ} (h1 : -2000000000 ≤ ex * u + fx * v + px) (h2 : ex * u + fx * v + px ≤ 2000000000)
    (h3 : -2000000000 ≤ ey * u + fy * v + py) (h4 : ey * u + fy * v + py ≤ 2000000000) :
    (affine ex fx px ey fy py).map u v = .ok ⟨nearest (ex * u + fx * v + px), nearest (ey * u + fy * v + py)⟩ := by
  have k1 := Exact.nearest_mem (lo := -2000000000) (hi := 2000000000) (by push_cast; exact h1) (by push_cast; exact h2)
  have k2 := Exact.nearest_mem (lo := -2000000000) (hi := 2000000000) (by push_cast; exact h3) (by push_cast; exact h4)
  rw [Exact.map_ok] <;> rw [affine_mapF]
  all_goals dsimp only
  all_goals omega

end Rqrr
