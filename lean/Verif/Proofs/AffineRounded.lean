import Verif.Proofs.CreateRounded
import Verif.Proofs.Affine

/-!
# Affine transforms, rounded
-/

namespace Rqrr

open Spec Rounding

variable {F : Type} [FloatOps F] [Rounding F]

/-- Approximately the transform `(u, v) ↦ p + u e + v f`, with coefficients up to `T` and `p` up to `Q`. -/
structure Aff (c : Perspective F) (ex fx px ey fy py T Q : ℚ) : Prop where
  c0 : Sc c[0] ex T 1
  c1 : Sc c[1] fx T 1
  c2 : Sc c[2] px Q 1
  c3 : Sc c[3] ey T 1
  c4 : Sc c[4] fy T 1
  c5 : Sc c[5] py Q 1
  c6 : Is c[6] 0
  c7 : Is c[7] 0

theorem sc_rnd {x : F} {q S : ℚ} (h : Is x (rnd F q)) (hq : |q| ≤ S) (h1 : 1 ≤ S) (h2 : S ≤ 2 ^ 100) : Sc x q S 1 := by
  have := Sc.of_rnd (F := F) (q := q) (S := S) (k := 0) h (by simp) hq h1 h2 (le_refl _) (by norm_num)
  rwa [zero_add] at this

theorem rnd_zero : rnd F 0 = 0 := by exact_mod_cast rnd_int (F := F) 0 (by norm_num)

theorem Rounded.aff {c : Perspective F} {ex fx px ey fy py T Q : ℚ} (h : Rounded c (affine ex fx px ey fy py)) (h1 : 1 ≤ T) (h2 : T ≤ 2 ^ 100)
    (q1 : 1 ≤ Q) (q2 : Q ≤ 2 ^ 100) (b0 : |ex| ≤ T) (b1 : |fx| ≤ T) (b2 : |px| ≤ Q) (b3 : |ey| ≤ T) (b4 : |fy| ≤ T) (b5 : |py| ≤ Q) :
    Aff c ex fx px ey fy py T Q where
  c0 := sc_rnd (h 0 (by decide)) b0 h1 h2
  c1 := sc_rnd (h 1 (by decide)) b1 h1 h2
  c2 := sc_rnd (h 2 (by decide)) b2 q1 q2
  c3 := sc_rnd (h 3 (by decide)) b3 h1 h2
  c4 := sc_rnd (h 4 (by decide)) b4 h1 h2
  c5 := sc_rnd (h 5 (by decide)) b5 q1 q2
  c6 := by
    have := h 6 (by decide)
    rw [show (affine ex fx px ey fy py)[6] = 0 from rfl, rnd_zero] at this
    exact this
  c7 := by
    have := h 7 (by decide)
    rw [show (affine ex fx px ey fy py)[7] = 0 from rfl, rnd_zero] at this
    exact this

theorem Aff.mapF {c : Perspective F} {ex fx px ey fy py T Q : ℚ} (h : Aff c ex fx px ey fy py T Q) {u v : F} {U V L : ℚ} {k : ℚ}
    (hu : Sc u U L k) (hv : Sc v V L k) (hk : 2 * k + 10 ≤ 2 ^ 20) (hS : T * L + T * L + Q ≤ 2 ^ 100) :
    Sc (c.mapF u v).1 (ex * U + fx * V + px) (T * L + T * L + Q) (2 * k + 10) ∧
    Sc (c.mapF u v).2 (ey * U + fy * V + py) (T * L + T * L + Q) (2 * k + 10) := by
  have hk0 := hu.k0
  have hT := h.c0.one
  have hL := hu.one
  have hQ := h.c2.one
  have hTL : 1 ≤ T * L := by nlinarith
  have hd : Is (FloatOps.add (FloatOps.add (FloatOps.mul c[6] u) (FloatOps.mul c[7] v)) (FloatOps.lit 1 0)) 1 := by
    have h1 := is_zero_add (hu.zero_mul h.c6) (hv.zero_mul h.c7)
    have h2 : IntB (FloatOps.lit 1 0 : F) 1 1 := IntB.lit (m := 1) (by norm_num) (by norm_num)
    have := IntB.add (x := FloatOps.add (FloatOps.mul c[6] u) (FloatOps.mul c[7] v)) (m := 0) (A := 1) ⟨by exact_mod_cast h1, by norm_num⟩ h2 (by norm_num)
    have := this.1
    rw [show (((0 : Int) + 1 : Int) : ℚ) = 1 by norm_num] at this
    exact this
  constructor
  · have := (((h.c0.mul hu (by linarith) (by linarith)).add (h.c1.mul hv (by linarith) (by linarith)) (by linarith) (by linarith)).add h.c2
      (by linarith) (by linarith)).div_one hd (by linarith)
    refine this.mono (le_refl _) ?_ hS hk
    linarith
  · have := (((h.c3.mul hu (by linarith) (by linarith)).add (h.c4.mul hv (by linarith) (by linarith)) (by linarith) (by linarith)).add h.c5
      (by linarith) (by linarith)).div_one hd (by linarith)
    refine this.mono (le_refl _) ?_ hS hk
    linarith

/-- Rounding to a pixel. -/
theorem map_rounded {c : Perspective F} {u v : F} {x y : ℚ} (hx : Is (c.mapF u v).1 x) (hy : Is (c.mapF u v).2 y)
    (h1 : |x| ≤ 2000000000) (h2 : |y| ≤ 2000000000) : c.map u v = .ok ⟨nearest x, nearest y⟩ := by
  obtain ⟨a1, a2⟩ := abs_le.1 h1
  obtain ⟨b1, b2⟩ := abs_le.1 h2
  have k1 := Exact.nearest_mem (lo := -2000000000) (hi := 2000000000) (by push_cast; exact a1) (by push_cast; exact a2)
  have k2 := Exact.nearest_mem (lo := -2000000000) (hi := 2000000000) (by push_cast; exact b1) (by push_cast; exact b2)
  have hi : IntB (FloatOps.ofInt 2147483647 : F) 2147483647 2147483647 := .ofInt (by norm_num) (by norm_num)
  have lo : IntB (FloatOps.ofInt (-2147483648) : F) (-2147483648) 2147483648 := .ofInt (by norm_num) (by norm_num)
  have rx := Rounding.round hx
  have ry := Rounding.round hy
  unfold Perspective.map
  dsimp only
  rw [Rounding.le rx hi.1, Rounding.le lo.1 rx, Rounding.le ry hi.1, Rounding.le lo.1 ry]
  rw [decide_eq_true (by exact_mod_cast (by omega : nearest x ≤ 2147483647)), decide_eq_true (by exact_mod_cast (by omega : -2147483648 ≤ nearest x)),
    decide_eq_true (by exact_mod_cast (by omega : nearest y ≤ 2147483647)), decide_eq_true (by exact_mod_cast (by omega : -2147483648 ≤ nearest y))]
  rw [Rounding.toI32 rx, Rounding.toI32 ry, Exact.truncate_int, Exact.truncate_int]
  show Except.ok _ = _
  congr 2 <;> unfold saturate <;> omega

/-- Where a point is taken, up to an error of an 80th of a pixel before rounding. -/
theorem Aff.map {c : Perspective F} {ex fx px ey fy py T Q : ℚ} (h : Aff c ex fx px ey fy py T Q) {u v : F} {U V L : ℚ} {k : ℚ}
    (hu : Sc u U L k) (hv : Sc v V L k) (hk : k ≤ 10000) (hS : (T * L + T * L + Q) ≤ 1000000000) (he : (T * L + T * L + Q) * (2 * k + 10) ≤ 10000000000000) :
    ∃ x y, c.map u v = .ok ⟨nearest x, nearest y⟩ ∧ |x - (ex * U + fx * V + px)| ≤ 1 / 80 ∧ |y - (ey * U + fy * V + py)| ≤ 1 / 80 := by
  have hT := h.c0.one
  have hL := hu.one
  have hQ := h.c2.one
  have hk0 := hu.k0
  have hk1 := hu.k1
  have hTL : 1 ≤ T * L := by nlinarith
  obtain ⟨sx, sy⟩ := h.mapF hu hv (by linarith) (by linarith)
  obtain ⟨x, hx, ex'⟩ := sx.ex
  obtain ⟨y, hy, ey'⟩ := sy.ex
  have e : (T * L + T * L + Q) * ((2 * k + 10) / 2 ^ 50) ≤ 1 / 80 := by
    rw [← mul_div_assoc, div_le_iff₀ (by norm_num)]
    refine he.trans (by norm_num)
  have ex' := ex'.trans e
  have ey' := ey'.trans e
  refine ⟨x, y, map_rounded hx hy ?_ ?_, ex', ey'⟩
  · have := sx.le
    have t := abs_add_le (x - (ex * U + fx * V + px)) (ex * U + fx * V + px)
    rw [sub_add_cancel] at t
    linarith
  · have := sy.le
    have t := abs_add_le (y - (ey * U + fy * V + py)) (ey * U + fy * V + py)
    rw [sub_add_cancel] at t
    linarith

/-- Back from a pixel. -/
theorem Aff.unmap {c : Perspective F} {ex fx px ey fy py t Q : ℚ} (h : Aff c ex fx px ey fy py t Q) (hd : ex * fy - fx * ey = t * t)
    (ht : t ≤ 32768) (hQ : Q ≤ 1000000) (htQ : t ≤ Q) {p : Point} (hx : |(p.x : ℚ)| ≤ Q) (hy : |(p.y : ℚ)| ≤ Q) :
    Sc (c.unmap p).1 ((fy * (p.x - px) - fx * (p.y - py)) / (t * t)) (8 * Q / t) 113 ∧
    Sc (c.unmap p).2 ((ex * (p.y - py) - ey * (p.x - px)) / (t * t)) (8 * Q / t) 113 := by
  have h1 := h.c0.one
  have q1 := h.c2.one
  have X : Sc (FloatOps.ofInt p.x : F) p.x Q 0 := .ofInt hx q1 (by linarith)
  have Y : Sc (FloatOps.ofInt p.y : F) p.y Q 0 := .ofInt hy q1 (by linarith)
  have htt : t * t ≤ 32768 * 32768 := by nlinarith
  have htQ' : t * Q ≤ 32768 * 1000000 := by nlinarith
  have hQt : Q * t ≤ 32768 * 1000000 := by nlinarith
  have z1 : Is (FloatOps.add (FloatOps.add (FloatOps.mul (FloatOps.mul (FloatOps.neg c[0]) c[7]) (FloatOps.ofInt p.y))
      (FloatOps.mul (FloatOps.mul c[1] c[6]) (FloatOps.ofInt p.y)))
      (FloatOps.mul (FloatOps.sub (FloatOps.mul c[3] c[7]) (FloatOps.mul c[4] c[6])) (FloatOps.ofInt p.x))) 0 :=
    is_zero_add (is_zero_add (Y.zero_mul (h.c0.neg.mul_zero h.c7)) (Y.zero_mul (h.c1.mul_zero h.c6)))
      (X.zero_mul (is_zero_sub (h.c3.mul_zero h.c7) (h.c4.mul_zero h.c6)))
  have den := ((h.c0.mul h.c4 (by linarith) (by norm_num)).zero_add z1 (by norm_num)).sub (h.c1.mul h.c3 (by linarith) (by norm_num))
    (by linarith) (by norm_num)
  have hq : (t * t + t * t) / 4 ≤ |ex * fy - fx * ey| := by
    rw [hd, abs_of_nonneg (by nlinarith)]; nlinarith
  have t0 : (0 : ℚ) < t := by linarith
  have s1 : 4 * (t * (Q + Q) + t * Q + Q * t) / (t * t + t * t) = 8 * Q / t := by
    field_simp; ring
  have hS1 : 1 ≤ 8 * Q / t := by rw [le_div_iff₀ t0]; linarith
  have hS2 : 8 * Q / t ≤ 2 ^ 100 := by
    rw [div_le_iff₀ t0]; linarith
  constructor
  · have num := ((((h.c1.mul (Y.sub h.c5 (by linarith) (by norm_num)) (by linarith) (by norm_num)).sub_zero
      (Y.zero_mul (h.c2.mul_zero h.c7)) (by norm_num)).add (((h.c4.zero_sub (h.c5.mul_zero h.c7) (by norm_num)).mul X (by linarith) (by norm_num)))
      (by linarith) (by norm_num)).add (h.c2.mul h.c4 (by linarith) (by norm_num)) (by linarith) (by norm_num)).neg
    have := num.div den hq (by rw [s1]; exact hS1) (by rw [s1]; exact hS2) (by norm_num)
    rw [s1, hd] at this
    have e : -(fx * (p.y - py) + -fy * p.x + px * fy) = fy * (p.x - px) - fx * (p.y - py) := by ring
    rw [e] at this
    exact this.mono (le_refl _) (by norm_num) hS2 (by norm_num)
  · have num := (((h.c0.mul (Y.sub h.c5 (by linarith) (by norm_num)) (by linarith) (by norm_num)).sub_zero
      (Y.zero_mul (h.c2.mul_zero h.c6)) (by norm_num)).add (((h.c3.zero_sub (h.c5.mul_zero h.c6) (by norm_num)).mul X (by linarith) (by norm_num)))
      (by linarith) (by norm_num)).add (h.c2.mul h.c3 (by linarith) (by norm_num)) (by linarith) (by norm_num)
    have := num.div den hq (by rw [s1]; exact hS1) (by rw [s1]; exact hS2) (by norm_num)
    rw [s1, hd] at this
    have e : ex * (p.y - py) + -ey * p.x + px * ey = ex * (p.y - py) - ey * (p.x - px) := by ring
    rw [e] at this
    exact this.mono (le_refl _) (by norm_num) hS2 (by norm_num)

end Rqrr
