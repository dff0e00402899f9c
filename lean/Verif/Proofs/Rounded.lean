import Verif.Spec.Rounding
import Verif.Model.Geometry
import Mathlib.Tactic.Linarith
import Mathlib.Tactic.NormNum
import Mathlib.Tactic.Ring
import Mathlib.Tactic.FieldSimp

/-!
# Error bounds
-/

namespace Rqrr

open Spec Rounding

variable {F : Type} [FloatOps F] [Rounding F]

/-! ### Integers -/

/-- An integer of at most this magnitude. -/
def IntB (x : F) (n B : Int) : Prop := Is x (n : ℚ) ∧ |n| ≤ B

theorem intB_of {x : F} {n B : Int} {q : ℚ} (h : Is x (rnd F q)) (e : q = n) (hn : |n| ≤ B) (hB : B ≤ 2 ^ 53) : IntB x n B := by
  rw [e, rnd_int n (hn.trans hB)] at h
  exact ⟨h, hn⟩

theorem cast_le {n : Int} {B : Int} (hn : |n| ≤ B) (hB : B ≤ 2 ^ 53) : |(n : ℚ)| ≤ 2 ^ 200 := by
  have : |(n : ℚ)| ≤ 2 ^ 53 := by exact_mod_cast hn.trans hB
  exact this.trans (by norm_num)

theorem IntB.ofInt {i B : Int} (h : |i| ≤ B) (hB : B ≤ 2 ^ 53) : IntB (FloatOps.ofInt i : F) i B :=
  intB_of (Rounding.ofInt i ((h.trans hB).trans (by norm_num))) rfl h hB

theorem IntB.lit {m : Nat} {B : Int} (h : (m : Int) ≤ B) (hB : B ≤ 2 ^ 53) : IntB (FloatOps.lit m 0 : F) m B := by
  have hm : |(m : Int)| ≤ B := by rw [abs_of_nonneg (by positivity)]; exact h
  refine intB_of (Rounding.lit m 0 ?_) (by simp) hm hB
  have := cast_le hm hB
  rw [abs_of_nonneg (by positivity)] at this
  simpa using this

theorem IntB.add {x y : F} {m n A B : Int} (hx : IntB x m A) (hy : IntB y n B) (h : A + B ≤ 2 ^ 53) : IntB (FloatOps.add x y) (m + n) (A + B) := by
  have hb : |m + n| ≤ A + B := (abs_add_le m n).trans (add_le_add hx.2 hy.2)
  refine intB_of (Rounding.add hx.1 hy.1 ?_) (by push_cast; rfl) hb h
  exact_mod_cast cast_le hb h

theorem IntB.sub {x y : F} {m n A B : Int} (hx : IntB x m A) (hy : IntB y n B) (h : A + B ≤ 2 ^ 53) : IntB (FloatOps.sub x y) (m - n) (A + B) := by
  have hb : |m - n| ≤ A + B := (abs_sub m n).trans (add_le_add hx.2 hy.2)
  refine intB_of (Rounding.sub hx.1 hy.1 ?_) (by push_cast; rfl) hb h
  exact_mod_cast cast_le hb h

theorem IntB.mul {x y : F} {m n A B : Int} (hx : IntB x m A) (hy : IntB y n B) (h : A * B ≤ 2 ^ 53) : IntB (FloatOps.mul x y) (m * n) (A * B) := by
  have hb : |m * n| ≤ A * B := by
    rw [abs_mul]; exact mul_le_mul hx.2 hy.2 (abs_nonneg _) ((abs_nonneg _).trans hx.2)
  refine intB_of (Rounding.mul hx.1 hy.1 ?_) (by push_cast; rfl) hb h
  exact_mod_cast cast_le hb h

theorem IntB.neg {x : F} {m A : Int} (hx : IntB x m A) : IntB (FloatOps.neg x) (-m) A := by
  refine ⟨?_, by rw [abs_neg]; exact hx.2⟩
  have := Rounding.neg hx.1
  push_cast; exact this

theorem IntB.div {x y : F} {m n A B : Int} (hx : IntB x m A) (hy : IntB y n B) (hn : 0 < n) (hA : A ≤ 2 ^ 53) :
    Is (FloatOps.div x y) (rnd F ((m : ℚ) / n)) := by
  have hn' : (1 : ℚ) ≤ n := by exact_mod_cast hn
  refine Rounding.div hx.1 hy.1 (by linarith) ?_
  rw [abs_div, abs_of_pos (show (0 : ℚ) < n by linarith)]
  exact (div_le_self (abs_nonneg _) hn').trans (cast_le hx.2 hA)

/-! ### Errors relative to a scale -/

/-- Approximately `q`: off by at most `k` times the fraction `2^-50` of `S`, which bounds `q`. -/
structure Sc (x : F) (q S k : ℚ) : Prop where
  ex : ∃ r, Is x r ∧ |r - q| ≤ S * (k / 2 ^ 50)
  le : |q| ≤ S
  one : 1 ≤ S
  big : S ≤ 2 ^ 100
  k0 : 0 ≤ k
  k1 : k ≤ 2 ^ 20

theorem Sc.exact {x : F} {q S : ℚ} (h : Is x q) (hq : |q| ≤ S) (h1 : 1 ≤ S) (h2 : S ≤ 2 ^ 100) : Sc x q S 0 :=
  ⟨⟨q, h, by simp⟩, hq, h1, h2, le_refl _, by norm_num⟩

/-- The error of rounding. -/
theorem rnd_err {r q S k : ℚ} (hr : |r - q| ≤ S * (k / 2 ^ 50)) (hq : |q| ≤ S) (h1 : 1 ≤ S) (k1 : k ≤ 2 ^ 40) :
    |rnd F r - q| ≤ S * ((k + 1) / 2 ^ 50) ∧ |r| ≤ 2 * S := by
  have hS : S * (k / 2 ^ 50) ≤ S := by
    rw [← mul_one S, mul_assoc, one_mul]
    refine mul_le_mul_of_nonneg_left ?_ (by linarith)
    rw [div_le_one (by norm_num)]; exact k1.trans (by norm_num)
  have h2 : |r| ≤ 2 * S := by
    have : |r| ≤ |r - q| + |q| := by
      have := abs_add_le (r - q) q
      rwa [sub_add_cancel] at this
    linarith
  refine ⟨?_, h2⟩
  have h3 := rnd_near (F := F) r
  have h4 : |rnd F r - q| ≤ |rnd F r - r| + |r - q| := by
    have := abs_add_le (rnd F r - r) (r - q)
    rwa [sub_add_sub_cancel] at this
  have h5 : |r| / 2 ^ 53 ≤ 2 * S / 2 ^ 53 := div_le_div_of_nonneg_right h2 (by norm_num)
  have h6 : (1 : ℚ) / 2 ^ 200 ≤ S / 2 ^ 53 := by
    have : (1 : ℚ) / 2 ^ 200 ≤ 1 / 2 ^ 53 := by norm_num
    exact this.trans (div_le_div_of_nonneg_right h1 (by norm_num))
  have e : S * ((k + 1) / 2 ^ 50) = S * (k / 2 ^ 50) + 8 * (S / 2 ^ 53) := by ring
  have e' : 2 * S / 2 ^ 53 = 2 * (S / 2 ^ 53) := by ring
  have h7 : 0 ≤ S / 2 ^ 53 := by positivity
  rw [e]
  rw [e'] at h5
  linarith

theorem Sc.of_rnd {x : F} {q r S k : ℚ} (h : Is x (rnd F r)) (hr : |r - q| ≤ S * (k / 2 ^ 50)) (hq : |q| ≤ S) (h1 : 1 ≤ S) (h2 : S ≤ 2 ^ 100)
    (k0 : 0 ≤ k) (k1 : k + 1 ≤ 2 ^ 20) : Sc x q S (k + 1) :=
  ⟨⟨_, h, (rnd_err hr hq h1 (by linarith)).1⟩, hq, h1, h2, by linarith, k1⟩

theorem Sc.mono {x : F} {q S k S' k' : ℚ} (h : Sc x q S k) (hS : S ≤ S') (hk : k ≤ k') (h2 : S' ≤ 2 ^ 100) (k1 : k' ≤ 2 ^ 20) : Sc x q S' k' := by
  obtain ⟨⟨r, h3, h4⟩, h5, h6, h7, h8, h9⟩ := h
  refine ⟨⟨r, h3, h4.trans ?_⟩, h5.trans hS, h6.trans hS, h2, h8.trans hk, k1⟩
  refine mul_le_mul hS (div_le_div_of_nonneg_right hk (by norm_num)) (by positivity) (by linarith)

theorem Sc.lit {m e : Nat} {S : ℚ} (h : (m : ℚ) / 10 ^ e ≤ S) (h1 : 1 ≤ S) (h2 : S ≤ 2 ^ 100) : Sc (FloatOps.lit m e : F) ((m : ℚ) / 10 ^ e) S 1 := by
  have := Sc.of_rnd (F := F) (q := (m : ℚ) / 10 ^ e) (S := S) (k := 0) (Rounding.lit m e (h.trans (h2.trans (by norm_num)))) (by simp)
    (by rw [abs_of_nonneg (by positivity)]; exact h) h1 h2 (le_refl _) (by norm_num)
  rwa [zero_add] at this

theorem Sc.ofInt {i : Int} {S : ℚ} (h : |(i : ℚ)| ≤ S) (h1 : 1 ≤ S) (h2 : S ≤ 2 ^ 53) : Sc (FloatOps.ofInt i : F) i S 0 := by
  have hi : |i| ≤ 2 ^ 53 := by exact_mod_cast h.trans h2
  exact .exact (IntB.ofInt hi (le_refl _)).1 h h1 (h2.trans (by norm_num))

theorem Sc.neg {x : F} {q S k : ℚ} (h : Sc x q S k) : Sc (FloatOps.neg x) (-q) S k := by
  obtain ⟨⟨r, h3, h4⟩, h5, h6, h7, h8, h9⟩ := h
  refine ⟨⟨-r, Rounding.neg h3, ?_⟩, by rwa [abs_neg], h6, h7, h8, h9⟩
  rw [← abs_neg, show -(-r - -q) = r - q by ring]; exact h4

theorem Sc.abs {x : F} {q S k : ℚ} (h : Sc x q S k) : Sc (FloatOps.abs x) |q| S k := by
  obtain ⟨⟨r, h3, h4⟩, h5, h6, h7, h8, h9⟩ := h
  exact ⟨⟨|r|, Rounding.abs h3, (abs_abs_sub_abs_le_abs_sub r q).trans h4⟩, by rwa [abs_abs], h6, h7, h8, h9⟩

theorem Sc.add {x y : F} {p q S T k l : ℚ} (hx : Sc x p S k) (hy : Sc y q T l) (h : S + T ≤ 2 ^ 100) (hk : k + l + 1 ≤ 2 ^ 20) :
    Sc (FloatOps.add x y) (p + q) (S + T) (k + l + 1) := by
  obtain ⟨⟨r, h3, h4⟩, h5, h6, h7, h8, h9⟩ := hx
  obtain ⟨⟨s, g3, g4⟩, g5, g6, g7, g8, g9⟩ := hy
  have hb : |p + q| ≤ S + T := (abs_add_le p q).trans (add_le_add h5 g5)
  have he : |r + s - (p + q)| ≤ (S + T) * ((k + l) / 2 ^ 50) := by
    have a : |r + s - (p + q)| ≤ |r - p| + |s - q| := by
      rw [show r + s - (p + q) = (r - p) + (s - q) by ring]; exact abs_add_le _ _
    have e : (S + T) * ((k + l) / 2 ^ 50) = S * (k / 2 ^ 50) + T * (l / 2 ^ 50) + (S * (l / 2 ^ 50) + T * (k / 2 ^ 50)) := by ring
    have : 0 ≤ S * (l / 2 ^ 50) + T * (k / 2 ^ 50) := by positivity
    linarith
  have hr := (rnd_err (F := F) he hb (by linarith) (by linarith)).2
  exact .of_rnd (Rounding.add h3 g3 (hr.trans (by linarith))) he hb (by linarith) h (by linarith) hk

theorem Sc.sub {x y : F} {p q S T k l : ℚ} (hx : Sc x p S k) (hy : Sc y q T l) (h : S + T ≤ 2 ^ 100) (hk : k + l + 1 ≤ 2 ^ 20) :
    Sc (FloatOps.sub x y) (p - q) (S + T) (k + l + 1) := by
  obtain ⟨⟨r, h3, h4⟩, h5, h6, h7, h8, h9⟩ := hx
  obtain ⟨⟨s, g3, g4⟩, g5, g6, g7, g8, g9⟩ := hy
  have hb : |p - q| ≤ S + T := (abs_sub p q).trans (add_le_add h5 g5)
  have he : |r - s - (p - q)| ≤ (S + T) * ((k + l) / 2 ^ 50) := by
    have a : |r - s - (p - q)| ≤ |r - p| + |s - q| := by
      rw [show r - s - (p - q) = (r - p) - (s - q) by ring]; exact abs_sub _ _
    have e : (S + T) * ((k + l) / 2 ^ 50) = S * (k / 2 ^ 50) + T * (l / 2 ^ 50) + (S * (l / 2 ^ 50) + T * (k / 2 ^ 50)) := by ring
    have : 0 ≤ S * (l / 2 ^ 50) + T * (k / 2 ^ 50) := by positivity
    linarith
  have hr := (rnd_err (F := F) he hb (by linarith) (by linarith)).2
  exact .of_rnd (Rounding.sub h3 g3 (hr.trans (by linarith))) he hb (by linarith) h (by linarith) hk

theorem Sc.mul {x y : F} {p q S T k l : ℚ} (hx : Sc x p S k) (hy : Sc y q T l) (h : S * T ≤ 2 ^ 100) (hk : k + l + 2 ≤ 2 ^ 20) :
    Sc (FloatOps.mul x y) (p * q) (S * T) (k + l + 2) := by
  obtain ⟨⟨r, h3, h4⟩, h5, h6, h7, h8, h9⟩ := hx
  obtain ⟨⟨s, g3, g4⟩, g5, g6, g7, g8, g9⟩ := hy
  have hS0 : 0 ≤ S := by linarith
  have hT0 : 0 ≤ T := by linarith
  have hb : |p * q| ≤ S * T := by rw [abs_mul]; exact mul_le_mul h5 g5 (abs_nonneg _) hS0
  have h1 : 1 ≤ S * T := by nlinarith
  have he : |r * s - p * q| ≤ S * T * ((k + l + 1) / 2 ^ 50) := by
    have a : |r * s - p * q| ≤ |r - p| * |q| + |p| * |s - q| + |r - p| * |s - q| := by
      rw [← abs_mul, ← abs_mul, ← abs_mul, show r * s - p * q = (r - p) * q + p * (s - q) + (r - p) * (s - q) by ring]
      exact (abs_add_le _ _).trans (add_le_add_left (abs_add_le _ _) _)
    have a1 : |r - p| * |q| ≤ S * (k / 2 ^ 50) * T := mul_le_mul h4 g5 (abs_nonneg _) (by positivity)
    have a2 : |p| * |s - q| ≤ S * (T * (l / 2 ^ 50)) := mul_le_mul h5 g4 (abs_nonneg _) hS0
    have a3 : |r - p| * |s - q| ≤ S * (k / 2 ^ 50) * (T * (l / 2 ^ 50)) := mul_le_mul h4 g4 (abs_nonneg _) (by positivity)
    have a4 : S * (k / 2 ^ 50) * (T * (l / 2 ^ 50)) ≤ S * T * (1 / 2 ^ 50) := by
      rw [show S * (k / 2 ^ 50) * (T * (l / 2 ^ 50)) = S * T * ((k * l / 2 ^ 50) / 2 ^ 50) by ring]
      refine mul_le_mul_of_nonneg_left (div_le_div_of_nonneg_right ?_ (by norm_num)) (by positivity)
      rw [div_le_one (by norm_num)]
      exact (mul_le_mul h9 g9 g8 (by norm_num)).trans (by norm_num)
    rw [show S * T * ((k + l + 1) / 2 ^ 50) = S * (k / 2 ^ 50) * T + S * (T * (l / 2 ^ 50)) + S * T * (1 / 2 ^ 50) by ring]
    linarith
  have hr := (rnd_err (F := F) he hb h1 (by linarith)).2
  have := Sc.of_rnd (F := F) (Rounding.mul h3 g3 (hr.trans (by linarith))) he hb h1 h (by linarith) (by linarith)
  rwa [show k + l + 1 + 1 = k + l + 2 by ring] at this

/-- Products with zero are exact. -/
theorem is_zero_mul {x y : F} {q : ℚ} (hx : Is x 0) (hy : Is y q) : Is (FloatOps.mul x y) 0 := by
  have := Rounding.mul hx hy (by rw [zero_mul, abs_zero]; norm_num)
  have z : rnd F 0 = 0 := by exact_mod_cast rnd_int (F := F) 0 (by norm_num)
  rwa [zero_mul, z] at this

theorem is_mul_zero {x y : F} {q : ℚ} (hx : Is x q) (hy : Is y 0) : Is (FloatOps.mul x y) 0 := by
  have := Rounding.mul hx hy (by rw [mul_zero, abs_zero]; norm_num)
  have z : rnd F 0 = 0 := by exact_mod_cast rnd_int (F := F) 0 (by norm_num)
  rwa [mul_zero, z] at this

theorem Sc.zero_mul {x y : F} {q S k : ℚ} (hx : Is x 0) (hy : Sc y q S k) : Is (FloatOps.mul x y) 0 := by
  obtain ⟨r, h, -⟩ := hy.ex
  exact is_zero_mul hx h

theorem Sc.mul_zero {x y : F} {q S k : ℚ} (hx : Sc x q S k) (hy : Is y 0) : Is (FloatOps.mul x y) 0 := by
  obtain ⟨r, h, -⟩ := hx.ex
  exact is_mul_zero h hy

theorem is_zero_add {x y : F} (hx : Is x 0) (hy : Is y 0) : Is (FloatOps.add x y) 0 := by
  have := Rounding.add hx hy (by rw [zero_add, abs_zero]; norm_num)
  have z : rnd F 0 = 0 := by exact_mod_cast rnd_int (F := F) 0 (by norm_num)
  rwa [zero_add, z] at this

theorem is_zero_sub {x y : F} (hx : Is x 0) (hy : Is y 0) : Is (FloatOps.sub x y) 0 := by
  have := Rounding.sub hx hy (by rw [zero_sub, neg_zero, abs_zero]; norm_num)
  have z : rnd F 0 = 0 := by exact_mod_cast rnd_int (F := F) 0 (by norm_num)
  rwa [zero_sub, neg_zero, z] at this

/-- Adding zero costs one rounding. -/
theorem Sc.zero_add {x y : F} {q S k : ℚ} (hx : Is x 0) (hy : Sc y q S k) (hk : k + 1 ≤ 2 ^ 20) : Sc (FloatOps.add x y) q S (k + 1) := by
  obtain ⟨⟨r, h3, h4⟩, h5, h6, h7, h8, h9⟩ := hy
  have hr := (rnd_err (F := F) h4 h5 h6 (by linarith)).2
  have := Rounding.add hx h3 (by rw [_root_.zero_add]; linarith)
  rw [_root_.zero_add] at this
  exact .of_rnd this h4 h5 h6 h7 h8 hk

theorem Sc.add_zero {x y : F} {q S k : ℚ} (hx : Sc x q S k) (hy : Is y 0) (hk : k + 1 ≤ 2 ^ 20) : Sc (FloatOps.add x y) q S (k + 1) := by
  obtain ⟨⟨r, h3, h4⟩, h5, h6, h7, h8, h9⟩ := hx
  have hr := (rnd_err (F := F) h4 h5 h6 (by linarith)).2
  have := Rounding.add h3 hy (by rw [_root_.add_zero]; linarith)
  rw [_root_.add_zero] at this
  exact .of_rnd this h4 h5 h6 h7 h8 hk

theorem Sc.sub_zero {x y : F} {q S k : ℚ} (hx : Sc x q S k) (hy : Is y 0) (hk : k + 1 ≤ 2 ^ 20) : Sc (FloatOps.sub x y) q S (k + 1) := by
  obtain ⟨⟨r, h3, h4⟩, h5, h6, h7, h8, h9⟩ := hx
  have hr := (rnd_err (F := F) h4 h5 h6 (by linarith)).2
  have := Rounding.sub h3 hy (by rw [_root_.sub_zero]; linarith)
  rw [_root_.sub_zero] at this
  exact .of_rnd this h4 h5 h6 h7 h8 hk

theorem Sc.zero_sub {x y : F} {q S k : ℚ} (hx : Is x 0) (hy : Sc y q S k) (hk : k + 1 ≤ 2 ^ 20) : Sc (FloatOps.sub x y) (-q) S (k + 1) := by
  obtain ⟨⟨r, h3, h4⟩, h5, h6, h7, h8, h9⟩ := hy
  have hr := (rnd_err (F := F) h4 h5 h6 (by linarith)).2
  have := Rounding.sub hx h3 (by rw [_root_.zero_sub, abs_neg]; linarith)
  rw [_root_.zero_sub] at this
  refine .of_rnd this ?_ (by rwa [abs_neg]) h6 h7 h8 hk
  rw [← abs_neg, show -(-r - -q) = r - q by ring]; exact h4

/-- Dividing by one. -/
theorem Sc.div_one {x y : F} {q S k : ℚ} (hx : Sc x q S k) (hy : Is y 1) (hk : k + 1 ≤ 2 ^ 20) : Sc (FloatOps.div x y) q S (k + 1) := by
  obtain ⟨⟨r, h3, h4⟩, h5, h6, h7, h8, h9⟩ := hx
  have hr := (rnd_err (F := F) h4 h5 h6 (by linarith)).2
  have := Rounding.div h3 hy one_ne_zero (by rw [_root_.div_one]; linarith)
  rw [_root_.div_one] at this
  exact .of_rnd this h4 h5 h6 h7 h8 hk

/-- Dividing by something that is not much smaller than its scale. -/
theorem Sc.div {x y : F} {p q S T k l : ℚ} (hx : Sc x p S k) (hy : Sc y q T l) (hq : T / 4 ≤ |q|) (h1 : 1 ≤ 4 * S / T) (h2 : 4 * S / T ≤ 2 ^ 100)
    (hk : 2 * k + 8 * l + 1 ≤ 2 ^ 20) : Sc (FloatOps.div x y) (p / q) (4 * S / T) (2 * k + 8 * l + 1) := by
  obtain ⟨⟨r, h3, h4⟩, h5, h6, h7, h8, h9⟩ := hx
  obtain ⟨⟨s, g3, g4⟩, g5, g6, g7, g8, g9⟩ := hy
  have hT : 0 < T := by linarith
  have hS : 0 < S := by linarith
  have hqp : 0 < |q| := by linarith
  have hq0 : q ≠ 0 := abs_pos.1 hqp
  have hs : T / 8 ≤ |s| := by
    have a : |q| ≤ |s| + |s - q| := by
      have := abs_sub (s - (s - q)) 0
      have := abs_sub s (s - q)
      rwa [sub_sub_cancel] at this
    have b : T * (l / 2 ^ 50) ≤ T / 8 := by
      rw [div_eq_mul_inv T]
      refine mul_le_mul_of_nonneg_left ?_ hT.le
      rw [div_le_iff₀ (by norm_num)]
      exact g9.trans (by norm_num)
    linarith
  have hsp : 0 < |s| := by linarith
  have hs0 : s ≠ 0 := abs_pos.1 hsp
  have hb : |p / q| ≤ 4 * S / T := by
    rw [abs_div, div_le_div_iff₀ hqp hT]
    nlinarith
  have he : |r / s - p / q| ≤ 4 * S / T * ((2 * k + 8 * l) / 2 ^ 50) := by
    have e : r / s - p / q = (r - p) / s - (p / q) * ((s - q) / s) := by field_simp; ring
    have a1 : |(r - p) / s| ≤ S * (k / 2 ^ 50) * (8 / T) := by
      rw [abs_div, div_eq_mul_inv]
      refine mul_le_mul h4 ?_ (by positivity) (by positivity)
      rw [inv_le_comm₀ hsp (by positivity), inv_div]; exact hs
    have a2 : |(s - q) / s| ≤ T * (l / 2 ^ 50) * (8 / T) := by
      rw [abs_div, div_eq_mul_inv]
      refine mul_le_mul g4 ?_ (by positivity) (by positivity)
      rw [inv_le_comm₀ hsp (by positivity), inv_div]; exact hs
    have a3 : |(p / q) * ((s - q) / s)| ≤ 4 * S / T * (T * (l / 2 ^ 50) * (8 / T)) := by
      rw [abs_mul]
      exact mul_le_mul hb a2 (abs_nonneg _) (by positivity)
    rw [e]
    refine (abs_sub _ _).trans ?_
    have e2 : 4 * S / T * ((2 * k + 8 * l) / 2 ^ 50) = S * (k / 2 ^ 50) * (8 / T) + 4 * S / T * (T * (l / 2 ^ 50) * (8 / T)) := by
      field_simp
      ring
    rw [e2]
    exact add_le_add a1 a3
  have hr := (rnd_err (F := F) he hb h1 (by linarith)).2
  exact .of_rnd (Rounding.div h3 g3 hs0 (hr.trans (by linarith))) he hb h1 h2 (by linarith) hk

/-- The middle of seven modules. -/
theorem sc35 : Sc (FloatOps.lit 35 1 : F) (7 / 2) 4 1 := by
  have := Sc.lit (F := F) (m := 35) (e := 1) (S := 4) (by norm_num) (by norm_num) (by norm_num)
  rwa [show ((35 : Nat) : ℚ) / 10 ^ 1 = 7 / 2 by norm_num] at this

end Rqrr
