import Verif.Model.Double

/-!
# Doubles round correctly
-/

namespace Rqrr

open Spec Raw64

/-- `f64` rounds correctly. -/
instance : Rounding F64 where
  Is x := Raw64.Is x.raw
  rnd := rnd
  rnd_near := rnd_near
  rnd_int := rnd_int
  unique := by
    rintro x p q ⟨s, m, ex, -, -, rfl⟩ ⟨t, n, ey, -, -, rfl⟩
    rw [ex] at ey
    cases ey
    rfl
  add := is_add
  sub hx hy h := by
    have := is_add hx (is_neg hy)
    rw [← sub_eq_add_neg] at this
    exact this h
  mul := is_mul
  div := is_div
  neg := is_neg
  abs := by
    rintro ⟨x, -⟩ p ⟨s, m, rfl, h0, h1, rfl⟩
    exact ⟨false, m, rfl, h0, h1, by rw [abs_signed, abs_of_nonneg h0]; rfl⟩
  round := is_round
  floor := is_floor
  lt := by
    rintro ⟨x, -⟩ ⟨y, -⟩ p q ⟨s, m, rfl, -, -, rfl⟩ ⟨t, n, rfl, -, -, rfl⟩
    rfl
  le := by
    rintro ⟨x, -⟩ ⟨y, -⟩ p q ⟨s, m, rfl, -, -, rfl⟩ ⟨t, n, rfl, -, -, rfl⟩
    rfl
  ofInt i h := is_ofValue (by exact_mod_cast h)
  lit m e h := is_ofValue (by rw [abs_of_nonneg (by positivity)]; exact h)
  epsilon := ⟨false, 1 / 2 ^ 52, rfl, by positivity, ⟨1, -52, by norm_num, by norm_num, by norm_num⟩, rfl⟩
  toI32 := by
    rintro ⟨x, -⟩ p ⟨s, m, rfl, -, -, rfl⟩
    rfl
  toUsize := by
    rintro ⟨x, -⟩ p ⟨s, m, rfl, -, -, rfl⟩
    rfl

/-- A finite double has a value. -/
theorem F64.value_is {x : F64} {q : ℚ} (h : x.value = some q) : Rounding.Is x q := by
  obtain ⟨x, hx⟩ := x
  cases x with
  | nan => cases h
  | inf s => cases h
  | fin s m =>
    cases h
    exact ⟨s, m, rfl, hx.1, hx.2.1, rfl⟩

/-- Rounding does not go beyond a double. -/
theorem Raw64.roundMag_le {q m : ℚ} (h0 : 0 ≤ q) (h : q ≤ m) (hm : Representable m) : roundMag q ≤ m := by
  have := roundMag_best h0 hm
  rw [abs_of_nonneg (show 0 ≤ m - q by linarith)] at this
  have := (abs_le.1 this).2
  linarith

/-- A magnitude below something is finite. -/
theorem F64.finite_of_lt {x y : F64} (h : FloatOps.lt (FloatOps.abs x) y = true) : ∃ q, Rounding.Is (FloatOps.abs x) q := by
  obtain ⟨x, hx⟩ := x
  obtain ⟨y, hy⟩ := y
  cases x with
  | nan => cases h
  | inf s => cases y <;> cases h
  | fin s m => exact ⟨m, false, m, rfl, hx.1, hx.2.1, rfl⟩

/-- Of two magnitudes at most one is less than a fifth of the other. -/
theorem F64.fifth_once (x y : F64) (h : FloatOps.lt (FloatOps.abs x) (FloatOps.mul (FloatOps.lit 2 1) (FloatOps.abs y)) = true) :
    FloatOps.lt (FloatOps.abs y) (FloatOps.mul (FloatOps.lit 2 1) (FloatOps.abs x)) = false := by
  obtain ⟨x, hx⟩ := x
  obtain ⟨y, hy⟩ := y
  have l0 : (0 : ℚ) ≤ roundMag (2 / 10) := roundMag_nonneg (by norm_num)
  have l1 : roundMag (2 / 10) ≤ 1 := roundMag_le (by norm_num) (by norm_num) ⟨1, 0, by norm_num, by norm_num, by norm_num⟩
  have l2 : Raw64.ofValue false (((2 : Nat) : ℚ) / 10 ^ 1) = .fin false (roundMag (2 / 10)) := by
    unfold Raw64.ofValue Raw64.ofMag
    norm_num
    intro h
    have : roundMag (1 / 5) ≤ 1 := roundMag_le (by norm_num) (by norm_num) ⟨1, 0, by norm_num, by norm_num, by norm_num⟩
    exact absurd (h.trans this) (not_le.2 (one_lt_pow₀ (by norm_num) (by norm_num)))
  have key : ∀ s m t n, Mag m → Mag n → Raw64.lt (Raw64.abs (.fin s m)) (Raw64.mul (.fin false (roundMag (2 / 10))) (Raw64.abs (.fin t n))) = true →
      m < n := by
    intro s m t n hm hn h
    have h1 : roundMag (roundMag (2 / 10) * n) ≤ n := by
      refine roundMag_le (mul_nonneg l0 hn.1) ?_ hn.2.1
      have := mul_le_mul_of_nonneg_right l1 hn.1
      linarith
    unfold Raw64.abs Raw64.mul Raw64.ofMag at h
    dsimp only at h
    rw [if_pos (h1.trans_lt hn.2.2)] at h
    have := of_decide_eq_true h
    exact (show m < roundMag (roundMag (2 / 10) * n) from this).trans_le h1
  have h : Raw64.lt (Raw64.abs x) (Raw64.mul (Raw64.ofValue false (((2 : Nat) : ℚ) / 10 ^ 1)) (Raw64.abs y)) = true := h
  show Raw64.lt (Raw64.abs y) (Raw64.mul (Raw64.ofValue false (((2 : Nat) : ℚ) / 10 ^ 1)) (Raw64.abs x)) = false
  rw [l2] at h ⊢
  rw [Bool.eq_false_iff]
  intro h'
  have fin : ∀ a b : Raw64, Raw64.lt (Raw64.abs a) b = true → ∃ s m, a = .fin s m := by
    intro a b h
    cases a with
    | nan => cases h
    | inf s => cases b <;> cases h
    | fin s m => exact ⟨s, m, rfl⟩
  obtain ⟨s, m, rfl⟩ := fin _ _ h
  obtain ⟨t, n, rfl⟩ := fin _ _ h'
  have a := key _ _ _ _ hx hy h
  have b := key _ _ _ _ hy hx h'
  linarith

end Rqrr
