import Verif.Model.Binary64
import Verif.Spec.Rounding
import Mathlib.Tactic.Linarith
import Mathlib.Tactic.NormNum
import Mathlib.Tactic.Ring
import Mathlib.Tactic.FieldSimp

/-!
# The model of `f64` rounds correctly
-/

namespace Rqrr.Raw64

open Spec

theorem nearestEven_near (x : ℚ) : |(nearestEven x : ℚ) - x| ≤ 1 / 2 := by
  have h1 := Int.floor_le x
  have h2 := Int.lt_floor_add_one x
  unfold nearestEven
  rw [abs_le]
  split
  · constructor <;> linarith
  · split
    · push_cast; constructor <;> linarith
    · split
      · constructor <;> linarith
      · push_cast; constructor <;> linarith

/-- No integer is nearer. -/
theorem nearestEven_best (x : ℚ) (n : Int) : |(nearestEven x : ℚ) - x| ≤ |(n : ℚ) - x| := by
  by_cases hn : |(n : ℚ) - x| < 1 / 2
  · have h0 := nearestEven_near x
    have : nearestEven x = n := by
      have h1 := Int.floor_le x
      have h2 := Int.lt_floor_add_one x
      rw [abs_lt] at hn
      have a : ⌊x⌋ = n ∨ ⌊x⌋ + 1 = n := by
        have : (⌊x⌋ : ℚ) - 1 < n := by linarith
        have b1 : ⌊x⌋ - 1 < n := by exact_mod_cast this
        have : (n : ℚ) < ⌊x⌋ + 2 := by linarith
        have b2 : n < ⌊x⌋ + 2 := by exact_mod_cast this
        omega
      unfold nearestEven
      rcases a with a | a
      · have : (⌊x⌋ : ℚ) = n := by exact_mod_cast a
        rw [if_pos (by linarith), a]
      · have : (⌊x⌋ : ℚ) + 1 = n := by exact_mod_cast a
        rw [if_neg (by linarith), if_pos (by linarith), a]
    rw [this]
  · exact (nearestEven_near x).trans (not_lt.1 hn)

theorem nearestEven_int (n : Int) : nearestEven (n : ℚ) = n := by
  unfold nearestEven
  rw [Int.floor_intCast, if_pos (by norm_num)]

theorem nearestEven_nonneg {x : ℚ} (h : 0 ≤ x) : 0 ≤ nearestEven x := by
  have := Int.floor_nonneg.2 h
  unfold nearestEven
  split_ifs <;> omega

/-- The magnitudes of finite numbers. -/
def Representable (q : ℚ) : Prop := ∃ (m : Nat) (e : Int), m ≤ 2 ^ 53 ∧ -1074 ≤ e ∧ q = m * 2 ^ e

theorem two_pow_pos (e : Int) : (0 : ℚ) < 2 ^ e := zpow_pos (by norm_num) e

theorem log_le {q : ℚ} (hq : 0 < q) : (2 : ℚ) ^ Int.log 2 q ≤ q := by
  exact_mod_cast Int.zpow_log_le_self (b := 2) (by norm_num) hq

theorem lt_log {q : ℚ} : q < (2 : ℚ) ^ (Int.log 2 q + 1) := by
  exact_mod_cast Int.lt_zpow_succ_log_self (b := 2) (by norm_num) q

theorem roundMag_zero : roundMag 0 = 0 := by
  unfold roundMag
  rw [zero_div]
  have : nearestEven (0 : ℚ) = 0 := by exact_mod_cast nearestEven_int 0
  rw [this]; simp

theorem roundMag_nonneg {q : ℚ} (h : 0 ≤ q) : 0 ≤ roundMag q := by
  unfold roundMag
  have : (0 : ℚ) ≤ nearestEven (q / 2 ^ exponent q) := by
    exact_mod_cast nearestEven_nonneg (div_nonneg h (two_pow_pos _).le)
  have := two_pow_pos (exponent q)
  positivity

theorem quotient_le {q : ℚ} (hq : 0 ≤ q) : q / 2 ^ exponent q ≤ 2 ^ 53 := by
  rw [div_le_iff₀ (two_pow_pos _)]
  rcases hq.eq_or_lt with rfl | hq
  · have := two_pow_pos (exponent 0); positivity
  · refine (lt_log (q := q)).le.trans ?_
    have : (2 : ℚ) ^ (53 : Nat) * 2 ^ exponent q = 2 ^ (53 + exponent q) := by
      rw [zpow_add₀ (by norm_num)]; rfl
    rw [this]
    refine zpow_le_zpow_right₀ (by norm_num) ?_
    unfold exponent
    omega

/-- Rounding gives a representable number. -/
theorem roundMag_representable {q : ℚ} (hq : 0 ≤ q) : Representable (roundMag q) := by
  have h0 := nearestEven_nonneg (x := q / 2 ^ exponent q) (div_nonneg hq (two_pow_pos _).le)
  refine ⟨(nearestEven (q / 2 ^ exponent q)).toNat, exponent q, ?_, le_max_left _ _, ?_⟩
  · have h1 := quotient_le hq
    have h2 := (abs_le.1 (nearestEven_near (q / 2 ^ exponent q))).2
    have : (nearestEven (q / 2 ^ exponent q) : ℚ) < ((2 ^ 53 + 1 : Int) : ℚ) := by push_cast; linarith
    have := Int.cast_lt.1 this
    omega
  · unfold roundMag
    congr 1
    have : ((nearestEven (q / 2 ^ exponent q)).toNat : Int) = nearestEven (q / 2 ^ exponent q) := Int.toNat_of_nonneg h0
    exact_mod_cast this.symm

theorem scaled (q : ℚ) (r : ℚ) : |r * 2 ^ exponent q - q| = |r - q / 2 ^ exponent q| * 2 ^ exponent q := by
  have := two_pow_pos (exponent q)
  rw [← abs_of_pos this, ← abs_mul, abs_of_pos this]
  congr 1
  field_simp

/-- No representable number is nearer. -/
theorem roundMag_best {q r : ℚ} (hq : 0 ≤ q) (hr : Representable r) : |roundMag q - q| ≤ |r - q| := by
  have key : ∀ n : Int, |roundMag q - q| ≤ |(n : ℚ) * 2 ^ exponent q - q| := by
    intro n
    unfold roundMag
    rw [scaled, scaled]
    exact mul_le_mul_of_nonneg_right (nearestEven_best _ _) (two_pow_pos _).le
  obtain ⟨m, e, hm, he, rfl⟩ := hr
  rcases le_or_gt (exponent q) e with h | h
  · have : (m : ℚ) * 2 ^ e = ((m * 2 ^ (e - exponent q).toNat : Int) : ℚ) * 2 ^ exponent q := by
      push_cast
      rw [mul_assoc]
      congr 1
      rw [← zpow_natCast, Int.toNat_of_nonneg (by omega), ← zpow_add₀ (by norm_num)]
      congr 1; omega
    rw [this]
    exact key _
  · have hE : exponent q = Int.log 2 q - 52 := by unfold exponent at h ⊢; omega
    rcases hq.eq_or_lt with rfl | hq
    · rw [roundMag_zero, sub_self, abs_zero]; exact abs_nonneg _
    have h1 := log_le hq
    have h2 : (m : ℚ) * 2 ^ e ≤ 2 ^ Int.log 2 q := by
      have a : (m : ℚ) ≤ 2 ^ 53 := by exact_mod_cast hm
      have b : (2 : ℚ) ^ e * 2 ^ 53 ≤ 2 ^ Int.log 2 q := by
        have : (2 : ℚ) ^ e * 2 ^ (53 : Nat) = 2 ^ (e + 53) := by rw [zpow_add₀ (by norm_num)]; rfl
        rw [this]
        exact zpow_le_zpow_right₀ (by norm_num) (by omega)
      have := two_pow_pos e
      nlinarith
    have h3 := key (2 ^ 52)
    have h4 : (((2 ^ 52 : Int) : ℚ)) * 2 ^ exponent q = 2 ^ Int.log 2 q := by
      rw [hE, zpow_sub₀ (by norm_num)]
      push_cast
      norm_num
      field_simp
    rw [h4] at h3
    refine h3.trans ?_
    rw [abs_of_nonpos (by linarith), abs_of_nonpos (by linarith)]
    linarith

theorem roundMag_near {q : ℚ} (hq : 0 ≤ q) : |roundMag q - q| ≤ q / 2 ^ 53 + 2 ^ (-1075 : Int) := by
  rcases hq.eq_or_lt with rfl | hq
  · rw [roundMag_zero, sub_self, abs_zero, zero_div, zero_add]; exact (two_pow_pos _).le
  unfold roundMag
  rw [scaled]
  have h1 := mul_le_mul_of_nonneg_right (nearestEven_near (q / 2 ^ exponent q)) (two_pow_pos (exponent q)).le
  refine h1.trans ?_
  unfold exponent
  rcases le_total (Int.log 2 q - 52) (-1074) with h | h
  · rw [max_eq_left h]
    have : (2 : ℚ) ^ (-1074 : Int) = 2 * 2 ^ (-1075 : Int) := by
      rw [show (-1074 : Int) = 1 + -1075 by norm_num, zpow_add₀ (by norm_num), zpow_one]
    rw [this]
    have : 0 ≤ q / 2 ^ 53 := by positivity
    linarith
  · rw [max_eq_right h]
    have e : (2 : ℚ) ^ (Int.log 2 q - 52) = 2 * (2 ^ Int.log 2 q / 2 ^ 53) := by
      rw [zpow_sub₀ (by norm_num), show (2 : ℚ) ^ (52 : Int) = 2 ^ (52 : Nat) from rfl, pow_succ 2 52]
      field_simp
    rw [e]
    have := div_le_div_of_nonneg_right (log_le hq) (show (0 : ℚ) ≤ 2 ^ 53 by positivity)
    have := two_pow_pos (-1075)
    linarith

theorem representable_self {q : ℚ} (hq : 0 ≤ q) (h : Representable q) : roundMag q = q := by
  have := roundMag_best hq h
  rw [sub_self, abs_zero] at this
  exact sub_eq_zero.1 (abs_eq_zero.1 (le_antisymm this (abs_nonneg _)))

/-- The value of the result. -/
def rnd (q : ℚ) : ℚ := signed (decide (q < 0)) (roundMag |q|)

theorem tiny : (2 : ℚ) ^ (-1075 : Int) ≤ 1 / 2 ^ 200 := by
  have h := zpow_le_zpow_right₀ (show (1 : ℚ) ≤ 2 by norm_num) (show (-1075 : Int) ≤ -200 by norm_num)
  refine h.trans (le_of_eq ?_)
  rw [zpow_neg, one_div]
  rfl

theorem rnd_near (q : ℚ) : |rnd q - q| ≤ |q| / 2 ^ 53 + 1 / 2 ^ 200 := by
  have := (roundMag_near (abs_nonneg q)).trans (add_le_add_right tiny _)
  unfold rnd signed
  by_cases h : q < 0
  · rw [if_pos (by simpa using h)]
    rw [abs_of_neg h] at this ⊢
    rw [show -roundMag (-q) - q = -(roundMag (-q) - -q) by ring, abs_neg]
    exact this
  · rw [if_neg (by simpa using h)]
    rw [abs_of_nonneg (not_lt.1 h)] at this ⊢
    exact this

theorem rnd_int (m : Int) (h : |m| ≤ 2 ^ 53) : rnd m = m := by
  have hr : Representable |(m : ℚ)| := by
    refine ⟨m.natAbs, 0, by rw [Int.abs_eq_natAbs] at h; omega, by norm_num, ?_⟩
    rw [zpow_zero, mul_one, Nat.cast_natAbs, Int.cast_abs]
  unfold rnd signed
  rw [representable_self (abs_nonneg _) hr]
  by_cases h : (m : ℚ) < 0
  · rw [if_pos (by simpa using h), abs_of_neg h, neg_neg]
  · rw [if_neg (by simpa using h), abs_of_nonneg (not_lt.1 h)]

theorem rnd_zero : rnd 0 = 0 := by exact_mod_cast rnd_int 0 (by norm_num)

theorem no_overflow {q : ℚ} (h0 : 0 ≤ q) (h : q ≤ 2 ^ 200) : roundMag q < 2 ^ 1024 := by
  have h1 := (abs_le.1 ((roundMag_near h0).trans (add_le_add_right tiny _))).2
  have h2 : q / 2 ^ 53 ≤ q := div_le_self h0 (by norm_num)
  have h3 : (1 : ℚ) / 2 ^ 200 ≤ 1 := by norm_num
  have h5 : (2 : ℚ) ^ 202 ≤ 2 ^ 1024 := pow_le_pow_right₀ (by norm_num) (by norm_num)
  have h6 : roundMag q < 2 ^ 202 := by
    norm_num at h ⊢
    linarith
  exact h6.trans_le h5

theorem ofMag_value {s : Bool} {q : ℚ} (h0 : 0 ≤ q) (h : q ≤ 2 ^ 200) : (ofMag s q).value = some (signed s (roundMag q)) := by
  unfold ofMag
  rw [if_pos (no_overflow h0 h)]
  rfl

theorem ofValue_value {z : Bool} {q : ℚ} (h : |q| ≤ 2 ^ 200) : (ofValue z q).value = some (rnd q) := by
  unfold ofValue
  rw [ofMag_value (abs_nonneg _) h]
  by_cases hq : q = 0
  · subst hq
    rw [rnd_zero, abs_zero, roundMag_zero]
    simp [signed]
  · rw [if_neg hq]; rfl

/-- The sign of a product or quotient. -/
theorem signed_rnd {s : Bool} {q : ℚ} (h0 : 0 ≤ q) : signed s (roundMag q) = rnd (signed s q) := by
  unfold rnd
  rcases h0.eq_or_lt with rfl | h
  · cases s <;> simp [signed, roundMag_zero]
  · cases s
    · show roundMag q = signed (decide (q < 0)) (roundMag |q|)
      rw [abs_of_pos h, decide_eq_false (by linarith)]; rfl
    · show -roundMag q = signed (decide (-q < 0)) (roundMag |-q|)
      rw [abs_neg, abs_of_pos h, decide_eq_true (by linarith)]; rfl

theorem abs_signed {s : Bool} {q : ℚ} : |signed s q| = |q| := by
  cases s
  · rfl
  · exact abs_neg q

/-- The number is finite, its magnitude is representable, and this is its value. -/
def Is (x : Raw64) (q : ℚ) : Prop := ∃ s m, x = .fin s m ∧ 0 ≤ m ∧ Representable m ∧ q = signed s m

theorem is_ofMag {s : Bool} {q : ℚ} (h0 : 0 ≤ q) (h : q ≤ 2 ^ 200) : Is (ofMag s q) (rnd (signed s q)) := by
  refine ⟨s, roundMag q, ?_, roundMag_nonneg h0, roundMag_representable h0, (signed_rnd h0).symm⟩
  unfold ofMag
  rw [if_pos (no_overflow h0 h)]

theorem is_ofValue {z : Bool} {q : ℚ} (h : |q| ≤ 2 ^ 200) : Is (ofValue z q) (rnd q) := by
  refine ⟨if q = 0 then z else decide (q < 0), roundMag |q|, ?_, roundMag_nonneg (abs_nonneg _), roundMag_representable (abs_nonneg _), ?_⟩
  · unfold ofValue ofMag
    rw [if_pos (no_overflow (abs_nonneg _) h)]
  · by_cases hq : q = 0
    · subst hq
      rw [rnd_zero, abs_zero, roundMag_zero]
      simp [signed]
    · rw [if_neg hq]; rfl

theorem is_add {x y : Raw64} {p q : ℚ} (hx : Is x p) (hy : Is y q) (h : |p + q| ≤ 2 ^ 200) : Is (add x y) (rnd (p + q)) := by
  obtain ⟨s, m, rfl, -, -, rfl⟩ := hx
  obtain ⟨t, n, rfl, -, -, rfl⟩ := hy
  exact is_ofValue h

theorem is_neg {x : Raw64} {p : ℚ} (hx : Is x p) : Is (neg x) (-p) := by
  obtain ⟨s, m, rfl, h0, h1, rfl⟩ := hx
  refine ⟨!s, m, rfl, h0, h1, ?_⟩
  cases s <;> simp [signed]

theorem signed_mul {s t : Bool} {m n : ℚ} : signed s m * signed t n = signed (s ^^ t) (m * n) := by
  cases s <;> cases t <;> simp [signed]

theorem signed_div {s t : Bool} {m n : ℚ} : signed s m / signed t n = signed (s ^^ t) (m / n) := by
  cases s <;> cases t <;> simp [signed, neg_div, div_neg]

theorem is_mul {x y : Raw64} {p q : ℚ} (hx : Is x p) (hy : Is y q) (h : |p * q| ≤ 2 ^ 200) : Is (mul x y) (rnd (p * q)) := by
  obtain ⟨s, m, rfl, m0, -, rfl⟩ := hx
  obtain ⟨t, n, rfl, n0, -, rfl⟩ := hy
  rw [signed_mul] at h ⊢
  rw [abs_signed, abs_of_nonneg (mul_nonneg m0 n0)] at h
  exact is_ofMag (mul_nonneg m0 n0) h

theorem is_div {x y : Raw64} {p q : ℚ} (hx : Is x p) (hy : Is y q) (hq : q ≠ 0) (h : |p / q| ≤ 2 ^ 200) : Is (div x y) (rnd (p / q)) := by
  obtain ⟨s, m, rfl, m0, -, rfl⟩ := hx
  obtain ⟨t, n, rfl, n0, -, rfl⟩ := hy
  rw [signed_div] at h ⊢
  rw [abs_signed, abs_of_nonneg (div_nonneg m0 n0)] at h
  have hn : n ≠ 0 := by
    rintro rfl
    apply hq
    cases t <;> simp [signed]
  show Is (if n = 0 then _ else ofMag (s ^^ t) (m / n)) _
  rw [if_neg hn]
  exact is_ofMag (div_nonneg m0 n0) h

theorem int_representable {n : Nat} (h : n ≤ 2 ^ 53) : Representable n := ⟨n, 0, h, by norm_num, by simp⟩

/-- A representable number is an integer or below `2^53`. -/
theorem Representable.cases {q : ℚ} (h : Representable q) : (∃ n : Nat, q = n) ∨ q < 2 ^ 53 := by
  obtain ⟨m, e, hm, he, rfl⟩ := h
  rcases lt_or_ge e 0 with he' | he'
  · right
    have a : (m : ℚ) ≤ 2 ^ 53 := by exact_mod_cast hm
    have b : (2 : ℚ) ^ e ≤ 1 / 2 := by
      have := zpow_le_zpow_right₀ (show (1 : ℚ) ≤ 2 by norm_num) (show e ≤ -1 by omega)
      rw [show (2 : ℚ) ^ (-1 : Int) = 1 / 2 by norm_num] at this
      exact this
    have := two_pow_pos e
    have : (0 : ℚ) ≤ m := by positivity
    nlinarith
  · left
    refine ⟨m * 2 ^ e.toNat, ?_⟩
    push_cast
    rw [← zpow_natCast, Int.toNat_of_nonneg he']

theorem nearest_natCast (n : Nat) : nearest (n : ℚ) = n := by
  unfold nearest
  rw [if_pos (by positivity), Int.floor_eq_iff]
  constructor <;> push_cast <;> linarith

theorem nearest_neg {x : ℚ} (h : 0 ≤ x) : nearest (-x) = -nearest x := by
  rcases h.eq_or_lt with rfl | h
  · have : nearest 0 = 0 := by exact_mod_cast nearest_natCast 0
    rw [neg_zero, this]; rfl
  · unfold nearest
    rw [if_neg (by linarith), if_pos h.le, ← Int.ceil_neg]
    congr 1; ring

theorem nearest_nonneg {x : ℚ} (h : 0 ≤ x) : 0 ≤ nearest x := by
  unfold nearest
  rw [if_pos h]
  exact Int.floor_nonneg.2 (by linarith)

theorem nearest_representable {m : ℚ} (m0 : 0 ≤ m) (hr : Representable m) : Representable (nearest m) ∧ (m < 2 ^ 1024 → (nearest m : ℚ) < 2 ^ 1024) := by
  rcases hr.cases with ⟨n, rfl⟩ | h
  · rw [nearest_natCast]; exact ⟨by exact_mod_cast hr, fun h => by exact_mod_cast h⟩
  · have h1 : ((nearest m).toNat : Int) = nearest m := Int.toNat_of_nonneg (nearest_nonneg m0)
    have h2 : nearest m ≤ 2 ^ 53 := by
      unfold nearest
      rw [if_pos m0, ← Int.lt_add_one_iff, Int.floor_lt]
      push_cast; linarith
    have := int_representable (n := (nearest m).toNat) (by omega)
    rw [show ((nearest m : Int) : ℚ) = ((nearest m).toNat : ℚ) by exact_mod_cast h1.symm]
    refine ⟨this, fun _ => ?_⟩
    have h3 : ((nearest m).toNat : ℚ) ≤ 2 ^ 53 := by exact_mod_cast (show (nearest m).toNat ≤ 2 ^ 53 by omega)
    exact h3.trans_lt (pow_lt_pow_right₀ (by norm_num) (by norm_num))

theorem is_round {x : Raw64} {p : ℚ} (hx : Is x p) : Is (round x) (nearest p) := by
  obtain ⟨s, m, rfl, m0, hr, rfl⟩ := hx
  refine ⟨s, nearest m, rfl, by exact_mod_cast nearest_nonneg m0, (nearest_representable m0 hr).1, ?_⟩
  cases s
  · rfl
  · show ((nearest (-m) : Int) : ℚ) = -(nearest m : ℚ)
    rw [nearest_neg m0]; push_cast; rfl

theorem floor_representable {s : Bool} {m : ℚ} (m0 : 0 ≤ m) (hr : Representable m) :
    Representable |((⌊signed s m⌋ : Int) : ℚ)| ∧ (m < 2 ^ 1024 → |((⌊signed s m⌋ : Int) : ℚ)| < 2 ^ 1024) := by
  rcases hr.cases with ⟨n, rfl⟩ | h
  · have : |((⌊signed s (n : ℚ)⌋ : Int) : ℚ)| = n := by
      cases s
      · show |((⌊(n : ℚ)⌋ : Int) : ℚ)| = n
        rw [Int.floor_natCast]; simp
      · show |((⌊-(n : ℚ)⌋ : Int) : ℚ)| = n
        rw [show (-(n : ℚ)) = ((-(n : Int) : Int) : ℚ) by push_cast; rfl, Int.floor_intCast]; simp
    rw [this]; exact ⟨hr, id⟩
  · have hb : ⌊signed s m⌋.natAbs ≤ 2 ^ 53 := by
      have h1 := Int.floor_le (signed s m)
      have h2 := Int.lt_floor_add_one (signed s m)
      have h3 : |signed s m| < 2 ^ 53 := by rw [abs_signed, abs_of_nonneg m0]; exact h
      rw [abs_lt] at h3
      have a : ((-(2 ^ 53) - 1 : Int) : ℚ) < ⌊signed s m⌋ := by push_cast; linarith
      have b : (⌊signed s m⌋ : ℚ) < ((2 ^ 53 : Int) : ℚ) := by push_cast; linarith
      have a := Int.cast_lt.1 a
      have b := Int.cast_lt.1 b
      omega
    have hb' : ((⌊signed s m⌋.natAbs : Nat) : ℚ) ≤ 2 ^ 53 := by exact_mod_cast hb
    have := int_representable hb
    rw [Nat.cast_natAbs, Int.cast_abs] at this hb'
    exact ⟨this, fun _ => hb'.trans_lt (pow_lt_pow_right₀ (by norm_num) (by norm_num))⟩

theorem is_floor {x : Raw64} {p : ℚ} (hx : Is x p) : Is (floor x) ⌊p⌋ := by
  obtain ⟨s, m, rfl, m0, hr, rfl⟩ := hx
  refine ⟨s, _, rfl, abs_nonneg _, (floor_representable m0 hr).1, ?_⟩
  cases s
  · show ((⌊m⌋ : Int) : ℚ) = |((⌊m⌋ : Int) : ℚ)|
    rw [abs_of_nonneg]
    exact_mod_cast Int.floor_nonneg.2 m0
  · show ((⌊-m⌋ : Int) : ℚ) = -|((⌊-m⌋ : Int) : ℚ)|
    rw [abs_of_nonpos, neg_neg]
    have : ⌊-m⌋ < 1 := by rw [Int.floor_lt]; push_cast; linarith
    have : ⌊-m⌋ ≤ 0 := by omega
    exact_mod_cast this

/-! ### Doubles -/

/-- The magnitude of a finite double. -/
def Mag (m : ℚ) : Prop := 0 ≤ m ∧ Representable m ∧ m < 2 ^ 1024

/-- A double: if finite, its magnitude can be represented. -/
def Valid : Raw64 → Prop
  | .fin _ m => Mag m
  | _ => True

theorem mag_zero : Mag 0 := ⟨le_refl _, ⟨0, 0, by norm_num, by norm_num, by norm_num⟩, by positivity⟩

theorem valid_ofMag (s : Bool) {q : ℚ} (h : 0 ≤ q) : (ofMag s q).Valid := by
  unfold ofMag
  split
  · next h' => exact ⟨roundMag_nonneg h, roundMag_representable h, h'⟩
  · trivial

theorem valid_ofValue (z : Bool) (q : ℚ) : (ofValue z q).Valid := valid_ofMag _ (abs_nonneg _)

theorem valid_neg {x : Raw64} (h : x.Valid) : x.neg.Valid := by cases x <;> exact h
theorem valid_abs {x : Raw64} (h : x.Valid) : x.abs.Valid := by cases x <;> exact h

theorem valid_add {x y : Raw64} : (x.add y).Valid := by
  cases x <;> cases y <;> unfold add <;> dsimp only <;> first | trivial | exact valid_ofValue _ _ | (split <;> trivial)

theorem valid_mul {x y : Raw64} (hx : x.Valid) (hy : y.Valid) : (x.mul y).Valid := by
  cases x <;> cases y <;> unfold mul <;> dsimp only <;> first | trivial | exact valid_ofMag _ (mul_nonneg hx.1 hy.1) | (split <;> trivial)

theorem valid_div {x y : Raw64} (hx : x.Valid) (hy : y.Valid) : (x.div y).Valid := by
  cases x <;> cases y <;> unfold div <;> dsimp only <;> try trivial
  · exact mag_zero
  · split
    · split <;> trivial
    · exact valid_ofMag _ (div_nonneg hx.1 hy.1)

theorem valid_round {x : Raw64} (h : x.Valid) : x.round.Valid := by
  cases x
  · trivial
  · trivial
  · obtain ⟨h0, h1, h2⟩ := h
    exact ⟨by exact_mod_cast nearest_nonneg h0, (nearest_representable h0 h1).1, (nearest_representable h0 h1).2 h2⟩

theorem valid_floor {x : Raw64} (h : x.Valid) : x.floor.Valid := by
  cases x
  · trivial
  · trivial
  · obtain ⟨h0, h1, h2⟩ := h
    exact ⟨abs_nonneg _, (floor_representable h0 h1).1, (floor_representable h0 h1).2 h2⟩

end Rqrr.Raw64
