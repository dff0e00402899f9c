import Verif.Proofs.GFField
import Verif.Proofs.Locator
import Verif.Spec.Format

/-!
# Correctness of `correct_format`
-/

set_option linter.unusedSectionVars false

namespace Rqrr

open Finset Spec

/-- The primitive element of GF(16). -/
abbrev β : GF16 := GF.generator

/-- Syndrome `i` of a 15-bit word. -/
def fsynd (u i : Nat) : GF16 := ∑ j ∈ range 15, if u.testBit j then β ^ ((i + 1) * j) else 0

theorem and_shiftLeft_ne_zero (u j : Nat) : (u &&& (1 <<< j) != 0) = u.testBit j := by
  rw [Nat.one_shiftLeft]
  cases h : u.testBit j with
  | true =>
    rw [bne_iff_ne]
    intro h0
    have := congrArg (fun n => n.testBit j) h0
    simp [h, Nat.testBit_two_pow_self] at this
  | false =>
    rw [bne_eq_false_iff_eq]
    apply Nat.eq_of_testBit_eq
    intro i
    rw [Nat.testBit_and, Nat.testBit_two_pow, Nat.zero_testBit]
    by_cases hij : j = i
    · subst hij; rw [h]; rfl
    · simp [hij]

theorem format_syndromes_spec (u : Nat) :
    ∃ nz s, format_syndromes u = .ok (nz, s) ∧ (nz = true ↔ ∃ i, i < 6 ∧ fsynd u i ≠ 0) ∧
      ∀ i, co s i = if i < 6 then fsynd u i else 0 := by
  unfold format_syndromes
  obtain ⟨⟨nz, s⟩, h1, h2, h3⟩ := forRange_ok (lo := 0) (hi := 6)
    (s := ((false, Vector.replicate 64 0) : Bool × Arr64 GF16))
    (f := fun i (x : Bool × Arr64 GF16) => match x with
      | (nonzero, result) => do
        let result ← forRange 0 15 result fun j result => do
          if u &&& (1 <<< j) != 0 then
            let r ← aget result i
            aset result i (r + gpow GF.generator ((i + 1) * j))
          else pure result
        let r ← aget result i
        pure (if r.val != 0#4 then true else nonzero, result))
    (fun n x => (x.1 = true ↔ ∃ i, i < n ∧ fsynd u i ≠ 0) ∧
      ∀ i, co x.2 i = if i < n then fsynd u i else 0) (by omega)
    (by simp [co_replicate]) (by
      rintro i ⟨nz, s⟩ _ hi ⟨hnz, hs⟩
      have hi64 : i < 64 := by omega
      obtain ⟨s', hs1, hs2⟩ := forRange_ok (lo := 0) (hi := 15) (s := s)
        (f := fun j result => do
          if u &&& (1 <<< j) != 0 then
            let r ← aget result i
            aset result i (r + gpow GF.generator ((i + 1) * j))
          else pure result)
        (fun m (t : Arr64 GF16) => ∀ l, co t l = if l = i then
          ∑ j ∈ range m, (if u.testBit j then β ^ ((i + 1) * j) else 0) else co s l) (by omega)
        (by intro l; split
            · rename_i h; subst h; rw [hs, if_neg (by omega)]; simp
            · rfl)
        (by
          intro j t _ hj ht
          rw [and_shiftLeft_ne_zero]
          cases hb : u.testBit j with
          | true =>
            obtain ⟨t', ht1, ht2⟩ := aset_co t (co t i + gpow GF.generator ((i + 1) * j)) hi64
            refine ⟨t', ?_, ?_⟩
            · rw [if_pos rfl, aget_co t hi64, Run.ok_bind, ht1]
            · intro l
              rw [ht2 l]
              by_cases hl : l = i
              · rw [if_pos hl, if_pos hl, ht, if_pos rfl, sum_range_succ, hb, if_pos rfl, gpow_eq_pow]
              · rw [if_neg hl, if_neg hl, ht, if_neg hl]
          | false =>
            refine ⟨t, rfl, ?_⟩
            intro l
            rw [ht l, sum_range_succ, hb, if_neg (show ¬ (false = true) from Bool.false_ne_true), add_zero])
      refine ⟨(if fsynd u i ≠ 0 then true else nz, s'), ?_, ?_, ?_⟩
      · show (_ >>= _) = _
        rw [hs1, Run.ok_bind, aget_co s' hi64, Run.ok_bind, Run.pure_eq]
        have : co s' i = fsynd u i := by rw [hs2, if_pos rfl]; rfl
        rw [this]
        have e : ((fsynd u i).val != 0#4) = decide (fsynd u i ≠ 0) := by
          by_cases h : fsynd u i = 0
          · rw [h]; decide
          · have hv : (fsynd u i).val ≠ 0#4 := fun h' => h (GF.ext' h')
            rw [decide_eq_true h, bne_iff_ne.mpr hv]
        rw [e]
        by_cases h : fsynd u i = 0
        · simp [h]
        · simp [h]
      · simp only
        simp only at hnz
        by_cases hsy : fsynd u i ≠ 0
        · rw [if_pos hsy]
          exact ⟨fun _ => ⟨i, by omega, hsy⟩, fun _ => rfl⟩
        · rw [if_neg hsy, hnz]
          constructor
          · rintro ⟨k, hk, h⟩; exact ⟨k, by omega, h⟩
          · rintro ⟨k, hk, h⟩
            refine ⟨k, ?_, h⟩
            rcases Nat.lt_succ_iff_lt_or_eq.mp hk with h' | h'
            · exact h'
            · subst h'; exact absurd h hsy
      · intro l
        simp only
        rw [hs2 l]
        by_cases hl : l = i
        · subst hl; rw [if_pos rfl, if_pos (by omega)]; rfl
        · rw [if_neg hl]
          have := hs l
          simp only at this
          rw [this]
          by_cases h : l < i
          · rw [if_pos h, if_pos (by omega)]
          · rw [if_neg h, if_neg (by omega)])
  exact ⟨nz, s, h1, h2, h3⟩

/-! ## Locators -/

theorem beta_pow_ne_zero (j : Nat) : β ^ j ≠ 0 := pow_ne_zero _ (by decide +kernel)

theorem beta_inj {a b : Nat} (ha : a < 15) (hb : b < 15) (h : β ^ a = β ^ b) : a = b := by
  have := pow_injOn_Iio_orderOf (x := (GF.generator : GF16))
  rw [orderOf_generator16] at this
  exact this ha hb h

theorem beta_15 : β ^ 15 = 1 := by
  have := pow_orderOf_eq_one (GF.generator : GF16)
  rwa [orderOf_generator16] at this

theorem beta_inv {i : Nat} (hi : i ≤ 15) : β ^ (15 - i) = (β ^ i)⁻¹ := by
  apply eq_inv_of_mul_eq_one_left
  rw [← pow_add, Nat.sub_add_cancel hi]
  exact beta_15

/-- Locator of format bit `j`. -/
def Yl (j : Nat) : GF16 := β ^ j

theorem Yl_ne_zero (j : Nat) : Yl j ≠ 0 := beta_pow_ne_zero j

theorem Yl_injOn {s : Finset Nat} (hs : s ⊆ range 15) : Set.InjOn Yl s := by
  intro a ha b hb h
  exact beta_inj (by simpa using hs ha) (by simpa using hs hb) h

/-- The bit positions in which two words differ. -/
def bitDiff (a b : Nat) : Finset Nat := (range 15).filter fun j => a.testBit j ≠ b.testBit j

theorem bitDist_eq_card (a b : Nat) : bitDist a b = (bitDiff a b).card := by
  unfold bitDist bitDiff
  rw [← List.toFinset_card_of_nodup (List.nodup_range.filter _)]
  congr 1
  ext j
  simp

theorem fsynd_xor (a b i : Nat) : fsynd (a ^^^ b) i = fsynd a i + fsynd b i := by
  unfold fsynd
  rw [← sum_add_distrib]
  apply sum_congr rfl
  intro j _
  rw [Nat.testBit_xor]
  cases a.testBit j <;> cases b.testBit j <;> simp [CharTwo.add_self_eq_zero]

theorem fsynd_diff {u c : Nat} (hc : ∀ i, i < 6 → fsynd c i = 0) (i : Nat) (hi : i < 6) :
    fsynd u i = psum Yl Yl (bitDiff u c) i := by
  have h : fsynd u i = fsynd (u ^^^ c) i := by rw [fsynd_xor, hc i hi, add_zero]
  rw [h]
  unfold fsynd psum bitDiff Yl
  rw [sum_filter]
  apply sum_congr rfl
  intro j _
  rw [Nat.testBit_xor, ← pow_mul, ← pow_add]
  have e : j + j * i = (i + 1) * j := by ring
  rw [e]
  cases u.testBit j <;> cases c.testBit j <;> simp

/-- Frobenius: the syndrome at twice the exponent is the square. -/
theorem fsynd_frobenius (u k : Nat) (h : fsynd u k = 0) : fsynd u (2 * k + 1) = 0 := by
  have : fsynd u (2 * k + 1) = fsynd u k ^ 2 := by
    unfold fsynd
    rw [CharTwo.sum_sq]
    apply sum_congr rfl
    intro j _
    split
    · rw [← pow_mul]; congr 1; ring
    · simp
  rw [this, h]; simp

open Polynomial in
/-- A word of degree at most 9 with vanishing syndromes is zero. -/
theorem fsynd_low_zero (r : Nat) (hr : r < 1024) (h : ∀ i, i < 6 → fsynd r i = 0) : r = 0 := by
  set p : GF16[X] := ∑ j ∈ range 10, (if r.testBit j then X ^ j else 0) with hp
  have hdeg : p.natDegree < 10 := by
    rw [Nat.lt_succ_iff]
    apply natDegree_sum_le_of_forall_le
    intro j hj
    have : j < 10 := by simpa using hj
    split
    · rw [natDegree_X_pow]; omega
    · simp
  have hev : ∀ k, p.eval (β ^ (k + 1)) = fsynd r k := by
    intro k
    unfold fsynd
    rw [hp, eval_finset_sum, sum_range_add _ 10 5]
    have : ∑ x ∈ range 5, (if r.testBit (10 + x) then β ^ ((k + 1) * (10 + x)) else 0) = 0 := by
      apply sum_eq_zero
      intro x _
      rw [Nat.testBit_lt_two_pow (lt_of_lt_of_le hr (show 1024 ≤ 2 ^ (10 + x) from
        (show 1024 = 2 ^ 10 by norm_num) ▸ Nat.pow_le_pow_right (by omega) (by omega)))]
      simp
    rw [this, add_zero]
    apply sum_congr rfl
    intro j _
    split
    · rw [eval_pow, eval_X, ← pow_mul]
    · simp
  have f0 := h 0 (by omega)
  have f2 := h 2 (by omega)
  have f4 := h 4 (by omega)
  have f5 := h 5 (by omega)
  have f1 := h 1 (by omega)
  have f3 := h 3 (by omega)
  have f7 := fsynd_frobenius r 3 f3
  have f11 := fsynd_frobenius r 5 f5
  have f9 := fsynd_frobenius r 4 f4
  -- 9 = 24 mod 15
  have f8 : fsynd r 8 = 0 := by
    have := fsynd_frobenius r 11 f11
    have e : fsynd r 23 = fsynd r 8 := by
      unfold fsynd
      apply sum_congr rfl
      intro j _
      have : (23 + 1) * j = (8 + 1) * j + 15 * j := by ring
      rw [this, pow_add, pow_mul _ 15, beta_15, one_pow, mul_one]
    rw [← e]; exact this
  have hp0 : p = 0 := by
    set T : Finset Nat := {0, 1, 2, 3, 4, 5, 7, 8, 9, 11} with hT
    refine eq_zero_of_natDegree_lt_card_of_eval_eq_zero' p (T.image fun k => β ^ (k + 1)) ?_ ?_
    · intro x hx
      obtain ⟨k, hk, rfl⟩ := mem_image.mp hx
      rw [hev]
      simp only [hT, mem_insert, mem_singleton] at hk
      rcases hk with rfl | rfl | rfl | rfl | rfl | rfl | rfl | rfl | rfl | rfl <;> assumption
    · rw [card_image_of_injOn]
      · exact hdeg
      · intro a ha b hb hab
        have h1 : ∀ k ∈ T, k + 1 < 15 := by decide
        have := beta_inj (h1 a ha) (h1 b hb) hab
        omega
  apply Nat.eq_of_testBit_eq
  intro j
  rw [Nat.zero_testBit]
  by_cases hj : j < 10
  · have hc : p.coeff j = 0 := by rw [hp0]; simp
    rw [hp, finset_sum_coeff, sum_eq_single_of_mem j (by simpa using hj)] at hc
    · cases hb : r.testBit j with
      | false => rfl
      | true => rw [hb, if_pos rfl, coeff_X_pow_self] at hc; exact absurd hc one_ne_zero
    · intro l _ hl
      split
      · rw [coeff_X_pow, if_neg (fun h => hl h.symm)]
      · simp
  · apply Nat.testBit_lt_two_pow
    refine lt_of_lt_of_le hr ?_
    have : (2 : Nat) ^ 10 ≤ 2 ^ j := Nat.pow_le_pow_right (by omega) (by omega)
    omega

/-! ## Format words are exactly the words with vanishing syndromes -/

/-- Whether the model's syndromes vanish (for evaluation). -/
def syndromesVanish (u : Nat) : Bool :=
  match format_syndromes u with
  | .ok (nz, _) => !nz
  | _ => false

theorem syndromesVanish_iff (u : Nat) : syndromesVanish u = true ↔ ∀ i, i < 6 → fsynd u i = 0 := by
  obtain ⟨nz, s, h1, h2, _⟩ := format_syndromes_spec u
  unfold syndromesVanish
  rw [h1]
  constructor
  · intro h i hi
    have h : nz = false := by simpa using h
    by_contra hne
    have := h2.mpr ⟨i, hi, hne⟩
    rw [h] at this; exact absurd this (by decide)
  · intro h
    cases nz with
    | false => rfl
    | true =>
      obtain ⟨i, hi, hne⟩ := h2.mp rfl
      exact absurd (h i hi) hne

theorem formatWord_basis : ∀ k < 5, syndromesVanish (formatWord (2 ^ k)) = true := by
  decide +kernel

theorem formatWord_eq_basis : ∀ d < 32, formatWord d =
    (if d.testBit 0 then formatWord (2 ^ 0) else 0) ^^^ (if d.testBit 1 then formatWord (2 ^ 1) else 0) ^^^
    (if d.testBit 2 then formatWord (2 ^ 2) else 0) ^^^ (if d.testBit 3 then formatWord (2 ^ 3) else 0) ^^^
    (if d.testBit 4 then formatWord (2 ^ 4) else 0) := by
  decide +kernel

theorem formatWord_lt : ∀ d < 32, formatWord d < 2 ^ 15 := by decide +kernel
theorem formatWord_shift : ∀ d < 32, formatWord d >>> 10 = d := by decide +kernel

theorem fsynd_formatWord (d : Nat) (hd : d < 32) (i : Nat) (hi : i < 6) : fsynd (formatWord d) i = 0 := by
  have hb : ∀ k < 5, ∀ b : Bool, fsynd (if b then formatWord (2 ^ k) else 0) i = 0 := by
    intro k hk b
    cases b with
    | true => exact (syndromesVanish_iff _).mp (formatWord_basis k hk) i hi
    | false => simp [fsynd]
  rw [formatWord_eq_basis d hd, fsynd_xor, fsynd_xor, fsynd_xor, fsynd_xor, hb 0 (by omega), hb 1 (by omega),
    hb 2 (by omega), hb 3 (by omega), hb 4 (by omega)]
  simp

theorem xor_shift_low {a b : Nat} (h : a >>> 10 = b >>> 10) : a ^^^ b < 1024 := by
  have : (a ^^^ b) >>> 10 = 0 := by rw [Nat.shiftRight_xor_distrib, h, Nat.xor_self]
  rw [Nat.shiftRight_eq_div_pow] at this
  have := Nat.div_eq_zero_iff.mp this
  omega

theorem formatWord_of_fsynd (w : Nat) (hw : w < 2 ^ 15) (h : ∀ i, i < 6 → fsynd w i = 0) :
    ∃ d, d < 32 ∧ w = formatWord d := by
  have hd : w >>> 10 < 32 := by rw [Nat.shiftRight_eq_div_pow]; omega
  refine ⟨w >>> 10, hd, ?_⟩
  have h0 := fsynd_low_zero (w ^^^ formatWord (w >>> 10)) (xor_shift_low (formatWord_shift _ hd).symm) (by
    intro i hi
    rw [fsynd_xor, h i hi, fsynd_formatWord _ hd i hi, add_zero])
  calc w = (w ^^^ formatWord (w >>> 10)) ^^^ formatWord (w >>> 10) := by
        rw [Nat.xor_assoc, Nat.xor_self, Nat.xor_zero]
    _ = formatWord (w >>> 10) := by rw [h0, Nat.zero_xor]

/-! ## The correction loop -/

theorem flip_loop (sigma : Arr64 GF16) (u : Nat) (hu : u < 2 ^ 15) :
    ∃ w, forRange 0 15 u (fun i word => do
      let e ← subU 15 i
      let v ← poly_eval sigma (gpow GF.generator e)
      pure (if v = 0 then word ^^^ (1 <<< i) else word)) = .ok w ∧ w < 2 ^ 15 ∧
      ∀ j, w.testBit j = (u.testBit j ^^ decide (j < 15 ∧ (polyOf sigma).eval (Yl j)⁻¹ = 0)) := by
  obtain ⟨w, h1, h2, h3⟩ := forRange_ok (lo := 0) (hi := 15) (s := u)
    (f := fun i word => do
      let e ← subU 15 i
      let v ← poly_eval sigma (gpow GF.generator e)
      pure (if v = 0 then word ^^^ (1 <<< i) else word))
    (fun i w => w < 2 ^ 15 ∧ ∀ j, w.testBit j = (u.testBit j ^^ decide (j < i ∧ (polyOf sigma).eval (Yl j)⁻¹ = 0)))
    (by omega) ⟨hu, by intro j; simp⟩ (by
      rintro i w _ hi ⟨hw1, hw2⟩
      have e1 : gpow (GF.generator : GF16) (15 - i) = (Yl i)⁻¹ := by
        rw [gpow_eq_pow]; exact beta_inv (by omega)
      refine ⟨if (polyOf sigma).eval (Yl i)⁻¹ = 0 then w ^^^ (1 <<< i) else w, ?_, ?_, ?_⟩
      · rw [subU_ok (by omega), Run.ok_bind, e1, poly_eval_polyOf, Run.ok_bind, Run.pure_eq]
      · split
        · apply Nat.xor_lt_two_pow hw1
          rw [Nat.one_shiftLeft]
          exact Nat.pow_lt_pow_right (by omega) hi
        · exact hw1
      · intro j
        by_cases hr : (polyOf sigma).eval (Yl i)⁻¹ = 0
        · rw [if_pos hr, Nat.testBit_xor, Nat.one_shiftLeft, Nat.testBit_two_pow, hw2 j]
          by_cases hij : i = j
          · subst hij
            simp [hr]
          · have : (decide (i = j)) = false := by simpa using hij
            rw [this, Bool.xor_false]
            congr 2
            apply propext
            constructor
            · rintro ⟨ha, hb⟩; exact ⟨by omega, hb⟩
            · rintro ⟨ha, hb⟩; exact ⟨by omega, hb⟩
        · rw [if_neg hr, hw2 j]
          congr 2
          apply propext
          constructor
          · rintro ⟨ha, hb⟩; exact ⟨by omega, hb⟩
          · rintro ⟨ha, hb⟩
            refine ⟨?_, hb⟩
            rcases Nat.lt_succ_iff_lt_or_eq.mp ha with h' | h'
            · exact h'
            · subst h'; exact absurd hb hr)
  exact ⟨w, h1, h2, h3⟩

/-- Description of a run of `correct_format`. -/
theorem correct_format_run (u : Nat) (hu : u < 2 ^ 15) :
    ((∀ i, i < 6 → fsynd u i = 0) ∧ correct_format u = .ok u) ∨
    ((∃ i, i < 6 ∧ fsynd u i ≠ 0) ∧ ∃ (sigma : Arr64 GF16) (L w : Nat),
      Generates (polyOf sigma).coeff L (fun i => if i < 6 then fsynd u i else 0) 6 ∧
      (∀ C' L', Generates C' L' (fun i => if i < 6 then fsynd u i else 0) 6 → L ≤ L') ∧
      w < 2 ^ 15 ∧
      (∀ j, w.testBit j = (u.testBit j ^^ decide (j < 15 ∧ (polyOf sigma).eval (Yl j)⁻¹ = 0))) ∧
      ((∃ i, i < 6 ∧ fsynd w i ≠ 0) ∧ correct_format u = .error (.err .FormatEcc) ∨
        (∀ i, i < 6 → fsynd w i = 0) ∧ correct_format u = .ok w)) := by
  obtain ⟨nz, s, hs1, hnz, hs2⟩ := format_syndromes_spec u
  have hrun : correct_format u = if nz = true then (do
      let sigma ← berlekamp_massey s 6
      let word ← forRange 0 15 u fun i word => do
        let e ← subU 15 i
        let v ← poly_eval sigma (gpow GF.generator e)
        pure (if v = 0 then word ^^^ (1 <<< i) else word)
      let (nonzero', _) ← format_syndromes word
      if nonzero' then .error (.err .FormatEcc) else pure word) else .ok u := by
    unfold correct_format
    rw [hs1, Run.ok_bind]
    rfl
  cases nz with
  | true =>
    right
    refine ⟨hnz.mp rfl, ?_⟩
    have hco : (co s) = fun i => if i < 6 then fsynd u i else 0 := funext hs2
    obtain ⟨sigma, L, hb1, hb2, hb3, hb4⟩ := berlekamp_massey_ok s 6 (by omega)
    obtain ⟨w, hw1, hw2, hw3⟩ := flip_loop sigma u hu
    rw [hco] at hb3 hb4
    have hpc : (polyOf sigma).coeff = co sigma := funext (polyOf_coeff sigma)
    refine ⟨sigma, L, w, by rw [hpc]; exact hb3, hb4, hw2, hw3, ?_⟩
    obtain ⟨nz', s', hs1', hnz', _⟩ := format_syndromes_spec w
    rw [if_pos rfl, hb1, Run.ok_bind, hw1, Run.ok_bind, hs1', Run.ok_bind] at hrun
    cases nz' with
    | true => left; exact ⟨hnz'.mp rfl, hrun⟩
    | false =>
      right
      refine ⟨?_, hrun⟩
      intro i hi
      by_contra h
      have := hnz'.mpr ⟨i, hi, h⟩
      exact absurd this (by decide)
  | false =>
    left
    refine ⟨?_, hrun⟩
    intro i hi
    by_contra h
    have := hnz.mpr ⟨i, hi, h⟩
    exact absurd this (by decide)

/-- Words of 15 bits that agree on all bit positions below 15 are equal. -/
theorem word_ext {a b : Nat} (ha : a < 2 ^ 15) (hb : b < 2 ^ 15) (h : ∀ j, j < 15 → a.testBit j = b.testBit j) :
    a = b := by
  apply Nat.eq_of_testBit_eq
  intro j
  by_cases hj : j < 15
  · exact h j hj
  · have h1 : (2 : Nat) ^ 15 ≤ 2 ^ j := Nat.pow_le_pow_right (by omega) (by omega)
    rw [Nat.testBit_lt_two_pow (lt_of_lt_of_le ha h1), Nat.testBit_lt_two_pow (lt_of_lt_of_le hb h1)]

/-- Up to three bit errors are corrected. -/
theorem correct_format_corrects (u : Nat) (hu : u < 2 ^ 15) (d : Nat) (hd : d < 32)
    (hdist : bitDist u (formatWord d) ≤ 3) : correct_format u = .ok (formatWord d) := by
  set c := formatWord d with hc
  have hc15 : c < 2 ^ 15 := formatWord_lt d hd
  have hc0 : ∀ i, i < 6 → fsynd c i = 0 := fsynd_formatWord d hd
  rw [bitDist_eq_card] at hdist
  set E := bitDiff u c with hE
  have hEsub : E ⊆ range 15 := filter_subset _ _
  have hsyn : ∀ i, i < 6 → fsynd u i = psum Yl Yl E i := fun i hi => fsynd_diff hc0 i hi
  have hX : ∀ j ∈ E, Yl j ≠ 0 := fun j _ => Yl_ne_zero j
  have hinj : Set.InjOn Yl E := Yl_injOn hEsub
  rcases correct_format_run u hu with ⟨h1, h2⟩ | ⟨_, sigma, L, w, hg, hmin, hw1, hw2, hres⟩
  · rw [h2]
    congr 1
    apply word_ext hu hc15
    have : E = ∅ := by
      by_contra hne
      have := vandermonde Yl Yl E hinj (by
        intro t ht
        have := hsyn t (by omega)
        rw [h1 t (by omega)] at this
        exact this.symm)
      obtain ⟨j, hj⟩ := nonempty_iff_ne_empty.mpr hne
      exact hX j hj (this j hj)
    intro j hj
    by_contra h
    have hjE : j ∈ E := mem_filter.mpr ⟨by simpa using hj, h⟩
    rw [this] at hjE
    simp at hjE
  · have hS : ∀ k, k < 6 → (fun i => if i < 6 then fsynd u i else 0) k = psum Yl Yl E k := by
      intro k hk; simp only [if_pos hk]; exact hsyn k hk
    have hL : L ≤ E.card := hmin _ _ (loc_generates Yl Yl E hX hS)
    have hσ : polyOf sigma = loc Yl E := generates_eq_loc Yl Yl E hX hinj hX hS _ hg hL (by omega)
    have hroot : ∀ j, j < 15 → ((polyOf sigma).eval (Yl j)⁻¹ = 0 ↔ j ∈ E) := by
      intro j hj
      rw [hσ, loc_eval_eq_zero_iff Yl E (Yl_ne_zero j)]
      constructor
      · rintro ⟨l, hl, h⟩
        have hl' : l < 15 := by simpa using hEsub hl
        have := beta_inj hl' hj h
        rwa [← this]
      · intro h; exact ⟨j, h, rfl⟩
    have hwc : w = c := by
      apply word_ext hw1 hc15
      intro j hj
      rw [hw2 j]
      by_cases hjE : j ∈ E
      · rw [decide_eq_true ⟨hj, (hroot j hj).mpr hjE⟩]
        have := (mem_filter.mp hjE).2
        revert this
        cases u.testBit j <;> cases c.testBit j <;> simp
      · rw [decide_eq_false (fun h => hjE ((hroot j hj).mp h.2)), Bool.xor_false]
        by_contra h
        exact hjE (mem_filter.mpr ⟨by simpa using hj, h⟩)
    rcases hres with ⟨⟨i, hi, hne⟩, _⟩ | ⟨_, h⟩
    · exfalso; apply hne; rw [hwc]; exact hc0 i hi
    · rw [h, hwc]

/-- Outcomes of `correct_format`: a nearest format word, or `FormatEcc`. -/
theorem correct_format_cases (u : Nat) (hu : u < 2 ^ 15) :
    (∃ d, d < 32 ∧ correct_format u = .ok (formatWord d) ∧
      ∀ d', d' < 32 → bitDist u (formatWord d) ≤ bitDist u (formatWord d')) ∨
    correct_format u = .error (.err .FormatEcc) := by
  rcases correct_format_run u hu with ⟨h1, h2⟩ | ⟨_, sigma, L, w, hg, hmin, hw1, hw2, hres⟩
  · left
    obtain ⟨d, hd, rfl⟩ := formatWord_of_fsynd u hu h1
    refine ⟨d, hd, h2, ?_⟩
    intro d' _
    rw [bitDist_eq_card]
    simp [bitDiff]
  · rcases hres with ⟨_, h⟩ | ⟨h0, h⟩
    · right; exact h
    · left
      obtain ⟨d, hd, rfl⟩ := formatWord_of_fsynd w hw1 h0
      refine ⟨d, hd, h, ?_⟩
      intro d' hd'
      rw [bitDist_eq_card, bitDist_eq_card]
      have hL : L ≤ (bitDiff u (formatWord d')).card := by
        apply hmin _ _ (loc_generates Yl Yl (bitDiff u (formatWord d')) (fun j _ => Yl_ne_zero j) ?_)
        intro k hk
        simp only [if_pos hk]
        exact fsynd_diff (fsynd_formatWord d' hd') k hk
      refine le_trans ?_ hL
      have := card_roots_le Yl (range 15) (Yl_injOn (subset_refl _)) (polyOf sigma) hg.zero
        (natDegree_le_of_coeff hg.deg)
      refine le_trans (card_le_card ?_) this
      intro j hj
      obtain ⟨hj1, hj2⟩ := mem_filter.mp hj
      refine mem_filter.mpr ⟨hj1, ?_⟩
      by_contra hr0
      apply hj2
      rw [hw2 j, decide_eq_false (fun h => hr0 h.2), Bool.xor_false]

end Rqrr
