import Verif.Proofs.PolyOps
import Mathlib.Algebra.CharP.Two
import Mathlib.Tactic.Ring

/-!
# Correctness of the Berlekamp-Massey loop: the computed feedback polynomial generates the syndromes and is shortest
-/

set_option linter.unusedSectionVars false

namespace Rqrr

open Finset

variable {G : Type} [Field G] [DecidableEq G]

/-- `(L, C)` generates `S 0 .. S (n-1)`. -/
structure Generates (C : Nat → G) (L : Nat) (S : Nat → G) (n : Nat) : Prop where
  zero : C 0 = 1
  deg : ∀ i, L < i → C i = 0
  rel : ∀ k, L ≤ k → k < n → disc C L S k = 0

theorem Generates.mono {C : Nat → G} {L : Nat} {S : Nat → G} {n n' : Nat} (h : Generates C L S n) (hn : n' ≤ n) :
    Generates C L S n' := ⟨h.zero, h.deg, fun k h1 h2 => h.rel k h1 (by omega)⟩

/-- A longer summation range does not change the discrepancy when the further coefficients vanish. -/
theorem disc_extend (C : Nat → G) (S : Nat → G) {L L' : Nat} (n : Nat) (hL : L ≤ L') (h : ∀ i, L < i → C i = 0) :
    disc C L' S n = disc C L S n := by
  unfold disc
  symm
  apply sum_subset
  · intro i; simp; omega
  · intro i _ hi
    rw [h i (by simpa using hi), zero_mul]

/-- Massey's lemma: if `(L, C)` generates up to `n` but fails at `n`, any `(L', C')` that generates through `n`
is long. -/
theorem massey (C C' : Nat → G) (S : Nat → G) {L L' n : Nat} (hL : L ≤ n)
    (hC : Generates C L S n) (hfail : disc C L S n ≠ 0)
    (hC' : Generates C' L' S (n + 1)) : n + 1 - L ≤ L' := by
  by_contra hlt
  have hle : L' + L ≤ n := by omega
  apply hfail
  have e1 : ∑ j ∈ range (L' + 1), C' j * disc C L S (n - j) = disc C L S n := by
    rw [sum_range_succ']
    rw [sum_eq_zero, zero_add]
    · simp [hC'.zero]
    · intro j hj
      have : j < L' := by simpa using hj
      rw [hC.rel (n - (j + 1)) (by omega) (by omega), mul_zero]
  have e2 : ∑ i ∈ range (L + 1), C i * disc C' L' S (n - i) = 0 := by
    apply sum_eq_zero
    intro i hi
    have : i < L + 1 := by simpa using hi
    rw [hC'.rel (n - i) (by omega) (by omega), mul_zero]
  rw [← e1, ← e2]
  unfold disc
  simp_rw [mul_sum]
  rw [sum_comm]
  apply sum_congr rfl
  intro i _
  apply sum_congr rfl
  intro j _
  rw [Nat.sub_right_comm n i j]; ring

/-- Discrepancy of the updated polynomial `C + mult * x^m * B`. -/
theorem disc_update (C B C' : Nat → G) (S : Nat → G) (mult : G) {L LB m L' k : Nat}
    (hC' : ∀ p, C' p = C p + (if m ≤ p ∧ p < 64 then B (p - m) * mult else 0))
    (hdeg : ∀ i, L < i → C i = 0) (hdegB : ∀ i, LB < i → B i = 0)
    (hL : L ≤ L') (hB : m + LB ≤ L') (h64 : m + LB < 64) :
    disc C' L' S k = disc C L S k + mult * disc B LB S (k - m) := by
  rw [← disc_extend C S k hL hdeg]
  unfold disc
  have : ∀ i, C' i * S (k - i) = C i * S (k - i) +
      (if m ≤ i ∧ i < 64 then B (i - m) * mult * S (k - i) else 0) := by
    intro i; rw [hC' i]; split <;> ring
  simp_rw [this]
  rw [sum_add_distrib]
  congr 1
  rw [mul_sum]
  rw [← sum_subset (s₁ := (range (LB + 1)).map (addRightEmbedding m))]
  · rw [sum_map]
    apply sum_congr rfl
    intro i hi
    have : i < LB + 1 := by simpa using hi
    simp only [addRightEmbedding_apply]
    rw [if_pos (by omega), Nat.add_sub_cancel, show k - (i + m) = k - m - i by omega]
    ring
  · intro i hi
    simp only [mem_map, mem_range, addRightEmbedding_apply] at hi ⊢
    omega
  · intro i _ hi
    simp only [mem_map, mem_range, addRightEmbedding_apply, not_exists, not_and] at hi
    by_cases h : m ≤ i ∧ i < 64
    · rw [if_pos h]
      have : LB < i - m := by
        by_contra hlt
        exact hi (i - m) (by omega) (by omega)
      rw [hdegB _ this, zero_mul, zero_mul]
    · rw [if_neg h]

/-- Loop invariant of Berlekamp-Massey. -/
structure BMInv (S : Nat → G) (n : Nat) (st : BMState G) : Prop where
  len : st.l ≤ n
  gen : Generates (co st.cs) st.l S n
  b_ne : st.b ≠ 0
  shortest : ∀ C' L', Generates C' L' S n → st.l ≤ L'
  prev : (st.l = 0 ∧ st.m = n + 1 ∧ co st.bs 0 = 1 ∧ (∀ i, 0 < i → co st.bs i = 0)) ∨
    ∃ LB k, k + st.m = n ∧ LB + st.l = k + 1 ∧ (∀ i, LB < i → co st.bs i = 0) ∧
      (∀ j, LB ≤ j → j < k → disc (co st.bs) LB S j = 0) ∧ disc (co st.bs) LB S k = st.b ∧ LB ≤ k ∧ 1 ≤ st.m

theorem bm_step_ok [CharP G 2] (s : Arr64 G) (n : Nat) (hn : n < 63) (st : BMState G) (h : BMInv (co s) n st) :
    ∃ st', bm_step s n st = .ok st' ∧ BMInv (co s) (n + 1) st' := by
  obtain ⟨len, gen, b_ne, shortest, prev⟩ := h
  set d := disc (co st.cs) st.l (co s) n with hd
  have hmult : gdiv d st.b = .ok (d / st.b) := by simp [gdiv, b_ne]
  unfold bm_step
  rw [bm_discrepancy_eq s st.cs st.l n (by omega) len gen.zero, ← hd, Run.ok_bind, hmult, Run.ok_bind]
  by_cases hd0 : d = 0
  · rw [if_pos hd0]
    refine ⟨_, rfl, ⟨by simp; omega, ⟨gen.zero, gen.deg, ?_⟩, b_ne, ?_, ?_⟩⟩
    · intro k h1 h2
      rcases Nat.lt_succ_iff_lt_or_eq.mp h2 with h | h
      · exact gen.rel k h1 h
      · subst h; exact hd0
    · intro C' L' hg; exact shortest C' L' (hg.mono (by omega))
    · rcases prev with ⟨h1, h2, h3⟩ | ⟨LB, k, h1, h2, h3, h4, h5, h6, h7⟩
      · exact .inl ⟨h1, by simp [h2], h3⟩
      · exact .inr ⟨LB, k, by simp only; omega, h2, h3, h4, h5, h6, by simp⟩
  · rw [if_neg hd0]
    obtain ⟨cs', hcs1, hcs2⟩ := poly_add_spec st.cs st.bs (d / st.b) st.m
    have hcs0 : 1 ≤ st.m → co cs' 0 = 1 := by
      intro hm; rw [hcs2, if_neg (by omega), add_zero]; exact gen.zero
    by_cases hl : st.l * 2 ≤ n
    · rw [if_pos hl]
      simp only [hcs1, Run.ok_bind, subU_ok (show st.l ≤ n + 1 by omega), Run.pure_eq]
      refine ⟨_, rfl, ⟨by simp, ⟨?_, ?_, ?_⟩, hd0, ?_, ?_⟩⟩
      · apply hcs0
        rcases prev with ⟨h1, h2, h3⟩ | ⟨LB, k, h1, h2, h3, h4, h5, h6, h7⟩ <;> omega
      · intro i hi
        simp only at hi ⊢
        rw [hcs2, gen.deg i (by omega), zero_add]
        rcases prev with ⟨h1, h2, h3, h4⟩ | ⟨LB, k, h1, h2, h3, h4, h5, h6, h7⟩
        · split
          · rw [h4 _ (by omega), zero_mul]
          · rfl
        · split
          · rw [h3 _ (by omega), zero_mul]
          · rfl
      · intro k' hk1 hk2
        simp only at hk1 hk2 ⊢
        rcases prev with ⟨h1, h2, h3, h4⟩ | ⟨LB, k, h1, h2, h3, h4, h5, h6, h7⟩
        · omega
        · rw [disc_update (co st.cs) (co st.bs) (co cs') (co s) (d / st.b) hcs2 gen.deg h3 (by omega) (by omega)
            (by omega)]
          rcases Nat.lt_succ_iff_lt_or_eq.mp hk2 with h | h
          · rw [gen.rel k' (by omega) h, h4 (k' - st.m) (by omega) (by omega), mul_zero, add_zero]
          · subst h
            rw [show k' - st.m = k by omega, h5, ← hd, div_mul_cancel₀ _ b_ne, CharTwo.add_self_eq_zero]
      · intro C' L' hg
        have := massey (co st.cs) C' (co s) len gen hd0 hg
        simpa using this
      · refine .inr ⟨st.l, n, by simp, by simp; omega, gen.deg, ?_, rfl, by omega, by simp⟩
        intro j h1 h2; exact gen.rel j h1 h2
    · rw [if_neg hl]
      simp only [hcs1, Run.ok_bind, Run.pure_eq]
      rcases prev with ⟨h1, h2, h3, h4⟩ | ⟨LB, k, h1, h2, h3, h4, h5, h6, h7⟩
      · omega
      refine ⟨_, rfl, ⟨by simp; omega, ⟨hcs0 h7, ?_, ?_⟩, b_ne, ?_, ?_⟩⟩
      · intro i hi
        simp only at hi ⊢
        rw [hcs2, gen.deg i (by omega), zero_add]
        split
        · rw [h3 _ (by omega), zero_mul]
        · rfl
      · intro k' hk1 hk2
        simp only at hk1 hk2 ⊢
        rw [disc_update (co st.cs) (co st.bs) (co cs') (co s) (d / st.b) hcs2 gen.deg h3 (le_refl _) (by omega)
            (by omega)]
        rcases Nat.lt_succ_iff_lt_or_eq.mp hk2 with h | h
        · rw [gen.rel k' (by omega) h, h4 (k' - st.m) (by omega) (by omega), mul_zero, add_zero]
        · subst h
          rw [show k' - st.m = k by omega, h5, ← hd, div_mul_cancel₀ _ b_ne, CharTwo.add_self_eq_zero]
      · intro C' L' hg; exact shortest C' L' (hg.mono (by omega))
      · exact .inr ⟨LB, k, by simp only; omega, h2, h3, h4, h5, h6, by simp⟩

/-- Berlekamp-Massey returns a shortest feedback polynomial of the first `n` syndromes. -/
theorem berlekamp_massey_ok [CharP G 2] (s : Arr64 G) (n : Nat) (hn : n < 64) :
    ∃ cs L, berlekamp_massey s n = .ok cs ∧ L ≤ n ∧ Generates (co cs) L (co s) n ∧
      ∀ C' L', Generates C' L' (co s) n → L ≤ L' := by
  unfold berlekamp_massey
  obtain ⟨v, hv1, hv2⟩ := aset_co (Vector.replicate 64 (0 : G)) (1 : G) (by omega : 0 < 64)
  have hv : ∀ j, co v j = if j = 0 then 1 else 0 := by
    intro j; rw [hv2 j, co_replicate]
  simp only [hv1, Run.ok_bind]
  obtain ⟨st, h1, h2⟩ := forRange_ok (lo := 0) (hi := n) (s := ({ cs := v, bs := v, l := 0, m := 1, b := 1 } : BMState G))
    (f := bm_step s) (fun k st => BMInv (co s) k st) (by omega)
    ⟨by simp, ⟨by simp [hv], by intro i hi; simp only at hi; rw [hv, if_neg (by omega)], by intro k _ h; omega⟩,
      one_ne_zero, by intro C' L' _; simp,
      .inl ⟨rfl, rfl, by simp [hv], by intro i hi; simp only; rw [hv, if_neg (by omega)]⟩⟩
    (by intro i st _ hi h; exact bm_step_ok s i (by omega) st h)
  refine ⟨st.cs, st.l, ?_, h2.len, h2.gen, h2.shortest⟩
  rw [h1]; rfl

end Rqrr
