import Verif.Proofs.RSBlock

/-!
# Reed-Solomon: soundness, correction radius, nearest codeword
-/

namespace Rqrr

open Finset Spec

open Polynomial in
theorem codePoly_eval (b : List Byte) (x : GF256) :
    (codePoly b).eval x = ∑ j ∈ range b.length, sval b j * x ^ j := by
  induction b with
  | nil => simp [codePoly]
  | cons a b ih =>
    rw [codePoly, eval_add, eval_mul, eval_C, eval_pow, eval_X, ih, List.length_cons, sum_range_succ, add_comm]
    congr 1
    · apply sum_congr rfl
      intro j hj
      have hj : j < b.length := by simpa using hj
      congr 1
      unfold sval
      rw [List.length_cons, show b.length + 1 - 1 - j = (b.length - 1 - j) + 1 by omega, List.getD_cons_succ]
    · unfold sval
      rw [List.length_cons, show b.length + 1 - 1 - b.length = 0 by omega, List.getD_cons_zero]

open Polynomial in
theorem prod_X_sub_C_dvd_iff {F : Type} [Field F] (a : Nat → F) (n : Nat)
    (hinj : ∀ i j, i < n → j < n → a i = a j → i = j) (p : F[X]) :
    (∏ i ∈ range n, (X - C (a i))) ∣ p ↔ ∀ i, i < n → p.eval (a i) = 0 := by
  constructor
  · intro h i hi
    have : (X - C (a i)) ∣ p :=
      (dvd_prod_of_mem (fun i => X - C (a i)) (mem_range.mpr hi)).trans h
    exact dvd_iff_isRoot.mp this
  · intro h
    apply Finset.prod_dvd_of_coprime
    · intro i hi j hj hij
      have hi : i < n := by simpa using hi
      have hj : j < n := by simpa using hj
      apply isCoprime_X_sub_C_of_isUnit_sub
      rw [isUnit_iff_ne_zero, sub_ne_zero]
      intro h
      exact hij (hinj i j hi hj h)
    · intro i hi
      rw [dvd_iff_isRoot]
      exact h i (by simpa using hi)

open Polynomial in
theorem isCodeword_iff (npar : Nat) (hn : npar ≤ 255) (b : List Byte) :
    IsCodeword npar b ↔ ∀ i, i < npar → synd b i = 0 := by
  have hs : ∀ i, synd b i = (codePoly b).eval (α ^ i) := by
    intro i
    rw [codePoly_eval]
    unfold synd
    apply sum_congr rfl
    intro j _
    rw [pow_mul]
  unfold IsCodeword genPoly
  simp only [hs]
  refine prod_X_sub_C_dvd_iff (fun i => α ^ i) npar ?_ (codePoly b)
  intro i j hi hj h
  exact alpha_inj (by omega) (by omega) h

/-- The coefficient positions in which two blocks differ. -/
def diffSet (a b : List Byte) : Finset Nat := (range a.length).filter fun j => sval a j ≠ sval b j

theorem hdist_eq_card {a b : List Byte} (hlen : a.length = b.length) : hdist a b = (diffSet a b).card := by
  induction a generalizing b with
  | nil => simp [hdist, diffSet]
  | cons x a ih =>
    cases b with
    | nil => simp at hlen
    | cons y b =>
      have hlen' : a.length = b.length := by simpa using hlen
      rw [hdist, ih hlen']
      unfold diffSet
      rw [List.length_cons, range_add_one, filter_insert]
      have e1 : ∀ (z : Byte) (l : List Byte) j, j < l.length → sval (z :: l) j = sval l j := by
        intro z l j hj
        unfold sval
        rw [List.length_cons, show l.length + 1 - 1 - j = (l.length - 1 - j) + 1 by omega, List.getD_cons_succ]
      have e2 : ∀ (z : Byte) (l : List Byte), sval (z :: l) l.length = ⟨z⟩ := by
        intro z l
        unfold sval
        rw [List.length_cons, show l.length + 1 - 1 - l.length = 0 by omega, List.getD_cons_zero]
      have e3 : filter (fun j => sval (x :: a) j ≠ sval (y :: b) j) (range a.length)
          = filter (fun j => sval a j ≠ sval b j) (range a.length) := by
        apply filter_congr
        intro j hj
        have hj : j < a.length := by simpa using hj
        rw [e1 x a j hj, e1 y b j (by omega)]
      rw [e3, e2 x a, hlen', e2 y b]
      by_cases h : x = y
      · subst h; simp
      · have hne : (⟨x⟩ : GF256) ≠ ⟨y⟩ := fun h' => h (congrArg GF.val h')
        rw [if_pos hne, if_neg h, card_insert_of_notMem (by simp)]
        omega

/-- The syndromes of a damaged codeword are the power sums of the errors. -/
theorem synd_diff {r c : List Byte} (hlen : r.length = c.length) {npar : Nat}
    (hc : ∀ i, i < npar → synd c i = 0) (i : Nat) (hi : i < npar) :
    synd r i = psum Xl (fun j => sval r j - sval c j) (diffSet r c) i := by
  have h1 : synd r i = synd r i - synd c i := by rw [hc i hi, sub_zero]
  rw [h1]
  unfold synd psum diffSet Xl
  rw [hlen, ← sum_sub_distrib, sum_filter]
  apply sum_congr rfl
  intro j _
  rw [← pow_mul, mul_comm j i]
  split
  · ring
  · rename_i h
    have h : sval r j = sval c j := by simpa using h
    rw [h]; ring

theorem Xl_injOn {s : Finset Nat} {n : Nat} (hs : s ⊆ range n) (hn : n ≤ 255) : Set.InjOn Xl s := by
  intro a ha b hb h
  have ha : a < n := by simpa using hs ha
  have hb : b < n := by simpa using hs hb
  exact alpha_inj (by omega) (by omega) h

theorem Xl_ne_zero (j : Nat) : Xl j ≠ 0 := alpha_pow_ne_zero j

theorem diffSet_subset (a b : List Byte) : diffSet a b ⊆ range a.length := filter_subset _ _

/-- Correction succeeds and restores the codeword when at most half of the check symbols are in error. -/
theorem correct_block_corrects (c r : List Byte) (ecc : RSParameters) (hc : c.length = ecc.bs) (hr : r.length = ecc.bs)
    (hdw : ecc.dw < ecc.bs) (hnpar : ecc.bs - ecc.dw < 64) (hbs : ecc.bs ≤ 255)
    (hcw : IsCodeword (ecc.bs - ecc.dw) c) (hd : 2 * hdist r c ≤ ecc.bs - ecc.dw) :
    correct_block r ecc = .ok c := by
  set npar := ecc.bs - ecc.dw with hnp
  have hlen : r.length = c.length := by omega
  have hc0 := (isCodeword_iff npar (by omega) c).mp hcw
  rw [hdist_eq_card hlen] at hd
  set E := diffSet r c with hE
  set e : Nat → GF256 := fun j => sval r j - sval c j with he
  have hEsub : E ⊆ range r.length := diffSet_subset r c
  have hsyn : ∀ i, i < npar → synd r i = psum Xl e E i := fun i hi => synd_diff hlen hc0 i hi
  have hX : ∀ j ∈ E, Xl j ≠ 0 := fun j _ => Xl_ne_zero j
  have hinj : Set.InjOn Xl E := Xl_injOn hEsub (by omega)
  have hene : ∀ j ∈ E, e j ≠ 0 := by
    intro j hj
    have := (mem_filter.mp hj).2
    exact sub_ne_zero.mpr this
  rcases correct_block_run r ecc hr hdw hnpar hbs with ⟨h1, h2⟩ | ⟨⟨i0, hi0, hne⟩, sigma, sd, om, L, hg, hmin, hsd, hom, hres⟩
  · -- no syndrome: E is empty
    rw [h2]
    congr 1
    apply block_ext hlen
    have : E = ∅ := by
      by_contra hne
      have hpos : 0 < E.card := card_pos.mpr (nonempty_iff_ne_empty.mpr hne)
      have := vandermonde Xl e E hinj (by
        intro t ht
        have := hsyn t (by omega)
        rw [h1 t (by omega)] at this
        exact this.symm)
      obtain ⟨j, hj⟩ := nonempty_iff_ne_empty.mpr hne
      exact hene j hj (this j hj)
    intro j hj
    by_contra h
    have hjE : j ∈ E := mem_filter.mpr ⟨by simpa using hj, h⟩
    rw [this] at hjE
    simp at hjE
  · have hS : ∀ k, k < npar → (fun i => if i < npar then synd r i else 0) k = psum Xl e E k := by
      intro k hk; simp only [if_pos hk]; exact hsyn k hk
    have hL : L ≤ E.card := hmin _ _ (loc_generates Xl e E hX hS)
    have hσ : polyOf sigma = loc Xl E := generates_eq_loc Xl e E hX hinj hene hS _ hg hL hd
    have hEpos : 0 < E.card := by
      rcases Nat.eq_zero_or_pos E.card with h | h
      · exfalso; apply hne
        rw [hsyn i0 hi0]
        rw [card_eq_zero] at h
        rw [h]; simp [psum]
      · exact h
    -- the evaluator polynomial
    have hω : polyOf om = evalPoly Xl e E := by
      ext k
      rw [polyOf_coeff, hom k, evalPoly_coeff]
      by_cases hk : k < npar - 1
      · rw [← sum_subset (s₁ := range (k + 1)) (s₂ := range (npar - 1))]
        · apply sum_congr rfl
          intro a ha
          have ha : a < k + 1 := by simpa using ha
          rw [if_pos ⟨by omega, hk⟩, if_pos (by omega), ← polyOf_coeff, hσ, hsyn _ (by omega)]
        · intro a; simp; omega
        · intro a _ ha
          rw [if_neg (by simp at ha; omega)]
      · rw [sum_eq_zero (by intro a _; rw [if_neg (by omega)]), ← evalPoly_coeff]
        symm
        apply Polynomial.coeff_eq_zero_of_natDegree_lt
        have := evalPoly_natDegree Xl e E
        omega
    have hroot : ∀ j, j < r.length → ((polyOf sigma).eval (Xl j)⁻¹ = 0 ↔ j ∈ E) := by
      intro j hj
      rw [hσ, loc_eval_eq_zero_iff Xl E (Xl_ne_zero j)]
      constructor
      · rintro ⟨l, hl, h⟩
        have hl' : l < r.length := by simpa using hEsub hl
        have := alpha_inj (by omega) (by omega) h
        rwa [← this]
      · intro h; exact ⟨j, h, rfl⟩
    have hsdne : ∀ j, j ∈ E → (polyOf sd).eval (Xl j)⁻¹ ≠ 0 := by
      intro j hj
      rw [hsd, hσ, loc_derivative_eval Xl E hj (Xl_ne_zero j), neg_ne_zero]
      exact mul_ne_zero (Xl_ne_zero j) (loc_erase_eval_ne_zero Xl E hinj hj (Xl_ne_zero j))
    rcases hres with ⟨blk', hb1, hb2, hb3⟩ | ⟨_, i, hi, hr0, hr1⟩
    · have hblk : blk' = c := by
        apply block_ext (by omega)
        intro j hj
        have hj : j < r.length := by omega
        rw [hb2 j hj]
        by_cases hjE : j ∈ E
        · rw [if_pos ((hroot j hj).mpr hjE), hω, evalPoly_eval Xl e E hjE hX, hsd, hσ,
            loc_derivative_eval Xl E hjE (Xl_ne_zero j), CharTwo.neg_eq]
          have h1 : Xl j * Polynomial.eval (Xl j)⁻¹ (loc Xl (E.erase j)) ≠ 0 :=
            mul_ne_zero (Xl_ne_zero j) (loc_erase_eval_ne_zero Xl E hinj hjE (Xl_ne_zero j))
          rw [mul_assoc, mul_div_assoc, div_self h1, mul_one, he]
          simp only
          rw [CharTwo.sub_eq_add, ← add_assoc, CharTwo.add_self_eq_zero, zero_add]
        · rw [if_neg (fun h => hjE ((hroot j hj).mp h))]
          by_contra h
          exact hjE (mem_filter.mpr ⟨by simpa using hj, h⟩)
      rcases hb3 with ⟨⟨i, hi, hne'⟩, _⟩ | ⟨_, h⟩
      · exfalso; apply hne'; rw [hblk]; exact hc0 i hi
      · rw [h, hblk]
    · exact absurd hr1 (hsdne i ((hroot i hi).mp hr0))

/-- Outcomes of `correct_block`. -/
theorem correct_block_cases (r : List Byte) (ecc : RSParameters) (hr : r.length = ecc.bs)
    (hdw : ecc.dw < ecc.bs) (hnpar : ecc.bs - ecc.dw < 64) (hbs : ecc.bs ≤ 255) :
    (∃ c, correct_block r ecc = .ok c ∧ c.length = r.length ∧ IsCodeword (ecc.bs - ecc.dw) c ∧
      ∀ c', c'.length = r.length → IsCodeword (ecc.bs - ecc.dw) c' → hdist r c ≤ hdist r c') ∨
    correct_block r ecc = .error (.err .DataEcc) := by
  set npar := ecc.bs - ecc.dw with hnp
  rcases correct_block_run r ecc hr hdw hnpar hbs with ⟨h1, h2⟩ | ⟨⟨i0, hi0, hne⟩, sigma, sd, om, L, hg, hmin, hsd, hom, hres⟩
  · left
    refine ⟨r, h2, rfl, (isCodeword_iff npar (by omega) r).mpr h1, ?_⟩
    intro c' _ _
    have : hdist r r = 0 := by
      rw [hdist_eq_card rfl]; simp [diffSet]
    omega
  · rcases hres with ⟨blk', hb1, hb2, hb3⟩ | ⟨h, _⟩
    · rcases hb3 with ⟨_, h⟩ | ⟨h0, h⟩
      · right; exact h
      · left
        refine ⟨blk', h, hb1, (isCodeword_iff npar (by omega) blk').mpr h0, ?_⟩
        intro c' hc' hcw'
        have hlen : r.length = c'.length := by omega
        rw [hdist_eq_card hb1.symm, hdist_eq_card hlen]
        have hL : L ≤ (diffSet r c').card := by
          apply hmin _ _ (loc_generates Xl (fun j => sval r j - sval c' j) (diffSet r c') (fun j _ => Xl_ne_zero j) ?_)
          intro k hk
          simp only [if_pos hk]
          exact synd_diff hlen ((isCodeword_iff npar (by omega) c').mp hcw') k hk
        refine le_trans ?_ hL
        have := card_roots_le Xl (range r.length) (Xl_injOn (subset_refl _) (by omega)) (polyOf sigma) hg.zero
          (natDegree_le_of_coeff hg.deg)
        refine le_trans (card_le_card ?_) this
        intro j hj
        obtain ⟨hj1, hj2⟩ := mem_filter.mp hj
        have hj1' : j < r.length := by simpa using hj1
        refine mem_filter.mpr ⟨hj1, ?_⟩
        by_contra hr0
        apply hj2
        rw [hb2 j hj1', if_neg hr0]
    · right; exact h

/-- Codewords are left alone. -/
theorem correct_block_codeword (r : List Byte) (ecc : RSParameters) (hr : r.length = ecc.bs)
    (hdw : ecc.dw < ecc.bs) (hnpar : ecc.bs - ecc.dw < 64) (hbs : ecc.bs ≤ 255)
    (hcw : IsCodeword (ecc.bs - ecc.dw) r) : correct_block r ecc = .ok r := by
  have h0 := (isCodeword_iff (ecc.bs - ecc.dw) (by omega) r).mp hcw
  rcases correct_block_run r ecc hr hdw hnpar hbs with ⟨_, h2⟩ | ⟨⟨i0, hi0, hne⟩, _⟩
  · exact h2
  · exact absurd (h0 i0 hi0) hne

end Rqrr
