import Verif.Proofs.BM
import Mathlib.Algebra.Polynomial.BigOperators
import Mathlib.Algebra.Polynomial.Roots
import Mathlib.Algebra.Polynomial.Derivative
import Mathlib.LinearAlgebra.Lagrange
import Mathlib.Tactic.FieldSimp

/-!
# Error locator theory

A power-sum sequence `S k = Σ_{j∈E} e j * X j ^ k` with few terms determines its locator polynomial
`Π_{j∈E} (1 - X_j x)`; the Chien search and the Forney formula then recover the positions `E` and the values `e`.
-/

set_option linter.unusedSectionVars false

namespace Rqrr

open Finset Polynomial

variable {G : Type} [Field G] [DecidableEq G]

/-- The locator polynomial of the positions `E` with locators `X`. -/
noncomputable def loc (X : Nat → G) (E : Finset Nat) : G[X] := ∏ j ∈ E, (1 - Polynomial.C (X j) * Polynomial.X)

/-- The power sums of the values `e` at the positions `E`. -/
def psum (X e : Nat → G) (E : Finset Nat) (k : Nat) : G := ∑ j ∈ E, e j * X j ^ k

/-- The polynomial with coefficient array `v`. -/
noncomputable def polyOf (v : Arr64 G) : G[X] := ∑ i ∈ range 64, Polynomial.C (co v i) * Polynomial.X ^ i

theorem polyOf_coeff (v : Arr64 G) (i : Nat) : (polyOf v).coeff i = co v i := by
  unfold polyOf
  rw [finset_sum_coeff]
  simp only [coeff_C_mul, coeff_X_pow]
  by_cases hi : i < 64
  · rw [sum_eq_single i]
    · simp
    · intro j _ hj; rw [if_neg (by omega), mul_zero]
    · intro h; simp at h; omega
  · rw [co_ge v (by omega)]
    apply sum_eq_zero
    intro j hj
    have : j < 64 := by simpa using hj
    rw [if_neg (by omega), mul_zero]

theorem polyOf_eval (v : Arr64 G) (x : G) : (polyOf v).eval x = ∑ i ∈ range 64, co v i * x ^ i := by
  unfold polyOf; simp [eval_finset_sum]

theorem poly_eval_polyOf (v : Arr64 G) (x : G) : poly_eval v x = .ok ((polyOf v).eval x) := by
  rw [poly_eval_eq, polyOf_eval]

theorem loc_coeff_zero (X : Nat → G) (E : Finset Nat) : (loc X E).coeff 0 = 1 := by
  rw [coeff_zero_eq_eval_zero]; unfold loc; rw [eval_prod]; simp

theorem loc_natDegree_le (X : Nat → G) (E : Finset Nat) : (loc X E).natDegree ≤ E.card := by
  unfold loc
  refine (natDegree_prod_le _ _).trans ?_
  rw [card_eq_sum_ones]
  apply sum_le_sum
  intro j _
  refine (natDegree_sub_le _ _).trans ?_
  rw [natDegree_one]
  refine max_le (by omega) ?_
  exact (natDegree_C_mul_le _ _).trans natDegree_X_le

theorem loc_eval (X : Nat → G) (E : Finset Nat) (x : G) : (loc X E).eval x = ∏ j ∈ E, (1 - X j * x) := by
  unfold loc; rw [eval_prod]; simp

theorem loc_ne_zero (X : Nat → G) (E : Finset Nat) : loc X E ≠ 0 := by
  intro h; have := loc_coeff_zero X E; rw [h] at this; simp at this

theorem loc_root (X : Nat → G) (E : Finset Nat) {j : Nat} (hj : j ∈ E) (hX : X j ≠ 0) :
    (loc X E).eval (X j)⁻¹ = 0 := by
  rw [loc_eval]
  apply prod_eq_zero hj
  rw [mul_inv_cancel₀ hX, sub_self]

/-- A sum `Σ_{i≤L} c_i a^(k-i)` is `a^k c(1/a)`. -/
theorem sum_pow_sub (c : G[X]) (a : G) (ha : a ≠ 0) {L k : Nat} (hL : L ≤ k) (hdeg : c.natDegree ≤ L) :
    ∑ i ∈ range (L + 1), c.coeff i * a ^ (k - i) = a ^ k * c.eval a⁻¹ := by
  rw [eval_eq_sum_range' (lt_of_le_of_lt hdeg (Nat.lt_succ_self L)), mul_sum]
  apply sum_congr rfl
  intro i hi
  have hi : i ≤ L := by simpa [Nat.lt_succ_iff] using hi
  have : a ^ k = a ^ (k - i) * a ^ i := by rw [← pow_add]; congr 1; omega
  rw [this, inv_pow]
  have hai : a ^ i ≠ 0 := pow_ne_zero _ ha
  field_simp

theorem disc_psum (c : G[X]) (X e : Nat → G) (E : Finset Nat) (hX : ∀ j ∈ E, X j ≠ 0) {L k : Nat} (hL : L ≤ k)
    (hdeg : c.natDegree ≤ L) :
    disc c.coeff L (psum X e E) k = ∑ j ∈ E, e j * X j ^ k * c.eval (X j)⁻¹ := by
  unfold disc psum
  simp_rw [mul_sum]
  rw [sum_comm]
  apply sum_congr rfl
  intro j hj
  rw [mul_assoc, ← sum_pow_sub c (X j) (hX j hj) hL hdeg, mul_sum]
  apply sum_congr rfl
  intro i _
  ring

theorem disc_congr {C : Nat → G} {L : Nat} {S S' : Nat → G} {k n : Nat} (h : ∀ i, i < n → S i = S' i) (hk : k < n) :
    disc C L S k = disc C L S' k := by
  unfold disc
  apply sum_congr rfl
  intro i _
  rw [h _ (by omega)]

/-- The locator generates the power sums. -/
theorem loc_generates (X e : Nat → G) (E : Finset Nat) (hX : ∀ j ∈ E, X j ≠ 0) {S : Nat → G} {n : Nat}
    (hS : ∀ k, k < n → S k = psum X e E k) : Generates (loc X E).coeff E.card S n where
  zero := loc_coeff_zero X E
  deg i hi := coeff_eq_zero_of_natDegree_lt (lt_of_le_of_lt (loc_natDegree_le X E) hi)
  rel k h1 h2 := by
    rw [disc_congr hS h2, disc_psum _ _ _ _ hX h1 (loc_natDegree_le X E)]
    apply sum_eq_zero
    intro j hj
    rw [loc_root X E hj (hX j hj), mul_zero]

theorem natDegree_le_of_coeff {p : G[X]} {L : Nat} (h : ∀ i, L < i → p.coeff i = 0) : p.natDegree ≤ L :=
  natDegree_le_iff_coeff_eq_zero.mpr h

/-- Vandermonde: if `Σ_{j∈E} a_j X_j^t = 0` for all `t < |E|` then all `a_j` vanish. -/
theorem vandermonde (X a : Nat → G) (E : Finset Nat) (hinj : Set.InjOn X E)
    (h : ∀ t, t < E.card → ∑ j ∈ E, a j * X j ^ t = 0) : ∀ j ∈ E, a j = 0 := by
  intro j hj
  have hpos : 0 < E.card := card_pos.mpr ⟨j, hj⟩
  set q := Lagrange.basis E X j with hq
  have hdeg : q.natDegree < E.card := by
    have := Lagrange.natDegree_basis hinj hj
    rw [hq, this]; omega
  have h0 : ∑ l ∈ E, a l * q.eval (X l) = 0 := by
    simp_rw [eval_eq_sum_range' hdeg, mul_sum]
    rw [sum_comm]
    apply sum_eq_zero
    intro t ht
    have := h t (by simpa using ht)
    rw [← mul_zero (q.coeff t), ← this, mul_sum]
    apply sum_congr rfl
    intro l _
    ring
  rw [sum_eq_single_of_mem j hj] at h0
  · rw [hq, Lagrange.eval_basis_self hinj hj, mul_one] at h0; exact h0
  · intro l hl hne
    rw [hq, Lagrange.eval_basis_of_ne hne.symm hl, mul_zero]

/-- Uniqueness: a feedback polynomial of length at most `|E|` for at least `2|E|` power sums is the locator. -/
theorem generates_eq_loc (X e : Nat → G) (E : Finset Nat) (hX : ∀ j ∈ E, X j ≠ 0) (hinj : Set.InjOn X E)
    (he : ∀ j ∈ E, e j ≠ 0) {S : Nat → G} {n : Nat} (hS : ∀ k, k < n → S k = psum X e E k)
    (p : G[X]) {L : Nat} (hp : Generates p.coeff L S n) (hL : L ≤ E.card) (hn : 2 * E.card ≤ n) :
    p = loc X E := by
  have hdeg : p.natDegree ≤ L := natDegree_le_of_coeff hp.deg
  -- all inverse locators are roots
  have hroot : ∀ j ∈ E, p.eval (X j)⁻¹ = 0 := by
    have hv := vandermonde X (fun j => e j * X j ^ L * p.eval (X j)⁻¹) E hinj (by
      intro t ht
      have h1 := hp.rel (L + t) (by omega) (by omega)
      rw [disc_congr hS (by omega : L + t < n), disc_psum p X e E hX (by omega) hdeg] at h1
      rw [← h1]
      apply sum_congr rfl
      intro j _
      rw [pow_add]; ring)
    intro j hj
    have h1 := hv j hj
    have h2 : e j * X j ^ L ≠ 0 := mul_ne_zero (he j hj) (pow_ne_zero _ (hX j hj))
    rcases mul_eq_zero.mp h1 with h | h
    · exact absurd h h2
    · exact h
  -- compare at the inverse locators and at zero
  have hd : p - loc X E = 0 := by
    set T : Finset G := insert 0 (E.image fun j => (X j)⁻¹) with hT
    have hcard : T.card = E.card + 1 := by
      rw [hT, card_insert_of_notMem, card_image_of_injOn]
      · intro a ha b hb hab
        exact hinj ha hb (inv_injective hab)
      · simp only [mem_image, not_exists, not_and]
        intro j hj h
        exact hX j hj (by simpa using h)
    refine eq_zero_of_natDegree_lt_card_of_eval_eq_zero' (p - loc X E) T ?_ ?_
    · intro x hx
      rw [hT, mem_insert] at hx
      rcases hx with rfl | hx
      · rw [eval_sub, ← coeff_zero_eq_eval_zero, ← coeff_zero_eq_eval_zero, hp.zero, loc_coeff_zero, sub_self]
      · obtain ⟨j, hj, rfl⟩ := mem_image.mp hx
        rw [eval_sub, hroot j hj, loc_root X E hj (hX j hj), sub_self]
    · rw [hcard]
      refine Nat.lt_succ_of_le ((natDegree_sub_le _ _).trans (max_le ?_ (loc_natDegree_le X E)))
      omega
  exact sub_eq_zero.mp hd

/-- The Chien search finds exactly the positions. -/
theorem loc_eval_eq_zero_iff (X : Nat → G) (E : Finset Nat) {i : Nat} (hXi : X i ≠ 0) :
    (loc X E).eval (X i)⁻¹ = 0 ↔ ∃ j ∈ E, X j = X i := by
  rw [loc_eval, prod_eq_zero_iff]
  constructor
  · rintro ⟨j, hj, h⟩
    refine ⟨j, hj, ?_⟩
    have : X j * (X i)⁻¹ = 1 := (sub_eq_zero.mp h).symm
    exact (mul_inv_eq_one₀ hXi).mp this
  · rintro ⟨j, hj, h⟩
    exact ⟨j, hj, by rw [h, mul_inv_cancel₀ hXi, sub_self]⟩

/-- A polynomial of degree at most `L` with constant term 1 has at most `L` inverse-locator roots. -/
theorem card_roots_le (X : Nat → G) (R : Finset Nat) (hinj : Set.InjOn X R)
    (p : G[X]) (h0 : p.coeff 0 = 1) {L : Nat} (hdeg : p.natDegree ≤ L) :
    (R.filter fun i => p.eval (X i)⁻¹ = 0).card ≤ L := by
  have hp : p ≠ 0 := by intro h; rw [h] at h0; simp at h0
  have hinj' : Set.InjOn (fun i => (X i)⁻¹) (R.filter fun i => p.eval (X i)⁻¹ = 0) := by
    intro a ha b hb hab
    simp only [coe_filter, Set.mem_setOf_eq] at ha hb
    exact hinj ha.1 hb.1 (inv_injective hab)
  rw [← card_image_of_injOn hinj']
  refine le_trans ?_ ((card_roots' p).trans hdeg)
  refine le_trans (card_le_card ?_) (Multiset.toFinset_card_le p.roots)
  intro x hx
  obtain ⟨i, hi, rfl⟩ := mem_image.mp hx
  rw [Multiset.mem_toFinset, mem_roots hp]
  exact (mem_filter.mp hi).2

/-- Error evaluator `Σ_j e_j X_j Π_{l≠j}(1 - X_l x)`. -/
noncomputable def evalPoly (X e : Nat → G) (E : Finset Nat) : G[X] :=
  ∑ j ∈ E, Polynomial.C (e j * X j) * loc X (E.erase j)

theorem loc_erase (X : Nat → G) (E : Finset Nat) {j : Nat} (hj : j ∈ E) :
    loc X E = (1 - Polynomial.C (X j) * Polynomial.X) * loc X (E.erase j) := by
  unfold loc; exact (mul_prod_erase E (fun j => 1 - Polynomial.C (X j) * Polynomial.X) hj).symm

/-- Coefficients of `loc E / (1 - X_j x)`. -/
theorem loc_erase_coeff (X : Nat → G) (E : Finset Nat) {j : Nat} (hj : j ∈ E) (k : Nat) :
    ∑ i ∈ range (k + 1), (loc X E).coeff i * X j ^ (k - i) = (loc X (E.erase j)).coeff k := by
  set q := loc X (E.erase j) with hq
  have hc : ∀ i, (loc X E).coeff i = q.coeff i - X j * (if i = 0 then 0 else q.coeff (i - 1)) := by
    intro i
    rw [loc_erase X E hj, ← hq, sub_mul, one_mul, coeff_sub, mul_assoc, coeff_C_mul]
    cases i with
    | zero => simp
    | succ i => simp [coeff_X_mul]
  induction k with
  | zero => simp [hc]
  | succ k ih =>
    rw [sum_range_succ, Nat.sub_self, pow_zero, mul_one, hc (k + 1), if_neg (by omega), Nat.add_sub_cancel]
    have : ∑ i ∈ range (k + 1), (loc X E).coeff i * X j ^ (k + 1 - i)
        = X j * ∑ i ∈ range (k + 1), (loc X E).coeff i * X j ^ (k - i) := by
      rw [mul_sum]
      apply sum_congr rfl
      intro i hi
      have hi : i ≤ k := by simpa [Nat.lt_succ_iff] using hi
      rw [show k + 1 - i = (k - i) + 1 by omega, pow_succ]; ring
    rw [this, ih]; ring

theorem evalPoly_coeff (X e : Nat → G) (E : Finset Nat) (k : Nat) :
    (evalPoly X e E).coeff k = ∑ i ∈ range (k + 1), (loc X E).coeff i * psum X e E (k - i + 1) := by
  unfold evalPoly psum
  rw [finset_sum_coeff]
  simp_rw [coeff_C_mul, mul_sum]
  rw [sum_comm]
  apply sum_congr rfl
  intro j hj
  rw [← loc_erase_coeff X E hj k, mul_sum]
  apply sum_congr rfl
  intro i _
  rw [pow_succ]; ring

theorem evalPoly_natDegree (X e : Nat → G) (E : Finset Nat) : (evalPoly X e E).natDegree ≤ E.card - 1 := by
  unfold evalPoly
  apply natDegree_sum_le_of_forall_le
  intro j hj
  refine (natDegree_C_mul_le _ _).trans ((loc_natDegree_le X _).trans ?_)
  rw [card_erase_of_mem hj]

theorem evalPoly_eval (X e : Nat → G) (E : Finset Nat) {j : Nat} (hj : j ∈ E) (hX : ∀ j ∈ E, X j ≠ 0) :
    (evalPoly X e E).eval (X j)⁻¹ = e j * X j * (loc X (E.erase j)).eval (X j)⁻¹ := by
  unfold evalPoly
  rw [eval_finset_sum, sum_eq_single_of_mem j hj]
  · simp
  · intro l hl hne
    rw [eval_mul, loc_root X (E.erase l) (mem_erase.mpr ⟨hne.symm, hj⟩) (hX j hj), mul_zero]

/-- The derivative at a root (up to sign). -/
theorem loc_derivative_eval (X : Nat → G) (E : Finset Nat) {j : Nat} (hj : j ∈ E) (hX : X j ≠ 0) :
    (derivative (loc X E)).eval (X j)⁻¹ = - (X j * (loc X (E.erase j)).eval (X j)⁻¹) := by
  rw [loc_erase X E hj, derivative_mul]
  simp [mul_inv_cancel₀ hX]

theorem loc_erase_eval_ne_zero (X : Nat → G) (E : Finset Nat) (hinj : Set.InjOn X E) {j : Nat} (hj : j ∈ E)
    (hX : X j ≠ 0) : (loc X (E.erase j)).eval (X j)⁻¹ ≠ 0 := by
  intro h
  obtain ⟨l, hl, hlj⟩ := (loc_eval_eq_zero_iff X (E.erase j) hX).mp h
  have := mem_erase.mp hl
  exact this.1 (hinj this.2 hj hlj)

end Rqrr
