import Verif.Proofs.GFField
import Verif.Proofs.Locator
import Verif.Spec.RS
import Mathlib.RingTheory.Coprime.Lemmas

/-!
# Correctness of `correct_block`
-/

set_option linter.unusedSectionVars false

namespace Rqrr

open Finset Spec

/-- Coefficient of `x^j` of a block. -/
def sval (block : List Byte) (j : Nat) : GF256 := ⟨block.getD (block.length - 1 - j) 0⟩

/-- Syndrome `i` of a block. -/
def synd (block : List Byte) (i : Nat) : GF256 := ∑ j ∈ range block.length, sval block j * α ^ (i * j)

theorem block_syndromes_spec (block : List Byte) (npar : Nat) (hn : npar ≤ 64) :
    ∃ nz s, block_syndromes block npar = .ok (nz, s) ∧ (nz = true ↔ ∃ i, i < npar ∧ synd block i ≠ 0) ∧
      ∀ i, co s i = if i < npar then synd block i else 0 := by
  unfold block_syndromes
  obtain ⟨⟨nz, s⟩, h1, h2, h3⟩ := forRange_ok (lo := 0) (hi := npar)
    (s := ((false, Vector.replicate 64 0) : Bool × Arr64 GF256))
    (f := fun i (x : Bool × Arr64 GF256) => match x with
      | (nonzero, s) => do
        let s ← forRange 0 block.length s fun j s => do
          let a ← subU block.length 1
          let k ← subU a j
          let c ← idx block k
          let si ← aget s i
          aset s i (si + (⟨c⟩ : GF256) * gpow GF.generator (i * j))
        let si ← aget s i
        pure (if si ≠ 0 then true else nonzero, s))
    (fun n x => (x.1 = true ↔ ∃ i, i < n ∧ synd block i ≠ 0) ∧
      ∀ i, co x.2 i = if i < n then synd block i else 0) (by omega)
    (by simp [co_replicate]) (by
      rintro i ⟨nz, s⟩ _ hi ⟨hnz, hs⟩
      have hi64 : i < 64 := by omega
      obtain ⟨s', hs1, hs2⟩ := forRange_ok (lo := 0) (hi := block.length) (s := s)
        (f := fun j s => do
          let a ← subU block.length 1
          let k ← subU a j
          let c ← idx block k
          let si ← aget s i
          aset s i (si + (⟨c⟩ : GF256) * gpow GF.generator (i * j)))
        (fun m (t : Arr64 GF256) => ∀ l, co t l = if l = i then ∑ j ∈ range m, sval block j * α ^ (i * j)
          else co s l) (by omega)
        (by intro l; split
            · rename_i h; subst h; rw [hs, if_neg (by omega)]; simp
            · rfl)
        (by
          intro j t _ hj ht
          have hk : block.length - 1 - j < block.length := by omega
          rw [subU_ok (by omega), Run.ok_bind, subU_ok (by omega), Run.ok_bind, idx_ok block hk, Run.ok_bind,
            aget_co t hi64, Run.ok_bind]
          obtain ⟨t', ht1, ht2⟩ := aset_co t (co t i + (⟨block[block.length - 1 - j]⟩ : GF256) * gpow GF.generator (i * j)) hi64
          refine ⟨t', ht1, ?_⟩
          intro l
          rw [ht2 l]
          by_cases hl : l = i
          · rw [if_pos hl, if_pos hl, ht, if_pos rfl, sum_range_succ]
            congr 1
            rw [gpow_eq_pow]
            congr 2
            simp [List.getD_eq_getElem?_getD, hk]
          · rw [if_neg hl, if_neg hl, ht, if_neg hl])
      refine ⟨(if synd block i ≠ 0 then true else nz, s'), ?_, ?_, ?_⟩
      · show (_ >>= _) = _
        rw [hs1, Run.ok_bind, aget_co s' hi64, Run.ok_bind, Run.pure_eq]
        have : co s' i = synd block i := by rw [hs2, if_pos rfl]; rfl
        rw [this]
      · simp only
        simp only at hnz
        by_cases hsy : synd block i ≠ 0
        · rw [if_pos hsy]
          exact ⟨fun _ => ⟨i, by omega, hsy⟩, fun _ => rfl⟩
        · rw [if_neg hsy, hnz]
          constructor
          · rintro ⟨k, hk, h⟩; exact ⟨k, by omega, h⟩
          · rintro ⟨k, hk, h⟩
            refine ⟨k, ?_, h⟩
            rcases Nat.lt_succ_iff_lt_or_eq.mp hk with h' | h'
            · exact h'
            · subst h'; exact absurd h hsy
      · intro l
        simp only
        rw [hs2 l]
        by_cases hl : l = i
        · subst hl; rw [if_pos rfl, if_pos (by omega)]; rfl
        · rw [if_neg hl]
          have := hs l
          simp only at this
          rw [this]
          by_cases h : l < i
          · rw [if_pos h, if_pos (by omega)]
          · rw [if_neg h, if_neg (by omega)])
  exact ⟨nz, s, h1, h2, h3⟩

theorem sigma_derivative_spec (sigma : Arr64 GF256) :
    ∃ sd, sigma_derivative sigma = .ok sd ∧
      ∀ i, co sd i = if i % 2 = 0 then co sigma (i + 1) else 0 := by
  unfold sigma_derivative
  obtain ⟨sd, h1, h2⟩ := forRange_ok (lo := 0) (hi := 32) (s := Vector.replicate 64 (0 : GF256))
    (f := fun k sd => do
      let i := 2 * k + 1
      let v ← aget sigma i
      let i1 ← subU i 1
      aset sd i1 v)
    (fun k (t : Arr64 GF256) => ∀ i, co t i = if i % 2 = 0 ∧ i < 2 * k then co sigma (i + 1) else 0)
    (by omega) (by intro i; rw [co_replicate, if_neg (by omega)]) (by
      intro k t _ hk ht
      simp only
      rw [aget_co sigma (by omega : 2 * k + 1 < 64), Run.ok_bind, subU_ok (by omega), Run.ok_bind]
      obtain ⟨t', ht1, ht2⟩ := aset_co t (co sigma (2 * k + 1)) (by omega : 2 * k + 1 - 1 < 64)
      refine ⟨t', ht1, ?_⟩
      intro i
      rw [ht2 i]
      by_cases hi : i = 2 * k + 1 - 1
      · rw [if_pos hi, if_pos (by omega)]; congr 1; omega
      · rw [if_neg hi, ht i]
        by_cases h : i % 2 = 0 ∧ i < 2 * k
        · rw [if_pos h, if_pos (by omega)]
        · rw [if_neg h, if_neg (by omega)])
  refine ⟨sd, h1, ?_⟩
  intro i
  rw [h2 i]
  by_cases h : i % 2 = 0
  · by_cases h' : i < 64
    · rw [if_pos (by omega), if_pos h]
    · rw [if_neg (by omega), if_pos h, co_ge sigma (by omega)]
  · rw [if_neg (by omega), if_neg h]

open Polynomial in
theorem sigma_derivative_poly (sigma : Arr64 GF256) :
    ∃ sd, sigma_derivative sigma = .ok sd ∧ polyOf sd = derivative (polyOf sigma) := by
  obtain ⟨sd, h1, h2⟩ := sigma_derivative_spec sigma
  refine ⟨sd, h1, ?_⟩
  ext i
  rw [polyOf_coeff, coeff_derivative, polyOf_coeff, h2]
  have h2z : (2 : GF256) = 0 := CharTwo.two_eq_zero
  rcases Nat.even_or_odd i with ⟨m, hm⟩ | ⟨m, hm⟩
  · rw [if_pos (by omega)]
    have : (i : GF256) = 0 := by rw [hm]; push_cast; exact CharTwo.add_self_eq_zero _
    rw [this]; simp
  · rw [if_neg (by omega)]
    have : (i : GF256) + 1 = 0 := by
      rw [hm]; push_cast; rw [h2z]; simp; exact CharTwo.add_self_eq_zero _
    rw [this]; simp

theorem eloc_poly_spec (s sigma : Arr64 GF256) (n1 : Nat) (hn : n1 < 64) :
    ∃ om, eloc_poly s sigma n1 = .ok om ∧
      ∀ k, co om k = ∑ a ∈ range n1, if a ≤ k ∧ k < n1 then co sigma a * co s (k - a + 1) else 0 := by
  unfold eloc_poly
  obtain ⟨om, h1, h2⟩ := forRange_ok (lo := 0) (hi := n1) (s := Vector.replicate 64 (0 : GF256))
    (f := fun i omega => do
      let a ← aget sigma i
      let k ← subU n1 i
      forRange 0 k omega fun j omega => do
        let b ← aget s (j + 1)
        let o ← aget omega (i + j)
        aset omega (i + j) (o + a * b))
    (fun i (t : Arr64 GF256) => ∀ k, co t k =
      ∑ a ∈ range i, if a ≤ k ∧ k < n1 then co sigma a * co s (k - a + 1) else 0)
    (by omega) (by intro k; rw [co_replicate]; simp) (by
      intro i t _ hi ht
      rw [aget_co sigma (by omega : i < 64), Run.ok_bind, subU_ok (by omega), Run.ok_bind]
      obtain ⟨t', ht1, ht2⟩ := forRange_ok (lo := 0) (hi := n1 - i) (s := t)
        (f := fun j omega => do
          let b ← aget s (j + 1)
          let o ← aget omega (i + j)
          aset omega (i + j) (o + co sigma i * b))
        (fun j (u : Arr64 GF256) => ∀ k, co u k = co t k +
          if i ≤ k ∧ k < i + j then co sigma i * co s (k - i + 1) else 0)
        (by omega) (by intro k; rw [if_neg (by omega), add_zero]) (by
          intro j u _ hj hu
          rw [aget_co s (by omega : j + 1 < 64), Run.ok_bind, aget_co u (by omega : i + j < 64), Run.ok_bind]
          obtain ⟨u', hu1, hu2⟩ := aset_co u (co u (i + j) + co sigma i * co s (j + 1)) (by omega : i + j < 64)
          refine ⟨u', hu1, ?_⟩
          intro k
          rw [hu2 k]
          by_cases hk : k = i + j
          · rw [if_pos hk, hu, if_neg (by omega), add_zero, if_pos (by omega), hk, Nat.add_sub_cancel_left]
          · rw [if_neg hk, hu k]
            congr 1
            by_cases h : i ≤ k ∧ k < i + j
            · rw [if_pos h, if_pos (by omega)]
            · rw [if_neg h, if_neg (by omega)])
      refine ⟨t', ht1, ?_⟩
      intro k
      rw [ht2 k, ht k, sum_range_succ]
      congr 1
      by_cases h : i ≤ k ∧ k < n1
      · rw [if_pos (by omega), if_pos h]
      · rw [if_neg (by omega), if_neg h])
  exact ⟨om, h1, h2⟩

/-- `α^j ≠ 0`. -/
theorem alpha_pow_ne_zero (j : Nat) : α ^ j ≠ 0 := pow_ne_zero _ (by decide +kernel)

theorem alpha_inj {a b : Nat} (ha : a < 255) (hb : b < 255) (h : α ^ a = α ^ b) : a = b := by
  have := pow_injOn_Iio_orderOf (x := (GF.generator : GF256))
  rw [orderOf_generator256] at this
  exact this ha hb h

theorem alpha_inv {i : Nat} (hi : i ≤ 255) : α ^ (255 - i) = (α ^ i)⁻¹ := by
  apply eq_inv_of_mul_eq_one_left
  rw [← pow_add, Nat.sub_add_cancel hi]
  have := pow_orderOf_eq_one (GF.generator : GF256)
  rwa [orderOf_generator256] at this

/-- The locator function of block positions. -/
def Xl (j : Nat) : GF256 := α ^ j

theorem correct_position_eq (sigma sd om : Arr64 GF256) (bs i : Nat) (blk : List Byte) (hlen : blk.length = bs)
    (hi : i < bs) (hbs : bs ≤ 255) :
    correct_position sigma sd om bs i blk =
      if (polyOf sigma).eval (Xl i)⁻¹ = 0 then
        if (polyOf sd).eval (Xl i)⁻¹ = 0 then .error (.err .DataEcc)
        else .ok (blk.set (bs - 1 - i) (sval blk i + (polyOf om).eval (Xl i)⁻¹ / (polyOf sd).eval (Xl i)⁻¹).val)
      else .ok blk := by
  unfold correct_position
  have hk : bs - i - 1 < blk.length := by omega
  have e1 : gpow (GF.generator : GF256) (255 - i) = (Xl i)⁻¹ := by
    rw [gpow_eq_pow]; exact alpha_inv (by omega)
  rw [subU_ok (by omega), Run.ok_bind]
  simp only [e1, poly_eval_polyOf, Run.ok_bind]
  split
  · split
    · rfl
    · rename_i h1 h2
      simp only [gdiv, if_neg h2, Run.ok_bind, subU_ok (show i ≤ bs by omega), subU_ok (show 1 ≤ bs - i by omega),
        idx_ok blk hk, setIdx_ok blk _ hk]
      congr 2
      · omega
      · congr 2
        unfold sval
        congr 1
        rw [List.getD_eq_getElem?_getD, hlen, show bs - 1 - i = bs - i - 1 by omega,
          List.getElem?_eq_getElem hk]; rfl
  · rfl

theorem sval_set (blk : List Byte) (i j : Nat) (v : GF256) (hi : i < blk.length) (hj : j < blk.length) :
    sval (blk.set (blk.length - 1 - i) v.val) j = if j = i then v else sval blk j := by
  unfold sval
  simp only [List.length_set, List.getD_eq_getElem?_getD, List.getElem?_set]
  by_cases h : j = i
  · subst h
    rw [if_pos rfl, if_pos rfl, if_pos (by omega)]
    rfl
  · rw [if_neg (by omega), if_neg h]

/-- The root search loop: the error `err i` is added at every root position, or the loop reports `DataEcc` because
the derivative vanishes at a root. -/
theorem search_loop (sigma sd om : Arr64 GF256) (blk : List Byte) (hbs : blk.length ≤ 255) :
    (∃ blk', forRange 0 blk.length blk (correct_position sigma sd om blk.length) = .ok blk' ∧
      blk'.length = blk.length ∧
      ∀ j, j < blk.length → sval blk' j = if (polyOf sigma).eval (Xl j)⁻¹ = 0 then
        sval blk j + (polyOf om).eval (Xl j)⁻¹ / (polyOf sd).eval (Xl j)⁻¹ else sval blk j) ∨
    (forRange 0 blk.length blk (correct_position sigma sd om blk.length) = .error (.err .DataEcc) ∧
      ∃ i, i < blk.length ∧ (polyOf sigma).eval (Xl i)⁻¹ = 0 ∧ (polyOf sd).eval (Xl i)⁻¹ = 0) := by
  have := forRange_spec (lo := 0) (hi := blk.length) (s := blk) (f := correct_position sigma sd om blk.length)
    (fun i (b : List Byte) => b.length = blk.length ∧ ∀ j, j < blk.length → sval b j =
      if j < i ∧ (polyOf sigma).eval (Xl j)⁻¹ = 0 then
        sval blk j + (polyOf om).eval (Xl j)⁻¹ / (polyOf sd).eval (Xl j)⁻¹ else sval blk j)
    (fun e => e = .err .DataEcc ∧ ∃ i, i < blk.length ∧ (polyOf sigma).eval (Xl i)⁻¹ = 0 ∧ (polyOf sd).eval (Xl i)⁻¹ = 0)
    (by omega) ⟨rfl, by intro j _; rw [if_neg (by omega)]⟩ (by
      rintro i b _ hi ⟨hb1, hb2⟩
      rw [correct_position_eq sigma sd om blk.length i b hb1 hi hbs]
      by_cases hr : (polyOf sigma).eval (Xl i)⁻¹ = 0
      · rw [if_pos hr]
        by_cases hsd : (polyOf sd).eval (Xl i)⁻¹ = 0
        · rw [if_pos hsd]; exact .inr ⟨_, rfl, rfl, i, hi, hr, hsd⟩
        · rw [if_neg hsd]
          refine .inl ⟨_, rfl, by simp [hb1], ?_⟩
          intro j hj
          rw [← hb1, sval_set b i j _ (by omega) (by omega)]
          by_cases hji : j = i
          · subst hji
            rw [if_pos rfl, if_pos ⟨by omega, hr⟩, hb2 j hj, if_neg (by omega)]
          · rw [if_neg hji, hb2 j hj]
            by_cases h : j < i ∧ (polyOf sigma).eval (Xl j)⁻¹ = 0
            · rw [if_pos h, if_pos ⟨by omega, h.2⟩]
            · rw [if_neg h, if_neg (by rintro ⟨h1, h2⟩; exact h ⟨by omega, h2⟩)]
      · rw [if_neg hr]
        refine .inl ⟨b, rfl, hb1, ?_⟩
        intro j hj
        rw [hb2 j hj]
        by_cases h : j < i ∧ (polyOf sigma).eval (Xl j)⁻¹ = 0
        · rw [if_pos h, if_pos ⟨by omega, h.2⟩]
        · rw [if_neg h, if_neg]
          rintro ⟨h1, h2⟩
          apply h
          refine ⟨?_, h2⟩
          rcases Nat.lt_succ_iff_lt_or_eq.mp h1 with h' | h'
          · exact h'
          · subst h'; exact absurd h2 hr)
  rcases this with ⟨b, h1, h2, h3⟩ | ⟨e, h1, h2, h3⟩
  · left
    refine ⟨b, h1, h2, ?_⟩
    intro j hj
    rw [h3 j hj]
    by_cases h : (polyOf sigma).eval (Xl j)⁻¹ = 0
    · rw [if_pos h, if_pos ⟨hj, h⟩]
    · rw [if_neg h, if_neg (fun hh => h hh.2)]
  · right
    subst h2
    exact ⟨h1, h3⟩

/-- Two blocks of equal length with equal coefficients are equal. -/
theorem block_ext {a b : List Byte} (hlen : a.length = b.length) (h : ∀ j, j < a.length → sval a j = sval b j) :
    a = b := by
  apply List.ext_getElem hlen
  intro i h1 h2
  have := h (a.length - 1 - i) (by omega)
  unfold sval at this
  rw [← hlen, show a.length - 1 - (a.length - 1 - i) = i by omega] at this
  have := congrArg GF.val this
  simpa [List.getD_eq_getElem?_getD, h1, h2] using this


/-- Description of a run of `correct_block` on a block of exactly `bs` bytes. -/
theorem correct_block_run (block : List Byte) (ecc : RSParameters) (hlen : block.length = ecc.bs)
    (hdw : ecc.dw < ecc.bs) (hnpar : ecc.bs - ecc.dw < 64) (hbs : ecc.bs ≤ 255) :
    ((∀ i, i < ecc.bs - ecc.dw → synd block i = 0) ∧ correct_block block ecc = .ok block) ∨
    ((∃ i, i < ecc.bs - ecc.dw ∧ synd block i ≠ 0) ∧
      ∃ (sigma sd om : Arr64 GF256) (L : Nat),
        Generates (polyOf sigma).coeff L (fun i => if i < ecc.bs - ecc.dw then synd block i else 0) (ecc.bs - ecc.dw) ∧
        (∀ C' L', Generates C' L' (fun i => if i < ecc.bs - ecc.dw then synd block i else 0) (ecc.bs - ecc.dw) → L ≤ L') ∧
        polyOf sd = Polynomial.derivative (polyOf sigma) ∧
        (∀ k, co om k = ∑ a ∈ range (ecc.bs - ecc.dw - 1),
          if a ≤ k ∧ k < ecc.bs - ecc.dw - 1 then co sigma a * (if k - a + 1 < ecc.bs - ecc.dw then synd block (k - a + 1) else 0) else 0) ∧
        ((∃ blk', blk'.length = block.length ∧
            (∀ j, j < block.length → sval blk' j = if (polyOf sigma).eval (Xl j)⁻¹ = 0 then
              sval block j + (polyOf om).eval (Xl j)⁻¹ / (polyOf sd).eval (Xl j)⁻¹ else sval block j) ∧
            ((∃ i, i < ecc.bs - ecc.dw ∧ synd blk' i ≠ 0) ∧ correct_block block ecc = .error (.err .DataEcc) ∨
              (∀ i, i < ecc.bs - ecc.dw → synd blk' i = 0) ∧ correct_block block ecc = .ok blk')) ∨
          (correct_block block ecc = .error (.err .DataEcc) ∧
            ∃ i, i < block.length ∧ (polyOf sigma).eval (Xl i)⁻¹ = 0 ∧ (polyOf sd).eval (Xl i)⁻¹ = 0))) := by
  obtain ⟨nz, s, hs1, hnz, hs2⟩ := block_syndromes_spec block (ecc.bs - ecc.dw) (by omega)
  have hslice : ∀ b : List Byte, b.length = ecc.bs → sliceTo b ecc.bs = .ok b := by
    intro b hb; unfold sliceTo; rw [if_pos (by omega), ← hb, List.take_length]
  have hrun : correct_block block ecc = if nz = true then (do
      let sigma ← berlekamp_massey s (ecc.bs - ecc.dw)
      let sigma_deriv ← sigma_derivative sigma
      let n1 ← subU (ecc.bs - ecc.dw) 1
      let omega ← eloc_poly s sigma n1
      let block ← forRange 0 ecc.bs block (correct_position sigma sigma_deriv omega ecc.bs)
      let view ← sliceTo block ecc.bs
      let (nonzero', _) ← block_syndromes view (ecc.bs - ecc.dw)
      if nonzero' then .error (.err .DataEcc) else pure block) else .ok block := by
    unfold correct_block
    rw [Run.assert_of (by simpa using hdw), Run.ok_bind, subU_ok (by omega), Run.ok_bind, hslice block hlen,
      Run.ok_bind, hs1, Run.ok_bind]
    rfl
  cases nz with
  | true =>
    right
    refine ⟨hnz.mp rfl, ?_⟩
    have hco : (co s) = fun i => if i < ecc.bs - ecc.dw then synd block i else 0 := funext hs2
    obtain ⟨sigma, L, hb1, hb2, hb3, hb4⟩ := berlekamp_massey_ok s (ecc.bs - ecc.dw) hnpar
    obtain ⟨sd, hd1, hd2⟩ := sigma_derivative_poly sigma
    obtain ⟨om, ho1, ho2⟩ := eloc_poly_spec s sigma (ecc.bs - ecc.dw - 1) (by omega)
    rw [hco] at hb3 hb4
    have hpc : (polyOf sigma).coeff = co sigma := funext (polyOf_coeff sigma)
    refine ⟨sigma, sd, om, L, by rw [hpc]; exact hb3, hb4, hd2, ?_, ?_⟩
    · intro k; rw [ho2 k]; simp only [hs2]
    · rw [if_pos rfl, hb1, Run.ok_bind, hd1, Run.ok_bind, subU_ok (show 1 ≤ ecc.bs - ecc.dw by omega), Run.ok_bind,
        ho1, Run.ok_bind] at hrun
      have := search_loop sigma sd om block (by omega)
      rcases this with ⟨blk', h1, h2, h3⟩ | ⟨h1, h2⟩
      · left
        refine ⟨blk', h2, h3, ?_⟩
        obtain ⟨nz', s', hs1', hnz', _⟩ := block_syndromes_spec blk' (ecc.bs - ecc.dw) (by omega)
        rw [hlen] at h1
        rw [h1, Run.ok_bind, hslice blk' (by omega), Run.ok_bind, hs1', Run.ok_bind] at hrun
        cases nz' with
        | true => left; exact ⟨hnz'.mp rfl, hrun⟩
        | false =>
          right
          refine ⟨?_, hrun⟩
          intro i hi
          by_contra h
          have := hnz'.mpr ⟨i, hi, h⟩
          exact absurd this (by decide)
      · right
        rw [hlen] at h1
        rw [h1, Run.error_bind] at hrun
        exact ⟨hrun, h2⟩
  | false =>
    left
    refine ⟨?_, hrun⟩
    intro i hi
    by_contra h
    have := hnz.mpr ⟨i, hi, h⟩
    exact absurd this (by decide)

end Rqrr
