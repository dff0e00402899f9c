import Verif.Model.GF
import Mathlib.Algebra.Field.Defs
import Mathlib.Algebra.Field.Basic
import Mathlib.GroupTheory.OrderOfElement
import Mathlib.Algebra.CharP.Two
import Mathlib.Tactic.NormNum.Prime
import Mathlib.Tactic.IntervalCases

/-!
# The model fields GF(16) and GF(256) are fields

Multiplication is shown to be bilinear over GF(2) structurally; commutativity and associativity are then checked on
basis elements only.
-/

set_option linter.unusedSimpArgs false

namespace Rqrr

/-! ## Bilinearity of the shift-and-reduce multiplication -/

theorem gfDouble_eq (k m a : Nat) : gfDouble k m a = (a <<< 1) ^^^ (if (a <<< 1).testBit k then m else 0) := by
  unfold gfDouble; split <;> simp_all

theorem gfDouble_xor (k m a b : Nat) : gfDouble k m (a ^^^ b) = gfDouble k m a ^^^ gfDouble k m b := by
  apply Nat.eq_of_testBit_eq
  intro i
  rw [gfDouble_eq, gfDouble_eq, gfDouble_eq, Nat.shiftLeft_xor_distrib]
  cases h1 : (a <<< 1).testBit k <;> cases h2 : (b <<< 1).testBit k <;>
    simp [Nat.testBit_xor, h1, h2, Bool.xor_assoc, Bool.xor_comm, Bool.xor_left_comm]

theorem gfMulNat_xor_left (k m a a' n b : Nat) :
    gfMulNat k m (a ^^^ a') n b = gfMulNat k m a n b ^^^ gfMulNat k m a' n b := by
  induction n generalizing b with
  | zero => simp [gfMulNat]
  | succ n ih =>
    simp only [gfMulNat, ih, gfDouble_xor]
    split
    · apply Nat.eq_of_testBit_eq; intro i
      simp [Nat.testBit_xor, Bool.xor_assoc, Bool.xor_left_comm]
    · rfl

theorem gfMulNat_xor_right (k m a n b b' : Nat) :
    gfMulNat k m a n (b ^^^ b') = gfMulNat k m a n b ^^^ gfMulNat k m a n b' := by
  induction n generalizing b b' with
  | zero => simp [gfMulNat]
  | succ n ih =>
    simp only [gfMulNat, Nat.shiftRight_xor_distrib, ih, gfDouble_xor, Nat.testBit_xor]
    apply Nat.eq_of_testBit_eq; intro i
    cases h1 : b.testBit 0 <;> cases h2 : b'.testBit 0 <;>
      simp only [Bool.false_xor, Bool.true_xor, Bool.not_true, Bool.not_false, if_true, if_false,
        Bool.false_eq_true, Nat.testBit_xor] <;>
      cases (gfDouble k m (gfMulNat k m a n (b >>> 1))).testBit i <;>
      cases (gfDouble k m (gfMulNat k m a n (b' >>> 1))).testBit i <;> cases a.testBit i <;> rfl

theorem gfDouble_lt {k m a : Nat} (hm : m < 2 ^ (k + 1)) (hk : m.testBit k = true) (ha : a < 2 ^ k) :
    gfDouble k m a < 2 ^ k := by
  have ht : a <<< 1 < 2 ^ (k + 1) := by rw [Nat.shiftLeft_eq, Nat.pow_succ]; omega
  unfold gfDouble
  simp only
  apply Nat.lt_pow_two_of_testBit
  intro i hi
  split
  · rename_i h
    rcases Nat.eq_or_lt_of_le hi with rfl | hlt
    · simp [Nat.testBit_xor, h, hk]
    · have h1 : (a <<< 1).testBit i = false :=
        Nat.testBit_lt_two_pow (lt_of_lt_of_le ht (Nat.pow_le_pow_right (by omega) hlt))
      have h2 : m.testBit i = false :=
        Nat.testBit_lt_two_pow (lt_of_lt_of_le hm (Nat.pow_le_pow_right (by omega) hlt))
      simp [Nat.testBit_xor, h1, h2]
  · rename_i h
    rcases Nat.eq_or_lt_of_le hi with rfl | hlt
    · simpa using h
    · exact Nat.testBit_lt_two_pow (lt_of_lt_of_le ht (Nat.pow_le_pow_right (by omega) hlt))

theorem gfMulNat_lt {k m a n b : Nat} (hm : m < 2 ^ (k + 1)) (hk : m.testBit k = true) (ha : a < 2 ^ k) :
    gfMulNat k m a n b < 2 ^ k := by
  induction n generalizing b with
  | zero => simp [gfMulNat]
  | succ n ih =>
    simp only [gfMulNat]
    split
    · exact Nat.xor_lt_two_pow (gfDouble_lt hm hk ih) ha
    · exact gfDouble_lt hm hk ih

namespace GF

variable {k m : Nat}

theorem ext' {a b : GF k m} (h : a.val = b.val) : a = b := by
  cases a; cases b; simp_all

theorem zero_val : (0 : GF k m).val = 0#k := rfl
theorem one_val : (1 : GF k m).val = 1#k := rfl
theorem add_val (a b : GF k m) : (a + b).val = a.val ^^^ b.val := rfl
theorem mul_val (a b : GF k m) :
    (a * b).val = BitVec.ofNat k (gfMulNat k m a.val.toNat k b.val.toNat) := rfl

protected theorem add_assoc' (a b c : GF k m) : a + b + c = a + (b + c) :=
  ext' (by simp only [add_val]; exact BitVec.xor_assoc _ _ _)
protected theorem add_comm' (a b : GF k m) : a + b = b + a :=
  ext' (by simp only [add_val]; exact BitVec.xor_comm _ _)
protected theorem zero_add' (a : GF k m) : 0 + a = a :=
  ext' (by simp [add_val, zero_val])
protected theorem add_self' (a : GF k m) : a + a = 0 :=
  ext' (by simp [add_val, zero_val])

/-- Negation is the identity. -/
instance : Neg (GF k m) := ⟨fun a => a⟩

theorem right_distrib' (a b c : GF k m) : (a + b) * c = a * c + b * c := by
  apply ext'
  rw [mul_val, add_val, add_val, mul_val, mul_val, BitVec.toNat_xor, gfMulNat_xor_left]
  apply BitVec.eq_of_getElem_eq
  intro i hi
  simp [BitVec.getElem_xor]

theorem left_distrib' (a b c : GF k m) : a * (b + c) = a * b + a * c := by
  apply ext'
  rw [mul_val, add_val, add_val, mul_val, mul_val, BitVec.toNat_xor, gfMulNat_xor_right]
  apply BitVec.eq_of_getElem_eq
  intro i hi
  simp [BitVec.getElem_xor]

/-- The monomial `x^i`. -/
def mono (i : Nat) : GF k m := ⟨BitVec.ofNat k (2 ^ i)⟩

theorem getElem_ofNat' (k x i : Nat) (hi : i < k) : (BitVec.ofNat k x)[i] = x.testBit i := by
  rw [BitVec.getElem_eq_testBit_toNat]
  simp [Nat.testBit_mod_two_pow, hi]

/-- A predicate closed under addition and true on the monomials is true everywhere. -/
theorem basis_induction (P : GF k m → Prop) (h0 : P 0) (hb : ∀ i, i < k → P (mono i))
    (ha : ∀ a b, P a → P b → P (a + b)) (a : GF k m) : P a := by
  -- truncate to the lowest `n` bits
  have key : ∀ n, n ≤ k → P ⟨BitVec.ofNat k (a.val.toNat % 2 ^ n)⟩ := by
    intro n
    induction n with
    | zero => intro _; simp only [pow_zero, Nat.mod_one]; exact h0
    | succ n ih =>
      intro hn
      have ih := ih (by omega)
      have : (⟨BitVec.ofNat k (a.val.toNat % 2 ^ (n + 1))⟩ : GF k m)
          = ⟨BitVec.ofNat k (a.val.toNat % 2 ^ n)⟩ + (if a.val.toNat.testBit n then mono n else 0) := by
        apply ext'
        rw [add_val]
        apply BitVec.eq_of_getElem_eq
        intro i hi
        by_cases ht : a.val.toNat.testBit n
        · simp only [ht, if_true, mono]
          simp only [BitVec.getElem_xor, getElem_ofNat', Nat.testBit_mod_two_pow, Nat.testBit_two_pow]
          rcases lt_trichotomy i n with h | h | h
          · have : n ≠ i := by omega
            simp [h, this, Nat.lt_succ_of_lt h]
          · subst h; simp [ht]
          · have h1 : ¬ i < n := by omega
            have h2 : ¬ i < n + 1 := by omega
            have h3 : n ≠ i := by omega
            simp [h1, h2, h3]
        · simp only [ht, mono]
          have ht : a.val.toNat.testBit n = false := by simpa using ht
          simp only [zero_val, BitVec.getElem_xor, getElem_ofNat', Nat.testBit_mod_two_pow]
          rcases lt_trichotomy i n with h | h | h
          · simp [h, zero_val, Nat.lt_succ_of_lt h]
          · subst h; simp [ht, zero_val]
          · have h1 : ¬ i < n := by omega
            have h2 : ¬ i < n + 1 := by omega
            simp [h1, h2, zero_val]
      rw [this]
      apply ha _ _ ih
      split
      · exact hb n (by omega)
      · exact h0
  have := key k le_rfl
  rw [Nat.mod_eq_of_lt a.val.isLt] at this
  simpa using this

/-- `0 * a = 0` and `a * 0 = 0`, from distributivity and characteristic 2. -/
theorem zero_mul' (a : GF k m) : 0 * a = 0 := by
  have h := right_distrib' (0 : GF k m) 0 a
  rw [GF.zero_add', GF.add_self'] at h
  exact h
theorem mul_zero' (a : GF k m) : a * 0 = 0 := by
  have h := left_distrib' a (0 : GF k m) 0
  rw [GF.zero_add', GF.add_self'] at h
  exact h

/-- What remains to be checked on basis elements. -/
structure BasisCheck (k m : Nat) : Prop where
  one : ∀ i, i < k → (1 : GF k m) * mono i = mono i
  comm : ∀ i, i < k → ∀ j, j < k → (mono i : GF k m) * mono j = mono j * mono i
  assoc : ∀ i, i < k → ∀ j, j < k → ∀ l, l < k →
    (mono i : GF k m) * mono j * mono l = mono i * (mono j * mono l)

theorem one_mul_of (h : BasisCheck k m) (a : GF k m) : 1 * a = a := by
  refine basis_induction (fun a => 1 * a = a) (mul_zero' _) h.one ?_ a
  intro a b ha hb; rw [left_distrib', ha, hb]

theorem mul_comm_of (h : BasisCheck k m) (a b : GF k m) : a * b = b * a := by
  refine basis_induction (fun a => ∀ b : GF k m, a * b = b * a) ?_ ?_ ?_ a b
  · intro b; rw [zero_mul', mul_zero']
  · intro i hi b
    refine basis_induction (fun b => mono i * b = b * mono i) ?_ ?_ ?_ b
    · rw [zero_mul', mul_zero']
    · intro j hj; exact h.comm i hi j hj
    · intro b c hb hc; rw [left_distrib', right_distrib', hb, hc]
  · intro a a' ha ha' b; rw [left_distrib', right_distrib', ha, ha']

theorem mul_assoc_of (h : BasisCheck k m) (a b c : GF k m) : a * b * c = a * (b * c) := by
  refine basis_induction (fun a => ∀ b c : GF k m, a * b * c = a * (b * c)) ?_ ?_ ?_ a b c
  · intro b c; rw [zero_mul', zero_mul', zero_mul']
  · intro i hi b
    refine basis_induction (fun b => ∀ c : GF k m, mono i * b * c = mono i * (b * c)) ?_ ?_ ?_ b
    · intro c; rw [zero_mul', mul_zero', zero_mul']
    · intro j hj c
      refine basis_induction (fun c => mono i * mono j * c = mono i * (mono j * c)) ?_ ?_ ?_ c
      · rw [mul_zero', mul_zero', mul_zero']
      · intro l hl; exact h.assoc i hi j hj l hl
      · intro c d hc hd; rw [left_distrib', left_distrib', left_distrib', hc, hd]
    · intro b c hb hc d
      rw [left_distrib', right_distrib', right_distrib', left_distrib', hb, hc]
  · intro a a' ha ha' b c
    rw [right_distrib', right_distrib', right_distrib', ha, ha']

/-- The field structure, given the basis checks and inverses. -/
@[reducible] def mkField (h : BasisCheck k m) (hne : (0 : GF k m) ≠ 1)
    (hinv : ∀ a : GF k m, a ≠ 0 → a * a⁻¹ = 1) (hinv0 : (0 : GF k m)⁻¹ = 0) : Field (GF k m) where
  add_assoc := GF.add_assoc'
  zero_add := GF.zero_add'
  add_zero a := by rw [GF.add_comm']; exact GF.zero_add' a
  add_comm := GF.add_comm'
  neg_add_cancel := GF.add_self'
  left_distrib := left_distrib'
  right_distrib := right_distrib'
  zero_mul := zero_mul'
  mul_zero := mul_zero'
  mul_assoc := mul_assoc_of h
  one_mul := one_mul_of h
  mul_one a := by rw [mul_comm_of h]; exact one_mul_of h a
  mul_comm := mul_comm_of h
  exists_pair_ne := ⟨0, 1, hne⟩
  mul_inv_cancel := hinv
  inv_zero := hinv0
  div_eq_mul_inv _ _ := rfl
  nsmul := nsmulRec
  zsmul := zsmulRec
  nnqsmul := _
  nnqsmul_def := fun _ _ => rfl
  qsmul := _
  qsmul_def := fun _ _ => rfl

theorem basisCheck16 : BasisCheck 4 0b10011 where
  one := by decide +kernel
  comm := by decide +kernel
  assoc := by decide +kernel

theorem basisCheck256 : BasisCheck 8 0b100011101 where
  one := by decide +kernel
  comm := by decide +kernel
  assoc := by decide +kernel

/-- All elements with index below `n` pass the test. -/
def allBelow (n : Nat) (f : Nat → Bool) : Bool :=
  match n with
  | 0 => true
  | n + 1 => f n && allBelow n f

theorem allBelow_iff (n : Nat) (f : Nat → Bool) : allBelow n f = true ↔ ∀ i < n, f i = true := by
  induction n with
  | zero => simp [allBelow]
  | succ n ih =>
    simp only [allBelow, Bool.and_eq_true, ih, Nat.lt_succ_iff]
    constructor
    · rintro ⟨h1, h2⟩ i hi
      rcases Nat.eq_or_lt_of_le hi with rfl | h
      · exact h1
      · exact h2 i h
    · intro h; exact ⟨h n le_rfl, fun i hi => h i (le_of_lt hi)⟩

theorem inv16 : ∀ a : GF16, a ≠ 0 → a * a⁻¹ = 1 := by
  have h : allBelow 16 (fun n => n == 0 || decide ((⟨BitVec.ofNat 4 n⟩ : GF16) * (⟨BitVec.ofNat 4 n⟩)⁻¹ = 1)) = true := by
    decide +kernel
  rw [allBelow_iff] at h
  intro a ha
  have := h a.val.toNat a.val.isLt
  have hne : a.val.toNat ≠ 0 := by
    intro h0; apply ha; apply ext'; apply BitVec.eq_of_toNat_eq; simpa [zero_val] using h0
  simpa [hne] using this

theorem inv256 : ∀ a : GF256, a ≠ 0 → a * a⁻¹ = 1 := by
  have h : allBelow 256 (fun n => n == 0 || decide ((⟨BitVec.ofNat 8 n⟩ : GF256) * (⟨BitVec.ofNat 8 n⟩)⁻¹ = 1)) = true := by
    decide +kernel
  rw [allBelow_iff] at h
  intro a ha
  have := h a.val.toNat a.val.isLt
  have hne : a.val.toNat ≠ 0 := by
    intro h0; apply ha; apply ext'; apply BitVec.eq_of_toNat_eq; simpa [zero_val] using h0
  simpa [hne] using this

instance field16 : Field GF16 :=
  mkField basisCheck16 (by decide +kernel) inv16 (by decide +kernel)
instance field256 : Field GF256 :=
  mkField basisCheck256 (by decide +kernel) inv256 (by decide +kernel)

instance : CharP GF16 2 := CharTwo.of_one_ne_zero_of_two_eq_zero one_ne_zero (by decide +kernel)
instance : CharP GF256 2 := CharTwo.of_one_ne_zero_of_two_eq_zero one_ne_zero (by decide +kernel)

end GF

theorem gpow_eq_pow {G : Type} [Monoid G] (g : G) (n : Nat) : gpow g n = g ^ n := by
  induction n with
  | zero => simp [gpow]
  | succ n ih => rw [gpow, ih, pow_succ]

theorem orderOf_generator16 : orderOf (GF.generator : GF16) = 15 := by
  apply orderOf_eq_of_pow_and_pow_div_prime (by norm_num)
  · rw [← gpow_eq_pow]; decide +kernel
  · intro p hp hd
    have : p ≤ 15 := Nat.le_of_dvd (by norm_num) hd
    rw [← gpow_eq_pow]
    interval_cases p <;> first | decide +kernel | (exfalso; revert hd; decide) | (exfalso; revert hp; norm_num)

theorem orderOf_generator256 : orderOf (GF.generator : GF256) = 255 := by
  apply orderOf_eq_of_pow_and_pow_div_prime (by norm_num)
  · rw [← gpow_eq_pow]; decide +kernel
  · intro p hp hd
    have h255 : p ∈ Nat.primeFactors 255 := by simp [hp, hd]
    have : Nat.primeFactors 255 = {3, 5, 17} := by
      decide +kernel
    rw [this] at h255
    rw [← gpow_eq_pow]
    simp at h255
    rcases h255 with rfl | rfl | rfl <;> decide +kernel

end Rqrr
