import Verif.Proofs.Reserved
import Mathlib.Algebra.BigOperators.Group.Finset.Basic
import Mathlib.Algebra.Order.BigOperators.Group.Finset
import Mathlib.Data.Finset.Card
import Mathlib.Data.Finset.Prod
import Mathlib.Algebra.BigOperators.Ring.Finset

/-!
# Counting data modules

The number of non-function modules is computed per row with bit masks; the masks are proved equal to the
specification's predicate.
-/

namespace Rqrr

open Spec Finset

/-- Bits `a..b-1`. -/
def ival (a b : Nat) : Nat := (2 ^ (b - a) - 1) <<< a

theorem ival_testBit (a b x : Nat) : (ival a b).testBit x = (decide (a ≤ x) && decide (x < b)) := by
  unfold ival
  rw [Nat.testBit_shiftLeft, Nat.testBit_two_pow_sub_one, Bool.eq_iff_iff]
  simp only [Bool.and_eq_true, decide_eq_true_eq]
  omega

/-- Bitwise or of a list. -/
def orMap (f : Nat → Nat) : List Nat → Nat
  | [] => 0
  | a :: as => f a ||| orMap f as

theorem orMap_testBit (f : Nat → Nat) (x : Nat) : ∀ l : List Nat,
    (orMap f l).testBit x = l.any fun a => (f a).testBit x
  | [] => by simp [orMap]
  | a :: as => by rw [orMap, Nat.testBit_or, orMap_testBit f x as, List.any_cons]

/-- The corner exclusion of `isAlignCentre`, with the last coordinate given. -/
def centreB (last a b : Nat) : Bool :=
  bif Nat.beq a 6 then !(Nat.beq b 6 || Nat.beq b last) else !(Nat.beq a last && Nat.beq b 6)

/-- Alignment part of the mask of row `y`. -/
def alignMask (cs : List Nat) (last y : Nat) : Nat :=
  orMap (fun a => bif Nat.ble a (y + 2) && Nat.ble y (a + 2) then
    orMap (fun b => bif centreB last a b then ival (b - 2) (b + 3) else 0) cs else 0) cs

/-- Function modules of row `y` as a bit mask. -/
def rowMask (cs : List Nat) (last v y : Nat) : Nat :=
  (if y ≤ 7 then ival 0 8 ||| ival (side v - 8) (side v) else 0) |||
  (if y ≥ side v - 8 then ival 0 8 else 0) |||
  (if y = 6 then ival 0 (side v) else 0) ||| ival 6 7 |||
  (if y = 8 then ival 0 9 ||| ival (side v - 8) (side v) else 0) |||
  (if y ≤ 8 ∨ y ≥ side v - 8 then ival 8 9 else 0) |||
  (if v ≥ 7 ∧ y ≤ 5 then ival (side v - 11) (side v - 8) else 0) |||
  (if v ≥ 7 ∧ side v - 11 ≤ y ∧ y ≤ side v - 9 then ival 0 6 else 0) |||
  alignMask cs last y

theorem ite_testBit (c : Prop) [Decidable c] (m x : Nat) :
    (if c then m else 0).testBit x = (decide c && m.testBit x) := by
  by_cases h : c <;> simp [h]

theorem bif_testBit (c : Bool) (m x : Nat) : (bif c then m else 0).testBit x = (c && m.testBit x) := by
  cases c <;> simp

theorem centreB_eq (cs : List Nat) (a b : Nat) (ha : a ∈ cs) (hb : b ∈ cs) :
    centreB (cs.getLastD 6) a b = isAlignCentre cs a b := by
  unfold centreB isAlignCentre
  rw [List.contains_iff_mem.mpr ha, List.contains_iff_mem.mpr hb]
  have e : ∀ p q : Nat, Nat.beq p q = (p == q) := fun p q => by
    rw [Bool.eq_iff_iff, beq_iff_eq, Nat.beq_eq]
  simp only [e]
  generalize cs.getLastD 6 = l
  by_cases h1 : a = 6
  · subst h1
    by_cases h2 : b = 6
    · subst h2; simp
    · simp [h2]
  · have : (a == 6) = false := beq_eq_false_iff_ne.mpr h1
    simp [this]

theorem alignMask_testBit (cs : List Nat) (hcs : ∀ c ∈ cs, 2 ≤ c) (y x : Nat) :
    (alignMask cs (cs.getLastD 6) y).testBit x = inAlignment cs y x := by
  unfold alignMask inAlignment
  rw [orMap_testBit, Bool.eq_iff_iff, List.any_eq_true, List.any_eq_true]
  apply exists_congr
  intro a
  apply and_congr_right
  intro ha
  rw [bif_testBit, orMap_testBit, Bool.and_eq_true, List.any_eq_true, List.any_eq_true]
  constructor
  · rintro ⟨h1, b, hb, h2⟩
    refine ⟨b, hb, ?_⟩
    rw [bif_testBit, ival_testBit, centreB_eq cs a b ha hb] at h2
    simp only [Bool.and_eq_true, decide_eq_true_eq, Nat.ble_eq] at h1 h2 ⊢
    have := hcs b hb
    refine ⟨⟨h2.1, ?_⟩, ?_⟩ <;> unfold dist <;> split <;> omega
  · rintro ⟨b, hb, h⟩
    simp only [Bool.and_eq_true, decide_eq_true_eq] at h
    have h1 := h.1.2
    have h2 := h.2
    unfold dist at h1 h2
    refine ⟨?_, b, hb, ?_⟩
    · simp only [Bool.and_eq_true, Nat.ble_eq]
      split at h1 <;> omega
    · rw [bif_testBit, ival_testBit, centreB_eq cs a b ha hb]
      simp only [Bool.and_eq_true, decide_eq_true_eq]
      refine ⟨h.1.1, ?_, ?_⟩ <;> split at h2 <;> omega

theorem rowMask_testBit (cs : List Nat) (hcs : ∀ c ∈ cs, 2 ≤ c) (v y x : Nat) (hv : 1 ≤ v)
    (hx : x < side v) : (rowMask cs (cs.getLastD 6) v y).testBit x = isFunctionOf cs v y x := by
  have hside : side v = v * 4 + 17 := by unfold side; omega
  unfold rowMask isFunctionOf
  rw [Nat.testBit_or, alignMask_testBit cs hcs]
  congr 1
  simp only [Nat.testBit_or, ite_testBit, ival_testBit]
  unfold inFinder inTiming inFormat inVersionInfo
  rw [hside] at hx ⊢
  rw [Bool.eq_iff_iff]
  simp only [Bool.or_eq_true, Bool.and_eq_true, decide_eq_true_eq, beq_iff_eq]
  omega

/-- Clear bits below `n`, added to `acc`. -/
def cntClear (m : Nat) : Nat → Nat → Nat
  | 0, acc => acc
  | n + 1, acc => cntClear m n (bif m.testBit n then acc else acc + 1)

theorem cntClear_eq (m : Nat) : ∀ n acc, cntClear m n acc = acc + ((range n).filter fun x => m.testBit x = false).card
  | 0, acc => by simp [cntClear]
  | n + 1, acc => by
    rw [cntClear, cntClear_eq m n, range_add_one, filter_insert]
    cases h : m.testBit n with
    | true => simp
    | false =>
      rw [if_pos rfl, card_insert_of_notMem (by simp)]
      simp only [cond_false]; omega

/-- Clear bits below `w` of the masks of the rows below `n`, added to `acc`; the count `c` of the row before, with mask
`m`, is reused when the masks agree. -/
def cntRows (f : Nat → Nat) (w : Nat) : Nat → Nat → Nat → Nat → Nat
  | 0, _, _, acc => acc
  | n + 1, m, c, acc =>
    bif Nat.beq (f n) m then cntRows f w n m c (acc + c)
    else cntRows f w n (f n) (cntClear (f n) w 0) (acc + cntClear (f n) w 0)

theorem cntRows_eq (f : Nat → Nat) (w : Nat) : ∀ n m c acc, c = cntClear m w 0 →
    cntRows f w n m c acc = acc + ∑ y ∈ range n, ((range w).filter fun x => (f y).testBit x = false).card
  | 0, m, c, acc, _ => by simp [cntRows]
  | n + 1, m, c, acc, hc => by
    rw [cntRows, sum_range_succ]
    cases h : Nat.beq (f n) m with
    | true =>
      have e : f n = m := Nat.eq_of_beq_eq_true h
      rw [cond_true, cntRows_eq f w n m c _ hc, hc, cntClear_eq, e]
      omega
    | false =>
      rw [cond_false, cntRows_eq f w n (f n) _ _ rfl, cntClear_eq]
      omega

/-- Clear bits of no mask. -/
theorem cntClear_zero (w : Nat) : cntClear 0 w 0 = w := by
  rw [cntClear_eq]; simp

set_option maxRecDepth 100000 in
/-- Evaluation for all 40 versions (with the coordinates the code uses). -/
theorem capacity_eval : ∀ v < 41, v = 0 ∨
    cntRows (rowMask (codeCoords v) ((codeCoords v).getLastD 6) v) (side v) (side v) 0 (side v) 0 = dataModules v := by
  decide +kernel

set_option maxRecDepth 100000 in
theorem capacity_eval_21 :
    cntRows (rowMask (alignCoords 21) ((alignCoords 21).getLastD 6) 21) (side 21) (side 21) 0 (side 21) 0 =
      dataModules 21 := by
  decide +kernel

theorem codeCoords_ge : ∀ v < 41, ∀ c ∈ codeCoords v, 2 ≤ c := by decide +kernel
theorem alignCoords_ge : ∀ v < 41, ∀ c ∈ alignCoords v, 2 ≤ c := by decide +kernel

/-- The set of data modules. -/
def dataCells (cs : List Nat) (v : Nat) : Finset (Nat × Nat) :=
  (range (side v) ×ˢ range (side v)).filter fun p => isFunctionOf cs v p.1 p.2 = false

theorem dataCells_card_eq (cs : List Nat) (hcs : ∀ c ∈ cs, 2 ≤ c) (v : Nat) (hv : 1 ≤ v) :
    (dataCells cs v).card = cntRows (rowMask cs (cs.getLastD 6) v) (side v) (side v) 0 (side v) 0 := by
  rw [cntRows_eq _ _ _ _ _ _ (cntClear_zero _).symm, Nat.zero_add]
  unfold dataCells
  rw [card_filter, sum_product]
  apply sum_congr rfl
  intro y _
  rw [card_filter]
  apply sum_congr rfl
  intro x hx
  rw [rowMask_testBit cs hcs v y x hv (by simpa using hx)]

/-- The number of data modules is the ISO capacity. -/
theorem dataCells_card (v : Nat) (h1 : 1 ≤ v) (h40 : v ≤ 40) :
    (dataCells (codeCoords v) v).card = dataModules v := by
  rw [dataCells_card_eq _ (codeCoords_ge v (by omega)) v h1]
  exact (capacity_eval v (by omega)).resolve_left (by omega)

theorem dataCells_card_iso (v : Nat) (h1 : 1 ≤ v) (h40 : v ≤ 40) :
    (dataCells (alignCoords v) v).card = dataModules v := by
  by_cases h : v = 21
  · subst h
    rw [dataCells_card_eq _ (alignCoords_ge 21 (by omega)) 21 h1]
    exact capacity_eval_21
  · rw [← codeCoords_iso v (by omega) h]; exact dataCells_card v h1 h40

end Rqrr
