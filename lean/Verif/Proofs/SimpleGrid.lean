import Verif.Proofs.Loops
import Verif.Model.Lib
import Mathlib.Data.List.GetD

/-!
# `SimpleGrid`
-/

namespace Rqrr

/-- Bit `k` of a bitmap. -/
def bmBit (bm : List Byte) (k : Nat) : Bool := (bm.getD (k / 8) 0).getLsbD (k % 8)

theorem and_bit (b : Byte) (j : Nat) (hj : j < 8) : (b &&& (1#8 <<< j) != 0) = b.getLsbD j := by
  revert b
  match j, hj with
  | 0, _ | 1, _ | 2, _ | 3, _ | 4, _ | 5, _ | 6, _ | 7, _ => decide +kernel

theorem or_bit (b : Byte) (j i : Nat) (hj : j < 8) (hi : i < 8) :
    (b ||| (1#8 <<< j)).getLsbD i = (b.getLsbD i || decide (i = j)) := by
  rw [BitVec.getLsbD_or, BitVec.getLsbD_shiftLeft]
  congr 1
  by_cases h : i = j
  · subst h; simp [hi]
  · by_cases h2 : i < j
    · simp [h2, h]
    · have : i - j ≠ 0 := by omega
      simp [hi, h, this]

theorem bmBit_set {bm : List Byte} {c : Nat} (hc : c / 8 < bm.length) (k : Nat) :
    bmBit (bm.set (c / 8) (bm[c / 8] ||| (1#8 <<< (c % 8)))) k = (bmBit bm k || decide (k = c)) := by
  unfold bmBit
  by_cases h : k / 8 = c / 8
  · rw [h]
    rw [List.getD_eq_getElem _ _ (by simpa using hc), List.getElem_set_self, or_bit _ _ _ (by omega) (by omega),
      List.getD_eq_getElem _ _ hc]
    congr 1
    apply decide_eq_decide.2
    omega
  · have hk : k ≠ c := by intro e; subst e; exact h rfl
    rw [List.getD_eq_getElem?_getD, List.getElem?_set_ne (by omega), ← List.getD_eq_getElem?_getD]
    simp [hk]

/-- State of the fill loop before cell `c`. -/
structure FillInv (n : Nat) (f : Nat → Nat → Bool) (c : Nat) (st : List Byte × Nat) : Prop where
  len : st.1.length = (n * n + 7) / 8
  count : st.2 = c
  bits : ∀ k, bmBit st.1 k = (decide (k < c) && f (k % n) (k / n))

theorem grid_fill_step {n : Nat} {f : Nat → Nat → Bool} {y x : Nat} (hy : y < n) (hx : x < n) {st : List Byte × Nat}
    (h : FillInv n f (y * n + x) st) : ∃ st', SimpleGrid.fill f y x st = .ok st' ∧ FillInv n f (y * n + (x + 1)) st' := by
  obtain ⟨bm, c⟩ := st
  have hc : c = y * n + x := h.count
  have e1 : c % n = x := by rw [hc, Nat.mul_comm, Nat.mul_add_mod, Nat.mod_eq_of_lt hx]
  have e2 : c / n = y := by
    rw [hc, Nat.mul_comm, Nat.mul_add_div (by omega), Nat.div_eq_of_lt hx, Nat.add_zero]
  have hlt : c < n * n := by
    have : (y + 1) * n ≤ n * n := Nat.mul_le_mul_right n hy
    rw [Nat.add_mul] at this
    omega
  have hlen := h.len
  have hin : c / 8 < bm.length := by rw [hlen]; omega
  have es : c >>> 3 = c / 8 := by rw [Nat.shiftRight_eq_div_pow]
  have em : c &&& 7 = c % 8 := Nat.and_two_pow_sub_one_eq_mod c 3
  have hdec : ∀ k, decide (k < y * n + (x + 1)) = (decide (k < y * n + x) || decide (k = c)) := by
    intro k
    rw [← Bool.decide_or]
    apply decide_eq_decide.2
    omega
  unfold SimpleGrid.fill
  dsimp only
  by_cases hf : f x y = true
  · rw [if_pos hf, es, idx_ok _ hin, Run.ok_bind, em, setIdx_ok _ _ hin, Run.ok_bind]
    refine ⟨_, rfl, ?_, ?_, ?_⟩
    · rw [List.length_set]; exact hlen
    · show c + 1 = _; omega
    · intro k
      show bmBit (bm.set (c / 8) _) k = _
      rw [bmBit_set hin, h.bits, hdec]
      by_cases hk : k = c
      · subst hk; rw [e1, e2, hf]; simp
      · simp [hk]
  · rw [if_neg hf]
    refine ⟨_, rfl, hlen, ?_, ?_⟩
    · show c + 1 = _; omega
    · intro k
      show bmBit bm k = _
      rw [h.bits, hdec]
      by_cases hk : k = c
      · subst hk; rw [e1, e2]; simp [hf]
      · simp [hk]

theorem from_func_ok (n : Nat) (f : Nat → Nat → Bool) : ∃ g, SimpleGrid.from_func n f = .ok g ∧ g.size = n ∧
    g.cell_bitmap.length = (n * n + 7) / 8 ∧
    ∀ k, bmBit g.cell_bitmap k = (decide (k < n * n) && f (k % n) (k / n)) := by
  obtain ⟨st, h1, h2⟩ := forRange_ok (lo := 0) (hi := n) (s := (List.replicate ((n * n + 7) / 8) 0#8, 0))
    (f := fun y st => forRange 0 n st fun x st => SimpleGrid.fill f y x st)
    (fun y st => FillInv n f (y * n) st) (Nat.zero_le _)
    (by
      refine ⟨by simp, by simp, ?_⟩
      intro k
      unfold bmBit
      by_cases hk : k / 8 < (n * n + 7) / 8
      · rw [List.getD_eq_getElem _ _ (by simpa using hk)]; simp
      · rw [List.getD_eq_default _ _ (by simpa using hk)]; simp)
    (by
      intro y st _ hy hinv
      obtain ⟨st', h1, h2⟩ := forRange_ok (lo := 0) (hi := n) (s := st) (f := fun x st => SimpleGrid.fill f y x st)
        (fun x st => FillInv n f (y * n + x) st) (Nat.zero_le _) hinv
        (fun x st _ hx h => grid_fill_step hy hx h)
      refine ⟨st', h1, ?_⟩
      rw [Nat.succ_mul]; exact h2)
  refine ⟨{ cell_bitmap := st.1, size := n }, ?_, rfl, h2.len, h2.bits⟩
  unfold SimpleGrid.from_func
  rw [h1]
  rfl

theorem simple_bit {g : SimpleGrid} {y x : Nat} (h : (y * g.size + x) / 8 < g.cell_bitmap.length) :
    g.toBitGrid.bit y x = .ok (bmBit g.cell_bitmap (y * g.size + x)) := by
  unfold SimpleGrid.toBitGrid
  dsimp only
  rw [Nat.shiftRight_eq_div_pow, idx_ok _ h, Run.ok_bind, Run.pure_eq, and_bit _ _ (by
    have := Nat.and_two_pow_sub_one_eq_mod (y * g.size + x) 3
    simp only [Nat.reducePow, Nat.add_one_sub_one] at this
    omega), show (y * g.size + x) &&& 7 = (y * g.size + x) % 8 from Nat.and_two_pow_sub_one_eq_mod _ 3]
  unfold bmBit
  rw [List.getD_eq_getElem _ _ h]

end Rqrr
