import Verif.Model.Decode
import Verif.Proofs.Loops
import Mathlib.Algebra.BigOperators.Group.Finset.Basic
import Mathlib.Algebra.BigOperators.Intervals
import Mathlib.Algebra.BigOperators.Ring.Finset
import Mathlib.Algebra.Field.Basic

/-!
# Closed forms of the polynomial helper functions
-/

set_option linter.unusedSectionVars false

namespace Rqrr

open Finset

/-- The coefficient function of a fixed-size array (zero outside). -/
def co {G : Type} [Zero G] {n : Nat} (v : Vector G n) (i : Nat) : G := if h : i < n then v[i] else 0

section
variable {G : Type} [Zero G] {n : Nat}

theorem co_lt (v : Vector G n) {i : Nat} (h : i < n) : v[i] = co v i := by simp [co, h]
theorem co_ge (v : Vector G n) {i : Nat} (h : n ≤ i) : co v i = 0 := by
  have : ¬ i < n := by omega
  simp [co, this]
theorem aget_co (v : Vector G n) {i : Nat} (h : i < n) : aget v i = .ok (co v i) := by
  rw [aget_ok v h, co_lt]
theorem aset_co (v : Vector G n) {i : Nat} (a : G) (h : i < n) :
    ∃ v', aset v i a = .ok v' ∧ ∀ j, co v' j = if j = i then a else co v j := by
  refine ⟨_, aset_ok v a h, ?_⟩
  intro j
  by_cases hj : j < n
  · simp only [co, hj, dif_pos, Vector.getElem_set]
    by_cases hij : i = j
    · simp [hij]
    · have : j ≠ i := fun h => hij h.symm
      simp [hij, this]
  · have : j ≠ i := by omega
    simp [co, hj, this]
theorem co_replicate (j : Nat) : co (Vector.replicate n (0 : G)) j = 0 := by
  unfold co; split <;> simp
end

section
variable {G : Type} [Field G] [DecidableEq G]

/-- `poly_eval` evaluates the polynomial. -/
theorem poly_eval_eq (s : Arr64 G) (x : G) :
    poly_eval s x = .ok (∑ i ∈ range 64, co s i * x ^ i) := by
  unfold poly_eval
  rw [forRange_eq (fun i => (∑ j ∈ range i, co s j * x ^ j, x ^ i)) (by omega) (by simp)]
  · rfl
  · intro i _ h
    simp only [aget_co s h, Run.ok_bind, Run.pure_eq, sum_range_succ, pow_succ]

/-- `poly_add` adds `c * x^shift * src`, truncated to 64 coefficients. -/
theorem poly_add_spec (dst src : Arr64 G) (c : G) (shift : Nat) :
    ∃ d', poly_add dst src c shift = .ok d' ∧
      ∀ p, co d' p = co dst p + (if shift ≤ p ∧ p < 64 then co src (p - shift) * c else 0) := by
  unfold poly_add
  by_cases hc : c = 0
  · subst hc
    exact ⟨dst, by simp, by simp⟩
  · rw [if_neg hc]
    obtain ⟨d', h1, h2⟩ := forRange_ok (lo := 0) (hi := 64) (s := dst)
      (f := fun i dst => do
        let p := i + shift
        if p ≥ 64 then pure dst
        else do
          let v ← aget src i
          let d ← aget dst p
          aset dst p (d + v * c))
      (fun i (d : Arr64 G) => ∀ p, co d p = co dst p +
        (if shift ≤ p ∧ p < 64 ∧ p < i + shift then co src (p - shift) * c else 0))
      (by omega) (by intro p; rw [if_neg (by omega), add_zero]) (by
        intro i d _ hi hd
        by_cases hp : i + shift ≥ 64
        · refine ⟨d, by simp [hp, Run.pure_eq], ?_⟩
          intro p
          rw [hd p]
          congr 1
          by_cases h : shift ≤ p ∧ p < 64
          · rw [if_pos (by omega), if_pos (by omega)]
          · rw [if_neg (by omega), if_neg (by omega)]
        · have hp' : i + shift < 64 := by omega
          obtain ⟨d1, hd1, hd2⟩ := aset_co d (co d (i + shift) + co src i * c) hp'
          refine ⟨d1, ?_, ?_⟩
          · simp only [if_neg hp, aget_co src hi, aget_co d hp', Run.ok_bind, hd1]
          · intro p
            rw [hd2 p]
            by_cases hpi : p = i + shift
            · subst hpi
              rw [if_pos rfl, hd, if_neg (by omega), if_pos (by omega)]
              simp
            · rw [if_neg hpi, hd p]
              congr 1
              by_cases h : shift ≤ p ∧ p < 64 ∧ p < i + shift
              · rw [if_pos h, if_pos (by omega)]
              · rw [if_neg h, if_neg (by omega)])
    refine ⟨d', h1, ?_⟩
    intro p
    rw [h2 p]
    congr 1
    by_cases h : shift ≤ p ∧ p < 64
    · rw [if_pos h, if_pos (by omega)]
    · rw [if_neg h, if_neg (by omega)]

/-- The discrepancy sum of a linear feedback relation. -/
def disc (C : Nat → G) (L : Nat) (S : Nat → G) (n : Nat) : G := ∑ i ∈ range (L + 1), C i * S (n - i)

theorem bm_discrepancy_eq (s cs : Arr64 G) (l n : Nat) (hn : n < 64) (hl : l ≤ n) (h0 : co cs 0 = 1) :
    bm_discrepancy s cs l n = .ok (disc (co cs) l (co s) n) := by
  unfold bm_discrepancy disc
  rw [aget_co s hn, Run.ok_bind,
    forRange_eq (fun i => ∑ j ∈ range i, co cs j * co s (n - j)) (by omega) (by simp [h0])]
  intro i h1 h2
  rw [aget_co cs (by omega : i < 64), Run.ok_bind, subU_ok (by omega), Run.ok_bind,
    aget_co s (by omega : n - i < 64), Run.ok_bind, Run.pure_eq, sum_range_succ]

end

end Rqrr
