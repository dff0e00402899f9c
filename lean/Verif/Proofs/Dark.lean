import Verif.Spec.Binarise
import Mathlib.Tactic.Linarith
import Mathlib.Tactic.Positivity
import Mathlib.Tactic.FieldSimp
import Mathlib.Tactic.Ring
import Mathlib.Algebra.Ring.Parity
import Mathlib.Algebra.BigOperators.Ring.List
import Mathlib.Algebra.BigOperators.Ring.Finset
import Mathlib.Algebra.Order.BigOperators.Group.List
import Mathlib.Algebra.Order.Ring.Pow
import Mathlib.Data.Rat.Cast.Order

/-!
# Lower bounds of the running averages
-/

namespace Rqrr

open Spec

/-- What is left after `m` windows. -/
theorem q_pow {ts n m : Nat} (hts : 2 ≤ ts) (hn : n ≤ m * ts) : (1 / 4 : ℚ) ^ m ≤ (((ts : ℚ) - 1) / ts) ^ n := by
  have hpos : (0 : ℚ) < ts := by exact_mod_cast (show 0 < ts by omega)
  have h2 : (2 : ℚ) ≤ ts := by exact_mod_cast hts
  have q0 : (0 : ℚ) ≤ ((ts : ℚ) - 1) / ts := div_nonneg (by linarith) hpos.le
  have q1 : ((ts : ℚ) - 1) / ts ≤ 1 := by rw [div_le_one hpos]; linarith
  have eq : ((ts : ℚ) - 1) / ts = 1 + -(1 / ts) := by field_simp; ring
  have bern : ∀ m : Nat, 1 - (m : ℚ) / ts ≤ (((ts : ℚ) - 1) / ts) ^ m := by
    intro m
    have hb := one_add_mul_le_pow (a := -(1 / (ts : ℚ))) (by
      have : (1 / (ts : ℚ)) ≤ 1 := by rw [div_le_one hpos]; linarith
      linarith) m
    rw [eq]
    refine le_trans (le_of_eq ?_) hb
    ring
  have one : (1 / 4 : ℚ) ≤ (((ts : ℚ) - 1) / ts) ^ ts := by
    obtain ⟨k, hk⟩ | ⟨k, hk⟩ := Nat.even_or_odd ts
    · have hb := bern k
      have : (ts : ℚ) = k + k := by exact_mod_cast hk
      have hh : (1 / 2 : ℚ) ≤ (((ts : ℚ) - 1) / ts) ^ k := by
        refine le_trans ?_ hb
        have : (k : ℚ) / ts ≤ 1 / 2 := by rw [div_le_iff₀ hpos]; linarith
        linarith
      calc (1 / 4 : ℚ) = 1 / 2 * (1 / 2) := by norm_num
        _ ≤ (((ts : ℚ) - 1) / ts) ^ k * (((ts : ℚ) - 1) / ts) ^ k := mul_le_mul hh hh (by norm_num) (pow_nonneg q0 _)
        _ = _ := by rw [← pow_add]; congr 1; omega
    · have e : (ts : ℚ) = 2 * k + 1 := by exact_mod_cast hk
      have hk1 : (1 : ℚ) ≤ k := by exact_mod_cast (show 1 ≤ k by omega)
      have hb : ((k : ℚ) + 1) / ts ≤ (((ts : ℚ) - 1) / ts) ^ k := by
        refine le_trans (le_of_eq ?_) (bern k)
        rw [e]
        field_simp
        ring
      have b0 : (0 : ℚ) ≤ ((k : ℚ) + 1) / ts := by positivity
      calc (1 / 4 : ℚ) ≤ ((k : ℚ) + 1) / ts * (((k : ℚ) + 1) / ts) * (((ts : ℚ) - 1) / ts) := by
            rw [e, div_mul_div_comm, div_mul_div_comm, div_le_div_iff₀ (by norm_num) (by positivity)]
            nlinarith
        _ ≤ (((ts : ℚ) - 1) / ts) ^ k * (((ts : ℚ) - 1) / ts) ^ k * (((ts : ℚ) - 1) / ts) :=
            mul_le_mul_of_nonneg_right (mul_le_mul hb hb b0 (pow_nonneg q0 _)) q0
        _ = _ := by rw [← pow_add, ← pow_succ]; congr 1; omega
  calc (1 / 4 : ℚ) ^ m ≤ ((((ts : ℚ) - 1) / ts) ^ ts) ^ m := pow_le_pow_left₀ (by norm_num) one m
    _ = (((ts : ℚ) - 1) / ts) ^ (m * ts) := by rw [← pow_mul, Nat.mul_comm]
    _ ≤ _ := pow_le_pow_of_le_one q0 q1 hn

/-- The average after `n` more values: at least the discounted sum of these values less the rounding. -/
theorem running_discounted {ts : Nat} (hts : 1 ≤ ts) (seq : Nat → Nat) (k : Nat) : ∀ n,
    ((List.range n).map fun i => (seq (k + (n - 1 - i)) : ℚ) * (((ts : ℚ) - 1) / ts) ^ i).sum - ((ts : ℚ) - 1) ≤
      running ts seq (k + n)
  | 0 => by
    have h1 : (1 : ℚ) ≤ ts := by exact_mod_cast hts
    have : (0 : ℚ) ≤ running ts seq (k + 0) := by positivity
    simp only [List.range_zero, List.map_nil, List.sum_nil]
    linarith
  | n + 1 => by
    have ih := running_discounted hts seq k n
    have hpos : (0 : ℚ) < ts := by exact_mod_cast hts
    have h1 : (1 : ℚ) ≤ ts := by exact_mod_cast hts
    set q := ((ts : ℚ) - 1) / ts with hq
    have q0 : 0 ≤ q := div_nonneg (by linarith) hpos.le
    rw [← Nat.add_assoc]
    unfold running
    set R := running ts seq (k + n)
    have hfl : (R : ℚ) * q - q ≤ ((R * (ts - 1) / ts : Nat) : ℚ) := by
      have hd := Nat.div_add_mod (R * (ts - 1)) ts
      have hm := Nat.mod_lt (R * (ts - 1)) (show 0 < ts by omega)
      have e : R * (ts - 1) ≤ ts * (R * (ts - 1) / ts) + (ts - 1) := by omega
      have e' : (R : ℚ) * ((ts : ℚ) - 1) ≤ ts * ((R * (ts - 1) / ts : Nat) : ℚ) + ((ts : ℚ) - 1) := by
        have := (Nat.cast_le (α := ℚ)).2 e
        push_cast [Nat.cast_sub hts] at this
        exact_mod_cast this
      rw [hq, mul_div_assoc', ← sub_div, div_le_iff₀ hpos]
      linarith
    have hsum : ((List.range (n + 1)).map fun i => (seq (k + (n + 1 - 1 - i)) : ℚ) * q ^ i).sum =
        seq (k + n) + q * ((List.range n).map fun i => (seq (k + (n - 1 - i)) : ℚ) * q ^ i).sum := by
      rw [List.range_succ_eq_map, List.map_cons, List.sum_cons, List.map_map, ← List.sum_map_mul_left]
      congr 1
      · simp
      · congr 1
        apply List.map_congr_left
        intro i _
        simp only [Function.comp]
        rw [show n + 1 - 1 - i.succ = n - 1 - i by omega, pow_succ]
        ring
    rw [hsum]
    push_cast
    have hqe : q * ((ts : ℚ) - 1) + q = (ts : ℚ) - 1 := by rw [hq]; field_simp; ring
    have := mul_le_mul_of_nonneg_left ih q0
    nlinarith

/-- The average is at least a quarter of the sum of the last values, less the window. -/
theorem running_recent {ts : Nat} (hts : 2 ≤ ts) (seq : Nat → Nat) (k n m : Nat) (hn : n ≤ m * ts) :
    ((List.range n).map fun i => seq (k + (n - 1 - i))).sum ≤ 4 ^ m * running ts seq (k + n) + 4 ^ m * (ts - 1) := by
  have h1 : 1 ≤ ts := by omega
  have hd := running_discounted h1 seq k n
  have p4 : (0 : ℚ) < 4 ^ m := by positivity
  have : ((((List.range n).map fun i => seq (k + (n - 1 - i))).sum : Nat) : ℚ) ≤
      4 ^ m * ((List.range n).map fun i => (seq (k + (n - 1 - i)) : ℚ) * (((ts : ℚ) - 1) / ts) ^ i).sum := by
    rw [Nat.cast_list_sum, List.map_map, ← List.sum_map_mul_left]
    apply List.sum_le_sum
    intro i hi
    have hi' := List.mem_range.1 hi
    have hq := q_pow (n := i) (m := m) hts (by omega)
    have h0 : (0 : ℚ) ≤ seq (k + (n - 1 - i)) := by positivity
    simp only [Function.comp]
    have e1 : (4 : ℚ) ^ m * (1 / 4) ^ m = 1 := by rw [← mul_pow]; norm_num
    have h41 : 1 ≤ (4 : ℚ) ^ m * (((ts : ℚ) - 1) / ts) ^ i := by
      have := mul_le_mul_of_nonneg_left hq p4.le
      rwa [e1] at this
    nlinarith
  have h : ((((List.range n).map fun i => seq (k + (n - 1 - i))).sum : Nat) : ℚ) ≤
      ((4 ^ m * running ts seq (k + n) + 4 ^ m * (ts - 1) : Nat) : ℚ) := by
    push_cast [Nat.cast_sub h1] at this ⊢
    have := mul_le_mul_of_nonneg_left hd p4.le
    linarith
  exact_mod_cast h

end Rqrr
