import Verif.Proofs.JiggleRounded
import Verif.Proofs.Double
import Verif.Props.Identify

/-!
# C49 with rounding: how far the refinement of a perspective goes
-/

namespace Rqrr

open Spec FloatOps

variable {F : Type} [FloatOps F] [Rounding F]

/-- C49, distance, in any correctly rounded arithmetic: refinement moves no coefficient by more than a twenty-fifth of its initial
value and the tiniest bit. In particular all coefficients stay finite. -/
theorem C49_close_rounded {fitness : Perspective F → Run Int} {p q : Perspective F} (h : jiggle_with fitness p = .ok q) (j : Nat)
    (hj : j < 8) {P : ℚ} (hP : Rounding.Is p[j] P) (hb : |P| ≤ 2 ^ 190) :
    ∃ Q, Rounding.Is q[j] Q ∧ |Q - P| ≤ |P| / 25 + 1 / 2 ^ 187 := by
  rw [jiggle_with_eq] at h
  obtain ⟨b, hf, h⟩ := Run.bind_eq_ok.1 h
  obtain ⟨⟨q', b', adj⟩, h1, h2⟩ := Run.bind_eq_ok.1 h
  cases h2
  have nP := abs_nonneg P
  -- the two factors
  have l50 : Rounding.Is (lit 2 2 : F) (Rounding.rnd F (1 / 50)) := by
    have := Rounding.lit (F := F) 2 2 (by norm_num)
    rwa [show (((2 : Nat) : ℚ) / 10 ^ 2) = 1 / 50 by norm_num] at this
  have n50 := Rounding.rnd_near (F := F) (1 / 50)
  have l2 : Rounding.Is (lit 5 1 : F) (Rounding.rnd F (1 / 2)) := by
    have := Rounding.lit (F := F) 5 1 (by norm_num)
    rwa [show (((5 : Nat) : ℚ) / 10 ^ 1) = 1 / 2 by norm_num] at this
  have n2 := Rounding.rnd_near (F := F) (1 / 2)
  generalize Rounding.rnd F (1 / 50) = u at l50 n50
  generalize Rounding.rnd F (1 / 2) = w at l2 n2
  have bu : |u| ≤ 1 / 50 + 1 / 2 ^ 40 := by
    have := abs_add_le (u - 1 / 50) (1 / 50)
    rw [sub_add_cancel] at this
    rw [abs_of_pos (show (0 : ℚ) < 1 / 50 by norm_num)] at n50 this
    norm_num at n50 this ⊢
    linarith
  have bw : |w| ≤ 1 / 2 + 1 / 2 ^ 40 := by
    have := abs_add_le (w - 1 / 2) (1 / 2)
    rw [sub_add_cancel] at this
    rw [abs_of_pos (show (0 : ℚ) < 1 / 2 by norm_num)] at n2 this
    norm_num at n2 this ⊢
    linarith
  -- a product, rounded
  have prod : ∀ {x y : F} {X Y c : ℚ}, Rounding.Is x X → Rounding.Is y Y → |Y| ≤ c → c ≤ 1 → |X| ≤ 2 ^ 195 →
      ∃ Z, Rounding.Is (x * y) Z ∧ |Z| ≤ |X| * c + |X| / 2 ^ 53 + 1 / 2 ^ 200 := by
    intro x y X Y c hx hy hc h1 hX
    have nX := abs_nonneg X
    have m : |X * Y| ≤ |X| * c := by rw [abs_mul]; exact mul_le_mul_of_nonneg_left hc nX
    have m1 : |X| * c ≤ |X| := mul_le_of_le_one_right nX h1
    have m2 : |X * Y| ≤ |X| := m.trans m1
    refine ⟨_, Rounding.mul hx hy (m2.trans (hX.trans (by norm_num))), ?_⟩
    have nr := Rounding.rnd_near (F := F) (X * Y)
    generalize Rounding.rnd F (X * Y) = Z at nr
    have t := abs_add_le (Z - X * Y) (X * Y)
    rw [sub_add_cancel] at t
    have d : |X * Y| / 2 ^ 53 ≤ |X| / 2 ^ 53 := by gcongr
    linarith
  have key := forRange_inv (fun k (st : Perspective F × Int × Perspective F) => fitness st.1 = .ok st.2.1 ∧
    ∃ Q A, Rounding.Is st.1[j] Q ∧ Rounding.Is st.2.2[j] A ∧
      |A| ≤ (1 / 50 + ((k : ℚ) + 1) / 2 ^ 20) / 2 ^ k * |P| + 1 / 2 ^ 197 ∧
      |Q - P| ≤ ((1 - 1 / 2 ^ k) / 25 + (k : ℚ) / 2 ^ 15) * |P| + (k : ℚ) / 2 ^ 190) (Nat.zero_le 5)
    ⟨hf, by
      obtain ⟨A, hA, bA⟩ := prod hP l50 bu (by norm_num) (hb.trans (by norm_num))
      refine ⟨P, A, hP, ?_, ?_, ?_⟩
      · dsimp only
        rw [Vector.getElem_map]
        exact hA
      · norm_num at bA ⊢
        linarith
      · simp⟩ (by
      rintro k ⟨p1, b1, adj1⟩ ⟨p2, b2, adj2⟩ _ hk ⟨i1, Q, A, hQ, hA, bA, bQ⟩ hs
      obtain ⟨j1, -, -⟩ := jiggle_pass_inv hs i1
      obtain ⟨k1, k2⟩ := jiggle_pass_states hs i1 j hj
      refine ⟨j1, ?_⟩
      dsimp only at hQ hA k1 k2 ⊢
      have tQ := abs_add_le (Q - P) P
      rw [sub_add_cancel] at tQ
      generalize hD : |Q - P| = D at bQ tQ
      have cA : |A| ≤ |P| / 10 + 1 / 2 ^ 190 := by
        interval_cases k <;> norm_num at bA ⊢ <;> linarith
      have cQ : |Q| ≤ 2 * |P| + 1 / 2 ^ 180 := by
        interval_cases k <;> norm_num at bQ ⊢ <;> linarith
      have dA : |A| ≤ 2 ^ 195 := by norm_num at hb cA ⊢; linarith
      have dQ : |Q| ≤ 2 ^ 195 := by norm_num at hb cQ ⊢; linarith
      obtain ⟨Q', hQ', bQ'⟩ := pass_near hQ hA dQ dA k1
      obtain ⟨A', hA', bA'⟩ := prod hA l2 bw (by norm_num) dA
      refine ⟨Q', A', hQ', by rw [k2]; exact hA', ?_, ?_⟩
      · interval_cases k <;> norm_num at bA bA' ⊢ <;> linarith
      · have t := abs_add_le (Q' - Q) (Q - P)
        rw [sub_add_sub_cancel, hD] at t
        interval_cases k <;> norm_num at bA bQ bQ' cA cQ ⊢ <;> linarith) h1
  obtain ⟨-, Q, A, hQ, -, -, bQ⟩ := key
  refine ⟨Q, hQ, ?_⟩
  norm_num at bQ ⊢
  linarith

/-- C49, distance, for the fitness used by the program, with the numbers of the machine. -/
theorem C49_close_perspective {S : Type} [ImageBuffer S] {img : PreparedImage S} {p q : Perspective F64} {grid_size : Nat}
    (h : jiggle_perspective img p grid_size = .ok q) (j : Nat) (hj : j < 8) {P : ℚ} (hP : Rounding.Is p[j] P)
    (hb : |P| ≤ 2 ^ 190) : ∃ Q, Rounding.Is q[j] Q ∧ |Q - P| ≤ |P| / 25 + 1 / 2 ^ 187 :=
  C49_close_rounded h j hj hP hb

/-- A coefficient of a thousand stays between 959 and 1041, whatever the fitness. -/
example (fitness : Perspective F64 → Run Int) (hf : ∀ p, ∃ b, fitness p = .ok b) :
    ∃ q Q, jiggle_with fitness (Vector.replicate 8 (FloatOps.ofInt 1000)) = .ok q ∧ Rounding.Is q[7] Q ∧
      |Q - 1000| ≤ 40 + 1 / 2 ^ 187 := by
  obtain ⟨q, hq⟩ := C49_total hf (Vector.replicate 8 (FloatOps.ofInt 1000))
  have one : Rounding.Is (Vector.replicate 8 (FloatOps.ofInt 1000 : F64))[7] 1000 := by
    rw [Vector.getElem_replicate]
    have := Rounding.ofInt (F := F64) 1000 (by norm_num)
    rwa [Rounding.rnd_int 1000 (by norm_num)] at this
  obtain ⟨Q, h1, h2⟩ := C49_close_rounded hq 7 (by omega) one (by norm_num)
  refine ⟨q, Q, hq, h1, h2.trans (le_of_eq ?_)⟩
  norm_num

end Rqrr
