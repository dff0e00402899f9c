import Verif.Proofs.Jiggle
import Verif.Spec.Exact
import Mathlib.Tactic.Ring
import Mathlib.Tactic.Linarith
import Mathlib.Tactic.NormNum
import Mathlib.Algebra.Order.Group.Unbundled.Abs

/-!
# Size of the refinement, in exact arithmetic
-/

namespace Rqrr

/-- How coefficient `j` may have changed after `i` of the 16 tries of a pass. -/
def TryState (p adj q : Perspective ℚ) (i j : Nat) (hj : j < 8) : Prop :=
  if i ≤ 2 * j then q[j] = p[j]
  else if i = 2 * j + 1 then q[j] = p[j] ∨ q[j] = p[j] - adj[j]
  else |q[j] - p[j]| ≤ |adj[j]|

theorem jiggle_try_exact {fitness : Perspective ℚ → Run Int} {p adj q q' : Perspective ℚ} {i : Nat} {b b' : Int} (hi : i < 16)
    (h : jiggle_try fitness adj i (q, b) = .ok (q', b')) (hb : fitness q = .ok b)
    (hinv : ∀ j (hj : j < 8), TryState p adj q i j hj) : ∀ j (hj : j < 8), TryState p adj q' (i + 1) j hj := by
  obtain ⟨-, h2⟩ := jiggle_try_inv h hb
  intro j hj
  have hij := hinv j hj
  have hodd : i &&& 1 = i % 2 := Nat.and_one_is_mod i
  have hsh : i >>> 1 = i / 2 := by rw [Nat.shiftRight_eq_div_pow]
  unfold TryState at hij ⊢
  rcases h2 with ⟨rfl, -⟩ | ⟨-, hj', rfl⟩
  · by_cases c1 : i + 1 ≤ 2 * j
    · rw [if_pos c1]; rw [if_pos (by omega)] at hij; exact hij
    · rw [if_neg c1]
      by_cases c2 : i + 1 = 2 * j + 1
      · rw [if_pos c2]; rw [if_pos (by omega)] at hij; exact .inl hij
      · rw [if_neg c2]
        rw [if_neg (by omega)] at hij
        by_cases c3 : i = 2 * j + 1
        · rw [if_pos c3] at hij
          rcases hij with e | e
          · rw [e, sub_self, abs_zero]; exact abs_nonneg _
          · rw [e, show p[j] - adj[j] - p[j] = -adj[j] by ring, abs_neg]
        · rw [if_neg c3] at hij; exact hij
  · by_cases hjj : i >>> 1 = j
    · subst hjj
      rw [if_neg (by omega)]
      by_cases c : i % 2 = 0
      · rw [if_pos (by omega), Vector.getElem_set_self]
        rw [if_pos (by omega)] at hij
        right
        rw [if_neg (by omega), hij]
      · rw [if_neg (by omega), Vector.getElem_set_self, if_pos (by omega)]
        rw [if_neg (by omega), if_pos (by omega)] at hij
        show |q[i >>> 1] + adj[i >>> 1] - p[i >>> 1]| ≤ |adj[i >>> 1]|
        rcases hij with e | e
        · rw [e, show p[i >>> 1] + adj[i >>> 1] - p[i >>> 1] = adj[i >>> 1] by ring]
        · rw [e, show p[i >>> 1] - adj[i >>> 1] + adj[i >>> 1] - p[i >>> 1] = 0 by ring, abs_zero]; exact abs_nonneg _
    · rw [Vector.getElem_set_ne _ _ hjj]
      by_cases c1 : i + 1 ≤ 2 * j
      · rw [if_pos c1]; rw [if_pos (by omega)] at hij; exact hij
      · rw [if_neg c1]
        rw [if_neg (by omega), if_neg (by omega)] at hij
        rw [if_neg (by omega)]
        exact hij

theorem jiggle_pass_exact {fitness : Perspective ℚ → Run Int} {p p' adj adj' : Perspective ℚ} {b b' : Int}
    (h : jiggle_pass fitness (p, b, adj) = .ok (p', b', adj')) (hb : fitness p = .ok b) :
    ∀ j (hj : j < 8), |p'[j] - p[j]| ≤ |adj[j]| ∧ adj'[j] = adj[j] / 2 := by
  have h0 := h
  unfold jiggle_pass at h
  dsimp only at h
  obtain ⟨⟨q, d⟩, h1, h2⟩ := Run.bind_eq_ok.1 h
  cases h2
  obtain ⟨k1, k2⟩ := forRange_inv (fun i st => fitness st.1 = .ok st.2 ∧ ∀ j (hj : j < 8), TryState p adj st.1 i j hj)
    (Nat.zero_le 16) ⟨hb, by intro j hj; unfold TryState; rw [if_pos (Nat.zero_le _)]⟩ (by
      rintro i ⟨p1, b1⟩ ⟨p2, b2⟩ _ hi ⟨i1, i2⟩ hs
      exact ⟨(jiggle_try_inv hs i1).1, jiggle_try_exact hi hs i1 i2⟩) h1
  intro j hj
  have := k2 j hj
  unfold TryState at this
  rw [if_neg (by omega), if_neg (by omega)] at this
  refine ⟨this, ?_⟩
  rw [Vector.getElem_map]
  show adj[j] * (((5 : Nat) : ℚ) / 10 ^ 1) = _
  norm_num
  ring

end Rqrr
