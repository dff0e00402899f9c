import Verif.Proofs.Jiggle
import Verif.Spec.Rounding
import Mathlib.Tactic.Linarith
import Mathlib.Tactic.Positivity
import Mathlib.Tactic.IntervalCases
import Mathlib.Tactic.NormNum

/-!
# Refinement of a perspective with rounding
-/

namespace Rqrr

open Spec FloatOps

variable {F : Type} [FloatOps F]

/-- What coefficient `j` may be after the first `i` of the sixteen tries of a pass. -/
def TryStates (p adj q : Perspective F) (i j : Nat) (hj : j < 8) : Prop :=
  if i ≤ 2 * j then q[j] = p[j]
  else if i = 2 * j + 1 then q[j] = p[j] ∨ q[j] = p[j] - adj[j]
  else q[j] = p[j] ∨ q[j] = p[j] - adj[j] ∨ q[j] = p[j] + adj[j] ∨ q[j] = p[j] - adj[j] + adj[j]

theorem jiggle_try_states {fitness : Perspective F → Run Int} {p adj q q' : Perspective F} {i : Nat} {b b' : Int}
    (h : jiggle_try fitness adj i (q, b) = .ok (q', b')) (hb : fitness q = .ok b)
    (hinv : ∀ j (hj : j < 8), TryStates p adj q i j hj) : ∀ j (hj : j < 8), TryStates p adj q' (i + 1) j hj := by
  obtain ⟨-, h2⟩ := jiggle_try_inv h hb
  intro j hj
  have hij := hinv j hj
  have hodd : i &&& 1 = i % 2 := Nat.and_one_is_mod i
  have hsh : i >>> 1 = i / 2 := by rw [Nat.shiftRight_eq_div_pow]
  unfold TryStates at hij ⊢
  rcases h2 with ⟨rfl, -⟩ | ⟨-, hj', rfl⟩
  · by_cases c1 : i + 1 ≤ 2 * j
    · rw [if_pos c1]; rw [if_pos (by omega)] at hij; exact hij
    · rw [if_neg c1]
      by_cases c2 : i + 1 = 2 * j + 1
      · rw [if_pos c2]; rw [if_pos (by omega)] at hij; exact .inl hij
      · rw [if_neg c2]
        rw [if_neg (by omega)] at hij
        by_cases c3 : i = 2 * j + 1
        · rw [if_pos c3] at hij
          exact hij.imp id .inl
        · rw [if_neg c3] at hij; exact hij
  · by_cases hjj : i >>> 1 = j
    · subst hjj
      rw [if_neg (by omega)]
      by_cases c : i % 2 = 0
      · rw [if_pos (by omega), Vector.getElem_set_self]
        rw [if_pos (by omega)] at hij
        right
        rw [if_neg (by omega), hij]
      · rw [if_neg (by omega), Vector.getElem_set_self, if_pos (by omega)]
        rw [if_neg (by omega), if_pos (by omega)] at hij
        rcases hij with e | e
        · rw [e]; exact .inr (.inr (.inl rfl))
        · rw [e]; exact .inr (.inr (.inr rfl))
    · rw [Vector.getElem_set_ne _ _ hjj]
      by_cases c1 : i + 1 ≤ 2 * j
      · rw [if_pos c1]; rw [if_pos (by omega)] at hij; exact hij
      · rw [if_neg c1]
        rw [if_neg (by omega)]
        rw [if_neg (by omega), if_neg (by omega)] at hij
        exact hij

theorem jiggle_pass_states {fitness : Perspective F → Run Int} {p p' adj adj' : Perspective F} {b b' : Int}
    (h : jiggle_pass fitness (p, b, adj) = .ok (p', b', adj')) (hb : fitness p = .ok b) (j : Nat) (hj : j < 8) :
    (p'[j] = p[j] ∨ p'[j] = p[j] - adj[j] ∨ p'[j] = p[j] + adj[j] ∨ p'[j] = p[j] - adj[j] + adj[j]) ∧
      adj'[j] = adj[j] * lit 5 1 := by
  unfold jiggle_pass at h
  dsimp only at h
  obtain ⟨⟨q, d⟩, h1, h2⟩ := Run.bind_eq_ok.1 h
  cases h2
  obtain ⟨k1, k2⟩ := forRange_inv (fun i st => fitness st.1 = .ok st.2 ∧ ∀ j (hj : j < 8), TryStates p adj st.1 i j hj)
    (Nat.zero_le 16) ⟨hb, by intro j hj; unfold TryStates; rw [if_pos (Nat.zero_le _)]⟩ (by
      rintro i ⟨p1, b1⟩ ⟨p2, b2⟩ _ hi ⟨i1, i2⟩ hs
      exact ⟨(jiggle_try_inv hs i1).1, jiggle_try_states hs i1 i2⟩) h1
  have := k2 j hj
  unfold TryStates at this
  rw [if_neg (by omega), if_neg (by omega)] at this
  exact ⟨this, by rw [Vector.getElem_map]⟩

variable [Rounding F]

/-- One rounded step. -/
theorem step_near {q x e : ℚ} (h : |e - (q + x)| ≤ |q + x| / 2 ^ 53 + 1 / 2 ^ 200) :
    |e - (q + x)| ≤ (|q| + |x|) / 2 ^ 53 + 1 / 2 ^ 200 := by
  have := abs_add_le q x
  have h2 : |q + x| / 2 ^ 53 ≤ (|q| + |x|) / 2 ^ 53 := by gcongr
  linarith

/-- What a pass does to a coefficient. -/
theorem pass_near {x x' a : F} {Q A : ℚ} (hx : Rounding.Is x Q) (ha : Rounding.Is a A) (hQ : |Q| ≤ 2 ^ 195) (hA : |A| ≤ 2 ^ 195)
    (h : x' = x ∨ x' = x - a ∨ x' = x + a ∨ x' = x - a + a) :
    ∃ Q', Rounding.Is x' Q' ∧ |Q' - Q| ≤ |A| + (|Q| + |A|) / 2 ^ 50 + 1 / 2 ^ 198 := by
  have nQ := abs_nonneg Q
  have nA := abs_nonneg A
  have bound : ∀ B : ℚ, |B| = |A| → |Q + B| ≤ 2 ^ 200 := by
    intro B hB
    have := abs_add_le Q B
    rw [hB] at this
    have : (2 : ℚ) ^ 195 + 2 ^ 195 ≤ 2 ^ 200 := by norm_num
    linarith
  have hm : Rounding.Is (x - a) (Rounding.rnd F (Q - A)) := Rounding.sub hx ha (by rw [sub_eq_add_neg]; exact bound _ (abs_neg A))
  have nm := step_near (q := Q) (x := -A) (e := Rounding.rnd F (Q - A)) (by rw [← sub_eq_add_neg]; exact Rounding.rnd_near _)
  rw [abs_neg] at nm
  rcases h with rfl | rfl | rfl | rfl
  · refine ⟨Q, hx, ?_⟩
    rw [sub_self, abs_zero]
    positivity
  · refine ⟨_, hm, ?_⟩
    have := abs_add_le (Rounding.rnd F (Q - A) - (Q + -A)) (-A)
    rw [show Rounding.rnd F (Q - A) - (Q + -A) + -A = Rounding.rnd F (Q - A) - Q by ring, abs_neg] at this
    norm_num at nm ⊢
    linarith
  · refine ⟨_, Rounding.add hx ha (bound A rfl), ?_⟩
    have np := step_near (q := Q) (x := A) (e := Rounding.rnd F (Q + A)) (Rounding.rnd_near _)
    have := abs_add_le (Rounding.rnd F (Q + A) - (Q + A)) A
    rw [show Rounding.rnd F (Q + A) - (Q + A) + A = Rounding.rnd F (Q + A) - Q by ring] at this
    norm_num at np ⊢
    linarith
  · generalize Rounding.rnd F (Q - A) = R at hm nm
    have t1 := abs_add_le (R - (Q + -A)) (Q + -A)
    rw [show R - (Q + -A) + (Q + -A) = R by ring] at t1
    have t2 := abs_add_le Q (-A)
    rw [abs_neg] at t2
    have bR : |R + A| ≤ 2 ^ 200 := by
      have := abs_add_le R A
      norm_num at nm hQ hA ⊢
      linarith
    refine ⟨_, Rounding.add hm ha bR, ?_⟩
    have np := step_near (q := R) (x := A) (e := Rounding.rnd F (R + A)) (Rounding.rnd_near _)
    generalize Rounding.rnd F (R + A) = T at np
    have t3 := abs_add_le (T - (R + A)) (R - (Q + -A))
    rw [show T - (R + A) + (R - (Q + -A)) = T - Q by ring] at t3
    norm_num at nm np ⊢
    linarith

end Rqrr
