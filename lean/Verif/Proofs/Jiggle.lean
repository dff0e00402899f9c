import Verif.Model.Identify
import Verif.Proofs.Partial

/-!
# Refinement of the perspective
-/

namespace Rqrr

open FloatOps

variable {F : Type} [FloatOps F]

theorem jiggle_try_inv {fitness : Perspective F → Run Int} {adj : Perspective F} {i : Nat} {p p' : Perspective F} {b b' : Int}
    (h : jiggle_try fitness adj i (p, b) = .ok (p', b')) (hb : fitness p = .ok b) :
    fitness p' = .ok b' ∧ ((p' = p ∧ b' = b) ∨ (b < b' ∧ ∃ hj : i >>> 1 < 8,
      p' = p.set (i >>> 1) (if i &&& 1 ≠ 0 then p[i >>> 1] + adj[i >>> 1] else p[i >>> 1] - adj[i >>> 1]))) := by
  unfold jiggle_try at h
  dsimp only at h
  by_cases hj : i >>> 1 < 8
  · rw [aget_ok p hj, Run.ok_bind, aget_ok adj hj, Run.ok_bind, aset_ok p _ hj, Run.ok_bind] at h
    obtain ⟨t, h1, h2⟩ := Run.bind_eq_ok.1 h
    by_cases hc : t > b
    · rw [if_pos hc] at h2
      cases h2
      exact ⟨h1, .inr ⟨hc, hj, rfl⟩⟩
    · rw [if_neg hc, aset_ok _ _ hj, Run.ok_bind] at h2
      cases h2
      have : (p.set (i >>> 1) (if i &&& 1 ≠ 0 then p[i >>> 1] + adj[i >>> 1] else p[i >>> 1] - adj[i >>> 1])).set (i >>> 1)
          p[i >>> 1] = p := by
        rw [Vector.set_set]
        exact Vector.set_getElem_self hj
      rw [this]
      exact ⟨hb, .inl ⟨rfl, rfl⟩⟩
  · unfold aget at h
    rw [dif_neg hj] at h
    cases h

theorem jiggle_try_ok {fitness : Perspective F → Run Int} (hf : ∀ p, ∃ b, fitness p = .ok b) (adj : Perspective F) {i : Nat}
    (hi : i < 16) (p : Perspective F) (b : Int) : ∃ r, jiggle_try fitness adj i (p, b) = .ok r := by
  have hj : i >>> 1 < 8 := by rw [Nat.shiftRight_eq_div_pow]; omega
  unfold jiggle_try
  dsimp only
  rw [aget_ok p hj, Run.ok_bind, aget_ok adj hj, Run.ok_bind, aset_ok p _ hj, Run.ok_bind]
  obtain ⟨t, ht⟩ := hf (p.set (i >>> 1) (if i &&& 1 ≠ 0 then p[i >>> 1] + adj[i >>> 1] else p[i >>> 1] - adj[i >>> 1]))
  rw [ht, Run.ok_bind]
  by_cases hc : t > b
  · rw [if_pos hc]; exact ⟨_, rfl⟩
  · rw [if_neg hc, aset_ok _ _ hj, Run.ok_bind]; exact ⟨_, rfl⟩

/-- One pass over the coefficients. -/
def jiggle_pass (fitness : Perspective F → Run Int) (st : Perspective F × Int × Perspective F) :
    Run (Perspective F × Int × Perspective F) := do
  let (perspective, best, adjustments) := st
  let (perspective, best) ← forRange 0 16 (perspective, best) fun i st => jiggle_try fitness adjustments i st
  pure (perspective, best, Vector.map (fun a => a * lit 5 1) adjustments)

theorem jiggle_with_eq (fitness : Perspective F → Run Int) (p : Perspective F) : jiggle_with fitness p = (do
    let best ← fitness p
    let r ← forRange 0 5 (p, best, Vector.map (fun c => c * lit 2 2) p) fun _ st => jiggle_pass fitness st
    pure r.1) := rfl

theorem jiggle_pass_ok {fitness : Perspective F → Run Int} (hf : ∀ p, ∃ b, fitness p = .ok b)
    (st : Perspective F × Int × Perspective F) : ∃ r, jiggle_pass fitness st = .ok r := by
  obtain ⟨p, b, adj⟩ := st
  unfold jiggle_pass
  dsimp only
  obtain ⟨r, hr, -⟩ := forRange_ok (s := (p, b)) (f := fun i st => jiggle_try fitness adj i st) (fun _ _ => True)
    (Nat.zero_le 16) trivial (by
      rintro i ⟨p, b⟩ _ hi _
      obtain ⟨r, hr⟩ := jiggle_try_ok hf adj hi p b
      exact ⟨r, hr, trivial⟩)
  rw [hr, Run.ok_bind]
  exact ⟨_, rfl⟩

theorem jiggle_pass_inv {fitness : Perspective F → Run Int} {p p' adj adj' : Perspective F} {b b' : Int}
    (h : jiggle_pass fitness (p, b, adj) = .ok (p', b', adj')) (hb : fitness p = .ok b) :
    fitness p' = .ok b' ∧ ((p' = p ∧ b' = b) ∨ b < b') ∧ adj' = Vector.map (fun a => a * lit 5 1) adj := by
  unfold jiggle_pass at h
  dsimp only at h
  obtain ⟨⟨q, d⟩, h1, h2⟩ := Run.bind_eq_ok.1 h
  cases h2
  obtain ⟨k1, k2⟩ := forRange_inv (fun _ st => fitness st.1 = .ok st.2 ∧ ((st.1 = p ∧ st.2 = b) ∨ b < st.2)) (Nat.zero_le 16)
    ⟨hb, .inl ⟨rfl, rfl⟩⟩ (by
      rintro i ⟨p1, b1⟩ ⟨p2, b2⟩ _ _ ⟨i1, i2⟩ hs
      obtain ⟨j1, j2⟩ := jiggle_try_inv hs i1
      refine ⟨j1, ?_⟩
      dsimp only at i2 ⊢
      rcases j2 with ⟨rfl, rfl⟩ | ⟨hlt, -⟩
      · exact i2
      · right
        rcases i2 with ⟨-, rfl⟩ | h
        · exact hlt
        · omega) h1
  exact ⟨k1, k2, rfl⟩

end Rqrr
