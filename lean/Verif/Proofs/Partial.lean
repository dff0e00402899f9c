import Verif.Proofs.Loops

/-!
# Loop rules for partial correctness: an invariant holds if the loop ends normally
-/

namespace Rqrr

theorem forRangeAux_inv {σ : Type} {hi : Nat} {f : Nat → σ → Run σ} (Inv : Nat → σ → Prop) :
    ∀ (r : Nat) (s s' : σ), r ≤ hi → Inv (hi - r) s →
    (∀ i s s', hi - r ≤ i → i < hi → Inv i s → f i s = .ok s' → Inv (i + 1) s') →
    forRangeAux hi f r s = .ok s' → Inv hi s' := by
  intro r
  induction r with
  | zero =>
    intro s s' _ h0 _ h
    cases h
    simpa using h0
  | succ r ih =>
    intro s s' hr h0 step h
    obtain ⟨t, h1, h2⟩ := Run.bind_eq_ok.1 h
    have := step _ _ _ (Nat.le_refl _) (by omega) h0 h1
    rw [show hi - (r + 1) + 1 = hi - r by omega] at this
    exact ih t s' (by omega) this (fun i s s' hi' => step i s s' (by omega)) h2

theorem forRange_inv {σ : Type} {lo hi : Nat} {s s' : σ} {f : Nat → σ → Run σ} (Inv : Nat → σ → Prop)
    (hle : lo ≤ hi) (h0 : Inv lo s)
    (step : ∀ i s s', lo ≤ i → i < hi → Inv i s → f i s = .ok s' → Inv (i + 1) s')
    (h : forRange lo hi s f = .ok s') : Inv hi s' := by
  have e : hi - (hi - lo) = lo := by omega
  exact forRangeAux_inv Inv (hi - lo) s s' (by omega) (by rwa [e]) (fun i s s' hi' => step i s s' (by omega)) h

theorem forList_inv {ι σ : Type} {f : ι → σ → Run σ} (Inv : List ι → σ → Prop) :
    ∀ {l done : List ι} {s s' : σ}, Inv done s →
    (∀ i done s s', i ∈ l → Inv done s → f i s = .ok s' → Inv (done ++ [i]) s') →
    forList f l s = .ok s' → Inv (done ++ l) s' := by
  intro l
  induction l with
  | nil => intro done s s' h0 _ h; cases h; simpa using h0
  | cons i is ih =>
    intro done s s' h0 step h
    obtain ⟨t, h1, h2⟩ := Run.bind_eq_ok.1 h
    have := ih (step i done s t List.mem_cons_self h0 h1) (fun j d a b hj => step j d a b (List.mem_cons_of_mem _ hj)) h2
    simpa using this

theorem whileFuel_inv {σ : Type} {cond : σ → Bool} {body : σ → Run σ} (Inv : σ → Prop)
    (step : ∀ s s', Inv s → cond s = true → body s = .ok s' → Inv s') :
    ∀ {fuel : Nat} {s s' : σ}, Inv s → whileFuel cond body fuel s = .ok s' → Inv s' ∧ cond s' = false := by
  intro fuel
  induction fuel with
  | zero => intro s s' _ h; cases h
  | succ n ih =>
    intro s s' h0 h
    unfold whileFuel at h
    by_cases hc : cond s = true
    · rw [if_pos hc] at h
      obtain ⟨t, h1, h2⟩ := Run.bind_eq_ok.1 h
      exact ih (step s t h0 hc h1) h2
    · rw [if_neg hc] at h
      cases h
      exact ⟨h0, by simpa using hc⟩

end Rqrr
