import Verif.Model.Basic

/-!
# Reasoning rules for the Rust execution model
-/

namespace Rqrr

theorem Run.ok_bind {α β : Type} (a : α) (f : α → Run β) : ((Except.ok a : Run α) >>= f) = f a := rfl
theorem Run.error_bind {α β : Type} (e : Fault) (f : α → Run β) :
    ((Except.error e : Run α) >>= f) = Except.error e := rfl
theorem Run.pure_eq {α : Type} (a : α) : (pure a : Run α) = Except.ok a := rfl

theorem Run.bind_eq_ok {α β : Type} {m : Run α} {f : α → Run β} {b : β} :
    (m >>= f) = .ok b ↔ ∃ a, m = .ok a ∧ f a = .ok b := by
  cases m with
  | error e => simp [Run.error_bind]
  | ok a => simp [Run.ok_bind]

theorem Run.bind_eq_error {α β : Type} {m : Run α} {f : α → Run β} {e : Fault} :
    (m >>= f) = .error e ↔ m = .error e ∨ ∃ a, m = .ok a ∧ f a = .error e := by
  cases m with
  | error e => simp [Run.error_bind]
  | ok a => simp [Run.ok_bind]

@[simp] theorem Run.assert_true : Run.assert true = .ok () := rfl
theorem Run.assert_of {b : Bool} (h : b = true) : Run.assert b = .ok () := by subst h; rfl

theorem subU_ok {a b : Nat} (h : b ≤ a) : subU a b = .ok (a - b) := by simp [subU, h]

theorem aget_ok {α : Type} {n : Nat} (v : Vector α n) {i : Nat} (h : i < n) : aget v i = .ok v[i] := by
  simp [aget, h]

theorem aset_ok {α : Type} {n : Nat} (v : Vector α n) {i : Nat} (a : α) (h : i < n) :
    aset v i a = .ok (v.set i a) := by
  simp [aset, h]

theorem idx_ok {α : Type} (l : List α) {i : Nat} (h : i < l.length) : idx l i = .ok l[i] := by
  simp [idx, h]

theorem setIdx_ok {α : Type} (l : List α) {i : Nat} (a : α) (h : i < l.length) :
    setIdx l i a = .ok (l.set i a) := by
  simp [setIdx, h]

/-- Loop rule: an invariant that every round re-establishes (without failing) holds at the end. -/
theorem forRangeAux_ok {σ : Type} {hi : Nat} {f : Nat → σ → Run σ} (Inv : Nat → σ → Prop) :
    ∀ (r : Nat) (s : σ), r ≤ hi → Inv (hi - r) s →
    (∀ i s, hi - r ≤ i → i < hi → Inv i s → ∃ s', f i s = .ok s' ∧ Inv (i + 1) s') →
    ∃ s', forRangeAux hi f r s = .ok s' ∧ Inv hi s' := by
  intro r
  induction r with
  | zero => intro s _ h0 _; exact ⟨s, rfl, by simpa using h0⟩
  | succ r ih =>
    intro s hr h0 step
    obtain ⟨s1, h1, h2⟩ := step (hi - (r + 1)) s (Nat.le_refl _) (by omega) h0
    have e : hi - (r + 1) + 1 = hi - r := by omega
    rw [e] at h2
    obtain ⟨s', h3, h4⟩ := ih s1 (by omega) h2 (fun i s hi1 hi2 h => step i s (by omega) hi2 h)
    exact ⟨s', by simp only [forRangeAux, h1, Run.ok_bind, h3], h4⟩

theorem forRange_ok {σ : Type} {lo hi : Nat} {s : σ} {f : Nat → σ → Run σ} (Inv : Nat → σ → Prop)
    (hle : lo ≤ hi) (h0 : Inv lo s)
    (step : ∀ i s, lo ≤ i → i < hi → Inv i s → ∃ s', f i s = .ok s' ∧ Inv (i + 1) s') :
    ∃ s', forRange lo hi s f = .ok s' ∧ Inv hi s' := by
  unfold forRange
  have e : hi - (hi - lo) = lo := by omega
  refine forRangeAux_ok Inv (hi - lo) s (by omega) (by rwa [e]) ?_
  intro i s h1 h2 h3
  exact step i s (by omega) h2 h3

/-- Loop rule for loops that may return an error (but not panic or diverge): `Good` describes allowed faults. -/
theorem forRange_spec {σ : Type} {lo hi : Nat} {s : σ} {f : Nat → σ → Run σ} (Inv : Nat → σ → Prop)
    (Bad : Fault → Prop) (hle : lo ≤ hi) (h0 : Inv lo s)
    (step : ∀ i s, lo ≤ i → i < hi → Inv i s →
      (∃ s', f i s = .ok s' ∧ Inv (i + 1) s') ∨ (∃ e, f i s = .error e ∧ Bad e)) :
    (∃ s', forRange lo hi s f = .ok s' ∧ Inv hi s') ∨ (∃ e, forRange lo hi s f = .error e ∧ Bad e) := by
  unfold forRange
  have key : ∀ (r : Nat) (s : σ), r ≤ hi → lo ≤ hi - r → Inv (hi - r) s →
      (∃ s', forRangeAux hi f r s = .ok s' ∧ Inv hi s') ∨ (∃ e, forRangeAux hi f r s = .error e ∧ Bad e) := by
    intro r
    induction r with
    | zero => intro s _ _ h0; exact .inl ⟨s, rfl, by simpa using h0⟩
    | succ r ih =>
      intro s hr hlo h0
      rcases step (hi - (r + 1)) s hlo (by omega) h0 with ⟨s1, h1, h2⟩ | ⟨e, h1, h2⟩
      · have e : hi - (r + 1) + 1 = hi - r := by omega
        rw [e] at h2
        rcases ih s1 (by omega) (by omega) h2 with ⟨s', h3, h4⟩ | ⟨e, h3, h4⟩
        · exact .inl ⟨s', by simp only [forRangeAux, h1, Run.ok_bind, h3], h4⟩
        · exact .inr ⟨e, by simp only [forRangeAux, h1, Run.ok_bind, h3], h4⟩
      · exact .inr ⟨e, by simp only [forRangeAux, h1, Run.error_bind], h2⟩
  have e : hi - (hi - lo) = lo := by omega
  exact key (hi - lo) s (by omega) (by omega) (by rwa [e])

/-- A loop whose rounds never fail is a fold: `F` describes the state. -/
theorem forRange_eq {σ : Type} {lo hi : Nat} {s : σ} {f : Nat → σ → Run σ} (F : Nat → σ)
    (hle : lo ≤ hi) (h0 : F lo = s) (step : ∀ i, lo ≤ i → i < hi → f i (F i) = .ok (F (i + 1))) :
    forRange lo hi s f = .ok (F hi) := by
  obtain ⟨s', h1, h2⟩ := forRange_ok (fun i s => s = F i) hle h0.symm (by
    rintro i s h1 h2 rfl
    exact ⟨_, step i h1 h2, rfl⟩)
  rw [h1, h2]

theorem forList_ok {ι σ : Type} {f : ι → σ → Run σ} {l : List ι} {s : σ} (Inv : List ι → σ → Prop)
    (h0 : Inv l s)
    (step : ∀ i is s, i ∈ l → Inv (i :: is) s → ∃ s', f i s = .ok s' ∧ Inv is s') :
    ∃ s', forList f l s = .ok s' ∧ Inv [] s' := by
  induction l generalizing s with
  | nil => exact ⟨s, rfl, h0⟩
  | cons i is ih =>
    obtain ⟨s1, h1, h2⟩ := step i is s (by simp) h0
    obtain ⟨s', h3, h4⟩ := ih h2 (fun j js s hj h => step j js s (by simp [hj]) h)
    exact ⟨s', by simp only [forList, h1, Run.ok_bind, h3], h4⟩

/-- `while` rule: a decreasing measure bounded by the fuel. -/
theorem whileFuel_ok {σ : Type} {cond : σ → Bool} {body : σ → Run σ} (Inv : σ → Prop) (μ : σ → Nat)
    (step : ∀ s, Inv s → cond s = true → ∃ s', body s = .ok s' ∧ Inv s' ∧ μ s' < μ s) :
    ∀ (fuel : Nat) (s : σ), Inv s → μ s < fuel →
    ∃ s', whileFuel cond body fuel s = .ok s' ∧ Inv s' ∧ cond s' = false := by
  intro fuel
  induction fuel with
  | zero => intro s _ h; omega
  | succ n ih =>
    intro s hs hμ
    cases hc : cond s with
    | false => exact ⟨s, by simp [whileFuel, hc], hs, hc⟩
    | true =>
      obtain ⟨s1, h1, h2, h3⟩ := step s hs hc
      obtain ⟨s', h4, h5⟩ := ih s1 h2 (by omega)
      exact ⟨s', by simp [whileFuel, hc, h1, Run.ok_bind, h4], h5⟩

end Rqrr
