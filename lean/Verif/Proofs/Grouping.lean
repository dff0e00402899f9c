import Verif.Spec.Grouping
import Verif.Proofs.Partial
import Mathlib.Data.List.Forall2

/-!
# Grouping of capstones
-/

namespace Rqrr

open Spec

variable {F : Type}

theorem idx_some {α : Type} {l : List α} {i : Nat} {a : α} (h : idx l i = .ok a) : l[i]? = some a := by
  unfold idx at h
  split at h
  · cases h; assumption
  · cases h

/-- Loop invariant of the grouping: `ts` names the groups found so far. -/
structure GroupInv (viable : CapStoneGroup F → Run Bool) (caps : List (CapStone F)) (ts : List Triple) (used : List Nat)
    (groups : List (CapStoneGroup F)) : Prop where
  names : List.Forall₂ (fun t g => t.Names caps g ∧ viable g = .ok true) ts groups
  used_iff : ∀ x, x ∈ used ↔ ∃ t ∈ ts, x ∈ t.indices
  shared : ts.Pairwise OnlyCornerShared

theorem try_pair_inv {viable : CapStoneGroup F → Run Bool} {caps : List (CapStone F)} {i : Nat} {pair : Nat × Nat}
    {used used' : List Nat} {groups groups' : List (CapStoneGroup F)} {ts : List Triple}
    (hi : ∀ t ∈ ts, i ∈ t.indices → t.corner = i) (hinv : GroupInv viable caps ts used groups)
    (h : try_pair viable caps i pair (used, groups) = .ok (used', groups')) :
    ∃ ts', ts <+: ts' ∧ GroupInv viable caps ts' used' groups' ∧ (∀ t ∈ ts', i ∈ t.indices → t.corner = i) ∧
      (∀ x, x ∈ used → x ∈ used') ∧ (∀ t ∈ ts', t ∈ ts ∨ (t.corner = i ∧ (t.first, t.second) = pair)) ∧
      (pair.1 ∈ used' ∨ pair.2 ∈ used' ∨ ∃ g, (Triple.mk pair.1 i pair.2).Names caps g ∧ viable g = .ok false) := by
  unfold try_pair at h
  dsimp only at h
  by_cases hc : (used.contains pair.1 || used.contains pair.2) = true
  · rw [if_pos hc] at h
    cases h
    refine ⟨ts, List.prefix_refl _, hinv, hi, fun _ h => h, fun t ht => .inl ht, ?_⟩
    rw [Bool.or_eq_true, List.contains_iff_mem, List.contains_iff_mem] at hc
    rcases hc with h | h
    · exact .inl h
    · exact .inr (.inl h)
  · rw [if_neg hc] at h
    rw [Bool.or_eq_true, List.contains_iff_mem, List.contains_iff_mem, not_or] at hc
    obtain ⟨a, ha, h⟩ := Run.bind_eq_ok.1 h
    obtain ⟨b, hb, h⟩ := Run.bind_eq_ok.1 h
    obtain ⟨c, hcc, h⟩ := Run.bind_eq_ok.1 h
    obtain ⟨v, hv, h⟩ := Run.bind_eq_ok.1 h
    have hnames : (Triple.mk pair.1 i pair.2).Names caps { a := a, b := b, c := c } :=
      ⟨idx_some ha, idx_some hb, idx_some hcc⟩
    cases v with
    | false =>
      rw [if_neg (by simp)] at h
      cases h
      exact ⟨ts, List.prefix_refl _, hinv, hi, fun _ h => h, fun t ht => .inl ht, .inr (.inr ⟨_, hnames, hv⟩)⟩
    | true =>
      rw [if_pos rfl] at h
      cases h
      refine ⟨ts ++ [Triple.mk pair.1 i pair.2], List.prefix_append _ _, ⟨?_, ?_, ?_⟩, ?_, ?_, ?_, ?_⟩
      · exact List.rel_append hinv.names (.cons ⟨hnames, hv⟩ .nil)
      · intro x
        rw [List.mem_append, hinv.used_iff]
        constructor
        · rintro (⟨t, ht, hx⟩ | hx)
          · exact ⟨t, List.mem_append_left _ ht, hx⟩
          · exact ⟨_, List.mem_append_right _ List.mem_cons_self, hx⟩
        · rintro ⟨t, ht, hx⟩
          rcases List.mem_append.1 ht with ht | ht
          · exact .inl ⟨t, ht, hx⟩
          · rw [List.mem_singleton] at ht
            subst ht
            exact .inr hx
      · rw [List.pairwise_append]
        refine ⟨hinv.shared, List.pairwise_singleton _ _, ?_⟩
        intro s hs t ht x hxs hxt
        rw [List.mem_singleton] at ht
        subst ht
        have hu : x ∈ used := (hinv.used_iff x).2 ⟨s, hs, hxs⟩
        simp only [Triple.indices, List.mem_cons, List.not_mem_nil, or_false] at hxt
        rcases hxt with rfl | rfl | rfl
        · exact absurd hu hc.1
        · exact ⟨(hi s hs hxs).symm, rfl⟩
        · exact absurd hu hc.2
      · intro t ht hit
        rcases List.mem_append.1 ht with ht | ht
        · exact hi t ht hit
        · rw [List.mem_singleton] at ht
          subst ht
          rfl
      · intro x hx; exact List.mem_append_left _ hx
      · intro t ht
        rcases List.mem_append.1 ht with ht | ht
        · exact .inl ht
        · rw [List.mem_singleton] at ht
          subst ht
          exact .inr ⟨rfl, rfl⟩
      · left; simp

/-- What is known of capstone `i` once it has been considered as a corner. -/
def Considered (rank : List (CapStone F) → Nat → Run (List (Nat × Nat))) (viable : CapStoneGroup F → Run Bool)
    (caps : List (CapStone F)) (used : List Nat) (i : Nat) : Prop :=
  i ∈ used ∨ ∃ pairs, rank caps i = .ok pairs ∧ ∀ pair ∈ pairs, pair.1 ∈ used ∨ pair.2 ∈ used ∨
    ∃ g, (Triple.mk pair.1 i pair.2).Names caps g ∧ viable g = .ok false

theorem Considered.mono {rank : List (CapStone F) → Nat → Run (List (Nat × Nat))} {viable : CapStoneGroup F → Run Bool}
    {caps : List (CapStone F)} {used used' : List Nat} {i : Nat} (h : Considered rank viable caps used i)
    (hs : ∀ x, x ∈ used → x ∈ used') : Considered rank viable caps used' i := by
  rcases h with h | ⟨pairs, h1, h2⟩
  · exact .inl (hs i h)
  · refine .inr ⟨pairs, h1, fun pair hp => ?_⟩
    rcases h2 pair hp with h | h | h
    · exact .inl (hs _ h)
    · exact .inr (.inl (hs _ h))
    · exact .inr (.inr h)

theorem find_groupings_inv {rank : List (CapStone F) → Nat → Run (List (Nat × Nat))} {viable : CapStoneGroup F → Run Bool}
    {caps : List (CapStone F)} {groups : List (CapStoneGroup F)} (h : find_groupings_with rank viable caps = .ok groups) :
    ∃ ts used, GroupInv viable caps ts used groups ∧ (∀ i, i < caps.length → Considered rank viable caps used i) ∧
      (∀ t ∈ ts, ∃ pairs, rank caps t.corner = .ok pairs ∧ (t.first, t.second) ∈ pairs) := by
  unfold find_groupings_with at h
  obtain ⟨⟨used, groups'⟩, h1, h2⟩ := Run.bind_eq_ok.1 h
  cases h2
  have key := forRange_inv (fun (i : Nat) (st : List Nat × List (CapStoneGroup F)) => ∃ ts, GroupInv viable caps ts st.1 st.2 ∧
    (∀ j, j < i → Considered rank viable caps st.1 j) ∧
    (∀ t ∈ ts, ∃ pairs, rank caps t.corner = .ok pairs ∧ (t.first, t.second) ∈ pairs)) (Nat.zero_le _)
    ⟨[], ⟨.nil, by simp, .nil⟩, by omega, by simp⟩ (by
      rintro i ⟨used, groups⟩ ⟨used', groups'⟩ _ hi ⟨ts, hinv, hcons, hrank⟩ hs
      dsimp only at hs hinv hcons ⊢
      by_cases hc : used.contains i = true
      · rw [if_pos hc] at hs
        cases hs
        refine ⟨ts, hinv, fun j hj => ?_, hrank⟩
        rcases Nat.lt_succ_iff_lt_or_eq.1 hj with h | rfl
        · exact hcons j h
        · exact .inl (List.contains_iff_mem.1 hc)
      · rw [if_neg hc] at hs
        have hnu : i ∉ used := fun h => hc (List.contains_iff_mem.2 h)
        obtain ⟨pairs, hp, hs⟩ := Run.bind_eq_ok.1 hs
        have hi0 : ∀ t ∈ ts, i ∈ t.indices → t.corner = i := fun t ht hit => absurd ((hinv.used_iff i).2 ⟨t, ht, hit⟩) hnu
        obtain ⟨ts', k1, k2, k3, k4, k5⟩ := forList_inv (fun (done : List (Nat × Nat)) (st : List Nat × List (CapStoneGroup F)) =>
          ∃ ts', GroupInv viable caps ts' st.1 st.2 ∧ (∀ t ∈ ts', i ∈ t.indices → t.corner = i) ∧
          (∀ x, x ∈ used → x ∈ st.1) ∧
          (∀ t ∈ ts', t ∈ ts ∨ (t.corner = i ∧ (t.first, t.second) ∈ done)) ∧
          (∀ pair ∈ done, pair.1 ∈ st.1 ∨ pair.2 ∈ st.1 ∨
            ∃ g, (Triple.mk pair.1 i pair.2).Names caps g ∧ viable g = .ok false)) (done := [])
          ⟨ts, hinv, hi0, fun _ h => h, fun t ht => .inl ht, by simp⟩ (by
            rintro pair done ⟨u1, g1⟩ ⟨u2, g2⟩ _ ⟨ts1, a1, a2, a3, a4, a5⟩ hstep
            obtain ⟨ts2, _, b1, b2, b3, b4, b5⟩ := try_pair_inv a2 a1 hstep
            refine ⟨ts2, b1, b2, fun x hx => b3 x (a3 x hx), fun t ht => ?_, fun pr hpr => ?_⟩
            · rcases b4 t ht with h | ⟨h, h'⟩
              · rcases a4 t h with h | ⟨h, h'⟩
                · exact .inl h
                · exact .inr ⟨h, List.mem_append_left _ h'⟩
              · exact .inr ⟨h, by rw [h']; simp⟩
            · rcases List.mem_append.1 hpr with hpr | hpr
              · rcases a5 pr hpr with h | h | h
                · exact .inl (b3 _ h)
                · exact .inr (.inl (b3 _ h))
                · exact .inr (.inr h)
              · rw [List.mem_singleton] at hpr
                subst hpr
                exact b5) hs
        rw [List.nil_append] at k4 k5
        refine ⟨ts', k1, fun j hj => ?_, fun t ht => ?_⟩
        · rcases Nat.lt_succ_iff_lt_or_eq.1 hj with h | rfl
          · exact (hcons j h).mono k3
          · exact .inr ⟨pairs, hp, k5⟩
        · rcases k4 t ht with h | ⟨rfl, h'⟩
          · exact hrank t h
          · exact ⟨pairs, hp, h'⟩) h1
  obtain ⟨ts, hinv, hc, hr⟩ := key
  exact ⟨ts, used, hinv, hc, hr⟩

end Rqrr
