import Verif.Model.Identify
import Verif.Spec.Exact
import Verif.Proofs.Partial
import Verif.Proofs.Grouping
import Mathlib.Tactic.Linarith
import Mathlib.Tactic.NormNum
import Mathlib.Algebra.Order.Group.Unbundled.Abs

/-!
# Neighbours of a capstone
-/

namespace Rqrr

/-- Distances along the two axes of capstone `cap`, in modules, of another centre. -/
def axisDistances (cap : CapStone ℚ) (p : Point) : ℚ × ℚ :=
  (|(cap.c.unmap p).1 - 7 / 2|, |(cap.c.unmap p).2 - 7 / 2|)

/-- What is known of the two lists. -/
structure NeighborInv (caps : List (CapStone ℚ)) (i : Nat) (cap : CapStone ℚ) (n : Nat)
    (st : List (Neighbor ℚ) × List (Neighbor ℚ)) : Prop where
  h : ∀ nb, nb ∈ st.1 ↔ nb.index < n ∧ nb.index ≠ i ∧ ∃ o, caps[nb.index]? = some o ∧
    (axisDistances cap o.center).1 < 1 / 5 * (axisDistances cap o.center).2 ∧ nb.distance = (axisDistances cap o.center).2
  v : ∀ nb, nb ∈ st.2 ↔ nb.index < n ∧ nb.index ≠ i ∧ ∃ o, caps[nb.index]? = some o ∧
    (axisDistances cap o.center).2 < 1 / 5 * (axisDistances cap o.center).1 ∧ nb.distance = (axisDistances cap o.center).1

theorem lit35 : (FloatOps.lit 35 1 : ℚ) = 7 / 2 := by show ((35 : Nat) : ℚ) / 10 ^ 1 = 7 / 2; norm_num
theorem lit02 : (FloatOps.lit 2 1 : ℚ) = 1 / 5 := by show ((2 : Nat) : ℚ) / 10 ^ 1 = 1 / 5; norm_num

private theorem mem_step {l : List (Neighbor ℚ)} {n i : Nat} {caps : List (CapStone ℚ)} {P : CapStone ℚ → Prop} {D : CapStone ℚ → ℚ}
    {o : CapStone ℚ} [Decidable (P o)] (hn : n ≠ i) (ho : caps[n]? = some o)
    (hl : ∀ nb, nb ∈ l ↔ nb.index < n ∧ nb.index ≠ i ∧ ∃ o, caps[nb.index]? = some o ∧ P o ∧ nb.distance = D o) :
    ∀ nb, nb ∈ (if P o then l ++ [{ index := n, distance := D o }] else l) ↔
      nb.index < n + 1 ∧ nb.index ≠ i ∧ ∃ o, caps[nb.index]? = some o ∧ P o ∧ nb.distance = D o := by
  intro nb
  have aux : ∀ nb : Neighbor ℚ, nb.index = n → ((∃ o', caps[nb.index]? = some o' ∧ P o' ∧ nb.distance = D o') ↔
      P o ∧ nb.distance = D o) := by
    intro nb e
    rw [e, ho]
    constructor
    · rintro ⟨o', h1, h2, h3⟩
      cases h1
      exact ⟨h2, h3⟩
    · rintro ⟨h2, h3⟩; exact ⟨o, rfl, h2, h3⟩
  by_cases hp : P o
  · rw [if_pos hp, List.mem_append, hl, List.mem_singleton]
    constructor
    · rintro (⟨h1, h2, h3⟩ | rfl)
      · exact ⟨by omega, h2, h3⟩
      · exact ⟨Nat.lt_succ_self n, hn, o, ho, hp, rfl⟩
    · rintro ⟨h1, h2, h3⟩
      by_cases e : nb.index = n
      · right
        obtain ⟨-, h4⟩ := (aux nb e).1 h3
        cases nb
        simp only at e h4
        rw [e, h4]
      · left; exact ⟨by omega, h2, h3⟩
  · rw [if_neg hp, hl]
    constructor
    · rintro ⟨h1, h2, h3⟩; exact ⟨by omega, h2, h3⟩
    · rintro ⟨h1, h2, h3⟩
      by_cases e : nb.index = n
      · exact absurd ((aux nb e).1 h3).1 hp
      · exact ⟨by omega, h2, h3⟩

theorem find_possible_neighbors_ok {caps : List (CapStone ℚ)} {i : Nat} (hi : i < caps.length) :
    ∃ st, find_possible_neighbors caps i = .ok st ∧ NeighborInv caps i caps[i] caps.length st := by
  unfold find_possible_neighbors
  rw [idx_ok caps hi, Run.ok_bind]
  refine forRange_ok (s := ([], [])) (NeighborInv caps i caps[i]) (Nat.zero_le _) ⟨by simp, by simp⟩ ?_
  rintro n ⟨hl, vl⟩ _ hn ⟨h1, h2⟩
  dsimp only
  by_cases he : n = i
  · rw [if_pos he]
    refine ⟨_, rfl, ⟨fun nb => ?_, fun nb => ?_⟩⟩
    · rw [h1]
      constructor
      · rintro ⟨a, b, c⟩; exact ⟨by omega, b, c⟩
      · rintro ⟨a, b, c⟩; exact ⟨by omega, b, c⟩
    · rw [h2]
      constructor
      · rintro ⟨a, b, c⟩; exact ⟨by omega, b, c⟩
      · rintro ⟨a, b, c⟩; exact ⟨by omega, b, c⟩
  · rw [if_neg he, idx_ok caps hn, Run.ok_bind]
    have ho : caps[n]? = some caps[n] := List.getElem?_eq_getElem hn
    refine ⟨_, rfl, ⟨?_, ?_⟩⟩
    · have := mem_step (P := fun o => (axisDistances caps[i] o.center).1 < 1 / 5 * (axisDistances caps[i] o.center).2)
        (D := fun o => (axisDistances caps[i] o.center).2) he ho h1
      intro nb
      rw [← this nb]
      rw [lit35, lit02]
      show nb ∈ (if decide ((axisDistances caps[i] caps[n].center).1 < 1 / 5 * (axisDistances caps[i] caps[n].center).2) = true
        then hl ++ [{ index := n, distance := (axisDistances caps[i] caps[n].center).2 }] else hl) ↔ _
      simp only [decide_eq_true_eq]
    · have := mem_step (P := fun o => (axisDistances caps[i] o.center).2 < 1 / 5 * (axisDistances caps[i] o.center).1)
        (D := fun o => (axisDistances caps[i] o.center).1) he ho h2
      intro nb
      rw [← this nb]
      rw [lit35, lit02]
      show nb ∈ (if decide ((axisDistances caps[i] caps[n].center).2 < 1 / 5 * (axisDistances caps[i] caps[n].center).1) = true
        then vl ++ [{ index := n, distance := (axisDistances caps[i] caps[n].center).1 }] else vl) ↔ _
      simp only [decide_eq_true_eq]

theorem insertScore_ok (n : NeighborSet ℚ) : ∀ l : List (NeighborSet ℚ), l.Pairwise (fun a b => a.score ≤ b.score) →
    ∃ r, insertScore n l = .ok r ∧ r.Perm (n :: l) ∧ r.Pairwise (fun a b => a.score ≤ b.score)
  | [], _ => ⟨[n], rfl, List.Perm.refl _, List.pairwise_singleton _ _⟩
  | m :: ms, h => by
    rw [List.pairwise_cons] at h
    unfold insertScore
    by_cases h1 : n.score < m.score
    · rw [if_pos (show FloatOps.lt n.score m.score = true from decide_eq_true h1)]
      refine ⟨_, rfl, List.Perm.refl _, ?_⟩
      rw [List.pairwise_cons, List.pairwise_cons]
      refine ⟨fun a ha => ?_, h⟩
      rcases List.mem_cons.1 ha with rfl | ha
      · exact h1.le
      · exact h1.le.trans (h.1 a ha)
    · rw [if_neg (show ¬ FloatOps.lt n.score m.score = true from fun e => h1 (of_decide_eq_true e)),
        if_pos (show FloatOps.le m.score n.score = true from decide_eq_true (not_lt.1 h1))]
      obtain ⟨r, e, p, q⟩ := insertScore_ok n ms h.2
      rw [e, Run.ok_bind]
      refine ⟨_, rfl, (List.Perm.cons m p).trans (List.Perm.swap n m ms), ?_⟩
      rw [List.pairwise_cons]
      refine ⟨fun a ha => ?_, q⟩
      rcases List.mem_cons.1 (p.mem_iff.1 ha) with rfl | ha
      · exact not_lt.1 h1
      · exact h.1 a ha

theorem sort_ok (l : List (NeighborSet ℚ)) : ∃ r, forList (fun n sorted => insertScore n sorted) l [] = .ok r ∧ r.Perm l ∧
    r.Pairwise (fun a b => a.score ≤ b.score) := by
  have key : ∀ (l acc : List (NeighborSet ℚ)), acc.Pairwise (fun a b => a.score ≤ b.score) →
      ∃ r, forList (fun n sorted => insertScore n sorted) l acc = .ok r ∧ r.Perm (l ++ acc) ∧
        r.Pairwise (fun a b => a.score ≤ b.score) := by
    intro l
    induction l with
    | nil => intro acc h; exact ⟨acc, rfl, List.Perm.refl _, h⟩
    | cons n l ih =>
      intro acc h
      obtain ⟨r, e, p, q⟩ := insertScore_ok n acc h
      obtain ⟨r', e', p', q'⟩ := ih r q
      refine ⟨r', ?_, ?_, q'⟩
      · unfold forList; rw [e, Run.ok_bind, e']
      · exact p'.trans ((List.Perm.append_left l p).trans List.perm_middle)
  obtain ⟨r, h1, h2, h3⟩ := key l [] .nil
  exact ⟨r, h1, by simpa using h2, h3⟩

/-- The score of a pair of neighbours. -/
def pairScore (h v : ℚ) : ℚ := if h < v then |1 - h / v| else |1 - v / h|

theorem rank_ok {caps : List (CapStone ℚ)} {i : Nat} (hi : i < caps.length) :
    ∃ pairs, find_and_rank_possible_neighbors caps i = .ok pairs ∧ ∀ p, p ∈ pairs ↔
      p.1 ≠ i ∧ p.2 ≠ i ∧ ∃ a b, caps[p.1]? = some a ∧ caps[p.2]? = some b ∧
      (axisDistances caps[i] a.center).1 < 1 / 5 * (axisDistances caps[i] a.center).2 ∧
      (axisDistances caps[i] b.center).2 < 1 / 5 * (axisDistances caps[i] b.center).1 ∧
      pairScore (axisDistances caps[i] a.center).2 (axisDistances caps[i] b.center).1 < 1 / 4 := by
  obtain ⟨⟨hl, vl⟩, e, h1, h2⟩ := find_possible_neighbors_ok hi
  dsimp only at h1 h2
  unfold find_and_rank_possible_neighbors
  rw [e, Run.ok_bind]
  dsimp only
  have l1 : (FloatOps.lit 1 0 : ℚ) = 1 := by show ((1 : Nat) : ℚ) / 10 ^ 0 = 1; norm_num
  have l25 : (FloatOps.lit 25 2 : ℚ) = 1 / 4 := by show ((25 : Nat) : ℚ) / 10 ^ 2 = 1 / 4; norm_num
  rw [l1, l25]
  have hscore : ∀ hn vn : Neighbor ℚ, (if FloatOps.lt hn.distance vn.distance = true then
      FloatOps.abs (FloatOps.sub 1 (FloatOps.div hn.distance vn.distance))
      else FloatOps.abs (FloatOps.sub 1 (FloatOps.div vn.distance hn.distance)) : ℚ) = pairScore hn.distance vn.distance := by
    intro hn vn
    unfold pairScore
    by_cases h : hn.distance < vn.distance
    · rw [if_pos h, if_pos (show FloatOps.lt hn.distance vn.distance = true from decide_eq_true h)]; rfl
    · rw [if_neg h, if_neg (show ¬ FloatOps.lt hn.distance vn.distance = true from fun e => h (of_decide_eq_true e))]; rfl
  obtain ⟨r, e', p, -⟩ := sort_ok (hl.flatMap fun hn => vl.filterMap fun vn =>
    if FloatOps.lt (if FloatOps.lt hn.distance vn.distance = true then
      FloatOps.abs (FloatOps.sub 1 (FloatOps.div hn.distance vn.distance))
      else FloatOps.abs (FloatOps.sub 1 (FloatOps.div vn.distance hn.distance)) : ℚ) (1 / 4) = true then
    some (NeighborSet.mk (if FloatOps.lt hn.distance vn.distance = true then
      FloatOps.abs (FloatOps.sub 1 (FloatOps.div hn.distance vn.distance))
      else FloatOps.abs (FloatOps.sub 1 (FloatOps.div vn.distance hn.distance)) : ℚ) hn.index vn.index) else none)
  refine ⟨r.map fun n => (n.h_index, n.v_index), ?_, ?_⟩
  · show (do
      let sorted ← forList (fun n sorted => insertScore n sorted) _ []
      pure (sorted.map fun n : NeighborSet ℚ => (n.h_index, n.v_index)) : Run (List (Nat × Nat))) = _
    refine Eq.trans (congrArg (fun m : Run (List (NeighborSet ℚ)) => do
      let sorted ← m
      pure (sorted.map fun n : NeighborSet ℚ => (n.h_index, n.v_index))) e') rfl
  · rintro ⟨a, b⟩
    rw [List.mem_map]
    constructor
    · rintro ⟨n, hn, heq⟩
      have hn := p.mem_iff.1 hn
      rw [List.mem_flatMap] at hn
      obtain ⟨hn', m1, hn⟩ := hn
      rw [List.mem_filterMap] at hn
      obtain ⟨vn, m2, hn⟩ := hn
      rw [hscore] at hn
      by_cases hs : pairScore hn'.distance vn.distance < 1 / 4
      · rw [if_pos (show FloatOps.lt (pairScore hn'.distance vn.distance) (1 / 4) = true from decide_eq_true hs)] at hn
        cases hn
        simp only [Prod.mk.injEq] at heq
        obtain ⟨rfl, rfl⟩ := heq
        obtain ⟨-, a1, o, a2, a3, a4⟩ := (h1 hn').1 m1
        obtain ⟨-, b1, o', b2, b3, b4⟩ := (h2 vn).1 m2
        rw [a4, b4] at hs
        exact ⟨a1, b1, o, o', a2, b2, a3, b3, hs⟩
      · rw [if_neg (show ¬ FloatOps.lt (pairScore hn'.distance vn.distance) (1 / 4) = true from
          fun e => hs (of_decide_eq_true e))] at hn
        cases hn
    · rintro ⟨a1, b1, o, o', a2, b2, a3, b3, hs⟩
      dsimp only at a1 b1 a2 b2
      refine ⟨{ score := pairScore (axisDistances caps[i] o.center).2 (axisDistances caps[i] o'.center).1, h_index := a, v_index := b },
        p.mem_iff.2 ?_, rfl⟩
      rw [List.mem_flatMap]
      refine ⟨{ index := a, distance := (axisDistances caps[i] o.center).2 }, (h1 _).2 ⟨?_, a1, o, a2, a3, rfl⟩, ?_⟩
      · exact (List.getElem?_eq_some_iff.1 a2).1
      · rw [List.mem_filterMap]
        refine ⟨{ index := b, distance := (axisDistances caps[i] o'.center).1 }, (h2 _).2 ⟨?_, b1, o', b2, b3, rfl⟩, ?_⟩
        · exact (List.getElem?_eq_some_iff.1 b2).1
        · rw [hscore]
          exact if_pos (show FloatOps.lt (pairScore (axisDistances caps[i] o.center).2 (axisDistances caps[i] o'.center).1)
            (1 / 4) = true from decide_eq_true hs)

end Rqrr
