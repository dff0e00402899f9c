import Verif.Proofs.Flood
import Mathlib.Algebra.Order.BigOperators.Group.Finset

/-!
# Flood fill: the loop
-/

namespace Rqrr

open ImageBuffer LawfulImage Spec

variable {S : Type} [ImageBuffer S] [LawfulImage S]

/-- The positions of colour `c`. -/
noncomputable def colorSet (s : S) (c : Byte) : Finset Pos :=
  (Finset.range (width s) ×ˢ Finset.range (height s)).filter fun p => view s p.1 p.2 = c

theorem mem_colorSet {s : S} {c : Byte} {p : Pos} : p ∈ colorSet s c ↔ HasColor s c p := by
  unfold colorSet HasColor
  simp only [Finset.mem_filter, Finset.mem_product, Finset.mem_range]
  tauto

theorem colorSet_card_le (s : S) (c : Byte) : (colorSet s c).card ≤ width s * height s := by
  unfold colorSet
  refine (Finset.card_filter_le _ _).trans ?_
  rw [Finset.card_product, Finset.card_range, Finset.card_range]

/-- The pixels of a row span. -/
def spanSet (left right y : Nat) : Finset Pos := (Finset.Icc left right).image fun x => (x, y)

theorem mem_spanSet {left right y : Nat} {p : Pos} : p ∈ spanSet left right y ↔ p.2 = y ∧ left ≤ p.1 ∧ p.1 ≤ right := by
  unfold spanSet
  rw [Finset.mem_image]
  constructor
  · rintro ⟨x, hx, rfl⟩
    rw [Finset.mem_Icc] at hx
    exact ⟨rfl, hx⟩
  · rintro ⟨h1, h2⟩
    exact ⟨p.1, Finset.mem_Icc.2 h2, by rw [← h1]⟩

theorem spanSet_card (left right y : Nat) : (spanSet left right y).card = right + 1 - left := by
  unfold spanSet
  rw [Finset.card_image_of_injective _ (fun a b h => (Prod.mk.inj h).1), Nat.card_Icc]

theorem colorSet_paint {s s' : S} {frm dst : Byte} (hne : frm ≠ dst) {left right y : Nat} (hw : width s' = width s)
    (hh : height s' = height s) (hy : y < height s) (hr : right < width s)
    (hspan : ∀ i, left ≤ i → i ≤ right → view s i y = frm)
    (hview : ∀ x' y', x' < width s → y' < height s →
      view s' x' y' = if y' = y ∧ left ≤ x' ∧ x' ≤ right then dst else view s x' y') :
    (colorSet s' frm).card + (right + 1 - left) ≤ (colorSet s frm).card := by
  have hdis : Disjoint (colorSet s' frm) (spanSet left right y) := by
    rw [Finset.disjoint_left]
    intro p hp hp'
    rw [mem_colorSet] at hp
    rw [mem_spanSet] at hp'
    obtain ⟨a, b, c⟩ := hp
    rw [hview _ _ (by omega) (by omega), if_pos hp'] at c
    exact hne c.symm
  rw [← spanSet_card left right y, ← Finset.card_union_of_disjoint hdis]
  apply Finset.card_le_card
  intro p hp
  rw [mem_colorSet]
  rcases Finset.mem_union.1 hp with hp | hp
  · rw [mem_colorSet] at hp
    obtain ⟨a, b, c⟩ := hp
    have a' : p.1 < width s := by omega
    have b' : p.2 < height s := by omega
    refine ⟨a', b', ?_⟩
    rw [hview _ _ a' b'] at c
    by_cases e : p.2 = y ∧ left ≤ p.1 ∧ p.1 ≤ right
    · rw [if_pos e] at c; exact absurd c.symm hne
    · rwa [if_neg e] at c
  · rw [mem_spanSet] at hp
    refine ⟨by omega, by omega, ?_⟩
    rw [hp.1]; exact hspan _ hp.2.1 hp.2.2

/-- What a finished fill from the start points `queue` in image `s` looks like: new image `s'` and reported rows. -/
structure Filled (s : S) (frm dst : Byte) (queue : List Pos) (s' : S) (rows : List Row) : Prop where
  valid : Valid s'
  width : width s' = width s
  height : height s' = height s
  inside : ∀ p, p.1 < ImageBuffer.width s → p.2 < ImageBuffer.height s →
    (∃ q ∈ queue, Reach (HasColor s frm) q p) → view s' p.1 p.2 = dst
  outside : ∀ p, p.1 < ImageBuffer.width s → p.2 < ImageBuffer.height s →
    (¬ ∃ q ∈ queue, Reach (HasColor s frm) q p) → view s' p.1 p.2 = view s p.1 p.2
  rows_iff : ∀ p, (∃ r ∈ rows, inRow r p) ↔ ∃ q ∈ queue, Reach (HasColor s frm) q p
  rows_disj : rows.Pairwise fun r r' => ∀ p, ¬ (inRow r p ∧ inRow r' p)
  rows_le : ∀ r ∈ rows, r.left ≤ r.right

theorem Filled.nil {s : S} (hv : Valid s) (frm dst : Byte) : Filled s frm dst [] s [] where
  valid := hv
  width := rfl
  height := rfl
  inside := by simp
  outside := by simp
  rows_iff := by simp
  rows_disj := .nil
  rows_le := by simp

theorem Filled.skip {s s' : S} {frm dst : Byte} {q : Pos} {queue : List Pos} {rows : List Row} (hq : ¬ HasColor s frm q)
    (h : Filled s frm dst queue s' rows) : Filled s frm dst (q :: queue) s' rows := by
  have e : ∀ p, (∃ q' ∈ q :: queue, Reach (HasColor s frm) q' p) ↔ ∃ q' ∈ queue, Reach (HasColor s frm) q' p := by
    intro p
    constructor
    · rintro ⟨q', h1, h2⟩
      rcases List.mem_cons.1 h1 with rfl | h1
      · exact absurd h2.left hq
      · exact ⟨q', h1, h2⟩
    · rintro ⟨q', h1, h2⟩; exact ⟨q', by simp [h1], h2⟩
  exact ⟨h.valid, h.width, h.height, fun p a b c => h.inside p a b ((e p).1 c),
    fun p a b c => h.outside p a b (fun d => c ((e p).2 d)), fun p => (h.rows_iff p).trans (e p).symm, h.rows_disj, h.rows_le⟩

theorem flood_loop {frm dst : Byte} (hne : frm ≠ dst) : ∀ (fuel : Nat) (s : S) (queue : List Pos), Valid s →
    (∀ q ∈ queue, q.1 < width s ∧ q.2 < height s) → queue.length + 2 * (colorSet s frm).card < fuel →
    ∃ s' rows, Filled s frm dst queue s' rows ∧
      ∀ (φ : Type) (update : φ → Row → Run φ) (w : Nat) (_ : w = width s) (f : φ),
        whileFuel (fun st : S × List (Nat × Nat) × φ => !st.2.1.isEmpty) (fill_step update w frm dst) fuel (s, queue, f) =
          (rows.foldlM update f >>= fun f' => .ok (s', [], f'))
  | 0, s, queue, hv, hq, hf => by omega
  | fuel + 1, s, [], hv, hq, hf => ⟨s, [], .nil hv frm dst, fun φ update w hw f => by
      simp only [whileFuel, List.foldlM_nil]; rfl⟩
  | fuel + 1, s, (x, y) :: queue, hv, hq, hf => by
    obtain ⟨hx, hy⟩ := hq (x, y) (by simp)
    dsimp only at hx hy
    by_cases hc : view s x y = frm
    · obtain ⟨l, r, seeds, s1, c1, c2, c3, c4, c5, c6, c7, c8, c9, c10, c11, c12, c13, c14⟩ :=
        fill_step_paint hv hx hy hne hc queue
      have hcard := colorSet_paint hne c3 c4 hy c7 c9 c8
      rw [List.length_cons] at hf
      obtain ⟨s', rows, F, hrun⟩ := flood_loop hne fuel s1 (seeds ++ queue) c2
        (by
          intro q hq'
          rcases List.mem_append.1 hq' with h | h
          · obtain ⟨a, _, _, d, _⟩ := c13 q h
            exact ⟨by omega, by omega⟩
          · have := hq q (by simp [h])
            omega)
        (by rw [List.length_append]; omega)
      have hP' : ∀ p, HasColor s1 frm p ↔ HasColor s frm p ∧ ¬ (p.2 = y ∧ l ≤ p.1 ∧ p.1 ≤ r) := by
        intro p
        unfold HasColor
        rw [c3, c4]
        constructor
        · rintro ⟨a, b, c⟩
          rw [c8 _ _ a b] at c
          by_cases e : p.2 = y ∧ l ≤ p.1 ∧ p.1 ≤ r
          · rw [if_pos e] at c; exact absurd c.symm hne
          · rw [if_neg e] at c; exact ⟨⟨a, b, c⟩, e⟩
        · rintro ⟨⟨a, b, c⟩, e⟩
          exact ⟨a, b, by rw [c8 _ _ a b, if_neg e]; exact c⟩
      have key := reach_span (P := HasColor s frm) (P' := HasColor s1 frm) (x := x) (y := y) (left := l) (right := r)
        (seeds := seeds) (rest := queue)
        (fun i a b => ⟨by dsimp only; omega, hy, c9 i a b⟩) ⟨c5, c6⟩
        (fun i a b => c10 i a b.2.2) (fun b => c11 b.1 b.2.2) hP'
        (fun q hq' => by
          obtain ⟨a, b, c, d, e⟩ := c13 q hq'
          exact ⟨(hP' q).2 ⟨⟨by omega, a, b⟩, by omega⟩, c, d, e⟩)
        (by
          rintro ⟨v, y'⟩ ⟨a, b, c⟩ h1 h2 h3
          dsimp only at a b c h1 h2 h3
          obtain ⟨u, u1, u2, u3, u4⟩ := c14 v y' h1 h2 b h3 c
          refine ⟨(u, y'), u1, Reach.row' y' u v u2 ?_⟩
          intro i i1 i2
          exact (hP' _).2 ⟨⟨by dsimp only; omega, b, u4 i i1 i2⟩, by dsimp only; omega⟩)
      refine ⟨s', { left := l, right := r, y := y } :: rows, ?_, ?_⟩
      · refine ⟨F.valid, F.width.trans c3, F.height.trans c4, ?_, ?_, ?_, ?_, ?_⟩
        · intro p a b h
          by_cases e : ∃ q ∈ seeds ++ queue, Reach (HasColor s1 frm) q p
          · exact F.inside p (by omega) (by omega) e
          · rcases (key p).1 h with h | h
            · rw [F.outside p (by omega) (by omega) e, c8 _ _ a b, if_pos h]
            · exact absurd h e
        · intro p a b h
          have h' := fun x => h ((key p).2 x)
          rw [F.outside p (by omega) (by omega) fun x => h' (.inr x), c8 _ _ a b, if_neg fun x => h' (.inl x)]
        · intro p
          rw [key p, ← F.rows_iff p]
          constructor
          · rintro ⟨r', h1, h2⟩
            rcases List.mem_cons.1 h1 with rfl | h1
            · exact .inl h2
            · exact .inr ⟨r', h1, h2⟩
          · rintro (h | ⟨r', h1, h2⟩)
            · exact ⟨{ left := l, right := r, y := y }, List.mem_cons_self, h⟩
            · exact ⟨r', by simp [h1], h2⟩
        · refine List.pairwise_cons.2 ⟨?_, F.rows_disj⟩
          rintro r' hr' p ⟨h1, h2⟩
          obtain ⟨q, _, hq2⟩ := (F.rows_iff p).1 ⟨r', hr', h2⟩
          exact ((hP' p).1 hq2.right).2 h1
        · intro r' hr'
          rcases List.mem_cons.1 hr' with rfl | hr'
          · dsimp only; omega
          · exact F.rows_le r' hr'
      · intro φ update w hw f
        subst hw
        rw [whileFuel, if_pos (by rfl), c1, List.foldlM_cons]
        cases update f { left := l, right := r, y := y } with
        | error e => rfl
        | ok f' =>
          rw [Run.ok_bind, Run.ok_bind]
          exact hrun φ update _ c3.symm f'
    · rw [List.length_cons] at hf
      obtain ⟨s', rows, F, hrun⟩ := flood_loop hne fuel s queue hv (fun q hq' => hq q (by simp [hq'])) (by omega)
      refine ⟨s', rows, F.skip (fun h => hc h.2.2), ?_⟩
      intro φ update w hw f
      subst hw
      rw [whileFuel, if_pos (by rfl), fill_step_skip update hv hx hy hc, Run.ok_bind]
      exact hrun φ update _ rfl f

/-- Flood fill from a pixel inside the image: a new image and a list of rows, the same for every filler; the filler sees
exactly these rows. -/
theorem flood_fill_spec {s : S} (hv : Valid s) {x y : Nat} (hx : x < width s) (hy : y < height s) {frm dst : Byte}
    (hne : frm ≠ dst) : ∃ s' rows, Filled s frm dst [(x, y)] s' rows ∧
      ∀ (φ : Type) (update : φ → Row → Run φ) (f : φ),
        flood_fill update s x y frm dst f = (rows.foldlM update f >>= fun f' => .ok (s', f')) := by
  have hcard := colorSet_card_le s frm
  obtain ⟨s', rows, F, hrun⟩ := flood_loop hne (2 * (width s * height s) + 2) s [(x, y)] hv (by simpa using ⟨hx, hy⟩)
    (by simp; omega)
  refine ⟨s', rows, F, ?_⟩
  intro φ update f
  unfold flood_fill
  rw [Run.assert_of (by simpa using hne), Run.ok_bind]
  dsimp only
  rw [hrun φ update _ rfl f]
  cases rows.foldlM update f <;> rfl

end Rqrr
