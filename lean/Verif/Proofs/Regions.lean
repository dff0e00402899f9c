import Verif.Proofs.FloodLoop
import Verif.Spec.Regions
import Mathlib.Data.Set.Finite.Lattice

/-!
# The region cache invariant
-/

namespace Rqrr

open ImageBuffer LawfulImage Spec

variable {S : Type} [ImageBuffer S] [LawfulImage S]

/-! ### Counting rows -/

theorem area_counter_rows : ∀ (rows : List Row) (c : Nat), (∀ r ∈ rows, r.left ≤ r.right) →
    (rows.Pairwise fun r r' => ∀ p, ¬ (inRow r p ∧ inRow r' p)) →
    c + Set.ncard {p : Pos | ∃ r ∈ rows, inRow r p} < 2 ^ 64 →
    rows.foldlM AreaCounter.update c = .ok (c + Set.ncard {p : Pos | ∃ r ∈ rows, inRow r p})
  | [], c, _, _, _ => by simp; rfl
  | r :: rows, c, hle, hdis, hlt => by
    have hset : {p : Pos | ∃ r' ∈ r :: rows, inRow r' p} =
        (↑(spanSet r.left r.right r.y) : Set Pos) ∪ {p : Pos | ∃ r' ∈ rows, inRow r' p} := by
      ext p
      simp only [Set.mem_ofPred_eq, List.mem_cons, Set.mem_union, Finset.mem_coe, mem_spanSet]
      constructor
      · rintro ⟨r', rfl | h, h2⟩
        · exact .inl h2
        · exact .inr ⟨r', h, h2⟩
      · rintro (h | ⟨r', h, h2⟩)
        · exact ⟨r, .inl rfl, h⟩
        · exact ⟨r', .inr h, h2⟩
    have hfin : ∀ rows : List Row, {p : Pos | ∃ r' ∈ rows, inRow r' p}.Finite := by
      intro rows
      have : {p : Pos | ∃ r' ∈ rows, inRow r' p} = ⋃ r' ∈ {r' | r' ∈ rows}, (↑(spanSet r'.left r'.right r'.y) : Set Pos) := by
        ext p
        simp only [Set.mem_ofPred_eq, Set.mem_iUnion, Finset.mem_coe, mem_spanSet, inRow, exists_prop]
      rw [this]
      exact Set.Finite.biUnion (List.finite_toSet rows) fun _ _ => Finset.finite_toSet _
    have hcard : Set.ncard {p : Pos | ∃ r' ∈ r :: rows, inRow r' p} =
        (r.right + 1 - r.left) + Set.ncard {p : Pos | ∃ r' ∈ rows, inRow r' p} := by
      rw [hset, Set.ncard_union_eq ?_ (Finset.finite_toSet _) (hfin rows), Set.ncard_coe_finset, spanSet_card]
      rw [Set.disjoint_left]
      rintro p h1 ⟨r', h2, h3⟩
      rw [Finset.mem_coe, mem_spanSet] at h1
      exact (List.pairwise_cons.1 hdis).1 r' h2 p ⟨h1, h3⟩
    have hr := hle r (by simp)
    rw [hcard] at hlt ⊢
    rw [List.foldlM_cons]
    unfold AreaCounter.update chkU
    rw [subU_ok hr, Run.ok_bind, if_pos (by omega), Run.ok_bind]
    have := area_counter_rows rows (c + (r.right - r.left + 1)) (fun r' h => hle r' (by simp [h])) (List.pairwise_cons.1 hdis).2
      (by omega)
    unfold AreaCounter.update chkU at this
    rw [this]
    congr 1
    omega

/-! ### Reachability in a coloured image -/

/-- The colours of an image relative to its black set: white is exactly off it, and each region has one colour. -/
structure Painted (B : Pos → Prop) (s : S) : Prop where
  valid : Valid s
  range : ∀ p, B p → p.1 < width s ∧ p.2 < height s
  white : ∀ p, p.1 < width s → p.2 < height s → (view s p.1 p.2 = 0 ↔ ¬ B p)
  const : ∀ p q, B p → B q → Adj p q → view s p.1 p.2 = view s q.1 q.2

namespace Painted

variable {B : Pos → Prop} {s : S}

theorem reach_color (h : Painted B s) {p q : Pos} (hr : Reach B p q) : view s q.1 q.2 = view s p.1 p.2 := by
  have : Reach B p q → B q ∧ view s q.1 q.2 = view s p.1 p.2 := by
    intro hr
    refine Reach.closed (U := fun q => B q ∧ view s q.1 q.2 = view s p.1 p.2) hr ⟨hr.left, rfl⟩ ?_
    rintro a b ⟨h1, h2⟩ h3 h4
    exact ⟨h4, by rw [← h.const a b h1 h4 h3, h2]⟩
  exact (this hr).2

theorem black (h : Painted B s) {c : Byte} (hc : c ≠ 0) {p : Pos} (hp : HasColor s c p) : B p := by
  by_contra hb
  have := (h.white p hp.1 hp.2.1).2 hb
  exact hc (hp.2.2.symm.trans this)

theorem reach_iff (h : Painted B s) {c : Byte} {p q : Pos} (hc : c ≠ 0) (hp : HasColor s c p) :
    Reach (HasColor s c) p q ↔ Reach B p q := by
  constructor
  · exact Reach.mono fun a ha => h.black hc ha
  · intro hr
    have key := Reach.closed (U := fun q => Reach (HasColor s c) p q) hr (.refl hp) (by
      intro a b h1 h2 h3
      refine h1.tail h2 ⟨(h.range b h3).1, (h.range b h3).2, ?_⟩
      rw [← h.const a b (h.black hc h1.right) h3 h2]
      exact h1.right.2.2)
    exact key

/-- Repainting one region keeps the picture consistent. -/
theorem paint (h : Painted B s) {s' : S} {x y : Nat} {frm dst : Byte} {rows : List Row}
    (hcol : HasColor s frm (x, y)) (hfrm : frm ≠ 0) (hdst : dst ≠ 0) (F : Filled s frm dst [(x, y)] s' rows) :
    Painted B s' ∧ (∀ p, (∃ r ∈ rows, inRow r p) ↔ Reach B (x, y) p) ∧
      (∀ p, Reach B (x, y) p → view s' p.1 p.2 = dst) ∧
      (∀ p, p.1 < width s → p.2 < height s → ¬ Reach B (x, y) p → view s' p.1 p.2 = view s p.1 p.2) := by
  have hiff : ∀ p, (∃ q ∈ [(x, y)], Reach (HasColor s frm) q p) ↔ Reach B (x, y) p := by
    intro p
    rw [← h.reach_iff hfrm hcol]
    simp
  have hin : ∀ p, Reach B (x, y) p → view s' p.1 p.2 = dst := fun p hp =>
    F.inside p (h.range p hp.right).1 (h.range p hp.right).2 ((hiff p).2 hp)
  have hout : ∀ p, p.1 < width s → p.2 < height s → ¬ Reach B (x, y) p → view s' p.1 p.2 = view s p.1 p.2 :=
    fun p a b hp => F.outside p a b fun hq => hp ((hiff p).1 hq)
  refine ⟨⟨F.valid, ?_, ?_, ?_⟩, fun p => (F.rows_iff p).trans (hiff p), hin, hout⟩
  · intro p hp
    rw [F.width, F.height]; exact h.range p hp
  · intro p a b
    rw [F.width] at a
    rw [F.height] at b
    by_cases hp : Reach B (x, y) p
    · rw [hin p hp]
      exact ⟨fun e => absurd e hdst, fun e => absurd hp.right e⟩
    · rw [hout p a b hp]; exact h.white p a b
  · intro p q hp hq ha
    by_cases hr : Reach B (x, y) p
    · rw [hin p hr, hin q (hr.tail ha hq)]
    · have hr' : ¬ Reach B (x, y) q := fun hq' => hr (hq'.tail ha.symm hp)
      rw [hout p (h.range p hp).1 (h.range p hp).2 hr, hout q (h.range q hq).1 (h.range q hq).2 hr']
      exact h.const p q hp hq ha

theorem area_lt (h : Painted B s) (hsize : width s * height s < 2 ^ 64) (p : Pos) : area B p < 2 ^ 64 := by
  refine lt_of_le_of_lt ?_ hsize
  unfold area
  have hsub : {q | Reach B p q} ⊆ (↑(Finset.range (width s) ×ˢ Finset.range (height s)) : Set Pos) := by
    intro q hq
    have := h.range q (Reach.right hq)
    simpa using this
  refine (Set.ncard_le_ncard hsub (Finset.finite_toSet _)).trans ?_
  rw [Set.ncard_coe_finset, Finset.card_product, Finset.card_range, Finset.card_range]

end Painted

theorem byte_ne {a b : Byte} (h : a.toNat ≠ b.toNat) : a ≠ b := fun e => h (by rw [e])

theorem repaint_run {img : PreparedImage S} (hv : Valid img.buffer) {x y : Nat} (hx : x < width img.buffer)
    (hy : y < height img.buffer) {target : PixelColor} {dst : Byte} (ht : target.toByte = .ok dst)
    (hw : view img.buffer x y ≠ 0) (hne : view img.buffer x y ≠ dst) {s' : S} {rows : List Row}
    (hrun : ∀ (φ : Type) (update : φ → Row → Run φ) (f : φ), flood_fill update img.buffer x y (view img.buffer x y) dst f =
      (rows.foldlM update f >>= fun f' => .ok (s', f'))) (φ : Type) (update : φ → Row → Run φ) (f : φ) :
    img.repaint_and_apply update x y target f =
      (rows.foldlM update f >>= fun f' => .ok ({ img with buffer := s' }, f')) := by
  have e1 : PixelColor.White.eqByte (view img.buffer x y) = .ok false := by
    unfold PixelColor.eqByte PixelColor.toByte
    rw [Run.ok_bind]
    show Except.ok _ = _
    rw [beq_eq_false_iff_ne.2 (Ne.symm hw)]
  have e2 : target.eqByte (view img.buffer x y) = .ok false := by
    unfold PixelColor.eqByte
    rw [ht, Run.ok_bind]
    show Except.ok _ = _
    rw [beq_eq_false_iff_ne.2 (Ne.symm hne)]
  unfold PreparedImage.repaint_and_apply
  simp only [get_ok hv hx hy, Run.ok_bind, e1, e2, Bool.false_eq_true, if_false, ht, hrun]
  cases rows.foldlM update f <;> rfl

/-- Repainting a region whose colour is neither white nor the target. -/
theorem repaint_ok {B : Pos → Prop} {img : PreparedImage S} (h : Painted B img.buffer) {x y : Nat} (hb : B (x, y))
    {target : PixelColor} {dst : Byte} (ht : target.toByte = .ok dst) (hdst : dst ≠ 0)
    (hne : view img.buffer x y ≠ dst) : ∃ (s' : S) (rows : List Row),
      Painted B s' ∧ width s' = width img.buffer ∧ height s' = height img.buffer ∧
      (∀ p, Reach B (x, y) p → view s' p.1 p.2 = dst) ∧
      (∀ p, p.1 < width img.buffer → p.2 < height img.buffer → ¬ Reach B (x, y) p →
        view s' p.1 p.2 = view img.buffer p.1 p.2) ∧
      (∀ p, (∃ r ∈ rows, inRow r p) ↔ Reach B (x, y) p) ∧
      (rows.Pairwise fun r r' => ∀ p, ¬ (inRow r p ∧ inRow r' p)) ∧ (∀ r ∈ rows, r.left ≤ r.right) ∧
      ∀ (φ : Type) (update : φ → Row → Run φ) (f : φ),
        img.repaint_and_apply update x y target f =
          (rows.foldlM update f >>= fun f' => .ok ({ img with buffer := s' }, f')) := by
  obtain ⟨hx, hy⟩ := h.range _ hb
  dsimp only at hx hy
  have hw : view img.buffer x y ≠ 0 := fun e => ((h.white (x, y) hx hy).1 e) hb
  obtain ⟨s', rows, F, hrun⟩ := flood_fill_spec h.valid hx hy hne
  obtain ⟨h1, h2, h3, h4⟩ := h.paint (s' := s') (rows := rows) ⟨hx, hy, rfl⟩ hw hdst F
  refine ⟨s', rows, h1, F.width, F.height, h3, h4, h2, F.rows_disj, F.rows_le, ?_⟩
  exact repaint_run h.valid hx hy ht hw hne hrun

/-- The number of pixels counted while repainting. -/
theorem count_rows {B : Pos → Prop} {s : S} (h : Painted B s) (hsize : width s * height s < 2 ^ 64) {p : Pos} {rows : List Row}
    (hiff : ∀ q, (∃ r ∈ rows, inRow r q) ↔ Reach B p q)
    (hdis : rows.Pairwise fun r r' => ∀ p, ¬ (inRow r p ∧ inRow r' p)) (hle : ∀ r ∈ rows, r.left ≤ r.right) :
    rows.foldlM AreaCounter.update 0 = .ok (area B p) := by
  have he : Set.ncard {q : Pos | ∃ r ∈ rows, inRow r q} = area B p := by
    unfold area
    congr 1
    ext q
    exact hiff q
  have := h.area_lt hsize p
  rw [area_counter_rows rows 0 hle hdis (by omega), he, Nat.zero_add]

end Rqrr
