import Verif.Spec.Image
import Verif.Proofs.Loops
import Mathlib.Data.Finset.Prod
import Mathlib.Data.Finset.Card
import Mathlib.Data.Finset.Image
import Mathlib.Order.Interval.Finset.Nat
import Mathlib.Tactic.Tauto

/-!
# Flood fill paints exactly the connected component
-/

namespace Rqrr

open ImageBuffer LawfulImage Spec

/-! ### Reachability -/

theorem Spec.Adj.symm {p q : Pos} (h : Adj p q) : Adj q p := by
  unfold Adj at *; omega

theorem Spec.Reach.left {P : Pos → Prop} {p q : Pos} (h : Reach P p q) : P p := h.1

theorem Spec.Reach.right {P : Pos → Prop} {p q : Pos} (h : Reach P p q) : P q := by
  obtain ⟨h1, h2⟩ := h
  cases h2 with
  | refl => exact h1
  | tail _ h => exact h.2

theorem Spec.Reach.refl {P : Pos → Prop} {p : Pos} (h : P p) : Reach P p p := ⟨h, .refl⟩

theorem Spec.Reach.tail {P : Pos → Prop} {p q r : Pos} (h : Reach P p q) (ha : Adj q r) (hr : P r) : Reach P p r :=
  ⟨h.1, h.2.tail ⟨ha, hr⟩⟩

theorem Spec.Reach.trans {P : Pos → Prop} {p q r : Pos} (h : Reach P p q) (h' : Reach P q r) : Reach P p r :=
  ⟨h.1, h.2.trans h'.2⟩

theorem Spec.Reach.mono {P Q : Pos → Prop} (hPQ : ∀ p, P p → Q p) {p q : Pos} (h : Reach P p q) : Reach Q p q :=
  ⟨hPQ _ h.1, Relation.ReflTransGen.mono (fun _ _ (h : Adj _ _ ∧ P _) => And.intro h.1 (hPQ _ h.2)) _ _ h.2⟩

theorem Spec.Reach.symm {P : Pos → Prop} {p q : Pos} (h : Reach P p q) : Reach P q p := by
  obtain ⟨h1, h2⟩ := h
  induction h2 with
  | refl => exact .refl h1
  | @tail a b hab hb ih =>
    have ha : P a := Reach.right ⟨h1, hab⟩
    exact Reach.trans ⟨hb.2, .single ⟨hb.1.symm, ha⟩⟩ ih

/-- A set closed under steps contains everything reachable. -/
theorem Spec.Reach.closed {P U : Pos → Prop} {p q : Pos} (h : Reach P p q) (hp : U p)
    (hU : ∀ a b, U a → Adj a b → P b → U b) : U q := by
  obtain ⟨h1, h2⟩ := h
  induction h2 with
  | refl => exact hp
  | tail _ hb ih => exact hU _ _ ih hb.1 hb.2

/-- Along a row. -/
theorem Spec.Reach.row {P : Pos → Prop} (y a : Nat) : ∀ n, (∀ i, a ≤ i → i ≤ a + n → P (i, y)) → Reach P (a, y) (a + n, y)
  | 0, h => .refl (h a (by omega) (by omega))
  | n + 1, h => (Reach.row y a n fun i h1 h2 => h i h1 (by omega)).tail (.inl ⟨rfl, .inl rfl⟩) (h _ (by omega) (by omega))

theorem Spec.Reach.row' {P : Pos → Prop} (y a b : Nat) (hab : a ≤ b) (h : ∀ i, a ≤ i → i ≤ b → P (i, y)) :
    Reach P (a, y) (b, y) := by
  have := Reach.row (P := P) y a (b - a) fun i h1 h2 => h i h1 (by omega)
  rwa [show a + (b - a) = b by omega] at this

/-- One painting step: the component structure after removing a maximal row span. `U` are the start points before, `seeds`
and `rest` those after. -/
theorem reach_span {P P' : Pos → Prop} {x y left right : Nat} {seeds rest : List Pos}
    (hspan : ∀ i, left ≤ i → i ≤ right → P (i, y)) (hx : left ≤ x ∧ x ≤ right)
    (hleft : ∀ i, i + 1 = left → ¬ P (i, y)) (hright : ¬ P (right + 1, y))
    (hP' : ∀ p, P' p ↔ P p ∧ ¬ (p.2 = y ∧ left ≤ p.1 ∧ p.1 ≤ right))
    (hseed : ∀ q ∈ seeds, P' q ∧ left ≤ q.1 ∧ q.1 ≤ right ∧ (q.2 + 1 = y ∨ y + 1 = q.2))
    (hcover : ∀ q, P q → left ≤ q.1 → q.1 ≤ right → (q.2 + 1 = y ∨ y + 1 = q.2) → ∃ s ∈ seeds, Reach P' s q)
    (p : Pos) :
    (∃ q ∈ (x, y) :: rest, Reach P q p) ↔ ((p.2 = y ∧ left ≤ p.1 ∧ p.1 ≤ right) ∨ ∃ q ∈ seeds ++ rest, Reach P' q p) := by
  have hP'P : ∀ p, P' p → P p := fun p h => ((hP' p).1 h).1
  have hfrom : ∀ i, left ≤ i → i ≤ right → Reach P (x, y) (i, y) := by
    intro i h1 h2
    rcases Nat.le_total x i with h | h
    · exact Reach.row' y x i h fun j a b => hspan j (by omega) (by omega)
    · exact (Reach.row' y i x h fun j a b => hspan j (by omega) (by omega)).symm
  constructor
  · rintro ⟨q, hq, hr⟩
    refine hr.closed (U := fun p => (p.2 = y ∧ left ≤ p.1 ∧ p.1 ≤ right) ∨ ∃ q ∈ seeds ++ rest, Reach P' q p) ?_ ?_
    · rcases List.mem_cons.1 hq with rfl | hq
      · exact .inl ⟨rfl, hx⟩
      · by_cases h : q.2 = y ∧ left ≤ q.1 ∧ q.1 ≤ right
        · exact .inl h
        · exact .inr ⟨q, List.mem_append_right _ hq, .refl ((hP' q).2 ⟨hr.left, h⟩)⟩
    · rintro ⟨ax, ay⟩ ⟨bx, by_⟩ ha hadj hb
      by_cases hin : by_ = y ∧ left ≤ bx ∧ bx ≤ right
      · exact .inl hin
      right
      rcases ha with ⟨h1, h2, h3⟩ | ⟨q, hq, hqa⟩
      · dsimp only at h1 h2 h3
        subst h1
        rcases hadj with ⟨e1, e2⟩ | ⟨e1, e2⟩
        · dsimp only at e1 e2
          subst e1
          exfalso
          have : bx + 1 = left ∨ bx = right + 1 := by omega
          rcases this with h | h
          · exact hleft bx h hb
          · subst h; exact hright hb
        · dsimp only at e1 e2
          subst e1
          obtain ⟨s, hs, hr⟩ := hcover (ax, by_) hb h2 h3 (by dsimp only; omega)
          exact ⟨s, List.mem_append_left _ hs, hr⟩
      · exact ⟨q, hq, hqa.tail hadj ((hP' _).2 ⟨hb, hin⟩)⟩
  · rintro (⟨h1, h2, h3⟩ | ⟨q, hq, hr⟩)
    · refine ⟨(x, y), by simp, ?_⟩
      have := hfrom p.1 h2 h3
      rw [← h1] at this ⊢
      exact this
    · rcases List.mem_append.1 hq with hq | hq
      · obtain ⟨s1, s2, s3, s4⟩ := hseed q hq
        refine ⟨(x, y), by simp, (hfrom q.1 s2 s3).trans (Reach.trans ?_ (hr.mono hP'P))⟩
        have : Adj (q.1, y) q := by
          right; dsimp only; exact ⟨rfl, by omega⟩
        exact (Reach.refl (hspan q.1 s2 s3)).tail this (hP'P q s1)
      · exact ⟨q, by simp [hq], hr.mono hP'P⟩

/-! ### The loops of the painting step -/

variable {S : Type} [ImageBuffer S] [LawfulImage S]

theorem fill_left_ok {s : S} (hv : Valid s) {y : Nat} (hy : y < height s) (frm : Byte) : ∀ x, x < width s →
    ∃ l, fill_left s y frm x = .ok l ∧ l ≤ x ∧ (∀ i, l ≤ i → i < x → view s i y = frm) ∧
      (∀ i, i + 1 = l → view s i y ≠ frm)
  | 0, _ => ⟨0, rfl, Nat.le_refl _, by omega, by omega⟩
  | x + 1, hx => by
    unfold fill_left
    rw [get_ok hv (by omega) hy, Run.ok_bind]
    by_cases h : view s x y = frm
    · obtain ⟨l, h1, h2, h3, h4⟩ := fill_left_ok hv hy frm x (by omega)
      refine ⟨l, by simpa [h] using h1, by omega, ?_, h4⟩
      intro i hi1 hi2
      by_cases e : i = x
      · rw [e]; exact h
      · exact h3 i hi1 (by omega)
    · refine ⟨x + 1, by simp [h]; rfl, Nat.le_refl _, by omega, ?_⟩
      intro i hi
      rw [show i = x by omega]; exact h

theorem fill_right_ok {s : S} (hv : Valid s) {y : Nat} (hy : y < height s) (frm : Byte) : ∀ n x, x < width s →
    width s ≤ n + x →
    ∃ r, fill_right s (width s - 1) y frm n x = .ok r ∧ x ≤ r ∧ r < width s ∧ (∀ i, x < i → i ≤ r → view s i y = frm) ∧
      (r + 1 < width s → view s (r + 1) y ≠ frm)
  | 0, x, hx, hn => by omega
  | n + 1, x, hx, hn => by
    unfold fill_right
    by_cases hlt : x < width s - 1
    · rw [if_pos hlt, get_ok hv (by omega) hy, Run.ok_bind]
      by_cases h : view s (x + 1) y = frm
      · obtain ⟨r, h1, h2, h3, h4, h5⟩ := fill_right_ok hv hy frm n (x + 1) (by omega) (by omega)
        refine ⟨r, by simpa [h] using h1, by omega, h3, ?_, h5⟩
        intro i hi1 hi2
        by_cases e : i = x + 1
        · rw [e]; exact h
        · exact h4 i (by omega) hi2
      · exact ⟨x, by simp [h]; rfl, Nat.le_refl _, hx, by omega, fun _ => h⟩
    · rw [if_neg hlt]
      exact ⟨x, rfl, Nat.le_refl _, hx, by omega, by omega⟩

theorem fill_span_ok {s : S} (hv : Valid s) {y left right : Nat} (hy : y < height s) (hlr : left ≤ right)
    (hr : right < width s) (dst : Byte) : ∃ s', fill_span y left right dst s = .ok s' ∧ Valid s' ∧ width s' = width s ∧
      height s' = height s ∧ ∀ x' y', x' < width s → y' < height s →
        view s' x' y' = if y' = y ∧ left ≤ x' ∧ x' ≤ right then dst else view s x' y' := by
  unfold fill_span
  obtain ⟨s', h1, h2, h3, h4, h5⟩ := forRange_ok (lo := left) (hi := right + 1) (s := s)
    (f := fun i buf => set_pixel buf i y dst)
    (fun i s' => Valid s' ∧ width s' = width s ∧ height s' = height s ∧ ∀ x' y', x' < width s → y' < height s →
        view s' x' y' = if y' = y ∧ left ≤ x' ∧ x' < i then dst else view s x' y') (by omega)
    ⟨hv, rfl, rfl, fun x' y' _ _ => by rw [if_neg]; omega⟩
    (by
      rintro i s1 hi1 hi2 ⟨a1, a2, a3, a4⟩
      obtain ⟨s2, b1, b2, b3, b4, b5⟩ := set_ok (s := s1) (x := i) (y := y) dst a1 (by omega) (by omega)
      refine ⟨s2, b1, b2, by omega, by omega, ?_⟩
      intro x' y' hx' hy'
      rw [b5 x' y' (by omega) (by omega), a4 x' y' hx' hy']
      by_cases e : x' = i ∧ y' = y
      · rw [if_pos e, if_pos (by omega)]
      · rw [if_neg e]
        by_cases e' : y' = y ∧ left ≤ x' ∧ x' < i
        · rw [if_pos e', if_pos (by omega)]
        · rw [if_neg e', if_neg (by omega)])
  refine ⟨s', h1, h2, h3, h4, ?_⟩
  intro x' y' hx' hy'
  rw [h5 x' y' hx' hy']
  by_cases e : y' = y ∧ left ≤ x' ∧ x' ≤ right
  · rw [if_pos e, if_pos (by omega)]
  · rw [if_neg e, if_neg (by omega)]

theorem fill_seeds_ok {s : S} (hv : Valid s) {y left right : Nat} (hy : y < height s) (hlr : left ≤ right)
    (hr : right < width s) (frm : Byte) (queue : List Pos) :
    ∃ seeds : List Pos, fill_seeds s left right y frm queue = .ok (seeds ++ queue) ∧ seeds.length ≤ right + 1 - left ∧
      (∀ q ∈ seeds, q.2 = y ∧ left ≤ q.1 ∧ q.1 ≤ right ∧ view s q.1 y = frm) ∧
      ∀ v, left ≤ v → v ≤ right → view s v y = frm → ∃ u, (u, y) ∈ seeds ∧ u ≤ v ∧ ∀ i, u ≤ i → i ≤ v → view s i y = frm := by
  obtain ⟨⟨qs, prev⟩, h1, seeds, h2, h3, h4, h5, h6⟩ := forRange_ok (lo := left) (hi := right + 1) (s := (queue, false))
    (f := fun x (st : List (Nat × Nat) × Bool) => do
      let (queue, seeded_previous) := st
      let p ← get_pixel s x y
      if p == frm then
        if !seeded_previous then pure ((x, y) :: queue, true) else pure (queue, true)
      else pure (queue, false))
    (fun i st => ∃ seeds : List Pos, st.1 = seeds ++ queue ∧ seeds.length ≤ i - left ∧
      (∀ q ∈ seeds, q.2 = y ∧ left ≤ q.1 ∧ q.1 < i ∧ view s q.1 y = frm) ∧
      (st.2 = true → left < i ∧ view s (i - 1) y = frm) ∧
      ∀ v, left ≤ v → v < i → view s v y = frm → ∃ u, (u, y) ∈ seeds ∧ u ≤ v ∧ ∀ i, u ≤ i → i ≤ v → view s i y = frm)
    (by omega)
    ⟨[], rfl, by simp, by simp, by simp, by omega⟩
    (by
      rintro i ⟨qs, prev⟩ hi1 hi2 ⟨seeds, a1, a2, a3, a4, a5⟩
      dsimp only at a1 a4 ⊢
      rw [get_ok hv (by omega) hy, Run.ok_bind]
      by_cases h : view s i y = frm
      · rw [if_pos (by simp [h])]
        cases prev with
        | false =>
          refine ⟨_, rfl, (i, y) :: seeds, by rw [a1]; rfl, by simp; omega, ?_, fun _ => ⟨by omega, by simpa using h⟩, ?_⟩
          · intro q hq
            rcases List.mem_cons.1 hq with rfl | hq
            · exact ⟨rfl, hi1, by dsimp only; omega, h⟩
            · obtain ⟨b1, b2, b3, b4⟩ := a3 q hq
              exact ⟨b1, b2, by omega, b4⟩
          · intro v hv1 hv2 hv3
            by_cases e : v = i
            · subst e
              exact ⟨v, by simp, Nat.le_refl _, fun j j1 j2 => by rw [show j = v by omega]; exact h⟩
            · obtain ⟨u, u1, u2, u3⟩ := a5 v hv1 (by omega) hv3
              exact ⟨u, by simp [u1], u2, u3⟩
        | true =>
          obtain ⟨b1, b2⟩ := a4 rfl
          refine ⟨_, rfl, seeds, a1, by omega, ?_, fun _ => ⟨by omega, by simpa using h⟩, ?_⟩
          · intro q hq
            obtain ⟨b1, b2, b3, b4⟩ := a3 q hq
            exact ⟨b1, b2, by omega, b4⟩
          · intro v hv1 hv2 hv3
            by_cases e : v = i
            · subst e
              obtain ⟨u, u1, u2, u3⟩ := a5 (v - 1) (by omega) (by omega) b2
              refine ⟨u, u1, by omega, ?_⟩
              intro j j1 j2
              by_cases e : j = v
              · rw [e]; exact h
              · exact u3 j j1 (by omega)
            · exact a5 v hv1 (by omega) hv3
      · rw [if_neg (by simp [h])]
        refine ⟨_, rfl, seeds, a1, by omega, ?_, by simp, ?_⟩
        · intro q hq
          obtain ⟨b1, b2, b3, b4⟩ := a3 q hq
          exact ⟨b1, b2, by omega, b4⟩
        · intro v hv1 hv2 hv3
          by_cases e : v = i
          · subst e; exact absurd hv3 h
          · exact a5 v hv1 (by omega) hv3)
  refine ⟨seeds, ?_, by omega, fun q hq => ?_, fun v v1 v2 v3 => h6 v v1 (by omega) v3⟩
  · unfold fill_seeds
    rw [h1, Run.ok_bind]
    dsimp only at h2 ⊢
    rw [h2]; rfl
  · obtain ⟨a, b, c, d⟩ := h4 q hq
    exact ⟨a, b, by omega, d⟩

/-! ### One round -/

/-- Popping a pixel of another colour. -/
theorem fill_step_skip {φ : Type} (update : φ → Row → Run φ) {s : S} (hv : Valid s) {x y : Nat} (hx : x < width s)
    (hy : y < height s) {frm dst : Byte} (hc : view s x y ≠ frm) (queue : List Pos) (f : φ) :
    fill_step update (width s) frm dst (s, (x, y) :: queue, f) = .ok (s, queue, f) := by
  unfold fill_step
  dsimp only
  rw [get_ok hv hx hy, Run.ok_bind, if_pos (by simp [hc])]
  rfl

/-- Popping a pixel of the region. -/
theorem fill_step_paint {s : S} (hv : Valid s) {x y : Nat} (hx : x < width s)
    (hy : y < height s) {frm dst : Byte} (hne : frm ≠ dst) (hc : view s x y = frm) (queue : List Pos) :
    ∃ left right seeds s', (∀ (φ : Type) (update : φ → Row → Run φ) (f : φ),
        fill_step update (width s) frm dst (s, (x, y) :: queue, f) =
          (update f { left := left, right := right, y := y } >>= fun f' => .ok (s', seeds ++ queue, f'))) ∧
      Valid s' ∧ width s' = width s ∧ height s' = height s ∧ left ≤ x ∧ x ≤ right ∧ right < width s ∧
      (∀ x' y', x' < width s → y' < height s →
        view s' x' y' = if y' = y ∧ left ≤ x' ∧ x' ≤ right then dst else view s x' y') ∧
      (∀ i, left ≤ i → i ≤ right → view s i y = frm) ∧ (∀ i, i + 1 = left → view s i y ≠ frm) ∧
      (right + 1 < width s → view s (right + 1) y ≠ frm) ∧
      seeds.length ≤ 2 * (right + 1 - left) ∧
      (∀ q ∈ seeds, q.2 < height s ∧ view s q.1 q.2 = frm ∧ left ≤ q.1 ∧ q.1 ≤ right ∧ (q.2 + 1 = y ∨ y + 1 = q.2)) ∧
      ∀ v y', left ≤ v → v ≤ right → y' < height s → (y' + 1 = y ∨ y + 1 = y') → view s v y' = frm →
        ∃ u, (u, y') ∈ seeds ∧ u ≤ v ∧ left ≤ u ∧ ∀ i, u ≤ i → i ≤ v → view s i y' = frm := by
  obtain ⟨l, l1, l2, l3, l4⟩ := fill_left_ok hv hy frm x hx
  obtain ⟨r, r1, r2, r3, r4, r5⟩ := fill_right_ok hv hy frm (width s + 1) x hx (by omega)
  obtain ⟨s', p1, p2, p3, p4, p5⟩ := fill_span_ok hv hy (show l ≤ r by omega) r3 dst
  have hsame : ∀ i y', i < width s → y' < height s → y' ≠ y → view s' i y' = view s i y' := by
    intro i y' h1 h2 h3; rw [p5 i y' h1 h2, if_neg (by omega)]
  -- the two seeding loops
  have hup : ∃ seeds : List Pos, (if 0 < y then fill_seeds s' l r (y - 1) frm queue else pure queue) = .ok (seeds ++ queue) ∧
      seeds.length ≤ r + 1 - l ∧ (∀ q ∈ seeds, q.2 + 1 = y ∧ l ≤ q.1 ∧ q.1 ≤ r ∧ view s q.1 q.2 = frm) ∧
      ∀ v y', y' + 1 = y → l ≤ v → v ≤ r → view s v y' = frm →
        ∃ u, (u, y') ∈ seeds ∧ u ≤ v ∧ ∀ i, u ≤ i → i ≤ v → view s i y' = frm := by
    by_cases h : 0 < y
    · obtain ⟨seeds, a1, a2, a3, a4⟩ := fill_seeds_ok (s := s') p2 (y := y - 1) (left := l) (right := r) (by omega)
        (by omega) (by omega) frm queue
      refine ⟨seeds, by rw [if_pos h, a1], a2, ?_, ?_⟩
      · intro q hq
        obtain ⟨b1, b2, b3, b4⟩ := a3 q hq
        refine ⟨by omega, b2, b3, ?_⟩
        rw [b1, ← hsame q.1 (y - 1) (by omega) (by omega) (by omega)]
        exact b4
      · intro v y' hy' v1 v2 v3
        obtain rfl : y' = y - 1 := by omega
        obtain ⟨u, u1, u2, u3⟩ := a4 v v1 v2 (by rw [hsame v _ (by omega) (by omega) (by omega)]; exact v3)
        refine ⟨u, u1, u2, ?_⟩
        intro i i1 i2
        rw [← hsame i _ (by omega) (by omega) (by omega)]
        exact u3 i i1 i2
    · exact ⟨[], by rw [if_neg h]; rfl, by simp, by simp, by omega⟩
  obtain ⟨up, u1, u2, u3, u4⟩ := hup
  have hdown : ∃ seeds : List Pos,
      (if y < height s - 1 then fill_seeds s' l r (y + 1) frm (up ++ queue) else pure (up ++ queue)) = .ok (seeds ++ (up ++ queue)) ∧
      seeds.length ≤ r + 1 - l ∧
      (∀ q ∈ seeds, q.2 = y + 1 ∧ q.2 < height s ∧ l ≤ q.1 ∧ q.1 ≤ r ∧ view s q.1 q.2 = frm) ∧
      ∀ v y', y + 1 = y' → y' < height s → l ≤ v → v ≤ r → view s v y' = frm →
        ∃ u, (u, y') ∈ seeds ∧ u ≤ v ∧ ∀ i, u ≤ i → i ≤ v → view s i y' = frm := by
    by_cases h : y < height s - 1
    · obtain ⟨seeds, a1, a2, a3, a4⟩ := fill_seeds_ok (s := s') p2 (y := y + 1) (left := l) (right := r) (by omega)
        (by omega) (by omega) frm (up ++ queue)
      refine ⟨seeds, by rw [if_pos h, a1], a2, ?_, ?_⟩
      · intro q hq
        obtain ⟨b1, b2, b3, b4⟩ := a3 q hq
        refine ⟨b1, by omega, b2, b3, ?_⟩
        rw [b1, ← hsame q.1 (y + 1) (by omega) (by omega) (by omega)]
        exact b4
      · rintro v y' rfl hh v1 v2 v3
        obtain ⟨u, u1, u2, u3⟩ := a4 v v1 v2 (by rw [hsame v _ (by omega) (by omega) (by omega)]; exact v3)
        refine ⟨u, u1, u2, ?_⟩
        intro i i1 i2
        rw [← hsame i _ (by omega) (by omega) (by omega)]
        exact u3 i i1 i2
    · exact ⟨[], by rw [if_neg h]; rfl, by simp, by simp, by omega⟩
  obtain ⟨dn, d1, d2, d3, d4⟩ := hdown
  refine ⟨l, r, dn ++ up, s', ?_, p2, p3, p4, l2, r2, r3, p5, ?_, l4, r5, ?_, ?_, ?_⟩
  · intro φ update f
    unfold fill_step
    dsimp only
    rw [get_ok hv hx hy, Run.ok_bind, if_neg (by simp [hc, hne]), l1, Run.ok_bind, subU_ok (by omega), Run.ok_bind, r1,
      Run.ok_bind, p1, Run.ok_bind]
    congr 1
    funext f'
    rw [u1, Run.ok_bind, subU_ok (by omega), Run.ok_bind, p4, d1, Run.ok_bind, List.append_assoc]
    rfl
  · intro i i1 i2
    rcases Nat.lt_trichotomy i x with h | h | h
    · exact l3 i i1 h
    · rw [h]; exact hc
    · exact r4 i h i2
  · rw [List.length_append]; omega
  · intro q hq
    rcases List.mem_append.1 hq with hq | hq
    · obtain ⟨a, b, c, d, e⟩ := d3 q hq
      exact ⟨b, e, c, d, .inr a.symm⟩
    · obtain ⟨a, b, c, d⟩ := u3 q hq
      exact ⟨by omega, d, b, c, .inl a⟩
  · intro v y' v1 v2 hy' hadj hvv
    rcases hadj with h | h
    · obtain ⟨u, a, b, c⟩ := u4 v y' h v1 v2 hvv
      exact ⟨u, List.mem_append_right _ a, b, (u3 _ a).2.1, c⟩
    · obtain ⟨u, a, b, c⟩ := d4 v y' h hy' v1 v2 hvv
      exact ⟨u, List.mem_append_left _ a, b, (d3 _ a).2.2.1, c⟩

end Rqrr
