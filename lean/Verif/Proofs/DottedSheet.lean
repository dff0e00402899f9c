import Verif.Proofs.Dotted

/-!
# Bitmaps of symbols drawn with dots
-/

namespace Rqrr

open Spec ImageBuffer

variable {P : Placement} {n : Nat} {M : Nat → Nat → Bool}

/-- The pixels of a drawing with dots. -/
theorem Spec.Placement.dots_iff (hP : IsAxis P.right) {x y : Nat} : P.dots n M x y = true ↔
    ∃ i j : Nat, i < n * P.scale ∧ j < n * P.scale ∧ P.pixel i j = ⟨x, y⟩ ∧ M (j / P.scale) (i / P.scale) = true ∧
      (Essential n (i / P.scale) (j / P.scale) ∨ ¬ AtEdge P.scale i ∧ ¬ AtEdge P.scale j) := by
  unfold dots
  dsimp only
  rw [Bool.and_eq_true, decide_eq_true_iff, dark_iff hP]
  have key : ∀ i j : Nat, P.pixel i j = ⟨x, y⟩ → ((x : Int) - P.corner.x) * P.right.x + (y - P.corner.y) * P.right.y = i ∧
      ((y : Int) - P.corner.y) * P.right.x - (x - P.corner.x) * P.right.y = j := by
    intro i j hp
    unfold pixel at hp
    rw [Point.mk.injEq] at hp
    rw [← hp.1, ← hp.2]
    rcases hP with h | h | h | h <;> rw [h] <;> dsimp only <;> constructor <;> ring
  constructor
  · rintro ⟨⟨i, j, hi, hj, hp, hm⟩, h⟩
    obtain ⟨e1, e2⟩ := key i j hp
    rw [e1, e2, Int.toNat_natCast, Int.toNat_natCast] at h
    exact ⟨i, j, hi, hj, hp, hm, h⟩
  · rintro ⟨i, j, hi, hj, hp, hm, h⟩
    obtain ⟨e1, e2⟩ := key i j hp
    rw [e1, e2, Int.toNat_natCast, Int.toNat_natCast]
    exact ⟨⟨i, j, hi, hj, hp, hm⟩, h⟩

theorem edge_between {s i i' i'' : Nat} (hs : 0 < s) (h1 : i ≤ i') (h2 : i' ≤ i'') (he : i / s = i'' / s) (a : ¬ AtEdge s i) (b : ¬ AtEdge s i'') :
    i' / s = i / s ∧ ¬ AtEdge s i' := by
  have hq : i' / s = i / s := le_antisymm (he ▸ Nat.div_le_div_right h2) (Nat.div_le_div_right h1)
  refine ⟨hq, ?_⟩
  have d1 := Nat.div_add_mod i s
  have d2 := Nat.div_add_mod i' s
  have d3 := Nat.div_add_mod i'' s
  rw [hq] at d2
  rw [← he] at d3
  unfold AtEdge at a b ⊢
  have := Nat.mod_lt i'' hs
  omega

theorem pixel_unique (hP : IsAxis P.right) {i j i' j' : Nat} {p : Point} (h : P.pixel i j = p) (h' : P.pixel i' j' = p) : i = i' ∧ j = j' := by
  have e := h.trans h'.symm
  unfold Placement.pixel at e
  rw [Point.mk.injEq] at e
  rcases hP with h | h | h | h <;> rw [h] at e <;> dsimp only at e <;> omega

/-- A row of the image follows a row or a column of the drawing. -/
theorem pixel_between (hP : IsAxis P.right) {i j i'' j'' x x' x'' y : Nat} (h : P.pixel i j = ⟨x, y⟩) (h' : P.pixel i'' j'' = ⟨x'', y⟩)
    (h1 : x ≤ x') (h2 : x' ≤ x'') : ∃ i' j' : Nat, P.pixel i' j' = ⟨x', y⟩ ∧
      ((j' = j ∧ j = j'' ∧ (i ≤ i' ∧ i' ≤ i'' ∨ i'' ≤ i' ∧ i' ≤ i)) ∨ (i' = i ∧ i = i'' ∧ (j ≤ j' ∧ j' ≤ j'' ∨ j'' ≤ j' ∧ j' ≤ j))) := by
  unfold Placement.pixel at h h' ⊢
  rw [Point.mk.injEq] at h h'
  simp only [Point.mk.injEq]
  rcases hP with e | e | e | e <;> rw [e] at h h' ⊢ <;> dsimp only at h h' ⊢
  · exact ⟨i + (x' - x), j, by omega, by omega⟩
  · exact ⟨i, j - (x' - x), by omega, by omega⟩
  · exact ⟨i - (x' - x), j, by omega, by omega⟩
  · exact ⟨i, j + (x' - x), by omega, by omega⟩

theorem middle_inner {s i : Nat} (hs : 4 ≤ s) (h : Middle s i) : ¬ AtEdge s i := by
  unfold Middle at h
  unfold AtEdge
  omega

/-- A bitmap of drawings with dots that do not touch: each of them is drawn in the image, and there is nothing else. -/
theorem dots_bitmap {w h : Nat} {syms : List Symbol} (hfits : ∀ A ∈ syms, A.place.Fits w h (side A.version)) (hscale : ∀ A ∈ syms, 4 ≤ A.place.scale)
    (hclear : syms.Pairwise Symbol.Clear) {img : PreparedImage BasicImageBuffer} (hw : width img.buffer = w) (hh : height img.buffer = h)
    (hv : ∀ x y, x < w → y < h → (LawfulImage.view img.buffer x y = 1 ↔ dotSheet syms x y = true)) :
    (∀ A ∈ syms, Dotted img (side A.version) A.modules A.place) ∧ ∀ p, IsBlack img p → ∃ A ∈ syms, A.Covers p := by
  have black : ∀ p, IsBlack img p ↔ ∃ A ∈ syms, ∃ i j : Nat, i < side A.version * A.place.scale ∧ j < side A.version * A.place.scale ∧
      A.place.pixel i j = ⟨p.1, p.2⟩ ∧ A.modules (j / A.place.scale) (i / A.place.scale) = true ∧
      (Essential (side A.version) (i / A.place.scale) (j / A.place.scale) ∨ ¬ AtEdge A.place.scale i ∧ ¬ AtEdge A.place.scale j) := by
    rintro ⟨x, y⟩
    have e : dotSheet syms x y = true ↔ ∃ A ∈ syms, ∃ i j : Nat, i < side A.version * A.place.scale ∧ j < side A.version * A.place.scale ∧
      A.place.pixel i j = ⟨x, y⟩ ∧ A.modules (j / A.place.scale) (i / A.place.scale) = true ∧
      (Essential (side A.version) (i / A.place.scale) (j / A.place.scale) ∨ ¬ AtEdge A.place.scale i ∧ ¬ AtEdge A.place.scale j) := by
      unfold dotSheet
      rw [List.any_eq_true]
      exact exists_congr fun A => and_congr_right fun hm => Placement.dots_iff (hfits A hm).axis
    rw [← e]
    unfold IsBlack HasColor
    dsimp only
    rw [hw, hh]
    constructor
    · rintro ⟨h1, h2, h3⟩
      exact (hv x y h1 h2).1 h3
    · intro hd
      have hxy : x < w ∧ y < h := by
        obtain ⟨A, hm, i, j, hi, hj, hp, -⟩ := e.1 hd
        have := (hfits A hm).inside hi hj
        rw [hp] at this
        dsimp only at this
        omega
      exact ⟨hxy.1, hxy.2, (hv x y hxy.1 hxy.2).2 hd⟩
  have clear : ∀ A ∈ syms, ∀ B ∈ syms, A ≠ B → A.Clear B := by
    intro A ha B hb hne
    have : Std.Symm Symbol.Clear := ⟨fun _ _ h => h.symm⟩
    exact hclear.forall ha hb hne
  -- a black pixel near a drawing is in the drawing
  have near : ∀ A ∈ syms, ∀ p q : Pos, A.Covers p → p.1 ≤ q.1 + 1 → q.1 ≤ p.1 + 1 → p.2 ≤ q.2 + 1 → q.2 ≤ p.2 + 1 → ¬ A.Covers q →
      ¬ IsBlack img q := by
    intro A ha p q hp c1 c2 c3 c4 hq hb
    obtain ⟨B, hbm, i, j, hi, hj, hpx, -⟩ := (black q).1 hb
    have hB : B.Covers q := ⟨i, j, hi, hj, hpx⟩
    by_cases hne : A = B
    · subst hne; exact hq hB
    · exact clear A ha B hbm hne p q hp hB ⟨c1, c2, c3, c4⟩
  have own : ∀ A ∈ syms, ∀ (p : Pos) (i j : Nat), i < side A.version * A.place.scale → j < side A.version * A.place.scale →
      A.place.pixel i j = ⟨p.1, p.2⟩ → (IsBlack img p ↔ A.modules (j / A.place.scale) (i / A.place.scale) = true ∧
        (Essential (side A.version) (i / A.place.scale) (j / A.place.scale) ∨ ¬ AtEdge A.place.scale i ∧ ¬ AtEdge A.place.scale j)) := by
    intro A ha p i j hi hj hp
    rw [black]
    constructor
    · rintro ⟨B, hb, i', j', hi', hj', hp', hm⟩
      have : A = B := by
        by_contra hne
        exact clear A ha B hb hne p p ⟨i, j, hi, hj, hp⟩ ⟨i', j', hi', hj', hp'⟩ (by omega)
      subst this
      obtain ⟨e1, e2⟩ := pixel_unique (hfits A ha).axis hp hp'
      rw [e1, e2]
      exact hm
    · intro hm
      exact ⟨A, ha, i, j, hi, hj, hp, hm⟩
  refine ⟨fun A ha => ⟨⟨(hfits A ha).axis, (hfits A ha).scale, ?_, ?_, ?_⟩, hscale A ha, ?_, ?_, ?_⟩, fun p hb => ?_⟩
  · intro i j hi hj
    rw [hw, hh]
    exact (hfits A ha).inside hi hj
  · intro p i j hi hj hm hp
    rw [own A ha p i j hi hj hp]
    refine ⟨And.left, fun h => ⟨h, hm.imp id fun h => ⟨middle_inner (hscale A ha) h.1, middle_inner (hscale A ha) h.2⟩⟩⟩
  · intro p q hp c1 c2 c3 c4 hq
    refine near A ha p q ?_ c1 c2 c3 c4 hq
    obtain ⟨a, b, hab, i, j, h1, h2, h3, h4, h5⟩ := hp
    have hside : 7 ≤ side A.version := by unfold side; omega
    have ha7 : a + 7 ≤ side A.version := by unfold FinderPlace at hab; omega
    have hb7 : b + 7 ≤ side A.version := by unfold FinderPlace at hab; omega
    exact ⟨i, j, lt_of_lt_of_le h2 (Nat.mul_le_mul_right _ ha7), lt_of_lt_of_le h4 (Nat.mul_le_mul_right _ hb7), h5⟩
  · intro p i j hi hj hE hedge hp hb
    have := ((own A ha p i j hi hj hp).1 hb).2
    tauto
  · intro x x' x'' y i j i'' j'' hi hj hE hp hp'' ei ej h1 h2 hb hb''
    have hs : 0 < A.place.scale := by have := hscale A ha; omega
    have hi'' : i'' < side A.version * A.place.scale := (Nat.div_lt_iff_lt_mul hs).1 (ei ▸ (Nat.div_lt_iff_lt_mul hs).2 hi)
    have hj'' : j'' < side A.version * A.place.scale := (Nat.div_lt_iff_lt_mul hs).1 (ej ▸ (Nat.div_lt_iff_lt_mul hs).2 hj)
    obtain ⟨m1, o1⟩ := (own A ha (x, y) i j hi hj hp).1 hb
    obtain ⟨m2, o2⟩ := (own A ha (x'', y) i'' j'' hi'' hj'' hp'').1 hb''
    obtain ⟨a1, a2⟩ := o1.resolve_left hE
    obtain ⟨b1, b2⟩ := o2.resolve_left (by rw [← ei, ← ej]; exact hE)
    obtain ⟨i', j', hp', hcase⟩ := pixel_between (hfits A ha).axis hp hp'' h1 h2
    have key : i' / A.place.scale = i / A.place.scale ∧ j' / A.place.scale = j / A.place.scale ∧ ¬ AtEdge A.place.scale i' ∧
        ¬ AtEdge A.place.scale j' := by
      rcases hcase with ⟨e1, -, ⟨k1, k2⟩ | ⟨k1, k2⟩⟩ | ⟨e1, -, ⟨k1, k2⟩ | ⟨k1, k2⟩⟩
      · have := edge_between hs k1 k2 ei a1 b1
        subst e1
        exact ⟨this.1, rfl, this.2, a2⟩
      · have := edge_between hs k1 k2 ei.symm b1 a1
        subst e1
        exact ⟨this.1.trans ei.symm, rfl, this.2, a2⟩
      · have := edge_between hs k1 k2 ej a2 b2
        subst e1
        exact ⟨rfl, this.1, a1, this.2⟩
      · have := edge_between hs k1 k2 ej.symm b2 a2
        subst e1
        exact ⟨rfl, this.1.trans ej.symm, a1, this.2⟩
    obtain ⟨q1, q2, q3, q4⟩ := key
    refine (own A ha (x', y) i' j' ((Nat.div_lt_iff_lt_mul hs).1 (q1 ▸ (Nat.div_lt_iff_lt_mul hs).2 hi))
      ((Nat.div_lt_iff_lt_mul hs).1 (q2 ▸ (Nat.div_lt_iff_lt_mul hs).2 hj)) hp').2 ⟨?_, .inr ⟨q3, q4⟩⟩
    rw [q1, q2]
    exact m1
  · intro p q hp hadj hq
    unfold Adj at hadj
    exact near A ha p q hp (by omega) (by omega) (by omega) (by omega) hq
  · obtain ⟨A, ha, i, j, hi, hj, hp, -⟩ := (black p).1 hb
    exact ⟨A, ha, i, j, hi, hj, hp⟩

/-- Symbols drawn with dots, and nothing else in the image: there are no conditions on the matrices but the patterns. -/
theorem dotted_only {S : Type} [ImageBuffer S] [LawfulImage S] {img : PreparedImage S} {syms : List Symbol} (h1 : ∀ A ∈ syms, 1 ≤ A.version)
    (hv : ∀ A ∈ syms, A.version ≤ 40) (hM : ∀ A ∈ syms, Patterned A.version A.modules)
    (hD : ∀ A ∈ syms, Dotted img (side A.version) A.modules A.place) (hcov : ∀ p, IsBlack img p → ∃ A ∈ syms, A.Covers p) (y x : Nat)
    (pos : LinePosition) (hf : FinderShape img y x pos) (hr : RingAndStone img y pos) :
    ∃ A ∈ syms, InFinders (side A.version) A.place (pos.right, y) := by
  obtain ⟨A, ha, hA⟩ := hcov _ hr.joined.1
  exact ⟨A, ha, dotted_local (h1 A ha) (hv A ha) (hD A ha) (hM A ha) hf hr hA⟩

/-- A sheet of symbols drawn with dots. -/
theorem several_dots {w h : Nat} {syms : List Symbol} (hA : ArrangedDots w h syms) {img : PreparedImage BasicImageBuffer}
    (hw : width img.buffer = w) (hh : height img.buffer = h)
    (hv : ∀ x y, x < w → y < h → (LawfulImage.view img.buffer x y = 1 ↔ dotSheet syms x y = true)) : Several img syms := by
  obtain ⟨hD, hcov⟩ := dots_bitmap hA.fits hA.scale hA.clear hw hh hv
  exact ⟨fun A ha => ⟨hA.pos A ha, hA.le A ha, hA.ne A ha, (hD A ha).renders, hA.patterned A ha, hA.inRange A ha⟩,
    hA.clear.imp fun h p hp => h p p hp.1 hp.2 (by omega), dotted_only hA.pos hA.le hA.patterned hD hcov, hA.corners⟩

end Rqrr
