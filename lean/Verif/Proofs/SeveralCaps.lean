import Verif.Proofs.SeveralAxes

/-!
# The capstones of several drawings
-/

namespace Rqrr

open Spec ImageBuffer Spec.Placement Rounding

variable {F : Type} [FloatOps F] [Rounding F]

variable {S : Type} [ImageBuffer S] [LawfulImage S] {img0 img : PreparedImage S} {syms : List Symbol}

theorem Spec.Symbol.DrawnIn.scale {A : Symbol} (h : A.DrawnIn img0) : 2 ≤ A.place.scale ∧ A.place.scale ≤ 476 := by
  have hn : side A.version = 17 + 4 * A.version := rfl
  have h1 := h.pos
  have := renders_size h.renders (by omega)
  have h2 : 21 * A.place.scale ≤ side A.version * A.place.scale := Nat.mul_le_mul_right _ (by omega)
  exact ⟨h.renders.scale, by omega⟩

theorem finder_place_le {v a b : Nat} (h1 : 1 ≤ v) (h : FinderPlace (side v) a b) : a + 7 ≤ side v ∧ b + 7 ≤ side v := by
  have hn : side v = 17 + 4 * v := rfl
  rcases h with ⟨rfl, rfl⟩ | ⟨rfl, rfl⟩ | ⟨rfl, rfl⟩ <;> omega

/-- The doubled centre, by the corner of least coordinates. -/
theorem finder_twice {A : Symbol} (h : IsAxis A.place.right) (hs : 0 < A.place.scale) (a b : Nat) :
    A.finder a b = A.place.twice (a * A.place.scale) (b * A.place.scale) := by
  unfold Symbol.finder twice baseX baseY pixel
  generalize (a : Int) * A.place.scale = i
  generalize (b : Int) * A.place.scale = j
  dsimp only
  rw [Point.mk.injEq]
  rcases h with h | h | h | h <;> rw [h] <;> dsimp only <;> simp only [mul_one, mul_zero, mul_neg] <;> omega

/-- The square of a finder pattern lies in the drawing. -/
theorem finder_covers {A : Symbol} (h : A.DrawnIn img0) {a b : Nat} (hab : FinderPlace (side A.version) a b) {p : Pos}
    (h1 : A.place.baseX (a * A.place.scale) (b * A.place.scale) (7 * A.place.scale) ≤ p.1)
    (h2 : p.1 < A.place.baseX (a * A.place.scale) (b * A.place.scale) (7 * A.place.scale) + 7 * A.place.scale)
    (h3 : A.place.baseY (a * A.place.scale) (b * A.place.scale) (7 * A.place.scale) ≤ p.2)
    (h4 : p.2 < A.place.baseY (a * A.place.scale) (b * A.place.scale) (7 * A.place.scale) + 7 * A.place.scale) : A.Covers p := by
  obtain ⟨hs, -⟩ := h.scale
  obtain ⟨ha, hb⟩ := finder_place_le h.pos hab
  have ha' : a * A.place.scale + 7 * A.place.scale ≤ side A.version * A.place.scale := by rw [← Nat.add_mul]; exact Nat.mul_le_mul_right _ ha
  have hb' : b * A.place.scale + 7 * A.place.scale ≤ side A.version * A.place.scale := by rw [← Nat.add_mul]; exact Nat.mul_le_mul_right _ hb
  obtain ⟨i, j, e⟩ := exists_coords h.renders.axis (⟨p.1, p.2⟩ : Point)
  have := (mem_square h.renders.axis (i0 := a * A.place.scale) (j0 := b * A.place.scale) (k := 7 * A.place.scale) (i := i) (j := j) (by omega)).2
    (by rw [e]; exact ⟨h1, h2, h3, h4⟩)
  have ca : (a : Int) * A.place.scale = ((a * A.place.scale : Nat) : Int) := by push_cast; rfl
  have cb : (b : Int) * A.place.scale = ((b * A.place.scale : Nat) : Int) := by push_cast; rfl
  rw [ca, cb] at this
  refine ⟨i.toNat, j.toNat, by omega, by omega, ?_⟩
  rw [Int.toNat_of_nonneg (by omega), Int.toNat_of_nonneg (by omega), e]

instance : Std.Symm fun A B : Symbol => ∀ p, ¬ (A.Covers p ∧ B.Covers p) where
  symm _ _ h p := fun ⟨h1, h2⟩ => h p ⟨h2, h1⟩

theorem Spec.Several.disjoint (h : Several img0 syms) {A B : Symbol} (hA : A ∈ syms) (hB : B ∈ syms) (e : A ≠ B) (p : Pos) :
    ¬ (A.Covers p ∧ B.Covers p) := h.apart.forall hA hB e p

/-- Two finder patterns are apart: their squares do not overlap. -/
theorem finders_apart (h : Several img0 syms) {A B : Symbol} (hA : A ∈ syms) (hB : B ∈ syms) {a b a' b' : Nat}
    (hab : FinderPlace (side A.version) a b) (hab' : FinderPlace (side B.version) a' b') (hne : ¬ (A = B ∧ a = a' ∧ b = b')) :
    7 * (A.place.scale + B.place.scale : Int) ≤ |(A.finder a b).x - (B.finder a' b').x| ∨
    7 * (A.place.scale + B.place.scale : Int) ≤ |(A.finder a b).y - (B.finder a' b').y| := by
  have dA := h.drawn A hA
  have dB := h.drawn B hB
  obtain ⟨sA, -⟩ := dA.scale
  obtain ⟨sB, -⟩ := dB.scale
  rw [finder_twice dA.renders.axis (by omega), finder_twice dB.renders.axis (by omega)]
  by_cases e : A = B
  · subst e
    have hne' : a ≠ a' ∨ b ≠ b' := by
      by_contra hh
      exact hne ⟨rfl, by omega, by omega⟩
    have hn : side A.version = 17 + 4 * A.version := rfl
    have hv := dA.pos
    obtain ⟨K, hK⟩ : ∃ K, K = (side A.version - 7) * A.place.scale := ⟨_, rfl⟩
    have hK14 : 14 * A.place.scale ≤ K := by rw [hK]; exact Nat.mul_le_mul_right _ (by omega)
    have cK : (((side A.version - 7 : Nat) : Int) * A.place.scale) = (K : Int) := by rw [hK]; push_cast; rfl
    have val : ∀ {a b : Nat}, FinderPlace (side A.version) a b → ((a = 0 ∧ (a : Int) * A.place.scale = 0) ∨ (a = side A.version - 7 ∧ (a : Int) * A.place.scale = K)) ∧
        ((b = 0 ∧ (b : Int) * A.place.scale = 0) ∨ (b = side A.version - 7 ∧ (b : Int) * A.place.scale = K)) := by
      rintro a b (⟨rfl, rfl⟩ | ⟨rfl, rfl⟩ | ⟨rfl, rfl⟩)
      · exact ⟨.inl ⟨rfl, by simp⟩, .inl ⟨rfl, by simp⟩⟩
      · exact ⟨.inr ⟨rfl, cK⟩, .inl ⟨rfl, by simp⟩⟩
      · exact ⟨.inl ⟨rfl, by simp⟩, .inr ⟨rfl, cK⟩⟩
    obtain ⟨v1, v2⟩ := val hab
    obtain ⟨v3, v4⟩ := val hab'
    obtain ⟨gx, gy, hb, -⟩ := base_cases dA.renders.axis (7 * A.place.scale) (by omega)
    unfold twice
    rw [(hb _ _).1, (hb _ _).2, (hb _ _).1, (hb _ _).2]
    generalize (a : Int) * A.place.scale = i at *
    generalize (b : Int) * A.place.scale = j at *
    generalize (a' : Int) * A.place.scale = i' at *
    generalize (b' : Int) * A.place.scale = j' at *
    have far : 14 * (A.place.scale : Int) ≤ |i - i'| ∨ 14 * (A.place.scale : Int) ≤ |j - j'| := by
      rw [le_abs, le_abs]
      omega
    dsimp only [pixel]
    rw [le_abs, le_abs] at far ⊢
    rcases dA.renders.axis with h | h | h | h <;> rw [h] <;> dsimp only <;> simp only [mul_one, mul_zero, mul_neg] <;> omega
  · have disj := h.disjoint hA hB e
    obtain ⟨x1, y1, bx1, by1, -⟩ := finder_drawn dA.pos dA.renders dA.patterned hab
    obtain ⟨x2, y2, bx2, by2, -⟩ := finder_drawn dB.pos dB.renders dB.patterned hab'
    by_contra hcl
    rw [not_or, not_le, not_le, abs_lt, abs_lt] at hcl
    unfold twice at hcl
    rw [bx1, bx2, by1, by2] at hcl
    dsimp only at hcl
    refine disj (max x1 x2, max y1 y2) ⟨finder_covers dA hab ?_ ?_ ?_ ?_, finder_covers dB hab' ?_ ?_ ?_ ?_⟩ <;>
      first
      | rw [bx1]
      | rw [by1]
      | rw [bx2]
      | rw [by2]
    all_goals (dsimp only; omega)

/-- The capstone with this index is that of a finder pattern. -/
structure Labelled (syms : List Symbol) (caps : List (CapStone F)) (i : Nat) (A : Symbol) (a b : Nat) (c : CapStone F) : Prop where
  mem : A ∈ syms
  place : FinderPlace (side A.version) a b
  get : caps[i]? = some c
  framed : FramedCap A.place (a * A.place.scale) (b * A.place.scale) c

namespace Labelled

variable {caps : List (CapStone F)} {i j : Nat} {A B : Symbol} {a b a' b' : Nat} {c c' : CapStone F}

omit [Rounding F] in
/-- A capstone belongs to one finder pattern only. -/
theorem unique (h : Several img0 syms) (h1 : Labelled syms caps i A a b c) (h2 : Labelled syms caps i B a' b' c') :
    A = B ∧ a = a' ∧ b = b' := by
  by_contra hne
  have far := finders_apart h h1.mem h2.mem h1.place h2.place hne
  have dA := h.drawn A h1.mem
  have dB := h.drawn B h2.mem
  obtain ⟨sA, -⟩ := dA.scale
  obtain ⟨sB, -⟩ := dB.scale
  obtain rfl : c = c' := Option.some.inj (h1.get.symm.trans h2.get)
  have c1 := h1.framed.center_twice
  have c2 := h2.framed.center_twice
  rw [← finder_twice dA.renders.axis (by omega)] at c1
  rw [← finder_twice dB.renders.axis (by omega)] at c2
  rw [le_abs, le_abs] at far
  rw [abs_le, abs_le] at c1 c2
  omega

omit [Rounding F] in
/-- The centre is in the image. -/
theorem center_le (h : Several img0 syms) (h1 : Labelled syms caps i A a b c) : |c.center.x| ≤ 1000000 ∧ |c.center.y| ≤ 1000000 ∧
    (0 ≤ (A.finder a b).x ∧ (A.finder a b).x ≤ 20000) ∧ 0 ≤ (A.finder a b).y ∧ (A.finder a b).y ≤ 20000 := by
  have dA := h.drawn A h1.mem
  obtain ⟨sA, -⟩ := dA.scale
  have c1 := h1.framed.center_twice
  rw [← finder_twice dA.renders.axis (by omega)] at c1
  obtain ⟨ha, hb⟩ := finder_place_le dA.pos h1.place
  have ha' : a * A.place.scale + 7 * A.place.scale ≤ side A.version * A.place.scale := by rw [← Nat.add_mul]; exact Nat.mul_le_mul_right _ ha
  have hb' : b * A.place.scale + 7 * A.place.scale ≤ side A.version * A.place.scale := by rw [← Nat.add_mul]; exact Nat.mul_le_mul_right _ hb
  have i1 := dA.renders.inside (a * A.place.scale) (b * A.place.scale) (by omega) (by omega)
  have i2 := dA.renders.inside (a * A.place.scale + (7 * A.place.scale - 1)) (b * A.place.scale + (7 * A.place.scale - 1)) (by omega) (by omega)
  have e1 : ((a * A.place.scale + (7 * A.place.scale - 1) : Nat) : Int) = (a : Int) * A.place.scale + (7 * A.place.scale - 1) := by
    push_cast [Nat.cast_sub (show 1 ≤ 7 * A.place.scale by omega)]; ring
  have e2 : ((b * A.place.scale + (7 * A.place.scale - 1) : Nat) : Int) = (b : Int) * A.place.scale + (7 * A.place.scale - 1) := by
    push_cast [Nat.cast_sub (show 1 ≤ 7 * A.place.scale by omega)]; ring
  rw [e1, e2] at i2
  push_cast at i1
  have e3 : (A.finder a b).x = (A.place.pixel (a * A.place.scale) (b * A.place.scale)).x +
      (A.place.pixel (a * A.place.scale + (7 * A.place.scale - 1)) (b * A.place.scale + (7 * A.place.scale - 1))).x := rfl
  have e4 : (A.finder a b).y = (A.place.pixel (a * A.place.scale) (b * A.place.scale)).y +
      (A.place.pixel (a * A.place.scale + (7 * A.place.scale - 1)) (b * A.place.scale + (7 * A.place.scale - 1))).y := rfl
  rw [abs_le, abs_le] at c1
  rw [abs_le, abs_le]
  omega

end Labelled

/-- What the search for capstones gives. -/
structure AllCaps (syms : List Symbol) (caps : List (CapStone F)) : Prop where
  label : ∀ i c, caps[i]? = some c → ∃ A a b, Labelled syms caps i A a b c
  index : ∀ A ∈ syms, ∀ a b, FinderPlace (side A.version) a b → ∃ i c, Labelled syms caps i A a b c
  inj : ∀ {i j A a b c c'}, Labelled syms caps i A a b c → Labelled syms caps j A a b c' → i = j

/-- The search finds the capstones of the finder patterns and no others. -/
theorem capstones_several (h0 : Fresh img0) (hw : width img0.buffer ≤ 32768) (hh : height img0.buffer ≤ 32768) (hpos : 0 < width img0.buffer)
    (h : Several img0 syms) : ∃ claims img caps, capstones_from_image F img0 = .ok (img, caps) ∧ History img0 claims img ∧ AllCaps syms caps ∧
      ∀ p, claims p ≠ none → ∀ x0 y0 k, (∀ q, InSquare x0 y0 k q → IsBlack img0 q) → ¬ ∀ q, Reach (IsBlack img0) p q ↔ InSquare x0 y0 k q := by
  obtain ⟨claims, img, caps, e, hist, ⟨places, hall, hpw⟩, hclaimed, hcomplete⟩ := C51_search (F := F) h0 hw hh hpos C51_centres
  have bound : ∀ {A : Symbol} {a b x0 y0 : Nat}, A ∈ syms → FinderPlace (side A.version) a b →
      A.place.baseX (a * A.place.scale) (b * A.place.scale) (7 * A.place.scale) = x0 →
      A.place.baseY (a * A.place.scale) (b * A.place.scale) (7 * A.place.scale) = y0 → x0 + 7 * A.place.scale ≤ 32768 ∧ y0 + 7 * A.place.scale ≤ 32768 := by
    intro A a b x0 y0 hA hab hx hy
    have dA := h.drawn A hA
    obtain ⟨sA, sA'⟩ := dA.scale
    obtain ⟨ha, hb⟩ := finder_place_le dA.pos hab
    have ha' : a * A.place.scale + 7 * A.place.scale ≤ side A.version * A.place.scale := by rw [← Nat.add_mul]; exact Nat.mul_le_mul_right _ ha
    have hb' : b * A.place.scale + 7 * A.place.scale ≤ side A.version * A.place.scale := by rw [← Nat.add_mul]; exact Nat.mul_le_mul_right _ hb
    have := dA.renders.inside (a * A.place.scale) (b * A.place.scale) (by omega) (by omega)
    push_cast at this
    unfold baseX at hx
    unfold baseY at hy
    omega
  -- the frame in which a capstone was found
  have frame : ∀ i (k : Nat × LinePosition) (c : CapStone F), places[i]? = some k → caps[i]? = some c → ∀ A ∈ syms, ∀ a b, FinderPlace (side A.version) a b →
      ∀ x0 y0 : Nat, A.place.baseX (a * A.place.scale) (b * A.place.scale) (7 * A.place.scale) = x0 →
      A.place.baseY (a * A.place.scale) (b * A.place.scale) (7 * A.place.scale) = y0 → InSquare x0 y0 (7 * A.place.scale) (k.2.right, k.1) →
      InFrame x0 y0 A.place.scale (k.2.right, k.1) ∧ Labelled syms caps i A a b c := by
    intro i k c hk hc A hA a b hab x0 y0 hx hy hin
    have dA := h.drawn A hA
    obtain ⟨sA, -⟩ := dA.scale
    obtain ⟨x0', y0', hx', hy', D⟩ := finder_drawn dA.pos dA.renders dA.patterned hab
    obtain rfl : x0 = x0' := by have := hx.symm.trans hx'; exact_mod_cast this
    obtain rfl : y0 = y0' := by have := hy.symm.trans hy'; exact_mod_cast this
    have hat : CapstoneAt img0 k.1 k.2 c := by
      obtain ⟨l1, g1⟩ := List.getElem?_eq_some_iff.1 hk
      obtain ⟨l2, g2⟩ := List.getElem?_eq_some_iff.1 hc
      have := (List.Forall₂.get hall l1 l2).1
      simp only [List.get_eq_getElem] at this
      rwa [g1, g2] at this
    obtain ⟨x, hshape⟩ := hat.shape
    have hf := ring_in_frame D (by omega) hshape hat.ring hin
    obtain ⟨u1, u2⟩ := bound hA hab hx hy
    exact ⟨hf, hA, hab, hc, (DrawnCap.of_at D (by omega) hf hat).framed dA.renders.axis (by omega) hx hy u1 u2⟩
  have found : ∀ i c, caps[i]? = some c → ∃ k A a b, places[i]? = some k ∧ Labelled syms caps i A a b c ∧
      ∃ x0 y0 : Nat, A.place.baseX (a * A.place.scale) (b * A.place.scale) (7 * A.place.scale) = x0 ∧
        A.place.baseY (a * A.place.scale) (b * A.place.scale) (7 * A.place.scale) = y0 ∧ InFrame x0 y0 A.place.scale (k.2.right, k.1) := by
    intro i c hc
    have l2 := (List.getElem?_eq_some_iff.1 hc).1
    have l1 : i < places.length := by rw [hall.length_eq]; exact l2
    have hk : places[i]? = some places[i] := List.getElem?_eq_getElem l1
    have hat := (List.Forall₂.get hall l1 l2).1
    simp only [List.get_eq_getElem] at hat
    obtain ⟨x, hshape⟩ := hat.shape
    obtain ⟨A, hA, a, b, hab, i', j', i1, i2, j1, j2, hp⟩ := h.only _ _ _ hshape hat.ring
    have dA := h.drawn A hA
    obtain ⟨x0, y0, hx, hy, -⟩ := finder_drawn dA.pos dA.renders dA.patterned hab
    obtain ⟨f1, f2⟩ := frame i _ c hk hc A hA a b hab x0 y0 hx hy (square_place dA.renders.scale dA.renders.axis hx hy i1 i2 j1 j2 hp)
    exact ⟨_, A, a, b, hk, f2, x0, y0, hx, hy, f1⟩
  refine ⟨claims, img, caps, e, hist, ⟨fun i c hc => ?_, fun A hA a b hab => ?_, ?_⟩, ?_⟩
  · obtain ⟨k, A, a, b, -, h1, -⟩ := found i c hc
    exact ⟨A, a, b, h1⟩
  · have dA := h.drawn A hA
    obtain ⟨sA, -⟩ := dA.scale
    obtain ⟨x0, y0, hx, hy, D⟩ := finder_drawn dA.pos dA.renders dA.patterned hab
    obtain ⟨u1, u2⟩ := bound hA hab hx hy
    obtain ⟨c, m, d⟩ := drawn_found hclaimed hcomplete D (by omega) u1 u2
    obtain ⟨i, hi⟩ := cap_index m
    exact ⟨i, c, hA, hab, hi, d.framed dA.renders.axis (by omega) hx hy u1 u2⟩
  · intro i j A a b c c' h1 h2
    have dA := h.drawn A h1.mem
    obtain ⟨sA, -⟩ := dA.scale
    obtain ⟨k, A1, a1, b1, hk, g1, x1, y1, hx1, hy1, fr1⟩ := found i c h1.get
    obtain ⟨k', A2, a2, b2, hk', g2, x2, y2, hx2, hy2, fr2⟩ := found j c' h2.get
    obtain ⟨rfl, rfl, rfl⟩ := h1.unique h g1
    obtain ⟨rfl, rfl, rfl⟩ := h2.unique h g2
    obtain ⟨x0, y0, hx, hy, D⟩ := finder_drawn dA.pos dA.renders dA.patterned h1.place
    obtain rfl : x0 = x1 := by have := hx.symm.trans hx1; exact_mod_cast this
    obtain rfl : y0 = y1 := by have := hy.symm.trans hy1; exact_mod_cast this
    obtain rfl : x0 = x2 := by have := hx.symm.trans hx2; exact_mod_cast this
    obtain rfl : y0 = y2 := by have := hy.symm.trans hy2; exact_mod_cast this
    obtain ⟨l1, e1⟩ := List.getElem?_eq_some_iff.1 hk
    obtain ⟨l2, e2⟩ := List.getElem?_eq_some_iff.1 hk'
    rw [List.pairwise_iff_getElem] at hpw
    rcases Nat.lt_trichotomy i j with hlt | heq | hlt
    · have := hpw i j l1 l2 hlt
      rw [e1, e2] at this
      exact absurd ((D.frame_region (by omega) fr1 _).2 fr2) this
    · exact heq
    · have := hpw j i l2 l1 hlt
      rw [e1, e2] at this
      exact absurd ((D.frame_region (by omega) fr2 _).2 fr1) this
  · intro p hp x0 y0 k hin hreg
    obtain ⟨c, hc⟩ := Option.ne_none_iff_exists'.1 hp
    obtain ⟨-, y, x, pos, g1, g2, g3, -⟩ := hclaimed p c hc
    exact no_ring_in_square g1 g2 hin fun q hq => (hreg q).1 (g3.symm.trans hq)

end Rqrr
