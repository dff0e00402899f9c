import Verif.Proofs.Finder
import Verif.Proofs.Halting

/-!
# Searching an image that has been searched before
-/

namespace Rqrr

open ImageBuffer LawfulImage Spec

variable {S : Type} [ImageBuffer S] [LawfulImage S] {F : Type} [FloatOps F]

/-- Every finder pattern has its ring or its stone claimed. -/
def Exhausted (img0 : PreparedImage S) (claims : Pos → Option Claim) : Prop :=
  ∀ y x pos, FinderShape img0 y x pos → RingAndStone img0 y pos → claims (pos.right, y) ≠ none ∨ claims (pos.stone, y) ≠ none

theorem Exhausted.keeps {img0 : PreparedImage S} {claims claims' : Pos → Option Claim} (h : Exhausted img0 claims)
    (hk : Keeps claims claims') : Exhausted img0 claims' := fun y x pos h1 h2 => (h y x pos h1 h2).imp (hk _) (hk _)

variable {img0 img : PreparedImage S} {claims : Pos → Option Claim} {stones : List (CapStone F)}

theorem try_nothing (h0 : Fresh img0) (hw : width img0.buffer ≤ 32768) (hh : height img0.buffer ≤ 32768) (hE : Exhausted img0 claims)
    (h : History img0 claims img) {o : Option LinePosition} {x y : Nat} (ho : ∀ pos, o = some pos ↔ FinderShape img0 y x pos) :
    ∃ img', try_capstone F o y (img, stones) = .ok (img', stones) ∧ (o = none → img' = img) ∧ History img0 claims img' := by
  cases o with
  | none => exact ⟨img, rfl, fun _ => rfl, h⟩
  | some pos =>
    have hshape := (ho pos).1 rfl
    obtain ⟨bl, bs, br⟩ := finder_black hshape
    have hsz : width img0.buffer * height img0.buffer * 100 < 2 ^ 64 := by
      have := Nat.mul_le_mul hw hh
      omega
    obtain ⟨b, img1, e1, H1, hb⟩ := is_capstone_ok h0 h hsz bl bs br
    unfold try_capstone
    simp only [e1, Run.ok_bind]
    cases b with
    | false => exact ⟨img1, by rw [if_pos (by rfl)]; rfl, by simp, H1⟩
    | true =>
      obtain ⟨n1, n2, hring⟩ := hb.1 rfl
      rcases hE y x pos hshape hring with n | n
      · exact absurd n1 n
      · exact absurd n2 n

theorem scan_pixel_nothing (h0 : Fresh img0) (hw : width img0.buffer ≤ 32768) (hh : height img0.buffer ≤ 32768) (hE : Exhausted img0 claims)
    (h : History img0 claims img) {x y : Nat} (hx : 1 ≤ x) (hx' : x < width img0.buffer)
    (hy : y < height img0.buffer) {s : LineScanner} (hs : InRow img0 img y x s) :
    ∃ s' img', scan_pixel F y x (s, img, stones) = .ok (s', img', stones) ∧ InRow img0 img' y (x + 1) s' ∧ History img0 claims img' := by
  obtain ⟨b, n, t, hs1, hs2, hs3, hs4⟩ := hs
  obtain ⟨hI, hw', hh'⟩ := history_inv h0 h
  have hcw := row_white h0 h hx' hy
  have hcol : s.last_color = PixelColor.ofByte (view img.buffer x y) ↔ b = rowOf img0 y x := by
    cases hb : b with
    | false =>
      rw [hs3.2 hb]
      constructor
      · intro e; rw [hcw.1 e.symm]
      · intro e; rw [hcw.2 e.symm]
    | true =>
      constructor
      · intro e
        cases hr : rowOf img0 y x with
        | true => rfl
        | false =>
          have := hs3.1 (e.trans (hcw.2 hr))
          rw [hb] at this
          cases this
      · intro e
        rw [hs4 hb]
        have b1 : IsBlack img0 (x - 1, y) := by
          rw [hs2] at hb
          exact rowOf_true.1 hb
        have b2 : IsBlack img0 (x, y) := rowOf_true.1 e.symm
        have := hI.ok.painted.const (x - 1, y) (x, y) b1 b2 (by unfold Adj; dsimp only; omega)
        dsimp only at this
        rw [this]
  obtain ⟨o, s', b', n', t', e1, l1, hs', hb', ho⟩ := advance_ok hs1 hcol
  obtain ⟨img', e2, k1, k2⟩ := try_nothing (stones := stones) h0 hw hh hE h (o := o) (x := x) (y := y) (by
    intro pos
    rw [ho pos]
    exact shape_iff hx (by rw [← hs2]; exact hs3) hcw pos)
  refine ⟨s', img', ?_, ⟨b', n', t', hs', hb', ?_, ?_⟩, k2⟩
  · unfold scan_pixel
    simp only [pixel_ok hI.ok.painted.valid (by rw [hw']; exact hx') (by rw [hh']; exact hy), e1, e2, Run.ok_bind]
    rfl
  · rw [l1, hb']; exact hcw
  · intro hb
    have : o = none := by
      cases o with
      | none => rfl
      | some pos =>
        have := hcw.1 ((ho pos).1 rfl).1
        rw [hb', this] at hb
        cases hb
    rw [k1 this, l1]
    rfl

theorem scan_row_nothing (h0 : Fresh img0) (hw : width img0.buffer ≤ 32768) (hh : height img0.buffer ≤ 32768) (hE : Exhausted img0 claims)
    (h : History img0 claims img) (hpos : 0 < width img0.buffer) {y : Nat} (hy : y < height img0.buffer) :
    ∃ img', scan_row F y (img, stones) = .ok (img', stones) ∧ History img0 claims img' := by
  obtain ⟨hI, hw', hh'⟩ := history_inv h0 h
  unfold scan_row
  have hcw := row_white h0 h hpos hy
  obtain ⟨st, e, i1, i2, i3⟩ := forRange_ok (f := fun x st => scan_pixel F y x st)
    (s := (LineScanner.new (.ofByte (view img.buffer 0 y)), img, stones)) (lo := 1) (hi := width img.buffer)
    (fun x st => InRow img0 st.2.1 y x st.1 ∧ History img0 claims st.2.1 ∧ st.2.2 = stones) (by omega)
    ⟨⟨_, _, _, scanned_new (rowOf img0 y) _, rfl, hcw, fun _ => rfl⟩, h, rfl⟩
    (by
      rintro x ⟨s, img1, stones1⟩ hx1 hx2 ⟨i1, i2, i3⟩
      dsimp only at i1 i2 i3
      obtain ⟨s', img2, e, j1, j2⟩ := scan_pixel_nothing (stones := stones1) h0 hw hh hE i2 hx1 (by rw [← hw']; exact hx2) hy i1
      exact ⟨(s', img2, stones1), e, j1, j2, i3⟩)
  obtain ⟨s, img1, stones1⟩ := st
  dsimp only at i1 i2 i3
  subst i3
  rw [hw'] at i1
  obtain ⟨b, n, t, hs1, hs2, hs3, hs4⟩ := i1
  have hend : rowOf img0 y (width img0.buffer) = false := by
    unfold rowOf
    rw [decide_eq_false_iff_not]
    intro hb
    exact absurd hb.1 (lt_irrefl _)
  obtain ⟨o, s', b', n', t', e1, l1, hs', hb', ho⟩ := advance_ok hs1 (c := .White) (by rw [hend]; exact hs3)
  obtain ⟨img2, e2, -, k2⟩ := try_nothing (stones := stones1) h0 hw hh hE i2 (o := o) (x := width img0.buffer) (y := y) (by
    intro pos
    rw [ho pos]
    exact shape_iff hpos (by rw [← hs2]; exact hs3) ⟨fun _ => hend, fun _ => rfl⟩ pos)
  refine ⟨img2, ?_, k2⟩
  simp only [pixel_ok hI.ok.painted.valid (by rw [hw']; exact hpos) (by rw [hh']; exact hy), Run.ok_bind]
  rw [e, Run.ok_bind]
  simp only [e1, Run.ok_bind]
  exact e2

/-- The search for capstones in an image whose finder patterns are all claimed. -/
theorem capstones_nothing (F : Type) [FloatOps F] (h0 : Fresh img0) (hw : width img0.buffer ≤ 32768) (hh : height img0.buffer ≤ 32768)
    (hpos : 0 < width img0.buffer) (hE : Exhausted img0 claims) (h : History img0 claims img) :
    ∃ img', capstones_from_image F img = .ok (img', []) ∧ History img0 claims img' := by
  obtain ⟨hI, hw', hh'⟩ := history_inv h0 h
  unfold capstones_from_image
  obtain ⟨⟨img', stones⟩, e, k1, k2⟩ := forRange_ok (f := fun y st => scan_row F y st) (s := (img, ([] : List (CapStone F))))
    (lo := 0) (hi := height img.buffer)
    (fun y st => History img0 claims st.1 ∧ st.2 = []) (Nat.zero_le _) ⟨h, rfl⟩
    (by
      rintro y ⟨img1, stones⟩ - hy ⟨i1, i2⟩
      dsimp only at i1 i2
      obtain ⟨img2, e, i⟩ := scan_row_nothing (stones := stones) h0 hw hh hE i1 hpos (by rw [← hh']; exact hy)
      exact ⟨(img2, stones), e, i, i2⟩)
  dsimp only at k1 k2
  subst k2
  exact ⟨img', e, k1⟩

/-- The whole detection in such an image. -/
theorem detect_nothing (F : Type) [FloatOps F] (h0 : Fresh img0) (hw : width img0.buffer ≤ 32768) (hh : height img0.buffer ≤ 32768)
    (hpos : 0 < width img0.buffer) (hE : Exhausted img0 claims) (h : History img0 claims img) :
    ∃ img', img.detect_grids F = .ok (img', []) ∧ History img0 claims img' := by
  obtain ⟨img', e, h'⟩ := capstones_nothing F h0 hw hh hpos hE h
  refine ⟨img', ?_, h'⟩
  unfold PreparedImage.detect_grids
  rw [e]
  rfl

end Rqrr
