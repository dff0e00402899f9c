import Verif.Proofs.Rects

/-!
# Finder patterns with modules of unequal sizes are found
-/

namespace Rqrr

open Spec ImageBuffer

variable {S : Type} [ImageBuffer S] [LawfulImage S]

/-- The places of the runs of a finder pattern. -/
def boxPos (f : Nat → Nat) : LinePosition := { left := f 0, stone := f 2, right := f 6 }

theorem box_shape {img : PreparedImage S} {f g : Nat → Nat} (h : BoxFinder (IsBlack img) f g) :
    FinderShape img (g 2) (f 7) (boxPos f) := by
  have hr := h.xs.bounds.ratio
  obtain ⟨f0, f1, f2, f5, f6, -, -, -, -, -, -⟩ := h.xs.bounds
  obtain ⟨g0, g1, g2, g5, g6, -, -, -, -, -, -⟩ := h.ys.bounds
  have row : ∀ {x : Nat}, f 0 ≤ x + 1 → x ≤ f 7 → (rowOf img (g 2) x = true ↔
      (f 0 ≤ x ∧ x < f 1) ∨ (f 2 ≤ x ∧ x < f 5) ∨ (f 6 ≤ x ∧ x < f 7)) := by
    intro x h1 h2
    rw [rowOf_true, h.black _ h1 h2 (by dsimp only; omega) (by dsimp only; omega)]
    unfold InRing InRect
    dsimp only
    omega
  have rowf : ∀ {x : Nat}, f 0 ≤ x + 1 → x ≤ f 7 → ¬ ((f 0 ≤ x ∧ x < f 1) ∨ (f 2 ≤ x ∧ x < f 5) ∨ (f 6 ≤ x ∧ x < f 7)) →
      rowOf img (g 2) x = false := by
    intro x h1 h2 h3
    rw [← row h1 h2, Bool.not_eq_true] at h3
    exact h3
  refine ⟨by omega, (row (by omega) (by omega)).2 (by omega), rowf (by omega) (by omega) (by omega), f 1, f 5, ?_, ?_, ?_, ?_, ?_, ?_⟩ <;>
    dsimp only [boxPos]
  · exact drawn_run true (by omega) (fun i h1 h2 => (row (by omega) (by omega)).2 (by omega)) fun h1 => rowf (by omega) (by omega) (by omega)
  · exact drawn_run false (by omega) (fun i h1 h2 => rowf (by omega) (by omega) (by omega)) fun h1 => (row (by omega) (by omega)).2 (by omega)
  · exact drawn_run true (by omega) (fun i h1 h2 => (row (by omega) (by omega)).2 (by omega)) fun h1 => rowf (by omega) (by omega) (by omega)
  · exact drawn_run false (by omega) (fun i h1 h2 => rowf (by omega) (by omega) (by omega)) fun h1 => (row (by omega) (by omega)).2 (by omega)
  · exact drawn_run true (by omega) (fun i h1 h2 => (row (by omega) (by omega)).2 (by omega)) fun h1 => rowf (by omega) (by omega) (by omega)
  · exact hr

theorem box_right {B : Pos → Prop} {f g : Nat → Nat} (h : BoxFinder B f g) : InRing f g (f 6, g 2) := by
  obtain ⟨f0, f1, f2, f5, f6, -, -, -, -, -, -⟩ := h.xs.bounds
  obtain ⟨g0, g1, g2, g5, g6, -, -, -, -, -, -⟩ := h.ys.bounds
  unfold InRing InRect; dsimp only; omega

theorem box_stone {B : Pos → Prop} {f g : Nat → Nat} (h : BoxFinder B f g) : InRect (f 2) (f 5) (g 2) (g 5) (f 2, g 2) := by
  obtain ⟨f0, f1, f2, f5, f6, -, -, -, -, -, -⟩ := h.xs.bounds
  obtain ⟨g0, g1, g2, g5, g6, -, -, -, -, -, -⟩ := h.ys.bounds
  unfold InRect; dsimp only; omega

theorem box_ring {img : PreparedImage S} {f g : Nat → Nat} (h : BoxFinder (IsBlack img) f g) : RingAndStone img (g 2) (boxPos f) := by
  have hR := h.ring_region (box_right h)
  have hS := h.stone_region (box_stone h)
  have a1 : area (IsBlack img) (f 6, g 2) = (f 7 - f 0) * (g 7 - g 0) - (f 6 - f 1) * (g 6 - g 1) := by
    unfold area
    rw [← ring_ncard h.xs.bounds h.ys.bounds]
    congr 1
    ext q
    exact hR q
  have a2 : area (IsBlack img) (f 2, g 2) = (f 5 - f 2) * (g 5 - g 2) := by
    unfold area
    rw [← rect_ncard]
    congr 1
    ext q
    exact hS q
  obtain ⟨p1, p2⟩ := h.xs.percentage h.ys
  obtain ⟨f0, f1, f2, f5, f6, -, -, -, -, -, -⟩ := h.xs.bounds
  obtain ⟨g0, g1, g2, g5, g6, -, -, -, -, -, -⟩ := h.ys.bounds
  constructor
  · exact (hR _).2 (by unfold InRing InRect boxPos; dsimp only; omega)
  · intro hh
    have := (hR _).1 hh
    unfold InRing InRect boxPos at this
    dsimp only at this
    omega
  · show 10 < area (IsBlack img) (f 2, g 2) * 100 / area (IsBlack img) (f 6, g 2)
    rw [a1, a2]; exact p1
  · show area (IsBlack img) (f 2, g 2) * 100 / area (IsBlack img) (f 6, g 2) < 70
    rw [a1, a2]; exact p2

/-- A region whose rows have no gaps is no ring of a finder pattern. -/
theorem no_ring_in_rect {img : PreparedImage S} {a b c d x y : Nat} {pos : LinePosition} (hs : FinderShape img y x pos)
    (hr : RingAndStone img y pos) (hin : ∀ p, InRect a b c d p → IsBlack img p)
    (h : ∀ q, Reach (IsBlack img) (pos.right, y) q → InRect a b c d q) : False := by
  have h1 := h _ hr.joined
  have h2 := h _ (Reach.trans hr.joined hr.joined.symm)
  obtain ⟨-, -, -, x1, x3, r1, r2, r3, r4, -, -⟩ := hs
  have a1 := r1.1
  have a2 := r2.1
  have a3 := r3.1
  have a4 := r4.1
  unfold InRect at h1 h2
  dsimp only at h1 h2
  have hb : ∀ i, pos.left ≤ i → i ≤ pos.right → rowOf img y i = true := by
    intro i i1 i2
    rw [rowOf_true]
    exact hin _ ⟨by dsimp only; omega, by dsimp only; omega, by dsimp only; omega, by dsimp only; omega⟩
  rcases r2.2.2 with e | e
  · omega
  · rw [hb _ (by omega) (by omega), hb _ (by omega) (by omega)] at e
    exact e rfl

theorem create_rect_exact {x0 y0 m l : Int} (hm : 0 < m) (hl : 0 < l) {k : Nat} (hk : k < 4) :
    Perspective.create (F := ℚ) (rotateLeft4 (rectCorners x0 y0 m l) k) (FloatOps.lit 7 0) (FloatOps.lit 7 0) ≠ none := by
  rw [lit70, Ne, C45_create _ _ _ (by norm_num) (by norm_num)]
  unfold rectCorners
  obtain ⟨e0, e1, e2, e3⟩ := rotate_get (⟨x0, y0⟩ : Point) ⟨x0 + m, y0⟩ ⟨x0 + m, y0 + l⟩ ⟨x0, y0 + l⟩
  have : k = 0 ∨ k = 1 ∨ k = 2 ∨ k = 3 := by omega
  rcases this with rfl | rfl | rfl | rfl
  · rw [e0]
    show ¬ ((x0 + m) - (x0 + m)) * ((y0 + l) - y0) - (x0 - (x0 + m)) * ((y0 + l) - y0) ≤ 0
    nlinarith
  · rw [e1]
    show ¬ (x0 - (x0 + m)) * (y0 - (y0 + l)) - (x0 - (x0 + m)) * ((y0 + l) - (y0 + l)) ≤ 0
    nlinarith
  · rw [e2]
    show ¬ (x0 - x0) * (y0 - (y0 + l)) - ((x0 + m) - x0) * (y0 - (y0 + l)) ≤ 0
    nlinarith
  · rw [e3]
    show ¬ ((x0 + m) - x0) * ((y0 + l) - y0) - ((x0 + m) - x0) * (y0 - y0) ≤ 0
    nlinarith

variable {F : Type} [FloatOps F]

theorem create_rect_ne_none [Rounding F] {x0 y0 m l : Int} (hm : 0 < m) (hl : 0 < l) {k : Nat} (hk : k < 4) (hx : 0 ≤ x0) (hy : 0 ≤ y0)
    (hx' : x0 + m ≤ 32767) (hy' : y0 + l ≤ 32767) :
    Perspective.create (F := F) (rotateLeft4 (rectCorners x0 y0 m l) k) (FloatOps.lit 7 0) (FloatOps.lit 7 0) ≠ none := by
  have hw : Within (rotateLeft4 (rectCorners x0 y0 m l) k) := by
    have : ∀ i (hi : i < 4), |(rectCorners x0 y0 m l)[i].x| ≤ 32767 ∧ |(rectCorners x0 y0 m l)[i].y| ≤ 32767 := by
      intro i hi
      unfold rectCorners
      have : i = 0 ∨ i = 1 ∨ i = 2 ∨ i = 3 := by omega
      rcases this with rfl | rfl | rfl | rfl
      · show |x0| ≤ _ ∧ |y0| ≤ _
        rw [abs_le, abs_le]; omega
      · show |x0 + m| ≤ _ ∧ |y0| ≤ _
        rw [abs_le, abs_le]; omega
      · show |x0 + m| ≤ _ ∧ |y0 + l| ≤ _
        rw [abs_le, abs_le]; omega
      · show |x0| ≤ _ ∧ |y0 + l| ≤ _
        rw [abs_le, abs_le]; omega
    intro i hi
    unfold rotateLeft4
    rw [Vector.getElem_ofFn]
    exact this _ _
  have h := create_rect_exact (x0 := x0) (y0 := y0) hm hl hk
  rw [lit70] at h
  obtain ⟨q, hq⟩ := Option.ne_none_iff_exists'.1 h
  obtain ⟨c, hc, -⟩ := (create_rounded hw (lit7_int (F := F))).2 q (by push_cast; exact hq)
  rw [hc]
  exact Option.some_ne_none _

/-- A capstone of a finder pattern. -/
structure BoxCap (cap : CapStone F) (f g : Nat → Nat) : Prop where
  corners : ∃ k < 4, cap.corners = rotateLeft4 (rectCorners (f 0) (g 0) ((f 7 : Int) - 1 - f 0) ((g 7 : Int) - 1 - g 0)) k
  transform : Perspective.create cap.corners (FloatOps.lit 7 0) (FloatOps.lit 7 0) = some cap.c
  center : cap.c.map (FloatOps.lit 35 1) (FloatOps.lit 35 1) = .ok cap.center

/-- The search finds every finder pattern. -/
theorem box_found [Rounding F] {img0 : PreparedImage S} {claims : Pos → Option Claim} {stones : List (CapStone F)}
    (hclaimed : ∀ p c, claims p = some c → c = .CapStone ∧ ∃ y x pos, FinderShape img0 y x pos ∧ RingAndStone img0 y pos ∧
        Reach (IsBlack img0) (pos.right, y) p ∧ ((∃ cap ∈ stones, CapstoneAt img0 y pos cap) ∨
          ∃ r, ExtremeCorners (IsBlack img0) (pos.right, y) r ∧
            Perspective.create (F := F) r (FloatOps.lit 7 0) (FloatOps.lit 7 0) = none))
    (hcomplete : ∀ y x pos, FinderShape img0 y x pos → RingAndStone img0 y pos →
        claims (pos.right, y) = some .CapStone ∨ claims (pos.stone, y) = some .CapStone)
    {f g : Nat → Nat} (h : BoxFinder (IsBlack img0) f g) (bx : f 7 ≤ 32768) (by' : g 7 ≤ 32768) : ∃ cap ∈ stones, BoxCap cap f g := by
  obtain ⟨f0, f1, f2, f5, f6, -, -, -, -, -, -⟩ := h.xs.bounds
  obtain ⟨g0, g1, g2, g5, g6, -, -, -, -, -, -⟩ := h.ys.bounds
  rcases hcomplete _ _ _ (box_shape h) (box_ring h) with hc | hc
  · obtain ⟨-, y, x, pos, h1, h2, h3, h4⟩ := hclaimed _ _ hc
    have hp : InRing f g (pos.right, y) := (h.ring_region (box_right h) _).1 h3.symm
    rcases h4 with ⟨cap, c1, c2⟩ | ⟨r, r1, r2⟩
    · exact ⟨cap, c1, ring_corners h.xs.bounds h.ys.bounds hp (h.ring_region hp) c2.corners, c2.transform, c2.center⟩
    · obtain ⟨k, hk, rfl⟩ := ring_corners h.xs.bounds h.ys.bounds hp (h.ring_region hp) r1
      exact absurd r2 (create_rect_ne_none (by omega) (by omega) hk (by omega) (by omega) (by omega) (by omega))
  · exfalso
    obtain ⟨-, y, x, pos, h1, h2, h3, -⟩ := hclaimed _ _ hc
    refine no_ring_in_rect h1 h2 (a := f 2) (b := f 5) (c := g 2) (d := g 5) ?_ ?_
    · intro p hp
      obtain ⟨a, b, c, d⟩ := id hp
      exact (h.black p (by omega) (by omega) (by omega) (by omega)).2 (.inr hp)
    · intro q hq
      exact (h.stone_region (box_stone h) q).1 (h3.symm.trans hq)

/-- A ring in a finder pattern is its outer part. -/
theorem ring_in_box {img0 : PreparedImage S} {f g : Nat → Nat} {y x : Nat} {pos : LinePosition} (h : BoxFinder (IsBlack img0) f g)
    (hf : FinderShape img0 y x pos) (hr : RingAndStone img0 y pos) (hp : InRect (f 0) (f 7) (g 0) (g 7) (pos.right, y)) :
    InRing f g (pos.right, y) := by
  obtain ⟨f0, f1, f2, f5, f6, -, -, -, -, -, -⟩ := h.xs.bounds
  obtain ⟨g0, g1, g2, g5, g6, -, -, -, -, -, -⟩ := h.ys.bounds
  have hb : IsBlack img0 (pos.right, y) := hr.joined.left
  obtain ⟨p1, p2, p3, p4⟩ := id hp
  rcases (h.black _ (by omega) (by omega) (by omega) (by omega)).1 hb with hin | hin
  · exact hin
  · exfalso
    refine no_ring_in_rect hf hr (a := f 2) (b := f 5) (c := g 2) (d := g 5) ?_ (fun q hq => (h.stone_region hin q).1 hq)
    intro q hq
    unfold InRect at hq
    exact (h.black q (by omega) (by omega) (by omega) (by omega)).2 (.inr hq)

end Rqrr
