import Verif.Proofs.Framed
import Verif.Props.Identify
import Verif.Proofs.NeighborsRounded

/-!
# The capstones of a drawing make one group
-/

namespace Rqrr

open Spec ImageBuffer Spec.Placement Rounding

variable {F : Type} [FloatOps F] [Rounding F]

/-- The offset of the least coordinates of a square from its first pixel. -/
theorem base_cases {P : Placement} (h : IsAxis P.right) (k : Int) (hk : 1 ≤ k) : ∃ gx gy : Int,
    (∀ i j, P.baseX i j k = (P.pixel i j).x + gx ∧ P.baseY i j k = (P.pixel i j).y + gy) ∧
    ((P.right = ⟨1, 0⟩ ∧ gx = 0 ∧ gy = 0) ∨ (P.right = ⟨0, 1⟩ ∧ gx = -(k - 1) ∧ gy = 0) ∨
      (P.right = ⟨-1, 0⟩ ∧ gx = -(k - 1) ∧ gy = -(k - 1)) ∨ (P.right = ⟨0, -1⟩ ∧ gx = 0 ∧ gy = -(k - 1))) := by
  unfold baseX baseY pixel
  rcases h with h | h | h | h
  · refine ⟨0, 0, fun i j => ?_, .inl ⟨h, rfl, rfl⟩⟩
    rw [h]; dsimp only; simp only [mul_one, mul_zero]; omega
  · refine ⟨-(k - 1), 0, fun i j => ?_, .inr (.inl ⟨h, rfl, rfl⟩)⟩
    rw [h]; dsimp only; simp only [mul_one, mul_zero]; omega
  · refine ⟨-(k - 1), -(k - 1), fun i j => ?_, .inr (.inr (.inl ⟨h, rfl, rfl⟩))⟩
    rw [h]; dsimp only; simp only [mul_neg, mul_one, mul_zero]; omega
  · refine ⟨0, -(k - 1), fun i j => ?_, .inr (.inr (.inr ⟨h, rfl, rfl⟩))⟩
    rw [h]; dsimp only; simp only [mul_neg, mul_one, mul_zero]; omega

theorem abs_close {w U : ℚ} (h : |w - U| ≤ 1 ∨ |w + U| ≤ 1) : abs (|w| - |U|) ≤ 1 := by
  rcases h with h | h
  · exact (abs_abs_sub_abs_le_abs_sub w U).trans h
  · have := abs_abs_sub_abs_le_abs_sub w (-U)
    rw [abs_neg, sub_neg_eq_add] at this
    exact this.trans h

set_option maxHeartbeats 1000000 in
/-- How far the capstones of a drawing are from each other, in modules of one of them. -/
theorem FramedCap.distances {P : Placement} (h : IsAxis P.right) (hs : 2 ≤ P.scale) {i j : Int} {cap : CapStone F}
    (hc : FramedCap P i j cap) : ∃ t : ℚ, 1 ≤ t ∧ t ≤ P.scale ∧
      ((∀ i' j' (cap' : CapStone F), FramedCap P i' j' cap' → ∃ x y : ℚ, Is (axes cap cap'.center).1 x ∧ Is (axes cap cap'.center).2 y ∧
        abs (x - abs ((i' - i : Int) : ℚ) / t) ≤ 1 / t + 1 / 1000 ∧ abs (y - abs ((j' - j : Int) : ℚ) / t) ≤ 1 / t + 1 / 1000) ∨
      (∀ i' j' (cap' : CapStone F), FramedCap P i' j' cap' → ∃ x y : ℚ, Is (axes cap cap'.center).1 x ∧ Is (axes cap cap'.center).2 y ∧
        abs (x - abs ((j' - j : Int) : ℚ) / t) ≤ 1 / t + 1 / 1000 ∧ abs (y - abs ((i' - i : Int) : ℚ) / t) ≤ 1 / t + 1 / 1000)) := by
  obtain ⟨k, hk, -, hcc⟩ := hc.c_eq h (by omega)
  have q5 : (2 : ℚ) ≤ P.scale := by exact_mod_cast hs
  have tdef : ((7 * P.scale - 1 : Int) : ℚ) / 7 = P.scale - 1 / 7 := by push_cast; ring
  have hw0 : ∀ {i' j' : Int} {cap' : CapStone F}, FramedCap P i' j' cap' → |(P.pixel i' j').x| ≤ 32767 ∧ |(P.pixel i' j').y| ≤ 32767 :=
    fun hc' => hc'.within 0 (by decide)
  have hsize : 7 * P.scale ≤ 65535 := by
    have w0 := hc.within 0 (by decide)
    have w1 : |(P.pixel (i + (7 * P.scale - 1)) j).x| ≤ 32767 ∧ |(P.pixel (i + (7 * P.scale - 1)) j).y| ≤ 32767 := hc.within 1 (by decide)
    have w0' : |(P.pixel i j).x| ≤ 32767 ∧ |(P.pixel i j).y| ≤ 32767 := w0
    rw [abs_le, abs_le] at w0' w1
    revert w0' w1
    unfold pixel
    rcases h with h | h | h | h <;> rw [h] <;> dsimp only <;> intro w0' w1 <;> omega
  have q6 : (P.scale : ℚ) ≤ 9363 := by exact_mod_cast (show P.scale ≤ 9363 by omega)
  have ht1 : 1 ≤ ((7 * P.scale - 1 : Int) : ℚ) / 7 := by rw [tdef]; linarith
  have ht2 : ((7 * P.scale - 1 : Int) : ℚ) / 7 ≤ P.scale := by rw [tdef]; linarith
  refine ⟨_, ht1, ht2, ?_⟩
  have e2 : 7 / 2 * (((7 * P.scale - 1 : Int) : ℚ) / 7) = (7 * P.scale - 1) / 2 := by push_cast; ring
  generalize ((7 * P.scale - 1 : Int) : ℚ) / 7 = t at *
  have ht : 0 < t := by linarith
  obtain ⟨gx, gy, hb, hg⟩ := base_cases h (7 * P.scale) (by omega)
  have gb : -65534 ≤ gx ∧ gx ≤ 0 ∧ -65534 ≤ gy ∧ gy ≤ 0 := by
    rcases hg with ⟨-, g1, g2⟩ | ⟨-, g1, g2⟩ | ⟨-, g1, g2⟩ | ⟨-, g1, g2⟩ <;> omega
  have cbound : ∀ {i' j' : Int} {cap' : CapStone F}, FramedCap P i' j' cap' → |(cap'.center.x : ℚ)| ≤ 1000000 ∧ |(cap'.center.y : ℚ)| ≤ 1000000 := by
    intro i' j' cap' hc'
    obtain ⟨e1, e2⟩ := hb i' j'
    have c1 := hc'.centerX
    have c2 := hc'.centerY
    have w := hw0 hc'
    rw [e1] at c1
    rw [e2] at c2
    rw [abs_le, abs_le] at w
    have h1 : |cap'.center.x| ≤ 1000000 := by rw [abs_le]; omega
    have h2 : |cap'.center.y| ≤ 1000000 := by rw [abs_le]; omega
    exact ⟨by exact_mod_cast h1, by exact_mod_cast h2⟩
  have tw : |(((P.turned i j (7 * P.scale - 1) k).pixel 0 0).x : ℚ)| ≤ 1000000 ∧ |(((P.turned i j (7 * P.scale - 1) k).pixel 0 0).y : ℚ)| ≤ 1000000 := by
    have hw := hc.within.rotate k
    rw [turned_corners i j _ hk] at hw
    have : |((P.turned i j (7 * P.scale - 1) k).pixel 0 0).x| ≤ 32767 ∧ |((P.turned i j (7 * P.scale - 1) k).pixel 0 0).y| ≤ 32767 := hw 0 (by decide)
    have h1 : |((P.turned i j (7 * P.scale - 1) k).pixel 0 0).x| ≤ 1000000 := by omega
    have h2 : |((P.turned i j (7 * P.scale - 1) k).pixel 0 0).y| ≤ 1000000 := by omega
    exact ⟨by exact_mod_cast h1, by exact_mod_cast h2⟩
  have main : ∀ i' j' (cap' : CapStone F), FramedCap P i' j' cap' → ∃ A B x y : ℚ, Is (axes cap cap'.center).1 x ∧ Is (axes cap cap'.center).2 y ∧
      |x - |A - (7 * P.scale - 1) / 2| / t| ≤ 1 / 1000 ∧ |y - |B - (7 * P.scale - 1) / 2| / t| ≤ 1 / 1000 ∧
      A = (cap'.center.x - (P.turned i j (7 * P.scale - 1) k).corner.x) * (P.turned i j (7 * P.scale - 1) k).right.x +
        (cap'.center.y - (P.turned i j (7 * P.scale - 1) k).corner.y) * (P.turned i j (7 * P.scale - 1) k).right.y ∧
      B = (cap'.center.y - (P.turned i j (7 * P.scale - 1) k).corner.y) * (P.turned i j (7 * P.scale - 1) k).right.x -
        (cap'.center.x - (P.turned i j (7 * P.scale - 1) k).corner.x) * (P.turned i j (7 * P.scale - 1) k).right.y := by
    intro i' j' cap' hc'
    obtain ⟨cb1, cb2⟩ := cbound hc'
    have ax := turned_axis h i j (7 * P.scale - 1) k
    revert ax hcc tw
    generalize P.turned i j (7 * P.scale - 1) k = T
    intro hcc tw ax
    obtain ⟨s1, s2⟩ := grid_unmap ax hcc (Q := 1000000) ht1 (by linarith) (by norm_num) (by linarith) tw.1 tw.2 (p := cap'.center)
      (A := (cap'.center.x - T.corner.x) * T.right.x + (cap'.center.y - T.corner.y) * T.right.y)
      (B := (cap'.center.y - T.corner.y) * T.right.x - (cap'.center.x - T.corner.x) * T.right.y) cb1 cb2
      (by unfold pixel; rcases ax with ax | ax | ax | ax <;> rw [ax] <;> push_cast <;> ring)
      (by unfold pixel; rcases ax with ax | ax | ax | ax <;> rw [ax] <;> push_cast <;> ring)
    have hL2 : 8 * 1000000 / t ≤ 8000000 := by rw [div_le_iff₀ ht]; linarith
    have one : ∀ {u : F} {X : ℚ}, Sc u (X / t) (8 * 1000000 / t) 113 →
        ∃ x, Is (FloatOps.abs (FloatOps.sub u (FloatOps.lit 35 1))) x ∧ |x - |X - (7 * P.scale - 1) / 2| / t| ≤ 1 / 1000 := by
      intro u X hu
      obtain ⟨r, hr, he⟩ := ((hu.sub sc35 (by linarith) (by norm_num)).abs).ex
      refine ⟨r, hr, ?_⟩
      have e : |X / t - 7 / 2| = |X - (7 * P.scale - 1) / 2| / t := by
        rw [show X / t - 7 / 2 = (X - 7 / 2 * t) / t by field_simp, abs_div, abs_of_pos ht, e2]
      rw [← e]
      refine he.trans ?_
      have : (8 * 1000000 / t + 4) * ((113 + 1 + 1) / 2 ^ 50) ≤ 8000004 * ((113 + 1 + 1) / 2 ^ 50) :=
        mul_le_mul_of_nonneg_right (by linarith) (by norm_num)
      exact this.trans (by norm_num)
    obtain ⟨x, hx, ex⟩ := one s1
    obtain ⟨y, hy, ey⟩ := one s2
    exact ⟨_, _, x, y, hx, hy, ex, ey, rfl, rfl⟩
  have cen : ∀ i' j' (cap' : CapStone F), FramedCap P i' j' cap' → |(cap'.center.x : ℚ) - (((P.pixel i' j').x : ℚ) + gx + (7 * P.scale - 1) / 2)| ≤ 1 ∧
      |(cap'.center.y : ℚ) - (((P.pixel i' j').y : ℚ) + gy + (7 * P.scale - 1) / 2)| ≤ 1 := by
    intro i' j' cap' hc'
    obtain ⟨e1, e2⟩ := hb i' j'
    obtain ⟨x1, x2⟩ := hc'.centerX
    obtain ⟨y1, y2⟩ := hc'.centerY
    rw [e1] at x1 x2
    rw [e2] at y1 y2
    have half : 2 * (7 * P.scale / 2) ≤ 7 * P.scale ∧ 7 * P.scale ≤ 2 * (7 * P.scale / 2) + 1 := by omega
    generalize 7 * P.scale / 2 = H at *
    have h1 : (2 : ℚ) * H ≤ 7 * P.scale := by exact_mod_cast half.1
    have h2 : (7 : ℚ) * P.scale ≤ 2 * H + 1 := by exact_mod_cast half.2
    have k1 : ((P.pixel i' j').x : ℚ) + gx + H - 1 ≤ cap'.center.x := by exact_mod_cast x1
    have k2 : (cap'.center.x : ℚ) ≤ (P.pixel i' j').x + gx + H := by exact_mod_cast x2
    have k3 : ((P.pixel i' j').y : ℚ) + gy + H - 1 ≤ cap'.center.y := by exact_mod_cast y1
    have k4 : (cap'.center.y : ℚ) ≤ (P.pixel i' j').y + gy + H := by exact_mod_cast y2
    rw [abs_le, abs_le]
    refine ⟨⟨?_, ?_⟩, ?_, ?_⟩ <;> linarith
  have fin : ∀ {x w U : ℚ}, |x - |w| / t| ≤ 1 / 1000 → abs (|w| - |U|) ≤ 1 → |x - |U| / t| ≤ 1 / t + 1 / 1000 := by
    intro x w U h1 h2
    have h3 : |(|w| / t - |U| / t)| ≤ 1 / t := by
      rw [← sub_div, abs_div, abs_of_pos ht]
      exact div_le_div_of_nonneg_right h2 ht.le
    rw [abs_le] at h1 h3 ⊢
    constructor <;> linarith
  have hk' : k = 0 ∨ k = 1 ∨ k = 2 ∨ k = 3 := by omega
  rcases hk' with rfl | rfl | rfl | rfl
  · left
    intro i' j' cap' hc'
    obtain ⟨A, B, r1, r2, e1, e2, n1, n2, eA, eB⟩ := main i' j' cap' hc'
    obtain ⟨cx, cy⟩ := cen i' j' cap' hc'
    rw [abs_le] at cx cy
    refine ⟨r1, r2, e1, e2, fin n1 ?_, fin n2 ?_⟩
    · rcases hg with ⟨h, g1, g2⟩ | ⟨h, g1, g2⟩ | ⟨h, g1, g2⟩ | ⟨h, g1, g2⟩ <;> simp only [g1, g2, pixel, h] at cx cy <;>
        rw [eA] <;> simp only [turned, pixel, h] <;> push_cast at cx cy ⊢ <;> first
        | (refine abs_close (.inl ?_); rw [abs_le]; constructor <;> linarith only [cx.1, cx.2, cy.1, cy.2])
        | (refine abs_close (.inr ?_); rw [abs_le]; constructor <;> linarith only [cx.1, cx.2, cy.1, cy.2])
    · rcases hg with ⟨h, g1, g2⟩ | ⟨h, g1, g2⟩ | ⟨h, g1, g2⟩ | ⟨h, g1, g2⟩ <;> simp only [g1, g2, pixel, h] at cx cy <;>
        rw [eB] <;> simp only [turned, pixel, h] <;> push_cast at cx cy ⊢ <;> first
        | (refine abs_close (.inl ?_); rw [abs_le]; constructor <;> linarith only [cx.1, cx.2, cy.1, cy.2])
        | (refine abs_close (.inr ?_); rw [abs_le]; constructor <;> linarith only [cx.1, cx.2, cy.1, cy.2])
  · right
    intro i' j' cap' hc'
    obtain ⟨A, B, r1, r2, e1, e2, n1, n2, eA, eB⟩ := main i' j' cap' hc'
    obtain ⟨cx, cy⟩ := cen i' j' cap' hc'
    rw [abs_le] at cx cy
    refine ⟨r1, r2, e1, e2, fin n1 ?_, fin n2 ?_⟩
    · rcases hg with ⟨h, g1, g2⟩ | ⟨h, g1, g2⟩ | ⟨h, g1, g2⟩ | ⟨h, g1, g2⟩ <;> simp only [g1, g2, pixel, h] at cx cy <;>
        rw [eA] <;> simp only [turned, pixel, h] <;> push_cast at cx cy ⊢ <;> first
        | (refine abs_close (.inl ?_); rw [abs_le]; constructor <;> linarith only [cx.1, cx.2, cy.1, cy.2])
        | (refine abs_close (.inr ?_); rw [abs_le]; constructor <;> linarith only [cx.1, cx.2, cy.1, cy.2])
    · rcases hg with ⟨h, g1, g2⟩ | ⟨h, g1, g2⟩ | ⟨h, g1, g2⟩ | ⟨h, g1, g2⟩ <;> simp only [g1, g2, pixel, h] at cx cy <;>
        rw [eB] <;> simp only [turned, pixel, h] <;> push_cast at cx cy ⊢ <;> first
        | (refine abs_close (.inl ?_); rw [abs_le]; constructor <;> linarith only [cx.1, cx.2, cy.1, cy.2])
        | (refine abs_close (.inr ?_); rw [abs_le]; constructor <;> linarith only [cx.1, cx.2, cy.1, cy.2])
  · left
    intro i' j' cap' hc'
    obtain ⟨A, B, r1, r2, e1, e2, n1, n2, eA, eB⟩ := main i' j' cap' hc'
    obtain ⟨cx, cy⟩ := cen i' j' cap' hc'
    rw [abs_le] at cx cy
    refine ⟨r1, r2, e1, e2, fin n1 ?_, fin n2 ?_⟩
    · rcases hg with ⟨h, g1, g2⟩ | ⟨h, g1, g2⟩ | ⟨h, g1, g2⟩ | ⟨h, g1, g2⟩ <;> simp only [g1, g2, pixel, h] at cx cy <;>
        rw [eA] <;> simp only [turned, pixel, h] <;> push_cast at cx cy ⊢ <;> first
        | (refine abs_close (.inl ?_); rw [abs_le]; constructor <;> linarith only [cx.1, cx.2, cy.1, cy.2])
        | (refine abs_close (.inr ?_); rw [abs_le]; constructor <;> linarith only [cx.1, cx.2, cy.1, cy.2])
    · rcases hg with ⟨h, g1, g2⟩ | ⟨h, g1, g2⟩ | ⟨h, g1, g2⟩ | ⟨h, g1, g2⟩ <;> simp only [g1, g2, pixel, h] at cx cy <;>
        rw [eB] <;> simp only [turned, pixel, h] <;> push_cast at cx cy ⊢ <;> first
        | (refine abs_close (.inl ?_); rw [abs_le]; constructor <;> linarith only [cx.1, cx.2, cy.1, cy.2])
        | (refine abs_close (.inr ?_); rw [abs_le]; constructor <;> linarith only [cx.1, cx.2, cy.1, cy.2])
  · right
    intro i' j' cap' hc'
    obtain ⟨A, B, r1, r2, e1, e2, n1, n2, eA, eB⟩ := main i' j' cap' hc'
    obtain ⟨cx, cy⟩ := cen i' j' cap' hc'
    rw [abs_le] at cx cy
    refine ⟨r1, r2, e1, e2, fin n1 ?_, fin n2 ?_⟩
    · rcases hg with ⟨h, g1, g2⟩ | ⟨h, g1, g2⟩ | ⟨h, g1, g2⟩ | ⟨h, g1, g2⟩ <;> simp only [g1, g2, pixel, h] at cx cy <;>
        rw [eA] <;> simp only [turned, pixel, h] <;> push_cast at cx cy ⊢ <;> first
        | (refine abs_close (.inl ?_); rw [abs_le]; constructor <;> linarith only [cx.1, cx.2, cy.1, cy.2])
        | (refine abs_close (.inr ?_); rw [abs_le]; constructor <;> linarith only [cx.1, cx.2, cy.1, cy.2])
    · rcases hg with ⟨h, g1, g2⟩ | ⟨h, g1, g2⟩ | ⟨h, g1, g2⟩ | ⟨h, g1, g2⟩ <;> simp only [g1, g2, pixel, h] at cx cy <;>
        rw [eB] <;> simp only [turned, pixel, h] <;> push_cast at cx cy ⊢ <;> first
        | (refine abs_close (.inl ?_); rw [abs_le]; constructor <;> linarith only [cx.1, cx.2, cy.1, cy.2])
        | (refine abs_close (.inr ?_); rw [abs_le]; constructor <;> linarith only [cx.1, cx.2, cy.1, cy.2])

/-- Three capstones at the corners of a drawing. -/
structure ThreeCaps (P : Placement) (K : Nat) (caps : List (CapStone F)) (t r b : Nat) (ct cr cb : CapStone F) : Prop where
  length : caps.length = 3
  tr : t ≠ r
  tb : t ≠ b
  rb : r ≠ b
  top : caps[t]? = some ct
  right : caps[r]? = some cr
  bottom : caps[b]? = some cb
  framed_t : FramedCap P 0 0 ct
  framed_r : FramedCap P K 0 cr
  framed_b : FramedCap P 0 K cb

omit [Rounding F] in
theorem ThreeCaps.cases {P : Placement} {K : Nat} {caps : List (CapStone F)} {t r b : Nat} {ct cr cb : CapStone F}
    (h : ThreeCaps P K caps t r b ct cr cb) {q : Nat} {c : CapStone F} (hq : caps[q]? = some c) :
    (q = t ∧ c = ct) ∨ (q = r ∧ c = cr) ∨ (q = b ∧ c = cb) := by
  have l := h.length
  have h0 := (List.getElem?_eq_some_iff.1 hq).1
  have h1 := (List.getElem?_eq_some_iff.1 h.top).1
  have h2 := (List.getElem?_eq_some_iff.1 h.right).1
  have h3 := (List.getElem?_eq_some_iff.1 h.bottom).1
  have h4 := h.tr
  have h5 := h.tb
  have h6 := h.rb
  have : q = t ∨ q = r ∨ q = b := by omega
  rcases this with rfl | rfl | rfl
  · exact .inl ⟨rfl, Option.some.inj (hq.symm.trans h.top)⟩
  · exact .inr (.inl ⟨rfl, Option.some.inj (hq.symm.trans h.right)⟩)
  · exact .inr (.inr ⟨rfl, Option.some.inj (hq.symm.trans h.bottom)⟩)

/-- Distances of about `κ` and of about nothing. -/
theorem beside_far {x y : F} {κ r s : ℚ} (hκ : 14 ≤ κ) (hκ' : κ ≤ 20000) (hx : Is x r) (hy : Is y s) (h1 : |r| ≤ κ / 12) (h2 : |s - κ| ≤ κ / 12) :
    beside x y = true := by
  rw [abs_le] at h1 h2
  obtain ⟨m, hm, e⟩ := beside_iff hx hy (by rw [abs_le]; constructor <;> linarith)
  rw [abs_le] at hm
  rw [e, decide_eq_true_eq]
  linarith

theorem beside_not {x y : F} {κ r s : ℚ} (hκ : 14 ≤ κ) (hκ' : κ ≤ 20000) (hx : Is x r) (hy : Is y s) (h1 : |r - κ| ≤ κ / 12)
    (h2 : |s| ≤ κ / 12 ∨ |s - κ| ≤ κ / 12) : ¬ beside x y = true := by
  have h3 : |s| ≤ κ + κ / 12 := by
    rcases h2 with h2 | h2 <;> rw [abs_le] at h2 ⊢ <;> constructor <;> linarith
  obtain ⟨m, hm, e⟩ := beside_iff hx hy (h3.trans (by linarith))
  rw [abs_le] at hm h1 h3
  rw [e, decide_eq_true_eq]
  linarith

theorem pairing_far {x y : F} {κ r s : ℚ} (hκ : 14 ≤ κ) (hx : Is x r) (hy : Is y s) (h1 : |r - κ| ≤ κ / 12) (h2 : |s - κ| ≤ κ / 12) :
    (∃ q, Is (pairing x y) q) ∧ FloatOps.lt (pairing x y) (FloatOps.lit 25 2) = true := by
  rw [abs_le] at h1 h2
  exact pairing_low hx hy (by linarith) (by linarith) (by linarith) (by linarith)

/-- What the distances of the two others are, from the corner and from one of the ends. -/
structure FromCorner (c a b : CapStone F) (κ δ : ℚ) : Prop where
  axes_a : ∃ x y, Is (axes c a.center).1 x ∧ Is (axes c a.center).2 y ∧ |x| ≤ δ ∧ |y - κ| ≤ δ
  axes_b : ∃ x y, Is (axes c b.center).1 x ∧ Is (axes c b.center).2 y ∧ |x - κ| ≤ δ ∧ |y| ≤ δ

structure FromEnd (c t o : CapStone F) (κ δ : ℚ) : Prop where
  axes_t : ∃ x y, Is (axes c t.center).1 x ∧ Is (axes c t.center).2 y ∧ ((|x| ≤ δ ∧ |y - κ| ≤ δ) ∨ (|x - κ| ≤ δ ∧ |y| ≤ δ))
  axes_o : ∃ x y, Is (axes c o.center).1 x ∧ Is (axes c o.center).2 y ∧ |x - κ| ≤ δ ∧ |y - κ| ≤ δ

theorem FromCorner.mono {c a b : CapStone F} {κ δ δ' : ℚ} (h : FromCorner c a b κ δ) (hd : δ ≤ δ') : FromCorner c a b κ δ' := by
  obtain ⟨⟨x, y, hx, hy, h1, h2⟩, ⟨x', y', hx', hy', h1', h2'⟩⟩ := h
  exact ⟨⟨x, y, hx, hy, h1.trans hd, h2.trans hd⟩, ⟨x', y', hx', hy', h1'.trans hd, h2'.trans hd⟩⟩

theorem FromEnd.mono {c t o : CapStone F} {κ δ δ' : ℚ} (h : FromEnd c t o κ δ) (hd : δ ≤ δ') : FromEnd c t o κ δ' := by
  obtain ⟨⟨x, y, hx, hy, h1⟩, ⟨x', y', hx', hy', h1', h2'⟩⟩ := h
  refine ⟨⟨x, y, hx, hy, ?_⟩, ⟨x', y', hx', hy', h1'.trans hd, h2'.trans hd⟩⟩
  rcases h1 with ⟨a, b⟩ | ⟨a, b⟩
  · exact .inl ⟨a.trans hd, b.trans hd⟩
  · exact .inr ⟨a.trans hd, b.trans hd⟩

variable {P : Placement} {K : Nat} {caps : List (CapStone F)} {t r b : Nat} {ct cr cb : CapStone F}

/-- The corner has one pair of neighbours. -/
theorem rank_corner {f g : Nat} {cf cg : CapStone F} (ht : t < caps.length) (et : caps[t] = ct) (ef : caps[f]? = some cf) (eg : caps[g]? = some cg)
    (tf : t ≠ f) (tg : t ≠ g) (cases' : ∀ q c, caps[q]? = some c → q = t ∨ (q = f ∧ c = cf) ∨ (q = g ∧ c = cg)) {κ : ℚ} (hκ : 14 ≤ κ) (hκ' : κ ≤ 20000)
    (h : FromCorner ct cf cg κ (κ / 12)) :
    ∃ pairs, find_and_rank_possible_neighbors caps t = .ok pairs ∧ ∀ p, p ∈ pairs ↔ p = (f, g) := by
  obtain ⟨⟨xf, yf, fx, fy, f1, f2⟩, ⟨xg, yg, gx, gy, g1, g2⟩⟩ := h
  have only : ∀ p q a b, p ≠ t → q ≠ t → caps[p]? = some a → caps[q]? = some b →
      beside (axes caps[t] a.center).1 (axes caps[t] a.center).2 = true → beside (axes caps[t] b.center).2 (axes caps[t] b.center).1 = true →
      p = f ∧ q = g ∧ a = cf ∧ b = cg := by
    intro p q a b hp hq ha hb h1 h2
    rw [et] at h1 h2
    rcases cases' p a ha with h | ⟨rfl, rfl⟩ | ⟨rfl, rfl⟩
    · exact absurd h hp
    · rcases cases' q b hb with h | ⟨rfl, rfl⟩ | ⟨rfl, rfl⟩
      · exact absurd h hq
      · exact absurd h2 (beside_not hκ hκ' fy fx f2 (.inl f1))
      · exact ⟨rfl, rfl, rfl, rfl⟩
    · exact absurd h1 (beside_not hκ hκ' gx gy g1 (.inl g2))
  have low := pairing_far hκ fy gx f2 g1
  obtain ⟨pairs, e, hp⟩ := rank_finite ht (by
    intro p q a b hp hq ha hb h1 h2
    obtain ⟨-, -, rfl, rfl⟩ := only p q a b hp hq ha hb h1 h2
    rw [et]
    exact low.1)
  refine ⟨pairs, e, ?_⟩
  rintro ⟨p, q⟩
  rw [hp]
  constructor
  · rintro ⟨n1, n2, a, b', h1, h2, c1, c2, -⟩
    obtain ⟨k1, k2, -, -⟩ := only _ _ _ _ n1 n2 h1 h2 c1 c2
    dsimp only at k1 k2
    rw [k1, k2]
  · intro ep
    cases ep
    refine ⟨tf.symm, tg.symm, cf, cg, ef, eg, ?_, ?_, ?_⟩
    · rw [et]; exact beside_far hκ hκ' fx fy f1 f2
    · rw [et]; exact beside_far hκ hκ' gy gx g2 g1
    · rw [et]; exact low.2

/-- The other two do not have any. -/
theorem rank_end {f g : Nat} {cf cg : CapStone F} (ht : t < caps.length) (et : caps[t] = ct)
    (cases' : ∀ q c, caps[q]? = some c → q = t ∨ (q = f ∧ c = cf) ∨ (q = g ∧ c = cg)) {κ : ℚ} (hκ : 14 ≤ κ) (hκ' : κ ≤ 20000)
    (h : FromEnd ct cf cg κ (κ / 12)) : find_and_rank_possible_neighbors caps t = .ok [] := by
  obtain ⟨⟨xf, yf, fx, fy, f1⟩, ⟨xg, yg, gx, gy, g1, g2⟩⟩ := h
  have none : ∀ p q a b, p ≠ t → q ≠ t → caps[p]? = some a → caps[q]? = some b →
      beside (axes caps[t] a.center).1 (axes caps[t] a.center).2 = true → beside (axes caps[t] b.center).2 (axes caps[t] b.center).1 = true → False := by
    intro p q a b hp hq ha hb h1 h2
    rw [et] at h1 h2
    rcases cases' p a ha with h | ⟨rfl, rfl⟩ | ⟨rfl, rfl⟩
    · exact hp h
    · rcases cases' q b hb with h | ⟨rfl, rfl⟩ | ⟨rfl, rfl⟩
      · exact hq h
      · rcases f1 with ⟨a1, a2⟩ | ⟨a1, a2⟩
        · exact beside_not hκ hκ' fy fx a2 (.inl a1) h2
        · exact beside_not hκ hκ' fx fy a1 (.inl a2) h1
      · exact beside_not hκ hκ' gy gx g2 (.inr g1) h2
    · exact beside_not hκ hκ' gx gy g1 (.inr g2) h1
  obtain ⟨pairs, e, hp⟩ := rank_finite ht (fun p q a b hp hq ha hb h1 h2 => (none p q a b hp hq ha hb h1 h2).elim)
  rw [e]
  congr 1
  refine List.eq_nil_iff_forall_not_mem.2 fun p hp' => ?_
  obtain ⟨n1, n2, a, b', h1, h2, c1, c2, -⟩ := (hp _).1 hp'
  exact none _ _ _ _ n1 n2 h1 h2 c1 c2

/-- Only the capstone in the corner has a pair of neighbours. -/
theorem ThreeCaps.rank (hP : IsAxis P.right) (hs : 2 ≤ P.scale) (hK : 14 * P.scale ≤ K) (hK' : K ≤ 20000) (h : ThreeCaps P K caps t r b ct cr cb) :
    (∃ pairs, find_and_rank_possible_neighbors caps t = .ok pairs ∧ ((∀ p, p ∈ pairs ↔ p = (r, b)) ∨ (∀ p, p ∈ pairs ↔ p = (b, r)))) ∧
    find_and_rank_possible_neighbors caps r = .ok [] ∧ find_and_rank_possible_neighbors caps b = .ok [] := by
  have hK1 : 14 * (P.scale : ℚ) ≤ K := by exact_mod_cast hK
  have hK2 : (K : ℚ) ≤ 20000 := by exact_mod_cast hK'
  have hs2 : (2 : ℚ) ≤ P.scale := by exact_mod_cast hs
  have hlt := (List.getElem?_eq_some_iff.1 h.top).1
  have hlr := (List.getElem?_eq_some_iff.1 h.right).1
  have hlb := (List.getElem?_eq_some_iff.1 h.bottom).1
  have et : caps[t] = ct := (List.getElem?_eq_some_iff.1 h.top).2
  have er : caps[r] = cr := (List.getElem?_eq_some_iff.1 h.right).2
  have eb : caps[b] = cb := (List.getElem?_eq_some_iff.1 h.bottom).2
  have absK : |((K : Int) : ℚ)| = K := by rw [Int.cast_natCast, abs_of_nonneg (by positivity)]
  have absK' : |((-(K : Int) : Int) : ℚ)| = K := by rw [Int.cast_neg, abs_neg, absK]
  have abs0 : |((0 : Int) : ℚ)| = 0 := by simp
  have unit : ∀ {t : ℚ}, 1 ≤ t → t ≤ P.scale → 14 ≤ K / t ∧ K / t ≤ 20000 ∧ 1 / t + 1 / 1000 ≤ K / t / 12 := by
    intro t h1 h2
    have t0 : 0 < t := by linarith
    refine ⟨?_, ?_, ?_⟩
    · rw [le_div_iff₀ t0]; linarith
    · rw [div_le_iff₀ t0]; linarith
    · rw [div_div, div_add_div _ _ t0.ne' (by norm_num), div_le_div_iff₀ (by positivity) (by positivity)]
      nlinarith
  refine ⟨?_, ?_, ?_⟩
  · obtain ⟨u, u1, u2, hd⟩ := h.framed_t.distances hP hs
    obtain ⟨k1, k2, k3⟩ := unit u1 u2
    rcases hd with hd | hd
    · obtain ⟨xr, yr, rx, ry, r1, r2⟩ := hd _ _ _ h.framed_r
      obtain ⟨xb, yb, bx, by', b1, b2⟩ := hd _ _ _ h.framed_b
      rw [sub_zero, absK] at r1 b2
      rw [sub_zero, abs0, zero_div, sub_zero] at r2 b1
      obtain ⟨pairs, e, hp⟩ := rank_corner hlt et h.bottom h.right h.tb h.tr (fun q c hq => by
        rcases h.cases hq with h | h | h
        · exact .inl h.1
        · exact .inr (.inr h)
        · exact .inr (.inl h)) k1 k2
        ⟨⟨xb, yb, bx, by', b1.trans k3, b2.trans k3⟩, ⟨xr, yr, rx, ry, r1.trans k3, r2.trans k3⟩⟩
      exact ⟨pairs, e, .inr hp⟩
    · obtain ⟨xr, yr, rx, ry, r1, r2⟩ := hd _ _ _ h.framed_r
      obtain ⟨xb, yb, bx, by', b1, b2⟩ := hd _ _ _ h.framed_b
      rw [sub_zero, absK] at r2 b1
      rw [sub_zero, abs0, zero_div, sub_zero] at r1 b2
      obtain ⟨pairs, e, hp⟩ := rank_corner hlt et h.right h.bottom h.tr h.tb (fun q c hq => by
        rcases h.cases hq with h | h | h
        · exact .inl h.1
        · exact .inr (.inl h)
        · exact .inr (.inr h)) k1 k2
        ⟨⟨xr, yr, rx, ry, r1.trans k3, r2.trans k3⟩, ⟨xb, yb, bx, by', b1.trans k3, b2.trans k3⟩⟩
      exact ⟨pairs, e, .inl hp⟩
  · obtain ⟨u, u1, u2, hd⟩ := h.framed_r.distances hP hs
    obtain ⟨k1, k2, k3⟩ := unit u1 u2
    refine rank_end (f := t) (g := b) (cf := ct) (cg := cb) hlr er (fun q c hq => by
        rcases h.cases hq with h | h | h
        · exact .inr (.inl h)
        · exact .inl h.1
        · exact .inr (.inr h)) k1 k2 ?_
    rcases hd with hd | hd
    · obtain ⟨xt, yt, tx, ty, t1, t2⟩ := hd _ _ _ h.framed_t
      obtain ⟨xb, yb, bx, by', b1, b2⟩ := hd _ _ _ h.framed_b
      rw [zero_sub, absK'] at t1 b1
      rw [sub_zero, abs0, zero_div, sub_zero] at t2
      rw [sub_zero, absK] at b2
      exact ⟨⟨xt, yt, tx, ty, .inr ⟨t1.trans k3, t2.trans k3⟩⟩, ⟨xb, yb, bx, by', b1.trans k3, b2.trans k3⟩⟩
    · obtain ⟨xt, yt, tx, ty, t1, t2⟩ := hd _ _ _ h.framed_t
      obtain ⟨xb, yb, bx, by', b1, b2⟩ := hd _ _ _ h.framed_b
      rw [zero_sub, absK'] at t2 b2
      rw [sub_zero, abs0, zero_div, sub_zero] at t1
      rw [sub_zero, absK] at b1
      exact ⟨⟨xt, yt, tx, ty, .inl ⟨t1.trans k3, t2.trans k3⟩⟩, ⟨xb, yb, bx, by', b1.trans k3, b2.trans k3⟩⟩
  · obtain ⟨u, u1, u2, hd⟩ := h.framed_b.distances hP hs
    obtain ⟨k1, k2, k3⟩ := unit u1 u2
    refine rank_end (f := t) (g := r) (cf := ct) (cg := cr) hlb eb (fun q c hq => by
        rcases h.cases hq with h | h | h
        · exact .inr (.inl h)
        · exact .inr (.inr h)
        · exact .inl h.1) k1 k2 ?_
    rcases hd with hd | hd
    · obtain ⟨xt, yt, tx, ty, t1, t2⟩ := hd _ _ _ h.framed_t
      obtain ⟨xb, yb, bx, by', b1, b2⟩ := hd _ _ _ h.framed_r
      rw [zero_sub, absK'] at t2 b2
      rw [sub_zero, abs0, zero_div, sub_zero] at t1
      rw [sub_zero, absK] at b1
      exact ⟨⟨xt, yt, tx, ty, .inl ⟨t1.trans k3, t2.trans k3⟩⟩, ⟨xb, yb, bx, by', b1.trans k3, b2.trans k3⟩⟩
    · obtain ⟨xt, yt, tx, ty, t1, t2⟩ := hd _ _ _ h.framed_t
      obtain ⟨xb, yb, bx, by', b1, b2⟩ := hd _ _ _ h.framed_r
      rw [zero_sub, absK'] at t1 b1
      rw [sub_zero, abs0, zero_div, sub_zero] at t2
      rw [sub_zero, absK] at b2
      exact ⟨⟨xt, yt, tx, ty, .inr ⟨t1.trans k3, t2.trans k3⟩⟩, ⟨xb, yb, bx, by', b1.trans k3, b2.trans k3⟩⟩

omit [FloatOps F] [Rounding F] in
/-- If one capstone only has pairs, all of them the same and viable, there is one group. -/
theorem one_group {caps : List (CapStone F)} {rank : List (CapStone F) → Nat → Run (List (Nat × Nat))} {viable : CapStoneGroup F → Run Bool}
    {t f g : Nat} (ht : t < caps.length) {ct cf cg : CapStone F} (et : caps[t]? = some ct) (ef : caps[f]? = some cf) (eg : caps[g]? = some cg)
    {pairs : List (Nat × Nat)} (hr : rank caps t = .ok pairs) (hp : ∀ p, p ∈ pairs ↔ p = (f, g))
    (ho : ∀ i < caps.length, i ≠ t → rank caps i = .ok []) (hv : viable ⟨cf, ct, cg⟩ = .ok true) :
    find_groupings_with rank viable caps = .ok [⟨cf, ct, cg⟩] := by
  have idxe : ∀ {i : Nat} {c : CapStone F}, caps[i]? = some c → idx caps i = .ok c := by
    intro i c h
    unfold idx
    rw [h]
  have rest : ∀ ps : List (Nat × Nat), (∀ p ∈ ps, p = (f, g)) → ∀ used groups, f ∈ used →
      forList (fun pair st => try_pair viable caps t pair st) ps (used, groups) = .ok (used, groups) := by
    intro ps
    induction ps with
    | nil => intro _ used groups _; rfl
    | cons p ps ih =>
      intro h used groups hf
      have := h p (by simp)
      subst this
      unfold forList
      have e : try_pair viable caps t (f, g) (used, groups) = .ok (used, groups) := by
        unfold try_pair
        dsimp only
        rw [if_pos (by simp [hf])]
        rfl
      rw [e, Run.ok_bind]
      exact ih (fun q hq => h q (by simp [hq])) used groups hf
  have first : forList (fun pair st => try_pair viable caps t pair st) pairs ([], []) = .ok ([f, t, g], [⟨cf, ct, cg⟩]) := by
    cases pairs with
    | nil => exact absurd ((hp _).2 rfl) (by simp)
    | cons p ps =>
      have hpe := (hp p).1 (by simp)
      subst hpe
      unfold forList
      have e : try_pair viable caps t (f, g) ([], []) = .ok ([f, t, g], [⟨cf, ct, cg⟩]) := by
        unfold try_pair
        dsimp only
        rw [if_neg (by simp), idxe ef, Run.ok_bind, idxe et, Run.ok_bind, idxe eg, Run.ok_bind, hv, Run.ok_bind]
        rfl
      rw [e, Run.ok_bind]
      exact rest ps (fun q hq => (hp q).1 (by simp [hq])) _ _ (by simp)
  unfold find_groupings_with
  have := forRange_eq (lo := 0) (hi := caps.length) (s := (([], []) : List Nat × List (CapStoneGroup F)))
    (f := fun i (st : List Nat × List (CapStoneGroup F)) => do
      let (used, groups) := st
      if used.contains i then pure (used, groups)
      else do
        let pairs ← rank caps i
        forList (fun pair st => try_pair viable caps i pair st) pairs (used, groups))
    (fun i => if i ≤ t then ([], []) else ([f, t, g], [⟨cf, ct, cg⟩])) (Nat.zero_le _) (by simp) (by
      intro i _ hi
      by_cases h1 : i = t
      · subst h1
        dsimp only
        rw [if_pos (Nat.le_refl _), if_neg (show ¬ i + 1 ≤ i by omega), if_neg (by simp), hr, Run.ok_bind]
        exact first
      · have e : ∀ used groups, (do
            if used.contains i then pure (used, groups)
            else do
              let pairs ← rank caps i
              forList (fun pair st => try_pair viable caps i pair st) pairs (used, groups) : Run (List Nat × List (CapStoneGroup F))) = .ok (used, groups) := by
          intro used groups
          split
          · rfl
          · rw [ho i hi h1]; rfl
        dsimp only
        by_cases h2 : i ≤ t
        · rw [if_pos h2, if_pos (show i + 1 ≤ t by omega)]
          exact e _ _
        · rw [if_neg h2, if_neg (show ¬ i + 1 ≤ t by omega)]
          exact e _ _)
  rw [this, Run.ok_bind, if_neg (by omega)]
  rfl

end Rqrr
