import Verif.Proofs.FramedAll
import Verif.Spec.Several

/-!
# How far the capstones of several drawings are from each other
-/

namespace Rqrr

open Spec ImageBuffer Spec.Placement Rounding

variable {F : Type} [FloatOps F] [Rounding F]

/-- Twice the centre of the square of a finder pattern whose first pixel is in column `i` and row `j` of the drawing. -/
def Spec.Placement.twice (P : Placement) (i j : Int) : Point :=
  ⟨2 * P.baseX i j (7 * P.scale) + (7 * P.scale - 1), 2 * P.baseY i j (7 * P.scale) + (7 * P.scale - 1)⟩

omit [Rounding F] in
theorem FramedCap.center_twice {P : Placement} {i j : Int} {cap : CapStone F} (hc : FramedCap P i j cap) :
    |2 * cap.center.x - (P.twice i j).x| ≤ 2 ∧ |2 * cap.center.y - (P.twice i j).y| ≤ 2 := by
  obtain ⟨x1, x2⟩ := hc.centerX
  obtain ⟨y1, y2⟩ := hc.centerY
  unfold twice
  dsimp only
  rw [abs_le, abs_le]
  omega

omit [Rounding F] in
theorem FramedCap.scale_le {P : Placement} (h : IsAxis P.right) {i j : Int} {cap : CapStone F} (hc : FramedCap P i j cap) :
    7 * P.scale ≤ 65535 := by
  have w0 := hc.within 0 (by decide)
  have w1 : |(P.pixel (i + (7 * P.scale - 1)) j).x| ≤ 32767 ∧ |(P.pixel (i + (7 * P.scale - 1)) j).y| ≤ 32767 := hc.within 1 (by decide)
  have w0' : |(P.pixel i j).x| ≤ 32767 ∧ |(P.pixel i j).y| ≤ 32767 := w0
  rw [abs_le, abs_le] at w0' w1
  revert w0' w1
  unfold pixel
  rcases h with h | h | h | h <;> rw [h] <;> dsimp only <;> intro w0' w1 <;> omega

set_option maxHeartbeats 1000000 in
/-- How far any point is from a capstone, in modules of the capstone, along the axes of the image. -/
theorem FramedCap.from_point {P : Placement} (h : IsAxis P.right) (hs : 2 ≤ P.scale) {i j : Int} {cap : CapStone F}
    (hc : FramedCap P i j cap) : ∃ t : ℚ, 1 ≤ t ∧ t ≤ P.scale ∧
      ((∀ p : Point, |p.x| ≤ 1000000 → |p.y| ≤ 1000000 → ∃ x y : ℚ, Is (axes cap p).1 x ∧ Is (axes cap p).2 y ∧
        |x - |((2 * p.x - (P.twice i j).x : Int) : ℚ)| / 2 / t| ≤ 1 / 1000 ∧ |y - |((2 * p.y - (P.twice i j).y : Int) : ℚ)| / 2 / t| ≤ 1 / 1000) ∨
      (∀ p : Point, |p.x| ≤ 1000000 → |p.y| ≤ 1000000 → ∃ x y : ℚ, Is (axes cap p).1 x ∧ Is (axes cap p).2 y ∧
        |x - |((2 * p.y - (P.twice i j).y : Int) : ℚ)| / 2 / t| ≤ 1 / 1000 ∧ |y - |((2 * p.x - (P.twice i j).x : Int) : ℚ)| / 2 / t| ≤ 1 / 1000)) := by
  obtain ⟨k, hk, -, hcc⟩ := hc.c_eq h (by omega)
  have q5 : (2 : ℚ) ≤ P.scale := by exact_mod_cast hs
  have tdef : ((7 * P.scale - 1 : Int) : ℚ) / 7 = P.scale - 1 / 7 := by push_cast; ring
  have hsize := hc.scale_le h
  have q6 : (P.scale : ℚ) ≤ 9363 := by exact_mod_cast (show P.scale ≤ 9363 by omega)
  have ht1 : 1 ≤ ((7 * P.scale - 1 : Int) : ℚ) / 7 := by rw [tdef]; linarith
  have ht2 : ((7 * P.scale - 1 : Int) : ℚ) / 7 ≤ P.scale := by rw [tdef]; linarith
  refine ⟨_, ht1, ht2, ?_⟩
  have e2 : 7 / 2 * (((7 * P.scale - 1 : Int) : ℚ) / 7) = (7 * P.scale - 1) / 2 := by push_cast; ring
  generalize ((7 * P.scale - 1 : Int) : ℚ) / 7 = t at *
  have ht : 0 < t := by linarith
  obtain ⟨gx, gy, hb, hg⟩ := base_cases h (7 * P.scale) (by omega)
  have tw : |(((P.turned i j (7 * P.scale - 1) k).pixel 0 0).x : ℚ)| ≤ 1000000 ∧ |(((P.turned i j (7 * P.scale - 1) k).pixel 0 0).y : ℚ)| ≤ 1000000 := by
    have hw := hc.within.rotate k
    rw [turned_corners i j _ hk] at hw
    have : |((P.turned i j (7 * P.scale - 1) k).pixel 0 0).x| ≤ 32767 ∧ |((P.turned i j (7 * P.scale - 1) k).pixel 0 0).y| ≤ 32767 := hw 0 (by decide)
    have h1 : |((P.turned i j (7 * P.scale - 1) k).pixel 0 0).x| ≤ 1000000 := by omega
    have h2 : |((P.turned i j (7 * P.scale - 1) k).pixel 0 0).y| ≤ 1000000 := by omega
    exact ⟨by exact_mod_cast h1, by exact_mod_cast h2⟩
  have main : ∀ p : Point, |p.x| ≤ 1000000 → |p.y| ≤ 1000000 → ∃ A B x y : ℚ, Is (axes cap p).1 x ∧ Is (axes cap p).2 y ∧
      |x - |A - (7 * P.scale - 1) / 2| / t| ≤ 1 / 1000 ∧ |y - |B - (7 * P.scale - 1) / 2| / t| ≤ 1 / 1000 ∧
      A = (p.x - (P.turned i j (7 * P.scale - 1) k).corner.x) * (P.turned i j (7 * P.scale - 1) k).right.x +
        (p.y - (P.turned i j (7 * P.scale - 1) k).corner.y) * (P.turned i j (7 * P.scale - 1) k).right.y ∧
      B = (p.y - (P.turned i j (7 * P.scale - 1) k).corner.y) * (P.turned i j (7 * P.scale - 1) k).right.x -
        (p.x - (P.turned i j (7 * P.scale - 1) k).corner.x) * (P.turned i j (7 * P.scale - 1) k).right.y := by
    intro p px py
    have cb1 : |(p.x : ℚ)| ≤ 1000000 := by exact_mod_cast px
    have cb2 : |(p.y : ℚ)| ≤ 1000000 := by exact_mod_cast py
    have ax := turned_axis h i j (7 * P.scale - 1) k
    revert ax hcc tw
    generalize P.turned i j (7 * P.scale - 1) k = T
    intro hcc tw ax
    obtain ⟨s1, s2⟩ := grid_unmap ax hcc (Q := 1000000) ht1 (by linarith) (by norm_num) (by linarith) tw.1 tw.2 (p := p)
      (A := (p.x - T.corner.x) * T.right.x + (p.y - T.corner.y) * T.right.y)
      (B := (p.y - T.corner.y) * T.right.x - (p.x - T.corner.x) * T.right.y) cb1 cb2
      (by unfold pixel; rcases ax with ax | ax | ax | ax <;> rw [ax] <;> push_cast <;> ring)
      (by unfold pixel; rcases ax with ax | ax | ax | ax <;> rw [ax] <;> push_cast <;> ring)
    have hL2 : 8 * 1000000 / t ≤ 8000000 := by rw [div_le_iff₀ ht]; linarith
    have one : ∀ {u : F} {X : ℚ}, Sc u (X / t) (8 * 1000000 / t) 113 →
        ∃ x, Is (FloatOps.abs (FloatOps.sub u (FloatOps.lit 35 1))) x ∧ |x - |X - (7 * P.scale - 1) / 2| / t| ≤ 1 / 1000 := by
      intro u X hu
      obtain ⟨r, hr, he⟩ := ((hu.sub sc35 (by linarith) (by norm_num)).abs).ex
      refine ⟨r, hr, ?_⟩
      have e : |X / t - 7 / 2| = |X - (7 * P.scale - 1) / 2| / t := by
        rw [show X / t - 7 / 2 = (X - 7 / 2 * t) / t by field_simp, abs_div, abs_of_pos ht, e2]
      rw [← e]
      refine he.trans ?_
      have : (8 * 1000000 / t + 4) * ((113 + 1 + 1) / 2 ^ 50) ≤ 8000004 * ((113 + 1 + 1) / 2 ^ 50) :=
        mul_le_mul_of_nonneg_right (by linarith) (by norm_num)
      exact this.trans (by norm_num)
    obtain ⟨x, hx, ex⟩ := one s1
    obtain ⟨y, hy, ey⟩ := one s2
    exact ⟨_, _, x, y, hx, hy, ex, ey, rfl, rfl⟩
  have fin : ∀ {x w : ℚ} {z : Int}, |x - |w| / t| ≤ 1 / 1000 → (w = z / 2 ∨ w = -(z / 2)) → |x - |(z : ℚ)| / 2 / t| ≤ 1 / 1000 := by
    intro x w z h1 h2
    have : |w| = |(z : ℚ)| / 2 := by
      rcases h2 with rfl | rfl
      · rw [abs_div, abs_of_pos (show (0 : ℚ) < 2 by norm_num)]
      · rw [abs_neg, abs_div, abs_of_pos (show (0 : ℚ) < 2 by norm_num)]
    rwa [this] at h1
  obtain ⟨b1, b2⟩ := hb i j
  unfold twice
  rw [b1, b2]
  have hk' : k = 0 ∨ k = 1 ∨ k = 2 ∨ k = 3 := by omega
  have use : (∀ p : Point, ∀ A B : ℚ,
        A = (p.x - (P.turned i j (7 * P.scale - 1) k).corner.x) * (P.turned i j (7 * P.scale - 1) k).right.x +
          (p.y - (P.turned i j (7 * P.scale - 1) k).corner.y) * (P.turned i j (7 * P.scale - 1) k).right.y →
        B = (p.y - (P.turned i j (7 * P.scale - 1) k).corner.y) * (P.turned i j (7 * P.scale - 1) k).right.x -
          (p.x - (P.turned i j (7 * P.scale - 1) k).corner.x) * (P.turned i j (7 * P.scale - 1) k).right.y →
        (A - (7 * P.scale - 1) / 2 = ((2 * p.x - (2 * ((P.pixel i j).x + gx) + (7 * P.scale - 1)) : Int) : ℚ) / 2 ∨
          A - (7 * P.scale - 1) / 2 = -(((2 * p.x - (2 * ((P.pixel i j).x + gx) + (7 * P.scale - 1)) : Int) : ℚ) / 2)) ∧
        (B - (7 * P.scale - 1) / 2 = ((2 * p.y - (2 * ((P.pixel i j).y + gy) + (7 * P.scale - 1)) : Int) : ℚ) / 2 ∨
          B - (7 * P.scale - 1) / 2 = -(((2 * p.y - (2 * ((P.pixel i j).y + gy) + (7 * P.scale - 1)) : Int) : ℚ) / 2))) ∨
      (∀ p : Point, ∀ A B : ℚ,
        A = (p.x - (P.turned i j (7 * P.scale - 1) k).corner.x) * (P.turned i j (7 * P.scale - 1) k).right.x +
          (p.y - (P.turned i j (7 * P.scale - 1) k).corner.y) * (P.turned i j (7 * P.scale - 1) k).right.y →
        B = (p.y - (P.turned i j (7 * P.scale - 1) k).corner.y) * (P.turned i j (7 * P.scale - 1) k).right.x -
          (p.x - (P.turned i j (7 * P.scale - 1) k).corner.x) * (P.turned i j (7 * P.scale - 1) k).right.y →
        (A - (7 * P.scale - 1) / 2 = ((2 * p.y - (2 * ((P.pixel i j).y + gy) + (7 * P.scale - 1)) : Int) : ℚ) / 2 ∨
          A - (7 * P.scale - 1) / 2 = -(((2 * p.y - (2 * ((P.pixel i j).y + gy) + (7 * P.scale - 1)) : Int) : ℚ) / 2)) ∧
        (B - (7 * P.scale - 1) / 2 = ((2 * p.x - (2 * ((P.pixel i j).x + gx) + (7 * P.scale - 1)) : Int) : ℚ) / 2 ∨
          B - (7 * P.scale - 1) / 2 = -(((2 * p.x - (2 * ((P.pixel i j).x + gx) + (7 * P.scale - 1)) : Int) : ℚ) / 2))) := by
    clear main hcc tw
    rcases hk' with rfl | rfl | rfl | rfl <;> rcases hg with ⟨h, g1, g2⟩ | ⟨h, g1, g2⟩ | ⟨h, g1, g2⟩ | ⟨h, g1, g2⟩ <;>
      simp only [turned, pixel, h, g1, g2] <;> push_cast <;> first
      | (left; intro p A B eA eB; rw [eA, eB]; constructor <;> first | (left; ring1) | (right; ring1))
      | (right; intro p A B eA eB; rw [eA, eB]; constructor <;> first | (left; ring1) | (right; ring1))
  rcases use with use | use
  · left
    intro p px py
    obtain ⟨A, B, r1, r2, e1, e2, n1, n2, eA, eB⟩ := main p px py
    obtain ⟨u1, u2⟩ := use p A B eA eB
    exact ⟨r1, r2, e1, e2, fin n1 u1, fin n2 u2⟩
  · right
    intro p px py
    obtain ⟨A, B, r1, r2, e1, e2, n1, n2, eA, eB⟩ := main p px py
    obtain ⟨u1, u2⟩ := use p A B eA eB
    exact ⟨r1, r2, e1, e2, fin n1 u1, fin n2 u2⟩

/-- How far one capstone is from another, in half pixels. -/
theorem FramedCap.between {P : Placement} (h : IsAxis P.right) (hs : 2 ≤ P.scale) (hs' : P.scale ≤ 476) {i j : Int} {cap : CapStone F}
    (hc : FramedCap P i j cap) : ∃ t : ℚ, 1 ≤ t ∧ t ≤ P.scale ∧
      ((∀ (P' : Placement) (i' j' : Int) (cap' : CapStone F), FramedCap P' i' j' cap' → |cap'.center.x| ≤ 1000000 → |cap'.center.y| ≤ 1000000 →
        ∃ x y : ℚ, Is (axes cap cap'.center).1 x ∧ Is (axes cap cap'.center).2 y ∧
          abs (2 * t * x - |(((P'.twice i' j').x - (P.twice i j).x : Int) : ℚ)|) ≤ 3 ∧
          abs (2 * t * y - |(((P'.twice i' j').y - (P.twice i j).y : Int) : ℚ)|) ≤ 3) ∨
      (∀ (P' : Placement) (i' j' : Int) (cap' : CapStone F), FramedCap P' i' j' cap' → |cap'.center.x| ≤ 1000000 → |cap'.center.y| ≤ 1000000 →
        ∃ x y : ℚ, Is (axes cap cap'.center).1 x ∧ Is (axes cap cap'.center).2 y ∧
          abs (2 * t * x - |(((P'.twice i' j').y - (P.twice i j).y : Int) : ℚ)|) ≤ 3 ∧
          abs (2 * t * y - |(((P'.twice i' j').x - (P.twice i j).x : Int) : ℚ)|) ≤ 3)) := by
  obtain ⟨t, t1, t2, ht⟩ := hc.from_point h hs
  have q6 : (P.scale : ℚ) ≤ 476 := by exact_mod_cast hs'
  have t0 : 0 < t := by linarith
  have key : ∀ {x : ℚ} {c C C' : Int}, |x - |((2 * c - C : Int) : ℚ)| / 2 / t| ≤ 1 / 1000 → |2 * c - C'| ≤ 2 →
      abs (2 * t * x - |((C' - C : Int) : ℚ)|) ≤ 3 := by
    intro x c C C' h1 h2
    have h2' : |((2 * c - C' : Int) : ℚ)| ≤ 2 := by exact_mod_cast h2
    have h3 := abs_abs_sub_abs_le_abs_sub ((2 * c - C : Int) : ℚ) ((C' - C : Int) : ℚ)
    rw [show ((2 * c - C : Int) : ℚ) - ((C' - C : Int) : ℚ) = ((2 * c - C' : Int) : ℚ) by push_cast; ring] at h3
    generalize |((2 * c - C : Int) : ℚ)| = D at *
    generalize |((C' - C : Int) : ℚ)| = E at *
    have h4 : |2 * t * x - D| ≤ 2 * t * (1 / 1000) := by
      have : 2 * t * x - D = 2 * t * (x - D / 2 / t) := by field_simp
      rw [this, abs_mul, abs_of_pos (show 0 < 2 * t by linarith)]
      exact mul_le_mul_of_nonneg_left h1 (by linarith)
    rw [abs_le] at h3 h4 ⊢
    constructor <;> linarith
  refine ⟨t, t1, t2, ?_⟩
  rcases ht with ht | ht
  · left
    intro P' i' j' cap' hc' bx by'
    obtain ⟨x, y, hx, hy, ex, ey⟩ := ht cap'.center bx by'
    obtain ⟨c1, c2⟩ := hc'.center_twice
    exact ⟨x, y, hx, hy, key ex c1, key ey c2⟩
  · right
    intro P' i' j' cap' hc' bx by'
    obtain ⟨x, y, hx, hy, ex, ey⟩ := ht cap'.center bx by'
    obtain ⟨c1, c2⟩ := hc'.center_twice
    exact ⟨x, y, hx, hy, key ex c2, key ey c1⟩

theorem beside_close {x y : F} {r s : ℚ} (hx : Is x r) (hy : Is y s) (hs : |s| ≤ 100000) (h : beside x y = true) : 5 * r ≤ s + 1 / 1000000 := by
  have l := Rounding.lit (F := F) 2 1 (by norm_num)
  rw [show ((2 : Nat) : ℚ) / 10 ^ 1 = 1 / 5 by norm_num] at l
  have hl := rnd_near (F := F) (1 / 5)
  rw [abs_of_pos (show (0 : ℚ) < 1 / 5 by norm_num)] at hl
  have hl' : |rnd F (1 / 5) - 1 / 5| ≤ 1 / 10 ^ 13 := hl.trans (by norm_num)
  have hp : |(rnd F (1 / 5) - 1 / 5) * s| ≤ 1 / 10 ^ 13 * 100000 := by
    rw [abs_mul]
    exact mul_le_mul hl' hs (abs_nonneg _) (by norm_num)
  rw [abs_le] at hp hs
  have hb : |rnd F (1 / 5) * s| ≤ 100000 := by rw [abs_le]; constructor <;> linarith
  have hm := Rounding.mul l hy (hb.trans (by norm_num))
  have hr := rnd_near (F := F) (rnd F (1 / 5) * s)
  have hr' : |rnd F (rnd F (1 / 5) * s) - rnd F (1 / 5) * s| ≤ 1 / 10 ^ 8 := by
    refine hr.trans ?_
    have : |rnd F (1 / 5) * s| / 2 ^ 53 ≤ 100000 / 2 ^ 53 := div_le_div_of_nonneg_right hb (by norm_num)
    have h2 : (100000 : ℚ) / 2 ^ 53 + 1 / 2 ^ 200 ≤ 1 / 10 ^ 8 := by norm_num
    linarith
  unfold beside at h
  rw [Rounding.lt hx hm, decide_eq_true_eq] at h
  rw [abs_le] at hr'
  linarith

/-- A low score means that the distances do not differ much. -/
theorem pairing_close {h v : F} {r s : ℚ} (hh : Is h r) (hv : Is v s) (r1 : 1 ≤ r) (s1 : 1 ≤ s) :
    ∃ q, Is (pairing h v) q ∧ (FloatOps.lt (pairing h v) (FloatOps.lit 25 2) = true → 3 * s ≤ 4 * r + s / 50000 ∧ 3 * r ≤ 4 * s + r / 50000) ∧
      (8 * r ≤ 7 * s ∨ 8 * s ≤ 7 * r → 1 / 10 ≤ q) := by
  have l1 : Is (FloatOps.lit 1 0 : F) 1 := by
    have := IntB.lit (F := F) (m := 1) (B := 1) (by norm_num) (by norm_num)
    exact_mod_cast this.1
  have l25 := Rounding.lit (F := F) 25 2 (by norm_num)
  have hl := rnd_close (F := F) (q := ((25 : Nat) : ℚ) / 10 ^ 2) (B := 1) (by norm_num [abs_of_pos]) (by norm_num)
  rw [show ((25 : Nat) : ℚ) / 10 ^ 2 = 1 / 4 by norm_num] at l25 hl
  rw [abs_le] at hl
  have core : ∀ {x y : F} {a b : ℚ}, Is x a → Is y b → 1 ≤ a → 1 ≤ b → a ≤ b →
      ∃ q, Is (FloatOps.abs (FloatOps.sub (FloatOps.lit 1 0) (FloatOps.div x y))) q ∧ (q < rnd F (1 / 4) → 3 * b ≤ 4 * a + b / 50000) ∧
        (8 * a ≤ 7 * b → 1 / 10 ≤ q) := by
    intro x y a b hx hy ha hb hab
    have b0 : 0 < b := by linarith
    have d1 : 0 ≤ a / b := by positivity
    have d2 : a / b ≤ 1 := by rw [div_le_iff₀ b0]; linarith
    have hb' : |a / b| ≤ 1 := by rw [abs_le]; constructor <;> linarith
    have e1 := Rounding.div hx hy b0.ne' (hb'.trans (by norm_num))
    have e2 := rnd_close (F := F) hb' (by norm_num)
    rw [abs_le] at e2
    have hb2 : |1 - rnd F (a / b)| ≤ 2 := by rw [abs_le]; constructor <;> linarith
    have e3 := Rounding.sub l1 e1 (hb2.trans (by norm_num))
    have e4 := rnd_close (F := F) hb2 (by norm_num)
    have h5 := le_abs_self (rnd F (1 - rnd F (a / b)))
    rw [abs_le] at e4
    refine ⟨_, Rounding.abs e3, fun hq => ?_, fun hq => ?_⟩
    · have h6 : 3 / 4 - 4 / 1000000 ≤ a / b := by linarith
      rw [le_div_iff₀ b0] at h6
      linarith
    · have h6 : a / b ≤ 7 / 8 := by rw [div_le_iff₀ b0]; linarith
      linarith
  unfold pairing
  rw [Rounding.lt hh hv]
  by_cases hlt : r < s
  · rw [if_pos (decide_eq_true hlt)]
    obtain ⟨q, hq, hle, hoff⟩ := core hh hv r1 s1 hlt.le
    refine ⟨q, hq, fun hlow => ?_, fun ho => hoff (by rcases ho with ho | ho <;> linarith)⟩
    rw [Rounding.lt hq l25, decide_eq_true_eq] at hlow
    exact ⟨hle hlow, by linarith⟩
  · rw [if_neg (by simpa using hlt)]
    obtain ⟨q, hq, hle, hoff⟩ := core hv hh s1 r1 (by linarith)
    refine ⟨q, hq, fun hlow => ?_, fun ho => hoff (by rcases ho with ho | ho <;> linarith)⟩
    rw [Rounding.lt hq l25, decide_eq_true_eq] at hlow
    exact ⟨by linarith, hle hlow⟩

/-- Neighbours of a capstone that have a low score, in doubled coordinates. -/
theorem almost_corner {x y u w : F} {t r s r' s' : ℚ} {dx dy ex ey : Int} (t1 : 1 ≤ t) (t2 : t ≤ 476)
    (hx : Is x r) (hy : Is y s) (hu : Is u r') (hw : Is w s')
    (h1 : abs (2 * t * r - |(dx : ℚ)|) ≤ 3) (h2 : abs (2 * t * s - |(dy : ℚ)|) ≤ 3) (h3 : abs (2 * t * r' - |(ex : ℚ)|) ≤ 3) (h4 : abs (2 * t * s' - |(ey : ℚ)|) ≤ 3)
    (by' : |dy| ≤ 20000) (cx : |ex| ≤ 20000)
    (f1 : 14 + 7 * t ≤ |(dx : ℚ)| ∨ 14 + 7 * t ≤ |(dy : ℚ)|) (f2 : 14 + 7 * t ≤ |(ex : ℚ)| ∨ 14 + 7 * t ≤ |(ey : ℚ)|)
    (hb1 : beside x y = true) (hb2 : beside w u = true) :
    ∃ q, Is (pairing y u) q ∧ (8 * |dy| + 48 < 7 * |ex| ∨ 8 * |ex| + 48 < 7 * |dy| → 1 / 10 ≤ q) ∧
      (FloatOps.lt (pairing y u) (FloatOps.lit 25 2) = true → 5 * |dx| ≤ |dy| + 24 ∧ 5 * |ey| ≤ |ex| + 24 ∧ 3 * |dy| ≤ 4 * |ex| + 24 ∧ 3 * |ex| ≤ 4 * |dy| + 24) := by
  have t0 : 0 < t := by linarith
  have bound : ∀ {a : ℚ} {d : Int}, abs (2 * t * a - |(d : ℚ)|) ≤ 3 → |d| ≤ 20000 → |a| ≤ 100000 := by
    intro a d h hd
    have hd' : |(d : ℚ)| ≤ 20000 := by exact_mod_cast hd
    have hd0 := abs_nonneg (d : ℚ)
    rw [abs_le] at h ⊢
    constructor <;> nlinarith
  have n1 := abs_nonneg (dx : ℚ)
  have n2 := abs_nonneg (dy : ℚ)
  have n3 := abs_nonneg (ex : ℚ)
  have n4 := abs_nonneg (ey : ℚ)
  have k1 := beside_close hx hy (bound h2 by') hb1
  have k2 := beside_close hw hu (bound h3 cx) hb2
  have qy : |(dy : ℚ)| ≤ 20000 := by exact_mod_cast by'
  have qx : |(ex : ℚ)| ≤ 20000 := by exact_mod_cast cx
  rw [abs_le] at h1 h2 h3 h4
  have m1 : 5 * (2 * t * r) ≤ 2 * t * s + 1 / 1000 := by
    have : 2 * t * (5 * r) ≤ 2 * t * (s + 1 / 1000000) := mul_le_mul_of_nonneg_left k1 (by linarith)
    linarith
  have m2 : 5 * (2 * t * s') ≤ 2 * t * r' + 1 / 1000 := by
    have : 2 * t * (5 * s') ≤ 2 * t * (r' + 1 / 1000000) := mul_le_mul_of_nonneg_left k2 (by linarith)
    linarith
  have p1 : 5 * |(dx : ℚ)| ≤ |(dy : ℚ)| + 24 := by linarith
  have p2 : 5 * |(ey : ℚ)| ≤ |(ex : ℚ)| + 24 := by linarith
  have g1 : 14 + 7 * t ≤ |(dy : ℚ)| := by
    rcases f1 with f1 | f1 <;> linarith
  have g2 : 14 + 7 * t ≤ |(ex : ℚ)| := by
    rcases f2 with f2 | f2 <;> linarith
  have s1 : 1 ≤ s := by
    by_contra hlt
    have : 2 * t * s ≤ 2 * t * 1 := mul_le_mul_of_nonneg_left (by linarith) (by linarith)
    linarith
  have r1 : 1 ≤ r' := by
    by_contra hlt
    have : 2 * t * r' ≤ 2 * t * 1 := mul_le_mul_of_nonneg_left (by linarith) (by linarith)
    linarith
  obtain ⟨q, e1, e2, e3⟩ := pairing_close hy hu s1 r1
  refine ⟨q, e1, fun ho => e3 ?_, fun hlow => ?_⟩
  · rcases ho with ho | ho
    · left
      have ho' : 8 * |(dy : ℚ)| + 48 < 7 * |(ex : ℚ)| := by exact_mod_cast ho
      by_contra hlt
      have : 2 * t * (7 * r') ≤ 2 * t * (8 * s) := mul_le_mul_of_nonneg_left (by linarith) (by linarith)
      linarith
    · right
      have ho' : 8 * |(ex : ℚ)| + 48 < 7 * |(dy : ℚ)| := by exact_mod_cast ho
      by_contra hlt
      have : 2 * t * (7 * s) ≤ 2 * t * (8 * r') := mul_le_mul_of_nonneg_left (by linarith) (by linarith)
      linarith
  obtain ⟨l1, l2⟩ := e2 hlow
  have m3 : 3 * (2 * t * r') ≤ 4 * (2 * t * s) + (2 * t * r') / 50000 := by
    have : 2 * t * (3 * r') ≤ 2 * t * (4 * s + r' / 50000) := mul_le_mul_of_nonneg_left l1 (by linarith)
    linarith
  have m4 : 3 * (2 * t * s) ≤ 4 * (2 * t * r') + (2 * t * s) / 50000 := by
    have : 2 * t * (3 * s) ≤ 2 * t * (4 * r' + s / 50000) := mul_le_mul_of_nonneg_left l2 (by linarith)
    linarith
  have p3 : 3 * |(dy : ℚ)| ≤ 4 * |(ex : ℚ)| + 24 := by linarith
  have p4 : 3 * |(ex : ℚ)| ≤ 4 * |(dy : ℚ)| + 24 := by linarith
  exact ⟨by exact_mod_cast p1, by exact_mod_cast p2, by exact_mod_cast p3, by exact_mod_cast p4⟩

end Rqrr
