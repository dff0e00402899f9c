import Verif.Proofs.BoxGrid
import Verif.Proofs.FramedGroup

/-!
# The capstones of a drawing with modules of unequal sizes
-/

namespace Rqrr

open Spec ImageBuffer Spec.Placement Rounding

variable {F : Type} [FloatOps F] [Rounding F]

namespace Spec.Placement

/-- The rectangle seen from its `k`-th corner. -/
def rectTurn (P : Placement) (i j m l : Int) : Nat → Placement
  | 0 => ⟨P.pixel i j, P.right, P.scale⟩
  | 1 => ⟨P.pixel (i + m) j, ⟨-P.right.y, P.right.x⟩, P.scale⟩
  | 2 => ⟨P.pixel (i + m) (j + l), ⟨-P.right.x, -P.right.y⟩, P.scale⟩
  | _ => ⟨P.pixel i (j + l), ⟨P.right.y, -P.right.x⟩, P.scale⟩

/-- The length of its first side from there. -/
def turnSide (m l : Int) : Nat → Int
  | 0 => m
  | 1 => l
  | 2 => m
  | _ => l

variable {P : Placement}

theorem rectTurn_axis (h : IsAxis P.right) (i j m l : Int) (k : Nat) : IsAxis (P.rectTurn i j m l k).right := by
  unfold rectTurn IsAxis
  rcases k with _ | _ | _ | k <;> rcases h with h | h | h | h <;> rw [h] <;> simp

theorem rectTurn_rect (i j m l : Int) {k : Nat} (hk : k < 4) :
    rotateLeft4 (P.rect i j m l) k = (P.rectTurn i j m l k).rect 0 0 (turnSide m l k) (turnSide l m k) := by
  obtain ⟨r0, r1, r2, r3⟩ := rotate_get (P.pixel i j) (P.pixel (i + m) j) (P.pixel (i + m) (j + l)) (P.pixel i (j + l))
  have : k = 0 ∨ k = 1 ∨ k = 2 ∨ k = 3 := by omega
  unfold rect
  rcases this with rfl | rfl | rfl | rfl
  · rw [r0]
    refine point_key ?_ ?_ ?_ ?_ <;> simp only [rectTurn, turnSide, pixel] <;> refine point_ext ?_ ?_ <;> ring
  · rw [r1]
    refine point_key ?_ ?_ ?_ ?_ <;> simp only [rectTurn, turnSide, pixel] <;> refine point_ext ?_ ?_ <;> ring
  · rw [r2]
    refine point_key ?_ ?_ ?_ ?_ <;> simp only [rectTurn, turnSide, pixel] <;> refine point_ext ?_ ?_ <;> ring
  · rw [r3]
    refine point_key ?_ ?_ ?_ ?_ <;> simp only [rectTurn, turnSide, pixel] <;> refine point_ext ?_ ?_ <;> ring

theorem rectTurn_pixel (i j m l a b : Int) :
    (P.rectTurn i j m l 0).pixel (0 + (a - i)) (0 + (b - j)) = P.pixel a b ∧
    (P.rectTurn i j m l 1).pixel (0 + (b - j)) (0 + (i + m - a)) = P.pixel a b ∧
    (P.rectTurn i j m l 2).pixel (0 + (i + m - a)) (0 + (j + l - b)) = P.pixel a b ∧
    (P.rectTurn i j m l 3).pixel (0 + (j + l - b)) (0 + (a - i)) = P.pixel a b := by
  refine ⟨?_, ?_, ?_, ?_⟩ <;> simp only [rectTurn, pixel] <;> refine point_ext ?_ ?_ <;> ring

end Spec.Placement

/-- A capstone at a rectangle of a drawing. -/
structure BoxedCap (P : Placement) (i j m l : Int) (cap : CapStone F) : Prop where
  corners : ∃ k < 4, cap.corners = rotateLeft4 (P.rect i j m l) k
  within : Within (P.rect i j m l)
  transform : Perspective.create cap.corners (FloatOps.lit 7 0) (FloatOps.lit 7 0) = some cap.c
  center : ∃ a b : Int, cap.center = P.pixel a b ∧ |2 * a - (2 * i + m)| ≤ 1 ∧ |2 * b - (2 * j + l)| ≤ 1

/-- The transform of such a capstone. -/
theorem rect_transform {P : Placement} (h : IsAxis P.right) {i j m l : Int} (hm : 0 < m) (hl : 0 < l) {cap : CapStone F}
    (hw : Within (P.rect i j m l)) {k : Nat} (hk : k < 4) (e : cap.corners = rotateLeft4 (P.rect i j m l) k)
    (ht : Perspective.create cap.corners (FloatOps.lit 7 0) (FloatOps.lit 7 0) = some cap.c) :
    Rounded cap.c ((P.rectTurn i j m l k).mesh 0 0 ((turnSide m l k : ℚ) / 7) ((turnSide l m k : ℚ) / 7)) := by
  have hw := hw.rotate k
  rw [rectTurn_rect i j _ _ hk] at hw
  have s1 : 0 < turnSide m l k := by unfold turnSide; split <;> assumption
  have s2 : 0 < turnSide l m k := by unfold turnSide; split <;> assumption
  obtain ⟨c, e', hr⟩ := create_rect_rounded (F := F) (rectTurn_axis h i j m l k) 0 0 s1 s2 lit7_int (by norm_num) hw
  rw [e, rectTurn_rect i j _ _ hk, e'] at ht
  rw [← Option.some.inj ht]
  exact_mod_cast hr

theorem abs_small {x : Int} (h : |x| ≤ 32767) : |(x : ℚ)| ≤ 1000000 := by
  have : |x| ≤ 1000000 := by omega
  exact_mod_cast this

theorem side_bounds {m : Int} (h1 : 7 ≤ m) (h2 : m ≤ 32768) : 1 ≤ (m : ℚ) / 7 ∧ (m : ℚ) / 7 ≤ 5000 := by
  have a1 : (7 : ℚ) ≤ m := by exact_mod_cast h1
  have a2 : (m : ℚ) ≤ 32768 := by exact_mod_cast h2
  exact ⟨by rw [le_div_iff₀ (by norm_num)]; linarith, by rw [div_le_iff₀ (by norm_num)]; linarith⟩

theorem rect_within_turn {P : Placement} {i j m l : Int} (hw : Within (P.rect i j m l)) {k : Nat} (hk : k < 4) :
    |(((P.rectTurn i j m l k).pixel 0 0).x : ℚ)| ≤ 1000000 ∧ |(((P.rectTurn i j m l k).pixel 0 0).y : ℚ)| ≤ 1000000 := by
  have hw := hw.rotate k
  rw [rectTurn_rect i j _ _ hk] at hw
  have : |((P.rectTurn i j m l k).pixel 0 0).x| ≤ 32767 ∧ |((P.rectTurn i j m l k).pixel 0 0).y| ≤ 32767 := hw 0 (by decide)
  exact ⟨abs_small this.1, abs_small this.2⟩

/-- Where the centre of a rectangle is. -/
theorem rect_center {P : Placement} (h : IsAxis P.right) {i j m l : Int} (hm : 7 ≤ m) (hl : 7 ≤ l) (hm' : m ≤ 32768) (hl' : l ≤ 32768) {cap : CapStone F}
    (hw : Within (P.rect i j m l)) (hc : ∃ k < 4, cap.corners = rotateLeft4 (P.rect i j m l) k)
    (ht : Perspective.create cap.corners (FloatOps.lit 7 0) (FloatOps.lit 7 0) = some cap.c)
    (hm2 : cap.c.map (FloatOps.lit 35 1) (FloatOps.lit 35 1) = .ok cap.center) : BoxedCap P i j m l cap := by
  refine ⟨hc, hw, ht, ?_⟩
  obtain ⟨k, hk, e⟩ := hc
  have hr := rect_transform h (by omega) (by omega) hw hk e ht
  obtain ⟨b1, b2⟩ := rect_within_turn hw hk
  have s1 : 1 ≤ (turnSide m l k : ℚ) / 7 ∧ (turnSide m l k : ℚ) / 7 ≤ 5000 := by
    unfold turnSide; split <;> exact side_bounds (by assumption) (by assumption)
  have s2 : 1 ≤ (turnSide l m k : ℚ) / 7 ∧ (turnSide l m k : ℚ) / 7 ≤ 5000 := by
    unfold turnSide; split <;> exact side_bounds (by assumption) (by assumption)
  obtain ⟨A, B, e', eA, eB⟩ := mesh_near (rectTurn_axis h i j m l k) hr (T := 5000) (Q := 1000000) (by linarith) s1.2 (by linarith) s2.2 (by norm_num)
    (by norm_num) (by norm_num) (by norm_num) b1 b2 sc35 sc35 (by norm_num) (by norm_num) (by norm_num)
  rw [e'] at hm2
  have hcen := Except.ok.inj hm2
  have conv : ∀ {A s : Int}, |(A : ℚ) - (s : ℚ) / 7 * (7 / 2)| ≤ 41 / 80 → |2 * A - s| ≤ 1 := by
    intro A s h
    rw [abs_le] at h ⊢
    have h1 : ((2 * A - s : Int) : ℚ) < ((2 : Int) : ℚ) := by push_cast; linarith
    have h2 : ((-2 : Int) : ℚ) < ((2 * A - s : Int) : ℚ) := by push_cast; linarith
    have h1' := Int.cast_lt.1 h1
    have h2' := Int.cast_lt.1 h2
    omega
  have cA := conv eA
  have cB := conv eB
  rw [abs_le] at cA cB
  have : k = 0 ∨ k = 1 ∨ k = 2 ∨ k = 3 := by omega
  rcases this with rfl | rfl | rfl | rfl <;> simp only [turnSide] at cA cB
  · refine ⟨i + A, j + B, ?_, ?_, ?_⟩
    · rw [← hcen, ← (rectTurn_pixel (P := P) i j m l (i + A) (j + B)).1]; congr 1 <;> ring
    all_goals rw [abs_le]; omega
  · refine ⟨i + m - B, j + A, ?_, ?_, ?_⟩
    · rw [← hcen, ← (rectTurn_pixel (P := P) i j m l (i + m - B) (j + A)).2.1]; congr 1 <;> ring
    all_goals rw [abs_le]; omega
  · refine ⟨i + m - A, j + l - B, ?_, ?_, ?_⟩
    · rw [← hcen, ← (rectTurn_pixel (P := P) i j m l (i + m - A) (j + l - B)).2.2.1]; congr 1 <;> ring
    all_goals rw [abs_le]; omega
  · refine ⟨i + B, j + l - A, ?_, ?_, ?_⟩
    · rw [← hcen, ← (rectTurn_pixel (P := P) i j m l (i + B) (j + l - A)).2.2.2]; congr 1 <;> ring
    all_goals rw [abs_le]; omega

/-- Distances from such a capstone, in its modules. -/
theorem BoxedCap.distances {P : Placement} (h : IsAxis P.right) {i j m l : Int} (hm : 7 ≤ m) (hl : 7 ≤ l) (hm' : m ≤ 32768) (hl' : l ≤ 32768)
    {cap : CapStone F} (hc : BoxedCap P i j m l cap) :
    (∀ a b : Int, |((P.pixel a b).x : ℚ)| ≤ 1000000 → |((P.pixel a b).y : ℚ)| ≤ 1000000 → ∃ x y : ℚ, Is (axes cap (P.pixel a b)).1 x ∧
      Is (axes cap (P.pixel a b)).2 y ∧ |x - |(a : ℚ) - i - m / 2| / (m / 7)| ≤ 1 / 1000 ∧ |y - |(b : ℚ) - j - l / 2| / (l / 7)| ≤ 1 / 1000) ∨
    (∀ a b : Int, |((P.pixel a b).x : ℚ)| ≤ 1000000 → |((P.pixel a b).y : ℚ)| ≤ 1000000 → ∃ x y : ℚ, Is (axes cap (P.pixel a b)).1 x ∧
      Is (axes cap (P.pixel a b)).2 y ∧ |x - |(b : ℚ) - j - l / 2| / (l / 7)| ≤ 1 / 1000 ∧ |y - |(a : ℚ) - i - m / 2| / (m / 7)| ≤ 1 / 1000) := by
  obtain ⟨k, hk, e⟩ := hc.corners
  have hr := rect_transform h (by omega) (by omega) hc.within hk e hc.transform
  obtain ⟨b1, b2⟩ := rect_within_turn hc.within hk
  have s1 : 1 ≤ (turnSide m l k : ℚ) / 7 ∧ (turnSide m l k : ℚ) / 7 ≤ 5000 := by
    unfold turnSide; split <;> exact side_bounds (by assumption) (by assumption)
  have s2 : 1 ≤ (turnSide l m k : ℚ) / 7 ∧ (turnSide l m k : ℚ) / 7 ≤ 5000 := by
    unfold turnSide; split <;> exact side_bounds (by assumption) (by assumption)
  have one : ∀ {u : F} {X t : ℚ}, 1 ≤ t → Sc u (X / t) (8 * 1000000 / t) 113 →
      ∃ x, Is (FloatOps.abs (FloatOps.sub u (FloatOps.lit 35 1))) x ∧ |x - |X - 7 / 2 * t| / t| ≤ 1 / 1000 := by
    intro u X t ht1 hu
    have ht : 0 < t := by linarith
    have hL2 : 8 * 1000000 / t ≤ 8000000 := by rw [div_le_iff₀ ht]; linarith
    obtain ⟨r, hr, he⟩ := ((hu.sub sc35 (by linarith) (by norm_num)).abs).ex
    refine ⟨r, hr, ?_⟩
    have e : |X / t - 7 / 2| = |X - 7 / 2 * t| / t := by
      rw [show X / t - 7 / 2 = (X - 7 / 2 * t) / t by field_simp, abs_div, abs_of_pos ht]
    rw [← e]
    refine he.trans ?_
    have : (8 * 1000000 / t + 4) * ((113 + 1 + 1) / 2 ^ 50) ≤ 8000004 * ((113 + 1 + 1) / 2 ^ 50) :=
      mul_le_mul_of_nonneg_right (by linarith) (by norm_num)
    exact this.trans (by norm_num)
  have main : ∀ A B a b : Int, (P.rectTurn i j m l k).pixel (0 + A) (0 + B) = P.pixel a b → |((P.pixel a b).x : ℚ)| ≤ 1000000 →
      |((P.pixel a b).y : ℚ)| ≤ 1000000 → ∃ x y : ℚ, Is (axes cap (P.pixel a b)).1 x ∧ Is (axes cap (P.pixel a b)).2 y ∧
        |x - |(A : ℚ) - turnSide m l k / 2| / (turnSide m l k / 7)| ≤ 1 / 1000 ∧
        |y - |(B : ℚ) - turnSide l m k / 2| / (turnSide l m k / 7)| ≤ 1 / 1000 := by
    intro A B a b ep px py
    rw [← ep] at px py
    obtain ⟨u1, u2⟩ := mesh_unmap (rectTurn_axis h i j m l k) hr (Q := 1000000) s1.1 (by linarith) s2.1 (by linarith) (by norm_num) (by linarith) (by linarith)
      b1 b2 px py
    rw [ep] at u1 u2
    obtain ⟨x, hx, ex⟩ := one s1.1 u1
    obtain ⟨y, hy, ey⟩ := one s2.1 u2
    rw [show 7 / 2 * ((turnSide m l k : ℚ) / 7) = turnSide m l k / 2 by ring] at ex
    rw [show 7 / 2 * ((turnSide l m k : ℚ) / 7) = turnSide l m k / 2 by ring] at ey
    exact ⟨x, y, hx, hy, ex, ey⟩
  have flip : ∀ {a i m : Int}, |((i + m - a : Int) : ℚ) - (m : ℚ) / 2| = |(a : ℚ) - i - m / 2| := by
    intro a i m
    rw [← abs_neg]
    congr 1
    push_cast; ring
  have keep : ∀ {a i m : Int}, |((a - i : Int) : ℚ) - (m : ℚ) / 2| = |(a : ℚ) - i - m / 2| := by
    intro a i m
    congr 1
    push_cast; ring
  have : k = 0 ∨ k = 1 ∨ k = 2 ∨ k = 3 := by omega
  rcases this with rfl | rfl | rfl | rfl
  · left
    intro a b px py
    have := main _ _ a b (rectTurn_pixel i j m l a b).1 px py
    simp only [turnSide, flip, keep] at this
    exact this
  · right
    intro a b px py
    have := main _ _ a b (rectTurn_pixel i j m l a b).2.1 px py
    simp only [turnSide, flip, keep] at this
    exact this
  · left
    intro a b px py
    have := main _ _ a b (rectTurn_pixel i j m l a b).2.2.1 px py
    simp only [turnSide, flip, keep] at this
    exact this
  · right
    intro a b px py
    have := main _ _ a b (rectTurn_pixel i j m l a b).2.2.2 px py
    simp only [turnSide, flip, keep] at this
    exact this

end Rqrr
