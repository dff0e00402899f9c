import Verif.Proofs.Frame
import Verif.Proofs.Neighbors
import Verif.Proofs.AffineRounded

/-!
# Transforms and capstones of a drawing
-/

namespace Rqrr

open Spec ImageBuffer Rounding

variable {F : Type} [FloatOps F] [Rounding F]

namespace Spec.Placement

variable {P : Placement}

/-- The transform that takes `(u, v)` to column `i + t u` and row `j + t v` of the drawing. -/
def grid (P : Placement) (i j : Int) (t : ℚ) : Perspective ℚ :=
  affine (t * P.right.x) (-(t * P.right.y)) (P.pixel i j).x (t * P.right.y) (t * P.right.x) (P.pixel i j).y

theorem grid_aff {i j : Int} {t T Q : ℚ} {c : Perspective F} (h : IsAxis P.right) (hc : Rounded c (P.grid i j t)) (h0 : 0 ≤ t) (ht : t ≤ T)
    (h1 : 1 ≤ T) (h2 : T ≤ 2 ^ 100) (q1 : 1 ≤ Q) (q2 : Q ≤ 2 ^ 100) (bx : |((P.pixel i j).x : ℚ)| ≤ Q) (by' : |((P.pixel i j).y : ℚ)| ≤ Q) :
    Aff c (t * P.right.x) (-(t * P.right.y)) (P.pixel i j).x (t * P.right.y) (t * P.right.x) (P.pixel i j).y T Q := by
  have hx : |t * P.right.x| ≤ T := by
    rcases h with h | h | h | h <;> rw [h] <;> push_cast <;> rw [abs_le] <;> constructor <;> linarith
  have hy : |t * P.right.y| ≤ T := by
    rcases h with h | h | h | h <;> rw [h] <;> push_cast <;> rw [abs_le] <;> constructor <;> linarith
  exact Rounded.aff hc h1 h2 q1 q2 hx (by rwa [abs_neg]) bx hy hx by'

/-- Where samples fall. -/
theorem grid_near (h : IsAxis P.right) {i j : Int} {t T Q : ℚ} {c : Perspective F} (hc : Rounded c (P.grid i j t)) (h0 : 0 ≤ t) (ht : t ≤ T)
    (h1 : 1 ≤ T) (h2 : T ≤ 2 ^ 100) (q1 : 1 ≤ Q) (q2 : Q ≤ 2 ^ 100) (bx : |((P.pixel i j).x : ℚ)| ≤ Q) (by' : |((P.pixel i j).y : ℚ)| ≤ Q)
    {u v : F} {U V L k : ℚ} (hu : Sc u U L k) (hv : Sc v V L k) (hk : k ≤ 10000) (hS : T * L + T * L + Q ≤ 1000000000)
    (he : (T * L + T * L + Q) * (2 * k + 10) ≤ 10000000000000) :
    ∃ x y, c.map u v = .ok ⟨nearest x, nearest y⟩ ∧ |x - ((P.pixel i j).x + t * U * P.right.x - t * V * P.right.y)| ≤ 1 / 80 ∧
      |y - ((P.pixel i j).y + t * U * P.right.y + t * V * P.right.x)| ≤ 1 / 80 := by
  obtain ⟨x, y, e, ex, ey⟩ := (grid_aff h hc h0 ht h1 h2 q1 q2 bx by').map hu hv hk hS he
  refine ⟨x, y, e, ?_, ?_⟩
  · rw [show ((P.pixel i j).x : ℚ) + t * U * P.right.x - t * V * P.right.y = t * P.right.x * U + -(t * P.right.y) * V + (P.pixel i j).x by ring]
    exact ex
  · rw [show ((P.pixel i j).y : ℚ) + t * U * P.right.y + t * V * P.right.x = t * P.right.y * U + t * P.right.x * V + (P.pixel i j).y by ring]
    exact ey

/-- Where samples fall that are not too far from whole numbers of pixels. -/
theorem grid_map (h : IsAxis P.right) {i j A B : Int} {t T Q : ℚ} {c : Perspective F} (hc : Rounded c (P.grid i j t)) (h0 : 0 ≤ t) (ht : t ≤ T)
    (h1 : 1 ≤ T) (h2 : T ≤ 2 ^ 100) (q1 : 1 ≤ Q) (q2 : Q ≤ 2 ^ 100) (bx : |((P.pixel i j).x : ℚ)| ≤ Q) (by' : |((P.pixel i j).y : ℚ)| ≤ Q)
    {u v : F} {U V L k : ℚ} (hu : Sc u U L k) (hv : Sc v V L k) (hk : k ≤ 10000) (hS : T * L + T * L + Q ≤ 1000000000)
    (he : (T * L + T * L + Q) * (2 * k + 10) ≤ 10000000000000) (hA : |t * U - A| < 39 / 80) (hB : |t * V - B| < 39 / 80) :
    c.map u v = .ok (P.pixel (i + A) (j + B)) := by
  obtain ⟨a1, a2⟩ := abs_lt.1 hA
  obtain ⟨c1, c2⟩ := abs_lt.1 hB
  obtain ⟨x, y, e, ex, ey⟩ := grid_near h hc h0 ht h1 h2 q1 q2 bx by' hu hv hk hS he
  rw [abs_le] at ex ey
  have hx : |x - (P.pixel (i + A) (j + B)).x| < 1 / 2 := by
    rw [abs_lt]
    revert ex
    unfold pixel
    rcases h with h | h | h | h <;> rw [h] <;> push_cast <;> rintro ⟨ex1, ex2⟩ <;> constructor <;> linarith
  have hy : |y - (P.pixel (i + A) (j + B)).y| < 1 / 2 := by
    rw [abs_lt]
    revert ey
    unfold pixel
    rcases h with h | h | h | h <;> rw [h] <;> push_cast <;> rintro ⟨ey1, ey2⟩ <;> constructor <;> linarith
  obtain ⟨x1, x2⟩ := abs_lt.1 hx
  obtain ⟨y1, y2⟩ := abs_lt.1 hy
  rw [e]
  rw [nearest_eq (n := (P.pixel (i + A) (j + B)).x) (by linarith) (by linarith),
    nearest_eq (n := (P.pixel (i + A) (j + B)).y) (by linarith) (by linarith)]

/-- Back from a pixel. -/
theorem grid_unmap (h : IsAxis P.right) {i j : Int} {t Q : ℚ} {c : Perspective F} (hc : Rounded c (P.grid i j t)) (h1 : 1 ≤ t) (ht : t ≤ 32768)
    (hQ : Q ≤ 1000000) (htQ : t ≤ Q) (bx : |((P.pixel i j).x : ℚ)| ≤ Q) (by' : |((P.pixel i j).y : ℚ)| ≤ Q) {p : Point} {A B : ℚ}
    (hpx : |(p.x : ℚ)| ≤ Q) (hpy : |(p.y : ℚ)| ≤ Q)
    (hx : (p.x : ℚ) = (P.pixel i j).x + A * P.right.x - B * P.right.y) (hy : (p.y : ℚ) = (P.pixel i j).y + A * P.right.y + B * P.right.x) :
    Sc (c.unmap p).1 (A / t) (8 * Q / t) 113 ∧ Sc (c.unmap p).2 (B / t) (8 * Q / t) 113 := by
  have ha := grid_aff h hc (by linarith) (le_refl t) h1 (by linarith) (by linarith) (by linarith) bx by'
  have hd : t * P.right.x * (t * P.right.x) - -(t * P.right.y) * (t * P.right.y) = t * t := by
    rcases h with h | h | h | h <;> rw [h] <;> push_cast <;> ring
  obtain ⟨e1, e2⟩ := ha.unmap hd ht hQ htQ hpx hpy
  have t0 : t ≠ 0 := by linarith
  constructor
  · convert e1 using 1
    rw [hx, hy]
    rcases h with h | h | h | h <;> rw [h] <;> push_cast <;> field_simp <;> ring
  · convert e2 using 1
    rw [hx, hy]
    rcases h with h | h | h | h <;> rw [h] <;> push_cast <;> field_simp <;> ring

theorem create_corners (h : IsAxis P.right) (i j : Int) {m : Int} (hm : 0 < m) {w : ℚ} (hw : 1 ≤ w) :
    Perspective.create (P.corners i j m) w w = some (P.grid i j (m / w)) := by
  have hw0 : w ≠ 0 := by linarith
  rw [create_parallelogram hw]
  · congr 1
    unfold grid
    show affine (((P.pixel (i + m) j).x - (P.pixel i j).x) / w) (((P.pixel i (j + m)).x - (P.pixel i j).x) / w) (P.pixel i j).x
      (((P.pixel (i + m) j).y - (P.pixel i j).y) / w) (((P.pixel i (j + m)).y - (P.pixel i j).y) / w) (P.pixel i j).y = _
    have key : ∀ {a b c d a' b' c' d' x y : ℚ}, a = a' → b = b' → c = c' → d = d' → affine a b x c d y = affine a' b' x c' d' y := by
      rintro _ _ _ _ _ _ _ _ _ _ rfl rfl rfl rfl; rfl
    unfold pixel
    refine key ?_ ?_ ?_ ?_ <;> push_cast <;> field_simp <;> ring
  · show (P.pixel i j).x + (P.pixel (i + m) (j + m)).x = (P.pixel (i + m) j).x + (P.pixel i (j + m)).x
    unfold pixel; dsimp only; ring
  · show (P.pixel i j).y + (P.pixel (i + m) (j + m)).y = (P.pixel (i + m) j).y + (P.pixel i (j + m)).y
    unfold pixel; dsimp only; ring
  · show 0 < area2 (P.pixel (i + m) j) (P.pixel (i + m) (j + m)) (P.pixel i (j + m))
    have : area2 (P.pixel (i + m) j) (P.pixel (i + m) (j + m)) (P.pixel i (j + m)) = m * m := by
      unfold area2 pixel
      rcases h with h | h | h | h <;> rw [h] <;> dsimp only <;> ring
    rw [this]; positivity

/-- The same, rounded. -/
theorem create_corners_rounded (h : IsAxis P.right) (i j : Int) {m : Int} (hm : 0 < m) {w : F} {W : Int} (hw : IntB w W 200) (hW : 1 ≤ W)
    (hr : Within (P.corners i j m)) : ∃ c, Perspective.create (P.corners i j m) w w = some c ∧ Rounded c (P.grid i j (m / W)) :=
  (create_rounded hr hw).2 _ (create_corners h i j hm (by exact_mod_cast hW))

/-- The directions obtained by quarter turns. -/
def turned (P : Placement) (i j m : Int) : Nat → Placement
  | 0 => ⟨P.pixel i j, P.right, P.scale⟩
  | 1 => ⟨P.pixel (i + m) j, ⟨-P.right.y, P.right.x⟩, P.scale⟩
  | 2 => ⟨P.pixel (i + m) (j + m), ⟨-P.right.x, -P.right.y⟩, P.scale⟩
  | _ => ⟨P.pixel i (j + m), ⟨P.right.y, -P.right.x⟩, P.scale⟩

theorem turned_axis (h : IsAxis P.right) (i j m : Int) (k : Nat) : IsAxis (P.turned i j m k).right := by
  have : (P.turned i j m k).right = P.right ∨ (P.turned i j m k).right = ⟨-P.right.y, P.right.x⟩ ∨
      (P.turned i j m k).right = ⟨-P.right.x, -P.right.y⟩ ∨ (P.turned i j m k).right = ⟨P.right.y, -P.right.x⟩ := by
    match k with
    | 0 => exact .inl rfl
    | 1 => exact .inr (.inl rfl)
    | 2 => exact .inr (.inr (.inl rfl))
    | k + 3 => exact .inr (.inr (.inr rfl))
  unfold IsAxis at *
  rcases this with e | e | e | e <;> rw [e] <;> rcases h with h | h | h | h <;> rw [h] <;> simp

theorem turned_corners (i j m : Int) {k : Nat} (hk : k < 4) : rotateLeft4 (P.corners i j m) k = (P.turned i j m k).corners 0 0 m := by
  unfold corners
  obtain ⟨e0, e1, e2, e3⟩ := rotate_get (P.pixel i j) (P.pixel (i + m) j) (P.pixel (i + m) (j + m)) (P.pixel i (j + m))
  have key : ∀ {a b c d a' b' c' d' : Point}, a = a' → b = b' → c = c' → d = d' → #v[a, b, c, d] = #v[a', b', c', d'] := by
    rintro _ _ _ _ _ _ _ _ rfl rfl rfl rfl; rfl
  have pt : ∀ {a b c d : Int}, a = c → b = d → (⟨a, b⟩ : Point) = ⟨c, d⟩ := by
    rintro _ _ _ _ rfl rfl; rfl
  have : k = 0 ∨ k = 1 ∨ k = 2 ∨ k = 3 := by omega
  rcases this with rfl | rfl | rfl | rfl
  · rw [e0]; refine key ?_ ?_ ?_ ?_ <;> simp only [turned, pixel] <;> refine pt ?_ ?_ <;> ring
  · rw [e1]; refine key ?_ ?_ ?_ ?_ <;> simp only [turned, pixel] <;> refine pt ?_ ?_ <;> ring
  · rw [e2]; refine key ?_ ?_ ?_ ?_ <;> simp only [turned, pixel] <;> refine pt ?_ ?_ <;> ring
  · rw [e3]; refine key ?_ ?_ ?_ ?_ <;> simp only [turned, pixel] <;> refine pt ?_ ?_ <;> ring

end Spec.Placement

open Spec.Placement

/-- A capstone found at a square of the drawing. The centre may be off by one pixel. -/
structure FramedCap (P : Placement) (i j : Int) (cap : CapStone F) : Prop where
  corners : ∃ k < 4, cap.corners = rotateLeft4 (P.corners i j (7 * P.scale - 1)) k
  within : Within (P.corners i j (7 * P.scale - 1))
  transform : Perspective.create cap.corners (FloatOps.lit 7 0) (FloatOps.lit 7 0) = some cap.c
  centerX : P.baseX i j (7 * P.scale) + (7 * P.scale / 2 : Nat) - 1 ≤ cap.center.x ∧ cap.center.x ≤ P.baseX i j (7 * P.scale) + (7 * P.scale / 2 : Nat)
  centerY : P.baseY i j (7 * P.scale) + (7 * P.scale / 2 : Nat) - 1 ≤ cap.center.y ∧ cap.center.y ≤ P.baseY i j (7 * P.scale) + (7 * P.scale / 2 : Nat)

theorem rotate_rotate {α : Type} (v : Vector α 4) (k l : Nat) : rotateLeft4 (rotateLeft4 v k) l = rotateLeft4 v ((k + l) % 4) := by
  refine Vector.ext fun i hi => ?_
  unfold rotateLeft4
  rw [Vector.getElem_ofFn, Vector.getElem_ofFn, Vector.getElem_ofFn]
  congr 1
  dsimp only
  omega

theorem Within.rotate {r : Vector Point 4} (h : Within r) (k : Nat) : Within (rotateLeft4 r k) := by
  intro l hl
  unfold rotateLeft4
  rw [Vector.getElem_ofFn]
  exact h _ _

/-- The transform of such a capstone. -/
theorem FramedCap.c_eq {P : Placement} (h : IsAxis P.right) (hs : 0 < P.scale) {i j : Int} {cap : CapStone F} (hc : FramedCap P i j cap) :
    ∃ k < 4, cap.corners = rotateLeft4 (P.corners i j (7 * P.scale - 1)) k ∧
      Rounded cap.c ((P.turned i j (7 * P.scale - 1) k).grid 0 0 (((7 * P.scale - 1 : Int) : ℚ) / 7)) := by
  obtain ⟨k, hk, e⟩ := hc.corners
  refine ⟨k, hk, e, ?_⟩
  have := hc.transform
  have hw := hc.within.rotate k
  rw [turned_corners i j _ hk] at hw
  obtain ⟨c, e', hr⟩ := create_corners_rounded (F := F) (turned_axis h i j (7 * P.scale - 1) k) 0 0 (by omega) lit7_int (by norm_num) hw
  rw [e, turned_corners i j _ hk, e'] at this
  rw [← Option.some.inj this]
  exact_mod_cast hr

/-- A drawn capstone is a capstone of the drawing. -/
theorem DrawnCap.framed {P : Placement} (h : IsAxis P.right) (hs : 0 < P.scale) {i j : Int} {x0 y0 : Nat} {cap : CapStone F}
    (hx : P.baseX i j (7 * P.scale) = x0) (hy : P.baseY i j (7 * P.scale) = y0) (hc : DrawnCap cap x0 y0 P.scale)
    (bx : x0 + 7 * P.scale ≤ 32768) (by' : y0 + 7 * P.scale ≤ 32768) : FramedCap P i j cap := by
  obtain ⟨l, hl, e⟩ := hc.corners
  obtain ⟨k, hk, e'⟩ := square_corners h i j (m := 7 * P.scale - 1) (by omega)
  rw [show (7 * (P.scale : Int) - 1 + 1) = 7 * P.scale by ring, hx, hy] at e'
  have hcor : ∃ k < 4, cap.corners = rotateLeft4 (P.corners i j (7 * P.scale - 1)) k :=
    ⟨(k + l) % 4, Nat.mod_lt _ (by omega), by rw [e, e', rotate_rotate]⟩
  have hin : Within (P.corners i j (7 * P.scale - 1)) := by
    have key : ∀ u v : Int, i ≤ u ∧ u < i + 7 * P.scale ∧ j ≤ v ∧ v < j + 7 * P.scale → |(P.pixel u v).x| ≤ 32767 ∧ |(P.pixel u v).y| ≤ 32767 := by
      intro u v huv
      have := (mem_square h (by omega)).1 huv
      rw [hx, hy] at this
      rw [abs_le, abs_le]
      omega
    intro l hl
    unfold Spec.Placement.corners
    have : l = 0 ∨ l = 1 ∨ l = 2 ∨ l = 3 := by omega
    rcases this with rfl | rfl | rfl | rfl
    · exact key i j (by omega)
    · exact key (i + (7 * P.scale - 1)) j (by omega)
    · exact key (i + (7 * P.scale - 1)) (j + (7 * P.scale - 1)) (by omega)
    · exact key i (j + (7 * P.scale - 1)) (by omega)
  -- the centre, in the coordinates of the image
  let Q : Placement := ⟨⟨x0, y0⟩, ⟨1, 0⟩, P.scale⟩
  have hQ : IsAxis Q.right := .inl rfl
  have eQ : squareCorners x0 y0 (7 * P.scale - 1) = Q.corners 0 0 (7 * P.scale - 1) := by
    unfold squareCorners Spec.Placement.corners Spec.Placement.pixel
    simp [Q]
  have ht := hc.transform
  have hwl : Within (rotateLeft4 (squareCorners x0 y0 (7 * P.scale - 1)) l) := by
    rw [e', rotate_rotate]; exact hin.rotate _
  rw [eQ, turned_corners 0 0 _ hl] at hwl
  obtain ⟨c, ec, hr⟩ := create_corners_rounded (F := F) (turned_axis hQ 0 0 (7 * P.scale - 1) l) 0 0 (by omega) lit7_int (by norm_num) hwl
  rw [e, eQ, turned_corners 0 0 _ hl, ec] at ht
  have hm := hc.center
  rw [← Option.some.inj ht] at hm
  have q1 : (0 : ℚ) ≤ x0 := by positivity
  have q2 : (0 : ℚ) ≤ y0 := by positivity
  have q3 : (x0 : ℚ) + 7 * P.scale ≤ 32768 := by exact_mod_cast bx
  have q4 : (y0 : ℚ) + 7 * P.scale ≤ 32768 := by exact_mod_cast by'
  have q5 : (1 : ℚ) ≤ P.scale := by exact_mod_cast hs
  have b0 := hwl 0 (by decide)
  have b0x : |(((Q.turned 0 0 (7 * P.scale - 1) l).pixel 0 0).x : ℚ)| ≤ 32768 := by
    have := b0.1
    have : |((Q.turned 0 0 (7 * P.scale - 1) l).pixel 0 0).x| ≤ 32768 := this.trans (by norm_num)
    exact_mod_cast this
  have b0y : |(((Q.turned 0 0 (7 * P.scale - 1) l).pixel 0 0).y : ℚ)| ≤ 32768 := by
    have := b0.2
    have : |((Q.turned 0 0 (7 * P.scale - 1) l).pixel 0 0).y| ≤ 32768 := this.trans (by norm_num)
    exact_mod_cast this
  obtain ⟨x, y, em, ex, ey⟩ := grid_near (turned_axis hQ 0 0 (7 * P.scale - 1) l) hr (T := 5000) (Q := 32768) (by push_cast; rw [le_div_iff₀ (by norm_num)]; linarith)
    (by push_cast; rw [div_le_iff₀ (by norm_num)]; linarith) (by norm_num) (by norm_num) (by norm_num) (by norm_num) b0x b0y sc35 sc35 (by norm_num) (by norm_num) (by norm_num)
  have xe : (((Q.turned 0 0 (7 * P.scale - 1) l).pixel 0 0).x : ℚ) + (((7 * P.scale - 1 : Int) : ℚ) / ((7 : Int) : ℚ)) * (7 / 2) * (Q.turned 0 0 (7 * P.scale - 1) l).right.x
      - (((7 * P.scale - 1 : Int) : ℚ) / ((7 : Int) : ℚ)) * (7 / 2) * (Q.turned 0 0 (7 * P.scale - 1) l).right.y = x0 + (7 * P.scale - 1) / 2 := by
    have : l = 0 ∨ l = 1 ∨ l = 2 ∨ l = 3 := by omega
    rcases this with rfl | rfl | rfl | rfl <;> simp only [turned, pixel, Q] <;> push_cast <;> ring
  have ye : (((Q.turned 0 0 (7 * P.scale - 1) l).pixel 0 0).y : ℚ) + (((7 * P.scale - 1 : Int) : ℚ) / ((7 : Int) : ℚ)) * (7 / 2) * (Q.turned 0 0 (7 * P.scale - 1) l).right.y
      + (((7 * P.scale - 1 : Int) : ℚ) / ((7 : Int) : ℚ)) * (7 / 2) * (Q.turned 0 0 (7 * P.scale - 1) l).right.x = y0 + (7 * P.scale - 1) / 2 := by
    have : l = 0 ∨ l = 1 ∨ l = 2 ∨ l = 3 := by omega
    rcases this with rfl | rfl | rfl | rfl <;> simp only [turned, pixel, Q] <;> push_cast <;> ring
  rw [xe, abs_le] at ex
  rw [ye, abs_le] at ey
  rw [em] at hm
  have hcen := Except.ok.inj hm
  have d2 : ((7 * P.scale : Nat) : ℚ) = 2 * ((7 * P.scale / 2 : Nat) : ℚ) + ((7 * P.scale % 2 : Nat) : ℚ) := by
    exact_mod_cast (Nat.div_add_mod (7 * P.scale) 2).symm
  have r0 : (0 : ℚ) ≤ ((7 * P.scale % 2 : Nat) : ℚ) := by positivity
  have r1 : ((7 * P.scale % 2 : Nat) : ℚ) ≤ 1 := by exact_mod_cast (by omega : 7 * P.scale % 2 ≤ 1)
  rw [Nat.cast_mul] at d2
  push_cast at d2
  have nb : ∀ {z : ℚ} {b : Nat}, (b : ℚ) + (7 * P.scale - 1) / 2 - 1 / 80 ≤ z → z ≤ b + (7 * P.scale - 1) / 2 + 1 / 80 →
      (b : Int) + (7 * P.scale / 2 : Nat) - 1 ≤ nearest z ∧ nearest z ≤ b + (7 * P.scale / 2 : Nat) := by
    intro z b z1 z2
    generalize 7 * P.scale / 2 = H at d2
    refine nearest_between ?_ ?_ <;> push_cast <;> linarith
  have kx := nb (z := x) (b := x0) (by linarith) (by linarith)
  have ky := nb (z := y) (b := y0) (by linarith) (by linarith)
  refine ⟨hcor, hin, hc.transform, ?_, ?_⟩
  · rw [← hcen, hx]; exact kx
  · rw [← hcen, hy]; exact ky

end Rqrr
