import Verif.Props.Detect
import Verif.Props.Clean

/-!
# C68: when turning a capstone panics
-/

namespace Rqrr

open Spec ImageBuffer

variable {F : Type} [FloatOps F] [Rounding F]

variable {S : Type} [ImageBuffer S] [LawfulImage S] {img0 : PreparedImage S}

/-- Coordinates of pixels of an image of up to 32768 by 32768. -/
def Pixel (p : Point) : Prop := 0 ≤ p.x ∧ p.x ≤ 32767 ∧ 0 ≤ p.y ∧ p.y ≤ 32767

/-- The vector from one point to another. -/
def vector (p q : Point) : Point := ⟨q.x - p.x, q.y - p.y⟩

/-- How far a point lies from the line through `h0` along `hd`, times the length of `hd`. -/
def offLine (h0 hd a : Point) : Int := cross hd (vector h0 a)

theorem rotate_key_pixels {h0 hd a : Point} (h1 : Pixel h0) (h2 : |hd.x| ≤ 32767) (h3 : |hd.y| ≤ 32767) (h4 : Pixel a) :
    rotate_key h0 hd a = .ok (offLine h0 hd a) := by
  unfold Pixel at h1 h4
  have a1 : |a.x - h0.x| ≤ 32767 := by rw [abs_le]; omega
  have a2 : |a.y - h0.y| ≤ 32767 := by rw [abs_le]; omega
  have p1 : |(a.x - h0.x) * -hd.y| ≤ 32767 * 32767 := by
    rw [abs_mul, abs_neg]; exact mul_le_mul a1 h3 (abs_nonneg _) (by norm_num)
  have p2 : |(a.y - h0.y) * hd.x| ≤ 32767 * 32767 := by
    rw [abs_mul]; exact mul_le_mul a2 h2 (abs_nonneg _) (by norm_num)
  rw [abs_le] at a1 a2 h2 h3 p1 p2
  have e : offLine h0 hd a = (a.x - h0.x) * -hd.y + (a.y - h0.y) * hd.x := by
    unfold offLine cross vector
    ring
  unfold rotate_key subI negI mulI addI
  rw [chk32_ok (by omega) (by omega), Run.ok_bind, chk32_ok (n := -hd.y) (by omega) (by omega), Run.ok_bind, chk32_ok (by omega) (by omega), Run.ok_bind,
    chk32_ok (by omega) (by omega), Run.ok_bind, chk32_ok (by omega) (by omega), Run.ok_bind, chk32_ok (by omega) (by omega), e]

/-- The corner `k` places after the first one, going round. -/
def turned (r : Vector Point 4) (k : Nat) : Point := r[k % 4]'(Nat.mod_lt _ (by omega))

/-- The triangle of the three corners after corner `k`. -/
def nextThree (r : Vector Point 4) (k : Nat) : Int := area2 (turned r (k + 1)) (turned r (k + 2)) (turned r (k + 3))

theorem nextThree_nonneg {r : Vector Point 4} (h : WeaklyConvex r) {k : Nat} (hk : k < 4) : 0 ≤ nextThree r k := by
  obtain ⟨h1, h2, h3, h4⟩ := h
  unfold nextThree turned area2 at *
  have : k = 0 ∨ k = 1 ∨ k = 2 ∨ k = 3 := by omega
  rcases this with rfl | rfl | rfl | rfl <;> norm_num <;> linarith

theorem nextThree_pos {r : Vector Point 4} (h : Convex r) {k : Nat} (hk : k < 4) : 0 < nextThree r k := by
  obtain ⟨h1, h2, h3, h4⟩ := h
  unfold nextThree turned area2 at *
  have : k = 0 ∨ k = 1 ∨ k = 2 ∨ k = 3 := by omega
  rcases this with rfl | rfl | rfl | rfl <;> norm_num <;> linarith

theorem create_turned {r : Vector Point 4} (hr : Within r) :
    Perspective.create (F := F) r (FloatOps.lit 7 0) (FloatOps.lit 7 0) = none ↔ area2 r[1] r[2] r[3] ≤ 0 := by
  obtain ⟨h1, h2⟩ := create_rounded (F := F) (w := FloatOps.lit 7 0) (W := 7) hr (IntB.lit (m := 7) (by norm_num) (by norm_num))
  rw [← C45_create r ((7 : Int) : ℚ) ((7 : Int) : ℚ) (by norm_num) (by norm_num)]
  constructor
  · intro h
    cases e : Perspective.create r ((7 : Int) : ℚ) ((7 : Int) : ℚ) with
    | none => rfl
    | some q =>
      obtain ⟨c, e', -⟩ := h2 q e
      rw [h] at e'
      cases e'
  · exact h1

/-- Starting the corners with corner `b`. -/
def turnBy (cap : CapStone F) (b : Nat) : Run (CapStone F) :=
  match Perspective.create (F := F) (rotateLeft4 cap.corners b) (FloatOps.lit 7 0) (FloatOps.lit 7 0) with
  | none => .error .panic
  | some c => .ok { cap with corners := rotateLeft4 cap.corners b, c := c }

theorem turnBy_cases {cap : CapStone F} (hp : ∀ k (hk : k < 4), Pixel cap.corners[k]) (hv : WeaklyConvex cap.corners) {b : Nat} (hb : b < 4) :
    (nextThree cap.corners b = 0 → turnBy cap b = .error .panic) ∧
      (nextThree cap.corners b ≠ 0 → ∃ cap', turnBy cap b = .ok cap' ∧ cap'.center = cap.center ∧
        Perspective.create cap'.corners (FloatOps.lit 7 0) (FloatOps.lit 7 0) = some cap'.c ∧ ∀ j (hj : j < 4), cap'.corners[j] = turned cap.corners (j + b)) := by
  have hw : Within (rotateLeft4 cap.corners b) := by
    intro k hk
    have := hp ((k + b) % 4) (Nat.mod_lt _ (by omega))
    simp only [rotateLeft4, Vector.getElem_ofFn]
    unfold Pixel at this
    rw [abs_le, abs_le]
    omega
  have hc := create_turned (F := F) hw
  have ha : area2 (rotateLeft4 cap.corners b)[1] (rotateLeft4 cap.corners b)[2] (rotateLeft4 cap.corners b)[3] = nextThree cap.corners b := by
    simp only [rotateLeft4, Vector.getElem_ofFn, nextThree, turned, Nat.add_comm]
  rw [ha] at hc
  have hn := nextThree_nonneg hv hb
  unfold turnBy
  constructor
  · intro h
    rw [hc.2 (by omega)]
  · intro h
    cases e : Perspective.create (F := F) (rotateLeft4 cap.corners b) (FloatOps.lit 7 0) (FloatOps.lit 7 0) with
    | none =>
      have := hc.1 e
      omega
    | some c =>
      refine ⟨_, rfl, rfl, e, fun j hj => ?_⟩
      simp only [rotateLeft4, Vector.getElem_ofFn, turned]

omit [Rounding F] in
theorem rotate_turns {cap : CapStone F} {h0 hd : Point} (hp : ∀ k (hk : k < 4), Pixel cap.corners[k])
    (h1 : Pixel h0) (h2 : |hd.x| ≤ 32767) (h3 : |hd.y| ≤ 32767) :
    ∃ k, k < 4 ∧ (∀ j, j < 4 → offLine h0 hd (turned cap.corners k) ≤ offLine h0 hd (turned cap.corners j)) ∧
      (∀ j, j < k → offLine h0 hd (turned cap.corners k) < offLine h0 hd (turned cap.corners j)) ∧
      rotate_capstone cap h0 hd = turnBy cap k := by
  have key : ∀ k (hk : k < 4), rotate_key h0 hd cap.corners[k] = .ok (offLine h0 hd (turned cap.corners k)) := by
    intro k hk
    rw [rotate_key_pixels h1 h2 h3 (hp k hk)]
    congr 2
    unfold turned
    congr 1
    exact (Nat.mod_eq_of_lt hk).symm
  unfold rotate_capstone
  rw [key 0 (by omega), Run.ok_bind, key 1 (by omega), Run.ok_bind, key 2 (by omega), Run.ok_bind, key 3 (by omega), Run.ok_bind]
  generalize hk : (fun k => offLine h0 hd (turned cap.corners k)) = f
  have e : ∀ k, offLine h0 hd (turned cap.corners k) = f k := fun k => by rw [← hk]
  simp only [e]
  have fin : ∀ b, b < 4 → f b ≤ f 0 → f b ≤ f 1 → f b ≤ f 2 → f b ≤ f 3 → (∀ j, j < b → f b < f j) →
      ∃ k, k < 4 ∧ (∀ j, j < 4 → f k ≤ f j) ∧ (∀ j, j < k → f k < f j) ∧
        (match Perspective.create (F := F) (rotateLeft4 cap.corners b) (FloatOps.lit 7 0) (FloatOps.lit 7 0) with
          | none => (.error .panic : Run (CapStone F))
          | some c => pure { cap with corners := rotateLeft4 cap.corners b, c := c }) = turnBy cap k := by
    intro b hb a0 a1 a2 a3 hj
    refine ⟨b, hb, fun j hj => ?_, hj, rfl⟩
    have : j = 0 ∨ j = 1 ∨ j = 2 ∨ j = 3 := by omega
    rcases this with rfl | rfl | rfl | rfl <;> assumption
  by_cases c1 : f 1 < f 0
  · rw [if_pos c1]
    by_cases c2 : f 2 < f 1
    · rw [if_pos c2]
      by_cases c3 : f 3 < f 2
      · rw [if_pos c3]
        refine fin 3 (by omega) (by omega) (by omega) (by omega) (by omega) fun j hj => ?_
        have : j = 0 ∨ j = 1 ∨ j = 2 := by omega
        rcases this with rfl | rfl | rfl <;> omega
      · rw [if_neg c3]
        refine fin 2 (by omega) (by omega) (by omega) (by omega) (by omega) fun j hj => ?_
        have : j = 0 ∨ j = 1 := by omega
        rcases this with rfl | rfl <;> omega
    · rw [if_neg c2]
      by_cases c3 : f 3 < f 1
      · rw [if_pos c3]
        refine fin 3 (by omega) (by omega) (by omega) (by omega) (by omega) fun j hj => ?_
        have : j = 0 ∨ j = 1 ∨ j = 2 := by omega
        rcases this with rfl | rfl | rfl <;> omega
      · rw [if_neg c3]
        refine fin 1 (by omega) (by omega) (by omega) (by omega) (by omega) fun j hj => ?_
        have : j = 0 := by omega
        subst this; omega
  · rw [if_neg c1]
    by_cases c2 : f 2 < f 0
    · rw [if_pos c2]
      by_cases c3 : f 3 < f 2
      · rw [if_pos c3]
        refine fin 3 (by omega) (by omega) (by omega) (by omega) (by omega) fun j hj => ?_
        have : j = 0 ∨ j = 1 ∨ j = 2 := by omega
        rcases this with rfl | rfl | rfl <;> omega
      · rw [if_neg c3]
        refine fin 2 (by omega) (by omega) (by omega) (by omega) (by omega) fun j hj => ?_
        have : j = 0 ∨ j = 1 := by omega
        rcases this with rfl | rfl <;> omega
    · rw [if_neg c2]
      by_cases c3 : f 3 < f 0
      · rw [if_pos c3]
        refine fin 3 (by omega) (by omega) (by omega) (by omega) (by omega) fun j hj => ?_
        have : j = 0 ∨ j = 1 ∨ j = 2 := by omega
        rcases this with rfl | rfl | rfl <;> omega
      · rw [if_neg c3]
        exact fin 0 (by omega) (by omega) (by omega) (by omega) (by omega) fun j hj => by omega

/-- **C68.** Turning a capstone selects the first of the corners farthest off the line, and panics exactly when the three
corners after it are on one line. -/
theorem C68_rotation {cap : CapStone F} {h0 hd : Point} (hp : ∀ k (hk : k < 4), Pixel cap.corners[k]) (hv : WeaklyConvex cap.corners)
    (h1 : Pixel h0) (h2 : |hd.x| ≤ 32767) (h3 : |hd.y| ≤ 32767) :
    ∃ k, k < 4 ∧ (∀ j, j < 4 → offLine h0 hd (turned cap.corners k) ≤ offLine h0 hd (turned cap.corners j)) ∧
      (∀ j, j < k → offLine h0 hd (turned cap.corners k) < offLine h0 hd (turned cap.corners j)) ∧
      (nextThree cap.corners k = 0 → rotate_capstone cap h0 hd = .error .panic) ∧
      (nextThree cap.corners k ≠ 0 → ∃ cap', rotate_capstone cap h0 hd = .ok cap' ∧ cap'.center = cap.center ∧
        Perspective.create cap'.corners (FloatOps.lit 7 0) (FloatOps.lit 7 0) = some cap'.c ∧ ∀ j (hj : j < 4), cap'.corners[j] = turned cap.corners (j + k)) := by
  obtain ⟨k, hk, a1, a2, e⟩ := rotate_turns (cap := cap) hp h1 h2 h3
  rw [e]
  exact ⟨k, hk, a1, a2, turnBy_cases hp hv hk⟩

/-- **C68.** No panic for corners of which no three are on one line. -/
theorem C68_proper {cap : CapStone F} {h0 hd : Point} (hp : ∀ k (hk : k < 4), Pixel cap.corners[k]) (hv : Convex cap.corners)
    (h1 : Pixel h0) (h2 : |hd.x| ≤ 32767) (h3 : |hd.y| ≤ 32767) : ∃ cap', rotate_capstone cap h0 hd = .ok cap' := by
  have hv' : WeaklyConvex cap.corners := ⟨hv.1.le, hv.2.1.le, hv.2.2.1.le, hv.2.2.2.le⟩
  obtain ⟨k, hk, -, -, -, h⟩ := C68_rotation hp hv' h1 h2 h3
  obtain ⟨cap', e, -⟩ := h (nextThree_pos hv hk).ne'
  exact ⟨cap', e⟩

/-- The corners of a capstone found in an image are pixels. -/
theorem found_pixels {y : Nat} {pos : LinePosition} {cap : CapStone F} (hw : width img0.buffer ≤ 32768) (hh : height img0.buffer ≤ 32768)
    (h : CapstoneAt img0 y pos cap) : ∀ k (hk : k < 4), Pixel cap.corners[k] := by
  obtain ⟨far, -, -, c0, c1, c2, c3, e, r0, r1, r2, r3, -⟩ := h.corners
  have pix : ∀ c : Pos, Reach (IsBlack img0) (pos.right, y) c → Pixel (point c) := by
    intro c hc
    obtain ⟨b1, b2, -⟩ := hc.right
    unfold Pixel point
    dsimp only
    omega
  intro k hk
  have : k = 0 ∨ k = 1 ∨ k = 2 ∨ k = 3 := by omega
  rcases this with rfl | rfl | rfl | rfl
  · rw [e]; exact pix _ r0
  · rw [e]; exact pix _ r1
  · rw [e]; exact pix _ r2
  · rw [e]; exact pix _ r3

/-- A weighted mean of numbers is between the bounds of the numbers. -/
theorem mean_between {k0 k1 k2 k3 a b c d : ℚ} (h0 : 0 ≤ k0) (h1 : 0 ≤ k1) (h2 : 0 ≤ k2) (h3 : 0 ≤ k3) (h : k0 + k1 + k2 + k3 = 1)
    (ha : 0 ≤ a ∧ a ≤ 32767) (hb : 0 ≤ b ∧ b ≤ 32767) (hc : 0 ≤ c ∧ c ≤ 32767) (hd : 0 ≤ d ∧ d ≤ 32767) :
    0 ≤ k0 * a + k1 * b + k2 * c + k3 * d ∧ k0 * a + k1 * b + k2 * c + k3 * d ≤ 32767 := by
  have e : (32767 : ℚ) = k0 * 32767 + k1 * 32767 + k2 * 32767 + k3 * 32767 := by linear_combination -32767 * h
  constructor
  · have := mul_nonneg h0 ha.1
    have := mul_nonneg h1 hb.1
    have := mul_nonneg h2 hc.1
    have := mul_nonneg h3 hd.1
    linarith
  · have := mul_le_mul_of_nonneg_left ha.2 h0
    have := mul_le_mul_of_nonneg_left hb.2 h1
    have := mul_le_mul_of_nonneg_left hc.2 h2
    have := mul_le_mul_of_nonneg_left hd.2 h3
    linarith

/-- Its centre is a pixel as well. -/
theorem found_centre {y : Nat} {pos : LinePosition} {cap : CapStone F} (hw : width img0.buffer ≤ 32768) (hh : height img0.buffer ≤ 32768)
    (h : CapstoneAt img0 y pos cap) : Pixel cap.center := by
  have hp := found_pixels hw hh h
  have hv := C42_convex h.corners
  obtain ⟨q, eq, x, y', em, hx, hy⟩ := C51_centre cap.corners cap.c hv (fun j hj => hp j hj) h.transform
  rw [h.center] at em
  injection em with em
  obtain ⟨k0, k1, k2, k3, p0, p1, p2, p3, hs, e⟩ := C51_exact cap.corners q hv eq
  have qp : ∀ k (hk : k < 4), ((0 : ℚ) ≤ cap.corners[k].x ∧ (cap.corners[k].x : ℚ) ≤ 32767) ∧ (0 : ℚ) ≤ cap.corners[k].y ∧ (cap.corners[k].y : ℚ) ≤ 32767 := by
    intro k hk
    obtain ⟨a, b, c, d⟩ := hp k hk
    exact ⟨⟨by exact_mod_cast a, by exact_mod_cast b⟩, by exact_mod_cast c, by exact_mod_cast d⟩
  rw [e] at hx hy
  have mx := mean_between p0 p1 p2 p3 hs (qp 0 (by omega)).1 (qp 1 (by omega)).1 (qp 2 (by omega)).1 (qp 3 (by omega)).1
  have my := mean_between p0 p1 p2 p3 hs (qp 0 (by omega)).2 (qp 1 (by omega)).2 (qp 2 (by omega)).2 (qp 3 (by omega)).2
  rw [abs_le] at hx hy
  have bx := nearest_between (a := 0) (b := 32767) (x := x) (by push_cast; linarith [hx.1, hx.2]) (by push_cast; linarith [hx.1, hx.2])
  have by' := nearest_between (a := 0) (b := 32767) (x := y') (by push_cast; linarith [hy.1, hy.2]) (by push_cast; linarith [hy.1, hy.2])
  rw [em]
  exact ⟨bx.1, bx.2, by'.1, by'.2⟩

/-- **C68.** For capstones found in an image, turning one relative to the line between two others, in either direction, panics only if
three of its corners are on one line; otherwise the corners are turned so that the first is farthest off the line. -/
theorem C68_found {ya yc y : Nat} {pa pc pos : LinePosition} {a c cap : CapStone F} (hw : width img0.buffer ≤ 32768)
    (hh : height img0.buffer ≤ 32768) (ha : CapstoneAt img0 ya pa a) (hc : CapstoneAt img0 yc pc c) (h : CapstoneAt img0 y pos cap) {hd : Point}
    (hhd : hd = vector a.center c.center ∨ hd = vector c.center a.center) :
    ∃ k, k < 4 ∧ (∀ j, j < 4 → offLine a.center hd (turned cap.corners k) ≤ offLine a.center hd (turned cap.corners j)) ∧
      (∀ j, j < k → offLine a.center hd (turned cap.corners k) < offLine a.center hd (turned cap.corners j)) ∧
      (nextThree cap.corners k = 0 → rotate_capstone cap a.center hd = .error .panic) ∧
      (nextThree cap.corners k ≠ 0 → ∃ cap', rotate_capstone cap a.center hd = .ok cap' ∧ cap'.center = cap.center ∧
        Perspective.create cap'.corners (FloatOps.lit 7 0) (FloatOps.lit 7 0) = some cap'.c ∧ ∀ j (hj : j < 4), cap'.corners[j] = turned cap.corners (j + k)) := by
  have h1 := found_centre hw hh ha
  have h2 := found_centre hw hh hc
  have hd' : |hd.x| ≤ 32767 ∧ |hd.y| ≤ 32767 := by
    unfold Pixel at h1 h2
    rw [abs_le, abs_le]
    rcases hhd with rfl | rfl <;> unfold vector <;> dsimp only <;> omega
  exact C68_rotation (found_pixels hw hh h) (C42_convex h.corners) h1 hd'.1 hd'.2

end Rqrr
