import Verif.Proofs.BoxMeasure
import Verif.Proofs.FramedAlign

/-!
# The alignment pattern of a drawing with modules of unequal sizes
-/

namespace Rqrr

open Spec ImageBuffer FloatOps Spec.Placement Rounding

variable {F : Type} [FloatOps F] [Rounding F] {S : Type} [ImageBuffer S] [LawfulImage S] {img0 img : PreparedImage S} {claims : Pos → Option Claim}
  {n v : Nat} {M : Nat → Nat → Bool} {L : Layout}

/-- The centre of the alignment pattern is a region of its own. -/
theorem align_rect (h2 : 2 ≤ v) (hv : v ≤ 40) (hR : Stretches img0 (side v) M L) (hM : Patterned v M) :
    ∃ xa xb ya yb : Nat, (xb - xa) * (yb - ya) = (L.column (side v - 6) - L.column (side v - 7)) * (L.row (side v - 6) - L.row (side v - 7)) ∧
      (∀ (p : Pos) (i j : Int), L.pixel i j = ⟨p.1, p.2⟩ → (InRect xa xb ya yb p ↔
        (L.column (side v - 7) : Int) ≤ i ∧ i < L.column (side v - 6) ∧ (L.row (side v - 7) : Int) ≤ j ∧ j < L.row (side v - 6))) ∧
      (∀ p, InRect xa xb ya yb p → IsBlack img0 p) ∧
      ∀ p q, InRect xa xb ya yb p → (Reach (IsBlack img0) p q ↔ InRect xa xb ya yb q) := by
  have hn : side v = 17 + 4 * v := rfl
  obtain ⟨N, hN⟩ : ∃ N, N = side v - 7 := ⟨_, rfl⟩
  rw [show side v - 6 = N + 1 by omega, ← hN]
  have c1 := hR.columns.lt (k := N) (l := N + 1) (by omega) (by omega)
  have c2 := hR.columns.lt (k := N + 1) (l := side v) (by omega) (by omega)
  have c3 := hR.columns.lt (k := 0) (l := N) (by omega) (by omega)
  have r1 := hR.rows.lt (k := N) (l := N + 1) (by omega) (by omega)
  have r2 := hR.rows.lt (k := N + 1) (l := side v) (by omega) (by omega)
  have r3 := hR.rows.lt (k := 0) (l := N) (by omega) (by omega)
  have dark : ∀ (p : Pos) (i j : Int), L.pixel i j = ⟨p.1, p.2⟩ → (L.column N : Int) ≤ i + 1 → i ≤ L.column (N + 1) → (L.row N : Int) ≤ j + 1 →
      j ≤ L.row (N + 1) → (IsBlack img0 p ↔ (L.column N : Int) ≤ i ∧ i < L.column (N + 1) ∧ (L.row N : Int) ≤ j ∧ j < L.row (N + 1)) := by
    intro p i j hp a1 a2 a3 a4
    lift i to Nat using (by omega)
    lift j to Nat using (by omega)
    obtain ⟨x, hx, x1, x2⟩ := Even.module (f := L.column) (n := side v) (i := i) hR.first.1 (by omega)
    obtain ⟨y, hy, y1, y2⟩ := Even.module (f := L.row) (n := side v) (i := j) hR.first.2 (by omega)
    have qa : N ≤ x + 1 := by
      by_contra hc
      have := hR.columns.lt (k := x + 1) (l := N) (by omega) (by omega)
      omega
    have qb : N ≤ y + 1 := by
      by_contra hc
      have := hR.rows.lt (k := y + 1) (l := N) (by omega) (by omega)
      omega
    have qa' : x ≤ N + 1 := by
      by_contra hc
      have := hR.columns.lt (k := N + 1) (l := x) (by omega) (by omega)
      omega
    have qb' : y ≤ N + 1 := by
      by_contra hc
      have := hR.rows.lt (k := N + 1) (l := y) (by omega) (by omega)
      omega
    rw [hR.black p x y i j hx hy ⟨x1, x2, y1, y2⟩ hp, align_modules h2 hv hM (by omega) (by omega) (by omega) (by omega)]
    have cx0 := hR.columns.cut_le hx x1 x2 (k := N) (by omega)
    have cx1 := hR.columns.cut_le hx x1 x2 (k := N + 1) (by omega)
    have cy0 := hR.rows.cut_le hy y1 y2 (k := N) (by omega)
    have cy1 := hR.rows.cut_le hy y1 y2 (k := N + 1) (by omega)
    omega
  have i1 := hR.inside (L.column N) (L.row N) (by omega) (by omega)
  have i2 := hR.inside (L.column (N + 1) - 1) (L.row (N + 1) - 1) (by omega) (by omega)
  rw [Nat.cast_sub (by omega), Nat.cast_sub (by omega)] at i2
  obtain ⟨xa, xb, ya, yb, har, mem⟩ : ∃ xa xb ya yb : Nat,
      (xb - xa) * (yb - ya) = (L.column (N + 1) - L.column N) * (L.row (N + 1) - L.row N) ∧
      ∀ (p : Pos) (i j : Int), L.pixel i j = ⟨p.1, p.2⟩ → (InRect xa xb ya yb p ↔
        (L.column N : Int) ≤ i ∧ i < L.column (N + 1) ∧ (L.row N : Int) ≤ j ∧ j < L.row (N + 1)) := by
    unfold Layout.pixel Layout.place pixel at i1 i2 ⊢
    refine ⟨(min (L.corner.x + (L.column N * L.right.x - L.row N * L.right.y))
        (L.corner.x + ((L.column (N + 1) - 1) * L.right.x - (L.row (N + 1) - 1) * L.right.y))).toNat,
      (max (L.corner.x + (L.column N * L.right.x - L.row N * L.right.y))
        (L.corner.x + ((L.column (N + 1) - 1) * L.right.x - (L.row (N + 1) - 1) * L.right.y))).toNat + 1,
      (min (L.corner.y + (L.column N * L.right.y + L.row N * L.right.x))
        (L.corner.y + ((L.column (N + 1) - 1) * L.right.y + (L.row (N + 1) - 1) * L.right.x))).toNat,
      (max (L.corner.y + (L.column N * L.right.y + L.row N * L.right.x))
        (L.corner.y + ((L.column (N + 1) - 1) * L.right.y + (L.row (N + 1) - 1) * L.right.x))).toNat + 1, ?_, ?_⟩
    · rcases hR.axis with h | h | h | h <;> rw [h] at i1 i2 ⊢ <;> dsimp only at i1 i2 ⊢ <;> simp only [mul_one, mul_zero, mul_neg] at i1 i2 ⊢
      · congr 1 <;> omega
      · rw [Nat.mul_comm (L.column (N + 1) - L.column N)]; congr 1 <;> omega
      · congr 1 <;> omega
      · rw [Nat.mul_comm (L.column (N + 1) - L.column N)]; congr 1 <;> omega
    · intro p i j hp
      rw [Point.mk.injEq] at hp
      unfold InRect
      rcases hR.axis with h | h | h | h <;> rw [h] at i1 i2 hp ⊢ <;> dsimp only at i1 i2 hp ⊢ <;> simp only [mul_one, mul_zero, mul_neg] at i1 i2 hp ⊢ <;> omega
  have hin : ∀ p, InRect xa xb ya yb p → IsBlack img0 p := by
    intro p hp
    obtain ⟨i, j, e⟩ := exists_coords (P := L.place) hR.axis (⟨p.1, p.2⟩ : Point)
    have := (mem p i j e).1 hp
    exact (dark p i j e (by omega) (by omega) (by omega) (by omega)).2 this
  refine ⟨xa, xb, ya, yb, har, mem, hin, fun p q hp => lone_rect hin ?_ hp q⟩
  intro p q hp ha hq hb
  obtain ⟨i, j, e⟩ := exists_coords (P := L.place) hR.axis (⟨p.1, p.2⟩ : Point)
  obtain ⟨i', j', e'⟩ := exists_coords (P := L.place) hR.axis (⟨q.1, q.2⟩ : Point)
  have m1 := (mem p i j e).1 hp
  apply hq
  rw [mem q i' j' e']
  have near : i ≤ i' + 1 ∧ i' ≤ i + 1 ∧ j ≤ j' + 1 ∧ j' ≤ j + 1 := by
    unfold Layout.place pixel at e e'
    rw [Point.mk.injEq] at e e'
    unfold Adj at ha
    rcases hR.axis with h | h | h | h <;> rw [h] at e e' <;> dsimp only at e e' <;> simp only [mul_one, mul_zero, mul_neg] at e e' <;> omega
  exact (dark q i' j' e' (by omega) (by omega) (by omega) (by omega)).1 hb

/-- A module, measured on the grid of a finder pattern. -/
theorem Spec.Even.step {f : Nat → Nat} (h : Even n f) {a : Nat} (ha : a + 7 ≤ n) {k : Int}
    (hk : |(k : ℚ) - (((f (a + 7) : Int) - 1 - f a : Int) : ℚ) / 7| ≤ 41 / 80) :
    5 * ((f (a + 1) : Int) - f a) ≤ 7 * k ∧ 3 * k ≤ 4 * ((f (a + 1) : Int) - f a) ∧ (f a : Int) + k < f (a + 7) ∧ 6 ≤ k := by
  obtain ⟨α, β, hα, h⟩ := h
  have d7 := Spec.Even.sub_le h (i := a) (d := 7) ha
  have d1 := Spec.Even.sub_le h (i := a) (d := 1) (by omega)
  rw [abs_le] at hk
  push_cast at hk d7 d1
  have e1 : 5 * ((f (a + 1) : ℚ) - f a) ≤ 7 * k := by linarith
  have e2 : 3 * (k : ℚ) ≤ 4 * ((f (a + 1) : ℚ) - f a) := by linarith
  have e3 : (f a : ℚ) + k < f (a + 7) := by linarith
  have e4 : (5 : ℚ) < k := by linarith
  have e4' : (5 : Int) < k := by exact_mod_cast e4
  exact ⟨by exact_mod_cast e1, by exact_mod_cast e2, by exact_mod_cast e3, by omega⟩

theorem near_int {A A' : Int} (h : |(A' : ℚ) - A| ≤ 41 / 80) : A' = A := by
  rw [abs_le] at h
  have e1 : (A' : ℚ) < A + 1 := by linarith
  have e2 : (A : ℚ) < A' + 1 := by linarith
  have e1' : A' < A + 1 := by exact_mod_cast e1
  have e2' : A < A' + 1 := by exact_mod_cast e2
  omega

/-- From a pixel back to the grid of a capstone, one module further, and to the pixel there. -/
theorem step_mesh (hR : Stretches img0 n M L) {i j : Nat} (hi : i < L.column n) (hj : j < L.row n) {t s : ℚ} (h1 : 6 ≤ t) (ht : t ≤ 10000)
    (s1 : 6 ≤ s) (hs : s ≤ 10000) {c : Perspective F} (hc : Rounded c (L.place.mesh i j t s)) {A B : Nat} (hA : i + A < L.column n) (hB : j + B < L.row n) :
    (∃ k : Int, |(k : ℚ) - s| ≤ 41 / 80 ∧
      c.map (c.unmap (L.pixel (i + A : Nat) (j + B : Nat))).1 ((c.unmap (L.pixel (i + A : Nat) (j + B : Nat))).2 + FloatOps.lit 1 0) =
        .ok (L.pixel (i + A : Nat) ((j + B : Nat) + k))) ∧
    ∃ k : Int, |(k : ℚ) - t| ≤ 41 / 80 ∧
      c.map ((c.unmap (L.pixel (i + A : Nat) (j + B : Nat))).1 + FloatOps.lit 1 0) (c.unmap (L.pixel (i + A : Nat) (j + B : Nat))).2 =
        .ok (L.pixel ((i + A : Nat) + k) (j + B : Nat)) := by
  obtain ⟨bx, by'⟩ := hR.inside' hi hj
  obtain ⟨px, py⟩ := hR.inside' hA hB
  have t0 : t ≠ 0 := by linarith
  have s0 : s ≠ 0 := by linarith
  rw [Nat.cast_add, Nat.cast_add] at px py
  obtain ⟨u1, u2⟩ := mesh_unmap hR.axis hc (by linarith) (by linarith) (by linarith) (by linarith) (Q := 10000) (by norm_num) ht hs bx by'
    (A := A) (B := B) px py
  have bnd : ∀ {x : F} {q w : ℚ}, 6 ≤ w → Sc x q (8 * 10000 / w) 113 → Sc x q 13334 113 := by
    intro x q w hw h
    exact h.mono (by rw [div_le_iff₀ (by linarith)]; linarith) (le_refl _) (by norm_num) (by norm_num)
  have w1 := bnd h1 u1
  have w2 := bnd s1 u2
  have up : ∀ {x : F} {q : ℚ}, Sc x q 13334 113 → Sc x q (13334 + 1) 115 := fun h => h.mono (by linarith) (by norm_num) (by norm_num) (by norm_num)
  have step : ∀ {x : F} {q : ℚ}, Sc x q 13334 113 → Sc (FloatOps.add x (FloatOps.lit 1 0)) (q + 1) (13334 + 1) 115 := by
    intro x q h
    have := h.add sc10 (by norm_num) (by norm_num)
    rwa [show (113 : ℚ) + 1 + 1 = 115 by norm_num] at this
  constructor
  · obtain ⟨A', B', e, eA, eB⟩ := mesh_near hR.axis hc (T := 10000) (Q := 10000) (by linarith) ht (by linarith) hs (by norm_num) (by norm_num)
      (by norm_num) (by norm_num) bx by' (up w1) (step w2) (by norm_num) (by norm_num) (by norm_num)
    rw [mul_div_cancel₀ _ t0] at eA
    rw [mul_add, mul_div_cancel₀ _ s0, mul_one] at eB
    obtain rfl : A' = A := near_int eA
    refine ⟨B' - B, by push_cast at eB ⊢; rwa [sub_sub], ?_⟩
    rw [Nat.cast_add, Nat.cast_add, show (j : Int) + B + (B' - B) = j + B' by ring]
    exact e
  · obtain ⟨A', B', e, eA, eB⟩ := mesh_near hR.axis hc (T := 10000) (Q := 10000) (by linarith) ht (by linarith) hs (by norm_num) (by norm_num)
      (by norm_num) (by norm_num) bx by' (step w1) (up w2) (by norm_num) (by norm_num) (by norm_num)
    rw [mul_div_cancel₀ _ s0] at eB
    rw [mul_add, mul_div_cancel₀ _ t0, mul_one] at eA
    obtain rfl : B' = B := near_int eB
    refine ⟨A' - A, by push_cast at eA ⊢; rwa [sub_sub], ?_⟩
    rw [Nat.cast_add, Nat.cast_add, show (i : Int) + A + (A' - A) = i + A' by ring]
    exact e

/-- The lengths of a finder pattern's sides, divided by seven. -/
theorem Spec.Stretches.six (hR : Stretches img0 n M L) {a b : Nat} (ha : a + 7 ≤ n) (hb : b + 7 ≤ n) :
    (6 : ℚ) ≤ (((L.column (a + 7) : Int) - 1 - L.column a : Int) : ℚ) / 7 ∧ (6 : ℚ) ≤ (((L.row (b + 7) : Int) - 1 - L.row b : Int) : ℚ) / 7 := by
  have h1 := hR.columns.finder ha
  have h2 := hR.rows.finder hb
  have key : ∀ z : Int, 42 ≤ z → (6 : ℚ) ≤ (z : ℚ) / 7 := by
    intro z z1
    have z1' : (42 : ℚ) ≤ z := by exact_mod_cast z1
    linarith
  exact ⟨key _ (by omega), key _ (by omega)⟩

/-- The estimated size is between half and twice the number of pixels of the module at the centre of the alignment pattern. -/
theorem estimate_stretched (hn : 17 ≤ n) (hR : Stretches img0 n M L) {g : CapStoneGroup F}
    (ha : BoxTurned L 0 (n - 7) g.a) (hc : BoxTurned L (n - 7) 0 g.c) :
    ∃ est, size_estimate (L.pixel (L.column (n - 7)) (L.row (n - 7))) g.a g.c = .ok est ∧ 36 ≤ est ∧ est ≤ 10000 * 10000 ∧
      est ≤ 2 * ((L.column (n - 6) - L.column (n - 7)) * (L.row (n - 6) - L.row (n - 7))) ∧
      (L.column (n - 6) - L.column (n - 7)) * (L.row (n - 6) - L.row (n - 7)) ≤ 2 * est := by
  obtain ⟨f1, f2⟩ := hR.first
  obtain ⟨N, hN⟩ : ∃ N, N = n - 7 := ⟨_, rfl⟩
  rw [show n - 6 = N + 1 by omega, ← hN]
  rw [← hN] at ha hc
  have eN : N + 7 = n := by omega
  have sz := hR.size (by omega)
  have c1 := hR.columns.lt (k := N) (l := N + 1) (by omega) (by omega)
  have c2 := hR.columns.lt (k := N + 1) (l := n) (by omega) (by omega)
  have c3 := hR.columns.lt (k := 0) (l := N) (by omega) (by omega)
  have r1 := hR.rows.lt (k := N) (l := N + 1) (by omega) (by omega)
  have r2 := hR.rows.lt (k := N + 1) (l := n) (by omega) (by omega)
  have r3 := hR.rows.lt (k := 0) (l := N) (by omega) (by omega)
  obtain ⟨o1, o2, o3, o4⟩ := hR.sides (a := 0) (b := N) (by omega) (by omega)
  obtain ⟨o5, o6⟩ := hR.six (a := 0) (b := N) (by omega) (by omega)
  obtain ⟨u1, u2, u3, u4⟩ := hR.sides (a := N) (b := 0) (by omega) (by omega)
  obtain ⟨u5, u6⟩ := hR.six (a := N) (b := 0) (by omega) (by omega)
  obtain ⟨ks, hks, m1⟩ := (step_mesh hR (i := L.column 0) (j := L.row N) (A := L.column N) (B := 0) (by omega) (by omega) o5 o2 o6 o4 ha.c (by omega) (by omega)).1
  obtain ⟨kt, hkt, m2⟩ := (step_mesh hR (i := L.column N) (j := L.row 0) (A := 0) (B := L.row N) (by omega) (by omega) u5 u2 u6 u4 hc.c (by omega) (by omega)).2
  rw [f1, Nat.zero_add, Nat.add_zero] at m1
  rw [f2, Nat.zero_add, Nat.add_zero] at m2
  obtain ⟨s1, s2, s3, s4⟩ := hR.rows.step (by omega) hks
  obtain ⟨t1, t2, t3, t4⟩ := hR.columns.step (by omega) hkt
  clear hks hkt o1 o2 o3 o4 o5 o6 u1 u2 u3 u4 u5 u6
  rw [eN] at s3 t3
  obtain ⟨ks, rfl⟩ : ∃ k : Nat, ks = k := ⟨ks.toNat, by omega⟩
  obtain ⟨kt, rfl⟩ : ∃ k : Nat, kt = k := ⟨kt.toNat, by omega⟩
  rw [← Nat.cast_add] at m1 m2
  have q0 := hR.inside (L.column N) (L.row N) (by omega) (by omega)
  have q1 := hR.inside (L.column N) (L.row N + ks) (by omega) (by omega)
  have q2 := hR.inside (L.column N + kt) (L.row N) (by omega) (by omega)
  refine ⟨kt * ks, ?_, ?_, ?_, ?_, ?_⟩
  · unfold size_estimate
    dsimp only
    refine Eq.trans (congrArg (· >>= _) m1) ?_
    rw [Run.ok_bind]
    refine Eq.trans (congrArg (· >>= _) m2) ?_
    rw [Run.ok_bind]
    clear m1 m2
    generalize L.column N = C at *
    generalize L.row N = R at *
    have d1 : (L.pixel C (R + ks : Nat)).x - (L.pixel C R).x = ks * -L.right.y := by unfold Layout.pixel Layout.place pixel; push_cast; ring
    have d2 : (L.pixel C (R + ks : Nat)).y - (L.pixel C R).y = ks * L.right.x := by unfold Layout.pixel Layout.place pixel; push_cast; ring
    have d3 : (L.pixel (C + kt : Nat) R).x - (L.pixel C R).x = kt * L.right.x := by unfold Layout.pixel Layout.place pixel; push_cast; ring
    have d4 : (L.pixel (C + kt : Nat) R).y - (L.pixel C R).y = kt * L.right.y := by unfold Layout.pixel Layout.place pixel; push_cast; ring
    have near : ∀ k : Nat, k ≤ 10001 → ∀ e : Int, (e = 0 ∨ e = 1 ∨ e = -1) → |(k : Int) * e| ≤ 20000 := by
      rintro k hk e (rfl | rfl | rfl) <;> rw [abs_le] <;> omega
    have ex : L.right.x = 0 ∨ L.right.x = 1 ∨ L.right.x = -1 := by
      rcases hR.axis with h | h | h | h <;> rw [h] <;> simp
    have ey : L.right.y = 0 ∨ L.right.y = 1 ∨ L.right.y = -1 := by
      rcases hR.axis with h | h | h | h <;> rw [h] <;> simp
    have sq : L.right.x * L.right.x + L.right.y * L.right.y = 1 := by
      rcases hR.axis with h | h | h | h <;> rw [h] <;> norm_num
    have pos : ∀ z : Int, 0 ≤ z → z ≤ 10000 → |z| ≤ 100000 := by
      intro z h1 h2; rw [abs_le]; omega
    have sx := near ks (by omega) _ ex
    have sy := near ks (by omega) _ ey
    have tx := near kt (by omega) _ ex
    have ty := near kt (by omega) _ ey
    have sy' : |(ks : Int) * -L.right.y| ≤ 20000 := by rw [mul_neg, abs_neg]; exact sy
    have ty' : |-((kt : Int) * L.right.y)| ≤ 20000 := by rw [abs_neg]; exact ty
    rw [subI_ok (pos _ q1.1 q1.2.2.1) (pos _ q0.1 q0.2.2.1), Run.ok_bind,
      subI_ok (pos _ q2.2.2.2.1 q2.2.2.2.2.2) (pos _ q0.2.2.2.1 q0.2.2.2.2.2), Run.ok_bind, d1, d4,
      negI_ok (by omega), Run.ok_bind,
      mulI_small sy' ty', Run.ok_bind, subI_ok (pos _ q1.2.2.2.1 q1.2.2.2.2.2) (pos _ q0.2.2.2.1 q0.2.2.2.2.2), Run.ok_bind,
      subI_ok (pos _ q2.1 q2.2.2.1) (pos _ q0.1 q0.2.2.1), Run.ok_bind, d2, d3, mulI_small sx tx, Run.ok_bind,
      addI_ok (mul_small sy' ty') (mul_small sx tx), Run.ok_bind]
    rw [show (ks : Int) * -L.right.y * -(kt * L.right.y) + ks * L.right.x * (kt * L.right.x) =
      kt * ks * (L.right.x * L.right.x + L.right.y * L.right.y) by ring, sq, mul_one]
    show Except.ok (Int.natAbs _) = _
    rw [Int.natAbs_mul, Int.natAbs_natCast, Int.natAbs_natCast]
  · exact Nat.mul_le_mul (by omega : 6 ≤ kt) (by omega : 6 ≤ ks)
  · exact Nat.mul_le_mul (by omega) (by omega)
  · have := Nat.mul_le_mul (by omega : 3 * kt ≤ 4 * (L.column (N + 1) - L.column N)) (by omega : 3 * ks ≤ 4 * (L.row (N + 1) - L.row N))
    rw [show 3 * kt * (3 * ks) = 9 * (kt * ks) by ring, show 4 * (L.column (N + 1) - L.column N) * (4 * (L.row (N + 1) - L.row N)) =
      16 * ((L.column (N + 1) - L.column N) * (L.row (N + 1) - L.row N)) by ring] at this
    omega
  · have := Nat.mul_le_mul (by omega : 5 * (L.column (N + 1) - L.column N) ≤ 7 * kt) (by omega : 5 * (L.row (N + 1) - L.row N) ≤ 7 * ks)
    rw [show 7 * kt * (7 * ks) = 49 * (kt * ks) by ring, show 5 * (L.column (N + 1) - L.column N) * (5 * (L.row (N + 1) - L.row N)) =
      25 * ((L.column (N + 1) - L.column N) * (L.row (N + 1) - L.row N)) by ring] at this
    omega

/-- The alignment pattern of a drawing is found at once, and claimed. -/
theorem align_stretched (h0 : Fresh img0) (h : History img0 claims img) (hw : width img0.buffer ≤ 32768) (hh : height img0.buffer ≤ 32768)
    (h2 : 2 ≤ v) (hv : v ≤ 40) (hR : Stretches img0 (side v) M L) (hM : Patterned v M) {g : CapStoneGroup F}
    (ha : BoxTurned L 0 (side v - 7) g.a) (hc : BoxTurned L (side v - 7) 0 g.c)
    {hd : Point} (hnear : Near hd) (hpc : 0 < perColumn L.place hd) (hpr : 0 < perRow L.place hd)
    (hno : 2 ≤ v → ∀ p : Pos, L.pixel (L.column (side v - 7)) (L.row (side v - 7)) = ⟨p.1, p.2⟩ → claims p = none) :
    ∃ img' claims', claim_alignment img (L.pixel (L.column (side v - 7)) (L.row (side v - 7))) g.a g.c hd =
        .ok (img', some (L.pixel (L.column (side v - 7)) (L.row (side v - 7)))) ∧ History img0 claims' img' ∧
      (∀ p, claims' p ≠ none → claims p ≠ none ∨ L.InDrawing (side v) p) := by
  have hn : side v = 17 + 4 * v := rfl
  obtain ⟨est, he, he1, he2, he3, he4⟩ := estimate_stretched (by omega) hR ha hc
  obtain ⟨xa, xb, ya, yb, har, mem, hin, reg⟩ := align_rect h2 hv hR hM
  have c1 := hR.columns.lt (k := side v - 7) (l := side v - 6) (by omega) (by omega)
  have c2 := hR.columns.lt (k := side v - 6) (l := side v) (by omega) (by omega)
  have r1 := hR.rows.lt (k := side v - 7) (l := side v - 6) (by omega) (by omega)
  have r2 := hR.rows.lt (k := side v - 6) (l := side v) (by omega) (by omega)
  rw [← har] at he3 he4
  generalize L.column (side v - 7) = C at *
  generalize L.row (side v - 7) = R at *
  generalize L.column (side v - 6) = C' at *
  generalize L.row (side v - 6) = R' at *
  have q0 := hR.inside C R (by omega) (by omega)
  obtain ⟨X, hX⟩ : ∃ X : Nat, (L.pixel C R).x = X := ⟨_, (Int.toNat_of_nonneg q0.1).symm⟩
  obtain ⟨Y, hY⟩ : ∃ Y : Nat, (L.pixel C R).y = Y := ⟨_, (Int.toNat_of_nonneg q0.2.2.2.1).symm⟩
  have hXY : L.pixel C R = ⟨(X, Y).1, (X, Y).2⟩ := by rw [← hX, ← hY]
  have hin0 : InRect xa xb ya yb (X, Y) := (mem (X, Y) C R hXY).2 ⟨le_refl _, by omega, le_refl _, by omega⟩
  have hb := hin _ hin0
  have hcl : claims (X, Y) = none := hno h2 _ hXY
  have harea : area (IsBlack img0) (X, Y) = (xb - xa) * (yb - ya) := by
    unfold area
    rw [← rect_ncard xa xb ya yb]
    congr 1
    ext q
    exact reg _ q hin0
  have hsqrt : Nat.sqrt (100 * est - 1) < 100001 := by
    rw [Nat.sqrt_lt']
    omega
  obtain ⟨img1, found, e1, hist1, hfound⟩ := C47_search h0 h (seed := L.pixel C R) (n := est)
    ⟨by omega, by omega, by omega, by omega, by omega⟩
  have hf : found = some (L.pixel C R) := by
    rw [hfound]
    have hpos : 0 < Nat.sqrt (100 * est - 1) := Nat.sqrt_pos.2 (by omega)
    obtain ⟨bs, hbs⟩ := spiral_first (L.pixel C R) (n := searchedSides est) (by unfold searchedSides; omega)
    refine ⟨[], bs, hbs, ⟨X, Y, hXY, hb, hcl, ?_, ?_⟩, by simp⟩
    · rw [harea]; omega
    · rw [harea]; omega
  rw [hf] at e1
  obtain ⟨nx, ny⟩ := hnear
  have score : LeftMostFinder.scoreOf hd (L.pixel C R).x (L.pixel C R).y = .ok (cross hd (point (X, Y))) := by
    have ax : |(L.pixel C R).x| ≤ 20000 := by rw [abs_le]; omega
    have ay : |(L.pixel C R).y| ≤ 20000 := by rw [abs_le]; omega
    have an : |-hd.y| ≤ 20000 := by rw [abs_neg]; omega
    unfold LeftMostFinder.scoreOf
    rw [negI_ok (by omega), Run.ok_bind, mulI_small an ax, Run.ok_bind, mulI_small (by omega) ay, Run.ok_bind,
      addI_ok (mul_small an ax) (mul_small (by omega) ay)]
    congr 1
    unfold cross point
    rw [hX, hY]
    dsimp only
    ring
  rw [abs_le] at nx ny
  obtain ⟨img2, f', e2, hist2, p, hp, hreach, hmin⟩ := C42_leftmost h0 hist1 hw hh hb .Alignment (by rw [hcl]; simp) (line := hd)
    ⟨by omega, by omega, by omega, by omega⟩
  refine ⟨img2, _, ?_, hist2, fun q hq => ?_⟩
  swap
  · by_cases hqr : Reach (IsBlack img0) (X, Y) q
    · right
      have hq1 := (reg _ q hin0).1 hqr
      obtain ⟨i, j, e⟩ := exists_coords (P := L.place) hR.axis (⟨q.1, q.2⟩ : Point)
      have hq2 := (mem q i j e).1 hq1
      refine ⟨i.toNat, j.toNat, by omega, by omega, ?_⟩
      rw [Int.toNat_of_nonneg (by omega), Int.toNat_of_nonneg (by omega)]
      exact e
    · left
      unfold claimRegion at hq
      rwa [if_neg hqr] at hq
  unfold claim_alignment find_alignment_pattern
  rw [he, Run.ok_bind, e1, Run.ok_bind]
  dsimp only
  rw [score, Run.ok_bind, hX, hY, asUsize_nat _ (by omega), asUsize_nat _ (by omega)]
  have epoint : L.pixel C R = point (X, Y) := hXY
  rw [epoint]
  refine Eq.trans (congrArg (· >>= _) e2) ?_
  rw [Run.ok_bind]
  dsimp only
  rw [hp]
  have hpin := (reg _ p hin0).1 hreach
  obtain ⟨i, j, e⟩ := exists_coords (P := L.place) hR.axis (⟨p.1, p.2⟩ : Point)
  have hij := (mem p i j e).1 hpin
  have hle := hmin (X, Y) (Reach.refl hb)
  have ep : point p = L.pixel i j := e.symm
  have key : ∀ i j : Int, cross hd (L.pixel i j) = cross hd L.place.corner + (perColumn L.place hd * i + perRow L.place hd * j) :=
    fun i j => cross_key (P := L.place) hd i j
  rw [ep, ← epoint, key, key] at hle
  have hi : i = C ∧ j = R := by
    have h1 : 0 ≤ perColumn L.place hd * (i - C) := mul_nonneg (by omega) (by omega)
    have h2 : 0 ≤ perRow L.place hd * (j - R) := mul_nonneg (by omega) (by omega)
    have h3 : perColumn L.place hd * (i - C) + perRow L.place hd * (j - R) ≤ 0 := by
      rw [mul_sub, mul_sub]; omega
    have h4 : perColumn L.place hd * (i - C) = 0 := by omega
    have h5 : perRow L.place hd * (j - R) = 0 := by omega
    rcases mul_eq_zero.1 h4 with h4 | h4
    · omega
    · rcases mul_eq_zero.1 h5 with h5 | h5
      · omega
      · omega
  rw [ep, ← epoint, hi.1, hi.2]
  rfl

/-- If only rings are claimed then the alignment pattern is not. -/
theorem align_free_box (hv : v ≤ 40) (hR : Stretches img0 (side v) M L) (hM : Patterned v M)
    (hno : ∀ p, claims p ≠ none → ∀ a b c d, (∀ q, InRect a b c d q → IsBlack img0 q) → ¬ ∀ q, Reach (IsBlack img0) p q ↔ InRect a b c d q) :
    2 ≤ v → ∀ p : Pos, L.pixel (L.column (side v - 7)) (L.row (side v - 7)) = ⟨p.1, p.2⟩ → claims p = none := by
  intro h2 p hp
  have hn : side v = 17 + 4 * v := rfl
  obtain ⟨xa, xb, ya, yb, -, mem, hin, reg⟩ := align_rect h2 hv hR hM
  have c1 := hR.columns.lt (k := side v - 7) (l := side v - 6) (by omega) (by omega)
  have r1 := hR.rows.lt (k := side v - 7) (l := side v - 6) (by omega) (by omega)
  have hin0 := (mem p _ _ hp).2 ⟨le_refl _, by omega, le_refl _, by omega⟩
  by_contra hne
  exact hno _ hne xa xb ya yb hin (fun q => reg _ q hin0)

end Rqrr
