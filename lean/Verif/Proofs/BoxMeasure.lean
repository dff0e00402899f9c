import Verif.Proofs.BoxScan

/-!
# Measuring a drawing with modules of unequal sizes
-/

namespace Rqrr

open Spec ImageBuffer Spec.Placement Rounding FloatOps

variable {S : Type} [ImageBuffer S] [LawfulImage S] {img0 img : PreparedImage S} {claims : Pos → Option Claim} {n v : Nat}
  {M : Nat → Nat → Bool} {L : Layout}

/-- The place of the middle of the seventh module of a finder pattern. -/
theorem Spec.Even.seventh {f : Nat → Nat} (h : Even n f) {a : Nat} (ha : a + 7 ≤ n) {A : Int}
    (hA : |(A : ℚ) - (((f (a + 7) : Int) - 1 - f a : Int) : ℚ) / 7 * (13 / 2)| ≤ 41 / 80) : (f (a + 6) : Int) ≤ f a + A ∧ (f a : Int) + A < f (a + 7) := by
  obtain ⟨α, β, hα, h⟩ := h
  have d7 := Spec.Even.sub_le h (i := a) (d := 7) ha
  have d6 := Spec.Even.sub_le h (i := a + 6) (d := 1) (by omega)
  rw [abs_le] at hA
  push_cast at hA d7 d6
  rw [show a + 6 + 1 = a + 7 by omega] at d6
  have e1 : (f (a + 6) : ℚ) < f a + A + 1 := by linarith
  have e2 : (f a : ℚ) + A < f (a + 7) := by linarith
  have e1' : (f (a + 6) : Int) < f a + A + 1 := by exact_mod_cast e1
  exact ⟨by omega, by exact_mod_cast e2⟩

/-- The place of the middle of the first module of a finder pattern. -/
theorem Spec.Even.half {f : Nat → Nat} (h : Even n f) {a : Nat} (ha : a + 7 ≤ n) {A : Int}
    (hA : |(A : ℚ) - (((f (a + 7) : Int) - 1 - f a : Int) : ℚ) / 7 * (1 / 2)| ≤ 41 / 80) : 0 ≤ A ∧ (f a : Int) + A < f (a + 1) := by
  obtain ⟨α, β, hα, h⟩ := h
  have d7 := Spec.Even.sub_le h (i := a) (d := 7) ha
  have d1 := Spec.Even.sub_le h (i := a) (d := 1) (by omega)
  rw [abs_le] at hA
  push_cast at hA d7 d1
  have e1 : (0 : ℚ) < A + 1 := by linarith
  have e2 : (f a : ℚ) + A < f (a + 1) := by linarith
  have e1' : (0 : Int) < A + 1 := by exact_mod_cast e1
  exact ⟨by omega, by exact_mod_cast e2⟩

variable {F : Type} [FloatOps F] [Rounding F]

/-- A capstone turned so that its corners follow the drawing. -/
structure BoxTurned (L : Layout) (a b : Nat) (cap : CapStone F) : Prop where
  corners : cap.corners = L.place.rect (L.column a) (L.row b) ((L.column (a + 7) : Int) - 1 - L.column a) ((L.row (b + 7) : Int) - 1 - L.row b)
  c : Rounded cap.c (L.place.mesh (L.column a) (L.row b) ((((L.column (a + 7) : Int) - 1 - L.column a : Int) : ℚ) / 7)
    ((((L.row (b + 7) : Int) - 1 - L.row b : Int) : ℚ) / 7))

/-- The lengths of a finder pattern's sides. -/
theorem Spec.Stretches.sides (hR : Stretches img0 n M L) {a b : Nat} (ha : a + 7 ≤ n) (hb : b + 7 ≤ n) :
    (1 : ℚ) ≤ (((L.column (a + 7) : Int) - 1 - L.column a : Int) : ℚ) / 7 ∧ (((L.column (a + 7) : Int) - 1 - L.column a : Int) : ℚ) / 7 ≤ 10000 ∧
    (1 : ℚ) ≤ (((L.row (b + 7) : Int) - 1 - L.row b : Int) : ℚ) / 7 ∧ (((L.row (b + 7) : Int) - 1 - L.row b : Int) : ℚ) / 7 ≤ 10000 := by
  have h1 := hR.columns.finder ha
  have h2 := hR.rows.finder hb
  have s := hR.size (by omega)
  have h3 := hR.columns.le ha (Nat.le_refl _)
  have h4 := hR.rows.le hb (Nat.le_refl _)
  have key : ∀ z : Int, 7 ≤ z → z ≤ 10001 → (1 : ℚ) ≤ (z : ℚ) / 7 ∧ (z : ℚ) / 7 ≤ 10000 := by
    intro z z1 z2
    have z1' : (7 : ℚ) ≤ z := by exact_mod_cast z1
    have z2' : (z : ℚ) ≤ 10001 := by exact_mod_cast z2
    constructor <;> linarith
  obtain ⟨p1, p2⟩ := key ((L.column (a + 7) : Int) - 1 - L.column a) (by omega) (by omega)
  obtain ⟨p3, p4⟩ := key ((L.row (b + 7) : Int) - 1 - L.row b) (by omega) (by omega)
  exact ⟨p1, p2, p3, p4⟩

/-- The transformation of a turned capstone, at the modules of the finder pattern. -/
theorem BoxTurned.map (hR : Stretches img0 n M L) {a b : Nat} (ha : a + 7 ≤ n) (hb : b + 7 ≤ n) {cap : CapStone F} (hc : BoxTurned L a b cap)
    {u w : F} {U W : ℚ} (hu : Sc u U 7 1) (hw : Sc w W 7 1) :
    ∃ A B : Int, cap.c.map u w = .ok (L.pixel (L.column a + A) (L.row b + B)) ∧
      |(A : ℚ) - (((L.column (a + 7) : Int) - 1 - L.column a : Int) : ℚ) / 7 * U| ≤ 41 / 80 ∧
      |(B : ℚ) - (((L.row (b + 7) : Int) - 1 - L.row b : Int) : ℚ) / 7 * W| ≤ 41 / 80 := by
  have h1 := hR.columns.finder ha
  have h2 := hR.rows.finder hb
  have h3 := hR.columns.le ha (Nat.le_refl _)
  have h4 := hR.rows.le hb (Nat.le_refl _)
  obtain ⟨bx, by'⟩ := hR.inside' (i := L.column a) (j := L.row b) (by omega) (by omega)
  obtain ⟨p1, p2, p3, p4⟩ := hR.sides ha hb
  exact mesh_near hR.axis hc.c (T := 10000) (Q := 10000) (by linarith) p2 (by linarith) p4 (by norm_num) (by norm_num) (by norm_num) (by norm_num)
    bx by' hu hw (by norm_num) (by norm_num) (by norm_num)

theorem near_same {A B : Int} {z : ℚ} (hA : |(A : ℚ) - z| ≤ 41 / 80) (hB : |(B : ℚ) - z| ≤ 41 / 80) : |A - B| ≤ 1 := by
  rw [abs_le] at hA hB
  have e1 : (A : ℚ) < B + 2 := by linarith
  have e2 : (B : ℚ) < A + 2 := by linarith
  have e1' : A < B + 2 := by exact_mod_cast e1
  have e2' : B < A + 2 := by exact_mod_cast e2
  rw [abs_le]
  omega

/-- The size of a drawn symbol is measured correctly. -/
theorem measure_stretched (h0 : Fresh img0) (h : History img0 claims img) (hw : width img0.buffer ≤ 2 ^ 31) (hh : height img0.buffer ≤ 2 ^ 31)
    (h1 : 1 ≤ v) (hv : v ≤ 40) (hR : Stretches img0 (side v) M L) (hM : Patterned v M) {g : CapStoneGroup F}
    (ha : BoxTurned L 0 (side v - 7) g.a) (hb : BoxTurned L 0 0 g.b) (hc : BoxTurned L (side v - 7) 0 g.c) :
    measure_timing_pattern img g = .ok (side v) := by
  have hn : side v = 17 + 4 * v := rfl
  obtain ⟨f1, f2⟩ := hR.first
  obtain ⟨A0, B0, m0, a0, b0⟩ := ha.map hR (by omega) (by omega) (sc65 (F := F)) sc05
  obtain ⟨A1, B1, m1, a1, b1⟩ := hb.map hR (by omega) (by omega) (sc65 (F := F)) sc65
  obtain ⟨A2, B2, m2, a2, b2⟩ := hc.map hR (by omega) (by omega) (sc05 (F := F)) sc65
  have n1 := near_same a0 a1
  have n2 := near_same b2 b1
  obtain ⟨p1, p2⟩ := hR.columns.seventh (by omega) a0
  obtain ⟨p3, p4⟩ := hR.rows.half (by omega) b0
  obtain ⟨p5, p6⟩ := hR.columns.seventh (by omega) a1
  obtain ⟨p7, p8⟩ := hR.rows.seventh (by omega) b1
  obtain ⟨p9, p10⟩ := hR.columns.half (by omega) a2
  obtain ⟨p11, p12⟩ := hR.rows.seventh (by omega) b2
  have q1 := hR.columns.lt (k := 7) (l := side v - 7) (by omega) (by omega)
  have q2 := hR.rows.lt (k := 7) (l := side v - 7) (by omega) (by omega)
  clear a0 a1 a2 b0 b1 b2
  rw [Nat.zero_add] at p1 p2 p5 p6 p7 p8 p11 p12
  rw [f1, Nat.cast_zero, zero_add] at m0 m1 p1 p2 p5 p6
  rw [f2, Nat.cast_zero, zero_add] at m1 m2 p7 p8 p11 p12
  obtain ⟨A0, rfl⟩ : ∃ k : Nat, A0 = k := ⟨A0.toNat, by omega⟩
  obtain ⟨B0, rfl⟩ : ∃ k : Nat, B0 = k := ⟨B0.toNat, by omega⟩
  obtain ⟨A1, rfl⟩ : ∃ k : Nat, A1 = k := ⟨A1.toNat, by omega⟩
  obtain ⟨B1, rfl⟩ : ∃ k : Nat, B1 = k := ⟨B1.toNat, by omega⟩
  obtain ⟨A2, rfl⟩ : ∃ k : Nat, A2 = k := ⟨A2.toNat, by omega⟩
  obtain ⟨B2, rfl⟩ : ∃ k : Nat, B2 = k := ⟨B2.toNat, by omega⟩
  rw [← Nat.cast_add] at m0 m2
  rw [abs_le] at n1 n2
  have alt : ∀ x, 6 ≤ x → x < side v - 7 → timingDark (x + 1) = !timingDark x := by
    intro x _ _
    unfold timingDark
    rcases Nat.mod_two_eq_zero_or_one x with h | h <;> simp [h] <;> omega
  have s1 := scan_row_box h0 h hw hh hR (x0 := 6) (x1 := side v - 7) (y := 6) (i := A1) (j := B1) (i' := L.column (side v - 7) + A2) (j' := B2)
    (by omega) (by omega) (by omega) ⟨by omega, by show A1 < L.column 7; omega, by omega, by show B1 < L.row 7; omega⟩
    ⟨by omega, by omega, by omega, by show B2 < L.row 7; omega⟩ (by omega) (by rw [abs_le]; push_cast; omega) (by
    intro x x1 x2
    rw [(timing_modules h1 hM (x := x + 1) (by omega) (by omega)).1, (timing_modules h1 hM (x := x) x1 (by omega)).1]
    exact alt x x1 x2)
  have s2 := scan_column_box h0 h hw hh hR (x := 6) (y0 := 6) (y1 := side v - 7) (i := A1) (j := B1) (i' := A0) (j' := L.row (side v - 7) + B0)
    (by omega) (by omega) (by omega) ⟨by omega, by show A1 < L.column 7; omega, by omega, by show B1 < L.row 7; omega⟩
    ⟨by omega, by show A0 < L.column 7; omega, by omega, by omega⟩ (by omega) (by rw [abs_le]; push_cast; omega) (by
    intro x x1 x2
    rw [(timing_modules h1 hM (x := x + 1) (by omega) (by omega)).2, (timing_modules h1 hM (x := x) x1 (by omega)).2]
    exact alt x x1 x2)
  unfold measure_timing_pattern
  rw [m0, Run.ok_bind, m1, Run.ok_bind, m2, Run.ok_bind, s1, Run.ok_bind, s2, Run.ok_bind, Nat.max_self]
  exact (C46_version small_integers_rounding (v := v) (by omega) (by omega) (by omega)).1

theorem product_div {K X : Int} (hK : K ≠ 0) (hX : 0 ≤ X) (h : X ≤ 10000) : divI (K * X) K = .ok X := by
  unfold divI
  rw [if_neg hK, Int.mul_tdiv_cancel_left _ hK, chk32_ok (by omega) (by omega)]

theorem product_step {α : Type} {K X Z : Int} (hK : 0 < K) (hX : 0 ≤ X) (e : Z = K * X) (f : Int → Run α) :
    (chk32 Z >>= f) = if K * X < 2 ^ 31 then f (K * X) else .error .panic := by
  subst e
  have h0 : 0 ≤ K * X := by positivity
  rw [chk32_eq _ (by omega)]
  split <;> rfl

theorem product_step_neg {α : Type} {K X Z : Int} (hK : 0 < K) (hX : 0 ≤ X) (e : Z = -(K * X)) (f : Int → Run α) :
    (chk32 Z >>= fun t => chk32 (0 - t) >>= f) = if K * X < 2 ^ 31 then f (K * X) else .error .panic := by
  have h0 : 0 ≤ K * X := by positivity
  rw [e]
  by_cases h : K * X < 2 ^ 31
  · rw [if_pos h, chk32_ok (by omega) (by omega), Run.ok_bind, zero_sub, neg_neg, chk32_ok (by omega) h, Run.ok_bind]
  · rw [if_neg h]
    unfold chk32
    split
    · rw [Run.ok_bind, zero_sub, neg_neg, if_neg fun k => h k.2]; rfl
    · rfl

theorem both_products {K X Y : Int} (hK : K ≠ 0) (hX : 0 ≤ X) (hX2 : X ≤ 10000) (hY : 0 ≤ Y) (hY2 : Y ≤ 10000) :
    (if K * X < 2 ^ 31 then divI (K * X) K >>= fun x =>
        if K * Y < 2 ^ 31 then divI (K * Y) K >>= fun y => pure (some (⟨x, y⟩ : Point)) else .error .panic
      else .error .panic : Run (Option Point)) =
      if K * X < 2 ^ 31 ∧ K * Y < 2 ^ 31 then .ok (some ⟨X, Y⟩) else .error .panic := by
  rw [product_div hK hX hX2, product_div hK hY hY2, Run.ok_bind, Run.ok_bind]
  by_cases h1 : K * X < 2 ^ 31
  · by_cases h2 : K * Y < 2 ^ 31
    · rw [if_pos h1, if_pos h2, if_pos ⟨h1, h2⟩]; rfl
    · rw [if_pos h1, if_neg h2, if_neg fun k => h2 k.2]
  · rw [if_neg h1, if_neg fun k => h1 k.1]

/-- Where a horizontal and a vertical line meet: `line_intersect` gives the point, unless the products leave `i32`. -/
theorem intersect_box {D E X Y u w : Int} (hK : 0 < D * E) (hD1 : -10000 ≤ D) (hD2 : D ≤ 10000) (hE1 : -10000 ≤ E) (hE2 : E ≤ 10000)
    (hX : 0 ≤ X) (hX2 : X ≤ 10000) (hY : 0 ≤ Y) (hY2 : Y ≤ 10000) :
    line_intersect ⟨u, Y⟩ ⟨u + D, Y⟩ ⟨X, w⟩ ⟨X, w + E⟩ =
      if D * E * X < 2 ^ 31 ∧ D * E * Y < 2 ^ 31 then .ok (some ⟨X, Y⟩) else .error .panic := by
  have mb : ∀ a b : Int, -10000 ≤ a → a ≤ 10000 → -10000 ≤ b → b ≤ 10000 → -(10000 * 10000) ≤ a * b ∧ a * b ≤ 10000 * 10000 :=
    fun a b h1 h2 h3 h4 => mul_bound h1 h2 h3 h4
  have b1 := mb D Y (by omega) (by omega) (by omega) (by omega)
  have b2 := mb (-E) X (by omega) (by omega) (by omega) (by omega)
  have b3 := mb D (-E) (by omega) (by omega) (by omega) (by omega)
  have b4 : D * E = -(D * -E) := by ring
  have hd : D * E ≠ 0 := by omega
  unfold line_intersect subI negI mulI addI
  dsimp only
  rw [ok_eq (k := 0) (sub_self Y) (by omega) (by omega), Run.ok_bind, ok_eq (k := 0) neg_zero (by omega) (by omega), Run.ok_bind,
    ok_eq (k := D) (by ring) (by omega) (by omega), Run.ok_bind, ok_eq (n := w + E - w) (k := E) (by ring) (by omega) (by omega), Run.ok_bind,
    ok_eq (n := -E) rfl (by omega) (by omega), Run.ok_bind, ok_eq (k := 0) (sub_self X) (by omega) (by omega), Run.ok_bind,
    ok_eq (k := 0) (zero_mul _) (by omega) (by omega), Run.ok_bind, ok_eq (n := D * Y) rfl (by omega) (by omega), Run.ok_bind,
    ok_eq (zero_add _) (by omega) (by omega), Run.ok_bind, ok_eq (n := -E * X) rfl (by omega) (by omega), Run.ok_bind,
    ok_eq (n := 0 * (w + E)) (k := 0) (zero_mul _) (by omega) (by omega), Run.ok_bind, ok_eq (add_zero _) (by omega) (by omega), Run.ok_bind,
    ok_eq (n := 0 * 0) (k := 0) rfl (by omega) (by omega), Run.ok_bind, ok_eq (n := D * -E) rfl (by omega) (by omega), Run.ok_bind,
    ok_eq (n := 0 - D * -E) (k := D * E) (by ring) (by omega) (by omega), Run.ok_bind, if_neg hd,
    ok_eq (n := 0 * (D * Y)) (k := 0) (zero_mul _) (by omega) (by omega), Run.ok_bind, product_step_neg hK hX (by ring : D * (-E * X) = -(D * E * X))]
  rw [← both_products hd hX hX2 hY hY2]
  congr 1
  congr 1
  funext x
  rw [ok_eq (n := - -E) (neg_neg E) (by omega) (by omega), Run.ok_bind, product_step hK hY (by ring : E * (D * Y) = D * E * Y),
    ok_eq (n := 0 * (-E * X)) (k := 0) (zero_mul _) (by omega) (by omega), Run.ok_bind, product_step hK hY (add_zero _)]
  split <;> rfl

/-- The same with the lines exchanged. -/
theorem intersect_box' {D E X Y u w : Int} (hK : 0 < D * E) (hD1 : -10000 ≤ D) (hD2 : D ≤ 10000) (hE1 : -10000 ≤ E) (hE2 : E ≤ 10000)
    (hX : 0 ≤ X) (hX2 : X ≤ 10000) (hY : 0 ≤ Y) (hY2 : Y ≤ 10000) :
    line_intersect ⟨X, w⟩ ⟨X, w + D⟩ ⟨u, Y⟩ ⟨u + -E, Y⟩ =
      if D * E * X < 2 ^ 31 ∧ D * E * Y < 2 ^ 31 then .ok (some ⟨X, Y⟩) else .error .panic := by
  have mb : ∀ a b : Int, -10000 ≤ a → a ≤ 10000 → -10000 ≤ b → b ≤ 10000 → -(10000 * 10000) ≤ a * b ∧ a * b ≤ 10000 * 10000 :=
    fun a b h1 h2 h3 h4 => mul_bound h1 h2 h3 h4
  have b1 := mb (-E) Y (by omega) (by omega) (by omega) (by omega)
  have b2 := mb (-D) X (by omega) (by omega) (by omega) (by omega)
  have b3 := mb (-D) (-E) (by omega) (by omega) (by omega) (by omega)
  have b4 : D * E = -D * -E := by ring
  have hd : D * E ≠ 0 := by omega
  unfold line_intersect subI negI mulI addI
  dsimp only
  rw [ok_eq (n := w + D - w) (k := D) (by ring) (by omega) (by omega), Run.ok_bind, ok_eq (n := -D) rfl (by omega) (by omega), Run.ok_bind,
    ok_eq (k := 0) (sub_self X) (by omega) (by omega), Run.ok_bind, ok_eq (k := 0) (sub_self Y) (by omega) (by omega), Run.ok_bind,
    ok_eq (k := 0) neg_zero (by omega) (by omega), Run.ok_bind, ok_eq (k := -E) (by ring) (by omega) (by omega), Run.ok_bind,
    ok_eq (n := -D * X) rfl (by omega) (by omega), Run.ok_bind, ok_eq (n := 0 * (w + D)) (k := 0) (zero_mul _) (by omega) (by omega), Run.ok_bind,
    ok_eq (add_zero _) (by omega) (by omega), Run.ok_bind, ok_eq (n := 0 * (u + -E)) (k := 0) (zero_mul _) (by omega) (by omega), Run.ok_bind,
    ok_eq (n := -E * Y) rfl (by omega) (by omega), Run.ok_bind, ok_eq (zero_add _) (by omega) (by omega), Run.ok_bind,
    ok_eq (n := -D * -E) rfl (by omega) (by omega), Run.ok_bind, ok_eq (n := 0 * 0) (k := 0) rfl (by omega) (by omega), Run.ok_bind,
    ok_eq (n := -D * -E - 0) (k := D * E) (by ring) (by omega) (by omega), Run.ok_bind, if_neg hd,
    product_step hK hX (by ring : -E * (-D * X) = D * E * X), ok_eq (n := 0 * (-E * Y)) (k := 0) (zero_mul _) (by omega) (by omega), Run.ok_bind,
    product_step hK hX (sub_zero _)]
  rw [← both_products hd hX hX2 hY hY2]
  by_cases h : D * E * X < 2 ^ 31
  · rw [if_pos h, if_pos h, if_pos h]
    congr 1
    funext x
    rw [ok_eq (n := -0) (k := 0) neg_zero (by omega) (by omega), Run.ok_bind, ok_eq (n := 0 * (-D * X)) (k := 0) (zero_mul _) (by omega) (by omega),
      Run.ok_bind, product_step hK hY (by ring : -D * (-E * Y) = D * E * Y), product_step hK hY (zero_add _)]
    split <;> rfl
  · rw [if_neg h, if_neg h]

/-- The upper edge of the bottom left pattern meets the left edge of the top right pattern at the first pixel of the bottom right
7 x 7 modules, and the point is computed unless the products leave `i32`. -/
theorem stretched_meet (hn : 14 ≤ n) (hR : Stretches img0 n M L) {g : CapStoneGroup F}
    (ha : BoxTurned L 0 (n - 7) g.a) (hc : BoxTurned L (n - 7) 0 g.c) :
    line_intersect g.a.corners[0] g.a.corners[1] g.c.corners[0] g.c.corners[3] =
      open Classical in
      if L.InRange n then .ok (some (L.pixel (L.column (n - 7)) (L.row (n - 7)))) else .error .panic := by
  obtain ⟨f1, f2⟩ := hR.first
  have h1 := hR.columns.finder (a := 0) (by omega)
  have h2 := hR.rows.finder (a := 0) (by omega)
  have h3 := hR.columns.finder (a := n - 7) (by omega)
  have h4 := hR.rows.finder (a := n - 7) (by omega)
  have h5 := hR.columns.le (k := 7) (l := n - 7) (by omega) (by omega)
  have h6 := hR.rows.le (k := 7) (l := n - 7) (by omega) (by omega)
  rw [show n - 7 + 7 = n by omega] at h3 h4
  have ac := ha.corners
  have cc := hc.corners
  rw [f1, Nat.cast_zero, sub_zero, Nat.zero_add] at ac
  rw [f2, Nat.cast_zero, sub_zero, Nat.zero_add] at cc
  rw [Nat.zero_add] at h1 h2
  unfold Spec.Layout.InRange Layout.pixel
  have k0 := hR.inside (L.column (n - 7)) (L.row (n - 7)) (by omega) (by omega)
  have k1 := hR.inside 0 0 (by omega) (by omega)
  have k2 := hR.inside (L.column 7 - 1) 0 (by omega) (by omega)
  have k3 := hR.inside 0 (L.row 7 - 1) (by omega) (by omega)
  unfold Layout.pixel at k0 k1 k2 k3
  rw [Nat.cast_sub (by omega)] at k2 k3
  push_cast at k2 k3
  generalize L.column (n - 7) = C at *
  generalize L.row (n - 7) = R at *
  have e0 : g.a.corners[0] = L.place.pixel 0 R := by rw [ac]; rfl
  have e1 : g.a.corners[1] = L.place.pixel (0 + ((L.column 7 : Int) - 1)) R := by rw [ac]; rfl
  have e2 : g.c.corners[0] = L.place.pixel C 0 := by rw [cc]; rfl
  have e3 : g.c.corners[3] = L.place.pixel C (0 + ((L.row 7 : Int) - 1)) := by rw [cc]; rfl
  rw [e0, e1, e2, e3]
  obtain ⟨m, hm⟩ : ∃ m : Int, m = L.column 7 - 1 := ⟨_, rfl⟩
  obtain ⟨l, hl⟩ : ∃ l : Int, l = L.row 7 - 1 := ⟨_, rfl⟩
  rw [← hm] at k2 ⊢
  rw [← hl] at k3 ⊢
  have mpos : 0 < m := by omega
  have lpos : 0 < l := by omega
  have ml : 0 < m * l := mul_pos mpos lpos
  clear ac cc e0 e1 e2 e3 ha hc
  revert k0 k1 k2 k3
  unfold Layout.place pixel
  rcases hR.axis with h | h | h | h <;> rw [h] <;> dsimp only <;> simp only [Nat.cast_zero, mul_one, mul_zero, mul_neg, neg_zero, zero_add, add_zero, sub_zero, sub_neg_eq_add] <;> intro k0 k1 k2 k3
  · have := intersect_box (D := m) (E := l) (X := L.corner.x + C) (Y := L.corner.y + R) (u := L.corner.x) (w := L.corner.y) ml (by omega) (by omega) (by omega) (by omega) (by omega) (by omega) (by omega) (by omega)
    refine Eq.trans ?_ (this.trans ?_)
    · congr 2
    · congr
  · have := intersect_box' (D := m) (E := l) (X := L.corner.x - R) (Y := L.corner.y + C) (u := L.corner.x) (w := L.corner.y) ml (by omega) (by omega) (by omega) (by omega) (by omega) (by omega) (by omega) (by omega)
    refine Eq.trans ?_ (this.trans ?_)
    · congr 2
    · congr
  · have := intersect_box (D := -m) (E := -l) (X := L.corner.x + -C) (Y := L.corner.y + -R) (u := L.corner.x) (w := L.corner.y) (by rw [neg_mul_neg]; exact ml) (by omega) (by omega) (by omega) (by omega) (by omega) (by omega) (by omega) (by omega)
    rw [neg_mul_neg] at this
    refine Eq.trans ?_ (this.trans ?_)
    · congr 2
    · congr
  · have := intersect_box' (D := -m) (E := -l) (X := L.corner.x + R) (Y := L.corner.y + -C) (u := L.corner.x) (w := L.corner.y) (by rw [neg_mul_neg]; exact ml) (by omega) (by omega) (by omega) (by omega) (by omega) (by omega) (by omega) (by omega)
    rw [neg_mul_neg, neg_neg] at this
    refine Eq.trans ?_ (this.trans ?_)
    · congr 2
    · congr

end Rqrr
