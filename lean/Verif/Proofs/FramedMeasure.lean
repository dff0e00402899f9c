import Verif.Proofs.FramedLocate

/-!
# The size of a drawn symbol
-/

namespace Rqrr

open Spec ImageBuffer FloatOps Spec.Placement Rounding

variable {F : Type} [FloatOps F] [Rounding F] {S : Type} [ImageBuffer S] [LawfulImage S] {img0 img : PreparedImage S} {claims : Pos → Option Claim} {v : Nat}
  {M : Nat → Nat → Bool} {P : Placement}

/-- The timing patterns, with the two modules of the finder patterns at their ends. -/
theorem timing_modules (h1 : 1 ≤ v) (h : Patterned v M) {x : Nat} (hx1 : 6 ≤ x) (hx2 : x ≤ side v - 7) :
    M 6 x = timingDark x ∧ M x 6 = timingDark x := by
  have hs : side v = 17 + 4 * v := rfl
  by_cases h6 : x = 6
  · subst h6
    have := finder_modules h1 h (.inl ⟨rfl, rfl⟩) (y := 6) (x := 6) (by omega) (by omega) (by omega) (by omega) (by omega) (by omega)
    have h' : M 6 6 = true := this.2 ⟨by omega, by omega, by omega, by omega, by decide⟩
    rw [h']
    exact ⟨rfl, rfl⟩
  · by_cases h7 : x = side v - 7
    · have e : timingDark x = true := by
        subst h7
        unfold timingDark
        rw [hs]
        simp
        omega
      rw [e]
      have a1 := finder_modules h1 h (.inr (.inl ⟨rfl, rfl⟩)) (y := 6) (x := x) (by omega) (by omega) (by omega) (by omega) (by omega) (by omega)
      have a2 := finder_modules h1 h (.inr (.inr ⟨rfl, rfl⟩)) (y := x) (x := 6) (by omega) (by omega) (by omega) (by omega) (by omega) (by omega)
      refine ⟨a1.2 ⟨by omega, by omega, by omega, by omega, ?_⟩, a2.2 ⟨by omega, by omega, by omega, by omega, ?_⟩⟩
      · rw [h7, Nat.sub_self]; decide
      · rw [h7, Nat.sub_self]; decide
    · have m : ∀ m ∈ timingModules v, M m.1 m.2.1 = m.2.2 := by
        intro m hm
        refine h.pattern m ?_
        unfold patternModules
        rw [List.mem_append, List.mem_append]
        exact .inl (.inl hm)
      have mem : ∀ m ∈ [((6 : Nat), x, timingDark x), (x, 6, timingDark x)], m ∈ timingModules v := by
        intro m hm
        unfold timingModules
        rw [List.mem_flatMap]
        refine ⟨x - 7, List.mem_range.2 (by omega), ?_⟩
        rw [show x - 7 + 7 = x by omega]
        exact hm
      exact ⟨m _ (mem (6, x, timingDark x) (by simp)), m _ (mem (x, 6, timingDark x) (by simp))⟩

theorem sc65 : Sc (lit 65 1 : F) (13 / 2) 7 1 := by
  have := Sc.lit (F := F) (m := 65) (e := 1) (S := 7) (by norm_num) (by norm_num) (by norm_num)
  rwa [show ((65 : Nat) : ℚ) / 10 ^ 1 = 13 / 2 by norm_num] at this

theorem sc05 : Sc (lit 5 1 : F) (1 / 2) 7 1 := by
  have := Sc.lit (F := F) (m := 5) (e := 1) (S := 7) (by norm_num) (by norm_num) (by norm_num)
  rwa [show ((5 : Nat) : ℚ) / 10 ^ 1 = 1 / 2 by norm_num] at this

/-- Correctly rounded arithmetic is exact on the integers that the grid size is computed from. -/
theorem small_integers_rounding : SmallIntegersExact F := by
  intro n hn
  have h1 : IntB (ofInt (n : Int) : F) n (2 ^ 53 - 16 + 16) := .ofInt (by rw [abs_of_nonneg (by positivity)]; omega) (by norm_num)
  have h2 : IntB (lit 15 0 : F) ((15 : Nat) : Int) 15 := .lit (by norm_num) (by norm_num)
  have h3 : Is (FloatOps.sub (ofInt (n : Int) : F) (lit 15 0)) (((n : Int) - 15 : Int) : ℚ) := by
    have hb : |((n : Int) - 15 : Int)| ≤ 2 ^ 53 := by rw [abs_le]; constructor <;> omega
    have := Rounding.sub h1.1 h2.1 (by
      have : |(((n : Int) - 15 : Int) : ℚ)| ≤ 2 ^ 53 := by exact_mod_cast hb
      refine le_trans ?_ (this.trans (by norm_num))
      push_cast
      exact le_refl _)
    rw [show (((n : Int) : ℚ) - (((15 : Nat) : Int) : ℚ)) = (((n : Int) - 15 : Int) : ℚ) by push_cast; ring, rnd_int _ hb] at this
    exact this
  have h4 := Rounding.floor h3
  rw [Int.floor_intCast] at h4
  refine (Rounding.toUsize h4).trans ?_
  rw [Exact.truncate_int]
  unfold saturate
  omega

/-- The start of the scans: the middle of module 6, measured on the grid of corner pixels. -/
theorem tpet_near {s : Nat} (hs : 2 ≤ s) : |(((7 * s - 1 : Int) : ℚ) / 7) * (13 / 2) - (((13 * s - 1) / 2 : Nat) : Int)| < 39 / 80 ∧
    |(((7 * s - 1 : Int) : ℚ) / 7) * (1 / 2) - ((s / 2 : Nat) : Int)| < 39 / 80 := by
  obtain ⟨k, hk⟩ : ∃ k, s = 2 * k ∨ s = 2 * k + 1 := ⟨s / 2, by omega⟩
  rcases hk with rfl | rfl
  · rw [show (13 * (2 * k) - 1) / 2 = 13 * k - 1 by omega, show 2 * k / 2 = k by omega]
    have : (((13 * k - 1 : Nat) : Int) : ℚ) = 13 * k - 1 := by
      rw [Int.cast_natCast, Nat.cast_sub (by omega)]; push_cast; ring
    rw [this, abs_lt, abs_lt]
    push_cast
    refine ⟨⟨?_, ?_⟩, ⟨?_, ?_⟩⟩ <;> linarith
  · rw [show (13 * (2 * k + 1) - 1) / 2 = 13 * k + 6 by omega, show (2 * k + 1) / 2 = k by omega, abs_lt, abs_lt]
    push_cast
    refine ⟨⟨?_, ?_⟩, ⟨?_, ?_⟩⟩ <;> linarith

/-- A capstone turned so that its corners follow the drawing. -/
structure Turned (P : Placement) (i j : Int) (cap : CapStone F) : Prop where
  corners : cap.corners = P.corners i j (7 * P.scale - 1)
  c : Rounded cap.c (P.grid i j (((7 * P.scale - 1 : Int) : ℚ) / 7))

theorem inside_le {n : Nat} (h : Renders img0 n M P) {i j : Nat} (hi : i < n * P.scale) (hj : j < n * P.scale) :
    |((P.pixel i j).x : ℚ)| ≤ 10000 ∧ |((P.pixel i j).y : ℚ)| ≤ 10000 := by
  have := h.inside i j hi hj
  have hx : |(P.pixel i j).x| ≤ 10000 := by rw [abs_le]; omega
  have hy : |(P.pixel i j).y| ≤ 10000 := by rw [abs_le]; omega
  exact ⟨by exact_mod_cast hx, by exact_mod_cast hy⟩

/-- A whole drawing is at most 10001 pixels wide. -/
theorem renders_size {n : Nat} (h : Renders img0 n M P) (hn : 0 < n) : n * P.scale ≤ 10001 := by
  have hs := h.scale
  have hp : 0 < n * P.scale := Nat.mul_pos hn (by omega)
  have h1 := h.inside 0 0 hp hp
  have h2 := h.inside (n * P.scale - 1) 0 (by omega) hp
  revert h1 h2
  unfold pixel
  rcases h.axis with h | h | h | h <;> rw [h] <;> dsimp only <;> intro h1 h2 <;> omega

/-- The transformation of a turned capstone, at the modules of the finder pattern. -/
theorem Turned.map {n : Nat} (hR : Renders img0 n M P) {i j : Nat} (hi : i + 7 * P.scale ≤ n * P.scale) (hj : j + 7 * P.scale ≤ n * P.scale) {cap : CapStone F}
    (hc : Turned P i j cap) {u v : F} {U V : ℚ} (hu : Sc u U 7 1) (hv : Sc v V 7 1) {A B : Nat}
    (hA : |(((7 * P.scale - 1 : Int) : ℚ) / 7) * U - (A : Int)| < 39 / 80) (hB : |(((7 * P.scale - 1 : Int) : ℚ) / 7) * V - (B : Int)| < 39 / 80) :
    cap.c.map u v = .ok (P.pixel (i + A : Nat) (j + B : Nat)) := by
  have hs := hR.scale
  have hn : 0 < n := by
    rcases Nat.eq_zero_or_pos n with h | h
    · subst h; omega
    · exact h
  have sz := renders_size hR hn
  obtain ⟨bx, by'⟩ := inside_le hR (i := i) (j := j) (by omega) (by omega)
  have hs' : (P.scale : ℚ) ≤ 10000 := by exact_mod_cast (by omega : P.scale ≤ 10000)
  have hs2 : (2 : ℚ) ≤ P.scale := by exact_mod_cast hs
  have := grid_map hR.axis hc.c (T := 10000) (Q := 10000) (by push_cast; rw [le_div_iff₀ (by norm_num)]; linarith)
    (by push_cast; rw [div_le_iff₀ (by norm_num)]; linarith) (by norm_num) (by norm_num) (by norm_num) (by norm_num) bx by' hu hv (by norm_num) (by norm_num)
    (by norm_num) hA hB
  rw [this]
  push_cast
  rfl

/-- The size of a drawn symbol is measured correctly. -/
theorem measure_drawn (h0 : Fresh img0) (h : History img0 claims img) (hw : width img0.buffer ≤ 2 ^ 31) (hh : height img0.buffer ≤ 2 ^ 31)
    (h1 : 1 ≤ v) (hv : v ≤ 40) (hR : Renders img0 (side v) M P) (hM : Patterned v M) {g : CapStoneGroup F}
    (ha : Turned P 0 ((side v - 7 : Nat) * P.scale) g.a) (hb : Turned P 0 0 g.b) (hc : Turned P ((side v - 7 : Nat) * P.scale) 0 g.c) :
    measure_timing_pattern img g = .ok (side v) := by
  have hn : side v = 17 + 4 * v := rfl
  have hs := hR.scale
  obtain ⟨n1, n2⟩ := tpet_near hs
  have hmul : side v * P.scale = (side v - 7) * P.scale + 7 * P.scale := by rw [← Nat.add_mul]; congr 1; omega
  have hK : 14 * P.scale ≤ (side v - 7) * P.scale := Nat.mul_le_mul_right _ (by omega)
  set A := (13 * P.scale - 1) / 2 with hA
  set B := P.scale / 2 with hB
  set K := (side v - 7) * P.scale with hKd
  have cK : (((side v - 7 : Nat) : Int) * P.scale) = (K : Int) := by rw [hKd]; push_cast; ring
  rw [cK] at ha hc
  have m0 : g.a.c.map (lit 65 1) (lit 5 1) = .ok (P.pixel A (K + B : Nat)) := by
    have := Turned.map hR (i := 0) (j := K) (by omega) (by omega) ha sc65 sc05 n1 n2
    rwa [Nat.zero_add] at this
  have m1 : g.b.c.map (lit 65 1) (lit 65 1) = .ok (P.pixel A A) := by
    have := Turned.map hR (i := 0) (j := 0) (by omega) (by omega) hb sc65 sc65 n1 n1
    rwa [Nat.zero_add] at this
  have m2 : g.c.c.map (lit 5 1) (lit 65 1) = .ok (P.pixel (K + B : Nat) A) := by
    have := Turned.map hR (i := K) (j := 0) (by omega) (by omega) hc sc05 sc65 n2 n1
    rwa [Nat.zero_add] at this
  have dA : A / P.scale = 6 := by rw [Nat.div_eq_iff (by omega)]; constructor <;> omega
  have dK : (K + B) / P.scale = side v - 7 := by
    rw [hKd, Nat.mul_comm, Nat.mul_add_div (by omega), hB, Nat.div_eq_of_lt (by omega), Nat.add_zero]
  have alt : ∀ x, 6 ≤ x → x < side v - 7 → timingDark (x + 1) = !timingDark x := by
    intro x _ _
    unfold timingDark
    rcases Nat.mod_two_eq_zero_or_one x with h | h <;> simp [h] <;> omega
  have s1 := scan_row_count h0 h hw hh hR (i := A) (j := A) (L := K + B - A) (y := 6) (by omega) (by omega) (by omega) dA rfl (by
    rw [show A + (K + B - A) = K + B by omega, dA, dK]
    intro x x1 x2
    rw [(timing_modules h1 hM (x := x + 1) (by omega) (by omega)).1, (timing_modules h1 hM (x := x) x1 (by omega)).1]
    exact alt x x1 x2)
  have s2 := scan_column_count h0 h hw hh hR (i := A) (j := A) (L := K + B - A) (x := 6) (by omega) (by omega) (by omega) dA rfl (by
    rw [show A + (K + B - A) = K + B by omega, dA, dK]
    intro x x1 x2
    rw [(timing_modules h1 hM (x := x + 1) (by omega) (by omega)).2, (timing_modules h1 hM (x := x) x1 (by omega)).2]
    exact alt x x1 x2)
  rw [show A + (K + B - A) = K + B by omega, dA, dK] at s1 s2
  unfold measure_timing_pattern
  rw [m0, Run.ok_bind, m1, Run.ok_bind, m2, Run.ok_bind, s1, Run.ok_bind, s2, Run.ok_bind, Nat.max_self]
  exact (C46_version small_integers_rounding (v := v) (by omega) (by omega) (by omega)).1

theorem chk32_eq (n : Int) (h : -(2 ^ 31) < n) : chk32 n = if n < 2 ^ 31 then .ok n else .error .panic := by
  unfold chk32
  by_cases h' : n < 2 ^ 31
  · rw [if_pos h', if_pos ⟨by omega, h'⟩]
  · rw [if_neg h', if_neg fun k => h' k.2]

/-- The product with the square, by way of the negative product: it is in the range or it is not. -/
theorem square_step {α : Type} {D X : Int} (hX : 0 ≤ X) (f : Int → Run α) :
    (chk32 (D * (-D * X)) >>= fun t => chk32 (0 - t) >>= f) = if D ^ 2 * X < 2 ^ 31 then f (D ^ 2 * X) else .error .panic := by
  have e : D * (-D * X) = -(D ^ 2 * X) := by ring
  have h0 : 0 ≤ D ^ 2 * X := by positivity
  rw [e]
  by_cases h : D ^ 2 * X < 2 ^ 31
  · rw [if_pos h, chk32_ok (by omega) (by omega), Run.ok_bind, zero_sub, neg_neg, chk32_ok (by omega) h, Run.ok_bind]
  · rw [if_neg h]
    unfold chk32
    split
    · rw [Run.ok_bind, zero_sub, neg_neg, if_neg fun k => h k.2]; rfl
    · rfl

theorem square_step' {α : Type} {D X Z : Int} (hX : 0 ≤ X) (e : Z = D ^ 2 * X) (f : Int → Run α) :
    (chk32 Z >>= f) = if D ^ 2 * X < 2 ^ 31 then f (D ^ 2 * X) else .error .panic := by
  subst e
  have h0 : 0 ≤ D ^ 2 * X := by positivity
  rw [chk32_eq _ (by omega)]
  split <;> rfl

theorem square_div {D X : Int} (hD : D ≠ 0) (hX : 0 ≤ X) (h : X ≤ 10000) : divI (D ^ 2 * X) (D ^ 2) = .ok X := by
  have hd : D ^ 2 ≠ 0 := pow_ne_zero 2 hD
  unfold divI
  rw [if_neg hd, Int.mul_tdiv_cancel_left _ hd, chk32_ok (by omega) (by omega)]

theorem ok_eq {n k : Int} (e : n = k) (h1 : -200000000 ≤ k) (h2 : k ≤ 200000000) : chk32 n = .ok k := by
  rw [e, chk32_ok (by omega) (by omega)]

theorem both_ranges {D X Y : Int} (hD : D ≠ 0) (hX : 0 ≤ X) (hX2 : X ≤ 10000) (hY : 0 ≤ Y) (hY2 : Y ≤ 10000) :
    (if D ^ 2 * X < 2 ^ 31 then divI (D ^ 2 * X) (D ^ 2) >>= fun x =>
        if D ^ 2 * Y < 2 ^ 31 then divI (D ^ 2 * Y) (D ^ 2) >>= fun y => pure (some (⟨x, y⟩ : Point)) else .error .panic
      else .error .panic : Run (Option Point)) =
      if D ^ 2 * X < 2 ^ 31 ∧ D ^ 2 * Y < 2 ^ 31 then .ok (some ⟨X, Y⟩) else .error .panic := by
  rw [square_div hD hX hX2, square_div hD hY hY2, Run.ok_bind, Run.ok_bind]
  by_cases h1 : D ^ 2 * X < 2 ^ 31
  · by_cases h2 : D ^ 2 * Y < 2 ^ 31
    · rw [if_pos h1, if_pos h2, if_pos ⟨h1, h2⟩]; rfl
    · rw [if_pos h1, if_neg h2, if_neg fun k => h2 k.2]
  · rw [if_neg h1, if_neg fun k => h1 k.1]

/-- Where a horizontal and a vertical line meet: `line_intersect` gives the point, unless the products leave `i32`. -/
theorem intersect_axis {D X Y u w : Int} (hD : D ≠ 0) (hD1 : -10000 ≤ D) (hD2 : D ≤ 10000) (hX : 0 ≤ X) (hX2 : X ≤ 10000) (hY : 0 ≤ Y)
    (hY2 : Y ≤ 10000) :
    line_intersect ⟨u, Y⟩ ⟨u + D, Y⟩ ⟨X, w⟩ ⟨X, w + D⟩ =
      if D ^ 2 * X < 2 ^ 31 ∧ D ^ 2 * Y < 2 ^ 31 then .ok (some ⟨X, Y⟩) else .error .panic := by
  have mb : ∀ a b : Int, -10000 ≤ a → a ≤ 10000 → -10000 ≤ b → b ≤ 10000 → -(10000 * 10000) ≤ a * b ∧ a * b ≤ 10000 * 10000 :=
    fun a b h1 h2 h3 h4 => mul_bound h1 h2 h3 h4
  have b1 := mb D Y (by omega) (by omega) (by omega) (by omega)
  have b2 := mb (-D) X (by omega) (by omega) (by omega) (by omega)
  have b3 := mb D (-D) (by omega) (by omega) (by omega) (by omega)
  have b4 : D ^ 2 = -(D * -D) := by ring
  have hd : D ^ 2 ≠ 0 := pow_ne_zero 2 hD
  unfold line_intersect subI negI mulI addI
  dsimp only
  rw [ok_eq (k := 0) (sub_self Y) (by omega) (by omega), Run.ok_bind, ok_eq (k := 0) neg_zero (by omega) (by omega), Run.ok_bind,
    ok_eq (k := D) (by ring) (by omega) (by omega), Run.ok_bind, ok_eq (n := w + D - w) (k := D) (by ring) (by omega) (by omega), Run.ok_bind,
    ok_eq (n := -D) rfl (by omega) (by omega), Run.ok_bind, ok_eq (k := 0) (sub_self X) (by omega) (by omega), Run.ok_bind,
    ok_eq (k := 0) (zero_mul _) (by omega) (by omega), Run.ok_bind, ok_eq (n := D * Y) rfl (by omega) (by omega), Run.ok_bind,
    ok_eq (zero_add _) (by omega) (by omega), Run.ok_bind, ok_eq (n := -D * X) rfl (by omega) (by omega), Run.ok_bind,
    ok_eq (n := 0 * (w + D)) (k := 0) (zero_mul _) (by omega) (by omega), Run.ok_bind, ok_eq (add_zero _) (by omega) (by omega), Run.ok_bind,
    ok_eq (n := 0 * 0) (k := 0) rfl (by omega) (by omega), Run.ok_bind, ok_eq (n := D * -D) rfl (by omega) (by omega), Run.ok_bind,
    ok_eq (n := 0 - D * -D) (k := D ^ 2) (by ring) (by omega) (by omega), Run.ok_bind, if_neg hd,
    ok_eq (n := 0 * (D * Y)) (k := 0) (zero_mul _) (by omega) (by omega), Run.ok_bind, square_step hX]
  rw [← both_ranges hD hX hX2 hY hY2]
  congr 1
  congr 1
  funext x
  rw [ok_eq (n := - -D) (neg_neg D) (by omega) (by omega), Run.ok_bind, square_step' hY (by ring : D * (D * Y) = D ^ 2 * Y),
    ok_eq (n := 0 * (-D * X)) (k := 0) (zero_mul _) (by omega) (by omega), Run.ok_bind, square_step' hY (add_zero _)]
  split <;> rfl

/-- The same with the lines exchanged. -/
theorem intersect_axis' {D X Y u w : Int} (hD : D ≠ 0) (hD1 : -10000 ≤ D) (hD2 : D ≤ 10000) (hX : 0 ≤ X) (hX2 : X ≤ 10000) (hY : 0 ≤ Y)
    (hY2 : Y ≤ 10000) :
    line_intersect ⟨X, w⟩ ⟨X, w + D⟩ ⟨u, Y⟩ ⟨u + -D, Y⟩ =
      if D ^ 2 * X < 2 ^ 31 ∧ D ^ 2 * Y < 2 ^ 31 then .ok (some ⟨X, Y⟩) else .error .panic := by
  have mb : ∀ a b : Int, -10000 ≤ a → a ≤ 10000 → -10000 ≤ b → b ≤ 10000 → -(10000 * 10000) ≤ a * b ∧ a * b ≤ 10000 * 10000 :=
    fun a b h1 h2 h3 h4 => mul_bound h1 h2 h3 h4
  have b1 := mb (-D) Y (by omega) (by omega) (by omega) (by omega)
  have b2 := mb (-D) X (by omega) (by omega) (by omega) (by omega)
  have b3 := mb (-D) (-D) (by omega) (by omega) (by omega) (by omega)
  have b4 : D ^ 2 = -D * -D := by ring
  have hd : D ^ 2 ≠ 0 := pow_ne_zero 2 hD
  unfold line_intersect subI negI mulI addI
  dsimp only
  rw [ok_eq (n := w + D - w) (k := D) (by ring) (by omega) (by omega), Run.ok_bind, ok_eq (n := -D) rfl (by omega) (by omega), Run.ok_bind,
    ok_eq (k := 0) (sub_self X) (by omega) (by omega), Run.ok_bind, ok_eq (k := 0) (sub_self Y) (by omega) (by omega), Run.ok_bind,
    ok_eq (k := 0) neg_zero (by omega) (by omega), Run.ok_bind, ok_eq (k := -D) (by ring) (by omega) (by omega), Run.ok_bind,
    ok_eq (n := -D * X) rfl (by omega) (by omega), Run.ok_bind, ok_eq (n := 0 * (w + D)) (k := 0) (zero_mul _) (by omega) (by omega), Run.ok_bind,
    ok_eq (add_zero _) (by omega) (by omega), Run.ok_bind, ok_eq (n := 0 * (u + -D)) (k := 0) (zero_mul _) (by omega) (by omega), Run.ok_bind,
    ok_eq (n := -D * Y) rfl (by omega) (by omega), Run.ok_bind, ok_eq (zero_add _) (by omega) (by omega), Run.ok_bind,
    ok_eq (n := -D * -D) rfl (by omega) (by omega), Run.ok_bind, ok_eq (n := 0 * 0) (k := 0) rfl (by omega) (by omega), Run.ok_bind,
    ok_eq (n := -D * -D - 0) (k := D ^ 2) (by ring) (by omega) (by omega), Run.ok_bind, if_neg hd,
    square_step' hX (by ring : -D * (-D * X) = D ^ 2 * X), ok_eq (n := 0 * (-D * Y)) (k := 0) (zero_mul _) (by omega) (by omega), Run.ok_bind,
    square_step' hX (sub_zero _)]
  rw [← both_ranges hD hX hX2 hY hY2]
  by_cases h : D ^ 2 * X < 2 ^ 31
  · rw [if_pos h, if_pos h, if_pos h]
    congr 1
    funext x
    rw [ok_eq (n := -0) (k := 0) neg_zero (by omega) (by omega), Run.ok_bind, ok_eq (n := 0 * (-D * X)) (k := 0) (zero_mul _) (by omega) (by omega),
      Run.ok_bind, square_step' hY (by ring : -D * (-D * Y) = D ^ 2 * Y), square_step' hY (zero_add _)]
    split <;> rfl
  · rw [if_neg h, if_neg h]

/-- The lower edge of the bottom left pattern meets the left edge of the top right pattern at the first pixel of the bottom right
7 x 7 modules, and the point is computed unless the products leave `i32`. -/
theorem drawn_meet (hn : 14 ≤ n) (hR : Renders img0 n M P) {g : CapStoneGroup F}
    (ha : Turned P 0 ((n - 7 : Nat) * P.scale) g.a) (hc : Turned P ((n - 7 : Nat) * P.scale) 0 g.c) :
    line_intersect g.a.corners[0] g.a.corners[1] g.c.corners[0] g.c.corners[3] =
      open Classical in
      if P.InRange n then .ok (some (P.pixel ((n - 7 : Nat) * P.scale) ((n - 7 : Nat) * P.scale))) else .error .panic := by
  have hs := hR.scale
  have hmul : n * P.scale = (n - 7) * P.scale + 7 * P.scale := by rw [← Nat.add_mul]; congr 1; omega
  have hK : 7 * P.scale ≤ (n - 7) * P.scale := Nat.mul_le_mul_right _ (by omega)
  unfold Spec.Placement.InRange
  set K := (n - 7) * P.scale with hKd
  have cK : (((n - 7 : Nat) : Int) * P.scale) = (K : Int) := by rw [hKd]; push_cast; ring
  rw [cK] at ha hc ⊢
  have e0 : g.a.corners[0] = P.pixel 0 K := by rw [ha.corners]; rfl
  have e1 : g.a.corners[1] = P.pixel (0 + (7 * P.scale - 1)) K := by rw [ha.corners]; rfl
  have e2 : g.c.corners[0] = P.pixel K 0 := by rw [hc.corners]; rfl
  have e3 : g.c.corners[3] = P.pixel K (0 + (7 * P.scale - 1)) := by rw [hc.corners]; rfl
  have k0 := hR.inside K K (by omega) (by omega)
  have k1 := hR.inside 0 0 (by omega) (by omega)
  have k2 := hR.inside (7 * P.scale - 1) 0 (by omega) (by omega)
  rw [e0, e1, e2, e3]
  obtain ⟨m, hm⟩ : ∃ m : Int, m = 7 * P.scale - 1 := ⟨_, rfl⟩
  rw [show ((7 * P.scale - 1 : Nat) : Int) = m by omega] at k2
  rw [← hm]
  have mpos : 0 < m := by omega
  revert k0 k1 k2
  unfold pixel
  rcases hR.axis with h | h | h | h <;> rw [h] <;> dsimp only <;> simp only [Nat.cast_zero, mul_one, mul_zero, mul_neg, neg_neg, neg_zero, zero_add, add_zero, sub_zero, sub_neg_eq_add] <;> intro k0 k1 k2
  · have := intersect_axis (D := m) (X := P.corner.x + K) (Y := P.corner.y + K) (u := P.corner.x) (w := P.corner.y) (by omega) (by omega) (by omega) (by omega) (by omega) (by omega) (by omega)
    refine Eq.trans ?_ (this.trans ?_)
    · congr 2
    · congr
  · have := intersect_axis' (D := m) (X := P.corner.x - K) (Y := P.corner.y + K) (u := P.corner.x) (w := P.corner.y) (by omega) (by omega) (by omega) (by omega) (by omega) (by omega) (by omega)
    refine Eq.trans ?_ (this.trans ?_)
    · congr 2
    · congr
  · have := intersect_axis (D := -m) (X := P.corner.x + -K) (Y := P.corner.y + -K) (u := P.corner.x) (w := P.corner.y) (by omega) (by omega) (by omega) (by omega) (by omega) (by omega) (by omega)
    rw [neg_sq] at this
    refine Eq.trans ?_ (this.trans ?_)
    · congr 2
    · congr
  · have := intersect_axis' (D := -m) (X := P.corner.x + K) (Y := P.corner.y + -K) (u := P.corner.x) (w := P.corner.y) (by omega) (by omega) (by omega) (by omega) (by omega) (by omega) (by omega)
    rw [neg_sq, neg_neg] at this
    refine Eq.trans ?_ (this.trans ?_)
    · congr 2
    · congr

end Rqrr
