import Verif.Proofs.FramedFit

/-!
# The alignment pattern of a drawn symbol
-/

namespace Rqrr

open Spec ImageBuffer FloatOps Spec.Placement Rounding

theorem last_centre : ∀ v < 41, 2 ≤ v → (side v - 7, side v - 7) ∈ alignCentres v := by decide +kernel

variable {F : Type} [FloatOps F] [Rounding F] {S : Type} [ImageBuffer S] [LawfulImage S] {img0 img : PreparedImage S} {claims : Pos → Option Claim} {v : Nat}
  {M : Nat → Nat → Bool} {P : Placement}

/-- The modules around the centre of the last alignment pattern belong to it. -/
theorem align_mem (h2 : 2 ≤ v) (hv : v ≤ 40) {y x : Nat} (y1 : side v - 7 ≤ y + 1) (y2 : y ≤ side v - 7 + 1)
    (x1 : side v - 7 ≤ x + 1) (x2 : x ≤ side v - 7 + 1) : (y, x, alignDark (y - (side v - 9)) (x - (side v - 9))) ∈ alignModules v := by
  have hs : side v = 17 + 4 * v := rfl
  unfold alignModules
  rw [List.mem_flatMap]
  refine ⟨_, last_centre v (by omega) h2, ?_⟩
  have := mem_square' (n := 5) (dark := alignDark) (y := side v - 7 - 2) (x := side v - 7 - 2) (i := y - (side v - 9)) (j := x - (side v - 9))
    (by omega) (by omega)
  rw [show side v - 7 - 2 + (y - (side v - 9)) = y by omega, show side v - 7 - 2 + (x - (side v - 9)) = x by omega] at this
  exact this

/-- Around the centre of the last alignment pattern only the centre is dark. -/
theorem align_modules (h2 : 2 ≤ v) (hv : v ≤ 40) (hM : Patterned v M) {y x : Nat} (y1 : side v - 7 ≤ y + 1) (y2 : y ≤ side v - 7 + 1)
    (x1 : side v - 7 ≤ x + 1) (x2 : x ≤ side v - 7 + 1) : M y x = true ↔ y = side v - 7 ∧ x = side v - 7 := by
  have hs : side v = 17 + 4 * v := rfl
  have hm : (y, x, alignDark (y - (side v - 9)) (x - (side v - 9))) ∈ patternModules v := by
    unfold patternModules
    rw [List.mem_append]
    exact .inr (align_mem h2 hv y1 y2 x1 x2)
  have := hM.pattern _ hm
  dsimp only at this
  rw [this]
  unfold alignDark dist
  obtain ⟨a, ha⟩ : ∃ a, a = y - (side v - 9) := ⟨_, rfl⟩
  obtain ⟨b, hb⟩ : ∃ b, b = x - (side v - 9) := ⟨_, rfl⟩
  rw [← ha, ← hb, show (y = side v - 7) = (a = 2) by rw [eq_iff_iff]; omega, show (x = side v - 7) = (b = 2) by rw [eq_iff_iff]; omega]
  have : a = 1 ∨ a = 2 ∨ a = 3 := by omega
  have : b = 1 ∨ b = 2 ∨ b = 3 := by omega
  rcases ‹a = 1 ∨ a = 2 ∨ a = 3› with h | h | h <;> rcases ‹b = 1 ∨ b = 2 ∨ b = 3› with h' | h' | h' <;> rw [h, h'] <;> decide

/-- The centre of the alignment pattern is a region of its own. -/
theorem align_region (h2 : 2 ≤ v) (hv : v ≤ 40) (hR : Renders img0 (side v) M P) (hM : Patterned v M) :
    ∃ x0 y0 : Nat, (∀ (p : Pos) (i j : Int), P.pixel i j = ⟨p.1, p.2⟩ → (InSquare x0 y0 P.scale p ↔
        (((side v - 7) * P.scale : Nat) : Int) ≤ i ∧ i < (((side v - 7) * P.scale : Nat) : Int) + P.scale ∧
        (((side v - 7) * P.scale : Nat) : Int) ≤ j ∧ j < (((side v - 7) * P.scale : Nat) : Int) + P.scale)) ∧
      (∀ p, InSquare x0 y0 P.scale p → IsBlack img0 p) ∧
      ∀ p q, InSquare x0 y0 P.scale p → (Reach (IsBlack img0) p q ↔ InSquare x0 y0 P.scale q) := by
  have hn : side v = 17 + 4 * v := rfl
  have hs := hR.scale
  have hmul : side v * P.scale = (side v - 7) * P.scale + 7 * P.scale := by rw [← Nat.add_mul]; congr 1; omega
  obtain ⟨K, hK⟩ : ∃ K, K = (side v - 7) * P.scale := ⟨_, rfl⟩
  have hK7 : P.scale ≤ K := by rw [hK]; exact Nat.le_mul_of_pos_left _ (by omega)
  rw [← hK] at hmul ⊢
  have i1 := hR.inside K K (by omega) (by omega)
  have i2 := hR.inside (K + P.scale - 1) (K + P.scale - 1) (by omega) (by omega)
  rw [show ((K + P.scale - 1 : Nat) : Int) = (K : Int) + P.scale - 1 by omega] at i2
  obtain ⟨x0, hx0⟩ : ∃ x0 : Nat, P.baseX K K P.scale = x0 := by
    refine ⟨(P.baseX K K P.scale).toNat, (Int.toNat_of_nonneg ?_).symm⟩
    unfold Placement.baseX; omega
  obtain ⟨y0, hy0⟩ : ∃ y0 : Nat, P.baseY K K P.scale = y0 := by
    refine ⟨(P.baseY K K P.scale).toNat, (Int.toNat_of_nonneg ?_).symm⟩
    unfold Placement.baseY; omega
  have mem : ∀ (p : Pos) (i j : Int), P.pixel i j = ⟨p.1, p.2⟩ → (InSquare x0 y0 P.scale p ↔
      (K : Int) ≤ i ∧ i < (K : Int) + P.scale ∧ (K : Int) ≤ j ∧ j < (K : Int) + P.scale) := by
    intro p i j hp
    rw [mem_square hR.axis (i0 := K) (j0 := K) (k := P.scale) (by omega), hx0, hy0, hp]
    unfold InSquare
    dsimp only
    omega
  have dark : ∀ (p : Pos) (i j : Int), P.pixel i j = ⟨p.1, p.2⟩ → (K : Int) ≤ i + 1 → i ≤ (K : Int) + P.scale → (K : Int) ≤ j + 1 →
      j ≤ (K : Int) + P.scale → (IsBlack img0 p ↔ (K : Int) ≤ i ∧ i < (K : Int) + P.scale ∧ (K : Int) ≤ j ∧ j < (K : Int) + P.scale) := by
    intro p i j hp a1 a2 a3 a4
    lift i to Nat using (by omega)
    lift j to Nat using (by omega)
    have hd : ∀ k : Nat, (k / P.scale = side v - 7 ↔ K ≤ k ∧ k < K + P.scale) := by
      intro k
      rw [Nat.div_eq_iff (by omega), ← hK]
      omega
    have lo : ∀ k : Nat, K ≤ k + 1 → side v - 7 ≤ k / P.scale + 1 := by
      intro k hk
      rw [← Nat.add_div_right _ (show 0 < P.scale by omega), Nat.le_div_iff_mul_le (by omega), ← hK]
      omega
    have hi : ∀ k : Nat, k ≤ K + P.scale → k / P.scale ≤ side v - 7 + 1 := by
      intro k hk
      rw [← Nat.lt_succ_iff, Nat.div_lt_iff_lt_mul (by omega), Nat.succ_mul, Nat.add_mul, ← hK]
      omega
    have mat : Matters (side v) P.scale i j := by
      refine .inl (.inr (.inr (.inr (.inr (.inr
        ⟨(j / P.scale, i / P.scale, alignDark (j / P.scale - (side v - 9)) (i / P.scale - (side v - 9))), ?_, rfl, rfl⟩)))))
      rw [show (side v - 17) / 4 = v by omega]
      exact align_mem h2 hv (lo j (by omega)) (hi j (by omega)) (lo i (by omega)) (hi i (by omega))
    have cn : ((side v : Nat) : Int) * (P.scale : Int) = ((side v * P.scale : Nat) : Int) := by push_cast; rfl
    rw [hR.black_iff hp (.inl ⟨by omega, by rw [cn]; omega, by omega, by rw [cn]; omega, by rwa [Int.toNat_natCast, Int.toNat_natCast]⟩),
      Int.toNat_natCast, Int.toNat_natCast]
    rw [align_modules h2 hv hM (lo j (by omega)) (hi j (by omega)) (lo i (by omega)) (hi i (by omega)), hd, hd]
    have : ((side v : Nat) : Int) * (P.scale : Int) = ((side v * P.scale : Nat) : Int) := by push_cast; rfl
    rw [this]
    omega
  have hin : ∀ p, InSquare x0 y0 P.scale p → IsBlack img0 p := by
    intro p hp
    obtain ⟨i, j, e⟩ := exists_coords hR.axis (⟨p.1, p.2⟩ : Point)
    have := (mem p i j e).1 hp
    exact (dark p i j e (by omega) (by omega) (by omega) (by omega)).2 this
  refine ⟨x0, y0, mem, hin, fun p q hp => lone_square hin ?_ hp q⟩
  intro p q hp ha hq hb
  obtain ⟨i, j, e⟩ := exists_coords hR.axis (⟨p.1, p.2⟩ : Point)
  obtain ⟨i', j', e'⟩ := exists_coords hR.axis (⟨q.1, q.2⟩ : Point)
  have m1 := (mem p i j e).1 hp
  apply hq
  rw [mem q i' j' e']
  have near : i ≤ i' + 1 ∧ i' ≤ i + 1 ∧ j ≤ j' + 1 ∧ j' ≤ j + 1 := by
    unfold pixel at e e'
    rw [Point.mk.injEq] at e e'
    unfold Adj at ha
    rcases hR.axis with h | h | h | h <;> rw [h] at e e' <;> dsimp only at e e' <;> simp only [mul_one, mul_zero, mul_neg] at e e' <;> omega
  exact (dark q i' j' e' (by omega) (by omega) (by omega) (by omega)).1 hb

theorem sc10 : Sc (FloatOps.lit 1 0 : F) 1 1 1 := by
  have := Sc.lit (F := F) (m := 1) (e := 0) (S := 1) (by norm_num) (by norm_num) (by norm_num)
  rwa [show ((1 : Nat) : ℚ) / 10 ^ 0 = 1 by norm_num] at this

/-- From a pixel back to the grid of a capstone, one module further, and to the pixel there. -/
theorem step_map {n : Nat} (hR : Renders img0 n M P) {i j : Nat} (hi : i < n * P.scale) (hj : j < n * P.scale) {t : ℚ} (h1 : 1 ≤ t) (ht : t ≤ 10000)
    {c : Perspective F} (hc : Rounded c (P.grid i j t)) {A B : Nat} (hA : i + A < n * P.scale) (hB : j + B < n * P.scale) {k : Int} (hk : |t - k| < 39 / 80) :
    c.map (c.unmap (P.pixel (i + A : Nat) (j + B : Nat))).1 ((c.unmap (P.pixel (i + A : Nat) (j + B : Nat))).2 + FloatOps.lit 1 0) =
      .ok (P.pixel (i + A : Nat) ((j + B : Nat) + k)) ∧
    c.map ((c.unmap (P.pixel (i + A : Nat) (j + B : Nat))).1 + FloatOps.lit 1 0) (c.unmap (P.pixel (i + A : Nat) (j + B : Nat))).2 =
      .ok (P.pixel ((i + A : Nat) + k) (j + B : Nat)) := by
  obtain ⟨bx, by'⟩ := inside_le hR hi hj
  obtain ⟨px, py⟩ := inside_le hR hA hB
  have t0 : t ≠ 0 := by linarith
  obtain ⟨u1, u2⟩ := grid_unmap hR.axis hc h1 (by linarith) (Q := 10000) (by norm_num) ht bx by' (p := P.pixel (i + A : Nat) (j + B : Nat)) (A := A) (B := B) px py
    (by unfold pixel; push_cast; ring) (by unfold pixel; push_cast; ring)
  have hL1 : 1 ≤ 8 * 10000 / t := by rw [le_div_iff₀ (by linarith)]; linarith
  have hL2 : 8 * 10000 / t ≤ 80000 := by rw [div_le_iff₀ (by linarith)]; linarith
  have hTL : t * (8 * 10000 / t + 1) = 80000 + t := by field_simp; norm_num
  have up : ∀ {x : F} {q : ℚ}, Sc x q (8 * 10000 / t) 113 → Sc x q (8 * 10000 / t + 1) 115 := fun h => h.mono (by linarith) (by norm_num) (by linarith) (by norm_num)
  have step : ∀ {x : F} {q : ℚ}, Sc x q (8 * 10000 / t) 113 → Sc (FloatOps.add x (FloatOps.lit 1 0)) (q + 1) (8 * 10000 / t + 1) 115 := by
    intro x q h
    have := h.add sc10 (by linarith) (by norm_num)
    rwa [show (113 : ℚ) + 1 + 1 = 115 by norm_num] at this
  have same : ∀ A : Nat, |t * ((A : ℚ) / t) - ((A : Int) : ℚ)| < 39 / 80 := by
    intro A
    rw [mul_div_cancel₀ _ t0, Int.cast_natCast, sub_self, abs_zero]; norm_num
  have next : ∀ A : Nat, |t * ((A : ℚ) / t + 1) - (((A : Int) + k : Int) : ℚ)| < 39 / 80 := by
    intro A
    rw [mul_add, mul_div_cancel₀ _ t0, mul_one]
    push_cast
    rwa [add_sub_add_left_eq_sub]
  constructor
  · have := grid_map hR.axis hc (T := t) (Q := 10000) (by linarith) (le_refl _) h1 (by linarith) (by norm_num) (by norm_num) bx by' (up u1) (step u2)
      (by norm_num) (by linarith) (by rw [hTL]; linarith) (same A) (next B)
    refine Eq.trans this ?_
    rw [← add_assoc]
    push_cast
    rfl
  · have := grid_map hR.axis hc (T := t) (Q := 10000) (by linarith) (le_refl _) h1 (by linarith) (by norm_num) (by norm_num) bx by' (step u1) (up u2)
      (by norm_num) (by linarith) (by rw [hTL]; linarith) (next A) (same B)
    refine Eq.trans this ?_
    rw [← add_assoc]
    push_cast
    rfl

/-- The estimated size is the number of pixels of a module. -/
theorem estimate_drawn {n : Nat} (hn : 17 ≤ n) (hR : Renders img0 n M P) {g : CapStoneGroup F}
    (ha : Turned P 0 ((n - 7 : Nat) * P.scale) g.a) (hc : Turned P ((n - 7 : Nat) * P.scale) 0 g.c) :
    size_estimate (P.pixel ((n - 7 : Nat) * P.scale) ((n - 7 : Nat) * P.scale)) g.a g.c = .ok (P.scale * P.scale) := by
  have hs := hR.scale
  obtain ⟨hs', c1, c2, c3, c4⟩ := drawn_scale (by omega) hR
  have hmul : n * P.scale = (n - 7) * P.scale + 7 * P.scale := by rw [← Nat.add_mul]; congr 1; omega
  obtain ⟨K, hKd⟩ : ∃ K, K = (n - 7) * P.scale := ⟨_, rfl⟩
  have cK : (((n - 7 : Nat) : Int) * P.scale) = (K : Int) := by rw [hKd]; push_cast; ring
  rw [cK] at ha hc ⊢
  rw [← hKd] at hmul
  have hs2 : (2 : ℚ) ≤ P.scale := by exact_mod_cast hs
  have hs3 : (P.scale : ℚ) ≤ 1291 := by exact_mod_cast hs'
  have tone : (1 : ℚ) ≤ ((7 * P.scale - 1 : Int) : ℚ) / 7 := by push_cast; linarith
  have tle : ((7 * P.scale - 1 : Int) : ℚ) / 7 ≤ 10000 := by push_cast; linarith
  have tnear : |((7 * P.scale - 1 : Int) : ℚ) / 7 - ((P.scale : Int) : ℚ)| < 39 / 80 := by
    rw [abs_lt]; push_cast; constructor <;> linarith
  have m1 := (step_map hR (i := 0) (j := K) (A := K) (B := 0) (by omega) (by omega) tone tle ha.c (by omega) (by omega) tnear).1
  have m2 := (step_map hR (i := K) (j := 0) (A := 0) (B := K) (by omega) (by omega) tone tle hc.c (by omega) (by omega) tnear).2
  simp only [Nat.zero_add, Nat.add_zero] at m1 m2
  rw [show (K : Int) + P.scale = ((K + P.scale : Nat) : Int) by omega] at m1 m2
  have q0 := hR.inside K K (by omega) (by omega)
  have q1 := hR.inside K (K + P.scale) (by omega) (by omega)
  have q2 := hR.inside (K + P.scale) K (by omega) (by omega)
  unfold size_estimate
  dsimp only
  refine Eq.trans (congrArg (· >>= _) m1) ?_
  rw [Run.ok_bind]
  refine Eq.trans (congrArg (· >>= _) m2) ?_
  rw [Run.ok_bind]
  have d1 : (P.pixel K (K + P.scale : Nat)).x - (P.pixel K K).x = P.scale * -P.right.y := by unfold pixel; push_cast; ring
  have d2 : (P.pixel K (K + P.scale : Nat)).y - (P.pixel K K).y = P.scale * P.right.x := by unfold pixel; push_cast; ring
  have d3 : (P.pixel (K + P.scale : Nat) K).x - (P.pixel K K).x = P.scale * P.right.x := by unfold pixel; push_cast; ring
  have d4 : (P.pixel (K + P.scale : Nat) K).y - (P.pixel K K).y = P.scale * P.right.y := by unfold pixel; push_cast; ring
  have near : ∀ e : Int, (e = 0 ∨ e = 1 ∨ e = -1) → -1291 ≤ P.scale * e ∧ P.scale * e ≤ 1291 := by
    rintro e (rfl | rfl | rfl) <;> omega
  have ex : P.right.x = 0 ∨ P.right.x = 1 ∨ P.right.x = -1 := by
    rcases hR.axis with h | h | h | h <;> rw [h] <;> simp
  have ey : P.right.y = 0 ∨ P.right.y = 1 ∨ P.right.y = -1 := by
    rcases hR.axis with h | h | h | h <;> rw [h] <;> simp
  have nx := near _ ex
  have ny := near _ ey
  have sq : P.right.x * P.right.x + P.right.y * P.right.y = 1 := by
    rcases hR.axis with h | h | h | h <;> rw [h] <;> norm_num
  have ab : ∀ z : Int, -1291 ≤ z → z ≤ 1291 → |z| ≤ 20000 := by
    intro z h1 h2; rw [abs_le]; omega
  have pos : ∀ z : Int, 0 ≤ z → z ≤ 10000 → |z| ≤ 100000 := by
    intro z h1 h2; rw [abs_le]; omega
  have ax := ab (P.scale * P.right.x) nx.1 nx.2
  have ay := ab (P.scale * P.right.y) ny.1 ny.2
  have ay' : |(P.scale : Int) * -P.right.y| ≤ 20000 := by rw [mul_neg, abs_neg]; exact ay
  have ay'' : |-((P.scale : Int) * P.right.y)| ≤ 20000 := by rw [abs_neg]; exact ay
  rw [subI_ok (pos _ q1.1 q1.2.2.1) (pos _ q0.1 q0.2.2.1), Run.ok_bind,
    subI_ok (pos _ q2.2.2.2.1 q2.2.2.2.2.2) (pos _ q0.2.2.2.1 q0.2.2.2.2.2), Run.ok_bind, d1, d4, negI_ok (by omega), Run.ok_bind,
    mulI_small ay' ay'', Run.ok_bind, subI_ok (pos _ q1.2.2.2.1 q1.2.2.2.2.2) (pos _ q0.2.2.2.1 q0.2.2.2.2.2), Run.ok_bind,
    subI_ok (pos _ q2.1 q2.2.2.1) (pos _ q0.1 q0.2.2.1), Run.ok_bind, d2, d3, mulI_small ax ax, Run.ok_bind,
    addI_ok (mul_small ay' ay'') (mul_small ax ax), Run.ok_bind]
  rw [show (P.scale : Int) * -P.right.y * -(P.scale * P.right.y) + P.scale * P.right.x * (P.scale * P.right.x) =
    P.scale * P.scale * (P.right.x * P.right.x + P.right.y * P.right.y) by ring, sq, mul_one]
  show Except.ok (Int.natAbs _) = _
  rw [Int.natAbs_mul, Int.natAbs_natCast]

theorem spiral_first (seed : Point) {n : Nat} (hn : 0 < n) : ∃ bs, spiral seed n = [] ++ seed :: bs := by
  obtain ⟨k, rfl⟩ : ∃ k, n = k + 1 := ⟨n - 1, by omega⟩
  unfold spiral
  rw [List.range_succ_eq_map, List.flatMap_cons]
  have e : (List.range (sideLength 0)).map (fun k => spiralPoint seed 0 k) = [seed] := by
    have : spiralPoint seed 0 0 = seed := by
      unfold spiralPoint Spec.corner direction
      simp
    show [spiralPoint seed 0 0] = [seed]
    rw [this]
  rw [e]
  exact ⟨_, rfl⟩

theorem cross_key (hd : Point) (i j : Int) :
    cross hd (P.pixel i j) = cross hd P.corner + (perColumn P hd * i + perRow P hd * j) := by
  unfold cross perColumn perRow pixel
  ring

/-- The alignment pattern of a drawing is found at once, and claimed. -/
theorem align_drawn (h0 : Fresh img0) (h : History img0 claims img) (hw : width img0.buffer ≤ 32768) (hh : height img0.buffer ≤ 32768)
    (h2 : 2 ≤ v) (hv : v ≤ 40) (hR : Renders img0 (side v) M P) (hM : Patterned v M) {g : CapStoneGroup F}
    (ha : Turned P 0 ((side v - 7 : Nat) * P.scale) g.a) (hc : Turned P ((side v - 7 : Nat) * P.scale) 0 g.c)
    {hd : Point} (hhd : Hypotenuse P ((side v - 7) * P.scale : Nat) hd)
    (hno : 2 ≤ v → ∀ p : Pos, P.pixel ((side v - 7 : Nat) * P.scale) ((side v - 7 : Nat) * P.scale) = ⟨p.1, p.2⟩ → claims p = none) :
    ∃ img' claims', claim_alignment img (P.pixel ((side v - 7 : Nat) * P.scale) ((side v - 7 : Nat) * P.scale)) g.a g.c hd =
        .ok (img', some (P.pixel ((side v - 7 : Nat) * P.scale) ((side v - 7 : Nat) * P.scale))) ∧ History img0 claims' img' ∧ (∀ p, claims' p ≠ none → claims p ≠ none ∨ InDrawing (side v) P p) := by
  have hn : side v = 17 + 4 * v := rfl
  have hs := hR.scale
  obtain ⟨hs', c1, c2, c3, c4⟩ := drawn_scale (by omega) hR
  have est := estimate_drawn (by omega) hR ha hc
  have hmul : side v * P.scale = (side v - 7) * P.scale + 7 * P.scale := by rw [← Nat.add_mul]; congr 1; omega
  obtain ⟨x0, y0, mem, hin, reg⟩ := align_region h2 hv hR hM
  obtain ⟨K, hKd⟩ : ∃ K, K = (side v - 7) * P.scale := ⟨_, rfl⟩
  have cK : (((side v - 7 : Nat) : Int) * P.scale) = (K : Int) := by rw [hKd]; push_cast; ring
  rw [cK] at est hno ⊢
  rw [← hKd] at hmul mem hhd
  have hKs : P.scale ≤ K := by rw [hKd]; exact Nat.le_mul_of_pos_left _ (by omega)
  have q0 := hR.inside K K (by omega) (by omega)
  obtain ⟨X, hX⟩ : ∃ X : Nat, (P.pixel K K).x = X := ⟨_, (Int.toNat_of_nonneg q0.1).symm⟩
  obtain ⟨Y, hY⟩ : ∃ Y : Nat, (P.pixel K K).y = Y := ⟨_, (Int.toNat_of_nonneg q0.2.2.2.1).symm⟩
  have hXY : P.pixel K K = ⟨(X, Y).1, (X, Y).2⟩ := by rw [← hX, ← hY]
  have hin0 : InSquare x0 y0 P.scale (X, Y) := (mem (X, Y) K K hXY).2 ⟨le_refl _, by omega, le_refl _, by omega⟩
  have hb := hin _ hin0
  have hcl : claims (X, Y) = none := hno h2 _ hXY
  have harea : area (IsBlack img0) (X, Y) = P.scale * P.scale := by
    unfold area
    rw [← square_ncard x0 y0 P.scale]
    congr 1
    ext q
    exact reg _ q hin0
  have hss : P.scale * P.scale ≤ 1291 * 1291 := Nat.mul_le_mul hs' hs'
  have hss' : 2 * 2 ≤ P.scale * P.scale := Nat.mul_le_mul hs hs
  have hsqrt : Nat.sqrt (100 * (P.scale * P.scale) - 1) ≤ 100 * (1291 * 1291) := (Nat.sqrt_le_self _).trans (by omega)
  obtain ⟨img1, found, e1, hist1, hfound⟩ := C47_search h0 h (seed := P.pixel K K) (n := P.scale * P.scale)
    ⟨by omega, by omega, by omega, by omega, by omega⟩
  have hf : found = some (P.pixel K K) := by
    rw [hfound]
    have hpos : 0 < Nat.sqrt (100 * (P.scale * P.scale) - 1) := Nat.sqrt_pos.2 (by omega)
    obtain ⟨bs, hbs⟩ := spiral_first (P.pixel K K) (n := searchedSides (P.scale * P.scale)) (by unfold searchedSides; omega)
    refine ⟨[], bs, hbs, ⟨X, Y, hXY, hb, hcl, ?_, ?_⟩, by simp⟩
    · rw [harea]; omega
    · rw [harea]; omega
  rw [hf] at e1
  have hK1 : K < 10000 := by
    have k1 := hR.inside 0 0 (by omega) (by omega)
    have k2 := hR.inside (K + 1) 0 (by omega) (by omega)
    revert k1 k2
    unfold pixel
    rcases hR.axis with h | h | h | h <;> rw [h] <;> dsimp only <;> simp only [mul_one, mul_zero, mul_neg, Nat.cast_zero] <;> intro k1 k2 <;> omega
  obtain ⟨nx, ny⟩ := hhd.near hR.axis hK1
  have hpos := hhd.pos hR.axis
  have score : LeftMostFinder.scoreOf hd (P.pixel K K).x (P.pixel K K).y = .ok (cross hd (point (X, Y))) := by
    have ax : |(P.pixel K K).x| ≤ 20000 := by rw [abs_le]; omega
    have ay : |(P.pixel K K).y| ≤ 20000 := by rw [abs_le]; omega
    have an : |-hd.y| ≤ 20000 := by rw [abs_neg]; omega
    unfold LeftMostFinder.scoreOf
    rw [negI_ok (by omega), Run.ok_bind, mulI_small an ax, Run.ok_bind, mulI_small (by omega) ay, Run.ok_bind,
      addI_ok (mul_small an ax) (mul_small (by omega) ay)]
    congr 1
    unfold cross point
    rw [hX, hY]
    dsimp only
    ring
  rw [abs_le] at nx ny
  obtain ⟨img2, f', e2, hist2, p, hp, hreach, hmin⟩ := C42_leftmost h0 hist1 hw hh hb .Alignment (by rw [hcl]; simp) (line := hd)
    ⟨by omega, by omega, by omega, by omega⟩
  refine ⟨img2, _, ?_, hist2, fun q hq => ?_⟩
  swap
  · by_cases hqr : Reach (IsBlack img0) (X, Y) q
    · right
      have hq1 := (reg _ q hin0).1 hqr
      obtain ⟨i, j, e⟩ := exists_coords hR.axis (⟨q.1, q.2⟩ : Point)
      have hq2 := (mem q i j e).1 hq1
      refine ⟨i.toNat, j.toNat, by omega, by omega, ?_⟩
      rw [Int.toNat_of_nonneg (by omega), Int.toNat_of_nonneg (by omega), e]
    · left
      unfold claimRegion at hq
      rwa [if_neg hqr] at hq
  unfold claim_alignment find_alignment_pattern
  rw [est, Run.ok_bind, e1, Run.ok_bind]
  dsimp only
  rw [score, Run.ok_bind, hX, hY, asUsize_nat _ (by omega), asUsize_nat _ (by omega)]
  have epoint : P.pixel K K = point (X, Y) := hXY
  rw [epoint]
  refine Eq.trans (congrArg (· >>= _) e2) ?_
  rw [Run.ok_bind]
  dsimp only
  rw [hp]
  have hpin := (reg _ p hin0).1 hreach
  obtain ⟨i, j, e⟩ := exists_coords hR.axis (⟨p.1, p.2⟩ : Point)
  have hij := (mem p i j e).1 hpin
  have hle := hmin (X, Y) (Reach.refl hb)
  have ep : point p = P.pixel i j := e.symm
  rw [ep, ← epoint, cross_key, cross_key] at hle
  have hi : i = K ∧ j = K := by
    have h1 : 0 ≤ perColumn P hd * (i - K) := mul_nonneg (by omega) (by omega)
    have h2 : 0 ≤ perRow P hd * (j - K) := mul_nonneg (by omega) (by omega)
    have h3 : perColumn P hd * (i - K) + perRow P hd * (j - K) ≤ 0 := by
      rw [mul_sub, mul_sub]; omega
    have h4 : perColumn P hd * (i - K) = 0 := by omega
    have h5 : perRow P hd * (j - K) = 0 := by omega
    rcases mul_eq_zero.1 h4 with h4 | h4
    · omega
    · rcases mul_eq_zero.1 h5 with h5 | h5
      · omega
      · omega
  rw [ep, ← epoint, hi.1, hi.2]
  rfl

/-- If only rings are claimed then the alignment pattern is not. -/
theorem align_free (hv : v ≤ 40) (hR : Renders img0 (side v) M P) (hM : Patterned v M)
    (hno : ∀ p, claims p ≠ none → ∀ x0 y0 k, (∀ q, InSquare x0 y0 k q → IsBlack img0 q) → ¬ ∀ q, Reach (IsBlack img0) p q ↔ InSquare x0 y0 k q) :
    2 ≤ v → ∀ p : Pos, P.pixel ((side v - 7 : Nat) * P.scale) ((side v - 7 : Nat) * P.scale) = ⟨p.1, p.2⟩ → claims p = none := by
  intro h2 p hp
  have hs := hR.scale
  obtain ⟨x0, y0, mem, hin, reg⟩ := align_region h2 hv hR hM
  have cK : (((side v - 7 : Nat) : Int) * P.scale) = (((side v - 7) * P.scale : Nat) : Int) := by push_cast; ring
  rw [cK] at hp
  have hin0 := (mem p _ _ hp).2 ⟨le_refl _, by omega, le_refl _, by omega⟩
  by_contra hne
  exact hno _ hne x0 y0 P.scale hin (fun q => reg _ q hin0)

end Rqrr
