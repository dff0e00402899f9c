import Verif.Proofs.AffineRounded
import Verif.Spec.Finder

/-!
# The centre of a convex quadrilateral, rounded
-/

namespace Rqrr

open Spec Rounding

variable {F : Type} [FloatOps F] [Rounding F]

/-- A quotient of numbers with small errors relative to `M`. -/
theorem quotient_near {x y : F} {p D B M e : ℚ} (hx : ∃ r, Is x r ∧ |r - p| ≤ B * M * e) (hy : ∃ s, Is y s ∧ |s - D| ≤ M * e)
    (hM : 1 ≤ M) (hD : M / 2 ≤ D) (hB : 1 ≤ B) (hB' : B ≤ 100000) (hp : |p| ≤ B * D) (he : 0 ≤ e) (he' : e ≤ 1 / 2 ^ 42) :
    ∃ z, Is (FloatOps.div x y) z ∧ |z - p / D| ≤ 1 / 10 ^ 6 ∧ |z| ≤ 100001 := by
  obtain ⟨r, hr, r1⟩ := hx
  obtain ⟨s, hs, s1⟩ := hy
  have hM0 : 0 < M := by linarith
  have hD0 : 0 < D := by linarith
  have s2 : M * e ≤ M / 4 := by
    rw [div_eq_mul_inv]
    refine mul_le_mul_of_nonneg_left (he'.trans (by norm_num)) hM0.le
  have s3 : M / 4 ≤ s := by have := (abs_le.1 s1).1; linarith
  have s0 : 0 < s := by linarith
  have q1 : |p / D| ≤ B := by rw [abs_div, abs_of_pos hD0, div_le_iff₀ hD0]; exact hp
  have d1 : |(r - p) / s| ≤ 4 * (B * e) := by
    rw [abs_div, abs_of_pos s0, div_le_iff₀ s0]
    refine r1.trans ?_
    have : B * M * e = 4 * (B * e) * (M / 4) := by ring
    rw [this]
    exact mul_le_mul_of_nonneg_left s3 (by positivity)
  have d2 : |(s - D) / s| ≤ 4 * e := by
    rw [abs_div, abs_of_pos s0, div_le_iff₀ s0]
    refine s1.trans ?_
    have : M * e = 4 * e * (M / 4) := by ring
    rw [this]
    exact mul_le_mul_of_nonneg_left s3 (by positivity)
  have d3 : |(p / D) * ((s - D) / s)| ≤ 4 * (B * e) := by
    rw [abs_mul, show 4 * (B * e) = B * (4 * e) by ring]
    exact mul_le_mul q1 d2 (abs_nonneg _) (by linarith)
  have d4 : B * e ≤ 100000 * (1 / 2 ^ 42) := mul_le_mul hB' he' he (by norm_num)
  have d5 : |r / s - p / D| ≤ 1 / 10 ^ 6 / 2 := by
    have e : r / s - p / D = (r - p) / s - (p / D) * ((s - D) / s) := by field_simp; ring
    rw [e]
    refine (abs_sub _ _).trans ?_
    refine (add_le_add d1 d3).trans ?_
    norm_num at d4 ⊢
    linarith
  have d6 : |r / s| ≤ B + 1 / 10 ^ 6 / 2 := by
    have := abs_add_le (r / s - p / D) (p / D)
    rw [sub_add_cancel] at this
    linarith
  refine ⟨_, Rounding.div hr hs s0.ne' (d6.trans ?_), ?_⟩
  · refine (add_le_add_left hB' _).trans (by norm_num)
  · have n := rnd_near (F := F) (r / s)
    have n2 : |r / s| / 2 ^ 53 + 1 / 2 ^ 200 ≤ 1 / 10 ^ 6 / 2 := by
      have : |r / s| / 2 ^ 53 ≤ 100001 / 2 ^ 53 := div_le_div_of_nonneg_right (d6.trans (by norm_num; linarith)) (by norm_num)
      refine (add_le_add_left this _).trans (by norm_num)
    have n3 : |rnd F (r / s) - p / D| ≤ 1 / 10 ^ 6 := by
      have := abs_add_le (rnd F (r / s) - r / s) (r / s - p / D)
      rw [sub_add_sub_cancel] at this
      refine this.trans ?_
      linarith
    refine ⟨n3, ?_⟩
    have := abs_add_le (rnd F (r / s) - p / D) (p / D)
    rw [sub_add_cancel] at this
    refine this.trans ?_
    have : (1 : ℚ) / 10 ^ 6 ≤ 1 := by norm_num
    linarith

/-! The coefficients in terms of areas. -/

theorem area_w (p1 p2 p3 : Point) : 7 * (p2.x * p3.y - p3.x * p2.y + (p3.x - p2.x) * p1.y + p1.x * (p2.y - p3.y)) = 7 * area2 p1 p2 p3 := by unfold area2; ring
theorem area_esum (p0 p1 p2 p3 : Point) : area2 p0 p1 p2 + area2 p0 p2 p3 = area2 p0 p1 p3 + area2 p1 p2 p3 := by unfold area2; ring
theorem area_n0 (p0 p1 p2 p3 : Point) : p1.x * (p2.x * p3.y - p3.x * p2.y) + p0.x * (-p2.x * p3.y + p3.x * p2.y + (p2.x - p3.x) * p1.y) +
      p1.x * (p3.x - p2.x) * p0.y = p1.x * area2 p0 p2 p3 - p0.x * area2 p1 p2 p3 := by unfold area2; ring
theorem area_n1 (p0 p1 p2 p3 : Point) : -(p0.x * (p2.x * p3.y + p1.x * (p2.y - p3.y) - p2.x * p1.y) - p1.x * p3.x * p2.y + p2.x * p3.x * p1.y +
      (p1.x * p3.x - p2.x * p3.x) * p0.y) = p3.x * area2 p0 p1 p2 - p0.x * area2 p1 p2 p3 := by unfold area2; ring
theorem area_n3 (p0 p1 p2 p3 : Point) : p0.y * (p1.x * (p3.y - p2.y) - p2.x * p3.y + p3.x * p2.y) + p1.y * (p2.x * p3.y - p3.x * p2.y) +
      p0.x * p1.y * (p2.y - p3.y) = p1.y * area2 p0 p2 p3 - p0.y * area2 p1 p2 p3 := by unfold area2; ring
theorem area_n4 (p0 p1 p2 p3 : Point) : p0.x * (p1.y * p3.y - p2.y * p3.y) + p1.x * p2.y * p3.y - p2.x * p1.y * p3.y +
      p0.y * (p3.x * p2.y - p1.x * p2.y + (p2.x - p3.x) * p1.y) =
      p3.y * area2 p0 p1 p2 - p0.y * area2 p1 p2 p3 := by unfold area2; ring
theorem area_n6 (p0 p1 p2 p3 : Point) : p1.x * (p3.y - p2.y) + p0.x * (p2.y - p3.y) + (p2.x - p3.x) * p1.y + (p3.x - p2.x) * p0.y =
      area2 p0 p2 p3 - area2 p1 p2 p3 := by unfold area2; ring
theorem area_n7 (p0 p1 p2 p3 : Point) : -p2.x * p3.y + p1.x * p3.y + p3.x * p2.y + p0.x * (p1.y - p2.y) - p3.x * p1.y + (p2.x - p1.x) * p0.y =
      area2 p0 p1 p2 - area2 p1 p2 p3 := by unfold area2; ring

theorem exactC_areas (r : Vector Point 4) : exactC r 7 =
    #v[((r[1].x * area2 r[0] r[2] r[3] - r[0].x * area2 r[1] r[2] r[3] : Int) : ℚ) / ((7 * area2 r[1] r[2] r[3] : Int) : ℚ),
      ((r[3].x * area2 r[0] r[1] r[2] - r[0].x * area2 r[1] r[2] r[3] : Int) : ℚ) / ((7 * area2 r[1] r[2] r[3] : Int) : ℚ),
      r[0].x,
      ((r[1].y * area2 r[0] r[2] r[3] - r[0].y * area2 r[1] r[2] r[3] : Int) : ℚ) / ((7 * area2 r[1] r[2] r[3] : Int) : ℚ),
      ((r[3].y * area2 r[0] r[1] r[2] - r[0].y * area2 r[1] r[2] r[3] : Int) : ℚ) / ((7 * area2 r[1] r[2] r[3] : Int) : ℚ),
      r[0].y,
      ((area2 r[0] r[2] r[3] - area2 r[1] r[2] r[3] : Int) : ℚ) / ((7 * area2 r[1] r[2] r[3] : Int) : ℚ),
      ((area2 r[0] r[1] r[2] - area2 r[1] r[2] r[3] : Int) : ℚ) / ((7 * area2 r[1] r[2] r[3] : Int) : ℚ)] := by
  unfold exactC
  dsimp only
  rw [den_eq, show wdenZ r 7 = 7 * area2 r[1] r[2] r[3] from area_w r[1] r[2] r[3], area_n0, area_n1, area_n3, area_n4, area_n6, area_n7]

set_option maxHeartbeats 1000000 in
/-- The centre of a convex quadrilateral: up to a millionth of a pixel before rounding to pixels it is where it is in exact arithmetic. -/
theorem centre_rounded {r : Vector Point 4} (hr : Within r) (hv : WeaklyConvex r) {c : Perspective F} {q : Perspective ℚ}
    (hq : Perspective.create r 7 7 = some q) (hc : Perspective.create r (FloatOps.lit 7 0) (FloatOps.lit 7 0) = some c) :
    ∃ x y, c.map (FloatOps.lit 35 1) (FloatOps.lit 35 1) = .ok ⟨nearest x, nearest y⟩ ∧
      |x - (q.mapF (7 / 2) (7 / 2)).1| ≤ 1 / 10 ^ 6 ∧ |y - (q.mapF (7 / 2) (7 / 2)).2| ≤ 1 / 10 ^ 6 := by
  have h7 : IntB (FloatOps.lit 7 0 : F) 7 200 := IntB.lit (m := 7) (by norm_num) (by norm_num)
  obtain ⟨c', ec, hcq⟩ := (create_rounded hr h7).2 q hq
  have := ec.symm.trans hc
  cases this
  obtain ⟨q1, q2⟩ := create_cases (F := ℚ) (w := (7 : ℚ)) (W := 7) hr ⟨rfl, by norm_num⟩
  rcases le_or_gt (wdenZ r 7) 0 with hw | hw
  · rw [q1 hw] at hq; cases hq
  obtain ⟨q', eq', hq'⟩ := q2 hw
  have := eq'.symm.trans hq
  cases this
  have eqe : q = exactC r 7 := Vector.ext fun k hk => hq' k hk
  subst eqe
  obtain ⟨v1, v2, v3, v4⟩ := hv
  -- the areas
  have eW : wdenZ r 7 = 7 * area2 r[1] r[2] r[3] := area_w r[1] r[2] r[3]
  have esum := area_esum r[0] r[1] r[2] r[3]
  have big : ∀ p0 p1 p2 : Point, (|p0.x| ≤ 32767 ∧ |p0.y| ≤ 32767) → (|p1.x| ≤ 32767 ∧ |p1.y| ≤ 32767) → (|p2.x| ≤ 32767 ∧ |p2.y| ≤ 32767) →
      area2 p0 p1 p2 ≤ 10000000000 := by
    intro p0 p1 p2 h0 h1 h2
    have m : ∀ {a b : Int}, |a| ≤ 65534 → |b| ≤ 65534 → |a * b| ≤ 65534 * 65534 := by
      intro a b ha hb
      rw [abs_mul]; exact mul_le_mul ha hb (abs_nonneg _) (by norm_num)
    have k1 := m (a := p1.x - p0.x) (b := p2.y - p0.y) ((abs_sub _ _).trans (by omega)) ((abs_sub _ _).trans (by omega))
    have k2 := m (a := p2.x - p0.x) (b := p1.y - p0.y) ((abs_sub _ _).trans (by omega)) ((abs_sub _ _).trans (by omega))
    unfold area2
    rw [abs_le] at k1 k2
    omega
  have b1 := big r[0] r[1] r[2] (hr 0 (by decide)) (hr 1 (by decide)) (hr 2 (by decide))
  have b3 := big r[0] r[2] r[3] (hr 0 (by decide)) (hr 2 (by decide)) (hr 3 (by decide))
  have R : ∀ k (hk : k < 8), Is c[k] (rnd F (exactC r 7)[k]) := fun k hk => hcq k hk
  rw [exactC_areas] at R ⊢
  rw [eW] at hw
  clear hq' eq' hq q1 q2 ec hc hcq eW big
  have x0 := hr 0 (by decide)
  have x1 := hr 1 (by decide)
  have x3 := hr 3 (by decide)
  generalize area2 r[0] r[1] r[2] = A1 at *
  generalize area2 r[0] r[1] r[3] = A2 at *
  generalize area2 r[0] r[2] r[3] = A3 at *
  generalize area2 r[1] r[2] r[3] = A4 at *
  have a4 : (1 : ℚ) ≤ A4 := by exact_mod_cast (show (1 : Int) ≤ A4 by omega)
  have a40 : (0 : ℚ) < A4 := by linarith
  obtain ⟨a, ea⟩ : ∃ a : ℚ, a = A3 / A4 := ⟨_, rfl⟩
  obtain ⟨b, eb⟩ : ∃ b : ℚ, b = A1 / A4 := ⟨_, rfl⟩
  have a0 : 0 ≤ a := by rw [ea]; exact div_nonneg (by exact_mod_cast v3) a40.le
  have b0 : 0 ≤ b := by rw [eb]; exact div_nonneg (by exact_mod_cast v1) a40.le
  have ab : 1 ≤ a + b := by
    rw [ea, eb, ← add_div, le_div_iff₀ a40, one_mul]
    exact_mod_cast (show A4 ≤ A3 + A1 by omega)
  have a10 : a ≤ 10000000000 := by
    rw [ea]; exact (div_le_self (by exact_mod_cast v3) a4).trans (by exact_mod_cast b3)
  have b10 : b ≤ 10000000000 := by
    rw [eb]; exact (div_le_self (by exact_mod_cast v1) a4).trans (by exact_mod_cast b1)
  have co : ∀ (z z0 A : Int), (((z * A - z0 * A4 : Int) : ℚ) / ((7 * A4 : Int) : ℚ)) = (z * (A / A4) - z0) / 7 := by
    intro z z0 A
    push_cast
    field_simp
  have co' : ∀ A : Int, (((A - A4 : Int) : ℚ) / ((7 * A4 : Int) : ℚ)) = (A / A4 - 1) / 7 := by
    intro A
    push_cast
    field_simp
  simp only [Nat.cast_ofNat, co, co', ← ea, ← eb] at R ⊢
  have hM : a + b ≤ 2 ^ 80 := by linarith
  have bnd : ∀ {z z0 : Int} {w : ℚ}, |z| ≤ 32767 → |z0| ≤ 32767 → 0 ≤ w → w ≤ a + b → |(z * w - z0) / 7| ≤ 32767 * (a + b) := by
    intro z z0 w hz hz0 hw hw'
    have hz' : |(z : ℚ)| ≤ 32767 := by exact_mod_cast hz
    have hz0' : |(z0 : ℚ)| ≤ 32767 := by exact_mod_cast hz0
    have t : |z * w - z0| ≤ 32767 * (a + b) + 32767 := by
      refine (abs_sub _ _).trans (add_le_add ?_ hz0')
      rw [abs_mul, abs_of_nonneg hw]
      exact mul_le_mul hz' hw' hw (by norm_num)
    rw [abs_div, show |(7 : ℚ)| = 7 by norm_num, div_le_iff₀ (by norm_num)]
    refine t.trans ?_
    linarith
  have bnd' : ∀ {w : ℚ}, 0 ≤ w → w ≤ a + b → |(w - 1) / 7| ≤ a + b := by
    intro w hw hw'
    rw [abs_le]
    constructor <;> linarith
  have one : Sc (FloatOps.lit 1 0 : F) 1 1 1 := by
    have := Sc.lit (F := F) (m := 1) (e := 0) (S := 1) (by norm_num) (by norm_num) (by norm_num)
    rwa [show ((1 : Nat) : ℚ) / 10 ^ 0 = 1 by norm_num] at this
  have k6 : Sc c[6] ((a - 1) / 7) (a + b) 1 := sc_rnd (R 6 (by decide)) (bnd' a0 (by linarith)) ab (by linarith)
  have k7 : Sc c[7] ((b - 1) / 7) (a + b) 1 := sc_rnd (R 7 (by decide)) (bnd' b0 (by linarith)) ab (by linarith)
  have den := ((k6.mul sc35 (by linarith) (by norm_num)).add (k7.mul sc35 (by linarith) (by norm_num)) (by linarith) (by norm_num)).add one
    (by linarith) (by norm_num)
  have coord : ∀ {x y z : F} {z0 z1 z3 : Int}, |z0| ≤ 32767 → |z1| ≤ 32767 → |z3| ≤ 32767 → Is x (rnd F ((z1 * a - z0) / 7)) →
      Is y (rnd F ((z3 * b - z0) / 7)) → Is z (rnd F z0) →
      ∃ w, Is (FloatOps.div (FloatOps.add (FloatOps.add (FloatOps.mul x (FloatOps.lit 35 1)) (FloatOps.mul y (FloatOps.lit 35 1))) z)
        (FloatOps.add (FloatOps.add (FloatOps.mul c[6] (FloatOps.lit 35 1)) (FloatOps.mul c[7] (FloatOps.lit 35 1))) (FloatOps.lit 1 0))) w ∧
        |w - (((z1 * a - z0) / 7) * (7 / 2) + ((z3 * b - z0) / 7) * (7 / 2) + z0) / (((a - 1) / 7) * (7 / 2) + ((b - 1) / 7) * (7 / 2) + 1)| ≤
          1 / 10 ^ 6 ∧ |w| ≤ 100001 := by
    intro x y z z0 z1 z3 h0 h1 h3 hx hy hz
    have kx : Sc x ((z1 * a - z0) / 7) (32767 * (a + b)) 1 := sc_rnd hx (bnd h1 h0 a0 (by linarith)) (by linarith) (by linarith)
    have ky : Sc y ((z3 * b - z0) / 7) (32767 * (a + b)) 1 := sc_rnd hy (bnd h3 h0 b0 (by linarith)) (by linarith) (by linarith)
    have h0' : |(z0 : ℚ)| ≤ 32767 := by exact_mod_cast h0
    have h1' : |(z1 : ℚ)| ≤ 32767 := by exact_mod_cast h1
    have h3' : |(z3 : ℚ)| ≤ 32767 := by exact_mod_cast h3
    have kz : Sc z z0 32767 1 := sc_rnd hz h0' (by norm_num) (by norm_num)
    have num := ((kx.mul sc35 (by linarith) (by norm_num)).add (ky.mul sc35 (by linarith) (by norm_num)) (by linarith) (by norm_num)).add kz
      (by linarith) (by norm_num)
    refine quotient_near (B := 32767) (M := a + b) (e := 200 / 2 ^ 50) ?_ ?_ ab ?_ (by norm_num) (by norm_num) ?_ (by norm_num) (by norm_num)
    · obtain ⟨r, h, e⟩ := num.ex
      refine ⟨r, h, e.trans ?_⟩
      norm_num
      linarith
    · obtain ⟨r, h, e⟩ := den.ex
      refine ⟨r, h, e.trans ?_⟩
      norm_num
      linarith
    · linarith
    · have e1 : (((z1 * a - z0) / 7) * (7 / 2) + ((z3 * b - z0) / 7) * (7 / 2) + z0 : ℚ) = (z1 * a + z3 * b) / 2 := by ring
      have e2 : (((a - 1) / 7) * (7 / 2) + ((b - 1) / 7) * (7 / 2) + 1 : ℚ) = (a + b) / 2 := by ring
      rw [e1, e2, abs_div, show |(2 : ℚ)| = 2 by norm_num, ← mul_div_assoc]
      refine div_le_div_of_nonneg_right ?_ (by norm_num)
      refine (abs_add_le _ _).trans ?_
      rw [abs_mul, abs_mul, abs_of_nonneg a0, abs_of_nonneg b0, mul_add]
      exact add_le_add (mul_le_mul_of_nonneg_right h1' a0) (mul_le_mul_of_nonneg_right h3' b0)
  obtain ⟨x, hx, ex, lx⟩ := coord x0.1 x1.1 x3.1 (R 0 (by decide)) (R 1 (by decide)) (R 2 (by decide))
  obtain ⟨y, hy, ey, ly⟩ := coord x0.2 x1.2 x3.2 (R 3 (by decide)) (R 4 (by decide)) (R 5 (by decide))
  have l1 : (FloatOps.lit 1 0 : ℚ) = 1 := by show ((1 : Nat) : ℚ) / 10 ^ 0 = 1; norm_num
  have em : ∀ (q : Perspective ℚ) (u w : ℚ), q.mapF u w =
      ((q[0] * u + q[1] * w + q[2]) / (q[6] * u + q[7] * w + 1), (q[3] * u + q[4] * w + q[5]) / (q[6] * u + q[7] * w + 1)) := by
    intro q u w
    rw [← l1]
    rfl
  refine ⟨x, y, map_rounded hx hy (lx.trans (by norm_num)) (ly.trans (by norm_num)), ?_, ?_⟩
  · rw [em]; exact ex
  · rw [em]; exact ey

end Rqrr
