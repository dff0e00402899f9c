import Verif.Proofs.CentresRounded
import Verif.Spec.Source
import Mathlib.Tactic.LinearCombination

/-!
# Points inside a convex quadrilateral, rounded
-/

namespace Rqrr

open Spec Rounding

variable {F : Type} [FloatOps F] [Rounding F]

/-- A quotient of numbers with small errors relative to `M`, with a denominator not far below `M`. -/
theorem quotient_near' {x y : F} {p D B M e : ℚ} (hx : ∃ r, Is x r ∧ |r - p| ≤ B * M * e) (hy : ∃ s, Is y s ∧ |s - D| ≤ M * e)
    (hM : 1 ≤ M) (hD : M / 14 ≤ D) (hB : 1 ≤ B) (hB' : B ≤ 32767) (hp : |p| ≤ B * D) (he : 0 ≤ e) (he' : e ≤ 1 / 2 ^ 42) :
    ∃ z, Is (FloatOps.div x y) z ∧ |z - p / D| ≤ 1 / 10 ^ 6 ∧ |z| ≤ 100001 := by
  obtain ⟨r, hr, r1⟩ := hx
  obtain ⟨s, hs, s1⟩ := hy
  have hM0 : 0 < M := by linarith
  have hD0 : 0 < D := by linarith
  have s2 : M * e ≤ M / 28 := by
    rw [div_eq_mul_inv]
    refine mul_le_mul_of_nonneg_left (he'.trans (by norm_num)) hM0.le
  have s3 : M / 28 ≤ s := by have := (abs_le.1 s1).1; linarith
  have s0 : 0 < s := by linarith
  have q1 : |p / D| ≤ B := by rw [abs_div, abs_of_pos hD0, div_le_iff₀ hD0]; exact hp
  have d1 : |(r - p) / s| ≤ 28 * (B * e) := by
    rw [abs_div, abs_of_pos s0, div_le_iff₀ s0]
    refine r1.trans ?_
    have : B * M * e = 28 * (B * e) * (M / 28) := by ring
    rw [this]
    exact mul_le_mul_of_nonneg_left s3 (by positivity)
  have d2 : |(s - D) / s| ≤ 28 * e := by
    rw [abs_div, abs_of_pos s0, div_le_iff₀ s0]
    refine s1.trans ?_
    have : M * e = 28 * e * (M / 28) := by ring
    rw [this]
    exact mul_le_mul_of_nonneg_left s3 (by positivity)
  have d3 : |(p / D) * ((s - D) / s)| ≤ 28 * (B * e) := by
    rw [abs_mul, show 28 * (B * e) = B * (28 * e) by ring]
    exact mul_le_mul q1 d2 (abs_nonneg _) (by linarith)
  have d4 : B * e ≤ 32767 * (1 / 2 ^ 42) := mul_le_mul hB' he' he (by norm_num)
  have d5 : |r / s - p / D| ≤ 1 / 10 ^ 6 / 2 := by
    have e : r / s - p / D = (r - p) / s - (p / D) * ((s - D) / s) := by field_simp; ring
    rw [e]
    refine (abs_sub _ _).trans ?_
    refine (add_le_add d1 d3).trans ?_
    norm_num at d4 ⊢
    linarith
  have d6 : |r / s| ≤ B + 1 / 10 ^ 6 / 2 := by
    have := abs_add_le (r / s - p / D) (p / D)
    rw [sub_add_cancel] at this
    linarith
  refine ⟨_, Rounding.div hr hs s0.ne' (d6.trans ?_), ?_⟩
  · refine (add_le_add_left hB' _).trans (by norm_num)
  · have n := rnd_near (F := F) (r / s)
    have n2 : |r / s| / 2 ^ 53 + 1 / 2 ^ 200 ≤ 1 / 10 ^ 6 / 2 := by
      have : |r / s| / 2 ^ 53 ≤ 100001 / 2 ^ 53 := div_le_div_of_nonneg_right (d6.trans (by norm_num; linarith)) (by norm_num)
      refine (add_le_add_left this _).trans (by norm_num)
    have n3 : |rnd F (r / s) - p / D| ≤ 1 / 10 ^ 6 := by
      have := abs_add_le (rnd F (r / s) - r / s) (r / s - p / D)
      rw [sub_add_sub_cancel] at this
      refine this.trans ?_
      linarith
    refine ⟨n3, ?_⟩
    have := abs_add_le (rnd F (r / s) - p / D) (p / D)
    rw [sub_add_cancel] at this
    refine this.trans ?_
    have : (1 : ℚ) / 10 ^ 6 ≤ 1 := by norm_num
    linarith

theorem area_fourth_x (p0 p1 p2 p3 : Point) : p0.x * area2 p1 p2 p3 + p2.x * area2 p0 p1 p3 = p1.x * area2 p0 p2 p3 + p3.x * area2 p0 p1 p2 := by
  unfold area2; ring
theorem area_fourth_y (p0 p1 p2 p3 : Point) : p0.y * area2 p1 p2 p3 + p2.y * area2 p0 p1 p3 = p1.y * area2 p0 p2 p3 + p3.y * area2 p0 p1 p2 := by
  unfold area2; ring

set_option maxHeartbeats 1000000 in
/-- A point that is at least half a module inside a convex quadrilateral of seven modules: up to a millionth of a pixel before rounding to pixels
it is where it is in exact arithmetic, which is a weighted mean of the corners. -/
theorem inner_rounded {r : Vector Point 4} (hr : Within r) (hv : WeaklyConvex r) {c : Perspective F}
    (hc : Perspective.create r (FloatOps.lit 7 0) (FloatOps.lit 7 0) = some c) {fu fv : F} {u v : ℚ} (hu : Sc fu u 7 1) (hv' : Sc fv v 7 1)
    (u1 : 1 / 2 ≤ u) (u2 : u ≤ 13 / 2) (v1 : 1 / 2 ≤ v) (v2 : v ≤ 13 / 2) :
    ∃ p, c.map fu fv = .ok p ∧ InnerPoint r u v p := by
  unfold InnerPoint
  have h7 : IntB (FloatOps.lit 7 0 : F) 7 200 := IntB.lit (m := 7) (by norm_num) (by norm_num)
  obtain ⟨q1, q2⟩ := create_cases hr h7
  rcases le_or_gt (wdenZ r 7) 0 with hw | hw
  · rw [q1 hw] at hc; cases hc
  obtain ⟨c', ec, hcq⟩ := q2 hw
  have := ec.symm.trans hc
  cases this
  obtain ⟨va, vb, vc, vd⟩ := hv
  -- the areas
  have eW : wdenZ r 7 = 7 * area2 r[1] r[2] r[3] := area_w r[1] r[2] r[3]
  have esum := area_esum r[0] r[1] r[2] r[3]
  have fx := area_fourth_x r[0] r[1] r[2] r[3]
  have fy := area_fourth_y r[0] r[1] r[2] r[3]
  have big : ∀ p0 p1 p2 : Point, (|p0.x| ≤ 32767 ∧ |p0.y| ≤ 32767) → (|p1.x| ≤ 32767 ∧ |p1.y| ≤ 32767) → (|p2.x| ≤ 32767 ∧ |p2.y| ≤ 32767) →
      area2 p0 p1 p2 ≤ 10000000000 := by
    intro p0 p1 p2 h0 h1 h2
    have m : ∀ {a b : Int}, |a| ≤ 65534 → |b| ≤ 65534 → |a * b| ≤ 65534 * 65534 := by
      intro a b ha hb
      rw [abs_mul]; exact mul_le_mul ha hb (abs_nonneg _) (by norm_num)
    have k1 := m (a := p1.x - p0.x) (b := p2.y - p0.y) ((abs_sub _ _).trans (by omega)) ((abs_sub _ _).trans (by omega))
    have k2 := m (a := p2.x - p0.x) (b := p1.y - p0.y) ((abs_sub _ _).trans (by omega)) ((abs_sub _ _).trans (by omega))
    unfold area2
    rw [abs_le] at k1 k2
    omega
  have b1 := big r[0] r[1] r[2] (hr 0 (by decide)) (hr 1 (by decide)) (hr 2 (by decide))
  have b3 := big r[0] r[2] r[3] (hr 0 (by decide)) (hr 2 (by decide)) (hr 3 (by decide))
  have R : ∀ k (hk : k < 8), Is c[k] (rnd F (exactC r 7)[k]) := fun k hk => hcq k hk
  rw [exactC_areas] at R
  rw [eW] at hw
  clear q1 q2 ec hc hcq eW big
  have x0 := hr 0 (by decide)
  have x1 := hr 1 (by decide)
  have x2 := hr 2 (by decide)
  have x3 := hr 3 (by decide)
  generalize area2 r[0] r[1] r[2] = A1 at *
  generalize area2 r[0] r[1] r[3] = A2 at *
  generalize area2 r[0] r[2] r[3] = A3 at *
  generalize area2 r[1] r[2] r[3] = A4 at *
  have a4 : (1 : ℚ) ≤ A4 := by exact_mod_cast (show (1 : Int) ≤ A4 by omega)
  have a40 : (0 : ℚ) < A4 := by linarith
  obtain ⟨a, ea⟩ : ∃ a : ℚ, a = A3 / A4 := ⟨_, rfl⟩
  obtain ⟨b, eb⟩ : ∃ b : ℚ, b = A1 / A4 := ⟨_, rfl⟩
  have a0 : 0 ≤ a := by rw [ea]; exact div_nonneg (by exact_mod_cast vc) a40.le
  have b0 : 0 ≤ b := by rw [eb]; exact div_nonneg (by exact_mod_cast va) a40.le
  have ab : 1 ≤ a + b := by
    rw [ea, eb, ← add_div, le_div_iff₀ a40, one_mul]
    exact_mod_cast (show A4 ≤ A3 + A1 by omega)
  have a10 : a ≤ 10000000000 := by
    rw [ea]; exact (div_le_self (by exact_mod_cast vc) a4).trans (by exact_mod_cast b3)
  have b10 : b ≤ 10000000000 := by
    rw [eb]; exact (div_le_self (by exact_mod_cast va) a4).trans (by exact_mod_cast b1)
  have co : ∀ (z z0 A : Int), (((z * A - z0 * A4 : Int) : ℚ) / ((7 * A4 : Int) : ℚ)) = (z * (A / A4) - z0) / 7 := by
    intro z z0 A
    push_cast
    field_simp
  have co' : ∀ A : Int, (((A - A4 : Int) : ℚ) / ((7 * A4 : Int) : ℚ)) = (A / A4 - 1) / 7 := by
    intro A
    push_cast
    field_simp
  simp only [Nat.cast_ofNat, co, co', ← ea, ← eb] at R
  have hM : a + b ≤ 2 ^ 80 := by linarith
  have bnd : ∀ {z z0 : Int} {w : ℚ}, |z| ≤ 32767 → |z0| ≤ 32767 → 0 ≤ w → w ≤ a + b → |(z * w - z0) / 7| ≤ 32767 * (a + b) := by
    intro z z0 w hz hz0 hw hw'
    have hz' : |(z : ℚ)| ≤ 32767 := by exact_mod_cast hz
    have hz0' : |(z0 : ℚ)| ≤ 32767 := by exact_mod_cast hz0
    have t : |z * w - z0| ≤ 32767 * (a + b) + 32767 := by
      refine (abs_sub _ _).trans (add_le_add ?_ hz0')
      rw [abs_mul, abs_of_nonneg hw]
      exact mul_le_mul hz' hw' hw (by norm_num)
    rw [abs_div, show |(7 : ℚ)| = 7 by norm_num, div_le_iff₀ (by norm_num)]
    refine t.trans ?_
    linarith
  have bnd' : ∀ {w : ℚ}, 0 ≤ w → w ≤ a + b → |(w - 1) / 7| ≤ a + b := by
    intro w hw hw'
    rw [abs_le]
    constructor <;> linarith
  have one : Sc (FloatOps.lit 1 0 : F) 1 1 1 := by
    have := Sc.lit (F := F) (m := 1) (e := 0) (S := 1) (by norm_num) (by norm_num) (by norm_num)
    rwa [show ((1 : Nat) : ℚ) / 10 ^ 0 = 1 by norm_num] at this
  have k6 : Sc c[6] ((a - 1) / 7) (a + b) 1 := sc_rnd (R 6 (by decide)) (bnd' a0 (by linarith)) ab (by linarith)
  have k7 : Sc c[7] ((b - 1) / 7) (a + b) 1 := sc_rnd (R 7 (by decide)) (bnd' b0 (by linarith)) ab (by linarith)
  have den := ((k6.mul hu (by linarith) (by norm_num)).add (k7.mul hv' (by linarith) (by norm_num)) (by linarith) (by norm_num)).add one
    (by linarith) (by norm_num)
  -- the denominator
  have hD : (a + b) / 14 ≤ (a - 1) / 7 * u + (b - 1) / 7 * v + 1 := by
    rcases le_total (u + v) 7 with h | h
    · have t1 : 0 ≤ a * (u - 1 / 2) := mul_nonneg a0 (by linarith)
      have t2 : 0 ≤ b * (v - 1 / 2) := mul_nonneg b0 (by linarith)
      linarith
    · rcases le_total u v with h' | h'
      · have t1 : 0 ≤ (a + b - 1) * (u - 1 / 2) := mul_nonneg (by linarith) (by linarith)
        have t2 : 0 ≤ b * (v - u) := mul_nonneg b0 (by linarith)
        linarith
      · have t1 : 0 ≤ (a + b - 1) * (v - 1 / 2) := mul_nonneg (by linarith) (by linarith)
        have t2 : 0 ≤ a * (u - v) := mul_nonneg a0 (by linarith)
        linarith
  have hU : 0 ≤ u / 7 := by linarith
  have hU' : 0 ≤ 1 - u / 7 := by linarith
  have hV : 0 ≤ v / 7 := by linarith
  have hV' : 0 ≤ 1 - v / 7 := by linarith
  have w0 : 0 ≤ (1 - u / 7) * (1 - v / 7) * (A4 : ℚ) := mul_nonneg (mul_nonneg hU' hV') (by exact_mod_cast vd)
  have w1 : 0 ≤ u / 7 * (1 - v / 7) * (A3 : ℚ) := mul_nonneg (mul_nonneg hU hV') (by exact_mod_cast vc)
  have w2 : 0 ≤ u / 7 * (v / 7) * (A2 : ℚ) := mul_nonneg (mul_nonneg hU hV) (by exact_mod_cast vb)
  have w3 : 0 ≤ (1 - u / 7) * (v / 7) * (A1 : ℚ) := mul_nonneg (mul_nonneg hU' hV) (by exact_mod_cast va)
  have ea' : (A3 : ℚ) = a * A4 := by rw [ea]; field_simp
  have eb' : (A1 : ℚ) = b * A4 := by rw [eb]; field_simp
  have esq : (A1 : ℚ) + A3 = A2 + A4 := by exact_mod_cast esum
  have eden : (1 - u / 7) * (1 - v / 7) * (A4 : ℚ) + u / 7 * (1 - v / 7) * A3 + u / 7 * (v / 7) * A2 + (1 - u / 7) * (v / 7) * A1 =
      A4 * ((a - 1) / 7 * u + (b - 1) / 7 * v + 1) := by
    have : (A2 : ℚ) = a * A4 + b * A4 - A4 := by rw [← ea', ← eb']; linarith
    rw [this, ea', eb']
    ring
  have coord : ∀ {x y z : F} {z0 z1 z2 z3 : Int}, |z0| ≤ 32767 → |z1| ≤ 32767 → |z2| ≤ 32767 → |z3| ≤ 32767 →
      z0 * A4 + z2 * A2 = z1 * A3 + z3 * A1 → Is x (rnd F ((z1 * a - z0) / 7)) →
      Is y (rnd F ((z3 * b - z0) / 7)) → Is z (rnd F z0) →
      ∃ w, Is (FloatOps.div (FloatOps.add (FloatOps.add (FloatOps.mul x fu) (FloatOps.mul y fv)) z)
        (FloatOps.add (FloatOps.add (FloatOps.mul c[6] fu) (FloatOps.mul c[7] fv)) (FloatOps.lit 1 0))) w ∧
        |w - meanOf A1 A2 A3 A4 (u / 7) (v / 7) z0 z1 z2 z3| ≤ 1 / 10 ^ 6 ∧ |w| ≤ 100001 := by
    intro x y z z0 z1 z2 z3 h0 h1 h2 h3 hf hx hy hz
    have kx : Sc x ((z1 * a - z0) / 7) (32767 * (a + b)) 1 := sc_rnd hx (bnd h1 h0 a0 (by linarith)) (by linarith) (by linarith)
    have ky : Sc y ((z3 * b - z0) / 7) (32767 * (a + b)) 1 := sc_rnd hy (bnd h3 h0 b0 (by linarith)) (by linarith) (by linarith)
    have h0' : |(z0 : ℚ)| ≤ 32767 := by exact_mod_cast h0
    have h1' : |(z1 : ℚ)| ≤ 32767 := by exact_mod_cast h1
    have h2' : |(z2 : ℚ)| ≤ 32767 := by exact_mod_cast h2
    have h3' : |(z3 : ℚ)| ≤ 32767 := by exact_mod_cast h3
    have hf' : (z0 : ℚ) * A4 + z2 * A2 = z1 * A3 + z3 * A1 := by exact_mod_cast hf
    have kz : Sc z z0 32767 1 := sc_rnd hz h0' (by norm_num) (by norm_num)
    have num := ((kx.mul hu (by linarith) (by norm_num)).add (ky.mul hv' (by linarith) (by norm_num)) (by linarith) (by norm_num)).add kz
      (by linarith) (by norm_num)
    have enum : (1 - u / 7) * (1 - v / 7) * (A4 : ℚ) * z0 + u / 7 * (1 - v / 7) * A3 * z1 + u / 7 * (v / 7) * A2 * z2 + (1 - u / 7) * (v / 7) * A1 * z3 =
        A4 * ((z1 * a - z0) / 7 * u + (z3 * b - z0) / 7 * v + z0) := by
      have : (z2 : ℚ) * A2 = z1 * (a * A4) + z3 * (b * A4) - z0 * A4 := by rw [← ea', ← eb']; linarith
      rw [show u / 7 * (v / 7) * (A2 : ℚ) * z2 = u / 7 * (v / 7) * (z2 * A2) by ring, this, ea', eb']
      ring
    have em : meanOf A1 A2 A3 A4 (u / 7) (v / 7) z0 z1 z2 z3 =
        ((z1 * a - z0) / 7 * u + (z3 * b - z0) / 7 * v + z0) / ((a - 1) / 7 * u + (b - 1) / 7 * v + 1) := by
      unfold meanOf
      rw [enum, eden, mul_div_mul_left _ _ a40.ne']
    rw [em]
    refine quotient_near' (B := 32767) (M := a + b) (e := 240 / 2 ^ 50) ?_ ?_ ab hD (by norm_num) (by norm_num) ?_ (by norm_num) (by norm_num)
    · obtain ⟨r, h, e⟩ := num.ex
      refine ⟨r, h, e.trans ?_⟩
      norm_num
      linarith
    · obtain ⟨r, h, e⟩ := den.ex
      refine ⟨r, h, e.trans ?_⟩
      norm_num
      linarith
    · have t : |(A4 : ℚ) * ((z1 * a - z0) / 7 * u + (z3 * b - z0) / 7 * v + z0)| ≤ 32767 * (A4 * ((a - 1) / 7 * u + (b - 1) / 7 * v + 1)) := by
        rw [← enum, ← eden]
        refine (abs_add_le _ _).trans ?_
        have m : ∀ {w : ℚ} {z : Int}, 0 ≤ w → |(z : ℚ)| ≤ 32767 → |w * z| ≤ 32767 * w := by
          intro w z hw hz
          rw [abs_mul, abs_of_nonneg hw, mul_comm]
          exact mul_le_mul_of_nonneg_right hz hw
        have t1 := m w0 h0'
        have t2 := m w1 h1'
        have t3 := m w2 h2'
        have t4 := m w3 h3'
        have t5 := abs_add_le ((1 - u / 7) * (1 - v / 7) * (A4 : ℚ) * z0 + u / 7 * (1 - v / 7) * A3 * z1) (u / 7 * (v / 7) * A2 * z2)
        have t6 := abs_add_le ((1 - u / 7) * (1 - v / 7) * (A4 : ℚ) * z0) (u / 7 * (1 - v / 7) * A3 * z1)
        linarith
      rw [abs_mul, abs_of_pos a40, ← mul_assoc, mul_comm (32767 : ℚ), mul_assoc] at t
      exact le_of_mul_le_mul_left t a40
  obtain ⟨x, hx, ex, lx⟩ := coord x0.1 x1.1 x2.1 x3.1 fx (R 0 (by decide)) (R 1 (by decide)) (R 2 (by decide))
  obtain ⟨y, hy, ey, ly⟩ := coord x0.2 x1.2 x2.2 x3.2 fy (R 3 (by decide)) (R 4 (by decide)) (R 5 (by decide))
  exact ⟨_, map_rounded hx hy (lx.trans (by norm_num)) (ly.trans (by norm_num)), x, y, rfl, ex, ey⟩

/-- A weighted mean of numbers is between the bounds of the numbers. -/
theorem meanOf_between {A1 A2 A3 A4 : Int} {U V : ℚ} {z0 z1 z2 z3 : Int} (a1 : 0 ≤ A1) (a2 : 0 ≤ A2) (a3 : 0 ≤ A3) (a4 : 0 < A4) (u1 : 0 < U) (u2 : U < 1)
    (v1 : 0 < V) (v2 : V < 1) (h0 : 0 ≤ z0 ∧ z0 ≤ 32767) (h1 : 0 ≤ z1 ∧ z1 ≤ 32767) (h2 : 0 ≤ z2 ∧ z2 ≤ 32767) (h3 : 0 ≤ z3 ∧ z3 ≤ 32767) :
    0 ≤ meanOf A1 A2 A3 A4 U V z0 z1 z2 z3 ∧ meanOf A1 A2 A3 A4 U V z0 z1 z2 z3 ≤ 32767 := by
  have a1' : (0 : ℚ) ≤ A1 := by exact_mod_cast a1
  have a2' : (0 : ℚ) ≤ A2 := by exact_mod_cast a2
  have a3' : (0 : ℚ) ≤ A3 := by exact_mod_cast a3
  have a4' : (0 : ℚ) < A4 := by exact_mod_cast a4
  have w0 : 0 < (1 - U) * (1 - V) * (A4 : ℚ) := mul_pos (mul_pos (by linarith) (by linarith)) a4'
  have w1 : 0 ≤ U * (1 - V) * (A3 : ℚ) := mul_nonneg (mul_nonneg (by linarith) (by linarith)) a3'
  have w2 : 0 ≤ U * V * (A2 : ℚ) := mul_nonneg (mul_nonneg (by linarith) (by linarith)) a2'
  have w3 : 0 ≤ (1 - U) * V * (A1 : ℚ) := mul_nonneg (mul_nonneg (by linarith) (by linarith)) a1'
  have q : ∀ {z : Int}, 0 ≤ z ∧ z ≤ 32767 → (0 : ℚ) ≤ z ∧ (z : ℚ) ≤ 32767 := fun h => ⟨by exact_mod_cast h.1, by exact_mod_cast h.2⟩
  unfold meanOf
  constructor
  · exact div_nonneg (add_nonneg (add_nonneg (add_nonneg (mul_nonneg w0.le (q h0).1) (mul_nonneg w1 (q h1).1)) (mul_nonneg w2 (q h2).1))
      (mul_nonneg w3 (q h3).1)) (by linarith)
  · rw [div_le_iff₀ (by linarith)]
    have := mul_le_mul_of_nonneg_left (q h0).2 w0.le
    have := mul_le_mul_of_nonneg_left (q h1).2 w1
    have := mul_le_mul_of_nonneg_left (q h2).2 w2
    have := mul_le_mul_of_nonneg_left (q h3).2 w3
    linarith

end Rqrr
