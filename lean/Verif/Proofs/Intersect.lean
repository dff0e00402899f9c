import Verif.Model.Geometry
import Verif.Spec.Geometry
import Verif.Proofs.Bresenham
import Mathlib.Tactic.Ring
import Mathlib.Tactic.Linarith
import Mathlib.Tactic.LinearCombination
import Mathlib.Tactic.FieldSimp

/-!
# Intersection of lines
-/

namespace Rqrr

open Spec

theorem mul_bound {a b A B : Int} (ha : -A ≤ a) (ha' : a ≤ A) (hb : -B ≤ b) (hb' : b ≤ B) : -(A * B) ≤ a * b ∧ a * b ≤ A * B := by
  constructor <;> nlinarith

theorem cross_bound {M x0 y0 x1 y1 : Int} (h1 : 0 ≤ x0 ∧ x0 ≤ M) (h2 : 0 ≤ y0 ∧ y0 ≤ M) (h3 : 0 ≤ x1 ∧ x1 ≤ M)
    (h4 : 0 ≤ y1 ∧ y1 ≤ M) : -(M * M) ≤ x1 * y0 - x0 * y1 ∧ x1 * y0 - x0 * y1 ≤ M * M := by
  obtain ⟨a1, a2⟩ := h1
  obtain ⟨b1, b2⟩ := h2
  obtain ⟨c1, c2⟩ := h3
  obtain ⟨d1, d2⟩ := h4
  have p1 : 0 ≤ x1 * y0 := mul_nonneg c1 b1
  have p2 : 0 ≤ x0 * y1 := mul_nonneg a1 d1
  have p3 : x1 * y0 ≤ M * M := mul_le_mul c2 b2 b1 (by omega)
  have p4 : x0 * y1 ≤ M * M := mul_le_mul a2 d2 d1 (by omega)
  omega

/-- The numerators of Cramer's rule for lines through points of the square of side `M` are at most `M^3`. -/
theorem cramer_bound {M x0 y0 x1 y1 u0 v0 u1 v1 : Int} (h1 : 0 ≤ x0 ∧ x0 ≤ M) (h2 : 0 ≤ y0 ∧ y0 ≤ M) (h3 : 0 ≤ x1 ∧ x1 ≤ M)
    (h4 : 0 ≤ y1 ∧ y1 ≤ M) (k1 : 0 ≤ u0 ∧ u0 ≤ M) (k2 : 0 ≤ v0 ∧ v0 ≤ M) (k3 : 0 ≤ u1 ∧ u1 ≤ M) (k4 : 0 ≤ v1 ∧ v1 ≤ M) :
    -(M * (M * M)) ≤ (u1 - u0) * (x1 * y0 - x0 * y1) - (x1 - x0) * (u1 * v0 - u0 * v1) ∧
      (u1 - u0) * (x1 * y0 - x0 * y1) - (x1 - x0) * (u1 * v0 - u0 * v1) ≤ M * (M * M) := by
  obtain ⟨a1, a2⟩ := h1
  obtain ⟨b1, b2⟩ := h2
  obtain ⟨c1, c2⟩ := h3
  obtain ⟨d1, d2⟩ := h4
  obtain ⟨e1, e2⟩ := k1
  obtain ⟨f1, f2⟩ := k2
  obtain ⟨g1, g2⟩ := k3
  obtain ⟨i1, i2⟩ := k4
  have hM : 0 ≤ M := by omega
  have q1 : 0 ≤ u1 * x1 := mul_nonneg g1 c1
  have q2 : u1 * x1 ≤ M * M := mul_le_mul g2 c2 c1 hM
  have q3 : 0 ≤ u0 * x0 := mul_nonneg e1 a1
  have q4 : u0 * x0 ≤ M * M := mul_le_mul e2 a2 a1 hM
  have q5 : 0 ≤ u1 * x0 := mul_nonneg g1 a1
  have q6 : u1 * x0 ≤ M * M := mul_le_mul g2 a2 a1 hM
  have q7 : 0 ≤ u0 * x1 := mul_nonneg e1 c1
  have q8 : u0 * x1 ≤ M * M := mul_le_mul e2 c2 c1 hM
  have lin : ∀ k y : Int, 0 ≤ y → y ≤ M → (0 ≤ k → 0 ≤ k * y ∧ k * y ≤ k * M) ∧ (k ≤ 0 → k * M ≤ k * y ∧ k * y ≤ 0) := by
    intro k y hy hy'
    constructor
    · intro hk; exact ⟨mul_nonneg hk hy, mul_le_mul_of_nonneg_left hy' hk⟩
    · intro hk; exact ⟨mul_le_mul_of_nonpos_left hy' hk, mul_nonpos_of_nonpos_of_nonneg hk hy⟩
  have e : (u1 - u0) * (x1 * y0 - x0 * y1) - (x1 - x0) * (u1 * v0 - u0 * v1) =
      ((u1 - u0) * x1) * y0 - ((u1 - u0) * x0) * y1 - ((x1 - x0) * u1) * v0 + ((x1 - x0) * u0) * v1 := by ring
  rw [e]
  have l1 := lin ((u1 - u0) * x1) y0 b1 b2
  have l2 := lin ((u1 - u0) * x0) y1 d1 d2
  have l3 := lin ((x1 - x0) * u1) v0 f1 f2
  have l4 := lin ((x1 - x0) * u0) v1 i1 i2
  have bM : ∀ k : Int, k ≤ M * M → k * M ≤ M * (M * M) := by
    intro k hk; rw [mul_comm M (M * M)]; exact mul_le_mul_of_nonneg_right hk hM
  rcases le_total u0 u1 with hu | hu <;> rcases le_total x0 x1 with hx | hx
  · have s1 := l1.1 (mul_nonneg (by omega) c1)
    have s2 := l2.1 (mul_nonneg (by omega) a1)
    have s3 := l3.1 (mul_nonneg (by omega) g1)
    have s4 := l4.1 (mul_nonneg (by omega) e1)
    have := bM (u1 * x1 - u0 * x0) (by omega)
    constructor <;> nlinarith
  · have s1 := l1.1 (mul_nonneg (by omega) c1)
    have s2 := l2.1 (mul_nonneg (by omega) a1)
    have s3 := l3.2 (mul_nonpos_of_nonpos_of_nonneg (by omega) g1)
    have s4 := l4.2 (mul_nonpos_of_nonpos_of_nonneg (by omega) e1)
    have := bM (u1 * x0 - u0 * x1) (by omega)
    constructor <;> nlinarith
  · have s1 := l1.2 (mul_nonpos_of_nonpos_of_nonneg (by omega) c1)
    have s2 := l2.2 (mul_nonpos_of_nonpos_of_nonneg (by omega) a1)
    have s3 := l3.1 (mul_nonneg (by omega) g1)
    have s4 := l4.1 (mul_nonneg (by omega) e1)
    have := bM (u0 * x1 - u1 * x0) (by omega)
    constructor <;> nlinarith
  · have s1 := l1.2 (mul_nonpos_of_nonpos_of_nonneg (by omega) c1)
    have s2 := l2.2 (mul_nonpos_of_nonpos_of_nonneg (by omega) a1)
    have s3 := l3.2 (mul_nonpos_of_nonpos_of_nonneg (by omega) g1)
    have s4 := l4.2 (mul_nonpos_of_nonpos_of_nonneg (by omega) e1)
    have := bM (u0 * x0 - u1 * x1) (by omega)
    constructor <;> nlinarith

theorem tdiv_truncate {n d : Int} (hd : d ≠ 0) {X : ℚ} (h : (d : ℚ) * X = n) : Int.tdiv n d = truncate X := by
  have hd' : (d : ℚ) ≠ 0 := by exact_mod_cast hd
  have hX : X = (n : ℚ) / d := by rw [eq_div_iff hd', mul_comm]; exact h
  have hpos : ∀ (n d : Int), 0 < d → Int.tdiv n d = truncate ((n : ℚ) / d) := by
    intro n d hd
    have hdq : (0 : ℚ) < d := by exact_mod_cast hd
    unfold truncate
    by_cases hn : 0 ≤ n
    · rw [if_pos (div_nonneg (by exact_mod_cast hn) hdq.le), Int.tdiv_eq_ediv_of_nonneg hn]
      symm
      rw [Int.floor_eq_iff]
      have e1 := Int.mul_ediv_add_emod n d
      have e2 := Int.emod_nonneg n hd.ne'
      have e3 := Int.emod_lt_of_pos n hd
      constructor
      · rw [le_div_iff₀ hdq]
        have : n / d * d ≤ n := by rw [mul_comm]; omega
        exact_mod_cast this
      · rw [div_lt_iff₀ hdq]
        have : n < (n / d + 1) * d := by rw [add_mul, mul_comm]; omega
        exact_mod_cast this
    · have hlt : (n : ℚ) / d < 0 := div_neg_of_neg_of_pos (by exact_mod_cast (by omega : n < 0)) hdq
      rw [if_neg (not_le.2 hlt)]
      have : Int.tdiv n d = -(Int.tdiv (-n) d) := by rw [Int.neg_tdiv]; omega
      rw [this, Int.tdiv_eq_ediv_of_nonneg (by omega)]
      symm
      rw [Int.ceil_eq_iff]
      have e1 := Int.mul_ediv_add_emod (-n) d
      have e2 := Int.emod_nonneg (-n) hd.ne'
      have e3 := Int.emod_lt_of_pos (-n) hd
      constructor
      · rw [lt_div_iff₀ hdq]
        have : (-(-n / d) - 1) * d < n := by rw [sub_mul, neg_mul, mul_comm (-n / d)]; omega
        exact_mod_cast this
      · rw [div_le_iff₀ hdq]
        have : n ≤ (-(-n / d)) * d := by rw [neg_mul, mul_comm (-n / d)]; omega
        exact_mod_cast this
  rcases lt_or_gt_of_ne hd with hneg | hp
  · have := hpos (-n) (-d) (by omega)
    rw [Int.neg_tdiv_neg] at this
    rw [this, hX]
    congr 1
    push_cast
    rw [neg_div_neg_eq]
  · rw [hpos n d hp, hX]

/-- Within the range of `i32` the intersection is computed by Cramer's rule. -/
theorem line_intersect_eq {M : Int} (hM : M ≤ 1290) {p0 p1 q0 q1 : Point}
    (hp : ∀ p ∈ [p0, p1, q0, q1], 0 ≤ p.x ∧ p.x ≤ M ∧ 0 ≤ p.y ∧ p.y ≤ M) :
    line_intersect p0 p1 q0 q1 = .ok
      (if (p1.x - p0.x) * (q1.y - q0.y) - (p1.y - p0.y) * (q1.x - q0.x) = 0 then none
       else some
        { x := Int.tdiv ((q1.x - q0.x) * (p1.x * p0.y - p0.x * p1.y) - (p1.x - p0.x) * (q1.x * q0.y - q0.x * q1.y))
            ((p1.x - p0.x) * (q1.y - q0.y) - (p1.y - p0.y) * (q1.x - q0.x))
          y := Int.tdiv ((q1.y - q0.y) * (p1.x * p0.y - p0.x * p1.y) - (p1.y - p0.y) * (q1.x * q0.y - q0.x * q1.y))
            ((p1.x - p0.x) * (q1.y - q0.y) - (p1.y - p0.y) * (q1.x - q0.x)) }) := by
  obtain ⟨x0, y0⟩ := p0
  obtain ⟨x1, y1⟩ := p1
  obtain ⟨u0, v0⟩ := q0
  obtain ⟨u1, v1⟩ := q1
  have hp0 := hp _ (by simp : (⟨x0, y0⟩ : Point) ∈ _)
  have hp1 := hp _ (by simp : (⟨x1, y1⟩ : Point) ∈ _)
  have hq0 := hp _ (by simp : (⟨u0, v0⟩ : Point) ∈ _)
  have hq1 := hp _ (by simp : (⟨u1, v1⟩ : Point) ∈ _)
  dsimp only at hp0 hp1 hq0 hq1 ⊢
  obtain ⟨a1, a2, b1, b2⟩ := hp0
  obtain ⟨c1, c2, d1, d2⟩ := hp1
  obtain ⟨e1, e2, f1, f2⟩ := hq0
  obtain ⟨g1, g2, i1, i2⟩ := hq1
  have hM0 : 0 ≤ M := by omega
  have hMM : M * M ≤ 1290 * 1290 := mul_le_mul hM hM hM0 (by norm_num)
  have hMMM : M * (M * M) ≤ 1290 * (1290 * 1290) := mul_le_mul hM hMM (mul_nonneg hM0 hM0) (by norm_num)
  have crp := cross_bound ⟨a1, a2⟩ ⟨b1, b2⟩ ⟨c1, c2⟩ ⟨d1, d2⟩
  have crq := cross_bound ⟨e1, e2⟩ ⟨f1, f2⟩ ⟨g1, g2⟩ ⟨i1, i2⟩
  have nx := cramer_bound ⟨a1, a2⟩ ⟨b1, b2⟩ ⟨c1, c2⟩ ⟨d1, d2⟩ ⟨e1, e2⟩ ⟨f1, f2⟩ ⟨g1, g2⟩ ⟨i1, i2⟩
  have ny := cramer_bound ⟨b1, b2⟩ ⟨a1, a2⟩ ⟨d1, d2⟩ ⟨c1, c2⟩ ⟨f1, f2⟩ ⟨e1, e2⟩ ⟨i1, i2⟩ ⟨g1, g2⟩
  have mb : ∀ a b : Int, -M ≤ a → a ≤ M → -M ≤ b → b ≤ M → -(M * M) ≤ a * b ∧ a * b ≤ M * M :=
    fun a b h1 h2 h3 h4 => mul_bound h1 h2 h3 h4
  have mb2 : ∀ a b : Int, -M ≤ a → a ≤ M → -(M * M) ≤ b → b ≤ M * M → -(M * (M * M)) ≤ a * b ∧ a * b ≤ M * (M * M) :=
    fun a b h1 h2 h3 h4 => mul_bound h1 h2 h3 h4
  have m1 := mb (-(y1 - y0)) x1 (by omega) (by omega) (by omega) (by omega)
  have m2 := mb (x1 - x0) y1 (by omega) (by omega) (by omega) (by omega)
  have m3 := mb (-(v1 - v0)) u1 (by omega) (by omega) (by omega) (by omega)
  have m4 := mb (u1 - u0) v1 (by omega) (by omega) (by omega) (by omega)
  have m5 := mb (-(y1 - y0)) (u1 - u0) (by omega) (by omega) (by omega) (by omega)
  have m6 := mb (x1 - x0) (-(v1 - v0)) (by omega) (by omega) (by omega) (by omega)
  have ee : -(y1 - y0) * x1 + (x1 - x0) * y1 = x1 * y0 - x0 * y1 := by ring
  have ef : -(v1 - v0) * u1 + (u1 - u0) * v1 = u1 * v0 - u0 * v1 := by ring
  have ed : -(y1 - y0) * (u1 - u0) - (x1 - x0) * -(v1 - v0) = (x1 - x0) * (v1 - v0) - (y1 - y0) * (u1 - u0) := by ring
  have m7 := mb2 (u1 - u0) _ (by omega) (by omega) crp.1 crp.2
  have m8 := mb2 (x1 - x0) _ (by omega) (by omega) crq.1 crq.2
  have m9 := mb2 (- -(v1 - v0)) _ (by omega) (by omega) crp.1 crp.2
  have m10 := mb2 (-(y1 - y0)) _ (by omega) (by omega) crq.1 crq.2
  unfold line_intersect subI negI mulI addI
  dsimp only
  rw [chk32_ok (n := y1 - y0) (by omega) (by omega), Run.ok_bind, chk32_ok (n := -(y1 - y0)) (by omega) (by omega), Run.ok_bind,
    chk32_ok (n := x1 - x0) (by omega) (by omega), Run.ok_bind,
    chk32_ok (n := v1 - v0) (by omega) (by omega), Run.ok_bind, chk32_ok (n := -(v1 - v0)) (by omega) (by omega), Run.ok_bind,
    chk32_ok (n := u1 - u0) (by omega) (by omega), Run.ok_bind,
    chk32_ok (n := -(y1 - y0) * x1) (by omega) (by omega), Run.ok_bind,
    chk32_ok (n := (x1 - x0) * y1) (by omega) (by omega), Run.ok_bind, ee,
    chk32_ok (n := x1 * y0 - x0 * y1) (by omega) (by omega), Run.ok_bind,
    chk32_ok (n := -(v1 - v0) * u1) (by omega) (by omega), Run.ok_bind,
    chk32_ok (n := (u1 - u0) * v1) (by omega) (by omega), Run.ok_bind, ef,
    chk32_ok (n := u1 * v0 - u0 * v1) (by omega) (by omega), Run.ok_bind,
    chk32_ok (n := -(y1 - y0) * (u1 - u0)) (by omega) (by omega), Run.ok_bind,
    chk32_ok (n := (x1 - x0) * -(v1 - v0)) (by omega) (by omega), Run.ok_bind, ed,
    chk32_ok (n := (x1 - x0) * (v1 - v0) - (y1 - y0) * (u1 - u0)) (by omega) (by omega), Run.ok_bind]
  by_cases hdet : (x1 - x0) * (v1 - v0) - (y1 - y0) * (u1 - u0) = 0
  · rw [if_pos hdet, if_pos hdet]; rfl
  · rw [if_neg hdet, if_neg hdet]
    have ey : - -(v1 - v0) * (x1 * y0 - x0 * y1) + -(y1 - y0) * (u1 * v0 - u0 * v1) =
        (v1 - v0) * (x1 * y0 - x0 * y1) - (y1 - y0) * (u1 * v0 - u0 * v1) := by ring
    have ny' : (v1 - v0) * (x1 * y0 - x0 * y1) - (y1 - y0) * (u1 * v0 - u0 * v1) =
        -((v1 - v0) * (y1 * x0 - y0 * x1) - (y1 - y0) * (v1 * u0 - v0 * u1)) := by ring
    have tb : ∀ n d : Int, -(M * (M * M)) ≤ n → n ≤ M * (M * M) → chk32 (Int.tdiv n d) = .ok (Int.tdiv n d) := by
      intro n d h1 h2
      have := Int.natAbs_tdiv_le_natAbs n d
      exact chk32_ok (by omega) (by omega)
    rw [chk32_ok (n := (u1 - u0) * (x1 * y0 - x0 * y1)) (by omega) (by omega), Run.ok_bind,
      chk32_ok (n := (x1 - x0) * (u1 * v0 - u0 * v1)) (by omega) (by omega), Run.ok_bind,
      chk32_ok (n := (u1 - u0) * (x1 * y0 - x0 * y1) - (x1 - x0) * (u1 * v0 - u0 * v1)) (by omega) (by omega), Run.ok_bind]
    unfold divI
    rw [if_neg hdet, tb _ _ nx.1 nx.2, Run.ok_bind, chk32_ok (n := - -(v1 - v0)) (by omega) (by omega), Run.ok_bind,
      chk32_ok (n := - -(v1 - v0) * (x1 * y0 - x0 * y1)) (by omega) (by omega), Run.ok_bind,
      chk32_ok (n := -(y1 - y0) * (u1 * v0 - u0 * v1)) (by omega) (by omega), Run.ok_bind, ey,
      chk32_ok (n := (v1 - v0) * (x1 * y0 - x0 * y1) - (y1 - y0) * (u1 * v0 - u0 * v1)) (by omega) (by omega), Run.ok_bind,
      if_neg hdet, tb _ _ (by omega) (by omega), Run.ok_bind]
    rfl

end Rqrr
