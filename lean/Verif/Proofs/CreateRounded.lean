import Verif.Proofs.Rounded
import Mathlib.Tactic.IntervalCases

/-!
# The perspective transform, rounded
-/

namespace Rqrr

open Spec Rounding

variable {F : Type} [FloatOps F] [Rounding F]

/-- Every coefficient is the rounded coefficient. -/
def Rounded (c : Perspective F) (q : Perspective ℚ) : Prop := ∀ k (hk : k < 8), Is c[k] (rnd F q[k])

/-- Corners with coordinates up to 32767. -/
def Within (r : Vector Point 4) : Prop := ∀ k (hk : k < 4), |r[k].x| ≤ 32767 ∧ |r[k].y| ≤ 32767

section
variable {r : Vector Point 4} {w : F} {W : Int}

/-- The denominators. -/
def wdenZ (r : Vector Point 4) (W : Int) : Int :=
  W * (r[2].x * r[3].y - r[3].x * r[2].y + (r[3].x - r[2].x) * r[1].y + r[1].x * (r[2].y - r[3].y))
def hdenZ (r : Vector Point 4) (W : Int) : Int :=
  W * (r[2].x * r[3].y + r[1].x * (r[2].y - r[3].y) - r[3].x * r[2].y + (r[3].x - r[2].x) * r[1].y)

theorem den_eq : hdenZ r W = wdenZ r W := by unfold hdenZ wdenZ; ring

theorem lt_eps {x : F} {n B : Int} (h : IntB x n B) : FloatOps.lt x FloatOps.epsilon = decide (n ≤ 0) := by
  rw [Rounding.lt h.1 Rounding.epsilon]
  rw [decide_eq_decide]
  constructor
  · intro h
    by_contra hn
    have : (1 : ℚ) ≤ n := by exact_mod_cast (by omega : 1 ≤ n)
    have : (1 : ℚ) / 2 ^ 52 < 1 := by norm_num
    linarith
  · intro h
    have : (n : ℚ) ≤ 0 := by exact_mod_cast h
    have : (0 : ℚ) < 1 / 2 ^ 52 := by norm_num
    linarith

/-- The exact coefficients. -/
def exactC (r : Vector Point 4) (W : Int) : Perspective ℚ :=
  let x0 := r[0].x
  let y0 := r[0].y
  let x1 := r[1].x
  let y1 := r[1].y
  let x2 := r[2].x
  let y2 := r[2].y
  let x3 := r[3].x
  let y3 := r[3].y
  #v[((x1 * (x2 * y3 - x3 * y2) + x0 * (-x2 * y3 + x3 * y2 + (x2 - x3) * y1) + x1 * (x3 - x2) * y0 : Int) : ℚ) / wdenZ r W,
    ((-(x0 * (x2 * y3 + x1 * (y2 - y3) - x2 * y1) - x1 * x3 * y2 + x2 * x3 * y1 + (x1 * x3 - x2 * x3) * y0) : Int) : ℚ) / hdenZ r W,
    x0,
    ((y0 * (x1 * (y3 - y2) - x2 * y3 + x3 * y2) + y1 * (x2 * y3 - x3 * y2) + x0 * y1 * (y2 - y3) : Int) : ℚ) / wdenZ r W,
    ((x0 * (y1 * y3 - y2 * y3) + x1 * y2 * y3 - x2 * y1 * y3 + y0 * (x3 * y2 - x1 * y2 + (x2 - x3) * y1) : Int) : ℚ) / hdenZ r W,
    y0,
    ((x1 * (y3 - y2) + x0 * (y2 - y3) + (x2 - x3) * y1 + (x3 - x2) * y0 : Int) : ℚ) / wdenZ r W,
    ((-x2 * y3 + x1 * y3 + x3 * y2 + x0 * (y1 - y2) - x3 * y1 + (x2 - x1) * y0 : Int) : ℚ) / hdenZ r W]

theorem create_cases (hr : Within r) (hw : IntB w W 200) :
    (wdenZ r W ≤ 0 → Perspective.create r w w = none) ∧
    (0 < wdenZ r W → ∃ c, Perspective.create r w w = some c ∧ Rounded c (exactC r W)) := by
  have X0 : IntB (FloatOps.ofInt r[0].x : F) r[0].x 32767 := .ofInt (hr 0 (by decide)).1 (by norm_num)
  have Y0 : IntB (FloatOps.ofInt r[0].y : F) r[0].y 32767 := .ofInt (hr 0 (by decide)).2 (by norm_num)
  have X1 : IntB (FloatOps.ofInt r[1].x : F) r[1].x 32767 := .ofInt (hr 1 (by decide)).1 (by norm_num)
  have Y1 : IntB (FloatOps.ofInt r[1].y : F) r[1].y 32767 := .ofInt (hr 1 (by decide)).2 (by norm_num)
  have X2 : IntB (FloatOps.ofInt r[2].x : F) r[2].x 32767 := .ofInt (hr 2 (by decide)).1 (by norm_num)
  have Y2 : IntB (FloatOps.ofInt r[2].y : F) r[2].y 32767 := .ofInt (hr 2 (by decide)).2 (by norm_num)
  have X3 : IntB (FloatOps.ofInt r[3].x : F) r[3].x 32767 := .ofInt (hr 3 (by decide)).1 (by norm_num)
  have Y3 : IntB (FloatOps.ofInt r[3].y : F) r[3].y 32767 := .ofInt (hr 3 (by decide)).2 (by norm_num)
  have WD := hw.mul ((((X2.mul Y3 (by norm_num)).sub (X3.mul Y2 (by norm_num)) (by norm_num)).add
    ((X3.sub X2 (by norm_num)).mul Y1 (by norm_num)) (by norm_num)).add (X1.mul (Y2.sub Y3 (by norm_num)) (by norm_num)) (by norm_num)) (by norm_num)
  have HD := hw.mul ((((X2.mul Y3 (by norm_num)).add (X1.mul (Y2.sub Y3 (by norm_num)) (by norm_num)) (by norm_num)).sub
    (X3.mul Y2 (by norm_num)) (by norm_num)).add ((X3.sub X2 (by norm_num)).mul Y1 (by norm_num)) (by norm_num)) (by norm_num)
  have lw := lt_eps WD
  have lh := lt_eps HD
  have eh := den_eq (r := r) (W := W)
  change FloatOps.lt _ _ = decide (wdenZ r W ≤ 0) at lw
  change FloatOps.lt _ _ = decide (hdenZ r W ≤ 0) at lh
  rw [eh] at lh
  constructor
  · intro h
    unfold Perspective.create
    refine if_pos ?_
    rw [Bool.or_eq_true]
    left
    exact lw.trans (decide_eq_true h)
  · intro h
    refine ⟨_, if_neg ?_, ?_⟩
    · rw [Bool.or_eq_true]
      rintro (e | e)
      · exact absurd ((lw.trans (decide_eq_false (by omega))).symm.trans e) (by decide)
      · exact absurd ((lh.trans (decide_eq_false (by omega))).symm.trans e) (by decide)
    · have hh : 0 < hdenZ r W := by omega
      intro k hk
      interval_cases k
      · exact ((((X1.mul ((X2.mul Y3 (by norm_num)).sub (X3.mul Y2 (by norm_num)) (by norm_num)) (by norm_num)).add
          (X0.mul (((X2.neg.mul Y3 (by norm_num)).add (X3.mul Y2 (by norm_num)) (by norm_num)).add
            ((X2.sub X3 (by norm_num)).mul Y1 (by norm_num)) (by norm_num)) (by norm_num)) (by norm_num)).add
          ((X1.mul (X3.sub X2 (by norm_num)) (by norm_num)).mul Y0 (by norm_num)) (by norm_num)).div WD h (by norm_num))
      · exact (((((X0.mul (((X2.mul Y3 (by norm_num)).add (X1.mul (Y2.sub Y3 (by norm_num)) (by norm_num)) (by norm_num)).sub
          (X2.mul Y1 (by norm_num)) (by norm_num)) (by norm_num)).sub ((X1.mul X3 (by norm_num)).mul Y2 (by norm_num)) (by norm_num)).add
          ((X2.mul X3 (by norm_num)).mul Y1 (by norm_num)) (by norm_num)).add
          (((X1.mul X3 (by norm_num)).sub (X2.mul X3 (by norm_num)) (by norm_num)).mul Y0 (by norm_num)) (by norm_num)).neg).div HD hh (by norm_num)
      · show Is (FloatOps.ofInt r[0].x : F) (rnd F ((r[0].x : Int) : ℚ))
        rw [rnd_int _ (X0.2.trans (by norm_num))]; exact X0.1
      · exact ((((Y0.mul (((X1.mul (Y3.sub Y2 (by norm_num)) (by norm_num)).sub (X2.mul Y3 (by norm_num)) (by norm_num)).add
          (X3.mul Y2 (by norm_num)) (by norm_num)) (by norm_num)).add
          (Y1.mul ((X2.mul Y3 (by norm_num)).sub (X3.mul Y2 (by norm_num)) (by norm_num)) (by norm_num)) (by norm_num)).add
          ((X0.mul Y1 (by norm_num)).mul (Y2.sub Y3 (by norm_num)) (by norm_num)) (by norm_num)).div WD h (by norm_num))
      · exact ((((X0.mul ((Y1.mul Y3 (by norm_num)).sub (Y2.mul Y3 (by norm_num)) (by norm_num)) (by norm_num)).add
          ((X1.mul Y2 (by norm_num)).mul Y3 (by norm_num)) (by norm_num)).sub ((X2.mul Y1 (by norm_num)).mul Y3 (by norm_num)) (by norm_num)).add
          (Y0.mul (((X3.mul Y2 (by norm_num)).sub (X1.mul Y2 (by norm_num)) (by norm_num)).add
            ((X2.sub X3 (by norm_num)).mul Y1 (by norm_num)) (by norm_num)) (by norm_num)) (by norm_num)).div HD hh (by norm_num)
      · show Is (FloatOps.ofInt r[0].y : F) (rnd F ((r[0].y : Int) : ℚ))
        rw [rnd_int _ (Y0.2.trans (by norm_num))]; exact Y0.1
      · exact ((((X1.mul (Y3.sub Y2 (by norm_num)) (by norm_num)).add (X0.mul (Y2.sub Y3 (by norm_num)) (by norm_num)) (by norm_num)).add
          ((X2.sub X3 (by norm_num)).mul Y1 (by norm_num)) (by norm_num)).add ((X3.sub X2 (by norm_num)).mul Y0 (by norm_num)) (by norm_num)).div
          WD h (by norm_num)
      · exact ((((((X2.neg.mul Y3 (by norm_num)).add (X1.mul Y3 (by norm_num)) (by norm_num)).add (X3.mul Y2 (by norm_num)) (by norm_num)).add
          (X0.mul (Y1.sub Y2 (by norm_num)) (by norm_num)) (by norm_num)).sub (X3.mul Y1 (by norm_num)) (by norm_num)).add
          ((X2.sub X1 (by norm_num)).mul Y0 (by norm_num)) (by norm_num)).div HD hh (by norm_num)

/-- The transform computed with rounding: there is one exactly if there is one in exact arithmetic, and its coefficients are the exact ones,
each rounded once. -/
theorem create_rounded (hr : Within r) (hw : IntB w W 200) :
    (Perspective.create r (W : ℚ) (W : ℚ) = none → Perspective.create r w w = none) ∧
    ∀ q, Perspective.create r (W : ℚ) (W : ℚ) = some q → ∃ c, Perspective.create r w w = some c ∧ Rounded c q := by
  obtain ⟨f1, f2⟩ := create_cases hr hw
  obtain ⟨q1, q2⟩ := create_cases (F := ℚ) (w := (W : ℚ)) hr ⟨rfl, hw.2⟩
  rcases le_or_gt (wdenZ r W) 0 with h | h
  · rw [q1 h]
    exact ⟨fun _ => f1 h, fun q e => by cases e⟩
  · obtain ⟨q, e, hq⟩ := q2 h
    rw [e]
    refine ⟨fun e => (by cases e), ?_⟩
    rintro q' e'
    cases e'
    obtain ⟨c, e1, e2⟩ := f2 h
    refine ⟨c, e1, ?_⟩
    have : q = exactC r W := Vector.ext fun k hk => hq k hk
    rw [this]; exact e2

end

end Rqrr
