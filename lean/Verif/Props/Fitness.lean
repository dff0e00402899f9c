import Verif.Proofs.Fitness
import Verif.Proofs.Cells
import Verif.Proofs.Affine
import Verif.Props.Detect

/-!
# C56: what the fitness of a perspective transform measures
-/

namespace Rqrr

open Spec ImageBuffer

variable {S : Type} [ImageBuffer S] [LawfulImage S] {F : Type} [FloatOps F]

/-- C56: For every version but 21, the fitness of a transform is the sum, over the modules of the timing, finder and alignment patterns,
of the nine samples within the module, counted positively where ISO/IEC 18004 has a dark module and negatively where it has a light one.
It does not depend on what regions have been claimed before. It is at most nine times the number of these modules, and that maximum
is reached exactly by the transforms that take all samples to pixels of the right colour. -/
theorem C56_fitness {img0 img : PreparedImage S} {claims : Pos → Option Claim} (h0 : Fresh img0) (h : History img0 claims img)
    (hw : width img0.buffer ≤ 2 ^ 31) (hh : height img0.buffer ≤ 2 ^ 31) {c : Perspective F} {v : Nat} (h1 : 1 ≤ v) (h40 : v ≤ 40)
    (h21 : v ≠ 21) {pt : Nat → Nat → F → F → Point} (hp : ∀ y x, y < side v → x < side v → SamplesAt c x y (pt y x)) :
    ∃ score, fitness_all img c (side v) = .ok score ∧
      score = ((patternModules v).map fun m => if m.2.2 then moduleScore img0 (pt m.1 m.2.1) else -moduleScore img0 (pt m.1 m.2.1)).sum ∧
      score ≤ 9 * (patternModules v).length ∧
      (score = 9 * (patternModules v).length ↔ ∀ m ∈ patternModules v, ∀ ou ∈ sampleOffsets F, ∀ ov ∈ sampleOffsets F,
        Inside img0 (pt m.1 m.2.1 ou ov) ∧ (BlackAt img0 (pt m.1 m.2.1 ou ov) ↔ m.2.2 = true)) := by
  have e := fitness_all_sum (f := fun x y => moduleScore img0 (pt y.toNat x.toNat)) h1 h40 h21 (img := img) (p := c) (by
    intro x y hx hy
    exact fitness_cell_ok h0 h hw hh (hp y x hy hx))
  refine ⟨_, e, rfl, ?_⟩
  have hr : ∀ m ∈ patternModules v, -9 ≤ moduleScore img0 (pt m.1 m.2.1) ∧ moduleScore img0 (pt m.1 m.2.1) ≤ 9 := fun m _ =>
    ⟨(moduleScore_le img0 _).1, (moduleScore_le img0 _).2.1⟩
  obtain ⟨a, b⟩ := agreement_le (f := fun x y => moduleScore img0 (pt y.toNat x.toNat)) (l := patternModules v) hr
  refine ⟨a, b.trans ?_⟩
  refine forall_congr' fun m => forall_congr' fun _ => ?_
  obtain ⟨-, -, e9, e9'⟩ := moduleScore_le img0 (pt m.1 m.2.1)
  show moduleScore img0 (pt m.1 m.2.1) = _ ↔ _
  cases m.2.2
  · rw [if_neg (by decide), e9']
    simp
  · rw [if_pos rfl, e9]
    simp

/-! ### A concrete case: a finder pattern of 9 by 9 pixels, looked at as if it were the first 9 by 9 modules of a version 1 symbol -/

theorem lit31 : (FloatOps.lit 3 1 : ℚ) = 3 / 10 := by show ((3 : Nat) : ℚ) / 10 ^ 1 = 3 / 10; norm_num
theorem lit51 : (FloatOps.lit 5 1 : ℚ) = 1 / 2 := by show ((5 : Nat) : ℚ) / 10 ^ 1 = 1 / 2; norm_num
theorem lit71 : (FloatOps.lit 7 1 : ℚ) = 7 / 10 := by show ((7 : Nat) : ℚ) / 10 ^ 1 = 7 / 10; norm_num

theorem offsets_range {o : ℚ} (ho : o ∈ sampleOffsets ℚ) : 3 / 10 ≤ o ∧ o ≤ 7 / 10 := by
  unfold sampleOffsets at ho
  rw [lit31, lit51, lit71] at ho
  simp only [List.mem_cons, List.not_mem_nil, or_false] at ho
  rcases ho with rfl | rfl | rfl <;> norm_num

/-- A transform with moderate coefficients has its samples in range. -/
theorem affine_samples {ex fx px ey fy py : ℚ} {x y : Nat} (hx : x < 200) (hy : y < 200)
    (b1 : |ex| ≤ 100000) (b2 : |fx| ≤ 100000) (b3 : |px| ≤ 100000) (b4 : |ey| ≤ 100000) (b5 : |fy| ≤ 100000) (b6 : |py| ≤ 100000) :
    SamplesAt (affine ex fx px ey fy py) x y fun ou ov =>
      ⟨nearest (ex * (x + ou) + fx * (y + ov) + px), nearest (ey * (x + ou) + fy * (y + ov) + py)⟩ := by
  intro ou hu ov hv
  obtain ⟨u1, u2⟩ := offsets_range hu
  obtain ⟨v1, v2⟩ := offsets_range hv
  have hx' : (x : ℚ) ≤ 200 := by exact_mod_cast hx.le
  have hy' : (y : ℚ) ≤ 200 := by exact_mod_cast hy.le
  have hx0 : (0 : ℚ) ≤ x := by positivity
  have hy0 : (0 : ℚ) ≤ y := by positivity
  have mulb : ∀ a b : ℚ, |a| ≤ 100000 → 0 ≤ b → b ≤ 201 → -20100000 ≤ a * b ∧ a * b ≤ 20100000 := by
    intro a b ha hb hb'
    have h1 : |a * b| ≤ 100000 * 201 := by
      rw [abs_mul, abs_of_nonneg hb]
      exact mul_le_mul ha hb' hb (by norm_num)
    have := abs_le.1 h1
    constructor <;> linarith [this.1, this.2]
  have m1 := mulb ex (x + ou) b1 (by linarith) (by linarith)
  have m2 := mulb fx (y + ov) b2 (by linarith) (by linarith)
  have m3 := mulb ey (x + ou) b4 (by linarith) (by linarith)
  have m4 := mulb fy (y + ov) b5 (by linarith) (by linarith)
  have m5 := abs_le.1 b3
  have m6 := abs_le.1 b6
  have k1 := Exact.nearest_mem (x := ex * (x + ou) + fx * (y + ov) + px) (lo := -2000000000) (hi := 2000000000)
    (by push_cast; linarith) (by push_cast; linarith)
  have k2 := Exact.nearest_mem (x := ey * (x + ou) + fy * (y + ov) + py) (lo := -2000000000) (hi := 2000000000)
    (by push_cast; linarith) (by push_cast; linarith)
  refine ⟨affine_map (u := x + ou) (v := y + ov) (by linarith) (by linarith) (by linarith) (by linarith), ?_⟩
  dsimp only
  omega

/-- The hypotheses are met, and the maximum is not reached: most of the symbol is outside of the image. -/
example : ∃ score, fitness_all finderImage (affine 1 0 (1 / 2) 0 1 (1 / 2)) 21 = .ok score ∧ score < 9 * (patternModules 1).length := by
  obtain ⟨score, e, -, hle, hiff⟩ := C56_fitness (v := 1) finderImage_fresh .start (show 9 ≤ 2 ^ 31 by decide) (show 9 ≤ 2 ^ 31 by decide)
    (by decide) (by decide) (by decide) (c := affine 1 0 (1 / 2) 0 1 (1 / 2))
    (pt := fun y x ou ov => ⟨nearest (1 * (x + ou) + 0 * (y + ov) + 1 / 2), nearest (0 * (x + ou) + 1 * (y + ov) + 1 / 2)⟩)
    (fun y x hy hx => affine_samples (by unfold side at hx; omega) (by unfold side at hy; omega) (by norm_num) (by norm_num) (by norm_num)
      (by norm_num) (by norm_num) (by norm_num))
  refine ⟨score, e, lt_of_le_of_ne hle fun heq => ?_⟩
  have hm : (0, 20, true) ∈ patternModules 1 := by decide +kernel
  have := (hiff.1 heq _ hm (FloatOps.lit 5 1) (by simp [sampleOffsets]) (FloatOps.lit 5 1) (by simp [sampleOffsets])).1.2.1
  have e' : nearest ((1 : ℚ) * ((20 : Nat) + FloatOps.lit 5 1) + 0 * ((0 : Nat) + FloatOps.lit 5 1) + 1 / 2) = 21 := by
    rw [lit51]
    exact nearest_eq (by norm_num) (by norm_num)
  have h9 : nearest ((1 : ℚ) * ((20 : Nat) + FloatOps.lit 5 1) + 0 * ((0 : Nat) + FloatOps.lit 5 1) + 1 / 2) < (9 : Nat) := this
  rw [e'] at h9
  omega

/-- The number of modules looked at: 14 + 147 in version 1; 8 + 25 more in version 2. -/
example : (patternModules 1).length = 161 ∧ (patternModules 2).length = 194 := by decide +kernel

end Rqrr
