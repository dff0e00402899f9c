import Verif.Spec.Render
import Verif.Props.Prepare

/-!
# Drawings as bitmaps
-/

namespace Rqrr

open Spec ImageBuffer

namespace Spec.Placement

variable {P : Placement} {n : Nat} {M : Nat → Nat → Bool}

/-- The pixels of a drawing are those of its dark modules. -/
theorem dark_iff (hP : IsAxis P.right) {x y : Nat} : P.dark n M x y = true ↔
    ∃ i j : Nat, i < n * P.scale ∧ j < n * P.scale ∧ P.pixel i j = ⟨x, y⟩ ∧ M (j / P.scale) (i / P.scale) = true := by
  unfold dark
  dsimp only
  rw [Bool.and_eq_true, decide_eq_true_iff]
  constructor
  · rintro ⟨⟨h1, h2, h3, h4⟩, h⟩
    refine ⟨_, _, by omega, by omega, ?_, h⟩
    rw [Int.toNat_of_nonneg h1, Int.toNat_of_nonneg h3]
    unfold pixel
    rw [Point.mk.injEq]
    rcases hP with h | h | h | h <;> rw [h] <;> dsimp only <;> constructor <;> ring
  · rintro ⟨i, j, hi, hj, hp, h⟩
    unfold pixel at hp
    rw [Point.mk.injEq] at hp
    have ei : ((x : Int) - P.corner.x) * P.right.x + (y - P.corner.y) * P.right.y = i := by
      rw [← hp.1, ← hp.2]
      rcases hP with h | h | h | h <;> rw [h] <;> dsimp only <;> ring
    have ej : ((y : Int) - P.corner.y) * P.right.x - (x - P.corner.x) * P.right.y = j := by
      rw [← hp.1, ← hp.2]
      rcases hP with h | h | h | h <;> rw [h] <;> dsimp only <;> ring
    rw [ei, ej]
    refine ⟨⟨by omega, by exact_mod_cast hi, by omega, by exact_mod_cast hj⟩, ?_⟩
    rw [Int.toNat_natCast, Int.toNat_natCast]
    exact h

/-- The pixels of a drawing that fits are pixels of the image. -/
theorem Fits.inside {w h : Nat} (hF : P.Fits w h n) {i j : Nat} (hi : i < n * P.scale) (hj : j < n * P.scale) :
    0 ≤ (P.pixel i j).x ∧ (P.pixel i j).x < w ∧ (P.pixel i j).x ≤ 10000 ∧ 0 ≤ (P.pixel i j).y ∧ (P.pixel i j).y < h ∧
      (P.pixel i j).y ≤ 10000 := by
  have hf := hF.first
  have hl := hF.last
  unfold pixel at hl ⊢
  have hN : ∃ N : Nat, N = n * P.scale := ⟨_, rfl⟩
  obtain ⟨N, hN⟩ := hN
  have cN : ((n : Int) * P.scale) = (N : Int) := by rw [hN]; push_cast; rfl
  rw [cN] at hl
  rw [← hN] at hi hj
  rcases hF.axis with h | h | h | h <;> rw [h] at hl ⊢ <;> dsimp only at hl ⊢ <;> omega

end Spec.Placement

/-- A bitmap of a drawing renders the matrix. -/
theorem pictures_bitmap {w h n : Nat} {M : Nat → Nat → Bool} {P : Placement} (hF : P.Fits w h n) {img : PreparedImage BasicImageBuffer}
    (hw : width img.buffer = w) (hh : height img.buffer = h)
    (hv : ∀ x y, x < w → y < h → (LawfulImage.view img.buffer x y = 1 ↔ P.dark n M x y = true)) : Pictures img n M P := by
  refine ⟨hF.axis, hF.scale, ?_, ?_⟩
  · intro i j hi hj
    rw [hw, hh]
    exact hF.inside hi hj
  · rintro ⟨x, y⟩
    rw [← Placement.dark_iff hF.axis]
    unfold IsBlack HasColor
    dsimp only
    rw [hw, hh]
    constructor
    · rintro ⟨h1, h2, h3⟩
      exact (hv x y h1 h2).1 h3
    · intro hd
      have hxy : x < w ∧ y < h := by
        obtain ⟨i, j, hi, hj, hp, -⟩ := (Placement.dark_iff hF.axis).1 hd
        have := hF.inside hi hj
        rw [hp] at this
        dsimp only at this
        omega
      exact ⟨hxy.1, hxy.2, (hv x y hxy.1 hxy.2).2 hd⟩

end Rqrr
