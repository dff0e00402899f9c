import Verif.Proofs.BoxGroup
import Verif.Proofs.FramedMeasure

/-!
# Locating the grid of a drawing with modules of unequal sizes
-/

namespace Rqrr

open Spec ImageBuffer Spec.Placement Rounding FloatOps

variable {F : Type} [FloatOps F] [Rounding F]

/-- Turning a capstone puts the corner of the symbol first. -/
theorem rotate_boxed {P : Placement} (h : IsAxis P.right) {i j m l : Int} (hm : 0 < m) (hl : 0 < l) {cap : CapStone F} (hc : BoxedCap P i j m l cap)
    {h0 : Point} (hh : Near h0) {hd : Point} (hy : Near hd) (hpc : 0 < perColumn P hd) (hpr : 0 < perRow P hd)
    (hn : ∀ u ∈ [i, i + m], ∀ v ∈ [j, j + l], Near (P.pixel u v)) :
    ∃ c, rotate_capstone cap h0 hd = .ok { cap with corners := P.rect i j m l, c := c } ∧
      Rounded c (P.mesh i j ((m : ℚ) / 7) ((l : ℚ) / 7)) := by
  have key : ∀ u ∈ [i, i + m], ∀ v ∈ [j, j + l], rotate_key h0 hd (P.pixel u v) =
      .ok ((P.corner.x - h0.x) * -hd.y + (P.corner.y - h0.y) * hd.x + (perColumn P hd * u + perRow P hd * v)) := by
    intro u hu v hv
    have := hn u hu v hv
    rw [rotate_key_ok hh.1 hh.2 hy.1 hy.2 this.1 this.2, key_eq]
  generalize (P.corner.x - h0.x) * -hd.y + (P.corner.y - h0.y) * hd.x = κ at key
  have key0 := key i (by simp) j (by simp)
  have key1 := key (i + m) (by simp) j (by simp)
  have key2 := key (i + m) (by simp) (j + l) (by simp)
  have key3 := key i (by simp) (j + l) (by simp)
  obtain ⟨c, create, hr⟩ := create_rect_rounded (F := F) h i j hm hl lit7_int (by norm_num) hc.within
  refine ⟨c, ?_, by exact_mod_cast hr⟩
  have hm1 : (0 : Int) < perColumn P hd * m := mul_pos (by assumption) (by assumption)
  have hm2 : (0 : Int) < perRow P hd * l := mul_pos (by assumption) (by assumption)
  rw [mul_add, add_right_comm] at key1
  rw [mul_add, mul_add, add_add_add_comm] at key2
  rw [mul_add (perRow P hd), ← add_assoc (perColumn P hd * i)] at key3
  generalize perColumn P hd * m = D at *
  generalize perRow P hd * l = E at *
  generalize perColumn P hd * i + perRow P hd * j = A at *
  obtain ⟨k, hk, e⟩ := hc.corners
  unfold rotate_capstone
  unfold Spec.Placement.rect at e create ⊢
  obtain ⟨r0, r1, r2, r3⟩ := rotate_get (P.pixel i j) (P.pixel (i + m) j)
    (P.pixel (i + m) (j + l)) (P.pixel i (j + l))
  have : k = 0 ∨ k = 1 ∨ k = 2 ∨ k = 3 := by omega
  rcases this with rfl | rfl | rfl | rfl
  · rw [r0] at e
    rw [e]
    show (rotate_key h0 hd (P.pixel i j) >>= _) = _
    rw [key0, Run.ok_bind]
    show (rotate_key h0 hd (P.pixel (i + m) j) >>= _) = _
    rw [key1, Run.ok_bind]
    show (rotate_key h0 hd (P.pixel (i + m) (j + l)) >>= _) = _
    rw [key2, Run.ok_bind]
    show (rotate_key h0 hd (P.pixel i (j + l)) >>= _) = _
    rw [key3, Run.ok_bind]
    rw [if_neg (show ¬ κ + (A + D) < κ + A by omega)]
    dsimp only
    rw [if_neg (show ¬ κ + (A + (D + E)) < κ + A by omega)]
    dsimp only
    rw [if_neg (show ¬ κ + (A + E) < κ + A by omega), r0, create]
    rfl
  · rw [r1] at e
    rw [e]
    show (rotate_key h0 hd (P.pixel (i + m) j) >>= _) = _
    rw [key1, Run.ok_bind]
    show (rotate_key h0 hd (P.pixel (i + m) (j + l)) >>= _) = _
    rw [key2, Run.ok_bind]
    show (rotate_key h0 hd (P.pixel i (j + l)) >>= _) = _
    rw [key3, Run.ok_bind]
    show (rotate_key h0 hd (P.pixel i j) >>= _) = _
    rw [key0, Run.ok_bind]
    rw [if_neg (show ¬ κ + (A + (D + E)) < κ + (A + D) by omega)]
    dsimp only
    by_cases hlt : κ + (A + E) < κ + (A + D)
    · rw [if_pos hlt]
      dsimp only
      rw [if_pos (show κ + A < κ + (A + E) by omega), ← r1, rotate_rotate, r0, create]
      rfl
    · rw [if_neg hlt]
      dsimp only
      rw [if_pos (show κ + A < κ + (A + D) by omega), ← r1, rotate_rotate, r0, create]
      rfl
  · rw [r2] at e
    rw [e]
    show (rotate_key h0 hd (P.pixel (i + m) (j + l)) >>= _) = _
    rw [key2, Run.ok_bind]
    show (rotate_key h0 hd (P.pixel i (j + l)) >>= _) = _
    rw [key3, Run.ok_bind]
    show (rotate_key h0 hd (P.pixel i j) >>= _) = _
    rw [key0, Run.ok_bind]
    show (rotate_key h0 hd (P.pixel (i + m) j) >>= _) = _
    rw [key1, Run.ok_bind]
    rw [if_pos (show κ + (A + E) < κ + (A + (D + E)) by omega)]
    dsimp only
    rw [if_pos (show κ + A < κ + (A + E) by omega)]
    dsimp only
    rw [if_neg (show ¬ κ + (A + D) < κ + A by omega), ← r2, rotate_rotate, r0, create]
    rfl
  · rw [r3] at e
    rw [e]
    show (rotate_key h0 hd (P.pixel i (j + l)) >>= _) = _
    rw [key3, Run.ok_bind]
    show (rotate_key h0 hd (P.pixel i j) >>= _) = _
    rw [key0, Run.ok_bind]
    show (rotate_key h0 hd (P.pixel (i + m) j) >>= _) = _
    rw [key1, Run.ok_bind]
    show (rotate_key h0 hd (P.pixel (i + m) (j + l)) >>= _) = _
    rw [key2, Run.ok_bind]
    rw [if_pos (show κ + A < κ + (A + E) by omega)]
    dsimp only
    rw [if_neg (show ¬ κ + (A + D) < κ + A by omega)]
    dsimp only
    rw [if_neg (show ¬ κ + (A + (D + E)) < κ + A by omega), ← r3, rotate_rotate, r0, create]
    rfl

end Rqrr
