import Verif.Spec.Image
import Mathlib.Tactic.Ring

/-!
# The image buffers satisfy the laws
-/

namespace Rqrr

theorem pixel_index_lt {w h x y : Nat} (hx : x < w) (hy : y < h) : y * w + x < w * h := by
  calc y * w + x < y * w + w := by omega
    _ = (y + 1) * w := by ring
    _ ≤ h * w := Nat.mul_le_mul_right _ hy
    _ = w * h := Nat.mul_comm _ _

theorem pixel_index_inj {w x y x' y' : Nat} (hx : x < w) (hx' : x' < w) : y' * w + x' = y * w + x ↔ x' = x ∧ y' = y := by
  constructor
  · intro h
    have h1 := congrArg (· % w) h
    have h2 := congrArg (· / w) h
    rw [Nat.mul_comm y', Nat.mul_comm y, Nat.mul_add_mod, Nat.mul_add_mod, Nat.mod_eq_of_lt hx', Nat.mod_eq_of_lt hx] at h1
    rw [Nat.mul_comm y', Nat.mul_comm y, Nat.mul_add_div (by omega), Nat.mul_add_div (by omega), Nat.div_eq_of_lt hx',
      Nat.div_eq_of_lt hx] at h2
    exact ⟨h1, by omega⟩
  · rintro ⟨rfl, rfl⟩; rfl

instance : LawfulImage BasicImageBuffer where
  Valid b := b.pixels.size = b.w * b.h
  view b x y := b.pixels.getD (y * b.w + x) 0
  get_ok {s x y} hv hx hy := by
    have := pixel_index_lt hx hy
    show (if h : y * s.w + x < s.pixels.size then _ else _) = _
    have hi : y * s.w + x < s.pixels.size := by rw [hv]; exact this
    rw [dif_pos hi, Array.getD_eq_getD_getElem?, Array.getElem?_eq_getElem hi]
    rfl
  set_ok {s x y} v hv hx hy := by
    have hi : y * s.w + x < s.pixels.size := by rw [hv]; exact pixel_index_lt hx hy
    refine ⟨{ s with pixels := s.pixels.set (y * s.w + x) v }, ?_, ?_, rfl, rfl, ?_⟩
    · show (if h : y * s.w + x < s.pixels.size then _ else _) = _
      rw [dif_pos hi]
    · show (s.pixels.set _ v).size = _
      rw [Array.size_set]; exact hv
    · intro x' y' hx' hy'
      show (s.pixels.set (y * s.w + x) v).getD (y' * s.w + x') 0 = _
      rw [Array.getD_eq_getD_getElem?, Array.getElem?_set, Array.getD_eq_getD_getElem?]
      by_cases e : x' = x ∧ y' = y
      · rw [if_pos e, if_pos ((pixel_index_inj (w := s.w) hx hx').2 e).symm]; rfl
      · rw [if_neg e, if_neg fun e' => e ((pixel_index_inj (w := s.w) hx hx').1 e'.symm)]

instance : LawfulImage GrayImage where
  Valid b := b.pixels.size = b.w * b.h ∧ b.w < 2 ^ 32 ∧ b.h < 2 ^ 32
  view b x y := b.pixels.getD (y * b.w + x) 0
  get_ok {s x y} hv hx hy := by
    obtain ⟨hv, hw, hh⟩ := hv
    have hx' : x < s.w := hx
    have hy' : y < s.h := hy
    have hi : y * s.w + x < s.pixels.size := by rw [hv]; exact pixel_index_lt hx hy
    show (if x % 2 ^ 32 < s.w ∧ y % 2 ^ 32 < s.h then
      if h : y % 2 ^ 32 * s.w + x % 2 ^ 32 < s.pixels.size then _ else _ else _) = _
    simp only [Nat.mod_eq_of_lt (show x < 2 ^ 32 by omega), Nat.mod_eq_of_lt (show y < 2 ^ 32 by omega)]
    rw [if_pos ⟨hx', hy'⟩, dif_pos hi, Array.getD_eq_getD_getElem?, Array.getElem?_eq_getElem hi]
    rfl
  set_ok {s x y} v hv hx hy := by
    obtain ⟨hv, hw, hh⟩ := hv
    have hx0 : x < s.w := hx
    have hy0 : y < s.h := hy
    have hi : y * s.w + x < s.pixels.size := by rw [hv]; exact pixel_index_lt hx hy
    refine ⟨{ s with pixels := s.pixels.set (y * s.w + x) v }, ?_, ⟨?_, hw, hh⟩, rfl, rfl, ?_⟩
    · show (if x % 2 ^ 32 < s.w ∧ y % 2 ^ 32 < s.h then
        if h : y % 2 ^ 32 * s.w + x % 2 ^ 32 < s.pixels.size then _ else _ else _) = _
      simp only [Nat.mod_eq_of_lt (show x < 2 ^ 32 by omega), Nat.mod_eq_of_lt (show y < 2 ^ 32 by omega)]
      rw [if_pos ⟨hx0, hy0⟩, dif_pos hi]
    · show (s.pixels.set _ v).size = _
      rw [Array.size_set]; exact hv
    · intro x' y' hx' hy'
      show (s.pixels.set (y * s.w + x) v).getD (y' * s.w + x') 0 = _
      rw [Array.getD_eq_getD_getElem?, Array.getElem?_set, Array.getD_eq_getD_getElem?]
      by_cases e : x' = x ∧ y' = y
      · rw [if_pos e, if_pos ((pixel_index_inj (w := s.w) hx hx').2 e).symm]; rfl
      · rw [if_neg e, if_neg fun e' => e ((pixel_index_inj (w := s.w) hx hx').1 e'.symm)]

end Rqrr
