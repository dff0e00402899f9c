import Verif.Proofs.Simulation
import Verif.Proofs.Images
import Verif.Spec.Regions

/-!
# Images packed into a number

For the evaluation of the program on given images by the kernel, which is fast with large numbers and slow with arrays.
-/

namespace Rqrr

open Spec ImageBuffer LawfulImage

/-- The pixels of an image, eight bits each. Accesses outside of the image diverge. -/
structure Packed where
  w : Nat
  h : Nat
  px : Nat

/-- A pixel. -/
def Packed.byte (px k : Nat) : Byte := BitVec.ofNat 8 (px >>> (8 * k))

/-- Changing a pixel. -/
def Packed.change (px k : Nat) (v : Byte) : Nat := px ^^^ ((Packed.byte px k ^^^ v).toNat <<< (8 * k))

instance : ImageBuffer Packed where
  width b := b.w
  height b := b.h
  get_pixel b x y := if x < b.w ∧ y < b.h then .ok (Packed.byte b.px (y * b.w + x)) else .error .diverge
  set_pixel b x y v := if x < b.w ∧ y < b.h then .ok { b with px := Packed.change b.px (y * b.w + x) v } else .error .diverge

theorem Packed.byte_change (px k k' : Nat) (v : Byte) : Packed.byte (Packed.change px k v) k' = if k' = k then v else Packed.byte px k' := by
  apply BitVec.eq_of_getLsbD_eq
  intro b hb
  unfold Packed.change
  rw [Packed.byte, BitVec.getLsbD_ofNat, Nat.testBit_shiftRight, Nat.testBit_xor, Nat.testBit_shiftLeft]
  by_cases e : k' = k
  · subst e
    rw [if_pos rfl, decide_eq_true hb, Bool.true_and, show 8 * k' + b - 8 * k' = b by omega, decide_eq_true (show 8 * k' + b ≥ 8 * k' by omega),
      Bool.true_and, BitVec.toNat_xor, Nat.testBit_xor]
    unfold Packed.byte
    rw [BitVec.testBit_toNat, BitVec.testBit_toNat, BitVec.getLsbD_ofNat, decide_eq_true hb, Bool.true_and, Nat.testBit_shiftRight]
    cases px.testBit (8 * k' + b) <;> cases v.getLsbD b <;> rfl
  · rw [if_neg e]
    unfold Packed.byte
    rw [BitVec.getLsbD_ofNat, Nat.testBit_shiftRight]
    by_cases hlt : k' < k
    · rw [decide_eq_false (show ¬ 8 * k' + b ≥ 8 * k by omega)]
      simp
    · have : (Packed.byte px k ^^^ v).toNat.testBit (8 * k' + b - 8 * k) = false := by
        rw [BitVec.testBit_toNat]
        exact BitVec.getLsbD_of_ge _ _ (by omega)
      unfold Packed.byte at this
      rw [this]
      simp

instance : LawfulImage Packed where
  Valid _ := True
  view b x y := Packed.byte b.px (y * b.w + x)
  get_ok _ hx hy := if_pos ⟨hx, hy⟩
  set_ok {s x y} v _ hx hy := by
    refine ⟨_, if_pos ⟨hx, hy⟩, trivial, rfl, rfl, fun x' y' hx' hy' => ?_⟩
    show Packed.byte (Packed.change s.px (y * s.w + x) v) (y' * s.w + x') = _
    rw [Packed.byte_change]
    by_cases e : x' = x ∧ y' = y
    · rw [if_pos e, if_pos ((pixel_index_inj (w := s.w) hx hx').2 e)]
    · rw [if_neg e, if_neg fun e' => e ((pixel_index_inj (w := s.w) hx hx').1 e')]

instance : GuardedImage Packed where
  get_out h := if_neg h
  set_out _ h := if_neg h

/-- The number for `n` pixels. -/
def Packed.pack (n : Nat) (g : Nat → Byte) : Nat := (List.range n).foldl (fun px k => Packed.change px k (g k)) 0

theorem Packed.byte_pack (g : Nat → Byte) (k : Nat) : ∀ n, Packed.byte (Packed.pack n g) k = if k < n then g k else 0
  | 0 => by
    rw [if_neg (Nat.not_lt_zero k)]
    show BitVec.ofNat 8 (0 >>> _) = 0
    rw [Nat.zero_shiftRight]
    rfl
  | n + 1 => by
    unfold Packed.pack
    rw [List.range_succ, List.foldl_append]
    show Packed.byte (Packed.change (Packed.pack n g) n (g n)) k = _
    rw [Packed.byte_change, Packed.byte_pack g k n]
    by_cases h : k = n
    · rw [if_pos h, if_pos (by omega), h]
    · rw [if_neg h]
      by_cases h' : k < n
      · rw [if_pos h', if_pos (by omega)]
      · rw [if_neg h', if_neg (by omega)]

/-- A bitmap, packed. -/
def Packed.bitmap (w h : Nat) (f : Nat → Nat → Bool) : PreparedImage Packed :=
  { buffer := { w := w, h := h, px := Packed.pack (h * w) fun k => if f (k % w) (k / w) then 1 else 0 }, cache := .new 251 }

/-- It has the pixels of the image made of the bitmap. -/
theorem Packed.same {w h : Nat} {f : Nat → Nat → Bool} {img : PreparedImage BasicImageBuffer} (hf : Fresh img) (hw : width img.buffer = w)
    (hh : height img.buffer = h) (hp : ∀ x y, x < w → y < h → (view img.buffer x y = 1 ↔ f x y = true)) : SameImage (Packed.bitmap w h f) img := by
  refine ⟨⟨trivial, hf.valid, hw.symm, hh.symm, fun x y hx hy => ?_⟩, hf.cache.symm⟩
  have hx : x < w := hx
  have hy : y < h := hy
  show Packed.byte (Packed.pack (h * w) _) (y * w + x) = _
  have h1 : y * w + x < h * w := by
    have := Nat.mul_le_mul_right w (show y + 1 ≤ h from hy)
    rw [Nat.add_mul] at this
    omega
  rw [Packed.byte_pack, if_pos h1]
  have e1 : (y * w + x) % w = x := by rw [Nat.mul_comm, Nat.mul_add_mod]; exact Nat.mod_eq_of_lt hx
  have e2 : (y * w + x) / w = y := by
    rw [Nat.mul_comm, Nat.mul_add_div (by omega), Nat.div_eq_of_lt hx]; omega
  rw [e1, e2]
  have b := hf.bw x y (by rw [hw]; exact hx) (by rw [hh]; exact hy)
  have := hp x y hx hy
  by_cases hfx : f x y = true
  · rw [if_pos hfx, this.2 hfx]
  · rw [if_neg hfx]
    rcases b with b | b
    · exact b.symm
    · exact absurd (this.1 b) hfx

end Rqrr
