import Verif.Proofs.Simulation
import Verif.Props.Pipeline

/-!
# C71: the image buffer does not matter
-/

namespace Rqrr

open Spec ImageBuffer LawfulImage

/-- An image as a function, where accesses outside of it diverge. -/
structure Table where
  w : Nat
  h : Nat
  px : Nat → Nat → Byte

instance : ImageBuffer Table where
  width b := b.w
  height b := b.h
  get_pixel b x y := if x < b.w ∧ y < b.h then .ok (b.px x y) else .error .diverge
  set_pixel b x y v := if x < b.w ∧ y < b.h then .ok { b with px := fun x' y' => if x' = x ∧ y' = y then v else b.px x' y' } else .error .diverge

instance : LawfulImage Table where
  Valid _ := True
  view b := b.px
  get_ok _ hx hy := if_pos ⟨hx, hy⟩
  set_ok _ _ hx hy := ⟨_, if_pos ⟨hx, hy⟩, trivial, rfl, rfl, fun _ _ _ _ => rfl⟩

instance : GuardedImage Table where
  get_out h := if_neg h
  set_out _ h := if_neg h

variable {S T : Type} [ImageBuffer S] [LawfulImage S] [ImageBuffer T] [LawfulImage T]

/-- The pixels of a buffer. -/
def tableOf (s : S) : Table := { w := width s, h := height s, px := view s }

theorem table_same {s : S} {t : T} (h : SamePixels s t) : SamePixels (tableOf s) t :=
  ⟨trivial, h.valid', h.width, h.height, h.view⟩

theorem same_refl {s : S} (h : Valid s) : SamePixels s s := ⟨h, h, rfl, rfl, fun _ _ _ _ => rfl⟩

/-- Two runs that cannot diverge. -/
theorem Alike.settled {α β γ : Type} {R : α → β → Prop} {Q : α → γ → Prop} {x : Run α} {y : Run β} {z : Run γ} (h : Alike R x y) (h' : Alike Q x z)
    (hx : x ≠ .error .diverge) : (∃ a b c, x = .ok a ∧ y = .ok b ∧ z = .ok c ∧ R a b ∧ Q a c) ∨ ∃ e, x = .error e ∧ y = .error e ∧ z = .error e := by
  rcases h with h | ⟨a, b, e1, e2, h⟩ | ⟨e, e1, e2⟩
  · exact absurd h hx
  · rcases h' with h' | ⟨a', c, e3, e4, h'⟩ | ⟨e, e3, e4⟩
    · exact absurd h' hx
    · rw [e1] at e3
      injection e3 with e3
      subst e3
      exact .inl ⟨a, b, c, e1, e2, e4, h, h'⟩
    · rw [e1] at e3; cases e3
  · rcases h' with h' | ⟨a', c, e3, e4, h'⟩ | ⟨e', e3, e4⟩
    · exact absurd h' hx
    · rw [e1] at e3; cases e3
    · rw [e1] at e3
      injection e3 with e3
      subst e3
      exact .inr ⟨e, e1, e2, e4⟩

theorem pixels_trans {U : Type} [ImageBuffer U] [LawfulImage U] {u : U} {s : S} {t : T} (h : SamePixels u s) (h' : SamePixels u t) : SamePixels s t :=
  ⟨h.valid', h'.valid', h.width.symm.trans h'.width, h.height.symm.trans h'.height, fun x y hx hy => by
    rw [← h.width] at hx
    rw [← h.height] at hy
    rw [← h.view x y hx hy, h'.view x y hx hy]⟩

theorem asI32_le (n : Nat) : asI32 n ≤ n := by
  unfold asI32
  rw [Int.bmod_def]
  split <;> omega

theorem point_same {i : PreparedImage S} {j : PreparedImage T} (h : SamePixels i.buffer j.buffer) (p : Point) :
    i.get_pixel_at_point p = j.get_pixel_at_point p := by
  unfold PreparedImage.get_pixel_at_point
  rw [← h.width, ← h.height]
  unfold subU
  by_cases h1 : 1 ≤ width i.buffer
  · by_cases h2 : 1 ≤ height i.buffer
    · rw [if_pos h1, if_pos h2]
      rw [Run.ok_bind, Run.ok_bind, Run.ok_bind, Run.ok_bind]
      have a1 := asI32_le (width i.buffer - 1)
      have a2 := asI32_le (height i.buffer - 1)
      have hx : (max 0 (min (asI32 (width i.buffer - 1)) p.x)).toNat < width i.buffer := by omega
      have hy : (max 0 (min (asI32 (height i.buffer - 1)) p.y)).toNat < height i.buffer := by omega
      dsimp only
      rw [get_ok h.valid hx hy, get_ok h.valid' (h.width ▸ hx) (h.height ▸ hy), h.view _ _ hx hy]
    · rw [if_pos h1, if_neg h2]
      rfl
  · rw [if_neg h1]
    rfl

/-- **C71.** Binarisation in buffers with the same pixels has results with the same pixels. -/
theorem C71_prepare {s : S} {t : T} (h : SamePixels s t) (hw : width s ≤ 2 ^ 31) :
    ∃ i j, PreparedImage.prepare s = .ok i ∧ PreparedImage.prepare t = .ok j ∧ SamePixels i.buffer j.buffer := by
  obtain ⟨s', e, -⟩ := C31_prepare (s := tableOf s) trivial hw
  rcases (sim_prepare (table_same (same_refl h.valid))).settled (sim_prepare (table_same h)) (by rw [e]; simp) with
    ⟨k, i, j, -, e1, e2, h1, h2⟩ | ⟨f, e1, -⟩
  · exact ⟨i, j, e1, e2, pixels_trans h1.pixels h2.pixels⟩
  · rw [e] at e1; cases e1

/-- **C71.** Detection in freshly prepared images with the same pixels panics for both or reports the same grids, and the images have the
same pixels again; so all modules of the grids have the same values, and decoding has the same result. -/
theorem C71_detection (F : Type) [FloatOps F] [Rounding F] {i : PreparedImage S} {j : PreparedImage T} (hi : Fresh i) (hj : Fresh j)
    (h : SamePixels i.buffer j.buffer) (hw : width i.buffer ≤ 32768) (hh : height i.buffer ≤ 32768) (hpos : 0 < width i.buffer) :
    (i.detect_grids F = .error .panic ∧ j.detect_grids F = .error .panic) ∨
    ∃ i' j' grids, i.detect_grids F = .ok (i', grids) ∧ j.detect_grids F = .ok (j', grids) ∧ SamePixels i'.buffer j'.buffer ∧
      ∀ g ∈ grids, RefGridImage g.location i' = RefGridImage g.location j' := by
  let k : PreparedImage Table := { buffer := tableOf i.buffer, cache := .new 251 }
  have hk : Fresh k := ⟨trivial, hi.bw, rfl, hi.size⟩
  have s1 : SameImage k i := ⟨table_same (same_refl hi.valid), hi.cache.symm⟩
  have s2 : SameImage k j := ⟨table_same h, hj.cache.symm⟩
  have key := C63_detection F hk hw hh hpos
  rcases (sim_detect (F := F) s1).settled (sim_detect (F := F) s2) (by rcases key with e | ⟨_, _, _, e, -⟩ <;> rw [e] <;> simp) with
    ⟨⟨k', gk⟩, ⟨i', gi⟩, ⟨j', gj⟩, e, e1, e2, ⟨h1, h1'⟩, h2, h2'⟩ | ⟨f, e, e1, e2⟩
  · dsimp only at h1 h1' h2 h2'
    subst h1' h2'
    refine .inr ⟨i', j', gk, e1, e2, pixels_trans h1.pixels h2.pixels, fun g _ => ?_⟩
    unfold RefGridImage
    have : ∀ p, i'.get_pixel_at_point p = j'.get_pixel_at_point p := point_same (pixels_trans h1.pixels h2.pixels)
    simp only [this]
  · rcases key with ek | ⟨_, _, _, ek, -⟩
    · rw [ek] at e
      cases e
      exact .inl ⟨e1, e2⟩
    · rw [ek] at e; cases e

/-- **C71.** From pixels to messages: if two buffers have the same grey levels, the whole program has the same results for them. -/
theorem C71_pipeline (F : Type) [FloatOps F] [Rounding F] {s : S} {t : T} (h : SamePixels s t) (hw : width s ≤ 32768) (hh : height s ≤ 32768)
    (hpos : 0 < width s) : ∃ i j, PreparedImage.prepare s = .ok i ∧ PreparedImage.prepare t = .ok j ∧
      ((i.detect_grids F = .error .panic ∧ j.detect_grids F = .error .panic) ∨
      ∃ i' j' grids, i.detect_grids F = .ok (i', grids) ∧ j.detect_grids F = .ok (j', grids) ∧
        ∀ g ∈ grids, ∀ (σ : Type) (W : Writer σ) (w : σ), Grid.decode_to W (RefGridImage g.location i') w =
          Grid.decode_to W (RefGridImage g.location j') w) := by
  have size : width s * height s < 2 ^ 64 := by
    have : width s * height s ≤ 32768 * 32768 := Nat.mul_le_mul hw hh
    omega
  obtain ⟨i, ei, hi⟩ := C31_fresh h.valid (by omega) size
  obtain ⟨j, ej, hj⟩ := C31_fresh h.valid' (by rw [← h.width]; omega) (by rw [← h.width, ← h.height]; exact size)
  obtain ⟨i1, j1, e1, e2, hp⟩ := C71_prepare h (by omega)
  rw [ei] at e1
  cases e1
  rw [ej] at e2
  cases e2
  obtain ⟨s', e3, -, w', h', -⟩ := C31_prepare h.valid (by omega)
  rw [ei] at e3
  cases e3
  refine ⟨_, j, ei, ej, ?_⟩
  rcases C71_detection F hi hj hp (by rw [w']; exact hw) (by rw [h']; exact hh) (by rw [w']; exact hpos) with e | ⟨i', j', grids, e1, e2, -, hg⟩
  · exact .inl e
  · exact .inr ⟨i', j', grids, e1, e2, fun g hm σ W w => by rw [hg g hm]⟩

/-- For instance, the library's own buffer and a grey image of the `image` crate. -/
example (w h : Nat) (pixels : Array Byte) (hp : pixels.size = w * h) (hw : w < 2 ^ 32) (hh : h < 2 ^ 32) :
    SamePixels (BasicImageBuffer.mk w h pixels) (GrayImage.mk w h pixels) :=
  ⟨hp, ⟨hp, hw, hh⟩, rfl, rfl, fun _ _ _ _ => rfl⟩

end Rqrr
