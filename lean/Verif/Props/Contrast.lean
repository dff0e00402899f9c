import Verif.Proofs.Contrast
import Verif.Props.Grey
import Verif.Props.Dotted
import Verif.Props.Stretch

/-!
# C73: greyscale pictures with contrast are read like bitmaps
-/

namespace Rqrr

open Spec ImageBuffer LawfulImage

/-- **C73.** Binarisation is a comparison with a threshold, 95 percent of an average of the luminances before the pixel on two paths, where
the place `i` steps before has the weight `(1 - 1 / t) ^ i / t`: pixels that are not below the threshold become white, those at least two
levels below become black. -/
theorem C73_threshold {S : Type} [ImageBuffer S] [LawfulImage S] {s s' : S} {c : LruCache ColoredRegion} (hv : Valid s)
    (hw : width s ≤ 2 ^ 31) (hrun : PreparedImage.prepare s = .ok { buffer := s', cache := c }) {x y : Nat}
    (hx : x < width s) (hy : y < height s) :
    (((view s x y).toNat : ℚ) + 2 ≤ threshold (width s) (view s) x y → view s' x y = 1) ∧
    (threshold (width s) (view s) x y ≤ (view s x y).toNat → view s' x y = 0) := by
  obtain ⟨s'', h1, _, _, _, h5⟩ := prepare_ok hv hw
  rw [h1] at hrun
  injection hrun with hrun
  injection hrun with e _
  subst e
  rw [h5 x y hx hy]
  obtain ⟨b1, b2⟩ := black_threshold (width s) (view s) x y
  exact ⟨fun h => by rw [b1 h]; rfl, fun h => by rw [b2 h]; rfl⟩

/-- An image of bytes is given by its pixels. -/
theorem basic_ext {i j : PreparedImage BasicImageBuffer} (hi : Fresh i) (hj : Fresh j) (ew : width i.buffer = width j.buffer)
    (eh : height i.buffer = height j.buffer)
    (h : ∀ x y, x < width i.buffer → y < height i.buffer → (view i.buffer x y = 1 ↔ view j.buffer x y = 1)) : i = j := by
  obtain ⟨⟨w, h', p⟩, c⟩ := i
  obtain ⟨⟨w2, h2, q⟩, c2⟩ := j
  obtain rfl : w = w2 := ew
  obtain rfl : h' = h2 := id eh
  have ec : c = c2 := hi.cache.trans hj.cache.symm
  subst ec
  congr 2
  have sp : p.size = w * h' := hi.valid
  have sq : q.size = w * h' := hj.valid
  apply Array.ext (by rw [sp, sq])
  intro k hk hk2
  have hw : 0 < w := by
    rcases Nat.eq_zero_or_pos w with h0 | h0
    · rw [sp, h0, Nat.zero_mul] at hk; omega
    · exact h0
  have hx : k % w < w := Nat.mod_lt _ hw
  have hy : k / w < h' := (Nat.div_lt_iff_lt_mul hw).2 (by rw [Nat.mul_comm]; omega)
  have hkk : k / w * w + k % w = k := by rw [Nat.mul_comm]; exact Nat.div_add_mod k w
  have key := h (k % w) (k / w) hx hy
  have b1 := hi.bw (k % w) (k / w) hx hy
  have b2 := hj.bw (k % w) (k / w) hx hy
  have v1 : view (⟨w, h', p⟩ : BasicImageBuffer) (k % w) (k / w) = p[k] := by
    show p.getD (k / w * w + k % w) 0 = _
    rw [hkk, Array.getD_eq_getD_getElem?, Array.getElem?_eq_getElem hk]
    rfl
  have v2 : view (⟨w, h', q⟩ : BasicImageBuffer) (k % w) (k / w) = q[k] := by
    show q.getD (k / w * w + k % w) 0 = _
    rw [hkk, Array.getD_eq_getD_getElem?, Array.getElem?_eq_getElem hk2]
    rfl
  dsimp only at key b1 b2
  rw [v1, v2] at key
  rw [v1] at b1
  rw [v2] at b2
  rcases b1 with b1 | b1 <;> rcases b2 with b2 | b2
  · rw [b1, b2]
  · have := key.2 b2
    rw [b1] at this
    exact absurd this (by decide)
  · have := key.1 b1
    rw [b2] at this
    exact absurd this (by decide)
  · rw [b1, b2]

/-- **C73.** If a greyscale picture shows a bitmap with enough contrast, `prepare_from_greyscale` makes the same image of it as
`prepare_from_bitmap` makes of the bitmap. -/
theorem C73_contrast {w h : Nat} {f : Nat → Nat → Byte} {d : Nat → Nat → Bool} (hw : w ≤ 2 ^ 31) (hsize : w * h < 2 ^ 64)
    (hc : Contrast w h f d) : PreparedImage.prepare_from_greyscale w h (fun _ x y => (f x y, ())) () =
      PreparedImage.prepare_from_bitmap w h (fun _ x y => (d x y, ())) () := by
  obtain ⟨i, e, h0, ew, eh, ev⟩ := C34_from_greyscale w h (fun _ x y => (f x y, ())) () hw hsize
  obtain ⟨j, e', h0', ew', eh', ev'⟩ := C34_from_bitmap w h (fun _ x y => (d x y, ())) () hsize
  rw [e, e']
  have : i = j := by
    refine basic_ext h0 h0' (ew.trans ew'.symm) (eh.trans eh'.symm) fun x y hx hy => ?_
    rw [ew] at hx
    rw [eh] at hy
    rw [ev x y hx hy, ev' x y hx hy]
    dsimp only
    set g : Nat → Nat → Byte := fun x y => if x < w ∧ y < h then f x y else 0 with hg
    have gxy : g x y = f x y := by rw [hg]; dsimp only; rw [if_pos ⟨hx, hy⟩]
    have thr : threshold w g x y = threshold w f x y := by
      have m : ∀ right, weightedMean w (fun x y => ((g x y).toNat : ℚ)) right x y = weightedMean w (fun x y => ((f x y).toNat : ℚ)) right x y := by
        intro right
        refine mean_congr fun k hk => ?_
        obtain ⟨a, b⟩ := snake_row right hx hk
        rw [hg]
        dsimp only
        rw [if_pos ⟨a, by omega⟩]
      unfold threshold
      rw [m, m]
    obtain ⟨b1, b2⟩ := black_threshold w g x y
    rw [thr, gxy] at b1 b2
    cases hd : d x y
    · rw [b2 (hc.light x y hx hy hd)]
    · rw [b1 (hc.dark x y hx hy hd)]
  rw [this]

/-- **C73.** In particular this holds for pictures in two tones, even when the tones are not exact: it suffices that dark pixels have at most
the luminance `k`, that the luminances of light pixels differ by at most five percent, and that there is enough light before every dark pixel. -/
theorem C73_two_tones {w h : Nat} {f : Nat → Nat → Byte} {d : Nat → Nat → Bool} {k a b : Nat} (hw : w ≤ 2 ^ 31) (hsize : w * h < 2 ^ 64)
    (ht : TwoTones w h f d k a b) : PreparedImage.prepare_from_greyscale w h (fun _ x y => (f x y, ())) () =
      PreparedImage.prepare_from_bitmap w h (fun _ x y => (d x y, ())) () :=
  C73_contrast hw hsize (ht.contrast fun right _ _ _ hx hj => snake_row right hx hj)

/-- **C73.** And for pictures in two tones with light margins on the left and on the right, whatever is drawn between them: the condition
depends only on the widths and on the luminances. -/
theorem C73_margins {w h : Nat} {f : Nat → Nat → Byte} {d : Nat → Nat → Bool} {k a b l r m : Nat} (hw : w ≤ 2 ^ 31) (hsize : w * h < 2 ^ 64)
    (hf : Framed w h f d k a b l r m) : PreparedImage.prepare_from_greyscale w h (fun _ x y => (f x y, ())) () =
      PreparedImage.prepare_from_bitmap w h (fun _ x y => (d x y, ())) () :=
  C73_two_tones hw hsize hf.twoTones

/-- **C73.** From a greyscale picture to text: every message that fits into a symbol of any version but 21 has a matrix such that in every
greyscale picture that shows a drawing with dots of it with enough contrast exactly one grid is found, which decodes to the message. -/
theorem C73_message : ∃ matrix : Message → Nat → Nat → Bool, (∀ m : Message, m.Fits → Patterned m.version (matrix m)) ∧
    ∀ (m : Message) (w h : Nat) (P : Placement) (f : Nat → Nat → Byte), m.Fits → w ≤ 32768 → h ≤ 32768 → P.Fits w h (side m.version) →
      4 ≤ P.scale → P.InRange (side m.version) → Contrast w h f (P.dots (side m.version) (matrix m)) →
      ∃ img0, PreparedImage.prepare_from_greyscale w h (fun _ x y => (f x y, ())) () = (.ok img0, ()) ∧
        ∀ (F : Type) [FloatOps F] [Rounding F], ∃ img g, img0.detect_grids F = .ok (img, [g]) ∧ ∀ out,
          Grid.decode_to vecWriter (RefGridImage g.location img) out =
            (.ok { version := m.version, ecc_level := m.level.bits, mask := m.mask }, out ++ m.segments.flatMap (·.payload)) := by
  obtain ⟨matrix, h1, h2⟩ := C67_message
  refine ⟨matrix, h1, fun m w h P f hm hw hh hF hs hI hc => ?_⟩
  have hsize : w * h < 2 ^ 64 := by
    have : w * h ≤ 32768 * 32768 := Nat.mul_le_mul hw hh
    omega
  rw [C73_contrast (by omega) hsize hc]
  exact h2 m w h P hm hw hh hF hs hI

/-- A grey photograph of C57's example: dark pixels from 5 to 19, light ones from 200 to 209. -/
def hiPhoto (x y : Nat) : Byte := if hiPlace.dark 21 hi x y then BitVec.ofNat 8 (5 + (x * 7 + y * 3) % 15) else BitVec.ofNat 8 (200 + (x + y * y) % 10)

theorem hiPhoto_light : enoughLight 58 58 (hiPlace.dark 21 hi) 19 200 = true := by decide +kernel

/-- The photograph is in two tones. -/
theorem hiPhoto_tones : TwoTones 58 58 hiPhoto (hiPlace.dark 21 hi) 19 200 209 := by
  refine ⟨fun x y _ _ hd => ?_, fun x y _ _ hd => ?_, by decide, by decide, fun x y hx hy hd => enoughLight_spec hiPhoto_light hx hy hd⟩
  · unfold hiPhoto
    rw [hd, if_pos rfl, BitVec.toNat_ofNat]
    have := Nat.mod_lt (x * 7 + y * 3) (show 0 < 15 by omega)
    rw [Nat.mod_eq_of_lt (by omega)]
    omega
  · unfold hiPhoto
    rw [hd, if_neg (by decide), BitVec.toNat_ofNat]
    have := Nat.mod_lt (x + y * y) (show 0 < 10 by omega)
    rw [Nat.mod_eq_of_lt (by omega)]
    omega

/-- It is read. -/
example : ∃ img0, PreparedImage.prepare_from_greyscale 58 58 (fun _ x y => (hiPhoto x y, ())) () = (.ok img0, ()) ∧
    ∃ img g, img0.detect_grids F64 = .ok (img, [g]) ∧ g.bounds = [⟨49, 49⟩, ⟨5, 49⟩, ⟨5, 5⟩, ⟨49, 5⟩] ∧
      Grid.decode (RefGridImage g.location img) = .ok ({ version := 1, ecc_level := 0, mask := 1 }, "hi") := by
  rw [C73_two_tones (by norm_num) (by norm_num) hiPhoto_tones]
  obtain ⟨img0, e, h0, ew, eh, ev⟩ := C34_from_bitmap 58 58 (fun _ x y => (hiPlace.dark 21 hi x y, ())) () (by norm_num)
  exact ⟨img0, e, hi_read F64 h0 ew eh ev⟩

/-- The message of C67's example, in a picture of 600 by 250 pixels with dark tones from 20 to 34 and light tones from 200 to 209, is found and
read. -/
example : ∃ (matrix : Nat → Nat → Bool) (img0 : _),
    PreparedImage.prepare_from_greyscale 600 250 (fun _ x y => (if (⟨⟨400, 11⟩, ⟨0, 1⟩, 5⟩ : Placement).dots 45 matrix x y
      then BitVec.ofNat 8 (20 + (x * 7 + y * 3) % 15) else BitVec.ofNat 8 (200 + (x + y * y) % 10), ())) () = (.ok img0, ()) ∧
    ∃ img g, img0.detect_grids F64 = .ok (img, [g]) ∧ ∀ out, Grid.decode_to vecWriter (RefGridImage g.location img) out =
      (.ok { version := 7, ecc_level := 2, mask := 3 }, out ++ [0x68, 0x69]) := by
  obtain ⟨matrix, -, h⟩ := C73_message
  have hF : Framed 600 250 (fun x y => if (⟨⟨400, 11⟩, ⟨0, 1⟩, 5⟩ : Placement).dots 45 (matrix hiMessage) x y
      then BitVec.ofNat 8 (20 + (x * 7 + y * 3) % 15) else BitVec.ofNat 8 (200 + (x + y * y) % 10))
      ((⟨⟨400, 11⟩, ⟨0, 1⟩, 5⟩ : Placement).dots 45 (matrix hiMessage)) 34 200 209 176 401 176 := by
    refine ⟨fun x y _ _ hd => ?_, fun x y _ _ hd => ?_, by decide, by decide, fun x y hx hy hd => ?_, by decide, by decide, ?_⟩
    · rw [hd, if_pos rfl, BitVec.toNat_ofNat]
      have := Nat.mod_lt (x * 7 + y * 3) (show 0 < 15 by omega)
      rw [Nat.mod_eq_of_lt (by omega)]
      omega
    · rw [hd, if_neg (by decide), BitVec.toNat_ofNat]
      have := Nat.mod_lt (x + y * y) (show 0 < 10 by omega)
      rw [Nat.mod_eq_of_lt (by omega)]
      omega
    · unfold Placement.dots Placement.dark at hd
      simp at hd
      omega
    · rw [show averageWindow 600 = 75 by decide]
      norm_num
  obtain ⟨img0, e, h⟩ := h hiMessage 600 250 ⟨⟨400, 11⟩, ⟨0, 1⟩, 5⟩ _ hiMessage_fits (by norm_num) (by norm_num)
    ⟨.inr (.inl rfl), by decide, by decide, by decide⟩ (by decide) ⟨by decide, by decide⟩
    (hF.twoTones.contrast fun right _ _ _ hx hj => snake_row right hx hj)
  obtain ⟨img, g, d, hg⟩ := h F64
  exact ⟨_, img0, e, img, g, d, hg⟩

end Rqrr
