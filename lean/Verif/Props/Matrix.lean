import Verif.Proofs.Windows
import Verif.Props.Clean

/-!
# C59 and C60: drawings too large for 32 bit arithmetic; looking like a finder pattern is a matter of the matrix
-/

namespace Rqrr

open Spec ImageBuffer

variable (F : Type) [FloatOps F] [Rounding F]

variable {S : Type} [ImageBuffer S] [LawfulImage S] {img0 : PreparedImage S} {v : Nat} {M : Nat → Nat → Bool} {P : Placement}

/-- **C59.** The limit on the number of pixels per module in C57 is exact: above it, detection fails with an arithmetic
overflow. -/
theorem C59_overflow (h0 : Fresh img0) (hw : width img0.buffer ≤ 32768) (hh : height img0.buffer ≤ 32768)
    (h1 : 1 ≤ v) (hv : v ≤ 40) (hR : Renders img0 (side v) M P) (hM : Patterned v M) (hI : ¬ P.InRange (side v))
    (hO : OnlyFinders img0 (side v) P) : img0.detect_grids F = .error .panic :=
  detect_overflow h0 hw hh h1 hv hR hM hI hO

/-- **C59.** So for every version but 21 detection succeeds if and only if the drawing is within the limit. -/
theorem C59_iff (h0 : Fresh img0) (hw : width img0.buffer ≤ 32768) (hh : height img0.buffer ≤ 32768)
    (h1 : 1 ≤ v) (hv : v ≤ 40) (h21 : v ≠ 21) (hR : Renders img0 (side v) M P) (hM : Patterned v M)
    (hO : OnlyFinders img0 (side v) P) : (∃ r, img0.detect_grids F = .ok r) ↔ P.InRange (side v) := by
  constructor
  · rintro ⟨r, hr⟩
    by_contra hI
    rw [C59_overflow F h0 hw hh h1 hv hR hM hI hO] at hr
    cases hr
  · intro hI
    obtain ⟨img, g, e, -⟩ := C57_detected F h0 hw hh h1 hv h21 hR hM hI hO
    exact ⟨_, e⟩

/-- A bitmap of a drawing: what `prepare_from_bitmap` makes of it. -/
theorem bitmap_pictures {w h n : Nat} (hF : P.Fits w h n) (hw : w ≤ 32768) (hh : h ≤ 32768) :
    ∃ img0, PreparedImage.prepare_from_bitmap w h (fun _ x y => (P.dark n M x y, ())) () = (.ok img0, ()) ∧ Fresh img0 ∧
      width img0.buffer = w ∧ height img0.buffer = h ∧ Pictures img0 n M P := by
  have hsize : w * h < 2 ^ 64 := by
    have : w * h ≤ 32768 * 32768 := Nat.mul_le_mul hw hh
    omega
  obtain ⟨img0, e, h0, ew, eh, ev⟩ := C34_from_bitmap w h (fun _ x y => (P.dark n M x y, ())) () hsize
  exact ⟨img0, e, h0, ew, eh, pictures_bitmap hF ew eh ev⟩

/-- **C60.** Whether something in a clean drawing looks like a finder pattern depends on the matrix and the number of pixels per module
only: not on the place, the orientation or the size of the image. -/
theorem C60_nothing_mistaken {n : Nat} (hn : 7 ≤ n) (hR : Pictures img0 n M P) (hU : Unmistakable n M P.scale) : OnlyFinders img0 n P :=
  unmistakable_spec hn hR hU

/-- **C60.** From bitmap to text, with a condition on the matrix in place of the one on the image. -/
theorem C60_message (v : Nat) (h1 : 1 ≤ v) (h40 : v ≤ 40) (h21 : v ≠ 21) (l : Level) (mask : Nat)
    (hm : mask < 8) (ss : List Segment) (hss : ∀ s ∈ ss, s.Fits v) (hfit : (ss.flatMap (·.encode v)).length ≤ 8 * dataCount v l) :
    ∃ M, Patterned v M ∧ ∀ (w h : Nat) (P : Placement), w ≤ 32768 → h ≤ 32768 → P.Fits w h (side v) →
      P.InRange (side v) → Unmistakable (side v) M P.scale →
      ∃ img0, PreparedImage.prepare_from_bitmap w h (fun _ x y => (P.dark (side v) M x y, ())) () = (.ok img0, ()) ∧
        ∀ (F : Type) [FloatOps F] [Rounding F], ∃ img g, img0.detect_grids F = .ok (img, [g]) ∧ ∀ out,
          Grid.decode_to vecWriter (RefGridImage g.location img) out =
            (.ok { version := v, ecc_level := l.bits, mask := mask }, out ++ ss.flatMap (·.payload)) := by
  obtain ⟨M, hM, h⟩ := C57_message v h1 h40 h21 l mask hm ss hss hfit
  refine ⟨M, hM, fun w hgt P hw hh hF hI hU => ?_⟩
  obtain ⟨img0, e, h⟩ := h w hgt P hw hh hF hI
  obtain ⟨img1, e1, -, -, -, hR⟩ := bitmap_pictures (M := M) hF hw hh
  rw [e] at e1
  injection e1 with e1
  injection e1 with e1
  subst e1
  exact ⟨img0, e, h (C60_nothing_mistaken (by unfold side; omega) hR hU)⟩

/-- The connected parts of the symbol of C57. -/
def hiParts : List (List Nat) :=
  [ [0, 0, 0, 0, 0, 0, 0, 0, 8, 0, 0, 11, 0, 0, 14, 14, 14, 14, 14, 14, 14],
    [0, 0, 0, 0, 0, 0, 0, 0, 0, 30, 30, 0, 33, 0, 14, 0, 0, 0, 0, 0, 14],
    [0, 0, 44, 44, 44, 0, 0, 0, 30, 30, 0, 0, 33, 0, 14, 0, 58, 58, 58, 0, 14],
    [0, 0, 44, 44, 44, 0, 0, 0, 0, 30, 0, 33, 33, 0, 14, 0, 58, 58, 58, 0, 14],
    [0, 0, 44, 44, 44, 0, 0, 0, 0, 0, 0, 33, 33, 0, 14, 0, 58, 58, 58, 0, 14],
    [0, 0, 0, 0, 0, 0, 0, 0, 113, 113, 113, 0, 0, 0, 14, 0, 0, 0, 0, 0, 14],
    [0, 0, 0, 0, 0, 0, 0, 0, 113, 0, 113, 0, 138, 0, 14, 14, 14, 14, 14, 14, 14],
    [0, 0, 0, 0, 0, 0, 0, 0, 0, 0, 0, 0, 0, 0, 0, 0, 0, 0, 0, 0, 0],
    [168, 0, 170, 0, 0, 0, 174, 174, 0, 0, 178, 178, 178, 0, 0, 183, 0, 0, 186, 0, 188],
    [0, 190, 0, 192, 0, 0, 0, 0, 197, 197, 0, 0, 0, 0, 0, 0, 0, 0, 186, 0, 188],
    [190, 190, 0, 0, 214, 214, 214, 0, 0, 0, 0, 221, 221, 221, 221, 221, 221, 0, 186, 0, 188],
    [0, 0, 0, 234, 0, 0, 0, 0, 0, 0, 241, 0, 0, 0, 0, 0, 0, 0, 0, 0, 0],
    [252, 0, 234, 234, 234, 234, 234, 234, 0, 261, 0, 263, 263, 263, 263, 263, 263, 263, 263, 263, 0],
    [0, 0, 0, 0, 0, 0, 0, 0, 281, 0, 0, 0, 0, 0, 0, 0, 0, 0, 0, 0, 293],
    [294, 294, 294, 294, 294, 294, 294, 0, 281, 0, 304, 304, 304, 304, 304, 304, 304, 304, 304, 0, 293],
    [294, 0, 0, 0, 0, 0, 294, 0, 0, 0, 304, 0, 0, 0, 0, 0, 0, 0, 0, 0, 293],
    [294, 0, 338, 338, 338, 0, 294, 0, 0, 0, 0, 293, 293, 293, 293, 293, 293, 293, 293, 293, 293],
    [294, 0, 338, 338, 338, 0, 294, 0, 0, 366, 366, 0, 0, 0, 0, 0, 0, 0, 0, 0, 0],
    [294, 0, 338, 338, 338, 0, 294, 0, 366, 366, 0, 389, 389, 389, 389, 389, 389, 389, 389, 389, 389],
    [294, 0, 0, 0, 0, 0, 294, 0, 0, 0, 0, 0, 0, 0, 0, 0, 0, 0, 0, 0, 0],
    [294, 294, 294, 294, 294, 294, 294, 0, 428, 0, 430, 430, 430, 430, 430, 430, 430, 430, 430, 0, 440] ]

/-- Distances within them. -/
def hiDepths : List (List Nat) :=
  [ [0, 1, 2, 3, 4, 5, 6, 0, 0, 0, 0, 0, 0, 0, 0, 1, 2, 3, 4, 5, 6],
    [1, 0, 0, 0, 0, 0, 7, 0, 0, 0, 1, 0, 0, 0, 1, 0, 0, 0, 0, 0, 7],
    [2, 0, 0, 1, 2, 0, 8, 0, 2, 1, 0, 0, 1, 0, 2, 0, 0, 1, 2, 0, 8],
    [3, 0, 1, 2, 3, 0, 9, 0, 0, 2, 0, 3, 2, 0, 3, 0, 1, 2, 3, 0, 9],
    [4, 0, 2, 3, 4, 0, 10, 0, 0, 0, 0, 4, 3, 0, 4, 0, 2, 3, 4, 0, 10],
    [5, 0, 0, 0, 0, 0, 11, 0, 0, 1, 2, 0, 0, 0, 5, 0, 0, 0, 0, 0, 11],
    [6, 7, 8, 9, 10, 11, 12, 0, 1, 0, 3, 0, 0, 0, 6, 7, 8, 9, 10, 11, 12],
    [0, 0, 0, 0, 0, 0, 0, 0, 0, 0, 0, 0, 0, 0, 0, 0, 0, 0, 0, 0, 0],
    [0, 0, 0, 0, 0, 0, 0, 1, 0, 0, 0, 1, 2, 0, 0, 0, 0, 0, 0, 0, 0],
    [0, 0, 0, 0, 0, 0, 0, 0, 0, 1, 0, 0, 0, 0, 0, 0, 0, 0, 1, 0, 1],
    [2, 1, 0, 0, 0, 1, 2, 0, 0, 0, 0, 0, 1, 2, 3, 4, 5, 0, 2, 0, 2],
    [0, 0, 0, 0, 0, 0, 0, 0, 0, 0, 0, 0, 0, 0, 0, 0, 0, 0, 0, 0, 0],
    [0, 0, 2, 1, 2, 3, 4, 5, 0, 0, 0, 0, 1, 2, 3, 4, 5, 6, 7, 8, 0],
    [0, 0, 0, 0, 0, 0, 0, 0, 0, 0, 0, 0, 0, 0, 0, 0, 0, 0, 0, 0, 0],
    [0, 1, 2, 3, 4, 5, 6, 0, 1, 0, 0, 1, 2, 3, 4, 5, 6, 7, 8, 0, 1],
    [1, 0, 0, 0, 0, 0, 7, 0, 0, 0, 1, 0, 0, 0, 0, 0, 0, 0, 0, 0, 2],
    [2, 0, 0, 1, 2, 0, 8, 0, 0, 0, 0, 12, 11, 10, 9, 8, 7, 6, 5, 4, 3],
    [3, 0, 1, 2, 3, 0, 9, 0, 0, 0, 1, 0, 0, 0, 0, 0, 0, 0, 0, 0, 0],
    [4, 0, 2, 3, 4, 0, 10, 0, 2, 1, 0, 0, 1, 2, 3, 4, 5, 6, 7, 8, 9],
    [5, 0, 0, 0, 0, 0, 11, 0, 0, 0, 0, 0, 0, 0, 0, 0, 0, 0, 0, 0, 0],
    [6, 7, 8, 9, 10, 11, 12, 0, 0, 0, 0, 1, 2, 3, 4, 5, 6, 7, 8, 0, 0] ]

/-- The table of the connected parts of the symbol for `hi`. -/
def hiTable : Parts := ⟨fun y x => (hiParts.getD y []).getD x 0, fun y x => (hiDepths.getD y []).getD x 0⟩

theorem hi_check : unmistakable 21 hi hiTable = true := by decide +kernel

/-- The symbol for `hi` is not mistaken, with any number of pixels per module. -/
theorem hi_unmistakable {s : Nat} (hs : 2 ≤ s) : Unmistakable 21 hi s := unmistakable_of_check hi_check hs

/-- The symbol for `hi` drawn anywhere, in any orientation, in an image of any size, and with any number of pixels per module: it
reads as `hi` within the limit, and overflows above it. -/
theorem hi_everywhere (w h : Nat) (P : Placement) (hw : w ≤ 32768) (hh : h ≤ 32768) (hF : P.Fits w h 21) :
    ∃ img0, PreparedImage.prepare_from_bitmap w h (fun _ x y => (P.dark 21 hi x y, ())) () = (.ok img0, ()) ∧
      (P.InRange 21 → ∃ img g, img0.detect_grids F = .ok (img, [g]) ∧
        Grid.decode (RefGridImage g.location img) = .ok ({ version := 1, ecc_level := 0, mask := 1 }, "hi")) ∧
      (¬ P.InRange 21 → img0.detect_grids F = .error .panic) := by
  obtain ⟨img0, e, h0, ew, eh, hR⟩ := bitmap_pictures (M := hi) hF hw hh
  have hO := C60_nothing_mistaken (by omega) hR (hi_unmistakable hF.scale)
  refine ⟨img0, e, fun hI => ?_, fun hI => ?_⟩
  · obtain ⟨img, g, d, d1, d2, -⟩ := C57_detected F (v := 1) h0 (by omega) (by omega) (by omega) (by omega) (by omega) hR.renders hi_patterned hI hO
    refine ⟨img, g, d, ?_⟩
    rw [C22_decode_ok]
    have s1 : (RefGridImage g.location img).size = 21 := d1
    have := decode_congr (code := RefGridImage g.location img) (code' := hiGrid) (m := hi)
      (fun y x hy hx => d2 y x (d1 ▸ hy) (d1 ▸ hx)) (fun _ _ _ _ => rfl) s1 (by rw [s1]; omega) vecWriter []
    exact this.trans (hi_decodes.trans (by decide))
  · exact C59_overflow F (v := 1) h0 (by omega) (by omega) (by omega) (by omega) hR.renders hi_patterned hI hO

/-- With 147 pixels per module in the top left corner, the drawing of `hi` is above the limit; with 146 it is not. -/
example : (⟨⟨0, 0⟩, ⟨1, 0⟩, 147⟩ : Placement).Fits 3087 3087 21 ∧ ¬ (⟨⟨0, 0⟩, ⟨1, 0⟩, 147⟩ : Placement).InRange 21 ∧
    (⟨⟨0, 0⟩, ⟨1, 0⟩, 146⟩ : Placement).InRange 21 :=
  ⟨⟨.inl rfl, by decide, by decide, by decide⟩, fun h => absurd h.1 (by decide), ⟨by decide, by decide⟩⟩

end Rqrr
