import Verif.Proofs.BoxAll
import Verif.Proofs.Resize
import Verif.Props.Clean

/-!
# C72: symbols drawn with modules of unequal sizes are found and read
-/

namespace Rqrr

open Spec ImageBuffer

variable (F : Type) [FloatOps F] [Rounding F]

variable {S : Type} [ImageBuffer S] [LawfulImage S] {img0 : PreparedImage S} {v : Nat} {M : Nat → Nat → Bool} {L : Layout}

/-- **C72.** A symbol of any version but 21 whose modules need not be squares nor equally large is detected, alone, with the right size, and
each of its modules reads as drawn. Columns of modules begin at places that are as evenly spaced as whole pixels allow, at least seven
pixels apart, and so do rows, with a distance of their own. The drawing may be in any of the four orientations, the data modules arbitrary,
the first pixel and the size as in C57 (`InRange`), and nothing else may look like a finder pattern. -/
theorem C72_detected (h0 : Fresh img0) (hw : width img0.buffer ≤ 32768) (hh : height img0.buffer ≤ 32768)
    (h1 : 1 ≤ v) (hv : v ≤ 40) (h21 : v ≠ 21) (hR : Stretches img0 (side v) M L) (hM : Patterned v M)
    (hI : L.InRange (side v)) (hO : L.Only img0 (side v)) :
    ∃ img g, img0.detect_grids F = .ok (img, [g]) ∧ g.location.grid_size = side v ∧
      (∀ y x, y < side v → x < side v → (RefGridImage g.location img).bit y x = .ok (M y x)) ∧ L.Bounds (side v) g.bounds := by
  have hs : side v = 17 + 4 * v := rfl
  obtain ⟨img, claims, c, bounds, e, hb, hc, hist⟩ := detect_stretched (F := F) h0 hw hh h1 hv h21 hR hM hI hO
  exact ⟨img, _, e, rfl, fun y x hy hx => read_stretched h0 hist hw hh (N := side v - 7) (by omega) (by omega) (by omega) hR hc hy hx, hb⟩

/-- **C72.** If the modules are too large for the place (and only then) the same drawing makes the detection panic, as in C59. -/
theorem C72_overflow (h0 : Fresh img0) (hw : width img0.buffer ≤ 32768) (hh : height img0.buffer ≤ 32768)
    (h1 : 1 ≤ v) (hv : v ≤ 40) (hR : Stretches img0 (side v) M L) (hM : Patterned v M)
    (hI : ¬ L.InRange (side v)) (hO : L.Only img0 (side v)) : img0.detect_grids F = .error .panic :=
  detect_stretched_overflow h0 hw hh h1 hv hR hM hI hO

/-- **C72.** Decoding what is detected is decoding the matrix. -/
theorem C72_decoded (h0 : Fresh img0) (hw : width img0.buffer ≤ 32768) (hh : height img0.buffer ≤ 32768)
    (h1 : 1 ≤ v) (hv : v ≤ 40) (h21 : v ≠ 21) (hR : Stretches img0 (side v) M L) (hM : Patterned v M)
    (hI : L.InRange (side v)) (hO : L.Only img0 (side v))
    (code : BitGrid) (hc : code.size = side v) (hm : ∀ y x, y < side v → x < side v → code.bit y x = .ok (M y x)) :
    ∃ img g, img0.detect_grids F = .ok (img, [g]) ∧ ∀ {σ : Type} (W : Writer σ) (w : σ),
      Grid.decode_to W (RefGridImage g.location img) w = Grid.decode_to W code w := by
  have hs : side v = 17 + 4 * v := rfl
  obtain ⟨img, g, e, e1, e2, -⟩ := C72_detected F h0 hw hh h1 hv h21 hR hM hI hO
  refine ⟨img, g, e, fun W w => ?_⟩
  have s1 : (RefGridImage g.location img).size = side v := e1
  exact decode_congr (m := M) (fun y x hy hx => e2 y x (s1 ▸ hy) (s1 ▸ hx)) (fun y x hy hx => hm y x (hc ▸ hy) (hc ▸ hx))
    (s1.trans hc.symm) (by rw [s1]; omega) W w

/-- **C72.** From bitmap to text: every message that fits into a symbol of any version but 21 has a matrix such that every picture of it,
resized to any width and height of at least seven pixels per module by taking for each pixel the module it falls in, and prepared with
`prepare_from_bitmap`, has exactly one grid, and that decodes to the message. -/
theorem C72_message (v : Nat) (h1 : 1 ≤ v) (h40 : v ≤ 40) (h21 : v ≠ 21) (l : Level) (mask : Nat)
    (hm : mask < 8) (ss : List Segment) (hss : ∀ s ∈ ss, s.Fits v) (hfit : (ss.flatMap (·.encode v)).length ≤ 8 * dataCount v l) :
    ∃ M, Patterned v M ∧ ∀ (w h : Nat) (Q : Resized), w ≤ 32768 → h ≤ 32768 → Q.Fits w h (side v) →
      (Q.layout (side v)).InRange (side v) →
      ∃ img0, PreparedImage.prepare_from_bitmap w h (fun _ x y => (Q.dark (side v) M x y, ())) () = (.ok img0, ()) ∧
        ((Q.layout (side v)).Only img0 (side v) → ∀ (F : Type) [FloatOps F] [Rounding F], ∃ img g, img0.detect_grids F = .ok (img, [g]) ∧
          ∀ out, Grid.decode_to vecWriter (RefGridImage g.location img) out =
            (.ok { version := v, ecc_level := l.bits, mask := mask }, out ++ ss.flatMap (·.payload))) := by
  obtain ⟨M, m1, m2⟩ := C54_every_message_has_a_symbol v h1 h40 h21 l mask hm ss hss hfit (blank v)
  have hM := Patterned.transfer h1 h40 (blank_patterned h1 h40) m1
  have hs : side v = 17 + 4 * v := rfl
  refine ⟨M, hM, ?_⟩
  intro w h Q hw hh hF hI
  have hsize : w * h < 2 ^ 64 := by
    have : w * h ≤ 32768 * 32768 := Nat.mul_le_mul hw hh
    omega
  obtain ⟨img0, e, h0, ew, eh, ev⟩ := C34_from_bitmap w h (fun _ x y => (Q.dark (side v) M x y, ())) () hsize
  refine ⟨img0, e, fun hO F _ _ => ?_⟩
  obtain ⟨img, g, d, d1, d2, -⟩ := C72_detected F h0 (by omega) (by omega) h1 h40 h21 (resized_bitmap (by omega) hF ew eh ev) hM hI hO
  refine ⟨img, g, d, ?_⟩
  have s1 : (RefGridImage g.location img).size = side v := d1
  exact m2 _ (fun y x hy hx => d2 y x (s1 ▸ hy) (s1 ▸ hx)) s1

/-! The version 1-M symbol for `hi` of C57, upside down and brought to 149 by 156 pixels: columns of modules and rows of modules are seven or eight
pixels wide. -/

def hiResized : Resized := ⟨⟨149, 156⟩, ⟨-1, 0⟩, 149, 156⟩

theorem hiResized_only : onlyLayout 151 158 (hiResized.dark 21 hi) 21 (hiResized.layout 21) = true := by decide +kernel

/-- The hypotheses of C72 hold for this picture, and so the text is read. -/
theorem hiResized_read {img0 : PreparedImage BasicImageBuffer} (h0 : Fresh img0) (ew : width img0.buffer = 151) (eh : height img0.buffer = 158)
    (ev : ∀ x y, x < 151 → y < 158 → (LawfulImage.view img0.buffer x y = 1 ↔ hiResized.dark 21 hi x y = true)) :
    ∃ img g, img0.detect_grids F = .ok (img, [g]) ∧
      Grid.decode (RefGridImage g.location img) = .ok ({ version := 1, ecc_level := 0, mask := 1 }, "hi") := by
  have hF : hiResized.Fits 151 158 21 := ⟨.inr (.inr (.inl rfl)), by decide, by decide, by decide, by rintro p rfl; decide⟩
  have hO : (hiResized.layout 21).Only img0 21 := onlyLayout_spec hF.axis (by decide) (by omega) ew eh ev hiResized_only
  obtain ⟨img, g, d, d1, d2, -⟩ := C72_detected F (v := 1) h0 (by omega) (by omega) (by omega) (by omega) (by omega)
    (resized_bitmap (by norm_num) hF ew eh ev) hi_patterned ⟨by decide, by decide⟩ hO
  refine ⟨img, g, d, ?_⟩
  rw [C22_decode_ok]
  have s1 : (RefGridImage g.location img).size = 21 := d1
  have := decode_congr (code := RefGridImage g.location img) (code' := hiGrid) (m := hi)
    (fun y x hy hx => d2 y x (d1 ▸ hy) (d1 ▸ hx)) (fun _ _ _ _ => rfl) s1 (by rw [s1]; omega) vecWriter []
  exact this.trans (hi_decodes.trans (by decide))

example : ∃ img0, PreparedImage.prepare_from_bitmap 151 158 (fun _ x y => (hiResized.dark 21 hi x y, ())) () = (.ok img0, ()) ∧
    ∃ img g, img0.detect_grids F64 = .ok (img, [g]) ∧
      Grid.decode (RefGridImage g.location img) = .ok ({ version := 1, ecc_level := 0, mask := 1 }, "hi") := by
  obtain ⟨img0, e, h0, ew, eh, ev⟩ := C34_from_bitmap 151 158 (fun _ x y => (hiResized.dark 21 hi x y, ())) () (by norm_num)
  exact ⟨img0, e, hiResized_read F64 h0 ew eh ev⟩

end Rqrr
