import Verif.Proofs.FramedAll
import Verif.Proofs.Blank
import Verif.Proofs.Rows
import Verif.Props.EndToEnd
import Verif.Proofs.Double

/-!
# C57: cleanly drawn symbols are found and read
-/

namespace Rqrr

open Spec ImageBuffer

variable (F : Type) [FloatOps F] [Rounding F]

variable {S : Type} [ImageBuffer S] [LawfulImage S] {img0 : PreparedImage S} {v : Nat} {M : Nat → Nat → Bool} {P : Placement}

/-- **C57.** A symbol of any version but 21 drawn into an image - in any of the four orientations, at any place within the first
10001 rows and columns, with any number of pixels per module from 2 up to the limit that C59 shows, and with arbitrary data modules - is the only one that is
detected, has the right size, and each of its modules reads as drawn; provided nothing else looks like a finder pattern. Data modules need
be right only in their middle. The image may contain anything else, apart from one light pixel around the finder patterns. The
corners reported are those of a drawing with one row and one column more. The arithmetic is any correctly rounded one: IEEE 754 double
precision as in the program (`F64`), or exact arithmetic. -/
theorem C57_detected (h0 : Fresh img0) (hw : width img0.buffer ≤ 32768) (hh : height img0.buffer ≤ 32768)
    (h1 : 1 ≤ v) (hv : v ≤ 40) (h21 : v ≠ 21) (hR : Renders img0 (side v) M P) (hM : Patterned v M)
    (hI : P.InRange (side v)) (hO : OnlyFinders img0 (side v) P) :
    ∃ img g, img0.detect_grids F = .ok (img, [g]) ∧ g.location.grid_size = side v ∧
      (∀ y x, y < side v → x < side v → (RefGridImage g.location img).bit y x = .ok (M y x)) ∧
      g.bounds = [P.pixel 0 0, P.pixel ((side v + 1 : Nat) * P.scale) 0,
        P.pixel ((side v + 1 : Nat) * P.scale) ((side v + 1 : Nat) * P.scale), P.pixel 0 ((side v + 1 : Nat) * P.scale)] := by
  have hs : side v = 17 + 4 * v := rfl
  obtain ⟨img, claims, c, e, hc, hist⟩ := detect_drawn (F := F) h0 hw hh h1 hv h21 hR hM hI hO
  exact ⟨img, _, e, rfl, fun y x hy hx => read_drawn h0 hist hw hh (by omega) (by omega) hR hc hy hx, rfl⟩

/-- **C57.** So decoding what is detected is decoding the matrix: `decode_to` with any writer gives the result and the output that
it gives for any grid with these modules. -/
theorem C57_decoded (h0 : Fresh img0) (hw : width img0.buffer ≤ 32768) (hh : height img0.buffer ≤ 32768)
    (h1 : 1 ≤ v) (hv : v ≤ 40) (h21 : v ≠ 21) (hR : Renders img0 (side v) M P) (hM : Patterned v M)
    (hI : P.InRange (side v)) (hO : OnlyFinders img0 (side v) P)
    (code : BitGrid) (hc : code.size = side v) (hm : ∀ y x, y < side v → x < side v → code.bit y x = .ok (M y x)) :
    ∃ img g, img0.detect_grids F = .ok (img, [g]) ∧ ∀ {σ : Type} (W : Writer σ) (w : σ),
      Grid.decode_to W (RefGridImage g.location img) w = Grid.decode_to W code w := by
  have hs : side v = 17 + 4 * v := rfl
  obtain ⟨img, g, e, e1, e2, -⟩ := C57_detected F h0 hw hh h1 hv h21 hR hM hI hO
  refine ⟨img, g, e, fun W w => ?_⟩
  have s1 : (RefGridImage g.location img).size = side v := e1
  exact decode_congr (m := M) (fun y x hy hx => e2 y x (s1 ▸ hy) (s1 ▸ hx)) (fun y x hy hx => hm y x (hc ▸ hy) (hc ▸ hx))
    (s1.trans hc.symm) (by rw [s1]; omega) W w

/-- **C57.** From bitmap to text: every message that fits into a symbol of any version but 21, at any level and with any mask, has a
matrix with the function patterns of the standard such that every clean drawing of it, prepared with `prepare_from_bitmap`, has
exactly one grid, and that decodes to the message. -/
theorem C57_message (v : Nat) (h1 : 1 ≤ v) (h40 : v ≤ 40) (h21 : v ≠ 21) (l : Level) (mask : Nat)
    (hm : mask < 8) (ss : List Segment) (hss : ∀ s ∈ ss, s.Fits v) (hfit : (ss.flatMap (·.encode v)).length ≤ 8 * dataCount v l) :
    ∃ M, Patterned v M ∧ ∀ (w h : Nat) (P : Placement), w ≤ 32768 → h ≤ 32768 → P.Fits w h (side v) →
      P.InRange (side v) →
      ∃ img0, PreparedImage.prepare_from_bitmap w h (fun _ x y => (P.dark (side v) M x y, ())) () = (.ok img0, ()) ∧
        (OnlyFinders img0 (side v) P → ∀ (F : Type) [FloatOps F] [Rounding F], ∃ img g, img0.detect_grids F = .ok (img, [g]) ∧ ∀ out,
          Grid.decode_to vecWriter (RefGridImage g.location img) out =
            (.ok { version := v, ecc_level := l.bits, mask := mask }, out ++ ss.flatMap (·.payload))) := by
  obtain ⟨M, m1, m2⟩ := C54_every_message_has_a_symbol v h1 h40 h21 l mask hm ss hss hfit (blank v)
  have hM := Patterned.transfer h1 h40 (blank_patterned h1 h40) m1
  refine ⟨M, hM, ?_⟩
  intro w h P hw hh hF hI
  have hsize : w * h < 2 ^ 64 := by
    have : w * h ≤ 32768 * 32768 := Nat.mul_le_mul hw hh
    omega
  obtain ⟨img0, e, h0, ew, eh, ev⟩ := C34_from_bitmap w h (fun _ x y => (P.dark (side v) M x y, ())) () hsize
  refine ⟨img0, e, fun hO F _ _ => ?_⟩
  obtain ⟨img, g, d, d1, d2, -⟩ := C57_detected F h0 (by omega) (by omega) h1 h40 h21 (pictures_bitmap hF ew eh ev).renders hM hI hO
  refine ⟨img, g, d, ?_⟩
  have s1 : (RefGridImage g.location img).size = side v := d1
  exact m2 _ (fun y x hy hx => d2 y x (s1 ▸ hy) (s1 ▸ hx)) s1

/-! A version 1-M symbol for `hi`, with mask 1. -/

def hiRows : List Nat :=
  [ 0b111111101001001111111,
    0b100000100110101000001,
    0b101110101100101011101,
    0b101110100101101011101,
    0b101110100001101011101,
    0b100000101110001000001,
    0b111111101010101111111,
    0b000000000000000000000,
    0b101000110011100100101,
    0b010100001100000000101,
    0b110011100001111110101,
    0b000100000010000000000,
    0b101111110101111111110,
    0b000000001000000000001,
    0b111111101011111111101,
    0b100000100010000000001,
    0b101110100001111111111,
    0b101110100110000000000,
    0b101110101101111111111,
    0b100000100000000000000,
    0b111111101011111111101 ]

def hi (y x : Nat) : Bool := (hiRows.getD y 0).testBit (20 - x)

def hiGrid : BitGrid := ⟨21, fun y x => .ok (hi y x)⟩

/-- Upside down, two pixels per module, with margins. -/
def hiPlace : Placement := ⟨⟨49, 49⟩, ⟨-1, 0⟩, 2⟩

theorem hi_patterned : Patterned 1 hi := by
  constructor
  · decide +kernel
  · decide +kernel

theorem hi_only : onlyFinders 58 58 (hiPlace.dark 21 hi) 21 hiPlace = true := by decide +kernel

theorem hi_decodes : Grid.decode_to vecWriter hiGrid [] = (.ok { version := 1, ecc_level := 0, mask := 1 }, [0x68, 0x69]) := by
  decide +kernel

/-- The hypotheses of C57 hold for this drawing, and so the text is read. -/
theorem hi_read {img0 : PreparedImage BasicImageBuffer} (h0 : Fresh img0) (ew : width img0.buffer = 58) (eh : height img0.buffer = 58)
    (ev : ∀ x y, x < 58 → y < 58 → (LawfulImage.view img0.buffer x y = 1 ↔ hiPlace.dark 21 hi x y = true)) :
    ∃ img g, img0.detect_grids F = .ok (img, [g]) ∧
      g.bounds = [⟨49, 49⟩, ⟨5, 49⟩, ⟨5, 5⟩, ⟨49, 5⟩] ∧
      Grid.decode (RefGridImage g.location img) = .ok ({ version := 1, ecc_level := 0, mask := 1 }, "hi") := by
  have hF : hiPlace.Fits 58 58 21 := ⟨.inr (.inr (.inl rfl)), le_refl _, by decide, by decide⟩
  have hO : OnlyFinders img0 21 hiPlace := onlyFinders_spec hF.axis (by omega) ew eh ev hi_only
  obtain ⟨img, g, d, d1, d2, d3⟩ := C57_detected F (v := 1) h0 (by omega) (by omega) (by omega) (by omega) (by omega)
    (pictures_bitmap hF ew eh ev).renders hi_patterned ⟨by decide, by decide⟩ hO
  refine ⟨img, g, d, d3, ?_⟩
  rw [C22_decode_ok]
  have s1 : (RefGridImage g.location img).size = 21 := d1
  have := decode_congr (code := RefGridImage g.location img) (code' := hiGrid) (m := hi)
    (fun y x hy hx => d2 y x (d1 ▸ hy) (d1 ▸ hx)) (fun _ _ _ _ => rfl) s1 (by rw [s1]; omega) vecWriter []
  exact this.trans (hi_decodes.trans (by decide))

example : ∃ img0, PreparedImage.prepare_from_bitmap 58 58 (fun _ x y => (hiPlace.dark 21 hi x y, ())) () = (.ok img0, ()) ∧
    ∃ img g, img0.detect_grids F64 = .ok (img, [g]) ∧
      g.bounds = [⟨49, 49⟩, ⟨5, 49⟩, ⟨5, 5⟩, ⟨49, 5⟩] ∧
      Grid.decode (RefGridImage g.location img) = .ok ({ version := 1, ecc_level := 0, mask := 1 }, "hi") := by
  obtain ⟨img0, e, h0, ew, eh, ev⟩ := C34_from_bitmap 58 58 (fun _ x y => (hiPlace.dark 21 hi x y, ())) () (by norm_num)
  exact ⟨img0, e, hi_read F64 h0 ew eh ev⟩

end Rqrr
