import Verif.Props.Source
import Verif.Proofs.Packed

/-!
# C68, C70: images that make the detection panic
-/

namespace Rqrr

open Spec ImageBuffer LawfulImage

/-- Half of a round finder pattern cut off by the upper edge, a speck under it, and two finder patterns. -/
def cutOff : List Nat :=
  [0b110011111001100,
   0b011011111011000,
   0b001100000110000,
   0b000111111100000,
   0b000000000100000,
   0b000000000000000,
   0b111111101111111,
   0b100000101000001,
   0b101110101011101,
   0b101110101011101,
   0b101110101011101,
   0b100000101000001,
   0b111111101111111]

/-- Its pixels. -/
def cutOffAt (x y : Nat) : Bool := (cutOff.getD y 0).testBit (14 - x)

/-- The corners of the capstones found in it. -/
def cutOffCorners : List (List (Int × Int)) :=
  [[(0, 0), (11, 0), (12, 0), (9, 4)], [(0, 12), (0, 6), (6, 6), (6, 12)], [(8, 12), (8, 6), (14, 6), (14, 12)]]

/-- Whether a run panics. -/
def isPanic {α : Type} : Run α → Bool
  | .error .panic => true
  | _ => false

/-- Whether a run ends, and what it ends with passes a test. -/
def endsWith {α : Type} (r : Run α) (test : α → Bool) : Bool :=
  match r with
  | .ok a => test a
  | .error _ => false

theorem isPanic_eq {α : Type} {r : Run α} (h : isPanic r = true) : r = .error .panic := by
  unfold isPanic at h
  split at h
  · rfl
  · cases h

theorem endsWith_eq {α : Type} {r : Run α} {test : α → Bool} (h : endsWith r test = true) : ∃ a, r = .ok a ∧ test a = true := by
  unfold endsWith at h
  split at h
  · exact ⟨_, rfl, h⟩
  · cases h

theorem same_result {α : Type} {r : Run α} {a b : α} (h : r = .ok a) (h' : r = .ok b) : a = b := by
  rw [h] at h'
  injection h'

/-- What happens with this image. -/
def cutOffTest : Bool :=
  endsWith (capstones_from_image F64 (Packed.bitmap 15 13 cutOffAt)) fun found =>
    decide (found.2.map (fun c => c.corners.toList.map fun p => (p.x, p.y)) = cutOffCorners) &&
    isPanic ((Packed.bitmap 15 13 cutOffAt).detect_grids F64)

theorem cutOff_checked : cutOffTest = true := by decide +kernel

/-- What happens with a bitmap, packed into a number, happens with it. -/
theorem packed_panic {w h : Nat} {f : Nat → Nat → Bool} {img : PreparedImage BasicImageBuffer} (hs : SameImage (Packed.bitmap w h f) img)
    (hp : (Packed.bitmap w h f).detect_grids F64 = .error .panic) : img.detect_grids F64 = .error .panic := by
  rcases sim_detect (F := F64) hs with e | ⟨_, _, e, -⟩ | ⟨_, e, e'⟩
  · rw [hp] at e; cases e
  · rw [hp] at e; cases e
  · rw [hp] at e; cases e; exact e'

theorem packed_capstones {w h : Nat} {f : Nat → Nat → Bool} {img : PreparedImage BasicImageBuffer} (hs : SameImage (Packed.bitmap w h f) img)
    {k : PreparedImage Packed} {stones : List (CapStone F64)} (hp : capstones_from_image F64 (Packed.bitmap w h f) = .ok (k, stones)) :
    ∃ img', capstones_from_image F64 img = .ok (img', stones) ∧ SameImage k img' := by
  rcases sim_capstones (F := F64) hs with e | ⟨⟨a, a'⟩, ⟨b, b'⟩, e, e', h1, h2⟩ | ⟨_, e, -⟩
  · rw [hp] at e; cases e
  · rw [hp] at e
    cases e
    dsimp only at h1 h2
    subst h2
    exact ⟨b, e', h1⟩
  · rw [hp] at e; cases e

/-- **C68.** There is an image for which the detection panics, in every build: a finder pattern is partly outside the image, and three
of the corners found for it are on one line. -/
theorem C68_cut_off : ∃ img : PreparedImage BasicImageBuffer, (PreparedImage.prepare_from_bitmap 15 13 (fun (_ : Unit) x y => (cutOffAt x y, ())) ()).1 = .ok img ∧
    (∃ img' stones, capstones_from_image F64 img = .ok (img', stones) ∧
      stones.map (fun c => c.corners.toList.map fun p => (p.x, p.y)) = cutOffCorners) ∧
    img.detect_grids F64 = .error .panic := by
  obtain ⟨img, e, hf, hw, hh, hv⟩ := C34_from_bitmap 15 13 (fun (_ : Unit) x y => (cutOffAt x y, ())) () (by norm_num)
  have hs := Packed.same (w := 15) (h := 13) (f := cutOffAt) hf hw hh hv
  refine ⟨img, by rw [e], ?_⟩
  obtain ⟨found, e1, ht⟩ := endsWith_eq cutOff_checked
  have hc := of_decide_eq_true (Bool.and_eq_true_iff.1 ht).1
  obtain ⟨img', e2, -⟩ := packed_capstones hs e1
  exact ⟨⟨img', found.2, e2, hc⟩, packed_panic hs (isPanic_eq (Bool.and_eq_true_iff.1 ht).2)⟩

/-- The first of these capstones goes round a degenerate quadrilateral. -/
example : WeaklyConvex #v[⟨0, 0⟩, ⟨11, 0⟩, ⟨12, 0⟩, ⟨9, 4⟩] ∧ nextThree #v[⟨0, 0⟩, ⟨11, 0⟩, ⟨12, 0⟩, ⟨9, 4⟩] 3 = 0 ∧
    Convex #v[⟨0, 12⟩, ⟨0, 6⟩, ⟨6, 6⟩, ⟨6, 12⟩] := by
  refine ⟨⟨?_, ?_, ?_, ?_⟩, ?_, ?_, ?_, ?_, ?_⟩ <;> decide

/-- Three finder patterns standing on a corner, close to each other. -/
def closeBy : List Nat :=
  [0b00000000000000100000000000000,
   0b00000000000001110000000000000,
   0b00000000000011011000000000000,
   0b00000000000110001100000000000,
   0b00000000001100100110000000000,
   0b00000000011001110011000000000,
   0b00000000110011111001100000000,
   0b00000000011001110011000000000,
   0b00000010001100100110001000000,
   0b00000111000110001100011100000,
   0b00001101100011011000110110000,
   0b00011000110001110001100011000,
   0b00110010011001110011001001100,
   0b01100111001110001110011100110,
   0b11001111100111001100111110011,
   0b01100111001100000110011100110,
   0b00110010011000000011001001100,
   0b00011000110000000001100011000,
   0b00001101100000000000110110000,
   0b00000111000000000000011100000,
   0b00000010000000000000001000000]

/-- Its pixels. -/
def closeByAt (x y : Nat) : Bool := (closeBy.getD y 0).testBit (28 - x)

/-- The corners of the finder patterns found in it: on the left, at the top, on the right. -/
def closeByCorners : List (Vector Point 4) :=
  [#v[⟨0, 14⟩, ⟨6, 8⟩, ⟨13, 14⟩, ⟨6, 20⟩], #v[⟨8, 6⟩, ⟨14, 0⟩, ⟨20, 6⟩, ⟨13, 12⟩], #v[⟨16, 13⟩, ⟨22, 8⟩, ⟨28, 14⟩, ⟨22, 20⟩]]

/-- What happens with three capstones. -/
def noChangesTest {S : Type} [ImageBuffer S] (img : PreparedImage S) (a b c : CapStone F64) : Bool :=
  endsWith (rotate_capstone (sides a b c).1 a.center (sides a b c).2.2) fun a' =>
  endsWith (rotate_capstone b a.center (sides a b c).2.2) fun b' =>
  endsWith (rotate_capstone (sides a b c).2.1 a.center (sides a b c).2.2) fun c' =>
    isPanic (measure_timing_pattern img ⟨a', b', c'⟩)

/-- What happens with this image. -/
def closeByTest : Bool :=
  endsWith (capstones_from_image F64 (Packed.bitmap 29 21 closeByAt)) fun found =>
    match found.2 with
    | [b, a, c] => decide ([a, b, c].map (fun c => c.corners) = closeByCorners) && noChangesTest found.1 a b c &&
        isPanic ((Packed.bitmap 29 21 closeByAt).detect_grids F64)
    | _ => false

theorem closeBy_checked : closeByTest = true := by decide +kernel

/-- Three capstones found, measured with a panic: there are no changes of colour between them. -/
theorem noChanges {S : Type} [ImageBuffer S] [LawfulImage S] {img0 img : PreparedImage S} {claims : Pos → Option Claim}
    (h0 : Fresh img0) (hw : width img0.buffer ≤ 32768) (hh : height img0.buffer ≤ 32768) (hpos : 0 < width img0.buffer)
    (hhp : 0 < height img0.buffer) (hH : History img0 claims img) {ya yb yc : Nat} {pa pb pc : LinePosition} {a b c : CapStone F64}
    (ha : CapstoneAt img0 ya pa a) (hb : CapstoneAt img0 yb pb b) (hc : CapstoneAt img0 yc pc c) (ht : noChangesTest img a b c = true) :
    ∃ a' b' c', TurnedOff a.center (sides a b c).2.2 (sides a b c).1 a' ∧ TurnedOff a.center (sides a b c).2.2 b b' ∧
      TurnedOff a.center (sides a b c).2.2 (sides a b c).2.1 c' ∧ Measured img a' b' c' 0 := by
  obtain ⟨a', ea, ht⟩ := endsWith_eq ht
  obtain ⟨b', eb, ht⟩ := endsWith_eq ht
  obtain ⟨c', ec, ht⟩ := endsWith_eq ht
  have em := isPanic_eq ht
  obtain ⟨hs, hd⟩ := sides_cases a b c
  obtain ⟨_, _, fa⟩ : ∃ y p, CapstoneAt img0 y p (sides a b c).1 := by
    rcases hs with ⟨e, -⟩ | ⟨e, -⟩ <;> rw [e]
    exacts [⟨_, _, ha⟩, ⟨_, _, hc⟩]
  obtain ⟨_, _, fc⟩ : ∃ y p, CapstoneAt img0 y p (sides a b c).2.1 := by
    rcases hs with ⟨-, e⟩ | ⟨-, e⟩ <;> rw [e]
    exacts [⟨_, _, hc⟩, ⟨_, _, ha⟩]
  have turn : ∀ {y : Nat} {pos : LinePosition} {cap cap' : CapStone F64}, CapstoneAt img0 y pos cap →
      rotate_capstone cap a.center (sides a b c).2.2 = .ok cap' → TurnedOff a.center (sides a b c).2.2 cap cap' ∧ Framing cap' := by
    intro y pos cap cap' h e
    rcases turn_found hw hh ha hc h hd with ⟨-, e'⟩ | ⟨cap'', e', k1, k2⟩
    · rw [e] at e'; cases e'
    · rw [e] at e'; cases e'; exact ⟨k1, k2⟩
  obtain ⟨ta, ga⟩ := turn fa ea
  obtain ⟨tb, gb⟩ := turn hb eb
  obtain ⟨tc, gc⟩ := turn fc ec
  obtain ⟨hinv, hw', hh'⟩ := history_inv h0 hH
  obtain ⟨n, hm, e⟩ := C70_measure (img := img) hinv.ok.painted.valid (by rw [hw']; exact hpos) (by rw [hh']; exact hhp) ga gb gc
  rw [em] at e
  by_cases hn : n = 0
  · subst hn; exact ⟨a', b', c', ta, tb, tc, hm⟩
  · rw [if_neg hn] at e; cases e

/-- The test has the same outcome in images with the same pixels. -/
theorem noChangesTest_same {S T : Type} [ImageBuffer S] [LawfulImage S] [GuardedImage S] [ImageBuffer T] [LawfulImage T] {i : PreparedImage S} {j : PreparedImage T} (h : SameImage i j)
    {a b c : CapStone F64} (ht : noChangesTest i a b c = true) : noChangesTest j a b c = true := by
  obtain ⟨a', ea, ht⟩ := endsWith_eq ht
  obtain ⟨b', eb, ht⟩ := endsWith_eq ht
  obtain ⟨c', ec, ht⟩ := endsWith_eq ht
  have em := isPanic_eq ht
  unfold noChangesTest
  rw [ea, eb, ec]
  show isPanic (measure_timing_pattern j ⟨a', b', c'⟩) = true
  rcases sim_measure h ⟨a', b', c'⟩ with e | ⟨_, _, e, -⟩ | ⟨_, e, e'⟩
  · rw [em] at e; cases e
  · rw [em] at e; cases e
  · rw [em] at e; cases e; rw [e']; rfl

/-- **C70.** There is an image for which the detection panics although all finder patterns found in it have proper corners: there are
no changes of colour between them. -/
theorem C70_no_changes : ∃ img : PreparedImage BasicImageBuffer, (PreparedImage.prepare_from_bitmap 29 21 (fun (_ : Unit) x y => (closeByAt x y, ())) ()).1 = .ok img ∧
    (∃ img' a b c a' b' c', capstones_from_image F64 img = .ok (img', [b, a, c]) ∧ [a, b, c].map (fun c => c.corners) = closeByCorners ∧
      TurnedOff a.center (sides a b c).2.2 (sides a b c).1 a' ∧ TurnedOff a.center (sides a b c).2.2 b b' ∧
      TurnedOff a.center (sides a b c).2.2 (sides a b c).2.1 c' ∧ Measured img' a' b' c' 0) ∧
    img.detect_grids F64 = .error .panic := by
  obtain ⟨img, e, hf, hw, hh, hv⟩ := C34_from_bitmap 29 21 (fun (_ : Unit) x y => (closeByAt x y, ())) () (by norm_num)
  have hs := Packed.same (w := 29) (h := 21) (f := closeByAt) hf hw hh hv
  refine ⟨img, by rw [e], ?_⟩
  obtain ⟨⟨k, stones⟩, e1, ht⟩ := endsWith_eq closeBy_checked
  dsimp only at ht
  obtain ⟨img', e2, hs'⟩ := packed_capstones hs e1
  split at ht
  · rename_i b a c
    have h1 := Bool.and_eq_true_iff.1 ht
    have h2 := Bool.and_eq_true_iff.1 h1.1
    obtain ⟨claims, img1, _, e3, hH, ⟨places, hp, -⟩, -⟩ := C51_search (F := F64) hf (by rw [hw]; norm_num) (by rw [hh]; norm_num)
      (by rw [hw]; norm_num) C51_centres
    have := same_result e2 e3
    cases this
    cases hp with
    | cons pb hp =>
    cases hp with
    | cons pa hp =>
    cases hp with
    | cons pc hp =>
    obtain ⟨a', b', c', h3⟩ := noChanges hf (by rw [hw]; norm_num) (by rw [hh]; norm_num) (by rw [hw]; norm_num) (by rw [hh]; norm_num) hH
      pa.1 pb.1 pc.1 (noChangesTest_same hs' h2.2)
    exact ⟨⟨img', a, b, c, a', b', c', e2, of_decide_eq_true h2.1, h3⟩, packed_panic hs (isPanic_eq h1.2)⟩
  · cases ht

/-- The corners are proper. -/
example : ∀ r ∈ closeByCorners, Convex r := by
  intro r hr
  simp only [closeByCorners, List.mem_cons, List.not_mem_nil, or_false] at hr
  rcases hr with rfl | rfl | rfl <;> refine ⟨?_, ?_, ?_, ?_⟩ <;> decide

end Rqrr
