import Verif.Proofs.Finder
import Verif.Proofs.Perspective
import Verif.Spec.Exact
import Verif.Proofs.CentresRounded
import Mathlib.Tactic.IntervalCases

/-!
# Finding capstones: C40, C41, C42, C51
-/

namespace Rqrr

open Spec ImageBuffer LawfulImage

/-! ## C40: the line scanner -/

/-- The scanner after the first `x` pixels of a line, as `capstones_from_image` drives it (src/detect.rs:38-41). -/
def scanTo (f : Nat → PixelColor) (x : Nat) : Run LineScanner :=
  forRange 1 x (LineScanner.new (f 0)) fun i s => do
    let r ← s.advance (f i)
    pure r.2

/-- **C40.** After the first `x` pixels of any line, the next pixel makes the scanner report a candidate iff it is white, the
one before is not, and the five runs before it fit 1:1:3:1:1; the positions are the starts of the first, third and fifth
of these runs. -/
theorem C40_candidates (f : Nat → PixelColor) (x : Nat) (hx : 1 ≤ x) :
    ∃ s, scanTo f x = .ok s ∧ ∃ o s', s.advance (f x) = .ok (o, s') ∧
      ∀ pos, o = some pos ↔ f x = .White ∧ f (x - 1) ≠ .White ∧ FinderRuns f x pos := by
  unfold scanTo
  obtain ⟨s, e, b, n, t, h1, h2, h3⟩ := forRange_ok (lo := 1) (hi := x) (s := LineScanner.new (f 0))
    (f := fun i s => do
      let r ← s.advance (f i)
      pure r.2)
    (fun i s => ∃ b n t, Scanned s f i b n t ∧ b = f (i - 1) ∧ s.last_color = b) hx
    ⟨_, _, _, scanned_new f _, rfl, rfl⟩
    (by
      rintro i s - - ⟨b, n, t, h1, h2, h3⟩
      obtain ⟨o, s', b', n', t', e, l, hs, hb, -⟩ := advance_ok h1 (c := f i) (by rw [h3])
      refine ⟨s', by rw [e]; rfl, b', n', t', hs, hb, ?_⟩
      rw [l, hb])
  obtain ⟨o, s', b', n', t', e', l, hs, hb, ho⟩ := advance_ok h1 (c := f x) (by rw [h3])
  refine ⟨s, e, o, s', e', fun pos => ?_⟩
  rw [ho pos, h3, h2]

/-- **C40.** Perfect patterns of any scale fit, and fitting lengths are between a quarter and seven quarters of a module,
and the middle one between nine and fifteen quarters. -/
theorem C40_ratio : (∀ k, FinderRatio k k (3 * k) k k) ∧ ∀ a b c d e, FinderRatio a b c d e →
    ∃ m, m * 4 ≤ a + b + d + e ∧ a + b + d + e < m * 4 + 4 ∧ (∀ l ∈ [a, b, d, e], m ≤ 4 * l ∧ 4 * l ≤ 7 * m) ∧
      9 * m ≤ 4 * c ∧ 4 * c ≤ 15 * m := by
  constructor
  · intro k
    unfold FinderRatio
    dsimp only
    omega
  · intro a b c d e h
    unfold FinderRatio at h
    dsimp only at h
    refine ⟨(a + b + d + e) / 4, by omega, by omega, ?_, by omega, by omega⟩
    intro l hl
    simp only [List.mem_cons, List.not_mem_nil, or_false] at hl
    omega

/-- The line of the pattern: quiet zone, then 2:2:6:2:2, then white. -/
def sampleLine : List Nat := [3, 2, 2, 6, 2, 2, 1]

/-- The colours of `sampleLine`. -/
def sampleColor (i : Nat) : PixelColor :=
  if (3 ≤ i ∧ i < 5) ∨ (7 ≤ i ∧ i < 13) ∨ (15 ≤ i ∧ i < 17) then .Black else .White

example : FinderRuns sampleColor 17 ⟨3, 7, 15⟩ := by
  refine ⟨5, 13, ⟨by decide, ?_, ?_⟩, ⟨by decide, ?_, ?_⟩, ⟨by decide, ?_, ?_⟩, ⟨by decide, ?_, ?_⟩, ⟨by decide, ?_, ?_⟩, by show FinderRatio 2 2 6 2 2; exact C40_ratio.1 2⟩
  all_goals first | (right; decide) | (intro i h1 h2; dsimp only at h1 h2; interval_cases i <;> rfl)

/-! ## C41: confirming a candidate -/

variable {S : Type} [ImageBuffer S] [LawfulImage S]

/-- **C41.** For any candidate on black pixels, after any history of the image, the check succeeds without panic, changes no
claim, and accepts exactly if the outer runs are in one unclaimed region and the stone in a different unclaimed one of
between 11 and 69 percent of its area. -/
theorem C41_confirm {img0 img : PreparedImage S} {claims : Pos → Option Claim} (h0 : Fresh img0) (h : History img0 claims img)
    (hsize : width img0.buffer * height img0.buffer * 100 < 2 ^ 64) {pos : LinePosition} {y : Nat}
    (hl : IsBlack img0 (pos.left, y)) (hs : IsBlack img0 (pos.stone, y)) (hr : IsBlack img0 (pos.right, y)) :
    ∃ b img', is_capstone img pos y = .ok (b, img') ∧ History img0 claims img' ∧
      (b = true ↔ claims (pos.right, y) = none ∧ claims (pos.stone, y) = none ∧ RingAndStone img0 y pos) :=
  is_capstone_ok h0 h hsize hl hs hr

/-! ## C42: corners -/

/-- **C42.** The first corner finder claims the region and returns a pixel of it at maximal distance from its start point. -/
theorem C42_first {img0 img : PreparedImage S} {claims : Pos → Option Claim} (h0 : Fresh img0) (h : History img0 claims img)
    (hw : width img0.buffer ≤ 32768) (hh : height img0.buffer ≤ 32768) {x y : Nat} (hb : IsBlack img0 (x, y))
    (c : Claim) (hc : claims (x, y) ≠ some c) {a : Point} (ha : 0 ≤ a.x ∧ a.x ≤ 32767 ∧ 0 ≤ a.y ∧ a.y ≤ 32767) :
    ∃ img' f, img.repaint_and_apply FirstCornerFinder.update x y c.color (.new a) = .ok (img', f) ∧
      History img0 (claimRegion (IsBlack img0) (x, y) c claims) img' ∧
      ∃ p, f.best = point p ∧ Reach (IsBlack img0) (x, y) p ∧
        ∀ q, Reach (IsBlack img0) (x, y) q → dist2 a (point q) ≤ dist2 a (point p) :=
  first_corner h0 h hw hh hb c hc ha

/-- **C42.** Building a capstone claims the ring; the corners are the extreme points of the ring along and across the
direction of its farthest pixel; the rest of the capstone is the transform for these corners, with any arithmetic. -/
theorem C42_corners (F : Type) [FloatOps F] {img0 img : PreparedImage S} {claims : Pos → Option Claim} (h0 : Fresh img0)
    (h : History img0 claims img) (hw : width img0.buffer ≤ 32768) (hh : height img0.buffer ≤ 32768) {pos : LinePosition} {y : Nat}
    (hr : IsBlack img0 (pos.right, y)) (hc : claims (pos.right, y) = none) :
    ∃ r img', ExtremeCorners (IsBlack img0) (pos.right, y) r ∧
      History img0 (claimRegion (IsBlack img0) (pos.right, y) .CapStone claims) img' ∧
      create_capstone F img pos y = (match Perspective.create (F := F) r (FloatOps.lit 7 0) (FloatOps.lit 7 0) with
        | none => .ok (none, img')
        | some c => do
          let m ← c.map (FloatOps.lit 35 1) (FloatOps.lit 35 1)
          .ok (some { corners := r, center := m, c := c }, img')) :=
  create_capstone_ok F h0 h hw hh hr hc

/-- **C42.** Extreme corners of a region go round a convex quadrilateral. -/
theorem C42_convex {B : Pos → Prop} {p : Pos} {r : Vector Point 4} (h : ExtremeCorners B p r) : WeaklyConvex r :=
  corners_convex h

/-- **C42.** The leftmost finder claims the region and returns a pixel of it that is extreme across the given line. -/
theorem C42_leftmost {img0 img : PreparedImage S} {claims : Pos → Option Claim} (h0 : Fresh img0) (h : History img0 claims img)
    (hw : width img0.buffer ≤ 32768) (hh : height img0.buffer ≤ 32768) {x y : Nat} (hb : IsBlack img0 (x, y))
    (c : Claim) (hc : claims (x, y) ≠ some c) {line : Point}
    (hl : -32767 ≤ line.x ∧ line.x ≤ 32767 ∧ -32767 ≤ line.y ∧ line.y ≤ 32767) :
    ∃ img' f', img.repaint_and_apply LeftMostFinder.update x y c.color
        { line_p := line, best := point (x, y), score := cross line (point (x, y)) } = .ok (img', f') ∧
      History img0 (claimRegion (IsBlack img0) (x, y) c claims) img' ∧
      ∃ p, f'.best = point p ∧ Reach (IsBlack img0) (x, y) p ∧
        ∀ q, Reach (IsBlack img0) (x, y) q → cross line (point p) ≤ cross line (point q) :=
  left_most h0 h hw hh hb c hc hl

/-! ## C51: the whole search -/

variable {F : Type} [FloatOps F]

/-- **C51.** On every freshly prepared image of positive width, with sides up to 32768, the search for capstones succeeds.
* The final image arises from the prepared one by queries and by claiming rings.
* Every capstone belongs to a finder pattern, has the extreme corners of its ring, and its ring is claimed; no ring gives two
  capstones.
* Only rings of finder patterns are claimed, and each of them gave a capstone unless its corners are degenerate.
* No finder pattern is missed: its ring is claimed, or its stone is itself the ring of another one. -/
theorem C51_search {img0 : PreparedImage S} (h0 : Fresh img0) (hw : width img0.buffer ≤ 32768)
    (hh : height img0.buffer ≤ 32768) (hpos : 0 < width img0.buffer) (hF : CentresMap F) :
    ∃ claims img stones, capstones_from_image F img0 = .ok (img, stones) ∧ History img0 claims img ∧
      (∃ places : List (Nat × LinePosition),
        List.Forall₂ (fun k cap => CapstoneAt img0 k.1 k.2 cap ∧ claims (k.2.right, k.1) = some .CapStone) places stones ∧
        places.Pairwise fun k k' => ¬ Reach (IsBlack img0) (k.2.right, k.1) (k'.2.right, k'.1)) ∧
      (∀ p c, claims p = some c → c = .CapStone ∧ ∃ y x pos, FinderShape img0 y x pos ∧ RingAndStone img0 y pos ∧
        Reach (IsBlack img0) (pos.right, y) p ∧ ((∃ cap ∈ stones, CapstoneAt img0 y pos cap) ∨
          ∃ r, ExtremeCorners (IsBlack img0) (pos.right, y) r ∧
            Perspective.create (F := F) r (FloatOps.lit 7 0) (FloatOps.lit 7 0) = none)) ∧
      (∀ y x pos, FinderShape img0 y x pos → RingAndStone img0 y pos →
        claims (pos.right, y) = some .CapStone ∨ claims (pos.stone, y) = some .CapStone) := by
  obtain ⟨claims, img, stones, e, k⟩ := capstones_ok h0 hw hh hpos hF
  exact ⟨claims, img, stones, e, k.history, k.sound, k.claimed, fun y x pos h1 h2 =>
    k.complete y x pos (finder_black h1).1.2.1 h1 h2⟩

/-- **C51.** With exact arithmetic the centre is always a point, a weighted mean of the corners before rounding. -/
theorem C51_exact (r : Vector Point 4) (c : Perspective ℚ) (hv : WeaklyConvex r) (hc : Perspective.create r 7 7 = some c) :
    ∃ k0 k1 k2 k3 : ℚ, 0 ≤ k0 ∧ 0 ≤ k1 ∧ 0 ≤ k2 ∧ 0 ≤ k3 ∧ k0 + k1 + k2 + k3 = 1 ∧
      c.mapF (7 / 2) (7 / 2) = (k0 * r[0].x + k1 * r[1].x + k2 * r[2].x + k3 * r[3].x,
        k0 * r[0].y + k1 * r[1].y + k2 * r[2].y + k3 * r[3].y) := by
  obtain ⟨hb, -⟩ := Exact.create_some hc
  obtain ⟨v1, v2, v3, v4⟩ := hv
  have a1 : (0 : ℚ) ≤ area2 r[0] r[1] r[2] := by exact_mod_cast v1
  have a2 : (0 : ℚ) ≤ area2 r[0] r[1] r[3] := by exact_mod_cast v2
  have a3 : (0 : ℚ) ≤ area2 r[0] r[2] r[3] := by exact_mod_cast v3
  have a4' : (0 : ℚ) ≤ area2 r[1] r[2] r[3] := by exact_mod_cast v4
  have a4 : (0 : ℚ) < area2 r[1] r[2] r[3] := lt_of_le_of_ne a4' (Ne.symm hb.area)
  have hm := hb.map_eq (1 / 2) (1 / 2)
  have w0 : (Exact.weight r (1 / 2) (1 / 2))[0] = (area2 r[1] r[2] r[3] : ℚ) / 4 := by
    show ((1 : ℚ) - 1 / 2) * ((1 : ℚ) - 1 / 2) * area2 r[1] r[2] r[3] = _; ring
  have w1 : (Exact.weight r (1 / 2) (1 / 2))[1] = (area2 r[0] r[2] r[3] : ℚ) / 4 := by
    show (1 / 2 : ℚ) * ((1 : ℚ) - 1 / 2) * area2 r[0] r[2] r[3] = _; ring
  have w2 : (Exact.weight r (1 / 2) (1 / 2))[2] = (area2 r[0] r[1] r[3] : ℚ) / 4 := by
    show (1 / 2 : ℚ) * (1 / 2) * area2 r[0] r[1] r[3] = _; ring
  have w3 : (Exact.weight r (1 / 2) (1 / 2))[3] = (area2 r[0] r[1] r[2] : ℚ) / 4 := by
    show ((1 : ℚ) - 1 / 2) * (1 / 2) * area2 r[0] r[1] r[2] = _; ring
  rw [w0, w1, w2, w3, show (1 / 2 : ℚ) * 7 = 7 / 2 by norm_num] at hm
  rw [hm]
  generalize (area2 r[0] r[1] r[2] : ℚ) = A1 at *
  generalize (area2 r[0] r[1] r[3] : ℚ) = A2 at *
  generalize (area2 r[0] r[2] r[3] : ℚ) = A3 at *
  generalize (area2 r[1] r[2] r[3] : ℚ) = A4 at *
  have ht : 0 < A4 / 4 + A3 / 4 + A2 / 4 + A1 / 4 := by linarith
  refine ⟨A4 / 4 / (A4 / 4 + A3 / 4 + A2 / 4 + A1 / 4), A3 / 4 / (A4 / 4 + A3 / 4 + A2 / 4 + A1 / 4),
    A2 / 4 / (A4 / 4 + A3 / 4 + A2 / 4 + A1 / 4), A1 / 4 / (A4 / 4 + A3 / 4 + A2 / 4 + A1 / 4),
    div_nonneg (by linarith) ht.le, div_nonneg (by linarith) ht.le, div_nonneg (by linarith) ht.le,
    div_nonneg (by linarith) ht.le, ?_, ?_⟩
  · rw [← add_div, ← add_div, ← add_div, div_self ht.ne']
  · rw [add_div, add_div, add_div, add_div, add_div, add_div]
    simp only [mul_div_right_comm]

/-- **C51.** Correctly rounded arithmetic meets the requirement of `C51_search`: centres of capstones never panic. With exact arithmetic there
is a transform for the same corners, and the centre, before it is rounded to pixels, is within a millionth of a pixel of the exact one. -/
theorem C51_centre [Rounding F] (r : Vector Point 4) (c : Perspective F) (hv : WeaklyConvex r)
    (hr : ∀ (j : Nat) (hj : j < 4), 0 ≤ r[j].x ∧ r[j].x ≤ 32767 ∧ 0 ≤ r[j].y ∧ r[j].y ≤ 32767)
    (hc : Perspective.create r (FloatOps.lit 7 0) (FloatOps.lit 7 0) = some c) :
    ∃ q, Perspective.create r (7 : ℚ) 7 = some q ∧ ∃ x y, c.map (FloatOps.lit 35 1) (FloatOps.lit 35 1) = .ok ⟨nearest x, nearest y⟩ ∧
      |x - (q.mapF (7 / 2) (7 / 2)).1| ≤ 1 / 10 ^ 6 ∧ |y - (q.mapF (7 / 2) (7 / 2)).2| ≤ 1 / 10 ^ 6 := by
  have hw : Within r := by
    intro k hk
    obtain ⟨h1, h2, h3, h4⟩ := hr k hk
    rw [abs_le, abs_le]
    omega
  have h7 : IntB (FloatOps.lit 7 0 : F) 7 200 := IntB.lit (m := 7) (by norm_num) (by norm_num)
  cases hq : Perspective.create r (7 : ℚ) 7 with
  | none =>
    have := (create_rounded hw h7).1 hq
    rw [hc] at this
    cases this
  | some q => exact ⟨q, rfl, centre_rounded hw hv hq hc⟩

/-- **C51.** So it meets the requirement of `C51_search`. -/
theorem C51_centres [Rounding F] : CentresMap F := by
  intro r c hv hr hc
  obtain ⟨q, -, x, y, e, -⟩ := C51_centre r c hv hr hc
  exact ⟨_, e⟩

/-- **C51.** The restriction on the width is needed: images of width zero and positive height make the search panic. -/
theorem C51_zero_width (img : PreparedImage BasicImageBuffer) (hp : img.buffer.pixels.size = img.buffer.w * img.buffer.h)
    (hw : img.buffer.w = 0) (hh : 0 < img.buffer.h) : capstones_from_image F img = .error .panic := by
  have hrow : ∀ st, scan_row F 0 (img, st) = .error .panic := by
    intro st
    have : img.get_pixel_at 0 0 = .error .panic := by
      unfold PreparedImage.get_pixel_at
      have hz : img.buffer.pixels.size = 0 := by rw [hp, hw, Nat.zero_mul]
      have hg : get_pixel img.buffer 0 0 = .error .panic := by
        show (if h : 0 * img.buffer.w + 0 < img.buffer.pixels.size then _ else _) = _
        exact dif_neg (by omega)
      rw [hg]
      rfl
    unfold scan_row
    simp only [this]
    rfl
  unfold capstones_from_image forRange
  obtain ⟨n, hn⟩ : ∃ n, height img.buffer = n + 1 := ⟨img.buffer.h - 1, by show img.buffer.h = _; omega⟩
  rw [hn]
  show (scan_row F (n + 1 - (n + 1)) (img, []) >>= _) = _
  rw [Nat.sub_self, hrow]
  rfl

/-! ### An image with one finder pattern -/

/-- A finder pattern of 7 by 7 pixels with a white border. -/
def finderImage : PreparedImage BasicImageBuffer where
  buffer := { w := 9, h := 9, pixels := ((List.range 81).map fun i =>
    let x := i % 9
    let y := i / 9
    if 1 ≤ x ∧ x ≤ 7 ∧ 1 ≤ y ∧ y ≤ 7 ∧ ¬ (2 ≤ x ∧ x ≤ 6 ∧ 2 ≤ y ∧ y ≤ 6) ∨ (3 ≤ x ∧ x ≤ 5 ∧ 3 ≤ y ∧ y ≤ 5) then 1 else 0).toArray }
  cache := .new 251

/-- The capstones found, as data. -/
def found (r : Run (PreparedImage BasicImageBuffer × List (CapStone ℚ))) : Option (List (List Point × Point)) :=
  match r with
  | .ok (_, l) => some (l.map fun c => (c.corners.toList, c.center))
  | .error _ => none

theorem finderImage_found : found (capstones_from_image ℚ finderImage) =
    some [([⟨1, 7⟩, ⟨1, 1⟩, ⟨7, 1⟩, ⟨7, 7⟩], ⟨4, 4⟩)] := by decide +kernel

theorem finderImage_fresh : Fresh finderImage where
  valid := show finderImage.buffer.pixels.size = _ by decide +kernel
  bw := by
    intro x y hx hy
    have hx' : x < 9 := hx
    have hy' : y < 9 := hy
    have : ∀ y < 9, ∀ x < 9, finderImage.buffer.pixels.getD (y * 9 + x) 0 = 0 ∨ finderImage.buffer.pixels.getD (y * 9 + x) 0 = 1 := by
      decide +kernel
    exact this y hy' x hx'
  cache := rfl
  size := show 9 * 9 < 2 ^ 64 by decide

/-- The hypotheses and conclusions of C41, C42 and C51 are met by this image. -/
example : ∃ y pos cap, CapstoneAt (F := ℚ) finderImage y pos cap ∧ cap.center = ⟨4, 4⟩ := by
  obtain ⟨claims, img, stones, e, -, ⟨places, h1, -⟩, -⟩ := C51_search (F := ℚ) finderImage_fresh (show 9 ≤ 32768 by decide) (show 9 ≤ 32768 by decide)
    (show 0 < 9 by decide) C51_centres
  have hf := finderImage_found
  rw [e] at hf
  unfold found at hf
  cases h1 with
  | nil => cases hf
  | @cons k cap ks caps hk _ =>
    refine ⟨k.1, k.2, cap, hk.1, ?_⟩
    simp only [List.map_cons, Option.some.injEq, List.cons.injEq, Prod.mk.injEq] at hf
    exact hf.1.2

/-- It is no finder pattern if a pixel connects stone and ring. -/
example : found (capstones_from_image ℚ { finderImage with buffer := { finderImage.buffer with pixels :=
    (finderImage.buffer.pixels.setIfInBounds (4 * 9 + 2) 1) } }) = some [] := by decide +kernel


end Rqrr
