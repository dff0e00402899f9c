import Verif.Spec.Image
import Mathlib.Data.Set.Card

/-!
# Specification: regions, claims and histories of an image

A freshly prepared image is black or white everywhere. Its black pixels fall into 4-connected regions, and a region may be
claimed. This file says what a sequence of queries and claims means in these terms, without colours of pixels other than
black and white and without the cache.
-/

namespace Rqrr

open ImageBuffer LawfulImage

variable {S : Type} [ImageBuffer S] [LawfulImage S]

namespace Spec

/-- The three ways a region is claimed. -/
inductive Claim where
  | CapStone
  | Alignment
  | Tmp1
  deriving DecidableEq

/-- The colour of claimed pixels. -/
def Claim.color : Claim → PixelColor
  | .CapStone => .CapStone
  | .Alignment => .Alignment
  | .Tmp1 => .Tmp1

/-- The answer for a claimed region. -/
def Claim.region : Claim → ColoredRegion
  | .CapStone => .CapStone
  | .Alignment => .Alignment
  | .Tmp1 => .Tmp1

/-- The number of pixels of the region of `p`. -/
noncomputable def area (B : Pos → Prop) (p : Pos) : Nat := Set.ncard {q | Reach B p q}

end Spec

open Spec

/-- An image as it comes out of preparation: black and white, nothing cached. -/
structure Fresh (img : PreparedImage S) : Prop where
  valid : Valid img.buffer
  bw : ∀ x y, x < width img.buffer → y < height img.buffer → view img.buffer x y = 0 ∨ view img.buffer x y = 1
  cache : img.cache = .new 251
  size : width img.buffer * height img.buffer < 2 ^ 64

/-- The black pixels of a freshly prepared image. -/
def IsBlack (img : PreparedImage S) : Pos → Prop := HasColor img.buffer 1

/-- `History img0 claims img`: `img` results from `img0` by region queries, claims (repainting a region in one of the three
claim colours, with any filler) and clones; `claims` records the claim on the region of each pixel. -/
inductive History (img0 : PreparedImage S) : (Pos → Option Claim) → PreparedImage S → Prop where
  | start : History img0 (fun _ => none) img0
  | query {claims img img' x y reg} (h : History img0 claims img) (hx : x < width img0.buffer) (hy : y < height img0.buffer)
      (run : img.get_region x y = .ok (reg, img')) : History img0 claims img'
  | claim {claims claims' img img' x y} (h : History img0 claims img) (hx : x < width img0.buffer)
      (hy : y < height img0.buffer) (c : Claim) {φ : Type} {update : φ → Row → Run φ} {f f' : φ}
      (run : img.repaint_and_apply update x y c.color f = .ok (img', f'))
      (hit : ∀ p, Reach (IsBlack img0) (x, y) p → claims' p = some c)
      (miss : ∀ p, ¬ Reach (IsBlack img0) (x, y) p → claims' p = claims p) : History img0 claims' img'
  | clone {claims img} (h : History img0 claims img) : History img0 claims img.clone

end Rqrr
