import Verif.Spec.Patterns
import Verif.Spec.Regions
import Verif.Model.Identify

/-!
# Specification: how well a transform fits the function patterns
-/

namespace Rqrr.Spec

open ImageBuffer

variable {S : Type} [ImageBuffer S] [LawfulImage S]

/-- The point is a pixel of the image. -/
def Inside (img : PreparedImage S) (p : Point) : Prop :=
  0 ≤ p.x ∧ p.x < width img.buffer ∧ 0 ≤ p.y ∧ p.y < height img.buffer

/-- The pixel under the point is black. -/
def BlackAt (img : PreparedImage S) (p : Point) : Prop := IsBlack img (p.x.toNat, p.y.toNat)

/-- One sample: 1 for black, -1 for white, 0 outside of the image. -/
noncomputable def sampleScore (img : PreparedImage S) (p : Point) : Int :=
  open Classical in if Inside img p then (if BlackAt img p then 1 else -1) else 0

/-- The nine sample positions within a module, along one axis. -/
def sampleOffsets (F : Type) [FloatOps F] : List F := [FloatOps.lit 3 1, FloatOps.lit 5 1, FloatOps.lit 7 1]

/-- The transform takes the nine sample positions of the module in column `x`, row `y` to these points. -/
def SamplesAt {F : Type} [FloatOps F] (c : Perspective F) (x y : Int) (pt : F → F → Point) : Prop :=
  ∀ ou ∈ sampleOffsets F, ∀ ov ∈ sampleOffsets F,
    c.map (FloatOps.add (FloatOps.ofInt x) ou) (FloatOps.add (FloatOps.ofInt y) ov) = .ok (pt ou ov) ∧
      -(2 ^ 31) ≤ (pt ou ov).x ∧ (pt ou ov).x < 2 ^ 31 ∧ -(2 ^ 31) ≤ (pt ou ov).y ∧ (pt ou ov).y < 2 ^ 31

/-- The sum over the nine samples of a module. -/
noncomputable def moduleScore {F : Type} [FloatOps F] (img : PreparedImage S) (pt : F → F → Point) : Int :=
  ((sampleOffsets F).map fun ov => ((sampleOffsets F).map fun ou => sampleScore img (pt ou ov)).sum).sum

end Rqrr.Spec
