import Verif.Model.Identify

/-!
# Searching an image again
-/

namespace Rqrr.Spec

variable {S : Type} [ImageBuffer S]

/-- What may be made of an image by cloning it and searching it, in any order and any number of times. -/
inductive Later (F : Type) [FloatOps F] (img1 : PreparedImage S) : PreparedImage S → Prop where
  | same : Later F img1 img1
  | clone {img} (h : Later F img1 img) : Later F img1 img.clone
  | search {img img' grids} (h : Later F img1 img) (run : img.detect_grids F = .ok (img', grids)) : Later F img1 img'

end Rqrr.Spec
