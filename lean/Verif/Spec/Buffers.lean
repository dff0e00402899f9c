import Verif.Spec.Image

/-!
# Images in different buffers
-/

namespace Rqrr.Spec

open ImageBuffer LawfulImage

variable {S T : Type} [ImageBuffer S] [LawfulImage S] [ImageBuffer T] [LawfulImage T]

/-- Two buffers with the same pixels. -/
structure SamePixels (s : S) (t : T) : Prop where
  valid : Valid s
  valid' : Valid t
  width : width s = width t
  height : height s = height t
  view : ∀ x y, x < ImageBuffer.width s → y < ImageBuffer.height s → view s x y = LawfulImage.view t x y

end Rqrr.Spec
