import Verif.Model.Prepare
import Mathlib.Logic.Relation

/-!
# Specification: image buffers and connected regions
-/

namespace Rqrr

open ImageBuffer

/-- What an implementation of `ImageBuffer` must satisfy: inside the image, reads and writes succeed and behave like a table of
pixels. (`Valid` is the implementation's own invariant.) -/
class LawfulImage (S : Type) [ImageBuffer S] where
  Valid : S → Prop
  view : S → Nat → Nat → Byte
  get_ok : ∀ {s : S} {x y : Nat}, Valid s → x < width s → y < height s → get_pixel s x y = .ok (view s x y)
  set_ok : ∀ {s : S} {x y : Nat} (v : Byte), Valid s → x < width s → y < height s →
    ∃ s', set_pixel s x y v = .ok s' ∧ Valid s' ∧ width s' = width s ∧ height s' = height s ∧
      ∀ x' y', x' < width s → y' < height s → view s' x' y' = if x' = x ∧ y' = y then v else view s x' y'

namespace Spec

/-- A pixel position `(x, y)`. -/
abbrev Pos := Nat × Nat

/-- 4-neighbourhood. -/
def Adj (p q : Pos) : Prop :=
  (p.2 = q.2 ∧ (p.1 + 1 = q.1 ∨ q.1 + 1 = p.1)) ∨ (p.1 = q.1 ∧ (p.2 + 1 = q.2 ∨ q.2 + 1 = p.2))

/-- `q` is 4-connected to `p` through pixels satisfying `P`, both included. -/
def Reach (P : Pos → Prop) (p q : Pos) : Prop := P p ∧ Relation.ReflTransGen (fun a b => Adj a b ∧ P b) p q

/-- The pixels of a row span. -/
def inRow (r : Row) (p : Pos) : Prop := p.2 = r.y ∧ r.left ≤ p.1 ∧ p.1 ≤ r.right

end Spec

open Spec LawfulImage

/-- The pixels of colour `c`. -/
def HasColor {S : Type} [ImageBuffer S] [LawfulImage S] (s : S) (c : Byte) (p : Pos) : Prop :=
  p.1 < width s ∧ p.2 < height s ∧ view s p.1 p.2 = c

end Rqrr
