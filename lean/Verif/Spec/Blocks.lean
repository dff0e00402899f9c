import Verif.Spec.RS
import Verif.Spec.Iso
import Mathlib.Data.Finset.Card

/-!
# Specification: interleaving of blocks (ISO/IEC 18004, 7.6) and codewords as bits
-/

namespace Rqrr.Spec

/-- 7.6: the final message sequence. Each entry says which block and which codeword of that block stands there: the
first data codeword of every block, then the second of every block, and so on (the last round has the long blocks
only), then the error correction codewords in the same way. -/
def layout (v : Nat) (l : Level) : List (Nat × Nat) :=
  ((List.range (shortLen v l - ecLen v l + 1)).flatMap fun j =>
    ((List.range (blockCount v l)).filter fun i => j < dataLen v l i).map fun i => (i, j)) ++
  ((List.range (ecLen v l)).flatMap fun j =>
    (List.range (blockCount v l)).map fun i => (i, dataLen v l i + j))

/-- Position `p` of the received sequence `R` belongs to block `i` of `c` and is wrong. -/
def wrongAt (v : Nat) (l : Level) (R : Nat → BitVec 8) (c : Nat → List (BitVec 8)) (i p : Nat) : Bool :=
  match (layout v l)[p]? with
  | some (b, k) => b == i && (c b)[k]? != some (R p)
  | none => false

/-- Number of codewords of block `i` that were received wrong. -/
def damage (v : Nat) (l : Level) (R : Nat → BitVec 8) (c : Nat → List (BitVec 8)) (i : Nat) : Nat :=
  ((Finset.range (totalCodewords v)).filter fun p => wrongAt v l R c i p).card

/-- `c` is a set of Reed-Solomon blocks of the right sizes for version `v`, level `l`. -/
def Blocks (v : Nat) (l : Level) (c : Nat → List (BitVec 8)) : Prop :=
  ∀ i, i < blockCount v l → (c i).length = dataLen v l i + ecLen v l ∧ IsCodeword (ecLen v l) (c i)

/-- The data codewords of the blocks, in order. -/
def dataCodewords (v : Nat) (l : Level) (c : Nat → List (BitVec 8)) : List (BitVec 8) :=
  (List.range (blockCount v l)).flatMap fun i => (c i).take (dataLen v l i)

/-- Block `i` has the additional data codeword. -/
def isLong (v : Nat) (l : Level) (i : Nat) : Bool := blockCount v l - longBlocks v l ≤ i

/-- The eight bits of a codeword, most significant first. -/
def byteBits (b : BitVec 8) : List Bool := (List.range 8).map b.getMsbD

/-- The bits of a codeword sequence. -/
def bytesBits (bs : List (BitVec 8)) : List Bool := bs.flatMap byteBits

end Rqrr.Spec
