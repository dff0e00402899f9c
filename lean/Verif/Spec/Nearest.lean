import Verif.Spec.Symbol
import Verif.Spec.Format

/-!
# Specification: the symbol that a damaged symbol is taken for
-/

namespace Rqrr.Spec

/-- `m` shows the blocks `c` without a wrong codeword, and the format information of level `l` and mask pattern `mask`
without a wrong bit in the copy at the top left (given by the positions `pos`). -/
def Undamaged (v : Nat) (l : Level) (mask : Nat) (c : Nat → List (BitVec 8)) (pos : Nat → Nat × Nat)
    (m : Nat → Nat → Bool) : Prop :=
  (∃ R, Carries v mask m R ∧ ∀ i, i < blockCount v l → damage v l R c i = 0) ∧
    ∀ i, i < 15 → m (pos i).1 (pos i).2 = (formatWord (formatData l mask) ^^^ formatMask).testBit i

/-- No blocks of the right sizes are closer to the received codewords `R` than `c`: each block of `c` has at most as
many wrong codewords as any other Reed-Solomon block would have. The tolerance `t` is granted to long blocks. -/
def NearestBlocks (v : Nat) (l : Level) (t : Nat) (R : Nat → BitVec 8) (c : Nat → List (BitVec 8)) : Prop :=
  ∀ c', Blocks v l c' → ∀ i, i < blockCount v l → damage v l R c i ≤ damage v l R c' i + if isLong v l i then t else 0

end Rqrr.Spec
