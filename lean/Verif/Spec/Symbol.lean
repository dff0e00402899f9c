import Verif.Spec.Blocks
import Verif.Spec.Segments

/-!
# Specification: what a symbol carries
-/

namespace Rqrr.Spec

/-- The modules `m` of a symbol of version `v` show the codeword sequence `R` under mask pattern `mask`: the `n`-th module
of the placement path shows bit `n` of the sequence (most significant bit of a codeword first), inverted where the mask
condition holds. -/
def Carries (v mask : Nat) (m : Nat → Nat → Bool) (R : Nat → BitVec 8) : Prop :=
  ∀ n p, n < 8 * totalCodewords v → (dataPath v)[n]? = some p →
    m p.1 p.2 = ((R (n / 8)).getMsbD (n % 8) ^^ maskCond mask p.1 p.2)

/-- The five format data bits: level indicator, then mask pattern. -/
def formatData (l : Level) (mask : Nat) : Nat := l.bits * 8 + mask

/-- Total number of data codewords. -/
def dataCount (v : Nat) (l : Level) : Nat := ((List.range (blockCount v l)).map (dataLen v l)).sum

end Rqrr.Spec
