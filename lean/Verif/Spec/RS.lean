import Verif.Proofs.GFField
import Mathlib.Algebra.Polynomial.BigOperators

/-!
# Specification: Reed-Solomon codewords (ISO/IEC 18004, 7.5) and Hamming distance
-/

namespace Rqrr.Spec

open Polynomial

/-- The primitive element of GF(256). -/
abbrev α : GF256 := GF.generator

/-- A block as a polynomial: the first codeword is the coefficient of the highest power. -/
noncomputable def codePoly : List (BitVec 8) → GF256[X]
  | [] => 0
  | b :: bs => C (⟨b⟩ : GF256) * X ^ bs.length + codePoly bs

/-- The ISO 18004 generator polynomial for `npar` error correction codewords: `(x - α^0) ⋯ (x - α^(npar-1))`. -/
noncomputable def genPoly (npar : Nat) : GF256[X] := ∏ i ∈ Finset.range npar, (X - C (α ^ i))

/-- A block is a Reed-Solomon codeword iff the generator polynomial divides it. -/
def IsCodeword (npar : Nat) (block : List (BitVec 8)) : Prop := genPoly npar ∣ codePoly block

/-- Number of positions in which two lists (of equal length) differ. -/
def hdist {α : Type} [DecidableEq α] : List α → List α → Nat
  | a :: as, b :: bs => (if a = b then 0 else 1) + hdist as bs
  | _, _ => 0

end Rqrr.Spec
