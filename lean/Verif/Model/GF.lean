/-!
# Model of the Galois field arithmetic generated by `g2p!` (src/decode.rs:9-10)

The `g2p` crate is external; its documented semantics (polynomial basis over GF(2), reduction by the given
modulus, `GENERATOR` = the residue class of `x`, `pow` = iterated multiplication) is modelled here and belongs to
the trusted base. Only definitions; that these are fields is proved in `Verif.Proofs.GFField`.
-/

namespace Rqrr

/-- An element of GF(2^k) with reduction polynomial `m` (bit `i` of `m` is the coefficient of `x^i`), as produced
by `g2p!(GF16, 4, modulus: 0b1_0011)` and `g2p!(GF256, 8, modulus: 0b1_0001_1101)` (src/decode.rs:9-10).
Simplification: Rust wraps a `u8`; here the wrapped value has exactly `k` bits. -/
structure GF (k m : Nat) where
  val : BitVec k
  deriving DecidableEq

/-- `GF16` (src/decode.rs:9). -/
abbrev GF16 := GF 4 0b10011
/-- `GF256` (src/decode.rs:10). -/
abbrev GF256 := GF 8 0b100011101

/-- Multiply by `x` and reduce: one shift step of carry-less multiplication modulo `m`. -/
def gfDouble (k m a : Nat) : Nat :=
  let t := a <<< 1
  if t.testBit k then t ^^^ m else t

/-- Carry-less multiplication of `a` by the lowest `n` bits of `b` modulo `m` (Horner, most significant bit
first). -/
def gfMulNat (k m a : Nat) : Nat → Nat → Nat
  | 0, _ => 0
  | n + 1, b =>
    let acc := gfDouble k m (gfMulNat k m a n (b >>> 1))
    if b.testBit 0 then acc ^^^ a else acc

namespace GF

variable {k m : Nat}

/-- `ZERO`. -/
instance : Zero (GF k m) := ⟨⟨0#k⟩⟩
/-- `ONE`. -/
instance : One (GF k m) := ⟨⟨1#k⟩⟩
/-- Addition is bitwise exclusive or. -/
instance : Add (GF k m) := ⟨fun a b => ⟨a.val ^^^ b.val⟩⟩
/-- Multiplication modulo the reduction polynomial. -/
instance : Mul (GF k m) := ⟨fun a b => ⟨BitVec.ofNat k (gfMulNat k m a.val.toNat k b.val.toNat)⟩⟩

/-- `GENERATOR`: the class of `x`. -/
def generator : GF k m := ⟨2#k⟩

/-- `a^(2^k - 2)` by the product `a^2 * a^4 * ... * a^(2^(k-1))`; the inverse of `a ≠ 0`. -/
def invLoop : Nat → GF k m → GF k m → GF k m
  | 0, _, r => r
  | n + 1, s, r => invLoop n (s * s) (r * (s * s))

instance : Inv (GF k m) := ⟨fun a => invLoop (k - 1) a 1⟩
instance : Div (GF k m) := ⟨fun a b => a * b⁻¹⟩

end GF

/-- `pow` of the `GaloisField` trait. -/
def gpow {G : Type} [One G] [Mul G] (g : G) : Nat → G
  | 0 => 1
  | n + 1 => gpow g n * g

end Rqrr
