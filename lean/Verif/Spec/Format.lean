/-!
# Specification: format information words (ISO/IEC 18004, 7.9 and Annex C)

A format word consists of 5 data bits (2 bits error correction level, 3 bits mask) followed by the 10-bit remainder
of the data polynomial times `x^10` divided by `x^10 + x^8 + x^5 + x^4 + x^2 + x + 1`.
-/

namespace Rqrr.Spec

/-- `x^10 + x^8 + x^5 + x^4 + x^2 + x + 1`. -/
def formatGen : Nat := 0b10100110111

/-- Long division by `formatGen` over GF(2): eliminate bit `10 + n - 1`, ..., bit `10`. -/
def formatRem : Nat → Nat → Nat
  | 0, w => w
  | n + 1, w => formatRem n (if w.testBit (10 + n) then w ^^^ (formatGen <<< n) else w)

/-- The 15-bit format word (before masking) of the data bits `d < 32`. -/
def formatWord (d : Nat) : Nat := (d <<< 10) ^^^ formatRem 5 (d <<< 10)

/-- The fixed pattern XORed onto the format word in a symbol. -/
def formatMask : Nat := 0b101010000010010

/-- Number of bits in which two 15-bit words differ. -/
def bitDist (a b : Nat) : Nat := ((List.range 15).filter fun j => a.testBit j != b.testBit j).length

end Rqrr.Spec
