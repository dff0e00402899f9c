import Verif.Model.Lib

/-!
# The unit test `test_rqrr` of src/lib.rs (lines 343-426) in the model

A check of the model against the outcome the project's own test asserts (a test, not a proof).
-/

namespace Rqrr

/-- Rows as binary numbers, first column most significant. -/
def rowsGrid (n : Nat) (rows : List Nat) : BitGrid where
  size := n
  bit := fun y x => .ok ((rows.getD y 0).testBit (n - 1 - x))

/-- The grid of `testRqrr`. -/
def testRqrr : BitGrid := rowsGrid 21 [
  0b111111100010001111111,
  0b100000101110001000001,
  0b101110100101101011101,
  0b101110100000101011101,
  0b101110101101101011101,
  0b100000100111001000001,
  0b111111101010101111111,
  0b000000000010000000000,
  0b101010100000100010010,
  0b100110000001010101001,
  0b010110110111011101111,
  0b110001001111110110011,
  0b001011101001011101001,
  0b000000001110001001001,
  0b111111100110100010011,
  0b100000100110001000010,
  0b101110101000101011011,
  0b101110100101010101010,
  0b101110101101011100001,
  0b100000100011110111010,
  0b111111101001011100111]

theorem testRqrr_decodes : decode vecWriter testRqrr [] =
    (.ok { version := 1, ecc_level := 0, mask := 0 }, [0x72, 0x71, 0x72, 0x72]) := by decide +kernel

end Rqrr
