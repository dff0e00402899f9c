import Verif.Spec.Segments

/-!
# Specification: what every bit string means

ISO/IEC 18004 says what the segments of a conforming symbol mean. This is a meaning for all bit strings: for values that
no conforming segment has, and for strings that end too early.
-/

namespace Rqrr.Spec

/-- Modes with a character count. -/
inductive Mode where
  | numeric | alpha | byte | kanji
deriving DecidableEq

/-- Table 2: mode indicators. -/
def Mode.indicator : Mode → Nat
  | .numeric => 1 | .alpha => 2 | .byte => 4 | .kanji => 8

/-- Table 3: width of the character count indicator in version `v`. -/
def Mode.countBits (v : Nat) : Mode → Nat
  | .numeric => if v ≤ 9 then 10 else if v ≤ 26 then 12 else 14
  | .alpha => if v ≤ 9 then 9 else if v ≤ 26 then 11 else 13
  | .byte => if v ≤ 9 then 8 else 16
  | .kanji => if v ≤ 9 then 8 else if v ≤ 26 then 10 else 12

/-- Widths of the groups of `n` digits: three digits in ten bits, two in seven, one in four. -/
def numericWidths : Nat → List Nat
  | 0 => [] | 1 => [4] | 2 => [7] | n + 3 => 10 :: numericWidths n

/-- Widths of the groups of `n` alphanumeric characters: two in eleven bits, one in six. -/
def alphaWidths : Nat → List Nat
  | 0 => [] | 1 => [6] | n + 2 => 11 :: alphaWidths n

/-- Widths of the groups of bits that stand for `n` characters. -/
def Mode.widths (n : Nat) : Mode → List Nat
  | .numeric => numericWidths n | .alpha => alphaWidths n | .byte => List.replicate n 8 | .kanji => List.replicate n 13

/-- The ASCII code of the last decimal digit of `x`. -/
def digitOf (x : Nat) : BitVec 8 := BitVec.ofNat 8 ('0'.toNat + x % 10)

/-- The ASCII code of the last digit of `x` in base 45. -/
def letterOf (x : Nat) : BitVec 8 := BitVec.ofNat 8 (alphaChars.getD (x % 45) ' ').toNat

/-- The two bytes of the Shift-JIS value that kanji mode encodes as `x`. -/
def kanjiOf (x : Nat) : List (BitVec 8) :=
  let y := x / 0xC0 * 256 + x % 0xC0
  let z := if y + 0x8140 ≤ 0x9FFC then y + 0x8140 else y + 0xC140
  [BitVec.ofNat 8 (z / 256), BitVec.ofNat 8 (z % 256)]

/-- The bytes that a group of `w` bits with value `x` stands for. Values too large for the group are cut: `1023` among
three digits is `023`. -/
def Mode.bytes : Mode → Nat × Nat → List (BitVec 8)
  | .numeric, (w, x) => if w = 10 then [digitOf (x / 100), digitOf (x / 10), digitOf x]
    else if w = 7 then [digitOf (x / 10), digitOf x] else [digitOf x]
  | .alpha, (w, x) => if w = 11 then [letterOf (x / 45), letterOf x] else [letterOf x]
  | .byte, (_, x) => [BitVec.ofNat 8 x]
  | .kanji, (_, x) => kanjiOf x

/-- Groups of bits, given by widths and values. -/
def groupBits (xs : List (Nat × Nat)) : List Bool := xs.flatMap fun p => bitsBE p.1 p.2

/-- The values fit their widths, which are those given. -/
def Groups (ws : List Nat) (xs : List (Nat × Nat)) : Prop := xs.map Prod.fst = ws ∧ ∀ p ∈ xs, p.2 < 2 ^ p.1

/-- A mode with its character count. -/
def header (v : Nat) (m : Mode) (n : Nat) : List Bool := bitsBE 4 m.indicator ++ bitsBE (m.countBits v) n

/-- Bytes of an ECI designator after the first byte `b`. Designators starting with three ones do not exist; they are
taken to be one byte long. -/
def eciMore (b : Nat) : Nat := if b < 128 then 0 else if b < 192 then 1 else if b < 224 then 2 else 0

/-- How reading ends. -/
inductive Ending where
  | complete | cutOff | unknownMode
deriving DecidableEq

/-- `Means v bits out e`: in version `v` the bits stand for the bytes `out`, and reading ends with `e`. -/
inductive Means (v : Nat) : List Bool → List (BitVec 8) → Ending → Prop where
  /-- Fewer than four bits are padding. -/
  | short (bits) : bits.length < 4 → Means v bits [] .complete
  /-- Nothing counts after a terminator. -/
  | terminator (rest) : Means v (bitsBE 4 0 ++ rest) [] .complete
  /-- A mode indicator other than terminator, numeric, alphanumeric, byte, ECI and kanji. -/
  | unknown (k rest) : k < 16 → k ∉ [0, 1, 2, 4, 7, 8] → Means v (bitsBE 4 k ++ rest) [] .unknownMode
  /-- A complete segment. -/
  | segment (m : Mode) (n xs rest out e) : n < 2 ^ m.countBits v → Groups (m.widths n) xs → Means v rest out e →
      Means v (header v m n ++ (groupBits xs ++ rest)) (xs.flatMap m.bytes ++ out) e
  /-- A numeric or alphanumeric segment is cut off: the complete groups count. -/
  | cutGroup (m : Mode) (n ws w ws' xs rest) : m = .numeric ∨ m = .alpha → n < 2 ^ m.countBits v →
      m.widths n = ws ++ w :: ws' → Groups ws xs → rest.length < w →
      Means v (header v m n ++ (groupBits xs ++ rest)) (xs.flatMap m.bytes) .cutOff
  /-- A byte or kanji segment is cut off: nothing of it counts. -/
  | cutSegment (m : Mode) (n rest) : m = .byte ∨ m = .kanji → n < 2 ^ m.countBits v → rest.length < (m.widths n).sum →
      Means v (header v m n ++ rest) [] .cutOff
  /-- A character count is cut off: this goes unnoticed if there are only zeros. -/
  | cutCount (m : Mode) (rest) : rest.length < m.countBits v →
      Means v (bitsBE 4 m.indicator ++ rest) [] (if rest.all (!·) then .complete else .cutOff)
  /-- An ECI designator, without effect. -/
  | eci (b more rest out e) : b < 256 → more.length = 8 * eciMore b → Means v rest out e →
      Means v (bitsBE 4 7 ++ (bitsBE 8 b ++ (more ++ rest))) out e
  /-- An ECI designator cut off in the first byte. -/
  | cutEci (rest) : rest.length < 8 → Means v (bitsBE 4 7 ++ rest) [] .cutOff
  /-- An ECI designator cut off after the first byte. -/
  | cutEciMore (b rest) : b < 256 → rest.length < 8 * eciMore b → Means v (bitsBE 4 7 ++ (bitsBE 8 b ++ rest)) [] .cutOff

end Rqrr.Spec
