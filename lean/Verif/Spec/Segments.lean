/-!
# Specification: data segments (ISO/IEC 18004, 7.4)
-/

namespace Rqrr.Spec

/-- The `n`-bit binary representation of `k`, most significant bit first. -/
def bitsBE (n k : Nat) : List Bool := (List.range n).map fun i => k.testBit (n - 1 - i)

/-- Shift-JIS values that kanji mode can represent. -/
def isKanji (w : Nat) : Prop :=
  0x40 ≤ w % 256 ∧ w % 256 ≤ 0xFC ∧ (0x8140 ≤ w ∧ w ≤ 0x9FFC ∨ 0xE040 ≤ w ∧ w ≤ 0xEBBF)

instance (w : Nat) : Decidable (isKanji w) := by unfold isKanji; infer_instance

/-- Segments. Alphanumeric characters are given by their value in Table 5, kanji by their Shift-JIS value, ECI by the
designator. -/
inductive Segment where
  | numeric (ds : List (Fin 10))
  | alpha (cs : List (Fin 45))
  | byte (bs : List (BitVec 8))
  | kanji (ks : List { w : Nat // isKanji w })
  | eci (n : Nat)

/-- Table 2: mode indicators. -/
def Segment.mode : Segment → Nat
  | .numeric _ => 1 | .alpha _ => 2 | .byte _ => 4 | .kanji _ => 8 | .eci _ => 7

/-- Number of characters. -/
def Segment.count : Segment → Nat
  | .numeric ds => ds.length | .alpha cs => cs.length | .byte bs => bs.length | .kanji ks => ks.length | .eci _ => 0

/-- Table 3: width of the character count indicator in version `v`. -/
def Segment.countBits (v : Nat) : Segment → Nat
  | .numeric _ => if v ≤ 9 then 10 else if v ≤ 26 then 12 else 14
  | .alpha _ => if v ≤ 9 then 9 else if v ≤ 26 then 11 else 13
  | .byte _ => if v ≤ 9 then 8 else 16
  | .kanji _ => if v ≤ 9 then 8 else if v ≤ 26 then 10 else 12
  | .eci _ => 0

/-- 7.4.3: three digits in ten bits, two in seven, one in four. -/
def numericBits : List (Fin 10) → List Bool
  | a :: b :: c :: r => bitsBE 10 (100 * a + 10 * b + c) ++ numericBits r
  | [a, b] => bitsBE 7 (10 * a + b)
  | [a] => bitsBE 4 a
  | [] => []

/-- 7.4.4: two characters in eleven bits, one in six. -/
def alphaBits : List (Fin 45) → List Bool
  | a :: b :: r => bitsBE 11 (45 * a + b) ++ alphaBits r
  | [a] => bitsBE 6 a
  | [] => []

/-- 7.4.6: subtract the base, then most significant byte times `0xC0` plus least significant byte, in 13 bits. -/
def kanjiBits (w : Nat) : List Bool :=
  let x := if w ≤ 0x9FFC then w - 0x8140 else w - 0xC140
  bitsBE 13 (x / 256 * 0xC0 + x % 256)

/-- 7.4.2, Table 4: ECI designators. -/
def eciBits (n : Nat) : List Bool :=
  if n < 128 then [false] ++ bitsBE 7 n
  else if n < 16384 then [true, false] ++ bitsBE 14 n
  else [true, true, false] ++ bitsBE 21 n

/-- The data bits of a segment. -/
def Segment.dataBits : Segment → List Bool
  | .numeric ds => numericBits ds
  | .alpha cs => alphaBits cs
  | .byte bs => bs.flatMap fun b => bitsBE 8 b.toNat
  | .kanji ks => ks.flatMap fun k => kanjiBits k.1
  | .eci n => eciBits n

/-- The encoding of a segment in version `v`. -/
def Segment.encode (v : Nat) (s : Segment) : List Bool :=
  bitsBE 4 s.mode ++ bitsBE (s.countBits v) s.count ++ s.dataBits

/-- The character count fits its field, and ECI designators are in range. -/
def Segment.Fits (v : Nat) (s : Segment) : Prop :=
  s.count < 2 ^ s.countBits v ∧ match s with
    | .eci n => n < 1000000
    | _ => True

instance (v : Nat) (s : Segment) : Decidable (s.Fits v) := by cases s <;> unfold Segment.Fits <;> infer_instance

/-- Table 5: the alphanumeric characters in order of their values. -/
def alphaChars : List Char := "0123456789ABCDEFGHIJKLMNOPQRSTUVWXYZ $%*+-./:".toList

/-- The bytes a segment stands for (ASCII, bytes, Shift-JIS; nothing for ECI). -/
def Segment.payload : Segment → List (BitVec 8)
  | .numeric ds => ds.map fun d => BitVec.ofNat 8 ('0'.toNat + d.val)
  | .alpha cs => cs.map fun c => BitVec.ofNat 8 (alphaChars.getD c.val ' ').toNat
  | .byte bs => bs
  | .kanji ks => ks.flatMap fun k => [BitVec.ofNat 8 (k.1 / 256), BitVec.ofNat 8 (k.1 % 256)]
  | .eci _ => []

/-- What may follow the last segment: fewer than four bits, or a terminator and anything. -/
def Ends (tail : List Bool) : Prop := tail.length < 4 ∨ ∃ pad, tail = bitsBE 4 0 ++ pad

end Rqrr.Spec
