/-!
# Specification: symbol structure of ISO/IEC 18004 (QR code model 2)

Transcribed from the standard, independently of the program: versions and sizes (5.3.1), function patterns
(6.3, Annex E), codeword placement (7.7.3), mask conditions (7.8.2), block structure (Table 9) and data masking.
-/

namespace Rqrr.Spec

/-- Error correction levels. -/
inductive Level where
  | L | M | Q | H
  deriving DecidableEq, Repr

/-- Table 12: the two-bit indicator of a level. -/
def Level.bits : Level → Nat
  | .L => 1 | .M => 0 | .Q => 3 | .H => 2

/-- Modules per side. -/
def side (v : Nat) : Nat := 17 + 4 * v

/-- Annex E: row/column coordinates of alignment pattern centres; entry `v` for version `v`. -/
def alignTable : List (List Nat) := [
  [],
  [],
  [6, 18],
  [6, 22],
  [6, 26],
  [6, 30],
  [6, 34],
  [6, 22, 38],
  [6, 24, 42],
  [6, 26, 46],
  [6, 28, 50],
  [6, 30, 54],
  [6, 32, 58],
  [6, 34, 62],
  [6, 26, 46, 66],
  [6, 26, 48, 70],
  [6, 26, 50, 74],
  [6, 30, 54, 78],
  [6, 30, 56, 82],
  [6, 30, 58, 86],
  [6, 34, 62, 90],
  [6, 28, 50, 72, 94],
  [6, 26, 50, 74, 98],
  [6, 30, 54, 78, 102],
  [6, 28, 54, 80, 106],
  [6, 32, 58, 84, 110],
  [6, 30, 58, 86, 114],
  [6, 34, 62, 90, 118],
  [6, 26, 50, 74, 98, 122],
  [6, 30, 54, 78, 102, 126],
  [6, 26, 52, 78, 104, 130],
  [6, 30, 56, 82, 108, 134],
  [6, 34, 60, 86, 112, 138],
  [6, 30, 58, 86, 114, 142],
  [6, 34, 62, 90, 118, 146],
  [6, 30, 54, 78, 102, 126, 150],
  [6, 24, 50, 76, 102, 128, 154],
  [6, 28, 54, 80, 106, 132, 158],
  [6, 32, 58, 84, 110, 136, 162],
  [6, 26, 54, 82, 110, 138, 166],
  [6, 30, 58, 86, 114, 142, 170]]

/-- Alignment centre coordinates of a version. -/
def alignCoords (v : Nat) : List Nat := alignTable.getD v []

/-- Table 9: error correction codewords per block; entry `v` for version `v`. -/
def ecPerBlock : Level → List Nat
  | .L => [0, 7, 10, 15, 20, 26, 18, 20, 24, 30, 18, 20, 24, 26, 30, 22, 24, 28, 30, 28, 28, 28, 28, 30, 30,
      26, 28, 30, 30, 30, 30, 30, 30, 30, 30, 30, 30, 30, 30, 30, 30]
  | .M => [0, 10, 16, 26, 18, 24, 16, 18, 22, 22, 26, 30, 22, 22, 24, 24, 28, 28, 26, 26, 26, 26, 28, 28, 28,
      28, 28, 28, 28, 28, 28, 28, 28, 28, 28, 28, 28, 28, 28, 28, 28]
  | .Q => [0, 13, 22, 18, 26, 18, 24, 18, 22, 20, 24, 28, 26, 24, 20, 30, 24, 28, 28, 26, 30, 28, 30, 30, 30,
      30, 28, 30, 30, 30, 30, 30, 30, 30, 30, 30, 30, 30, 30, 30, 30]
  | .H => [0, 17, 28, 22, 16, 22, 28, 26, 26, 24, 28, 24, 28, 22, 24, 24, 30, 28, 28, 26, 28, 30, 24, 30, 30,
      30, 30, 30, 30, 30, 30, 30, 30, 30, 30, 30, 30, 30, 30, 30, 30]

/-- Table 9: number of error correction blocks; entry `v` for version `v`. -/
def numBlocks : Level → List Nat
  | .L => [0, 1, 1, 1, 1, 1, 2, 2, 2, 2, 4, 4, 4, 4, 4, 6, 6, 6, 6, 7, 8, 8, 9, 9, 10, 12, 12, 12, 13, 14, 15,
      16, 17, 18, 19, 19, 20, 21, 22, 24, 25]
  | .M => [0, 1, 1, 1, 2, 2, 4, 4, 4, 5, 5, 5, 8, 9, 9, 10, 10, 11, 13, 14, 16, 17, 17, 18, 20, 21, 23, 25,
      26, 28, 29, 31, 33, 35, 37, 38, 40, 43, 45, 47, 49]
  | .Q => [0, 1, 1, 2, 2, 4, 4, 6, 6, 8, 8, 8, 10, 12, 16, 12, 17, 16, 18, 21, 20, 23, 23, 25, 27, 29, 34, 34,
      35, 38, 40, 43, 45, 48, 51, 53, 56, 59, 62, 65, 68]
  | .H => [0, 1, 1, 2, 4, 4, 4, 5, 6, 8, 8, 11, 11, 16, 16, 18, 16, 19, 21, 25, 25, 25, 34, 30, 32, 35, 37,
      40, 42, 45, 48, 51, 54, 57, 60, 63, 66, 70, 74, 77, 81]

/-- Table 1: data capacity in modules (codewords and remainder bits), as a closed formula. -/
def dataModules (v : Nat) : Nat :=
  let n := v / 7 + 2
  let all := (16 * v + 128) * v + 64
  if v ≥ 7 then all - ((25 * n - 10) * n - 55) - 36
  else if v ≥ 2 then all - ((25 * n - 10) * n - 55)
  else all

/-- Total number of codewords of a version. -/
def totalCodewords (v : Nat) : Nat := dataModules v / 8

/-- Table 1: remainder bits. -/
def remainderBits (v : Nat) : Nat :=
  if v ≤ 1 then 0 else if v ≤ 6 then 7 else if v ≤ 13 then 0 else if v ≤ 20 then 3 else if v ≤ 27 then 4
  else if v ≤ 34 then 3 else 0

/-- Error correction codewords of every block of a symbol. -/
def ecLen (v : Nat) (l : Level) : Nat := (ecPerBlock l).getD v 0

/-- Number of blocks of a symbol. -/
def blockCount (v : Nat) (l : Level) : Nat := (numBlocks l).getD v 0

/-- Blocks that carry one more data codeword; they come last. -/
def longBlocks (v : Nat) (l : Level) : Nat := totalCodewords v % blockCount v l

/-- Codewords in a short block. -/
def shortLen (v : Nat) (l : Level) : Nat := totalCodewords v / blockCount v l

/-- Data codewords in block number `i`. -/
def dataLen (v : Nat) (l : Level) (i : Nat) : Nat :=
  shortLen v l - ecLen v l + (if i < blockCount v l - longBlocks v l then 0 else 1)

/-! ## Function patterns -/

/-- Absolute difference. -/
def dist (a b : Nat) : Nat := if a ≤ b then b - a else a - b

/-- Finder patterns with their separators: three 8 by 8 corners. -/
def inFinder (v y x : Nat) : Bool :=
  (y ≤ 7 && x ≤ 7) || (y ≤ 7 && x ≥ side v - 8) || (y ≥ side v - 8 && x ≤ 7)

/-- Timing patterns: row 6 and column 6. -/
def inTiming (y x : Nat) : Bool := y == 6 || x == 6

/-- Format information (both copies) and the dark module. -/
def inFormat (v y x : Nat) : Bool :=
  (y == 8 && (x ≤ 8 || x ≥ side v - 8)) || (x == 8 && (y ≤ 8 || y ≥ side v - 8))

/-- Version information, versions 7 and up: two 6 by 3 areas. -/
def inVersionInfo (v y x : Nat) : Bool :=
  v ≥ 7 && ((y ≤ 5 && side v - 11 ≤ x && x ≤ side v - 9) || (x ≤ 5 && side v - 11 ≤ y && y ≤ side v - 9))

/-- Whether `(a, b)` is an alignment pattern centre, given the list of coordinates: all pairs of coordinates but the
three in the finder corners (6 is the first coordinate). -/
def isAlignCentre (cs : List Nat) (a b : Nat) : Bool :=
  cs.contains a && cs.contains b &&
    !(a == 6 && b == 6) && !(a == 6 && b == cs.getLastD 6) && !(a == cs.getLastD 6 && b == 6)

/-- Alignment patterns: 5 by 5 modules around each centre. -/
def inAlignment (cs : List Nat) (y x : Nat) : Bool :=
  cs.any fun a => cs.any fun b => isAlignCentre cs a b && dist a y ≤ 2 && dist b x ≤ 2

/-- Function pattern test for a given list of alignment coordinates. -/
def isFunctionOf (cs : List Nat) (v y x : Nat) : Bool :=
  inFinder v y x || inTiming y x || inFormat v y x || inVersionInfo v y x || inAlignment cs y x

/-- Whether the module in row `y`, column `x` belongs to a function pattern (or format/version information), and
thus carries no codeword bits. -/
def isFunction (v y x : Nat) : Bool := isFunctionOf (alignCoords v) v y x

/-! ## Format information placement (7.9, Figure 25); positions are `(row, column)` of bit `i` -/

/-- First copy, around the upper left finder. -/
def formatPos1 (i : Nat) : Nat × Nat :=
  if i < 6 then (i, 8) else if i = 6 then (7, 8) else if i = 7 then (8, 8) else if i = 8 then (8, 7)
  else (8, 14 - i)

/-- Second copy, split between the other two finders, in a symbol with `n` modules per side. -/
def formatPos2 (n i : Nat) : Nat × Nat := if i < 8 then (8, n - 1 - i) else (n + i - 15, 8)

/-- The 15-bit word with bits `f 0`, ..., `f 14`. -/
def word15 (f : Nat → Bool) : Nat := ((List.range 15).map fun i => (f i).toNat * 2 ^ i).sum

/-! ## Codeword placement -/

/-- Right column of the `k`-th two-column strip, counted from the right edge; the strips skip column 6. -/
def stripColumn (n k : Nat) : Nat := if n - 1 - 2 * k > 6 then n - 1 - 2 * k else n - 2 - 2 * k

/-- Rows in the order strip `k` visits them: upwards in strip 0, then alternating. -/
def stripRows (n k : Nat) : List Nat := if k % 2 = 0 then (List.range n).reverse else List.range n

/-- All modules outside column 6 in zig-zag order; pairs are `(row, column)`. -/
def zigzag (n : Nat) : List (Nat × Nat) :=
  (List.range ((n - 1) / 2)).flatMap fun k =>
    (stripRows n k).flatMap fun y => [(y, stripColumn n k), (y, stripColumn n k - 1)]

/-- The modules that carry data, in placement order. -/
def dataPath (v : Nat) : List (Nat × Nat) := (zigzag (side v)).filter fun p => !isFunction v p.1 p.2

/-- 7.8.2, Table 10: mask conditions; `i` row, `j` column. -/
def maskCond (m i j : Nat) : Bool :=
  match m with
  | 0 => (i + j) % 2 == 0
  | 1 => i % 2 == 0
  | 2 => j % 3 == 0
  | 3 => (i + j) % 3 == 0
  | 4 => (i / 2 + j / 3) % 2 == 0
  | 5 => (i * j) % 2 + (i * j) % 3 == 0
  | 6 => ((i * j) % 2 + (i * j) % 3) % 2 == 0
  | _ => ((i + j) % 2 + (i * j) % 3) % 2 == 0

end Rqrr.Spec
