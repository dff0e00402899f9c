import Verif.Model.Decode

/-!
# Model of src/lib.rs

Line numbers refer to src/lib.rs.
-/

namespace Rqrr

/-- `Vec<u8>` as `Write`: appends, never fails. -/
def vecWriter : Writer (List Byte) := ⟨fun out buf => (true, out ++ buf)⟩

/-- `String::from_utf8` (std): the string with these bytes if they are valid UTF-8. -/
def from_utf8 (bytes : List Byte) : Option String := String.fromUTF8? ⟨(bytes.map UInt8.ofBitVec).toArray⟩

/-- `Grid::decode_to` (lines 112-117); `decode` is the function of src/decode.rs. -/
def Grid.decode_to {σ : Type} (W : Writer σ) (grid : BitGrid) (w : σ) : Run MetaData × σ := Rqrr.decode W grid w

/-- `Grid::decode` (lines 90-95); the `?` on `from_utf8` uses lines 315-319. -/
def Grid.decode (grid : BitGrid) : Run (MetaData × String) :=
  match Grid.decode_to vecWriter grid [] with
  | (.error f, _) => .error f
  | (.ok md, out) =>
    match from_utf8 out with
    | some s => .ok (md, s)
    | none => .error (.err .EncodingError)

/-- `Grid::get_raw_data` (lines 101-103). -/
def Grid.get_raw_data (grid : BitGrid) : Run (MetaData × RawData) := get_raw grid false

/-- `SimpleGrid` (lines 252-255). -/
structure SimpleGrid where
  cell_bitmap : List Byte
  size : Nat

/-- One step of the fill loop (lines 266-269): set bit `c` if the function says so, then `c += 1`. -/
def SimpleGrid.fill (fill_func : Nat → Nat → Bool) (y x : Nat) (st : List Byte × Nat) : Run (List Byte × Nat) := do
  let (cell_bitmap, c) := st
  if fill_func x y then do
    let b ← idx cell_bitmap (c >>> 3)
    let cell_bitmap ← setIdx cell_bitmap (c >>> 3) (b ||| (1#8 <<< (c &&& 7)))
    pure (cell_bitmap, c + 1)
  else pure (cell_bitmap, c + 1)

/-- `SimpleGrid::from_func` (lines 258-274). -/
def SimpleGrid.from_func (size : Nat) (fill_func : Nat → Nat → Bool) : Run SimpleGrid := do
  let (cell_bitmap, _) ← forRange 0 size (List.replicate ((size * size + 7) / 8) 0#8, 0) fun y st =>
    forRange 0 size st fun x st => SimpleGrid.fill fill_func y x st
  pure { cell_bitmap := cell_bitmap, size := size }

/-- `impl BitGrid for SimpleGrid` (lines 277-286). -/
def SimpleGrid.toBitGrid (g : SimpleGrid) : BitGrid where
  size := g.size
  bit := fun y x => do
    let c := y * g.size + x
    let b ← idx g.cell_bitmap (c >>> 3)
    pure (b &&& (1#8 <<< (c &&& 7)) != 0)

end Rqrr
