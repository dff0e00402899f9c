import Verif.Model.Basic
import Verif.Model.VersionDb
import Verif.Model.GF

/-!
# Model of src/decode.rs

Line numbers in the comments refer to src/decode.rs unless another file is named. `usize`/`u16` values that stay
far below their limits are `Nat`; every `usize` subtraction is the checked `subU`; every array access is checked.
-/

namespace Rqrr

/-- `trait BitGrid` (src/lib.rs:127-154): `size()` and `bit(y, x)`. An implementation may panic in `bit` (e.g. for
coordinates outside the grid), so the module query is a `Run`. -/
structure BitGrid where
  size : Nat
  bit : Nat → Nat → Run Bool

/-- `MirroredGrid` (src/lib.rs:160-170): swaps the coordinates. -/
def MirroredGrid (g : BitGrid) : BitGrid where
  size := g.size
  bit := fun y x => g.bit x y

/-- `MAX_PAYLOAD_SIZE` (line 12). -/
def MAX_PAYLOAD_SIZE : Nat := 8896

/-- `Version::from_size` (lines 20-28); `saturating_sub` is truncated subtraction. The result is the wrapped
number. -/
def Version.from_size (b : Nat) : Run Nat :=
  let computed_version := (b - 17) / 4
  if computed_version > 0 && computed_version ≤ 40 then .ok computed_version
  else .error (.err .InvalidVersion)

/-- `Version::to_size` (lines 31-33). -/
def Version.to_size (v : Nat) : Nat := v * 4 + 17

/-- `MetaData` (lines 40-48). -/
structure MetaData where
  version : Nat
  ecc_level : Nat
  mask : Nat
  deriving DecidableEq, Repr

/-- `RawData` (lines 51-57). -/
structure RawData where
  data : Vector Byte MAX_PAYLOAD_SIZE
  len : Nat

/-- `RawData::push` (lines 61-70). -/
def RawData.push (r : RawData) (bit : Bool) : Run RawData := do
  Run.assert (r.len / 8 < MAX_PAYLOAD_SIZE)
  let bitpos := r.len &&& 7
  let bytepos := r.len >>> 3
  if bit then
    let b ← aget r.data bytepos
    let data ← aset r.data bytepos (b ||| (0x80#8 >>> bitpos))
    pure { data := data, len := r.len + 1 }
  else
    pure { r with len := r.len + 1 }

/-- `CorrectedDataStream` (lines 73-78). -/
structure CorrectedDataStream where
  data : Vector Byte MAX_PAYLOAD_SIZE
  ptr : Nat
  bit_len : Nat

/-- `CorrectedDataStream::bits_remaining` (lines 81-84). -/
def CorrectedDataStream.bits_remaining (ds : CorrectedDataStream) : Run Nat := do
  Run.assert (ds.ptr ≤ ds.bit_len)
  subU ds.bit_len ds.ptr

/-- `CorrectedDataStream::take_bits` (lines 86-101); `usize` has 64 bits. The pair is (returned value, new
stream). The accumulator is a `Nat`: the assertion keeps it below 2^64. -/
def CorrectedDataStream.take_bits (ds : CorrectedDataStream) (nbits : Nat) : Run (Nat × CorrectedDataStream) := do
  let rem ← ds.bits_remaining
  let max_len := min rem nbits
  Run.assert (max_len ≤ 8 * 8)
  forRange 0 max_len (0, ds) fun _ (ret, ds) => do
    let b ← aget ds.data (ds.ptr >>> 3)
    let bitpos := ds.ptr &&& 7
    let ret := ret <<< 1
    let ret := if 0#8 != (b <<< bitpos) &&& 0x80#8 then ret ||| 1 else ret
    pure (ret, { ds with ptr := ds.ptr + 1 })

/-! ## Format and data reading -/

/-- `[G; 64]`. -/
abbrev Arr64 (G : Type) := Vector G 64

section Generic
variable {G : Type} [Zero G] [One G] [Add G] [Mul G] [Div G] [DecidableEq G]

/-- Field division; the `g2p` crate panics on division by zero. -/
def gdiv (a b : G) : Run G := if b = 0 then .error .panic else .ok (a / b)

/-- `poly_eval` (lines 442-455). -/
def poly_eval (s : Arr64 G) (x : G) : Run G := do
  let (sum, _) ← forRange 0 64 ((0 : G), (1 : G)) fun i (sum, x_pow) => do
    let si ← aget s i
    pure (sum + si * x_pow, x_pow * x)
  pure sum

/-- `poly_add` (lines 514-531). The `break` at `p >= 64` is modelled by doing nothing from there on (`p` grows
with `i`). -/
def poly_add (dst src : Arr64 G) (c : G) (shift : Nat) : Run (Arr64 G) :=
  if c = 0 then .ok dst
  else
    forRange 0 64 dst fun i dst => do
      let p := i + shift
      if p ≥ 64 then pure dst
      else do
        let v ← aget src i
        let d ← aget dst p
        aset dst p (d + v * c)

/-- The local variables of `berlekamp_massey` (lines 475-480); `ts` is only a temporary. -/
structure BMState (G : Type) where
  cs : Arr64 G
  bs : Arr64 G
  l : Nat
  m : Nat
  b : G

/-- Discrepancy (lines 485-491). -/
def bm_discrepancy (s cs : Arr64 G) (l n : Nat) : Run G := do
  let d ← aget s n
  forRange 1 (l + 1) d fun i d => do
    let ci ← aget cs i
    let k ← subU n i
    let sk ← aget s k
    pure (d + ci * sk)

/-- Loop body of `berlekamp_massey` (lines 484-508). -/
def bm_step (s : Arr64 G) (n : Nat) (st : BMState G) : Run (BMState G) := do
  let d ← bm_discrepancy s st.cs st.l n
  let mult ← gdiv d st.b
  if d = 0 then
    pure { st with m := st.m + 1 }
  else if st.l * 2 ≤ n then do
    let ts := st.cs
    let cs ← poly_add st.cs st.bs mult st.m
    let l ← subU (n + 1) st.l
    pure { cs := cs, bs := ts, l := l, m := 1, b := d }
  else do
    let cs ← poly_add st.cs st.bs mult st.m
    pure { st with cs := cs, m := st.m + 1 }

/-- `berlekamp_massey` (lines 471-510). -/
def berlekamp_massey (s : Arr64 G) (n : Nat) : Run (Arr64 G) := do
  let zero : Arr64 G := Vector.replicate 64 0
  let bs ← aset zero 0 1
  let cs ← aset zero 0 1
  let st ← forRange 0 n { cs := cs, bs := bs, l := 0, m := 1, b := 1 } (bm_step s)
  pure st.cs

end Generic

/-- `format_syndromes` (lines 720-741). `.ok (nonzero, s)`: `nonzero = false` is Rust's `Ok(s)`, `true` is
`Err(s)`. -/
def format_syndromes (u : Nat) : Run (Bool × Arr64 GF16) :=
  forRange 0 6 (false, Vector.replicate 64 0) fun i (nonzero, result) => do
    let result ← forRange 0 15 result fun j result => do
      if u &&& (1 <<< j) != 0 then
        let r ← aget result i
        aset result i (r + gpow GF.generator ((i + 1) * j))
      else pure result
    let r ← aget result i
    pure (if r.val != 0#4 then true else nonzero, result)

/-- `correct_format` (lines 660-678). Words are `Nat`s below 2^15. -/
def correct_format (word : Nat) : Run Nat := do
  let (nonzero, s) ← format_syndromes word
  if nonzero then
    let sigma ← berlekamp_massey s 6
    let word ← forRange 0 15 word fun i word => do
      let e ← subU 15 i
      let v ← poly_eval sigma (gpow GF.generator e)
      pure (if v = 0 then word ^^^ (1 <<< i) else word)
    let (nonzero', _) ← format_syndromes word
    if nonzero' then .error (.err .FormatEcc) else pure word
  else pure word

/-- `XS` (line 684). -/
def XS : List Nat := [8, 8, 8, 8, 8, 8, 8, 8, 7, 5, 4, 3, 2, 1, 0]
/-- `YS` (line 685). -/
def YS : List Nat := [0, 1, 2, 3, 4, 5, 7, 8, 8, 8, 8, 8, 8, 8, 8]

/-- Shift a module into the format word: `(format << 1) | bit as u16`. -/
def shiftIn (format : Nat) (b : Bool) : Nat := (format <<< 1) ||| b.toNat

/-- First format copy (lines 681-689). -/
def read_format_first (code : BitGrid) : Run Nat := do
  let format ← forList (fun i format => do
      let y ← idx YS i
      let x ← idx XS i
      let b ← code.bit y x
      pure (shiftIn format b)) [14, 13, 12, 11, 10, 9, 8, 7, 6, 5, 4, 3, 2, 1, 0] 0
  pure (format ^^^ 0x5412)

/-- Second format copy (lines 693-700). -/
def read_format_second (code : BitGrid) : Run Nat := do
  let format ← forRange 0 7 0 fun i format => do
      let a ← subU code.size 1
      let y ← subU a i
      let b ← code.bit y 8
      pure (shiftIn format b)
  let format ← forRange 0 8 format fun i format => do
      let a ← subU code.size 8
      let b ← code.bit 8 (a + i)
      pure (shiftIn format b)
  pure (format ^^^ 0x5412)

/-- `read_format` (lines 680-714). -/
def read_format (code : BitGrid) : Run MetaData := do
  let format ← read_format_first code
  let verified_format ←
    match correct_format format with
    | .ok w => pure w
    | .error (.err _) => do
      let format ← read_format_second code
      correct_format format
    | .error f => .error f
  let fdata := verified_format >>> 10
  let ecc_level := fdata >>> 3
  let mask := fdata &&& 7
  let version ← Version.from_size code.size
  pure { version := version, ecc_level := ecc_level, mask := mask }

/-- `mask_bit` (lines 586-598). -/
def mask_bit (mask y x : Nat) : Run Bool :=
  match mask with
  | 0 => .ok (0 == (y + x) % 2)
  | 1 => .ok (0 == y % 2)
  | 2 => .ok (0 == x % 3)
  | 3 => .ok (0 == (y + x) % 3)
  | 4 => .ok (0 == ((y / 2) + (x / 3)) % 2)
  | 5 => .ok (0 == ((y * x) % 2 + (y * x) % 3))
  | 6 => .ok (0 == ((y * x) % 2 + (y * x) % 3) % 2)
  | 7 => .ok (0 == ((y * x) % 3 + (y + x) % 2) % 2)
  | _ => .error .panic

/-- `usize::abs_diff`. -/
def absDiff (a b : Nat) : Nat := (a - b) + (b - a)

/-- The alignment-pattern loop of `reserved_cell` (lines 638-650): from pattern number `a` on, with the current
`(ai, aj, len)`; `take_while` stops at the first zero. -/
def apat_scan (i j : Nat) : List Nat → Nat → Option Nat → Option Nat → Nat → Option Nat × Option Nat × Nat
  | [], _, ai, aj, len => (ai, aj, len)
  | p :: ps, a, ai, aj, len =>
    if p ≠ 0 then
      apat_scan i j ps (a + 1)
        (if absDiff p i < 3 then some a else ai)
        (if absDiff p j < 3 then some a else aj) a
    else (ai, aj, len)

/-- The final `match (ai, aj)` of `reserved_cell` (lines 652-657). -/
def apat_match (ai aj : Option Nat) (len : Nat) : Bool :=
  match ai, aj with
  | some x, some y =>
    if x == len && y == len then true
    else if 0 < x && x < len then true
    else if 0 < y && y < len then true
    else false
  | _, _ => false

/-- `reserved_cell` (lines 600-658). -/
def reserved_cell (version i j : Nat) : Run Bool := do
  let ver ← idx VERSION_DATA_BASE version
  let size := version * 4 + 17
  if i < 9 && j < 9 then pure true
  else if i + 8 ≥ size && j < 9 then pure true
  else if i < 9 && j + 8 ≥ size then pure true
  else if i == 6 || j == 6 then pure true
  else if version ≥ 7 && (i < 6 && j + 11 ≥ size) then pure true
  else if version ≥ 7 && (i + 11 ≥ size && j < 6) then pure true
  else
    let (ai, aj, len) := apat_scan i j ver.apat 0 none none 0
    pure (apat_match ai aj len)

/-- `read_bit` (lines 577-584). -/
def read_bit (code : BitGrid) (md : MetaData) (y x : Nat) (remove_mask : Bool) : Run Bool := do
  let v ← code.bit y x
  if remove_mask then
    let m ← mask_bit md.mask y x
    pure (if m then !v else v)
  else pure v

/-- The local variables of `read_data` (lines 535-542). -/
structure ReadState where
  ds : RawData
  y : Nat
  x : Nat
  neg_dir : Bool

/-- `if !reserved_cell(..) { ds.push(read_bit(..)) }` (lines 548-550 and 551-553). -/
def read_cell (code : BitGrid) (md : MetaData) (remove_mask : Bool) (y x : Nat) (ds : RawData) : Run RawData := do
  let r ← reserved_cell md.version y x
  if r then pure ds
  else do
    let b ← read_bit code md y x remove_mask
    ds.push b

/-- Loop body of `read_data` (lines 545-569). -/
def read_data_step (code : BitGrid) (md : MetaData) (remove_mask : Bool) (st : ReadState) : Run ReadState := do
  let x ← if st.x = 6 then subU st.x 1 else pure st.x
  let ds ← read_cell code md remove_mask st.y x st.ds
  let x1 ← subU x 1
  let ds ← read_cell code md remove_mask st.y x1 ds
  if st.y = 0 ∧ st.neg_dir = true then
    pure { ds := ds, y := 0, x := x - 2, neg_dir := false }
  else if st.neg_dir = false then do
    let last ← subU code.size 1
    if st.y = last then
      pure { ds := ds, y := last, x := x - 2, neg_dir := true }
    else
      pure { ds := ds, y := st.y + 1, x := x, neg_dir := false }
  else do
    let y ← subU st.y 1
    pure { ds := ds, y := y, x := x, neg_dir := true }

/-- An empty `RawData` (lines 535-538). -/
def RawData.empty : RawData := { data := Vector.replicate MAX_PAYLOAD_SIZE 0, len := 0 }

/-- `read_data` (lines 534-573). The fuel `size * size + 1` is proved sufficient. -/
def read_data (code : BitGrid) (md : MetaData) (remove_mask : Bool) : Run RawData := do
  let y ← subU code.size 1
  let x ← subU code.size 1
  let st ← whileFuel (fun st : ReadState => st.x > 0) (read_data_step code md remove_mask)
    (code.size * code.size + 1) { ds := RawData.empty, y := y, x := x, neg_dir := true }
  pure st.ds

/-- `get_raw` (lines 133-137). -/
def get_raw (code : BitGrid) (remove_masked : Bool) : Run (MetaData × RawData) := do
  let md ← read_format code
  let raw ← read_data code md remove_masked
  pure (md, raw)

/-! ## Code stream error correction -/

/-- `block_syndromes` (lines 421-440); `(nonzero, s)` as in `format_syndromes`. -/
def block_syndromes (block : List Byte) (npar : Nat) : Run (Bool × Arr64 GF256) :=
  forRange 0 npar (false, Vector.replicate 64 0) fun i (nonzero, s) => do
    let s ← forRange 0 block.length s fun j s => do
      let a ← subU block.length 1
      let k ← subU a j
      let c ← idx block k
      let si ← aget s i
      aset s i (si + (⟨c⟩ : GF256) * gpow GF.generator (i * j))
    let si ← aget s i
    pure (if si ≠ 0 then true else nonzero, s)

/-- `eloc_poly` (lines 457-467). -/
def eloc_poly (s sigma : Arr64 GF256) (npar : Nat) : Run (Arr64 GF256) :=
  forRange 0 npar (Vector.replicate 64 0) fun i omega => do
    let a ← aget sigma i
    let k ← subU npar i
    forRange 0 k omega fun j omega => do
      let b ← aget s (j + 1)
      let o ← aget omega (i + j)
      aset omega (i + j) (o + a * b)

/-- Formal derivative (lines 390-392): `for i in (1..64).step_by(2)`, i.e. `i = 2*k + 1` for `k` in `0..32`. -/
def sigma_derivative (sigma : Arr64 GF256) : Run (Arr64 GF256) :=
  forRange 0 32 (Vector.replicate 64 0) fun k sd => do
    let i := 2 * k + 1
    let v ← aget sigma i
    let i1 ← subU i 1
    aset sd i1 v

/-- Body of the root search loop (lines 398-409). -/
def correct_position (sigma sigma_deriv omega : Arr64 GF256) (bs : Nat) (i : Nat) (block : List Byte) :
    Run (List Byte) := do
  let e ← subU 255 i
  let xinv := gpow (GF.generator : GF256) e
  let sx ← poly_eval sigma xinv
  if sx = 0 then
    let sd_x ← poly_eval sigma_deriv xinv
    let omega_x ← poly_eval omega xinv
    if sd_x = 0 then .error (.err .DataEcc)
    else do
      let error ← gdiv omega_x sd_x
      let a ← subU bs i
      let k ← subU a 1
      let c ← idx block k
      setIdx block k ((⟨c⟩ : GF256) + error).val
  else pure block

/-- `&block[..n]`: panics when `n` exceeds the length. -/
def sliceTo {α : Type} (l : List α) (n : Nat) : Run (List α) :=
  if n ≤ l.length then .ok (l.take n) else .error .panic

/-- `correct_block` (lines 376-415); returns the new content of `block`. -/
def correct_block (block : List Byte) (ecc : RSParameters) : Run (List Byte) := do
  Run.assert (ecc.bs > ecc.dw)
  let npar ← subU ecc.bs ecc.dw
  let view ← sliceTo block ecc.bs
  let (nonzero, s) ← block_syndromes view npar
  if nonzero then
    let sigma ← berlekamp_massey s npar
    let sigma_deriv ← sigma_derivative sigma
    let n1 ← subU npar 1
    let omega ← eloc_poly s sigma n1
    let block ← forRange 0 ecc.bs block (correct_position sigma sigma_deriv omega ecc.bs)
    let view ← sliceTo block ecc.bs
    let (nonzero', _) ← block_syndromes view npar
    if nonzero' then .error (.err .DataEcc) else pure block
  else pure block

/-- Copy a block back to its place in the output buffer: `dst` is a mutable view `&mut out.data[off..off+len]`. -/
def blit {n : Nat} (v : Vector Byte n) (off : Nat) (l : List Byte) : Run (Vector Byte n) :=
  forRange 0 l.length v fun j v => do
    let b ← idx l j
    aset v (off + j) b

/-- `&out.data[off..off+len]`: panics when the range exceeds the array. -/
def viewOf {n : Nat} (v : Vector Byte n) (off len : Nat) : Run (List Byte) :=
  if off + len ≤ n then .ok ((v.toList.drop off).take len) else .error .panic

/-- One block of `codestream_ecc` (lines 356-370): gather the codewords of block `i`, correct them, and write the
block back. State: (output buffer, `dst_offset`). -/
def ecc_block (ds : RawData) (sb_ecc lb_ecc : RSParameters) (bc ecc_offset : Nat) (i : Nat)
    (st : Vector Byte MAX_PAYLOAD_SIZE × Nat) : Run (Vector Byte MAX_PAYLOAD_SIZE × Nat) := do
  let (out, dst_offset) := st
  let ecc := if i < sb_ecc.ns then sb_ecc else lb_ecc
  let dst ← viewOf out dst_offset ecc.bs
  let num_ec ← subU ecc.bs ecc.dw
  let dst ← forRange 0 ecc.dw dst fun j dst => do
    let b ← aget ds.data (j * bc + i)
    setIdx dst j b
  let dst ← forRange 0 num_ec dst fun j dst => do
    let b ← aget ds.data (ecc_offset + j * bc + i)
    setIdx dst (ecc.dw + j) b
  let dst ← correct_block dst ecc
  let out ← blit out dst_offset dst
  pure (out, dst_offset + ecc.dw)

/-- `codestream_ecc` (lines 336-374). Rust's `/ (sb_ecc.bs + 1)` cannot divide by zero. -/
def codestream_ecc (md : MetaData) (ds : RawData) : Run CorrectedDataStream := do
  let ver ← idx VERSION_DATA_BASE md.version
  let sb_ecc ← idx ver.ecc md.ecc_level
  let lb_ecc : RSParameters := { bs := sb_ecc.bs + 1, dw := sb_ecc.dw + 1, ns := sb_ecc.ns }
  let rest ← subU ver.dataBytes (sb_ecc.bs * sb_ecc.ns)
  let lb_count := rest / (sb_ecc.bs + 1)
  let bc := lb_count + sb_ecc.ns
  let ecc_offset := sb_ecc.dw * bc + lb_count
  let (out, dst_offset) ← forRange 0 bc (Vector.replicate MAX_PAYLOAD_SIZE 0, 0)
    (ecc_block ds sb_ecc lb_ecc bc ecc_offset)
  pure { data := out, ptr := 0, bit_len := dst_offset * 8 }

/-! ## Payload -/

/-- `std::io::Write` reduced to `write_all`: the flag says whether the call succeeded; the state is whatever the
writer remembers (including partial writes). -/
structure Writer (σ : Type) where
  writeAll : σ → List Byte → Bool × σ

/-- Payload computations: they may fail, but what was consumed and written before stays. -/
def PM (σ α : Type) : Type := CorrectedDataStream × σ → Except Fault α × (CorrectedDataStream × σ)

namespace PM
variable {σ α β : Type}

/-- Return. -/
def ret (a : α) : PM σ α := fun s => (.ok a, s)

/-- Sequencing (`?`): stop at the first failure, keeping the state. -/
def seq (m : PM σ α) (f : α → PM σ β) : PM σ β := fun s =>
  match m s with
  | (.ok a, s') => f a s'
  | (.error e, s') => (.error e, s')

instance : Monad (PM σ) where
  pure := ret
  bind := seq

/-- Fail. -/
def fail (e : Fault) : PM σ α := fun s => (.error e, s)

/-- `ds.bits_remaining()`. -/
def bits_remaining : PM σ Nat := fun (ds, w) =>
  match ds.bits_remaining with
  | .ok n => (.ok n, (ds, w))
  | .error e => (.error e, (ds, w))

/-- `ds.take_bits(n)`. -/
def take_bits (n : Nat) : PM σ Nat := fun (ds, w) =>
  match ds.take_bits n with
  | .ok (v, ds') => (.ok v, (ds', w))
  | .error e => (.error e, (ds, w))

/-- `writer.write_all(buf).map_err(|_| DeQRError::IoError)?`. -/
def write_all (W : Writer σ) (buf : List Byte) : PM σ Unit := fun (ds, w) =>
  match W.writeAll w buf with
  | (true, w') => (.ok (), (ds, w'))
  | (false, w') => (.error (.err .IoError), (ds, w'))

/-- `for _ in 0..n { body }`. -/
def times (body : PM σ Unit) : Nat → PM σ Unit
  | 0 => ret ()
  | n + 1 => seq body fun _ => times body n

end PM

variable {σ : Type}

/-- `decode_eci` (lines 158-180). The designator value itself is unused (and not modelled). -/
def decode_eci : PM σ Unit := do
  let rem ← PM.bits_remaining
  if rem < 8 then PM.fail (.err .DataUnderflow)
  else do
    let eci ← PM.take_bits 8
    if eci &&& 0xc0 == 0x80 then do
      let rem ← PM.bits_remaining
      if rem < 8 then PM.fail (.err .DataUnderflow)
      else do
        let _ ← PM.take_bits 8
        pure ()
    else if eci &&& 0xe0 == 0xc0 then do
      let rem ← PM.bits_remaining
      if rem < 16 then PM.fail (.err .DataUnderflow)
      else do
        let _ ← PM.take_bits 16
        pure ()
    else pure ()

/-- The Shift-JIS word of a 13-bit kanji value (lines 199-207). -/
def kanji_word (d : Nat) : Nat :=
  let ms_b := d / 0xc0
  let ls_b := d % 0xc0
  let intermediate := (ms_b <<< 8) ||| ls_b
  if intermediate + 0x8140 ≤ 0x9ffc then (intermediate + 0x8140) % 65536
  else (intermediate + 0xc140) % 65536

/-- `decode_kanji` (lines 182-213). -/
def decode_kanji (W : Writer σ) (md : MetaData) : PM σ Unit := do
  let nbits := if md.version ≤ 9 then 8 else if md.version ≤ 26 then 10 else 12
  let count ← PM.take_bits nbits
  let rem ← PM.bits_remaining
  if rem < count * 13 then PM.fail (.err .DataUnderflow)
  else
    PM.times (do
      let d ← PM.take_bits 13
      let sjw := kanji_word d
      PM.write_all W [BitVec.ofNat 8 (sjw >>> 8), BitVec.ofNat 8 (sjw &&& 0xff)]) count

/-- `decode_byte` (lines 215-234). -/
def decode_byte (W : Writer σ) (md : MetaData) : PM σ Unit := do
  let nbits := if md.version ≤ 9 then 8 else 16
  let count ← PM.take_bits nbits
  let rem ← PM.bits_remaining
  if rem < count * 8 then PM.fail (.err .DataUnderflow)
  else
    PM.times (do
      let v ← PM.take_bits 8
      PM.write_all W [BitVec.ofNat 8 v]) count

/-- `ALPHA_MAP` (line 275): the 45 characters `0-9A-Z $%*+-./:` and a trailing NUL, as ASCII codes. -/
def ALPHA_MAP : List Byte :=
  [0x30, 0x31, 0x32, 0x33, 0x34, 0x35, 0x36, 0x37, 0x38, 0x39,
   0x41, 0x42, 0x43, 0x44, 0x45, 0x46, 0x47, 0x48, 0x49, 0x4A, 0x4B, 0x4C, 0x4D,
   0x4E, 0x4F, 0x50, 0x51, 0x52, 0x53, 0x54, 0x55, 0x56, 0x57, 0x58, 0x59, 0x5A,
   0x20, 0x24, 0x25, 0x2A, 0x2B, 0x2D, 0x2E, 0x2F, 0x3A, 0x00]

/-- `for i in (0..digits).rev() { buf[i] = digit(tuple % base); tuple /= base }` shared by `alpha_tuple`
(lines 274-278) and `numeric_tuple` (lines 328-331): the last `digits` base-`base` digits, most significant
first. Only the first `digits` entries of `buf` are used by the callers, so the result is that prefix. -/
def tuple_digits (base : Nat) (digit : Nat → Run Byte) : Nat → Nat → List Byte → Run (List Byte)
  | 0, _, acc => .ok acc
  | n + 1, tuple, acc => do
    let b ← digit (tuple % base)
    tuple_digits base digit n (tuple / base) (b :: acc)

/-- Lift a stream-independent computation. -/
def PM.lift {α : Type} (r : Run α) : PM σ α := fun s => (r, s)

/-- `alpha_tuple` (lines 264-281), returning `buf[..digits]`. -/
def alpha_tuple (nbits digits : Nat) : PM σ (List Byte) := do
  let rem ← PM.bits_remaining
  if rem < nbits then PM.fail (.err .DataUnderflow)
  else do
    let tuple ← PM.take_bits nbits
    PM.lift (tuple_digits 45 (fun d => idx ALPHA_MAP d) digits tuple [])

/-- The `while count >= 2` loop and the final `count == 1` case of `decode_alpha` (lines 248-259). -/
def alpha_loop (W : Writer σ) : Nat → PM σ Unit
  | 0 => pure ()
  | 1 => do
    let buf ← alpha_tuple 6 1
    PM.write_all W buf
  | count + 2 => do
    let buf ← alpha_tuple 11 2
    PM.write_all W buf
    alpha_loop W count

/-- `decode_alpha` (lines 236-262). -/
def decode_alpha (W : Writer σ) (md : MetaData) : PM σ Unit := do
  let nbits := if md.version ≤ 9 then 9 else if md.version ≤ 26 then 11 else 13
  let count ← PM.take_bits nbits
  alpha_loop W count

/-- `numeric_tuple` (lines 318-334), returning `buf[..digits]`; `(tuple % 10) as u8 + b'0'` cannot overflow. -/
def numeric_tuple (nbits digits : Nat) : PM σ (List Byte) := do
  let rem ← PM.bits_remaining
  if rem < nbits then PM.fail (.err .DataUnderflow)
  else do
    let tuple ← PM.take_bits nbits
    PM.lift (tuple_digits 10 (fun d => .ok (BitVec.ofNat 8 d + 0x30#8)) digits tuple [])

/-- The `while count >= 3` loop and the final cases of `decode_numeric` (lines 295-313). -/
def numeric_loop (W : Writer σ) : Nat → PM σ Unit
  | 0 => pure ()
  | 1 => do
    let buf ← numeric_tuple 4 1
    PM.write_all W buf
  | 2 => do
    let buf ← numeric_tuple 7 2
    PM.write_all W buf
  | count + 3 => do
    let buf ← numeric_tuple 10 3
    PM.write_all W buf
    numeric_loop W count

/-- `decode_numeric` (lines 283-316). -/
def decode_numeric (W : Writer σ) (md : MetaData) : PM σ Unit := do
  let nbits := if md.version ≤ 9 then 10 else if md.version ≤ 26 then 12 else 14
  let count ← PM.take_bits nbits
  numeric_loop W count

/-- The `while` loop of `decode_payload` (lines 143-154), cut off after `fuel` rounds. -/
def payload_loop (W : Writer σ) (md : MetaData) : Nat → PM σ Unit
  | 0 => PM.fail .diverge
  | fuel + 1 => do
    let rem ← PM.bits_remaining
    if rem ≥ 4 then do
      let ty ← PM.take_bits 4
      if ty = 0 then pure ()
      else do
        (match ty with
          | 1 => decode_numeric W md
          | 2 => decode_alpha W md
          | 4 => decode_byte W md
          | 8 => decode_kanji W md
          | 7 => decode_eci
          | _ => PM.fail (.err .UnknownDataType))
        payload_loop W md fuel
    else pure ()

/-- `decode_payload` (lines 139-156). The fuel is proved sufficient: every round consumes at least 4 bits.
Result and final writer state. -/
def decode_payload (W : Writer σ) (md : MetaData) (ds : CorrectedDataStream) (w : σ) : Run Unit × σ :=
  let r := payload_loop W md (ds.bit_len + 1) (ds, w)
  (r.1, r.2.2)

/-- The inner `_decode` (lines 113-117). -/
def decode_stream (c : BitGrid) : Run (MetaData × CorrectedDataStream) := do
  let (md, raw) ← get_raw c true
  let stream ← codestream_ecc md raw
  pure (md, stream)

/-- Orientation choice of `decode` (lines 118-124). -/
def decode_oriented (code : BitGrid) : Run (MetaData × CorrectedDataStream) :=
  match decode_stream code with
  | .ok r => .ok r
  | .error (.err original) =>
    match decode_stream (MirroredGrid code) with
    | .ok r => .ok r
    | .error (.err _) => .error (.err original)
    | .error f => .error f
  | .error f => .error f

/-- `decode` (lines 109-128). Result and final writer state. -/
def decode (W : Writer σ) (code : BitGrid) (w : σ) : Run MetaData × σ :=
  match decode_oriented code with
  | .error f => (.error f, w)
  | .ok (md, stream) =>
    match decode_payload W md stream w with
    | (.ok (), w') => (.ok md, w')
    | (.error f, w') => (.error f, w')

end Rqrr
