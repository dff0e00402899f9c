import Verif.Model.Basic

/-!
# Model of src/prepare.rs: images, binarisation, region painting and the region cache

Line numbers refer to src/prepare.rs. `find_groupings` and `detect_grids` are in `Model/Identify.lean`.
`write_state_to` (debug output, lines 405-432) is in `Model/Output.lean`. The `image` crate instance of `ImageBuffer` (lines 42-65)
is modelled by `GrayImage` below, from the documentation of the `image` crate; theorems hold for every implementation
satisfying the laws in `Spec/Image.lean`.
-/

namespace Rqrr

/-- Unsigned 64-bit range check after an arithmetic step (`usize` overflow panics in a checked build). -/
def chkU (n : Nat) : Run Nat := if n < 2 ^ 64 then .ok n else .error .panic

/-- `trait ImageBuffer` (lines 34-40). -/
class ImageBuffer (S : Type) where
  width : S → Nat
  height : S → Nat
  get_pixel : S → Nat → Nat → Run Byte
  set_pixel : S → Nat → Nat → Byte → Run S

open ImageBuffer

/-- `BasicImageBuffer` (lines 67-72). -/
structure BasicImageBuffer where
  w : Nat
  h : Nat
  pixels : Array Byte

/-- `impl ImageBuffer for BasicImageBuffer` (lines 74-92). Indexing a boxed slice panics when out of bounds. -/
instance : ImageBuffer BasicImageBuffer where
  width b := b.w
  height b := b.h
  get_pixel b x y := if h : y * b.w + x < b.pixels.size then .ok b.pixels[y * b.w + x] else .error .panic
  set_pixel b x y val :=
    if h : y * b.w + x < b.pixels.size then .ok { b with pixels := b.pixels.set (y * b.w + x) val } else .error .panic

/-- `image::GrayImage` of the external `image` crate: dimensions are `u32`. -/
structure GrayImage where
  w : Nat
  h : Nat
  pixels : Array Byte

/-- `impl ImageBuffer for T` for grey images of the `image` crate (lines 42-65), here for `T = GrayImage`. `get_pixel` and
`put_pixel` panic when the coordinates, here
truncated to 32 bits, are out of bounds. -/
instance : ImageBuffer GrayImage where
  width b := b.w
  height b := b.h
  get_pixel b x y :=
    if x % 2 ^ 32 < b.w ∧ y % 2 ^ 32 < b.h then
      if h : y % 2 ^ 32 * b.w + x % 2 ^ 32 < b.pixels.size then .ok b.pixels[y % 2 ^ 32 * b.w + x % 2 ^ 32] else .error .panic
    else .error .panic
  set_pixel b x y val :=
    if x % 2 ^ 32 < b.w ∧ y % 2 ^ 32 < b.h then
      if h : y % 2 ^ 32 * b.w + x % 2 ^ 32 < b.pixels.size then
        .ok { b with pixels := b.pixels.set (y % 2 ^ 32 * b.w + x % 2 ^ 32) val }
      else .error .panic
    else .error .panic

/-- `Row` (lines 94-99). -/
structure Row where
  left : Nat
  right : Nat
  y : Nat
  deriving DecidableEq, Repr

/-- `PixelColor` (lines 101-109). -/
inductive PixelColor where
  | White
  | Black
  | CapStone
  | Alignment
  | Tmp1
  | Discarded (x : Byte)
  deriving DecidableEq, Repr

/-- `ColoredRegion` (lines 111-122). -/
inductive ColoredRegion where
  | Unclaimed (color : PixelColor) (src_x src_y pixel_count : Nat)
  | CapStone
  | Alignment
  | Tmp1
  deriving DecidableEq, Repr

/-- `impl From<u8> for PixelColor` (lines 124-135). -/
def PixelColor.ofByte (x : Byte) : PixelColor :=
  if x = 0 then .White
  else if x = 1 then .Black
  else if x = 2 then .CapStone
  else if x = 3 then .Alignment
  else if x = 4 then .Tmp1
  else .Discarded (x - 5)

/-- `impl From<PixelColor> for u8` (lines 137-148); `x + 5` may overflow. -/
def PixelColor.toByte : PixelColor → Run Byte
  | .White => .ok 0
  | .Black => .ok 1
  | .CapStone => .ok 2
  | .Alignment => .ok 3
  | .Tmp1 => .ok 4
  | .Discarded x => if x.toNat + 5 < 256 then .ok (x + 5) else .error .panic

/-- `impl PartialEq<u8> for PixelColor` (lines 150-155). -/
def PixelColor.eqByte (c : PixelColor) (other : Byte) : Run Bool := do
  let rep ← c.toByte
  pure (rep == other)

/-- `AreaCounter` and its `AreaFiller` implementation (lines 170-176). -/
def AreaCounter.update (count : Nat) (row : Row) : Run Nat := do
  let n ← subU row.right row.left
  chkU (count + (n + 1))

/-- `lru::LruCache<u8, V>` (external crate): entries from most to least recently used. -/
structure LruCache (V : Type) where
  cap : Nat
  items : List (Byte × V)

namespace LruCache

variable {V : Type}

/-- `LruCache::new`. -/
def new (cap : Nat) : LruCache V := { cap := cap, items := [] }

/-- `LruCache::len`. -/
def len (c : LruCache V) : Nat := c.items.length

/-- `LruCache::get`: a hit becomes the most recently used entry. -/
def get (c : LruCache V) (k : Byte) : Option V × LruCache V :=
  match c.items.find? (fun e => e.1 == k) with
  | some e => (some e.2, { c with items := e :: c.items.filter fun e => e.1 != k })
  | none => (none, c)

/-- `LruCache::put`: replaces the entry with this key, or evicts the least recently used one if full; the new entry is
the most recently used one. -/
def put (c : LruCache V) (k : Byte) (v : V) : LruCache V :=
  if c.items.any (fun e => e.1 == k) then { c with items := (k, v) :: c.items.filter fun e => e.1 != k }
  else if c.items.length = c.cap then { c with items := (k, v) :: c.items.dropLast }
  else { c with items := (k, v) :: c.items }

/-- `LruCache::pop_lru`. -/
def pop_lru (c : LruCache V) : Option (Byte × V) × LruCache V :=
  (c.items.getLast?, { c with items := c.items.dropLast })

end LruCache

/-- `PreparedImage` (lines 12-15). -/
structure PreparedImage (S : Type) where
  buffer : S
  cache : LruCache ColoredRegion

variable {S : Type}

/-- `impl Clone for PreparedImage` (lines 17-32): the cache is rebuilt by putting the entries from most to least
recently used. Cloning the buffer is the identity on values. -/
def PreparedImage.clone (self : PreparedImage S) : PreparedImage S where
  buffer := self.buffer
  cache := self.cache.items.foldl (fun cache e => cache.put e.1 e.2) (LruCache.new self.cache.cap)

variable [ImageBuffer S]

/-- Lines 195-203: one step of the running averages in both directions. The state holds `row_average`, `avg_v`, `avg_u`. -/
def prepare_average (buf : S) (w threshold_s y x : Nat) (st : List Nat × Nat × Nat) : Run (List Nat × Nat × Nat) := do
  let (row_average, avg_v, avg_u) := st
  let w1 ← subU w 1
  let far ← subU w1 x
  let (v, u) := if y % 2 == 0 then (far, x) else (x, far)
  let t1 ← subU threshold_s 1
  let pv ← chkU (avg_v * t1)
  let gv ← get_pixel buf v y
  let avg_v ← chkU (pv / threshold_s + gv.toNat)
  let pu ← chkU (avg_u * t1)
  let gu ← get_pixel buf u y
  let avg_u ← chkU (pu / threshold_s + gu.toNat)
  let av ← idx row_average v
  let sv ← chkU (av + avg_v)
  let row_average ← setIdx row_average v sv
  let au ← idx row_average u
  let su ← chkU (au + avg_u)
  let row_average ← setIdx row_average u su
  pure (row_average, avg_v, avg_u)

/-- Lines 208-215: binarise one pixel. -/
def prepare_pixel (row_average : List Nat) (threshold_s y x : Nat) (buf : S) : Run S := do
  let p ← get_pixel buf x y
  let ra ← idx row_average x
  let num ← chkU (ra * (100 - 5))
  let den ← chkU (200 * threshold_s)
  let fill := if p.toNat < num / den then PixelColor.Black else PixelColor.White
  let b ← fill.toByte
  set_pixel buf x y b

/-- Lines 191-217: one row; the state holds the buffer and the averages carried from row to row. -/
def prepare_row (w threshold_s y : Nat) (st : S × Nat × Nat) : Run (S × Nat × Nat) := do
  let (buf, avg_v, avg_u) := st
  let (row_average, avg_v, avg_u) ← forRange 0 w (List.replicate w 0, avg_v, avg_u) fun x st =>
    prepare_average buf w threshold_s y x st
  let buf ← forRange 0 w buf fun x buf => prepare_pixel row_average threshold_s y x buf
  pure (buf, avg_v, avg_u)

/-- `PreparedImage::prepare` (lines 182-223). -/
def PreparedImage.prepare (buf : S) : Run (PreparedImage S) := do
  let w := width buf
  let h := height buf
  let threshold_s := max (w / 8) 1
  let (buf, _, _) ← forRange 0 h (buf, 0, 0) fun y st => prepare_row w threshold_s y st
  pure { buffer := buf, cache := .new 251 }

/-- `PreparedImage::without_preparation` (lines 307-318). -/
def PreparedImage.without_preparation (buf : S) : Run (PreparedImage S) := do
  forRange 0 (height buf) () fun y _ =>
    forRange 0 (width buf) () fun x _ => do
      let p ← get_pixel buf x y
      Run.assert (p.toNat < 2)
  pure { buffer := buf, cache := .new 251 }

/-- `PreparedImage::get_pixel_at` (lines 401-403). -/
def PreparedImage.get_pixel_at (self : PreparedImage S) (x y : Nat) : Run PixelColor := do
  let p ← get_pixel self.buffer x y
  pure (.ofByte p)

/-- `Point` (src/identify/mod.rs:8-12). -/
structure Point where
  x : Int
  y : Int
  deriving DecidableEq, Repr

/-- `n as i32` for an unsigned `n`: truncation to 32 bits. -/
def asI32 (n : Nat) : Int := Int.bmod n (2 ^ 32)

/-- `PreparedImage::get_pixel_at_point` (lines 395-399). `self.width() - 1` may underflow. -/
def PreparedImage.get_pixel_at_point (self : PreparedImage S) (p : Point) : Run PixelColor := do
  let w1 ← subU (width self.buffer) 1
  let x := max 0 (min (asI32 w1) p.x)
  let h1 ← subU (height self.buffer) 1
  let y := max 0 (min (asI32 h1) p.y)
  let b ← get_pixel self.buffer x.toNat y.toNat
  pure (.ofByte b)

/-! ### Flood fill -/

/-- Lines 452-454: extend the span to the left. -/
def fill_left (buf : S) (y : Nat) (frm : Byte) : Nat → Run Nat
  | 0 => .ok 0
  | left + 1 => do
    let p ← get_pixel buf left y
    if p == frm then fill_left buf y frm left else pure (left + 1)

/-- Lines 455-457: extend the span to the right; the fuel `n` bounds the number of steps. -/
def fill_right (buf : S) (w1 y : Nat) (frm : Byte) : Nat → Nat → Run Nat
  | 0, _ => .error .diverge
  | n + 1, right =>
    if right < w1 then do
      let p ← get_pixel buf (right + 1) y
      if p == frm then fill_right buf w1 y frm n (right + 1) else pure right
    else pure right

/-- Lines 460-462: paint the span. -/
def fill_span (y left right : Nat) (to : Byte) (buf : S) : Run S :=
  forRange left (right + 1) buf fun i buf => set_pixel buf i y to

/-- Lines 468-479 and 482-493: push a seed for every run of `from` pixels of row `y` within the span. -/
def fill_seeds (buf : S) (left right y : Nat) (frm : Byte) (queue : List (Nat × Nat)) : Run (List (Nat × Nat)) := do
  let (queue, _) ← forRange left (right + 1) (queue, false) fun x (st : List (Nat × Nat) × Bool) => do
    let (queue, seeded_previous) := st
    let p ← get_pixel buf x y
    if p == frm then
      if !seeded_previous then pure ((x, y) :: queue, true) else pure (queue, true)
    else pure (queue, false)
  pure queue

/-- Lines 443-495: the loop body for the popped pixel. -/
def fill_step {φ : Type} (update : φ → Row → Run φ) (w : Nat) (frm to : Byte) (st : S × List (Nat × Nat) × φ) :
    Run (S × List (Nat × Nat) × φ) :=
  match st with
  | (buf, [], fill) => .ok (buf, [], fill)
  | (buf, (x, y) :: queue, fill) => do
    let p ← get_pixel buf x y
    if p == to || p != frm then pure (buf, queue, fill) else do
      let left ← fill_left buf y frm x
      let w1 ← subU w 1
      let right ← fill_right buf w1 y frm (w + 1) x
      let buf ← fill_span y left right to buf
      let fill ← update fill { left := left, right := right, y := y }
      let queue ← (if 0 < y then fill_seeds buf left right (y - 1) frm queue else pure queue : Run (List (Nat × Nat)))
      let h1 ← subU (height buf) 1
      let queue ← (if y < h1 then fill_seeds buf left right (y + 1) frm queue else pure queue : Run (List (Nat × Nat)))
      pure (buf, queue, fill)

/-- `PreparedImage::flood_fill` (lines 434-497), on the buffer. The `Vec` used as a stack is a list with its top at the
head. The second read of the same pixel in line 445 is not repeated. -/
def flood_fill {φ : Type} (update : φ → Row → Run φ) (buf : S) (x y : Nat) (frm to : Byte) (fill : φ) : Run (S × φ) := do
  Run.assert (frm != to)
  let w := width buf
  let (buf, _, fill) ← whileFuel (fun st : S × List (Nat × Nat) × φ => !st.2.1.isEmpty) (fill_step update w frm to)
    (2 * (w * height buf) + 2) (buf, [(x, y)], fill)
  pure (buf, fill)

/-- `PreparedImage::repaint_and_apply` (lines 378-393). -/
def PreparedImage.repaint_and_apply {φ : Type} (update : φ → Row → Run φ) (self : PreparedImage S) (x y : Nat)
    (target_color : PixelColor) (fill : φ) : Run (PreparedImage S × φ) := do
  let src ← get_pixel self.buffer x y
  let isWhite ← PixelColor.White.eqByte src
  let same ← if isWhite then pure true else target_color.eqByte src
  if same then .error .panic else do
    let to ← target_color.toByte
    let (buffer, fill) ← flood_fill update self.buffer x y src to fill
    pure ({ self with buffer := buffer }, fill)

/-- Lines 335-359: the index for a new region; a full cache gives up its least recently used entry, whose pixels become
black again. -/
def PreparedImage.free_index (self : PreparedImage S) : Run (Byte × PreparedImage S) := do
  let cache_fill := self.cache.len
  if cache_fill = self.cache.cap then
    match self.cache.pop_lru with
    | (none, _) => .error .panic
    | (some (c, reg), cache) =>
      match reg with
      | .Unclaimed color src_x src_y _ => do
        let frm ← color.toByte
        let to ← PixelColor.Black.toByte
        let (buffer, _) ← flood_fill (fun (_ : Unit) _ => .ok ()) self.buffer src_x src_y frm to ()
        pure (c, { buffer := buffer, cache := cache })
      | _ => pure (c, { self with cache := cache })
  else pure (BitVec.ofNat 8 cache_fill, self)

/-- `PreparedImage::get_region` (lines 330-376). -/
def PreparedImage.get_region (self : PreparedImage S) (x y : Nat) : Run (ColoredRegion × PreparedImage S) := do
  let p ← get_pixel self.buffer x y
  match PixelColor.ofByte p with
  | .Discarded r =>
    match self.cache.get r with
    | (some reg, cache) => pure (reg, { self with cache := cache })
    | (none, _) => .error .panic
  | .Black => do
    let (reg_idx, self) ← self.free_index
    let next_reg_color := PixelColor.Discarded reg_idx
    let (self, counter) ← self.repaint_and_apply AreaCounter.update x y next_reg_color 0
    let new_reg := ColoredRegion.Unclaimed next_reg_color x y counter
    pure (new_reg, { self with cache := self.cache.put reg_idx new_reg })
  | .Tmp1 => pure (.Tmp1, self)
  | .Alignment => pure (.Alignment, self)
  | .CapStone => pure (.CapStone, self)
  | .White => .error .panic

/-! ### Images from functions -/

/-- Lines 511-520 / 536-540: collect the values of a stateful function, row by row. -/
def collect_pixels {σ : Type} (w h : Nat) (fill : σ → Nat → Nat → Run Byte × σ) (s : σ) : Run (Array Byte) × σ :=
  (List.range h).foldl (fun (st : Run (Array Byte) × σ) y =>
    (List.range w).foldl (fun (st : Run (Array Byte) × σ) x =>
      match st with
      | (.error f, s) => (.error f, s)
      | (.ok pixels, s) =>
        match fill s x y with
        | (.error f, s) => (.error f, s)
        | (.ok b, s) => (.ok (pixels.push b), s)) st) (.ok #[], s)

/-- `PreparedImage::prepare_from_bitmap` (lines 504-524). The closure is a state machine `fill` with state `σ`. -/
def PreparedImage.prepare_from_bitmap {σ : Type} (w h : Nat) (fill : σ → Nat → Nat → Bool × σ) (s : σ) :
    Run (PreparedImage BasicImageBuffer) × σ :=
  match chkU (w * h) with
  | .error f => (.error f, s)
  | .ok _ =>
    match collect_pixels w h
      (fun s x y => ((if (fill s x y).1 then PixelColor.Black else PixelColor.White).toByte, (fill s x y).2)) s with
    | (.error f, s) => (.error f, s)
    | (.ok pixels, s) => (PreparedImage.without_preparation { w := w, h := h, pixels := pixels : BasicImageBuffer }, s)

/-- `PreparedImage::prepare_from_greyscale` (lines 530-544). -/
def PreparedImage.prepare_from_greyscale {σ : Type} (w h : Nat) (fill : σ → Nat → Nat → Byte × σ) (s : σ) :
    Run (PreparedImage BasicImageBuffer) × σ :=
  match chkU (w * h) with
  | .error f => (.error f, s)
  | .ok _ =>
    match collect_pixels w h (fun s x y => (.ok (fill s x y).1, (fill s x y).2)) s with
    | (.error f, s) => (.error f, s)
    | (.ok pixels, s) => (PreparedImage.prepare { w := w, h := h, pixels := pixels : BasicImageBuffer }, s)

end Rqrr
