import Verif.Model.Prepare
import Verif.Model.Decode

/-!
# Model of the debug output and the error messages

`save` of the `image` crate is not modelled: the functions here return the picture that is saved.
-/

namespace Rqrr

open ImageBuffer

/-- `image::GrayImage::new` (external crate): dimensions are `u32`, all pixels are 0. -/
def GrayImage.new (w h : Nat) : GrayImage := { w := w % 2 ^ 32, h := h % 2 ^ 32, pixels := Array.replicate (w % 2 ^ 32 * (h % 2 ^ 32)) 0 }

/-- `BitGrid::write_grid_to` (src/lib.rs:140-152) without the `save`. `get_pixel_mut` panics like `put_pixel`. -/
def BitGrid.picture (self : BitGrid) : Run GrayImage :=
  forRange 0 self.size (GrayImage.new self.size self.size) fun y dyn_img =>
    forRange 0 self.size dyn_img fun x dyn_img => do
      let b ← self.bit y x
      let color : Byte := if b then 0 else 255
      set_pixel dyn_img x y color

/-- A pixel of an `image::RgbImage`. -/
abbrev Rgb := Byte × Byte × Byte

/-- `image::RgbImage` of the external `image` crate. -/
structure RgbImage where
  w : Nat
  h : Nat
  pixels : Array Rgb

/-- `image::RgbImage::new`. -/
def RgbImage.new (w h : Nat) : RgbImage :=
  { w := w % 2 ^ 32, h := h % 2 ^ 32, pixels := Array.replicate (w % 2 ^ 32 * (h % 2 ^ 32)) (0, 0, 0) }

/-- Assignment through `image::RgbImage::get_pixel_mut`, which panics when the coordinates are out of bounds; here they are truncated to
32 bits as in the call. -/
def RgbImage.set_pixel (b : RgbImage) (x y : Nat) (val : Rgb) : Run RgbImage :=
  if x % 2 ^ 32 < b.w ∧ y % 2 ^ 32 < b.h then
    if h : y % 2 ^ 32 * b.w + x % 2 ^ 32 < b.pixels.size then
      .ok { b with pixels := b.pixels.set (y % 2 ^ 32 * b.w + x % 2 ^ 32) val }
    else .error .panic
  else .error .panic

/-- `COLORS` (src/prepare.rs:408-417). -/
def stateColors : List Rgb :=
  [(255, 0, 0), (0, 255, 0), (0, 0, 255), (255, 255, 0), (255, 0, 255), (0, 255, 255), (128, 128, 128), (128, 0, 128)]

/-- The colour for one pixel (src/prepare.rs:421-428); `px - 2` is a checked subtraction. -/
def state_color (px : Byte) : Run Rgb :=
  if px = 0 then pure (255, 255, 255)
  else if px = 1 then pure (0, 0, 0)
  else do
    let i ← subU px.toNat 2
    idx stateColors (i % 8)

/-- `PreparedImage::write_state_to` (src/prepare.rs:405-432) without the `save`. The pixel is read once. -/
def PreparedImage.picture {S : Type} [ImageBuffer S] (self : PreparedImage S) : Run RgbImage :=
  forRange 0 (height self.buffer) (RgbImage.new (width self.buffer) (height self.buffer)) fun y dyn_img =>
    forRange 0 (width self.buffer) dyn_img fun x dyn_img => do
      let px ← get_pixel self.buffer x y
      let color ← state_color px
      dyn_img.set_pixel x y color

/-- `impl Display for DeQRError` (src/lib.rs:321-336). -/
def DeQRError.message : DeQRError → String
  | .IoError => "IoError(Could not write to output)"
  | .DataUnderflow => "DataUnderflow(Expected more bits to decode)"
  | .DataOverflow => "DataOverflow(Expected less bits to decode)"
  | .UnknownDataType => "UnknownDataType(DataType not known or not implemented)"
  | .DataEcc => "Ecc(Too many errors to correct)"
  | .FormatEcc => "Ecc(Version information corrupt)"
  | .InvalidVersion => "InvalidVersion(Invalid version or corrupt)"
  | .InvalidGridSize => "InvalidGridSize(Invalid version or corrupt)"
  | .EncodingError => "Encoding(Not UTF8)"

end Rqrr
