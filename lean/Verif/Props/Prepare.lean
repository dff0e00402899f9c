import Verif.Proofs.Bitmap
import Verif.Proofs.History

/-!
# C31-C34, C50: binarisation, images from functions, clamped sampling
-/

namespace Rqrr

open ImageBuffer LawfulImage Spec

variable {S : Type} [ImageBuffer S] [LawfulImage S]

/-- C31. `prepare` never fails (no overflow, no access out of bounds, for widths up to 2^31), keeps the dimensions and makes
every pixel black (1) or white (0): black exactly where the specification says. The region cache starts empty. -/
theorem C31_prepare {s : S} (hv : Valid s) (hw : width s ≤ 2 ^ 31) :
    ∃ s', PreparedImage.prepare s = .ok { buffer := s', cache := .new 251 } ∧ Valid s' ∧ width s' = width s ∧
      height s' = height s ∧ ∀ x y, x < width s → y < height s →
        view s' x y = if black (width s) (view s) x y then 1 else 0 :=
  prepare_ok hv hw

/-- C31, consequence: the result is an image as the theorems on region queries want it. -/
theorem C31_fresh {s : S} (hv : Valid s) (hw : width s ≤ 2 ^ 31) (hs : width s * height s < 2 ^ 64) :
    ∃ img, PreparedImage.prepare s = .ok img ∧ Fresh img := by
  obtain ⟨s', h1, h2, h3, h4, h5⟩ := prepare_ok hv hw
  refine ⟨_, h1, h2, ?_, rfl, by dsimp only; rw [h3, h4]; exact hs⟩
  intro x y hx hy
  dsimp only at hx hy ⊢
  rw [h5 x y (by omega) (by omega)]
  by_cases hb : black (width s) (view s) x y = true
  · rw [if_pos hb]; exact .inr rfl
  · rw [if_neg hb]; exact .inl rfl

/-- The row of a place on a path. -/
theorem snake_row {w : Nat} (right : Bool) {x y j : Nat} (hx : x < w) (hj : j < snakeIndex w right x y + 1) :
    (snake w right j).1 < w ∧ (snake w right j).2 ≤ y := by
  have hw : 0 < w := by omega
  have hj' : j < (y + 1) * w := by
    rw [Nat.succ_mul]
    unfold snakeIndex at hj
    split at hj <;> omega
  unfold snake
  constructor
  · have := Nat.mod_lt j hw
    dsimp only
    split <;> omega
  · exact Nat.lt_succ_iff.1 ((Nat.div_lt_iff_lt_mul hw).2 hj')

/-- C32. A pixel whose luminance is at least 95 % of the maximum found in its row and the rows above (rounded down) becomes
white. -/
theorem C32_bright_pixels_stay_white {s s' : S} {c : LruCache ColoredRegion} (hv : Valid s) (hw : width s ≤ 2 ^ 31)
    (hrun : PreparedImage.prepare s = .ok { buffer := s', cache := c }) {x y L : Nat} (hx : x < width s) (hy : y < height s)
    (hL : ∀ x' y', x' < width s → y' ≤ y → (view s x' y').toNat ≤ L) (hp : 19 * L / 20 ≤ (view s x y).toNat) :
    view s' x y = 0 := by
  obtain ⟨s'', h1, _, _, _, h5⟩ := prepare_ok hv hw
  rw [h1] at hrun
  injection hrun with hrun
  injection hrun with e _
  subst e
  rw [h5 x y hx hy, if_neg]
  unfold black
  rw [decide_eq_true_iff, Nat.not_lt]
  have hts := averageWindow_pos (width s)
  have havg : ∀ right, averageAt (width s) (view s) right x y ≤ L * averageWindow (width s) := by
    intro right
    refine running_le hts _ _ fun j hj => ?_
    obtain ⟨a, b⟩ := snake_row right hx hj
    exact hL _ _ a b
  refine Nat.le_trans ?_ hp
  have h1 := havg true
  have h2 := havg false
  have h3 : (averageAt (width s) (view s) true x y + averageAt (width s) (view s) false x y) * 95 ≤
      19 * L * (10 * averageWindow (width s)) := by
    calc _ ≤ (L * averageWindow (width s) + L * averageWindow (width s)) * 95 := Nat.mul_le_mul_right _ (Nat.add_le_add h1 h2)
      _ = 19 * L * (10 * averageWindow (width s)) := by ring
  calc _ ≤ 19 * L * (10 * averageWindow (width s)) / (200 * averageWindow (width s)) := Nat.div_le_div_right h3
    _ = 19 * L * (10 * averageWindow (width s)) / (20 * (10 * averageWindow (width s))) := by congr 1; ring
    _ = 19 * L / 20 := Nat.mul_div_mul_right _ _ (by omega)

/-- C32, absolute form: luminance 242 or more is always white. -/
theorem C32_242_is_white {s s' : S} {c : LruCache ColoredRegion} (hv : Valid s) (hw : width s ≤ 2 ^ 31)
    (hrun : PreparedImage.prepare s = .ok { buffer := s', cache := c }) {x y : Nat} (hx : x < width s) (hy : y < height s)
    (hp : 242 ≤ (view s x y).toNat) : view s' x y = 0 :=
  C32_bright_pixels_stay_white hv hw hrun hx hy (L := 255)
    (fun x' y' _ _ => by have := (view s x' y').isLt; omega) (by omega)

/-- C32, uniform images: an image of one luminance becomes all white. -/
theorem C32_uniform {s s' : S} {c : LruCache ColoredRegion} (hv : Valid s) (hw : width s ≤ 2 ^ 31)
    (hrun : PreparedImage.prepare s = .ok { buffer := s', cache := c }) (b : Byte) (hb : ∀ x y, view s x y = b)
    {x y : Nat} (hx : x < width s) (hy : y < height s) : view s' x y = 0 :=
  C32_bright_pixels_stay_white hv hw hrun hx hy (L := b.toNat) (fun x' y' _ _ => by rw [hb]) (by rw [hb]; omega)

/-- C55. Images narrower than 16 pixels become all white, whatever they show: the averages then reach over one pixel only. -/
theorem C55_narrow_images {s s' : S} {c : LruCache ColoredRegion} (hv : Valid s) (hw : width s < 16)
    (hrun : PreparedImage.prepare s = .ok { buffer := s', cache := c }) {x y : Nat} (hx : x < width s) (hy : y < height s) :
    view s' x y = 0 := by
  obtain ⟨s'', h1, _, _, _, h5⟩ := prepare_ok hv (by omega)
  rw [h1] at hrun
  injection hrun with hrun
  injection hrun with e _
  subst e
  have hts : averageWindow (width s) = 1 := by unfold averageWindow; omega
  have havg : ∀ right, averageAt (width s) (view s) right x y = (view s x y).toNat := by
    intro right
    rw [averageAt_eq]
    by_cases h : ((y % 2 == 0) == right) = true
    · rw [if_pos h, run_succ _ _ hx, if_pos h, hts]; simp
    · rw [if_neg h, run_succ _ _ (show width s - 1 - x < width s by omega), if_neg h, hts,
        show width s - 1 - (width s - 1 - x) = x by omega]
      simp
  rw [h5 x y hx hy, if_neg]
  unfold black
  rw [havg true, havg false, hts, decide_eq_true_iff]
  omega

/-- C33. If two images of the same width agree on the first rows, so do their binarisations. -/
theorem C33_causal {s t s' t' : S} {c d : LruCache ColoredRegion} (hs : Valid s) (ht : Valid t) (hw : width s ≤ 2 ^ 31)
    (hst : width t = width s) (hrs : PreparedImage.prepare s = .ok { buffer := s', cache := c })
    (hrt : PreparedImage.prepare t = .ok { buffer := t', cache := d }) {y : Nat} (hys : y < height s) (hyt : y < height t)
    (hagree : ∀ x' y', x' < width s → y' ≤ y → view s x' y' = view t x' y') {x : Nat} (hx : x < width s) :
    view s' x y = view t' x y := by
  obtain ⟨s'', h1, _, _, _, h5⟩ := prepare_ok hs hw
  obtain ⟨t'', g1, _, _, _, g5⟩ := prepare_ok ht (by rw [hst]; exact hw)
  rw [h1] at hrs
  injection hrs with hrs
  injection hrs with e _
  subst e
  rw [g1] at hrt
  injection hrt with hrt
  injection hrt with e _
  subst e
  rw [h5 x y hx hys, g5 x y (by omega) hyt, hst]
  have havg : ∀ right, averageAt (width s) (view s) right x y = averageAt (width s) (view t) right x y := by
    intro right
    refine running_congr _ fun j hj => ?_
    obtain ⟨a, b⟩ := snake_row right hx hj
    rw [hagree _ _ a b]
  unfold black
  rw [havg true, havg false, hagree x y hx (Nat.le_refl _)]

/-- C34. For any closure (a state machine), `prepare_from_bitmap` calls it exactly once per pixel in row-major order - the
final state is the one after these calls - and pixel `(x, y)` is black iff that call returned true. -/
theorem C34_from_bitmap {σ : Type} (w h : Nat) (fill : σ → Nat → Nat → Bool × σ) (s : σ) (hsize : w * h < 2 ^ 64) :
    ∃ img, PreparedImage.prepare_from_bitmap w h fill s =
        (.ok img, callState (fun s x y => (fill s x y).2) w s (h * w)) ∧
      Fresh img ∧ width img.buffer = w ∧ height img.buffer = h ∧
      ∀ x y, x < w → y < h → (view img.buffer x y = 1 ↔ (fill (callState (fun s x y => (fill s x y).2) w s (y * w + x)) x y).1) := by
  have hcol := collect_ok (fun s x y => if (fill s x y).1 then (1 : Byte) else 0) (fun s x y => (fill s x y).2) w h s
  have hfun : (fun s x y => ((if (fill s x y).1 then PixelColor.Black else PixelColor.White).toByte, (fill s x y).2)) =
      fun s x y => ((.ok (if (fill s x y).1 then (1 : Byte) else 0) : Run Byte), (fill s x y).2) := by
    funext s x y
    cases (fill s x y).1 <;> rfl
  have hview : ∀ x y, x < w → y < h → (collected (fun s x y => if (fill s x y).1 then (1 : Byte) else 0)
      (fun s x y => (fill s x y).2) w s (h * w)).getD (y * w + x) 0 =
      if (fill (callState (fun s x y => (fill s x y).2) w s (y * w + x)) x y).1 then 1 else 0 :=
    fun x y hx hy => collected_view _ _ s hx hy
  have hvalid : Valid (BasicImageBuffer.mk w h (collected (fun s x y => if (fill s x y).1 then (1 : Byte) else 0)
      (fun s x y => (fill s x y).2) w s (h * w))) := by
    show Array.size _ = w * h
    rw [collected_size, Nat.mul_comm]
  have hbw : ∀ x y, x < w → y < h → (collected (fun s x y => if (fill s x y).1 then (1 : Byte) else 0)
      (fun s x y => (fill s x y).2) w s (h * w)).getD (y * w + x) 0 = 0 ∨ (collected (fun s x y => if (fill s x y).1 then (1 : Byte) else 0)
      (fun s x y => (fill s x y).2) w s (h * w)).getD (y * w + x) 0 = 1 := by
    intro x y hx hy
    rw [hview x y hx hy]
    cases (fill (callState (fun s x y => (fill s x y).2) w s (y * w + x)) x y).1
    · exact .inl rfl
    · exact .inr rfl
  refine ⟨{ buffer := { w := w, h := h, pixels := _ }, cache := .new 251 }, ?_, ⟨hvalid, hbw, rfl, hsize⟩, rfl, rfl, ?_⟩
  · unfold PreparedImage.prepare_from_bitmap
    rw [chkU_ok hsize, hfun, hcol]
    dsimp only
    rw [without_preparation_ok hvalid hbw]
  · intro x y hx hy
    show Array.getD _ (y * w + x) 0 = 1 ↔ _
    rw [hview x y hx hy]
    cases (fill (callState (fun s x y => (fill s x y).2) w s (y * w + x)) x y).1 <;> decide

/-- C34, pure functions: the image is the given function. -/
theorem C34_from_pure_bitmap (w h : Nat) (f : Nat → Nat → Bool) (hsize : w * h < 2 ^ 64) :
    ∃ img, PreparedImage.prepare_from_bitmap w h (fun _ x y => (f x y, ())) () = (.ok img, ()) ∧
      width img.buffer = w ∧ height img.buffer = h ∧
      ∀ x y, x < w → y < h → (view img.buffer x y = 1 ↔ f x y) := by
  obtain ⟨img, h1, _, h2, h3, h4⟩ := C34_from_bitmap w h (fun _ x y => (f x y, ())) () hsize
  exact ⟨img, h1, h2, h3, h4⟩

/-- C34, greyscale: `prepare_from_greyscale` binarises the image given by the closure's answers. -/
theorem C34_from_greyscale {σ : Type} (w h : Nat) (fill : σ → Nat → Nat → Byte × σ) (s : σ) (hw : w ≤ 2 ^ 31)
    (hsize : w * h < 2 ^ 64) :
    ∃ img, PreparedImage.prepare_from_greyscale w h fill s =
        (.ok img, callState (fun s x y => (fill s x y).2) w s (h * w)) ∧
      Fresh img ∧ width img.buffer = w ∧ height img.buffer = h ∧
      ∀ x y, x < w → y < h → (view img.buffer x y = 1 ↔
        black w (fun x y => if x < w ∧ y < h then (fill (callState (fun s x y => (fill s x y).2) w s (y * w + x)) x y).1 else 0) x y) := by
  have hcol := collect_ok (fun s x y => (fill s x y).1) (fun s x y => (fill s x y).2) w h s
  have hvalid : Valid (BasicImageBuffer.mk w h (collected (fun s x y => (fill s x y).1)
      (fun s x y => (fill s x y).2) w s (h * w))) := by
    show Array.size _ = w * h
    rw [collected_size, Nat.mul_comm]
  obtain ⟨img, g1, g2⟩ := C31_fresh hvalid hw hsize
  obtain ⟨s', h1, h2, h3, h4, h5⟩ := prepare_ok hvalid hw
  rw [h1] at g1
  injection g1 with g1
  subst g1
  refine ⟨_, ?_, g2, h3, h4, ?_⟩
  · unfold PreparedImage.prepare_from_greyscale
    rw [chkU_ok hsize, hcol]
    dsimp only
    rw [h1]
  · intro x y hx hy
    dsimp only
    rw [h5 x y hx hy]
    have e : black w (view (BasicImageBuffer.mk w h (collected (fun s x y => (fill s x y).1)
        (fun s x y => (fill s x y).2) w s (h * w)))) x y =
        black w (fun x y => if x < w ∧ y < h then (fill (callState (fun s x y => (fill s x y).2) w s (y * w + x)) x y).1 else 0) x y := by
      have hv : ∀ x y, x < w → y < h → view (BasicImageBuffer.mk w h (collected (fun s x y => (fill s x y).1)
          (fun s x y => (fill s x y).2) w s (h * w))) x y =
          if x < w ∧ y < h then (fill (callState (fun s x y => (fill s x y).2) w s (y * w + x)) x y).1 else 0 := by
        intro x y hx hy
        rw [if_pos ⟨hx, hy⟩]
        exact collected_view _ _ s hx hy
      have havg : ∀ right, averageAt w (view (BasicImageBuffer.mk w h (collected (fun s x y => (fill s x y).1)
          (fun s x y => (fill s x y).2) w s (h * w)))) right x y = averageAt w
          (fun x y => if x < w ∧ y < h then (fill (callState (fun s x y => (fill s x y).2) w s (y * w + x)) x y).1 else 0) right x y := by
        intro right
        refine running_congr _ fun j hj => ?_
        obtain ⟨a, b⟩ := snake_row right hx hj
        dsimp only
        rw [hv _ _ a (by omega)]
      unfold black
      rw [havg true, havg false, hv x y hx hy]
    rw [show black (width (BasicImageBuffer.mk w h (collected (fun s x y => (fill s x y).1)
        (fun s x y => (fill s x y).2) w s (h * w)))) = black w from rfl, e]
    cases black w (fun x y => if x < w ∧ y < h then (fill (callState (fun s x y => (fill s x y).2) w s (y * w + x)) x y).1 else 0) x y <;> decide

/-- C50. Sampling an image (of positive dimensions below 2^31) at any point reads the pixel whose coordinates are nearest to
the point. -/
theorem C50_clamped_sampling {img : PreparedImage S} (hv : Valid img.buffer) (hw : 0 < width img.buffer)
    (hh : 0 < height img.buffer) (hw' : width img.buffer ≤ 2 ^ 31) (hh' : height img.buffer ≤ 2 ^ 31) (p : Point) :
    ∃ x y : Nat, x < width img.buffer ∧ y < height img.buffer ∧
      img.get_pixel_at_point p = .ok (.ofByte (view img.buffer x y)) ∧
      (∀ x' : Nat, x' < width img.buffer → (p.x - x).natAbs ≤ (p.x - x').natAbs) ∧
      (∀ y' : Nat, y' < height img.buffer → (p.y - y).natAbs ≤ (p.y - y').natAbs) := by
  have hx := clamp_lt (Nat.pos_iff_ne_zero.1 hw) p.x
  have hy := clamp_lt (Nat.pos_iff_ne_zero.1 hh) p.y
  have ea : asI32 (width img.buffer - 1) = ((width img.buffer - 1 : Nat) : Int) := asI32_small (by omega)
  have eb : asI32 (height img.buffer - 1) = ((height img.buffer - 1 : Nat) : Int) := asI32_small (by omega)
  refine ⟨_, _, hx, hy, ?_, ?_, ?_⟩
  · unfold PreparedImage.get_pixel_at_point
    rw [subU_ok hw, Run.ok_bind, subU_ok hh, Run.ok_bind]
    dsimp only
    rw [get_ok hv hx hy, Run.ok_bind]
    rfl
  · intro x' hx'
    rw [ea]
    omega
  · intro y' hy'
    rw [eb]
    omega

/-- C50, larger images: still never out of bounds. -/
theorem C50_never_out_of_bounds {img : PreparedImage S} (hv : Valid img.buffer) (hw : 0 < width img.buffer)
    (hh : 0 < height img.buffer) (p : Point) : ∃ c, img.get_pixel_at_point p = .ok c := by
  have hx := clamp_lt (Nat.pos_iff_ne_zero.1 hw) p.x
  have hy := clamp_lt (Nat.pos_iff_ne_zero.1 hh) p.y
  unfold PreparedImage.get_pixel_at_point
  rw [subU_ok hw, Run.ok_bind, subU_ok hh, Run.ok_bind]
  dsimp only
  rw [get_ok hv hx hy, Run.ok_bind]
  exact ⟨_, rfl⟩

/-! ### Concrete cases -/

/-- A grey 4x3 image with a dark spot. -/
def greyImage : BasicImageBuffer :=
  { w := 4, h := 3, pixels := #[200, 190, 60, 200, 200, 50, 70, 210, 255, 200, 195, 240] }

example : Valid greyImage := show greyImage.pixels.size = _ by decide

/-- The pixels of a prepared image. -/
def preparedPixels (r : Run (PreparedImage BasicImageBuffer)) : Option (List Byte) :=
  match r with
  | .ok img => some img.buffer.pixels.toList
  | .error _ => none

example : preparedPixels (PreparedImage.prepare greyImage) = some [0, 0, 0, 0, 0, 0, 0, 0, 0, 0, 0, 0] := by decide +kernel

/-- A row of 24 pixels (the averages reach over three pixels) with a dark stretch. -/
def greyRow : BasicImageBuffer :=
  { w := 24, h := 1, pixels := #[200, 190, 200, 200, 200, 190, 200, 200, 60, 50, 60, 200, 200, 190, 200, 200, 200, 190, 200, 200,
    200, 190, 242, 200] }

example : preparedPixels (PreparedImage.prepare greyRow) =
    some [0, 0, 0, 0, 0, 0, 0, 0, 1, 1, 1, 0, 0, 0, 0, 0, 0, 0, 0, 0, 0, 0, 0, 0] := by decide +kernel

/-- A closure that counts its calls and answers `true` on every third. -/
example : (PreparedImage.prepare_from_bitmap 4 2 (fun (n : Nat) _ _ => (n % 3 == 0, n + 1)) 0).2 = 8 ∧
    preparedPixels (PreparedImage.prepare_from_bitmap 4 2 (fun (n : Nat) _ _ => (n % 3 == 0, n + 1)) 0).1 =
      some [1, 0, 0, 1, 0, 0, 1, 0] := by decide +kernel

example : ((PreparedImage.get_pixel_at_point ⟨BasicImageBuffer.mk 3 2 #[1, 0, 1, 0, 0, 0], .new 251⟩
    { x := 17, y := -2147483648 }).toOption = some .Black) := by decide +kernel

end Rqrr
