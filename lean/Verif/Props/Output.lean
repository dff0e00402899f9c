import Verif.Model.Output
import Verif.Props.Regions
import Verif.Props.Several

/-!
# C66: debug pictures and error messages
-/

namespace Rqrr

open Spec ImageBuffer LawfulImage

/-- Painting all pixels of a picture, row by row. -/
theorem paint_ok {T β : Type} (put : T → Nat → Nat → β → Run T) (see : T → Nat → Nat → β) (Good : T → Prop) {w h : Nat}
    (put_ok : ∀ t x y v, Good t → x < w → y < h → ∃ t', put t x y v = .ok t' ∧ Good t' ∧
      ∀ x' y', x' < w → y' < h → see t' x' y' = if x' = x ∧ y' = y then v else see t x' y')
    (colour : Nat → Nat → Run β) (f : Nat → Nat → β) (hf : ∀ x y, x < w → y < h → colour x y = .ok (f x y)) {t : T} (ht : Good t) :
    ∃ t', (forRange 0 h t fun y t => forRange 0 w t fun x t => colour x y >>= fun c => put t x y c) = .ok t' ∧ Good t' ∧
      ∀ x y, x < w → y < h → see t' x y = f x y := by
  obtain ⟨t', e, g, hs⟩ := forRange_ok (s := t) (f := fun y t => forRange 0 w t fun x t => colour x y >>= fun c => put t x y c)
    (fun y t => Good t ∧ ∀ x' y', x' < w → y' < h → y' < y → see t x' y' = f x' y') (Nat.zero_le h) ⟨ht, by intros; omega⟩ (by
      intro y t _ hy ⟨g, hs⟩
      obtain ⟨t', e, g', hs'⟩ := forRange_ok (s := t) (f := fun x t => colour x y >>= fun c => put t x y c)
        (fun x t => Good t ∧ ∀ x' y', x' < w → y' < h → (y' < y ∨ y' = y ∧ x' < x) → see t x' y' = f x' y') (Nat.zero_le w)
        ⟨g, fun x' y' h1 h2 h3 => hs x' y' h1 h2 (by omega)⟩ (by
          intro x t _ hx ⟨g, hs⟩
          obtain ⟨t', e, g', hv⟩ := put_ok t x y (f x y) g hx hy
          refine ⟨t', ?_, g', fun x' y' h1 h2 h3 => ?_⟩
          · show (colour x y >>= _) = _
            rw [hf x y hx hy]
            exact e
          · rw [hv x' y' h1 h2]
            by_cases hxy : x' = x ∧ y' = y
            · rw [if_pos hxy, hxy.1, hxy.2]
            · rw [if_neg hxy]
              exact hs x' y' h1 h2 (by omega))
      exact ⟨t', e, g', fun x' y' h1 h2 h3 => hs' x' y' h1 h2 (by omega)⟩)
  exact ⟨t', e, g, fun x y hx hy => hs x y hx hy hy⟩

/-- **C66.** The picture saved for a grid: one pixel per module, black where the module is dark and white elsewhere. -/
theorem C66_grid_picture {code : BitGrid} {m : Nat → Nat → Bool} (hm : Shows code m) (hs : code.size < 2 ^ 32) :
    ∃ img, code.picture = .ok img ∧ Valid img ∧ width img = code.size ∧ height img = code.size ∧
      ∀ x y, x < code.size → y < code.size → get_pixel img x y = .ok (if m y x then 0 else 255) := by
  obtain ⟨img, e, ⟨g, gw, gh⟩, hv⟩ := paint_ok (T := GrayImage) (β := Byte) set_pixel view
    (fun t => Valid t ∧ width t = code.size ∧ height t = code.size) (w := code.size) (h := code.size)
    (by
      intro t x y v ⟨g, gw, gh⟩ hx hy
      obtain ⟨t', e, g', ew, eh, hv⟩ := set_ok (s := t) (x := x) (y := y) v g (by omega) (by omega)
      exact ⟨t', e, ⟨g', by omega, by omega⟩, fun x' y' h1 h2 => hv x' y' (by omega) (by omega)⟩)
    (fun x y => do
      let b ← code.bit y x
      pure (if b then 0 else 255))
    (fun x y => if m y x then 0 else 255)
    (by
      intro x y hx hy
      rw [hm y x hy hx]
      rfl)
    (t := GrayImage.new code.size code.size)
    (by
      have : code.size % 2 ^ 32 = code.size := Nat.mod_eq_of_lt hs
      unfold GrayImage.new
      rw [this]
      exact ⟨⟨by simp, hs, hs⟩, rfl, rfl⟩)
  refine ⟨img, ?_, g, gw, gh, fun x y hx hy => ?_⟩
  · rw [← e]
    unfold BitGrid.picture
    congr 1
    funext y t
    congr 1
    funext x t
    cases code.bit y x <;> rfl
  · rw [get_ok g (by omega) (by omega), hv x y hx hy]

/-- **C66.** So nothing is lost: the grid made from the dark pixels of that picture with `SimpleGrid::from_func` decodes like the
original. -/
theorem C66_round_trip {code : BitGrid} {m : Nat → Nat → Bool} (hm : Shows code m) (hs : code.size < 2 ^ 32) (h0 : 9 ≤ code.size) :
    ∃ img g, code.picture = .ok img ∧ SimpleGrid.from_func code.size (fun x y => decide (get_pixel img x y = .ok 0)) = .ok g ∧
      ∀ {σ : Type} (W : Writer σ) (w : σ), Grid.decode_to W g.toBitGrid w = Grid.decode_to W code w := by
  obtain ⟨img, e, -, -, -, hv⟩ := C66_grid_picture hm hs
  obtain ⟨g, g1, g2, g3⟩ := C29_simple_grid code.size fun x y => decide (get_pixel img x y = .ok 0)
  refine ⟨img, g, e, g1, fun W w => ?_⟩
  refine decode_congr (m := m) (fun y x hy hx => ?_) (fun y x hy hx => hm y x hy hx) g2 (by rw [g2]; exact h0) W w
  rw [g2] at hy hx
  rw [g3 y x hy hx, hv x y hx hy]
  cases m y x <;> rfl

instance : Inhabited Rgb := ⟨(0, 0, 0)⟩

theorem RgbImage.set_ok {t : RgbImage} {x y : Nat} (v : Rgb) (g : t.pixels.size = t.w * t.h ∧ t.w < 2 ^ 32 ∧ t.h < 2 ^ 32) (hx : x < t.w)
    (hy : y < t.h) : ∃ t', t.set_pixel x y v = .ok t' ∧ (t'.pixels.size = t'.w * t'.h ∧ t'.w < 2 ^ 32 ∧ t'.h < 2 ^ 32) ∧ t'.w = t.w ∧ t'.h = t.h ∧
      ∀ x' y', x' < t.w → y' < t.h → t'.pixels.getD (y' * t'.w + x') (0, 0, 0) =
        if x' = x ∧ y' = y then v else t.pixels.getD (y' * t.w + x') (0, 0, 0) := by
  obtain ⟨hv, hw, hh⟩ := g
  have hi : y * t.w + x < t.pixels.size := by rw [hv]; exact pixel_index_lt hx hy
  refine ⟨{ t with pixels := t.pixels.set (y * t.w + x) v }, ?_, ⟨?_, hw, hh⟩, rfl, rfl, ?_⟩
  · unfold RgbImage.set_pixel
    simp only [Nat.mod_eq_of_lt (show x < 2 ^ 32 by omega), Nat.mod_eq_of_lt (show y < 2 ^ 32 by omega)]
    rw [if_pos ⟨hx, hy⟩, dif_pos hi]
  · show (t.pixels.set _ v).size = _
    rw [Array.size_set]; exact hv
  · intro x' y' hx' hy'
    show (t.pixels.set (y * t.w + x) v).getD (y' * t.w + x') (0, 0, 0) = _
    rw [Array.getD_eq_getD_getElem?, Array.getElem?_set, Array.getD_eq_getD_getElem?]
    by_cases e : x' = x ∧ y' = y
    · rw [if_pos e, if_pos ((pixel_index_inj (w := t.w) hx hx').2 e).symm]; rfl
    · rw [if_neg e, if_neg fun e' => e ((pixel_index_inj (w := t.w) hx hx').1 e'.symm)]

variable {S : Type} [ImageBuffer S] [LawfulImage S] {img0 img : PreparedImage S} {claims : Pos → Option Claim}

/-- The colour of a claimed region in the debug picture. -/
def Spec.Claim.rgb : Claim → Rgb
  | .CapStone => (255, 0, 0)
  | .Alignment => (0, 255, 0)
  | .Tmp1 => (0, 0, 255)

/-- **C66.** The picture saved for an image, at any time: white exactly where the prepared image is, and finder patterns, alignment patterns
and regions marked for the moment red, green and blue. -/
theorem C66_state_picture (h0 : Fresh img0) (h : History img0 claims img) (hw : width img0.buffer < 2 ^ 32) (hh : height img0.buffer < 2 ^ 32) :
    ∃ pic, img.picture = .ok pic ∧ pic.w = width img0.buffer ∧ pic.h = height img0.buffer ∧
      ∀ x y, x < width img0.buffer → y < height img0.buffer → ∃ c, pic.pixels[y * pic.w + x]? = some c ∧
        (c = (255, 255, 255) ↔ ¬ IsBlack img0 (x, y)) ∧ ∀ k, IsBlack img0 (x, y) → claims (x, y) = some k → c = k.rgb := by
  obtain ⟨hI, ew, eh⟩ := history_inv h0 h
  have hp := hI.ok.painted
  have hc : ∀ px : Byte, ∃ c, state_color px = .ok c ∧ (c = (255, 255, 255) ↔ px = 0) ∧
      ∀ k, claimOf px = some k → c = k.rgb := by
    intro px
    have key : ∀ n < 256, (match state_color (BitVec.ofNat 8 n) with
        | .ok c => decide (c = (255, 255, 255)) == decide (n = 0) && (claimOf (BitVec.ofNat 8 n)).all fun k => decide (c = k.rgb)
        | .error _ => false) = true := by decide +kernel
    have := key px.toNat px.isLt
    rw [BitVec.ofNat_toNat, BitVec.setWidth_eq] at this
    cases hcol : state_color px with
    | error _ => rw [hcol] at this; cases this
    | ok c =>
      rw [hcol] at this
      dsimp only at this
      rw [Bool.and_eq_true, beq_iff_eq, decide_eq_decide] at this
      refine ⟨c, rfl, this.1.trans ?_, fun k hk => ?_⟩
      · constructor
        · intro h; apply BitVec.eq_of_toNat_eq; rw [h]; rfl
        · rintro rfl; rfl
      · rw [hk] at this
        simpa using this.2
  choose f hf1 hf2 hf3 using hc
  obtain ⟨pic, e, ⟨g, gw, gh⟩, hv⟩ := paint_ok (T := RgbImage) (β := Rgb) RgbImage.set_pixel
    (fun t x y => t.pixels.getD (y * t.w + x) (0, 0, 0))
    (fun t => (t.pixels.size = t.w * t.h ∧ t.w < 2 ^ 32 ∧ t.h < 2 ^ 32) ∧ t.w = width img.buffer ∧ t.h = height img.buffer)
    (w := width img.buffer) (h := height img.buffer)
    (by
      intro t x y v ⟨g, gw, gh⟩ hx hy
      obtain ⟨t', e, g', ew, eh, hv⟩ := RgbImage.set_ok v g (x := x) (y := y) (by omega) (by omega)
      exact ⟨t', e, ⟨g', by omega, by omega⟩, fun x' y' h1 h2 => hv x' y' (by omega) (by omega)⟩)
    (fun x y => do
      let px ← get_pixel img.buffer x y
      state_color px)
    (fun x y => f (view img.buffer x y))
    (by
      intro x y hx hy
      rw [get_ok hp.valid hx hy]
      exact hf1 _)
    (t := RgbImage.new (width img.buffer) (height img.buffer))
    (by
      have w1 : width img.buffer % 2 ^ 32 = width img.buffer := Nat.mod_eq_of_lt (by omega)
      have h1 : height img.buffer % 2 ^ 32 = height img.buffer := Nat.mod_eq_of_lt (by omega)
      unfold RgbImage.new
      rw [w1, h1]
      exact ⟨⟨by simp, by dsimp only; omega, by dsimp only; omega⟩, rfl, rfl⟩)
  refine ⟨pic, ?_, gw.trans ew, gh.trans eh, fun x y hx hy => ⟨f (view img.buffer x y), ?_, ?_, ?_⟩⟩
  · rw [← e]
    unfold PreparedImage.picture
    congr 1
    funext y t
    congr 1
    funext x t
    cases get_pixel img.buffer x y <;> rfl
  · have hi : y * pic.w + x < pic.pixels.size := by rw [g.1]; exact pixel_index_lt (by omega) (by omega)
    have := hv x y (by omega) (by omega)
    rw [Array.getD_eq_getD_getElem?, Array.getElem?_eq_getElem hi] at this
    rw [Array.getElem?_eq_getElem hi]
    exact congrArg some this
  · rw [hf2]
    exact hp.white (x, y) (by show x < _; omega) (by show y < _; omega)
  · intro k hb hk
    apply hf3
    rw [← hI.ok.claim (x, y) hb]
    exact hk

/-- **C66.** Different errors have different messages. -/
theorem C66_messages : ∀ e e' : DeQRError, e.message = e'.message → e = e' := by
  intro e e' h
  cases e <;> cases e' <;> first | rfl | (revert h; decide)

/-- The picture of the symbol for `hi` has a black first pixel and a white one at column 7. -/
example : ∃ img, hiGrid.picture = .ok img ∧ get_pixel img 0 0 = .ok 0 ∧ get_pixel img 7 0 = .ok 255 := by
  obtain ⟨img, e, -, -, -, hv⟩ := C66_grid_picture (code := hiGrid) (m := hi) (fun _ _ _ _ => rfl) (by decide)
  exact ⟨img, e, hv 0 0 (by decide) (by decide), hv 7 0 (by decide) (by decide)⟩

end Rqrr
