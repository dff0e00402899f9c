import Verif.Proofs.Dark
import Verif.Props.Clean

/-!
# C58: dark pixels become black; greyscale drawings
-/

namespace Rqrr

open Spec ImageBuffer LawfulImage

theorem recent_le (g : Nat → Nat) (idx : Nat) : ∀ m, ((List.range m).map fun i => if i ≤ idx then g (idx - i) else 0).sum =
    ((List.range (min m (idx + 1))).map fun i => g (idx - i)).sum
  | 0 => by simp
  | m + 1 => by
    rw [List.range_succ, List.map_append, List.sum_append, recent_le g idx m]
    by_cases h : m ≤ idx
    · rw [show min m (idx + 1) = m by omega, show min (m + 1) (idx + 1) = m + 1 by omega, List.range_succ, List.map_append, List.sum_append]
      simp [h]
    · rw [show min m (idx + 1) = idx + 1 by omega, show min (m + 1) (idx + 1) = idx + 1 by omega]
      simp [h]

theorem recentSum_le {w : Nat} (hw : 16 ≤ w) (f : Nat → Nat → Byte) (right : Bool) (m x y : Nat) :
    recentSum w f right (m * averageWindow w) x y ≤ 4 ^ m * averageAt w f right x y + 4 ^ m * (averageWindow w - 1) := by
  have hts : 2 ≤ averageWindow w := by unfold averageWindow; omega
  unfold recentSum averageAt
  set idx := snakeIndex w right x y
  have e := recent_le (fun k => (f (snake w right k).1 (snake w right k).2).toNat) idx (m * averageWindow w)
  rw [e]
  set n := min (m * averageWindow w) (idx + 1) with hn
  have h := running_recent hts (fun k => (f (snake w right k).1 (snake w right k).2).toNat) (idx + 1 - n) n m (by omega)
  rw [show idx + 1 - n + n = idx + 1 by omega] at h
  refine le_trans (le_of_eq ?_) h
  congr 1
  apply List.map_congr_left
  intro i hi
  have := List.mem_range.1 hi
  rw [show idx + 1 - n + (n - 1 - i) = idx - i by omega]

/-- A pixel of luminance `p` has enough light before it: for some number of windows, the last places of the two paths add up. -/
def Spec.LightEnough (w : Nat) (f : Nat → Nat → Byte) (p x y : Nat) : Prop := ∃ m, averageWindow w * (4 ^ m * (200 * (p + 1) + 190)) ≤
  95 * (recentSum w f true (m * averageWindow w) x y + recentSum w f false (m * averageWindow w) x y)

theorem light_enough {w : Nat} (hw : 16 ≤ w) {f : Nat → Nat → Byte} {p x y : Nat} (h : LightEnough w f p x y) :
    p < (averageAt w f true x y + averageAt w f false x y) * 95 / (200 * averageWindow w) := by
  have hts : 2 ≤ averageWindow w := by unfold averageWindow; omega
  obtain ⟨m, hm⟩ := h
  have a := recentSum_le hw f true m x y
  have b := recentSum_le hw f false m x y
  rw [← Nat.succ_le_iff, Nat.le_div_iff_mul_le (by omega), Nat.succ_eq_add_one]
  set ts := averageWindow w
  have p4 : 0 < 4 ^ m := Nat.pow_pos (by omega)
  refine Nat.le_of_mul_le_mul_left (c := 4 ^ m) ?_ p4
  have hs : 4 ^ m * (ts - 1) ≤ 4 ^ m * ts := Nat.mul_le_mul_left _ (by omega)
  have e1 : ts * (4 ^ m * (200 * (p + 1) + 190)) = 4 ^ m * ((p + 1) * (200 * ts)) + 190 * (4 ^ m * ts) := by ring
  have e2 : 4 ^ m * ((averageAt w f true x y + averageAt w f false x y) * 95) =
    95 * (4 ^ m * averageAt w f true x y) + 95 * (4 ^ m * averageAt w f false x y) := by ring
  rw [e2]
  rw [e1] at hm
  omega

/-- **C58.** A pixel that is dark compared with what lies before it becomes black. It suffices, with `t` an eighth of the width
and any number `m`, that the luminances of the last `m * t` places of the two paths up to the pixel add up to at least
`t * 4 ^ m * (200 * (p + 1) + 190) / 95`, where `p` is the luminance of the pixel. For `m = 1` this says that the mean of these places is at
least `4.22 * p + 8.3`. -/
theorem C58_dark_pixels_become_black {S : Type} [ImageBuffer S] [LawfulImage S] {s s' : S} {c : LruCache ColoredRegion} (hv : Valid s)
    (h16 : 16 ≤ width s) (hw : width s ≤ 2 ^ 31) (hrun : PreparedImage.prepare s = .ok { buffer := s', cache := c }) {x y : Nat}
    (hx : x < width s) (hy : y < height s) (hd : LightEnough (width s) (view s) (view s x y).toNat x y) : view s' x y = 1 := by
  obtain ⟨s'', h1, _, _, _, h5⟩ := prepare_ok hv hw
  rw [h1] at hrun
  injection hrun with hrun
  injection hrun with e _
  subst e
  rw [h5 x y hx hy, if_pos]
  unfold black
  rw [decide_eq_true_iff]
  exact light_enough h16 hd

/-- The closure that gives the luminances of a black on white drawing. -/
def Spec.Placement.grey (P : Placement) (n : Nat) (M : Nat → Nat → Bool) (x y : Nat) : Byte := if P.dark n M x y then 0 else 255

/-- Every dark pixel has enough light before it. For `m = 1` that is one white place in fifteen of the last places of the two
paths. -/
def Spec.EnoughLight (w h : Nat) (d : Nat → Nat → Byte) : Prop := ∀ x y, x < w → y < h → d x y = 0 → LightEnough w d 0 x y

/-- **C58.** A black on white drawing in greyscale is binarised exactly if every dark pixel has enough light before it. -/
theorem C58_bilevel (w h : Nat) (d : Nat → Nat → Byte) (h16 : 16 ≤ w) (hw : w ≤ 32768) (hh : h ≤ 32768) (hd : ∀ x y, d x y = 0 ∨ d x y = 255)
    (hl : EnoughLight w h d) : ∃ img, PreparedImage.prepare_from_greyscale w h (fun _ x y => (d x y, ())) () = (.ok img, ()) ∧
      Fresh img ∧ width img.buffer = w ∧ height img.buffer = h ∧ ∀ x y, x < w → y < h → (view img.buffer x y = 1 ↔ d x y = 0) := by
  have hsize : w * h < 2 ^ 64 := by
    have : w * h ≤ 32768 * 32768 := Nat.mul_le_mul hw hh
    omega
  obtain ⟨img, e, h0, ew, eh, ev⟩ := C34_from_greyscale w h (fun _ x y => (d x y, ())) () (by omega) hsize
  refine ⟨img, e, h0, ew, eh, ?_⟩
  intro x y hx hy
  rw [ev x y hx hy]
  set g : Nat → Nat → Byte := fun x y => if x < w ∧ y < h then d x y else 0 with hg
  have gxy : g x y = d x y := by rw [hg]; dsimp only; rw [if_pos ⟨hx, hy⟩]
  have hts : 1 ≤ averageWindow w := Nat.le_max_right _ _
  have path : ∀ right, ∀ j, j < snakeIndex w right x y + 1 → g (snake w right j).1 (snake w right j).2 = d (snake w right j).1 (snake w right j).2 := by
    intro right j hj
    obtain ⟨a, b⟩ := snake_row right hx hj
    rw [hg]
    dsimp only
    rw [if_pos ⟨a, by omega⟩]
  have avg : ∀ right, averageAt w g right x y = averageAt w d right x y := by
    intro right
    unfold averageAt
    exact running_congr _ fun j hj => by rw [path right j hj]
  show black w g x y = true ↔ _
  unfold black
  rw [decide_eq_true_iff, gxy, avg, avg]
  constructor
  · intro hb
    rcases hd x y with h | h
    · exact h
    · exfalso
      rw [h] at hb
      have hle : ∀ right, averageAt w d right x y ≤ 255 * averageWindow w := by
        intro right
        refine running_le hts _ _ fun j _ => ?_
        have := (d (snake w right j).1 (snake w right j).2).isLt
        omega
      have a := hle true
      have b := hle false
      have := Nat.div_le_of_le_mul (m := (averageAt w d true x y + averageAt w d false x y) * 95) (k := 200 * averageWindow w) (n := 255) (by omega)
      have e255 : (255 : Byte).toNat = 255 := rfl
      omega
  · intro h
    rw [h]
    exact light_enough h16 (hl x y hx hy h)

/-- **C58.** From greyscale to text: with `prepare_from_greyscale` in place of `prepare_from_bitmap`, what C57 says holds for black
on white drawings with enough light. -/
theorem C58_message (v : Nat) (h1 : 1 ≤ v) (h40 : v ≤ 40) (h21 : v ≠ 21) (l : Level) (mask : Nat)
    (hm : mask < 8) (ss : List Segment) (hss : ∀ s ∈ ss, s.Fits v) (hfit : (ss.flatMap (·.encode v)).length ≤ 8 * dataCount v l) :
    ∃ M, Patterned v M ∧ ∀ (w h : Nat) (P : Placement), w ≤ 32768 → h ≤ 32768 → P.Fits w h (side v) → P.InRange (side v) →
      EnoughLight w h (P.grey (side v) M) →
      ∃ img0, PreparedImage.prepare_from_greyscale w h (fun _ x y => (P.grey (side v) M x y, ())) () = (.ok img0, ()) ∧
        (OnlyFinders img0 (side v) P → ∀ (F : Type) [FloatOps F] [Rounding F], ∃ img g, img0.detect_grids F = .ok (img, [g]) ∧ ∀ out,
          Grid.decode_to vecWriter (RefGridImage g.location img) out =
            (.ok { version := v, ecc_level := l.bits, mask := mask }, out ++ ss.flatMap (·.payload))) := by
  obtain ⟨M, m1, m2⟩ := C54_every_message_has_a_symbol v h1 h40 h21 l mask hm ss hss hfit (blank v)
  have hM := Patterned.transfer h1 h40 (blank_patterned h1 h40) m1
  refine ⟨M, hM, ?_⟩
  intro w h P hw hh hF hI hL
  have h16 : 16 ≤ w := by
    have hs : side v = 17 + 4 * v := rfl
    have hsc := hF.scale
    have hpos : 21 * 2 ≤ side v * P.scale := Nat.mul_le_mul (by omega) hsc
    have a := hF.inside (i := 0) (j := 0) (by omega) (by omega)
    have b := hF.inside (i := 20) (j := 20) (by omega) (by omega)
    unfold Spec.Placement.pixel at a b
    rcases hF.axis with h | h | h | h <;> rw [h] at a b <;> dsimp only at a b <;> push_cast at a b <;> omega
  have hg : ∀ x y, P.grey (side v) M x y = 0 ↔ P.dark (side v) M x y = true := by
    intro x y
    unfold Spec.Placement.grey
    cases P.dark (side v) M x y <;> simp
  obtain ⟨img0, e, h0, ew, eh, ev⟩ := C58_bilevel w h (P.grey (side v) M) h16 hw hh
    (by intro x y; unfold Spec.Placement.grey; cases P.dark (side v) M x y <;> simp) hL
  refine ⟨img0, e, fun hO F _ _ => ?_⟩
  obtain ⟨img, g, d, d1, d2, -⟩ := C57_detected F h0 (by omega) (by omega) h1 h40 h21
    (pictures_bitmap hF ew eh fun x y hx hy => (ev x y hx hy).trans (hg x y)).renders hM hI hO
  refine ⟨img, g, d, ?_⟩
  have s1 : (RefGridImage g.location img).size = side v := d1
  exact m2 _ (fun y x hy hx => d2 y x (s1 ▸ hy) (s1 ▸ hx)) s1

theorem sum_two (g : Nat → Nat) (i : Nat) : ∀ n, i + 2 ≤ n → g i + g (i + 1) ≤ ((List.range n).map g).sum
  | 0, h => by omega
  | n + 1, h => by
    rw [List.range_succ, List.map_append, List.sum_append]
    rcases Nat.lt_or_ge n (i + 2) with hn | hn
    · obtain rfl : n = i + 1 := by omega
      rw [List.range_succ, List.map_append, List.sum_append]
      simp
    · have := sum_two g i n hn
      omega

/-- A check of the condition with two windows: two white pixels side by side to the left or the right, not too far away. -/
def lit2 (w h : Nat) (d : Nat → Nat → Byte) : Bool := (List.range h).all fun y => (List.range w).all fun x => d x y != 0 ||
  (List.range (2 * averageWindow w - 2)).any fun k => (decide (k + 2 ≤ x) && (d (x - 1 - k) y == 255 && d (x - 2 - k) y == 255)) ||
    (decide (x + k + 2 < w) && (d (x + 1 + k) y == 255 && d (x + 2 + k) y == 255))

theorem lit2_spec {w h : Nat} {d : Nat → Nat → Byte} (hw : averageWindow w ≤ 7) (hc : lit2 w h d = true) : EnoughLight w h d := by
  intro x y hx hy h0
  unfold lit2 at hc
  rw [List.all_eq_true] at hc
  have := hc y (List.mem_range.2 hy)
  rw [List.all_eq_true] at this
  have := this x (List.mem_range.2 hx)
  rw [Bool.or_eq_true, h0, List.any_eq_true] at this
  obtain ⟨k, hk, h⟩ := this.resolve_left (by decide)
  rw [Bool.or_eq_true] at h
  rw [List.mem_range] at hk
  refine ⟨2, ?_⟩
  rcases h with h | h <;> rw [Bool.and_eq_true, Bool.and_eq_true, decide_eq_true_iff, beq_iff_eq, beq_iff_eq] at h <;>
    obtain ⟨h1, h2, h3⟩ := h
  · have hidx : snakeIndex w (y % 2 == 0) x y = y * w + x := by
      unfold snakeIndex
      rw [if_pos (by simp)]
    have hsn : ∀ i, i ≤ x → snake w (y % 2 == 0) (y * w + x - i) = (x - i, y) := by
      intro i hi
      rw [show y * w + x - i = y * w + (x - i) by omega, snake_at _ (by omega), if_pos (by simp)]
    have hsum : 510 ≤ recentSum w d (y % 2 == 0) (2 * averageWindow w) x y := by
      unfold recentSum
      rw [hidx]
      refine le_trans ?_ (sum_two _ (k + 1) _ (by omega))
      rw [if_pos (by omega), if_pos (by omega), hsn _ (by omega), hsn _ (by omega)]
      dsimp only
      rw [show x - (k + 1) = x - 1 - k by omega, show x - (k + 1 + 1) = x - 2 - k by omega, h2, h3]
      decide
    cases hy2 : (y % 2 == 0) <;> rw [hy2] at hsum <;> omega
  · have hidx : snakeIndex w (!(y % 2 == 0)) x y = y * w + (w - 1 - x) := by
      unfold snakeIndex
      rw [if_neg (by simp)]
    have hsn : ∀ i, x + i < w → snake w (!(y % 2 == 0)) (y * w + (w - 1 - x) - i) = (x + i, y) := by
      intro i hi
      rw [show y * w + (w - 1 - x) - i = y * w + (w - 1 - x - i) by omega, snake_at _ (by omega), if_neg (by simp),
        show w - 1 - (w - 1 - x - i) = x + i by omega]
    have hsum : 510 ≤ recentSum w d (!(y % 2 == 0)) (2 * averageWindow w) x y := by
      unfold recentSum
      rw [hidx]
      refine le_trans ?_ (sum_two _ (k + 1) _ (by omega))
      rw [if_pos (by omega), if_pos (by omega), hsn _ (by omega), hsn _ (by omega)]
      dsimp only
      rw [show x + (k + 1) = x + 1 + k by omega, show x + (k + 1 + 1) = x + 2 + k by omega, h2, h3]
      decide
    cases hy2 : (y % 2 == 0) <;> rw [hy2] at hsum <;> simp only [Bool.not_false, Bool.not_true] at hsum <;> omega

/-- The drawing of C57's example has enough light. -/
theorem hi_light : lit2 58 58 (hiPlace.grey 21 hi) = true := by decide +kernel

example : ∃ img0, PreparedImage.prepare_from_greyscale 58 58 (fun _ x y => (hiPlace.grey 21 hi x y, ())) () = (.ok img0, ()) ∧
    ∃ img g, img0.detect_grids F64 = .ok (img, [g]) ∧
      g.bounds = [⟨49, 49⟩, ⟨5, 49⟩, ⟨5, 5⟩, ⟨49, 5⟩] ∧
      Grid.decode (RefGridImage g.location img) = .ok ({ version := 1, ecc_level := 0, mask := 1 }, "hi") := by
  obtain ⟨img0, e, h0, ew, eh, ev⟩ := C58_bilevel 58 58 (hiPlace.grey 21 hi) (by omega) (by omega) (by omega)
    (by intro x y; unfold Spec.Placement.grey; cases hiPlace.dark 21 hi x y <;> simp) (lit2_spec (by decide) hi_light)
  refine ⟨img0, e, hi_read F64 h0 ew eh fun x y hx hy => (ev x y hx hy).trans ?_⟩
  unfold Spec.Placement.grey
  cases hiPlace.dark 21 hi x y <;> simp

end Rqrr
