import Verif.Spec.Contrast
import Verif.Proofs.Prepare
import Mathlib.Tactic.Ring
import Mathlib.Tactic.FieldSimp
import Mathlib.Tactic.Linarith
import Mathlib.Tactic.Positivity
import Mathlib.Algebra.BigOperators.Ring.List

/-!
# Running averages without rounding
-/

namespace Rqrr

open Spec

/-- The running sum without rounding. -/
def smooth (ts : Nat) (seq : Nat → ℚ) : Nat → ℚ
  | 0 => 0
  | k + 1 => smooth ts seq k * (1 - 1 / (ts : ℚ)) + seq k

theorem smooth_sum (ts : Nat) (seq : Nat → ℚ) : ∀ n, smooth ts seq n = ((List.range n).map fun i => seq (n - 1 - i) * (1 - 1 / (ts : ℚ)) ^ i).sum
  | 0 => rfl
  | n + 1 => by
    rw [smooth, smooth_sum ts seq n, List.range_succ_eq_map, List.map_cons, List.sum_cons, List.map_map, ← List.sum_map_mul_right]
    rw [add_comm]
    congr 1
    · simp
    · congr 1
      apply List.map_congr_left
      intro i _
      simp only [Function.comp]
      rw [show n + 1 - 1 - i.succ = n - 1 - i by omega, pow_succ]
      ring

theorem mean_smooth (w : Nat) (f : Nat → Nat → ℚ) (right : Bool) (x y : Nat) : weightedMean w f right x y =
    smooth (averageWindow w) (fun k => f (snake w right k).1 (snake w right k).2) (snakeIndex w right x y + 1) / averageWindow w := by
  rw [smooth_sum]
  rfl

theorem decay {ts : Nat} (hts : 1 ≤ ts) : (0 : ℚ) ≤ 1 - 1 / ts ∧ (1 : ℚ) - 1 / ts ≤ 1 := by
  have h1 : (1 : ℚ) ≤ ts := by exact_mod_cast hts
  have h2 : (1 : ℚ) / ts ≤ 1 := by rw [div_le_one (by linarith)]; exact h1
  have h3 : (0 : ℚ) ≤ 1 / ts := by positivity
  constructor <;> linarith

theorem smooth_mono {ts : Nat} (hts : 1 ≤ ts) {s t : Nat → ℚ} : ∀ k, (∀ j < k, s j ≤ t j) → smooth ts s k ≤ smooth ts t k
  | 0, _ => le_refl _
  | k + 1, h => by
    have ih := smooth_mono hts k fun j hj => h j (by omega)
    have := mul_le_mul_of_nonneg_right ih (decay hts).1
    have := h k (by omega)
    rw [smooth, smooth]
    linarith

theorem smooth_scale (ts : Nat) (s : Nat → ℚ) (a : ℚ) : ∀ k, smooth ts (fun j => a * s j) k = a * smooth ts s k
  | 0 => by simp [smooth]
  | k + 1 => by rw [smooth, smooth, smooth_scale ts s a k]; ring

theorem smooth_le {ts : Nat} (hts : 1 ≤ ts) {s : Nat → ℚ} {b : ℚ} (hb : 0 ≤ b) : ∀ k, (∀ j < k, s j ≤ b) → smooth ts s k ≤ b * ts
  | 0, _ => by simp only [smooth]; positivity
  | k + 1, h => by
    have ih := smooth_le hts hb k fun j hj => h j (by omega)
    have h1 := mul_le_mul_of_nonneg_right ih (decay hts).1
    have h2 := h k (by omega)
    have h0 : (ts : ℚ) ≠ 0 := by have : (1 : ℚ) ≤ ts := by exact_mod_cast hts
                                 linarith
    rw [smooth]
    have e : b * ts * (1 - 1 / (ts : ℚ)) = b * ts - b := by field_simp
    linarith

/-- The rounding takes away less than the window, and adds nothing. -/
theorem running_smooth {ts : Nat} (hts : 1 ≤ ts) (seq : Nat → Nat) : ∀ k,
    (running ts seq k : ℚ) ≤ smooth ts (fun j => (seq j : ℚ)) k ∧ smooth ts (fun j => (seq j : ℚ)) k ≤ running ts seq k + ((ts : ℚ) - 1)
  | 0 => by
    have h1 : (1 : ℚ) ≤ ts := by exact_mod_cast hts
    simp only [running, smooth, Nat.cast_zero]
    constructor <;> linarith
  | k + 1 => by
    obtain ⟨ih1, ih2⟩ := running_smooth hts seq k
    have hpos : (0 : ℚ) < ts := by exact_mod_cast hts
    have q0 := (decay hts).1
    rw [running, smooth]
    set R := running ts seq k
    set T := smooth ts (fun j => (seq j : ℚ)) k
    have hd := Nat.div_add_mod (R * (ts - 1)) ts
    have hm := Nat.mod_lt (R * (ts - 1)) (show 0 < ts by omega)
    set c := R * (ts - 1) / ts
    have l1 : ts * c ≤ R * (ts - 1) := by omega
    have l2 : R * (ts - 1) ≤ ts * c + (ts - 1) := by omega
    have m1 : (ts : ℚ) * c ≤ R * ((ts : ℚ) - 1) := by
      have := (Nat.cast_le (α := ℚ)).2 l1
      push_cast [Nat.cast_sub hts] at this
      exact this
    have m2 : (R : ℚ) * ((ts : ℚ) - 1) ≤ ts * c + ((ts : ℚ) - 1) := by
      have := (Nat.cast_le (α := ℚ)).2 l2
      push_cast [Nat.cast_sub hts] at this
      exact this
    have e : ∀ z : ℚ, z * (1 - 1 / (ts : ℚ)) = z * ((ts : ℚ) - 1) / ts := by intro z; field_simp
    have a1 := mul_le_mul_of_nonneg_right ih1 q0
    have a2 := mul_le_mul_of_nonneg_right ih2 q0
    rw [e R] at a1
    rw [e (R + _)] at a2
    have b1 : (c : ℚ) ≤ R * ((ts : ℚ) - 1) / ts := by rw [le_div_iff₀ hpos]; linarith
    have b2 : (R + ((ts : ℚ) - 1)) * ((ts : ℚ) - 1) / ts ≤ c + ((ts : ℚ) - 1) := by
      rw [div_le_iff₀ hpos]
      nlinarith
    push_cast
    constructor <;> linarith

theorem window_pos (w : Nat) : 1 ≤ averageWindow w := Nat.le_max_right _ _

theorem average_mean (w : Nat) (f : Nat → Nat → Byte) (right : Bool) (x y : Nat) :
    (averageAt w f right x y : ℚ) ≤ averageWindow w * weightedMean w (fun x y => ((f x y).toNat : ℚ)) right x y ∧
    averageWindow w * weightedMean w (fun x y => ((f x y).toNat : ℚ)) right x y ≤ averageAt w f right x y + ((averageWindow w : ℚ) - 1) := by
  have h0 : (0 : ℚ) < averageWindow w := by exact_mod_cast window_pos w
  rw [mean_smooth, mul_div_cancel₀ _ h0.ne']
  exact running_smooth (window_pos w) (fun k => (f (snake w right k).1 (snake w right k).2).toNat) _

/-- The comparison of the binarisation is one with the threshold, up to less than two levels. -/
theorem black_threshold (w : Nat) (f : Nat → Nat → Byte) (x y : Nat) :
    (((f x y).toNat : ℚ) + 2 ≤ threshold w f x y → black w f x y = true) ∧ (threshold w f x y ≤ (f x y).toNat → black w f x y = false) := by
  obtain ⟨a1, a2⟩ := average_mean w f true x y
  obtain ⟨b1, b2⟩ := average_mean w f false x y
  have h0 : (0 : ℚ) < averageWindow w := by exact_mod_cast window_pos w
  have h0' : 0 < averageWindow w := window_pos w
  unfold black threshold
  set A := averageAt w f true x y
  set B := averageAt w f false x y
  set t := averageWindow w
  set m := weightedMean w (fun x y => ((f x y).toNat : ℚ)) true x y
  set n := weightedMean w (fun x y => ((f x y).toNat : ℚ)) false x y
  set p := (f x y).toNat
  constructor
  · intro h
    rw [decide_eq_true_iff, ← Nat.succ_le_iff, Nat.le_div_iff_mul_le (by omega), Nat.succ_eq_add_one]
    have h' := mul_le_mul_of_nonneg_left h h0.le
    have : ((p : ℚ) + 1) * (200 * t) ≤ (A + B) * 95 := by nlinarith
    exact_mod_cast this
  · intro h
    rw [decide_eq_false_iff_not, Nat.not_lt]
    have h' := mul_le_mul_of_nonneg_left h h0.le
    apply Nat.div_le_of_le_mul
    have : ((A : ℚ) + B) * 95 ≤ 200 * t * p := by nlinarith
    exact_mod_cast this

/-- What is not before a pixel does not matter. -/
theorem mean_congr {w : Nat} {f g : Nat → Nat → ℚ} {right : Bool} {x y : Nat}
    (h : ∀ j < snakeIndex w right x y + 1, f (snake w right j).1 (snake w right j).2 = g (snake w right j).1 (snake w right j).2) :
    weightedMean w f right x y = weightedMean w g right x y := by
  unfold weightedMean
  congr 2
  apply List.map_congr_left
  intro i _
  rw [h _ (by omega)]

/-- Pictures in two tones have contrast. -/
theorem Spec.TwoTones.contrast {w h : Nat} {f : Nat → Nat → Byte} {d : Nat → Nat → Bool} {k a b : Nat} (ht : TwoTones w h f d k a b)
    (path : ∀ right x y j, x < w → j < snakeIndex w right x y + 1 → (snake w right j).1 < w ∧ (snake w right j).2 ≤ y) : Contrast w h f d := by
  have h0 : (0 : ℚ) < averageWindow w := by exact_mod_cast window_pos w
  have val : ∀ x y, x < w → y < h → (f x y).toNat ≤ b := by
    intro x y hx hy
    cases hd : d x y
    · exact (ht.light x y hx hy hd).2
    · exact (ht.dark x y hx hy hd).trans ht.order
  constructor
  · intro x y hx hy hd
    have le : ∀ right, (a : ℚ) * weightedMean w (fun x y => if d x y then 0 else 1) right x y ≤ weightedMean w (fun x y => ((f x y).toNat : ℚ)) right x y := by
      intro right
      rw [mean_smooth, mean_smooth, ← mul_div_assoc, ← smooth_scale]
      refine div_le_div_of_nonneg_right (smooth_mono (window_pos w) _ fun j hj => ?_) h0.le
      obtain ⟨p1, p2⟩ := path right x y j hx hj
      cases hdj : d (snake w right j).1 (snake w right j).2
      · have := (ht.light _ _ p1 (by omega) hdj).1
        simp only [Bool.false_eq_true, if_false, mul_one]
        exact_mod_cast this
      · simp
    have l1 := le true
    have l2 := le false
    have e := ht.enough x y hx hy hd
    have hk : (((f x y).toNat : Nat) : ℚ) ≤ k := by exact_mod_cast ht.dark x y hx hy hd
    unfold lightBefore at e
    unfold threshold
    linarith
  · intro x y hx hy hd
    have le : ∀ right, weightedMean w (fun x y => ((f x y).toNat : ℚ)) right x y ≤ b := by
      intro right
      rw [mean_smooth, div_le_iff₀ h0]
      refine smooth_le (window_pos w) (by positivity) _ fun j hj => ?_
      obtain ⟨p1, p2⟩ := path right x y j hx hj
      exact_mod_cast val _ _ p1 (by omega)
    have l1 := le true
    have l2 := le false
    have ha : (a : ℚ) ≤ (f x y).toNat := by exact_mod_cast (ht.light x y hx hy hd).1
    have hab : (19 : ℚ) * b ≤ 20 * a := by exact_mod_cast ht.lights
    unfold threshold
    linarith

/-- The light in the row of a pixel, before it in one direction, in thousandths. -/
def rowLight (w : Nat) (d : Nat → Nat → Bool) (fromLeft : Bool) (x y : Nat) : Nat :=
  running (averageWindow w) (fun i => if d (if fromLeft then i else w - 1 - i) y then 0 else 1000) ((if fromLeft then x else w - 1 - x) + 1)

theorem smooth_shift {ts : Nat} (hts : 1 ≤ ts) {s : Nat → ℚ} (h0 : ∀ j, 0 ≤ s j) (k : Nat) : ∀ n, smooth ts (fun j => s (k + j)) n ≤ smooth ts s (k + n)
  | 0 => by
    rw [smooth]
    have := smooth_mono hts (s := fun _ => 0) (t := s) (k + 0) fun j _ => h0 j
    refine le_trans (le_of_eq ?_) this
    have : ∀ m, smooth ts (fun _ => 0) m = 0 := by
      intro m
      induction m with
      | zero => rfl
      | succ m ih => rw [smooth, ih]; ring
    rw [this]
  | n + 1 => by
    rw [← Nat.add_assoc, smooth, smooth]
    have := mul_le_mul_of_nonneg_right (smooth_shift hts h0 k n) (decay hts).1
    linarith

theorem row_light {w : Nat} {d : Nat → Nat → Bool} {x y : Nat} (hx : x < w) (right : Bool) :
    (rowLight w d ((y % 2 == 0) == right) x y : ℚ) ≤ 1000 * averageWindow w * weightedMean w (fun x y => if d x y then 0 else 1) right x y := by
  have h0 : (0 : ℚ) < averageWindow w := by exact_mod_cast window_pos w
  rw [mean_smooth]
  have e : (1000 : ℚ) * averageWindow w * (smooth (averageWindow w) (fun k => if d (snake w right k).1 (snake w right k).2 then 0 else 1)
      (snakeIndex w right x y + 1) / averageWindow w) =
      smooth (averageWindow w) (fun k => 1000 * if d (snake w right k).1 (snake w right k).2 then 0 else 1) (snakeIndex w right x y + 1) := by
    rw [smooth_scale]
    field_simp
  rw [e]
  unfold rowLight snakeIndex
  rw [Nat.add_assoc]
  refine (running_smooth (window_pos w) _ _).1.trans ?_
  refine le_trans ?_ (smooth_shift (window_pos w) (fun j => ?_) (y * w) _)
  · refine smooth_mono (window_pos w) _ fun j hj => ?_
    have hj' : j < w := by
      cases h : ((y % 2 == 0) == right) <;> rw [h] at hj <;> simp at hj <;> omega
    rw [snake_at right hj']
    dsimp only
    cases h : ((y % 2 == 0) == right) <;> simp
  · split <;> norm_num

/-- A check for enough light. -/
def enoughLight (w h : Nat) (d : Nat → Nat → Bool) (k a : Nat) : Bool := (List.range h).all fun y => (List.range w).all fun x =>
  !d x y || decide (200 * (k + 2) * (1000 * averageWindow w) ≤ 95 * (a * (rowLight w d true x y + rowLight w d false x y)))

theorem enoughLight_spec {w h : Nat} {d : Nat → Nat → Bool} {k a : Nat} (hc : enoughLight w h d k a = true) {x y : Nat} (hx : x < w) (hy : y < h)
    (hd : d x y = true) : 200 * ((k : ℚ) + 2) ≤ 95 * (a * lightBefore w d x y) := by
  unfold enoughLight at hc
  rw [List.all_eq_true] at hc
  have := hc y (List.mem_range.2 hy)
  rw [List.all_eq_true] at this
  have := this x (List.mem_range.2 hx)
  rw [hd, Bool.not_true, Bool.false_or, decide_eq_true_iff] at this
  have h1 := row_light (d := d) (y := y) hx true
  have h2 := row_light (d := d) (y := y) hx false
  have h0 : (0 : ℚ) < averageWindow w := by exact_mod_cast window_pos w
  have ha : (0 : ℚ) ≤ a := by positivity
  have q : (200 : ℚ) * (k + 2) * (1000 * averageWindow w) ≤ 95 * (a * (rowLight w d true x y + rowLight w d false x y)) := by exact_mod_cast this
  have s : (rowLight w d true x y : ℚ) + rowLight w d false x y ≤ 1000 * averageWindow w * lightBefore w d x y := by
    unfold lightBefore
    cases hy2 : (y % 2 == 0) <;> rw [hy2] at h1 h2 <;> simp at h1 h2 <;> rw [mul_add] <;> linarith
  have s' := mul_le_mul_of_nonneg_left s ha
  have h1000 : (0 : ℚ) < 1000 * averageWindow w := by linarith
  refine le_of_mul_le_mul_right ?_ h1000
  nlinarith

theorem smooth_ones {ts : Nat} (hts : 1 ≤ ts) {s : Nat → ℚ} : ∀ k, (∀ j < k, 1 ≤ s j) → ts * (1 - (1 - 1 / (ts : ℚ)) ^ k) ≤ smooth ts s k
  | 0, _ => by simp [smooth]
  | k + 1, h => by
    have ih := mul_le_mul_of_nonneg_right (smooth_ones hts k fun j hj => h j (by omega)) (decay hts).1
    have h1 := h k (by omega)
    have h0 : (ts : ℚ) ≠ 0 := by
      have : (1 : ℚ) ≤ ts := by exact_mod_cast hts
      linarith
    rw [smooth, pow_succ]
    have e : (ts : ℚ) * (1 - (1 - 1 / (ts : ℚ)) ^ k) * (1 - 1 / (ts : ℚ)) = ts * (1 - (1 - 1 / (ts : ℚ)) ^ k * (1 - 1 / (ts : ℚ))) - 1 := by
      generalize (1 - 1 / (ts : ℚ)) ^ k = z
      field_simp
      ring
    linarith

theorem smooth_decay {ts : Nat} {s : Nat → ℚ} (h0 : ∀ j, 0 ≤ s j) (hts : 1 ≤ ts) (k : Nat) : ∀ n, smooth ts s k * (1 - 1 / (ts : ℚ)) ^ n ≤ smooth ts s (k + n)
  | 0 => by simp
  | n + 1 => by
    have ih := mul_le_mul_of_nonneg_right (smooth_decay h0 hts k n) (decay hts).1
    have h1 := h0 (k + n)
    rw [← Nat.add_assoc, smooth, pow_succ, ← mul_assoc]
    linarith

/-- A light margin of the row, on the side the path comes from. -/
theorem margin_light {w : Nat} {d : Nat → Nat → Bool} {x y : Nat} (right : Bool) {m n : Nat} (hmn : m + n ≤ w)
    (hx : snakeIndex w right x y + 1 = y * w + (m + n)) (hl : ∀ j < m, d (if (y % 2 == 0) == right then j else w - 1 - j) y = false) :
    (1 - (1 - 1 / (averageWindow w : ℚ)) ^ m) * (1 - 1 / (averageWindow w : ℚ)) ^ n ≤ weightedMean w (fun x y => if d x y then 0 else 1) right x y := by
  have h0 : (0 : ℚ) < averageWindow w := by exact_mod_cast window_pos w
  rw [mean_smooth, hx, le_div_iff₀ h0]
  have nn : ∀ j, (0 : ℚ) ≤ if d (snake w right j).1 (snake w right j).2 then 0 else 1 := by intro j; split <;> norm_num
  refine le_trans ?_ (smooth_shift (window_pos w) nn (y * w) (m + n))
  refine le_trans ?_ (smooth_decay (fun j => nn (y * w + j)) (window_pos w) m n)
  have := smooth_ones (s := fun j => if d (snake w right (y * w + j)).1 (snake w right (y * w + j)).2 then (0 : ℚ) else 1) (window_pos w) m (by
    intro j hj
    rw [snake_at right (by omega)]
    dsimp only
    rw [hl j hj]
    simp)
  have := mul_le_mul_of_nonneg_right this (pow_nonneg (decay (window_pos w)).1 n)
  linarith

/-- Pictures with light margins are in two tones. -/
theorem Spec.Framed.twoTones {w h : Nat} {f : Nat → Nat → Byte} {d : Nat → Nat → Bool} {k a b l r m : Nat} (hf : Framed w h f d k a b l r m) :
    TwoTones w h f d k a b := by
  refine ⟨hf.dark, hf.light, hf.lights, hf.order, fun x y hx hy hd => ?_⟩
  obtain ⟨x1, x2⟩ := hf.columns x y hx hy hd
  obtain ⟨q0, q1⟩ := decay (window_pos w)
  have hleft := hf.left
  have hright := hf.right
  have out : ∀ j < w, j < l ∨ r ≤ j → d j y = false := by
    intro j hj ho
    cases hdj : d j y
    · rfl
    · have := hf.columns j y hj hy hdj
      omega
  set q := 1 - 1 / (averageWindow w : ℚ) with hq
  have pm : ∀ n, m ≤ n → 1 - q ^ m ≤ 1 - q ^ n := by
    intro n hn
    have := pow_le_pow_of_le_one q0 q1 hn
    linarith
  have L : ∀ right, ((y % 2 == 0) == right) = true → (1 - q ^ m) * q ^ (x + 1 - l) ≤ weightedMean w (fun x y => if d x y then 0 else 1) right x y := by
    intro right e
    have := margin_light (w := w) (d := d) (x := x) (y := y) right (m := l) (n := x + 1 - l) (by omega) (by unfold snakeIndex; rw [e]; simp; omega)
      (by intro j hj; rw [e]; exact out j (by omega) (.inl hj))
    exact (mul_le_mul_of_nonneg_right (pm l hleft) (pow_nonneg q0 _)).trans this
  have R : ∀ right, ((y % 2 == 0) == right) = false → (1 - q ^ m) * q ^ (r - x) ≤ weightedMean w (fun x y => if d x y then 0 else 1) right x y := by
    intro right e
    have := margin_light (w := w) (d := d) (x := x) (y := y) right (m := w - r) (n := r - x) (by omega) (by unfold snakeIndex; rw [e]; simp; omega)
      (by intro j hj; rw [e]; exact out (w - 1 - j) (by omega) (.inr (by omega)))
    exact (mul_le_mul_of_nonneg_right (pm (w - r) (by omega)) (pow_nonneg q0 _)).trans this
  have sum : (1 - q ^ m) * (q ^ (x + 1 - l) + q ^ (r - x)) ≤ lightBefore w d x y := by
    unfold lightBefore
    rw [mul_add]
    cases hy2 : (y % 2 == 0)
    · have a1 := L false (by rw [hy2]; rfl)
      have a2 := R true (by rw [hy2]; rfl)
      linarith
    · have a1 := L true (by rw [hy2]; rfl)
      have a2 := R false (by rw [hy2]; rfl)
      linarith
  have en := hf.enough
  rw [← hq] at en
  rw [show r - l + 1 = (x + 1 - l) + (r - x) by omega, pow_add] at en
  set u := q ^ (x + 1 - l) with hu
  set v := q ^ (r - x) with hv
  have u0 : 0 ≤ u := pow_nonneg q0 _
  have v0 : 0 ≤ v := pow_nonneg q0 _
  have z0 : 0 ≤ 1 - q ^ m := by
    have := pow_le_one₀ (n := m) q0 q1
    linarith
  have a0 : (0 : ℚ) ≤ a := by positivity
  set z := 95 * ((a : ℚ) * (1 - q ^ m)) with hz
  have zz : 0 ≤ z := by positivity
  have key : (200 * ((k : ℚ) + 2)) ^ 2 ≤ (z * (u + v)) ^ 2 := by
    have am : 4 * (u * v) ≤ (u + v) ^ 2 := by nlinarith [sq_nonneg (u - v)]
    have := mul_le_mul_of_nonneg_left am (sq_nonneg z)
    nlinarith
  have := abs_le_of_sq_le_sq key (by positivity)
  have e2 := mul_le_mul_of_nonneg_left sum a0
  have := (le_abs_self _).trans this
  rw [hz] at this
  linarith

end Rqrr
