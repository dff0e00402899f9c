import Verif.Spec.Binarise
import Verif.Spec.Regions
import Verif.Proofs.Loops
import Verif.Proofs.Images
import Mathlib.Data.List.GetD
import Mathlib.Tactic.Ring

/-!
# Binarisation
-/

namespace Rqrr

open ImageBuffer LawfulImage Spec

theorem chkU_ok {n : Nat} (h : n < 2 ^ 64) : chkU n = .ok n := if_pos h

theorem running_le {ts L : Nat} (hts : 1 ≤ ts) (seq : Nat → Nat) : ∀ k, (∀ j < k, seq j ≤ L) → running ts seq k ≤ L * ts
  | 0, _ => Nat.zero_le _
  | k + 1, h => by
    have ih := running_le hts seq k fun j hj => h j (by omega)
    have h1 : running ts seq k * (ts - 1) / ts ≤ L * (ts - 1) := by
      apply Nat.div_le_of_le_mul
      calc running ts seq k * (ts - 1) ≤ L * ts * (ts - 1) := Nat.mul_le_mul_right _ ih
        _ = ts * (L * (ts - 1)) := by ring
    have h2 := h k (by omega)
    calc running ts seq (k + 1) ≤ L * (ts - 1) + L := Nat.add_le_add h1 h2
      _ = L * (ts - 1 + 1) := by ring
      _ = L * ts := by rw [Nat.sub_add_cancel hts]

theorem running_congr {ts : Nat} {s t : Nat → Nat} : ∀ k, (∀ j < k, s j = t j) → running ts s k = running ts t k
  | 0, _ => rfl
  | k + 1, h => by
    show running ts s k * (ts - 1) / ts + s k = running ts t k * (ts - 1) / ts + t k
    rw [running_congr k fun j hj => h j (by omega), h k (by omega)]

theorem averageWindow_pos (w : Nat) : 1 ≤ averageWindow w := Nat.le_max_right _ _

theorem snake_at {w : Nat} (right : Bool) {x y : Nat} (hx : x < w) :
    snake w right (y * w + x) = (if (y % 2 == 0) == right then x else w - 1 - x, y) := by
  unfold snake
  have h1 : (y * w + x) / w = y := by
    rw [Nat.mul_comm, Nat.mul_add_div (by omega), Nat.div_eq_of_lt hx]; omega
  have h2 : (y * w + x) % w = x := by rw [Nat.mul_comm, Nat.mul_add_mod, Nat.mod_eq_of_lt hx]
  rw [h1, h2]

/-- The running average along a path. -/
def run (w : Nat) (f : Nat → Nat → Byte) (right : Bool) (k : Nat) : Nat :=
  running (averageWindow w) (fun k => (f (snake w right k).1 (snake w right k).2).toNat) k

theorem run_succ {w : Nat} (f : Nat → Nat → Byte) (right : Bool) {x y : Nat} (hx : x < w) :
    run w f right (y * w + x + 1) =
      run w f right (y * w + x) * (averageWindow w - 1) / averageWindow w +
        (f (if (y % 2 == 0) == right then x else w - 1 - x) y).toNat := by
  show running _ _ (y * w + x + 1) = _
  unfold running
  rw [snake_at right hx]
  rfl

theorem run_le (w : Nat) (f : Nat → Nat → Byte) (right : Bool) (k : Nat) : run w f right k ≤ 255 * averageWindow w :=
  running_le (averageWindow_pos w) _ k fun j _ => by
    have := (f (snake w right j).1 (snake w right j).2).isLt
    omega

theorem averageAt_eq (w : Nat) (f : Nat → Nat → Byte) (right : Bool) (x y : Nat) :
    averageAt w f right x y = run w f right (y * w + (if (y % 2 == 0) == right then x else w - 1 - x) + 1) := rfl

/-- Entry `i` of the row averages after `x` steps. -/
def rowEntry (w : Nat) (f : Nat → Nat → Byte) (y x i : Nat) : Nat :=
  (if i < x then run w f (y % 2 == 0) (y * w + i + 1) else 0) +
    (if w - 1 - i < x then run w f (!(y % 2 == 0)) (y * w + (w - 1 - i) + 1) else 0)

theorem rowEntry_le (w : Nat) (f : Nat → Nat → Byte) (y x i : Nat) : rowEntry w f y x i ≤ 510 * averageWindow w := by
  unfold rowEntry
  have h1 := run_le w f (y % 2 == 0) (y * w + i + 1)
  have h2 := run_le w f (!(y % 2 == 0)) (y * w + (w - 1 - i) + 1)
  split <;> split <;> omega

theorem rowEntry_full {w : Nat} (f : Nat → Nat → Byte) {y i : Nat} (hi : i < w) :
    rowEntry w f y w i = averageAt w f true i y + averageAt w f false i y := by
  unfold rowEntry
  rw [if_pos hi, if_pos (by omega), averageAt_eq, averageAt_eq]
  cases h : y % 2 == 0
  · simp only [Bool.false_eq_true, Bool.not_false, beq_iff_eq, if_false, BEq.rfl, if_true]
    omega
  · simp

variable {S : Type} [ImageBuffer S] [LawfulImage S]

/-- The state of the inner loop after `x` steps. -/
structure AvgInv (w : Nat) (f : Nat → Nat → Byte) (y x : Nat) (st : List Nat × Nat × Nat) : Prop where
  length : st.1.length = w
  entry : ∀ i, i < w → st.1.getD i 0 = rowEntry w f y x i
  v : st.2.1 = run w f false (y * w + x)
  u : st.2.2 = run w f true (y * w + x)

theorem ite_lt_succ (R : Nat → Nat) (i x : Nat) :
    (if i < x + 1 then R i else 0) = (if i < x then R i else 0) + (if i = x then R x else 0) := by
  by_cases h1 : i = x
  · subst h1; rw [if_pos (by omega), if_neg (by omega), if_pos rfl, Nat.zero_add]
  · rw [if_neg h1]
    by_cases h2 : i < x
    · rw [if_pos h2, if_pos (by omega)]; rfl
    · rw [if_neg h2, if_neg (by omega)]

theorem rowEntry_succ {w : Nat} (f : Nat → Nat → Byte) {y x i : Nat} (hx : x < w) (hi : i < w) :
    rowEntry w f y (x + 1) i = rowEntry w f y x i + (if i = x then run w f (y % 2 == 0) (y * w + x + 1) else 0) +
      (if i = w - 1 - x then run w f (!(y % 2 == 0)) (y * w + x + 1) else 0) := by
  unfold rowEntry
  have h1 := ite_lt_succ (fun i => run w f (y % 2 == 0) (y * w + i + 1)) i x
  have h2 := ite_lt_succ (fun i => run w f (!(y % 2 == 0)) (y * w + i + 1)) (w - 1 - i) x
  have h3 : (w - 1 - i = x) = (i = w - 1 - x) := propext ⟨fun _ => by omega, fun _ => by omega⟩
  rw [h1, h2]
  simp only [h3]
  omega

theorem getD_set {l : List Nat} {a b : Nat} (ha : a < l.length) (i : Nat) :
    (l.set a b).getD i 0 = if i = a then b else l.getD i 0 := by
  by_cases h : i = a
  · subst h; simp [ha]
  · rw [if_neg h]; simp [Ne.symm h]

/-- Lines 195-203. -/
theorem prepare_average_ok {s : S} (hv : Valid s) (f : Nat → Nat → Byte) {w : Nat} (hws : width s = w) (hw : w ≤ 2 ^ 31) {y x : Nat}
    (hy : y < height s) (hx : x < w) (hf : ∀ i, i < w → view s i y = f i y) {st : List Nat × Nat × Nat}
    (h : AvgInv w f y x st) :
    ∃ st', prepare_average s w (averageWindow w) y x st = .ok st' ∧ AvgInv w f y (x + 1) st' := by
  obtain ⟨l, av, au⟩ := st
  obtain ⟨h1, h2, h3, h4⟩ := h
  dsimp only at h1 h2 h3 h4
  subst h3 h4
  have hts1 := averageWindow_pos w
  have hts2 : averageWindow w ≤ 2 ^ 28 := by unfold averageWindow; omega
  have hmul : ∀ b k, run w f b k * (averageWindow w - 1) < 2 ^ 64 := by
    intro b k
    calc run w f b k * (averageWindow w - 1) ≤ 255 * 2 ^ 28 * 2 ^ 28 :=
          Nat.mul_le_mul ((run_le w f b k).trans (Nat.mul_le_mul_left _ hts2)) (by omega)
      _ < 2 ^ 64 := by decide
  have hrun : ∀ b k, run w f b k ≤ 255 * 2 ^ 28 := fun b k => (run_le w f b k).trans (Nat.mul_le_mul_left _ hts2)
  have hent : ∀ a b c, rowEntry w f a b c ≤ 510 * 2 ^ 28 := fun a b c => (rowEntry_le w f a b c).trans (Nat.mul_le_mul_left _ hts2)
  have hsv := run_succ f false (y := y) hx
  have hsu := run_succ f true (y := y) hx
  -- the two columns
  obtain ⟨v, u, hvu, hvw, huw, ev, eu, hcase⟩ : ∃ v u, (if y % 2 == 0 then (w - 1 - x, x) else (x, w - 1 - x)) = (v, u) ∧ v < w ∧ u < w ∧
      v = (if (y % 2 == 0) == false then x else w - 1 - x) ∧ u = (if (y % 2 == 0) == true then x else w - 1 - x) ∧
      ∀ i, i < w → rowEntry w f y (x + 1) i = rowEntry w f y x i + (if i = v then run w f false (y * w + x + 1) else 0) +
        (if i = u then run w f true (y * w + x + 1) else 0) := by
    by_cases hp : y % 2 == 0
    · refine ⟨w - 1 - x, x, by rw [if_pos hp], by omega, hx, by rw [hp]; simp, by rw [hp]; simp, ?_⟩
      intro i hi
      rw [rowEntry_succ f hx hi, hp]
      simp only [Bool.not_true]
      omega
    · have hp' : (y % 2 == 0) = false := by simpa using hp
      refine ⟨x, w - 1 - x, by rw [hp']; rfl, hx, by omega, by rw [hp']; simp, by rw [hp']; simp, ?_⟩
      intro i hi
      rw [rowEntry_succ f hx hi, hp']
      simp only [Bool.not_false]
  rw [← ev] at hsv
  rw [← eu] at hsu
  have hbv := hrun false (y * w + x + 1)
  have hbu := hrun true (y * w + x + 1)
  unfold prepare_average
  dsimp only
  rw [subU_ok (show 1 ≤ w by omega), Run.ok_bind, subU_ok (show x ≤ w - 1 by omega), Run.ok_bind]
  simp only [hvu]
  rw [subU_ok hts1, Run.ok_bind, chkU_ok (hmul _ _), Run.ok_bind, get_ok hv (by omega) hy, Run.ok_bind, hf v hvw,
    ← hsv, chkU_ok (by omega), Run.ok_bind, chkU_ok (hmul _ _), Run.ok_bind, get_ok hv (by omega) hy, Run.ok_bind, hf u huw,
    ← hsu, chkU_ok (by omega), Run.ok_bind]
  have hev := h2 v hvw
  rw [List.getD_eq_getElem _ _ (by omega)] at hev
  have hb1 := hent y x v
  rw [idx_ok _ (show v < l.length by omega), Run.ok_bind, hev, chkU_ok (by omega), Run.ok_bind,
    setIdx_ok _ _ (show v < l.length by omega), Run.ok_bind]
  have hlen : (l.set v (rowEntry w f y x v + run w f false (y * w + x + 1))).length = w := by rw [List.length_set]; exact h1
  have heu : (l.set v (rowEntry w f y x v + run w f false (y * w + x + 1))).getD u 0 =
      rowEntry w f y x u + (if u = v then run w f false (y * w + x + 1) else 0) := by
    rw [getD_set (by omega)]
    by_cases e : u = v
    · rw [if_pos e, if_pos e, e]
    · rw [if_neg e, if_neg e, h2 u huw]; rfl
  have hb2 := hent y x u
  have hb3 : (if u = v then run w f false (y * w + x + 1) else 0) ≤ 255 * 2 ^ 28 := by split <;> omega
  rw [List.getD_eq_getElem _ _ (by omega)] at heu
  rw [idx_ok _ (show u < (l.set v _).length by omega), Run.ok_bind, heu, chkU_ok (by omega), Run.ok_bind,
    setIdx_ok _ _ (by omega), Run.ok_bind]
  refine ⟨_, rfl, ?_, ?_, by rw [Nat.add_assoc], by rw [Nat.add_assoc]⟩
  · dsimp only; rw [List.length_set]; exact hlen
  · intro i hi
    dsimp only
    rw [hcase i hi, getD_set (by omega), getD_set (by omega)]
    by_cases e : i = u
    · rw [if_pos e, if_pos e, e]
    · rw [if_neg e, if_neg e]
      by_cases e2 : i = v
      · rw [if_pos e2, if_pos e2, e2]; rfl
      · rw [if_neg e2, if_neg e2, h2 i hi]; rfl


/-- Lines 208-215. -/
theorem prepare_pixel_ok {s : S} (hv : Valid s) {w : Nat} (hws : width s = w) (hw : w ≤ 2 ^ 31) (f : Nat → Nat → Byte)
    {y x : Nat} (hy : y < height s) (hx : x < w) (hf : view s x y = f x y) {l : List Nat} (hl : l.length = w)
    (he : ∀ i, i < w → l.getD i 0 = rowEntry w f y w i) :
    ∃ s', prepare_pixel l (averageWindow w) y x s = .ok s' ∧ Valid s' ∧ width s' = w ∧ height s' = height s ∧
      ∀ x' y', x' < w → y' < height s →
        view s' x' y' = if x' = x ∧ y' = y then (if black w f x y then 1 else 0) else view s x' y' := by
  have hts1 := averageWindow_pos w
  have hts2 : averageWindow w ≤ 2 ^ 28 := by unfold averageWindow; omega
  have hle := rowEntry_le w f y w x
  have hex := he x hx
  rw [List.getD_eq_getElem _ _ (by omega)] at hex
  obtain ⟨s', h1, h2, h3, h4, h5⟩ := set_ok (if black w f x y then 1 else 0) hv (show x < width s by omega) hy
  refine ⟨s', ?_, h2, h3.trans hws, h4, ?_⟩
  · unfold prepare_pixel
    rw [get_ok hv (by omega) hy, Run.ok_bind, idx_ok _ (show x < l.length by omega), Run.ok_bind, hex, chkU_ok (by omega),
      Run.ok_bind, chkU_ok (by omega), Run.ok_bind]
    dsimp only
    rw [rowEntry_full f hx, hf]
    unfold black at h1
    by_cases hb : (f x y).toNat < (averageAt w f true x y + averageAt w f false x y) * 95 / (200 * averageWindow w)
    · rw [if_pos hb]
      rw [decide_eq_true hb] at h1
      exact h1
    · rw [if_neg hb]
      rw [decide_eq_false hb] at h1
      exact h1
  · intro x' y' a b
    exact h5 x' y' (by omega) b

/-- The image after the rows before `y`. -/
structure RowsDone (w h : Nat) (f : Nat → Nat → Byte) (y : Nat) (st : S × Nat × Nat) : Prop where
  valid : Valid st.1
  width : width st.1 = w
  height : height st.1 = h
  done : ∀ x' y', x' < w → y' < h → y' < y → view st.1 x' y' = if black w f x' y' then 1 else 0
  todo : ∀ x' y', x' < w → y' < h → y ≤ y' → view st.1 x' y' = f x' y'
  v : st.2.1 = run w f false (y * w)
  u : st.2.2 = run w f true (y * w)

theorem prepare_row_ok {w h : Nat} (hw : w ≤ 2 ^ 31) (f : Nat → Nat → Byte) {y : Nat} (hy : y < h) {st : S × Nat × Nat}
    (H : RowsDone w h f y st) : ∃ st', prepare_row w (averageWindow w) y st = .ok st' ∧ RowsDone w h f (y + 1) st' := by
  obtain ⟨s, av, au⟩ := st
  obtain ⟨i1, i2, i3, i4, i5, i6, i7⟩ := H
  dsimp only at i1 i2 i3 i4 i5 i6 i7
  unfold prepare_row
  dsimp only
  obtain ⟨⟨l, av', au'⟩, g1, g2⟩ := forRange_ok (s := (List.replicate w 0, av, au))
    (f := fun x st => prepare_average s w (averageWindow w) y x st) (AvgInv w f y) (Nat.zero_le w)
    ⟨by simp, fun i hi => by
      rw [List.getD_eq_getElem _ _ (by simpa using hi)]
      simp [rowEntry], i6, i7⟩
    (fun x st _ hx hI => prepare_average_ok i1 f i2 hw (by omega) hx (fun i hi => i5 i y hi hy (Nat.le_refl _)) hI)
  obtain ⟨a1, a2, a3, a4⟩ := g2
  dsimp only at a1 a2 a3 a4
  obtain ⟨s', g3, b1, b2, b3, b4⟩ := forRange_ok (s := s) (f := fun x buf => prepare_pixel l (averageWindow w) y x buf)
    (fun x s' => Valid s' ∧ width s' = w ∧ height s' = h ∧ ∀ x' y', x' < w → y' < h →
      view s' x' y' = if x' < x ∧ y' = y then (if black w f x' y' then 1 else 0) else view s x' y') (Nat.zero_le w)
    ⟨i1, i2, i3, fun x' y' _ _ => by rw [if_neg (by omega)]⟩
    (by
      rintro x s' _ hx ⟨c1, c2, c3, c4⟩
      obtain ⟨s'', d1, d2, d3, d4, d5⟩ := prepare_pixel_ok c1 c2 hw f (show y < height s' by omega) hx
        (by rw [c4 x y hx hy, if_neg (by omega)]; exact i5 x y hx hy (Nat.le_refl _)) a1 a2
      refine ⟨s'', d1, d2, d3, d4.trans c3, ?_⟩
      intro x' y' e1 e2
      rw [d5 x' y' e1 (by omega)]
      by_cases e : x' = x ∧ y' = y
      · obtain ⟨rfl, rfl⟩ := e
        rw [if_pos (show x' = x' ∧ y' = y' from ⟨rfl, rfl⟩), if_pos (show x' < x' + 1 ∧ y' = y' from ⟨by omega, rfl⟩)]
      · rw [if_neg e, c4 x' y' e1 e2]
        by_cases e' : x' < x ∧ y' = y
        · rw [if_pos e', if_pos (show x' < x + 1 ∧ y' = y by omega)]
        · rw [if_neg e', if_neg (show ¬ (x' < x + 1 ∧ y' = y) by omega)])
  rw [g1, Run.ok_bind]
  dsimp only
  rw [g3, Run.ok_bind]
  refine ⟨_, rfl, b1, b2, b3, ?_, ?_, ?_, ?_⟩
  · intro x' y' e1 e2 e3
    dsimp only
    rw [b4 x' y' e1 e2]
    by_cases e : y' = y
    · rw [if_pos ⟨e1, e⟩]
    · rw [if_neg (by omega)]; exact i4 x' y' e1 e2 (by omega)
  · intro x' y' e1 e2 e3
    dsimp only
    rw [b4 x' y' e1 e2, if_neg (by omega)]
    exact i5 x' y' e1 e2 (by omega)
  · dsimp only; rw [a3]; congr 1; ring
  · dsimp only; rw [a4]; congr 1; ring

theorem prepare_ok {s : S} (hv : Valid s) (hw : width s ≤ 2 ^ 31) :
    ∃ s', PreparedImage.prepare s = .ok { buffer := s', cache := .new 251 } ∧ Valid s' ∧ width s' = width s ∧
      height s' = height s ∧ ∀ x y, x < width s → y < height s →
        view s' x y = if black (width s) (view s) x y then 1 else 0 := by
  obtain ⟨⟨s', av, au⟩, h1, h2⟩ := forRange_ok (s := (s, 0, 0))
    (f := fun y st => prepare_row (width s) (averageWindow (width s)) y st)
    (RowsDone (width s) (height s) (view s)) (Nat.zero_le (height s))
    ⟨hv, rfl, rfl, fun _ _ _ _ h => by omega, fun _ _ _ _ _ => rfl, by simp [run, running], by simp [run, running]⟩
    (fun y st _ hy hI => prepare_row_ok hw (view s) hy hI)
  refine ⟨s', ?_, h2.valid, h2.width, h2.height, fun x y hx hy => h2.done x y hx hy hy⟩
  unfold PreparedImage.prepare
  dsimp only
  unfold averageWindow at h1
  rw [h1, Run.ok_bind]
  rfl

end Rqrr
