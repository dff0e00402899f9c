import Verif.Proofs.Framed
import Verif.Proofs.Cells
import Verif.Props.Identify
import Verif.Props.Alignment

/-!
# Locating the grid of a drawing
-/

namespace Rqrr

open Spec ImageBuffer Spec.Placement Rounding

variable {F : Type} [FloatOps F] [Rounding F]

/-! ### Arithmetic without overflow -/

theorem subI_ok {a b : Int} (ha : |a| ≤ 100000) (hb : |b| ≤ 100000) : subI a b = .ok (a - b) := by
  rw [abs_le] at ha hb
  exact chk32_ok (by omega) (by omega)

theorem negI_ok {a : Int} (ha : |a| ≤ 100000) : negI a = .ok (-a) := by
  rw [abs_le] at ha
  exact chk32_ok (by omega) (by omega)

theorem mul_small {a b : Int} (ha : |a| ≤ 20000) (hb : |b| ≤ 20000) : |a * b| ≤ 400000000 := by
  rw [abs_mul]
  exact (mul_le_mul ha hb (abs_nonneg _) (by norm_num)).trans (by norm_num)

theorem mulI_small {a b : Int} (ha : |a| ≤ 20000) (hb : |b| ≤ 20000) : mulI a b = .ok (a * b) := by
  have := abs_le.1 (mul_small ha hb)
  exact chk32_ok (by omega) (by omega)

theorem addI_ok {a b : Int} (ha : |a| ≤ 400000000) (hb : |b| ≤ 400000000) : addI a b = .ok (a + b) := by
  rw [abs_le] at ha hb
  exact chk32_ok (by omega) (by omega)

theorem sub_small {a b : Int} (ha : |a| ≤ 10000) (hb : |b| ≤ 10000) : |a - b| ≤ 20000 := by
  rw [abs_le] at *; omega

theorem rotate_key_ok {h0 hd a : Point} (h1 : |h0.x| ≤ 10000) (h2 : |h0.y| ≤ 10000) (h3 : |hd.x| ≤ 10000) (h4 : |hd.y| ≤ 10000)
    (h5 : |a.x| ≤ 10000) (h6 : |a.y| ≤ 10000) : rotate_key h0 hd a = .ok ((a.x - h0.x) * -hd.y + (a.y - h0.y) * hd.x) := by
  unfold rotate_key
  have k1 := sub_small h5 h1
  have k2 := sub_small h6 h2
  have k4 : |-hd.y| ≤ 20000 := by rw [abs_neg]; omega
  rw [subI_ok (by omega) (by omega), Run.ok_bind, negI_ok (by omega), Run.ok_bind, mulI_small k1 k4, Run.ok_bind, subI_ok (by omega) (by omega),
    Run.ok_bind, mulI_small k2 (by omega), Run.ok_bind, addI_ok (mul_small k1 k4) (mul_small k2 (by omega))]

/-- A point with coordinates that do not overflow. -/
def Near (p : Point) : Prop := |p.x| ≤ 10000 ∧ |p.y| ≤ 10000

/-- Approximately the direction from the lower left to the upper right finder pattern: `K` columns to the right and `K` rows up. -/
structure Hypotenuse (P : Placement) (K : Int) (hd : Point) : Prop where
  x : |hd.x - K * (P.right.x + P.right.y)| ≤ 1
  y : |hd.y - K * (P.right.y - P.right.x)| ≤ 1

/-- How a score along such a direction grows with the column and with the row. -/
def perColumn (P : Placement) (hd : Point) : Int := P.right.y * hd.x - P.right.x * hd.y

def perRow (P : Placement) (hd : Point) : Int := P.right.x * hd.x + P.right.y * hd.y

theorem Hypotenuse.pos {P : Placement} (h : IsAxis P.right) {K : Int} {hd : Point} (hh : Hypotenuse P K hd) :
    K - 1 ≤ perColumn P hd ∧ K - 1 ≤ perRow P hd := by
  obtain ⟨hx, hy⟩ := hh
  rw [abs_le] at hx hy
  revert hx hy
  unfold perColumn perRow
  rcases h with h | h | h | h <;> rw [h] <;> dsimp only <;> intro hx hy <;> omega

theorem key_eq {P : Placement} (hd : Point) (h0 : Point) (i j : Int) :
    ((P.pixel i j).x - h0.x) * -hd.y + ((P.pixel i j).y - h0.y) * hd.x =
      (P.corner.x - h0.x) * -hd.y + (P.corner.y - h0.y) * hd.x + (perColumn P hd * i + perRow P hd * j) := by
  unfold perColumn perRow pixel
  ring

theorem Hypotenuse.near {P : Placement} (h : IsAxis P.right) {K : Nat} (hK : K < 10000) {hd : Point} (hh : Hypotenuse P K hd) : Near hd := by
  obtain ⟨hx, hy⟩ := hh
  rw [abs_le] at hx hy
  unfold Near
  rw [abs_le, abs_le]
  revert hx hy
  rcases h with h | h | h | h <;> rw [h] <;> dsimp only <;> intro hx hy <;> omega

/-- Turning a capstone puts the corner of the symbol first. -/
theorem rotate_framed {P : Placement} (h : IsAxis P.right) (hs : 0 < P.scale) {i j : Int} {cap : CapStone F} (hc : FramedCap P i j cap)
    {h0 : Point} (hh : Near h0) {K : Nat} (hK : 1 < K) (hK' : K < 10000) {hd : Point} (hy' : Hypotenuse P K hd)
    (hn : ∀ u ∈ [i, i + (7 * P.scale - 1)], ∀ v ∈ [j, j + (7 * P.scale - 1)], Near (P.pixel u v)) :
    ∃ c, rotate_capstone cap h0 hd = .ok { cap with corners := P.corners i j (7 * P.scale - 1), c := c } ∧
      Rounded c (P.grid i j (((7 * P.scale - 1 : Int) : ℚ) / 7)) := by
  have hy := hy'.near h hK'
  have hpos := hy'.pos h
  have key : ∀ u ∈ [i, i + (7 * P.scale - 1)], ∀ v ∈ [j, j + (7 * P.scale - 1)], rotate_key h0 hd (P.pixel u v) =
      .ok ((P.corner.x - h0.x) * -hd.y + (P.corner.y - h0.y) * hd.x + (perColumn P hd * u + perRow P hd * v)) := by
    intro u hu v hv
    have := hn u hu v hv
    rw [rotate_key_ok hh.1 hh.2 hy.1 hy.2 this.1 this.2, key_eq]
  generalize (P.corner.x - h0.x) * -hd.y + (P.corner.y - h0.y) * hd.x = κ at key
  have key0 := key i (by simp) j (by simp)
  have key1 := key (i + (7 * P.scale - 1)) (by simp) j (by simp)
  have key2 := key (i + (7 * P.scale - 1)) (by simp) (j + (7 * P.scale - 1)) (by simp)
  have key3 := key i (by simp) (j + (7 * P.scale - 1)) (by simp)
  obtain ⟨c, create, hr⟩ := create_corners_rounded (F := F) h i j (m := 7 * P.scale - 1) (by omega) lit7_int (by norm_num) hc.within
  refine ⟨c, ?_, by exact_mod_cast hr⟩
  have hm1 : (0 : Int) < perColumn P hd * (7 * P.scale - 1) := mul_pos (by omega) (by omega)
  have hm2 : (0 : Int) < perRow P hd * (7 * P.scale - 1) := mul_pos (by omega) (by omega)
  rw [mul_add, add_right_comm] at key1
  rw [mul_add, mul_add, add_add_add_comm] at key2
  rw [mul_add (perRow P hd), ← add_assoc (perColumn P hd * i)] at key3
  generalize perColumn P hd * (7 * P.scale - 1) = D at *
  generalize perRow P hd * (7 * P.scale - 1) = E at *
  generalize perColumn P hd * i + perRow P hd * j = A at *
  obtain ⟨k, hk, e⟩ := hc.corners
  unfold rotate_capstone
  unfold Spec.Placement.corners at e create ⊢
  obtain ⟨r0, r1, r2, r3⟩ := rotate_get (P.pixel i j) (P.pixel (i + (7 * P.scale - 1)) j)
    (P.pixel (i + (7 * P.scale - 1)) (j + (7 * P.scale - 1))) (P.pixel i (j + (7 * P.scale - 1)))
  have : k = 0 ∨ k = 1 ∨ k = 2 ∨ k = 3 := by omega
  rcases this with rfl | rfl | rfl | rfl
  · rw [r0] at e
    rw [e]
    show (rotate_key h0 hd (P.pixel i j) >>= _) = _
    rw [key0, Run.ok_bind]
    show (rotate_key h0 hd (P.pixel (i + (7 * P.scale - 1)) j) >>= _) = _
    rw [key1, Run.ok_bind]
    show (rotate_key h0 hd (P.pixel (i + (7 * P.scale - 1)) (j + (7 * P.scale - 1))) >>= _) = _
    rw [key2, Run.ok_bind]
    show (rotate_key h0 hd (P.pixel i (j + (7 * P.scale - 1))) >>= _) = _
    rw [key3, Run.ok_bind]
    rw [if_neg (show ¬ κ + (A + D) < κ + A by omega)]
    dsimp only
    rw [if_neg (show ¬ κ + (A + (D + E)) < κ + A by omega)]
    dsimp only
    rw [if_neg (show ¬ κ + (A + E) < κ + A by omega), r0, create]
    rfl
  · rw [r1] at e
    rw [e]
    show (rotate_key h0 hd (P.pixel (i + (7 * P.scale - 1)) j) >>= _) = _
    rw [key1, Run.ok_bind]
    show (rotate_key h0 hd (P.pixel (i + (7 * P.scale - 1)) (j + (7 * P.scale - 1))) >>= _) = _
    rw [key2, Run.ok_bind]
    show (rotate_key h0 hd (P.pixel i (j + (7 * P.scale - 1))) >>= _) = _
    rw [key3, Run.ok_bind]
    show (rotate_key h0 hd (P.pixel i j) >>= _) = _
    rw [key0, Run.ok_bind]
    rw [if_neg (show ¬ κ + (A + (D + E)) < κ + (A + D) by omega)]
    dsimp only
    by_cases hlt : κ + (A + E) < κ + (A + D)
    · rw [if_pos hlt]
      dsimp only
      rw [if_pos (show κ + A < κ + (A + E) by omega), ← r1, rotate_rotate, r0, create]
      rfl
    · rw [if_neg hlt]
      dsimp only
      rw [if_pos (show κ + A < κ + (A + D) by omega), ← r1, rotate_rotate, r0, create]
      rfl
  · rw [r2] at e
    rw [e]
    show (rotate_key h0 hd (P.pixel (i + (7 * P.scale - 1)) (j + (7 * P.scale - 1))) >>= _) = _
    rw [key2, Run.ok_bind]
    show (rotate_key h0 hd (P.pixel i (j + (7 * P.scale - 1))) >>= _) = _
    rw [key3, Run.ok_bind]
    show (rotate_key h0 hd (P.pixel i j) >>= _) = _
    rw [key0, Run.ok_bind]
    show (rotate_key h0 hd (P.pixel (i + (7 * P.scale - 1)) j) >>= _) = _
    rw [key1, Run.ok_bind]
    rw [if_pos (show κ + (A + E) < κ + (A + (D + E)) by omega)]
    dsimp only
    rw [if_pos (show κ + A < κ + (A + E) by omega)]
    dsimp only
    rw [if_neg (show ¬ κ + (A + D) < κ + A by omega), ← r2, rotate_rotate, r0, create]
    rfl
  · rw [r3] at e
    rw [e]
    show (rotate_key h0 hd (P.pixel i (j + (7 * P.scale - 1))) >>= _) = _
    rw [key3, Run.ok_bind]
    show (rotate_key h0 hd (P.pixel i j) >>= _) = _
    rw [key0, Run.ok_bind]
    show (rotate_key h0 hd (P.pixel (i + (7 * P.scale - 1)) j) >>= _) = _
    rw [key1, Run.ok_bind]
    show (rotate_key h0 hd (P.pixel (i + (7 * P.scale - 1)) (j + (7 * P.scale - 1))) >>= _) = _
    rw [key2, Run.ok_bind]
    rw [if_pos (show κ + A < κ + (A + E) by omega)]
    dsimp only
    rw [if_neg (show ¬ κ + (A + D) < κ + A by omega)]
    dsimp only
    rw [if_neg (show ¬ κ + (A + (D + E)) < κ + A by omega), ← r3, rotate_rotate, r0, create]
    rfl

/-! ### The timing pattern -/

/-- A scan along an axis visits the pixels in between. -/
theorem line_axis {p d : Point} (hd : IsAxis d) {L : Nat} (hL : 0 < L) (hp : Moderate p) (hq : Moderate ⟨p.x + L * d.x, p.y + L * d.y⟩) :
    BresenhamScan.points p ⟨p.x + L * d.x, p.y + L * d.y⟩ =
      .ok ((List.range (L + 1)).map fun k : Nat => ⟨p.x + k * d.x, p.y + k * d.y⟩) := by
  obtain ⟨l, e, hlen, -, -, -, hk⟩ := C43_line_scan p _ hp hq
  have hmax : max (p.x + L * d.x - p.x).natAbs (p.y + L * d.y - p.y).natAbs = L := by
    rcases hd with h | h | h | h <;> rw [h] <;> dsimp only <;> omega
  dsimp only at hlen hk
  rw [hmax] at hlen hk
  rw [e]
  congr 1
  refine List.ext_getElem? fun k => ?_
  by_cases hlt : k < L + 1
  · rw [List.getElem?_map, List.getElem?_range hlt, List.getElem?_eq_getElem (by omega)]
    have hne : p ≠ ⟨p.x + L * d.x, p.y + L * d.y⟩ := by
      intro e
      have e1 := congrArg Point.x e
      have e2 := congrArg Point.y e
      dsimp only at e1 e2
      rcases hd with h | h | h | h <;> rw [h] at e1 e2 <;> dsimp only at e1 e2 <;> omega
    obtain ⟨a1, a2⟩ := hk k l[k] (List.getElem?_eq_getElem (by omega)) hne
    have key : ∀ x y : Int, (((L : Nat) : Int) * x - k * (L * y)).natAbs < L → x = k * y := by
      intro x y h
      rw [show ((L : Nat) : Int) * x - k * (L * y) = L * (x - k * y) by ring, Int.natAbs_mul, Int.natAbs_natCast] at h
      have : (x - k * y).natAbs = 0 := by
        by_contra hne
        have : L * 1 ≤ L * (x - k * y).natAbs := Nat.mul_le_mul_left _ (by omega)
        omega
      omega
    have x1 := key _ _ (by rw [show p.x + L * d.x - p.x = L * d.x by ring] at a1; exact a1)
    have y1 := key _ _ (by rw [show p.y + L * d.y - p.y = L * d.y by ring] at a2; exact a2)
    show some l[k] = some _
    congr 1
    have ex : l[k].x = p.x + k * d.x := by omega
    have ey : l[k].y = p.y + k * d.y := by omega
    show l[k] = ⟨p.x + k * d.x, p.y + k * d.y⟩
    rw [← ex, ← ey]
  · rw [List.getElem?_eq_none (by omega), List.getElem?_eq_none (by simp; omega)]

theorem changes_count {g : Nat → PixelColor} {q : Nat → Nat} : ∀ L : Nat,
    (∀ k < L, (q (k + 1) = q k ∧ g (k + 1) = g k) ∨ (q (k + 1) = q k + 1 ∧ g (k + 1) ≠ g k)) →
    colourChanges ((List.range (L + 1)).map g) + q 0 = q L
  | 0, _ => by simp [colourChanges]
  | L + 1, h => by
    have ih := changes_count L fun k hk => h k (by omega)
    have e : (List.range (L + 1 + 1)).map g = (List.range L).map g ++ [g L, g (L + 1)] := by
      rw [List.range_succ, List.range_succ]; simp
    have e' : (List.range (L + 1)).map g = (List.range L).map g ++ [g L] := by
      rw [List.range_succ]; simp
    rw [e, colourChanges_append, ← e']
    rcases h L (by omega) with ⟨h1, h2⟩ | ⟨h1, h2⟩
    · rw [if_neg (by simp [h2])]; omega
    · rw [if_pos (Ne.symm h2)]; omega

section
variable {S : Type} [ImageBuffer S] [LawfulImage S] {img0 img : PreparedImage S} {claims : Pos → Option Claim} {n : Nat}
  {M : Nat → Nat → Bool} {P : Placement}

theorem Spec.Renders.inside' (h : Renders img0 n M P) {i j : Nat} (hi : i < n * P.scale) (hj : j < n * P.scale) : Inside img0 (P.pixel i j) := by
  have := h.inside i j hi hj
  exact ⟨by omega, by omega, by omega, by omega⟩

theorem Spec.Renders.blackAt (h : Renders img0 n M P) {i j : Nat} (hi : i < n * P.scale) (hj : j < n * P.scale) (hm : Matters n P.scale i j) :
    BlackAt img0 (P.pixel i j) ↔ M (j / P.scale) (i / P.scale) = true := by
  have := h.inside i j hi hj
  unfold BlackAt
  rw [h.black _ i j hi hj hm]
  dsimp only
  rw [Int.toNat_of_nonneg this.1, Int.toNat_of_nonneg this.2.2.2.1]

/-- The colours of the pixels of the drawing, after any history. -/
theorem drawn_colors (h0 : Fresh img0) (h : History img0 claims img) (hw : width img0.buffer ≤ 2 ^ 31) (hh : height img0.buffer ≤ 2 ^ 31)
    (hR : Renders img0 n M P) (hn : 0 < n) : ∃ color : Point → PixelColor, (∀ a, img.get_pixel_at_point a = .ok (color a)) ∧
      (∀ i j : Nat, i < n * P.scale → j < n * P.scale → Matters n P.scale i j →
        (PixelColor.White ≠ color (P.pixel i j) ↔ M (j / P.scale) (i / P.scale) = true)) ∧
      (∀ i j : Nat, i + 1 < n * P.scale → j < n * P.scale → Matters n P.scale i j → Matters n P.scale (i + 1) j → M (j / P.scale) (i / P.scale) = M (j / P.scale) ((i + 1) / P.scale) →
        color (P.pixel (i + 1 : Nat) j) = color (P.pixel i j)) ∧
      (∀ i j : Nat, i < n * P.scale → j + 1 < n * P.scale → Matters n P.scale i j → Matters n P.scale i (j + 1) → M (j / P.scale) (i / P.scale) = M ((j + 1) / P.scale) (i / P.scale) →
        color (P.pixel i (j + 1 : Nat)) = color (P.pixel i j)) := by
  have hs := hR.scale
  have hpos : 0 < n * P.scale := by
    have : 0 < P.scale := by omega
    positivity
  obtain ⟨hI, ew, eh⟩ := history_inv h0 h
  have hv := hI.ok.painted.valid
  have i0 := hR.inside 0 0 hpos hpos
  have hw0 : 0 < width img.buffer := by rw [ew]; omega
  have hh0 : 0 < height img.buffer := by rw [eh]; omega
  choose color hc using C50_never_out_of_bounds hv hw0 hh0
  have hcol : ∀ i j : Nat, i < n * P.scale → j < n * P.scale → Matters n P.scale i j →
      color (P.pixel i j) = .ofByte (LawfulImage.view img.buffer (P.pixel i j).x.toNat (P.pixel i j).y.toNat) ∧
      (PixelColor.White ≠ color (P.pixel i j) ↔ M (j / P.scale) (i / P.scale) = true) := by
    intro i j hi hj hm
    obtain ⟨c, e1, e2, e3⟩ := point_pixel h0 h hw hh (hR.inside' hi hj)
    rw [hc] at e1
    cases e1
    exact ⟨e2, e3.trans (hR.blackAt hi hj hm)⟩
  have same : ∀ i j i' j' : Nat, i < n * P.scale → j < n * P.scale → i' < n * P.scale → j' < n * P.scale → Matters n P.scale i j →
      Matters n P.scale i' j' →
      Adj ((P.pixel i j).x.toNat, (P.pixel i j).y.toNat) ((P.pixel i' j').x.toNat, (P.pixel i' j').y.toNat) →
      M (j / P.scale) (i / P.scale) = M (j' / P.scale) (i' / P.scale) → color (P.pixel i' j') = color (P.pixel i j) := by
    intro i j i' j' hi hj hi' hj' m m' ha hm
    obtain ⟨a1, a2⟩ := hcol i j hi hj m
    obtain ⟨b1, b2⟩ := hcol i' j' hi' hj' m'
    by_cases hb : M (j / P.scale) (i / P.scale) = true
    · rw [a1, b1]
      exact congrArg PixelColor.ofByte (hI.ok.painted.const _ _ ((hR.blackAt hi hj m).2 hb) ((hR.blackAt hi' hj' m').2 (hm ▸ hb)) ha).symm
    · have c1 := mt a2.1 hb
      rw [hm] at hb
      have c2 := mt b2.1 hb
      rw [not_ne_iff] at c1 c2
      rw [← c1, ← c2]
  refine ⟨color, hc, fun i j hi hj hm => (hcol i j hi hj hm).2, ?_, ?_⟩
  · intro i j hi hj m m' hm
    refine same i j (i + 1) j (by omega) hj hi hj m m' ?_ hm
    have k1 := hR.inside i j (by omega) hj
    have k2 := hR.inside (i + 1) j hi hj
    revert k1 k2
    unfold Adj pixel
    rcases hR.axis with h | h | h | h <;> rw [h] <;> dsimp only <;> simp only [mul_one, mul_zero, mul_neg, Nat.cast_add, Nat.cast_one, true_and] <;> intro k1 k2 <;> omega
  · intro i j hi hj m m' hm
    refine same i j i (j + 1) hi (by omega) hi hj m m' ?_ hm
    have k1 := hR.inside i j hi (by omega)
    have k2 := hR.inside i (j + 1) hi hj
    revert k1 k2
    unfold Adj pixel
    rcases hR.axis with h | h | h | h <;> rw [h] <;> dsimp only <;> simp only [mul_one, mul_zero, mul_neg, Nat.cast_add, Nat.cast_one, true_and] <;> intro k1 k2 <;> omega

theorem moderate_of (hR : Renders img0 n M P) {i j : Nat} (hi : i < n * P.scale) (hj : j < n * P.scale) : Moderate (P.pixel i j) := by
  have := hR.inside i j hi hj
  exact ⟨by omega, by omega, by omega, by omega⟩

/-- Scanning along row 6, of alternating modules. -/
theorem scan_row_count (h0 : Fresh img0) (h : History img0 claims img) (hw : width img0.buffer ≤ 2 ^ 31) (hh : height img0.buffer ≤ 2 ^ 31)
    (hR : Renders img0 n M P) {i j L y : Nat} (hL : 0 < L) (hi : i + L < n * P.scale) (hj : j < n * P.scale) (hy : j / P.scale = y) (h6 : y = 6)
    (halt : ∀ x, i / P.scale ≤ x → x < (i + L) / P.scale → M y (x + 1) = !M y x) :
    timing_scan img (P.pixel i j) (P.pixel (i + L : Nat) j) = .ok ((i + L) / P.scale - i / P.scale) := by
  have hs := hR.scale
  have hn : 0 < n := by
    rcases Nat.eq_zero_or_pos n with rfl | h
    · omega
    · exact h
  obtain ⟨color, hc, hwt, hrow, -⟩ := drawn_colors h0 h hw hh hR hn
  have mat : ∀ k, Matters n P.scale k j := fun k => .inl (.inr (.inr (.inr (.inr (.inl (hy.trans h6))))))
  have e := line_axis (p := P.pixel i j) (d := P.right) hR.axis hL (moderate_of hR (by omega) hj) (by
    have := moderate_of hR hi hj
    convert this using 1
    unfold pixel; push_cast; rw [Point.mk.injEq]; constructor <;> ring)
  have e1 : (⟨(P.pixel i j).x + L * P.right.x, (P.pixel i j).y + L * P.right.y⟩ : Point) = P.pixel (i + L : Nat) j := by
    unfold pixel; push_cast; rw [Point.mk.injEq]; constructor <;> ring
  rw [e1] at e
  rw [timing_scan_ok hc e, List.map_map]
  have e2 : (color ∘ fun k : Nat => (⟨(P.pixel i j).x + k * P.right.x, (P.pixel i j).y + k * P.right.y⟩ : Point)) =
      fun k : Nat => color (P.pixel (i + k : Nat) j) := by
    funext k
    show color _ = color _
    congr 1
    unfold pixel; push_cast; rw [Point.mk.injEq]; constructor <;> ring
  rw [e2]
  have := changes_count (g := fun k : Nat => color (P.pixel (i + k : Nat) j)) (q := fun k => (i + k) / P.scale) L (by
    intro k hk
    have d1 := Nat.div_add_mod (i + k) P.scale
    have d2 := Nat.mod_lt (i + k) (show 0 < P.scale by omega)
    have hb : (i + L) / P.scale ≥ (i + (k + 1)) / P.scale := Nat.div_le_div_right (by omega)
    have ha : i / P.scale ≤ (i + k) / P.scale := Nat.div_le_div_right (by omega)
    by_cases hm : (i + k) % P.scale + 1 < P.scale
    · left
      have eq : (i + (k + 1)) / P.scale = (i + k) / P.scale := by
        rw [Nat.div_eq_iff (by omega)]
        rw [Nat.mul_comm] at d1
        constructor <;> omega
      exact ⟨eq, hrow (i + k) j (by omega) hj (mat _) (mat _) (by rw [show i + k + 1 = i + (k + 1) by omega, eq])⟩
    · right
      have eq : (i + (k + 1)) / P.scale = (i + k) / P.scale + 1 := by
        rw [Nat.div_eq_iff (by omega), Nat.add_mul]
        rw [Nat.mul_comm] at d1
        constructor <;> omega
      refine ⟨eq, ?_⟩
      have w1 := hwt (i + k) j (by omega) hj (mat _)
      have w2 := hwt (i + (k + 1)) j (by omega) hj (mat _)
      rw [hy] at w1 w2
      rw [eq, halt _ ha (by omega)] at w2
      intro hcc
      rw [hcc] at w2
      rw [w1] at w2
      revert w2
      cases M y ((i + k) / P.scale) <;> decide)
  simp only [Nat.add_zero] at this
  congr 1
  omega

/-- Scanning along column 6, of alternating modules. -/
theorem scan_column_count (h0 : Fresh img0) (h : History img0 claims img) (hw : width img0.buffer ≤ 2 ^ 31) (hh : height img0.buffer ≤ 2 ^ 31)
    (hR : Renders img0 n M P) {i j L x : Nat} (hL : 0 < L) (hi : i < n * P.scale) (hj : j + L < n * P.scale) (hx : i / P.scale = x) (h6 : x = 6)
    (halt : ∀ y, j / P.scale ≤ y → y < (j + L) / P.scale → M (y + 1) x = !M y x) :
    timing_scan img (P.pixel i j) (P.pixel i (j + L : Nat)) = .ok ((j + L) / P.scale - j / P.scale) := by
  have hs := hR.scale
  have hn : 0 < n := by
    rcases Nat.eq_zero_or_pos n with rfl | h
    · omega
    · exact h
  obtain ⟨color, hc, hwt, -, hcol⟩ := drawn_colors h0 h hw hh hR hn
  have mat : ∀ k, Matters n P.scale i k := fun k => .inl (.inr (.inr (.inr (.inl (hx.trans h6)))))
  have ax : IsAxis ⟨-P.right.y, P.right.x⟩ := by
    unfold IsAxis
    rcases hR.axis with h | h | h | h <;> rw [h] <;> simp
  have e := line_axis (p := P.pixel i j) (d := ⟨-P.right.y, P.right.x⟩) ax hL (moderate_of hR hi (by omega)) (by
    have := moderate_of hR hi hj
    convert this using 1
    unfold pixel; push_cast; rw [Point.mk.injEq]; constructor <;> ring)
  dsimp only at e
  have e1 : (⟨(P.pixel i j).x + L * -P.right.y, (P.pixel i j).y + L * P.right.x⟩ : Point) = P.pixel i (j + L : Nat) := by
    unfold pixel; push_cast; rw [Point.mk.injEq]; constructor <;> ring
  rw [e1] at e
  rw [timing_scan_ok hc e, List.map_map]
  have e2 : (color ∘ fun k : Nat => (⟨(P.pixel i j).x + k * -P.right.y, (P.pixel i j).y + k * P.right.x⟩ : Point)) =
      fun k : Nat => color (P.pixel i (j + k : Nat)) := by
    funext k
    show color _ = color _
    congr 1
    unfold pixel; push_cast; rw [Point.mk.injEq]; constructor <;> ring
  rw [e2]
  have := changes_count (g := fun k : Nat => color (P.pixel i (j + k : Nat))) (q := fun k => (j + k) / P.scale) L (by
    intro k hk
    have d1 := Nat.div_add_mod (j + k) P.scale
    have d2 := Nat.mod_lt (j + k) (show 0 < P.scale by omega)
    have hb : (j + L) / P.scale ≥ (j + (k + 1)) / P.scale := Nat.div_le_div_right (by omega)
    have ha : j / P.scale ≤ (j + k) / P.scale := Nat.div_le_div_right (by omega)
    by_cases hm : (j + k) % P.scale + 1 < P.scale
    · left
      have eq : (j + (k + 1)) / P.scale = (j + k) / P.scale := by
        rw [Nat.div_eq_iff (by omega)]
        rw [Nat.mul_comm] at d1
        constructor <;> omega
      exact ⟨eq, hcol i (j + k) hi (by omega) (mat _) (mat _) (by rw [show j + k + 1 = j + (k + 1) by omega, eq])⟩
    · right
      have eq : (j + (k + 1)) / P.scale = (j + k) / P.scale + 1 := by
        rw [Nat.div_eq_iff (by omega), Nat.add_mul]
        rw [Nat.mul_comm] at d1
        constructor <;> omega
      refine ⟨eq, ?_⟩
      have w1 := hwt i (j + k) hi (by omega) (mat _)
      have w2 := hwt i (j + (k + 1)) hi (by omega) (mat _)
      rw [hx] at w1 w2
      rw [eq, halt _ ha (by omega)] at w2
      intro hcc
      rw [hcc] at w2
      rw [w1] at w2
      revert w2
      cases M ((j + k) / P.scale) x <;> decide)
  simp only [Nat.add_zero] at this
  congr 1
  omega

end

end Rqrr
