import Verif.Proofs.BoxLocate

/-!
# Scanning the timing patterns of a drawing with modules of unequal sizes
-/

namespace Rqrr

open Spec ImageBuffer Spec.Placement Rounding FloatOps

/-- Distances along an axis. -/
theorem drift_core {L k : Nat} {a D b : Int} (hL : 0 < L) (hk : k ≤ L) (h1 : -(L : Int) < L * a - k * L) (h1' : L * a - k * L < L)
    (h2 : -(L : Int) < L * b - k * D) (h2' : L * b - k * D < L) : a = k ∧ ((0 ≤ b ∧ b ≤ D) ∨ (D ≤ b ∧ b ≤ 0)) := by
  have hL' : (0 : Int) < L := by omega
  have hk' : (k : Int) ≤ L := by omega
  have hk0 : (0 : Int) ≤ k := by omega
  refine ⟨?_, ?_⟩
  · have u1 : -1 < a - k := by
      by_contra hc
      have : (L : Int) * (a - k) ≤ L * (-1) := mul_le_mul_of_nonneg_left (by omega) hL'.le
      nlinarith
    have u2 : a - k < 1 := by
      by_contra hc
      have : (L : Int) * 1 ≤ L * (a - k) := mul_le_mul_of_nonneg_left (by omega) hL'.le
      nlinarith
    omega
  · rcases le_total 0 D with hD | hD
    · left
      have m1 : 0 ≤ (k : Int) * D := mul_nonneg hk0 hD
      have m2 : (k : Int) * D ≤ L * D := mul_le_mul_of_nonneg_right hk' hD
      constructor
      · by_contra hc
        have : (L : Int) * b ≤ L * (-1) := mul_le_mul_of_nonneg_left (by omega) hL'.le
        linarith
      · by_contra hc
        have : (L : Int) * (D + 1) ≤ L * b := mul_le_mul_of_nonneg_left (by omega) hL'.le
        linarith
    · right
      have m1 : (k : Int) * D ≤ 0 := mul_nonpos_of_nonneg_of_nonpos hk0 hD
      have m2 : (L : Int) * D ≤ k * D := mul_le_mul_of_nonpos_right hk' hD
      constructor
      · by_contra hc
        have : (L : Int) * b ≤ L * (D - 1) := mul_le_mul_of_nonneg_left (by omega) hL'.le
        linarith
      · by_contra hc
        have : (L : Int) * 1 ≤ L * b := mul_le_mul_of_nonneg_left (by omega) hL'.le
        linarith

/-- A scan along an axis whose ends may differ in the other coordinate as well. -/
theorem line_drift {p e f : Point} (he : IsAxis e) (hf : f = ⟨-e.y, e.x⟩ ∨ f = ⟨e.y, -e.x⟩) {L : Nat} {D : Int} (hL : 0 < L) (hD : |D| ≤ L)
    (hp : Moderate p) (hq : Moderate ⟨p.x + L * e.x + D * f.x, p.y + L * e.y + D * f.y⟩) :
    ∃ w : Nat → Int, (∀ k ≤ L, (0 ≤ w k ∧ w k ≤ D) ∨ (D ≤ w k ∧ w k ≤ 0)) ∧
      BresenhamScan.points p ⟨p.x + L * e.x + D * f.x, p.y + L * e.y + D * f.y⟩ =
        .ok ((List.range (L + 1)).map fun k : Nat => ⟨p.x + k * e.x + w k * f.x, p.y + k * e.y + w k * f.y⟩) := by
  obtain ⟨l, eq, hlen, -, -, -, hk⟩ := C43_line_scan p _ hp hq
  rw [abs_le] at hD
  have hmax : max (p.x + L * e.x + D * f.x - p.x).natAbs (p.y + L * e.y + D * f.y - p.y).natAbs = L := by
    rcases hf with rfl | rfl <;> rcases he with h | h | h | h <;> rw [h] <;> dsimp only <;> omega
  dsimp only at hlen hk
  rw [hmax] at hlen hk
  have hne : p ≠ ⟨p.x + L * e.x + D * f.x, p.y + L * e.y + D * f.y⟩ := by
    intro e'
    have e1 := congrArg Point.x e'
    have e2 := congrArg Point.y e'
    dsimp only at e1 e2
    rcases hf with rfl | rfl <;> rcases he with h | h | h | h <;> rw [h] at e1 e2 <;> dsimp only at e1 e2 <;> omega
  have key : ∀ k ≤ L, ∃ w : Int, ((0 ≤ w ∧ w ≤ D) ∨ (D ≤ w ∧ w ≤ 0)) ∧
      l[k]? = some ⟨p.x + k * e.x + w * f.x, p.y + k * e.y + w * f.y⟩ := by
    intro k hkL
    have hlt : k < l.length := by omega
    obtain ⟨a1, a2⟩ := hk k l[k] (List.getElem?_eq_getElem hlt) hne
    have b1 : -(L : Int) < (L : Int) * (l[k].x - p.x) - k * (p.x + L * e.x + D * f.x - p.x) ∧
      (L : Int) * (l[k].x - p.x) - k * (p.x + L * e.x + D * f.x - p.x) < L := by
      generalize (L : Int) * (l[k].x - p.x) - k * (p.x + L * e.x + D * f.x - p.x) = z at a1
      omega
    have b2 : -(L : Int) < (L : Int) * (l[k].y - p.y) - k * (p.y + L * e.y + D * f.y - p.y) ∧
      (L : Int) * (l[k].y - p.y) - k * (p.y + L * e.y + D * f.y - p.y) < L := by
      generalize (L : Int) * (l[k].y - p.y) - k * (p.y + L * e.y + D * f.y - p.y) = z at a2
      omega
    rw [List.getElem?_eq_getElem hlt]
    clear hk a1 a2 hne hmax hq eq hlen
    generalize l[k] = z at *
    obtain ⟨zx, zy⟩ := z
    obtain ⟨c1, c2⟩ := b1
    obtain ⟨c3, c4⟩ := b2
    dsimp only at c1 c2 c3 c4
    have fin : ∀ a b : Int, -(L : Int) < L * a - k * L → L * a - k * L < L → -(L : Int) < L * b - k * D → L * b - k * D < L →
        zx - p.x = a * e.x + b * f.x → zy - p.y = a * e.y + b * f.y →
        ∃ w : Int, ((0 ≤ w ∧ w ≤ D) ∨ (D ≤ w ∧ w ≤ 0)) ∧ some (⟨zx, zy⟩ : Point) = some ⟨p.x + k * e.x + w * f.x, p.y + k * e.y + w * f.y⟩ := by
      intro a b h1 h2 h3 h4 h5 h6
      obtain ⟨rfl, hb⟩ := drift_core hL hkL h1 h2 h3 h4
      refine ⟨b, hb, ?_⟩
      congr 1
      refine point_ext ?_ ?_ <;> linarith
    rcases hf with rfl | rfl <;> rcases he with h | h | h | h <;> rw [h] at c1 c2 c3 c4 fin ⊢ <;> dsimp only at c1 c2 c3 c4 fin ⊢
    · exact fin (zx - p.x) (zy - p.y) (by linarith) (by linarith) (by linarith) (by linarith) (by ring) (by ring)
    · exact fin (zy - p.y) (-(zx - p.x)) (by linarith) (by linarith) (by linarith) (by linarith) (by ring) (by ring)
    · exact fin (-(zx - p.x)) (-(zy - p.y)) (by linarith) (by linarith) (by linarith) (by linarith) (by ring) (by ring)
    · exact fin (-(zy - p.y)) (zx - p.x) (by linarith) (by linarith) (by linarith) (by linarith) (by ring) (by ring)
    · exact fin (zx - p.x) (-(zy - p.y)) (by linarith) (by linarith) (by linarith) (by linarith) (by ring) (by ring)
    · exact fin (zy - p.y) (zx - p.x) (by linarith) (by linarith) (by linarith) (by linarith) (by ring) (by ring)
    · exact fin (-(zx - p.x)) (zy - p.y) (by linarith) (by linarith) (by linarith) (by linarith) (by ring) (by ring)
    · exact fin (-(zy - p.y)) (-(zx - p.x)) (by linarith) (by linarith) (by linarith) (by linarith) (by ring) (by ring)
  choose! w hw hpt using key
  refine ⟨w, hw, ?_⟩
  rw [eq]
  congr 1
  refine List.ext_getElem? fun k => ?_
  by_cases hlt : k < L + 1
  · rw [List.getElem?_map, List.getElem?_range hlt]
    exact hpt k (by omega)
  · rw [List.getElem?_eq_none (by omega), List.getElem?_eq_none (by simp; omega)]

variable {S : Type} [ImageBuffer S] [LawfulImage S] {img0 img : PreparedImage S} {claims : Pos → Option Claim} {n : Nat}
  {M : Nat → Nat → Bool} {Y : Layout}

omit [LawfulImage S] in
/-- A scan along modules of alternating colours. -/
theorem scan_modules {color : Point → PixelColor} (hc : ∀ a, img.get_pixel_at_point a = .ok (color a)) {p q : Point} {pts : Nat → Point}
    {L A : Nat} (hpts : BresenhamScan.points p q = .ok ((List.range (L + 1)).map pts)) {f : Nat → Nat} (hf : Even n f) (f0 : f 0 = 0)
    {dark : Nat → Bool} (hdark : ∀ x < n, ∀ k ≤ L, f x ≤ A + k → A + k < f (x + 1) → (PixelColor.White ≠ color (pts k) ↔ dark x = true))
    (hsame : ∀ x < n, ∀ k < L, f x ≤ A + k → A + (k + 1) < f (x + 1) → color (pts (k + 1)) = color (pts k))
    {a b : Nat} (ha1 : f a ≤ A) (ha2 : A < f (a + 1)) (hb1 : f b ≤ A + L) (hb2 : A + L < f (b + 1)) (an : a < n) (hb : b < n)
    (halt : ∀ x, a ≤ x → x < b → dark (x + 1) = !dark x) : timing_scan img p q = .ok (b - a) := by
  have hn : A + L < f n := hb2.trans_le (hf.le (by omega) (Nat.le_refl n))
  have hmod : ∀ k, ∃ x, k ≤ L → x < n ∧ f x ≤ A + k ∧ A + k < f (x + 1) := by
    intro k
    by_cases hk : k ≤ L
    · obtain ⟨x, h1, h2, h3⟩ := Spec.Even.module f0 (show A + k < f n by omega)
      exact ⟨x, fun _ => ⟨h1, h2, h3⟩⟩
    · exact ⟨0, fun h => absurd h hk⟩
  choose m hm using hmod
  have uniq : ∀ {x y k : Nat}, x < n → y < n → f x ≤ k → k < f (x + 1) → f y ≤ k → k < f (y + 1) → x = y := by
    intro x y k hx hy h1 h2 h3 h4
    have e1 := (hf.cut_le hx h1 h2 (k := y) hy.le).1 h3
    have e2 := (hf.cut_le hy h3 h4 (k := x) hx.le).1 h1
    omega
  have m0 : m 0 = a := uniq (hm 0 (Nat.zero_le _)).1 an (by simpa using (hm 0 (Nat.zero_le _)).2.1) (by simpa using (hm 0 (Nat.zero_le _)).2.2) ha1 ha2
  have mL : m L = b := uniq (hm L (le_refl _)).1 hb (hm L (le_refl _)).2.1 (hm L (le_refl _)).2.2 hb1 hb2
  have ne_of : ∀ {c c' : PixelColor} {d : Bool}, (PixelColor.White ≠ c ↔ (!d) = true) → (PixelColor.White ≠ c' ↔ d = true) → c ≠ c' := by
    intro c c' d h1 h2 e
    subst e
    cases d
    · exact absurd (h2.1 (h1.2 rfl)) (by decide)
    · exact absurd (h1.1 (h2.2 rfl)) (by decide)
  have cnt := changes_count (g := fun k => color (pts k)) (q := m) L (fun k hk => by
    obtain ⟨x1, x2, x3⟩ := hm k hk.le
    obtain ⟨y1, y2, y3⟩ := hm (k + 1) hk
    by_cases hc' : A + (k + 1) < f (m k + 1)
    · have e : m (k + 1) = m k := uniq y1 x1 y2 y3 (by omega) hc'
      exact .inl ⟨e, hsame (m k) x1 k hk x2 hc'⟩
    · have hlt : m k < m (k + 1) := by
        have := (hf.cut_le y1 y2 y3 (k := m k + 1) (by omega)).1 (by omega)
        omega
      have e : m (k + 1) = m k + 1 := by
        by_contra hne
        have := hf.lt (k := m k + 1) (l := m (k + 1)) (by omega) (by omega)
        omega
      refine .inr ⟨e, ?_⟩
      have hma : a ≤ m k := (hf.cut_le x1 x2 x3 (k := a) (by omega)).1 (by omega)
      have hmb : m k < b := by
        have := (hf.cut_le hb hb1 hb2 (k := m (k + 1)) (by omega)).1 (by omega)
        omega
      have d1 := hdark _ x1 k hk.le x2 x3
      have d2 := hdark _ y1 (k + 1) hk y2 y3
      rw [e, halt _ hma hmb] at d2
      exact ne_of d2 d1)
  rw [m0, mL] at cnt
  rw [timing_scan_ok hc hpts, List.map_map]
  show Except.ok (colourChanges ((List.range (L + 1)).map fun k => color (pts k))) = _
  congr 1
  omega

theorem Spec.Stretches.black' (hR : Stretches img0 n M Y) {x y i j : Nat} (hx : x < n) (hy : y < n) (hij : Y.InModule x y i j) :
    IsBlack img0 ((Y.pixel i j).x.toNat, (Y.pixel i j).y.toNat) ↔ M y x = true := by
  have m1 := hR.columns.le (k := x + 1) (l := n) hx (Nat.le_refl _)
  have m2 := hR.rows.le (k := y + 1) (l := n) hy (Nat.le_refl _)
  have ins := hR.inside i j (by have := hij.right; omega) (by have := hij.bottom; omega)
  refine hR.black _ x y i j hx hy hij ?_
  dsimp only
  rw [Int.toNat_of_nonneg ins.1, Int.toNat_of_nonneg ins.2.2.2.1]

theorem const_between {α : Type} {f : Nat → α} {a b : Nat} (h : ∀ k, a ≤ k → k + 1 < b → f (k + 1) = f k) {i i' : Nat} (h1 : a ≤ i) (h2 : i < b)
    (h3 : a ≤ i') (h4 : i' < b) : f i = f i' := by
  have key : ∀ d i, a ≤ i → i + d < b → f (i + d) = f i := by
    intro d
    induction d with
    | zero => intro i _ _; rfl
    | succ d ih =>
      intro i h1 h2
      rw [← ih i h1 (by omega)]
      exact h (i + d) (by omega) (by omega)
  rcases Nat.le_total i i' with hle | hle
  · have := key (i' - i) i h1 (by omega)
    rw [Nat.add_sub_cancel' hle] at this
    exact this.symm
  · have := key (i - i') i' h3 (by omega)
    rw [Nat.add_sub_cancel' hle] at this
    exact this

/-- What is read from the drawing: dark modules are not white, and each module has one colour. -/
theorem stretched_colors (h0 : Fresh img0) (h : History img0 claims img) (hw : width img0.buffer ≤ 2 ^ 31) (hh : height img0.buffer ≤ 2 ^ 31)
    (hR : Stretches img0 n M Y) (hn : 0 < n) : ∃ color : Point → PixelColor, (∀ a, img.get_pixel_at_point a = .ok (color a)) ∧
      (∀ x y i j : Nat, x < n → y < n → Y.InModule x y i j → (PixelColor.White ≠ color (Y.pixel i j) ↔ M y x = true)) ∧
      (∀ x y i j i' j' : Nat, x < n → y < n → Y.InModule x y i j → Y.InModule x y i' j' → color (Y.pixel i' j') = color (Y.pixel i j)) := by
  obtain ⟨hI, ew, eh⟩ := history_inv h0 h
  have hv := hI.ok.painted.valid
  have z1 := hR.columns.lt hn (Nat.le_refl n)
  have z2 := hR.rows.lt hn (Nat.le_refl n)
  have i0 := hR.inside 0 0 (by omega) (by omega)
  have hw0 : 0 < width img.buffer := by rw [ew]; omega
  have hh0 : 0 < height img.buffer := by rw [eh]; omega
  choose color hc using C50_never_out_of_bounds hv hw0 hh0
  have bound : ∀ {x y i j : Nat}, x < n → y < n → Y.InModule x y i j → i < Y.column n ∧ j < Y.row n := by
    intro x y i j hx hy hij
    have m1 := hR.columns.le (k := x + 1) (l := n) hx (Nat.le_refl _)
    have m2 := hR.rows.le (k := y + 1) (l := n) hy (Nat.le_refl _)
    have := hij.right
    have := hij.bottom
    omega
  have hcol : ∀ x y i j : Nat, x < n → y < n → Y.InModule x y i j →
      color (Y.pixel i j) = .ofByte (LawfulImage.view img.buffer (Y.pixel i j).x.toNat (Y.pixel i j).y.toNat) ∧
      (PixelColor.White ≠ color (Y.pixel i j) ↔ M y x = true) := by
    intro x y i j hx hy hij
    obtain ⟨q1, q2⟩ := bound hx hy hij
    have ins := hR.inside i j q1 q2
    obtain ⟨c, e1, e2, e3⟩ := point_pixel h0 h hw hh (p := Y.pixel i j) ⟨ins.1, ins.2.1, ins.2.2.2.1, ins.2.2.2.2.1⟩
    rw [hc] at e1
    cases e1
    exact ⟨e2, e3.trans (hR.black' hx hy hij)⟩
  have same : ∀ x y i j i' j' : Nat, x < n → y < n → Y.InModule x y i j → Y.InModule x y i' j' →
      Adj ((Y.pixel i j).x.toNat, (Y.pixel i j).y.toNat) ((Y.pixel i' j').x.toNat, (Y.pixel i' j').y.toNat) →
      color (Y.pixel i' j') = color (Y.pixel i j) := by
    intro x y i j i' j' hx hy m m' ha
    obtain ⟨a1, a2⟩ := hcol x y i j hx hy m
    obtain ⟨b1, b2⟩ := hcol x y i' j' hx hy m'
    by_cases hb : M y x = true
    · rw [a1, b1]
      exact congrArg PixelColor.ofByte (hI.ok.painted.const _ _ ((hR.black' hx hy m).2 hb) ((hR.black' hx hy m').2 hb) ha).symm
    · have c1 := mt a2.1 hb
      have c2 := mt b2.1 hb
      rw [not_ne_iff] at c1 c2
      rw [← c1, ← c2]
  refine ⟨color, hc, fun x y i j hx hy hij => (hcol x y i j hx hy hij).2, ?_⟩
  intro x y i j i' j' hx hy m m'
  have s1 : color (Y.pixel i j') = color (Y.pixel i j) := by
    refine const_between (f := fun j : Nat => color (Y.pixel i j)) (a := Y.row y) (b := Y.row (y + 1)) ?_ m'.top m'.bottom m.top m.bottom
    intro k k1 k2
    have r1 : Y.InModule x y i k := ⟨m.left, m.right, k1, by omega⟩
    have r2 : Y.InModule x y i (k + 1) := ⟨m.left, m.right, by omega, k2⟩
    refine same x y i k i (k + 1) hx hy r1 r2 ?_
    have k1 := hR.inside i k (bound hx hy r1).1 (bound hx hy r1).2
    have k2 := hR.inside i (k + 1 : Nat) (bound hx hy r2).1 (bound hx hy r2).2
    revert k1 k2
    unfold Adj Layout.pixel Layout.place pixel
    rcases hR.axis with h | h | h | h <;> rw [h] <;> dsimp only <;> simp only [mul_one, mul_zero, mul_neg, Nat.cast_add, Nat.cast_one, true_and] <;> intro k1 k2 <;> omega
  have s2 : color (Y.pixel i' j') = color (Y.pixel i j') := by
    refine const_between (f := fun i : Nat => color (Y.pixel i j')) (a := Y.column x) (b := Y.column (x + 1)) ?_ m'.left m'.right m.left m.right
    intro k k1 k2
    have r1 : Y.InModule x y k j' := ⟨k1, by omega, m'.top, m'.bottom⟩
    have r2 : Y.InModule x y (k + 1) j' := ⟨by omega, k2, m'.top, m'.bottom⟩
    refine same x y k j' (k + 1) j' hx hy r1 r2 ?_
    have k1 := hR.inside k j' (bound hx hy r1).1 (bound hx hy r1).2
    have k2 := hR.inside (k + 1 : Nat) j' (bound hx hy r2).1 (bound hx hy r2).2
    revert k1 k2
    unfold Adj Layout.pixel Layout.place pixel
    rcases hR.axis with h | h | h | h <;> rw [h] <;> dsimp only <;> simp only [mul_one, mul_zero, mul_neg, Nat.cast_add, Nat.cast_one, true_and] <;> intro k1 k2 <;> omega
  rw [s2, s1]

theorem Spec.Stretches.moderate (hR : Stretches img0 n M Y) {i j : Nat} (hi : i < Y.column n) (hj : j < Y.row n) : Moderate (Y.pixel i j) := by
  have := hR.inside i j hi hj
  exact ⟨by omega, by omega, by omega, by omega⟩

/-- Scanning along a row of alternating modules. -/
theorem scan_row_box (h0 : Fresh img0) (h : History img0 claims img) (hw : width img0.buffer ≤ 2 ^ 31) (hh : height img0.buffer ≤ 2 ^ 31)
    (hR : Stretches img0 n M Y) {x0 x1 y i j i' j' : Nat} (hx0 : x0 < n) (hx1 : x1 < n) (hy : y < n) (m0 : Y.InModule x0 y i j)
    (m1 : Y.InModule x1 y i' j') (hlt : i < i') (hd : |(j' : Int) - j| ≤ i' - i)
    (halt : ∀ x, x0 ≤ x → x < x1 → M y (x + 1) = !M y x) : timing_scan img (Y.pixel i j) (Y.pixel i' j') = .ok (x1 - x0) := by
  obtain ⟨color, hc, hdark, hsame⟩ := stretched_colors h0 h hw hh hR (by omega)
  have c1 := hR.columns.le (k := x1 + 1) (l := n) hx1 (Nat.le_refl _)
  have c2 := hR.rows.le (k := y + 1) (l := n) hy (Nat.le_refl _)
  have := m0.right
  have := m0.bottom
  have := m0.top
  have := m1.right
  have := m1.bottom
  have := m1.top
  have eq : Y.pixel i' j' = ⟨(Y.pixel i j).x + ((i' - i : Nat) : Int) * Y.right.x + ((j' : Int) - j) * (⟨-Y.right.y, Y.right.x⟩ : Point).x,
      (Y.pixel i j).y + ((i' - i : Nat) : Int) * Y.right.y + ((j' : Int) - j) * (⟨-Y.right.y, Y.right.x⟩ : Point).y⟩ := by
    unfold Layout.pixel Layout.place pixel
    rw [Nat.cast_sub hlt.le]
    refine point_ext ?_ ?_ <;> dsimp only <;> ring
  have hp := hR.moderate (i := i) (j := j) (by omega) (by omega)
  have hq := hR.moderate (i := i') (j := j') (by omega) (by omega)
  rw [eq] at hq ⊢
  obtain ⟨w, hwk, pts⟩ := line_drift hR.axis (.inl rfl) (show 0 < i' - i by omega) (by rw [Nat.cast_sub hlt.le]; exact hd) hp hq
  have pt : ∀ k ≤ i' - i, ∃ l : Nat, Y.row y ≤ l ∧ l < Y.row (y + 1) ∧
      (⟨(Y.pixel i j).x + (k : Int) * Y.right.x + w k * (⟨-Y.right.y, Y.right.x⟩ : Point).x,
        (Y.pixel i j).y + (k : Int) * Y.right.y + w k * (⟨-Y.right.y, Y.right.x⟩ : Point).y⟩ : Point) = Y.pixel (i + k : Nat) l := by
    intro k hk
    have := hwk k hk
    refine ⟨(j + w k).toNat, by omega, by omega, ?_⟩
    unfold Layout.pixel Layout.place pixel
    rw [Int.toNat_of_nonneg (by omega), Nat.cast_add]
    refine point_ext ?_ ?_ <;> dsimp only <;> ring
  refine scan_modules hc pts hR.columns hR.first.1 (dark := fun x => M y x) ?_ ?_ (A := i) m0.left m0.right (by have := m1.left; omega) (by omega) hx0 hx1 halt
  · intro x hx k hk k1 k2
    obtain ⟨l, l1, l2, e⟩ := pt k hk
    dsimp only at e ⊢
    rw [e]
    exact hdark x y (i + k) l hx hy ⟨k1, k2, l1, l2⟩
  · intro x hx k hk k1 k2
    obtain ⟨l, l1, l2, e⟩ := pt k hk.le
    obtain ⟨l', l1', l2', e'⟩ := pt (k + 1) hk
    dsimp only at e e' ⊢
    rw [e, e']
    exact hsame x y (i + k) l (i + (k + 1)) l' hx hy ⟨k1, by omega, l1, l2⟩ ⟨by omega, k2, l1', l2'⟩

/-- Scanning along a column of alternating modules. -/
theorem scan_column_box (h0 : Fresh img0) (h : History img0 claims img) (hw : width img0.buffer ≤ 2 ^ 31) (hh : height img0.buffer ≤ 2 ^ 31)
    (hR : Stretches img0 n M Y) {x y0 y1 i j i' j' : Nat} (hx : x < n) (hy0 : y0 < n) (hy1 : y1 < n) (m0 : Y.InModule x y0 i j)
    (m1 : Y.InModule x y1 i' j') (hlt : j < j') (hd : |(i' : Int) - i| ≤ j' - j)
    (halt : ∀ y, y0 ≤ y → y < y1 → M (y + 1) x = !M y x) : timing_scan img (Y.pixel i j) (Y.pixel i' j') = .ok (y1 - y0) := by
  obtain ⟨color, hc, hdark, hsame⟩ := stretched_colors h0 h hw hh hR (by omega)
  have c1 := hR.rows.le (k := y1 + 1) (l := n) hy1 (Nat.le_refl _)
  have c2 := hR.columns.le (k := x + 1) (l := n) hx (Nat.le_refl _)
  have := m0.right
  have := m0.bottom
  have := m0.left
  have := m1.right
  have := m1.bottom
  have := m1.left
  have hax : IsAxis (⟨-Y.right.y, Y.right.x⟩ : Point) := by
    rcases hR.axis with h | h | h | h <;> rw [h] <;> simp [IsAxis]
  have eq : Y.pixel i' j' = ⟨(Y.pixel i j).x + ((j' - j : Nat) : Int) * (⟨-Y.right.y, Y.right.x⟩ : Point).x + ((i' : Int) - i) * Y.right.x,
      (Y.pixel i j).y + ((j' - j : Nat) : Int) * (⟨-Y.right.y, Y.right.x⟩ : Point).y + ((i' : Int) - i) * Y.right.y⟩ := by
    unfold Layout.pixel Layout.place pixel
    rw [Nat.cast_sub hlt.le]
    refine point_ext ?_ ?_ <;> dsimp only <;> ring
  have hp := hR.moderate (i := i) (j := j) (by omega) (by omega)
  have hq := hR.moderate (i := i') (j := j') (by omega) (by omega)
  rw [eq] at hq ⊢
  obtain ⟨w, hwk, pts⟩ := line_drift hax (.inr (by rw [neg_neg])) (show 0 < j' - j by omega) (by rw [Nat.cast_sub hlt.le]; exact hd) hp hq
  have pt : ∀ k ≤ j' - j, ∃ l : Nat, Y.column x ≤ l ∧ l < Y.column (x + 1) ∧
      (⟨(Y.pixel i j).x + (k : Int) * (⟨-Y.right.y, Y.right.x⟩ : Point).x + w k * Y.right.x,
        (Y.pixel i j).y + (k : Int) * (⟨-Y.right.y, Y.right.x⟩ : Point).y + w k * Y.right.y⟩ : Point) = Y.pixel l (j + k : Nat) := by
    intro k hk
    have := hwk k hk
    refine ⟨(i + w k).toNat, by omega, by omega, ?_⟩
    unfold Layout.pixel Layout.place pixel
    rw [Int.toNat_of_nonneg (by omega), Nat.cast_add]
    refine point_ext ?_ ?_ <;> dsimp only <;> ring
  refine scan_modules hc pts hR.rows hR.first.2 (dark := fun y => M y x) ?_ ?_ (A := j) m0.top m0.bottom (by have := m1.top; omega) (by omega) hy0 hy1 halt
  · intro y hy k hk k1 k2
    obtain ⟨l, l1, l2, e⟩ := pt k hk
    dsimp only at e ⊢
    rw [e]
    exact hdark x y l (j + k) hx hy ⟨l1, l2, k1, k2⟩
  · intro y hy k hk k1 k2
    obtain ⟨l, l1, l2, e⟩ := pt k hk.le
    obtain ⟨l', l1', l2', e'⟩ := pt (k + 1) hk
    dsimp only at e e' ⊢
    rw [e, e']
    exact hsame x y l (j + k) l' (j + (k + 1)) hx hy ⟨l1, l2, k1, by omega⟩ ⟨l1', l2', by omega, k2⟩

end Rqrr
