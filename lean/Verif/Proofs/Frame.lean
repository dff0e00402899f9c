import Verif.Spec.Render
import Verif.Proofs.Drawn

/-!
# Coordinates of a drawing
-/

namespace Rqrr

open Spec ImageBuffer

namespace Spec.Placement

variable {P : Placement}

theorem pixel_inj (h : IsAxis P.right) {i j i' j' : Int} (e : P.pixel i j = P.pixel i' j') : i = i' ∧ j = j' := by
  unfold pixel at e
  rw [Point.mk.injEq] at e
  rcases h with h | h | h | h <;> rw [h] at e <;> dsimp only at e <;> omega

/-- Every point has coordinates. -/
theorem exists_coords (h : IsAxis P.right) (p : Point) : ∃ i j : Int, P.pixel i j = p := by
  obtain ⟨x, y⟩ := p
  refine ⟨(x - P.corner.x) * P.right.x + (y - P.corner.y) * P.right.y, (y - P.corner.y) * P.right.x - (x - P.corner.x) * P.right.y, ?_⟩
  unfold pixel
  rw [Point.mk.injEq]
  rcases h with h | h | h | h <;> rw [h] <;> dsimp only <;> constructor <;> ring

/-- The least coordinates of a square of the drawing. -/
def baseX (P : Placement) (i j k : Int) : Int := min (P.pixel i j).x (P.pixel (i + k - 1) (j + k - 1)).x

def baseY (P : Placement) (i j k : Int) : Int := min (P.pixel i j).y (P.pixel (i + k - 1) (j + k - 1)).y

/-- A square of the drawing is a square of the image. -/
theorem mem_square (h : IsAxis P.right) {i0 j0 k i j : Int} (hk : 1 ≤ k) :
    (i0 ≤ i ∧ i < i0 + k ∧ j0 ≤ j ∧ j < j0 + k) ↔
      P.baseX i0 j0 k ≤ (P.pixel i j).x ∧ (P.pixel i j).x < P.baseX i0 j0 k + k ∧
      P.baseY i0 j0 k ≤ (P.pixel i j).y ∧ (P.pixel i j).y < P.baseY i0 j0 k + k := by
  unfold baseX baseY pixel
  rcases h with h | h | h | h <;> rw [h] <;> dsimp only <;> simp only [mul_one, mul_zero, mul_neg] <;> omega

/-- The corners of a square of the drawing, clockwise. -/
def corners (P : Placement) (i j m : Int) : Vector Point 4 := #v[P.pixel i j, P.pixel (i + m) j, P.pixel (i + m) (j + m), P.pixel i (j + m)]

/-- The corners of the square in the image are the same ones, up to the starting point. -/
theorem square_corners (h : IsAxis P.right) (i j : Int) {m : Int} (hm : 0 ≤ m) :
    ∃ k < 4, squareCorners (P.baseX i j (m + 1)) (P.baseY i j (m + 1)) m = rotateLeft4 (P.corners i j m) k := by
  unfold squareCorners corners baseX baseY
  obtain ⟨e0, e1, e2, e3⟩ := rotate_get (P.pixel i j) (P.pixel (i + m) j) (P.pixel (i + m) (j + m)) (P.pixel i (j + m))
  have key : ∀ {a b c d a' b' c' d' : Point}, a = a' → b = b' → c = c' → d = d' → #v[a, b, c, d] = #v[a', b', c', d'] := by
    rintro _ _ _ _ _ _ _ _ rfl rfl rfl rfl; rfl
  have pt : ∀ {a b c d : Int}, a = c → b = d → (⟨a, b⟩ : Point) = ⟨c, d⟩ := by
    rintro _ _ _ _ rfl rfl; rfl
  rcases h with h | h | h | h
  · refine ⟨0, by omega, ?_⟩
    rw [e0]
    unfold pixel
    rw [h]
    refine key (pt ?_ ?_) (pt ?_ ?_) (pt ?_ ?_) (pt ?_ ?_) <;> dsimp only <;> simp only [mul_one, mul_zero, mul_neg] <;> omega
  · refine ⟨3, by omega, ?_⟩
    rw [e3]
    unfold pixel
    rw [h]
    refine key (pt ?_ ?_) (pt ?_ ?_) (pt ?_ ?_) (pt ?_ ?_) <;> dsimp only <;> simp only [mul_one, mul_zero, mul_neg] <;> omega
  · refine ⟨2, by omega, ?_⟩
    rw [e2]
    unfold pixel
    rw [h]
    refine key (pt ?_ ?_) (pt ?_ ?_) (pt ?_ ?_) (pt ?_ ?_) <;> dsimp only <;> simp only [mul_one, mul_zero, mul_neg] <;> omega
  · refine ⟨1, by omega, ?_⟩
    rw [e1]
    unfold pixel
    rw [h]
    refine key (pt ?_ ?_) (pt ?_ ?_) (pt ?_ ?_) (pt ?_ ?_) <;> dsimp only <;> simp only [mul_one, mul_zero, mul_neg] <;> omega

/-- Offsets in a square of the drawing and in the image. -/
theorem offsets (h : IsAxis P.right) {i0 j0 k i j : Int} (hk : 1 ≤ k) :
    ((P.pixel i j).x - P.baseX i0 j0 k = i - i0 ∧ (P.pixel i j).y - P.baseY i0 j0 k = j - j0) ∨
    ((P.pixel i j).x - P.baseX i0 j0 k = k - 1 - (j - j0) ∧ (P.pixel i j).y - P.baseY i0 j0 k = i - i0) ∨
    ((P.pixel i j).x - P.baseX i0 j0 k = k - 1 - (i - i0) ∧ (P.pixel i j).y - P.baseY i0 j0 k = k - 1 - (j - j0)) ∨
    ((P.pixel i j).x - P.baseX i0 j0 k = j - j0 ∧ (P.pixel i j).y - P.baseY i0 j0 k = k - 1 - (i - i0)) := by
  unfold baseX baseY pixel
  rcases h with h | h | h | h <;> rw [h] <;> dsimp only <;> simp only [mul_one, mul_zero, mul_neg] <;> omega

end Spec.Placement

theorem finderDark_symm {a b : Nat} (ha : a < 7) (hb : b < 7) : finderDark b a = finderDark a b ∧ finderDark (6 - a) b = finderDark a b ∧
    finderDark a (6 - b) = finderDark a b := by
  have : ∀ a < 7, ∀ b < 7, finderDark b a = finderDark a b ∧ finderDark (6 - a) b = finderDark a b ∧ finderDark a (6 - b) = finderDark a b := by
    decide
  exact this a ha b hb

theorem flip_div {k s d : Nat} (hd : d < k * s) : (k * s - 1 - d) / s = k - 1 - d / s := by
  have hs : 0 < s := by
    rcases Nat.eq_zero_or_pos s with rfl | h
    · simp at hd
    · exact h
  have h1 := Nat.div_add_mod d s
  have h2 := Nat.mod_lt d hs
  have h3 : d / s < k := by rw [Nat.div_lt_iff_lt_mul hs]; exact hd
  obtain ⟨e, he⟩ := Nat.exists_eq_add_of_lt h3
  have e1 : k - 1 - d / s = e := by omega
  rw [e1, Nat.div_eq_iff hs]
  have h4 : k * s = s * (d / s) + s * e + s := by rw [he]; ring
  have h5 : e * s = s * e := Nat.mul_comm _ _
  omega

section
variable {S : Type} [ImageBuffer S] [LawfulImage S] {img : PreparedImage S} {n : Nat} {M : Nat → Nat → Bool} {P : Placement}

theorem Spec.Pictures.black_iff (h : Pictures img n M P) {i j : Int} {p : Pos} (hp : P.pixel i j = ⟨p.1, p.2⟩) :
    IsBlack img p ↔ 0 ≤ i ∧ i < n * P.scale ∧ 0 ≤ j ∧ j < n * P.scale ∧ M (j.toNat / P.scale) (i.toNat / P.scale) = true := by
  rw [h.black]
  constructor
  · rintro ⟨a, b, h1, h2, h3, h4⟩
    obtain ⟨rfl, rfl⟩ := Placement.pixel_inj h.axis (hp.trans h3.symm)
    refine ⟨by omega, by exact_mod_cast h1, by omega, by exact_mod_cast h2, ?_⟩
    exact h4
  · rintro ⟨h1, h2, h3, h4, h5⟩
    refine ⟨i.toNat, j.toNat, by zify; rw [Int.toNat_of_nonneg h1]; exact h2, by zify; rw [Int.toNat_of_nonneg h3]; exact h4, ?_, h5⟩
    rw [Int.toNat_of_nonneg h1, Int.toNat_of_nonneg h3, hp]

/-- In a picture of the symbol alone the symbol is drawn. -/
theorem Spec.Pictures.renders (h : Pictures img n M P) : Renders img n M P := by
  refine ⟨h.axis, h.scale, h.inside, fun p i j hi hj _ hp => ?_, fun p q _ _ _ _ _ hq hb => ?_⟩
  · rw [h.black_iff hp, Int.toNat_natCast, Int.toNat_natCast]
    exact ⟨fun h => h.2.2.2.2, fun h => ⟨by omega, by exact_mod_cast hi, by omega, by exact_mod_cast hj, h⟩⟩
  · obtain ⟨i, j, hi, hj, e, -⟩ := (h.black q).1 hb
    exact hq ⟨i, j, hi, hj, e⟩

/-- The pixels at a finder pattern matter. -/
theorem matters_finder {n s a b i j : Nat} (hs : 0 < s) (hab : FinderPlace n a b) (ha : a + 7 ≤ n) (hb : b + 7 ≤ n) (a1 : a * s ≤ i + 1)
    (a2 : i ≤ a * s + 7 * s) (b1 : b * s ≤ j + 1) (b2 : j ≤ b * s + 7 * s) : Matters n s i j := by
  have lo : ∀ {c k : Nat}, c * s ≤ k + 1 → c ≤ k / s + 1 := by
    intro c k h
    rw [← Nat.add_div_right _ hs, Nat.le_div_iff_mul_le hs]
    omega
  have hi : ∀ {c k : Nat}, k ≤ c * s + 7 * s → k / s < c + 8 := by
    intro c k h
    rw [Nat.div_lt_iff_lt_mul hs, Nat.add_mul]
    omega
  have := lo a1
  have := lo b1
  have := hi a2
  have := hi b2
  left
  unfold Essential
  rcases hab with ⟨h1, h2⟩ | ⟨h1, h2⟩ | ⟨h1, h2⟩
  · left; omega
  · right; left; omega
  · right; right; left; omega

/-- A pixel of the drawing that matters or touching a finder pattern. -/
theorem Spec.Renders.black_iff (h : Renders img n M P) {i j : Int} {p : Pos} (hp : P.pixel i j = ⟨p.1, p.2⟩)
    (hn : (0 ≤ i ∧ i < n * P.scale ∧ 0 ≤ j ∧ j < n * P.scale ∧ Matters n P.scale i.toNat j.toNat) ∨ ∃ a b, FinderPlace n a b ∧ a + 7 ≤ n ∧ b + 7 ≤ n ∧
      (a : Int) * P.scale ≤ i + 1 ∧ i ≤ (a : Int) * P.scale + 7 * P.scale ∧ (b : Int) * P.scale ≤ j + 1 ∧ j ≤ (b : Int) * P.scale + 7 * P.scale) :
    IsBlack img p ↔ 0 ≤ i ∧ i < n * P.scale ∧ 0 ≤ j ∧ j < n * P.scale ∧ M (j.toNat / P.scale) (i.toNat / P.scale) = true := by
  have cn : ((n : Int) * P.scale) = ((n * P.scale : Nat) : Int) := by push_cast; rfl
  rw [cn] at hn ⊢
  by_cases hin : 0 ≤ i ∧ i < (n * P.scale : Nat) ∧ 0 ≤ j ∧ j < (n * P.scale : Nat)
  · obtain ⟨h1, h2, h3, h4⟩ := hin
    lift i to Nat using h1
    lift j to Nat using h3
    rw [h.black p i j (by omega) (by omega) ?_ hp, Int.toNat_natCast, Int.toNat_natCast]
    · tauto
    · rcases hn with ⟨-, -, -, -, hn⟩ | ⟨a, b, hab, ha, hb', a1, a2, b1, b2⟩
      · rwa [Int.toNat_natCast, Int.toNat_natCast] at hn
      · exact matters_finder (by have := h.scale; omega) hab ha hb' (by zify; exact a1) (by zify; exact a2) (by zify; exact b1) (by zify; exact b2)
  · refine ⟨fun hb => ?_, fun ⟨h1, h2, h3, h4, _⟩ => absurd ⟨h1, h2, h3, h4⟩ hin⟩
    rcases hn with hn | ⟨a, b, hab, ha, hb', a1, a2, b1, b2⟩
    · exact absurd ⟨hn.1, hn.2.1, hn.2.2.1, hn.2.2.2.1⟩ hin
    · exfalso
      have hs := h.scale
      have ha' : a * P.scale + 7 * P.scale ≤ n * P.scale := by rw [← Nat.add_mul]; exact Nat.mul_le_mul_right _ ha
      have hb'' : b * P.scale + 7 * P.scale ≤ n * P.scale := by rw [← Nat.add_mul]; exact Nat.mul_le_mul_right _ hb'
      have ca : (a : Int) * P.scale = ((a * P.scale : Nat) : Int) := by push_cast; rfl
      have cb : (b : Int) * P.scale = ((b * P.scale : Nat) : Int) := by push_cast; rfl
      rw [ca] at a1 a2
      rw [cb] at b1 b2
      obtain ⟨A, hA⟩ : ∃ A, A = a * P.scale := ⟨_, rfl⟩
      obtain ⟨B, hB⟩ : ∃ B, B = b * P.scale := ⟨_, rfl⟩
      obtain ⟨i', i1, i2, i3, i4⟩ : ∃ i' : Nat, A ≤ i' ∧ i' < A + 7 * P.scale ∧ (i' : Int) ≤ i + 1 ∧ i ≤ i' + 1 :=
        ⟨min (max A i.toNat) (A + 7 * P.scale - 1), by omega, by omega, by omega, by omega⟩
      obtain ⟨j', j1, j2, j3, j4⟩ : ∃ j' : Nat, B ≤ j' ∧ j' < B + 7 * P.scale ∧ (j' : Int) ≤ j + 1 ∧ j ≤ j' + 1 :=
        ⟨min (max B j.toNat) (B + 7 * P.scale - 1), by omega, by omega, by omega, by omega⟩
      have ins := h.inside i' j' (by omega) (by omega)
      have e : P.pixel i' j' = ⟨((P.pixel i' j').x.toNat : Nat), ((P.pixel i' j').y.toNat : Nat)⟩ := by
        rw [Int.toNat_of_nonneg ins.1, Int.toNat_of_nonneg ins.2.2.2.1]
      have near : (P.pixel i' j').x ≤ p.1 + 1 ∧ (p.1 : Int) ≤ (P.pixel i' j').x + 1 ∧ (P.pixel i' j').y ≤ p.2 + 1 ∧
          (p.2 : Int) ≤ (P.pixel i' j').y + 1 := by
        unfold Placement.pixel at hp ⊢
        rw [Point.mk.injEq] at hp
        rcases h.axis with h | h | h | h <;> rw [h] at hp ⊢ <;> dsimp only at hp ⊢ <;> simp only [mul_one, mul_zero, mul_neg] at hp ⊢ <;> omega
      refine h.border ((P.pixel i' j').x.toNat, (P.pixel i' j').y.toNat) p
        ⟨a, b, hab, i', j', by omega, by rw [Nat.add_mul]; omega, by omega, by rw [Nat.add_mul]; omega, e⟩
        (by dsimp only; omega) (by dsimp only; omega) (by dsimp only; omega) (by dsimp only; omega) ?_ hb
      rintro ⟨k, l, hk, hl, e'⟩
      obtain ⟨rfl, rfl⟩ := Placement.pixel_inj h.axis (hp.trans e'.symm)
      exact hin ⟨by omega, by omega, by omega, by omega⟩

theorem mem_square' {n : Nat} {dark : Nat → Nat → Bool} {y x i j : Nat} (hi : i < n) (hj : j < n) :
    (y + i, x + j, dark i j) ∈ square n dark y x := by
  unfold square
  rw [List.mem_flatMap]
  exact ⟨i, List.mem_range.2 hi, List.mem_map.2 ⟨j, List.mem_range.2 hj, rfl⟩⟩

theorem finder_modules {v : Nat} (h1 : 1 ≤ v) (h : Patterned v M) {a b : Nat} (hab : FinderPlace (side v) a b) {y x : Nat} (hy : y < side v)
    (hx : x < side v) (hy1 : b ≤ y + 1) (hy2 : y ≤ b + 7) (hx1 : a ≤ x + 1) (hx2 : x ≤ a + 7) :
    M y x = true ↔ b ≤ y ∧ y < b + 7 ∧ a ≤ x ∧ x < a + 7 ∧ finderDark (y - b) (x - a) = true := by
  have hs : side v = 17 + 4 * v := rfl
  by_cases hin : b ≤ y ∧ y < b + 7 ∧ a ≤ x ∧ x < a + 7
  · have : M y x = finderDark (y - b) (x - a) := by
      have hm : (y, x, finderDark (y - b) (x - a)) ∈ patternModules v := by
        have := mem_square' (n := 7) (dark := finderDark) (y := b) (x := a) (i := y - b) (j := x - a) (by omega) (by omega)
        rw [show b + (y - b) = y by omega, show a + (x - a) = x by omega] at this
        unfold patternModules finderModules
        rw [List.mem_append, List.mem_append, List.mem_append, List.mem_append]
        left; right
        rcases hab with ⟨rfl, rfl⟩ | ⟨rfl, rfl⟩ | ⟨rfl, rfl⟩
        · exact .inl (.inl this)
        · exact .inl (.inr this)
        · exact .inr this
      exact h.pattern _ hm
    rw [this]
    tauto
  · have : M y x = false := by
      have sep := h.separators
      rcases hab with ⟨rfl, rfl⟩ | ⟨rfl, rfl⟩ | ⟨rfl, rfl⟩
      · have : y = 7 ∨ x = 7 := by omega
        rcases this with rfl | rfl
        · exact (sep x (by omega)).1
        · exact (sep y (by omega)).2.1
      · have : y = 7 ∨ x = side v - 8 := by omega
        rcases this with rfl | rfl
        · have := (sep (side v - 1 - x) (by omega)).2.2.1
          rwa [show side v - 1 - (side v - 1 - x) = x by omega] at this
        · exact (sep y (by omega)).2.2.2.1
      · have : x = 7 ∨ y = side v - 8 := by omega
        rcases this with rfl | rfl
        · have := (sep (side v - 1 - y) (by omega)).2.2.2.2.2
          rwa [show side v - 1 - (side v - 1 - y) = y by omega] at this
        · exact (sep x (by omega)).2.2.2.2.1
    rw [this]
    constructor
    · intro h; cases h
    · rintro ⟨a, b, c, d, -⟩
      exact absurd ⟨a, b, c, d⟩ hin

/-- The finder patterns are drawn. -/
theorem finder_drawn {v : Nat} (h1 : 1 ≤ v) (h : Renders img (side v) M P) (hM : Patterned v M) {a b : Nat}
    (hab : FinderPlace (side v) a b) :
    ∃ x0 y0 : Nat, P.baseX (a * P.scale) (b * P.scale) (7 * P.scale) = x0 ∧ P.baseY (a * P.scale) (b * P.scale) (7 * P.scale) = y0 ∧
      DrawnFinder (IsBlack img) x0 y0 P.scale := by
  have hn : side v = 17 + 4 * v := rfl
  have hs2 := h.scale
  obtain ⟨s, hs⟩ : ∃ s, P.scale = s := ⟨_, rfl⟩
  rw [hs] at hs2 ⊢
  have ha : a + 7 ≤ side v := by unfold FinderPlace at hab; omega
  have hb : b + 7 ≤ side v := by unfold FinderPlace at hab; omega
  have ha' : a * s + 7 * s ≤ side v * s := by rw [← Nat.add_mul]; exact Nat.mul_le_mul_right s ha
  have hb' : b * s + 7 * s ≤ side v * s := by rw [← Nat.add_mul]; exact Nat.mul_le_mul_right s hb
  have i1 := h.inside (a * s) (b * s) (by rw [hs]; omega) (by rw [hs]; omega)
  have i2 := h.inside (a * s + 7 * s - 1) (b * s + 7 * s - 1) (by rw [hs]; omega) (by rw [hs]; omega)
  have e1 : ((a * s + 7 * s - 1 : Nat) : Int) = (a : Int) * s + 7 * s - 1 := by
    rw [Nat.cast_sub (by omega)]; push_cast; ring
  have e2 : ((b * s + 7 * s - 1 : Nat) : Int) = (b : Int) * s + 7 * s - 1 := by
    rw [Nat.cast_sub (by omega)]; push_cast; ring
  rw [e1, e2] at i2
  push_cast at i1
  obtain ⟨x0, hx0⟩ : ∃ x0 : Nat, P.baseX (a * s) (b * s) (7 * s) = x0 := by
    refine ⟨(P.baseX (a * s) (b * s) (7 * s)).toNat, (Int.toNat_of_nonneg ?_).symm⟩
    unfold Placement.baseX; omega
  obtain ⟨y0, hy0⟩ : ∃ y0 : Nat, P.baseY (a * s) (b * s) (7 * s) = y0 := by
    refine ⟨(P.baseY (a * s) (b * s) (7 * s)).toNat, (Int.toNat_of_nonneg ?_).symm⟩
    unfold Placement.baseY; omega
  refine ⟨x0, y0, hx0, hy0, ?_⟩
  rintro ⟨px, py⟩ p1 p2 p3 p4
  dsimp only at p1 p2 p3 p4 ⊢
  obtain ⟨i, j, hij⟩ := Placement.exists_coords h.axis (⟨px, py⟩ : Point)
  have off := Placement.offsets h.axis (i0 := a * s) (j0 := b * s) (k := 7 * s) (i := i) (j := j) (by omega)
  rw [hx0, hy0, hij] at off
  dsimp only at off
  rw [h.black_iff (p := (px, py)) hij (.inr ⟨a, b, hab, ha, hb, by rw [hs]; omega, by rw [hs]; omega, by rw [hs]; omega, by rw [hs]; omega⟩), hs]
  have hc : ((side v : Nat) : Int) * (s : Int) = ((side v * s : Nat) : Int) := by push_cast; rfl
  rw [hc]
  have hca : (a : Int) * s = ((a * s : Nat) : Int) := by push_cast; rfl
  have hcb : (b : Int) * s = ((b * s : Nat) : Int) := by push_cast; rfl
  rw [hca, hcb] at off
  by_cases hr : 0 ≤ i ∧ i < (side v * s : Nat) ∧ 0 ≤ j ∧ j < (side v * s : Nat)
  · obtain ⟨r1, r2, r3, r4⟩ := hr
    lift i to Nat using r1
    lift j to Nat using r3
    have r2' : i < side v * s := by exact_mod_cast r2
    have r4' : j < side v * s := by exact_mod_cast r4
    have l1 : a * s ≤ i + 1 := by omega
    have l2 : i ≤ a * s + 7 * s := by omega
    have l3 : b * s ≤ j + 1 := by omega
    have l4 : j ≤ b * s + 7 * s := by omega
    have di := Nat.div_add_mod i s
    have dj := Nat.div_add_mod j s
    have mi := Nat.mod_lt i (show 0 < s by omega)
    have mj := Nat.mod_lt j (show 0 < s by omega)
    have q1 : a ≤ i / s + 1 := by
      have : a * s < (i / s + 1 + 1) * s := by rw [Nat.add_mul, Nat.add_mul, Nat.mul_comm (i / s)]; omega
      exact Nat.lt_succ_iff.1 (Nat.lt_of_mul_lt_mul_right this)
    have q2 : i / s ≤ a + 7 := by
      have : (i / s) * s ≤ (a + 7) * s := by rw [Nat.add_mul, Nat.mul_comm (i / s)]; omega
      exact Nat.le_of_mul_le_mul_right this (by omega)
    have q3 : b ≤ j / s + 1 := by
      have : b * s < (j / s + 1 + 1) * s := by rw [Nat.add_mul, Nat.add_mul, Nat.mul_comm (j / s)]; omega
      exact Nat.lt_succ_iff.1 (Nat.lt_of_mul_lt_mul_right this)
    have q4 : j / s ≤ b + 7 := by
      have : (j / s) * s ≤ (b + 7) * s := by rw [Nat.add_mul, Nat.mul_comm (j / s)]; omega
      exact Nat.le_of_mul_le_mul_right this (by omega)
    have fm := finder_modules h1 hM hab (y := j / s) (x := i / s) ((Nat.div_lt_iff_lt_mul (by omega)).2 r4') ((Nat.div_lt_iff_lt_mul (by omega)).2 r2')
      q3 q4 q1 q2
    rw [Int.toNat_natCast, Int.toNat_natCast]
    have hmod : ∀ c d t : Nat, (c ≤ d / s ∧ d / s < c + t) ↔ (c * s ≤ d ∧ d < c * s + t * s) := by
      intro c d t
      rw [Nat.le_div_iff_mul_le (by omega), Nat.div_lt_iff_lt_mul (by omega), Nat.add_mul]
    have hin : (b ≤ j / s ∧ j / s < b + 7 ∧ a ≤ i / s ∧ i / s < a + 7) ↔ (x0 ≤ px ∧ px < x0 + 7 * s ∧ y0 ≤ py ∧ py < y0 + 7 * s) := by
      rw [← and_assoc, hmod, hmod]
      omega
    by_cases hsq : x0 ≤ px ∧ px < x0 + 7 * s ∧ y0 ≤ py ∧ py < y0 + 7 * s
    · have hsq' := hin.2 hsq
      have ei : i / s - a = (i - a * s) / s := by rw [Nat.mul_comm a, Nat.sub_mul_div]
      have ej : j / s - b = (j - b * s) / s := by rw [Nat.mul_comm b, Nat.sub_mul_div]
      have la := (hmod a i 7).1 ⟨hsq'.2.2.1, hsq'.2.2.2⟩
      have lb := (hmod b j 7).1 ⟨hsq'.1, hsq'.2.1⟩
      have fi : (i - a * s) / s < 7 := by omega
      have fj : (j - b * s) / s < 7 := by omega
      have hd : finderDark ((py - y0) / s) ((px - x0) / s) = finderDark ((j - b * s) / s) ((i - a * s) / s) := by
        rcases off with ⟨o1, o2⟩ | ⟨o1, o2⟩ | ⟨o1, o2⟩ | ⟨o1, o2⟩
        · rw [show py - y0 = j - b * s by omega, show px - x0 = i - a * s by omega]
        · rw [show py - y0 = i - a * s by omega, show px - x0 = 7 * s - 1 - (j - b * s) by omega, flip_div (by omega),
            (finderDark_symm fi fj).2.2, (finderDark_symm fi fj).1]
        · rw [show py - y0 = 7 * s - 1 - (j - b * s) by omega, show px - x0 = 7 * s - 1 - (i - a * s) by omega, flip_div (by omega),
            flip_div (by omega), (finderDark_symm (a := 7 - 1 - (j - b * s) / s) (by omega) fi).2.2, (finderDark_symm fj fi).2.1]
        · rw [show py - y0 = 7 * s - 1 - (i - a * s) by omega, show px - x0 = j - b * s by omega, flip_div (by omega),
            (finderDark_symm fi fj).2.1, (finderDark_symm fi fj).1]
      rw [fm, hd, ← ei, ← ej]
      exact ⟨fun ⟨_, _, _, _, _, _, _, _, h⟩ => ⟨hsq.1, hsq.2.1, hsq.2.2.1, hsq.2.2.2, h⟩, fun ⟨_, _, _, _, h⟩ =>
        ⟨Int.natCast_nonneg _, r2, Int.natCast_nonneg _, r4, hsq'.1, hsq'.2.1, hsq'.2.2.1, hsq'.2.2.2, h⟩⟩
    · have : ¬ M (j / s) (i / s) = true := by
        rw [fm]
        rintro ⟨k1, k2, k3, k4, -⟩
        exact hsq (hin.1 ⟨k1, k2, k3, k4⟩)
      exact ⟨fun ⟨_, _, _, _, h⟩ => absurd h this, fun ⟨k1, k2, k3, k4, _⟩ => absurd ⟨k1, k2, k3, k4⟩ hsq⟩
  · have hrhs : ¬ (x0 ≤ px ∧ px < x0 + 7 * s ∧ y0 ≤ py ∧ py < y0 + 7 * s) := by omega
    exact ⟨fun ⟨k1, k2, k3, k4, _⟩ => absurd ⟨k1, k2, k3, k4⟩ hr, fun ⟨k1, k2, k3, k4, _⟩ => absurd ⟨k1, k2, k3, k4⟩ hrhs⟩

end

end Rqrr
