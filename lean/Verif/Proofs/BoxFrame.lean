import Verif.Proofs.Boxes
import Verif.Proofs.Frame

/-!
# Coordinates of a drawing with modules of unequal sizes
-/

namespace Rqrr

open Spec ImageBuffer

theorem Spec.Even.lt {n : Nat} {f : Nat → Nat} (h : Even n f) {k l : Nat} (hk : k < l) (hl : l ≤ n) : f k + 6 ≤ f l := by
  obtain ⟨α, β, hα, h⟩ := h
  obtain ⟨d, rfl⟩ := Nat.exists_eq_add_of_lt hk
  have := (Spec.Even.sub_le h (i := k) (d := d + 1) hl).1
  have hd : (0 : ℚ) ≤ d := by positivity
  have h2 : (f k : ℚ) + 6 ≤ f (k + (d + 1)) := by push_cast at this; nlinarith
  exact_mod_cast h2

theorem Spec.Even.le {n : Nat} {f : Nat → Nat} (h : Even n f) {k l : Nat} (hk : k ≤ l) (hl : l ≤ n) : f k ≤ f l := by
  rcases Nat.lt_or_eq_of_le hk with hk | rfl
  · have := h.lt hk hl; omega
  · exact Nat.le_refl _

/-- Which modules a cut separates. -/
theorem Spec.Even.cut_le {n : Nat} {f : Nat → Nat} (h : Even n f) {k x i : Nat} (hx : x < n) (h1 : f x ≤ i) (h2 : i < f (x + 1)) (hk : k ≤ n) :
    f k ≤ i ↔ k ≤ x := by
  constructor
  · intro hi
    by_contra hc
    have := h.le (k := x + 1) (l := k) (by omega) hk
    omega
  · intro hi
    have := h.le hi (by omega)
    omega

/-- Every position is in a module. -/
theorem Spec.Even.module {n : Nat} {f : Nat → Nat} (h0 : f 0 = 0) {i : Nat} (hi : i < f n) : ∃ x < n, f x ≤ i ∧ i < f (x + 1) := by
  induction n with
  | zero => omega
  | succ n ih =>
    by_cases hc : i < f n
    · obtain ⟨x, h1, h2⟩ := ih hc
      exact ⟨x, by omega, h2⟩
    · exact ⟨n, by omega, by omega, hi⟩

namespace Spec.Placement

variable {P : Placement}

/-- The corners of a rectangle of the drawing, clockwise. -/
def rect (P : Placement) (i j m l : Int) : Vector Point 4 := #v[P.pixel i j, P.pixel (i + m) j, P.pixel (i + m) (j + l), P.pixel i (j + l)]

end Spec.Placement

section
variable {S : Type} [ImageBuffer S] [LawfulImage S] {img : PreparedImage S} {n : Nat} {M : Nat → Nat → Bool} {L : Layout}

/-- A pixel outside the drawing that touches a finder pattern. -/
theorem Spec.Stretches.light (h : Stretches img n M L) {a b : Nat} (hab : FinderPlace n a b) (ha : a + 7 ≤ n) (hb : b + 7 ≤ n)
    {i j : Int} {p : Pos} (hp : L.pixel i j = ⟨p.1, p.2⟩) (a1 : L.column a ≤ i + 1) (a2 : i ≤ L.column (a + 7)) (b1 : L.row b ≤ j + 1)
    (b2 : j ≤ L.row (b + 7)) (hout : ¬ (0 ≤ i ∧ i < L.column n ∧ 0 ≤ j ∧ j < L.row n)) : ¬ IsBlack img p := by
  have l1 := h.columns.lt (k := a) (l := a + 7) (by omega) ha
  have l2 := h.rows.lt (k := b) (l := b + 7) (by omega) hb
  have m1 := h.columns.le ha (Nat.le_refl n)
  have m2 := h.rows.le hb (Nat.le_refl n)
  obtain ⟨i', i1, i2, i3, i4⟩ : ∃ i' : Nat, L.column a ≤ i' ∧ i' < L.column (a + 7) ∧ (i' : Int) ≤ i + 1 ∧ i ≤ i' + 1 :=
    ⟨min (max (L.column a) i.toNat) (L.column (a + 7) - 1), by omega, by omega, by omega, by omega⟩
  obtain ⟨j', j1, j2, j3, j4⟩ : ∃ j' : Nat, L.row b ≤ j' ∧ j' < L.row (b + 7) ∧ (j' : Int) ≤ j + 1 ∧ j ≤ j' + 1 :=
    ⟨min (max (L.row b) j.toNat) (L.row (b + 7) - 1), by omega, by omega, by omega, by omega⟩
  have ins := h.inside i' j' (by omega) (by omega)
  have e : L.pixel i' j' = ⟨((L.pixel i' j').x.toNat : Nat), ((L.pixel i' j').y.toNat : Nat)⟩ := by
    rw [Int.toNat_of_nonneg ins.1, Int.toNat_of_nonneg ins.2.2.2.1]
  have near : (L.pixel i' j').x ≤ p.1 + 1 ∧ (p.1 : Int) ≤ (L.pixel i' j').x + 1 ∧ (L.pixel i' j').y ≤ p.2 + 1 ∧
      (p.2 : Int) ≤ (L.pixel i' j').y + 1 := by
    unfold Layout.pixel Layout.place Placement.pixel at hp ⊢
    rw [Point.mk.injEq] at hp
    rcases h.axis with h | h | h | h <;> rw [h] at hp ⊢ <;> dsimp only at hp ⊢ <;> simp only [mul_one, mul_zero, mul_neg] at hp ⊢ <;> omega
  refine h.border ((L.pixel i' j').x.toNat, (L.pixel i' j').y.toNat) p ⟨a, b, hab, i', j', i1, i2, j1, j2, e⟩
    (by dsimp only; omega) (by dsimp only; omega) (by dsimp only; omega) (by dsimp only; omega) ?_
  rintro ⟨k, l, hk, hl, e'⟩
  obtain ⟨rfl, rfl⟩ := Placement.pixel_inj (P := L.place) h.axis (hp.trans e'.symm)
  exact hout ⟨by omega, by omega, by omega, by omega⟩

/-- The pixels at a finder pattern. -/
theorem finder_pixels {v : Nat} (h1 : 1 ≤ v) (h : Stretches img (side v) M L) (hM : Patterned v M) {a b : Nat}
    (hab : FinderPlace (side v) a b) {i j : Int} {p : Pos} (hp : L.pixel i j = ⟨p.1, p.2⟩) (a1 : L.column a ≤ i + 1) (a2 : i ≤ L.column (a + 7))
    (b1 : L.row b ≤ j + 1) (b2 : j ≤ L.row (b + 7)) :
    IsBlack img p ↔
      (L.column a ≤ i ∧ i < L.column (a + 7) ∧ L.row b ≤ j ∧ j < L.row (b + 7) ∧
        (i < L.column (a + 1) ∨ L.column (a + 6) ≤ i ∨ j < L.row (b + 1) ∨ L.row (b + 6) ≤ j)) ∨
      (L.column (a + 2) ≤ i ∧ i < L.column (a + 5) ∧ L.row (b + 2) ≤ j ∧ j < L.row (b + 5)) := by
  have hn : side v = 17 + 4 * v := rfl
  have ha : a + 7 ≤ side v := by unfold FinderPlace at hab; omega
  have hb : b + 7 ≤ side v := by unfold FinderPlace at hab; omega
  have m1 := h.columns.le ha (Nat.le_refl _)
  have m2 := h.rows.le hb (Nat.le_refl _)
  have m3 := h.columns.le (k := a) (l := a + 2) (by omega) (by omega)
  have m4 := h.columns.le (k := a + 5) (l := a + 7) (by omega) (by omega)
  have m5 := h.rows.le (k := b) (l := b + 2) (by omega) (by omega)
  have m6 := h.rows.le (k := b + 5) (l := b + 7) (by omega) (by omega)
  by_cases hin : 0 ≤ i ∧ i < L.column (side v) ∧ 0 ≤ j ∧ j < L.row (side v)
  · obtain ⟨r1, r2, r3, r4⟩ := hin
    lift i to Nat using r1
    lift j to Nat using r3
    obtain ⟨x, hx, x1, x2⟩ := Even.module (f := L.column) (n := side v) (i := i) h.first.1 (by omega)
    obtain ⟨y, hy, y1, y2⟩ := Even.module (f := L.row) (n := side v) (i := j) h.first.2 (by omega)
    have cx : ∀ k ≤ side v, (L.column k ≤ i ↔ k ≤ x) := fun k hk => h.columns.cut_le hx x1 x2 hk
    have cy : ∀ k ≤ side v, (L.row k ≤ j ↔ k ≤ y) := fun k hk => h.rows.cut_le hy y1 y2 hk
    have qa : a ≤ x + 1 := by
      by_contra hc
      have := h.columns.lt (k := x + 1) (l := a) (by omega) (by omega)
      omega
    have qb : b ≤ y + 1 := by
      by_contra hc
      have := h.rows.lt (k := y + 1) (l := b) (by omega) (by omega)
      omega
    have qa' : x ≤ a + 7 := by
      by_contra hc
      have := h.columns.lt (k := a + 7) (l := x) (by omega) (by omega)
      omega
    have qb' : y ≤ b + 7 := by
      by_contra hc
      have := h.rows.lt (k := b + 7) (l := y) (by omega) (by omega)
      omega
    rw [h.black p x y i j hx hy ⟨x1, x2, y1, y2⟩ hp, finder_modules h1 hM hab hy hx qb qb' qa qa']
    have cx0 := cx a (by omega)
    have cx1 := cx (a + 1) (by omega)
    have cx2 := cx (a + 2) (by omega)
    have cx5 := cx (a + 5) (by omega)
    have cx6 := cx (a + 6) (by omega)
    have cx7 := cx (a + 7) (by omega)
    have cy0 := cy b (by omega)
    have cy1 := cy (b + 1) (by omega)
    have cy2 := cy (b + 2) (by omega)
    have cy5 := cy (b + 5) (by omega)
    have cy6 := cy (b + 6) (by omega)
    have cy7 := cy (b + 7) (by omega)
    by_cases hbox : b ≤ y ∧ y < b + 7 ∧ a ≤ x ∧ x < a + 7
    · obtain ⟨o1, o2, o3, o4⟩ := hbox
      rw [finderDark_iff (by omega) (by omega)]
      omega
    · constructor
      · rintro ⟨o1, o2, o3, o4, -⟩
        exact absurd ⟨o1, o2, o3, o4⟩ hbox
      · intro hh
        exfalso
        omega
  · constructor
    · intro hb'
      exact absurd hb' (h.light hab ha hb hp a1 a2 b1 b2 hin)
    · intro hh
      exfalso
      omega

theorem point_key {a b c d a' b' c' d' : Point} (h1 : a = a') (h2 : b = b') (h3 : c = c') (h4 : d = d') :
    #v[a, b, c, d] = #v[a', b', c', d'] := by
  subst h1 h2 h3 h4; rfl

theorem point_ext {a b c d : Int} (h1 : a = c) (h2 : b = d) : (⟨a, b⟩ : Point) = ⟨c, d⟩ := by
  subst h1 h2; rfl

/-- The finder patterns of the drawing are finder patterns of the image. -/
theorem finder_box {v : Nat} (h1 : 1 ≤ v) (h : Stretches img (side v) M L) (hM : Patterned v M) {a b : Nat}
    (hab : FinderPlace (side v) a b) :
    ∃ f g : Nat → Nat, BoxFinder (IsBlack img) f g ∧ f 7 ≤ 10001 ∧ g 7 ≤ 10001 ∧
      (∃ k < 4, rectCorners (f 0) (g 0) ((f 7 : Int) - 1 - f 0) ((g 7 : Int) - 1 - g 0) =
        rotateLeft4 (L.place.rect (L.column a) (L.row b) ((L.column (a + 7) : Int) - 1 - L.column a) ((L.row (b + 7) : Int) - 1 - L.row b)) k) ∧
      ∀ (p : Pos) (i j : Nat), L.column a ≤ i → i < L.column (a + 7) → L.row b ≤ j → j < L.row (b + 7) → L.pixel i j = ⟨p.1, p.2⟩ →
        InRect (f 0) (f 7) (g 0) (g 7) p := by
  have hn : side v = 17 + 4 * v := rfl
  have ha : a + 7 ≤ side v := by unfold FinderPlace at hab; omega
  have hb : b + 7 ≤ side v := by unfold FinderPlace at hab; omega
  have m1 := h.columns.le ha (Nat.le_refl _)
  have m2 := h.rows.le hb (Nat.le_refl _)
  have t1 := h.columns.lt (k := a) (l := a + 7) (by omega) ha
  have t2 := h.rows.lt (k := b) (l := b + 7) (by omega) hb
  have cle : ∀ k ≤ 7, L.column a ≤ L.column (a + k) ∧ L.column (a + k) ≤ L.column (a + 7) :=
    fun k hk => ⟨h.columns.le (by omega) (by omega), h.columns.le (by omega) (by omega)⟩
  have rle : ∀ k ≤ 7, L.row b ≤ L.row (b + k) ∧ L.row (b + k) ≤ L.row (b + 7) :=
    fun k hk => ⟨h.rows.le (by omega) (by omega), h.rows.le (by omega) (by omega)⟩
  have in1 := h.inside (L.column a) (L.row b) (by omega) (by omega)
  have in2 := h.inside (L.column (a + 7) - 1) (L.row (b + 7) - 1) (by omega) (by omega)
  rw [Nat.cast_sub (by omega), Nat.cast_sub (by omega)] at in2
  have key : ∀ (f g : Nat → Nat), Even 7 f → Even 7 g → (∀ (p : Pos) (i j : Int), L.pixel i j = ⟨p.1, p.2⟩ →
      (f 0 ≤ p.1 + 1 → p.1 ≤ f 7 → g 0 ≤ p.2 + 1 → p.2 ≤ g 7 → L.column a ≤ i + 1 ∧ i ≤ L.column (a + 7) ∧ L.row b ≤ j + 1 ∧ j ≤ L.row (b + 7)) ∧
      ((InRing f g p ∨ InRect (f 2) (f 5) (g 2) (g 5) p) ↔ 
        (L.column a ≤ i ∧ i < L.column (a + 7) ∧ L.row b ≤ j ∧ j < L.row (b + 7) ∧
        (i < L.column (a + 1) ∨ L.column (a + 6) ≤ i ∨ j < L.row (b + 1) ∨ L.row (b + 6) ≤ j)) ∨
      (L.column (a + 2) ≤ i ∧ i < L.column (a + 5) ∧ L.row (b + 2) ≤ j ∧ j < L.row (b + 5)))) → BoxFinder (IsBlack img) f g := by
    intro f g hf hg hh
    refine ⟨hf, hg, fun p p1 p2 p3 p4 => ?_⟩
    obtain ⟨i, j, hij⟩ := Placement.exists_coords (P := L.place) h.axis ⟨p.1, p.2⟩
    obtain ⟨k1, k2⟩ := hh p i j hij
    obtain ⟨q1, q2, q3, q4⟩ := k1 p1 p2 p3 p4
    rw [k2]
    exact finder_pixels h1 h hM hab hij q1 q2 q3 q4
  obtain ⟨e0, e1, e2, e3⟩ := rotate_get (L.place.pixel (L.column a) (L.row b))
    (L.place.pixel (L.column a + ((L.column (a + 7) : Int) - 1 - L.column a)) (L.row b))
    (L.place.pixel (L.column a + ((L.column (a + 7) : Int) - 1 - L.column a)) (L.row b + ((L.row (b + 7) : Int) - 1 - L.row b)))
    (L.place.pixel (L.column a) (L.row b + ((L.row (b + 7) : Int) - 1 - L.row b)))
  have EX : Even 7 (fun k => L.column (a + k)) := h.columns.shift ha (c := 0) fun k _ => (zero_add _).symm
  have EY : Even 7 (fun k => L.row (b + k)) := h.rows.shift hb (c := 0) fun k _ => (zero_add _).symm
  have px : ∀ i j : Int, (L.pixel i j).x = L.corner.x + i * L.right.x - j * L.right.y := fun _ _ => rfl
  have py : ∀ i j : Int, (L.pixel i j).y = L.corner.y + i * L.right.y + j * L.right.x := fun _ _ => rfl
  have px' : ∀ i j : Int, (L.place.pixel i j) = ⟨L.corner.x + i * L.right.x - j * L.right.y, L.corner.y + i * L.right.y + j * L.right.x⟩ := fun _ _ => rfl
  rw [px, py] at in1 in2
  have c0 := cle 0 (by omega)
  have c1 := cle 1 (by omega)
  have c2 := cle 2 (by omega)
  have c5 := cle 5 (by omega)
  have c6 := cle 6 (by omega)
  have r0 := rle 0 (by omega)
  have r1 := rle 1 (by omega)
  have r2 := rle 2 (by omega)
  have r5 := rle 5 (by omega)
  have r6 := rle 6 (by omega)
  rcases h.axis with hr | hr | hr | hr
  · rw [hr] at in1 in2 px py px'
    simp only [mul_one, mul_zero, mul_neg, sub_zero, add_zero, sub_neg_eq_add] at in1 in2
    obtain ⟨f, ef⟩ : ∃ f : Nat → Nat, ∀ k ≤ 7, (f k : Int) = L.corner.x + L.column (a + k) := by
      refine ⟨fun k => (L.corner.x + L.column (a + k)).toNat, fun k hk => Int.toNat_of_nonneg ?_⟩
      have := cle k (by omega)
      omega
    obtain ⟨g, eg⟩ : ∃ g : Nat → Nat, ∀ k ≤ 7, (g k : Int) = L.corner.y + L.row (b + k) := by
      refine ⟨fun k => (L.corner.y + L.row (b + k)).toNat, fun k hk => Int.toNat_of_nonneg ?_⟩
      have := rle k (by omega)
      omega
    have f0 := ef 0 (by omega)
    have f1 := ef 1 (by omega)
    have f2 := ef 2 (by omega)
    have f5 := ef 5 (by omega)
    have f6 := ef 6 (by omega)
    have f7 := ef 7 (by omega)
    have g0 := eg 0 (by omega)
    have g1 := eg 1 (by omega)
    have g2 := eg 2 (by omega)
    have g5 := eg 5 (by omega)
    have g6 := eg 6 (by omega)
    have g7 := eg 7 (by omega)
    norm_num only at f0 f1 f2 f5 f6 f7 g0 g1 g2 g5 g6 g7
    simp only [Nat.add_zero] at f0 f7 g0 g7
    refine ⟨f, g, key f g (EX.shift (a := 0) (by omega) (c := L.corner.x) (by simpa using ef)) (EY.shift (a := 0) (by omega) (c := L.corner.y) (by simpa using eg)) ?_, by omega, by omega, ⟨0, by omega, ?_⟩, ?_⟩
    · intro p i j hp
      have hx := px i j
      have hy := py i j
      rw [hp] at hx hy
      dsimp only at hx hy
      simp only [mul_one, mul_zero, mul_neg, sub_zero, add_zero, sub_neg_eq_add] at hx hy
      unfold InRing InRect
      constructor
      · intros; omega
      · omega
    · unfold rectCorners Placement.rect
      rw [e0]
      simp only [px']
      refine point_key (point_ext ?_ ?_) (point_ext ?_ ?_) (point_ext ?_ ?_) (point_ext ?_ ?_) <;>
        simp only [mul_one, mul_zero, mul_neg, sub_zero, add_zero, sub_neg_eq_add] <;> omega
    · intro p i j i1 i2 j1 j2 hp
      have hx := px i j
      have hy := py i j
      rw [hp] at hx hy
      dsimp only at hx hy
      simp only [mul_one, mul_zero, mul_neg, sub_zero, add_zero, sub_neg_eq_add] at hx hy
      unfold InRect
      omega
  · rw [hr] at in1 in2 px py px'
    simp only [mul_one, mul_zero, mul_neg, sub_zero, add_zero, sub_neg_eq_add] at in1 in2
    obtain ⟨f, ef⟩ : ∃ f : Nat → Nat, ∀ k ≤ 7, (f k : Int) = L.corner.x + 1 - L.row (b + (7 - k)) := by
      refine ⟨fun k => (L.corner.x + 1 - L.row (b + (7 - k))).toNat, fun k hk => Int.toNat_of_nonneg ?_⟩
      have := rle (7 - k) (by omega)
      omega
    obtain ⟨g, eg⟩ : ∃ g : Nat → Nat, ∀ k ≤ 7, (g k : Int) = L.corner.y + L.column (a + k) := by
      refine ⟨fun k => (L.corner.y + L.column (a + k)).toNat, fun k hk => Int.toNat_of_nonneg ?_⟩
      have := cle k (by omega)
      omega
    have f0 := ef 0 (by omega)
    have f1 := ef 1 (by omega)
    have f2 := ef 2 (by omega)
    have f5 := ef 5 (by omega)
    have f6 := ef 6 (by omega)
    have f7 := ef 7 (by omega)
    have g0 := eg 0 (by omega)
    have g1 := eg 1 (by omega)
    have g2 := eg 2 (by omega)
    have g5 := eg 5 (by omega)
    have g6 := eg 6 (by omega)
    have g7 := eg 7 (by omega)
    norm_num only at f0 f1 f2 f5 f6 f7 g0 g1 g2 g5 g6 g7
    simp only [Nat.add_zero] at f0 f7 g0 g7
    refine ⟨f, g, key f g (EY.flip (c := L.corner.x + 1) ef) (EX.shift (a := 0) (by omega) (c := L.corner.y) (by simpa using eg)) ?_, by omega, by omega, ⟨3, by omega, ?_⟩, ?_⟩
    · intro p i j hp
      have hx := px i j
      have hy := py i j
      rw [hp] at hx hy
      dsimp only at hx hy
      simp only [mul_one, mul_zero, mul_neg, sub_zero, add_zero, sub_neg_eq_add] at hx hy
      unfold InRing InRect
      constructor
      · intros; omega
      · omega
    · unfold rectCorners Placement.rect
      rw [e3]
      simp only [px']
      refine point_key (point_ext ?_ ?_) (point_ext ?_ ?_) (point_ext ?_ ?_) (point_ext ?_ ?_) <;>
        simp only [mul_one, mul_zero, mul_neg, sub_zero, add_zero, sub_neg_eq_add] <;> omega
    · intro p i j i1 i2 j1 j2 hp
      have hx := px i j
      have hy := py i j
      rw [hp] at hx hy
      dsimp only at hx hy
      simp only [mul_one, mul_zero, mul_neg, sub_zero, add_zero, sub_neg_eq_add] at hx hy
      unfold InRect
      omega
  · rw [hr] at in1 in2 px py px'
    simp only [mul_one, mul_zero, mul_neg, sub_zero, add_zero, sub_neg_eq_add] at in1 in2
    obtain ⟨f, ef⟩ : ∃ f : Nat → Nat, ∀ k ≤ 7, (f k : Int) = L.corner.x + 1 - L.column (a + (7 - k)) := by
      refine ⟨fun k => (L.corner.x + 1 - L.column (a + (7 - k))).toNat, fun k hk => Int.toNat_of_nonneg ?_⟩
      have := cle (7 - k) (by omega)
      omega
    obtain ⟨g, eg⟩ : ∃ g : Nat → Nat, ∀ k ≤ 7, (g k : Int) = L.corner.y + 1 - L.row (b + (7 - k)) := by
      refine ⟨fun k => (L.corner.y + 1 - L.row (b + (7 - k))).toNat, fun k hk => Int.toNat_of_nonneg ?_⟩
      have := rle (7 - k) (by omega)
      omega
    have f0 := ef 0 (by omega)
    have f1 := ef 1 (by omega)
    have f2 := ef 2 (by omega)
    have f5 := ef 5 (by omega)
    have f6 := ef 6 (by omega)
    have f7 := ef 7 (by omega)
    have g0 := eg 0 (by omega)
    have g1 := eg 1 (by omega)
    have g2 := eg 2 (by omega)
    have g5 := eg 5 (by omega)
    have g6 := eg 6 (by omega)
    have g7 := eg 7 (by omega)
    norm_num only at f0 f1 f2 f5 f6 f7 g0 g1 g2 g5 g6 g7
    simp only [Nat.add_zero] at f0 f7 g0 g7
    refine ⟨f, g, key f g (EX.flip (c := L.corner.x + 1) ef) (EY.flip (c := L.corner.y + 1) eg) ?_, by omega, by omega, ⟨2, by omega, ?_⟩, ?_⟩
    · intro p i j hp
      have hx := px i j
      have hy := py i j
      rw [hp] at hx hy
      dsimp only at hx hy
      simp only [mul_one, mul_zero, mul_neg, sub_zero, add_zero, sub_neg_eq_add] at hx hy
      unfold InRing InRect
      constructor
      · intros; omega
      · omega
    · unfold rectCorners Placement.rect
      rw [e2]
      simp only [px']
      refine point_key (point_ext ?_ ?_) (point_ext ?_ ?_) (point_ext ?_ ?_) (point_ext ?_ ?_) <;>
        simp only [mul_one, mul_zero, mul_neg, sub_zero, add_zero, sub_neg_eq_add] <;> omega
    · intro p i j i1 i2 j1 j2 hp
      have hx := px i j
      have hy := py i j
      rw [hp] at hx hy
      dsimp only at hx hy
      simp only [mul_one, mul_zero, mul_neg, sub_zero, add_zero, sub_neg_eq_add] at hx hy
      unfold InRect
      omega
  · rw [hr] at in1 in2 px py px'
    simp only [mul_one, mul_zero, mul_neg, sub_zero, add_zero, sub_neg_eq_add] at in1 in2
    obtain ⟨f, ef⟩ : ∃ f : Nat → Nat, ∀ k ≤ 7, (f k : Int) = L.corner.x + L.row (b + k) := by
      refine ⟨fun k => (L.corner.x + L.row (b + k)).toNat, fun k hk => Int.toNat_of_nonneg ?_⟩
      have := rle k (by omega)
      omega
    obtain ⟨g, eg⟩ : ∃ g : Nat → Nat, ∀ k ≤ 7, (g k : Int) = L.corner.y + 1 - L.column (a + (7 - k)) := by
      refine ⟨fun k => (L.corner.y + 1 - L.column (a + (7 - k))).toNat, fun k hk => Int.toNat_of_nonneg ?_⟩
      have := cle (7 - k) (by omega)
      omega
    have f0 := ef 0 (by omega)
    have f1 := ef 1 (by omega)
    have f2 := ef 2 (by omega)
    have f5 := ef 5 (by omega)
    have f6 := ef 6 (by omega)
    have f7 := ef 7 (by omega)
    have g0 := eg 0 (by omega)
    have g1 := eg 1 (by omega)
    have g2 := eg 2 (by omega)
    have g5 := eg 5 (by omega)
    have g6 := eg 6 (by omega)
    have g7 := eg 7 (by omega)
    norm_num only at f0 f1 f2 f5 f6 f7 g0 g1 g2 g5 g6 g7
    simp only [Nat.add_zero] at f0 f7 g0 g7
    refine ⟨f, g, key f g (EY.shift (a := 0) (by omega) (c := L.corner.x) (by simpa using ef)) (EX.flip (c := L.corner.y + 1) eg) ?_, by omega, by omega, ⟨1, by omega, ?_⟩, ?_⟩
    · intro p i j hp
      have hx := px i j
      have hy := py i j
      rw [hp] at hx hy
      dsimp only at hx hy
      simp only [mul_one, mul_zero, mul_neg, sub_zero, add_zero, sub_neg_eq_add] at hx hy
      unfold InRing InRect
      constructor
      · intros; omega
      · omega
    · unfold rectCorners Placement.rect
      rw [e1]
      simp only [px']
      refine point_key (point_ext ?_ ?_) (point_ext ?_ ?_) (point_ext ?_ ?_) (point_ext ?_ ?_) <;>
        simp only [mul_one, mul_zero, mul_neg, sub_zero, add_zero, sub_neg_eq_add] <;> omega
    · intro p i j i1 i2 j1 j2 hp
      have hx := px i j
      have hy := py i j
      rw [hp] at hx hy
      dsimp only at hx hy
      simp only [mul_one, mul_zero, mul_neg, sub_zero, add_zero, sub_neg_eq_add] at hx hy
      unfold InRect
      omega

end

end Rqrr
