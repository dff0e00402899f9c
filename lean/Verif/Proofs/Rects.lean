import Verif.Proofs.Drawn
import Verif.Spec.Stretch

/-!
# Finder patterns with modules of unequal sizes
-/

namespace Rqrr

open Spec ImageBuffer

/-! ### Rectangles -/

/-- The pixels of a rectangle. -/
def InRect (a b c d : Nat) (p : Pos) : Prop := a ≤ p.1 ∧ p.1 < b ∧ c ≤ p.2 ∧ p.2 < d

theorem rect_conn {a b c d : Nat} {p q : Pos} (hp : InRect a b c d p) (hq : InRect a b c d q) : Reach (InRect a b c d) p q := by
  have key : ∀ p, InRect a b c d p → Reach (InRect a b c d) p (a, c) := by
    rintro ⟨x, y⟩ ⟨h1, h2, h3, h4⟩
    dsimp only at h1 h2 h3 h4
    exact (back_h h1 fun x' e f => ⟨e, by dsimp only; omega, h3, h4⟩).trans
      (back_v h3 fun y' e f => ⟨Nat.le_refl _, by dsimp only; omega, e, by dsimp only; omega⟩)
  exact (key p hp).trans (key q hq).symm

theorem rect_ncard (a b c d : Nat) : Set.ncard {p | InRect a b c d p} = (b - a) * (d - c) := by
  have : {p | InRect a b c d p} = ((Finset.Ico a b ×ˢ Finset.Ico c d : Finset Pos) : Set Pos) := by
    ext ⟨x, y⟩
    simp only [Set.mem_ofPred_eq, Finset.coe_product, Finset.coe_Ico, Set.mem_prod, Set.mem_Ico, InRect]
    omega
  rw [this, Set.ncard_coe_finset, Finset.card_product, Nat.card_Ico, Nat.card_Ico]

/-- An isolated rectangle is a region. -/
theorem lone_rect {B : Pos → Prop} {a b c d : Nat} (hin : ∀ p, InRect a b c d p → B p)
    (hout : ∀ p q, InRect a b c d p → Adj p q → ¬ InRect a b c d q → ¬ B q) {p : Pos} (hp : InRect a b c d p) (q : Pos) :
    Reach B p q ↔ InRect a b c d q :=
  region_eq hin (fun p q h1 h2 h3 => by_contra fun h4 => hout p q h1 h2 h4 h3) (fun _ _ h1 h2 => rect_conn h1 h2) hp q

/-! ### Even spacing -/

theorem Spec.Even.sub {n : Nat} {f : Nat → Nat} {α β : ℚ} (h : ∀ k ≤ n, |(f k : ℚ) - (β + α * k)| ≤ 1 / 2) {i j : Nat} (hi : i ≤ n) (hj : j ≤ n) :
    |((f j : ℚ) - f i) - α * (j - i)| ≤ 1 := by
  have h1 := h i hi
  have h2 := h j hj
  rw [abs_le] at h1 h2 ⊢
  constructor <;> linarith

theorem Spec.Even.sub_le {n : Nat} {f : Nat → Nat} {α β : ℚ} (h : ∀ k ≤ n, |(f k : ℚ) - (β + α * k)| ≤ 1 / 2) {i d : Nat} (hi : i + d ≤ n) :
    α * d - 1 ≤ (f (i + d) : ℚ) - f i ∧ (f (i + d) : ℚ) - f i ≤ α * d + 1 := by
  have := Spec.Even.sub h (i := i) (j := i + d) (by omega) hi
  rw [abs_le] at this
  push_cast at this
  constructor <;> linarith

/-- The bounds of a finder pattern: the differences between the cuts, in integers. -/
structure Bounds (f : Nat → Nat) : Prop where
  c0 : f 0 + 6 ≤ f 1
  c1 : f 1 + 6 ≤ f 2
  c2 : f 2 + 20 ≤ f 5
  c5 : f 5 + 6 ≤ f 6
  c6 : f 6 + 6 ≤ f 7
  s1 : 4 * (f 5 - f 2) ≤ 3 * ((f 2 - f 0) + (f 7 - f 5)) + 10
  s2 : 3 * ((f 2 - f 0) + (f 7 - f 5)) ≤ 4 * (f 5 - f 2) + 10
  a1 : 4 * (f 1 - f 0) ≤ (f 2 - f 0) + (f 7 - f 5) + 6 ∧ (f 2 - f 0) + (f 7 - f 5) ≤ 4 * (f 1 - f 0) + 6
  a2 : 4 * (f 2 - f 1) ≤ (f 2 - f 0) + (f 7 - f 5) + 6 ∧ (f 2 - f 0) + (f 7 - f 5) ≤ 4 * (f 2 - f 1) + 6
  a5 : 4 * (f 6 - f 5) ≤ (f 2 - f 0) + (f 7 - f 5) + 6 ∧ (f 2 - f 0) + (f 7 - f 5) ≤ 4 * (f 6 - f 5) + 6
  a6 : 4 * (f 7 - f 6) ≤ (f 2 - f 0) + (f 7 - f 5) + 6 ∧ (f 2 - f 0) + (f 7 - f 5) ≤ 4 * (f 7 - f 6) + 6

theorem Spec.Even.bounds {f : Nat → Nat} (h : Even 7 f) : Bounds f := by
  obtain ⟨α, β, hα, h⟩ := h
  have d01 := Spec.Even.sub_le h (i := 0) (d := 1) (by omega)
  have d12 := Spec.Even.sub_le h (i := 1) (d := 1) (by omega)
  have d25 := Spec.Even.sub_le h (i := 2) (d := 3) (by omega)
  have d56 := Spec.Even.sub_le h (i := 5) (d := 1) (by omega)
  have d67 := Spec.Even.sub_le h (i := 6) (d := 1) (by omega)
  have d02 := Spec.Even.sub_le h (i := 0) (d := 2) (by omega)
  have d57 := Spec.Even.sub_le h (i := 5) (d := 2) (by omega)
  norm_num at d01 d12 d25 d56 d67 d02 d57
  have k1 : (f 0) + 6 ≤ (f 1) := by
    have : ((f 0) : ℚ) + 6 ≤ (f 1) := by linarith
    exact_mod_cast this
  have k2 : (f 1) + 6 ≤ (f 2) := by
    have : ((f 1) : ℚ) + 6 ≤ (f 2) := by linarith
    exact_mod_cast this
  have k3 : (f 2) + 20 ≤ (f 5) := by
    have : ((f 2) : ℚ) + 20 ≤ (f 5) := by linarith
    exact_mod_cast this
  have k4 : (f 5) + 6 ≤ (f 6) := by
    have : ((f 5) : ℚ) + 6 ≤ (f 6) := by linarith
    exact_mod_cast this
  have k5 : (f 6) + 6 ≤ (f 7) := by
    have : ((f 6) : ℚ) + 6 ≤ (f 7) := by linarith
    exact_mod_cast this
  have e1 : 4 * (((f 5) : Int) - (f 2)) ≤ 3 * (((f 2) - (f 0)) + ((f 7) - (f 5))) + 10 := by
    have : 4 * (((f 5) : ℚ) - (f 2)) ≤ 3 * (((f 2) - (f 0)) + ((f 7) - (f 5))) + 10 := by linarith
    exact_mod_cast this
  have e2 : 3 * ((((f 2) : Int) - (f 0)) + ((f 7) - (f 5))) ≤ 4 * ((f 5) - (f 2)) + 10 := by
    have : 3 * ((((f 2) : ℚ) - (f 0)) + ((f 7) - (f 5))) ≤ 4 * ((f 5) - (f 2)) + 10 := by linarith
    exact_mod_cast this
  have g : ∀ u v : Nat, α - 1 ≤ (v : ℚ) - u → (v : ℚ) - u ≤ α + 1 →
      4 * ((v : Int) - u) ≤ ((f 2) - (f 0)) + ((f 7) - (f 5)) + 6 ∧ (((f 2) : Int) - (f 0)) + ((f 7) - (f 5)) ≤ 4 * (v - u) + 6 := by
    intro u v h1 h2
    have q1 : 4 * ((v : ℚ) - u) ≤ ((f 2) - (f 0)) + ((f 7) - (f 5)) + 6 := by linarith
    have q2 : (((f 2) : ℚ) - (f 0)) + ((f 7) - (f 5)) ≤ 4 * (v - u) + 6 := by linarith
    exact ⟨by exact_mod_cast q1, by exact_mod_cast q2⟩
  have g1 := g (f 0) (f 1) (by linarith) (by linarith)
  have g2 := g (f 1) (f 2) (by linarith) (by linarith)
  have g5 := g (f 5) (f 6) (by linarith) (by linarith)
  have g6 := g (f 6) (f 7) (by linarith) (by linarith)
  constructor <;> omega

theorem Bounds.ratio {f : Nat → Nat} (h : Bounds f) : FinderRatio (f 1 - f 0) (f 2 - f 1) (f 5 - f 2) (f 6 - f 5) (f 7 - f 6) := by
  obtain ⟨c0, c1, c2, c5, c6, s1, s2, a1, a2, a5, a6⟩ := h
  unfold FinderRatio
  dsimp only
  generalize hs : f 1 - f 0 + (f 2 - f 1) + (f 6 - f 5) + (f 7 - f 6) = sum
  have m1 : 4 * (sum / 4) ≤ sum := Nat.mul_div_le sum 4
  have m2 : sum < 4 * (sum / 4) + 4 := by omega
  have m3 : 6 ≤ sum / 4 := by omega
  generalize sum / 4 = m at *
  have t4 : 4 ≤ m * 3 / 4 := by omega
  generalize m * 3 / 4 = t at *
  omega

/-- Reading the cuts backwards. -/
theorem Spec.Even.flip {n : Nat} {f g : Nat → Nat} (h : Even n f) {c : Int} (hg : ∀ k ≤ n, (g k : Int) = c - f (n - k)) : Even n g := by
  obtain ⟨α, β, hα, h⟩ := h
  refine ⟨α, c - β - α * n, hα, fun k hk => ?_⟩
  have h1 := h (n - k) (by omega)
  have h2 : (g k : ℚ) = c - f (n - k) := by exact_mod_cast hg k hk
  rw [h2]
  rw [Nat.cast_sub hk] at h1
  rw [abs_le] at h1 ⊢
  constructor <;> linarith

theorem Spec.Even.shift {n m a : Nat} {f g : Nat → Nat} (h : Even n f) (ha : a + m ≤ n) {c : Int} (hg : ∀ k ≤ m, (g k : Int) = c + f (a + k)) : Even m g := by
  obtain ⟨α, β, hα, h⟩ := h
  refine ⟨α, c + β + α * a, hα, fun k hk => ?_⟩
  have h1 := h (a + k) (by omega)
  have h2 : (g k : ℚ) = c + f (a + k) := by exact_mod_cast hg k hk
  rw [h2]
  push_cast at h1
  rw [abs_le] at h1 ⊢
  constructor <;> linarith

/-! ### Finder patterns -/

/-- A rectangle without a smaller one inside it. -/
def InRing (f g : Nat → Nat) (p : Pos) : Prop := InRect (f 0) (f 7) (g 0) (g 7) p ∧ ¬ InRect (f 1) (f 6) (g 1) (g 6) p

/-- A finder pattern with these cuts between its columns and rows, surrounded by white. -/
structure BoxFinder (B : Pos → Prop) (f g : Nat → Nat) : Prop where
  xs : Even 7 f
  ys : Even 7 g
  black : ∀ p : Pos, f 0 ≤ p.1 + 1 → p.1 ≤ f 7 → g 0 ≤ p.2 + 1 → p.2 ≤ g 7 →
    (B p ↔ InRing f g p ∨ InRect (f 2) (f 5) (g 2) (g 5) p)

theorem ring_conn {f g : Nat → Nat} (hf : Bounds f) (hg : Bounds g) {p q : Pos} (hp : InRing f g p) (hq : InRing f g q) :
    Reach (InRing f g) p q := by
  obtain ⟨f0, f1, f2, f5, f6, -, -, -, -, -, -⟩ := hf
  obtain ⟨g0, g1, g2, g5, g6, -, -, -, -, -, -⟩ := hg
  have key : ∀ p, InRing f g p → Reach (InRing f g) p (f 0, g 0) := by
    rintro ⟨x, y⟩ ⟨⟨h1, h2, h3, h4⟩, h5⟩
    unfold InRect at h5
    dsimp only at h1 h2 h3 h4 h5
    have fr : ∀ x' y', f 0 ≤ x' → x' < f 7 → g 0 ≤ y' → y' < g 7 →
        (x' < f 1 ∨ f 6 ≤ x' ∨ y' < g 1 ∨ g 6 ≤ y') → InRing f g (x', y') := by
      intro x' y' a b c d e
      refine ⟨⟨a, b, c, d⟩, ?_⟩
      rintro ⟨e1, e2, e3, e4⟩
      dsimp only at e1 e2 e3 e4
      omega
    by_cases hc : x < f 1 ∨ (g 6 ≤ y)
    · exact (back_h h1 fun x' a b => fr x' y a (by omega) h3 h4 (by omega)).trans
        (back_v h3 fun y' a b => fr (f 0) y' (by omega) (by omega) a (by omega) (by omega))
    · exact (back_v h3 fun y' a b => fr x y' h1 h2 a (by omega) (by omega)).trans
        (back_h h1 fun x' a b => fr x' (g 0) a (by omega) (by omega) (by omega) (by omega))
  exact (key p hp).trans (key q hq).symm

theorem ring_ncard {f g : Nat → Nat} (hf : Bounds f) (hg : Bounds g) :
    Set.ncard {p | InRing f g p} = (f 7 - f 0) * (g 7 - g 0) - (f 6 - f 1) * (g 6 - g 1) := by
  obtain ⟨f0, f1, f2, f5, f6, -, -, -, -, -, -⟩ := hf
  obtain ⟨g0, g1, g2, g5, g6, -, -, -, -, -, -⟩ := hg
  have e : {p | InRing f g p} = {p | InRect (f 0) (f 7) (g 0) (g 7) p} \ {p | InRect (f 1) (f 6) (g 1) (g 6) p} := rfl
  have hfin : ({p | InRect (f 1) (f 6) (g 1) (g 6) p} : Set Pos).Finite := by
    refine Set.finite_of_ncard_ne_zero ?_
    rw [rect_ncard]
    have : 0 < (f 6 - f 1) * (g 6 - g 1) := Nat.mul_pos (by omega) (by omega)
    omega
  rw [e, Set.ncard_sdiff _ hfin, rect_ncard, rect_ncard]
  rintro p ⟨a, b, c, d⟩
  exact ⟨by omega, by omega, by omega, by omega⟩

theorem Spec.Even.percentage {f g : Nat → Nat} (hf : Even 7 f) (hg : Even 7 g) :
    10 < (f 5 - f 2) * (g 5 - g 2) * 100 / ((f 7 - f 0) * (g 7 - g 0) - (f 6 - f 1) * (g 6 - g 1)) ∧
    (f 5 - f 2) * (g 5 - g 2) * 100 / ((f 7 - f 0) * (g 7 - g 0) - (f 6 - f 1) * (g 6 - g 1)) < 70 := by
  obtain ⟨f0, f1, f2, f5, f6, -, -, -, -, -, -⟩ := hf.bounds
  obtain ⟨g0, g1, g2, g5, g6, -, -, -, -, -, -⟩ := hg.bounds
  obtain ⟨α, β, hα, hf⟩ := hf
  obtain ⟨α', β', hα', hg⟩ := hg
  have f25 := Spec.Even.sub_le hf (i := 2) (d := 3) (by omega)
  have f07 := Spec.Even.sub_le hf (i := 0) (d := 7) (by omega)
  have f16 := Spec.Even.sub_le hf (i := 1) (d := 5) (by omega)
  have g25 := Spec.Even.sub_le hg (i := 2) (d := 3) (by omega)
  have g07 := Spec.Even.sub_le hg (i := 0) (d := 7) (by omega)
  have g16 := Spec.Even.sub_le hg (i := 1) (d := 5) (by omega)
  norm_num only [Nat.cast_ofNat] at f25 f07 f16 g25 g07 g16
  have cst : ∀ {u v : Nat}, u ≤ v → ((v - u : Nat) : ℚ) = v - u := fun h => by rw [Nat.cast_sub h]
  have s1 : (3 * α - 1) * (3 * α' - 1) ≤ (((f 5 - f 2) * (g 5 - g 2) : Nat) : ℚ) := by
    rw [Nat.cast_mul, cst (by omega), cst (by omega)]
    exact mul_le_mul (by linarith) (by linarith) (by linarith) (by linarith)
  have s2 : (((f 5 - f 2) * (g 5 - g 2) : Nat) : ℚ) ≤ (3 * α + 1) * (3 * α' + 1) := by
    rw [Nat.cast_mul, cst (by omega), cst (by omega)]
    exact mul_le_mul (by linarith) (by linarith) (by linarith) (by linarith)
  have w1 : (7 * α - 1) * (7 * α' - 1) ≤ (((f 7 - f 0) * (g 7 - g 0) : Nat) : ℚ) := by
    rw [Nat.cast_mul, cst (by omega), cst (by omega)]
    exact mul_le_mul (by linarith) (by linarith) (by linarith) (by linarith)
  have w2 : (((f 7 - f 0) * (g 7 - g 0) : Nat) : ℚ) ≤ (7 * α + 1) * (7 * α' + 1) := by
    rw [Nat.cast_mul, cst (by omega), cst (by omega)]
    exact mul_le_mul (by linarith) (by linarith) (by linarith) (by linarith)
  have v1 : (5 * α - 1) * (5 * α' - 1) ≤ (((f 6 - f 1) * (g 6 - g 1) : Nat) : ℚ) := by
    rw [Nat.cast_mul, cst (by omega), cst (by omega)]
    exact mul_le_mul (by linarith) (by linarith) (by linarith) (by linarith)
  have v2 : (((f 6 - f 1) * (g 6 - g 1) : Nat) : ℚ) ≤ (5 * α + 1) * (5 * α' + 1) := by
    rw [Nat.cast_mul, cst (by omega), cst (by omega)]
    exact mul_le_mul (by linarith) (by linarith) (by linarith) (by linarith)
  generalize (f 5 - f 2) * (g 5 - g 2) = A at *
  generalize (f 7 - f 0) * (g 7 - g 0) = W at *
  generalize (f 6 - f 1) * (g 6 - g 1) = V at *
  have hp : 0 ≤ (α - 7) * (α' - 7) := mul_nonneg (by linarith) (by linarith)
  have k0 : (V : ℚ) + 1 ≤ W := by nlinarith
  have k1 : 11 * ((W : ℚ) - V) ≤ A * 100 := by nlinarith
  have k2 : (A : ℚ) * 100 + 1 ≤ 70 * (W - V) := by nlinarith
  have n0 : V + 1 ≤ W := by exact_mod_cast k0
  have n1 : 11 * (W - V) ≤ A * 100 := by
    have : 11 * ((W - V : Nat) : ℚ) ≤ A * 100 := by rw [cst (by omega)]; exact k1
    exact_mod_cast this
  have n2 : A * 100 + 1 ≤ 70 * (W - V) := by
    have : (A : ℚ) * 100 + 1 ≤ 70 * ((W - V : Nat) : ℚ) := by rw [cst (by omega)]; exact k2
    exact_mod_cast this
  constructor
  · have := (Nat.le_div_iff_mul_le (show 0 < W - V by omega)).2 n1
    omega
  · exact (Nat.div_lt_iff_lt_mul (show 0 < W - V by omega)).2 (by omega)

section
variable {B : Pos → Prop} {f g : Nat → Nat}

theorem BoxFinder.ring_region (h : BoxFinder B f g) {p : Pos} (hp : InRing f g p) (q : Pos) : Reach B p q ↔ InRing f g q := by
  have hf := h.xs.bounds
  have hg := h.ys.bounds
  obtain ⟨f0, f1, f2, f5, f6, -, -, -, -, -, -⟩ := id hf
  obtain ⟨g0, g1, g2, g5, g6, -, -, -, -, -, -⟩ := id hg
  refine region_eq (R := InRing f g) ?_ ?_ (fun p q hp hq => ring_conn hf hg hp hq) hp q
  · intro p hp
    obtain ⟨⟨a, b, c, d⟩, -⟩ := id hp
    exact (h.black p (by omega) (by omega) (by omega) (by omega)).2 (.inl hp)
  · intro p q hp ha hb
    unfold InRing InRect at hp
    unfold Adj at ha
    rcases (h.black q (by omega) (by omega) (by omega) (by omega)).1 hb with hq | hq
    · exact hq
    · unfold InRect at hq
      omega

theorem BoxFinder.stone_region (h : BoxFinder B f g) {p : Pos} (hp : InRect (f 2) (f 5) (g 2) (g 5) p) (q : Pos) :
    Reach B p q ↔ InRect (f 2) (f 5) (g 2) (g 5) q := by
  obtain ⟨f0, f1, f2, f5, f6, -, -, -, -, -, -⟩ := h.xs.bounds
  obtain ⟨g0, g1, g2, g5, g6, -, -, -, -, -, -⟩ := h.ys.bounds
  refine lone_rect ?_ ?_ hp q
  · intro p hp
    obtain ⟨a, b, c, d⟩ := id hp
    exact (h.black p (by omega) (by omega) (by omega) (by omega)).2 (.inr hp)
  · intro p q hp ha hq hb
    unfold InRect at hp
    unfold Adj at ha
    rcases (h.black q (by omega) (by omega) (by omega) (by omega)).1 hb with hq' | hq'
    · unfold InRing InRect at hq'
      omega
    · exact hq hq'

end

/-- The corners of a rectangle of pixels, clockwise from the upper left one. -/
def rectCorners (x0 y0 m l : Int) : Vector Point 4 := #v[⟨x0, y0⟩, ⟨x0 + m, y0⟩, ⟨x0 + m, y0 + l⟩, ⟨x0, y0 + l⟩]

theorem extreme_rect {a b x0 y0 m l x y : Int} (ha : a ≠ 0) (hb : b ≠ 0) (h1 : x0 ≤ x) (h2 : x ≤ x0 + m) (h3 : y0 ≤ y)
    (h4 : y ≤ y0 + l) (h : ∀ u v : Int, (u = x0 ∨ u = x0 + m) → (v = y0 ∨ v = y0 + l) → a * u + b * v ≤ a * x + b * y) :
    x = (if 0 < a then x0 + m else x0) ∧ y = (if 0 < b then y0 + l else y0) := by
  have := h (if 0 < a then x0 + m else x0) (if 0 < b then y0 + l else y0) (by split <;> omega) (by split <;> omega)
  have k1 : a * x ≤ a * (if 0 < a then x0 + m else x0) := by split <;> nlinarith
  have k2 : b * y ≤ b * (if 0 < b then y0 + l else y0) := by split <;> nlinarith
  exact ⟨mul_left_cancel₀ ha (by omega), mul_left_cancel₀ hb (by omega)⟩

/-- The extreme corners of a ring are its four corners, in clockwise order, starting anywhere. -/
theorem ring_corners {B : Pos → Prop} {f g : Nat → Nat} (hb : Bounds f) (hb' : Bounds g) {p : Pos} (hp : InRing f g p)
    (hr : ∀ q, Reach B p q ↔ InRing f g q) {r : Vector Point 4} (h : ExtremeCorners B p r) :
    ∃ k < 4, r = rotateLeft4 (rectCorners (f 0) (g 0) ((f 7 : Int) - 1 - f 0) ((g 7 : Int) - 1 - g 0)) k := by
  obtain ⟨v0, v1, v2, v5, v6, -, -, -, -, -, -⟩ := hb'
  obtain ⟨u0, u1, u2, u5, u6, -, -, -, -, -, -⟩ := hb
  obtain ⟨far, hf, hmax, c0, c1, c2, c3, rfl, r0, r1, r2, r3, hc⟩ := h
  have hcor : ∀ u v : Nat, (u = (f 0) ∨ u = f 7 - 1) → (v = (g 0) ∨ v = g 7 - 1) → Reach B p (u, v) := by
    intro u v hu hv
    rw [hr]
    unfold InRing InRect
    dsimp only
    omega
  have hcorI : ∀ u v : Int, (u = (f 0) ∨ u = (f 0) + ((f 7 : Int) - 1 - f 0)) → (v = (g 0) ∨ v = (g 0) + ((g 7 : Int) - 1 - g 0)) →
      ∃ q, Reach B p q ∧ point q = ⟨u, v⟩ := by
    intro u v hu hv
    refine ⟨(u.toNat, v.toNat), hcor _ _ (by omega) (by omega), ?_⟩
    unfold point
    dsimp only
    rw [Int.toNat_of_nonneg (by omega), Int.toNat_of_nonneg (by omega)]
  have box : ∀ q, Reach B p q → ((f 0) : Int) ≤ (point q).x ∧ (point q).x ≤ (f 0) + ((f 7 : Int) - 1 - f 0) ∧ ((g 0) : Int) ≤ (point q).y ∧
      (point q).y ≤ (g 0) + ((g 7 : Int) - 1 - g 0) := by
    intro q hq
    rw [hr] at hq
    unfold InRing InRect at hq
    unfold point
    dsimp only
    omega
  have hpp : Reach B p p := by rw [hr]; exact hp
  obtain ⟨p1, p2, p3, p4⟩ := box p hpp
  obtain ⟨f1, f2, f3, f4⟩ := box far hf
  have em : vectorTo p far = ⟨(point far).x - (point p).x, (point far).y - (point p).y⟩ := rfl
  rw [em] at hc
  generalize point p = P at *
  generalize point far = Q at *
  have hm' : (5 : Int) ≤ (f 7 : Int) - 1 - f 0 := by omega
  have hl' : (5 : Int) ≤ (g 7 : Int) - 1 - g 0 := by omega
  generalize hM : (f 7 : Int) - 1 - f 0 = m at *
  generalize hL : (g 7 : Int) - 1 - g 0 = l at *
  clear u0 u1 u2 u5 u6 v0 v1 v2 v5 v6 hcor hL hM
  have hv : Q.x - P.x ≠ 0 ∧ Q.y - P.y ≠ 0 := by
    have far1 : ∀ u v : Int, (u = (f 0) ∨ u = (f 0) + m) → (v = (g 0) ∨ v = (g 0) + l) →
        (u - P.x) * (u - P.x) + (v - P.y) * (v - P.y) ≤ (Q.x - P.x) * (Q.x - P.x) + (Q.y - P.y) * (Q.y - P.y) := by
      intro u v hu hv
      obtain ⟨q, q1, q2⟩ := hcorI u v hu hv
      have := hmax q q1
      rw [q2] at this
      exact this
    -- one of the sides is at least half the square away
    have sx : ∃ u : Int, (u = (f 0) ∨ u = (f 0) + m) ∧ (Q.x - P.x) * (Q.x - P.x) ≤ (u - P.x) * (u - P.x) ∧ 0 < (u - P.x) * (u - P.x) := by
      by_cases hh : 2 * P.x ≤ 2 * (f 0) + m
      · exact ⟨(f 0) + m, .inr rfl, by nlinarith, by nlinarith⟩
      · exact ⟨(f 0), .inl rfl, by nlinarith, by nlinarith⟩
    have sy : ∃ v : Int, (v = (g 0) ∨ v = (g 0) + l) ∧ (Q.y - P.y) * (Q.y - P.y) ≤ (v - P.y) * (v - P.y) ∧ 0 < (v - P.y) * (v - P.y) := by
      by_cases hh : 2 * P.y ≤ 2 * (g 0) + l
      · exact ⟨(g 0) + l, .inr rfl, by nlinarith, by nlinarith⟩
      · exact ⟨(g 0), .inl rfl, by nlinarith, by nlinarith⟩
    obtain ⟨u, u1, u2, u3⟩ := sx
    obtain ⟨v, v1, v2, v3⟩ := sy
    have := far1 u v u1 v1
    constructor
    · intro e; rw [e] at this u2; omega
    · intro e; rw [e] at this v2; omega
  obtain ⟨vx, vy⟩ := hv
  unfold dot cross at hc
  dsimp only at hc
  generalize Q.x - P.x = a at *
  generalize Q.y - P.y = b at *
  have e0 := extreme_rect (x0 := f 0) (y0 := g 0) (m := m) (l := l) vx vy (box c0 r0).1 (box c0 r0).2.1 (box c0 r0).2.2.1 (box c0 r0).2.2.2 (by
    intro u v hu hv
    obtain ⟨q, q1, q2⟩ := hcorI u v hu hv
    have := (hc q q1).1
    rw [q2] at this
    exact this)
  have e1 := extreme_rect (x0 := f 0) (y0 := g 0) (m := m) (l := l) (a := -b) (b := a) (by omega) vx (box c1 r1).1 (box c1 r1).2.1 (box c1 r1).2.2.1 (box c1 r1).2.2.2 (by
    intro u v hu hv
    obtain ⟨q, q1, q2⟩ := hcorI u v hu hv
    have := (hc q q1).2.1
    rw [q2] at this
    dsimp only at this
    linarith)
  have e2 := extreme_rect (x0 := f 0) (y0 := g 0) (m := m) (l := l) (a := -a) (b := -b) (by omega) (by omega) (box c2 r2).1 (box c2 r2).2.1 (box c2 r2).2.2.1 (box c2 r2).2.2.2 (by
    intro u v hu hv
    obtain ⟨q, q1, q2⟩ := hcorI u v hu hv
    have := (hc q q1).2.2.1
    rw [q2] at this
    dsimp only at this
    linarith)
  have e3 := extreme_rect (x0 := f 0) (y0 := g 0) (m := m) (l := l) (a := b) (b := -a) vy (by omega) (box c3 r3).1 (box c3 r3).2.1 (box c3 r3).2.2.1 (box c3 r3).2.2.2 (by
    intro u v hu hv
    obtain ⟨q, q1, q2⟩ := hcorI u v hu hv
    have := (hc q q1).2.2.2
    rw [q2] at this
    dsimp only at this
    linarith)
  generalize point c0 = C0 at *
  generalize point c1 = C1 at *
  generalize point c2 = C2 at *
  generalize point c3 = C3 at *
  obtain ⟨X0, Y0⟩ := C0
  obtain ⟨X1, Y1⟩ := C1
  obtain ⟨X2, Y2⟩ := C2
  obtain ⟨X3, Y3⟩ := C3
  dsimp only at e0 e1 e2 e3
  obtain ⟨rfl, rfl⟩ := e0
  obtain ⟨rfl, rfl⟩ := e1
  obtain ⟨rfl, rfl⟩ := e2
  obtain ⟨rfl, rfl⟩ := e3
  rcases lt_or_gt_of_ne vx with ha | ha <;> rcases lt_or_gt_of_ne vy with hb | hb
  · refine ⟨0, by omega, ?_⟩
    rw [if_neg (by omega), if_neg (by omega), if_pos (by omega), if_neg (by omega), if_pos (by omega), if_pos (by omega), if_neg (by omega), if_pos (by omega)]
    rfl
  · refine ⟨3, by omega, ?_⟩
    rw [if_neg (by omega), if_pos (by omega), if_neg (by omega), if_neg (by omega), if_pos (by omega), if_neg (by omega), if_pos (by omega), if_pos (by omega)]
    rfl
  · refine ⟨1, by omega, ?_⟩
    rw [if_pos (by omega), if_neg (by omega), if_pos (by omega), if_pos (by omega), if_neg (by omega), if_pos (by omega), if_neg (by omega), if_neg (by omega)]
    rfl
  · refine ⟨2, by omega, ?_⟩
    rw [if_pos (by omega), if_pos (by omega), if_neg (by omega), if_pos (by omega), if_neg (by omega), if_neg (by omega), if_pos (by omega), if_neg (by omega)]
    rfl

end Rqrr
