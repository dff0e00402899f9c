import Verif.Proofs.Finder
import Verif.Spec.Patterns

/-!
# The regions of a cleanly drawn finder pattern
-/

namespace Rqrr

open Spec

/-- A connected set of black pixels without black neighbours is a region. -/
theorem region_eq {B R : Pos → Prop} (hB : ∀ p, R p → B p) (closed : ∀ p q, R p → Adj p q → B q → R q)
    (conn : ∀ p q, R p → R q → Reach R p q) {p : Pos} (hp : R p) (q : Pos) : Reach B p q ↔ R q := by
  constructor
  · rintro ⟨-, h⟩
    induction h with
    | refl => exact hp
    | tail _ h ih => exact closed _ _ ih h.1 h.2
  · intro hq
    obtain ⟨a, b⟩ := conn p q hp hq
    exact ⟨hB _ a, Relation.ReflTransGen.mono (fun _ _ h => ⟨h.1, hB _ h.2⟩) _ _ b⟩

theorem adj_symm {p q : Pos} (h : Adj p q) : Adj q p := by unfold Adj at *; omega

theorem line_h {B : Pos → Prop} {y x1 : Nat} : ∀ n : Nat, (∀ x, x1 ≤ x → x ≤ x1 + n → B (x, y)) → Reach B (x1, y) (x1 + n, y)
  | 0, h => ⟨h _ (by omega) (by omega), .refl⟩
  | n + 1, h => by
    obtain ⟨a, b⟩ := line_h n fun x h1 h2 => h x h1 (by omega)
    exact ⟨a, b.tail ⟨.inl ⟨rfl, .inl rfl⟩, h _ (by omega) (by omega)⟩⟩

theorem line_v {B : Pos → Prop} {x y1 : Nat} : ∀ n : Nat, (∀ y, y1 ≤ y → y ≤ y1 + n → B (x, y)) → Reach B (x, y1) (x, y1 + n)
  | 0, h => ⟨h _ (by omega) (by omega), .refl⟩
  | n + 1, h => by
    obtain ⟨a, b⟩ := line_v n fun x h1 h2 => h x h1 (by omega)
    exact ⟨a, b.tail ⟨.inr ⟨rfl, .inl rfl⟩, h _ (by omega) (by omega)⟩⟩

/-- Going back along a row. -/
theorem back_h {B : Pos → Prop} {y x1 x : Nat} (hx : x1 ≤ x) (h : ∀ x', x1 ≤ x' → x' ≤ x → B (x', y)) : Reach B (x, y) (x1, y) := by
  obtain ⟨n, rfl⟩ := Nat.exists_eq_add_of_le hx
  exact (line_h n h).symm

/-- Going back along a column. -/
theorem back_v {B : Pos → Prop} {x y1 y : Nat} (hy : y1 ≤ y) (h : ∀ y', y1 ≤ y' → y' ≤ y → B (x, y')) : Reach B (x, y) (x, y1) := by
  obtain ⟨n, rfl⟩ := Nat.exists_eq_add_of_le hy
  exact (line_v n h).symm

/-- The pixels of a square. -/
def InSquare (x0 y0 k : Nat) (p : Pos) : Prop := x0 ≤ p.1 ∧ p.1 < x0 + k ∧ y0 ≤ p.2 ∧ p.2 < y0 + k

theorem square_conn {x0 y0 k : Nat} {p q : Pos} (hp : InSquare x0 y0 k p) (hq : InSquare x0 y0 k q) : Reach (InSquare x0 y0 k) p q := by
  have key : ∀ p, InSquare x0 y0 k p → Reach (InSquare x0 y0 k) p (x0, y0) := by
    rintro ⟨x, y⟩ ⟨h1, h2, h3, h4⟩
    dsimp only at h1 h2 h3 h4
    exact (back_h h1 fun x' a b => ⟨a, by dsimp only; omega, h3, h4⟩).trans
      (back_v h3 fun y' a b => ⟨Nat.le_refl _, by dsimp only; omega, a, by dsimp only; omega⟩)
  exact (key p hp).trans (key q hq).symm

theorem square_ncard (x0 y0 k : Nat) : Set.ncard {p | InSquare x0 y0 k p} = k * k := by
  have : {p | InSquare x0 y0 k p} = ((Finset.Ico x0 (x0 + k) ×ˢ Finset.Ico y0 (y0 + k) : Finset Pos) : Set Pos) := by
    ext ⟨x, y⟩
    simp only [Set.mem_ofPred_eq, Finset.coe_product, Finset.coe_Ico, Set.mem_prod, Set.mem_Ico, InSquare]
    omega
  rw [this, Set.ncard_coe_finset, Finset.card_product, Nat.card_Ico, Nat.card_Ico]
  simp

/-- The pixels of a frame of width `s` and side `7 s`. -/
def InFrame (x0 y0 s : Nat) (p : Pos) : Prop := InSquare x0 y0 (7 * s) p ∧ ¬ InSquare (x0 + s) (y0 + s) (5 * s) p

theorem frame_conn {x0 y0 s : Nat} {p q : Pos} (hp : InFrame x0 y0 s p) (hq : InFrame x0 y0 s q) :
    Reach (InFrame x0 y0 s) p q := by
  have key : ∀ p, InFrame x0 y0 s p → Reach (InFrame x0 y0 s) p (x0, y0) := by
    rintro ⟨x, y⟩ ⟨⟨h1, h2, h3, h4⟩, h5⟩
    unfold InSquare at h5
    dsimp only at h1 h2 h3 h4 h5
    have fr : ∀ x' y', x0 ≤ x' → x' < x0 + 7 * s → y0 ≤ y' → y' < y0 + 7 * s →
        (x' < x0 + s ∨ x0 + 6 * s ≤ x' ∨ y' < y0 + s ∨ y0 + 6 * s ≤ y') → InFrame x0 y0 s (x', y') := by
      intro x' y' a b c d e
      refine ⟨⟨a, b, c, d⟩, ?_⟩
      rintro ⟨e1, e2, e3, e4⟩
      dsimp only at e1 e2 e3 e4
      omega
    by_cases hc : x < x0 + s ∨ (y0 + 6 * s ≤ y)
    · exact (back_h h1 fun x' a b => fr x' y a (by omega) h3 h4 (by omega)).trans
        (back_v h3 fun y' a b => fr x0 y' (by omega) (by omega) a (by omega) (by omega))
    · exact (back_v h3 fun y' a b => fr x y' h1 h2 a (by omega) (by omega)).trans
        (back_h h1 fun x' a b => fr x' y0 a (by omega) (by omega) (by omega) (by omega))
  exact (key p hp).trans (key q hq).symm

theorem frame_ncard (x0 y0 s : Nat) : Set.ncard {p | InFrame x0 y0 s p} = 24 * (s * s) := by
  have e : {p | InFrame x0 y0 s p} = {p | InSquare x0 y0 (7 * s) p} \ {p | InSquare (x0 + s) (y0 + s) (5 * s) p} := rfl
  have hfin : ({p | InSquare (x0 + s) (y0 + s) (5 * s) p} : Set Pos).Finite := by
    by_cases h : s = 0
    · subst h
      refine Set.Finite.subset (Set.finite_empty) ?_
      rintro p ⟨a, b, -, -⟩
      omega
    · refine Set.finite_of_ncard_ne_zero ?_
      rw [square_ncard]
      have : 0 < 5 * s * (5 * s) := by positivity
      omega
  rw [e, Set.ncard_sdiff _ hfin, square_ncard, square_ncard]
  · have : 7 * s * (7 * s) = 49 * (s * s) := by ring
    have : 5 * s * (5 * s) = 25 * (s * s) := by ring
    omega
  · rintro p ⟨a, b, c, d⟩
    exact ⟨by omega, by omega, by omega, by omega⟩

/-- A finder pattern with its upper left pixel at `(x0, y0)`, drawn with `s` pixels per module and surrounded by white. -/
def DrawnFinder (B : Pos → Prop) (x0 y0 s : Nat) : Prop :=
  ∀ p : Pos, x0 ≤ p.1 + 1 → p.1 ≤ x0 + 7 * s → y0 ≤ p.2 + 1 → p.2 ≤ y0 + 7 * s →
    (B p ↔ x0 ≤ p.1 ∧ p.1 < x0 + 7 * s ∧ y0 ≤ p.2 ∧ p.2 < y0 + 7 * s ∧ finderDark ((p.2 - y0) / s) ((p.1 - x0) / s) = true)

theorem finderDark_iff {a b : Nat} (ha : a < 7) (hb : b < 7) : finderDark a b = true ↔
    (a = 0 ∨ a = 6 ∨ b = 0 ∨ b = 6) ∨ (2 ≤ a ∧ a ≤ 4 ∧ 2 ≤ b ∧ b ≤ 4) := by
  have : ∀ a < 7, ∀ b < 7, (finderDark a b = true ↔
    (a = 0 ∨ a = 6 ∨ b = 0 ∨ b = 6) ∨ (2 ≤ a ∧ a ≤ 4 ∧ 2 ≤ b ∧ b ≤ 4)) := by decide
  exact this a ha b hb

section
variable {B : Pos → Prop} {x0 y0 s : Nat}

/-- The black pixels of a finder pattern: frame and stone. -/
theorem DrawnFinder.iff (h : DrawnFinder B x0 y0 s) (hs : 0 < s) {p : Pos} (h1 : x0 ≤ p.1 + 1) (h2 : p.1 ≤ x0 + 7 * s)
    (h3 : y0 ≤ p.2 + 1) (h4 : p.2 ≤ y0 + 7 * s) :
    B p ↔ InFrame x0 y0 s p ∨ InSquare (x0 + 2 * s) (y0 + 2 * s) (3 * s) p := by
  rw [h p h1 h2 h3 h4]
  unfold InFrame InSquare
  by_cases hi : x0 ≤ p.1 ∧ p.1 < x0 + 7 * s ∧ y0 ≤ p.2 ∧ p.2 < y0 + 7 * s
  · obtain ⟨i1, i2, i3, i4⟩ := hi
    obtain ⟨dx, ex⟩ := Nat.exists_eq_add_of_le i1
    obtain ⟨dy, ey⟩ := Nat.exists_eq_add_of_le i3
    rw [ex, ey, Nat.add_sub_cancel_left, Nat.add_sub_cancel_left]
    have b1 : dx / s < 7 := by rw [Nat.div_lt_iff_lt_mul hs]; omega
    have b2 : dy / s < 7 := by rw [Nat.div_lt_iff_lt_mul hs]; omega
    rw [finderDark_iff b2 b1]
    have q : ∀ d k : Nat, (k ≤ d / s ↔ k * s ≤ d) := fun d k => Nat.le_div_iff_mul_le hs
    have r1 : ∀ d k : Nat, d / s = k ↔ k * s ≤ d ∧ d < (k + 1) * s := by
      intro d k
      rw [← q, ← Nat.div_lt_iff_lt_mul hs]; omega
    have r2 : ∀ d k : Nat, d / s ≤ k ↔ d < (k + 1) * s := by
      intro d k
      rw [← Nat.div_lt_iff_lt_mul hs]; omega
    rw [r1, r1, r1, r1, q, q, r2, r2]
    omega
  · constructor
    · rintro ⟨a, b, c, d, -⟩; exact absurd ⟨a, b, c, d⟩ hi
    · intro hh; exfalso; apply hi; omega

theorem DrawnFinder.frame_region (h : DrawnFinder B x0 y0 s) (hs : 0 < s) {p : Pos} (hp : InFrame x0 y0 s p) (q : Pos) :
    Reach B p q ↔ InFrame x0 y0 s q := by
  refine region_eq (R := InFrame x0 y0 s) ?_ ?_ (fun p q hp hq => frame_conn hp hq) hp q
  · intro p hp
    obtain ⟨⟨a, b, c, d⟩, -⟩ := id hp
    exact (h.iff hs (by omega) (by omega) (by omega) (by omega)).2 (.inl hp)
  · intro p q hp ha hb
    have hp' := hp
    unfold InFrame InSquare at hp
    unfold Adj at ha
    rcases (h.iff hs (by omega) (by omega) (by omega) (by omega)).1 hb with hq | hq
    · exact hq
    · unfold InSquare at hq
      omega

theorem DrawnFinder.stone_region (h : DrawnFinder B x0 y0 s) (hs : 0 < s) {p : Pos}
    (hp : InSquare (x0 + 2 * s) (y0 + 2 * s) (3 * s) p) (q : Pos) :
    Reach B p q ↔ InSquare (x0 + 2 * s) (y0 + 2 * s) (3 * s) q := by
  refine region_eq (R := InSquare (x0 + 2 * s) (y0 + 2 * s) (3 * s)) ?_ ?_ (fun p q hp hq => square_conn hp hq) hp q
  · intro p hp
    obtain ⟨a, b, c, d⟩ := id hp
    exact (h.iff hs (by omega) (by omega) (by omega) (by omega)).2 (.inr hp)
  · intro p q hp ha hb
    unfold InSquare at hp
    unfold Adj at ha
    rcases (h.iff hs (by omega) (by omega) (by omega) (by omega)).1 hb with hq | hq
    · unfold InFrame InSquare at hq
      omega
    · exact hq

/-- An isolated square is a region. -/
theorem lone_square {k : Nat} (hin : ∀ p, InSquare x0 y0 k p → B p)
    (hout : ∀ p q, InSquare x0 y0 k p → Adj p q → ¬ InSquare x0 y0 k q → ¬ B q) {p : Pos} (hp : InSquare x0 y0 k p) (q : Pos) :
    Reach B p q ↔ InSquare x0 y0 k q :=
  region_eq hin (fun p q h1 h2 h3 => by_contra fun h4 => hout p q h1 h2 h4 h3) (fun _ _ h1 h2 => square_conn h1 h2) hp q

end

/-! ### Corners -/

/-- The corners of a square of pixels of side `m + 1`, clockwise from the upper left one. -/
def squareCorners (x0 y0 m : Int) : Vector Point 4 := #v[⟨x0, y0⟩, ⟨x0 + m, y0⟩, ⟨x0 + m, y0 + m⟩, ⟨x0, y0 + m⟩]

theorem extreme_corner {a b x0 y0 m x y : Int} (ha : a ≠ 0) (hb : b ≠ 0) (h1 : x0 ≤ x) (h2 : x ≤ x0 + m) (h3 : y0 ≤ y)
    (h4 : y ≤ y0 + m) (h : ∀ u v : Int, (u = x0 ∨ u = x0 + m) → (v = y0 ∨ v = y0 + m) → a * u + b * v ≤ a * x + b * y) :
    x = (if 0 < a then x0 + m else x0) ∧ y = (if 0 < b then y0 + m else y0) := by
  have := h (if 0 < a then x0 + m else x0) (if 0 < b then y0 + m else y0) (by split <;> omega) (by split <;> omega)
  have k1 : a * x ≤ a * (if 0 < a then x0 + m else x0) := by split <;> nlinarith
  have k2 : b * y ≤ b * (if 0 < b then y0 + m else y0) := by split <;> nlinarith
  exact ⟨mul_left_cancel₀ ha (by omega), mul_left_cancel₀ hb (by omega)⟩

/-- The extreme corners of a frame are its four corners, in clockwise order, starting anywhere. -/
theorem frame_corners {B : Pos → Prop} {x0 y0 s : Nat} (hs : 0 < s) {p : Pos} (hp : InFrame x0 y0 s p)
    (hr : ∀ q, Reach B p q ↔ InFrame x0 y0 s q) {r : Vector Point 4} (h : ExtremeCorners B p r) :
    ∃ k < 4, r = rotateLeft4 (squareCorners x0 y0 (7 * s - 1)) k := by
  obtain ⟨far, hf, hmax, c0, c1, c2, c3, rfl, r0, r1, r2, r3, hc⟩ := h
  have hcor : ∀ u v : Nat, (u = x0 ∨ u = x0 + (7 * s - 1)) → (v = y0 ∨ v = y0 + (7 * s - 1)) → Reach B p (u, v) := by
    intro u v hu hv
    rw [hr]
    unfold InFrame InSquare
    dsimp only
    omega
  have hcorI : ∀ u v : Int, (u = x0 ∨ u = x0 + (7 * (s : Int) - 1)) → (v = y0 ∨ v = y0 + (7 * (s : Int) - 1)) →
      ∃ q, Reach B p q ∧ point q = ⟨u, v⟩ := by
    intro u v hu hv
    refine ⟨(u.toNat, v.toNat), hcor _ _ (by omega) (by omega), ?_⟩
    unfold point
    dsimp only
    rw [Int.toNat_of_nonneg (by omega), Int.toNat_of_nonneg (by omega)]
  have box : ∀ q, Reach B p q → (x0 : Int) ≤ (point q).x ∧ (point q).x ≤ x0 + (7 * (s : Int) - 1) ∧ (y0 : Int) ≤ (point q).y ∧
      (point q).y ≤ y0 + (7 * (s : Int) - 1) := by
    intro q hq
    rw [hr] at hq
    unfold InFrame InSquare at hq
    unfold point
    dsimp only
    omega
  have hpp : Reach B p p := by rw [hr]; exact hp
  obtain ⟨p1, p2, p3, p4⟩ := box p hpp
  obtain ⟨f1, f2, f3, f4⟩ := box far hf
  have em : vectorTo p far = ⟨(point far).x - (point p).x, (point far).y - (point p).y⟩ := rfl
  rw [em] at hc
  generalize point p = P at *
  generalize point far = Q at *
  have hm' : (5 : Int) ≤ 7 * (s : Int) - 1 := by omega
  generalize hM : 7 * (s : Int) - 1 = m at *
  have hv : Q.x - P.x ≠ 0 ∧ Q.y - P.y ≠ 0 := by
    have far1 : ∀ u v : Int, (u = x0 ∨ u = x0 + m) → (v = y0 ∨ v = y0 + m) →
        (u - P.x) * (u - P.x) + (v - P.y) * (v - P.y) ≤ (Q.x - P.x) * (Q.x - P.x) + (Q.y - P.y) * (Q.y - P.y) := by
      intro u v hu hv
      obtain ⟨q, q1, q2⟩ := hcorI u v hu hv
      have := hmax q q1
      rw [q2] at this
      exact this
    -- one of the sides is at least half the square away
    have sx : ∃ u : Int, (u = x0 ∨ u = x0 + m) ∧ (Q.x - P.x) * (Q.x - P.x) ≤ (u - P.x) * (u - P.x) ∧ 0 < (u - P.x) * (u - P.x) := by
      by_cases hh : 2 * P.x ≤ 2 * x0 + m
      · exact ⟨x0 + m, .inr rfl, by nlinarith, by nlinarith⟩
      · exact ⟨x0, .inl rfl, by nlinarith, by nlinarith⟩
    have sy : ∃ v : Int, (v = y0 ∨ v = y0 + m) ∧ (Q.y - P.y) * (Q.y - P.y) ≤ (v - P.y) * (v - P.y) ∧ 0 < (v - P.y) * (v - P.y) := by
      by_cases hh : 2 * P.y ≤ 2 * y0 + m
      · exact ⟨y0 + m, .inr rfl, by nlinarith, by nlinarith⟩
      · exact ⟨y0, .inl rfl, by nlinarith, by nlinarith⟩
    obtain ⟨u, u1, u2, u3⟩ := sx
    obtain ⟨v, v1, v2, v3⟩ := sy
    have := far1 u v u1 v1
    constructor
    · intro e; rw [e] at this u2; omega
    · intro e; rw [e] at this v2; omega
  obtain ⟨vx, vy⟩ := hv
  unfold dot cross at hc
  dsimp only at hc
  generalize Q.x - P.x = a at *
  generalize Q.y - P.y = b at *
  have e0 := extreme_corner (x0 := x0) (y0 := y0) vx vy (box c0 r0).1 (box c0 r0).2.1 (box c0 r0).2.2.1 (box c0 r0).2.2.2 (by
    intro u v hu hv
    obtain ⟨q, q1, q2⟩ := hcorI u v hu hv
    have := (hc q q1).1
    rw [q2] at this
    exact this)
  have e1 := extreme_corner (x0 := x0) (y0 := y0) (a := -b) (b := a) (by omega) vx (box c1 r1).1 (box c1 r1).2.1 (box c1 r1).2.2.1 (box c1 r1).2.2.2 (by
    intro u v hu hv
    obtain ⟨q, q1, q2⟩ := hcorI u v hu hv
    have := (hc q q1).2.1
    rw [q2] at this
    dsimp only at this
    linarith)
  have e2 := extreme_corner (x0 := x0) (y0 := y0) (a := -a) (b := -b) (by omega) (by omega) (box c2 r2).1 (box c2 r2).2.1 (box c2 r2).2.2.1 (box c2 r2).2.2.2 (by
    intro u v hu hv
    obtain ⟨q, q1, q2⟩ := hcorI u v hu hv
    have := (hc q q1).2.2.1
    rw [q2] at this
    dsimp only at this
    linarith)
  have e3 := extreme_corner (x0 := x0) (y0 := y0) (a := b) (b := -a) vy (by omega) (box c3 r3).1 (box c3 r3).2.1 (box c3 r3).2.2.1 (box c3 r3).2.2.2 (by
    intro u v hu hv
    obtain ⟨q, q1, q2⟩ := hcorI u v hu hv
    have := (hc q q1).2.2.2
    rw [q2] at this
    dsimp only at this
    linarith)
  generalize point c0 = C0 at *
  generalize point c1 = C1 at *
  generalize point c2 = C2 at *
  generalize point c3 = C3 at *
  obtain ⟨X0, Y0⟩ := C0
  obtain ⟨X1, Y1⟩ := C1
  obtain ⟨X2, Y2⟩ := C2
  obtain ⟨X3, Y3⟩ := C3
  dsimp only at e0 e1 e2 e3
  obtain ⟨rfl, rfl⟩ := e0
  obtain ⟨rfl, rfl⟩ := e1
  obtain ⟨rfl, rfl⟩ := e2
  obtain ⟨rfl, rfl⟩ := e3
  rcases lt_or_gt_of_ne vx with ha | ha <;> rcases lt_or_gt_of_ne vy with hb | hb
  · refine ⟨0, by omega, ?_⟩
    rw [if_neg (by omega), if_neg (by omega), if_pos (by omega), if_neg (by omega), if_pos (by omega), if_pos (by omega), if_neg (by omega), if_pos (by omega)]
    rfl
  · refine ⟨3, by omega, ?_⟩
    rw [if_neg (by omega), if_pos (by omega), if_neg (by omega), if_neg (by omega), if_pos (by omega), if_neg (by omega), if_pos (by omega), if_pos (by omega)]
    rfl
  · refine ⟨1, by omega, ?_⟩
    rw [if_pos (by omega), if_neg (by omega), if_pos (by omega), if_pos (by omega), if_neg (by omega), if_pos (by omega), if_neg (by omega), if_neg (by omega)]
    rfl
  · refine ⟨2, by omega, ?_⟩
    rw [if_pos (by omega), if_pos (by omega), if_neg (by omega), if_pos (by omega), if_neg (by omega), if_neg (by omega), if_pos (by omega), if_neg (by omega)]
    rfl

end Rqrr
