import Verif.Proofs.Boxed

/-!
# The capstones of a drawing with modules of unequal sizes make one group
-/

namespace Rqrr

open Spec ImageBuffer Spec.Placement Rounding

variable {F : Type} [FloatOps F] [Rounding F] {S : Type} [ImageBuffer S] [LawfulImage S] {img : PreparedImage S} {n : Nat}
  {M : Nat → Nat → Bool} {L : Layout}

/-- The capstone of the finder pattern whose first module is in column `a` and row `b`. -/
def Spec.Layout.Cap (L : Layout) (a b : Nat) (cap : CapStone F) : Prop :=
  BoxedCap L.place (L.column a) (L.row b) ((L.column (a + 7) : Int) - 1 - L.column a) ((L.row (b + 7) : Int) - 1 - L.row b) cap

/-- Distances between centres, in modules of one of the finder patterns. -/
theorem Spec.Even.distance {f : Nat → Nat} (h : Even n f) {i i' N : Nat} (hi : i + 7 ≤ n) (hi' : i' + 7 ≤ n) (hN : 14 ≤ N) (h1 : i ≤ i' + N)
    (h2 : i' ≤ i + N) {a : Int} (ha : |2 * a - (2 * f i' + ((f (i' + 7) : Int) - 1 - f i'))| ≤ 1) {x : ℚ}
    (hx : |x - |(a : ℚ) - ((f i : Int) : ℚ) - (((f (i + 7) : Int) - 1 - f i : Int) : ℚ) / 2| / ((((f (i + 7) : Int) - 1 - f i : Int) : ℚ) / 7)| ≤ 1 / 1000) :
    abs (x - |(i' : ℚ) - i|) ≤ (N : ℚ) / 12 := by
  obtain ⟨α, β, hα, h⟩ := h
  have k1 := h i (by omega)
  have k2 := h (i + 7) (by omega)
  have k3 := h i' (by omega)
  have k4 := h (i' + 7) (by omega)
  clear h
  push_cast at k1 k2 k3 k4 hx
  have ha' : |2 * (a : ℚ) - (2 * f i' + (f (i' + 7) - 1 - f i'))| ≤ 1 := by exact_mod_cast ha
  clear ha
  generalize (f i : ℚ) = p at *
  generalize (f (i + 7) : ℚ) = q at *
  generalize (f i' : ℚ) = p' at *
  generalize (f (i' + 7) : ℚ) = q' at *
  rw [abs_le] at k1 k2 k3 k4 ha'
  have hd : |((a : ℚ) - p - (q - 1 - p) / 2) - α * ((i' : ℚ) - i)| ≤ 3 / 2 := by
    rw [abs_le]; constructor <;> linarith
  have hd := (abs_abs_sub_abs_le_abs_sub _ _).trans hd
  rw [abs_mul, abs_of_pos (show 0 < α by linarith)] at hd
  have t1 : α - 2 / 7 ≤ (q - 1 - p) / 7 := by linarith
  have t2 : (q - 1 - p) / 7 ≤ α := by linarith
  have N1 : (14 : ℚ) ≤ N := by exact_mod_cast hN
  have D1 : |(i' : ℚ) - i| ≤ N := by
    have h1' : (i : ℚ) ≤ i' + N := by exact_mod_cast h1
    have h2' : (i' : ℚ) ≤ i + N := by exact_mod_cast h2
    rw [abs_le]; constructor <;> linarith
  have D0 := abs_nonneg ((i' : ℚ) - i)
  have d0 := abs_nonneg ((a : ℚ) - p - (q - 1 - p) / 2)
  generalize |(i' : ℚ) - i| = Δ at *
  generalize |(a : ℚ) - p - (q - 1 - p) / 2| = d at *
  generalize (q - 1 - p) / 7 = t at *
  clear k1 k2 k3 k4 ha'
  have t0 : 0 < t := by linarith
  rw [abs_le] at hd hx ⊢
  have u1 : d / t ≤ Δ + N / 12 - 1 / 1000 := by
    rw [div_le_iff₀ t0]
    have : (Δ + N / 12 - 1 / 1000) * (α - 2 / 7) ≤ (Δ + N / 12 - 1 / 1000) * t := mul_le_mul_of_nonneg_left t1 (by linarith)
    refine le_trans ?_ this
    nlinarith
  have u2 : Δ - N / 12 + 1 / 1000 ≤ d / t := by
    by_cases hneg : Δ - N / 12 + 1 / 1000 ≤ 0
    · exact hneg.trans (by positivity)
    · rw [le_div_iff₀ t0]
      have : (Δ - N / 12 + 1 / 1000) * t ≤ (Δ - N / 12 + 1 / 1000) * α := mul_le_mul_of_nonneg_left t2 (by linarith)
      refine this.trans ?_
      nlinarith
  constructor <;> linarith

theorem Spec.Stretches.inside' (h : Stretches img n M L) {i j : Nat} (hi : i < L.column n) (hj : j < L.row n) :
    |((L.place.pixel i j).x : ℚ)| ≤ 10000 ∧ |((L.place.pixel i j).y : ℚ)| ≤ 10000 := by
  have := h.inside i j hi hj
  have hx : |(L.pixel i j).x| ≤ 10000 := by rw [abs_le]; omega
  have hy : |(L.pixel i j).y| ≤ 10000 := by rw [abs_le]; omega
  exact ⟨by exact_mod_cast hx, by exact_mod_cast hy⟩

/-- A whole drawing is at most 10001 pixels wide. -/
theorem Spec.Stretches.size (h : Stretches img n M L) (hn : 0 < n) : L.column n ≤ 10001 ∧ L.row n ≤ 10001 := by
  have c := h.columns.lt hn (Nat.le_refl n)
  have r := h.rows.lt hn (Nat.le_refl n)
  have h1 := h.inside 0 0 (by omega) (by omega)
  have h2 := h.inside (L.column n - 1) 0 (by omega) (by omega)
  have h3 := h.inside 0 (L.row n - 1) (by omega) (by omega)
  revert h1 h2 h3
  unfold Layout.pixel pixel Layout.place
  rcases h.axis with h | h | h | h <;> rw [h] <;> dsimp only <;> intro h1 h2 h3 <;> omega

/-- The size of a finder pattern. -/
theorem Spec.Even.finder {f : Nat → Nat} (h : Even n f) {a : Nat} (ha : a + 7 ≤ n) : f a + 48 ≤ f (a + 7) := by
  obtain ⟨α, β, hα, h⟩ := h
  have := (Spec.Even.sub_le h (i := a) (d := 7) ha).1
  have h2 : (f a : ℚ) + 48 ≤ f (a + 7) := by push_cast at this; linarith
  exact_mod_cast h2

/-- How far the capstones of a drawing are from each other, in modules of one of them. -/
theorem Spec.Layout.Cap.distances (h : Stretches img n M L) {i j N : Nat} {cap : CapStone F} (hi : i + 7 ≤ n) (hj : j + 7 ≤ n) (hN : N + 7 = n)
    (hN' : 14 ≤ N) (hc : L.Cap i j cap) :
    (∀ i' j' (cap' : CapStone F), i' + 7 ≤ n → j' + 7 ≤ n → L.Cap i' j' cap' → ∃ x y : ℚ, Is (axes cap cap'.center).1 x ∧
      Is (axes cap cap'.center).2 y ∧ abs (x - |(i' : ℚ) - i|) ≤ (N : ℚ) / 12 ∧ abs (y - |(j' : ℚ) - j|) ≤ (N : ℚ) / 12) ∨
    (∀ i' j' (cap' : CapStone F), i' + 7 ≤ n → j' + 7 ≤ n → L.Cap i' j' cap' → ∃ x y : ℚ, Is (axes cap cap'.center).1 x ∧
      Is (axes cap cap'.center).2 y ∧ abs (x - |(j' : ℚ) - j|) ≤ (N : ℚ) / 12 ∧ abs (y - |(i' : ℚ) - i|) ≤ (N : ℚ) / 12) := by
  obtain ⟨c, r⟩ := h.size (by omega)
  have cb := h.columns.finder hi
  have rb := h.rows.finder hj
  have cl := h.columns.le hi (Nat.le_refl n)
  have rl := h.rows.le hj (Nat.le_refl n)
  have inside : ∀ {i' j' : Nat} {a b : Int}, i' + 7 ≤ n → j' + 7 ≤ n →
      |2 * a - (2 * L.column i' + ((L.column (i' + 7) : Int) - 1 - L.column i'))| ≤ 1 → |2 * b - (2 * L.row j' + ((L.row (j' + 7) : Int) - 1 - L.row j'))| ≤ 1 →
      |((L.place.pixel a b).x : ℚ)| ≤ 1000000 ∧ |((L.place.pixel a b).y : ℚ)| ≤ 1000000 := by
    intro i' j' a b hi' hj' ha hb
    have cb := h.columns.finder hi'
    have rb := h.rows.finder hj'
    have cl := h.columns.le hi' (Nat.le_refl n)
    have rl := h.rows.le hj' (Nat.le_refl n)
    rw [abs_le] at ha hb
    obtain ⟨a', rfl⟩ := Int.eq_ofNat_of_zero_le (show 0 ≤ a by omega)
    obtain ⟨b', rfl⟩ := Int.eq_ofNat_of_zero_le (show 0 ≤ b by omega)
    have := h.inside' (i := a') (j := b') (by omega) (by omega)
    exact ⟨this.1.trans (by norm_num), this.2.trans (by norm_num)⟩
  rcases BoxedCap.distances (by exact h.axis) (by omega) (by omega) (by omega) (by omega) hc with hd | hd
  · left
    intro i' j' cap' hi' hj' hc'
    obtain ⟨a, b, ec, ha, hb⟩ := hc'.center
    obtain ⟨p1, p2⟩ := inside hi' hj' ha hb
    obtain ⟨x, y, hx, hy, e1, e2⟩ := hd a b p1 p2
    rw [ec]
    exact ⟨x, y, hx, hy, h.columns.distance hi hi' hN' (by omega) (by omega) ha e1, h.rows.distance hj hj' hN' (by omega) (by omega) hb e2⟩
  · right
    intro i' j' cap' hi' hj' hc'
    obtain ⟨a, b, ec, ha, hb⟩ := hc'.center
    obtain ⟨p1, p2⟩ := inside hi' hj' ha hb
    obtain ⟨x, y, hx, hy, e1, e2⟩ := hd a b p1 p2
    rw [ec]
    exact ⟨x, y, hx, hy, h.rows.distance hj hj' hN' (by omega) (by omega) hb e1, h.columns.distance hi hi' hN' (by omega) (by omega) ha e2⟩

/-- Three capstones at the corners of a drawing. -/
structure BoxThree (L : Layout) (N : Nat) (caps : List (CapStone F)) (t r b : Nat) (ct cr cb : CapStone F) : Prop where
  length : caps.length = 3
  tr : t ≠ r
  tb : t ≠ b
  rb : r ≠ b
  top : caps[t]? = some ct
  right : caps[r]? = some cr
  bottom : caps[b]? = some cb
  cap_t : L.Cap 0 0 ct
  cap_r : L.Cap N 0 cr
  cap_b : L.Cap 0 N cb

variable {N : Nat} {caps : List (CapStone F)} {t r b : Nat} {ct cr cb : CapStone F}

omit [Rounding F] in
theorem BoxThree.cases (h : BoxThree L N caps t r b ct cr cb) {q : Nat} {c : CapStone F} (hq : caps[q]? = some c) :
    (q = t ∧ c = ct) ∨ (q = r ∧ c = cr) ∨ (q = b ∧ c = cb) := by
  have l := h.length
  have h0 := (List.getElem?_eq_some_iff.1 hq).1
  have h1 := (List.getElem?_eq_some_iff.1 h.top).1
  have h2 := (List.getElem?_eq_some_iff.1 h.right).1
  have h3 := (List.getElem?_eq_some_iff.1 h.bottom).1
  have h4 := h.tr
  have h5 := h.tb
  have h6 := h.rb
  have : q = t ∨ q = r ∨ q = b := by omega
  rcases this with rfl | rfl | rfl
  · exact .inl ⟨rfl, Option.some.inj (hq.symm.trans h.top)⟩
  · exact .inr (.inl ⟨rfl, Option.some.inj (hq.symm.trans h.right)⟩)
  · exact .inr (.inr ⟨rfl, Option.some.inj (hq.symm.trans h.bottom)⟩)

/-- Only the capstone in the corner has a pair of neighbours. -/
theorem BoxThree.rank (hR : Stretches img n M L) (hN : N + 7 = n) (h14 : 14 ≤ N) (h20 : N ≤ 20000) (h : BoxThree L N caps t r b ct cr cb) :
    (∃ pairs, find_and_rank_possible_neighbors caps t = .ok pairs ∧ ((∀ p, p ∈ pairs ↔ p = (r, b)) ∨ (∀ p, p ∈ pairs ↔ p = (b, r)))) ∧
    find_and_rank_possible_neighbors caps r = .ok [] ∧ find_and_rank_possible_neighbors caps b = .ok [] := by
  have k1 : (14 : ℚ) ≤ N := by exact_mod_cast h14
  have k2 : (N : ℚ) ≤ 20000 := by exact_mod_cast h20
  have hlt := (List.getElem?_eq_some_iff.1 h.top).1
  have hlr := (List.getElem?_eq_some_iff.1 h.right).1
  have hlb := (List.getElem?_eq_some_iff.1 h.bottom).1
  have et : caps[t] = ct := (List.getElem?_eq_some_iff.1 h.top).2
  have er : caps[r] = cr := (List.getElem?_eq_some_iff.1 h.right).2
  have eb : caps[b] = cb := (List.getElem?_eq_some_iff.1 h.bottom).2
  have absK : |(N : ℚ) - ((0 : Nat) : ℚ)| = N := by rw [Nat.cast_zero, sub_zero, abs_of_nonneg (by positivity)]
  have absK' : |((0 : Nat) : ℚ) - (N : ℚ)| = N := by rw [abs_sub_comm, absK]
  have abs0 : ∀ i : Nat, |(i : ℚ) - i| = 0 := by intro i; rw [sub_self, abs_zero]
  refine ⟨?_, ?_, ?_⟩
  · rcases h.cap_t.distances hR (by omega) (by omega) hN h14 with hd | hd
    · obtain ⟨xr, yr, rx, ry, r1, r2⟩ := hd _ _ _ (by omega) (by omega) h.cap_r
      obtain ⟨xb, yb, bx, by', b1, b2⟩ := hd _ _ _ (by omega) (by omega) h.cap_b
      rw [absK] at r1 b2
      rw [abs0, sub_zero] at r2 b1
      obtain ⟨pairs, e, hp⟩ := rank_corner hlt et h.bottom h.right h.tb h.tr (fun q c hq => by
        rcases h.cases hq with h | h | h
        · exact .inl h.1
        · exact .inr (.inr h)
        · exact .inr (.inl h)) k1 k2
        ⟨⟨xb, yb, bx, by', b1, b2⟩, ⟨xr, yr, rx, ry, r1, r2⟩⟩
      exact ⟨pairs, e, .inr hp⟩
    · obtain ⟨xr, yr, rx, ry, r1, r2⟩ := hd _ _ _ (by omega) (by omega) h.cap_r
      obtain ⟨xb, yb, bx, by', b1, b2⟩ := hd _ _ _ (by omega) (by omega) h.cap_b
      rw [absK] at r2 b1
      rw [abs0, sub_zero] at r1 b2
      obtain ⟨pairs, e, hp⟩ := rank_corner hlt et h.right h.bottom h.tr h.tb (fun q c hq => by
        rcases h.cases hq with h | h | h
        · exact .inl h.1
        · exact .inr (.inl h)
        · exact .inr (.inr h)) k1 k2
        ⟨⟨xr, yr, rx, ry, r1, r2⟩, ⟨xb, yb, bx, by', b1, b2⟩⟩
      exact ⟨pairs, e, .inl hp⟩
  · refine rank_end (f := t) (g := b) (cf := ct) (cg := cb) hlr er (fun q c hq => by
        rcases h.cases hq with h | h | h
        · exact .inr (.inl h)
        · exact .inl h.1
        · exact .inr (.inr h)) k1 k2 ?_
    rcases h.cap_r.distances hR (by omega) (by omega) hN h14 with hd | hd
    · obtain ⟨xt, yt, tx, ty, t1, t2⟩ := hd _ _ _ (by omega) (by omega) h.cap_t
      obtain ⟨xb, yb, bx, by', b1, b2⟩ := hd _ _ _ (by omega) (by omega) h.cap_b
      rw [absK'] at t1 b1
      rw [abs0, sub_zero] at t2
      rw [absK] at b2
      exact ⟨⟨xt, yt, tx, ty, .inr ⟨t1, t2⟩⟩, ⟨xb, yb, bx, by', b1, b2⟩⟩
    · obtain ⟨xt, yt, tx, ty, t1, t2⟩ := hd _ _ _ (by omega) (by omega) h.cap_t
      obtain ⟨xb, yb, bx, by', b1, b2⟩ := hd _ _ _ (by omega) (by omega) h.cap_b
      rw [absK'] at t2 b2
      rw [abs0, sub_zero] at t1
      rw [absK] at b1
      exact ⟨⟨xt, yt, tx, ty, .inl ⟨t1, t2⟩⟩, ⟨xb, yb, bx, by', b1, b2⟩⟩
  · refine rank_end (f := t) (g := r) (cf := ct) (cg := cr) hlb eb (fun q c hq => by
        rcases h.cases hq with h | h | h
        · exact .inr (.inl h)
        · exact .inr (.inr h)
        · exact .inl h.1) k1 k2 ?_
    rcases h.cap_b.distances hR (by omega) (by omega) hN h14 with hd | hd
    · obtain ⟨xt, yt, tx, ty, t1, t2⟩ := hd _ _ _ (by omega) (by omega) h.cap_t
      obtain ⟨xb, yb, bx, by', b1, b2⟩ := hd _ _ _ (by omega) (by omega) h.cap_r
      rw [absK'] at t2 b2
      rw [abs0, sub_zero] at t1
      rw [absK] at b1
      exact ⟨⟨xt, yt, tx, ty, .inl ⟨t1, t2⟩⟩, ⟨xb, yb, bx, by', b1, b2⟩⟩
    · obtain ⟨xt, yt, tx, ty, t1, t2⟩ := hd _ _ _ (by omega) (by omega) h.cap_t
      obtain ⟨xb, yb, bx, by', b1, b2⟩ := hd _ _ _ (by omega) (by omega) h.cap_r
      rw [absK'] at t1 b1
      rw [abs0, sub_zero] at t2
      rw [absK] at b2
      exact ⟨⟨xt, yt, tx, ty, .inr ⟨t1, t2⟩⟩, ⟨xb, yb, bx, by', b1, b2⟩⟩

end Rqrr
