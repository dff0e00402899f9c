import Verif.Proofs.Modules
import Verif.Props.Detect

/-!
# What is mistaken for a finder pattern in a drawing can be told from the matrix
-/

namespace Rqrr

open Spec ImageBuffer

/-- A line of pixels drawn from a line of modules: its colours change between modules only. -/
structure Stretched (f F : Nat → Bool) (base s : Nat) : Prop where
  pos : 0 < s
  before : ∀ x < base, f x = false
  inner : ∀ z, f (base + z) = F (z / s)

namespace Stretched

variable {f F : Nat → Bool} {base s : Nat}

theorem boundary (h : Stretched f F base s) {x : Nat} (hx : 1 ≤ x) (hne : f (x - 1) ≠ f x) : ∃ t, x = base + t * s := by
  rcases Nat.lt_or_ge x base with hlt | hge
  · exact absurd ((h.before _ (by omega)).trans (h.before _ hlt).symm) hne
  · obtain ⟨z, rfl⟩ := Nat.exists_eq_add_of_le hge
    rcases Nat.eq_zero_or_pos z with rfl | hz
    · exact ⟨0, by omega⟩
    · obtain ⟨w, rfl⟩ : ∃ w, z = w + 1 := ⟨z - 1, by omega⟩
      rw [show base + (w + 1) - 1 = base + w by omega, h.inner, h.inner, Nat.succ_div] at hne
      by_cases hd : s ∣ w + 1
      · obtain ⟨t, ht⟩ := hd
        exact ⟨t, by rw [ht, Nat.mul_comm]⟩
      · rw [if_neg hd, Nat.add_zero] at hne
        exact absurd rfl hne

theorem at_module (h : Stretched f F base s) (t : Nat) : f (base + t * s) = F t := by
  rw [h.inner, Nat.mul_div_cancel _ h.pos]

/-- Five runs of pixels are five runs of modules. -/
theorem five_runs (h : Stretched f F base s) {X : Nat} {pos : LinePosition} (hX : 1 ≤ X) (h1 : f (X - 1) = true) (h2 : f X = false)
    (hr : FinderRuns f X pos) : ∃ t0 t1 t2 t3 t4 t5, pos.left = base + t0 * s ∧ pos.stone = base + t2 * s ∧ pos.right = base + t4 * s ∧
      FiveRuns F t0 t1 t2 t3 t4 t5 ∧
      FinderRatio ((t1 - t0) * s) ((t2 - t1) * s) ((t3 - t2) * s) ((t4 - t3) * s) ((t5 - t4) * s) := by
  obtain ⟨x1, x3, ⟨a1, a2, a3⟩, ⟨b1, b2, b3⟩, ⟨c1, c2, c3⟩, ⟨d1, d2, d3⟩, ⟨e1, e2, e3⟩, hratio⟩ := hr
  have hs := h.pos
  have col5 : f pos.right = true := by rw [← e2 (X - 1) (by omega) (by omega)]; exact h1
  have ne4 : f (pos.right - 1) ≠ f pos.right := e3.resolve_left (by omega)
  have col4 : f x3 = false := by
    rw [d2 (pos.right - 1) (by omega) (by omega), col5] at ne4
    simpa using ne4
  have ne3 : f (x3 - 1) ≠ f x3 := d3.resolve_left (by omega)
  have col3 : f pos.stone = true := by
    rw [c2 (x3 - 1) (by omega) (by omega), col4] at ne3
    simpa using ne3
  have ne2 : f (pos.stone - 1) ≠ f pos.stone := c3.resolve_left (by omega)
  have col2 : f x1 = false := by
    rw [b2 (pos.stone - 1) (by omega) (by omega), col3] at ne2
    simpa using ne2
  have ne1 : f (x1 - 1) ≠ f x1 := b3.resolve_left (by omega)
  have col1 : f pos.left = true := by
    rw [a2 (x1 - 1) (by omega) (by omega), col2] at ne1
    simpa using ne1
  have e0 : ∃ t0, pos.left = base + t0 * s := by
    rcases a3 with h0 | hne
    · rcases Nat.eq_zero_or_pos base with hb | hb
      · exact ⟨0, by omega⟩
      · rw [h.before _ (by omega)] at col1
        cases col1
    · exact h.boundary (by
        rcases Nat.eq_zero_or_pos pos.left with h0 | h0
        · rw [h0] at hne; exact absurd rfl hne
        · exact h0) hne
  obtain ⟨t0, p0⟩ := e0
  obtain ⟨t1, p1⟩ := h.boundary (by omega) ne1
  obtain ⟨t2, p2⟩ := h.boundary (by omega) ne2
  obtain ⟨t3, p3⟩ := h.boundary (by omega) ne3
  obtain ⟨t4, p4⟩ := h.boundary (by omega) ne4
  obtain ⟨t5, p5⟩ := h.boundary hX (by rw [h1, h2]; simp)
  have lt : ∀ {a b : Nat}, base + a * s < base + b * s → a < b := fun hab => Nat.lt_of_mul_lt_mul_right (Nat.lt_of_add_lt_add_left hab)
  have mono : ∀ {a b : Nat}, a < b → base + a * s < base + b * s := fun hab => Nat.add_lt_add_left (Nat.mul_lt_mul_of_pos_right hab hs) _
  have monole : ∀ {a b : Nat}, a ≤ b → base + a * s ≤ base + b * s := fun hab => Nat.add_le_add_left (Nat.mul_le_mul_right _ hab) _
  have diff : ∀ a b : Nat, base + b * s - (base + a * s) = (b - a) * s := by
    intro a b
    rw [Nat.add_sub_add_left, Nat.sub_mul]
  have run : ∀ {a b : Nat} {c : Bool}, (∀ i, base + a * s ≤ i → i < base + b * s → f i = f (base + a * s)) → f (base + a * s) = c →
      ∀ t, a ≤ t → t < b → F t = c := by
    intro a b c hi hc t h1 h2
    rw [← h.at_module, hi _ (monole h1) (mono h2)]
    exact hc
  rw [p0] at a1 a2 a3 col1
  rw [p1] at a1 a2 b1 b2 b3 col2
  rw [p2] at b1 b2 c1 c2 c3 col3
  rw [p3] at c1 c2 d1 d2 d3 col4
  rw [p4] at d1 d2 e1 e2 e3 col5
  rw [p5] at e1 e2 h2
  refine ⟨t0, t1, t2, t3, t4, t5, p0, p2, p4, ?_, ?_⟩
  · refine ⟨?_, by rw [← h.at_module]; exact h2, lt a1, lt b1, lt c1, lt d1, lt e1, run a2 col1, run b2 col2, run c2 col3, run d2 col4, run e2 col5⟩
    rcases Nat.eq_zero_or_pos t0 with h0 | h0
    · exact .inl h0
    · right
      have hpos : 0 < t0 * s := Nat.mul_pos h0 hs
      have hne : f (base + t0 * s - 1) ≠ f (base + t0 * s) := a3.resolve_left (by omega)
      rw [col1] at hne
      obtain ⟨u, rfl⟩ : ∃ u, t0 = u + 1 := ⟨t0 - 1, by omega⟩
      rw [show base + (u + 1) * s - 1 = base + (u * s + (s - 1)) by rw [Nat.add_mul]; omega, h.inner,
        Nat.mul_comm, Nat.mul_add_div hs, Nat.div_eq_of_lt (show s - 1 < s by omega)] at hne
      simpa using hne
  · rw [p0, p1, p2, p3, p4, p5, diff, diff, diff, diff, diff] at hratio
    exact hratio

end Stretched

theorem ratio_symm {a b c d e : Nat} (h : FinderRatio a b c d e) : FinderRatio e d c b a := by
  unfold FinderRatio at h ⊢
  dsimp only at h ⊢
  rw [show e + d + b + a = a + b + d + e by omega]
  obtain ⟨h1, h2, h3, h4, h5⟩ := h
  exact ⟨h5, h4, h3, h2, h1⟩

/-- Read from the other end. -/
theorem five_runs_reverse {f F : Nat → Bool} {n t0 t1 t2 t3 t4 t5 : Nat} (hf : ∀ t < n, f t = F (n - 1 - t)) (hn : ∀ t, n ≤ t → f t = false)
    (h : FiveRuns F t0 t1 t2 t3 t4 t5) (h5 : t5 ≤ n) : FiveRuns f (n - t5) (n - t4) (n - t3) (n - t2) (n - t1) (n - t0) := by
  obtain ⟨hb, ha, l0, l1, l2, l3, l4, d0, d1, d2, d3, d4⟩ := h
  refine ⟨?_, ?_, by omega, by omega, by omega, by omega, by omega, ?_, ?_, ?_, ?_, ?_⟩
  · rcases Nat.eq_zero_or_pos (n - t5) with h | h
    · exact .inl h
    · right
      rw [hf _ (by omega), show n - 1 - (n - t5 - 1) = t5 by omega]
      exact ha
  · rcases Nat.eq_zero_or_pos t0 with h | h
    · exact hn _ (by omega)
    · rw [hf _ (by omega), show n - 1 - (n - t0) = t0 - 1 by omega]
      exact hb.resolve_left (by omega)
  · intro t h1 h2
    rw [hf _ (by omega)]
    exact d4 _ (by omega) (by omega)
  · intro t h1 h2
    rw [hf _ (by omega)]
    exact d3 _ (by omega) (by omega)
  · intro t h1 h2
    rw [hf _ (by omega)]
    exact d2 _ (by omega) (by omega)
  · intro t h1 h2
    rw [hf _ (by omega)]
    exact d1 _ (by omega) (by omega)
  · intro t h1 h2
    rw [hf _ (by omega)]
    exact d0 _ (by omega) (by omega)

theorem reverse_div {n s z : Nat} (hs : 0 < s) (hz : z < n * s) : (n * s - 1 - z) / s = n - 1 - z / s := by
  have h1 := Nat.div_add_mod z s
  have h2 := Nat.mod_lt z hs
  have h3 : z / s < n := (Nat.div_lt_iff_lt_mul hs).2 hz
  refine Nat.div_eq_of_lt_le ?_ ?_
  · rw [Nat.sub_mul, Nat.sub_mul, Nat.mul_comm (z / s)]; omega
  · rw [Nat.add_mul, Nat.sub_mul, Nat.sub_mul, Nat.mul_comm (z / s)]; omega

variable {S : Type} [ImageBuffer S] [LawfulImage S] {img : PreparedImage S} {n : Nat} {M : Nat → Nat → Bool} {P : Placement}

/-- A row of pixels with a black one shows a row or a column of the matrix, from one end or the other. -/
theorem row_line (hR : Pictures img n M P) {x0 y : Nat} (hb : IsBlack img (x0, y)) :
    ∃ (base k : Nat) (column reversed : Bool), k < n ∧ (∀ x, IsBlack img (x, y) → base ≤ x ∧ x < base + n * P.scale) ∧
      ∀ z < n * P.scale, ∃ c : Pos, P.At c (base + z, y) ∧ c.1 < n * P.scale ∧ c.2 < n * P.scale ∧
        (c.1 / P.scale, c.2 / P.scale) = cell column k (if reversed then n - 1 - z / P.scale else z / P.scale) := by
  have hs : 0 < P.scale := by have := hR.scale; omega
  obtain ⟨i, j, hi, hj, hij, -⟩ := (hR.black _).1 hb
  have ki : i / P.scale < n := (Nat.div_lt_iff_lt_mul hs).2 hi
  have kj : j / P.scale < n := (Nat.div_lt_iff_lt_mul hs).2 hj
  obtain ⟨N, hN⟩ : ∃ N, N = n * P.scale := ⟨_, rfl⟩
  have k0 := hR.inside 0 0 (by omega) (by omega)
  have k1 := hR.inside (n * P.scale - 1) (n * P.scale - 1) (by omega) (by omega)
  rw [← hN] at hi hj k1
  rw [show ((N - 1 : Nat) : Int) = N - 1 by omega] at k1
  have hrow : ∀ x, IsBlack img (x, y) → ∃ i' j' : Nat, i' < N ∧ j' < N ∧ P.pixel i' j' = ⟨x, y⟩ := by
    intro x hx
    obtain ⟨i', j', a, b, c, -⟩ := (hR.black _).1 hx
    exact ⟨i', j', hN ▸ a, hN ▸ b, c⟩
  have rev : ∀ z < N, (N - 1 - z) / P.scale = n - 1 - z / P.scale := by
    intro z hz
    rw [hN]
    exact reverse_div hs (hN ▸ hz)
  rw [← hN]
  unfold Spec.Placement.At
  revert k0 k1 hij hrow
  unfold Spec.Placement.pixel
  dsimp only
  rcases hR.axis with h | h | h | h <;> rw [h] <;> dsimp only <;> simp only [mul_one, mul_zero, mul_neg, Nat.cast_zero, neg_zero, add_zero, sub_zero, Point.mk.injEq] <;>
    intro k0 k1 hij hrow
  · refine ⟨P.corner.x.toNat, j / P.scale, false, false, kj, fun x hx => ?_, fun z hz => ⟨(z, j), ?_, hz, hj, rfl⟩⟩
    · obtain ⟨i', j', a, b, c⟩ := hrow x hx
      omega
    · dsimp only; push_cast; omega
  · refine ⟨(P.corner.x - (N - 1)).toNat, i / P.scale, true, true, ki, fun x hx => ?_, fun z hz => ⟨(i, N - 1 - z), ?_, hi, by dsimp only; omega, ?_⟩⟩
    · obtain ⟨i', j', a, b, c⟩ := hrow x hx
      omega
    · dsimp only; push_cast; omega
    · dsimp only [cell]; rw [rev z hz]; rfl
  · refine ⟨(P.corner.x - (N - 1)).toNat, j / P.scale, false, true, kj, fun x hx => ?_, fun z hz => ⟨(N - 1 - z, j), ?_, by dsimp only; omega, hj, ?_⟩⟩
    · obtain ⟨i', j', a, b, c⟩ := hrow x hx
      omega
    · dsimp only; push_cast; omega
    · dsimp only [cell]; rw [rev z hz]; rfl
  · refine ⟨P.corner.x.toNat, i / P.scale, true, false, ki, fun x hx => ?_, fun z hz => ⟨(i, z), ?_, hi, hz, rfl⟩⟩
    · obtain ⟨i', j', a, b, c⟩ := hrow x hx
      omega
    · dsimp only; push_cast; omega

theorem run_joined {column : Bool} {k a b : Nat} (hk : k < n) (h : ∀ t, a ≤ t → t < b → lineOf n M column k t = true) {p q : Nat}
    (hp : a ≤ p) (hp' : p < b) (hq : a ≤ q) (hq' : q < b) : Reach (DarkModule n M) (cell column k p) (cell column k q) := by
  have dark : ∀ t, a ≤ t → t < b → DarkModule n M (cell column k t) := by
    intro t h1 h2
    have := h t h1 h2
    unfold lineOf at this
    rw [Bool.and_eq_true, decide_eq_true_iff] at this
    unfold DarkModule
    unfold cell at this ⊢
    cases column
    · exact ⟨this.1, hk, this.2⟩
    · exact ⟨hk, this.1, this.2⟩
  have key : ∀ p, a ≤ p → p < b → Reach (DarkModule n M) (cell column k p) (cell column k a) := by
    intro p h1 h2
    cases column
    · exact back_h h1 fun x' i1 i2 => dark x' i1 (by omega)
    · exact back_v h1 fun x' i1 i2 => dark x' i1 (by omega)
  exact (key p hp hp').trans (key q hq hq').symm

theorem span_place {column : Bool} {k t t0 t5 : Nat} (hn : 7 ≤ n) (hk : k < n) (h : FinderSpan n k t0 t5) (h0 : t0 ≤ t) (h5 : t < t5) (hn5 : t5 ≤ n) :
    ∃ a b, FinderPlace n a b ∧ a ≤ (cell column k t).1 ∧ (cell column k t).1 < a + 7 ∧ b ≤ (cell column k t).2 ∧ (cell column k t).2 < b + 7 := by
  unfold FinderSpan at h
  unfold FinderPlace cell
  rcases h with ⟨hk', h | h⟩ | ⟨hk', h⟩
  · refine ⟨0, 0, .inl ⟨rfl, rfl⟩, ?_⟩
    cases column <;> simp <;> omega
  · cases column
    · exact ⟨n - 7, 0, .inr (.inl ⟨rfl, rfl⟩), by simp; omega⟩
    · exact ⟨0, n - 7, .inr (.inr ⟨rfl, rfl⟩), by simp; omega⟩
  · cases column
    · exact ⟨0, n - 7, .inr (.inr ⟨rfl, rfl⟩), by simp; omega⟩
    · exact ⟨n - 7, 0, .inr (.inl ⟨rfl, rfl⟩), by simp; omega⟩

/-- If nothing in the matrix can be mistaken for a finder pattern then nothing in the drawing is. -/
theorem unmistakable_spec (hn : 7 ≤ n) (hR : Pictures img n M P) (hU : Unmistakable n M P.scale) : OnlyFinders img n P := by
  intro y X pos hshape hring
  obtain ⟨hX, h1, h2, hruns⟩ := hshape
  have hrow : ∀ x, rowOf img y x = true ↔ IsBlack img (x, y) := fun x => @decide_eq_true_iff _ (Classical.propDecidable _)
  obtain ⟨base, k, column, reversed, hk, hout, hin⟩ := row_line hR ((hrow _).1 h1)
  have hs : 0 < P.scale := by have := hR.scale; omega
  obtain ⟨idx, hidx⟩ : ∃ idx : Nat → Nat, idx = fun t => if reversed then n - 1 - t else t := ⟨_, rfl⟩
  obtain ⟨F, hF⟩ : ∃ F : Nat → Bool, F = fun t => decide (t < n) && M (cell column k (idx t)).2 (cell column k (idx t)).1 := ⟨_, rfl⟩
  have hst : Stretched (rowOf img y) F base P.scale := by
    refine ⟨hs, fun x hx => ?_, fun z => ?_⟩
    · rw [Bool.eq_false_iff]
      intro h
      have := hout x ((hrow x).1 h)
      omega
    · rw [Bool.eq_iff_iff, hrow, hF]
      dsimp only
      rw [Bool.and_eq_true, decide_eq_true_iff]
      by_cases hz : z < n * P.scale
      · obtain ⟨c, c1, c2, c3, c4⟩ := hin z hz
        have hd : z / P.scale < n := (Nat.div_lt_iff_lt_mul hs).2 hz
        rw [← at_inked hR c1]
        unfold Inked
        have e : cell column k (idx (z / P.scale)) = (c.1 / P.scale, c.2 / P.scale) := by rw [hidx]; exact c4.symm
        rw [e]
        exact ⟨fun h => ⟨hd, h.2.2⟩, fun h => ⟨c2, c3, h.2⟩⟩
      · constructor
        · intro h
          have := hout _ h
          omega
        · rintro ⟨h, -⟩
          exact absurd ((Nat.div_lt_iff_lt_mul hs).1 h) hz
  obtain ⟨T0, T1, T2, T3, T4, T5, pl, ps, pr, five, ratio⟩ := hst.five_runs hX h1 h2 hruns
  have hT5 : T5 ≤ n := by
    have := five.dark4 (T5 - 1) (by have := five.lt4; omega) (by have := five.lt4; omega)
    rw [hF] at this
    dsimp only at this
    rw [Bool.and_eq_true, decide_eq_true_iff] at this
    have := five.lt4
    omega
  have l0 := five.lt0
  have l1 := five.lt1
  have l2 := five.lt2
  have l3 := five.lt3
  have l4 := five.lt4
  have place : ∀ T < n, ∃ c, P.At c (base + T * P.scale, y) ∧
      (c.1 / P.scale, c.2 / P.scale) = cell column k (idx T) := by
    intro T hT
    obtain ⟨c, c1, c2, c3, c4⟩ := hin (T * P.scale) (Nat.mul_lt_mul_of_pos_right hT hs)
    refine ⟨c, c1, ?_⟩
    rw [c4, Nat.mul_div_cancel _ hs, hidx]
  obtain ⟨c0, a0, e0⟩ := place T0 (by omega)
  obtain ⟨c2, a2, e2⟩ := place T2 (by omega)
  obtain ⟨c4, a4, e4⟩ := place T4 (by omega)
  rw [← pl] at a0
  rw [← ps] at a2
  rw [← pr] at a4
  have joined := (reach_modules hs).1 ((reach_at hR a4 a0).1 hring.joined)
  have apart : ¬ Reach (DarkModule n M) (cell column k (idx T4)) (cell column k (idx T2)) := by
    intro h
    refine hring.apart ((reach_at hR a4 a2).2 ((reach_modules hs).2 ?_))
    rw [e4, e2]
    exact h
  rw [e4, e0] at joined
  have fin : ∃ t0 t5, t0 ≤ idx T4 ∧ idx T4 < t5 ∧ t5 ≤ n ∧ FinderSpan n k t0 t5 := by
    cases reversed with
    | false =>
      have hi : ∀ t, idx t = t := by intro t; rw [hidx]; rfl
      rw [hi, hi] at joined apart
      rw [hi]
      have : F = lineOf n M column k := by
        rw [hF]; funext t; rw [hi]; rfl
      rw [this] at five
      exact ⟨T0, T5, by omega, l4, hT5, hU column k T0 T1 T2 T3 T4 T5 hk five ratio joined apart⟩
    | true =>
      have hi : ∀ t, idx t = n - 1 - t := by intro t; rw [hidx]; rfl
      rw [hi, hi] at joined apart
      rw [hi]
      have five' := five_runs_reverse (f := lineOf n M column k) (F := F) (n := n) (by
        intro t ht
        rw [hF]
        dsimp only
        rw [hi, show n - 1 - (n - 1 - t) = t by omega, decide_eq_true (show n - 1 - t < n by omega)]
        unfold lineOf
        rw [decide_eq_true ht]) (by
        intro t ht
        unfold lineOf
        rw [decide_eq_false (by omega)]
        rfl) five hT5
      refine ⟨n - T5, n - T0, by omega, by omega, by omega, hU column k (n - T5) (n - T4) (n - T3) (n - T2) (n - T1) (n - T0) hk five' ?_ ?_ ?_⟩
      · have := ratio_symm ratio
        rwa [show n - T4 - (n - T5) = T5 - T4 by omega, show n - T3 - (n - T4) = T4 - T3 by omega, show n - T2 - (n - T3) = T3 - T2 by omega,
          show n - T1 - (n - T2) = T2 - T1 by omega, show n - T0 - (n - T1) = T1 - T0 by omega]
      · have r0 := run_joined hk five'.dark0 (p := n - T5) (q := n - 1 - T4) (by omega) (by omega) (by omega) (by omega)
        have r4 := run_joined hk five'.dark4 (p := n - T1) (q := n - 1 - T0) (by omega) (by omega) (by omega) (by omega)
        exact (r4.trans joined.symm).trans r0.symm
      · intro h
        have r0 := run_joined hk five'.dark0 (p := n - T5) (q := n - 1 - T4) (by omega) (by omega) (by omega) (by omega)
        have r4 := run_joined hk five'.dark4 (p := n - T1) (q := n - 1 - T0) (by omega) (by omega) (by omega) (by omega)
        have r2 := run_joined hk five'.dark2 (p := n - T3) (q := n - 1 - T2) (by omega) (by omega) (by omega) (by omega)
        exact apart ((joined.trans r4.symm).trans (h.trans r2))
  obtain ⟨t0, t5, f1, f2, f3, f4⟩ := fin
  obtain ⟨a, b, hab, g1, g2, g3, g4⟩ := span_place (column := column) hn hk f4 f1 f2 f3
  rw [← e4] at g1 g2 g3 g4
  dsimp only at g1 g2 g3 g4
  exact ⟨a, b, hab, c4.1, c4.2, (Nat.le_div_iff_mul_le hs).1 g1, (Nat.div_lt_iff_lt_mul hs).1 g2, (Nat.le_div_iff_mul_le hs).1 g3,
    (Nat.div_lt_iff_lt_mul hs).1 g4, a4⟩

end Rqrr
