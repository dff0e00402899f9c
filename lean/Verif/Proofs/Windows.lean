import Verif.Proofs.Mistake

/-!
# Checking a matrix for finder patterns

The check can be computed, and holds for all numbers of pixels per module at once.
-/

namespace Rqrr

open Spec

instance (a b c d e : Nat) : Decidable (FinderRatio a b c d e) := by unfold FinderRatio; infer_instance

/-- Lengths as 1:1:3:1:1, in the limit of many pixels per module. -/
def looseRatio (a b c d e : Nat) : Bool :=
  let t := a + b + d + e
  decide (t ≤ 16 * a ∧ 16 * a ≤ 7 * t ∧ t ≤ 16 * b ∧ 16 * b ≤ 7 * t ∧ 9 * t ≤ 16 * c ∧ 16 * c ≤ 15 * t ∧ t ≤ 16 * d ∧ 16 * d ≤ 7 * t ∧
    t ≤ 16 * e ∧ 16 * e ≤ 7 * t)

/-- Lengths that are as 1:1:3:1:1 with some number of pixels per module. -/
def someRatio (a b c d e : Nat) : Bool :=
  looseRatio a b c d e || (List.range 26).any fun s => decide (FinderRatio (a * (s + 2)) (b * (s + 2)) (c * (s + 2)) (d * (s + 2)) (e * (s + 2)))

theorem loose_of_ratio {a b c d e s : Nat} (hs : 28 ≤ s) (h : FinderRatio (a * s) (b * s) (c * s) (d * s) (e * s)) :
    looseRatio a b c d e = true := by
  unfold FinderRatio at h
  dsimp only at h
  unfold looseRatio
  dsimp only
  rw [decide_eq_true_iff]
  have ht : a * s + b * s + d * s + e * s = (a + b + d + e) * s := by ring
  rw [ht] at h
  obtain ⟨t, et⟩ : ∃ t, t = a + b + d + e := ⟨_, rfl⟩
  rw [← et] at h ⊢
  obtain ⟨T, eT⟩ : ∃ T, T = t * s := ⟨_, rfl⟩
  rw [← eT] at h
  obtain ⟨⟨a1, a2⟩, ⟨b1, b2⟩, ⟨c1, c2⟩, ⟨d1, d2⟩, ⟨e1, e2⟩⟩ := h
  have low : ∀ x : Nat, T / 4 ≤ x * s + T / 4 * 3 / 4 → t ≤ 16 * x := by
    intro x hx
    have h1 : t * s ≤ 16 * (x * s) + 3 := by omega
    by_contra hc
    have h2 : (16 * x + 1) * s ≤ t * s := Nat.mul_le_mul_right s (by omega)
    rw [Nat.add_mul, Nat.mul_assoc] at h2
    omega
  have high : ∀ x : Nat, x * s ≤ T / 4 + T / 4 * 3 / 4 → 16 * x ≤ 7 * t := by
    intro x hx
    have h1 : 16 * x * s ≤ 7 * t * s := by rw [Nat.mul_assoc, Nat.mul_assoc]; omega
    exact Nat.le_of_mul_le_mul_right h1 (by omega)
  have clow : 9 * t ≤ 16 * c := by
    have h1 : 9 * (t * s) ≤ 16 * (c * s) + 27 := by omega
    by_contra hc
    have h2 : (16 * c + 1) * s ≤ 9 * t * s := Nat.mul_le_mul_right s (by omega)
    rw [Nat.add_mul, Nat.mul_assoc, Nat.mul_assoc] at h2
    omega
  have chigh : 16 * c ≤ 15 * t := by
    have h1 : 16 * c * s ≤ 15 * t * s := by rw [Nat.mul_assoc, Nat.mul_assoc]; omega
    exact Nat.le_of_mul_le_mul_right h1 (by omega)
  exact ⟨low a a1, high a a2, low b b1, high b b2, clow, chigh, low d d1, high d d2, low e e1, high e e2⟩

theorem someRatio_spec {a b c d e s : Nat} (hs : 2 ≤ s) (h : FinderRatio (a * s) (b * s) (c * s) (d * s) (e * s)) :
    someRatio a b c d e = true := by
  unfold someRatio
  rw [Bool.or_eq_true]
  rcases Nat.lt_or_ge s 28 with hlt | hge
  · right
    rw [List.any_eq_true]
    refine ⟨s - 2, List.mem_range.2 (by omega), ?_⟩
    rw [decide_eq_true_iff, Nat.sub_add_cancel hs]
    exact h
  · exact .inl (loose_of_ratio hge h)

/-- The end of a run of this colour. -/
def endRun (f : Nat → Bool) (c : Bool) : Nat → Nat → Nat
  | 0, t => t
  | k + 1, t => if f t = c then endRun f c k (t + 1) else t

theorem endRun_spec {f : Nat → Bool} {c : Bool} : ∀ (k : Nat) {t t' : Nat}, (∀ u, t ≤ u → u < t' → f u = c) → f t' ≠ c → t ≤ t' → t' ≤ t + k →
    endRun f c k t = t'
  | 0, t, t', _, _, h1, h2 => by unfold endRun; omega
  | k + 1, t, t', h, hn, h1, h2 => by
    unfold endRun
    rcases Nat.eq_or_lt_of_le h1 with rfl | hlt
    · rw [if_neg hn]
    · rw [if_pos (h t (Nat.le_refl _) hlt)]
      exact endRun_spec k (fun u a b => h u (by omega) b) hn (by omega) (by omega)

/-- A table of the connected parts: for each dark module the number of its part and a distance from the first module of the part. -/
structure Parts where
  part : Nat → Nat → Nat
  depth : Nat → Nat → Nat

/-- The four neighbours. -/
def neighbours (m : Pos) : List Pos := [(m.1 + 1, m.2), (m.1 - 1, m.2), (m.1, m.2 + 1), (m.1, m.2 - 1)]

def darkB (n : Nat) (M : Nat → Nat → Bool) (m : Pos) : Bool := decide (m.1 < n) && (decide (m.2 < n) && M m.2 m.1)

theorem darkB_iff {n : Nat} {M : Nat → Nat → Bool} {m : Pos} : darkB n M m = true ↔ DarkModule n M m := by
  unfold darkB DarkModule
  rw [Bool.and_eq_true, Bool.and_eq_true, decide_eq_true_iff, decide_eq_true_iff]

/-- The table is right: neighbours belong to the same part, and from each module a shorter distance leads to the first one. -/
def Parts.check (t : Parts) (n : Nat) (M : Nat → Nat → Bool) : Bool :=
  (List.range n).all fun y => (List.range n).all fun x => !M y x ||
    ((!darkB n M (x + 1, y) || t.part y (x + 1) == t.part y x) && (!darkB n M (x, y + 1) || t.part (y + 1) x == t.part y x) &&
      (if t.depth y x = 0 then t.part y x == y * n + x
       else (neighbours (x, y)).any fun m => darkB n M m && (t.part m.2 m.1 == t.part y x) && decide (t.depth m.2 m.1 < t.depth y x) &&
        decide (m ≠ (x, y))))

theorem Parts.check_at {t : Parts} {n : Nat} {M : Nat → Nat → Bool} (h : t.check n M = true) {m : Pos} (hm : DarkModule n M m) :
    (darkB n M (m.1 + 1, m.2) = true → t.part m.2 (m.1 + 1) = t.part m.2 m.1) ∧
    (darkB n M (m.1, m.2 + 1) = true → t.part (m.2 + 1) m.1 = t.part m.2 m.1) ∧
    (t.depth m.2 m.1 = 0 → t.part m.2 m.1 = m.2 * n + m.1) ∧
    (t.depth m.2 m.1 ≠ 0 → ∃ m' ∈ neighbours m, DarkModule n M m' ∧ t.part m'.2 m'.1 = t.part m.2 m.1 ∧ t.depth m'.2 m'.1 < t.depth m.2 m.1 ∧ m' ≠ m) := by
  obtain ⟨x, y⟩ := m
  obtain ⟨hx, hy, hd⟩ := hm
  dsimp only at hx hy hd ⊢
  unfold Parts.check at h
  rw [List.all_eq_true] at h
  have h := h y (List.mem_range.2 hy)
  rw [List.all_eq_true] at h
  have h := h x (List.mem_range.2 hx)
  rw [hd, Bool.not_true, Bool.false_or, Bool.and_eq_true, Bool.and_eq_true] at h
  obtain ⟨⟨h1, h2⟩, h3⟩ := h
  refine ⟨fun k => ?_, fun k => ?_, fun k => ?_, fun k => ?_⟩
  · rw [k, Bool.not_true, Bool.false_or, beq_iff_eq] at h1; exact h1
  · rw [k, Bool.not_true, Bool.false_or, beq_iff_eq] at h2; exact h2
  · rw [if_pos k, beq_iff_eq] at h3; exact h3
  · rw [if_neg k, List.any_eq_true] at h3
    obtain ⟨m', k1, k2⟩ := h3
    rw [Bool.and_eq_true, Bool.and_eq_true, Bool.and_eq_true, darkB_iff, beq_iff_eq, decide_eq_true_iff, decide_eq_true_iff] at k2
    exact ⟨m', k1, k2.1.1.1, k2.1.1.2, k2.1.2, k2.2⟩

theorem neighbours_adj {m m' : Pos} (h : m' ∈ neighbours m) (hne : m' ≠ m) : Adj m m' := by
  unfold neighbours at h
  simp only [List.mem_cons, List.not_mem_nil, or_false] at h
  obtain ⟨x, y⟩ := m
  unfold Adj
  rcases h with rfl | rfl | rfl | rfl
  · simp
  · have : x ≠ 0 := by rintro rfl; exact hne rfl
    dsimp only; omega
  · simp
  · have : y ≠ 0 := by rintro rfl; exact hne rfl
    dsimp only; omega

/-- The table tells what is connected. -/
theorem Parts.reach_iff {t : Parts} {n : Nat} {M : Nat → Nat → Bool} (h : t.check n M = true) {p q : Pos} (hp : DarkModule n M p)
    (hq : DarkModule n M q) : Reach (DarkModule n M) p q ↔ t.part p.2 p.1 = t.part q.2 q.1 := by
  constructor
  · rintro ⟨h0, hr⟩
    clear hq
    induction hr with
    | refl => rfl
    | @tail a b hab hb ih =>
      have ha : DarkModule n M a := Reach.right ⟨h0, hab⟩
      obtain ⟨a1, a2, -, -⟩ := Parts.check_at h ha
      obtain ⟨b1, b2, -, -⟩ := Parts.check_at h hb.2
      rw [ih]
      rw [darkB_iff] at a1 a2 b1 b2
      obtain ⟨ax, ay⟩ := a
      obtain ⟨bx, b_y⟩ := b
      have hb2 := hb.2
      have hadj := hb.1
      unfold Adj at hadj
      dsimp only at *
      rcases hadj with ⟨rfl, rfl | rfl⟩ | ⟨rfl, rfl | rfl⟩
      · exact (a1 hb2).symm
      · exact b1 ha
      · exact (a2 hb2).symm
      · exact b2 ha
  · have first : ∀ k (m : Pos), t.depth m.2 m.1 = k → DarkModule n M m →
        ∃ r, Reach (DarkModule n M) m r ∧ t.part r.2 r.1 = t.part m.2 m.1 ∧ t.part r.2 r.1 = r.2 * n + r.1 := by
      intro k
      induction k using Nat.strong_induction_on with
      | _ k ih =>
        intro m hk hm
        obtain ⟨-, -, h0, h1⟩ := Parts.check_at h hm
        by_cases hz : t.depth m.2 m.1 = 0
        · exact ⟨m, .refl hm, rfl, h0 hz⟩
        · obtain ⟨m', k1, k2, k3, k4, k5⟩ := h1 hz
          obtain ⟨r, r1, r2, r3⟩ := ih _ (by omega) m' rfl k2
          exact ⟨r, ((Reach.refl hm).tail (neighbours_adj k1 k5) k2).trans r1, r2.trans k3, r3⟩
    intro he
    obtain ⟨r, r1, r2, r3⟩ := first _ p rfl hp
    obtain ⟨r', r1', r2', r3'⟩ := first _ q rfl hq
    have hr := r1.right
    have hr' := r1'.right
    have : r = r' := by
      have e : r.2 * n + r.1 = r'.2 * n + r'.1 := by rw [← r3, ← r3', r2, r2', he]
      have m1 : r.1 = r'.1 := by
        have := congrArg (· % n) e
        rwa [Nat.mul_comm, Nat.mul_add_mod, Nat.mul_comm r'.2, Nat.mul_add_mod, Nat.mod_eq_of_lt hr.1, Nat.mod_eq_of_lt hr'.1] at this
      have m2 : r.2 * n = r'.2 * n := by omega
      exact Prod.ext m1 (Nat.eq_of_mul_eq_mul_right (by have := hr.1; omega) m2)
    rw [← this] at r1'
    exact r1.trans r1'.symm

/-- A check of all fives of runs of a line. -/
def lineCheck (n : Nat) (f : Nat → Bool) (k : Nat) (ring : Nat → Nat → Nat → Bool) : Bool :=
  (List.range n).all fun t0 => !f t0 || (decide (t0 ≠ 0) && f (t0 - 1)) ||
    (let t1 := endRun f true n t0
     let t2 := endRun f false n t1
     let t3 := endRun f true n t2
     let t4 := endRun f false n t3
     let t5 := endRun f true n t4
     !someRatio (t1 - t0) (t2 - t1) (t3 - t2) (t4 - t3) (t5 - t4) || !ring t0 t2 t4 ||
      decide ((k < 7 ∧ (t5 ≤ 7 ∨ n - 7 ≤ t0)) ∨ (n - 7 ≤ k ∧ t5 ≤ 7)))

/-- A check of a matrix, for all numbers of pixels per module. -/
def unmistakable (n : Nat) (M : Nat → Nat → Bool) (t : Parts) : Bool :=
  t.check n M && [false, true].all fun column => (List.range n).all fun k =>
    lineCheck n (lineOf n M column k) k fun t0 t2 t4 =>
      (t.part (cell column k t4).2 (cell column k t4).1 == t.part (cell column k t0).2 (cell column k t0).1) &&
      !(t.part (cell column k t4).2 (cell column k t4).1 == t.part (cell column k t2).2 (cell column k t2).1)

theorem unmistakable_of_check {n : Nat} {M : Nat → Nat → Bool} {t : Parts} (h : unmistakable n M t = true) {s : Nat} (hs : 2 ≤ s) :
    Unmistakable n M s := by
  intro column k t0 t1 t2 t3 t4 t5 hk hf hr hj ha
  unfold unmistakable at h
  rw [Bool.and_eq_true, List.all_eq_true] at h
  obtain ⟨hp, h⟩ := h
  have h := h column (by cases column <;> simp)
  rw [List.all_eq_true] at h
  have h := h k (List.mem_range.2 hk)
  have bound : ∀ u, lineOf n M column k u = true → u < n := by
    intro u hu
    unfold lineOf at hu
    rw [Bool.and_eq_true, decide_eq_true_iff] at hu
    exact hu.1
  have dark : ∀ u, lineOf n M column k u = true → DarkModule n M (cell column k u) := by
    intro u hu
    have hb := bound u hu
    unfold lineOf at hu
    rw [Bool.and_eq_true] at hu
    unfold DarkModule
    unfold cell at hu ⊢
    cases column
    · exact ⟨hb, hk, hu.2⟩
    · exact ⟨hk, hb, hu.2⟩
  set f := lineOf n M column k with hfd
  obtain ⟨hb, haf, l0, l1, l2, l3, l4, d0, d1, d2, d3, d4⟩ := hf
  have b5 := bound _ (d4 (t5 - 1) (by omega) (by omega))
  have e1 : endRun f true n t0 = t1 := endRun_spec n d0 (by rw [d1 t1 (by omega) l1]; simp) (by omega) (by omega)
  have e2 : endRun f false n t1 = t2 := endRun_spec n d1 (by rw [d2 t2 (by omega) l2]; simp) (by omega) (by omega)
  have e3 : endRun f true n t2 = t3 := endRun_spec n d2 (by rw [d3 t3 (by omega) l3]; simp) (by omega) (by omega)
  have e4 : endRun f false n t3 = t4 := endRun_spec n d3 (by rw [d4 t4 (by omega) l4]; simp) (by omega) (by omega)
  have e5 : endRun f true n t4 = t5 := endRun_spec n d4 (by rw [haf]; simp) (by omega) (by omega)
  unfold lineCheck at h
  rw [List.all_eq_true] at h
  have h := h t0 (List.mem_range.2 (bound _ (d0 t0 (by omega) l0)))
  dsimp only at h
  rw [e1, e2, e3, e4, e5, d0 t0 (by omega) l0, someRatio_spec hs hr] at h
  have hb' : (decide (t0 ≠ 0) && f (t0 - 1)) = false := by
    rcases hb with hb | hb
    · rw [hb]; rfl
    · rw [hb, Bool.and_false]
  have k0 := dark _ (d0 t0 (by omega) l0)
  have k2 := dark _ (d2 t2 (by omega) l2)
  have k4 := dark _ (d4 t4 (by omega) l4)
  rw [hb', beq_iff_eq.2 ((Parts.reach_iff hp k4 k0).1 hj), beq_eq_false_iff_ne.2 (fun e => ha ((Parts.reach_iff hp k4 k2).2 e))] at h
  simp only [Bool.not_true, Bool.not_false, Bool.and_self, Bool.false_or, decide_eq_true_eq] at h
  exact h

end Rqrr
