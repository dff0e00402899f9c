import Verif.Proofs.Blank
import Verif.Proofs.Mistake

/-!
# Nothing in the function patterns looks like a finder pattern but the finder patterns
-/

namespace Rqrr

open Spec

theorem coord_apart : ∀ v < 41, ∀ a ∈ alignCoords v, ∀ b ∈ alignCoords v, a = b ∨ a + 12 ≤ b ∨ b + 12 ≤ a := by
  decide +kernel

/-- The inner run of a finder pattern is longer than the outer ones. -/
theorem ratio_inner {a b c d e : Nat} (ha : 1 ≤ a) (hb : 1 ≤ b) (hd : 1 ≤ d) (he : 1 ≤ e) (h : FinderRatio a b c d e) : a < c := by
  unfold FinderRatio at h
  dsimp only at h
  omega

/-- In a corner: a finder pattern with its separators. -/
def Corner (n : Nat) (m : Pos) : Prop := m.2 < 8 ∧ m.1 < 8 ∨ m.2 < 8 ∧ n ≤ m.1 + 8 ∨ n ≤ m.2 + 8 ∧ m.1 < 8

/-- In one of the finder patterns. -/
def FinderBox (n a b : Nat) (m : Pos) : Prop := FinderPlace n a b ∧ a ≤ m.1 ∧ m.1 < a + 7 ∧ b ≤ m.2 ∧ m.2 < b + 7

/-- In the alignment pattern with this centre. -/
def AlignBox (c : Nat × Nat) (m : Pos) : Prop := c.1 ≤ m.2 + 2 ∧ m.2 ≤ c.1 + 2 ∧ c.2 ≤ m.1 + 2 ∧ m.1 ≤ c.2 + 2

variable {v : Nat}

/-- Where dark modules are. -/
theorem blank_dark (h1 : 1 ≤ v) {m : Pos} (hm : DarkModule (side v) (blank v) m) :
    (Corner (side v) m ∧ ∃ a b, FinderBox (side v) a b m) ∨
      ¬ Corner (side v) m ∧ (m.2 = 6 ∧ m.1 % 2 = 0 ∨ m.2 ≠ 6 ∧ (m.1 = 6 ∧ m.2 % 2 = 0 ∨ m.1 ≠ 6 ∧ ∃ c ∈ alignCentres v, AlignBox c m)) := by
  have hs : side v = 17 + 4 * v := rfl
  obtain ⟨x, y⟩ := m
  obtain ⟨hx, hy, hd⟩ := hm
  dsimp only at hx hy hd
  unfold blank at hd
  split at hd
  · rename_i hc
    left
    refine ⟨hc, ?_⟩
    rw [Bool.and_eq_true, decide_eq_true_iff] at hd
    obtain ⟨⟨d1, d2, d3, d4⟩, -⟩ := hd
    unfold FinderBox FinderPlace
    dsimp only
    by_cases h : y < 8
    · rw [if_pos h] at d1
      by_cases h' : x < 8
      · rw [if_pos h'] at d2
        exact ⟨0, 0, by omega⟩
      · rw [if_neg h'] at d2
        exact ⟨side v - 7, 0, by omega⟩
    · rw [if_neg h] at d1
      rw [if_pos (by omega)] at d2
      exact ⟨0, side v - 7, by omega⟩
  · rename_i hc
    right
    refine ⟨hc, ?_⟩
    dsimp only
    split at hd
    · left
      unfold timingDark at hd
      exact ⟨‹_›, by simpa using hd⟩
    · right
      refine ⟨‹_›, ?_⟩
      split at hd
      · left
        unfold timingDark at hd
        exact ⟨‹_›, by simpa using hd⟩
      · right
        refine ⟨‹_›, ?_⟩
        rw [List.any_eq_true] at hd
        obtain ⟨c, hc, hd⟩ := hd
        rw [Bool.and_eq_true, decide_eq_true_iff, dist_le, dist_le] at hd
        refine ⟨c, hc, ?_⟩
        unfold AlignBox
        dsimp only
        omega

/-- Where alignment patterns are. -/
theorem align_where (hv : v ≤ 40) {c : Nat × Nat} (hc : c ∈ alignCentres v) : (c.1 = 6 ∨ 16 ≤ c.1) ∧ (c.2 = 6 ∨ 16 ≤ c.2) ∧
    ∀ m, AlignBox c m → ¬ Corner (side v) m := by
  obtain ⟨h1, h2, h3⟩ := mem_alignCentres hc
  obtain ⟨a1, a2, a3, a4, -⟩ := coord_facts v (by omega) c.1 h1
  obtain ⟨b1, b2, b3, b4, -⟩ := coord_facts v (by omega) c.2 h2
  refine ⟨a2, b2, ?_⟩
  rintro ⟨x, y⟩ hm
  unfold isAlignCentre at h3
  simp only [Bool.and_eq_true, Bool.not_eq_true', Bool.and_eq_false_iff, beq_eq_false_iff_ne] at h3
  unfold AlignBox at hm
  unfold Corner
  dsimp only at hm ⊢
  omega

theorem align_unique (hv : v ≤ 40) {c d : Nat × Nat} (hc : c ∈ alignCentres v) (hd : d ∈ alignCentres v) {m m' : Pos} (h : AlignBox c m)
    (h' : AlignBox d m') (ha : Adj m m') : c = d := by
  obtain ⟨h1, h2, -⟩ := mem_alignCentres hc
  obtain ⟨h1', h2', -⟩ := mem_alignCentres hd
  have := coord_apart v (by omega) _ h1 _ h1'
  have := coord_apart v (by omega) _ h2 _ h2'
  unfold AlignBox at h h'
  unfold Adj at ha
  exact Prod.ext (by omega) (by omega)

theorem corner_adj (h1 : 1 ≤ v) {a b : Nat} {m m' : Pos} (h : FinderBox (side v) a b m) (hm' : DarkModule (side v) (blank v) m') (ha : Adj m m') :
    FinderBox (side v) a b m' := by
  have hs : side v = 17 + 4 * v := rfl
  have hx := hm'.1
  have hy := hm'.2.1
  rcases blank_dark h1 hm' with ⟨-, a', b', h'⟩ | ⟨hc, -⟩
  · unfold FinderBox FinderPlace at h h' ⊢
    unfold Adj at ha
    omega
  · exfalso
    unfold FinderBox FinderPlace at h
    unfold Adj at ha
    unfold Corner at hc
    omega

theorem align_adj (h1 : 1 ≤ v) (hv : v ≤ 40) {c : Nat × Nat} (hc : c ∈ alignCentres v) {m m' : Pos} (hm : DarkModule (side v) (blank v) m)
    (h : AlignBox c m) (hm' : DarkModule (side v) (blank v) m') (ha : Adj m m') : AlignBox c m' := by
  have hs : side v = 17 + 4 * v := rfl
  obtain ⟨c1, c2, c3⟩ := align_where hv hc
  have nc := c3 m h
  have hsym : Adj m' m := by unfold Adj at ha ⊢; omega
  rcases blank_dark h1 hm' with ⟨hc', a', b', h'⟩ | ⟨nc', h'⟩
  · have hb := corner_adj h1 h' hm hsym
    exfalso
    apply nc
    unfold FinderBox FinderPlace at hb
    unfold Corner
    omega
  · rcases h' with ⟨y6, even⟩ | ⟨y6, h' | ⟨x6, d, hd, h'⟩⟩
    · rcases blank_dark h1 hm with ⟨hc', -⟩ | ⟨-, k⟩
      · exact absurd hc' nc
      · have k' : m.2 = 6 ∧ m.1 % 2 = 0 ∨ m.2 ≠ 6 ∧ (m.1 = 6 ∧ m.2 % 2 = 0 ∨ m.1 ≠ 6) := by
          rcases k with k | ⟨k, k' | k'⟩
          · exact .inl k
          · exact .inr ⟨k, .inl k'⟩
          · exact .inr ⟨k, .inr k'.1⟩
        clear k
        unfold AlignBox at h ⊢
        unfold Adj at ha
        unfold Corner at nc nc'
        omega
    · rcases blank_dark h1 hm with ⟨hc', -⟩ | ⟨-, k⟩
      · exact absurd hc' nc
      · have k' : m.2 = 6 ∧ m.1 % 2 = 0 ∨ m.2 ≠ 6 ∧ (m.1 = 6 ∧ m.2 % 2 = 0 ∨ m.1 ≠ 6) := by
          rcases k with k | ⟨k, k' | k'⟩
          · exact .inl k
          · exact .inr ⟨k, .inl k'⟩
          · exact .inr ⟨k, .inr k'.1⟩
        clear k
        unfold AlignBox at h ⊢
        unfold Adj at ha
        unfold Corner at nc nc'
        omega
    · rw [align_unique hv hc hd h h' ha]
      exact h'

/-- What dark regions there are. -/
theorem blank_regions (h1 : 1 ≤ v) (hv : v ≤ 40) {m m' : Pos} (h : Reach (DarkModule (side v) (blank v)) m m') : m = m' ∨
    (∃ a b, FinderBox (side v) a b m ∧ FinderBox (side v) a b m') ∨ ∃ c ∈ alignCentres v, AlignBox c m ∧ AlignBox c m' := by
  have hs : side v = 17 + 4 * v := rfl
  obtain ⟨h0, hr⟩ := h
  have key : DarkModule (side v) (blank v) m' ∧ (m = m' ∨
      (∃ a b, FinderBox (side v) a b m ∧ FinderBox (side v) a b m') ∨ ∃ c ∈ alignCentres v, AlignBox c m ∧ AlignBox c m') := by
    induction hr with
    | refl => exact ⟨h0, .inl rfl⟩
    | @tail p q _ hpq ih =>
      obtain ⟨ha, hq⟩ := hpq
      obtain ⟨hp, ih⟩ := ih
      refine ⟨hq, .inr ?_⟩
      have hsym : Adj q p := by unfold Adj at ha ⊢; omega
      have step : (∃ a b, FinderBox (side v) a b p ∧ FinderBox (side v) a b q) ∨ ∃ c ∈ alignCentres v, AlignBox c p ∧ AlignBox c q := by
        by_cases f : ∃ a b, FinderBox (side v) a b p
        · obtain ⟨a, b, f⟩ := f
          exact .inl ⟨a, b, f, corner_adj h1 f hq ha⟩
        by_cases g : ∃ c ∈ alignCentres v, AlignBox c p
        · obtain ⟨c, hc, g⟩ := g
          exact .inr ⟨c, hc, g, align_adj h1 hv hc hp g hq ha⟩
        by_cases f' : ∃ a b, FinderBox (side v) a b q
        · obtain ⟨a, b, f'⟩ := f'
          exact absurd ⟨a, b, corner_adj h1 f' hp hsym⟩ f
        by_cases g' : ∃ c ∈ alignCentres v, AlignBox c q
        · obtain ⟨c, hc, g'⟩ := g'
          exact absurd ⟨c, hc, align_adj h1 hv hc hq g' hp hsym⟩ g
        exfalso
        rcases blank_dark h1 hp with ⟨-, a', b', h'⟩ | ⟨np, hp'⟩
        · exact f ⟨_, _, h'⟩
        rcases blank_dark h1 hq with ⟨-, a', b', h'⟩ | ⟨nq, hq'⟩
        · exact f' ⟨_, _, h'⟩
        have e1 : p.2 = 6 ∧ p.1 % 2 = 0 ∨ p.2 ≠ 6 ∧ p.1 = 6 ∧ p.2 % 2 = 0 := by
          rcases hp' with h | ⟨h, h' | ⟨-, c, hc, h'⟩⟩
          · exact .inl h
          · exact .inr ⟨h, h'⟩
          · exact absurd ⟨c, hc, h'⟩ g
        have e2 : q.2 = 6 ∧ q.1 % 2 = 0 ∨ q.2 ≠ 6 ∧ q.1 = 6 ∧ q.2 % 2 = 0 := by
          rcases hq' with h | ⟨h, h' | ⟨-, c, hc, h'⟩⟩
          · exact .inl h
          · exact .inr ⟨h, h'⟩
          · exact absurd ⟨c, hc, h'⟩ g'
        unfold Adj at ha
        unfold Corner at np nq
        omega
      rcases ih with rfl | ⟨a, b, f, f'⟩ | ⟨c, hc, g, g'⟩
      · exact step
      · exact .inl ⟨a, b, f, corner_adj h1 f' hq ha⟩
      · exact .inr ⟨c, hc, g, align_adj h1 hv hc hp g' hq ha⟩
  exact key.2

/-- The function patterns alone cannot be mistaken. -/
theorem blank_unmistakable (h1 : 1 ≤ v) (hv : v ≤ 40) {s : Nat} (hs0 : 1 ≤ s) : Unmistakable (side v) (blank v) s := by
  have hs : side v = 17 + 4 * v := rfl
  intro column k t0 t1 t2 t3 t4 t5 hk hf hr hj _
  have l0 := hf.lt0
  have l1 := hf.lt1
  have l2 := hf.lt2
  have l3 := hf.lt3
  have l4 := hf.lt4
  have last : Reach (DarkModule (side v) (blank v)) (cell column k (t5 - 1)) (cell column k t0) := by
    have h45 := run_joined (n := side v) (M := blank v) (column := column) (k := k) (a := t4) (b := t5) hk hf.dark4 (p := t5 - 1) (q := t4)
      (by omega) (by omega) (by omega) (by omega)
    exact h45.trans hj
  have b1 := blank_regions h1 hv last
  have len : ¬ t5 ≤ t0 + 5 := by
    intro h5
    have e : t1 - t0 = 1 ∧ t2 - t1 = 1 ∧ t3 - t2 = 1 ∧ t4 - t3 = 1 ∧ t5 - t4 = 1 := by omega
    obtain ⟨e0, e1, e2, e3, e4⟩ := e
    rw [e0, e1, e2, e3, e4] at hr
    have := ratio_inner (by omega) (by omega) (by omega) (by omega) hr
    omega
  unfold FinderSpan
  have c1 : ∀ t, cell column k t = (k, t) ∨ cell column k t = (t, k) := by
    intro t; unfold cell; cases column <;> simp
  cases column
  · have e : ∀ t, cell false k t = (t, k) := fun t => rfl
    rw [e, e] at b1
    rcases b1 with h | ⟨a, b, f, f'⟩ | ⟨c, hc, g, g'⟩
    · rw [Prod.mk.injEq] at h; omega
    · unfold FinderBox FinderPlace at f f'
      dsimp only at f f'
      omega
    · unfold AlignBox at g g'
      dsimp only at g g'
      omega
  · have e : ∀ t, cell true k t = (k, t) := fun t => rfl
    rw [e, e] at b1
    rcases b1 with h | ⟨a, b, f, f'⟩ | ⟨c, hc, g, g'⟩
    · rw [Prod.mk.injEq] at h; omega
    · unfold FinderBox FinderPlace at f f'
      dsimp only at f f'
      omega
    · unfold AlignBox at g g'
      dsimp only at g g'
      omega

end Rqrr
