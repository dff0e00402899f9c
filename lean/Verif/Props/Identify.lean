import Verif.Proofs.Timing
import Verif.Proofs.Grouping
import Verif.Proofs.Neighbors
import Verif.Proofs.JiggleExact
import Verif.Spec.FloatLaws
import Verif.Props.Geometry
import Verif.Props.Prepare
import Mathlib.Data.Finset.Card

/-!
# C46, C48, C49: grid size, grouping, refinement
-/

namespace Rqrr

open ImageBuffer LawfulImage FloatOps Spec

variable {S : Type} [ImageBuffer S] {F : Type} [FloatOps F]

/-! ### C46 -/

/-- C46. The grid size for a number of colour changes: a panic without any change, and otherwise the size of version
`(scan - 2) / 4`. -/
theorem C46_size (hF : SmallIntegersExact F) {scan : Nat} (hs : scan + 13 < 2 ^ 53) :
    size_from_scan F scan = if scan = 0 then .error .panic else .ok (17 + 4 * ((scan - 2) / 4)) := by
  unfold size_from_scan
  by_cases h : scan = 0
  · subst h; rfl
  · rw [if_neg h, Run.assert_of (show decide (1 ≤ scan) = true by rw [decide_eq_true_eq]; omega), Run.ok_bind]
    dsimp only
    have := hF (scan + 13) hs
    rw [this]
    show Except.ok _ = _
    congr 1
    omega

/-- C46, per version: between two missing and one additional change are tolerated. The timing pattern of version `v` has
`4 * v + 4` changes between the two finder patterns. -/
theorem C46_version (hF : SmallIntegersExact F) {scan v : Nat} (hv : v < 2 ^ 50) (h1 : 4 * v + 2 ≤ scan)
    (h2 : scan ≤ 4 * v + 5) :
    size_from_scan F scan = .ok (17 + 4 * v) ∧ version_from_grid_size (17 + 4 * v) = .ok v := by
  refine ⟨?_, version_ok rfl⟩
  rw [C46_size hF (by omega), if_neg (by omega)]
  congr 1
  omega

/-- C46, few changes: one to five changes are taken for version 0, which does not exist. -/
theorem C46_version_zero (hF : SmallIntegersExact F) {scan : Nat} (h1 : 1 ≤ scan) (h2 : scan ≤ 5) :
    size_from_scan F scan = .ok 17 := by
  rw [C46_size hF (by omega), if_neg (by omega)]
  congr 1
  omega

/-- C46, scan: between two points of moderate coordinates the scan counts the changes of colour along the line of C43, where
points outside of the image count as the nearest pixel of the image. It never panics. -/
theorem C46_timing_scan [LawfulImage S] {img : PreparedImage S} (hv : Valid img.buffer) (hw : 0 < width img.buffer)
    (hh : 0 < height img.buffer) {p q : Point} (hp : Moderate p) (hq : Moderate q) :
    ∃ (color : Point → PixelColor) (l : List Point), (∀ a, img.get_pixel_at_point a = .ok (color a)) ∧
      BresenhamScan.points p q = .ok l ∧ l[0]? = some p ∧ l.getLast? = some q ∧
      timing_scan img p q = .ok (colourChanges (l.map color)) := by
  choose color hc using C50_never_out_of_bounds hv hw hh
  obtain ⟨l, h1, -, h2, h3, -⟩ := C43_line_scan p q hp hq
  exact ⟨color, l, hc, h1, h2, h3, timing_scan_ok hc h1⟩

/-- C46, detection: whatever the floating point arithmetic, every grid reported by the detection has the size of one of the
versions 0 to 40. -/
theorem C46_detected {img img' : PreparedImage S} {grids : List (DetectedGrid F)}
    (h : img.detect_grids F = .ok (img', grids)) {g : DetectedGrid F} (hg : g ∈ grids) :
    ∃ v, v ≤ 40 ∧ g.location.grid_size = 17 + 4 * v := detect_sizes h g hg

/-! ### C48 -/

/-- C48. For every ranking and every test of viability: the groups reported are viable, consist of a ranked pair and the
capstone it is ranked for, and two of them have at most their corner capstone in common. No viable group is left: each capstone
is used, or every pair ranked for it has a used capstone or makes no viable group. -/
theorem C48_groups {F : Type} {rank : List (CapStone F) → Nat → Run (List (Nat × Nat))} {viable : CapStoneGroup F → Run Bool}
    {caps : List (CapStone F)} {groups : List (CapStoneGroup F)} (h : find_groupings_with rank viable caps = .ok groups) :
    ∃ ts : List Triple, List.Forall₂ (fun t g => t.Names caps g ∧ viable g = .ok true) ts groups ∧
      ts.Pairwise OnlyCornerShared ∧
      (∀ t ∈ ts, ∃ pairs, rank caps t.corner = .ok pairs ∧ (t.first, t.second) ∈ pairs) ∧
      ∀ i < caps.length, (∃ t ∈ ts, i ∈ t.indices) ∨ ∃ pairs, rank caps i = .ok pairs ∧ ∀ p ∈ pairs,
        (∃ t ∈ ts, p.1 ∈ t.indices) ∨ (∃ t ∈ ts, p.2 ∈ t.indices) ∨
          ∃ g, (Triple.mk p.1 i p.2).Names caps g ∧ viable g = .ok false := by
  obtain ⟨ts, used, hinv, hc, hr⟩ := find_groupings_inv h
  refine ⟨ts, hinv.names, hinv.shared, hr, ?_⟩
  intro i hi
  rcases hc i hi with h | ⟨pairs, h1, h2⟩
  · exact .inl ((hinv.used_iff i).1 h)
  · refine .inr ⟨pairs, h1, fun p hp => ?_⟩
    rw [← hinv.used_iff, ← hinv.used_iff]
    exact h2 p hp

/-- C48, neighbours, in exact arithmetic: ranking never panics, and the pairs ranked for a capstone are exactly those of a
capstone whose centre is, in the coordinates of the given one, less than 1/5 off the vertical axis through its centre, and of one
less than 1/5 off the horizontal axis, at distances that differ by less than a quarter of the larger one. -/
theorem C48_neighbors {caps : List (CapStone ℚ)} {i : Nat} (hi : i < caps.length) :
    ∃ pairs, find_and_rank_possible_neighbors caps i = .ok pairs ∧ ∀ p, p ∈ pairs ↔
      p.1 ≠ i ∧ p.2 ≠ i ∧ ∃ a b, caps[p.1]? = some a ∧ caps[p.2]? = some b ∧
      (axisDistances caps[i] a.center).1 < 1 / 5 * (axisDistances caps[i] a.center).2 ∧
      (axisDistances caps[i] b.center).2 < 1 / 5 * (axisDistances caps[i] b.center).1 ∧
      |(axisDistances caps[i] a.center).2 - (axisDistances caps[i] b.center).1| <
        1 / 4 * max (axisDistances caps[i] a.center).2 (axisDistances caps[i] b.center).1 := by
  obtain ⟨pairs, h1, h2⟩ := rank_ok hi
  refine ⟨pairs, h1, fun p => (h2 p).trans ?_⟩
  have key : ∀ a b : CapStone ℚ, (axisDistances caps[i] a.center).1 < 1 / 5 * (axisDistances caps[i] a.center).2 →
      (axisDistances caps[i] b.center).2 < 1 / 5 * (axisDistances caps[i] b.center).1 →
      (pairScore (axisDistances caps[i] a.center).2 (axisDistances caps[i] b.center).1 < 1 / 4 ↔
        |(axisDistances caps[i] a.center).2 - (axisDistances caps[i] b.center).1| <
          1 / 4 * max (axisDistances caps[i] a.center).2 (axisDistances caps[i] b.center).1) := by
    intro a b ha hb
    have a1 : 0 ≤ (axisDistances caps[i] a.center).1 := abs_nonneg _
    have b1 : 0 ≤ (axisDistances caps[i] b.center).2 := abs_nonneg _
    have hh : 0 < (axisDistances caps[i] a.center).2 := by linarith
    have hv : 0 < (axisDistances caps[i] b.center).1 := by linarith
    revert hh hv
    generalize (axisDistances caps[i] a.center).2 = s
    generalize (axisDistances caps[i] b.center).1 = t
    intro hs ht
    unfold pairScore
    by_cases hlt : s < t
    · rw [if_pos hlt, max_eq_right hlt.le]
      have e : |1 - s / t| = |s - t| / t := by
        rw [show (1 : ℚ) - s / t = (t - s) / t by field_simp, abs_div, abs_of_pos ht, abs_sub_comm]
      rw [e, div_lt_iff₀ ht]
    · rw [if_neg hlt, max_eq_left (not_lt.1 hlt)]
      have e : |1 - t / s| = |s - t| / s := by
        rw [show (1 : ℚ) - t / s = (s - t) / s by field_simp, abs_div, abs_of_pos hs]
      rw [e, div_lt_iff₀ hs]
  constructor
  · rintro ⟨p1, p2, a, b, ha, hb, c1, c2, c3⟩
    exact ⟨p1, p2, a, b, ha, hb, c1, c2, (key a b c1 c2).1 c3⟩
  · rintro ⟨p1, p2, a, b, ha, hb, c1, c2, c3⟩
    exact ⟨p1, p2, a, b, ha, hb, c1, c2, (key a b c1 c2).2 c3⟩

/-- Three distinct capstones. -/
theorem rank_distinct {caps : List (CapStone ℚ)} {i : Nat} {pairs : List (Nat × Nat)} {p : Nat × Nat}
    (h : find_and_rank_possible_neighbors caps i = .ok pairs) (hp : p ∈ pairs) (hi : i < caps.length) :
    p.1 ≠ i ∧ p.2 ≠ i ∧ p.1 ≠ p.2 ∧ p.1 < caps.length ∧ p.2 < caps.length := by
  obtain ⟨pairs', h1, h2⟩ := rank_ok hi
  rw [h] at h1
  cases h1
  obtain ⟨a1, a2, a, b, a3, a4, a5, a6, -⟩ := (h2 p).1 hp
  refine ⟨a1, a2, ?_, (List.getElem?_eq_some_iff.1 a3).1, (List.getElem?_eq_some_iff.1 a4).1⟩
  intro e
  rw [e, a4] at a3
  cases a3
  have a1 : 0 ≤ (axisDistances caps[i] a.center).1 := abs_nonneg _
  have b1 : 0 ≤ (axisDistances caps[i] a.center).2 := abs_nonneg _
  linarith

theorem rank_index {F : Type} [FloatOps F] {caps : List (CapStone F)} {i : Nat} {pairs : List (Nat × Nat)}
    (h : find_and_rank_possible_neighbors caps i = .ok pairs) : i < caps.length := by
  unfold find_and_rank_possible_neighbors find_possible_neighbors at h
  obtain ⟨_, h, -⟩ := Run.bind_eq_ok.1 h
  obtain ⟨a, h, -⟩ := Run.bind_eq_ok.1 h
  exact (List.getElem?_eq_some_iff.1 (idx_some h)).1

/-- If only pairs of different capstones are ranked, each group consists of three different capstones. -/
theorem groups_distinct {F : Type} [FloatOps F]
    (hrank : ∀ {caps : List (CapStone F)} {i : Nat} {pairs : List (Nat × Nat)} {p : Nat × Nat},
      find_and_rank_possible_neighbors caps i = .ok pairs → p ∈ pairs → i < caps.length →
      p.1 ≠ i ∧ p.2 ≠ i ∧ p.1 ≠ p.2 ∧ p.1 < caps.length ∧ p.2 < caps.length)
    {viable : CapStoneGroup F → Run Bool} {caps : List (CapStone F)} {groups : List (CapStoneGroup F)}
    (h : find_groupings_with find_and_rank_possible_neighbors viable caps = .ok groups) :
    ∃ ts : List Triple, List.Forall₂ (fun t g => t.Names caps g) ts groups ∧ ts.Pairwise OnlyCornerShared ∧
      (∀ t ∈ ts, t.indices.Nodup) ∧ 2 * groups.length ≤ caps.length := by
  obtain ⟨ts, h1, h2, h3, -⟩ := C48_groups h
  have hd : ∀ t ∈ ts, t.first ≠ t.corner ∧ t.second ≠ t.corner ∧ t.first ≠ t.second ∧ t.first < caps.length ∧
      t.second < caps.length := by
    intro t ht
    obtain ⟨pairs, k1, k2⟩ := h3 t ht
    exact hrank k1 k2 (rank_index k1)
  refine ⟨ts, h1.imp fun _ _ h => h.1, h2, ?_, ?_⟩
  · intro t ht
    obtain ⟨a, b, c, -, -⟩ := hd t ht
    simp only [Triple.indices, List.nodup_cons, List.mem_cons, List.not_mem_nil, or_false, not_or, not_false_eq_true,
      List.nodup_nil, and_true]
    exact ⟨⟨a, c⟩, fun e => b e.symm⟩
  · have hnd : (ts.flatMap fun t => [t.first, t.second]).Nodup := by
      rw [List.nodup_flatMap]
      refine ⟨fun t ht => ?_, ?_⟩
      · simp only [List.nodup_cons, List.mem_cons, List.not_mem_nil, or_false, not_false_eq_true, List.nodup_nil, and_true]
        exact (hd t ht).2.2.1
      · refine List.Pairwise.imp_of_mem ?_ h2
        intro s t hs ht hst x hx hx'
        have e := hst x (by simp only [Triple.indices, List.mem_cons, List.not_mem_nil, or_false] at hx ⊢; tauto)
          (by simp only [Triple.indices, List.mem_cons, List.not_mem_nil, or_false] at hx' ⊢; tauto)
        simp only [List.mem_cons, List.not_mem_nil, or_false] at hx
        rcases hx with rfl | rfl
        · exact (hd s hs).1 e.1
        · exact (hd s hs).2.1 e.1
    have hlen : (ts.flatMap fun t => [t.first, t.second]).length = 2 * groups.length := by
      rw [← h1.length_eq, List.length_flatMap]
      simp only [List.length_cons, List.length_nil]
      rw [List.map_const', List.sum_replicate]
      simp [Nat.mul_comm]
    rw [← hlen, ← List.toFinset_card_of_nodup hnd, ← Finset.card_range caps.length]
    refine Finset.card_le_card ?_
    intro x hx
    rw [List.mem_toFinset, List.mem_flatMap] at hx
    obtain ⟨t, ht, hx⟩ := hx
    rw [Finset.mem_range]
    simp only [List.mem_cons, List.not_mem_nil, or_false] at hx
    rcases hx with rfl | rfl
    · exact (hd t ht).2.2.2.1
    · exact (hd t ht).2.2.2.2

/-- C48, distinctness, in exact arithmetic: each group consists of three different capstones, and at most half as many groups
as capstones are reported. -/
theorem C48_distinct {viable : CapStoneGroup ℚ → Run Bool} {caps : List (CapStone ℚ)} {groups : List (CapStoneGroup ℚ)}
    (h : find_groupings_with find_and_rank_possible_neighbors viable caps = .ok groups) :
    ∃ ts : List Triple, List.Forall₂ (fun t g => t.Names caps g) ts groups ∧ ts.Pairwise OnlyCornerShared ∧
      (∀ t ∈ ts, t.indices.Nodup) ∧ 2 * groups.length ≤ caps.length :=
  groups_distinct rank_distinct h

/-! ### C49 -/

/-- C49. For every fitness function and any floating point arithmetic: refinement keeps a transform of which the fitness is
known to be the best seen. It is never worse than the initial one, and the transform only changes for a strictly better fitness. -/
theorem C49_never_worse {fitness : Perspective F → Run Int} {p q : Perspective F} (h : jiggle_with fitness p = .ok q) :
    ∃ b b', fitness p = .ok b ∧ fitness q = .ok b' ∧ (q = p ∨ b < b') := by
  rw [jiggle_with_eq] at h
  obtain ⟨b, hb, h⟩ := Run.bind_eq_ok.1 h
  obtain ⟨⟨q', b', adj⟩, h1, h2⟩ := Run.bind_eq_ok.1 h
  cases h2
  have key := forRange_inv (fun _ (st : Perspective F × Int × Perspective F) => fitness st.1 = .ok st.2.1 ∧
    ((st.1 = p ∧ st.2.1 = b) ∨ b < st.2.1)) (Nat.zero_le 5) ⟨hb, .inl ⟨rfl, rfl⟩⟩ (by
      rintro i ⟨p1, b1, adj1⟩ ⟨p2, b2, adj2⟩ _ _ ⟨i1, i2⟩ hs
      obtain ⟨j1, j2, -⟩ := jiggle_pass_inv hs i1
      refine ⟨j1, ?_⟩
      dsimp only at i1 i2 j1 j2 ⊢
      rcases i2 with ⟨rfl, rfl⟩ | i2
      · exact j2
      · rcases j2 with ⟨rfl, rfl⟩ | j2
        · exact .inr i2
        · exact .inr (i2.trans j2)) h1
  refine ⟨b, b', hb, key.1, ?_⟩
  rcases key.2 with ⟨h, -⟩ | h
  · exact .inl h
  · exact .inr h

/-- C49, totality: refinement returns a transform whenever the fitness function does. -/
theorem C49_total {fitness : Perspective F → Run Int} (hf : ∀ p, ∃ b, fitness p = .ok b) (p : Perspective F) :
    ∃ q, jiggle_with fitness p = .ok q := by
  rw [jiggle_with_eq]
  obtain ⟨b, hb⟩ := hf p
  rw [hb, Run.ok_bind]
  obtain ⟨r, hr, -⟩ := forRange_ok (s := (p, b, Vector.map (fun c => c * lit 2 2) p))
    (f := fun _ st => jiggle_pass fitness st) (fun _ _ => True) (Nat.zero_le 5) trivial (by
      rintro i st _ _ _
      obtain ⟨r, hr⟩ := jiggle_pass_ok hf st
      exact ⟨r, hr, trivial⟩)
  rw [hr, Run.ok_bind]
  exact ⟨_, rfl⟩

/-- C49, distance, in exact arithmetic: no coefficient moves by more than 31/800 of its initial value. In particular
coefficients that are zero initially stay zero. -/
theorem C49_close {fitness : Perspective ℚ → Run Int} {p q : Perspective ℚ} (h : jiggle_with fitness p = .ok q) (j : Nat)
    (hj : j < 8) : |q[j] - p[j]| ≤ 31 / 800 * |p[j]| := by
  rw [jiggle_with_eq] at h
  obtain ⟨b, hb, h⟩ := Run.bind_eq_ok.1 h
  obtain ⟨⟨q', b', adj⟩, h1, h2⟩ := Run.bind_eq_ok.1 h
  cases h2
  have key := forRange_inv (fun k (st : Perspective ℚ × Int × Perspective ℚ) => fitness st.1 = .ok st.2.1 ∧
    st.2.2[j] = p[j] / 50 / 2 ^ k ∧ |st.1[j] - p[j]| ≤ (1 - 1 / 2 ^ k) / 25 * |p[j]|) (Nat.zero_le 5)
    ⟨hb, by
      have : (FloatOps.lit 2 2 : ℚ) = 1 / 50 := by show ((2 : Nat) : ℚ) / 10 ^ 2 = 1 / 50; norm_num
      dsimp only
      rw [Vector.getElem_map, this]
      show p[j] * (1 / 50) = _
      ring, by simp⟩ (by
      rintro k ⟨p1, b1, adj1⟩ ⟨p2, b2, adj2⟩ _ _ ⟨i1, i2, i3⟩ hs
      obtain ⟨j1, -, -⟩ := jiggle_pass_inv hs i1
      obtain ⟨k1, k2⟩ := jiggle_pass_exact hs i1 j hj
      refine ⟨j1, ?_, ?_⟩
      · dsimp only at i2 ⊢
        rw [k2, i2]
        ring
      · dsimp only at i2 i3 ⊢
        rw [i2, abs_div, abs_div, abs_of_pos (show (0 : ℚ) < 50 by norm_num), abs_of_pos (show (0 : ℚ) < 2 ^ k by positivity)] at k1
        have tri : |p2[j] - p[j]| ≤ |p2[j] - p1[j]| + |p1[j] - p[j]| := by
          have := abs_add_le (p2[j] - p1[j]) (p1[j] - p[j])
          rwa [show p2[j] - p1[j] + (p1[j] - p[j]) = p2[j] - p[j] by ring] at this
        refine tri.trans ((add_le_add k1 i3).trans (le_of_eq ?_))
        rw [pow_succ]
        field_simp
        ring) h1
  have h5 := key.2.2
  dsimp only at h5
  refine h5.trans (le_of_eq ?_)
  norm_num

/-- C49, for the fitness used by the program: the number of sampled points of the expected colour minus the number of others. -/
theorem C49_perspective {img : PreparedImage S} {p q : Perspective F} {grid_size : Nat}
    (h : jiggle_perspective img p grid_size = .ok q) :
    ∃ b b', fitness_all img p grid_size = .ok b ∧ fitness_all img q grid_size = .ok b' ∧ (q = p ∨ b < b') :=
  C49_never_worse h

/-! ### Concrete cases -/

/-- Exact arithmetic satisfies the law. -/
theorem small_integers_rat : SmallIntegersExact ℚ := by
  intro n hn
  have e15 : (FloatOps.lit 15 0 : ℚ) = 15 := by show ((15 : Nat) : ℚ) / 10 ^ 0 = 15; norm_num
  show (saturate 0 (2 ^ 64 - 1) (truncate ((⌊((n : Int) : ℚ) - (FloatOps.lit 15 0 : ℚ)⌋ : Int) : ℚ))).toNat = n - 15
  rw [e15, show (((n : Int) : ℚ) - 15) = (((n : Int) - 15 : Int) : ℚ) by push_cast; ring, Int.floor_intCast, Exact.truncate_int]
  unfold saturate
  omega

example : size_from_scan ℚ 28 = .ok 41 := (C46_version small_integers_rat (v := 6) (by omega) (by omega) (by omega)).1
example : size_from_scan ℚ 0 = .error .panic := C46_size small_integers_rat (by omega)

/-- A capstone with module size 1 around `(x, y)`. -/
def upright (x y : Int) : CapStone ℚ where
  corners := #v[⟨x - 3, y - 3⟩, ⟨x + 4, y - 3⟩, ⟨x + 4, y + 4⟩, ⟨x - 3, y + 4⟩]
  center := ⟨x, y⟩
  c := #v[1, 0, x - 7 / 2, 0, 1, y - 7 / 2, 0, 0]

/-- Five capstones in the shape of a plus sign. -/
def plus : List (CapStone ℚ) := [upright 50 50, upright 50 20, upright 50 80, upright 20 50, upright 80 50]

/-- The centres of the groups found. -/
def centres (r : Run (List (CapStoneGroup ℚ))) : Option (List (Point × Point × Point)) :=
  match r with
  | .ok gs => some (gs.map fun g => (g.a.center, g.b.center, g.c.center))
  | .error _ => none

/-- Both pairs of arms are grouped with the same corner: a capstone can be reported twice, as a corner. -/
example : centres (find_groupings_with find_and_rank_possible_neighbors (fun _ => .ok true) plus) =
    some [(⟨50, 20⟩, ⟨50, 50⟩, ⟨20, 50⟩), (⟨50, 80⟩, ⟨50, 50⟩, ⟨80, 50⟩)] := by decide +kernel

/-- The corner of a square with one viable group. -/
example : centres (find_groupings_with find_and_rank_possible_neighbors (fun g => .ok (decide (g.b.center.x = 20)))
    [upright 20 20, upright 60 20, upright 20 60]) = some [(⟨20, 60⟩, ⟨20, 20⟩, ⟨60, 20⟩)] := by decide +kernel

/-- A fitness that prefers larger values of the first and smaller values of the fifth coefficient. -/
def lopsided (p : Perspective ℚ) : Run Int := .ok (⌊p[0] * 1000⌋ - ⌊p[4] * 1000⌋)

example : (jiggle_with lopsided #v[1, 0, 5, 0, 1, 5, 0, 0]).toOption =
    some #v[1 + 31 / 800, 0, 5, 0, 1 - 31 / 800, 5, 0, 0] := by decide +kernel

end Rqrr
