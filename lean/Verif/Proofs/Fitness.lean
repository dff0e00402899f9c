import Verif.Model.Identify
import Verif.Spec.Patterns
import Verif.Proofs.Reserved
import Mathlib.Tactic.Ring
import Mathlib.Algebra.BigOperators.Group.List.Basic

/-!
# The fitness of a transform is a sum over the function patterns
-/

namespace Rqrr

open Spec

variable {S : Type} [ImageBuffer S] {F : Type} [FloatOps F]

/-- The score of modules with given colours, for given scores of the cells. -/
def agreement (f : Int → Int → Int) (l : List (Nat × Nat × Bool)) : Int :=
  (l.map fun c => if c.2.2 then f c.2.1 c.1 else -f c.2.1 c.1).sum

theorem agreement_append (f : Int → Int → Int) (l l' : List (Nat × Nat × Bool)) :
    agreement f (l ++ l') = agreement f l + agreement f l' := by
  unfold agreement; rw [List.map_append, List.sum_append]

theorem agreement_flatMap {ι : Type} (f : Int → Int → Int) (g : ι → List (Nat × Nat × Bool)) (l : List ι) :
    agreement f (l.flatMap g) = (l.map fun i => agreement f (g i)).sum := by
  induction l with
  | nil => rfl
  | cons a l ih => rw [List.flatMap_cons, agreement_append, ih, List.map_cons, List.sum_cons]

theorem forRange_sum {lo : Nat} {f : Nat → Int → Run Int} {g : Nat → Int} (n : Nat) (s : Int)
    (h : ∀ i, lo ≤ i → i < lo + n → ∀ s, f i s = .ok (s + g i)) :
    forRange lo (lo + n) s f = .ok (s + ((List.range' lo n).map g).sum) := by
  have e := forRange_eq (lo := lo) (hi := lo + n) (s := s) (f := f)
    (fun i => s + ((List.range' lo (i - lo)).map g).sum) (by omega) (by simp) (by
      intro i h1 h2
      have e : i + 1 - lo = (i - lo) + 1 := by omega
      rw [h i h1 h2, e, List.range'_concat, List.map_append, List.sum_append]
      simp only [List.map_cons, List.map_nil, List.sum_cons, List.sum_nil, Nat.one_mul]
      rw [show lo + (i - lo) = i by omega]
      congr 1
      ring)
  rw [e, show lo + n - lo = n by omega]

section
variable {img : PreparedImage S} {p : Perspective F} {f : Int → Int → Int}

/-- The cells within distance `r` of the centre have these scores. -/
def CellsAround (img : PreparedImage S) (p : Perspective F) (f : Int → Int → Int) (cx cy : Int) (r : Nat) : Prop :=
  ∀ x y : Int, cx - r ≤ x → x ≤ cx + r → cy - r ≤ y → y ≤ cy + r → fitness_cell img p x y = .ok (f x y)

theorem fitness_ring_sum {cx cy : Int} {r R : Nat} (hr : r ≤ R) (h : CellsAround img p f cx cy R) :
    fitness_ring img p cx cy r = .ok (((List.range' 0 (r * 2)).map fun i : Nat =>
      f (cx - r + i) (cy - r) + f (cx - r) (cy + r - i) + f (cx + r) (cy - r + i) + f (cx + r - i) (cy + r)).sum) := by
  unfold fitness_ring
  have e := forRange_sum (lo := 0) (r * 2) 0 (f := fun i (score : Int) => do
    let s1 ← fitness_cell img p (cx - r + i) (cy - r)
    let s2 ← fitness_cell img p (cx - r) (cy + r - i)
    let s3 ← fitness_cell img p (cx + r) (cy - r + i)
    let s4 ← fitness_cell img p (cx + r - i) (cy + r)
    pure (score + s1 + s2 + s3 + s4)) (g := fun i : Nat =>
      f (cx - r + i) (cy - r) + f (cx - r) (cy + r - i) + f (cx + r) (cy - r + i) + f (cx + r - i) (cy + r)) (by
      intro i _ hi s
      rw [h _ _ (by omega) (by omega) (by omega) (by omega), Run.ok_bind, h _ _ (by omega) (by omega) (by omega) (by omega),
        Run.ok_bind, h _ _ (by omega) (by omega) (by omega) (by omega), Run.ok_bind,
        h _ _ (by omega) (by omega) (by omega) (by omega), Run.ok_bind, Run.pure_eq]
      congr 1
      ring)
  rw [Nat.zero_add] at e
  rw [e, Int.zero_add]

theorem fitness_apat_sum {cx cy : Nat} (hx : 2 ≤ cx) (hy : 2 ≤ cy) (h : CellsAround img p f cx cy 2) :
    fitness_apat img p cx cy = .ok (agreement f (square 5 alignDark (cy - 2) (cx - 2))) := by
  unfold fitness_apat
  rw [h _ _ (by omega) (by omega) (by omega) (by omega), Run.ok_bind, fitness_ring_sum (by omega) h, Run.ok_bind,
    fitness_ring_sum (by omega) h, Run.ok_bind, Run.pure_eq]
  obtain ⟨a, rfl⟩ : ∃ a, cx = a + 2 := ⟨cx - 2, by omega⟩
  obtain ⟨b, rfl⟩ : ∃ b, cy = b + 2 := ⟨cy - 2, by omega⟩
  congr 1
  simp only [Nat.add_sub_cancel, agreement, square, alignDark, Spec.dist, List.range'_succ, List.range'_zero, List.map_cons, List.map_nil,
    List.sum_cons, List.sum_nil, show List.range 5 = [0, 1, 2, 3, 4] from rfl, List.flatMap_cons, List.flatMap_nil,
    List.cons_append, List.nil_append, List.append_nil, Nat.reduceMul]
  simp only [Nat.reduceLeDiff, Nat.reduceSub, ↓reduceIte, Nat.le_refl, Nat.max_def, bne_iff_ne, ne_eq, Nat.reduceEqDiff, not_true_eq_false,
    not_false_eq_true, Nat.cast_add, Nat.cast_ofNat, Nat.cast_one, Nat.cast_zero, Nat.reduceAdd]
  ring_nf

theorem fitness_capstone_sum {x y : Nat} (h : CellsAround img p f (x + 3) (y + 3) 3) :
    fitness_capstone img p x y = .ok (agreement f (square 7 finderDark y x)) := by
  unfold fitness_capstone
  rw [h _ _ (by omega) (by omega) (by omega) (by omega), Run.ok_bind, fitness_ring_sum (by omega) h, Run.ok_bind,
    fitness_ring_sum (by omega) h, Run.ok_bind, fitness_ring_sum (by omega) h, Run.ok_bind, Run.pure_eq]
  congr 1
  simp only [agreement, square, finderDark, Spec.dist, List.range'_succ, List.range'_zero, List.map_cons, List.map_nil,
    List.sum_cons, List.sum_nil, show List.range 7 = [0, 1, 2, 3, 4, 5, 6] from rfl, List.flatMap_cons, List.flatMap_nil,
    List.cons_append, List.nil_append, List.append_nil, Nat.reduceMul]
  simp only [Nat.reduceLeDiff, Nat.reduceSub, ↓reduceIte, Nat.le_refl, Nat.max_def, bne_iff_ne, ne_eq, Nat.reduceEqDiff, not_true_eq_false,
    not_false_eq_true, Nat.cast_add, Nat.cast_ofNat, Nat.cast_one, Nat.cast_zero, Nat.reduceAdd]
  ring_nf

end

/-- The centres in the order in which the program visits them. -/
def codeCentres (cs : List Nat) : List (Nat × Nat) :=
  ((List.range' 1 (cs.length - 1 - 1)).flatMap fun i => [(cs.getD i 0, 6), (6, cs.getD i 0)]) ++
    (List.range' 1 (cs.length - 1)).flatMap fun i => (List.range' 1 (cs.length - 1)).map fun j => (cs.getD j 0, cs.getD i 0)

theorem centres_perm : ∀ v < 41, v ≠ 21 → (codeCentres (alignCoords v)).isPerm (alignCentres v) = true := by
  decide +kernel

theorem centres_range : ∀ v < 41, ∀ c ∈ alignCentres v, 4 ≤ c.1 ∧ c.1 + 7 ≤ side v ∧ 4 ≤ c.2 ∧ c.2 + 7 ≤ side v := by
  decide +kernel

theorem coords_range : ∀ v < 41, ∀ c ∈ alignCoords v, 4 ≤ c ∧ c + 7 ≤ side v := by
  decide +kernel

theorem timing_sum {img : PreparedImage S} {p : Perspective F} {f : Int → Int → Int} (n : Nat)
    (h : ∀ i, i < n → fitness_cell img p ((i : Int) + 7) 6 = .ok (f ((i : Int) + 7) 6) ∧
      fitness_cell img p 6 ((i : Int) + 7) = .ok (f 6 ((i : Int) + 7))) :
    (forRange 0 n 0 fun i (score : Int) => do
      let expect : Int := if i % 2 ≠ 0 then 1 else -1
      let s1 ← fitness_cell img p ((i : Int) + 7) 6
      let s2 ← fitness_cell img p 6 ((i : Int) + 7)
      pure (score + s1 * expect + s2 * expect)) = .ok (agreement f ((List.range n).flatMap fun i =>
        [(6, i + 7, timingDark (i + 7)), (i + 7, 6, timingDark (i + 7))])) := by
  have e := forRange_sum (lo := 0) n 0 (f := fun i (score : Int) => do
      let expect : Int := if i % 2 ≠ 0 then 1 else -1
      let s1 ← fitness_cell img p ((i : Int) + 7) 6
      let s2 ← fitness_cell img p 6 ((i : Int) + 7)
      pure (score + s1 * expect + s2 * expect)) (g := fun i =>
        agreement f [(6, i + 7, timingDark (i + 7)), (i + 7, 6, timingDark (i + 7))]) (by
      intro i _ hi s
      dsimp only
      obtain ⟨h1, h2⟩ := h i (by omega)
      rw [h1, Run.ok_bind, h2, Run.ok_bind, Run.pure_eq]
      congr 1
      unfold agreement timingDark
      simp only [List.map_cons, List.map_nil, List.sum_cons, List.sum_nil, Nat.cast_add, Nat.cast_ofNat, beq_iff_eq]
      by_cases hp : i % 2 = 0
      · rw [if_neg (by omega), if_neg (by omega), if_neg (by omega)]; ring
      · rw [if_pos hp, if_pos (by omega), if_pos (by omega)]; ring)
  rw [Nat.zero_add] at e
  rw [e, agreement_flatMap, Int.zero_add, List.range_eq_range']

/-- C56: the fitness is the sum over the function patterns. -/
theorem fitness_all_sum {img : PreparedImage S} {p : Perspective F} {f : Int → Int → Int} {v : Nat} (h1 : 1 ≤ v) (h40 : v ≤ 40)
    (h21 : v ≠ 21) (h : ∀ x y : Nat, x < side v → y < side v → fitness_cell img p x y = .ok (f x y)) :
    fitness_all img p (side v) = .ok (agreement f (patternModules v)) := by
  have hlen : VERSION_DATA_BASE.length = 41 := by decide
  have hs : side v = 17 + 4 * v := rfl
  have cell : ∀ x y : Int, 0 ≤ x → x < side v → 0 ≤ y → y < side v → fitness_cell img p x y = .ok (f x y) := by
    intro x y hx hx' hy hy'
    have := h x.toNat y.toNat (by omega) (by omega)
    rwa [Int.toNat_of_nonneg hx, Int.toNat_of_nonneg hy] at this
  have around : ∀ cx cy : Int, ∀ r : Nat, r ≤ cx → cx + r < side v → r ≤ cy → cy + r < side v → CellsAround img p f cx cy r := by
    intro cx cy r a b c d x y _ _ _ _
    exact cell x y (by omega) (by omega) (by omega) (by omega)
  unfold fitness_all
  rw [show version_from_grid_size (side v) = .ok v by
    unfold version_from_grid_size
    rw [subU_ok (by omega), Run.ok_bind, Run.pure_eq]; congr 1; omega]
  rw [Run.ok_bind, idx_ok _ (by omega : v < VERSION_DATA_BASE.length), Run.ok_bind]
  rw [timing_sum (f := f) (side v - 14) (by
    intro i hi
    exact ⟨cell _ _ (by omega) (by omega) (by omega) (by omega), cell _ _ (by omega) (by omega) (by omega) (by omega)⟩), Run.ok_bind]
  have k1 := fitness_capstone_sum (img := img) (p := p) (f := f) (x := 0) (y := 0)
    (around _ _ 3 (by omega) (by omega) (by omega) (by omega))
  have k2 := fitness_capstone_sum (img := img) (p := p) (f := f) (x := side v - 7) (y := 0)
    (around _ _ 3 (by omega) (by omega) (by omega) (by omega))
  have k3 := fitness_capstone_sum (img := img) (p := p) (f := f) (x := 0) (y := side v - 7)
    (around _ _ 3 (by omega) (by omega) (by omega) (by omega))
  rw [show ((side v - 7 : Nat) : Int) = (side v : Int) - 7 by omega] at k2 k3
  rw [Nat.cast_zero] at k1 k2 k3
  rw [k1, Run.ok_bind, k2, Run.ok_bind, k3, Run.ok_bind]
  dsimp only
  have hcs : (VERSION_DATA_BASE[v].apat).takeWhile (· != 0) = alignCoords v := by
    have hc : ∀ v < 41, v ≠ 21 → codeCoords v = alignCoords v := by decide +kernel
    have := hc v (by omega) h21
    rw [← this]
    unfold codeCoords
    rw [List.getElem?_eq_getElem (by omega : v < VERSION_DATA_BASE.length)]
    dsimp only
    congr 1
    funext x
    by_cases hx : x = 0 <;> simp [hx]
  rw [hcs]
  have hidx : ∀ i, i < (alignCoords v).length → idx (VERSION_DATA_BASE[v].apat) i = .ok ((alignCoords v).getD i 0) := by
    intro i hi
    obtain ⟨t, ht⟩ := List.takeWhile_prefix (p := (· != 0)) (l := VERSION_DATA_BASE[v].apat)
    rw [hcs] at ht
    rw [← ht, idx_ok _ (by rw [List.length_append]; omega), List.getElem_append_left hi]
    simp [hi]
  have hran : ∀ i, i < (alignCoords v).length → 4 ≤ (alignCoords v).getD i 0 ∧ (alignCoords v).getD i 0 + 7 ≤ side v := by
    intro i hi
    refine coords_range v (by omega) _ ?_
    simp [hi]
  -- the alignment patterns
  have ap : ∀ a b : Nat, 4 ≤ a → a + 7 ≤ side v → 4 ≤ b → b + 7 ≤ side v →
      fitness_apat img p a b = .ok (agreement f (square 5 alignDark (b - 2) (a - 2))) := by
    intro a b _ _ _ _
    exact fitness_apat_sum (by omega) (by omega) (around _ _ 2 (by omega) (by omega) (by omega) (by omega))
  generalize hC : alignCoords v = cs at hidx hran
  have e1 : ∀ s, forRange 1 (cs.length - 1) s (fun i (score : Int) => do
      let ai ← idx (VERSION_DATA_BASE[v].apat) i
      let s1 ← fitness_apat img p 6 ai
      let s2 ← fitness_apat img p ai 6
      pure (score + s1 + s2)) = .ok (s + ((List.range' 1 (cs.length - 1 - 1)).map fun i =>
        agreement f (square 5 alignDark (cs.getD i 0 - 2) 4) + agreement f (square 5 alignDark 4 (cs.getD i 0 - 2))).sum) := by
    intro s
    by_cases hl : cs.length ≤ 1
    · rw [show cs.length - 1 - 1 = 0 by omega, show cs.length - 1 = 0 by omega]
      simp [forRange, forRangeAux]
    have e := forRange_sum (lo := 1) (cs.length - 1 - 1) s (f := fun i (score : Int) => do
      let ai ← idx (VERSION_DATA_BASE[v].apat) i
      let s1 ← fitness_apat img p 6 ai
      let s2 ← fitness_apat img p ai 6
      pure (score + s1 + s2)) (g := fun i =>
        agreement f (square 5 alignDark (cs.getD i 0 - 2) 4) + agreement f (square 5 alignDark 4 (cs.getD i 0 - 2))) (by
        intro i _ hi s
        obtain ⟨r1, r2⟩ := hran i (by omega)
        have a1 := ap 6 _ (by omega) (by omega) r1 r2
        have a2 := ap _ 6 r1 r2 (by omega) (by omega)
        rw [show ((6 : Nat) : Int) = 6 from rfl] at a1 a2
        rw [hidx i (by omega), Run.ok_bind, a1, Run.ok_bind, a2, Run.ok_bind, Run.pure_eq]
        congr 1
        ring)
    rw [show 1 + (cs.length - 1 - 1) = cs.length - 1 by omega] at e
    exact e
  have e2 : ∀ s, forRange 1 cs.length s (fun i (score : Int) =>
      forRange 1 cs.length score fun j (score : Int) => do
      let ai ← idx (VERSION_DATA_BASE[v].apat) i
      let aj ← idx (VERSION_DATA_BASE[v].apat) j
      let s ← fitness_apat img p ai aj
      pure (score + s)) = .ok (s + ((List.range' 1 (cs.length - 1)).map fun i => ((List.range' 1 (cs.length - 1)).map fun j =>
        agreement f (square 5 alignDark (cs.getD j 0 - 2) (cs.getD i 0 - 2))).sum).sum) := by
    intro s
    by_cases hl : cs.length = 0
    · rw [show cs.length = 0 by omega]
      simp [forRange, forRangeAux]
    have inner : ∀ i, 1 ≤ i → i < cs.length → ∀ s, forRange 1 cs.length s (fun j (score : Int) => do
        let ai ← idx (VERSION_DATA_BASE[v].apat) i
        let aj ← idx (VERSION_DATA_BASE[v].apat) j
        let s ← fitness_apat img p ai aj
        pure (score + s)) = .ok (s + ((List.range' 1 (cs.length - 1)).map fun j =>
        agreement f (square 5 alignDark (cs.getD j 0 - 2) (cs.getD i 0 - 2))).sum) := by
      intro i _ hi s
      have e := forRange_sum (lo := 1) (cs.length - 1) s (f := fun j (score : Int) => do
        let ai ← idx (VERSION_DATA_BASE[v].apat) i
        let aj ← idx (VERSION_DATA_BASE[v].apat) j
        let s ← fitness_apat img p ai aj
        pure (score + s)) (g := fun j =>
        agreement f (square 5 alignDark (cs.getD j 0 - 2) (cs.getD i 0 - 2))) (by
          intro j _ hj s
          obtain ⟨r1, r2⟩ := hran i (by omega)
          obtain ⟨r3, r4⟩ := hran j (by omega)
          rw [hidx i (by omega), Run.ok_bind, hidx j (by omega), Run.ok_bind, ap _ _ r1 r2 r3 r4, Run.ok_bind, Run.pure_eq])
      rw [show 1 + (cs.length - 1) = cs.length by omega] at e
      exact e
    have e := forRange_sum (lo := 1) (cs.length - 1) s (f := fun i (score : Int) =>
      forRange 1 cs.length score fun j (score : Int) => do
      let ai ← idx (VERSION_DATA_BASE[v].apat) i
      let aj ← idx (VERSION_DATA_BASE[v].apat) j
      let s ← fitness_apat img p ai aj
      pure (score + s)) (g := fun i => ((List.range' 1 (cs.length - 1)).map fun j =>
        agreement f (square 5 alignDark (cs.getD j 0 - 2) (cs.getD i 0 - 2))).sum) (by
        intro i h1 h2 s
        exact inner i h1 (by omega) s)
    rw [show 1 + (cs.length - 1) = cs.length by omega] at e
    exact e
  rw [e1, Run.ok_bind, e2]
  congr 1
  have hp := List.isPerm_iff.1 (centres_perm v (by omega) h21)
  have hsum := (hp.map fun c => agreement f (square 5 alignDark (c.1 - 2) (c.2 - 2))).sum_eq
  unfold patternModules
  rw [agreement_append, agreement_append, finderModules, agreement_append, agreement_append, alignModules, agreement_flatMap f _ (alignCentres v), ← hsum,
    hC, codeCentres, List.map_append, List.sum_append]
  have f1 : ∀ l : List Nat, ((l.flatMap fun i => [(cs.getD i 0, 6), (6, cs.getD i 0)]).map fun c =>
      agreement f (square 5 alignDark (c.1 - 2) (c.2 - 2))).sum = (l.map fun i =>
        agreement f (square 5 alignDark (cs.getD i 0 - 2) 4) + agreement f (square 5 alignDark 4 (cs.getD i 0 - 2))).sum := by
    intro l
    induction l with
    | nil => rfl
    | cons a l ih =>
      rw [List.flatMap_cons, List.map_append, List.sum_append, ih, List.map_cons, List.sum_cons]
      simp only [List.map_cons, List.map_nil, List.sum_cons, List.sum_nil, Nat.reduceSub]
      ring
  have f2 : ∀ l m : List Nat, ((l.flatMap fun i => m.map fun j => (cs.getD j 0, cs.getD i 0)).map fun c =>
      agreement f (square 5 alignDark (c.1 - 2) (c.2 - 2))).sum = (l.map fun i => (m.map fun j =>
        agreement f (square 5 alignDark (cs.getD j 0 - 2) (cs.getD i 0 - 2))).sum).sum := by
    intro l m
    induction l with
    | nil => rfl
    | cons a l ih =>
      rw [List.flatMap_cons, List.map_append, List.sum_append, ih, List.map_cons, List.sum_cons, List.map_map]
      rfl
  rw [f1, f2, timingModules]
  ring

end Rqrr
