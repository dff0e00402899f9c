import Verif.Proofs.FramedFit

/-!
# The function patterns of a symbol
-/

namespace Rqrr

open Spec

theorem coord_facts : ∀ v < 41, ∀ a ∈ alignCoords v, a % 2 = 0 ∧ (a = 6 ∨ 16 ≤ a) ∧ (a = (alignCoords v).getLastD 6 ∨ a + 14 ≤ side v) ∧
    a + 7 ≤ side v ∧ ∀ b ∈ alignCoords v, a = b ∨ a + 5 ≤ b ∨ b + 5 ≤ a := by
  decide +kernel

theorem mem_square_list {n : Nat} {dark : Nat → Nat → Bool} {y x : Nat} {m : Nat × Nat × Bool} (h : m ∈ square n dark y x) :
    ∃ i j, i < n ∧ j < n ∧ m = (y + i, x + j, dark i j) := by
  unfold square at h
  obtain ⟨i, hi, h⟩ := List.mem_flatMap.1 h
  obtain ⟨j, hj, rfl⟩ := List.mem_map.1 h
  exact ⟨i, j, List.mem_range.1 hi, List.mem_range.1 hj, rfl⟩

theorem mem_alignCentres {v : Nat} {c : Nat × Nat} (h : c ∈ alignCentres v) :
    c.1 ∈ alignCoords v ∧ c.2 ∈ alignCoords v ∧ isAlignCentre (alignCoords v) c.1 c.2 = true := by
  unfold alignCentres at h
  obtain ⟨a, ha, h⟩ := List.mem_flatMap.1 h
  obtain ⟨b, hb, rfl⟩ := List.mem_map.1 h
  obtain ⟨h1, h2⟩ := List.mem_filter.1 hb
  exact ⟨ha, h1, h2⟩

/-- The modules of the alignment patterns, away from the finder patterns. -/
theorem mem_alignModules {v : Nat} (hv : v ≤ 40) {m : Nat × Nat × Bool} (h : m ∈ alignModules v) :
    ∃ c ∈ alignCentres v, ∃ i j, i < 5 ∧ j < 5 ∧ m = (c.1 - 2 + i, c.2 - 2 + j, alignDark i j) ∧
      ¬ (m.1 < 8 ∧ m.2.1 < 8 ∨ m.1 < 8 ∧ side v ≤ m.2.1 + 8 ∨ side v ≤ m.1 + 8 ∧ m.2.1 < 8) ∧
      c.1 % 2 = 0 ∧ c.2 % 2 = 0 ∧ (c.1 = 6 ∨ 16 ≤ c.1) ∧ (c.2 = 6 ∨ 16 ≤ c.2) ∧ ¬ (c.1 = 6 ∧ c.2 = 6) := by
  unfold alignModules at h
  obtain ⟨c, hc, h⟩ := List.mem_flatMap.1 h
  obtain ⟨i, j, hi, hj, rfl⟩ := mem_square_list h
  obtain ⟨h1, h2, h3⟩ := mem_alignCentres hc
  obtain ⟨a1, a2, a3, a4, -⟩ := coord_facts v (by omega) c.1 h1
  obtain ⟨b1, b2, b3, b4, -⟩ := coord_facts v (by omega) c.2 h2
  refine ⟨c, hc, i, j, hi, hj, rfl, ?_, a1, b1, a2, b2, ?_⟩
  all_goals
    unfold isAlignCentre at h3
    simp only [Bool.and_eq_true, Bool.not_eq_true', Bool.and_eq_false_iff, beq_eq_false_iff_ne] at h3
  · dsimp only
    omega
  · omega

theorem dist_le {a y k : Nat} : dist a y ≤ k ↔ a ≤ y + k ∧ y ≤ a + k := by
  unfold dist
  split <;> omega

theorem dist_shift {a i : Nat} (h : 2 ≤ a) : dist a (a - 2 + i) = dist 2 i := by
  unfold dist
  split <;> split <;> omega

/-- `blank` has the function patterns. -/
theorem blank_patterned {v : Nat} (h1 : 1 ≤ v) (hv : v ≤ 40) : Patterned v (blank v) := by
  have hs : side v = 17 + 4 * v := rfl
  constructor
  · intro m hm
    unfold patternModules finderModules at hm
    simp only [List.mem_append] at hm
    rcases hm with (hm | (hm | hm) | hm) | hm
    · unfold timingModules at hm
      obtain ⟨i, hi, h⟩ := List.mem_flatMap.1 hm
      rw [List.mem_range] at hi
      simp only [List.mem_cons, List.not_mem_nil, or_false] at h
      unfold blank
      rcases h with rfl | rfl
      · dsimp only
        by_cases hc : i = 0 ∨ i = side v - 15
        · rw [if_pos (by omega)]
          unfold timingDark
          rcases hc with rfl | rfl
          · have e : decide (6 < 7 ∧ 7 < 7 ∧ side v ≠ 6 + 8 ∧ side v ≠ 0 + 7 + 8) = false := by rw [decide_eq_false_iff_not]; omega
            simp only [Nat.zero_add, show (6 : Nat) < 8 from by omega, show (7 : Nat) < 8 from by omega, if_true]
            rw [show decide ((6 : Nat) < 7 ∧ (7 : Nat) < 7 ∧ side v ≠ 6 + 8 ∧ side v ≠ 7 + 8) = false by rw [decide_eq_false_iff_not]; omega]
            rfl
          · rw [show decide (_ ∧ _ ∧ side v ≠ 6 + 8 ∧ side v ≠ side v - 15 + 7 + 8) = false by rw [decide_eq_false_iff_not]; omega]
            rw [Bool.false_and, eq_comm, beq_eq_false_iff_ne]; omega
        · rw [if_neg (by omega), if_pos rfl]
      · dsimp only
        by_cases hc : i = 0 ∨ i = side v - 15
        · rw [if_pos (by omega)]
          unfold timingDark
          rcases hc with rfl | rfl
          · simp only [Nat.zero_add, show (6 : Nat) < 8 from by omega, show (7 : Nat) < 8 from by omega, if_true]
            rw [show decide ((7 : Nat) < 7 ∧ (6 : Nat) < 7 ∧ side v ≠ 7 + 8 ∧ side v ≠ 6 + 8) = false by rw [decide_eq_false_iff_not]; omega]
            rfl
          · rw [show decide (_ ∧ _ ∧ side v ≠ side v - 15 + 7 + 8 ∧ side v ≠ 6 + 8) = false by rw [decide_eq_false_iff_not]; omega]
            rw [Bool.false_and, eq_comm, beq_eq_false_iff_ne]; omega
        · rw [if_neg (by omega)]
          by_cases h7 : i + 7 = 6
          · omega
          · rw [if_neg h7, if_pos rfl]
    · obtain ⟨i, j, hi, hj, rfl⟩ := mem_square_list hm
      unfold blank
      dsimp only
      rw [if_pos (by omega), if_pos (by omega), if_pos (by omega),
        show decide (0 + i < 7 ∧ 0 + j < 7 ∧ side v ≠ 0 + i + 8 ∧ side v ≠ 0 + j + 8) = true by rw [decide_eq_true_iff]; omega]
      simp only [Nat.zero_add, Bool.true_and]
    · obtain ⟨i, j, hi, hj, rfl⟩ := mem_square_list hm
      unfold blank
      dsimp only
      rw [if_pos (by omega), if_pos (by omega), if_neg (by omega), show side v - 7 + j + 7 - side v = j by omega,
        show decide (0 + i < 7 ∧ j < 7 ∧ side v ≠ 0 + i + 8 ∧ side v ≠ side v - 7 + j + 8) = true by rw [decide_eq_true_iff]; omega]
      simp only [Nat.zero_add, Bool.true_and]
    · obtain ⟨i, j, hi, hj, rfl⟩ := mem_square_list hm
      unfold blank
      dsimp only
      rw [if_pos (by omega), if_neg (by omega), if_pos (by omega), show side v - 7 + i + 7 - side v = i by omega,
        show decide (i < 7 ∧ 0 + j < 7 ∧ side v ≠ side v - 7 + i + 8 ∧ side v ≠ 0 + j + 8) = true by rw [decide_eq_true_iff]; omega]
      simp only [Nat.zero_add, Bool.true_and]
    · obtain ⟨c, hc, i, j, hi, hj, rfl, hout, e1, e2, g1, g2, g3⟩ := mem_alignModules hv hm
      unfold blank
      dsimp only at hout ⊢
      rw [if_neg hout]
      have dk : ∀ i < 5, ∀ j < 5, (i = 2 → alignDark i j = (j % 2 == 0)) ∧ (j = 2 → alignDark i j = (i % 2 == 0)) := by decide
      split
      · rw [(dk i hi j hj).1 (by omega)]
        unfold timingDark
        rw [Bool.eq_iff_iff, beq_iff_eq, beq_iff_eq]
        omega
      · split
        · rw [(dk i hi j hj).2 (by omega)]
          unfold timingDark
          rw [Bool.eq_iff_iff, beq_iff_eq, beq_iff_eq]
          omega
        · rw [Bool.eq_iff_iff, List.any_eq_true]
          have hself : (decide (dist c.1 (c.1 - 2 + i) ≤ 2 ∧ dist c.2 (c.2 - 2 + j) ≤ 2) &&
              (max (dist c.1 (c.1 - 2 + i)) (dist c.2 (c.2 - 2 + j)) != 1)) = alignDark i j := by
            rw [dist_shift (by omega), dist_shift (by omega)]
            have : ∀ i < 5, ∀ j < 5, (decide (dist 2 i ≤ 2 ∧ dist 2 j ≤ 2) && (max (dist 2 i) (dist 2 j) != 1)) = alignDark i j := by decide
            exact this i hi j hj
          constructor
          · rintro ⟨c', hc', h⟩
            rw [← hself]
            suffices c' = c by rw [← this]; rw [this] at h ⊢; exact h
            rw [Bool.and_eq_true, decide_eq_true_iff, dist_le, dist_le] at h
            obtain ⟨h1, h2, -⟩ := mem_alignCentres hc
            obtain ⟨h1', h2', -⟩ := mem_alignCentres hc'
            obtain ⟨-, -, -, -, k1⟩ := coord_facts v (by omega) c.1 h1
            obtain ⟨-, -, -, -, k2⟩ := coord_facts v (by omega) c.2 h2
            have := k1 _ h1'
            have := k2 _ h2'
            exact Prod.ext (by omega) (by omega)
          · intro h
            exact ⟨c, hc, by rw [hself]; exact h⟩
  · intro i hi
    have fin : ∀ y x, (y < 8 ∧ x < 8 ∧ (y = 7 ∨ x = 7)) ∨ (y < 8 ∧ side v ≤ x + 8 ∧ x < side v ∧ (y = 7 ∨ side v = x + 8)) ∨
        (side v ≤ y + 8 ∧ y < side v ∧ x < 8 ∧ (x = 7 ∨ side v = y + 8)) → blank v y x = false := by
      intro y x h
      unfold blank
      rw [if_pos (by omega)]
      dsimp only
      rw [Bool.and_eq_false_iff]
      left
      rw [decide_eq_false_iff_not]
      split <;> split <;> omega
    exact ⟨fin _ _ (by omega), fin _ _ (by omega), fin _ _ (by omega), fin _ _ (by omega), fin _ _ (by omega), fin _ _ (by omega)⟩

/-- The modules of the patterns are function modules, and not of the first format copy. -/
theorem pattern_function {v : Nat} (h1 : 1 ≤ v) (hv : v ≤ 40) {m : Nat × Nat × Bool} (hm : m ∈ patternModules v) :
    isFunction v m.1 m.2.1 = true ∧ ∀ i, i < 15 → formatPos1 i ≠ (m.1, m.2.1) := by
  have hs : side v = 17 + 4 * v := rfl
  have fp : ∀ i, i < 15 → ((formatPos1 i).1 ≤ 8 ∧ (formatPos1 i).2 = 8 ∧ (formatPos1 i).1 ≠ 6) ∨
      ((formatPos1 i).1 = 8 ∧ (formatPos1 i).2 ≤ 8 ∧ (formatPos1 i).2 ≠ 6) := by decide
  have np : ∀ {y x : Nat}, ¬ ((y ≤ 8 ∧ x = 8 ∧ y ≠ 6) ∨ (y = 8 ∧ x ≤ 8 ∧ x ≠ 6)) → ∀ i, i < 15 → formatPos1 i ≠ (y, x) := by
    intro y x h i hi he
    have := fp i hi
    rw [he] at this
    exact h this
  have fin : ∀ {y x : Nat}, (y ≤ 7 ∧ x ≤ 7) ∨ (y ≤ 7 ∧ side v - 8 ≤ x) ∨ (side v - 8 ≤ y ∧ x ≤ 7) → isFunction v y x = true := by
    intro y x h
    unfold isFunction isFunctionOf inFinder
    simp only [Bool.or_eq_true, Bool.and_eq_true, decide_eq_true_iff, ge_iff_le]
    exact .inl (.inl (.inl (.inl (by omega))))
  unfold patternModules finderModules at hm
  simp only [List.mem_append] at hm
  rcases hm with (hm | (hm | hm) | hm) | hm
  · unfold timingModules at hm
    obtain ⟨i, hi, h⟩ := List.mem_flatMap.1 hm
    simp only [List.mem_cons, List.not_mem_nil, or_false] at h
    rcases h with rfl | rfl
    · refine ⟨?_, np (by dsimp only; omega)⟩
      unfold isFunction isFunctionOf inTiming
      simp
    · refine ⟨?_, np (by dsimp only; omega)⟩
      unfold isFunction isFunctionOf inTiming
      simp
  · obtain ⟨i, j, hi, hj, rfl⟩ := mem_square_list hm
    exact ⟨fin (by dsimp only; omega), np (by dsimp only; omega)⟩
  · obtain ⟨i, j, hi, hj, rfl⟩ := mem_square_list hm
    exact ⟨fin (by dsimp only; omega), np (by dsimp only; omega)⟩
  · obtain ⟨i, j, hi, hj, rfl⟩ := mem_square_list hm
    exact ⟨fin (by dsimp only; omega), np (by dsimp only; omega)⟩
  · obtain ⟨c, hc, i, j, hi, hj, rfl, hout, e1, e2, g1, g2, g3⟩ := mem_alignModules hv hm
    obtain ⟨c1, c2, c3⟩ := mem_alignCentres hc
    refine ⟨?_, np (by dsimp only at hout ⊢; omega)⟩
    unfold isFunction isFunctionOf inAlignment
    have : ((alignCoords v).any fun a => (alignCoords v).any fun b => isAlignCentre (alignCoords v) a b &&
        decide (dist a (c.1 - 2 + i) ≤ 2) && decide (dist b (c.2 - 2 + j) ≤ 2)) = true := by
      rw [List.any_eq_true]
      refine ⟨_, c1, ?_⟩
      rw [List.any_eq_true]
      refine ⟨_, c2, ?_⟩
      rw [c3, Bool.true_and, Bool.and_eq_true, decide_eq_true_iff, decide_eq_true_iff, dist_le, dist_le]
      omega
    rw [this, Bool.or_true]

/-- The separators too. -/
theorem separator_function {v : Nat} (h1 : 1 ≤ v) {y x : Nat} (h : (y < 8 ∧ x < 8 ∧ (y = 7 ∨ x = 7)) ∨
    (y < 8 ∧ side v ≤ x + 8 ∧ x < side v ∧ (y = 7 ∨ side v = x + 8)) ∨ (side v ≤ y + 8 ∧ y < side v ∧ x < 8 ∧ (x = 7 ∨ side v = y + 8))) :
    isFunction v y x = true ∧ ∀ i, i < 15 → formatPos1 i ≠ (y, x) := by
  have hs : side v = 17 + 4 * v := rfl
  have fp : ∀ i, i < 15 → ((formatPos1 i).1 ≤ 8 ∧ (formatPos1 i).2 = 8) ∨ ((formatPos1 i).1 = 8 ∧ (formatPos1 i).2 ≤ 8) := by decide
  constructor
  · unfold isFunction isFunctionOf inFinder
    simp only [Bool.or_eq_true, Bool.and_eq_true, decide_eq_true_iff, ge_iff_le]
    exact .inl (.inl (.inl (.inl (by omega))))
  · intro i hi he
    have := fp i hi
    rw [he] at this
    dsimp only at this
    omega

/-- The patterns only depend on the function modules outside the first format copy. -/
theorem Patterned.transfer {v : Nat} (h1 : 1 ≤ v) (hv : v ≤ 40) {M m : Nat → Nat → Bool} (hM : Patterned v M)
    (h : ∀ y x, isFunction v y x = true → (∀ i, i < 15 → formatPos1 i ≠ (y, x)) → m y x = M y x) : Patterned v m := by
  have hs : side v = 17 + 4 * v := rfl
  constructor
  · intro k hk
    obtain ⟨f1, f2⟩ := pattern_function h1 hv hk
    rw [h _ _ f1 f2]
    exact hM.pattern k hk
  · intro i hi
    have sep : ∀ {y x : Nat}, (y < 8 ∧ x < 8 ∧ (y = 7 ∨ x = 7)) ∨
        (y < 8 ∧ side v ≤ x + 8 ∧ x < side v ∧ (y = 7 ∨ side v = x + 8)) ∨ (side v ≤ y + 8 ∧ y < side v ∧ x < 8 ∧ (x = 7 ∨ side v = y + 8)) →
        m y x = M y x := by
      intro y x hyx
      obtain ⟨f1, f2⟩ := separator_function h1 hyx
      exact h _ _ f1 f2
    obtain ⟨s1, s2, s3, s4, s5, s6⟩ := hM.separators i hi
    rw [sep (by omega), sep (y := i) (by omega), sep (x := side v - 1 - i) (by omega), sep (y := i) (x := side v - 8) (by omega),
      sep (y := side v - 8) (by omega), sep (y := side v - 1 - i) (by omega)]
    exact ⟨s1, s2, s3, s4, s5, s6⟩

end Rqrr
