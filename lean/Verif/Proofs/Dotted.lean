import Verif.Spec.Dotted
import Verif.Proofs.BlankRegions
import Verif.Proofs.SeveralSheet

/-!
# Nothing in a symbol drawn with dots looks like a finder pattern but the finder patterns
-/

namespace Rqrr

open Spec ImageBuffer

variable {S : Type} [ImageBuffer S] [LawfulImage S] {img : PreparedImage S} {n : Nat} {M : Nat → Nat → Bool} {P : Placement}

/-- Something that looks like a finder pattern, in an image that shows the same pixels there and nothing else. -/
theorem shape_local {T : Type} [ImageBuffer T] [LawfulImage T] {imgA : PreparedImage T} {D : Pos → Prop}
    (hblack : ∀ p, IsBlack imgA p ↔ IsBlack img p ∧ D p) (hB : ∀ p q, D p → Adj p q → ¬ D q → ¬ IsBlack img q) {y x : Nat}
    {pos : LinePosition} (hf : FinderShape img y x pos) (hr : RingAndStone img y pos)
    (hD : ∀ z, pos.left ≤ z → z < x → IsBlack img (z, y) → D (z, y)) : FinderShape imgA y x pos ∧ RingAndStone imgA y pos := by
  have hblack' : IsBlack imgA = fun p => IsBlack img p ∧ D p := by
    funext p; rw [eq_iff_iff]; exact hblack p
  have hreach : ∀ {p q}, D p → (Reach (IsBlack img) p q ↔ Reach (IsBlack imgA) p q) := by
    intro p q hp
    rw [hblack']
    exact reach_local hB hp
  have harea : ∀ {p}, D p → area (IsBlack img) p = area (IsBlack imgA) p := by
    intro p hp
    unfold area
    congr 1
    ext q
    exact hreach hp
  have row : ∀ z, rowOf imgA y z = true ↔ IsBlack imgA (z, y) := fun z => @decide_eq_true_iff _ (Classical.propDecidable _)
  have row' : ∀ z, rowOf img y z = true ↔ IsBlack img (z, y) := fun z => @decide_eq_true_iff _ (Classical.propDecidable _)
  obtain ⟨hx, hlast, hend, x1, x3, r1, r2, r3, r4, r5, ratio⟩ := hf
  have l1 := r1.1
  have l2 := r2.1
  have l3 := r3.1
  have l4 := r4.1
  have l5 := r5.1
  have same : ∀ z, pos.left ≤ z → z < x → rowOf imgA y z = rowOf img y z := by
    intro z h1 h2
    rw [Bool.eq_iff_iff, row, row', hblack]
    exact ⟨fun h => h.1, fun h => ⟨h, hD z h1 h2 h⟩⟩
  have light : ∀ z, rowOf img y z = false → rowOf imgA y z = false := by
    intro z h
    rw [Bool.eq_false_iff] at h ⊢
    intro h'
    apply h
    rw [row, hblack] at h'
    exact (row' z).2 h'.1
  have five : rowOf img y pos.right = true := by
    rw [← r5.2.1 (x - 1) (by omega) (by omega)]; exact hlast
  have hin : D (pos.right, y) := hD _ (by omega) (by omega) ((row' _).1 five)
  have next : ∀ a b, a < b → (∀ i, a ≤ i → i < b → rowOf img y i = rowOf img y a) → rowOf img y (b - 1) ≠ rowOf img y b → rowOf img y b = false →
      rowOf img y a = true := by
    intro a b h1 h2 h3 h4
    rw [h2 (b - 1) (by omega) (by omega), h4] at h3
    simpa using h3
  have four : rowOf img y x3 = false := by
    have := r5.2.2.resolve_left (by omega)
    rw [r4.2.1 (pos.right - 1) (by omega) (by omega), five] at this
    simpa using this
  have three : rowOf img y pos.stone = true := next _ _ l3 r3.2.1 (r4.2.2.resolve_left (by omega)) four
  have ds : D (pos.stone, y) := hD _ (by omega) (by omega) ((row' _).1 three)
  have two : rowOf img y x1 = false := by
    have := r3.2.2.resolve_left (by omega)
    rw [r2.2.1 (pos.stone - 1) (by omega) (by omega), three] at this
    simpa using this
  have left : rowOf img y pos.left = true := next _ _ l1 r1.2.1 (r2.2.2.resolve_left (by omega)) two
  have run : ∀ a b, pos.left < a → b ≤ x → IsRun (rowOf img y) a b → IsRun (rowOf imgA y) a b := by
    rintro a b h1 h2 ⟨c1, c2, c3⟩
    refine ⟨c1, fun i hi hi' => ?_, ?_⟩
    · rw [same i (by omega) (by omega), same a (by omega) (by omega)]
      exact c2 i hi hi'
    · right
      rw [same (a - 1) (by omega) (by omega), same a (by omega) (by omega)]
      rcases c3 with c3 | c3
      · omega
      · exact c3
  have run0 : IsRun (rowOf imgA y) pos.left x1 := by
    refine ⟨l1, fun i hi hi' => ?_, ?_⟩
    · rw [same i (by omega) (by omega), same pos.left (by omega) (by omega)]
      exact r1.2.1 i hi hi'
    · rcases r1.2.2 with c3 | c3
      · exact .inl c3
      · right
        rw [same pos.left (by omega) (by omega), left]
        rw [left] at c3
        rw [light _ (by simpa using c3)]
        simp
  refine ⟨⟨hx, ?_, light _ hend, x1, x3, run0, run _ _ (by omega) (by omega) r2,
    run _ _ (by omega) (by omega) r3, run _ _ (by omega) (by omega) r4, run _ _ (by omega) (by omega) r5, ratio⟩, ⟨?_, ?_, ?_, ?_⟩⟩
  · rw [same _ (by omega) (by omega)]; exact hlast
  · exact (hreach hin).1 hr.joined
  · exact fun h => hr.apart ((hreach hin).2 h)
  · rw [← harea ds, ← harea hin]; exact hr.lower
  · rw [← harea ds, ← harea hin]; exact hr.upper

/-- The pixels of a module in a row of the image. -/
theorem module_row (hP : IsAxis P.right) (hs : 0 < P.scale) (hin : ∀ i j : Nat, i < n * P.scale → j < n * P.scale → 0 ≤ (P.pixel i j).x) {c : Pos}
    {z y : Nat} (hc : P.At c (z, y)) (h1 : c.1 < n * P.scale) (h2 : c.2 < n * P.scale) :
    ∃ z0, z0 ≤ z ∧ z < z0 + P.scale ∧ (∀ z', z0 ≤ z' → z' < z0 + P.scale → ∃ d : Pos, P.At d (z', y) ∧ d.1 < n * P.scale ∧ d.2 < n * P.scale ∧
        d.1 / P.scale = c.1 / P.scale ∧ d.2 / P.scale = c.2 / P.scale) ∧
      ∀ z' (d : Pos), P.At d (z', y) → d.1 / P.scale = c.1 / P.scale → d.2 / P.scale = c.2 / P.scale → z0 ≤ z' ∧ z' < z0 + P.scale := by
  obtain ⟨i, j⟩ := c
  dsimp only at h1 h2 ⊢
  obtain ⟨s, hs'⟩ : ∃ s, s = P.scale := ⟨_, rfl⟩
  rw [← hs'] at hs h1 h2 ⊢
  simp only [← hs'] at hin
  have di : ∀ k : Nat, k / s * s ≤ k ∧ k < k / s * s + s := by
    intro k
    have := Nat.div_add_mod k s
    have := Nat.mod_lt k hs
    have e : k / s * s = s * (k / s) := Nat.mul_comm _ _
    omega
  have same : ∀ k q : Nat, q * s ≤ k → k < q * s + s → k / s = q := by
    intro k q a b
    exact Nat.div_eq_of_lt_le a (by rw [Nat.add_mul]; omega)
  have top : ∀ k : Nat, k < n * s → k / s * s + s ≤ n * s := by
    intro k hk
    have : k / s < n := (Nat.div_lt_iff_lt_mul hs).2 hk
    calc k / s * s + s = (k / s + 1) * s := by ring
      _ ≤ n * s := Nat.mul_le_mul_right _ this
  obtain ⟨ai, bi⟩ := di i
  obtain ⟨aj, bj⟩ := di j
  have ti := top i h1
  have tj := top j h2
  obtain ⟨I, hI⟩ : ∃ I, I = i / s * s := ⟨_, rfl⟩
  obtain ⟨J, hJ⟩ : ∃ J, J = j / s * s := ⟨_, rfl⟩
  have k1 := hin I J (by omega) (by omega)
  have k2 := hin (I + s - 1) (J + s - 1) (by omega) (by omega)
  have di' : ∀ d : Nat, d / s = i / s → I ≤ d ∧ d < I + s := by
    intro d hd
    have := di d
    rw [hd] at this
    omega
  have dj' : ∀ d : Nat, d / s = j / s → J ≤ d ∧ d < J + s := by
    intro d hd
    have := di d
    rw [hd] at this
    omega
  have si : ∀ d : Nat, I ≤ d → d < I + s → d / s = i / s := fun d a b => same d _ (by omega) (by omega)
  have sj : ∀ d : Nat, J ≤ d → d < J + s → d / s = j / s := fun d a b => same d _ (by omega) (by omega)
  rw [show ((I + s - 1 : Nat) : Int) = I + s - 1 by omega, show ((J + s - 1 : Nat) : Int) = J + s - 1 by omega] at k2
  unfold Spec.Placement.At at hc ⊢
  unfold Spec.Placement.pixel at hc k1 k2 ⊢
  rw [Point.mk.injEq] at hc
  dsimp only at hc k1 k2 ⊢
  simp only [Point.mk.injEq]
  rcases hP with h | h | h | h <;> rw [h] at hc k1 k2 ⊢ <;> dsimp only at hc k1 k2 ⊢ <;>
    simp only [mul_one, mul_zero, mul_neg, add_zero, sub_zero] at hc k1 k2 ⊢
  · refine ⟨(P.corner.x + I).toNat, by omega, by omega, fun z' a b => ⟨((z' - P.corner.x).toNat, j), by dsimp only; omega, by dsimp only; omega, h2, si _ (by omega) (by omega), rfl⟩,
      fun z' d hd e1 e2 => ?_⟩
    have := di' _ e1
    omega
  · refine ⟨(P.corner.x - (J + s - 1)).toNat, by omega, by omega, fun z' a b => ⟨(i, (P.corner.x - z').toNat), by dsimp only; omega, h1, by dsimp only; omega, rfl, sj _ (by omega) (by omega)⟩,
      fun z' d hd e1 e2 => ?_⟩
    have := dj' _ e2
    omega
  · refine ⟨(P.corner.x - (I + s - 1)).toNat, by omega, by omega, fun z' a b => ⟨((P.corner.x - z').toNat, j), by dsimp only; omega, by dsimp only; omega, h2, si _ (by omega) (by omega), rfl⟩,
      fun z' d hd e1 e2 => ?_⟩
    have := di' _ e1
    omega
  · refine ⟨(P.corner.x + J).toNat, by omega, by omega, fun z' a b => ⟨(i, (z' - P.corner.x).toNat), by dsimp only; omega, h1, by dsimp only; omega, rfl, sj _ (by omega) (by omega)⟩,
      fun z' d hd e1 e2 => ?_⟩
    have := dj' _ e2
    omega

/-- What must be drawn in full is determined by the version. -/
theorem essential_value {v : Nat} (h1 : 1 ≤ v) {M M' : Nat → Nat → Bool} (hM : Patterned v M) (hM' : Patterned v M') {x y : Nat} (hx : x < side v)
    (hy : y < side v) (h : Essential (side v) x y) : M y x = M' y x := by
  have hs : side v = 17 + 4 * v := rfl
  have pat : ∀ m ∈ patternModules v, M m.1 m.2.1 = M' m.1 m.2.1 := fun m hm => (hM.pattern m hm).trans (hM'.pattern m hm).symm
  have fin : ∀ a b i j : Nat, FinderPlace (side v) a b → i < 7 → j < 7 → M (b + i) (a + j) = M' (b + i) (a + j) := by
    intro a b i j hab hi hj
    refine pat (b + i, a + j, finderDark i j) ?_
    unfold patternModules finderModules
    rw [List.mem_append, List.mem_append, List.mem_append, List.mem_append]
    rcases hab with ⟨rfl, rfl⟩ | ⟨rfl, rfl⟩ | ⟨rfl, rfl⟩
    · exact .inl (.inr (.inl (.inl (mem_square' hi hj))))
    · exact .inl (.inr (.inl (.inr (mem_square' hi hj))))
    · exact .inl (.inr (.inr (mem_square' hi hj)))
  have sep : ∀ i < 8, M 7 i = M' 7 i ∧ M i 7 = M' i 7 ∧ M 7 (side v - 1 - i) = M' 7 (side v - 1 - i) ∧ M i (side v - 8) = M' i (side v - 8) ∧
      M (side v - 8) i = M' (side v - 8) i ∧ M (side v - 1 - i) 7 = M' (side v - 1 - i) 7 := by
    intro i hi
    obtain ⟨a1, a2, a3, a4, a5, a6⟩ := hM.separators i hi
    obtain ⟨b1, b2, b3, b4, b5, b6⟩ := hM'.separators i hi
    exact ⟨a1.trans b1.symm, a2.trans b2.symm, a3.trans b3.symm, a4.trans b4.symm, a5.trans b5.symm, a6.trans b6.symm⟩
  have corner : (x < 8 ∧ y < 8 ∨ side v ≤ x + 8 ∧ y < 8 ∨ x < 8 ∧ side v ≤ y + 8) → M y x = M' y x := by
    rintro (⟨a, b⟩ | ⟨a, b⟩ | ⟨a, b⟩)
    · by_cases c : y = 7
      · rw [c]; exact (sep x a).1
      by_cases d : x = 7
      · rw [d]; exact (sep y b).2.1
      have := fin 0 0 y x (by unfold FinderPlace; omega) (by omega) (by omega)
      rwa [Nat.zero_add, Nat.zero_add] at this
    · by_cases c : y = 7
      · rw [c]
        have := (sep (side v - 1 - x) (by omega)).2.2.1
        rwa [show side v - 1 - (side v - 1 - x) = x by omega] at this
      by_cases d : x = side v - 8
      · rw [d]; exact (sep y b).2.2.2.1
      have := fin (side v - 7) 0 y (x - (side v - 7)) (by unfold FinderPlace; omega) (by omega) (by omega)
      rwa [Nat.zero_add, show side v - 7 + (x - (side v - 7)) = x by omega] at this
    · by_cases c : x = 7
      · rw [c]
        have := (sep (side v - 1 - y) (by omega)).2.2.2.2.2
        rwa [show side v - 1 - (side v - 1 - y) = y by omega] at this
      by_cases d : y = side v - 8
      · rw [d]; exact (sep x a).2.2.2.2.1
      have := fin 0 (side v - 7) (y - (side v - 7)) x (by unfold FinderPlace; omega) (by omega) (by omega)
      rwa [Nat.zero_add, show side v - 7 + (y - (side v - 7)) = y by omega] at this
  have timing : ∀ i, i < side v - 14 → (6, i + 7, timingDark (i + 7)) ∈ patternModules v ∧ (i + 7, 6, timingDark (i + 7)) ∈ patternModules v := by
    intro i hi
    have : ∀ m, m = (6, i + 7, timingDark (i + 7)) ∨ m = (i + 7, 6, timingDark (i + 7)) → m ∈ patternModules v := by
      intro m hm
      unfold patternModules timingModules
      rw [List.mem_append, List.mem_append]
      refine .inl (.inl (List.mem_flatMap.2 ⟨i, List.mem_range.2 hi, ?_⟩))
      simpa using hm
    exact ⟨this _ (.inl rfl), this _ (.inr rfl)⟩
  rcases h with h | h | h | h | h | ⟨m, hm, e1, e2⟩
  · exact corner (.inl h)
  · exact corner (.inr (.inl h))
  · exact corner (.inr (.inr h))
  · by_cases hc : y < 8 ∨ side v ≤ y + 8
    · exact corner (by omega)
    · rw [h]
      have := pat _ (timing (y - 7) (by omega)).2
      dsimp only at this
      rwa [show y - 7 + 7 = y by omega] at this
  · by_cases hc : x < 8 ∨ side v ≤ x + 8
    · exact corner (by omega)
    · rw [h]
      have := pat _ (timing (x - 7) (by omega)).1
      dsimp only at this
      rwa [show x - 7 + 7 = x by omega] at this
  · rw [show (side v - 17) / 4 = v by omega] at hm
    rw [← e1, ← e2]
    refine pat m ?_
    unfold patternModules
    exact List.mem_append_right _ hm

/-- The dark modules of the function patterns must be drawn in full. -/
theorem blank_essential {v : Nat} (h1 : 1 ≤ v) (hv : v ≤ 40) {x y : Nat} (hx : x < side v) (hy : y < side v) (h : blank v y x = true) :
    Essential (side v) x y := by
  have hs : side v = 17 + 4 * v := rfl
  unfold Essential
  rcases blank_dark (m := (x, y)) h1 ⟨hx, hy, h⟩ with ⟨hc, -⟩ | ⟨-, h⟩
  · unfold Corner at hc
    dsimp only at hc
    omega
  · dsimp only at h
    rcases h with h | ⟨-, h | ⟨-, c, hc, h⟩⟩
    · exact .inr (.inr (.inr (.inr (.inl h.1))))
    · exact .inr (.inr (.inr (.inl h.1)))
    · refine .inr (.inr (.inr (.inr (.inr ⟨(y, x, alignDark (y - (c.1 - 2)) (x - (c.2 - 2))), ?_, rfl, rfl⟩))))
      rw [show (side v - 17) / 4 = v by omega]
      obtain ⟨c1, c2, -⟩ := align_where hv hc
      unfold AlignBox at h
      dsimp only at h
      unfold alignModules
      refine List.mem_flatMap.2 ⟨c, hc, ?_⟩
      have := mem_square' (n := 5) (dark := alignDark) (y := c.1 - 2) (x := c.2 - 2) (i := y - (c.1 - 2)) (j := x - (c.2 - 2)) (by omega) (by omega)
      rwa [show c.1 - 2 + (y - (c.1 - 2)) = y by omega, show c.2 - 2 + (x - (c.2 - 2)) = x by omega] at this

/-- A pixel of a module that is drawn in full. -/
def OnEssential (n : Nat) (P : Placement) (p : Pos) : Prop :=
  ∃ c : Pos, P.At c p ∧ c.1 < n * P.scale ∧ c.2 < n * P.scale ∧ Essential n (c.1 / P.scale) (c.2 / P.scale)

/-- A black pixel of this module. -/
def OnDot (img : PreparedImage S) (n : Nat) (P : Placement) (m p : Pos) : Prop :=
  IsBlack img p ∧ ∃ c : Pos, P.At c p ∧ c.1 < n * P.scale ∧ c.2 < n * P.scale ∧ (c.1 / P.scale, c.2 / P.scale) = m

theorem edge_of_step {s a b : Nat} (hs : 0 < s) (h : a + 1 = b ∨ b + 1 = a) (hne : a / s ≠ b / s) : AtEdge s a ∧ AtEdge s b := by
  have key : ∀ a, a / s ≠ (a + 1) / s → AtEdge s a ∧ AtEdge s (a + 1) := by
    intro a h
    have h1 := Nat.div_add_mod a s
    have h2 := Nat.mod_lt a hs
    have e : a / s * s = s * (a / s) := Nat.mul_comm _ _
    have last : a % s = s - 1 := by
      by_contra hne'
      exact h (Nat.div_eq_of_lt_le (by omega) (by rw [Nat.add_mul]; omega)).symm
    refine ⟨.inr last, .inl ?_⟩
    rw [show a + 1 = s * (a / s + 1) by rw [Nat.mul_add]; omega, Nat.mul_mod_right]
  rcases h with h | h
  · rw [← h] at hne ⊢
    exact key a hne
  · rw [← h] at hne ⊢
    exact (key b (Ne.symm hne)).symm

namespace Spec.Dotted

variable (hD : Dotted img n M P)
include hD

/-- A dot does not touch other modules. -/
theorem step {p q c d : Pos} (hp : P.At c p) (hq : P.At d q) (hc : c.1 < n * P.scale ∧ c.2 < n * P.scale) (hd : d.1 < n * P.scale ∧ d.2 < n * P.scale)
    (ha : Adj p q) (hne : (c.1 / P.scale, c.2 / P.scale) ≠ (d.1 / P.scale, d.2 / P.scale)) :
    (¬ Essential n (c.1 / P.scale) (c.2 / P.scale) → ¬ IsBlack img p) ∧ (¬ Essential n (d.1 / P.scale) (d.2 / P.scale) → ¬ IsBlack img q) := by
  have hs : 0 < P.scale := by have := hD.scale; omega
  have ha' := (at_adj hD.renders.axis hp hq).2 ha
  have he : (AtEdge P.scale c.1 ∧ AtEdge P.scale d.1) ∨ (AtEdge P.scale c.2 ∧ AtEdge P.scale d.2) := by
    rcases ha' with ⟨e, h⟩ | ⟨e, h⟩
    · left
      exact edge_of_step hs h fun h' => hne (by rw [h', e])
    · right
      exact edge_of_step hs h fun h' => hne (by rw [h', e])
  exact ⟨fun hE => hD.edge p c.1 c.2 hc.1 hc.2 hE (he.imp And.left And.left) hp, fun hE => hD.edge q d.1 d.2 hd.1 hd.2 hE (he.imp And.right And.right) hq⟩

/-- What is drawn in full is not connected to dots. -/
theorem leave (p q : Pos) (hp : OnEssential n P p) (ha : Adj p q) (hq : ¬ OnEssential n P q) : ¬ IsBlack img q := by
  obtain ⟨c, h1, h2, h3, h4⟩ := hp
  by_cases hin : InDrawing n P q
  · obtain ⟨i, j, hi, hj, e⟩ := hin
    have hne : ¬ Essential n (i / P.scale) (j / P.scale) := fun h => hq ⟨(i, j), e, hi, hj, h⟩
    refine (hD.step h1 (d := (i, j)) e ⟨h2, h3⟩ ⟨hi, hj⟩ ha ?_).2 hne
    intro h
    rw [Prod.mk.injEq] at h
    exact hne (h.1 ▸ h.2 ▸ h4)
  · exact hD.border p q ⟨c.1, c.2, h2, h3, h1⟩ ha hin

theorem leave_dot {m : Pos} (hm : ¬ Essential n m.1 m.2) (p q : Pos) (hp : OnDot img n P m p) (ha : Adj p q) (hq : ¬ OnDot img n P m q) :
    ¬ IsBlack img q := by
  intro hb
  obtain ⟨hbp, c, h1, h2, h3, h4⟩ := hp
  by_cases hin : InDrawing n P q
  · obtain ⟨i, j, hi, hj, e⟩ := hin
    refine (hD.step h1 (d := (i, j)) e ⟨h2, h3⟩ ⟨hi, hj⟩ ha ?_).1 ?_ hbp
    · intro h
      exact hq ⟨hb, (i, j), e, hi, hj, h.symm.trans h4⟩
    · rw [← h4] at hm
      exact hm
  · exact hD.border p q ⟨c.1, c.2, h2, h3, h1⟩ ha hin hb

end Spec.Dotted

/-- In a drawing with dots only finder patterns look like finder patterns. -/
theorem dotted_local {v : Nat} (h1 : 1 ≤ v) (hv : v ≤ 40) (hD : Dotted img (side v) M P) (hM : Patterned v M) {y x : Nat} {pos : LinePosition}
    (hf : FinderShape img y x pos) (hr : RingAndStone img y pos) (hin : InDrawing (side v) P (pos.right, y)) :
    InFinders (side v) P (pos.right, y) := by
  have hsv : side v = 17 + 4 * v := rfl
  have hs : 0 < P.scale := by have := hD.scale; omega
  have hR := hD.renders
  have row : ∀ z, rowOf img y z = true ↔ IsBlack img (z, y) := fun z => @decide_eq_true_iff _ (Classical.propDecidable _)
  have row' : ∀ z, rowOf img y z = false ↔ ¬ IsBlack img (z, y) := fun z => by rw [← row, Bool.not_eq_true]
  obtain ⟨hx, hlast, hend, x1, x3, r1, r2, r3, r4, r5, ratio⟩ := id hf
  have l1 := r1.1
  have l2 := r2.1
  have l3 := r3.1
  have l4 := r4.1
  have l5 := r5.1
  have five : rowOf img y pos.right = true := by
    rw [← r5.2.1 (x - 1) (by omega) (by omega)]; exact hlast
  have four : rowOf img y x3 = false := by
    have := r5.2.2.resolve_left (by omega)
    rw [r4.2.1 (pos.right - 1) (by omega) (by omega), five] at this
    simpa using this
  have three : rowOf img y pos.stone = true := by
    have := r4.2.2.resolve_left (by omega)
    rw [r3.2.1 (x3 - 1) (by omega) (by omega), four] at this
    simpa using this
  have two : rowOf img y x1 = false := by
    have := r3.2.2.resolve_left (by omega)
    rw [r2.2.1 (pos.stone - 1) (by omega) (by omega), three] at this
    simpa using this
  have one : rowOf img y pos.left = true := by
    have := r2.2.2.resolve_left (by omega)
    rw [r1.2.1 (x1 - 1) (by omega) (by omega), two] at this
    simpa using this
  -- the ring is no dot
  have dr : OnEssential (side v) P (pos.right, y) := by
    by_contra hno
    obtain ⟨i, j, hi, hj, e⟩ := hin
    have hne : ¬ Essential (side v) (i / P.scale) (j / P.scale) := fun h => hno ⟨(i, j), e, hi, hj, h⟩
    have hdot : OnDot img (side v) P (i / P.scale, j / P.scale) (pos.right, y) := ⟨(row _).1 five, (i, j), e, hi, hj, rfl⟩
    obtain ⟨-, c, c1, c2, c3, c4⟩ := reach_inside (hD.leave_dot hne) hdot hr.joined
    rw [Prod.mk.injEq] at c4
    have := hD.once pos.left x3 pos.right y c.1 c.2 i j c2 c3 (by rw [c4.1, c4.2]; exact hne) c1 e c4.1 c4.2 (by omega) (by omega) ((row _).1 one)
      ((row _).1 five)
    exact (row' _).1 four this
  have dl : OnEssential (side v) P (pos.left, y) := reach_inside hD.leave dr hr.joined
  have spread : ∀ a b, (∀ z, a ≤ z → z < b → IsBlack img (z, y)) → OnEssential (side v) P (a, y) → ∀ z, a ≤ z → z < b → OnEssential (side v) P (z, y) := by
    intro a b hb ha z hz
    induction z, hz using Nat.le_induction with
    | base => exact fun _ => ha
    | succ z hz ih =>
      intro hz'
      by_contra hd
      exact hD.leave (z, y) (z + 1, y) (ih (by omega)) (.inl ⟨rfl, .inl rfl⟩) hd (hb _ (by omega) hz')
  have b1 : ∀ z, pos.left ≤ z → z < x1 → IsBlack img (z, y) := fun z a b => (row _).1 ((r1.2.1 z a b).trans one)
  have b3 : ∀ z, pos.stone ≤ z → z < x3 → IsBlack img (z, y) := fun z a b => (row _).1 ((r3.2.1 z a b).trans three)
  have b5 : ∀ z, pos.right ≤ z → z < x → IsBlack img (z, y) := fun z a b => (row _).1 ((r5.2.1 z a b).trans five)
  have inside0 : ∀ i j : Nat, i < side v * P.scale → j < side v * P.scale → 0 ≤ (P.pixel i j).x := fun i j hi hj => (hR.inside i j hi hj).1
  -- the first run is at least a module long
  have w1 : P.scale ≤ x1 - pos.left := by
    obtain ⟨c, c1, c2, c3, c4⟩ := dl
    obtain ⟨z0, a1, a2, a3, -⟩ := module_row hR.axis hs inside0 c1 c2 c3
    have all : ∀ z', z0 ≤ z' → z' < z0 + P.scale → IsBlack img (z', y) := by
      intro z' k1 k2
      obtain ⟨d, d1, d2, d3, d4, d5⟩ := a3 z' k1 k2
      have h1 := hR.black (pos.left, y) c.1 c.2 c2 c3 (.inl c4) c1
      have h2 := hR.black (z', y) d.1 d.2 d2 d3 (.inl (by rw [d4, d5]; exact c4)) d1
      rw [h2, d4, d5]
      exact h1.1 ((row _).1 one)
    have : z0 = pos.left := by
      by_contra hne
      have hb := all (pos.left - 1) (by omega) (by omega)
      rcases r1.2.2 with h | h
      · omega
      · exact h (((row _).2 hb).trans one.symm)
    by_contra hlt
    exact (row' _).1 two (all x1 (by omega) (by omega))
  -- the stone is no dot
  have ds : OnEssential (side v) P (pos.stone, y) := by
    by_contra hno
    have hst : InDrawing (side v) P (pos.stone, y) := by
      have hl : InDrawing (side v) P (pos.left, y) := by
        obtain ⟨c, c1, c2, c3, -⟩ := dl
        exact ⟨c.1, c.2, c2, c3, c1⟩
      exact inDrawing_between hR.axis hl hin (by omega) (by omega)
    obtain ⟨i, j, hi, hj, e⟩ := hst
    have hne : ¬ Essential (side v) (i / P.scale) (j / P.scale) := fun h => hno ⟨(i, j), e, hi, hj, h⟩
    have hdot : OnDot img (side v) P (i / P.scale, j / P.scale) (pos.stone, y) := ⟨(row _).1 three, (i, j), e, hi, hj, rfl⟩
    have hall : ∀ z, pos.stone ≤ z → z < x3 → OnDot img (side v) P (i / P.scale, j / P.scale) (z, y) := by
      intro z hz
      induction z, hz using Nat.le_induction with
      | base => exact fun _ => hdot
      | succ z hz ih =>
        intro hz'
        by_contra hd
        exact hD.leave_dot hne (z, y) (z + 1, y) (ih (by omega)) (.inl ⟨rfl, .inl rfl⟩) hd (b3 _ (by omega) hz')
    obtain ⟨-, c, c1, c2, c3, c4⟩ := hall (x3 - 1) (by omega) (by omega)
    rw [Prod.mk.injEq] at c4
    obtain ⟨z0, a1, a2, -, a4⟩ := module_row (c := (i, j)) hR.axis hs inside0 e hi hj
    have := a4 _ c c1 c4.1 c4.2
    have := ratio_inner (by omega) (by omega) (by omega) (by omega) ratio
    omega
  obtain ⟨imgA, -, -, -, -, hA⟩ := bitmap_pictures (M := blank v) (hR.fits (by omega)) (by norm_num) (by norm_num)
  have hblack : ∀ p, IsBlack imgA p ↔ IsBlack img p ∧ OnEssential (side v) P p := by
    intro p
    rw [hA.black]
    have val : ∀ i j : Nat, i < side v * P.scale → j < side v * P.scale → Essential (side v) (i / P.scale) (j / P.scale) →
        M (j / P.scale) (i / P.scale) = blank v (j / P.scale) (i / P.scale) := fun i j hi hj hE =>
      essential_value h1 hM (blank_patterned h1 hv) ((Nat.div_lt_iff_lt_mul hs).2 hi) ((Nat.div_lt_iff_lt_mul hs).2 hj) hE
    constructor
    · rintro ⟨i, j, hi, hj, hp, hm⟩
      have hE := blank_essential h1 hv ((Nat.div_lt_iff_lt_mul hs).2 hi) ((Nat.div_lt_iff_lt_mul hs).2 hj) hm
      exact ⟨(hR.black p i j hi hj (.inl hE) hp).2 ((val i j hi hj hE).trans hm), (i, j), hp, hi, hj, hE⟩
    · rintro ⟨hb, c, c1, c2, c3, c4⟩
      exact ⟨c.1, c.2, c2, c3, c1, (val _ _ c2 c3 c4).symm.trans ((hR.black p c.1 c.2 c2 c3 (.inl c4) c1).1 hb)⟩
  obtain ⟨hf', hr'⟩ := shape_local hblack hD.leave hf hr (by
    intro z k1 k2 hb
    by_cases q1 : z < x1
    · exact spread _ _ b1 dl z k1 q1
    by_cases q2 : z < pos.stone
    · exact absurd hb ((row' _).1 ((r2.2.1 z (by omega) q2).trans two))
    by_cases q3 : z < x3
    · exact spread _ _ b3 ds z (by omega) q3
    by_cases q4 : z < pos.right
    · exact absurd hb ((row' _).1 ((r4.2.1 z (by omega) q4).trans four))
    exact spread _ _ b5 dr z (by omega) k2)
  exact unmistakable_spec (by omega) hA (blank_unmistakable h1 hv (by omega)) y x pos hf' hr'

end Rqrr
