import Verif.Proofs.SeveralRank

/-!
# Detection of several drawn symbols: the whole path
-/

namespace Rqrr

open Spec ImageBuffer FloatOps Spec.Placement Rounding

variable {F : Type} [FloatOps F] [Rounding F]

variable {S : Type} [ImageBuffer S] [LawfulImage S] {img0 img : PreparedImage S} {syms : List Symbol}

omit [FloatOps F] [Rounding F] in
/-- If each capstone has either no pairs, or one pair that is viable, and these triples have no capstone in common, they are the groups. -/
theorem all_groups {caps : List (CapStone F)} {rank : List (CapStone F) → Nat → Run (List (Nat × Nat))} {viable : CapStoneGroup F → Run Bool}
    {T : Nat → Nat → Nat → Prop}
    (hr : ∀ i < caps.length, (rank caps i = .ok [] ∧ ∀ f g, ¬ T i f g) ∨ ∃ f g rest, rank caps i = .ok ((f, g) :: rest) ∧
      (∀ p ∈ rest, p.1 = f ∨ p.1 = g ∨ p.2 = f ∨ p.2 = g) ∧ T i f g)
    (hT : ∀ i f g, T i f g → f < caps.length ∧ g < caps.length ∧ (∀ f' g', ¬ T f f' g') ∧ (∀ f' g', ¬ T g f' g'))
    (hd : ∀ i f g i' f' g', T i f g → T i' f' g' → i ≠ i' → f ≠ f' ∧ f ≠ g' ∧ g ≠ f' ∧ g ≠ g')
    (hv : ∀ i f g cf ci cg, T i f g → caps[f]? = some cf → caps[i]? = some ci → caps[g]? = some cg → viable ⟨cf, ci, cg⟩ = .ok true) :
    ∃ tops groups, find_groupings_with rank viable caps = .ok groups ∧ tops.Nodup ∧ (∀ i, i ∈ tops ↔ i < caps.length ∧ ∃ f g, T i f g) ∧
      List.Forall₂ (fun i group => ∃ f g cf ci cg, T i f g ∧ caps[f]? = some cf ∧ caps[i]? = some ci ∧ caps[g]? = some cg ∧ group = ⟨cf, ci, cg⟩)
        tops groups := by
  have idxe : ∀ {i : Nat} {c : CapStone F}, caps[i]? = some c → idx caps i = .ok c := by
    intro i c h
    unfold idx
    rw [h]
  have rest : ∀ i f g, ∀ ps : List (Nat × Nat), (∀ p ∈ ps, p.1 = f ∨ p.1 = g ∨ p.2 = f ∨ p.2 = g) → ∀ used groups, f ∈ used → g ∈ used →
      forList (fun pair st => try_pair viable caps i pair st) ps (used, groups) = .ok (used, groups) := by
    intro i f g ps
    induction ps with
    | nil => intro _ used groups _ _; rfl
    | cons p ps ih =>
      intro h used groups hf hg
      have := h p (by simp)
      unfold forList
      have e : try_pair viable caps i p (used, groups) = .ok (used, groups) := by
        unfold try_pair
        dsimp only
        rw [if_pos (by rcases this with h | h | h | h <;> simp [h, hf, hg])]
        rfl
      rw [e, Run.ok_bind]
      exact ih (fun q hq => h q (by simp [hq])) used groups hf hg
  unfold find_groupings_with
  obtain ⟨⟨used, groups⟩, e, -, tops, h1, h2, h3⟩ := forRange_ok (lo := 0) (hi := caps.length) (s := (([], []) : List Nat × List (CapStoneGroup F)))
    (f := fun i (st : List Nat × List (CapStoneGroup F)) => do
      let (used, groups) := st
      if used.contains i then pure (used, groups)
      else do
        let pairs ← rank caps i
        forList (fun pair st => try_pair viable caps i pair st) pairs (used, groups))
    (fun n st => (∀ u, u ∈ st.1 → ∃ i f g, i < n ∧ T i f g ∧ (u = i ∨ u = f ∨ u = g)) ∧ ∃ tops : List Nat, tops.Nodup ∧ (∀ i, i ∈ tops ↔ i < n ∧ ∃ f g, T i f g) ∧
      List.Forall₂ (fun i group => ∃ f g cf ci cg, T i f g ∧ caps[f]? = some cf ∧ caps[i]? = some ci ∧ caps[g]? = some cg ∧ group = ⟨cf, ci, cg⟩)
        tops st.2) (Nat.zero_le _) ⟨by simp, [], List.nodup_nil, by simp, .nil⟩ (by
      rintro n ⟨used, groups⟩ - hn ⟨hu, tops, h1, h2, h3⟩
      dsimp only at hu h3 ⊢
      have keep : (∀ f g, ¬ T n f g) → (∀ u, u ∈ used → ∃ i f g, i < n + 1 ∧ T i f g ∧ (u = i ∨ u = f ∨ u = g)) ∧ ∃ tops : List Nat, tops.Nodup ∧
          (∀ i, i ∈ tops ↔ i < n + 1 ∧ ∃ f g, T i f g) ∧
          List.Forall₂ (fun i group => ∃ f g cf ci cg, T i f g ∧ caps[f]? = some cf ∧ caps[i]? = some ci ∧ caps[g]? = some cg ∧ group = ⟨cf, ci, cg⟩)
            tops groups := by
        intro hno
        refine ⟨fun u hu' => ?_, tops, h1, fun i => ?_, h3⟩
        · obtain ⟨i, f, g, a, b⟩ := hu u hu'
          exact ⟨i, f, g, by omega, b⟩
        · rw [h2]
          constructor
          · rintro ⟨a, b⟩; exact ⟨by omega, b⟩
          · rintro ⟨a, f, g, b⟩
            refine ⟨?_, f, g, b⟩
            rcases Nat.lt_succ_iff_lt_or_eq.1 a with a | rfl
            · exact a
            · exact absurd b (hno f g)
      rcases hr n hn with ⟨e, hno⟩ | ⟨f, g, ps, e, hp, ht⟩
      · by_cases hc : used.contains n = true
        · rw [if_pos hc]
          exact ⟨_, rfl, keep hno⟩
        · rw [if_neg hc, e, Run.ok_bind]
          exact ⟨_, rfl, keep hno⟩
      · obtain ⟨lf, lg, -, -⟩ := hT _ _ _ ht
        have notin : n ∉ used := by
          intro hin
          obtain ⟨i, f', g', a, b, c⟩ := hu n hin
          obtain ⟨-, -, k1, k2⟩ := hT _ _ _ b
          rcases c with rfl | rfl | rfl
          · omega
          · exact k1 _ _ ht
          · exact k2 _ _ ht
        have fnot : f ∉ used ∧ g ∉ used := by
          obtain ⟨-, -, j1, j2⟩ := hT _ _ _ ht
          constructor
          · intro hin
            obtain ⟨i, f', g', a, b, c⟩ := hu _ hin
            obtain ⟨k1, k2, k3, k4⟩ := hd _ _ _ _ _ _ ht b (by omega)
            rcases c with rfl | c | c
            · exact j1 _ _ b
            · exact k1 c
            · exact k2 c
          · intro hin
            obtain ⟨i, f', g', a, b, c⟩ := hu _ hin
            obtain ⟨k1, k2, k3, k4⟩ := hd _ _ _ _ _ _ ht b (by omega)
            rcases c with rfl | c | c
            · exact j2 _ _ b
            · exact k3 c
            · exact k4 c
        rw [if_neg (by simpa using notin), e, Run.ok_bind]
        have ef := List.getElem?_eq_getElem lf
        have eg := List.getElem?_eq_getElem lg
        have en := List.getElem?_eq_getElem hn
        have first : forList (fun pair st => try_pair viable caps n pair st) ((f, g) :: ps) (used, groups) =
            .ok (used ++ [f, n, g], groups ++ [⟨caps[f], caps[n], caps[g]⟩]) := by
          unfold forList
          have e : try_pair viable caps n (f, g) (used, groups) = .ok (used ++ [f, n, g], groups ++ [⟨caps[f], caps[n], caps[g]⟩]) := by
            unfold try_pair
            dsimp only
            rw [if_neg (by simp [fnot.1, fnot.2]), idxe ef, Run.ok_bind, idxe en, Run.ok_bind, idxe eg, Run.ok_bind, hv _ _ _ _ _ _ ht ef en eg, Run.ok_bind]
            rfl
          rw [e, Run.ok_bind]
          exact rest n f g ps hp _ _ (by simp) (by simp)
        refine ⟨_, first, fun u hu' => ?_, tops ++ [n], ?_, fun i => ?_, ?_⟩
        · rcases List.mem_append.1 hu' with hu' | hu'
          · obtain ⟨i, f, g, a, b⟩ := hu u hu'
            exact ⟨i, f, g, by omega, b⟩
          · refine ⟨n, f, g, by omega, ht, ?_⟩
            simp at hu'
            tauto
        · refine List.nodup_append.2 ⟨h1, by simp, ?_⟩
          intro a ha b hb
          have := ((h2 a).1 ha).1
          simp at hb
          omega
        · rw [List.mem_append, h2, List.mem_singleton]
          constructor
          · rintro (⟨a, b⟩ | rfl)
            · exact ⟨by omega, b⟩
            · exact ⟨by omega, f, g, ht⟩
          · rintro ⟨a, b⟩
            rcases Nat.lt_succ_iff_lt_or_eq.1 a with a | rfl
            · exact .inl ⟨a, b⟩
            · exact .inr rfl
        · exact List.rel_append h3 (.cons ⟨f, g, _, _, _, ht, ef, en, eg, rfl⟩ .nil))
  refine ⟨tops, groups, ?_, h1, h2, h3⟩
  rw [e]
  rfl

/-- The group of the capstones of a symbol. -/
def GroupOf (A : Symbol) (group : CapStoneGroup F) : Prop := ∃ ct cr cb, FramedCap A.place 0 0 ct ∧
  FramedCap A.place ((side A.version - 7 : Nat) * A.place.scale) 0 cr ∧ FramedCap A.place 0 ((side A.version - 7 : Nat) * A.place.scale) cb ∧
  (group = ⟨cb, ct, cr⟩ ∨ group = ⟨cr, ct, cb⟩)

/-- The pixel from which the alignment pattern is looked for is not claimed. -/
def Unclaimed (claims : Pos → Option Claim) (A : Symbol) : Prop := 2 ≤ A.version → ∀ p : Pos,
  A.place.pixel ((side A.version - 7 : Nat) * A.place.scale) ((side A.version - 7 : Nat) * A.place.scale) = ⟨p.1, p.2⟩ → claims p = none

theorem GroupOf.locate (h0 : Fresh img0) {claims : Pos → Option Claim} (hist : History img0 claims img) (hw : width img0.buffer ≤ 32768)
    (hh : height img0.buffer ≤ 32768) {A : Symbol} (hA : A.DrawnIn img0) {group : CapStoneGroup F} (hg : GroupOf A group) (hno : Unclaimed claims A) :
    ∃ img' claims' c, SkewedGridLocation.from_group img group = .ok (img', some { grid_size := side A.version, c := c }) ∧
      Rounded c (A.place.grid 0 0 A.place.scale) ∧ History img0 claims' img' ∧ (∀ p, claims' p ≠ none → claims p ≠ none ∨ A.Covers p) := by
  obtain ⟨ct, cr, cb, f1, f2, f3, hg⟩ := hg
  exact from_group_drawn h0 hist hw hh hA.pos hA.le hA.ne hA.renders hA.patterned f1 f2 f3 hA.inRange hno hg

/-- Where the symbol is. -/
def LocationOf (A : Symbol) (loc : SkewedGridLocation F) : Prop := loc.grid_size = side A.version ∧ Rounded loc.c (A.place.grid 0 0 A.place.scale)

/-- The groups of the symbols are located in turn. -/
theorem locate_several (h0 : Fresh img0) (hw : width img0.buffer ≤ 32768) (hh : height img0.buffer ≤ 32768) :
    ∀ (order : List Symbol) (groups : List (CapStoneGroup F)), List.Forall₂ GroupOf order groups → (∀ A ∈ order, A.DrawnIn img0) →
      (order.Pairwise fun A B => ∀ p, ¬ (A.Covers p ∧ B.Covers p)) →
      ∀ (img : PreparedImage S) (claims : Pos → Option Claim), History img0 claims img → (∀ A ∈ order, Unclaimed claims A) →
      ∀ acc : List (SkewedGridLocation F), ∃ img' claims' locs, forList (fun group (st : PreparedImage S × List (SkewedGridLocation F)) => do
          let (img, locations) := st
          let (img, loc) ← SkewedGridLocation.from_group img group
          match loc with
          | some loc => pure (img, locations ++ [loc])
          | none => pure (img, locations)) groups (img, acc) = .ok (img', acc ++ locs) ∧ History img0 claims' img' ∧ List.Forall₂ LocationOf order locs := by
  intro order groups hf
  induction hf with
  | nil => intro _ _ img claims hist _ acc; exact ⟨img, claims, [], by rw [List.append_nil]; rfl, hist, .nil⟩
  | @cons A group order groups hg _ ih =>
    intro hd hp img claims hist hno acc
    obtain ⟨p1, p2⟩ := List.pairwise_cons.1 hp
    obtain ⟨img', claims', c, e, hc, hist', keep⟩ := hg.locate h0 hist hw hh (hd A (by simp)) (hno A (by simp))
    obtain ⟨img'', claims'', locs, e', hist'', hl⟩ := ih (fun B hB => hd B (by simp [hB])) p2 img' claims' hist' (by
      intro B hB h2 p hpp
      by_contra hne
      rcases keep p hne with hne | hcov
      · exact hne (hno B (by simp [hB]) h2 p hpp)
      · have dB := hd B (by simp [hB])
        have hn : side B.version = 17 + 4 * B.version := rfl
        obtain ⟨sB, -⟩ := dB.scale
        have lt : (side B.version - 7) * B.place.scale < side B.version * B.place.scale := Nat.mul_lt_mul_of_pos_right (by omega) (by omega)
        refine p1 B hB p ⟨hcov, (side B.version - 7) * B.place.scale, (side B.version - 7) * B.place.scale, lt, lt, ?_⟩
        push_cast
        exact hpp) (acc ++ [{ grid_size := side A.version, c := c }])
    refine ⟨img'', claims'', { grid_size := side A.version, c := c } :: locs, ?_, hist'', .cons ⟨rfl, hc⟩ hl⟩
    unfold forList
    dsimp only
    rw [e, Run.ok_bind]
    dsimp only
    rw [Run.pure_eq, Run.ok_bind, e', List.append_assoc]
    rfl

/-- The corners that are reported. -/
theorem bounds_drawn {A : Symbol} (hA : A.DrawnIn img0) {loc : SkewedGridLocation F} (hl : LocationOf A loc) {α : Type} (f : Point → Point → Point → Point → Run α) :
    (do
      let b0 ← loc.c.map (FloatOps.lit 0 0 : F) (FloatOps.lit 0 0)
      let b1 ← loc.c.map ((FloatOps.ofInt (loc.grid_size : Int) : F) + FloatOps.lit 1 0) (FloatOps.lit 0 0)
      let b2 ← loc.c.map ((FloatOps.ofInt (loc.grid_size : Int) : F) + FloatOps.lit 1 0) ((FloatOps.ofInt (loc.grid_size : Int) : F) + FloatOps.lit 1 0)
      let b3 ← loc.c.map (FloatOps.lit 0 0 : F) ((FloatOps.ofInt (loc.grid_size : Int) : F) + FloatOps.lit 1 0)
      f b0 b1 b2 b3) = f (A.place.pixel 0 0) (A.place.pixel ((side A.version + 1 : Nat) * A.place.scale) 0)
        (A.place.pixel ((side A.version + 1 : Nat) * A.place.scale) ((side A.version + 1 : Nat) * A.place.scale))
        (A.place.pixel 0 ((side A.version + 1 : Nat) * A.place.scale)) := by
  have hn : side A.version = 17 + 4 * A.version := rfl
  have hv := hA.le
  have h1 := hA.pos
  obtain ⟨es, hcr⟩ := hl
  obtain ⟨sA, sA'⟩ := hA.scale
  have hR := hA.renders
  rw [es]
  obtain ⟨N, hN⟩ : ∃ N : Nat, N = (side A.version + 1) * A.place.scale := ⟨_, rfl⟩
  have cN : (((side A.version + 1 : Nat) : Int) * A.place.scale) = (N : Int) := by rw [hN]; push_cast; ring
  have hsp : 0 < side A.version * A.place.scale := Nat.mul_pos (by omega) (by omega)
  have z0 : Sc (FloatOps.lit 0 0 : F) 0 201 2 := by
    have := Sc.lit (F := F) (m := 0) (e := 0) (S := 201) (by norm_num) (by norm_num) (by norm_num)
    rw [show ((0 : Nat) : ℚ) / 10 ^ 0 = 0 by norm_num] at this
    exact this.mono (le_refl _) (by norm_num) (by norm_num) (by norm_num)
  have z1 : Sc (FloatOps.add (FloatOps.ofInt ((side A.version : Nat) : Int)) (FloatOps.lit 1 0) : F) ((side A.version : Nat) + 1) 201 2 := position_sc (by omega) sc10
  obtain ⟨bx, by'⟩ := inside_le hR (i := 0) (j := 0) hsp hsp
  have sb : ((A.place.scale : ℚ)) ≤ 10000 := by exact_mod_cast (show A.place.scale ≤ 10000 by omega)
  have mp : ∀ {X Y : Int} {u w : F} {U V : ℚ}, Sc u U 201 2 → Sc w V 201 2 → A.place.scale * U = X → A.place.scale * V = Y → loc.c.map u w = .ok (A.place.pixel X Y) := by
    intro X Y u w U V hu hw' eA eB
    have := grid_map hR.axis hcr (A := X) (B := Y) (by positivity) sb (by norm_num) (by norm_num) (Q := 10000) (by norm_num) (by norm_num) bx by'
      hu hw' (by norm_num) (by norm_num) (by norm_num) (by rw [eA, sub_self, abs_zero]; norm_num) (by rw [eB, sub_self, abs_zero]; norm_num)
    rwa [zero_add, zero_add] at this
  have hnum : (A.place.scale : ℚ) * (((side A.version : Nat) : ℚ) + 1) = ((N : Int) : ℚ) := by rw [← cN]; push_cast; ring
  have hzero : (A.place.scale : ℚ) * 0 = ((0 : Int) : ℚ) := by push_cast; ring
  have hg1 := mp z0 z0 hzero hzero
  have hg2 := mp z1 z0 hnum hzero
  have hg3 := mp z1 z1 hnum hnum
  have hg4 := mp z0 z1 hzero hnum
  rw [cN]
  refine Eq.trans (congrArg (· >>= _) hg1) ?_
  rw [Run.ok_bind]
  refine Eq.trans (congrArg (· >>= _) hg2) ?_
  rw [Run.ok_bind]
  refine Eq.trans (congrArg (· >>= _) hg3) ?_
  rw [Run.ok_bind]
  refine Eq.trans (congrArg (· >>= _) hg4) ?_
  rw [Run.ok_bind]

/-- The grid that is reported for a symbol. -/
def GridOf (A : Symbol) (g : DetectedGrid F) : Prop := LocationOf A g.location ∧
  g.bounds = [A.place.pixel 0 0, A.place.pixel ((side A.version + 1 : Nat) * A.place.scale) 0,
    A.place.pixel ((side A.version + 1 : Nat) * A.place.scale) ((side A.version + 1 : Nat) * A.place.scale),
    A.place.pixel 0 ((side A.version + 1 : Nat) * A.place.scale)]

theorem bounds_several : ∀ (order : List Symbol) (locs : List (SkewedGridLocation F)), List.Forall₂ LocationOf order locs → (∀ A ∈ order, A.DrawnIn img0) →
    ∀ acc : List (DetectedGrid F), ∃ grids, forList (fun (loc : SkewedGridLocation F) (grids : List (DetectedGrid F)) => do
      let n : F := FloatOps.ofInt (loc.grid_size : Int) + FloatOps.lit 1 0
      let b0 ← loc.c.map (FloatOps.lit 0 0) (FloatOps.lit 0 0)
      let b1 ← loc.c.map n (FloatOps.lit 0 0)
      let b2 ← loc.c.map n n
      let b3 ← loc.c.map (FloatOps.lit 0 0) n
      pure (grids ++ [{ location := loc, bounds := [b0, b1, b2, b3] }])) locs acc = .ok (acc ++ grids) ∧ List.Forall₂ GridOf order grids := by
  intro order locs hf
  induction hf with
  | nil => intro _ acc; exact ⟨[], by rw [List.append_nil]; rfl, .nil⟩
  | @cons A loc order locs hl _ ih =>
    intro hd acc
    have := bounds_drawn (hd A (by simp)) hl fun b0 b1 b2 b3 => (pure (acc ++ [⟨loc, [b0, b1, b2, b3]⟩]) : Run (List (DetectedGrid F)))
    obtain ⟨grids, e, hg⟩ := ih (fun B hB => hd B (by simp [hB])) (acc ++ [⟨loc, [A.place.pixel 0 0, A.place.pixel ((side A.version + 1 : Nat) * A.place.scale) 0,
      A.place.pixel ((side A.version + 1 : Nat) * A.place.scale) ((side A.version + 1 : Nat) * A.place.scale),
      A.place.pixel 0 ((side A.version + 1 : Nat) * A.place.scale)]⟩])
    refine ⟨⟨loc, [A.place.pixel 0 0, A.place.pixel ((side A.version + 1 : Nat) * A.place.scale) 0,
      A.place.pixel ((side A.version + 1 : Nat) * A.place.scale) ((side A.version + 1 : Nat) * A.place.scale),
      A.place.pixel 0 ((side A.version + 1 : Nat) * A.place.scale)]⟩ :: grids, ?_, .cons ⟨hl, rfl⟩ hg⟩
    unfold forList
    refine Eq.trans (congrArg (· >>= _) this) ?_
    rw [Run.pure_eq, Run.ok_bind, e, List.append_assoc]
    rfl

omit [FloatOps F] [Rounding F] in
theorem forall2_exists {α β : Type} {R : α → β → Prop} : ∀ (l : List α), (∀ a ∈ l, ∃ b, R a b) → ∃ m, List.Forall₂ R l m
  | [], _ => ⟨[], .nil⟩
  | a :: l, h => by
    obtain ⟨b, hb⟩ := h a (by simp)
    obtain ⟨m, hm⟩ := forall2_exists l fun a' ha' => h a' (by simp [ha'])
    exact ⟨b :: m, .cons hb hm⟩

theorem forall2_mem {α β : Type} {R : α → β → Prop} {l : List α} {m : List β} (h : List.Forall₂ R l m) : (∀ a ∈ l, ∃ b ∈ m, R a b) ∧ ∀ b ∈ m, ∃ a ∈ l, R a b := by
  induction h with
  | nil => simp
  | cons h _ ih =>
    simp only [List.mem_cons, forall_eq_or_imp]
    refine ⟨⟨⟨_, .inl rfl, h⟩, fun a ha => ?_⟩, ⟨_, .inl rfl, h⟩, fun b hb => ?_⟩
    · obtain ⟨b, h1, h2⟩ := ih.1 a ha
      exact ⟨b, .inr h1, h2⟩
    · obtain ⟨a, h1, h2⟩ := ih.2 b hb
      exact ⟨a, .inr h1, h2⟩

theorem forall2_nodup {α β : Type} {R : α → β → Prop} {l : List α} {m : List β} (h : List.Forall₂ R l m) (hl : l.Nodup)
    (hinj : ∀ a a' b, R a b → R a' b → a = a') : m.Nodup := by
  induction h with
  | nil => exact List.nodup_nil
  | cons h hf ih =>
    obtain ⟨h1, h2⟩ := List.nodup_cons.1 hl
    refine List.nodup_cons.2 ⟨fun hin => ?_, ih h2⟩
    obtain ⟨a', h3, h4⟩ := (forall2_mem hf).2 _ hin
    exact h1 (hinj _ _ _ h h4 ▸ h3)

theorem forall2_through {α β γ : Type} {R : α → β → Prop} {Q : α → γ → Prop} {T : β → γ → Prop} {l : List α} {m : List β} {n : List γ}
    (h1 : List.Forall₂ R l m) (h2 : List.Forall₂ Q l n) (h : ∀ a b c, R a b → Q a c → T b c) : List.Forall₂ T m n := by
  induction h1 generalizing n with
  | nil => cases h2; exact .nil
  | cons h3 _ ih =>
    cases h2 with
    | cons h4 h5 => exact .cons (h _ _ _ h3 h4) (ih h5)

/-- Drawn symbols are all detected, and nothing else. -/
theorem detect_several (h0 : Fresh img0) (hw : width img0.buffer ≤ 32768) (hh : height img0.buffer ≤ 32768) (hpos : 0 < width img0.buffer)
    (h : Several img0 syms) : ∃ img claims grids order, img0.detect_grids F = .ok (img, grids) ∧ History img0 claims img ∧ order.Perm syms ∧
      List.Forall₂ GridOf order grids := by
  obtain ⟨claims, img, caps, e, hist, hall, hno⟩ := capstones_several (F := F) h0 hw hh hpos h
  have free : ∀ A ∈ syms, Unclaimed claims A := fun A hA => align_free (h.drawn A hA).le (h.drawn A hA).renders (h.drawn A hA).patterned hno
  have K0 : ∀ A : Symbol, side A.version = 17 + 4 * A.version := fun _ => rfl
  let T : Nat → Nat → Nat → Prop := fun t f g => ∃ A ct cf cg, Labelled syms caps t A 0 0 ct ∧
    ((Labelled syms caps f A (side A.version - 7) 0 cf ∧ Labelled syms caps g A 0 (side A.version - 7) cg) ∨
      (Labelled syms caps f A 0 (side A.version - 7) cf ∧ Labelled syms caps g A (side A.version - 7) 0 cg)) ∧
    ∃ rest, find_and_rank_possible_neighbors caps t = .ok ((f, g) :: rest) ∧ ∀ p ∈ rest, p.1 = f ∨ p.1 = g ∨ p.2 = f ∨ p.2 = g
  have group : ∀ t f g cf ct cg A c, T t f g → Labelled syms caps t A 0 0 c → caps[f]? = some cf → caps[t]? = some ct → caps[g]? = some cg →
      GroupOf A ⟨cf, ct, cg⟩ := by
    rintro t f g cf ct cg A c ⟨B, c1, c2, c3, h1, h2, -⟩ hA gf gt gg
    obtain ⟨rfl, -, -⟩ := hA.unique h h1
    have c0 : (((0 : Nat) : Int) * A.place.scale) = 0 := by rw [Nat.cast_zero, zero_mul]
    obtain rfl := Option.some.inj (h1.get.symm.trans gt)
    have f1 := h1.framed
    rw [c0] at f1
    rcases h2 with ⟨h2, h3⟩ | ⟨h2, h3⟩
    · obtain rfl := Option.some.inj (h2.get.symm.trans gf)
      obtain rfl := Option.some.inj (h3.get.symm.trans gg)
      have f2 := h2.framed
      have f3 := h3.framed
      rw [c0] at f2 f3
      exact ⟨_, _, _, f1, f2, f3, .inr rfl⟩
    · obtain rfl := Option.some.inj (h2.get.symm.trans gf)
      obtain rfl := Option.some.inj (h3.get.symm.trans gg)
      have f2 := h2.framed
      have f3 := h3.framed
      rw [c0] at f2 f3
      exact ⟨_, _, _, f1, f3, f2, .inl rfl⟩
  have noT : ∀ {i : Nat} {A : Symbol} {a b : Nat} {c : CapStone F}, Labelled syms caps i A a b c → (a ≠ 0 ∨ b ≠ 0) → ∀ f g, ¬ T i f g := by
    rintro i A a b c hi hne f g ⟨B, c1, c2, c3, h1, -⟩
    have := hi.unique h h1
    omega
  have trioAt : ∀ A ∈ syms, ∃ t r b ct cr cb, Labelled syms caps t A 0 0 ct ∧ Labelled syms caps r A (side A.version - 7) 0 cr ∧
      Labelled syms caps b A 0 (side A.version - 7) cb ∧
      (∃ f g rest, ((f = r ∧ g = b) ∨ (f = b ∧ g = r)) ∧ find_and_rank_possible_neighbors caps t = .ok ((f, g) :: rest) ∧
        ∀ p ∈ rest, p.1 = f ∨ p.1 = g ∨ p.2 = f ∨ p.2 = g) ∧
      find_and_rank_possible_neighbors caps r = .ok [] ∧ find_and_rank_possible_neighbors caps b = .ok [] := by
    intro A hA
    have dA := h.drawn A hA
    have hv := dA.pos
    have := K0 A
    obtain ⟨t, ct, ht⟩ := hall.index A hA 0 0 (.inl ⟨rfl, rfl⟩)
    obtain ⟨r, cr, hr⟩ := hall.index A hA (side A.version - 7) 0 (.inr (.inl ⟨rfl, rfl⟩))
    obtain ⟨b, cb, hb⟩ := hall.index A hA 0 (side A.version - 7) (.inr (.inr ⟨rfl, rfl⟩))
    have hsz := renders_size dA.renders (by omega)
    have hK14 : 14 * A.place.scale ≤ (side A.version - 7) * A.place.scale := Nat.mul_le_mul_right _ (by omega)
    have hK20 : (side A.version - 7) * A.place.scale ≤ side A.version * A.place.scale := Nat.mul_le_mul_right _ (by omega)
    exact ⟨t, r, b, ct, cr, cb, ht, hr, hb, (trio_of h hall ht hr hb).rank dA.renders.axis dA.renders.scale hK14 (by omega)⟩
  have topT : ∀ {t : Nat} {A : Symbol} {ct : CapStone F}, Labelled syms caps t A 0 0 ct → ∃ f g, T t f g := by
    intro t A ct ht
    obtain ⟨t', r, b, c1, c2, c3, h1, h2, h3, ⟨f, g, rest, hfg, e, hp⟩, -, -⟩ := trioAt A ht.mem
    obtain rfl := hall.inj h1 ht
    rcases hfg with ⟨rfl, rfl⟩ | ⟨rfl, rfl⟩
    · exact ⟨_, _, A, _, _, _, h1, .inl ⟨h2, h3⟩, rest, e, hp⟩
    · exact ⟨_, _, A, _, _, _, h1, .inr ⟨h3, h2⟩, rest, e, hp⟩
  obtain ⟨tops, groups, eg, hnd, hmem, hgr⟩ := all_groups (caps := caps) (rank := find_and_rank_possible_neighbors)
    (viable := fun group => do
      let (_, loc) ← SkewedGridLocation.from_group img.clone group
      pure loc.isSome) (T := T) (by
      intro i hi
      obtain ⟨A, a, b, hA⟩ := hall.label i _ (List.getElem?_eq_getElem hi)
      obtain ⟨t', r, b', c1, c2, c3, h1, h2, h3, -, e1, e2⟩ := trioAt A hA.mem
      have := K0 A
      rcases hA.place with ⟨rfl, rfl⟩ | ⟨rfl, rfl⟩ | ⟨rfl, rfl⟩
      · right
        obtain ⟨f, g, hT⟩ := topT hA
        obtain ⟨-, -, -, -, -, -, rest, e, hp⟩ := id hT
        exact ⟨f, g, rest, e, hp, hT⟩
      · left
        obtain rfl := hall.inj h2 hA
        exact ⟨e1, noT hA (by omega)⟩
      · left
        obtain rfl := hall.inj h3 hA
        exact ⟨e2, noT hA (by omega)⟩) (by
      rintro i f g ⟨A, c1, c2, c3, h1, h2, -⟩
      have := K0 A
      have lt : ∀ {i A a b c}, Labelled syms caps i A a b c → i < caps.length := fun h => (List.getElem?_eq_some_iff.1 h.get).1
      rcases h2 with ⟨h2, h3⟩ | ⟨h2, h3⟩ <;> exact ⟨lt h2, lt h3, noT h2 (by omega), noT h3 (by omega)⟩) (by
      rintro i f g i' f' g' ⟨A, c1, c2, c3, h1, h2, -⟩ ⟨B, d1, d2, d3, k1, k2, -⟩ hne
      have ne : A ≠ B := by
        rintro rfl
        exact hne (hall.inj h1 k1)
      have diff : ∀ {i j a b a' b' c c'}, Labelled syms caps i A a b c → Labelled syms caps j B a' b' c' → i ≠ j := by
        rintro i j a b a' b' c c' l1 l2 rfl
        exact ne (l1.unique h l2).1
      rcases h2 with ⟨h2, h3⟩ | ⟨h2, h3⟩ <;> rcases k2 with ⟨k2, k3⟩ | ⟨k2, k3⟩ <;> exact ⟨diff h2 k2, diff h2 k3, diff h3 k2, diff h3 k3⟩) (by
      intro i f g cf ci cg hT gf gi gg
      obtain ⟨A, c1, c2, c3, h1, -⟩ := id hT
      obtain ⟨img', claims', c, e, -⟩ := (group i f g cf ci cg A _ hT h1 gf gi gg).locate h0 (.clone hist) hw hh (h.drawn A h1.mem) (free A h1.mem)
      rw [e, Run.ok_bind]
      rfl)
  -- the symbols in the order of their groups
  obtain ⟨order, horder⟩ := forall2_exists (R := fun t A => ∃ c : CapStone F, Labelled syms caps t A 0 0 c) tops (by
    intro t ht
    obtain ⟨-, f, g, A, c1, c2, c3, h1, -⟩ := (hmem t).1 ht
    exact ⟨A, c1, h1⟩)
  have horder_nd : order.Nodup := forall2_nodup horder hnd (by
    rintro t t' A ⟨c, h1⟩ ⟨c', h2⟩
    exact hall.inj h1 h2)
  have horder_mem : ∀ A, A ∈ order ↔ A ∈ syms := by
    intro A
    constructor
    · intro hA
      obtain ⟨t, -, c, h1⟩ := (forall2_mem horder).2 A hA
      exact h1.mem
    · intro hA
      obtain ⟨t, c, h1⟩ := hall.index A hA 0 0 (.inl ⟨rfl, rfl⟩)
      obtain ⟨B, hB, c', h2⟩ := (forall2_mem horder).1 t ((hmem t).2 ⟨(List.getElem?_eq_some_iff.1 h1.get).1, topT h1⟩)
      obtain ⟨rfl, -, -⟩ := h1.unique h h2
      exact hB
  have hsyms_nd : syms.Nodup := by
    refine List.Pairwise.imp_of_mem ?_ h.apart
    rintro A B hA - hd rfl
    have dA := h.drawn A hA
    have := K0 A
    obtain ⟨sA, -⟩ := dA.scale
    have hsp : 0 < side A.version * A.place.scale := Nat.mul_pos (by omega) (by omega)
    have ins := dA.renders.inside 0 0 hsp hsp
    have : A.Covers ((A.place.pixel 0 0).x.toNat, (A.place.pixel 0 0).y.toNat) := by
      refine ⟨0, 0, hsp, hsp, ?_⟩
      have e1 := Int.toNat_of_nonneg ins.1
      have e2 := Int.toNat_of_nonneg ins.2.2.2.1
      simp only [Nat.cast_zero] at e1 e2 ⊢
      rw [e1, e2]
    exact hd _ ⟨this, this⟩
  have hperm : order.Perm syms := (List.perm_ext_iff_of_nodup horder_nd hsyms_nd).2 horder_mem
  have hgo : List.Forall₂ GroupOf order groups := forall2_through horder hgr (by
    rintro t A g ⟨c, h1⟩ ⟨f, k, cf, ct, cg, hT, gf, gt, gk, rfl⟩
    exact group t f k cf ct cg A c hT h1 gf gt gk)
  have drawn : ∀ A ∈ order, A.DrawnIn img0 := fun A hA => h.drawn A ((horder_mem A).1 hA)
  obtain ⟨img', claims', locs, e', hist', hl⟩ := locate_several h0 hw hh order groups hgo drawn
    (hperm.pairwise_iff (R := fun A B : Symbol => ∀ p, ¬ (A.Covers p ∧ B.Covers p)) (fun h p hp => h p ⟨hp.2, hp.1⟩) |>.2 h.apart)
    img claims hist (fun A hA => free A ((horder_mem A).1 hA)) []
  obtain ⟨grids, e'', hg⟩ := bounds_several (F := F) order locs hl drawn []
  refine ⟨img', claims', grids, order, ?_, hist', hperm, hg⟩
  unfold PreparedImage.detect_grids
  rw [e, Run.ok_bind]
  dsimp only
  have eg' : img.find_groupings caps = .ok groups := eg
  have el : locate_groups groups img = .ok (img', locs) := e'
  rw [eg', Run.ok_bind, el, Run.ok_bind]
  dsimp only
  refine Eq.trans (congrArg (· >>= _) e'') ?_
  rfl

end Rqrr
