import Verif.Model.Decode
import Verif.Spec.Iso
import Verif.Proofs.Loops

/-!
# `reserved_cell` against the ISO function patterns; facts about the version table
-/

namespace Rqrr

open Spec

/-- The alignment coordinates `rqrr` uses for a version: the table entry up to the first zero. -/
def codeCoords (v : Nat) : List Nat :=
  match VERSION_DATA_BASE[v]? with
  | some info => info.apat.takeWhile (· ≠ 0)
  | none => []

/-- One coordinate of `apat_scan`. -/
def hitFold (i : Nat) : List Nat → Nat → Option Nat → Option Nat
  | [], _, ai => ai
  | p :: ps, a, ai => hitFold i ps (a + 1) (if absDiff p i < 3 then some a else ai)

theorem apat_scan_eq (i j : Nat) : ∀ (l : List Nat) (a : Nat) (ai aj : Option Nat) (len : Nat),
    apat_scan i j l a ai aj len = (hitFold i (l.takeWhile (· ≠ 0)) a ai, hitFold j (l.takeWhile (· ≠ 0)) a aj,
      if l.takeWhile (· ≠ 0) = [] then len else a + (l.takeWhile (· ≠ 0)).length - 1)
  | [], a, ai, aj, len => by simp [apat_scan, hitFold]
  | p :: ps, a, ai, aj, len => by
    by_cases h : p = 0
    · subst h
      simp [apat_scan, hitFold]
    · rw [apat_scan, if_pos h, apat_scan_eq i j ps]
      have e : (p :: ps).takeWhile (· ≠ 0) = p :: ps.takeWhile (· ≠ 0) := by simp [h]
      rw [e, hitFold, hitFold]
      congr 2
      rw [if_neg (List.cons_ne_nil _ _), List.length_cons]
      by_cases h' : ps.takeWhile (· ≠ 0) = []
      · rw [if_pos h', h']; rfl
      · rw [if_neg h']; omega

/-- Coordinates at least five apart. -/
def Apart (cs : List Nat) : Prop := cs.Pairwise fun a b => a + 5 ≤ b

instance (cs : List Nat) : Decidable (Apart cs) := by unfold Apart; infer_instance

theorem hitFold_none {i : Nat} : ∀ (cs : List Nat) (a : Nat) (ai : Option Nat),
    (∀ p ∈ cs, ¬ absDiff p i < 3) → hitFold i cs a ai = ai
  | [], _, _, _ => rfl
  | p :: ps, a, ai, h => by
    rw [hitFold, if_neg (h p (by simp)), hitFold_none ps _ _ (fun q hq => h q (by simp [hq]))]

/-- In a list of coordinates at least five apart, the scan finds the unique coordinate within two modules. -/
theorem hitFold_eq {i : Nat} : ∀ (cs : List Nat) (a : Nat), Apart cs →
    (∃ k, ∃ h : k < cs.length, absDiff cs[k] i < 3 ∧ hitFold i cs a none = some (a + k)) ∨
    ((∀ p ∈ cs, ¬ absDiff p i < 3) ∧ hitFold i cs a none = none)
  | [], _, _ => .inr ⟨by simp, rfl⟩
  | p :: ps, a, hap => by
    have hap' := List.pairwise_cons.mp hap
    by_cases hp : absDiff p i < 3
    · left
      refine ⟨0, by simp, by simpa using hp, ?_⟩
      rw [hitFold, if_pos hp, hitFold_none]
      · rfl
      · intro q hq h
        have := hap'.1 q hq
        unfold absDiff at hp h
        omega
    · rcases hitFold_eq ps (a + 1) hap'.2 with ⟨k, hk, h1, h2⟩ | ⟨h1, h2⟩
      · left
        refine ⟨k + 1, by simp; omega, by simpa using h1, ?_⟩
        rw [hitFold, if_neg hp, h2]
        congr 1; omega
      · right
        refine ⟨?_, by rw [hitFold, if_neg hp, h2]⟩
        intro q hq
        rcases List.mem_cons.mp hq with rfl | hq
        · exact hp
        · exact h1 q hq

theorem Apart.inj {cs : List Nat} (h : Apart cs) {a b : Nat} (ha : a < cs.length) (hb : b < cs.length)
    (e : cs[a] = cs[b]) : a = b := by
  have := List.pairwise_iff_getElem.mp h
  rcases Nat.lt_trichotomy a b with hlt | heq | hgt
  · have := this a b ha hb hlt; omega
  · exact heq
  · have := this b a hb ha hgt; omega

theorem Apart.hit_unique {cs : List Nat} (h : Apart cs) {a b i : Nat} (ha : a < cs.length) (hb : b < cs.length)
    (h1 : absDiff cs[a] i < 3) (h2 : absDiff cs[b] i < 3) : a = b := by
  have := List.pairwise_iff_getElem.mp h
  unfold absDiff at h1 h2
  rcases Nat.lt_trichotomy a b with hlt | heq | hgt
  · have := this a b ha hb hlt; omega
  · exact heq
  · have := this b a hb ha hgt; omega

theorem dist_le_iff (a b : Nat) : dist a b ≤ 2 ↔ absDiff a b < 3 := by
  unfold dist absDiff
  split <;> omega

/-- Shape of the coordinate lists: empty, or at least two entries starting with 6. -/
def GoodCoords (cs : List Nat) : Prop := Apart cs ∧ (cs = [] ∨ (2 ≤ cs.length ∧ cs.head? = some 6))

instance (cs : List Nat) : Decidable (GoodCoords cs) := by unfold GoodCoords; infer_instance

/-- The index pattern test agrees with the alignment pattern specification. -/
theorem apat_match_eq (cs : List Nat) (hg : GoodCoords cs) (i j : Nat) :
    apat_match (hitFold i cs 0 none) (hitFold j cs 0 none) (if cs = [] then 0 else 0 + cs.length - 1) =
      inAlignment cs i j := by
  obtain ⟨hap, hsh⟩ := hg
  rcases hsh with rfl | ⟨hlen, hhead⟩
  · rfl
  have hne : cs ≠ [] := by intro h; subst h; simp at hlen
  rw [if_neg hne]
  have h0 : cs[0] = 6 := by
    have : cs.head? = cs[0]? := by cases cs <;> rfl
    rw [this, List.getElem?_eq_getElem (by omega)] at hhead
    exact Option.some.inj hhead
  have hlast : cs.getLastD 6 = cs[cs.length - 1] := by
    rw [List.getLastD_eq_getLast?, List.getLast?_eq_getElem?, List.getElem?_eq_getElem (by omega)]; rfl
  rcases hitFold_eq (i := i) cs 0 hap with ⟨x, hx, hx1, hx2⟩ | ⟨hi1, hi2⟩
  · rcases hitFold_eq (i := j) cs 0 hap with ⟨y, hy, hy1, hy2⟩ | ⟨hj1, hj2⟩
    · rw [hx2, hy2, Nat.zero_add, Nat.zero_add, Nat.zero_add]
      have e1 : inAlignment cs i j = isAlignCentre cs cs[x] cs[y] := by
        rw [Bool.eq_iff_iff]
        unfold inAlignment
        simp only [List.any_eq_true, Bool.and_eq_true, decide_eq_true_eq, dist_le_iff]
        constructor
        · rintro ⟨a, ha, b, hb, ⟨hc, h1⟩, h2⟩
          obtain ⟨ka, hka, rfl⟩ := List.getElem_of_mem ha
          obtain ⟨kb, hkb, rfl⟩ := List.getElem_of_mem hb
          have := hap.hit_unique hka hx h1 hx1
          subst this
          have := hap.hit_unique hkb hy h2 hy1
          subst this
          exact hc
        · intro hc
          exact ⟨cs[x], List.getElem_mem hx, cs[y], List.getElem_mem hy, ⟨hc, hx1⟩, hy1⟩
      rw [e1, Bool.eq_iff_iff]
      have i1 : ∀ k (hk : k < cs.length), cs[k] = 6 ↔ k = 0 := by
        intro k hk
        constructor
        · intro h; exact hap.inj hk (by omega) (by rw [h, h0])
        · intro h; subst h; exact h0
      have i2 : ∀ k (hk : k < cs.length), cs[k] = cs[cs.length - 1] ↔ k = cs.length - 1 := by
        intro k hk
        constructor
        · intro h; exact hap.inj hk (by omega) h
        · intro h; subst h; rfl
      unfold isAlignCentre apat_match
      rw [hlast]
      simp only [List.contains_iff_mem, List.getElem_mem, Bool.and_eq_true, Bool.not_eq_true', true_and,
        Bool.and_eq_false_iff, beq_eq_false_iff_ne, ne_eq, i1 x hx, i1 y hy, i2 x hx, i2 y hy, beq_iff_eq]
      by_cases c1 : x = cs.length - 1 ∧ y = cs.length - 1
      · rw [if_pos c1]; simp only [true_iff]; omega
      · rw [if_neg c1]
        by_cases c2 : 0 < x ∧ x < cs.length - 1
        · rw [if_pos (by simpa using c2)]; simp only [true_iff]; omega
        · rw [if_neg (by simpa using c2)]
          by_cases c3 : 0 < y ∧ y < cs.length - 1
          · rw [if_pos (by simpa using c3)]; simp only [true_iff]; omega
          · rw [if_neg (by simpa using c3)]
            simp only [Bool.false_eq_true, false_iff]
            omega
    · rw [hx2, hj2]
      have : inAlignment cs i j = false := by
        rw [Bool.eq_false_iff]
        unfold inAlignment
        simp only [ne_eq, List.any_eq_true, Bool.and_eq_true, decide_eq_true_eq, dist_le_iff]
        rintro ⟨a, ha, b, hb, _, h2⟩
        exact hj1 b hb h2
      rw [this]; rfl
  · rw [hi2]
    have : inAlignment cs i j = false := by
      rw [Bool.eq_false_iff]
      unfold inAlignment
      simp only [ne_eq, List.any_eq_true, Bool.and_eq_true, decide_eq_true_eq, dist_le_iff]
      rintro ⟨a, ha, b, hb, ⟨_, h1⟩, _⟩
      exact hi1 a ha h1
    rw [this]; rfl

/-! ## Table facts (the table is finite; these are complete checks) -/

theorem db_length : VERSION_DATA_BASE.length = 41 := by decide +kernel

theorem codeCoords_good : ∀ v < 41, GoodCoords (codeCoords v) := by decide +kernel

theorem codeCoords_iso : ∀ v < 41, v ≠ 21 → codeCoords v = alignCoords v := by decide +kernel

theorem codeCoords_21 : codeCoords 21 = [6, 28, 50, 72, 92] ∧ alignCoords 21 = [6, 28, 50, 72, 94] := by
  decide +kernel

/-- `reserved_cell` is the function pattern test for the coordinates in the table, for modules inside the symbol
(and beyond). -/
theorem reserved_cell_eq (v : Nat) (hv : v < 41) (hv1 : 1 ≤ v) (y x : Nat) (hy : y < side v) (hx : x < side v) :
    reserved_cell v y x = .ok (isFunctionOf (codeCoords v) v y x) := by
  have hl : v < VERSION_DATA_BASE.length := by rw [db_length]; exact hv
  unfold reserved_cell
  rw [idx_ok _ hl, Run.ok_bind]
  have hcc : codeCoords v = (VERSION_DATA_BASE[v].apat).takeWhile (· ≠ 0) := by
    unfold codeCoords; rw [List.getElem?_eq_getElem hl]
  have hm := apat_match_eq (codeCoords v) (codeCoords_good v hv) y x
  have hs : apat_match (apat_scan y x VERSION_DATA_BASE[v].apat 0 none none 0).1
      (apat_scan y x VERSION_DATA_BASE[v].apat 0 none none 0).2.1
      (apat_scan y x VERSION_DATA_BASE[v].apat 0 none none 0).2.2 = inAlignment (codeCoords v) y x := by
    rw [apat_scan_eq, ← hcc]; exact hm
  unfold isFunctionOf
  have hside : side v = v * 4 + 17 := by unfold side; omega
  simp only [Run.pure_eq]
  rw [← hs]
  unfold inFinder inTiming inFormat inVersionInfo
  rw [hside] at hy hx ⊢
  generalize apat_match _ _ _ = A
  by_cases c1 : y < 9 ∧ x < 9
  · rw [if_pos (by simpa using c1)]
    congr 1; symm
    rw [Bool.or_eq_true, Bool.or_eq_true, Bool.or_eq_true, Bool.or_eq_true]
    simp; omega
  rw [if_neg (by simpa using c1)]
  by_cases c2 : y + 8 ≥ v * 4 + 17 ∧ x < 9
  · rw [if_pos (by simpa using c2)]
    congr 1; symm
    simp; omega
  rw [if_neg (by simpa using c2)]
  by_cases c3 : y < 9 ∧ x + 8 ≥ v * 4 + 17
  · rw [if_pos (by simpa using c3)]
    congr 1; symm
    simp; omega
  rw [if_neg (by simpa using c3)]
  by_cases c4 : y = 6 ∨ x = 6
  · rw [if_pos (by simpa using c4)]
    congr 1; symm
    simp; omega
  rw [if_neg (by simpa using c4)]
  by_cases c5 : v ≥ 7 ∧ (y < 6 ∧ x + 11 ≥ v * 4 + 17)
  · rw [if_pos (by simpa using c5)]
    congr 1; symm
    simp; omega
  rw [if_neg (by simpa using c5)]
  by_cases c6 : v ≥ 7 ∧ (y + 11 ≥ v * 4 + 17 ∧ x < 6)
  · rw [if_pos (by simpa using c6)]
    congr 1; symm
    simp; omega
  rw [if_neg (by simpa using c6)]
  congr 1
  rw [Bool.eq_iff_iff]
  simp only [Bool.or_eq_true, Bool.and_eq_true, decide_eq_true_eq, beq_iff_eq]
  constructor
  · intro h; exact .inr h
  · rintro ((((h | h) | h) | h) | h)
    · omega
    · omega
    · omega
    · omega
    · exact h

/-- `reserved_cell` never fails on the versions 0 to 40. -/
theorem reserved_cell_total (v : Nat) (hv : v < 41) (y x : Nat) : ∃ b, reserved_cell v y x = .ok b := by
  unfold reserved_cell
  rw [idx_ok _ (show v < VERSION_DATA_BASE.length by rw [db_length]; exact hv), Run.ok_bind]
  dsimp only
  repeat' split
  all_goals exact ⟨_, rfl⟩

end Rqrr
