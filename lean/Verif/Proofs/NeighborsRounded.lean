import Verif.Proofs.Rounded
import Verif.Spec.Ranking
import Verif.Proofs.Neighbors

/-!
# Neighbours of a capstone, in correctly rounded arithmetic
-/

namespace Rqrr

open Spec Rounding

variable {F : Type} [FloatOps F]

/-- What is known of the two lists. -/
structure Listed (caps : List (CapStone F)) (i : Nat) (cap : CapStone F) (n : Nat) (st : List (Neighbor F) × List (Neighbor F)) : Prop where
  h : ∀ nb, nb ∈ st.1 ↔ nb.index < n ∧ nb.index ≠ i ∧ ∃ o, caps[nb.index]? = some o ∧
    beside (axes cap o.center).1 (axes cap o.center).2 = true ∧ nb.distance = (axes cap o.center).2
  v : ∀ nb, nb ∈ st.2 ↔ nb.index < n ∧ nb.index ≠ i ∧ ∃ o, caps[nb.index]? = some o ∧
    beside (axes cap o.center).2 (axes cap o.center).1 = true ∧ nb.distance = (axes cap o.center).1

omit [FloatOps F] in
theorem listed_step {l : List (Neighbor F)} {n i : Nat} {caps : List (CapStone F)} {P : CapStone F → Bool} {D : CapStone F → F}
    {o : CapStone F} (hn : n ≠ i) (ho : caps[n]? = some o)
    (hl : ∀ nb, nb ∈ l ↔ nb.index < n ∧ nb.index ≠ i ∧ ∃ o, caps[nb.index]? = some o ∧ P o = true ∧ nb.distance = D o) :
    ∀ nb, nb ∈ (if P o = true then l ++ [{ index := n, distance := D o }] else l) ↔
      nb.index < n + 1 ∧ nb.index ≠ i ∧ ∃ o, caps[nb.index]? = some o ∧ P o = true ∧ nb.distance = D o := by
  intro nb
  have aux : ∀ nb : Neighbor F, nb.index = n → ((∃ o', caps[nb.index]? = some o' ∧ P o' = true ∧ nb.distance = D o') ↔
      P o = true ∧ nb.distance = D o) := by
    intro nb e
    rw [e, ho]
    constructor
    · rintro ⟨o', h1, h2, h3⟩
      cases h1
      exact ⟨h2, h3⟩
    · rintro ⟨h2, h3⟩; exact ⟨o, rfl, h2, h3⟩
  by_cases hp : P o = true
  · rw [if_pos hp, List.mem_append, hl, List.mem_singleton]
    constructor
    · rintro (⟨h1, h2, h3⟩ | rfl)
      · exact ⟨by omega, h2, h3⟩
      · exact ⟨Nat.lt_succ_self n, hn, o, ho, hp, rfl⟩
    · rintro ⟨h1, h2, h3⟩
      by_cases e : nb.index = n
      · right
        obtain ⟨-, h4⟩ := (aux nb e).1 h3
        cases nb
        simp only at e h4
        rw [e, h4]
      · left; exact ⟨by omega, h2, h3⟩
  · rw [if_neg hp, hl]
    constructor
    · rintro ⟨h1, h2, h3⟩; exact ⟨by omega, h2, h3⟩
    · rintro ⟨h1, h2, h3⟩
      by_cases e : nb.index = n
      · exact absurd ((aux nb e).1 h3).1 hp
      · exact ⟨by omega, h2, h3⟩

theorem find_possible_neighbors_listed {caps : List (CapStone F)} {i : Nat} (hi : i < caps.length) :
    ∃ st, find_possible_neighbors caps i = .ok st ∧ Listed caps i caps[i] caps.length st := by
  unfold find_possible_neighbors
  rw [idx_ok caps hi, Run.ok_bind]
  refine forRange_ok (s := ([], [])) (Listed caps i caps[i]) (Nat.zero_le _) ⟨by simp, by simp⟩ ?_
  rintro n ⟨hl, vl⟩ _ hn ⟨h1, h2⟩
  dsimp only
  by_cases he : n = i
  · rw [if_pos he]
    refine ⟨_, rfl, ⟨fun nb => ?_, fun nb => ?_⟩⟩
    · rw [h1]
      constructor
      · rintro ⟨a, b, c⟩; exact ⟨by omega, b, c⟩
      · rintro ⟨a, b, c⟩; exact ⟨by omega, b, c⟩
    · rw [h2]
      constructor
      · rintro ⟨a, b, c⟩; exact ⟨by omega, b, c⟩
      · rintro ⟨a, b, c⟩; exact ⟨by omega, b, c⟩
  · rw [if_neg he, idx_ok caps hn, Run.ok_bind]
    have ho : caps[n]? = some caps[n] := List.getElem?_eq_getElem hn
    exact ⟨_, rfl, listed_step (P := fun o => beside (axes caps[i] o.center).1 (axes caps[i] o.center).2)
        (D := fun o => (axes caps[i] o.center).2) he ho h1,
      listed_step (P := fun o => beside (axes caps[i] o.center).2 (axes caps[i] o.center).1)
        (D := fun o => (axes caps[i] o.center).1) he ho h2⟩

/-- Numbers that can be compared with each other. -/
structure Comparable (T : F → Prop) : Prop where
  total : ∀ x y, T x → T y → FloatOps.lt x y = true ∨ FloatOps.le y x = true
  le_of_lt : ∀ x y, T x → T y → FloatOps.lt x y = true → FloatOps.le x y = true
  trans : ∀ x y z, T x → T y → T z → FloatOps.le x y = true → FloatOps.le y z = true → FloatOps.le x z = true

/-- In the order of the scores. -/
def Ascending (l : List (NeighborSet F)) : Prop := l.Pairwise fun a b => FloatOps.le a.score b.score = true

theorem insertScore_total {T : F → Prop} (hT : Comparable T) (n : NeighborSet F) (hn : T n.score) : ∀ l : List (NeighborSet F),
    (∀ m ∈ l, T m.score) → Ascending l → ∃ r, insertScore n l = .ok r ∧ r.Perm (n :: l) ∧ Ascending r
  | [], _, _ => ⟨[n], rfl, List.Perm.refl _, List.pairwise_singleton _ _⟩
  | m :: ms, h, ha => by
    have hm := h m (by simp)
    obtain ⟨a1, a2⟩ := List.pairwise_cons.1 ha
    unfold insertScore
    by_cases h1 : FloatOps.lt n.score m.score = true
    · rw [if_pos h1]
      have h2 := hT.le_of_lt _ _ hn hm h1
      refine ⟨_, rfl, List.Perm.refl _, List.pairwise_cons.2 ⟨fun k hk => ?_, ha⟩⟩
      rcases List.mem_cons.1 hk with rfl | hk
      · exact h2
      · exact hT.trans _ _ _ hn hm (h k (by simp [hk])) h2 (a1 k hk)
    · have h2 := (hT.total _ _ hn hm).resolve_left h1
      rw [if_neg h1, if_pos h2]
      obtain ⟨r, e, pr, ar⟩ := insertScore_total hT n hn ms (fun m' hm => h m' (by simp [hm])) a2
      rw [e, Run.ok_bind]
      refine ⟨_, rfl, (List.Perm.cons m pr).trans (List.Perm.swap n m ms), List.pairwise_cons.2 ⟨fun k hk => ?_, ar⟩⟩
      rcases List.mem_cons.1 (pr.mem_iff.1 hk) with rfl | hk
      · exact h2
      · exact a1 k hk

theorem sort_total {T : F → Prop} (hT : Comparable T) (l : List (NeighborSet F)) (hl : ∀ m ∈ l, T m.score) :
    ∃ r, forList (fun n sorted => insertScore n sorted) l [] = .ok r ∧ r.Perm l ∧ Ascending r := by
  have key : ∀ (l acc : List (NeighborSet F)), (∀ m ∈ l, T m.score) → (∀ m ∈ acc, T m.score) → Ascending acc →
      ∃ r, forList (fun n sorted => insertScore n sorted) l acc = .ok r ∧ r.Perm (l ++ acc) ∧ Ascending r := by
    intro l
    induction l with
    | nil => intro acc _ h ha; exact ⟨acc, rfl, List.Perm.refl _, ha⟩
    | cons n l ih =>
      intro acc hl h ha
      obtain ⟨r, e, p, ar⟩ := insertScore_total hT n (hl n (by simp)) acc h ha
      obtain ⟨r', e', p', ar'⟩ := ih r (fun m hm => hl m (by simp [hm])) (by
        intro m hm
        rcases List.mem_cons.1 (p.mem_iff.1 hm) with rfl | hm
        · exact hl m (by simp)
        · exact h m hm) ar
      refine ⟨r', ?_, ?_, ar'⟩
      · unfold forList; rw [e, Run.ok_bind, e']
      · exact p'.trans ((List.Perm.append_left l p).trans List.perm_middle)
  obtain ⟨r, h1, h2, h3⟩ := key l [] hl (by simp) List.Pairwise.nil
  exact ⟨r, h1, by simpa using h2, h3⟩

/-- If low scores can be compared, the ranking does not panic, and gives the pairs of capstones on different axes whose score is low. -/
theorem rank_total {T : F → Prop} (hT : Comparable T) {caps : List (CapStone F)} {i : Nat} (hi : i < caps.length)
    (hfin : ∀ p q a b, p ≠ i → q ≠ i → caps[p]? = some a → caps[q]? = some b →
      beside (axes caps[i] a.center).1 (axes caps[i] a.center).2 = true → beside (axes caps[i] b.center).2 (axes caps[i] b.center).1 = true →
      FloatOps.lt (pairing (axes caps[i] a.center).2 (axes caps[i] b.center).1) (FloatOps.lit 25 2) = true →
      T (pairing (axes caps[i] a.center).2 (axes caps[i] b.center).1)) :
    ∃ pairs, find_and_rank_possible_neighbors caps i = .ok pairs ∧ (∀ p, p ∈ pairs ↔
      p.1 ≠ i ∧ p.2 ≠ i ∧ ∃ a b, caps[p.1]? = some a ∧ caps[p.2]? = some b ∧
      beside (axes caps[i] a.center).1 (axes caps[i] a.center).2 = true ∧
      beside (axes caps[i] b.center).2 (axes caps[i] b.center).1 = true ∧
      FloatOps.lt (pairing (axes caps[i] a.center).2 (axes caps[i] b.center).1) (FloatOps.lit 25 2) = true) ∧
      pairs.Pairwise fun p p' => FloatOps.le (pairScoreF caps caps[i] p) (pairScoreF caps caps[i] p') = true := by
  obtain ⟨⟨hl, vl⟩, e, h1, h2⟩ := find_possible_neighbors_listed hi
  dsimp only at h1 h2
  unfold find_and_rank_possible_neighbors
  rw [e, Run.ok_bind]
  dsimp only
  have mem : ∀ n : NeighborSet F, n ∈ (hl.flatMap fun hn => vl.filterMap fun vn =>
      if FloatOps.lt (pairing hn.distance vn.distance) (FloatOps.lit 25 2) = true then
        some (NeighborSet.mk (pairing hn.distance vn.distance) hn.index vn.index) else none) ↔
      n.h_index ≠ i ∧ n.v_index ≠ i ∧ ∃ a b, caps[n.h_index]? = some a ∧ caps[n.v_index]? = some b ∧
      beside (axes caps[i] a.center).1 (axes caps[i] a.center).2 = true ∧
      beside (axes caps[i] b.center).2 (axes caps[i] b.center).1 = true ∧
      FloatOps.lt (pairing (axes caps[i] a.center).2 (axes caps[i] b.center).1) (FloatOps.lit 25 2) = true ∧
      n.score = pairing (axes caps[i] a.center).2 (axes caps[i] b.center).1 := by
    intro n
    rw [List.mem_flatMap]
    constructor
    · rintro ⟨hn', m1, hn⟩
      rw [List.mem_filterMap] at hn
      obtain ⟨vn, m2, hn⟩ := hn
      by_cases hs : FloatOps.lt (pairing hn'.distance vn.distance) (FloatOps.lit 25 2) = true
      · rw [if_pos hs] at hn
        cases hn
        obtain ⟨-, a1, o, a2, a3, a4⟩ := (h1 hn').1 m1
        obtain ⟨-, b1, o', b2, b3, b4⟩ := (h2 vn).1 m2
        rw [a4, b4] at hs
        exact ⟨a1, b1, o, o', a2, b2, a3, b3, hs, by rw [a4, b4]⟩
      · rw [if_neg hs] at hn
        cases hn
    · rintro ⟨a1, b1, o, o', a2, b2, a3, b3, hs, hn⟩
      refine ⟨{ index := n.h_index, distance := (axes caps[i] o.center).2 }, (h1 _).2 ⟨?_, a1, o, a2, a3, rfl⟩, ?_⟩
      · exact (List.getElem?_eq_some_iff.1 a2).1
      · rw [List.mem_filterMap]
        refine ⟨{ index := n.v_index, distance := (axes caps[i] o'.center).1 }, (h2 _).2 ⟨?_, b1, o', b2, b3, rfl⟩, ?_⟩
        · exact (List.getElem?_eq_some_iff.1 b2).1
        · dsimp only
          rw [if_pos hs, ← hn]
  obtain ⟨r, e', p, asc⟩ := sort_total hT _ (by
    intro n hn
    obtain ⟨a1, b1, o, o', a2, b2, a3, b3, hl, hs⟩ := (mem n).1 hn
    rw [hs]
    exact hfin _ _ _ _ a1 b1 a2 b2 a3 b3 hl)
  refine ⟨r.map fun n => (n.h_index, n.v_index), ?_, ?_, ?_⟩
  · refine Eq.trans (congrArg (fun m : Run (List (NeighborSet F)) => do
      let sorted ← m
      pure (sorted.map fun n : NeighborSet F => (n.h_index, n.v_index))) e') rfl
  · rintro ⟨a, b⟩
    rw [List.mem_map]
    constructor
    · rintro ⟨n, hn, heq⟩
      simp only [Prod.mk.injEq] at heq
      obtain ⟨rfl, rfl⟩ := heq
      obtain ⟨a1, b1, o, o', a2, b2, a3, b3, hs, -⟩ := (mem n).1 (p.mem_iff.1 hn)
      exact ⟨a1, b1, o, o', a2, b2, a3, b3, hs⟩
    · rintro ⟨a1, b1, o, o', a2, b2, a3, b3, hs⟩
      exact ⟨⟨_, a, b⟩, p.mem_iff.2 ((mem _).2 ⟨a1, b1, o, o', a2, b2, a3, b3, hs, rfl⟩), rfl⟩
  · rw [List.pairwise_map]
    have key : ∀ n ∈ r, n.score = pairScoreF caps caps[i] (n.h_index, n.v_index) := by
      intro n hn
      obtain ⟨a1, b1, o, o', a2, b2, a3, b3, -, hs⟩ := (mem n).1 (p.mem_iff.1 hn)
      unfold pairScoreF
      dsimp only
      rw [a2, b2]
      exact hs
    refine List.Pairwise.imp_of_mem (fun {m n} hm hn h => ?_) asc
    rw [← key m hm, ← key n hn]
    exact h

variable [Rounding F]

theorem comparable_finite : Comparable (fun x : F => ∃ q, Is x q) where
  total := by
    rintro x y ⟨p, hp⟩ ⟨q, hq⟩
    rw [Rounding.lt hp hq, Rounding.le hq hp]
    rcases lt_or_ge p q with h | h
    · exact .inl (decide_eq_true h)
    · exact .inr (decide_eq_true h)
  le_of_lt := by
    rintro x y ⟨p, hp⟩ ⟨q, hq⟩ h
    rw [Rounding.lt hp hq, decide_eq_true_iff] at h
    rw [Rounding.le hp hq]
    exact decide_eq_true h.le
  trans := by
    rintro x y z ⟨p, hp⟩ ⟨q, hq⟩ ⟨r, hr⟩ h h'
    rw [Rounding.le hp hq, decide_eq_true_iff] at h
    rw [Rounding.le hq hr, decide_eq_true_iff] at h'
    rw [Rounding.le hp hr]
    exact decide_eq_true (h.trans h')

/-- If the scores are finite, the ranking does not panic, and gives the pairs of capstones on different axes whose score is low. -/
theorem rank_finite {caps : List (CapStone F)} {i : Nat} (hi : i < caps.length)
    (hfin : ∀ p q a b, p ≠ i → q ≠ i → caps[p]? = some a → caps[q]? = some b →
      beside (axes caps[i] a.center).1 (axes caps[i] a.center).2 = true → beside (axes caps[i] b.center).2 (axes caps[i] b.center).1 = true →
      ∃ r, Is (pairing (axes caps[i] a.center).2 (axes caps[i] b.center).1) r) :
    ∃ pairs, find_and_rank_possible_neighbors caps i = .ok pairs ∧ ∀ p, p ∈ pairs ↔
      p.1 ≠ i ∧ p.2 ≠ i ∧ ∃ a b, caps[p.1]? = some a ∧ caps[p.2]? = some b ∧
      beside (axes caps[i] a.center).1 (axes caps[i] a.center).2 = true ∧
      beside (axes caps[i] b.center).2 (axes caps[i] b.center).1 = true ∧
      FloatOps.lt (pairing (axes caps[i] a.center).2 (axes caps[i] b.center).1) (FloatOps.lit 25 2) = true := by
  obtain ⟨pairs, h1, h2, -⟩ := rank_total comparable_finite hi fun p q a b h1 h2 h3 h4 h5 h6 _ => hfin p q a b h1 h2 h3 h4 h5 h6
  exact ⟨pairs, h1, h2⟩

/-! ### Comparisons with a margin -/

theorem rnd_close {q B : ℚ} (hq : |q| ≤ B) (hB : B ≤ 1000000) : |rnd F q - q| ≤ 1 / 1000000 := by
  have h1 := rnd_near (F := F) q
  have h3 : |q| / 2 ^ 53 ≤ 1 / 2000000 := by
    rw [div_le_iff₀ (by norm_num)]
    linarith
  have h4 : (1 : ℚ) / 2 ^ 200 ≤ 1 / 2000000 := by norm_num
  linarith

theorem beside_iff {x y : F} {r s : ℚ} (hx : Is x r) (hy : Is y s) (hs : |s| ≤ 100000) :
    ∃ m, |m - s / 5| ≤ 1 / 4 ∧ beside x y = decide (r < m) := by
  have l := Rounding.lit (F := F) 2 1 (by norm_num)
  have hl := rnd_close (F := F) (q := ((2 : Nat) : ℚ) / 10 ^ 1) (B := 1) (by norm_num [abs_of_pos]) (by norm_num)
  rw [show ((2 : Nat) : ℚ) / 10 ^ 1 = 1 / 5 by norm_num] at l hl
  have hp : |(rnd F (1 / 5) - 1 / 5) * s| ≤ 1 / 1000000 * 100000 := by
    rw [abs_mul]
    exact mul_le_mul hl hs (abs_nonneg _) (by norm_num)
  rw [abs_le] at hp hs
  have hb : |rnd F (1 / 5) * s| ≤ 100000 := by rw [abs_le]; constructor <;> linarith
  have hm := Rounding.mul l hy (hb.trans (by norm_num))
  have hr := rnd_close (F := F) hb (by norm_num)
  refine ⟨_, ?_, Rounding.lt hx hm⟩
  rw [abs_le] at hr ⊢
  constructor <;> linarith

/-- Two distances that are positive and not more than 16% apart have a low score. -/
theorem pairing_low {h v : F} {r s : ℚ} (hh : Is h r) (hv : Is v s) (r1 : 1 ≤ r) (s1 : 1 ≤ s)
    (h1 : 84 / 100 * s ≤ r) (h2 : 84 / 100 * r ≤ s) : (∃ q, Is (pairing h v) q) ∧ FloatOps.lt (pairing h v) (FloatOps.lit 25 2) = true := by
  have l1 : Is (FloatOps.lit 1 0 : F) 1 := by
    have := IntB.lit (F := F) (m := 1) (B := 1) (by norm_num) (by norm_num)
    exact_mod_cast this.1
  have l25 := Rounding.lit (F := F) 25 2 (by norm_num)
  have hl := rnd_close (F := F) (q := ((25 : Nat) : ℚ) / 10 ^ 2) (B := 1) (by norm_num [abs_of_pos]) (by norm_num)
  rw [show ((25 : Nat) : ℚ) / 10 ^ 2 = 1 / 4 by norm_num] at l25 hl
  have core : ∀ {x y : F} {a b : ℚ}, Is x a → Is y b → 1 ≤ a → 1 ≤ b → 84 / 100 * b ≤ a → 84 / 100 * a ≤ b →
      ∃ q, Is (FloatOps.abs (FloatOps.sub (FloatOps.lit 1 0) (FloatOps.div x y))) q ∧ q ≤ 24 / 100 := by
    intro x y a b hx hy ha hb c1 c2
    have b0 : 0 < b := by linarith
    have d1 : 84 / 100 ≤ a / b := by rw [le_div_iff₀ b0]; linarith
    have d2 : a / b ≤ 12 / 10 := by rw [div_le_iff₀ b0]; linarith
    have hb' : |a / b| ≤ 2 := by rw [abs_le]; constructor <;> linarith
    have e1 := Rounding.div hx hy b0.ne' (hb'.trans (by norm_num))
    have e2 := rnd_close (F := F) hb' (by norm_num)
    rw [abs_le] at e2
    have hb2 : |1 - rnd F (a / b)| ≤ 23 / 100 := by rw [abs_le]; constructor <;> linarith
    have e3 := Rounding.sub l1 e1 (hb2.trans (by norm_num))
    have e4 := rnd_close (F := F) hb2 (by norm_num)
    refine ⟨_, Rounding.abs e3, ?_⟩
    rw [abs_le] at e4 hb2 ⊢
    constructor <;> linarith
  have fin : ∃ q, Is (pairing h v) q ∧ q ≤ 24 / 100 := by
    unfold pairing
    split
    · exact core hh hv r1 s1 h1 h2
    · exact core hv hh s1 r1 h2 h1
  obtain ⟨q, hq, hle⟩ := fin
  refine ⟨⟨q, hq⟩, ?_⟩
  rw [Rounding.lt hq l25, decide_eq_true_eq]
  rw [abs_le] at hl
  linarith

end Rqrr
