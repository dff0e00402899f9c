import Verif.Spec.Finder
import Verif.Proofs.Loops
import Mathlib.Tactic.NormNum
import Mathlib.Tactic.Tauto
import Mathlib.Tactic.Convert

/-!
# The line scanner
-/

namespace Rqrr

open Spec

variable {α : Type} [DecidableEq α]

/-- Run length encoding, last run first. -/
def addPixel (rs : List (α × Nat)) (a : α) : List (α × Nat) :=
  match rs with
  | [] => [(a, 1)]
  | (b, n) :: t => if b = a then (b, n + 1) :: t else (a, 1) :: (b, n) :: t

/-- The runs of the first pixels, last run first. -/
def runsOf (f : Nat → α) : Nat → List (α × Nat)
  | 0 => []
  | x + 1 => addPixel (runsOf f x) (f x)

/-- What the runs are. -/
theorem runsOf_cons (f : Nat → α) : ∀ (x : Nat) {a : α} {n : Nat} {t : List (α × Nat)}, runsOf f x = (a, n) :: t →
    n ≤ x ∧ IsRun f (x - n) x ∧ f (x - n) = a ∧ t = runsOf f (x - n)
  | 0, _, _, _, h => by cases h
  | x + 1, a, n, t, h => by
    unfold runsOf at h
    cases hr : runsOf f x with
    | nil =>
      have hx : x = 0 := by
        cases x with
        | zero => rfl
        | succ x =>
          unfold runsOf addPixel at hr
          split at hr
          · cases hr
          · split at hr <;> cases hr
      subst hx
      rw [hr] at h
      unfold addPixel at h
      simp only [List.cons.injEq, Prod.mk.injEq] at h
      obtain ⟨⟨rfl, rfl⟩, rfl⟩ := h
      exact ⟨by omega, ⟨by omega, fun i _ hi => by rw [show i = 0 by omega], .inl rfl⟩, rfl, rfl⟩
    | cons r t' =>
      obtain ⟨b, m⟩ := r
      obtain ⟨k1, ⟨k2, k3, k4⟩, k5, k6⟩ := runsOf_cons f x hr
      rw [hr] at h
      unfold addPixel at h
      dsimp only at h
      by_cases hb : b = f x
      · rw [if_pos hb] at h
        simp only [List.cons.injEq, Prod.mk.injEq] at h
        obtain ⟨⟨rfl, rfl⟩, rfl⟩ := h
        rw [show x + 1 - (m + 1) = x - m by omega]
        refine ⟨by omega, ⟨by omega, ?_, k4⟩, k5, k6⟩
        intro i h1 h2
        by_cases hi : i < x
        · exact k3 i h1 hi
        · rw [show i = x by omega, k5, hb]
      · rw [if_neg hb] at h
        simp only [List.cons.injEq, Prod.mk.injEq] at h
        obtain ⟨⟨rfl, rfl⟩, rfl⟩ := h
        rw [show x + 1 - 1 = x by omega]
        refine ⟨by omega, ⟨by omega, fun i h1 h2 => by rw [show i = x by omega], .inr ?_⟩, rfl, hr.symm⟩
        have := k3 (x - 1) (by omega) (by omega)
        rw [this, k5]
        exact hb

theorem runsOf_ne (f : Nat → α) {x : Nat} (hx : 1 ≤ x) : runsOf f x ≠ [] := by
  cases x with
  | zero => omega
  | succ x =>
    unfold runsOf addPixel
    split
    · simp
    · split <;> simp

/-- Runs are unique. -/
theorem run_unique {f : Nat → α} {a a' b : Nat} (h : IsRun f a b) (h' : IsRun f a' b) : a = a' := by
  obtain ⟨h1, h2, h3⟩ := h
  obtain ⟨h1', h2', h3'⟩ := h'
  rcases Nat.lt_trichotomy a a' with hlt | rfl | hlt
  · exfalso
    rcases h3' with h3' | h3'
    · omega
    · exact h3' (by rw [h2 (a' - 1) (by omega) (by omega), h2 a' (by omega) (by omega)])
  · rfl
  · exfalso
    rcases h3 with h3 | h3
    · omega
    · exact h3 (by rw [h2' (a - 1) (by omega) (by omega), h2' a (by omega) (by omega)])

/-- A run is the last one of the encoding. -/
theorem runsOf_run {f : Nat → α} {a b : Nat} (h : IsRun f a b) : runsOf f b = (f a, b - a) :: runsOf f a := by
  have hlt := h.1
  cases hr : runsOf f b with
  | nil => exact absurd hr (runsOf_ne f (by omega))
  | cons r t =>
    obtain ⟨c, n⟩ := r
    obtain ⟨k1, k2, k3, k4⟩ := runsOf_cons f b hr
    have e := run_unique h k2
    rw [← e] at k3 k4
    rw [k3, k4, show b - a = n by omega]

/-- The lookbehind buffer for the lengths of the completed runs, last one first. -/
def lookbehind (l : List Nat) : Vector Nat 5 := #v[l.getD 4 0, l.getD 3 0, l.getD 2 0, l.getD 1 0, l.getD 0 0]

/-- The scanner has seen the first `x` pixels. -/
structure Scanned (s : LineScanner) (f : Nat → α) (x : Nat) (b : α) (n : Nat) (t : List (α × Nat)) : Prop where
  runs : runsOf f x = (b, n) :: t
  length : s.run_length = n
  buf : s.lookbehind_buf = lookbehind (t.map Prod.snd)
  changes : s.color_changes = t.length
  position : s.current_position + 1 = x

theorem scanned_new (f : Nat → α) (c : PixelColor) : Scanned (LineScanner.new c) f 1 (f 0) 1 [] :=
  ⟨rfl, rfl, rfl, rfl, rfl⟩

/-- The test. -/
theorem test_ok (s : LineScanner) : ∃ r, s.test_for_capstone = .ok r ∧ (r = true ↔ s.last_color = .White ∧ 5 ≤ s.color_changes ∧
    FinderRatio s.lookbehind_buf[0] s.lookbehind_buf[1] s.lookbehind_buf[2] s.lookbehind_buf[3] s.lookbehind_buf[4]) := by
  unfold LineScanner.test_for_capstone
  by_cases hc : s.last_color = .White ∧ 5 ≤ s.color_changes
  · rw [if_pos hc]
    dsimp only
    generalize hm : (s.lookbehind_buf[0] + s.lookbehind_buf[1] + s.lookbehind_buf[3] + s.lookbehind_buf[4]) / 4 = m
    have within : ∀ c b : Nat, 1 ≤ c → ∀ (ok : Bool), (if (!ok) = true then (pure false : Run Bool) else do
        let lo ← subU (c * m) (m * 3 / 4)
        pure (!(b < lo || b > c * m + m * 3 / 4))) =
        .ok (ok && decide (c * m ≤ b + m * 3 / 4 ∧ b ≤ c * m + m * 3 / 4)) := by
      intro c b hc ok
      have hle : m * 3 / 4 ≤ c * m := by
        have : m ≤ c * m := Nat.le_mul_of_pos_left m hc
        omega
      cases ok with
      | false => rfl
      | true =>
        rw [if_neg (by decide), subU_ok hle, Run.ok_bind, Bool.true_and]
        show Except.ok _ = Except.ok _
        congr 1
        rw [Bool.eq_iff_iff, decide_eq_true_eq, Bool.not_eq_true', Bool.or_eq_false_iff, decide_eq_false_iff_not,
          decide_eq_false_iff_not]
        omega
    have step : ∀ (i : Nat) (hi : i < 5) (ok : Bool), (do
        if (!ok) = true then pure false else do
          let bi ← aget s.lookbehind_buf i
          let ci ← idx capstoneCheck i
          let lo ← subU (ci * m) (m * 3 / 4)
          pure (!(decide (bi < lo) || decide (bi > ci * m + m * 3 / 4))) : Run Bool) =
        .ok (ok && decide ((if i = 2 then 3 else 1) * m ≤ s.lookbehind_buf[i] + m * 3 / 4 ∧
          s.lookbehind_buf[i] ≤ (if i = 2 then 3 else 1) * m + m * 3 / 4)) := by
      intro i hi ok
      have hidx : idx capstoneCheck i = .ok (if i = 2 then 3 else 1) := by
        have : i = 0 ∨ i = 1 ∨ i = 2 ∨ i = 3 ∨ i = 4 := by omega
        rcases this with rfl | rfl | rfl | rfl | rfl <;> rfl
      rw [aget_ok _ hi, Run.ok_bind, hidx, Run.ok_bind]
      exact within _ _ (by split <;> omega) ok
    refine ⟨_, forRange_eq (fun k => (List.range k).all fun i => decide ((if i = 2 then 3 else 1) * m ≤
      (s.lookbehind_buf.toList.getD i 0) + m * 3 / 4 ∧ s.lookbehind_buf.toList.getD i 0 ≤ (if i = 2 then 3 else 1) * m + m * 3 / 4))
      (Nat.zero_le 5) rfl ?_, ?_⟩
    · intro i _ hi
      refine (step i hi _).trans ?_
      rw [List.range_succ, List.all_append]
      congr 2
      simp [hi]
    · unfold FinderRatio
      dsimp only
      rw [hm]
      simp only [List.range_succ, List.range_zero, List.nil_append, List.all_append, List.all_cons, List.all_nil, Bool.and_true,
        Bool.and_eq_true, decide_eq_true_eq]
      have g : ∀ i (hi : i < 5), s.lookbehind_buf.toList.getD i 0 = s.lookbehind_buf[i] := by
        intro i hi; simp [hi]
      rw [g 0 (by decide), g 1 (by decide), g 2 (by decide), g 3 (by decide), g 4 (by decide)]
      norm_num
      have h1 := hc.1
      have h2 := hc.2
      tauto
  · rw [if_neg hc]
    exact ⟨false, rfl, by simp; tauto⟩

/-- Positions in the runs before `x`. -/
theorem runs_positions {f : Nat → α} {x n0 n1 n2 n3 n4 : Nat} {a0 a1 a2 a3 a4 : α} {t : List (α × Nat)}
    (h : runsOf f x = (a0, n0) :: (a1, n1) :: (a2, n2) :: (a3, n3) :: (a4, n4) :: t) :
    n0 + n1 + n2 + n3 + n4 ≤ x ∧ IsRun f (x - n0) x ∧ IsRun f (x - (n0 + n1)) (x - n0) ∧
      IsRun f (x - (n0 + n1 + n2)) (x - (n0 + n1)) ∧ IsRun f (x - (n0 + n1 + n2 + n3)) (x - (n0 + n1 + n2)) ∧
      IsRun f (x - (n0 + n1 + n2 + n3 + n4)) (x - (n0 + n1 + n2 + n3)) := by
  obtain ⟨l0, r0, -, h1⟩ := runsOf_cons f x h
  obtain ⟨l1, r1, -, h2⟩ := runsOf_cons f _ h1.symm
  obtain ⟨l2, r2, -, h3⟩ := runsOf_cons f _ h2.symm
  obtain ⟨l3, r3, -, h4⟩ := runsOf_cons f _ h3.symm
  obtain ⟨l4, r4, -, h5⟩ := runsOf_cons f _ h4.symm
  rw [Nat.sub_sub] at r1
  rw [Nat.sub_sub, Nat.sub_sub] at r2
  rw [Nat.sub_sub, Nat.sub_sub, Nat.sub_sub] at r3
  rw [Nat.sub_sub, Nat.sub_sub, Nat.sub_sub, Nat.sub_sub] at r4
  refine ⟨by omega, r0, r1, ?_, ?_, ?_⟩
  · convert r2 using 1 <;> omega
  · convert r3 using 1 <;> omega
  · convert r4 using 1 <;> omega

/-- One more pixel. -/
theorem advance_ok {s : LineScanner} {f : Nat → α} {x : Nat} {b : α} {n : Nat} {t : List (α × Nat)}
    (h : Scanned s f x b n t) {c : PixelColor} (hc : s.last_color = c ↔ b = f x) :
    ∃ o s' b' n' t', s.advance c = .ok (o, s') ∧ s'.last_color = c ∧ Scanned s' f (x + 1) b' n' t' ∧ b' = f x ∧
      ∀ pos, o = some pos ↔ c = .White ∧ s.last_color ≠ .White ∧ FinderRuns f x pos := by
  unfold LineScanner.advance
  dsimp only
  have hruns : runsOf f (x + 1) = addPixel ((b, n) :: t) (f x) := by
    rw [← h.runs]; rfl
  by_cases hl : s.last_color = c
  · rw [if_pos hl]
    have hb := hc.1 hl
    refine ⟨none, _, b, n + 1, t, rfl, hl, ⟨?_, ?_, h.buf, h.changes, ?_⟩, hb, ?_⟩
    · rw [hruns]
      exact if_pos hb
    · dsimp only; rw [h.length]
    · dsimp only; rw [h.position]
    · intro pos
      constructor
      · intro e; cases e
      · rintro ⟨e1, e2, -⟩
        exact absurd (hl.trans e1) e2
  · rw [if_neg hl]
    have hb : b ≠ f x := fun e => hl (hc.2 e)
    have hbuf : (#v[s.lookbehind_buf[1], s.lookbehind_buf[2], s.lookbehind_buf[3], s.lookbehind_buf[4], s.run_length] :
        Vector Nat 5) = lookbehind (((b, n) :: t).map Prod.snd) := by
      rw [h.buf, h.length]
      rfl
    rw [hbuf]
    obtain ⟨r, hr, hr'⟩ := test_ok { lookbehind_buf := lookbehind (((b, n) :: t).map Prod.snd), last_color := c, run_length := 1, color_changes := s.color_changes + 1, current_position := s.current_position + 1 }
    have hs' : Scanned { lookbehind_buf := lookbehind (((b, n) :: t).map Prod.snd), last_color := c, run_length := 1, color_changes := s.color_changes + 1, current_position := s.current_position + 1 } f (x + 1) (f x) 1 ((b, n) :: t) := by
      refine ⟨?_, rfl, rfl, ?_, ?_⟩
      · rw [hruns]; exact if_neg hb
      · dsimp only; rw [h.changes, List.length_cons]
      · dsimp only; rw [h.position]
    rw [hr, Run.ok_bind]
    cases r with
    | false =>
      rw [if_neg (by simp)]
      refine ⟨none, _, f x, 1, _, rfl, rfl, hs', rfl, ?_⟩
      intro pos
      constructor
      · intro e; cases e
      · rintro ⟨e1, e2, x1, x3, r1, r2, r3, r4, r5, hfit⟩
        exfalso
        have q5 := runsOf_run r5
        rw [runsOf_run r4, runsOf_run r3, runsOf_run r2, runsOf_run r1, h.runs] at q5
        simp only [List.cons.injEq, Prod.mk.injEq] at q5
        obtain ⟨⟨-, rfl⟩, rfl⟩ := q5
        have : false = true := hr'.2 ⟨e1, ?_, hfit⟩
        · cases this
        · dsimp only
          rw [h.changes]
          simp only [List.length_cons]
          omega
    | true =>
      rw [if_pos rfl]
      obtain ⟨e1, e2, hfit⟩ := hr'.1 rfl
      dsimp only at e1 e2 hfit ⊢
      rw [h.changes] at e2
      obtain ⟨⟨a1, n1⟩, t1, rfl⟩ := List.exists_cons_of_length_pos (show 0 < t.length by omega)
      rw [List.length_cons] at e2
      obtain ⟨⟨a2, n2⟩, t2, rfl⟩ := List.exists_cons_of_length_pos (show 0 < t1.length by omega)
      rw [List.length_cons] at e2
      obtain ⟨⟨a3, n3⟩, t3, rfl⟩ := List.exists_cons_of_length_pos (show 0 < t2.length by omega)
      rw [List.length_cons] at e2
      obtain ⟨⟨a4, n4⟩, t4, rfl⟩ := List.exists_cons_of_length_pos (show 0 < t3.length by omega)
      obtain ⟨p0, p1, p2, p3, p4, p5⟩ := runs_positions h.runs
      have hx : s.current_position + 1 = x := h.position
      have v0 : (lookbehind (((b, n) :: (a1, n1) :: (a2, n2) :: (a3, n3) :: (a4, n4) :: t4).map Prod.snd))[0] = n4 := rfl
      have v1 : (lookbehind (((b, n) :: (a1, n1) :: (a2, n2) :: (a3, n3) :: (a4, n4) :: t4).map Prod.snd))[1] = n3 := rfl
      have v2 : (lookbehind (((b, n) :: (a1, n1) :: (a2, n2) :: (a3, n3) :: (a4, n4) :: t4).map Prod.snd))[2] = n2 := rfl
      have v3 : (lookbehind (((b, n) :: (a1, n1) :: (a2, n2) :: (a3, n3) :: (a4, n4) :: t4).map Prod.snd))[3] = n1 := rfl
      have v4 : (lookbehind (((b, n) :: (a1, n1) :: (a2, n2) :: (a3, n3) :: (a4, n4) :: t4).map Prod.snd))[4] = n := rfl
      rw [v0, v1, v2, v3, v4] at hfit
      simp only [v0, v1, v2, v3, v4]
      rw [subU_ok (by omega), Run.ok_bind, subU_ok (by omega), Run.ok_bind, subU_ok (by omega), Run.ok_bind]
      refine ⟨_, _, f x, 1, _, rfl, rfl, hs', rfl, ?_⟩
      rw [hx]
      have hruns5 : FinderRuns f x { left := x - (n4 + n3 + n2 + n1 + n), stone := x - (n2 + n1 + n), right := x - n } := by
        refine ⟨x - (n + n1 + n2 + n3), x - (n + n1), ?_, ?_, ?_, ?_, ?_, ?_⟩
        · dsimp only; convert p5 using 1; omega
        · dsimp only; convert p4 using 1; omega
        · dsimp only; convert p3 using 1; omega
        · exact p2
        · exact p1
        · dsimp only
          have g1 := p1.1
          have g2 := p2.1
          have g3 := p3.1
          have g4 := p4.1
          have g5 := p5.1
          convert hfit using 1 <;> omega
      intro pos
      constructor
      · intro e
        cases e
        exact ⟨e1, fun e => hl (e.trans e1.symm), hruns5⟩
      · rintro ⟨-, -, x1, x3, r1, r2, r3, r4, r5, -⟩
        obtain ⟨y1, y3, q1, q2, q3, q4, q5, -⟩ := hruns5
        dsimp only at q1 q2 q3 q4 q5
        have w5 := run_unique r5 q5
        rw [w5] at r4
        have w4 := run_unique r4 q4
        subst w4
        have w3 := run_unique r3 q3
        rw [w3] at r2
        have w2 := run_unique r2 q2
        subst w2
        have w1 := run_unique r1 q1
        cases pos
        simp_all

end Rqrr
