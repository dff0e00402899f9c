import Verif.Proofs.Reserved
import Mathlib.Data.List.Nodup
import Mathlib.Tactic.Ring

/-!
# The traversal of `read_data`

`read_data` visits the cells of an explicit list (`pathFrom`), for conforming sizes the specification's `zigzag`.
-/

namespace Rqrr

open Spec

/-- Cells of one strip with right column `x`. -/
def stripCells (n : Nat) (up : Bool) (x : Nat) : List (Nat × Nat) :=
  (if up then (List.range n).reverse else List.range n).flatMap fun y => [(y, x), (y, x - 1)]

/-- Cells visited from column `x` on (`x` before the skip of column 6). -/
def pathFrom (n : Nat) (up : Bool) (x : Nat) : List (Nat × Nat) :=
  if _h : x = 0 then []
  else
    stripCells n up (if x = 6 then 5 else x) ++ pathFrom n (!up) ((if x = 6 then 5 else x) - 2)
termination_by x
decreasing_by split <;> omega

section
variable (code : BitGrid) (md : MetaData) (rm : Bool)

/-- One visited cell. -/
def visit (p : Nat × Nat) (ds : RawData) : Run RawData := read_cell code md rm p.1 p.2 ds

/-- The loop from a given state, with its result reduced to the data. -/
def loopFrom (fuel : Nat) (st : ReadState) : Run RawData :=
  whileFuel (fun st : ReadState => st.x > 0) (read_data_step code md rm) fuel st >>= fun st => pure st.ds

theorem forList_append {ι σ : Type} (f : ι → σ → Run σ) : ∀ (l1 l2 : List ι) (s : σ),
    forList f (l1 ++ l2) s = forList f l1 s >>= forList f l2
  | [], l2, s => rfl
  | a :: l1, l2, s => by
    simp only [List.cons_append, forList]
    cases f a s with
    | error e => rfl
    | ok s' => simp only [Run.ok_bind]; exact forList_append f l1 l2 s'

theorem Run.bind_assoc {α β γ : Type} (m : Run α) (f : α → Run β) (g : β → Run γ) :
    (m >>= f) >>= g = m >>= fun a => f a >>= g := by
  cases m <;> rfl

/-- One unrolled step in column `x > 0` (not 6). -/
theorem loopFrom_succ (fuel : Nat) (ds : RawData) (y x : Nat) (up : Bool) (hx : 0 < x) (h6 : x ≠ 6)
    (hn : 1 ≤ code.size) :
    loopFrom code md rm (fuel + 1) ⟨ds, y, x, up⟩ =
      visit code md rm (y, x) ds >>= fun ds => visit code md rm (y, x - 1) ds >>= fun ds =>
        loopFrom code md rm fuel (
          if y = 0 ∧ up = true then ⟨ds, 0, x - 2, false⟩
          else if up = false then (if y = code.size - 1 then ⟨ds, code.size - 1, x - 2, true⟩ else ⟨ds, y + 1, x, false⟩)
          else ⟨ds, y - 1, x, true⟩) := by
  unfold loopFrom
  rw [whileFuel]
  simp only [gt_iff_lt, hx, decide_true, if_true]
  unfold read_data_step visit
  simp only [h6, if_false, Run.pure_eq, Run.ok_bind, Run.bind_assoc]
  cases read_cell code md rm y x ds with
  | error e => rfl
  | ok ds1 =>
    simp only [Run.ok_bind, subU_ok (show 1 ≤ x by omega)]
    cases read_cell code md rm y (x - 1) ds1 with
    | error e => rfl
    | ok ds2 =>
      simp only [Run.ok_bind, subU_ok hn]
      by_cases c1 : y = 0 ∧ up = true
      · rw [if_pos c1, if_pos c1]; rfl
      · rw [if_neg c1, if_neg c1]
        by_cases c2 : up = false
        · rw [if_pos c2, if_pos c2]
          split <;> rfl
        · rw [if_neg c2, if_neg c2]
          have : 1 ≤ y := by
            cases up with
            | true => simp at c1; omega
            | false => exact absurd rfl c2
          rw [subU_ok this]; rfl

theorem range_reverse_succ (y : Nat) : (List.range (y + 1)).reverse = y :: (List.range y).reverse := by
  rw [List.range_succ, List.reverse_append]; rfl

/-- The rest of an upward strip. -/
theorem loop_up (x : Nat) (hx : 0 < x) (h6 : x ≠ 6) (hn : 1 ≤ code.size) : ∀ (y fuel : Nat) (ds : RawData),
    loopFrom code md rm (fuel + (y + 1)) ⟨ds, y, x, true⟩ =
      forList (visit code md rm) ((List.range (y + 1)).reverse.flatMap fun y => [(y, x), (y, x - 1)]) ds >>=
        fun ds => loopFrom code md rm fuel ⟨ds, 0, x - 2, false⟩
  | 0, fuel, ds => by
    rw [loopFrom_succ code md rm fuel ds 0 x true hx h6 hn]
    simp only [and_self, if_true]
    show _ = forList (visit code md rm) [(0, x), (0, x - 1)] ds >>= _
    simp only [forList, Run.bind_assoc, Run.ok_bind]
  | y + 1, fuel, ds => by
    rw [range_reverse_succ, List.flatMap_cons, forList_append, Run.bind_assoc]
    have e : fuel + (y + 1 + 1) = (fuel + (y + 1)) + 1 := by omega
    rw [e, loopFrom_succ code md rm _ ds (y + 1) x true hx h6 hn]
    simp only [forList, Run.bind_assoc, Run.ok_bind]
    cases visit code md rm (y + 1, x) ds with
    | error e => rfl
    | ok ds1 =>
      simp only [Run.ok_bind]
      cases visit code md rm (y + 1, x - 1) ds1 with
      | error e => rfl
      | ok ds2 =>
        simp only [Run.ok_bind]
        rw [if_neg (by omega), if_neg (by decide), Nat.add_sub_cancel]
        exact loop_up x hx h6 hn y fuel ds2

/-- The rest of a downward strip: `r + 1` rows are left. -/
theorem loop_down (x : Nat) (hx : 0 < x) (h6 : x ≠ 6) (hn : 1 ≤ code.size) : ∀ (r fuel : Nat) (ds : RawData),
    r < code.size →
    loopFrom code md rm (fuel + (r + 1)) ⟨ds, code.size - 1 - r, x, false⟩ =
      forList (visit code md rm)
        ((List.range' (code.size - 1 - r) (r + 1)).flatMap fun y => [(y, x), (y, x - 1)]) ds >>=
        fun ds => loopFrom code md rm fuel ⟨ds, code.size - 1, x - 2, true⟩
  | 0, fuel, ds, _ => by
    rw [loopFrom_succ code md rm fuel ds _ x false hx h6 hn]
    rw [List.range'_succ, List.flatMap_cons]
    simp only [Nat.sub_zero, List.range'_zero, List.flatMap_nil, List.append_nil, forList, Run.bind_assoc, Run.ok_bind,
      Bool.false_eq_true, and_false, if_false, if_true]
  | r + 1, fuel, ds, hr => by
    rw [List.range'_succ, List.flatMap_cons, forList_append, Run.bind_assoc]
    have e : fuel + (r + 1 + 1) = (fuel + (r + 1)) + 1 := by omega
    rw [e, loopFrom_succ code md rm _ ds _ x false hx h6 hn]
    simp only [forList, Run.bind_assoc, Run.ok_bind]
    cases visit code md rm (code.size - 1 - (r + 1), x) ds with
    | error e => rfl
    | ok ds1 =>
      simp only [Run.ok_bind]
      cases visit code md rm (code.size - 1 - (r + 1), x - 1) ds1 with
      | error e => rfl
      | ok ds2 =>
        rw [Run.ok_bind, if_neg (show ¬(code.size - 1 - (r + 1) = 0 ∧ false = true) by simp), if_pos trivial,
          if_neg (by omega), Run.ok_bind]
        have e2 : code.size - 1 - (r + 1) + 1 = code.size - 1 - r := by omega
        rw [e2]
        exact loop_down x hx h6 hn r fuel ds2 (by omega)

/-- A whole strip. -/
theorem loop_strip (x : Nat) (hx : 0 < x) (h6 : x ≠ 6) (hn : 1 ≤ code.size) (up : Bool) (fuel : Nat) (ds : RawData) :
    loopFrom code md rm (fuel + code.size) ⟨ds, if up then code.size - 1 else 0, x, up⟩ =
      forList (visit code md rm) (stripCells code.size up x) ds >>=
        fun ds => loopFrom code md rm fuel ⟨ds, if up then 0 else code.size - 1, x - 2, !up⟩ := by
  cases up with
  | true =>
    have := loop_up code md rm x hx h6 hn (code.size - 1) fuel ds
    have e : code.size - 1 + 1 = code.size := by omega
    rw [e] at this
    exact this
  | false =>
    have := loop_down code md rm x hx h6 hn (code.size - 1) fuel ds (by omega)
    have e : code.size - 1 + 1 = code.size := by omega
    rw [e, Nat.sub_self, ← List.range_eq_range'] at this
    exact this

/-- Column 6 behaves like column 5. -/
theorem loopFrom_six (fuel : Nat) (ds : RawData) (y : Nat) (up : Bool) :
    loopFrom code md rm (fuel + 1) ⟨ds, y, 6, up⟩ = loopFrom code md rm (fuel + 1) ⟨ds, y, 5, up⟩ := by
  unfold loopFrom
  rw [whileFuel, whileFuel]
  rfl

/-- The whole loop is a traversal of `pathFrom`. -/
theorem loop_path (hn : 1 ≤ code.size) (x : Nat) : ∀ (fuel : Nat) (up : Bool) (ds : RawData),
    code.size * x + 1 ≤ fuel →
    loopFrom code md rm fuel ⟨ds, if up then code.size - 1 else 0, x, up⟩ =
      forList (visit code md rm) (pathFrom code.size up x) ds := by
  induction x using Nat.strongRecOn with
  | ind x ih =>
    intro fuel up ds hf
    rw [pathFrom]
    by_cases h0 : x = 0
    · subst h0
      obtain ⟨f, rfl⟩ : ∃ f, fuel = f + 1 := ⟨fuel - 1, by omega⟩
      rfl
    · rw [dif_neg h0, forList_append]
      generalize hx' : (if x = 6 then 5 else x) = x'
      have hx1 : 0 < x' := by rw [← hx']; split <;> omega
      have hx2 : x' ≠ 6 := by rw [← hx']; split <;> omega
      have hx3 : x' ≤ x := by rw [← hx']; split <;> omega
      have hs : loopFrom code md rm fuel ⟨ds, if up then code.size - 1 else 0, x, up⟩ =
          loopFrom code md rm fuel ⟨ds, if up then code.size - 1 else 0, x', up⟩ := by
        by_cases h6 : x = 6
        · rw [if_pos h6] at hx'
          obtain ⟨f, rfl⟩ : ∃ f, fuel = f + 1 := ⟨fuel - 1, by omega⟩
          rw [h6, ← hx']
          exact loopFrom_six code md rm f ds _ up
        · rw [if_neg h6] at hx'; rw [hx']
      have hmul : code.size * (x' - 2) + code.size ≤ code.size * x := by
        calc code.size * (x' - 2) + code.size = code.size * (x' - 2 + 1) := by ring
          _ ≤ code.size * x := Nat.mul_le_mul_left _ (by omega)
      obtain ⟨f, rfl⟩ : ∃ f, fuel = f + code.size := ⟨fuel - code.size, by omega⟩
      rw [hs, loop_strip code md rm x' hx1 hx2 hn up f ds]
      cases forList (visit code md rm) (stripCells code.size up x') ds with
      | error e => rfl
      | ok ds1 =>
        simp only [Run.ok_bind]
        have := ih (x' - 2) (by omega) f (!up) ds1 (by omega)
        rw [← this]
        cases up <;> rfl

/-- `read_data` folds `read_cell` over the path. -/
theorem read_data_path (hn : 1 ≤ code.size) :
    read_data code md rm = forList (visit code md rm) (pathFrom code.size true (code.size - 1)) RawData.empty := by
  rw [← loop_path code md rm hn (code.size - 1) (code.size * code.size + 1) true RawData.empty (by
    have : code.size * (code.size - 1) ≤ code.size * code.size := Nat.mul_le_mul_left _ (by omega)
    omega)]
  unfold read_data
  rw [subU_ok hn]
  rfl

end

/-! ## The path of conforming sizes -/

theorem stripCells_mem {n : Nat} {up : Bool} {x : Nat} {p : Nat × Nat} :
    p ∈ stripCells n up x ↔ p.1 < n ∧ (p.2 = x ∨ p.2 = x - 1) := by
  obtain ⟨a, b⟩ := p
  unfold stripCells
  have h : ∀ l : List Nat, (∀ y, y ∈ l ↔ y < n) →
      ((a, b) ∈ l.flatMap (fun y => [(y, x), (y, x - 1)]) ↔ a < n ∧ (b = x ∨ b = x - 1)) := by
    intro l hl
    simp only [List.mem_flatMap, hl, List.mem_cons, Prod.mk.injEq, List.not_mem_nil, or_false]
    constructor
    · rintro ⟨y, hy, h | h⟩ <;> obtain ⟨rfl, rfl⟩ := h
      · exact ⟨hy, .inl rfl⟩
      · exact ⟨hy, .inr rfl⟩
    · rintro ⟨ha, h | h⟩
      · exact ⟨a, ha, .inl ⟨rfl, h⟩⟩
      · exact ⟨a, ha, .inr ⟨rfl, h⟩⟩
  cases up <;> apply h <;> simp

theorem pathFrom_bounds (n : Nat) (x : Nat) : ∀ (up : Bool), x < n → ∀ p ∈ pathFrom n up x, p.1 < n ∧ p.2 < n := by
  induction x using Nat.strongRecOn with
  | ind x ih =>
    intro up hx p hp
    rw [pathFrom] at hp
    split at hp
    · simp at hp
    · rcases List.mem_append.mp hp with h | h
      · rw [stripCells_mem] at h
        refine ⟨h.1, ?_⟩
        have := h.2
        split at this <;> omega
      · refine ih _ ?_ (!up) ?_ p h <;> split <;> omega

theorem stripCells_length (n : Nat) (up : Bool) (x : Nat) : (stripCells n up x).length = 2 * n := by
  unfold stripCells
  cases up <;> simp [List.length_flatMap] <;> omega

theorem pathFrom_length (n : Nat) (x : Nat) : ∀ (up : Bool), (pathFrom n up x).length ≤ n * (x + 1) := by
  induction x using Nat.strongRecOn with
  | ind x ih =>
    intro up
    rw [pathFrom]
    split
    · simp
    · rename_i h0
      rw [List.length_append, stripCells_length]
      have h := ih ((if x = 6 then 5 else x) - 2) (by split <;> omega) (!up)
      by_cases h1 : x = 1
      · subst h1
        have e : (pathFrom n (!up) ((if 1 = 6 then 5 else 1) - 2)).length = 0 := by
          rw [pathFrom]; rfl
        omega
      · have : n * ((if x = 6 then 5 else x) - 2 + 1) + 2 * n ≤ n * (x + 1) := by
          calc n * ((if x = 6 then 5 else x) - 2 + 1) + 2 * n = n * ((if x = 6 then 5 else x) - 2 + 1 + 2) := by ring
            _ ≤ n * (x + 1) := Nat.mul_le_mul_left _ (by split <;> omega)
        omega

/-- The path of an odd size is the specification's zig-zag. -/
theorem pathFrom_zigzag_aux (n : Nat) (hodd : n % 2 = 1) (hn : 9 ≤ n) : ∀ (r k : Nat), k + r = (n - 1) / 2 →
    pathFrom n (k % 2 == 0) (if n - 1 - 2 * k ≥ 6 then n - 1 - 2 * k else n - 2 - 2 * k) =
      (List.range' k r).flatMap fun k => (stripRows n k).flatMap fun y => [(y, stripColumn n k), (y, stripColumn n k - 1)]
  | 0, k, h => by
    have : n - 1 - 2 * k = 0 := by omega
    rw [if_neg (by omega), pathFrom, dif_pos (by omega)]
    rfl
  | r + 1, k, h => by
    rw [pathFrom, dif_neg (by split <;> omega), List.range'_succ, List.flatMap_cons,
      ← pathFrom_zigzag_aux n hodd hn r (k + 1) (by omega)]
    have e1 : (if (if n - 1 - 2 * k ≥ 6 then n - 1 - 2 * k else n - 2 - 2 * k) = 6 then 5
        else (if n - 1 - 2 * k ≥ 6 then n - 1 - 2 * k else n - 2 - 2 * k)) = stripColumn n k := by
      unfold stripColumn
      repeat' split
      all_goals omega
    rw [e1]
    congr 1
    · unfold stripCells stripRows
      by_cases h2 : k % 2 = 0
      · simp [h2]
      · simp [h2]
    · congr 1
      · rw [Bool.eq_iff_iff]; simp; omega
      · unfold stripColumn
        repeat' split
        all_goals omega

theorem pathFrom_zigzag (n : Nat) (hodd : n % 2 = 1) (hn : 9 ≤ n) : pathFrom n true (n - 1) = zigzag n := by
  have := pathFrom_zigzag_aux n hodd hn ((n - 1) / 2) 0 (by omega)
  rw [if_pos (by omega)] at this
  rw [zigzag, List.range_eq_range', ← this]
  rfl

/-! ## The zig-zag visits every cell outside column 6 exactly once -/

theorem zigzag_mem (n : Nat) (hodd : n % 2 = 1) (hn : 9 ≤ n) (y x : Nat) :
    (y, x) ∈ zigzag n ↔ y < n ∧ x < n ∧ x ≠ 6 := by
  unfold zigzag
  simp only [List.mem_flatMap, List.mem_range]
  have hr : ∀ k y, y ∈ stripRows n k ↔ y < n := by
    intro k y; unfold stripRows; split <;> simp
  constructor
  · rintro ⟨k, hk, y', hy', h⟩
    rw [hr] at hy'
    have h' : y = y' ∧ (x = stripColumn n k ∨ x = stripColumn n k - 1) := by
      simp only [List.mem_cons, Prod.mk.injEq, List.not_mem_nil, or_false] at h
      omega
    obtain ⟨rfl, h2⟩ := h'
    refine ⟨hy', ?_⟩
    unfold stripColumn at h2
    split at h2 <;> omega
  · rintro ⟨hy, hx, h6⟩
    by_cases hgt : 6 < x
    · refine ⟨(n - 1 - x) / 2, by omega, y, (hr _ _).mpr hy, ?_⟩
      simp only [List.mem_cons, Prod.mk.injEq, List.not_mem_nil, or_false, true_and]
      unfold stripColumn
      split <;> omega
    · refine ⟨(n - 2 - x) / 2, by omega, y, (hr _ _).mpr hy, ?_⟩
      simp only [List.mem_cons, Prod.mk.injEq, List.not_mem_nil, or_false, true_and]
      unfold stripColumn
      split <;> omega

theorem zigzag_nodup (n : Nat) (hodd : n % 2 = 1) (hn : 9 ≤ n) : (zigzag n).Nodup := by
  unfold zigzag
  rw [List.nodup_flatMap]
  constructor
  · intro k hk
    rw [List.mem_range] at hk
    rw [List.nodup_flatMap]
    constructor
    · intro y _
      have : stripColumn n k ≠ stripColumn n k - 1 := by unfold stripColumn; split <;> omega
      simp [this]
    · have hnd : (stripRows n k).Nodup := by
        unfold stripRows; split
        · exact List.nodup_reverse.mpr List.nodup_range
        · exact List.nodup_range
      refine hnd.imp ?_
      intro a b hab
      simp [Function.onFun, List.disjoint_left, hab]
  · refine List.Pairwise.imp_of_mem ?_ (List.nodup_range (n := (n - 1) / 2))
    intro a b ha hb hab
    rw [List.mem_range] at ha hb
    simp only [Function.onFun, List.disjoint_left, List.mem_flatMap]
    rintro p ⟨y, _, h1⟩ ⟨y', _, h2⟩
    simp only [List.mem_cons, List.not_mem_nil, or_false] at h1 h2
    have c1 : p.2 = stripColumn n a ∨ p.2 = stripColumn n a - 1 := by rcases h1 with h | h <;> simp [h]
    have c2 : p.2 = stripColumn n b ∨ p.2 = stripColumn n b - 1 := by rcases h2 with h | h <;> simp [h]
    unfold stripColumn at c1 c2
    split at c1 <;> split at c2 <;> omega

end Rqrr
