import Verif.Model.Geometry
import Verif.Proofs.Loops
import Mathlib.Tactic.Ring
import Mathlib.Tactic.Linarith
import Mathlib.Algebra.Order.Ring.Int
import Mathlib.Algebra.Order.Group.Unbundled.Int

/-!
# Line scans
-/

namespace Rqrr

theorem chk32_ok {n : Int} (h1 : -(2 ^ 31) ≤ n) (h2 : n < 2 ^ 31) : chk32 n = .ok n := if_pos ⟨h1, h2⟩

namespace Bresenham

/-- Steps in the non-dominant direction after `k` steps. -/
def offset (n d k : Nat) : Nat := if n = d then k else n * (k + 1) / d

/-- The accumulator after `k` steps. -/
def acc (n d k : Nat) : Nat := if n = d then n else n * (k + 1) % d

theorem offset_succ {n d : Nat} (h : n ≤ d) (k : Nat) :
    offset n d (k + 1) = offset n d k + (if acc n d k + n ≥ d then 1 else 0) ∧
      acc n d (k + 1) = acc n d k + n - (if acc n d k + n ≥ d then d else 0) := by
  unfold offset acc
  by_cases e : n = d
  · simp only [if_pos e]
    constructor
    · rw [if_pos (by omega)]
    · rw [if_pos (by omega)]; omega
  · simp only [if_neg e]
    have hd : 0 < d := by omega
    have hlt : n < d := by omega
    have h1 := Nat.div_add_mod (n * (k + 1)) d
    have h2 := Nat.mod_lt (n * (k + 1)) hd
    have h3 : n * (k + 1 + 1) = n * (k + 1) + n := by ring
    generalize n * (k + 1) % d = r at *
    generalize n * (k + 1) / d = q at *
    rw [h3, ← h1]
    by_cases hc : r + n ≥ d
    · rw [if_pos hc, if_pos hc]
      have e1 : d * q + r + n = (r + n - d) + d * (q + 1) := by rw [Nat.mul_add]; omega
      rw [e1]
      constructor
      · rw [Nat.add_mul_div_left _ _ hd, Nat.div_eq_of_lt (by omega)]; omega
      · rw [Nat.add_mul_mod_self_left, Nat.mod_eq_of_lt (by omega)]
    · rw [if_neg hc, if_neg hc]
      have e1 : d * q + r + n = (r + n) + d * q := by omega
      rw [e1]
      constructor
      · rw [Nat.add_mul_div_left _ _ hd, Nat.div_eq_of_lt (by omega)]; omega
      · rw [Nat.add_mul_mod_self_left, Nat.mod_eq_of_lt (by omega)]; omega

theorem acc_le {n d : Nat} (h : n ≤ d) (k : Nat) : acc n d k ≤ d := by
  unfold acc
  by_cases e : n = d
  · rw [if_pos e]; exact h
  · rw [if_neg e]; exact (Nat.mod_lt _ (by omega)).le

theorem offset_zero {n d : Nat} (h : n ≤ d) : offset n d 0 = 0 := by
  unfold offset
  by_cases e : n = d
  · rw [if_pos e]
  · rw [if_neg e, Nat.zero_add, Nat.mul_one, Nat.div_eq_of_lt (by omega)]

theorem acc_zero {n d : Nat} (h : n ≤ d) : acc n d 0 = n := by
  unfold acc
  by_cases e : n = d
  · rw [if_pos e]
  · rw [if_neg e, Nat.zero_add, Nat.mul_one, Nat.mod_eq_of_lt (by omega)]

theorem offset_end {n d : Nat} (h : n ≤ d) : offset n d d = n := by
  unfold offset
  by_cases e : n = d
  · rw [if_pos e, e]
  · rw [if_neg e, Nat.mul_add, Nat.mul_one, Nat.add_comm, Nat.add_mul_div_right _ _ (by omega), Nat.div_eq_of_lt (by omega),
      Nat.zero_add]

theorem offset_le {n d : Nat} (h : n ≤ d) {k : Nat} (hk : k ≤ d + 1) : offset n d k ≤ d + 1 := by
  unfold offset
  by_cases e : n = d
  · rw [if_pos e]; exact hk
  · rw [if_neg e]
    apply Nat.div_le_of_le_mul
    have : n + 1 ≤ d := by omega
    nlinarith

/-- The offset is within one step of the straight line. -/
theorem offset_near {n d : Nat} (h : n ≤ d) (hd : 0 < d) (k : Nat) :
    (d : Int) * offset n d k < n * k + d ∧ (n * k : Int) < d * offset n d k + d := by
  unfold offset
  by_cases e : n = d
  · rw [if_pos e, e]; constructor <;> push_cast <;> nlinarith
  · rw [if_neg e]
    have h1 := Nat.div_add_mod (n * (k + 1)) d
    have h2 := Nat.mod_lt (n * (k + 1)) hd
    have h3 : n * (k + 1) = n * k + n := by ring
    generalize n * (k + 1) % d = r at *
    generalize n * (k + 1) / d = q at *
    have h4 : d * q < n * k + d := by omega
    have h5 : n * k < d * q + d := by omega
    exact ⟨by exact_mod_cast h4, by exact_mod_cast h5⟩

/-- The state after `k` steps. -/
def state (dom0 non0 ds ns : Int) (n d : Nat) (x_dom : Bool) (k : Nat) : BresenhamScan where
  x := if x_dom then dom0 + ds * k else non0 + ns * offset n d k
  y := if x_dom then non0 + ns * offset n d k else dom0 + ds * k
  dom_step := ds
  non_step := ns
  i := k
  d := d
  n := n
  a := acc n d k
  x_dom := x_dom

/-- The point yielded by step `k`. -/
def point (dom0 non0 ds ns : Int) (n d : Nat) (x_dom : Bool) (k : Nat) : Point where
  x := if x_dom then dom0 + ds * k else non0 + ns * offset n d k
  y := if x_dom then non0 + ns * offset n d k else dom0 + ds * k

theorem sign_mul_bound {s : Int} (hs : s = 1 ∨ s = -1) {m : Nat} {B : Int} (h : (m : Int) ≤ B) : -B ≤ s * m ∧ s * m ≤ B := by
  rcases hs with rfl | rfl <;> omega

theorem next_ok {dom0 non0 ds ns : Int} {n d : Nat} {x_dom : Bool} (hds : ds = 1 ∨ ds = -1) (hns : ns = 1 ∨ ns = -1)
    (hnd : n ≤ d) (hd : d < 2 ^ 30) (h0 : -(2 ^ 29) ≤ dom0 ∧ dom0 < 2 ^ 29) (h1 : -(2 ^ 29) ≤ non0 ∧ non0 < 2 ^ 29) {k : Nat}
    (hk : k ≤ d) : (state dom0 non0 ds ns n d x_dom k).next =
      .ok (some (point dom0 non0 ds ns n d x_dom k, state dom0 non0 ds ns n d x_dom (k + 1))) := by
  obtain ⟨e1, e2⟩ := offset_succ hnd k
  have ha := acc_le hnd k
  have ho := offset_le hnd (k := k) (by omega)
  have ho' := offset_le hnd (k := k + 1) (by omega)
  have b1 := sign_mul_bound hds (m := k + 1) (B := 2 ^ 30) (by omega)
  have b2 := sign_mul_bound hns (m := offset n d (k + 1)) (B := 2 ^ 30) (by omega)
  have hdom : (if x_dom = true then (state dom0 non0 ds ns n d x_dom k).x else (state dom0 non0 ds ns n d x_dom k).y) =
      dom0 + ds * k := by cases x_dom <;> rfl
  have hnon : (if x_dom = true then (state dom0 non0 ds ns n d x_dom k).y else (state dom0 non0 ds ns n d x_dom k).x) =
      non0 + ns * offset n d k := by cases x_dom <;> rfl
  have c1 : dom0 + ds * k + ds = dom0 + ds * ((k + 1 : Nat) : Int) := by push_cast; ring
  unfold BresenhamScan.next
  rw [if_neg (show ¬ (state dom0 non0 ds ns n d x_dom k).i > (state dom0 non0 ds ns n d x_dom k).d by
    show ¬ ((k : Int) > d); omega)]
  have ea : addI (state dom0 non0 ds ns n d x_dom k).a (state dom0 non0 ds ns n d x_dom k).n = .ok ((acc n d k : Int) + n) :=
    chk32_ok (n := (acc n d k : Int) + n) (by omega) (by omega)
  dsimp only
  rw [ea, Run.ok_bind, show (state dom0 non0 ds ns n d x_dom k).x_dom = x_dom from rfl, hdom, hnon,
    show (state dom0 non0 ds ns n d x_dom k).dom_step = ds from rfl,
    show (state dom0 non0 ds ns n d x_dom k).non_step = ns from rfl,
    show (state dom0 non0 ds ns n d x_dom k).d = (d : Int) from rfl,
    show (state dom0 non0 ds ns n d x_dom k).i = (k : Int) from rfl]
  rw [show addI (dom0 + ds * k) ds = .ok (dom0 + ds * ((k + 1 : Nat) : Int)) by
    unfold addI; rw [c1]; exact chk32_ok (by omega) (by omega), Run.ok_bind,
    show addI (k : Int) 1 = .ok ((k + 1 : Nat) : Int) from chk32_ok (by omega) (by omega)]
  by_cases hc : acc n d k + n ≥ d
  · rw [if_pos hc] at e1 e2
    have c2 : non0 + ns * offset n d k + ns = non0 + ns * offset n d (k + 1) := by rw [e1]; push_cast; ring
    rw [if_pos (show (acc n d k : Int) + n ≥ d by omega),
      show addI (non0 + ns * offset n d k) ns = .ok (non0 + ns * offset n d (k + 1)) by
        unfold addI; rw [c2]; exact chk32_ok (by omega) (by omega), Run.ok_bind,
      show subI ((acc n d k : Int) + n) d = .ok (acc n d (k + 1) : Int) by
        unfold subI
        rw [show (acc n d k : Int) + n - d = (acc n d (k + 1) : Int) by omega]
        exact chk32_ok (by omega) (by omega)]
    rfl
  · rw [if_neg hc] at e1 e2
    rw [if_neg (show ¬ ((acc n d k : Int) + n ≥ d) by omega)]
    have e3 : offset n d (k + 1) = offset n d k := by omega
    have e4 : (acc n d k : Int) + n = (acc n d (k + 1) : Int) := by omega
    unfold point
    rw [e4]
    conv => rhs; unfold state
    rw [e3]
    rfl

theorem next_none (dom0 non0 ds ns : Int) (n d : Nat) (x_dom : Bool) :
    (state dom0 non0 ds ns n d x_dom (d + 1)).next = .ok none := by
  unfold BresenhamScan.next
  rw [if_pos (show (state dom0 non0 ds ns n d x_dom (d + 1)).i > (state dom0 non0 ds ns n d x_dom (d + 1)).d by
    show (((d + 1 : Nat) : Int) > d); omega)]
  rfl

theorem collect_ok {dom0 non0 ds ns : Int} {n d : Nat} {x_dom : Bool} (hds : ds = 1 ∨ ds = -1) (hns : ns = 1 ∨ ns = -1)
    (hnd : n ≤ d) (hd : d < 2 ^ 30) (h0 : -(2 ^ 29) ≤ dom0 ∧ dom0 < 2 ^ 29) (h1 : -(2 ^ 29) ≤ non0 ∧ non0 < 2 ^ 29) :
    ∀ r, r ≤ d + 1 → BresenhamScan.collect (r + 1) (state dom0 non0 ds ns n d x_dom (d + 1 - r)) =
      .ok ((List.range' (d + 1 - r) r).map (point dom0 non0 ds ns n d x_dom))
  | 0, _ => by
    show (do
      match ← (state dom0 non0 ds ns n d x_dom (d + 1)).next with
      | none => pure []
      | some (p, s) => _ : Run (List Point)) = _
    rw [next_none, Run.ok_bind]
    rfl
  | r + 1, hr => by
    show (do
      match ← (state dom0 non0 ds ns n d x_dom (d + 1 - (r + 1))).next with
      | none => pure []
      | some (p, s) => do
        let ps ← BresenhamScan.collect (r + 1) s
        pure (p :: ps) : Run (List Point)) = _
    rw [next_ok hds hns hnd hd h0 h1 (by omega), Run.ok_bind]
    dsimp only
    rw [show d + 1 - (r + 1) + 1 = d + 1 - r by omega, collect_ok hds hns hnd hd h0 h1 r (by omega), Run.ok_bind,
      List.range'_succ, show d + 1 - (r + 1) + 1 = d + 1 - r by omega]
    rfl

end Bresenham

/-- The points of a scan: explicit formula. -/
theorem scan_points {p q : Point} (hpx : -(2 ^ 29) ≤ p.x ∧ p.x < 2 ^ 29) (hpy : -(2 ^ 29) ≤ p.y ∧ p.y < 2 ^ 29)
    (hqx : -(2 ^ 29) ≤ q.x ∧ q.x < 2 ^ 29) (hqy : -(2 ^ 29) ≤ q.y ∧ q.y < 2 ^ 29) :
    ∃ (dom0 non0 ds ns : Int) (n d : Nat) (x_dom : Bool), (ds = 1 ∨ ds = -1) ∧ (ns = 1 ∨ ns = -1) ∧ n ≤ d ∧
      (x_dom = true → dom0 = p.x ∧ non0 = p.y ∧ q.x - p.x = ds * d ∧ q.y - p.y = ns * n) ∧
      (x_dom = false → dom0 = p.y ∧ non0 = p.x ∧ q.y - p.y = ds * d ∧ q.x - p.x = ns * n) ∧
      BresenhamScan.points p q = .ok ((List.range (d + 1)).map (Bresenham.point dom0 non0 ds ns n d x_dom)) := by
  have hsign : ∀ v : Int, -(2 ^ 30) < v → v < 2 ^ 30 →
      (if v < 0 then do pure (← negI v, (-1 : Int)) else pure (v, 1) : Run (Int × Int)) =
        .ok (((v.natAbs : Nat) : Int), if v < 0 then -1 else 1) ∧ v = (if v < 0 then -1 else 1) * ((v.natAbs : Nat) : Int) := by
    intro v h1 h2
    by_cases h : v < 0
    · rw [if_pos h, if_pos h, show negI v = .ok (-v) from chk32_ok (by omega) (by omega), Run.ok_bind]
      constructor
      · rw [show ((v.natAbs : Nat) : Int) = -v by omega]; rfl
      · omega
    · rw [if_neg h, if_neg h]
      constructor
      · rw [show ((v.natAbs : Nat) : Int) = v by omega]; rfl
      · omega
  have hsg : ∀ v : Int, (if v < 0 then (-1 : Int) else 1) = 1 ∨ (if v < 0 then (-1 : Int) else 1) = -1 := by
    intro v; by_cases h : v < 0
    · rw [if_pos h]; exact .inr rfl
    · rw [if_neg h]; exact .inl rfl
  obtain ⟨sx, sx'⟩ := hsign (q.x - p.x) (by omega) (by omega)
  obtain ⟨sy, sy'⟩ := hsign (q.y - p.y) (by omega) (by omega)
  unfold BresenhamScan.points BresenhamScan.new
  rw [show subI q.x p.x = .ok (q.x - p.x) from chk32_ok (by omega) (by omega), Run.ok_bind,
    show subI q.y p.y = .ok (q.y - p.y) from chk32_ok (by omega) (by omega), Run.ok_bind]
  dsimp only
  rw [show chk32 (((q.x - p.x).natAbs : Nat) : Int) = .ok (((q.x - p.x).natAbs : Nat) : Int) from chk32_ok (by omega) (by omega), Run.ok_bind,
    show chk32 (((q.y - p.y).natAbs : Nat) : Int) = .ok (((q.y - p.y).natAbs : Nat) : Int) from chk32_ok (by omega) (by omega), Run.ok_bind]
  by_cases hdom : (((q.x - p.x).natAbs : Nat) : Int) > (((q.y - p.y).natAbs : Nat) : Int)
  · refine ⟨p.x, p.y, _, _, (q.y - p.y).natAbs, (q.x - p.x).natAbs, true, hsg (q.x - p.x), hsg (q.y - p.y), by omega,
      fun _ => ⟨rfl, rfl, sx', sy'⟩, fun h => by simp at h, ?_⟩
    rw [if_pos hdom]
    dsimp only
    rw [sy, Run.ok_bind]
    dsimp only
    rw [sx, Run.ok_bind]
    dsimp only
    rw [Run.pure_eq, Run.ok_bind]
    dsimp only
    have := Bresenham.collect_ok (x_dom := true) (hsg (q.x - p.x)) (hsg (q.y - p.y))
      (show (q.y - p.y).natAbs ≤ (q.x - p.x).natAbs by omega) (by omega) hpx hpy ((q.x - p.x).natAbs + 1) (Nat.le_refl _)
    rw [Nat.sub_self, ← List.range_eq_range'] at this
    rw [← this]
    have hstate : Bresenham.state p.x p.y (if q.x - p.x < 0 then -1 else 1) (if q.y - p.y < 0 then -1 else 1) (q.y - p.y).natAbs
        (q.x - p.x).natAbs true 0 =
        { x := p.x, y := p.y, dom_step := if q.x - p.x < 0 then -1 else 1, non_step := if q.y - p.y < 0 then -1 else 1,
          i := 0, d := ((q.x - p.x).natAbs : Nat), n := ((q.y - p.y).natAbs : Nat), a := ((q.y - p.y).natAbs : Nat), x_dom := true } := by
      unfold Bresenham.state
      rw [Bresenham.offset_zero (by omega), Bresenham.acc_zero (by omega)]
      simp
    rw [hstate, Int.toNat_natCast]
  · refine ⟨p.y, p.x, _, _, (q.x - p.x).natAbs, (q.y - p.y).natAbs, false, hsg (q.y - p.y), hsg (q.x - p.x), by omega,
      fun h => by simp at h, fun _ => ⟨rfl, rfl, sy', sx'⟩, ?_⟩
    rw [if_neg hdom]
    dsimp only
    rw [sx, Run.ok_bind]
    dsimp only
    rw [sy, Run.ok_bind]
    dsimp only
    rw [Run.pure_eq, Run.ok_bind]
    dsimp only
    have := Bresenham.collect_ok (x_dom := false) (hsg (q.y - p.y)) (hsg (q.x - p.x))
      (show (q.x - p.x).natAbs ≤ (q.y - p.y).natAbs by omega) (by omega) hpy hpx ((q.y - p.y).natAbs + 1) (Nat.le_refl _)
    rw [Nat.sub_self, ← List.range_eq_range'] at this
    rw [← this]
    have hstate : Bresenham.state p.y p.x (if q.y - p.y < 0 then -1 else 1) (if q.x - p.x < 0 then -1 else 1) (q.x - p.x).natAbs
        (q.y - p.y).natAbs false 0 =
        { x := p.x, y := p.y, dom_step := if q.y - p.y < 0 then -1 else 1, non_step := if q.x - p.x < 0 then -1 else 1,
          i := 0, d := ((q.y - p.y).natAbs : Nat), n := ((q.x - p.x).natAbs : Nat), a := ((q.x - p.x).natAbs : Nat), x_dom := false } := by
      unfold Bresenham.state
      rw [Bresenham.offset_zero (by omega), Bresenham.acc_zero (by omega)]
      simp
    rw [hstate, Int.toNat_natCast]

end Rqrr
