import Verif.Spec.Spiral
import Verif.Model.Identify
import Verif.Proofs.History
import Verif.Proofs.Bresenham
import Verif.Proofs.Partial
import Verif.Proofs.Prepare

/-!
# The search for the alignment pattern
-/

namespace Rqrr

open ImageBuffer LawfulImage Spec

/-! ### The spiral -/

theorem corner_step (j : Nat) : corner (j + 1) =
    { x := (corner j).x + sideLength j * (direction j).x, y := (corner j).y + sideLength j * (direction j).y } := by
  unfold corner direction sideLength
  have h : j % 4 = 0 ∨ j % 4 = 1 ∨ j % 4 = 2 ∨ j % 4 = 3 := by omega
  rcases h with h | h | h | h
  · have a : (j + 1) % 4 = 1 := by omega
    have b : (j + 1) / 4 = j / 4 := by omega
    simp only [h, a, b]
    norm_num
    omega
  · have a : (j + 1) % 4 = 2 := by omega
    have b : (j + 1) / 4 = j / 4 := by omega
    simp only [h, a, b]
    norm_num
    omega
  · have a : (j + 1) % 4 = 3 := by omega
    have b : (j + 1) / 4 = j / 4 := by omega
    simp only [h, a, b]
    norm_num
    omega
  · have a : (j + 1) % 4 = 0 := by omega
    have b : (j + 1) / 4 = j / 4 + 1 := by omega
    simp only [h, a, b]
    norm_num
    omega

theorem spiralPoint_end (seed : Point) (j : Nat) : spiralPoint seed j (sideLength j) = spiralPoint seed (j + 1) 0 := by
  unfold spiralPoint
  rw [corner_step]
  simp only [Point.mk.injEq]
  constructor <;> ring

theorem spiral_succ (seed : Point) (n : Nat) : spiral seed (n + 1) = spiral seed n ++ (List.range (sideLength n)).map
    fun k => spiralPoint seed n k := by
  unfold spiral
  rw [List.range_succ, List.flatMap_append]
  simp

theorem spiral_prefix (seed : Point) {m n : Nat} (h : m ≤ n) : ∃ l, spiral seed n = spiral seed m ++ l := by
  induction n with
  | zero => exact ⟨[], by rw [show m = 0 by omega]; simp⟩
  | succ n ih =>
    rcases Nat.lt_or_ge n m with h' | h'
    · exact ⟨[], by rw [show m = n + 1 by omega]; simp⟩
    · obtain ⟨l, hl⟩ := ih h'
      exact ⟨l ++ _, by rw [spiral_succ, hl, List.append_assoc]⟩

/-- The spiral stays close to its centre. -/
theorem spiral_close (j k : Nat) (hk : k ≤ sideLength j) : ((corner j).x + k * (direction j).x).natAbs ≤ sideLength j ∧
    ((corner j).y + k * (direction j).y).natAbs ≤ sideLength j := by
  revert hk
  unfold corner direction sideLength
  intro hk
  have h : j % 4 = 0 ∨ j % 4 = 1 ∨ j % 4 = 2 ∨ j % 4 = 3 := by omega
  rcases h with h | h | h | h <;> simp only [h] <;> norm_num <;> omega

/-- The spiral covers the square. -/
theorem mem_spiral {seed p : Point} {r : Nat} (hx : (p.x - seed.x).natAbs ≤ r) (hy : (p.y - seed.y).natAbs ≤ r) :
    p ∈ spiral seed (4 * r + 1) := by
  unfold spiral
  rw [List.mem_flatMap]
  have key : ∀ j k : Nat, j < 4 * r + 1 → k < sideLength j → spiralPoint seed j k = p → ∃ a ∈ List.range (4 * r + 1),
      p ∈ (List.range (sideLength a)).map fun k => spiralPoint seed a k := by
    intro j k hj hk e
    exact ⟨j, List.mem_range.2 hj, List.mem_map.2 ⟨k, List.mem_range.2 hk, e⟩⟩
  obtain ⟨px, py⟩ := p
  dsimp only at hx hy
  by_cases h1 : py - seed.y ≥ (px - seed.x).natAbs
  · obtain ⟨m, hm⟩ : ∃ m : Nat, py - seed.y = m := ⟨(py - seed.y).toNat, by omega⟩
    obtain ⟨k, hk⟩ : ∃ k : Nat, px - seed.x + m = k := ⟨(px - seed.x + m).toNat, by omega⟩
    refine key (4 * m) k (by omega) (by unfold sideLength; omega) ?_
    have e1 : 4 * m % 4 = 0 := by omega
    have e2 : 4 * m / 4 = m := by omega
    unfold spiralPoint corner direction
    simp only [e1, e2]
    norm_num
    omega
  by_cases h2 : 0 < px - seed.x ∧ (py - seed.y).natAbs < px - seed.x
  · obtain ⟨m, hm⟩ : ∃ m : Nat, px - seed.x = m + 1 := ⟨(px - seed.x - 1).toNat, by omega⟩
    obtain ⟨k, hk⟩ : ∃ k : Nat, m - (py - seed.y) = k := ⟨(m - (py - seed.y)).toNat, by omega⟩
    refine key (4 * m + 1) k (by omega) (by unfold sideLength; omega) ?_
    have e1 : (4 * m + 1) % 4 = 1 := by omega
    have e2 : (4 * m + 1) / 4 = m := by omega
    unfold spiralPoint corner direction
    simp only [e1, e2]
    norm_num
    omega
  by_cases h3 : py - seed.y < 0 ∧ py - seed.y < px - seed.x
  · obtain ⟨m, hm⟩ : ∃ m : Nat, py - seed.y = -(m + 1) := ⟨(seed.y - py - 1).toNat, by omega⟩
    obtain ⟨k, hk⟩ : ∃ k : Nat, m + 1 - (px - seed.x) = k := ⟨(m + 1 - (px - seed.x)).toNat, by omega⟩
    refine key (4 * m + 2) k (by omega) (by unfold sideLength; omega) ?_
    have e1 : (4 * m + 2) % 4 = 2 := by omega
    have e2 : (4 * m + 2) / 4 = m := by omega
    unfold spiralPoint corner direction
    simp only [e1, e2]
    norm_num
    omega
  · obtain ⟨m, hm⟩ : ∃ m : Nat, px - seed.x = -(m + 1) := ⟨(seed.x - px - 1).toNat, by omega⟩
    obtain ⟨k, hk⟩ : ∃ k : Nat, m + 1 + (py - seed.y) = k := ⟨(m + 1 + (py - seed.y)).toNat, by omega⟩
    refine key (4 * m + 3) k (by omega) (by unfold sideLength; omega) ?_
    have e1 : (4 * m + 3) % 4 = 3 := by omega
    have e2 : (4 * m + 3) / 4 = m := by omega
    unfold spiralPoint corner direction
    simp only [e1, e2]
    norm_num
    omega

/-- And these sides cover nothing else. -/
theorem spiral_square {seed p : Point} {r : Nat} (h : p ∈ spiral seed (4 * r + 1)) : (p.x - seed.x).natAbs ≤ r ∧
    (p.y - seed.y).natAbs ≤ r := by
  unfold spiral at h
  rw [List.mem_flatMap] at h
  obtain ⟨j, hj, h⟩ := h
  rw [List.mem_map] at h
  obtain ⟨k, hk, rfl⟩ := h
  rw [List.mem_range] at hj hk
  unfold sideLength at hk
  unfold spiralPoint corner direction
  have h : j % 4 = 0 ∨ j % 4 = 1 ∨ j % 4 = 2 ∨ j % 4 = 3 := by omega
  rcases h with h | h | h | h <;> simp only [h] <;> norm_num <;> omega

/-! ### One step -/

variable {S : Type} [ImageBuffer S] [LawfulImage S]

/-- The search ends at such a point. -/
def Stop (img : PreparedImage S) (claims : Pos → Option Claim) (n : Nat) (p : Point) : Prop :=
  Suitable img claims n p ∨ InClaimed img claims p

theorem asUsize_nat (i : Nat) (h : i < 2 ^ 64) : asUsize (i : Int) = i := by
  unfold asUsize
  omega

theorem asUsize_neg {i : Int} (h : -(2 ^ 31) ≤ i) (h' : i < 0) : 2 ^ 63 ≤ asUsize i := by
  unfold asUsize
  omega

theorem dir_lookup (j : Nat) : idx dxMap (j % 4) = .ok (direction j).x ∧ idx dyMap (j % 4) = .ok (direction j).y := by
  unfold direction
  have h : j % 4 = 0 ∨ j % 4 = 1 ∨ j % 4 = 2 ∨ j % 4 = 3 := by omega
  rcases h with h | h | h | h <;> rw [h] <;> exact ⟨rfl, rfl⟩

/-- One step with the search still on. -/
theorem align_step_ok {img0 img : PreparedImage S} {claims : Pos → Option Claim} (h0 : Fresh img0)
    (h : History img0 claims img) (hw : width img0.buffer ≤ 2 ^ 63) (hh : height img0.buffer ≤ 2 ^ 63) {n : Nat}
    (hn : n < 2 ^ 63) {seed : Point} (j : Nat) (b1 : -(2 ^ 31) < seed.x) (b2 : seed.x < 2 ^ 31 - 1) (b3 : -(2 ^ 31) < seed.y)
    (b4 : seed.y < 2 ^ 31 - 1) : ∃ img', History img0 claims img' ∧
      (Suitable img0 claims n seed → align_step n (j % 4) (img, seed, none) = .ok (img', seed, some seed)) ∧
      (InClaimed img0 claims seed → align_step n (j % 4) (img, seed, none) = .ok (img', seed, none)) ∧
      (¬ Stop img0 claims n seed → align_step n (j % 4) (img, seed, none) =
        .ok (img', ⟨seed.x + (direction j).x, seed.y + (direction j).y⟩, none)) := by
  obtain ⟨hI, hw', hh'⟩ := history_inv h0 h
  obtain ⟨d1, d2⟩ := dir_lookup j
  have hd : -1 ≤ (direction j).x ∧ (direction j).x ≤ 1 ∧ -1 ≤ (direction j).y ∧ (direction j).y ≤ 1 := by
    unfold direction
    split
    · simp
    · split
      · simp
      · split <;> simp
  have a1 : addI seed.x (direction j).x = .ok (seed.x + (direction j).x) := chk32_ok (by omega) (by omega)
  have a2 : addI seed.y (direction j).y = .ok (seed.y + (direction j).y) := chk32_ok (by omega) (by omega)
  -- the pixel
  by_cases hin : ∃ x y : Nat, seed = ⟨x, y⟩ ∧ x < width img0.buffer ∧ y < height img0.buffer
  · obtain ⟨x, y, rfl, hx, hy⟩ := hin
    have ex : asUsize (x : Int) = x := asUsize_nat x (by omega)
    have ey : asUsize (y : Int) = y := asUsize_nat y (by omega)
    have hx' : x < width img.buffer := by rw [hw']; exact hx
    have hy' : y < height img.buffer := by rw [hh']; exact hy
    have uniq : ∀ a b : Nat, (⟨x, y⟩ : Point) = ⟨a, b⟩ → a = x ∧ b = y := by
      intro a b e
      simp only [Point.mk.injEq, Int.natCast_inj] at e
      exact ⟨e.1.symm, e.2.symm⟩
    by_cases hb : IsBlack img0 (x, y)
    · obtain ⟨reg, img', g1, -, -, -, g5, -⟩ := get_region_ok hI hb
      have hne : view img.buffer x y ≠ 0 := fun e => ((hI.ok.painted.white (x, y) hx' hy').1 e) hb
      have hcol : PixelColor.White ≠ PixelColor.ofByte (view img.buffer x y) := fun e => hne ((ofByte_white _).1 e.symm)
      refine ⟨img', .query h hx hy g1, ?_⟩
      unfold align_step
      simp only [ex, ey, hx', hy', and_self, if_true, d1, d2, a1, a2, Run.ok_bind]
      unfold PreparedImage.get_pixel_at
      simp only [get_ok hI.ok.painted.valid hx' hy', Run.ok_bind, Run.pure_eq, g1]
      rw [if_pos hcol]
      unfold Answer at g5
      cases hc : claims (x, y) with
      | some c =>
        rw [hc] at g5
        refine ⟨?_, ?_, ?_⟩
        · rintro ⟨a, b, e, -, hcl, -⟩
          obtain ⟨rfl, rfl⟩ := uniq a b e
          rw [hc] at hcl; cases hcl
        · intro _
          rw [g5]
          cases c <;> rfl
        · intro hs
          exact absurd (.inr ⟨x, y, rfl, hb, by rw [hc]; simp⟩) hs
      | none =>
        rw [hc] at g5
        obtain ⟨color, src, rfl, -, -⟩ := g5
        have hdbl : chkU (n * 2) = .ok (n * 2) := chkU_ok (by omega)
        dsimp only
        rw [hdbl, Run.ok_bind]
        refine ⟨?_, ?_, ?_⟩
        · rintro ⟨a, b, e, -, -, hl, hu⟩
          obtain ⟨rfl, rfl⟩ := uniq a b e
          rw [if_pos ⟨hl, by omega⟩]
        · rintro ⟨a, b, e, -, hcl⟩
          obtain ⟨rfl, rfl⟩ := uniq a b e
          exact absurd hc hcl
        · intro hs
          rw [if_neg]
          rintro ⟨hl, hu⟩
          exact hs (.inl ⟨x, y, rfl, hb, hc, hl, by omega⟩)
    · have hz : view img.buffer x y = 0 := (hI.ok.painted.white (x, y) hx' hy').2 hb
      have hcol : ¬ (PixelColor.White ≠ PixelColor.ofByte (view img.buffer x y)) := by rw [hz]; decide
      refine ⟨img, h, ?_, ?_, ?_⟩
      · rintro ⟨a, b, e, hb', -⟩
        obtain ⟨rfl, rfl⟩ := uniq a b e
        exact absurd hb' hb
      · rintro ⟨a, b, e, hb', -⟩
        obtain ⟨rfl, rfl⟩ := uniq a b e
        exact absurd hb' hb
      · intro _
        unfold align_step
        simp only [ex, ey, hx', hy', and_self, if_true, d1, d2, a1, a2, Run.ok_bind]
        unfold PreparedImage.get_pixel_at
        simp only [get_ok hI.ok.painted.valid hx' hy', Run.ok_bind, Run.pure_eq]
        rw [if_neg hcol]
  · refine ⟨img, h, ?_, ?_, ?_⟩
    · rintro ⟨a, b, rfl, hb', -⟩
      exact absurd ⟨a, b, rfl, hb'.1, hb'.2.1⟩ hin
    · rintro ⟨a, b, rfl, hb', -⟩
      exact absurd ⟨a, b, rfl, hb'.1, hb'.2.1⟩ hin
    · intro _
      have hout : ¬ (asUsize seed.x < width img.buffer ∧ asUsize seed.y < height img.buffer) := by
        rintro ⟨l1, l2⟩
        rw [hw'] at l1
        rw [hh'] at l2
        have p1 : 0 ≤ seed.x := by
          by_contra hc
          have := asUsize_neg (by omega) (not_le.1 hc)
          omega
        have p2 : 0 ≤ seed.y := by
          by_contra hc
          have := asUsize_neg (by omega) (not_le.1 hc)
          omega
        obtain ⟨x, hx⟩ : ∃ x : Nat, seed.x = x := ⟨seed.x.toNat, by omega⟩
        obtain ⟨y, hy⟩ : ∃ y : Nat, seed.y = y := ⟨seed.y.toNat, by omega⟩
        rw [hx, asUsize_nat x (by omega)] at l1
        rw [hy, asUsize_nat y (by omega)] at l2
        exact hin ⟨x, y, by cases seed; simp_all, l1, l2⟩
      unfold align_step
      simp only [d1, d2, a1, a2, Run.ok_bind, Run.pure_eq]
      rw [if_neg hout]

/-! ### The loops -/

/-- The state of the search after the points of `pre`; `next` is the next point of the spiral. -/
def SearchState (img : PreparedImage S) (claims : Pos → Option Claim) (n : Nat) (pre : List Point) (next : Point)
    (seed : Point) (found : Option Point) : Prop :=
  ((∀ p ∈ pre, ¬ Stop img claims n p) ∧ seed = next ∧ found = none) ∨
  ∃ as p bs, pre = as ++ p :: bs ∧ (∀ a ∈ as, ¬ Stop img claims n a) ∧
    ((Suitable img claims n p ∧ found = some p) ∨ (InClaimed img claims p ∧ seed = p ∧ found = none))

theorem not_both {img : PreparedImage S} {claims : Pos → Option Claim} {n : Nat} {p : Point} (h : Suitable img claims n p)
    (h' : InClaimed img claims p) : False := by
  obtain ⟨x, y, rfl, -, hc, -⟩ := h
  obtain ⟨a, b, e, -, hc'⟩ := h'
  simp only [Point.mk.injEq, Int.natCast_inj] at e
  rw [← e.1, ← e.2] at hc'
  exact hc' hc

theorem inClaimed_range {img : PreparedImage S} {claims : Pos → Option Claim} {p : Point} (h : InClaimed img claims p) :
    0 ≤ p.x ∧ 0 ≤ p.y := by
  obtain ⟨x, y, rfl, -⟩ := h
  exact ⟨Int.natCast_nonneg _, Int.natCast_nonneg _⟩

theorem search_step {img0 img : PreparedImage S} {claims : Pos → Option Claim} (h0 : Fresh img0)
    (h : History img0 claims img) (hw : width img0.buffer ≤ 2 ^ 63) (hh : height img0.buffer ≤ 2 ^ 63) {n : Nat}
    (hn : n < 2 ^ 63) {pre : List Point} {next seed : Point} {found : Option Point} (j : Nat)
    (hs : SearchState img0 claims n pre next seed found)
    (hb : ∀ p ∈ pre ++ [next], -(2 ^ 31) < p.x ∧ p.x < 2 ^ 31 - 1 ∧ -(2 ^ 31) < p.y ∧ p.y < 2 ^ 31 - 1) :
    ∃ img' seed' found', align_step n (j % 4) (img, seed, found) = .ok (img', seed', found') ∧ History img0 claims img' ∧
      SearchState img0 claims n (pre ++ [next]) ⟨next.x + (direction j).x, next.y + (direction j).y⟩ seed' found' := by
  rcases hs with ⟨hp, rfl, rfl⟩ | ⟨as, p, bs, rfl, has, ⟨hp, rfl⟩ | ⟨hp, rfl, rfl⟩⟩
  · obtain ⟨b1, b2, b3, b4⟩ := hb seed (by simp)
    obtain ⟨img', k1, k2, k3, k4⟩ := align_step_ok h0 h hw hh hn j b1 b2 b3 b4
    by_cases hs1 : Suitable img0 claims n seed
    · exact ⟨img', seed, some seed, k2 hs1, k1, .inr ⟨pre, seed, [], rfl, hp, .inl ⟨hs1, rfl⟩⟩⟩
    by_cases hs2 : InClaimed img0 claims seed
    · exact ⟨img', seed, none, k3 hs2, k1, .inr ⟨pre, seed, [], rfl, hp, .inr ⟨hs2, rfl, rfl⟩⟩⟩
    · have hst : ¬ Stop img0 claims n seed := fun e => e.elim hs1 hs2
      refine ⟨img', _, none, k4 hst, k1, .inl ⟨?_, rfl, rfl⟩⟩
      intro q hq
      rcases List.mem_append.1 hq with hq | hq
      · exact hp q hq
      · rw [List.mem_singleton] at hq; subst hq; exact hst
  · exact ⟨img, seed, some p, rfl, h, .inr ⟨as, p, bs ++ [next], by simp, has, .inl ⟨hp, rfl⟩⟩⟩
  · obtain ⟨b1, b2, b3, b4⟩ := hb seed (by simp)
    obtain ⟨img', k1, -, k3, -⟩ := align_step_ok h0 h hw hh hn j b1 b2 b3 b4
    exact ⟨img', seed, none, k3 hp, k1, .inr ⟨as, seed, bs ++ [next], by simp, has, .inr ⟨hp, rfl, rfl⟩⟩⟩

theorem sqrt_spec {n s : Nat} (hs : 1 ≤ s) : s * s < n * 100 ↔ s ≤ Nat.sqrt (100 * n - 1) := by
  rw [Nat.le_sqrt]
  have : 1 ≤ s * s := Nat.mul_pos hs hs
  omega

/-- The whole search. -/
theorem align_spiral_ok {img0 img : PreparedImage S} {claims : Pos → Option Claim} (h0 : Fresh img0)
    (h : History img0 claims img) (hw : width img0.buffer ≤ 2 ^ 63) (hh : height img0.buffer ≤ 2 ^ 63) {n : Nat}
    (hn : n < 2 ^ 63) {seed : Point} (b1 : seed.x.natAbs + Nat.sqrt (100 * n - 1) + 1 < 2 ^ 31)
    (b2 : seed.y.natAbs + Nat.sqrt (100 * n - 1) + 1 < 2 ^ 31) :
    ∃ img' found, align_spiral img seed n = .ok (img', found) ∧ History img0 claims img' ∧
      ((found = none ∧ ∀ p ∈ spiral seed (searchedSides n), ¬ Stop img0 claims n p) ∨
        ∃ as p bs, spiral seed (searchedSides n) = as ++ p :: bs ∧ (∀ a ∈ as, ¬ Stop img0 claims n a) ∧
          ((Suitable img0 claims n p ∧ found = some p) ∨ (InClaimed img0 claims p ∧ found = none))) := by
  generalize hq : Nat.sqrt (100 * n - 1) = q at b1 b2
  -- all points are in range
  have range : ∀ j k, sideLength j ≤ q → k ≤ sideLength j → -(2 ^ 31) < (spiralPoint seed j k).x ∧
      (spiralPoint seed j k).x < 2 ^ 31 - 1 ∧ -(2 ^ 31) < (spiralPoint seed j k).y ∧ (spiralPoint seed j k).y < 2 ^ 31 - 1 := by
    intro j k hj hk
    obtain ⟨c1, c2⟩ := spiral_close j k hk
    unfold spiralPoint
    dsimp only
    omega
  have range' : ∀ j, j ≤ 2 * q → ∀ p ∈ spiral seed j, -(2 ^ 31) < p.x ∧ p.x < 2 ^ 31 - 1 ∧ -(2 ^ 31) < p.y ∧ p.y < 2 ^ 31 - 1 := by
    intro j hj p hp
    unfold spiral at hp
    rw [List.mem_flatMap] at hp
    obtain ⟨i, hi, hp⟩ := hp
    rw [List.mem_map] at hp
    obtain ⟨k, hk, rfl⟩ := hp
    rw [List.mem_range] at hi hk
    exact range i k (by unfold sideLength; omega) (by omega)
  obtain ⟨⟨img', seed', found, dir, step⟩, e, ⟨j, i1, i2, i3, i4, i5⟩, hc⟩ := whileFuel_ok
    (cond := fun st : PreparedImage S × Point × Option Point × Nat × Nat =>
      st.2.2.1.isNone && decide (st.2.2.2.2 * st.2.2.2.2 < n * 100))
    (body := fun st => do
      let (img, align_seed, found, dir, step_size) := st
      let (img, align_seed, found) ← forRange 0 step_size (img, align_seed, found) fun _ st => align_step n dir st
      let dir := (dir + 1) % 4
      let step_size := if dir &&& 1 = 0 then step_size + 1 else step_size
      pure (img, align_seed, found, dir, step_size))
    (fun st => ∃ j, j ≤ 2 * q ∧ st.2.2.2.1 = j % 4 ∧ st.2.2.2.2 = sideLength j ∧ History img0 claims st.1 ∧
      SearchState img0 claims n (spiral seed j) (spiralPoint seed j 0) st.2.1 st.2.2.1)
    (fun st => 2 * (n * 100 + 1 - st.2.2.2.2) + (if st.2.2.2.1 % 2 = 0 then 1 else 0)) (by
      rintro ⟨img, seed', found, dir, step⟩ ⟨j, i1, i2, i3, i4, i5⟩ hc
      dsimp only at i1 i2 i3 i4 i5 hc
      subst i2 i3
      rw [Bool.and_eq_true, decide_eq_true_eq, sqrt_spec (by unfold sideLength; omega), hq] at hc
      obtain ⟨hf, hle⟩ := hc
      have hlt : sideLength j < n * 100 + 1 := by
        have := (sqrt_spec (n := n) (s := sideLength j) (by unfold sideLength; omega)).2 (by rw [hq]; exact hle)
        nlinarith
      obtain ⟨⟨img1, seed1, found1⟩, e1, i6, i7⟩ := forRange_ok (s := (img, seed', found))
        (f := fun _ st => align_step n (j % 4) st)
        (fun k st => History img0 claims st.1 ∧ SearchState img0 claims n (spiral seed j ++ (List.range k).map fun k =>
          spiralPoint seed j k) (spiralPoint seed j k) st.2.1 st.2.2) (Nat.zero_le (sideLength j)) ⟨i4, by simpa using i5⟩ (by
          rintro k ⟨img2, seed2, found2⟩ _ hk ⟨k1, k2⟩
          dsimp only at k1 k2
          obtain ⟨img3, seed3, found3, e3, k3, k4⟩ := search_step h0 k1 hw hh hn j k2 (by
            intro p hp
            rw [List.append_assoc] at hp
            rcases List.mem_append.1 hp with hp | hp
            · exact range' j i1 p hp
            · rcases List.mem_append.1 hp with hp | hp
              · rw [List.mem_map] at hp
                obtain ⟨k', hk', rfl⟩ := hp
                rw [List.mem_range] at hk'
                exact range j k' hle (by omega)
              · rw [List.mem_singleton] at hp
                subst hp
                exact range j k hle (by omega))
          refine ⟨(img3, seed3, found3), e3, k3, ?_⟩
          have en : (⟨(spiralPoint seed j k).x + (direction j).x, (spiralPoint seed j k).y + (direction j).y⟩ : Point) =
              spiralPoint seed j (k + 1) := by
            unfold spiralPoint
            simp only [Point.mk.injEq]
            push_cast
            constructor <;> ring
          rw [en] at k4
          rw [List.range_succ, List.map_append, ← List.append_assoc]
          exact k4)
      dsimp only at i6 i7 ⊢
      rw [e1, Run.ok_bind]
      refine ⟨_, rfl, ⟨j + 1, ?_, ?_, ?_, i6, ?_⟩, ?_⟩
      · unfold sideLength at hle; omega
      · dsimp only; omega
      · dsimp only
        unfold sideLength
        have : (j % 4 + 1) % 4 &&& 1 = (j % 4 + 1) % 4 % 2 := Nat.and_one_is_mod _
        rw [this]
        split <;> omega
      · dsimp only
        rw [spiral_succ, ← spiralPoint_end]
        exact i7
      · dsimp only
        have : (j % 4 + 1) % 4 &&& 1 = (j % 4 + 1) % 4 % 2 := Nat.and_one_is_mod _
        rw [this]
        split <;> split <;> omega)
    (2 * (n * 100) + 4) (img, seed, none, 0, 1)
    ⟨0, Nat.zero_le _, rfl, rfl, h, .inl ⟨by simp [spiral], by simp [spiralPoint, corner], rfl⟩⟩ (by dsimp only; split <;> omega)
  dsimp only at i1 i2 i3 i4 i5 hc
  refine ⟨img', found, ?_, i4, ?_⟩
  · unfold align_spiral
    refine Eq.trans (congrArg (fun m : Run (PreparedImage S × Point × Option Point × Nat × Nat) => do
      let (img, _, found, _, _) ← m
      pure (img, found)) e) rfl
  · have hs : searchedSides n = 2 * q := by unfold searchedSides; rw [hq]
    rw [hs]
    obtain ⟨l, hl⟩ := spiral_prefix seed i1
    rcases i5 with ⟨k1, -, k2⟩ | ⟨as, p, bs, k1, k2, k3⟩
    · refine .inl ⟨k2, ?_⟩
      subst k2
      have hj : j = 2 * q := by
        rw [show ((none : Option Point).isNone) = true from rfl, Bool.true_and, decide_eq_false_iff_not, i3,
          sqrt_spec (by unfold sideLength; omega), hq] at hc
        unfold sideLength at hc
        omega
      rwa [hj] at k1
    · refine .inr ⟨as, p, bs ++ l, by rw [hl, k1]; simp, k2, ?_⟩
      rcases k3 with k3 | ⟨k3, -, k4⟩
      · exact .inl k3
      · exact .inr ⟨k3, k4⟩

end Rqrr
