import Verif.Proofs.Bresenham
import Verif.Proofs.Perspective
import Verif.Proofs.Intersect

/-!
# Properties of the geometric primitives
-/

namespace Rqrr

open Spec

/-! ## C43: line scans -/

/-- A point whose coordinates are far from the `i32` limits. -/
def Moderate (p : Point) : Prop := -(2 ^ 29) ≤ p.x ∧ p.x < 2 ^ 29 ∧ -(2 ^ 29) ≤ p.y ∧ p.y < 2 ^ 29

instance (p : Point) : Decidable (Moderate p) := by unfold Moderate; infer_instance

private theorem max_natAbs {a b ds ns : Int} {n d : Nat} (hds : ds = 1 ∨ ds = -1) (hns : ns = 1 ∨ ns = -1) (hnd : n ≤ d)
    (ha : a = ds * d) (hb : b = ns * n) : max a.natAbs b.natAbs = d := by
  rcases hds with rfl | rfl <;> rcases hns with rfl | rfl <;> omega

/-- **C43.** The scan from `p` to `q` succeeds. It starts at `p`, ends at `q`, has `max |dx| |dy| + 1` points, moves by at
most one in each coordinate and by exactly one in at least one of them, and point number `k` is less than one pixel, in each
coordinate, away from the point at the fraction `k / max |dx| |dy|` of the straight segment. -/
theorem C43_line_scan (p q : Point) (hp : Moderate p) (hq : Moderate q) :
    ∃ l : List Point, BresenhamScan.points p q = .ok l ∧
      l.length = max (q.x - p.x).natAbs (q.y - p.y).natAbs + 1 ∧
      l[0]? = some p ∧ l.getLast? = some q ∧
      (∀ (k : Nat) (a b : Point), l[k]? = some a → l[k + 1]? = some b → max (b.x - a.x).natAbs (b.y - a.y).natAbs = 1) ∧
      (∀ (k : Nat) (a : Point), l[k]? = some a → p ≠ q →
        ((max (q.x - p.x).natAbs (q.y - p.y).natAbs : Nat) * (a.x - p.x) - k * (q.x - p.x)).natAbs <
            max (q.x - p.x).natAbs (q.y - p.y).natAbs ∧
        ((max (q.x - p.x).natAbs (q.y - p.y).natAbs : Nat) * (a.y - p.y) - k * (q.y - p.y)).natAbs <
            max (q.x - p.x).natAbs (q.y - p.y).natAbs) := by
  obtain ⟨dom0, non0, ds, ns, n, d, x_dom, hds, hns, hnd, h1, h2, hpts⟩ :=
    scan_points ⟨hp.1, hp.2.1⟩ ⟨hp.2.2.1, hp.2.2.2⟩ ⟨hq.1, hq.2.1⟩ ⟨hq.2.2.1, hq.2.2.2⟩
  have hmax : max (q.x - p.x).natAbs (q.y - p.y).natAbs = d := by
    cases x_dom
    · obtain ⟨-, -, e1, e2⟩ := h2 rfl
      rw [Nat.max_comm]; exact max_natAbs hds hns hnd e1 e2
    · obtain ⟨-, -, e1, e2⟩ := h1 rfl
      exact max_natAbs hds hns hnd e1 e2
  have hget : ∀ k a, ((List.range (d + 1)).map (Bresenham.point dom0 non0 ds ns n d x_dom))[k]? = some a →
      k ≤ d ∧ a = Bresenham.point dom0 non0 ds ns n d x_dom k := by
    intro k a hk
    have hlt : k < d + 1 := by
      have := (List.getElem?_eq_some_iff.1 hk).1
      simpa using this
    rw [List.getElem?_map, List.getElem?_range hlt] at hk
    exact ⟨by omega, (Option.some.inj hk).symm⟩
  refine ⟨_, hpts, ?_, ?_, ?_, ?_, ?_⟩
  · rw [List.length_map, List.length_range, hmax]
  · rw [List.getElem?_map, List.getElem?_range (by omega)]
    show some _ = some _
    congr 1
    unfold Bresenham.point
    rw [Bresenham.offset_zero hnd]
    obtain ⟨px, py⟩ := p
    cases x_dom
    · obtain ⟨e1, e2, -, -⟩ := h2 rfl
      simp only [e1, e2]; simp
    · obtain ⟨e1, e2, -, -⟩ := h1 rfl
      simp only [e1, e2]; simp
  · rw [List.getLast?_eq_getElem?, List.length_map, List.length_range, List.getElem?_map, List.getElem?_range (by omega)]
    show some _ = some _
    congr 1
    unfold Bresenham.point
    rw [Nat.add_sub_cancel, Bresenham.offset_end hnd]
    obtain ⟨qx, qy⟩ := q
    cases x_dom
    · obtain ⟨e1, e2, e3, e4⟩ := h2 rfl
      dsimp only at e3 e4
      simp only [e1, e2, ← e3, ← e4]; simp
    · obtain ⟨e1, e2, e3, e4⟩ := h1 rfl
      dsimp only at e3 e4
      simp only [e1, e2, ← e3, ← e4]; simp
  · intro k a b ha hb
    obtain ⟨-, rfl⟩ := hget k a ha
    obtain ⟨-, rfl⟩ := hget (k + 1) b hb
    have e := (Bresenham.offset_succ hnd k).1
    have h01 : (if Bresenham.acc n d k + n ≥ d then 1 else 0) = 0 ∨ (if Bresenham.acc n d k + n ≥ d then 1 else 0) = 1 := by
      split <;> simp
    have m1 : ds * ((k + 1 : Nat) : Int) = ds * k + ds := by push_cast; ring
    have m2 : ∀ o o' : Nat, o' = o ∨ o' = o + 1 → ns * (o' : Int) = ns * o ∨ ns * (o' : Int) = ns * o + ns := by
      rintro o o' (rfl | rfl)
      · exact .inl rfl
      · right; push_cast; ring
    have m3 := m2 (Bresenham.offset n d k) (Bresenham.offset n d (k + 1)) (by omega)
    unfold Bresenham.point
    cases x_dom
    · simp only [Bool.false_eq_true, if_false]
      rcases hds with rfl | rfl <;> rcases hns with rfl | rfl <;> omega
    · simp only [if_true]
      rcases hds with rfl | rfl <;> rcases hns with rfl | rfl <;> omega
  · intro k a ha hne
    obtain ⟨hk, rfl⟩ := hget k a ha
    rw [hmax]
    have hd : 0 < d := by
      rcases Nat.eq_zero_or_pos d with rfl | h
      · exfalso
        apply hne
        obtain ⟨px, py⟩ := p
        obtain ⟨qx, qy⟩ := q
        dsimp only at hmax
        simp only [Point.mk.injEq]
        omega
      · exact h
    obtain ⟨b1, b2⟩ := Bresenham.offset_near hnd hd k
    have z : ∀ v : Int, v = ds * d → ((d : Int) * (ds * k) - k * v).natAbs < d := by
      rintro v rfl
      rw [show (d : Int) * (ds * k) - k * (ds * d) = 0 by ring]
      simpa using hd
    have z' : ∀ v : Int, v = ns * n → ((d : Int) * (ns * Bresenham.offset n d k) - k * v).natAbs < d := by
      rintro v rfl
      rw [show (d : Int) * (ns * Bresenham.offset n d k) - k * (ns * n) = ns * (d * Bresenham.offset n d k - n * k) by ring,
        Int.natAbs_mul]
      rcases hns with rfl | rfl <;> simp only [Int.natAbs_one, Int.natAbs_neg, one_mul] <;> omega
    unfold Bresenham.point
    cases x_dom
    · obtain ⟨e1, e2, e3, e4⟩ := h2 rfl
      simp only [Bool.false_eq_true, if_false, e1, e2, add_sub_cancel_left]
      exact ⟨z' _ e4, z _ e3⟩
    · obtain ⟨e1, e2, e3, e4⟩ := h1 rfl
      simp only [if_true, e1, e2, add_sub_cancel_left]
      exact ⟨z _ e3, z' _ e4⟩

-- A steep and a flat scan, and a single point.
example : BresenhamScan.points ⟨1, 2⟩ ⟨3, -3⟩ = .ok [⟨1, 2⟩, ⟨1, 1⟩, ⟨2, 0⟩, ⟨2, -1⟩, ⟨3, -2⟩, ⟨3, -3⟩] := by decide +kernel
example : Moderate ⟨1, 2⟩ ∧ Moderate ⟨3, -3⟩ := by decide
example : BresenhamScan.points ⟨7, 7⟩ ⟨7, 7⟩ = .ok [⟨7, 7⟩] := by decide +kernel

/-! ## C44: intersection of lines -/

/-- A point of the square `0 .. 1290`. -/
def Small (p : Point) : Prop := 0 ≤ p.x ∧ p.x ≤ 1290 ∧ 0 ≤ p.y ∧ p.y ≤ 1290

/-- **C44.** For points with coordinates in `0 .. 1290` nothing overflows; the result is `none` exactly for parallel lines,
and otherwise the two lines have exactly one common point, whose coordinates, truncated, are the result. -/
theorem C44_intersection (p0 p1 q0 q1 : Point) (h0 : Small p0) (h1 : Small p1) (h2 : Small q0) (h3 : Small q1) :
    (Parallel p0 p1 q0 q1 ∧ line_intersect p0 p1 q0 q1 = .ok none) ∨
    (¬ Parallel p0 p1 q0 q1 ∧ ∃ X Y : ℚ, line_intersect p0 p1 q0 q1 = .ok (some { x := truncate X, y := truncate Y }) ∧
      ∀ X' Y' : ℚ, OnLine p0 p1 X' Y' ∧ OnLine q0 q1 X' Y' ↔ X' = X ∧ Y' = Y) := by
  have e := line_intersect_eq (M := 1290) (Int.le_refl _) (p0 := p0) (p1 := p1) (q0 := q0) (q1 := q1) (by
    intro p hp
    simp only [List.mem_cons, List.not_mem_nil, or_false] at hp
    rcases hp with rfl | rfl | rfl | rfl
    · exact h0
    · exact h1
    · exact h2
    · exact h3)
  by_cases hdet : (p1.x - p0.x) * (q1.y - q0.y) - (p1.y - p0.y) * (q1.x - q0.x) = 0
  · left
    refine ⟨by unfold Parallel; omega, ?_⟩
    rw [e, if_pos hdet]
  · right
    refine ⟨by unfold Parallel; omega, ?_⟩
    rw [if_neg hdet] at e
    have hdetq : ((p1.x - p0.x) * (q1.y - q0.y) - (p1.y - p0.y) * (q1.x - q0.x) : ℚ) ≠ 0 := by exact_mod_cast hdet
    refine ⟨((q1.x - q0.x) * (p1.x * p0.y - p0.x * p1.y) - (p1.x - p0.x) * (q1.x * q0.y - q0.x * q1.y) : ℚ) /
        ((p1.x - p0.x) * (q1.y - q0.y) - (p1.y - p0.y) * (q1.x - q0.x) : ℚ),
      ((q1.y - q0.y) * (p1.x * p0.y - p0.x * p1.y) - (p1.y - p0.y) * (q1.x * q0.y - q0.x * q1.y) : ℚ) /
        ((p1.x - p0.x) * (q1.y - q0.y) - (p1.y - p0.y) * (q1.x - q0.x) : ℚ), ?_, ?_⟩
    · rw [e, tdiv_truncate hdet (X := _) ?_, tdiv_truncate hdet (X := _) ?_]
      · push_cast
        rw [mul_div_cancel₀ _ hdetq]
      · push_cast
        rw [mul_div_cancel₀ _ hdetq]
    · intro X' Y'
      unfold OnLine
      rw [eq_div_iff hdetq, eq_div_iff hdetq]
      constructor
      · rintro ⟨a, b⟩
        constructor
        · linear_combination (q1.x - q0.x : ℚ) * a - (p1.x - p0.x : ℚ) * b
        · linear_combination (q1.y - q0.y : ℚ) * a - (p1.y - p0.y : ℚ) * b
      · rintro ⟨a, b⟩
        constructor
        · apply mul_right_cancel₀ hdetq
          linear_combination (p1.x - p0.x : ℚ) * b - (p1.y - p0.y : ℚ) * a
        · apply mul_right_cancel₀ hdetq
          linear_combination (q1.x - q0.x : ℚ) * b - (q1.y - q0.y : ℚ) * a

-- The diagonals of a rectangle, parallel lines, and truncation.
example : line_intersect ⟨0, 0⟩ ⟨10, 4⟩ ⟨0, 4⟩ ⟨10, 0⟩ = .ok (some ⟨5, 2⟩) := by decide
example : line_intersect ⟨0, 0⟩ ⟨10, 4⟩ ⟨5, 1⟩ ⟨15, 5⟩ = .ok none := by decide
example : line_intersect ⟨0, 0⟩ ⟨10, 5⟩ ⟨3, 0⟩ ⟨3, 9⟩ = .ok (some ⟨3, 1⟩) := by decide

/-- **C44.** The bound is sharp: with coordinates up to 1291 the computation can overflow, which panics or wraps. -/
theorem C44_overflow : ∃ p0 p1 q0 q1 : Point, (∀ p ∈ [p0, p1, q0, q1], 0 ≤ p.x ∧ p.x ≤ 1291 ∧ 0 ≤ p.y ∧ p.y ≤ 1291) ∧
    ¬ Parallel p0 p1 q0 q1 ∧ line_intersect p0 p1 q0 q1 = .error .panic :=
  ⟨⟨1291, 0⟩, ⟨0, 1291⟩, ⟨0, 0⟩, ⟨1291, 0⟩, by decide, by unfold Parallel; decide, by decide⟩

/-! ## C45: perspective transforms, in exact arithmetic -/

/-- **C45.** For a rectangle with sides at least 1, `create` succeeds iff the corners 1, 2, 3 turn in the positive direction. -/
theorem C45_create (r : Vector Point 4) (w h : ℚ) (hw : 1 ≤ w) (hh : 1 ≤ h) :
    Perspective.create r w h = none ↔ area2 r[1] r[2] r[3] ≤ 0 := by
  rw [Exact.create_none_iff]
  have he : (FloatOps.epsilon : ℚ) < 1 := by show (1 : ℚ) / 2 ^ 52 < 1; norm_num
  have he' := Exact.eps_pos
  generalize (FloatOps.epsilon : ℚ) = ε at *
  constructor
  · intro h'
    by_contra hc
    have h1 : (1 : ℚ) ≤ area2 r[1] r[2] r[3] := by exact_mod_cast (by omega : 1 ≤ area2 r[1] r[2] r[3])
    rcases h' with h' | h' <;> nlinarith
  · intro h'
    have h1 : (area2 r[1] r[2] r[3] : ℚ) ≤ 0 := by exact_mod_cast h'
    left; nlinarith

/-- **C45.** The transform takes the corners of the rectangle to the four given points. -/
theorem C45_corners (r : Vector Point 4) (w h : ℚ) (c : Perspective ℚ) (hg : GeneralPosition r)
    (hc : Perspective.create r w h = some c) :
    c.mapF 0 0 = ((r[0].x : ℚ), (r[0].y : ℚ)) ∧ c.mapF w 0 = ((r[1].x : ℚ), (r[1].y : ℚ)) ∧
      c.mapF w h = ((r[2].x : ℚ), (r[2].y : ℚ)) ∧ c.mapF 0 h = ((r[3].x : ℚ), (r[3].y : ℚ)) :=
  Exact.map_corners (Exact.create_some hc).1 hg

/-- **C45.** `map` rounds to pixels: the corners are hit exactly. -/
theorem C45_corner_pixels (r : Vector Point 4) (w h : ℚ) (c : Perspective ℚ) (hg : GeneralPosition r)
    (hr : ∀ i (h : i < 4), -(2 ^ 31) ≤ r[i].x ∧ r[i].x < 2 ^ 31 ∧ -(2 ^ 31) ≤ r[i].y ∧ r[i].y < 2 ^ 31)
    (hc : Perspective.create r w h = some c) :
    c.map 0 0 = .ok r[0] ∧ c.map w 0 = .ok r[1] ∧ c.map w h = .ok r[2] ∧ c.map 0 h = .ok r[3] := by
  obtain ⟨h0, h1, h2, h3⟩ := C45_corners r w h c hg hc
  have key : ∀ (u v : ℚ) (i : Nat) (hi : i < 4), c.mapF u v = ((r[i].x : ℚ), (r[i].y : ℚ)) → c.map u v = .ok r[i] := by
    intro u v i hi e
    obtain ⟨b1, b2, b3, b4⟩ := hr i hi
    rw [Exact.map_ok, e]
    · simp only [Exact.nearest_int]
    all_goals rw [e]; simp only [Exact.nearest_int]; assumption
  exact ⟨key _ _ 0 _ h0, key _ _ 1 _ h1, key _ _ 2 _ h2, key _ _ 3 _ h3⟩

/-- **C45.** `unmap` undoes `map` away from the horizon. -/
theorem C45_unmap_map (r : Vector Point 4) (w h : ℚ) (c : Perspective ℚ) (hg : GeneralPosition r)
    (hc : Perspective.create r w h = some c) (u v : ℚ) (hu : c[6] * u + c[7] * v + (1 : ℚ) ≠ (0 : ℚ)) :
    c.unmapF (c.mapF u v).1 (c.mapF u v).2 = (u, v) :=
  Exact.unmap_map c hu ((Exact.create_some hc).1.det_ne hg)

/-- **C45.** `map` undoes `unmap`: off the image of the line at infinity, and there the divisor of `unmap` vanishes. -/
theorem C45_map_unmap (r : Vector Point 4) (w h : ℚ) (c : Perspective ℚ) (hg : GeneralPosition r)
    (hc : Perspective.create r w h = some c) (x y : ℚ)
    (hx : -c[0] * c[7] * y + c[1] * c[6] * y + (c[3] * c[7] - c[4] * c[6]) * x + c[0] * c[4] - c[1] * c[3] ≠ 0) :
    c.mapF (c.unmapF x y).1 (c.unmapF x y).2 = (x, y) :=
  Exact.map_unmap c hx ((Exact.create_some hc).1.det_ne hg)

/-- The point of the rectangle at the fractions `s` and `t` of its sides. -/
private theorem weights_nonneg {r : Vector Point 4} (hv : Convex r) {s t : ℚ} (hs : 0 ≤ s) (hs' : s ≤ 1) (ht : 0 ≤ t)
    (ht' : t ≤ 1) : 0 ≤ (Exact.weight r s t)[0] ∧ 0 ≤ (Exact.weight r s t)[1] ∧ 0 ≤ (Exact.weight r s t)[2] ∧
      0 ≤ (Exact.weight r s t)[3] ∧
      0 < (Exact.weight r s t)[0] + (Exact.weight r s t)[1] + (Exact.weight r s t)[2] + (Exact.weight r s t)[3] := by
  obtain ⟨h1, h2, h3, h4⟩ := hv
  have a1 : (0 : ℚ) < area2 r[0] r[1] r[2] := by exact_mod_cast h1
  have a2 : (0 : ℚ) < area2 r[0] r[1] r[3] := by exact_mod_cast h2
  have a3 : (0 : ℚ) < area2 r[0] r[2] r[3] := by exact_mod_cast h3
  have a4 : (0 : ℚ) < area2 r[1] r[2] r[3] := by exact_mod_cast h4
  show (0 : ℚ) ≤ ((1 : ℚ) - s) * ((1 : ℚ) - t) * area2 r[1] r[2] r[3] ∧ (0 : ℚ) ≤ s * ((1 : ℚ) - t) * area2 r[0] r[2] r[3] ∧
    (0 : ℚ) ≤ s * t * area2 r[0] r[1] r[3] ∧ (0 : ℚ) ≤ ((1 : ℚ) - s) * t * area2 r[0] r[1] r[2] ∧
    (0 : ℚ) < ((1 : ℚ) - s) * ((1 : ℚ) - t) * area2 r[1] r[2] r[3] + s * ((1 : ℚ) - t) * area2 r[0] r[2] r[3] +
      s * t * area2 r[0] r[1] r[3] + ((1 : ℚ) - s) * t * area2 r[0] r[1] r[2]
  generalize (area2 r[0] r[1] r[2] : ℚ) = A1 at *
  generalize (area2 r[0] r[1] r[3] : ℚ) = A2 at *
  generalize (area2 r[0] r[2] r[3] : ℚ) = A3 at *
  generalize (area2 r[1] r[2] r[3] : ℚ) = A4 at *
  have s1 : 0 ≤ 1 - s := by linarith
  have t1 : 0 ≤ 1 - t := by linarith
  have p1 := mul_nonneg (mul_nonneg s1 t1) a4.le
  have p2 := mul_nonneg (mul_nonneg hs t1) a3.le
  have p3 := mul_nonneg (mul_nonneg hs ht) a2.le
  have p4 := mul_nonneg (mul_nonneg s1 ht) a1.le
  refine ⟨p1, p2, p3, p4, ?_⟩
  rcases eq_or_lt_of_le hs with rfl | hs0
  · rcases eq_or_lt_of_le ht with rfl | ht0
    · nlinarith
    · have : 0 < (1 - 0) * t * A1 := mul_pos (mul_pos (by norm_num) ht0) a1
      linarith
  · rcases eq_or_lt_of_le ht' with rfl | ht0
    · have : 0 < s * 1 * A2 := mul_pos (mul_pos hs0 (by norm_num)) a2
      linarith
    · have : 0 < s * (1 - t) * A3 := mul_pos (mul_pos hs0 (by linarith)) a3
      linarith

/-- **C45.** For a convex quadrilateral, the rectangle is mapped into it: no point of the rectangle is on the horizon and
every image is a mean, with weights that are not negative, of the four corners. -/
theorem C45_inside (r : Vector Point 4) (w h : ℚ) (hw : 0 < w) (hh : 0 < h) (c : Perspective ℚ) (hv : Convex r)
    (hc : Perspective.create r w h = some c) (u v : ℚ) (hu : 0 ≤ u ∧ u ≤ w) (hv' : 0 ≤ v ∧ v ≤ h) :
    (0 : ℚ) < c[6] * u + c[7] * v + (1 : ℚ) ∧
    ∃ k0 k1 k2 k3 : ℚ, 0 ≤ k0 ∧ 0 ≤ k1 ∧ 0 ≤ k2 ∧ 0 ≤ k3 ∧ k0 + k1 + k2 + k3 = 1 ∧
      c.mapF u v = (k0 * r[0].x + k1 * r[1].x + k2 * r[2].x + k3 * r[3].x,
        k0 * r[0].y + k1 * r[1].y + k2 * r[2].y + k3 * r[3].y) := by
  obtain ⟨hb, -⟩ := Exact.create_some hc
  have eu : u = u / w * w := by rw [div_mul_cancel₀ _ hw.ne']
  have ev : v = v / h * h := by rw [div_mul_cancel₀ _ hh.ne']
  obtain ⟨p0, p1, p2, p3, pt⟩ := weights_nonneg (r := r) hv (s := u / w) (t := v / h) (div_nonneg hu.1 hw.le)
    ((div_le_one hw).2 hu.2) (div_nonneg hv'.1 hh.le) ((div_le_one hh).2 hv'.2)
  have hd := hb.den_eq (u / w) (v / h)
  have hm := hb.map_eq (u / w) (v / h)
  rw [← eu, ← ev] at hd hm
  have hA : (0 : ℚ) < area2 r[1] r[2] r[3] := by exact_mod_cast hv.2.2.2
  constructor
  · show 0 < Exact.den c u v
    rw [← hd] at pt
    exact pos_of_mul_pos_left pt hA.le
  · generalize (Exact.weight r (u / w) (v / h))[0] = W0 at *
    generalize (Exact.weight r (u / w) (v / h))[1] = W1 at *
    generalize (Exact.weight r (u / w) (v / h))[2] = W2 at *
    generalize (Exact.weight r (u / w) (v / h))[3] = W3 at *
    refine ⟨W0 / (W0 + W1 + W2 + W3), W1 / (W0 + W1 + W2 + W3), W2 / (W0 + W1 + W2 + W3), W3 / (W0 + W1 + W2 + W3),
      div_nonneg p0 pt.le, div_nonneg p1 pt.le, div_nonneg p2 pt.le, div_nonneg p3 pt.le, ?_, ?_⟩
    · rw [← add_div, ← add_div, ← add_div, div_self pt.ne']
    · rw [hm]
      refine Prod.ext ?_ ?_ <;> (dsimp only; ring)

/-- **C45.** The centre of the rectangle goes to the intersection of the diagonals. -/
theorem C45_center (r : Vector Point 4) (w h : ℚ) (c : Perspective ℚ) (hg : area2 r[0] r[1] r[3] + area2 r[1] r[2] r[3] ≠ 0)
    (hc : Perspective.create r w h = some c) :
    OnLine r[0] r[2] (c.mapF (w / 2) (h / 2)).1 (c.mapF (w / 2) (h / 2)).2 ∧
      OnLine r[1] r[3] (c.mapF (w / 2) (h / 2)).1 (c.mapF (w / 2) (h / 2)).2 := by
  obtain ⟨hb, -⟩ := Exact.create_some hc
  have hm := hb.map_eq (1 / 2) (1 / 2)
  have hsum := hb.sum
  have hmx := hb.momentX
  have hmy := hb.momentY
  have hg' : (area2 r[0] r[1] r[3] : ℚ) + area2 r[1] r[2] r[3] ≠ 0 := by exact_mod_cast hg
  rw [show (1 / 2 : ℚ) * w = w / 2 by ring, show (1 / 2 : ℚ) * h = h / 2 by ring] at hm
  have w0 : (Exact.weight r (1 / 2) (1 / 2))[0] = (area2 r[1] r[2] r[3] : ℚ) / 4 := by
    show ((1 : ℚ) - 1 / 2) * ((1 : ℚ) - 1 / 2) * area2 r[1] r[2] r[3] = _; ring
  have w1 : (Exact.weight r (1 / 2) (1 / 2))[1] = (area2 r[0] r[2] r[3] : ℚ) / 4 := by
    show (1 / 2 : ℚ) * ((1 : ℚ) - 1 / 2) * area2 r[0] r[2] r[3] = _; ring
  have w2 : (Exact.weight r (1 / 2) (1 / 2))[2] = (area2 r[0] r[1] r[3] : ℚ) / 4 := by
    show (1 / 2 : ℚ) * (1 / 2) * area2 r[0] r[1] r[3] = _; ring
  have w3 : (Exact.weight r (1 / 2) (1 / 2))[3] = (area2 r[0] r[1] r[2] : ℚ) / 4 := by
    show ((1 : ℚ) - 1 / 2) * (1 / 2) * area2 r[0] r[1] r[2] = _; ring
  rw [w0, w1, w2, w3] at hm
  rw [hm]
  unfold OnLine
  dsimp only
  generalize (area2 r[0] r[1] r[2] : ℚ) = A3 at *
  generalize (area2 r[0] r[1] r[3] : ℚ) = A2 at *
  generalize (area2 r[0] r[2] r[3] : ℚ) = A1 at *
  generalize (area2 r[1] r[2] r[3] : ℚ) = A0 at *
  have hS : A0 / 4 + A1 / 4 + A2 / 4 + A3 / 4 = (A2 + A0) / 2 := by linear_combination hsum / 4
  rw [hS]
  have hS0 : (A2 + A0) / 2 ≠ 0 := by intro e; apply hg'; linarith
  have ex := div_mul_cancel₀ (A0 / 4 * r[0].x + A1 / 4 * r[1].x + A2 / 4 * r[2].x + A3 / 4 * r[3].x : ℚ) hS0
  have ey := div_mul_cancel₀ (A0 / 4 * r[0].y + A1 / 4 * r[1].y + A2 / 4 * r[2].y + A3 / 4 * r[3].y : ℚ) hS0
  generalize (A0 / 4 * r[0].x + A1 / 4 * r[1].x + A2 / 4 * r[2].x + A3 / 4 * r[3].x : ℚ) / ((A2 + A0) / 2) = X at *
  generalize (A0 / 4 * r[0].y + A1 / 4 * r[1].y + A2 / 4 * r[2].y + A3 / 4 * r[3].y : ℚ) / ((A2 + A0) / 2) = Y at *
  generalize (r[0].x : ℚ) = x0 at *
  generalize (r[0].y : ℚ) = y0 at *
  generalize (r[1].x : ℚ) = x1 at *
  generalize (r[1].y : ℚ) = y1 at *
  generalize (r[2].x : ℚ) = x2 at *
  generalize (r[2].y : ℚ) = y2 at *
  generalize (r[3].x : ℚ) = x3 at *
  generalize (r[3].y : ℚ) = y3 at *
  have fx : X * (A2 + A0) = x0 * A0 + x2 * A2 := by linear_combination 2 * ex + hmx / 2
  have fy : Y * (A2 + A0) = y0 * A0 + y2 * A2 := by linear_combination 2 * ey + hmy / 2
  have gx : X * (A2 + A0) = x1 * A1 + x3 * A3 := by linear_combination fx - hmx
  have gy : Y * (A2 + A0) = y1 * A1 + y3 * A3 := by linear_combination fy - hmy
  constructor
  · apply mul_right_cancel₀ hg'
    linear_combination (x2 - x0) * fy - (y2 - y0) * fx
  · apply mul_right_cancel₀ hg'
    linear_combination (x3 - x1) * gy - (y3 - y1) * gx + ((x3 - x1) * y1 - (y3 - y1) * x1) * hsum

-- A trapezium: it is convex and accepted.
def trapezium : Vector Point 4 := #v[⟨0, 0⟩, ⟨10, 2⟩, ⟨9, 8⟩, ⟨0, 12⟩]
example : Convex trapezium := by unfold Convex; decide
example : GeneralPosition trapezium := by unfold GeneralPosition; decide
example : ∃ c : Perspective ℚ, Perspective.create trapezium 7 7 = some c := by
  rw [← Option.ne_none_iff_exists', Ne, C45_create _ _ _ (by norm_num) (by norm_num)]
  decide

/-- **C45.** `create` checks only one of the four triangles: it accepts quadrilaterals with three corners on a line, for
which a corner of the rectangle lies on the horizon. -/
theorem C45_degenerate_accepted : ∃ (r : Vector Point 4) (c : Perspective ℚ),
    Perspective.create r 7 7 = some c ∧ c[6] * (7 : ℚ) + c[7] * (0 : ℚ) + (1 : ℚ) = 0 := by
  have h : Perspective.create (#v[⟨0, 0⟩, ⟨3, 0⟩, ⟨2, 2⟩, ⟨1, 1⟩] : Vector Point 4) (7 : ℚ) 7 ≠ none := by
    rw [Ne, C45_create _ _ _ (by norm_num) (by norm_num)]; decide
  obtain ⟨c, hc⟩ := Option.ne_none_iff_exists'.1 h
  refine ⟨_, c, hc, ?_⟩
  obtain ⟨hb, -⟩ := Exact.create_some hc
  have := hb.d1
  rw [show area2 (#v[⟨0, 0⟩, ⟨3, 0⟩, ⟨2, 2⟩, ⟨1, 1⟩] : Vector Point 4)[0] (#v[⟨0, 0⟩, ⟨3, 0⟩, ⟨2, 2⟩, ⟨1, 1⟩] : Vector Point 4)[2]
    (#v[⟨0, 0⟩, ⟨3, 0⟩, ⟨2, 2⟩, ⟨1, 1⟩] : Vector Point 4)[3] = 0 by decide, Int.cast_zero, mul_eq_zero] at this
  rcases this with h | h
  · linarith
  · exact absurd h hb.area

end Rqrr
