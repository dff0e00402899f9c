import Verif.Props.Pipeline
import Verif.Props.Identify

/-!
# C79: the bounds of a detected grid
-/

namespace Rqrr

open Spec ImageBuffer LawfulImage FloatOps

/-- The bounds are the images of the corners of a square of `n` modules. -/
structure BoundsOf {F : Type} [FloatOps F] (c : Perspective F) (n : F) (bounds : List Point) : Prop where
  corners : ∃ b0 b1 b2 b3, bounds = [b0, b1, b2, b3] ∧ c.map (lit 0 0) (lit 0 0) = .ok b0 ∧ c.map n (lit 0 0) = .ok b1 ∧
    c.map n n = .ok b2 ∧ c.map (lit 0 0) n = .ok b3

/-- **C79.** The bounds of every grid detected in any image are where the transform by which its modules are read takes the corners of a square
of one module more than the grid. -/
theorem C79_bounds {S : Type} [ImageBuffer S] {F : Type} [FloatOps F] {img0 img : PreparedImage S} {grids : List (DetectedGrid F)}
    (h : img0.detect_grids F = .ok (img, grids)) :
    ∀ g ∈ grids, BoundsOf g.location.c (ofInt (g.location.grid_size : Int) + lit 1 0) g.bounds := by
  unfold PreparedImage.detect_grids at h
  obtain ⟨⟨img1, stones⟩, -, h⟩ := Run.bind_eq_ok.1 h
  obtain ⟨groups, -, h⟩ := Run.bind_eq_ok.1 h
  obtain ⟨⟨img2, locations⟩, -, h⟩ := Run.bind_eq_ok.1 h
  obtain ⟨grids', hg, h⟩ := Run.bind_eq_ok.1 h
  cases h
  refine forList_inv (fun _ (gs : List (DetectedGrid F)) => ∀ g ∈ gs, BoundsOf g.location.c (ofInt (g.location.grid_size : Int) + lit 1 0) g.bounds)
    (done := []) (by simp) ?_ hg
  intro loc done gs gs' _ hgs hs g hm
  dsimp only at hs
  obtain ⟨b0, e0, hs⟩ := Run.bind_eq_ok.1 hs
  obtain ⟨b1, e1, hs⟩ := Run.bind_eq_ok.1 hs
  obtain ⟨b2, e2, hs⟩ := Run.bind_eq_ok.1 hs
  obtain ⟨b3, e3, hs⟩ := Run.bind_eq_ok.1 hs
  cases hs
  rcases List.mem_append.1 hm with hm | hm
  · exact hgs g hm
  · rw [List.mem_singleton.1 hm]
    exact ⟨b0, b1, b2, b3, rfl, e0, e1, e2, e3⟩

/-! ### In exact arithmetic -/

/-- A point in the smallest upright rectangle that contains these points. -/
def InBox (l : List Point) (p : Point) : Prop :=
  (∃ a ∈ l, a.x ≤ p.x) ∧ (∃ a ∈ l, p.x ≤ a.x) ∧ (∃ a ∈ l, a.y ≤ p.y) ∧ ∃ a ∈ l, p.y ≤ a.y

/-- The square of side `N` is entirely in front of the horizon. -/
structure Visible (c : Perspective ℚ) (N : ℚ) : Prop where
  right : 0 < c[6] * N + 1
  far : 0 < c[6] * N + c[7] * N + 1
  below : 0 < c[7] * N + 1

theorem map_exact {c : Perspective ℚ} {u v : ℚ} {p : Point} (h : c.map u v = .ok p) :
    p.x = nearest (c.mapF u v).1 ∧ p.y = nearest (c.mapF u v).2 ∧ (-(2 ^ 31) ≤ p.x ∧ p.x < 2 ^ 31) ∧ -(2 ^ 31) ≤ p.y ∧ p.y < 2 ^ 31 := by
  have as : ∀ {b : Bool} {r : Unit}, Run.assert b = .ok r → b = true := by
    intro b r hb
    cases b
    · cases hb
    · rfl
  have h' := h
  unfold Perspective.map at h'
  dsimp only at h'
  obtain ⟨_, a1, h'⟩ := Run.bind_eq_ok.1 h'
  obtain ⟨_, a2, h'⟩ := Run.bind_eq_ok.1 h'
  obtain ⟨_, a3, h'⟩ := Run.bind_eq_ok.1 h'
  obtain ⟨_, a4, h'⟩ := Run.bind_eq_ok.1 h'
  have b1 : ((nearest (c.mapF u v).1 : Int) : ℚ) ≤ ((2147483647 : Int) : ℚ) := of_decide_eq_true (as a1)
  have b2 : ((-2147483648 : Int) : ℚ) ≤ ((nearest (c.mapF u v).1 : Int) : ℚ) := of_decide_eq_true (as a2)
  have b3 : ((nearest (c.mapF u v).2 : Int) : ℚ) ≤ ((2147483647 : Int) : ℚ) := of_decide_eq_true (as a3)
  have b4 : ((-2147483648 : Int) : ℚ) ≤ ((nearest (c.mapF u v).2 : Int) : ℚ) := of_decide_eq_true (as a4)
  rw [Int.cast_le] at b1 b2 b3 b4
  rw [Exact.map_ok (by omega) (by omega) (by omega) (by omega)] at h
  cases h
  dsimp only
  exact ⟨rfl, rfl, ⟨by omega, by omega⟩, by omega, by omega⟩

theorem nearest_mono {x y : ℚ} (h : x ≤ y) : nearest x ≤ nearest y := by
  unfold nearest
  by_cases hx : 0 ≤ x
  · rw [if_pos hx, if_pos (hx.trans h)]
    exact Int.floor_le_floor (by linarith)
  · rw [if_neg hx]
    by_cases hy : 0 ≤ y
    · rw [if_pos hy]
      have h1 : ⌈x - 1 / 2⌉ ≤ 0 := by rw [Int.ceil_le]; push_cast; linarith [not_le.1 hx]
      have h2 : 0 ≤ ⌊y + 1 / 2⌋ := by rw [Int.le_floor]; push_cast; linarith
      omega
    · rw [if_neg hy]
      exact Int.ceil_le_ceil (by linarith)

/-- A quotient of affine functions on a square is at least as great as in one of the corners. -/
theorem quotient_ge {p q r d e N u v : ℚ} (hN : 0 < N) (hu : 0 ≤ u) (hu' : u ≤ N) (hv : 0 ≤ v) (hv' : v ≤ N)
    (h1 : 0 < d * N + 1) (h2 : 0 < d * N + e * N + 1) (h3 : 0 < e * N + 1) :
    0 < d * u + e * v + 1 ∧ (r / 1 ≤ (p * u + q * v + r) / (d * u + e * v + 1) ∨
      (p * N + r) / (d * N + 1) ≤ (p * u + q * v + r) / (d * u + e * v + 1) ∨
      (p * N + q * N + r) / (d * N + e * N + 1) ≤ (p * u + q * v + r) / (d * u + e * v + 1) ∨
      (q * N + r) / (e * N + 1) ≤ (p * u + q * v + r) / (d * u + e * v + 1)) := by
  have affine : ∀ a b k : ℚ, N * N * (a * u + b * v + k) =
      (N - u) * (N - v) * k + u * (N - v) * (a * N + k) + u * v * (a * N + b * N + k) + (N - u) * v * (b * N + k) := by intro a b k; ring
  have w0 : 0 ≤ (N - u) * (N - v) := mul_nonneg (by linarith) (by linarith)
  have w1 : 0 ≤ u * (N - v) := mul_nonneg hu (by linarith)
  have w2 : 0 ≤ u * v := mul_nonneg hu hv
  have w3 : 0 ≤ (N - u) * v := mul_nonneg (by linarith) hv
  have sum : (N - u) * (N - v) + u * (N - v) + u * v + (N - u) * v = N * N := by ring
  have NN : 0 < N * N := mul_pos hN hN
  have pos : 0 < d * u + e * v + 1 := by
    by_contra hneg
    have a := affine d e 1
    have : N * N * (d * u + e * v + 1) ≤ 0 := mul_nonpos_of_nonneg_of_nonpos NN.le (not_lt.1 hneg)
    have z0 : 0 ≤ (N - u) * (N - v) * 1 := by linarith
    have z1 := mul_nonneg w1 h1.le
    have z2 := mul_nonneg w2 h2.le
    have z3 := mul_nonneg w3 h3.le
    have y1 : u * (N - v) = 0 := (mul_eq_zero.1 (show u * (N - v) * (d * N + 1) = 0 by linarith)).resolve_right h1.ne'
    have y2 : u * v = 0 := (mul_eq_zero.1 (show u * v * (d * N + e * N + 1) = 0 by linarith)).resolve_right h2.ne'
    have y3 : (N - u) * v = 0 := (mul_eq_zero.1 (show (N - u) * v * (e * N + 1) = 0 by linarith)).resolve_right h3.ne'
    linarith
  refine ⟨pos, ?_⟩
  by_contra hno
  push Not at hno
  obtain ⟨g0, g1, g2, g3⟩ := hno
  generalize hx : (p * u + q * v + r) / (d * u + e * v + 1) = x at g0 g1 g2 g3
  rw [div_eq_iff pos.ne'] at hx
  rw [lt_div_iff₀ one_pos] at g0
  rw [lt_div_iff₀ h1] at g1
  rw [lt_div_iff₀ h2] at g2
  rw [lt_div_iff₀ h3] at g3
  have a := affine (p - x * d) (q - x * e) (r - x)
  have z0 := mul_nonneg w0 (show 0 ≤ r - x by linarith)
  have z1 := mul_nonneg w1 (show 0 ≤ (p - x * d) * N + (r - x) by linarith)
  have z2 := mul_nonneg w2 (show 0 ≤ (p - x * d) * N + (q - x * e) * N + (r - x) by linarith)
  have z3 := mul_nonneg w3 (show 0 ≤ (q - x * e) * N + (r - x) by linarith)
  have z : N * N * ((p - x * d) * u + (q - x * e) * v + (r - x)) = 0 := by
    rw [show (p - x * d) * u + (q - x * e) * v + (r - x) = (p * u + q * v + r) - x * (d * u + e * v + 1) by ring, hx, sub_self, mul_zero]
  have y0 : (N - u) * (N - v) = 0 := (mul_eq_zero.1 (show (N - u) * (N - v) * (r - x) = 0 by linarith)).resolve_right (by linarith)
  have y1 : u * (N - v) = 0 := (mul_eq_zero.1 (show u * (N - v) * ((p - x * d) * N + (r - x)) = 0 by linarith)).resolve_right (by linarith)
  have y2 : u * v = 0 := (mul_eq_zero.1 (show u * v * ((p - x * d) * N + (q - x * e) * N + (r - x)) = 0 by linarith)).resolve_right (by linarith)
  have y3 : (N - u) * v = 0 := (mul_eq_zero.1 (show (N - u) * v * ((q - x * e) * N + (r - x)) = 0 by linarith)).resolve_right (by linarith)
  linarith

/-- What lies in the square is taken into the box around the images of its corners, as one coordinate sees it. -/
theorem quotient_between {p q r d e N u v : ℚ} (hN : 0 < N) (hu : 0 ≤ u) (hu' : u ≤ N) (hv : 0 ≤ v) (hv' : v ≤ N)
    (h1 : 0 < d * N + 1) (h2 : 0 < d * N + e * N + 1) (h3 : 0 < e * N + 1) {x0 x1 x2 x3 : ℚ} (e0 : x0 = r) (e1 : x1 = (p * N + r) / (d * N + 1))
    (e2 : x2 = (p * N + q * N + r) / (d * N + e * N + 1)) (e3 : x3 = (q * N + r) / (e * N + 1)) {x : ℚ}
    (hx : x = (p * u + q * v + r) / (d * u + e * v + 1)) :
    (nearest x0 ≤ nearest x ∨ nearest x1 ≤ nearest x ∨ nearest x2 ≤ nearest x ∨ nearest x3 ≤ nearest x) ∧
    (nearest x ≤ nearest x0 ∨ nearest x ≤ nearest x1 ∨ nearest x ≤ nearest x2 ∨ nearest x ≤ nearest x3) := by
  obtain ⟨-, a⟩ := quotient_ge (p := p) (q := q) (r := r) hN hu hu' hv hv' h1 h2 h3
  obtain ⟨-, b⟩ := quotient_ge (p := -p) (q := -q) (r := -r) hN hu hu' hv hv' h1 h2 h3
  rw [div_one] at a b
  rw [show -p * u + -q * v + -r = -(p * u + q * v + r) by ring, show -p * N + -r = -(p * N + r) by ring,
    show -p * N + -q * N + -r = -(p * N + q * N + r) by ring, show -q * N + -r = -(q * N + r) by ring] at b
  simp only [neg_div, neg_le_neg_iff] at b
  rw [← e1, ← e2, ← e3, ← hx, ← e0] at a b
  exact ⟨a.imp nearest_mono (Or.imp nearest_mono (Or.imp nearest_mono nearest_mono)),
    b.imp nearest_mono (Or.imp nearest_mono (Or.imp nearest_mono nearest_mono))⟩

/-- **C79.** In exact arithmetic: a transform that takes the corners of a square to pixels, all of the square being in front of the horizon, takes
every point of the square to a pixel in the box around them. -/
theorem C79_inside {c : Perspective ℚ} {N : ℚ} (hN : 0 < N) (hc : Visible c N) {bounds : List Point} (hb : BoundsOf c N bounds) {u v : ℚ}
    (hu : 0 ≤ u) (hu' : u ≤ N) (hv : 0 ≤ v) (hv' : v ≤ N) : ∃ p, c.map u v = .ok p ∧ InBox bounds p := by
  obtain ⟨b0, b1, b2, b3, rfl, e0, e1, e2, e3⟩ := hb.corners
  obtain ⟨x0, y0, r0, s0⟩ := map_exact e0
  obtain ⟨x1, y1, r1, s1⟩ := map_exact e1
  obtain ⟨x2, y2, r2, s2⟩ := map_exact e2
  obtain ⟨x3, y3, r3, s3⟩ := map_exact e3
  have l0 : (lit 0 0 : ℚ) = 0 := by show ((0 : Nat) : ℚ) / 10 ^ 0 = 0; norm_num
  have l1 : (lit 1 0 : ℚ) = 1 := by show ((1 : Nat) : ℚ) / 10 ^ 0 = 1; norm_num
  have mx : ∀ u v : ℚ, (c.mapF u v).1 = (c[0] * u + c[1] * v + c[2]) / (c[6] * u + c[7] * v + 1) := by
    intro u v
    show (c[0] * u + c[1] * v + c[2]) / (c[6] * u + c[7] * v + lit 1 0) = _
    rw [l1]
  have my : ∀ u v : ℚ, (c.mapF u v).2 = (c[3] * u + c[4] * v + c[5]) / (c[6] * u + c[7] * v + 1) := by
    intro u v
    show (c[3] * u + c[4] * v + c[5]) / (c[6] * u + c[7] * v + lit 1 0) = _
    rw [l1]
  rw [l0] at x0 y0 x1 y1 x3 y3
  have kx := quotient_between hN hu hu' hv hv' hc.right hc.far hc.below (p := c[0]) (q := c[1]) (r := c[2]) (x0 := (c.mapF 0 0).1)
    (x1 := (c.mapF N 0).1) (x2 := (c.mapF N N).1) (x3 := (c.mapF 0 N).1) (x := (c.mapF u v).1)
    (by rw [mx]; simp) (by rw [mx]; simp) (by rw [mx]) (by rw [mx]; simp) (mx u v)
  have ky := quotient_between hN hu hu' hv hv' hc.right hc.far hc.below (p := c[3]) (q := c[4]) (r := c[5]) (x0 := (c.mapF 0 0).2)
    (x1 := (c.mapF N 0).2) (x2 := (c.mapF N N).2) (x3 := (c.mapF 0 N).2) (x := (c.mapF u v).2)
    (by rw [my]; simp) (by rw [my]; simp) (by rw [my]) (by rw [my]; simp) (my u v)
  rw [← x0, ← x1, ← x2, ← x3] at kx
  rw [← y0, ← y1, ← y2, ← y3] at ky
  refine ⟨_, Exact.map_ok (by omega) (by omega) (by omega) (by omega), ?_⟩
  obtain ⟨k1, k2⟩ := kx
  obtain ⟨k3, k4⟩ := ky
  refine ⟨?_, ?_, ?_, ?_⟩ <;> simpa using by assumption

/-- **C79.** In exact arithmetic: the modules of a detected grid that is entirely in front of the horizon, together with the additional module of
its bounds, are read without panic from pixels in the box around its bounds. -/
theorem C79_modules {S : Type} [ImageBuffer S] [LawfulImage S] {img0 img : PreparedImage S} {grids : List (DetectedGrid ℚ)}
    (h : img0.detect_grids ℚ = .ok (img, grids)) (hv : Valid img.buffer) (hw : 0 < width img.buffer) (hh : 0 < height img.buffer) {g : DetectedGrid ℚ} (hg : g ∈ grids) (hc : Visible g.location.c (g.location.grid_size + 1))
    {y x : Nat} (hy : y < g.location.grid_size) (hx : x < g.location.grid_size) :
    ∃ p, g.location.c.map (ofInt (x : Int) + lit 5 1) (ofInt (y : Int) + lit 5 1) = .ok p ∧ InBox g.bounds p ∧
      ∃ color, img.get_pixel_at_point p = .ok color ∧ (RefGridImage g.location img).bit y x = .ok (decide (PixelColor.White ≠ color)) := by
  have hb := C79_bounds h g hg
  have l1 : (ofInt (g.location.grid_size : Int) + lit 1 0 : ℚ) = (g.location.grid_size : ℚ) + 1 := by
    show ((g.location.grid_size : Int) : ℚ) + ((1 : Nat) : ℚ) / 10 ^ 0 = _
    norm_num
  have pos : ∀ k : Nat, k < g.location.grid_size → 0 ≤ (ofInt (k : Int) + lit 5 1 : ℚ) ∧ (ofInt (k : Int) + lit 5 1 : ℚ) ≤ (g.location.grid_size : ℚ) + 1 := by
    intro k hk
    have e : (ofInt (k : Int) + lit 5 1 : ℚ) = (k : ℚ) + 1 / 2 := by
      show ((k : Int) : ℚ) + ((5 : Nat) : ℚ) / 10 ^ 1 = _
      norm_num
    have : (k : ℚ) ≤ g.location.grid_size := by exact_mod_cast hk.le
    have : (0 : ℚ) ≤ k := Nat.cast_nonneg k
    rw [e]
    constructor <;> linarith
  rw [l1] at hb
  obtain ⟨p, e, hp⟩ := C79_inside (by positivity) hc hb (pos x hx).1 (pos x hx).2 (pos y hy).1 (pos y hy).2
  obtain ⟨color, hcol⟩ := C50_never_out_of_bounds hv hw hh p
  refine ⟨p, e, hp, color, hcol, ?_⟩
  show (g.location.c.map _ _ >>= fun p => _) = _
  rw [e, Run.ok_bind, hcol, Run.ok_bind]
  rfl

/-- **C79.** In exact arithmetic: when the square of the bounds is entirely in front of the horizon, for the transform made of four corners. -/
theorem C79_visible {n : Nat} (hn : 8 ≤ n) {r : Vector Point 4} {c : Perspective ℚ}
    (hc : Perspective.create r (ofInt ((n - 7 : Nat) : Int)) (ofInt ((n - 7 : Nat) : Int)) = some c) :
    Visible c (n + 1) ↔ 8 * area2 r[1] r[2] r[3] < ((n : Int) + 1) * area2 r[0] r[2] r[3] ∧
      8 * area2 r[1] r[2] r[3] < ((n : Int) + 1) * area2 r[0] r[1] r[2] ∧
      8 * (area2 r[0] r[1] r[2] + area2 r[0] r[2] r[3]) < ((n : Int) + 9) * area2 r[0] r[1] r[3] := by
  obtain ⟨hb, he, -⟩ := Exact.create_some hc
  have hw : (ofInt ((n - 7 : Nat) : Int) : ℚ) = n - 7 := by
    show (((n - 7 : Nat) : Int) : ℚ) = n - 7
    push_cast [show 7 ≤ n by omega]
    rfl
  have h1 := hb.d1
  have h3 := hb.d3
  rw [hw] at h1 h3 he
  have nw : (0 : ℚ) < (n : ℚ) - 7 := by
    have : (8 : ℚ) ≤ n := by exact_mod_cast hn
    linarith
  have hA : (0 : ℚ) < area2 r[1] r[2] r[3] := by
    have : (0 : ℚ) < (n - 7) * area2 r[1] r[2] r[3] := lt_of_lt_of_le (by show (0 : ℚ) < 1 / 2 ^ 52; norm_num) he
    exact (mul_pos_iff_of_pos_left nw).1 this
  have sum : area2 r[0] r[1] r[2] + area2 r[0] r[2] r[3] = area2 r[1] r[2] r[3] + area2 r[0] r[1] r[3] := by unfold area2; ring
  have sumq : (area2 r[0] r[1] r[2] : ℚ) + area2 r[0] r[2] r[3] = area2 r[1] r[2] r[3] + area2 r[0] r[1] r[3] := by exact_mod_cast sum
  have i1 : (8 * area2 r[1] r[2] r[3] < ((n : Int) + 1) * area2 r[0] r[2] r[3]) ↔
      ((8 : ℚ) * area2 r[1] r[2] r[3] < ((n : ℚ) + 1) * area2 r[0] r[2] r[3]) := by constructor <;> intro h <;> exact_mod_cast h
  have i2 : (8 * area2 r[1] r[2] r[3] < ((n : Int) + 1) * area2 r[0] r[1] r[2]) ↔
      ((8 : ℚ) * area2 r[1] r[2] r[3] < ((n : ℚ) + 1) * area2 r[0] r[1] r[2]) := by constructor <;> intro h <;> exact_mod_cast h
  have i3 : (8 * (area2 r[0] r[1] r[2] + area2 r[0] r[2] r[3]) < ((n : Int) + 9) * area2 r[0] r[1] r[3]) ↔
      ((8 : ℚ) * ((area2 r[0] r[1] r[2] : ℚ) + (area2 r[0] r[2] r[3] : ℚ)) < ((n : ℚ) + 9) * (area2 r[0] r[1] r[3] : ℚ)) := by
    constructor <;> intro h <;> exact_mod_cast h
  rw [i1, i2, i3]
  generalize (area2 r[0] r[1] r[2] : ℚ) = C at *
  generalize (area2 r[0] r[2] r[3] : ℚ) = B at *
  generalize (area2 r[1] r[2] r[3] : ℚ) = A at *
  generalize (area2 r[0] r[1] r[3] : ℚ) = E at *
  have wA : 0 < ((n : ℚ) - 7) * A := mul_pos nw hA
  have k1 : (c[6] * ((n : ℚ) + 1) + 1) * (((n : ℚ) - 7) * A) = ((n : ℚ) + 1) * B - 8 * A := by linear_combination ((n : ℚ) + 1) * h1
  have k3 : (c[7] * ((n : ℚ) + 1) + 1) * (((n : ℚ) - 7) * A) = ((n : ℚ) + 1) * C - 8 * A := by linear_combination ((n : ℚ) + 1) * h3
  have k2 : (c[6] * ((n : ℚ) + 1) + c[7] * ((n : ℚ) + 1) + 1) * (((n : ℚ) - 7) * A) = ((n : ℚ) + 9) * E - 8 * (C + B) := by
    linear_combination ((n : ℚ) + 1) * h1 + ((n : ℚ) + 1) * h3 + ((n : ℚ) + 9) * sumq
  push_cast at k1 k2 k3 ⊢
  constructor
  · rintro ⟨v1, v2, v3⟩
    have m1 := mul_pos v1 wA
    have m2 := mul_pos v2 wA
    have m3 := mul_pos v3 wA
    rw [k1] at m1
    rw [k2] at m2
    rw [k3] at m3
    exact ⟨by linarith, by linarith, by linarith⟩
  · rintro ⟨v1, v2, v3⟩
    refine ⟨?_, ?_, ?_⟩
    · exact (mul_pos_iff_of_pos_right wA).1 (by rw [k1]; linarith)
    · exact (mul_pos_iff_of_pos_right wA).1 (by rw [k2]; linarith)
    · exact (mul_pos_iff_of_pos_right wA).1 (by rw [k3]; linarith)

/-! ### Concrete cases -/

/-- A moderate perspective, all of which is in front of the horizon. -/
example {c : Perspective ℚ} (hc : Perspective.create #v[⟨0, 0⟩, ⟨28, 2⟩, ⟨26, 24⟩, ⟨1, 25⟩] (ofInt ((21 - 7 : Nat) : Int)) (ofInt ((21 - 7 : Nat) : Int)) = some c) :
    Visible c ((21 : Nat) + 1) :=
  (C79_visible (by omega) hc).2 (by decide)

/-- Its bounds, and where it takes the first, the middle and the last module. -/
example : (Perspective.create (F := ℚ) #v[⟨0, 0⟩, ⟨28, 2⟩, ⟨26, 24⟩, ⟨1, 25⟩] 14 14).map (fun c =>
    [c.map 0 0, c.map 22 0, c.map 22 22, c.map 0 22, c.map (1 / 2) (1 / 2), c.map (21 / 2) (21 / 2), c.map (41 / 2) (41 / 2)].map Except.toOption) =
    some [some ⟨0, 0⟩, some ⟨41, 3⟩, some ⟨36, 34⟩, some ⟨1, 37⟩, some ⟨1, 1⟩, some ⟨21, 19⟩, some ⟨35, 32⟩] := by decide +kernel

/-- A stronger one: the last module is in front of the horizon, the far corner of the bounds behind it. -/
example : (Perspective.create (F := ℚ) #v[⟨0, 0⟩, ⟨24, 0⟩, ⟨42, 42⟩, ⟨0, 24⟩] 10 10).map (fun c =>
    [c.map 0 0, c.map 18 0, c.map 18 18, c.map 0 18, c.map (33 / 2) (33 / 2)].map Except.toOption) =
    some [some ⟨0, 0⟩, some ⟨66, 0⟩, some ⟨-378, -378⟩, some ⟨0, 66⟩, some ⟨2772, 2772⟩] := by decide +kernel

example {c : Perspective ℚ} (hc : Perspective.create #v[⟨0, 0⟩, ⟨24, 0⟩, ⟨42, 42⟩, ⟨0, 24⟩] (ofInt ((17 - 7 : Nat) : Int)) (ofInt ((17 - 7 : Nat) : Int)) = some c) :
    ¬ Visible c ((17 : Nat) + 1) := fun h =>
  absurd ((C79_visible (by omega) hc).1 h) (by decide)

end Rqrr
