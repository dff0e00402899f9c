import Verif.Proofs.FramedAlign
import Verif.Proofs.FramedGroup

/-!
# Detection of a drawn symbol
-/

namespace Rqrr

open Spec ImageBuffer FloatOps Spec.Placement Rounding

variable {F : Type} [FloatOps F] [Rounding F]

variable {S : Type} [ImageBuffer S] [LawfulImage S] {img0 img : PreparedImage S} {claims : Pos → Option Claim} {v : Nat}
  {M : Nat → Nat → Bool} {P : Placement}

omit [Rounding F] in
theorem center_diff (h : IsAxis P.right) {i j i' j' : Int} {c c' : CapStone F} (hc : FramedCap P i j c) (hc' : FramedCap P i' j' c') :
    |c.center.x - c'.center.x - ((i - i') * P.right.x - (j - j') * P.right.y)| ≤ 1 ∧
    |c.center.y - c'.center.y - ((i - i') * P.right.y + (j - j') * P.right.x)| ≤ 1 := by
  have h1 := hc.centerX
  have h2 := hc.centerY
  have h3 := hc'.centerX
  have h4 := hc'.centerY
  revert h1 h2 h3 h4
  rw [abs_le, abs_le]
  unfold baseX baseY pixel
  rcases h with h | h | h | h <;> rw [h] <;> dsimp only <;> simp only [mul_one, mul_zero, mul_neg] <;> intro h1 h2 h3 h4 <;> omega

theorem sign_core {K p q x y : Int} (hK : 4 ≤ K) (p1 : p ≤ 1) (hq : K - 1 ≤ q) (hx : K - 1 ≤ x) (y0 : 0 ≤ y) (hy : y ≤ K + 1) : p * y < q * x := by
  nlinarith [mul_nonneg (sub_nonneg.2 p1) y0, mul_nonneg (sub_nonneg.2 hq) (show 0 ≤ x by omega), mul_nonneg (show 0 ≤ K - 1 by omega) (sub_nonneg.2 hx)]

/-- On which side of the line between the other two the corner is. -/
theorem sign_bottom (h : IsAxis P.right) {K : Int} (hK : 4 ≤ K) {a b : Int} {hd : Point} (hh : Hypotenuse P K hd) (ha : |a - K * P.right.y| ≤ 1)
    (hb : |b + K * P.right.x| ≤ 1) : a * -hd.y + b * hd.x < 0 := by
  obtain ⟨hx, hy⟩ := hh
  rw [abs_le] at *
  revert hx hy ha hb
  rcases h with h | h | h | h <;> rw [h] <;> dsimp only <;> intro hx hy ha hb
  · have := sign_core (K := K) (p := a) (q := -b) (x := hd.x) (y := -hd.y) hK (by omega) (by omega) (by omega) (by omega) (by omega)
    linarith
  · have := sign_core (K := K) (p := b) (q := a) (x := hd.y) (y := hd.x) hK (by omega) (by omega) (by omega) (by omega) (by omega)
    linarith
  · have := sign_core (K := K) (p := -a) (q := b) (x := -hd.x) (y := hd.y) hK (by omega) (by omega) (by omega) (by omega) (by omega)
    linarith
  · have := sign_core (K := K) (p := -b) (q := -a) (x := -hd.y) (y := -hd.x) hK (by omega) (by omega) (by omega) (by omega) (by omega)
    linarith

theorem sign_right (h : IsAxis P.right) {K : Int} (hK : 4 ≤ K) {a b : Int} {hd : Point} (hh : Hypotenuse P K hd) (ha : |a + K * P.right.x| ≤ 1)
    (hb : |b + K * P.right.y| ≤ 1) : 0 < a * - -hd.y + b * -hd.x := by
  obtain ⟨hx, hy⟩ := hh
  rw [abs_le] at *
  revert hx hy ha hb
  rcases h with h | h | h | h <;> rw [h] <;> dsimp only <;> intro hx hy ha hb
  · have := sign_core (K := K) (p := b) (q := -a) (x := -hd.y) (y := hd.x) hK (by omega) (by omega) (by omega) (by omega) (by omega)
    linarith
  · have := sign_core (K := K) (p := -a) (q := -b) (x := hd.x) (y := hd.y) hK (by omega) (by omega) (by omega) (by omega) (by omega)
    linarith
  · have := sign_core (K := K) (p := -b) (q := a) (x := hd.y) (y := -hd.x) hK (by omega) (by omega) (by omega) (by omega) (by omega)
    linarith
  · have := sign_core (K := K) (p := a) (q := b) (x := -hd.x) (y := -hd.y) hK (by omega) (by omega) (by omega) (by omega) (by omega)
    linarith

/-- The steps of locating the grid, once the capstones are turned. -/
theorem located_drawn (h0 : Fresh img0) (h : History img0 claims img) (hw : width img0.buffer ≤ 32768) (hh : height img0.buffer ≤ 32768)
    (h1 : 1 ≤ v) (hv : v ≤ 40) (h21 : v ≠ 21) (hR : Renders img0 (side v) M P) (hM : Patterned v M) {g : CapStoneGroup F}
    (ha : Turned P 0 ((side v - 7 : Nat) * P.scale) g.a) (hb : Turned P 0 0 g.b) (hc : Turned P ((side v - 7 : Nat) * P.scale) 0 g.c)
    {hd : Point} (hhd : Hypotenuse P ((side v - 7) * P.scale : Nat) hd) (hI : P.InRange (side v))
    (hno : 2 ≤ v → ∀ p : Pos, P.pixel ((side v - 7 : Nat) * P.scale) ((side v - 7 : Nat) * P.scale) = ⟨p.1, p.2⟩ → claims p = none) :
    ∃ img' claims' c, measure_timing_pattern img g = .ok (side v) ∧
      line_intersect g.a.corners[0] g.a.corners[1] g.c.corners[0] g.c.corners[3] =
        .ok (some (P.pixel ((side v - 7 : Nat) * P.scale) ((side v - 7 : Nat) * P.scale))) ∧
      (if side v > 21 then claim_alignment img (P.pixel ((side v - 7 : Nat) * P.scale) ((side v - 7 : Nat) * P.scale)) g.a g.c hd else pure (img, some (P.pixel ((side v - 7 : Nat) * P.scale) ((side v - 7 : Nat) * P.scale))) :
        Run (PreparedImage S × Option Point)) =
        .ok (img', some (P.pixel ((side v - 7 : Nat) * P.scale) ((side v - 7 : Nat) * P.scale))) ∧
      version_from_grid_size (side v) = .ok v ∧ ¬ v ≥ VERSION_DATA_BASE.length ∧
      setup_perspective img' g (P.pixel ((side v - 7 : Nat) * P.scale) ((side v - 7 : Nat) * P.scale)) (side v) =
        .ok (some c) ∧ Rounded c (P.grid 0 0 P.scale) ∧ History img0 claims' img' ∧ (∀ p, claims' p ≠ none → claims p ≠ none ∨ InDrawing (side v) P p) := by
  have hn : side v = 17 + 4 * v := rfl
  have e3 : ∃ img' claims', (if side v > 21 then claim_alignment img (P.pixel ((side v - 7 : Nat) * P.scale) ((side v - 7 : Nat) * P.scale)) g.a g.c hd else pure (img, some (P.pixel ((side v - 7 : Nat) * P.scale) ((side v - 7 : Nat) * P.scale))) :
        Run (PreparedImage S × Option Point)) =
        .ok (img', some (P.pixel ((side v - 7 : Nat) * P.scale) ((side v - 7 : Nat) * P.scale))) ∧ History img0 claims' img' ∧ (∀ p, claims' p ≠ none → claims p ≠ none ∨ InDrawing (side v) P p) := by
    by_cases hgt : side v > 21
    · rw [if_pos hgt]
      exact align_drawn h0 h hw hh (by omega) hv hR hM ha hc hhd hno
    · rw [if_neg hgt]
      exact ⟨img, claims, rfl, h, fun _ => .inl⟩
  obtain ⟨img', claims', e3, hist, keep⟩ := e3
  obtain ⟨c, ec, hc'⟩ := setup_drawn h0 hist (by omega) (by omega) h1 hv h21 hR hM ha hb hc
  exact ⟨img', claims', c, measure_drawn h0 h (by omega) (by omega) h1 hv hR hM ha hb hc, (drawn_meet (by omega) hR ha hc).trans (if_pos hI), e3, version_ok hn,
    by rw [show VERSION_DATA_BASE.length = 41 from rfl]; omega, ec, hc', hist, keep⟩

/-- What `from_group` does once the capstones are turned. -/
noncomputable def fromTurned (img : PreparedImage S) (group : CapStoneGroup F) (hd : Point) :
    Run (PreparedImage S × Option (SkewedGridLocation F)) := do
  let grid_size ← measure_timing_pattern img group
  let inter ← line_intersect group.a.corners[0] group.a.corners[1] group.c.corners[0] group.c.corners[3]
  match inter with
  | none => pure (img, none)
  | some align => do
    let (img, align) ← (if grid_size > 21 then claim_alignment img align group.a group.c hd else pure (img, some align) :
      Run (PreparedImage S × Option Point))
    match align with
    | none => pure (img, none)
    | some align => do
      let version ← version_from_grid_size grid_size
      if version ≥ VERSION_DATA_BASE.length then pure (img, none)
      else do
        let c ← setup_perspective img group align grid_size
        match c with
        | none => pure (img, none)
        | some c => pure (img, some { grid_size := grid_size, c := c })

/-- The three finder patterns of a drawing are turned to its frame, whichever of the outer ones comes first. -/
theorem from_group_turned (h1 : 1 ≤ v) (hR : Renders img0 (side v) M P) {ct cr cb : CapStone F}
    (ht : FramedCap P 0 0 ct) (hr : FramedCap P ((side v - 7 : Nat) * P.scale) 0 cr) (hb : FramedCap P 0 ((side v - 7 : Nat) * P.scale) cb)
    {group : CapStoneGroup F} (hg : group = ⟨cb, ct, cr⟩ ∨ group = ⟨cr, ct, cb⟩) :
    ∃ (g : CapStoneGroup F) (hd : Point), (∀ img : PreparedImage S, SkewedGridLocation.from_group img group = fromTurned img g hd) ∧
      Turned P 0 ((side v - 7 : Nat) * P.scale) g.a ∧ Turned P 0 0 g.b ∧ Turned P ((side v - 7 : Nat) * P.scale) 0 g.c ∧
      Hypotenuse P ((side v - 7) * P.scale : Nat) hd := by
  have hn : side v = 17 + 4 * v := rfl
  have hs := hR.scale
  have hsz := renders_size hR (by omega)
  have hmul : side v * P.scale = (side v - 7) * P.scale + 7 * P.scale := by rw [← Nat.add_mul]; congr 1; omega
  have h14 : 14 * P.scale ≤ (side v - 7) * P.scale := Nat.mul_le_mul_right _ (by omega)
  obtain ⟨K, hKd⟩ : ∃ K, K = (side v - 7) * P.scale := ⟨_, rfl⟩
  have cK : (((side v - 7 : Nat) : Int) * P.scale) = (K : Int) := by rw [hKd]; push_cast; ring
  rw [cK] at hr hb ⊢
  rw [← hKd] at hmul h14 ⊢
  have pnear : ∀ i j : Nat, i < side v * P.scale → j < side v * P.scale → Near (P.pixel i j) := by
    intro i j hi hj
    have := hR.inside i j hi hj
    unfold Near
    rw [abs_le, abs_le]
    omega
  have cnear : ∀ {i j : Nat} {c : CapStone F}, FramedCap P i j c → i + 7 * P.scale ≤ side v * P.scale → j + 7 * P.scale ≤ side v * P.scale →
      0 ≤ c.center.x ∧ c.center.x ≤ 10000 ∧ 0 ≤ c.center.y ∧ c.center.y ≤ 10000 := by
    intro i j c hc hi hj
    have k1 := hR.inside i j (by omega) (by omega)
    have k2 := hR.inside (i + 7 * P.scale - 1) (j + 7 * P.scale - 1) (by omega) (by omega)
    rw [show ((i + 7 * P.scale - 1 : Nat) : Int) = (i : Int) + 7 * P.scale - 1 by omega,
      show ((j + 7 * P.scale - 1 : Nat) : Int) = (j : Int) + 7 * P.scale - 1 by omega] at k2
    have k3 := hc.centerX
    have k4 := hc.centerY
    revert k1 k2 k3 k4
    unfold baseX baseY pixel
    rcases hR.axis with h | h | h | h <;> rw [h] <;> dsimp only <;> simp only [mul_one, mul_zero, mul_neg] <;> intro k1 k2 k3 k4 <;> omega
  obtain ⟨t1, t2, t3, t4⟩ := cnear (i := 0) (j := 0) ht (by omega) (by omega)
  obtain ⟨r1, r2, r3, r4⟩ := cnear (i := K) (j := 0) hr (by omega) (by omega)
  obtain ⟨b1, b2, b3, b4⟩ := cnear (i := 0) (j := K) hb (by omega) (by omega)
  obtain ⟨hd, ehd⟩ : ∃ hd : Point, hd = ⟨cr.center.x - cb.center.x, cr.center.y - cb.center.y⟩ := ⟨_, rfl⟩
  have dx : cr.center.x - cb.center.x = hd.x := by rw [ehd]
  have dy : cr.center.y - cb.center.y = hd.y := by rw [ehd]
  have dx' : cb.center.x - cr.center.x = -hd.x := by rw [← dx]; ring
  have dy' : cb.center.y - cr.center.y = -hd.y := by rw [← dy]; ring
  have hypo : Hypotenuse P K hd := by
    obtain ⟨d1, d2⟩ := center_diff hR.axis hr hb
    rw [dx] at d1
    rw [dy] at d2
    constructor
    · rw [show (K : Int) * (P.right.x + P.right.y) = ((K : Int) - 0) * P.right.x - (0 - K) * P.right.y by ring]; exact d1
    · rw [show (K : Int) * (P.right.y - P.right.x) = ((K : Int) - 0) * P.right.y + (0 - K) * P.right.x by ring]; exact d2
  have rot : ∀ {i j : Nat} {c : CapStone F} {o : Point}, FramedCap P i j c → Near o → i + 7 * P.scale ≤ side v * P.scale →
      j + 7 * P.scale ≤ side v * P.scale → ∃ c', rotate_capstone c o hd = .ok c' ∧ Turned P i j c' := by
    intro i j c o hc ho hi hj
    obtain ⟨c', e, hc'⟩ := rotate_framed hR.axis (by omega) hc ho (K := K) (by omega) (by omega) hypo (by
      intro u hu w hw'
      simp only [List.mem_cons, List.not_mem_nil, or_false] at hu hw'
      have hu' : ∃ u' : Nat, u = u' ∧ u' < side v * P.scale := by
        rcases hu with rfl | rfl
        · exact ⟨i, rfl, by omega⟩
        · exact ⟨i + (7 * P.scale - 1), by omega, by omega⟩
      have hw'' : ∃ w' : Nat, w = w' ∧ w' < side v * P.scale := by
        rcases hw' with rfl | rfl
        · exact ⟨j, rfl, by omega⟩
        · exact ⟨j + (7 * P.scale - 1), by omega, by omega⟩
      obtain ⟨u', rfl, hu'⟩ := hu'
      obtain ⟨w', rfl, hw''⟩ := hw''
      exact pnear _ _ hu' hw'')
    exact ⟨_, e, rfl, hc'⟩
  have big : ∀ {z : Int}, 0 ≤ z → z ≤ 10000 → |z| ≤ 100000 := by intro z z1 z2; rw [abs_le]; omega
  have dif : ∀ {z w : Int}, 0 ≤ z → z ≤ 10000 → 0 ≤ w → w ≤ 10000 → |z - w| ≤ 20000 := by intro z w _ _ _ _; rw [abs_le]; omega
  have hx20 : |hd.x| ≤ 20000 := by rw [← dx]; exact dif r1 r2 b1 b2
  have hy20 : |hd.y| ≤ 20000 := by rw [← dy]; exact dif r3 r4 b3 b4
  have hx20' : |-hd.x| ≤ 20000 := by rw [abs_neg]; exact hx20
  have hy20' : |-hd.y| ≤ 20000 := by rw [abs_neg]; exact hy20
  have hy20'' : |-(-hd.y)| ≤ 20000 := by rw [abs_neg]; exact hy20'
  rcases hg with rfl | rfl
  · have nb : Near cb.center := by unfold Near; rw [abs_le, abs_le]; omega
    obtain ⟨cb', eb, fb⟩ := rot (i := 0) (j := K) hb nb (by omega) (by omega)
    obtain ⟨ct', et, ft⟩ := rot (i := 0) (j := 0) ht nb (by omega) (by omega)
    obtain ⟨cr', er, fr⟩ := rot (i := K) (j := 0) hr nb (by omega) (by omega)
    refine ⟨⟨cb', ct', cr'⟩, hd, ?_, fb, ft, fr, hypo⟩
    intro img
    have t : (ct.center.x - cb.center.x) * -hd.y + (ct.center.y - cb.center.y) * hd.x < 0 := by
      obtain ⟨d1, d2⟩ := center_diff hR.axis ht hb
      refine sign_bottom hR.axis (K := K) (by omega) hypo ?_ ?_
      · rw [show (K : Int) * P.right.y = ((0 : Int) - 0) * P.right.x - (0 - K) * P.right.y by ring]; exact d1
      · rw [show ct.center.y - cb.center.y + (K : Int) * P.right.x =
          ct.center.y - cb.center.y - (((0 : Int) - 0) * P.right.y + (0 - K) * P.right.x) by ring]; exact d2
    unfold SkewedGridLocation.from_group
    dsimp only
    rw [subI_ok (big r1 r2) (big b1 b2), Run.ok_bind, subI_ok (big r3 r4) (big b3 b4), Run.ok_bind, dx, dy, subI_ok (big t1 t2) (big b1 b2), Run.ok_bind,
      negI_ok (by omega), Run.ok_bind,
      mulI_small (dif t1 t2 b1 b2) hy20', Run.ok_bind, subI_ok (big t3 t4) (big b3 b4), Run.ok_bind, mulI_small (dif t3 t4 b3 b4) hx20, Run.ok_bind,
      addI_ok (mul_small (dif t1 t2 b1 b2) hy20') (mul_small (dif t3 t4 b3 b4) hx20), Run.ok_bind, if_neg (by omega)]
    rw [show (pure ((⟨cb, ct, cr⟩ : CapStoneGroup F), (⟨hd.x, hd.y⟩ : Point)) : Run (CapStoneGroup F × Point)) =
      .ok (⟨cb, ct, cr⟩, hd) from rfl, Run.ok_bind]
    dsimp only
    rw [eb, Run.ok_bind, et, Run.ok_bind, er, Run.ok_bind]
    unfold fromTurned
    dsimp only
    refine congrArg (_ >>= ·) (funext fun gs => congrArg (_ >>= ·) (funext fun al => ?_))
    cases al with
    | none => rfl
    | some al =>
      dsimp only
      refine congrArg (_ >>= ·) (funext fun x => ?_)
      obtain ⟨x1, x2⟩ := x
      cases x2 with
      | none => rfl
      | some x2 =>
        dsimp only
        refine congrArg (_ >>= ·) (funext fun ver => ?_)
        split
        · rfl
        · refine congrArg (_ >>= ·) (funext fun c => ?_)
          cases c <;> rfl
  · have nr : Near cr.center := by unfold Near; rw [abs_le, abs_le]; omega
    obtain ⟨cb', eb, fb⟩ := rot (i := 0) (j := K) hb nr (by omega) (by omega)
    obtain ⟨ct', et, ft⟩ := rot (i := 0) (j := 0) ht nr (by omega) (by omega)
    obtain ⟨cr', er, fr⟩ := rot (i := K) (j := 0) hr nr (by omega) (by omega)
    refine ⟨⟨cb', ct', cr'⟩, hd, ?_, fb, ft, fr, hypo⟩
    intro img
    have t : 0 < (ct.center.x - cr.center.x) * -(-hd.y) + (ct.center.y - cr.center.y) * -hd.x := by
      obtain ⟨d1, d2⟩ := center_diff hR.axis ht hr
      refine sign_right hR.axis (K := K) (by omega) hypo ?_ ?_
      · rw [show ct.center.x - cr.center.x + (K : Int) * P.right.x =
          ct.center.x - cr.center.x - (((0 : Int) - K) * P.right.x - (0 - 0) * P.right.y) by ring]; exact d1
      · rw [show ct.center.y - cr.center.y + (K : Int) * P.right.y =
          ct.center.y - cr.center.y - (((0 : Int) - K) * P.right.y + (0 - 0) * P.right.x) by ring]; exact d2
    unfold SkewedGridLocation.from_group
    dsimp only
    rw [subI_ok (big b1 b2) (big r1 r2), Run.ok_bind, subI_ok (big b3 b4) (big r3 r4), Run.ok_bind, dx', dy', subI_ok (big t1 t2) (big r1 r2), Run.ok_bind,
      negI_ok (a := -hd.y) (by omega), Run.ok_bind,
      mulI_small (dif t1 t2 r1 r2) hy20'', Run.ok_bind, subI_ok (big t3 t4) (big r3 r4), Run.ok_bind, mulI_small (dif t3 t4 r3 r4) hx20', Run.ok_bind,
      addI_ok (mul_small (dif t1 t2 r1 r2) hy20'') (mul_small (dif t3 t4 r3 r4) hx20'), Run.ok_bind, if_pos (by omega)]
    rw [negI_ok (a := -hd.x) (by omega), Run.ok_bind, neg_neg, neg_neg, Run.ok_bind]
    rw [show (pure ((⟨cb, ct, cr⟩ : CapStoneGroup F), (⟨hd.x, hd.y⟩ : Point)) : Run (CapStoneGroup F × Point)) =
      .ok (⟨cb, ct, cr⟩, hd) from rfl, Run.ok_bind]
    dsimp only
    rw [eb, Run.ok_bind, et, Run.ok_bind, er, Run.ok_bind]
    unfold fromTurned
    dsimp only
    refine congrArg (_ >>= ·) (funext fun gs => congrArg (_ >>= ·) (funext fun al => ?_))
    cases al with
    | none => rfl
    | some al =>
      dsimp only
      refine congrArg (_ >>= ·) (funext fun x => ?_)
      obtain ⟨x1, x2⟩ := x
      cases x2 with
      | none => rfl
      | some x2 =>
        dsimp only
        refine congrArg (_ >>= ·) (funext fun ver => ?_)
        split
        · rfl
        · refine congrArg (_ >>= ·) (funext fun c => ?_)
          cases c <;> rfl

/-- The grid of a drawing is found from its three finder patterns, whichever of the outer ones comes first. -/
theorem from_group_drawn (h0 : Fresh img0) (h : History img0 claims img) (hw : width img0.buffer ≤ 32768) (hh : height img0.buffer ≤ 32768)
    (h1 : 1 ≤ v) (hv : v ≤ 40) (h21 : v ≠ 21) (hR : Renders img0 (side v) M P) (hM : Patterned v M) {ct cr cb : CapStone F}
    (ht : FramedCap P 0 0 ct) (hr : FramedCap P ((side v - 7 : Nat) * P.scale) 0 cr) (hb : FramedCap P 0 ((side v - 7 : Nat) * P.scale) cb)
    (hI : P.InRange (side v))
    (hno : 2 ≤ v → ∀ p : Pos, P.pixel ((side v - 7 : Nat) * P.scale) ((side v - 7 : Nat) * P.scale) = ⟨p.1, p.2⟩ → claims p = none)
    {group : CapStoneGroup F} (hg : group = ⟨cb, ct, cr⟩ ∨ group = ⟨cr, ct, cb⟩) :
    ∃ img' claims' c, SkewedGridLocation.from_group img group = .ok (img', some { grid_size := side v, c := c }) ∧
      Rounded c (P.grid 0 0 P.scale) ∧ History img0 claims' img' ∧ (∀ p, claims' p ≠ none → claims p ≠ none ∨ InDrawing (side v) P p) := by
  obtain ⟨g, hd, e, ta, tb, tc, hhd⟩ := from_group_turned (S := S) h1 hR ht hr hb hg
  obtain ⟨img', claims', c, l1, l2, l3, l4, l5, l6, l7, hist, keep⟩ := located_drawn h0 h hw hh h1 hv h21 hR hM ta tb tc hhd hI hno
  refine ⟨img', claims', c, ?_, l7, hist, keep⟩
  rw [e]
  unfold fromTurned
  rw [l1, Run.ok_bind, l2, Run.ok_bind]
  dsimp only
  rw [l3, Run.ok_bind]
  dsimp only
  rw [l4, Run.ok_bind, if_neg l5, l6, Run.ok_bind]
  rfl

/-- With too many pixels per module for the place the computation leaves the range of `i32`. -/
theorem from_group_overflow (h0 : Fresh img0) (h : History img0 claims img) (hw : width img0.buffer ≤ 32768) (hh : height img0.buffer ≤ 32768)
    (h1 : 1 ≤ v) (hv : v ≤ 40) (hR : Renders img0 (side v) M P) (hM : Patterned v M) {ct cr cb : CapStone F}
    (ht : FramedCap P 0 0 ct) (hr : FramedCap P ((side v - 7 : Nat) * P.scale) 0 cr) (hb : FramedCap P 0 ((side v - 7 : Nat) * P.scale) cb)
    (hI : ¬ P.InRange (side v)) {group : CapStoneGroup F} (hg : group = ⟨cb, ct, cr⟩ ∨ group = ⟨cr, ct, cb⟩) :
    SkewedGridLocation.from_group img group = .error .panic := by
  have hn : side v = 17 + 4 * v := rfl
  obtain ⟨g, hd, e, ta, tb, tc, -⟩ := from_group_turned (S := S) h1 hR ht hr hb hg
  rw [e]
  unfold fromTurned
  rw [measure_drawn h0 h (by omega) (by omega) h1 hv hR hM ta tb tc, Run.ok_bind, (drawn_meet (by omega) hR ta tc).trans (if_neg hI)]
  rfl

end Rqrr
