import Verif.Proofs.BoxAlign
import Verif.Proofs.BoxFit
import Verif.Proofs.FramedDetect

/-!
# Detection of a symbol drawn with modules of unequal sizes
-/

namespace Rqrr

open Spec ImageBuffer FloatOps Spec.Placement Rounding

variable {F : Type} [FloatOps F] [Rounding F]

variable {S : Type} [ImageBuffer S] [LawfulImage S] {img0 img : PreparedImage S} {claims : Pos → Option Claim} {n v : Nat}
  {M : Nat → Nat → Bool} {L : Layout}

omit [Rounding F] in
/-- The centre of a finder pattern. -/
theorem Spec.Layout.Cap.centre (hR : Stretches img0 n M L) {a b : Nat} (ha : a + 7 ≤ n) (hb : b + 7 ≤ n) {c : CapStone F} (hc : L.Cap a b c) :
    ∃ i j : Nat, c.center = L.pixel i j ∧ i < L.column n ∧ j < L.row n ∧
      (L.column a : Int) + L.column (a + 7) ≤ 2 * i + 2 ∧ (2 * i : Int) ≤ L.column a + L.column (a + 7) ∧
      (L.row b : Int) + L.row (b + 7) ≤ 2 * j + 2 ∧ (2 * j : Int) ≤ L.row b + L.row (b + 7) := by
  obtain ⟨i, j, e, h1, h2⟩ := hc.center
  have f1 := hR.columns.finder ha
  have f2 := hR.rows.finder hb
  have l1 := hR.columns.le ha (Nat.le_refl _)
  have l2 := hR.rows.le hb (Nat.le_refl _)
  rw [abs_le] at h1 h2
  obtain ⟨i, rfl⟩ : ∃ k : Nat, i = k := ⟨i.toNat, by omega⟩
  obtain ⟨j, rfl⟩ : ∃ k : Nat, j = k := ⟨j.toNat, by omega⟩
  exact ⟨i, j, e, by omega, by omega, by omega, by omega, by omega, by omega⟩

/-- The steps of locating the grid, once the capstones are turned. -/
theorem located_stretched (h0 : Fresh img0) (h : History img0 claims img) (hw : width img0.buffer ≤ 32768) (hh : height img0.buffer ≤ 32768)
    (h1 : 1 ≤ v) (hv : v ≤ 40) (h21 : v ≠ 21) (hR : Stretches img0 (side v) M L) (hM : Patterned v M) {g : CapStoneGroup F}
    (ha : BoxTurned L 0 (side v - 7) g.a) (hb : BoxTurned L 0 0 g.b) (hc : BoxTurned L (side v - 7) 0 g.c)
    {hd : Point} (hnear : Near hd) (hpc : 0 < perColumn L.place hd) (hpr : 0 < perRow L.place hd) (hI : L.InRange (side v))
    (hno : 2 ≤ v → ∀ p : Pos, L.pixel (L.column (side v - 7)) (L.row (side v - 7)) = ⟨p.1, p.2⟩ → claims p = none) :
    ∃ img' claims' c, fromTurned img g hd = .ok (img', some { grid_size := side v, c := c }) ∧
      Rounded c (L.place.mesh 0 0 (((L.column (side v - 7) : Int) : ℚ) / ((side v - 7 : Nat) : Int)) (((L.row (side v - 7) : Int) : ℚ) / ((side v - 7 : Nat) : Int))) ∧
      History img0 claims' img' ∧ (∀ p, claims' p ≠ none → claims p ≠ none ∨ L.InDrawing (side v) p) := by
  have hn : side v = 17 + 4 * v := rfl
  have e3 : ∃ img' claims', (if side v > 21 then claim_alignment img (L.pixel (L.column (side v - 7)) (L.row (side v - 7))) g.a g.c hd
        else pure (img, some (L.pixel (L.column (side v - 7)) (L.row (side v - 7)))) : Run (PreparedImage S × Option Point)) =
        .ok (img', some (L.pixel (L.column (side v - 7)) (L.row (side v - 7)))) ∧ History img0 claims' img' ∧
        (∀ p, claims' p ≠ none → claims p ≠ none ∨ L.InDrawing (side v) p) := by
    by_cases hgt : side v > 21
    · rw [if_pos hgt]
      exact align_stretched h0 h hw hh (by omega) hv hR hM ha hc hnear hpc hpr hno
    · rw [if_neg hgt]
      exact ⟨img, claims, rfl, h, fun _ => .inl⟩
  obtain ⟨img', claims', e3, hist, keep⟩ := e3
  obtain ⟨c, ec, hc'⟩ := setup_stretched h0 hist (by omega) (by omega) h1 hv h21 hR hM ha hb hc
  refine ⟨img', claims', c, ?_, hc', hist, keep⟩
  unfold fromTurned
  rw [measure_stretched h0 h (by omega) (by omega) h1 hv hR hM ha hb hc, Run.ok_bind, (stretched_meet (by omega) hR ha hc).trans (if_pos hI), Run.ok_bind]
  dsimp only
  rw [e3, Run.ok_bind]
  dsimp only
  rw [version_ok hn, Run.ok_bind, if_neg (by rw [show VERSION_DATA_BASE.length = 41 from rfl]; omega), ec, Run.ok_bind]
  rfl

theorem sign_box {p r x y Q : Int} (hp : 2 ≤ p) (hr : 2 ≤ r) (hQ : 4 ≤ Q) (hx : x ≤ 1) (hy : y ≤ -Q) (hpQ : p ≤ Q + 1) : p * x + r * y < 0 := by
  nlinarith [mul_nonneg (show 0 ≤ p by omega) (sub_nonneg.2 hx), mul_nonneg (show 0 ≤ r - 2 by omega) (show 0 ≤ -Q - y + Q by omega)]

/-- The three finder patterns of a drawing are turned to its frame, whichever of the outer ones comes first. -/
theorem from_group_boxed (h1 : 1 ≤ v) (hR : Stretches img0 (side v) M L) {ct cr cb : CapStone F}
    (ht : L.Cap 0 0 ct) (hr : L.Cap (side v - 7) 0 cr) (hb : L.Cap 0 (side v - 7) cb)
    {group : CapStoneGroup F} (hg : group = ⟨cb, ct, cr⟩ ∨ group = ⟨cr, ct, cb⟩) :
    ∃ (g : CapStoneGroup F) (hd : Point), (∀ img : PreparedImage S, SkewedGridLocation.from_group img group = fromTurned img g hd) ∧
      BoxTurned L 0 (side v - 7) g.a ∧ BoxTurned L 0 0 g.b ∧ BoxTurned L (side v - 7) 0 g.c ∧
      Near hd ∧ 0 < perColumn L.place hd ∧ 0 < perRow L.place hd := by
  have hn : side v = 17 + 4 * v := rfl
  obtain ⟨N, hN⟩ : ∃ N, N = side v - 7 := ⟨_, rfl⟩
  rw [← hN] at hr hb ⊢
  have eN : N + 7 = side v := by omega
  have c1 := hR.columns.finder (a := 0) (by omega)
  have c2 := hR.columns.lt (k := 7) (l := N) (by omega) (by omega)
  have c3 := hR.columns.finder (a := N) (by omega)
  have r1 := hR.rows.finder (a := 0) (by omega)
  have r2 := hR.rows.lt (k := 7) (l := N) (by omega) (by omega)
  have r3 := hR.rows.finder (a := N) (by omega)
  obtain ⟨f1, f2⟩ := hR.first
  obtain ⟨it, jt, et, it', jt', kt1, kt2, kt3, kt4⟩ := ht.centre hR (by omega) (by omega)
  obtain ⟨ir, jr, er, ir', jr', kr1, kr2, kr3, kr4⟩ := hr.centre hR (by omega) (by omega)
  obtain ⟨ib, jb, eb, ib', jb', kb1, kb2, kb3, kb4⟩ := hb.centre hR (by omega) (by omega)
  have pnear : ∀ i j : Nat, i < L.column (side v) → j < L.row (side v) → Near (L.place.pixel i j) := by
    intro i j hi hj
    have := hR.inside i j hi hj
    unfold Layout.pixel at this
    unfold Near
    rw [abs_le, abs_le]
    omega
  have cnear : ∀ {i j : Nat} {c : CapStone F}, c.center = L.pixel i j → i < L.column (side v) → j < L.row (side v) →
      0 ≤ c.center.x ∧ c.center.x ≤ 10000 ∧ 0 ≤ c.center.y ∧ c.center.y ≤ 10000 := by
    intro i j c e hi hj
    have := hR.inside i j hi hj
    rw [e]
    omega
  obtain ⟨t1, t2, t3, t4⟩ := cnear et it' jt'
  obtain ⟨r1', r2', r3', r4'⟩ := cnear er ir' jr'
  obtain ⟨b1, b2, b3, b4⟩ := cnear eb ib' jb'
  obtain ⟨hd, ehd⟩ : ∃ hd : Point, hd = ⟨cr.center.x - cb.center.x, cr.center.y - cb.center.y⟩ := ⟨_, rfl⟩
  have dx : cr.center.x - cb.center.x = hd.x := by rw [ehd]
  have dy : cr.center.y - cb.center.y = hd.y := by rw [ehd]
  have dx' : cb.center.x - cr.center.x = -hd.x := by rw [← dx]; ring
  have dy' : cb.center.y - cr.center.y = -hd.y := by rw [← dy]; ring
  have sq : L.place.right.x * L.place.right.x + L.place.right.y * L.place.right.y = 1 := by
    unfold Layout.place
    dsimp only
    rcases hR.axis with h | h | h | h <;> rw [h] <;> norm_num
  have pc : perColumn L.place hd = (jb : Int) - jr := by
    have : perColumn L.place hd = ((jb : Int) - jr) * (L.place.right.x * L.place.right.x + L.place.right.y * L.place.right.y) := by
      rw [ehd, er, eb]
      unfold perColumn Layout.pixel pixel
      dsimp only
      ring
    rw [this, sq, mul_one]
  have pr : perRow L.place hd = (ir : Int) - ib := by
    have : perRow L.place hd = ((ir : Int) - ib) * (L.place.right.x * L.place.right.x + L.place.right.y * L.place.right.y) := by
      rw [ehd, er, eb]
      unfold perRow Layout.pixel pixel
      dsimp only
      ring
    rw [this, sq, mul_one]
  have lin : ∀ (i j i' j' : Int), ((L.pixel i j).x - (L.pixel i' j').x) * -hd.y + ((L.pixel i j).y - (L.pixel i' j').y) * hd.x =
      perColumn L.place hd * (i - i') + perRow L.place hd * (j - j') := by
    intro i j i' j'
    unfold perColumn perRow Layout.pixel pixel
    dsimp only
    ring
  rw [Nat.zero_add] at c1 r1 kt1 kt2 kt3 kt4 kr3 kr4 kb1 kb2
  rw [f1, Nat.zero_add] at c1
  rw [f2, Nat.zero_add] at r1
  rw [f1, Nat.cast_zero, zero_add] at kt1 kt2 kb1 kb2
  rw [f2, Nat.cast_zero, zero_add] at kt3 kt4 kr3 kr4
  rw [eN] at kr1 kr2 kb3 kb4 c3 r3
  have hpc : 0 < perColumn L.place hd := by rw [pc]; omega
  have hpr : 0 < perRow L.place hd := by rw [pr]; omega
  have hx1 : |hd.x| ≤ 10000 := by rw [← dx, abs_le]; omega
  have hy1 : |hd.y| ≤ 10000 := by rw [← dy, abs_le]; omega
  have rot : ∀ {a b : Nat} {c : CapStone F} {o : Point}, L.Cap a b c → Near o → a + 7 ≤ side v → b + 7 ≤ side v →
      ∃ c', rotate_capstone c o hd = .ok c' ∧ BoxTurned L a b c' := by
    intro a b c o hc ho ha hb
    have g1 := hR.columns.finder ha
    have g2 := hR.rows.finder hb
    have g3 := hR.columns.le ha (Nat.le_refl _)
    have g4 := hR.rows.le hb (Nat.le_refl _)
    obtain ⟨c', e, hc'⟩ := rotate_boxed (P := L.place) hR.axis (by omega) (by omega) hc ho ⟨hx1, hy1⟩ hpc hpr (by
      intro u hu w hw'
      simp only [List.mem_cons, List.not_mem_nil, or_false] at hu hw'
      have hu' : ∃ u' : Nat, u = u' ∧ u' < L.column (side v) := by
        rcases hu with rfl | rfl
        · exact ⟨L.column a, rfl, by omega⟩
        · exact ⟨L.column (a + 7) - 1, by omega, by omega⟩
      have hw'' : ∃ w' : Nat, w = w' ∧ w' < L.row (side v) := by
        rcases hw' with rfl | rfl
        · exact ⟨L.row b, rfl, by omega⟩
        · exact ⟨L.row (b + 7) - 1, by omega, by omega⟩
      obtain ⟨u', rfl, hu'⟩ := hu'
      obtain ⟨w', rfl, hw''⟩ := hw''
      exact pnear _ _ hu' hw'')
    exact ⟨_, e, rfl, hc'⟩
  have big : ∀ {z : Int}, 0 ≤ z → z ≤ 10000 → |z| ≤ 100000 := by intro z z1 z2; rw [abs_le]; omega
  have dif : ∀ {z w : Int}, 0 ≤ z → z ≤ 10000 → 0 ≤ w → w ≤ 10000 → |z - w| ≤ 20000 := by intro z w _ _ _ _; rw [abs_le]; omega
  have hx20 : |hd.x| ≤ 20000 := hx1.trans (by norm_num)
  have hy20 : |hd.y| ≤ 20000 := hy1.trans (by norm_num)
  have hx20' : |-hd.x| ≤ 20000 := by rw [abs_neg]; exact hx20
  have hy20' : |-hd.y| ≤ 20000 := by rw [abs_neg]; exact hy20
  have hy20'' : |-(-hd.y)| ≤ 20000 := by rw [abs_neg]; exact hy20'
  rcases hg with rfl | rfl
  · have nb : Near cb.center := by unfold Near; rw [abs_le, abs_le]; omega
    obtain ⟨cb', eb', fb⟩ := rot hb nb (by omega) (by omega)
    obtain ⟨ct', et', ft⟩ := rot ht nb (by omega) (by omega)
    obtain ⟨cr', er', fr⟩ := rot hr nb (by omega) (by omega)
    refine ⟨⟨cb', ct', cr'⟩, hd, ?_, fb, ft, fr, ⟨hx1, hy1⟩, hpc, hpr⟩
    intro img
    have t : (ct.center.x - cb.center.x) * -hd.y + (ct.center.y - cb.center.y) * hd.x < 0 := by
      rw [et, eb, lin, pc, pr]
      exact sign_box (Q := (jb : Int) - jt) (by omega) (by omega) (by omega) (by omega) (by omega) (by omega)
    unfold SkewedGridLocation.from_group
    dsimp only
    rw [subI_ok (big r1' r2') (big b1 b2), Run.ok_bind, subI_ok (big r3' r4') (big b3 b4), Run.ok_bind, dx, dy, subI_ok (big t1 t2) (big b1 b2), Run.ok_bind,
      negI_ok (by omega), Run.ok_bind,
      mulI_small (dif t1 t2 b1 b2) hy20', Run.ok_bind, subI_ok (big t3 t4) (big b3 b4), Run.ok_bind, mulI_small (dif t3 t4 b3 b4) hx20, Run.ok_bind,
      addI_ok (mul_small (dif t1 t2 b1 b2) hy20') (mul_small (dif t3 t4 b3 b4) hx20), Run.ok_bind, if_neg (by omega)]
    rw [show (pure ((⟨cb, ct, cr⟩ : CapStoneGroup F), (⟨hd.x, hd.y⟩ : Point)) : Run (CapStoneGroup F × Point)) =
      .ok (⟨cb, ct, cr⟩, hd) from rfl, Run.ok_bind]
    dsimp only
    rw [eb', Run.ok_bind, et', Run.ok_bind, er', Run.ok_bind]
    unfold fromTurned
    dsimp only
    refine congrArg (_ >>= ·) (funext fun gs => congrArg (_ >>= ·) (funext fun al => ?_))
    cases al with
    | none => rfl
    | some al =>
      dsimp only
      refine congrArg (_ >>= ·) (funext fun x => ?_)
      obtain ⟨x1, x2⟩ := x
      cases x2 with
      | none => rfl
      | some x2 =>
        dsimp only
        refine congrArg (_ >>= ·) (funext fun ver => ?_)
        split
        · rfl
        · refine congrArg (_ >>= ·) (funext fun c => ?_)
          cases c <;> rfl
  · have nr : Near cr.center := by unfold Near; rw [abs_le, abs_le]; omega
    obtain ⟨cb', eb', fb⟩ := rot hb nr (by omega) (by omega)
    obtain ⟨ct', et', ft⟩ := rot ht nr (by omega) (by omega)
    obtain ⟨cr', er', fr⟩ := rot hr nr (by omega) (by omega)
    refine ⟨⟨cb', ct', cr'⟩, hd, ?_, fb, ft, fr, ⟨hx1, hy1⟩, hpc, hpr⟩
    intro img
    have t : 0 < (ct.center.x - cr.center.x) * -(-hd.y) + (ct.center.y - cr.center.y) * -hd.x := by
      have := lin it jt ir jr
      rw [et, er]
      have e : ((L.pixel it jt).x - (L.pixel ir jr).x) * -(-hd.y) + ((L.pixel it jt).y - (L.pixel ir jr).y) * -hd.x =
        -(perColumn L.place hd * ((it : Int) - ir) + perRow L.place hd * ((jt : Int) - jr)) := by rw [← this]; ring
      rw [e, pc, pr]
      have := sign_box (p := (ir : Int) - ib) (r := (jb : Int) - jr) (x := (jt : Int) - jr) (y := (it : Int) - ir) (Q := (ir : Int) - it)
        (by omega) (by omega) (by omega) (by omega) (by omega) (by omega)
      linarith
    unfold SkewedGridLocation.from_group
    dsimp only
    rw [subI_ok (big b1 b2) (big r1' r2'), Run.ok_bind, subI_ok (big b3 b4) (big r3' r4'), Run.ok_bind, dx', dy', subI_ok (big t1 t2) (big r1' r2'), Run.ok_bind,
      negI_ok (a := -hd.y) (by omega), Run.ok_bind,
      mulI_small (dif t1 t2 r1' r2') hy20'', Run.ok_bind, subI_ok (big t3 t4) (big r3' r4'), Run.ok_bind, mulI_small (dif t3 t4 r3' r4') hx20', Run.ok_bind,
      addI_ok (mul_small (dif t1 t2 r1' r2') hy20'') (mul_small (dif t3 t4 r3' r4') hx20'), Run.ok_bind, if_pos (by omega)]
    rw [negI_ok (a := -hd.x) (by omega), Run.ok_bind, neg_neg, neg_neg, Run.ok_bind]
    rw [show (pure ((⟨cb, ct, cr⟩ : CapStoneGroup F), (⟨hd.x, hd.y⟩ : Point)) : Run (CapStoneGroup F × Point)) =
      .ok (⟨cb, ct, cr⟩, hd) from rfl, Run.ok_bind]
    dsimp only
    rw [eb', Run.ok_bind, et', Run.ok_bind, er', Run.ok_bind]
    unfold fromTurned
    dsimp only
    refine congrArg (_ >>= ·) (funext fun gs => congrArg (_ >>= ·) (funext fun al => ?_))
    cases al with
    | none => rfl
    | some al =>
      dsimp only
      refine congrArg (_ >>= ·) (funext fun x => ?_)
      obtain ⟨x1, x2⟩ := x
      cases x2 with
      | none => rfl
      | some x2 =>
        dsimp only
        refine congrArg (_ >>= ·) (funext fun ver => ?_)
        split
        · rfl
        · refine congrArg (_ >>= ·) (funext fun c => ?_)
          cases c <;> rfl

/-- The grid of a drawing is found from its three finder patterns, whichever of the outer ones comes first. -/
theorem from_group_stretched (h0 : Fresh img0) (h : History img0 claims img) (hw : width img0.buffer ≤ 32768) (hh : height img0.buffer ≤ 32768)
    (h1 : 1 ≤ v) (hv : v ≤ 40) (h21 : v ≠ 21) (hR : Stretches img0 (side v) M L) (hM : Patterned v M) {ct cr cb : CapStone F}
    (ht : L.Cap 0 0 ct) (hr : L.Cap (side v - 7) 0 cr) (hb : L.Cap 0 (side v - 7) cb) (hI : L.InRange (side v))
    (hno : 2 ≤ v → ∀ p : Pos, L.pixel (L.column (side v - 7)) (L.row (side v - 7)) = ⟨p.1, p.2⟩ → claims p = none)
    {group : CapStoneGroup F} (hg : group = ⟨cb, ct, cr⟩ ∨ group = ⟨cr, ct, cb⟩) :
    ∃ img' claims' c, SkewedGridLocation.from_group img group = .ok (img', some { grid_size := side v, c := c }) ∧
      Rounded c (L.place.mesh 0 0 (((L.column (side v - 7) : Int) : ℚ) / ((side v - 7 : Nat) : Int)) (((L.row (side v - 7) : Int) : ℚ) / ((side v - 7 : Nat) : Int))) ∧
      History img0 claims' img' ∧ (∀ p, claims' p ≠ none → claims p ≠ none ∨ L.InDrawing (side v) p) := by
  obtain ⟨g, hd, e, ta, tb, tc, hn1, hn2, hn3⟩ := from_group_boxed (S := S) h1 hR ht hr hb hg
  rw [e]
  exact located_stretched h0 h hw hh h1 hv h21 hR hM ta tb tc hn1 hn2 hn3 hI hno

/-- With modules too large for the place the computation leaves the range of `i32`. -/
theorem from_group_stretched_overflow (h0 : Fresh img0) (h : History img0 claims img) (hw : width img0.buffer ≤ 32768) (hh : height img0.buffer ≤ 32768)
    (h1 : 1 ≤ v) (hv : v ≤ 40) (hR : Stretches img0 (side v) M L) (hM : Patterned v M) {ct cr cb : CapStone F}
    (ht : L.Cap 0 0 ct) (hr : L.Cap (side v - 7) 0 cr) (hb : L.Cap 0 (side v - 7) cb)
    (hI : ¬ L.InRange (side v)) {group : CapStoneGroup F} (hg : group = ⟨cb, ct, cr⟩ ∨ group = ⟨cr, ct, cb⟩) :
    SkewedGridLocation.from_group img group = .error .panic := by
  have hn : side v = 17 + 4 * v := rfl
  obtain ⟨g, hd, e, ta, tb, tc, -⟩ := from_group_boxed (S := S) h1 hR ht hr hb hg
  rw [e]
  unfold fromTurned
  rw [measure_stretched h0 h (by omega) (by omega) h1 hv hR hM ta tb tc, Run.ok_bind, (stretched_meet (by omega) hR ta tc).trans (if_neg hI)]
  rfl

end Rqrr
