import Verif.Proofs.BoxDetect
import Verif.Proofs.FramedAll

/-!
# Detection of a symbol drawn with modules of unequal sizes: the whole path
-/

namespace Rqrr

open Spec ImageBuffer FloatOps Spec.Placement Rounding

variable {F : Type} [FloatOps F] [Rounding F]

variable {S : Type} [ImageBuffer S] [LawfulImage S] {img0 img : PreparedImage S} {claims : Pos → Option Claim} {v : Nat}
  {M : Nat → Nat → Bool} {L : Layout}

/-- The capstone of a finder pattern of the drawing. -/
theorem Spec.Layout.Cap.of_box (hR : Stretches img0 (side v) M L) {a b : Nat} (ha : a + 7 ≤ side v) (hb : b + 7 ≤ side v) {f g : Nat → Nat}
    {cap : CapStone F} (hc : BoxCap cap f g)
    (hk : ∃ k < 4, rectCorners (f 0) (g 0) ((f 7 : Int) - 1 - f 0) ((g 7 : Int) - 1 - g 0) =
        rotateLeft4 (L.place.rect (L.column a) (L.row b) ((L.column (a + 7) : Int) - 1 - L.column a) ((L.row (b + 7) : Int) - 1 - L.row b)) k) :
    L.Cap a b cap := by
  have g1 := hR.columns.finder ha
  have g2 := hR.rows.finder hb
  have g3 := hR.columns.le ha (Nat.le_refl _)
  have g4 := hR.rows.le hb (Nat.le_refl _)
  obtain ⟨z1, z2⟩ := hR.size (by omega)
  obtain ⟨k, k4, ek⟩ := hk
  obtain ⟨k', k4', ek'⟩ := hc.corners
  refine rect_center (P := L.place) hR.axis (by omega) (by omega) (by omega) (by omega) ?_ ?_ hc.transform hc.center
  · have pnear : ∀ i j : Int, 0 ≤ i → i < L.column (side v) → 0 ≤ j → j < L.row (side v) → |(L.place.pixel i j).x| ≤ 32767 ∧ |(L.place.pixel i j).y| ≤ 32767 := by
      intro i j i0 hi j0 hj
      obtain ⟨i, rfl⟩ : ∃ k : Nat, i = k := ⟨i.toNat, by omega⟩
      obtain ⟨j, rfl⟩ : ∃ k : Nat, j = k := ⟨j.toNat, by omega⟩
      have := hR.inside i j (by omega) (by omega)
      unfold Layout.pixel at this
      rw [abs_le, abs_le]
      omega
    intro i hi
    have : i = 0 ∨ i = 1 ∨ i = 2 ∨ i = 3 := by omega
    unfold rect
    rcases this with rfl | rfl | rfl | rfl
    · exact pnear _ _ (by omega) (by omega) (by omega) (by omega)
    · exact pnear _ _ (by omega) (by omega) (by omega) (by omega)
    · exact pnear _ _ (by omega) (by omega) (by omega) (by omega)
    · exact pnear _ _ (by omega) (by omega) (by omega) (by omega)
  · refine ⟨(k + k') % 4, Nat.mod_lt _ (by norm_num), ?_⟩
    rw [ek', ek]
    have t1 : k = 0 ∨ k = 1 ∨ k = 2 ∨ k = 3 := by omega
    have t2 : k' = 0 ∨ k' = 1 ∨ k' = 2 ∨ k' = 3 := by omega
    rcases t1 with rfl | rfl | rfl | rfl <;> rcases t2 with rfl | rfl | rfl | rfl <;> rfl

/-- The search finds three capstones in a drawing, those of its finder patterns. -/
theorem capstones_stretched (h0 : Fresh img0) (hw : width img0.buffer ≤ 32768) (hh : height img0.buffer ≤ 32768)
    (h1 : 1 ≤ v) (hR : Stretches img0 (side v) M L) (hM : Patterned v M) (hO : L.Only img0 (side v)) :
    ∃ claims img caps t r b ct cr cb, capstones_from_image F img0 = .ok (img, caps) ∧ History img0 claims img ∧
      BoxThree L (side v - 7) caps t r b ct cr cb ∧
      ∀ p, claims p ≠ none → ∀ a b c d, (∀ q, InRect a b c d q → IsBlack img0 q) → ¬ ∀ q, Reach (IsBlack img0) p q ↔ InRect a b c d q := by
  have hn : side v = 17 + 4 * v := rfl
  have hwpos : 0 < width img0.buffer := by
    have z1 := hR.columns.lt (k := 0) (l := side v) (by omega) (Nat.le_refl _)
    have z2 := hR.rows.lt (k := 0) (l := side v) (by omega) (Nat.le_refl _)
    have := hR.inside 0 0 (by omega) (by omega)
    omega
  obtain ⟨claims, img, caps, e, hist, ⟨places, hall, hpw⟩, hclaimed, hcomplete⟩ := C51_search (F := F) h0 hw hh hwpos C51_centres
  have F1 : FinderPlace (side v) 0 0 := .inl ⟨rfl, rfl⟩
  have F2 : FinderPlace (side v) (side v - 7) 0 := .inr (.inl ⟨rfl, rfl⟩)
  have F3 : FinderPlace (side v) 0 (side v - 7) := .inr (.inr ⟨rfl, rfl⟩)
  obtain ⟨x1, y1, D1, u1, w1, k1, p1⟩ := finder_box h1 hR hM F1
  obtain ⟨x2, y2, D2, u2, w2, k2, p2⟩ := finder_box h1 hR hM F2
  obtain ⟨x3, y3, D3, u3, w3, k3, p3⟩ := finder_box h1 hR hM F3
  -- at most three
  have hlen : caps.length ≤ 3 := by
    rw [← hall.length_eq]
    refine at_most_three (p1 := InRing x1 y1) (p2 := InRing x2 y2) (p3 := InRing x3 y3) (R := Reach (IsBlack img0)) ?_
      (fun a b ha hb => (D1.ring_region ha b).2 hb) (fun a b ha hb => (D2.ring_region ha b).2 hb)
      (fun a b ha hb => (D3.ring_region ha b).2 hb) hpw
    intro k hk
    obtain ⟨idx, hidx, rfl⟩ := List.mem_iff_getElem.1 hk
    obtain ⟨⟨⟨x, hshape⟩, hring, -, -, -⟩, -⟩ := List.Forall₂.get hall hidx (by rw [← hall.length_eq]; exact hidx)
    simp only [List.get_eq_getElem] at hshape hring
    obtain ⟨a, b, hab, i, j, i1, i2, j1, j2, hp⟩ := hO _ _ _ hshape hring
    rcases hab with ⟨rfl, rfl⟩ | ⟨rfl, rfl⟩ | ⟨rfl, rfl⟩
    · exact .inl (ring_in_box D1 hshape hring (p1 _ i j i1 i2 j1 j2 hp))
    · exact .inr (.inl (ring_in_box D2 hshape hring (p2 _ i j i1 i2 j1 j2 hp)))
    · exact .inr (.inr (ring_in_box D3 hshape hring (p3 _ i j i1 i2 j1 j2 hp)))
  -- each finder pattern has one
  obtain ⟨c1, m1, d1⟩ := box_found hclaimed hcomplete D1 (by omega) (by omega)
  obtain ⟨c2, m2, d2⟩ := box_found hclaimed hcomplete D2 (by omega) (by omega)
  obtain ⟨c3, m3, d3⟩ := box_found hclaimed hcomplete D3 (by omega) (by omega)
  have f1 := Layout.Cap.of_box hR (by omega) (by omega) d1 k1
  have f2 := Layout.Cap.of_box hR (by omega) (by omega) d2 k2
  have f3 := Layout.Cap.of_box hR (by omega) (by omega) d3 k3
  obtain ⟨t, ht⟩ := cap_index m1
  obtain ⟨r, hr⟩ := cap_index m2
  obtain ⟨b, hb⟩ := cap_index m3
  obtain ⟨N, hN⟩ : ∃ N, N = side v - 7 := ⟨_, rfl⟩
  rw [← hN] at f2 f3 ⊢
  have eN : N + 7 = side v := by omega
  have g1 := hR.columns.lt (k := 7) (l := N) (by omega) (by omega)
  have g2 := hR.rows.lt (k := 7) (l := N) (by omega) (by omega)
  have g3 := hR.columns.finder (a := N) (by omega)
  have g4 := hR.rows.finder (a := N) (by omega)
  obtain ⟨it, jt, et, -, -, kt1, kt2, kt3, kt4⟩ := f1.centre hR (by omega) (by omega)
  obtain ⟨ir, jr, er, -, -, kr1, kr2, kr3, kr4⟩ := f2.centre hR (by omega) (by omega)
  obtain ⟨ib, jb, eb, -, -, kb1, kb2, kb3, kb4⟩ := f3.centre hR (by omega) (by omega)
  obtain ⟨q1, q2⟩ := hR.first
  have apart : ∀ {i j i' j' : Nat}, L.pixel i j = L.pixel i' j' → i = i' ∧ j = j' := by
    intro i j i' j' h
    unfold Layout.pixel pixel Layout.place at h
    rw [Point.mk.injEq] at h
    rcases hR.axis with g | g | g | g <;> rw [g] at h <;> dsimp only at h <;> omega
  rw [Nat.zero_add] at kt1 kt2 kt3 kt4 kr3 kr4 kb1 kb2
  have tr : t ≠ r := by
    rintro rfl
    rw [Option.some.inj (ht.symm.trans hr)] at et
    have := apart (et.symm.trans er)
    omega
  have tb : t ≠ b := by
    rintro rfl
    rw [Option.some.inj (ht.symm.trans hb)] at et
    have := apart (et.symm.trans eb)
    omega
  have rb : r ≠ b := by
    rintro rfl
    rw [Option.some.inj (hr.symm.trans hb)] at er
    have := apart (er.symm.trans eb)
    omega
  have lt := (List.getElem?_eq_some_iff.1 ht).1
  have lr := (List.getElem?_eq_some_iff.1 hr).1
  have lb := (List.getElem?_eq_some_iff.1 hb).1
  refine ⟨claims, img, caps, t, r, b, c1, c2, c3, e, hist, ⟨by omega, tr, tb, rb, ht, hr, hb, f1, f2, f3⟩, ?_⟩
  intro p hp xa xb ya yb hin hreg
  obtain ⟨c, hc⟩ := Option.ne_none_iff_exists'.1 hp
  obtain ⟨-, y, x, pos, g1, g2, g3, -⟩ := hclaimed p c hc
  exact no_ring_in_rect g1 g2 hin fun q hq => (hreg q).1 (g3.symm.trans hq)

/-- The modules are read back. -/
theorem read_stretched (h0 : Fresh img0) (h : History img0 claims img) (hw : width img0.buffer ≤ 32768) (hh : height img0.buffer ≤ 32768)
    {n N : Nat} (hN : N + 7 = n) (h14 : 14 ≤ N) (hn : n ≤ 199) (hR : Stretches img0 n M L) {c : Perspective F}
    (hc : Rounded c (L.place.mesh 0 0 (((L.column N : Int) : ℚ) / ((N : Int) : ℚ)) (((L.row N : Int) : ℚ) / ((N : Int) : ℚ))))
    {y x : Nat} (hy : y < n) (hx : x < n) :
    (RefGridImage { grid_size := n, c := c } img).bit y x = .ok (M y x) := by
  obtain ⟨color, hcol, hwt, -⟩ := stretched_colors h0 h (by omega) (by omega) hR (by omega)
  have half : Sc (FloatOps.lit 5 1 : F) (1 / 2) 1 1 := by
    have := Sc.lit (F := F) (m := 5) (e := 1) (S := 1) (by norm_num) (by norm_num) (by norm_num)
    rwa [show ((5 : Nat) : ℚ) / 10 ^ 1 = 1 / 2 by norm_num] at this
  obtain ⟨i, j, hij, e⟩ := mesh_samplePoint hR hN h14 (by omega) hc hx hy (position_sc (by omega) half) (position_sc (by omega) half)
    (by norm_num) (by norm_num) (by norm_num) (by norm_num)
  refine Eq.trans (congrArg (· >>= _) e) ?_
  rw [Run.ok_bind, hcol, Run.ok_bind]
  have := hwt x y i j hx hy hij
  show Except.ok _ = _
  congr 1
  rw [Bool.eq_iff_iff, decide_eq_true_iff, this]

/-- A symbol drawn with modules of unequal sizes is detected, alone. -/
theorem detect_stretched (h0 : Fresh img0) (hw : width img0.buffer ≤ 32768) (hh : height img0.buffer ≤ 32768)
    (h1 : 1 ≤ v) (hv : v ≤ 40) (h21 : v ≠ 21) (hR : Stretches img0 (side v) M L) (hM : Patterned v M) (hI : L.InRange (side v))
    (hO : L.Only img0 (side v)) :
    ∃ img claims c bounds, img0.detect_grids F = .ok (img, [⟨{ grid_size := side v, c := c }, bounds⟩]) ∧ L.Bounds (side v) bounds ∧
      Rounded c (L.place.mesh 0 0 (((L.column (side v - 7) : Int) : ℚ) / ((side v - 7 : Nat) : Int)) (((L.row (side v - 7) : Int) : ℚ) / ((side v - 7 : Nat) : Int))) ∧
      History img0 claims img := by
  have hn : side v = 17 + 4 * v := rfl
  obtain ⟨claims, img, caps, t, r, b, ct, cr, cb, e, hist, h3, hno⟩ := capstones_stretched (F := F) h0 hw hh h1 hR hM hO
  have fg : ∀ {claims : Pos → Option Claim} {img : PreparedImage S}, History img0 claims img →
      (∀ p, claims p ≠ none → ∀ a b c d, (∀ q, InRect a b c d q → IsBlack img0 q) → ¬ ∀ q, Reach (IsBlack img0) p q ↔ InRect a b c d q) →
      ∀ {group : CapStoneGroup F}, (group = ⟨cb, ct, cr⟩ ∨ group = ⟨cr, ct, cb⟩) →
      ∃ img' claims' c, SkewedGridLocation.from_group img group =
        .ok (img', some { grid_size := side v, c := c }) ∧
        Rounded c (L.place.mesh 0 0 (((L.column (side v - 7) : Int) : ℚ) / ((side v - 7 : Nat) : Int)) (((L.row (side v - 7) : Int) : ℚ) / ((side v - 7 : Nat) : Int))) ∧
        History img0 claims' img' := by
    intro claims img hist hno group hg
    obtain ⟨img', claims', c, e1, e2, e3, -⟩ := from_group_stretched h0 hist hw hh h1 hv h21 hR hM h3.cap_t h3.cap_r h3.cap_b hI
      (align_free_box hv hR hM hno) hg
    exact ⟨img', claims', c, e1, e2, e3⟩
  obtain ⟨⟨pairs, hp1, hp2⟩, hr0, hb0⟩ := h3.rank hR (by omega) (by omega) (by omega)
  have lt := (List.getElem?_eq_some_iff.1 h3.top).1
  have ho : ∀ i < caps.length, i ≠ t → find_and_rank_possible_neighbors caps i = .ok [] := by
    intro i hi hne
    rcases h3.cases (List.getElem?_eq_getElem hi) with ⟨h, -⟩ | ⟨rfl, -⟩ | ⟨rfl, -⟩
    · exact absurd h hne
    · exact hr0
    · exact hb0
  have groups : ∃ group, (group = ⟨cb, ct, cr⟩ ∨ group = ⟨cr, ct, cb⟩) ∧ img.find_groupings caps = .ok [group] := by
    have viable : ∀ group : CapStoneGroup F, (group = ⟨cb, ct, cr⟩ ∨ group = ⟨cr, ct, cb⟩) → (do
        let (_, loc) ← SkewedGridLocation.from_group img.clone group
        pure loc.isSome : Run Bool) = .ok true := by
      intro group hg
      obtain ⟨img', claims', c, e, -⟩ := fg (.clone hist) hno hg
      rw [e, Run.ok_bind]
      rfl
    rcases hp2 with hp2 | hp2
    · exact ⟨⟨cr, ct, cb⟩, .inr rfl, one_group lt h3.top h3.right h3.bottom hp1 hp2 ho (viable _ (.inr rfl))⟩
    · exact ⟨⟨cb, ct, cr⟩, .inl rfl, one_group lt h3.top h3.bottom h3.right hp1 hp2 ho (viable _ (.inl rfl))⟩
  obtain ⟨group, hg, hgr⟩ := groups
  obtain ⟨img', claims', c, e', hcr, hist'⟩ := fg hist hno hg
  have z0 : Sc (FloatOps.lit 0 0 : F) 0 201 2 := by
    have := Sc.lit (F := F) (m := 0) (e := 0) (S := 201) (by norm_num) (by norm_num) (by norm_num)
    rw [show ((0 : Nat) : ℚ) / 10 ^ 0 = 0 by norm_num] at this
    exact this.mono (le_refl _) (by norm_num) (by norm_num) (by norm_num)
  have z1 : Sc (FloatOps.add (FloatOps.ofInt ((side v : Nat) : Int)) (FloatOps.lit 1 0) : F) ((side v : Nat) + 1) 201 2 := position_sc (by omega) sc10
  have x1 := hR.columns.lt (k := 0) (l := side v) (by omega) (Nat.le_refl _)
  have x2 := hR.rows.lt (k := 0) (l := side v) (by omega) (Nat.le_refl _)
  obtain ⟨bx, by'⟩ := hR.inside' (i := 0) (j := 0) (by omega) (by omega)
  obtain ⟨t0, t1, s0, s1⟩ := hR.whole (N := side v - 7) (by omega) (by omega)
  obtain ⟨τ, hτ⟩ : ∃ τ : ℚ, τ = ((L.column (side v - 7) : Int) : ℚ) / ((side v - 7 : Nat) : Int) := ⟨_, rfl⟩
  obtain ⟨σ, hσ⟩ : ∃ σ : ℚ, σ = ((L.row (side v - 7) : Int) : ℚ) / ((side v - 7 : Nat) : Int) := ⟨_, rfl⟩
  have cτ : (L.column (side v - 7) : ℚ) / ((side v - 7 : Nat) : ℚ) = τ := by rw [hτ, Int.cast_natCast, Int.cast_natCast]
  have cσ : (L.row (side v - 7) : ℚ) / ((side v - 7 : Nat) : ℚ) = σ := by rw [hσ, Int.cast_natCast, Int.cast_natCast]
  rw [← hτ] at t0 t1 hcr ⊢
  rw [← hσ] at s0 s1 hcr ⊢
  have mp : ∀ {u w : F} {U V : ℚ}, Sc u U 201 2 → Sc w V 201 2 → ∃ A B : Int, c.map u w = .ok (L.pixel A B) ∧ |(A : ℚ) - τ * U| ≤ 41 / 80 ∧
      |(B : ℚ) - σ * V| ≤ 41 / 80 := by
    intro u w U V hu hw'
    obtain ⟨A, B, e, eA, eB⟩ := mesh_near hR.axis hcr (T := 10000) (Q := 10000) t0 t1 s0 s1 (by norm_num) (by norm_num) (by norm_num) (by norm_num) bx by'
      hu hw' (by norm_num) (by norm_num) (by norm_num)
    exact ⟨A, B, by rw [zero_add, zero_add] at e; exact e, eA, eB⟩
  have zero : ∀ {A : Int} {τ : ℚ}, |(A : ℚ) - τ * 0| ≤ 41 / 80 → A = 0 := by
    intro A τ h
    rw [mul_zero, sub_zero, abs_le] at h
    have l1 : (A : ℚ) < 1 := by linarith
    have l2 : (-1 : ℚ) < A := by linarith
    have l1' : A < 1 := by exact_mod_cast l1
    have l2' : -1 < A := by exact_mod_cast l2
    omega
  have lt1 : ∀ {A : Int} {τ : ℚ}, |(A : ℚ) - τ * ((side v : Nat) + 1)| ≤ 41 / 80 → |(A : ℚ) - ((side v : Nat) + 1) * τ| < 1 := by
    intro A τ h
    rw [mul_comm (_ + 1)]
    linarith
  obtain ⟨A1, B1, hg1, a1, b1⟩ := mp z0 z0
  obtain ⟨A2, B2, hg2, a2, b2⟩ := mp z1 z0
  obtain ⟨A3, B3, hg3, a3, b3⟩ := mp z1 z1
  obtain ⟨A4, B4, hg4, a4, b4⟩ := mp z0 z1
  obtain rfl := zero a1
  obtain rfl := zero b1
  obtain rfl := zero b2
  obtain rfl := zero a4
  refine ⟨img', claims', c, _, ?_, ⟨A2, A3, B3, B4, rfl, ?_, ?_, ?_, ?_⟩, hcr, hist'⟩
  rotate_left
  · rw [cτ]; exact lt1 a2
  · rw [cτ]; exact lt1 a3
  · rw [cσ]; exact lt1 b3
  · rw [cσ]; exact lt1 b4
  unfold PreparedImage.detect_grids
  rw [e, Run.ok_bind]
  dsimp only
  rw [hgr, Run.ok_bind]
  have hl : locate_groups [group] img = .ok (img', [{ grid_size := side v, c := c }]) := by
    unfold locate_groups
    show ((SkewedGridLocation.from_group img group >>= _) >>= _) = _
    rw [e', Run.ok_bind]
    rfl
  rw [hl, Run.ok_bind]
  dsimp only
  have step : ∀ {α : Type} (f : Point → Point → Point → Point → Run α),
      (do
        let b0 ← c.map (FloatOps.lit 0 0 : F) (FloatOps.lit 0 0)
        let b1 ← c.map ((FloatOps.ofInt ((side v : Nat) : Int) : F) + FloatOps.lit 1 0) (FloatOps.lit 0 0)
        let b2 ← c.map ((FloatOps.ofInt ((side v : Nat) : Int) : F) + FloatOps.lit 1 0) ((FloatOps.ofInt ((side v : Nat) : Int) : F) + FloatOps.lit 1 0)
        let b3 ← c.map (FloatOps.lit 0 0 : F) ((FloatOps.ofInt ((side v : Nat) : Int) : F) + FloatOps.lit 1 0)
        f b0 b1 b2 b3) = f (L.pixel 0 0) (L.pixel A2 0) (L.pixel A3 B3) (L.pixel 0 B4) := by
    intro α f
    refine Eq.trans (congrArg (· >>= _) hg1) ?_
    rw [Run.ok_bind]
    refine Eq.trans (congrArg (· >>= _) hg2) ?_
    rw [Run.ok_bind]
    refine Eq.trans (congrArg (· >>= _) hg3) ?_
    rw [Run.ok_bind]
    refine Eq.trans (congrArg (· >>= _) hg4) ?_
    rw [Run.ok_bind]
  have := step fun b0 b1 b2 b3 => (pure ([] ++ [⟨{ grid_size := side v, c := c }, [b0, b1, b2, b3]⟩]) : Run (List (DetectedGrid F)))
  unfold forList
  refine Eq.trans (congrArg (· >>= _) (congrArg (· >>= _) this)) ?_
  rfl

/-- Modules too large for the place make the detection panic. -/
theorem detect_stretched_overflow (h0 : Fresh img0) (hw : width img0.buffer ≤ 32768) (hh : height img0.buffer ≤ 32768)
    (h1 : 1 ≤ v) (hv : v ≤ 40) (hR : Stretches img0 (side v) M L) (hM : Patterned v M) (hI : ¬ L.InRange (side v))
    (hO : L.Only img0 (side v)) : img0.detect_grids F = .error .panic := by
  have hn : side v = 17 + 4 * v := rfl
  obtain ⟨claims, img, caps, t, r, b, ct, cr, cb, e, hist, h3, hno⟩ := capstones_stretched (F := F) h0 hw hh h1 hR hM hO
  obtain ⟨⟨pairs, hp1, hp2⟩, hr0, hb0⟩ := h3.rank hR (by omega) (by omega) (by omega)
  have lt := (List.getElem?_eq_some_iff.1 h3.top).1
  have ho : ∀ i < caps.length, i ≠ t → find_and_rank_possible_neighbors caps i = .ok [] := by
    intro i hi hne
    rcases h3.cases (List.getElem?_eq_getElem hi) with ⟨h, -⟩ | ⟨rfl, -⟩ | ⟨rfl, -⟩
    · exact absurd h hne
    · exact hr0
    · exact hb0
  have groups : img.find_groupings caps = .error .panic := by
    have viable : ∀ group : CapStoneGroup F, (group = ⟨cb, ct, cr⟩ ∨ group = ⟨cr, ct, cb⟩) → (do
        let (_, loc) ← SkewedGridLocation.from_group img.clone group
        pure loc.isSome : Run Bool) = .error .panic := by
      intro group hg
      rw [from_group_stretched_overflow h0 (.clone hist) hw hh h1 hv hR hM h3.cap_t h3.cap_r h3.cap_b hI hg]
      rfl
    rcases hp2 with hp2 | hp2
    · exact group_panic lt h3.top h3.right h3.bottom hp1 hp2 ho (viable _ (.inr rfl))
    · exact group_panic lt h3.top h3.bottom h3.right hp1 hp2 ho (viable _ (.inl rfl))
  unfold PreparedImage.detect_grids
  rw [e, Run.ok_bind]
  dsimp only
  rw [groups]
  rfl

end Rqrr
