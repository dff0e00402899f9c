import Verif.Proofs.FramedDetect

/-!
# Detection of a drawn symbol: the whole path
-/

namespace Rqrr

open Spec ImageBuffer FloatOps Spec.Placement Rounding

variable {F : Type} [FloatOps F] [Rounding F]

variable {S : Type} [ImageBuffer S] [LawfulImage S] {img0 img : PreparedImage S} {claims : Pos → Option Claim} {v : Nat}
  {M : Nat → Nat → Bool} {P : Placement}

/-- A ring in a finder pattern of the drawing is its frame. -/
theorem ring_in_frame {x0 y0 s y x : Nat} {pos : LinePosition} (h : DrawnFinder (IsBlack img0) x0 y0 s) (hs : 0 < s)
    (hf : FinderShape img0 y x pos) (hr : RingAndStone img0 y pos) (hp : InSquare x0 y0 (7 * s) (pos.right, y)) :
    InFrame x0 y0 s (pos.right, y) := by
  have hb : IsBlack img0 (pos.right, y) := hr.joined.left
  obtain ⟨p1, p2, p3, p4⟩ := id hp
  rcases (h.iff hs (by omega) (by omega) (by omega) (by omega)).1 hb with hin | hin
  · exact hin
  · exfalso
    refine no_ring_in_square hf hr (x0 := x0 + 2 * s) (y0 := y0 + 2 * s) (k := 3 * s) ?_ (fun q hq => (h.stone_region hs hin q).1 hq)
    intro q hq
    unfold InSquare at hq
    exact (h.iff hs (by omega) (by omega) (by omega) (by omega)).2 (.inr hq)

theorem square_place {a b i j : Nat} (hs : 2 ≤ P.scale) (hP : IsAxis P.right) {x0 y0 : Nat}
    (hx : P.baseX (a * P.scale) (b * P.scale) (7 * P.scale) = x0) (hy : P.baseY (a * P.scale) (b * P.scale) (7 * P.scale) = y0) {p : Pos}
    (i1 : a * P.scale ≤ i) (i2 : i < (a + 7) * P.scale) (j1 : b * P.scale ≤ j) (j2 : j < (b + 7) * P.scale) (hp : P.pixel i j = ⟨p.1, p.2⟩) :
    InSquare x0 y0 (7 * P.scale) p := by
  have ca : (a : Int) * P.scale = ((a * P.scale : Nat) : Int) := by push_cast; rfl
  have cb : (b : Int) * P.scale = ((b * P.scale : Nat) : Int) := by push_cast; rfl
  rw [Nat.add_mul] at i2 j2
  have := (mem_square hP (i0 := a * P.scale) (j0 := b * P.scale) (k := 7 * P.scale) (i := i) (j := j) (by omega)).1
    ⟨by omega, by omega, by omega, by omega⟩
  rw [hx, hy, hp] at this
  unfold InSquare
  dsimp only at this
  omega

/-- At most three capstones. -/
theorem at_most_three {p1 p2 p3 : Pos → Prop} {places : List (Nat × LinePosition)}
    (hin : ∀ k ∈ places, p1 (k.2.right, k.1) ∨ p2 (k.2.right, k.1) ∨ p3 (k.2.right, k.1)) {R : Pos → Pos → Prop}
    (h1 : ∀ a b, p1 a → p1 b → R a b) (h2 : ∀ a b, p2 a → p2 b → R a b) (h3 : ∀ a b, p3 a → p3 b → R a b)
    (hp : places.Pairwise fun k k' => ¬ R (k.2.right, k.1) (k'.2.right, k'.1)) : places.length ≤ 3 := by
  classical
  let label : Nat × LinePosition → Fin 3 := fun k => if p1 (k.2.right, k.1) then 0 else if p2 (k.2.right, k.1) then 1 else 2
  have hnd : (places.map label).Nodup := by
    rw [List.Nodup, List.pairwise_map]
    refine List.Pairwise.imp_of_mem ?_ hp
    intro a b ha hb hab heq
    have ia := hin a ha
    have ib := hin b hb
    simp only [label] at heq
    by_cases a1 : p1 (a.2.right, a.1) <;> by_cases b1 : p1 (b.2.right, b.1)
    · exact hab (h1 _ _ a1 b1)
    · rw [if_pos a1, if_neg b1] at heq
      split at heq <;> simp at heq
    · rw [if_neg a1, if_pos b1] at heq
      split at heq <;> simp at heq
    · rw [if_neg a1, if_neg b1] at heq
      by_cases a2 : p2 (a.2.right, a.1) <;> by_cases b2 : p2 (b.2.right, b.1)
      · exact hab (h2 _ _ a2 b2)
      · rw [if_pos a2, if_neg b2] at heq; simp at heq
      · rw [if_neg a2, if_pos b2] at heq; simp at heq
      · exact hab (h3 _ _ (by rcases ia with h | h | h; exact absurd h a1; exact absurd h a2; exact h)
          (by rcases ib with h | h | h; exact absurd h b1; exact absurd h b2; exact h))
  have := hnd.length_le_card
  rw [List.length_map, Fintype.card_fin] at this
  exact this

omit [FloatOps F] [Rounding F] in
theorem cap_index {caps : List (CapStone F)} {c : CapStone F} (h : c ∈ caps) : ∃ i : Nat, caps[i]? = some c := List.mem_iff_getElem?.1 h

/-- The search finds three capstones in a drawing, those of its finder patterns. -/
theorem capstones_drawn (h0 : Fresh img0) (hw : width img0.buffer ≤ 32768) (hh : height img0.buffer ≤ 32768)
    (h1 : 1 ≤ v) (hR : Renders img0 (side v) M P) (hM : Patterned v M) (hO : OnlyFinders img0 (side v) P) :
    ∃ claims img caps t r b ct cr cb, capstones_from_image F img0 = .ok (img, caps) ∧ History img0 claims img ∧
      ThreeCaps P ((side v - 7) * P.scale) caps t r b ct cr cb ∧
      ∀ p, claims p ≠ none → ∀ x0 y0 k, (∀ q, InSquare x0 y0 k q → IsBlack img0 q) → ¬ ∀ q, Reach (IsBlack img0) p q ↔ InSquare x0 y0 k q := by
  have hn : side v = 17 + 4 * v := rfl
  have hs := hR.scale
  obtain ⟨hs', -, -, -, -⟩ := drawn_scale (by omega) hR
  have hmul : side v * P.scale = (side v - 7) * P.scale + 7 * P.scale := by rw [← Nat.add_mul]; congr 1; omega
  have hwpos : 0 < width img0.buffer := by
    have := hR.inside 0 0 (by omega) (by omega)
    omega
  obtain ⟨claims, img, caps, e, hist, ⟨places, hall, hpw⟩, hclaimed, hcomplete⟩ := C51_search (F := F) h0 hw hh hwpos C51_centres
  have F1 : FinderPlace (side v) 0 0 := .inl ⟨rfl, rfl⟩
  have F2 : FinderPlace (side v) (side v - 7) 0 := .inr (.inl ⟨rfl, rfl⟩)
  have F3 : FinderPlace (side v) 0 (side v - 7) := .inr (.inr ⟨rfl, rfl⟩)
  obtain ⟨x1, y1, bx1, by1, D1⟩ := finder_drawn h1 hR hM F1
  obtain ⟨x2, y2, bx2, by2, D2⟩ := finder_drawn h1 hR hM F2
  obtain ⟨x3, y3, bx3, by3, D3⟩ := finder_drawn h1 hR hM F3
  have spos : 0 < P.scale := by omega
  -- at most three
  have hlen : caps.length ≤ 3 := by
    rw [← hall.length_eq]
    refine at_most_three (p1 := InFrame x1 y1 P.scale) (p2 := InFrame x2 y2 P.scale) (p3 := InFrame x3 y3 P.scale) (R := Reach (IsBlack img0)) ?_
      (fun a b ha hb => (D1.frame_region spos ha b).2 hb) (fun a b ha hb => (D2.frame_region spos ha b).2 hb)
      (fun a b ha hb => (D3.frame_region spos ha b).2 hb) hpw
    intro k hk
    obtain ⟨idx, hidx, rfl⟩ := List.mem_iff_getElem.1 hk
    obtain ⟨⟨⟨x, hshape⟩, hring, -, -, -⟩, -⟩ := List.Forall₂.get hall hidx (by rw [← hall.length_eq]; exact hidx)
    simp only [List.get_eq_getElem] at hshape hring
    obtain ⟨a, b, hab, i, j, i1, i2, j1, j2, hp⟩ := hO _ _ _ hshape hring
    rcases hab with ⟨rfl, rfl⟩ | ⟨rfl, rfl⟩ | ⟨rfl, rfl⟩
    · exact .inl (ring_in_frame D1 spos hshape hring (square_place hs hR.axis bx1 by1 i1 i2 j1 j2 hp))
    · exact .inr (.inl (ring_in_frame D2 spos hshape hring (square_place hs hR.axis bx2 by2 i1 i2 j1 j2 hp)))
    · exact .inr (.inr (ring_in_frame D3 spos hshape hring (square_place hs hR.axis bx3 by3 i1 i2 j1 j2 hp)))
  -- each finder pattern has one
  have bound : ∀ {a b x0 y0 : Nat}, a + 7 ≤ side v → b + 7 ≤ side v → P.baseX (a * P.scale) (b * P.scale) (7 * P.scale) = x0 →
      P.baseY (a * P.scale) (b * P.scale) (7 * P.scale) = y0 → x0 + 7 * P.scale ≤ 32768 ∧ y0 + 7 * P.scale ≤ 32768 := by
    intro a b x0 y0 ha hb hx hy
    have ha' : a * P.scale + 7 * P.scale ≤ side v * P.scale := by rw [← Nat.add_mul]; exact Nat.mul_le_mul_right _ ha
    have hb' : b * P.scale + 7 * P.scale ≤ side v * P.scale := by rw [← Nat.add_mul]; exact Nat.mul_le_mul_right _ hb
    have := hR.inside (a * P.scale) (b * P.scale) (by omega) (by omega)
    push_cast at this
    unfold baseX at hx
    unfold baseY at hy
    omega
  obtain ⟨u1, w1⟩ := bound (by omega) (by omega) bx1 by1
  obtain ⟨u2, w2⟩ := bound (by omega) (by omega) bx2 by2
  obtain ⟨u3, w3⟩ := bound (by omega) (by omega) bx3 by3
  obtain ⟨c1, m1, d1⟩ := drawn_found hclaimed hcomplete D1 spos u1 w1
  obtain ⟨c2, m2, d2⟩ := drawn_found hclaimed hcomplete D2 spos u2 w2
  obtain ⟨c3, m3, d3⟩ := drawn_found hclaimed hcomplete D3 spos u3 w3
  have f1 := d1.framed hR.axis spos bx1 by1 u1 w1
  have f2 := d2.framed hR.axis spos bx2 by2 u2 w2
  have f3 := d3.framed hR.axis spos bx3 by3 u3 w3
  obtain ⟨t, ht⟩ := cap_index m1
  obtain ⟨r, hr⟩ := cap_index m2
  obtain ⟨b, hb⟩ := cap_index m3
  obtain ⟨K, hKd⟩ : ∃ K, K = (side v - 7) * P.scale := ⟨_, rfl⟩
  have cK : (((side v - 7 : Nat) : Int) * P.scale) = (K : Int) := by rw [hKd]; push_cast; ring
  have c0 : (((0 : Nat) : Int) * P.scale) = 0 := by rw [Nat.cast_zero, zero_mul]
  rw [cK, c0] at f2 f3
  rw [c0] at f1
  have hKpos : 3 < K := by
    have : 14 * P.scale ≤ K := by rw [hKd]; exact Nat.mul_le_mul_right _ (by omega)
    omega
  rw [← hKd]
  have apart : ∀ {i j i' j' : Int} {c c' : CapStone F}, FramedCap P i j c → FramedCap P i' j' c' → (1 < |i - i'| ∨ 1 < |j - j'|) → c ≠ c' := by
    rintro i j i' j' c c' h h' hne rfl
    obtain ⟨e1, e2⟩ := center_diff hR.axis h h'
    rw [lt_abs, lt_abs] at hne
    rw [abs_le] at e1 e2
    rcases hR.axis with h | h | h | h <;> rw [h] at e1 e2 <;> dsimp only at e1 e2 <;> omega
  have tr : t ≠ r := by
    rintro rfl
    exact apart f1 f2 (by rw [lt_abs, lt_abs]; omega) (Option.some.inj (ht.symm.trans hr))
  have tb : t ≠ b := by
    rintro rfl
    exact apart f1 f3 (by rw [lt_abs, lt_abs]; omega) (Option.some.inj (ht.symm.trans hb))
  have rb : r ≠ b := by
    rintro rfl
    exact apart f2 f3 (by rw [lt_abs, lt_abs]; omega) (Option.some.inj (hr.symm.trans hb))
  have lt := (List.getElem?_eq_some_iff.1 ht).1
  have lr := (List.getElem?_eq_some_iff.1 hr).1
  have lb := (List.getElem?_eq_some_iff.1 hb).1
  refine ⟨claims, img, caps, t, r, b, c1, c2, c3, e, hist, ⟨by omega, tr, tb, rb, ht, hr, hb, f1, f2, f3⟩, ?_⟩
  intro p hp x0 y0 k hin hreg
  obtain ⟨c, hc⟩ := Option.ne_none_iff_exists'.1 hp
  obtain ⟨-, y, x, pos, g1, g2, g3, -⟩ := hclaimed p c hc
  exact no_ring_in_square g1 g2 hin fun q hq => (hreg q).1 (g3.symm.trans hq)

/-- The modules are read back. -/
theorem read_drawn (h0 : Fresh img0) (h : History img0 claims img) (hw : width img0.buffer ≤ 32768) (hh : height img0.buffer ≤ 32768)
    {n : Nat} (hn' : 17 ≤ n) (hn : n ≤ 199) (hR : Renders img0 n M P) {c : Perspective F} (hc : Rounded c (P.grid 0 0 P.scale))
    {y x : Nat} (hy : y < n) (hx : x < n) :
    (RefGridImage { grid_size := n, c := c } img).bit y x = .ok (M y x) := by
  obtain ⟨color, hcol, hwt, -, -⟩ := drawn_colors h0 h (by omega) (by omega) hR (by omega)
  have half : Sc (FloatOps.lit 5 1 : F) (1 / 2) 1 1 := by
    have := Sc.lit (F := F) (m := 5) (e := 1) (S := 1) (by norm_num) (by norm_num) (by norm_num)
    rwa [show ((5 : Nat) : ℚ) / 10 ^ 1 = 1 / 2 by norm_num] at this
  obtain ⟨i, j, hi, hj, e, li, lj, mid⟩ := grid_samplePoint hn' (by omega) hR hc hx hy (position_sc (by omega) half) (position_sc (by omega) half)
    (by norm_num) (by norm_num) (by norm_num) (by norm_num)
  refine Eq.trans (congrArg (· >>= _) e) ?_
  rw [Run.ok_bind, hcol, Run.ok_bind]
  have := hwt i j li lj (.inr (mid rfl rfl))
  rw [hi, hj] at this
  show Except.ok _ = _
  congr 1
  rw [Bool.eq_iff_iff, decide_eq_true_iff, this]

/-- A drawn symbol is detected, alone, and its modules are read back. -/
theorem detect_drawn (h0 : Fresh img0) (hw : width img0.buffer ≤ 32768) (hh : height img0.buffer ≤ 32768)
    (h1 : 1 ≤ v) (hv : v ≤ 40) (h21 : v ≠ 21) (hR : Renders img0 (side v) M P) (hM : Patterned v M) (hI : P.InRange (side v))
    (hO : OnlyFinders img0 (side v) P) :
    ∃ img claims c, img0.detect_grids F = .ok (img, [⟨{ grid_size := side v, c := c },
        [P.pixel 0 0, P.pixel ((side v + 1 : Nat) * P.scale) 0,
          P.pixel ((side v + 1 : Nat) * P.scale) ((side v + 1 : Nat) * P.scale), P.pixel 0 ((side v + 1 : Nat) * P.scale)]⟩]) ∧
      Rounded c (P.grid 0 0 P.scale) ∧ History img0 claims img := by
  have hn : side v = 17 + 4 * v := rfl
  have hs := hR.scale
  obtain ⟨hs', c1, c2, c3, c4⟩ := drawn_scale (by omega) hR
  obtain ⟨claims, img, caps, t, r, b, ct, cr, cb, e, hist, h3, hno⟩ := capstones_drawn (F := F) h0 hw hh h1 hR hM hO
  have hsz := renders_size hR (by omega)
  have hK14 : 14 * P.scale ≤ (side v - 7) * P.scale := Nat.mul_le_mul_right _ (by omega)
  have hK20 : (side v - 7) * P.scale ≤ side v * P.scale := Nat.mul_le_mul_right _ (by omega)
  have cK : (((side v - 7 : Nat) : Int) * P.scale) = (((side v - 7) * P.scale : Nat) : Int) := by push_cast; ring
  have fg : ∀ {claims : Pos → Option Claim} {img : PreparedImage S}, History img0 claims img →
      (∀ p, claims p ≠ none → ∀ x0 y0 k, (∀ q, InSquare x0 y0 k q → IsBlack img0 q) → ¬ ∀ q, Reach (IsBlack img0) p q ↔ InSquare x0 y0 k q) →
      ∀ {group : CapStoneGroup F}, (group = ⟨cb, ct, cr⟩ ∨ group = ⟨cr, ct, cb⟩) →
      ∃ img' claims' c, SkewedGridLocation.from_group img group =
        .ok (img', some { grid_size := side v, c := c }) ∧ Rounded c (P.grid 0 0 P.scale) ∧ History img0 claims' img' := by
    intro claims img hist hno group hg
    obtain ⟨img', claims', c, e1, e2, e3, -⟩ := from_group_drawn h0 hist hw hh h1 hv h21 hR hM h3.framed_t (by rw [cK]; exact h3.framed_r)
      (by rw [cK]; exact h3.framed_b) hI (align_free hv hR hM hno) hg
    exact ⟨img', claims', c, e1, e2, e3⟩
  obtain ⟨⟨pairs, hp1, hp2⟩, hr0, hb0⟩ := h3.rank hR.axis hs hK14 (by omega)
  have lt := (List.getElem?_eq_some_iff.1 h3.top).1
  have ho : ∀ i < caps.length, i ≠ t → find_and_rank_possible_neighbors caps i = .ok [] := by
    intro i hi hne
    rcases h3.cases (List.getElem?_eq_getElem hi) with ⟨h, -⟩ | ⟨rfl, -⟩ | ⟨rfl, -⟩
    · exact absurd h hne
    · exact hr0
    · exact hb0
  have groups : ∃ group, (group = ⟨cb, ct, cr⟩ ∨ group = ⟨cr, ct, cb⟩) ∧ img.find_groupings caps = .ok [group] := by
    have viable : ∀ group : CapStoneGroup F, (group = ⟨cb, ct, cr⟩ ∨ group = ⟨cr, ct, cb⟩) → (do
        let (_, loc) ← SkewedGridLocation.from_group img.clone group
        pure loc.isSome : Run Bool) = .ok true := by
      intro group hg
      obtain ⟨img', claims', c, e, -⟩ := fg (.clone hist) hno hg
      rw [e, Run.ok_bind]
      rfl
    rcases hp2 with hp2 | hp2
    · exact ⟨⟨cr, ct, cb⟩, .inr rfl, one_group lt h3.top h3.right h3.bottom hp1 hp2 ho (viable _ (.inr rfl))⟩
    · exact ⟨⟨cb, ct, cr⟩, .inl rfl, one_group lt h3.top h3.bottom h3.right hp1 hp2 ho (viable _ (.inl rfl))⟩
  obtain ⟨group, hg, hgr⟩ := groups
  obtain ⟨img', claims', c, e', hcr, hist'⟩ := fg hist hno hg
  refine ⟨img', claims', c, ?_, hcr, hist'⟩
  obtain ⟨N, hN⟩ : ∃ N : Nat, N = (side v + 1) * P.scale := ⟨_, rfl⟩
  have cN : (((side v + 1 : Nat) : Int) * P.scale) = (N : Int) := by rw [hN]; push_cast; ring
  have z0 : Sc (FloatOps.lit 0 0 : F) 0 201 2 := by
    have := Sc.lit (F := F) (m := 0) (e := 0) (S := 201) (by norm_num) (by norm_num) (by norm_num)
    rw [show ((0 : Nat) : ℚ) / 10 ^ 0 = 0 by norm_num] at this
    exact this.mono (le_refl _) (by norm_num) (by norm_num) (by norm_num)
  have z1 : Sc (FloatOps.add (FloatOps.ofInt ((side v : Nat) : Int)) (FloatOps.lit 1 0) : F) ((side v : Nat) + 1) 201 2 := position_sc (by omega) sc10
  obtain ⟨bx, by'⟩ := inside_le hR (i := 0) (j := 0) (by omega) (by omega)
  have sb : ((P.scale : ℚ)) ≤ 10000 := by exact_mod_cast (show P.scale ≤ 10000 by omega)
  have mp : ∀ {A B : Int} {u w : F} {U V : ℚ}, Sc u U 201 2 → Sc w V 201 2 → P.scale * U = A → P.scale * V = B → c.map u w = .ok (P.pixel A B) := by
    intro A B u w U V hu hw' eA eB
    have := grid_map hR.axis hcr (A := A) (B := B) (by positivity) sb (by norm_num) (by norm_num) (Q := 10000) (by norm_num) (by norm_num) bx by'
      hu hw' (by norm_num) (by norm_num) (by norm_num) (by rw [eA, sub_self, abs_zero]; norm_num) (by rw [eB, sub_self, abs_zero]; norm_num)
    rwa [zero_add, zero_add] at this
  have hnum : (P.scale : ℚ) * (((side v : Nat) : ℚ) + 1) = ((N : Int) : ℚ) := by rw [← cN]; push_cast; ring
  have hzero : (P.scale : ℚ) * 0 = ((0 : Int) : ℚ) := by push_cast; ring
  unfold PreparedImage.detect_grids
  rw [e, Run.ok_bind]
  dsimp only
  rw [hgr, Run.ok_bind]
  have hl : locate_groups [group] img = .ok (img', [{ grid_size := side v, c := c }]) := by
    unfold locate_groups
    show ((SkewedGridLocation.from_group img group >>= _) >>= _) = _
    rw [e', Run.ok_bind]
    rfl
  rw [hl, Run.ok_bind]
  dsimp only
  have hg1 := mp z0 z0 hzero hzero
  have hg2 := mp z1 z0 hnum hzero
  have hg3 := mp z1 z1 hnum hnum
  have hg4 := mp z0 z1 hzero hnum
  rw [cN]
  have step : ∀ {α : Type} (f : Point → Point → Point → Point → Run α),
      (do
        let b0 ← c.map (FloatOps.lit 0 0 : F) (FloatOps.lit 0 0)
        let b1 ← c.map ((FloatOps.ofInt ((side v : Nat) : Int) : F) + FloatOps.lit 1 0) (FloatOps.lit 0 0)
        let b2 ← c.map ((FloatOps.ofInt ((side v : Nat) : Int) : F) + FloatOps.lit 1 0) ((FloatOps.ofInt ((side v : Nat) : Int) : F) + FloatOps.lit 1 0)
        let b3 ← c.map (FloatOps.lit 0 0 : F) ((FloatOps.ofInt ((side v : Nat) : Int) : F) + FloatOps.lit 1 0)
        f b0 b1 b2 b3) = f (P.pixel 0 0) (P.pixel N 0) (P.pixel N N) (P.pixel 0 N) := by
    intro α f
    refine Eq.trans (congrArg (· >>= _) hg1) ?_
    rw [Run.ok_bind]
    refine Eq.trans (congrArg (· >>= _) hg2) ?_
    rw [Run.ok_bind]
    refine Eq.trans (congrArg (· >>= _) hg3) ?_
    rw [Run.ok_bind]
    refine Eq.trans (congrArg (· >>= _) hg4) ?_
    rw [Run.ok_bind]
  have := step fun b0 b1 b2 b3 => (pure ([] ++ [⟨{ grid_size := side v, c := c }, [b0, b1, b2, b3]⟩]) : Run (List (DetectedGrid F)))
  unfold forList
  refine Eq.trans (congrArg (· >>= _) (congrArg (· >>= _) this)) ?_
  rfl

omit [FloatOps F] [Rounding F] in
/-- If locating the grid panics then so does the grouping. -/
theorem group_panic {caps : List (CapStone F)} {rank : List (CapStone F) → Nat → Run (List (Nat × Nat))} {viable : CapStoneGroup F → Run Bool}
    {t f g : Nat} (ht : t < caps.length) {ct cf cg : CapStone F} (et : caps[t]? = some ct) (ef : caps[f]? = some cf) (eg : caps[g]? = some cg)
    {pairs : List (Nat × Nat)} (hr : rank caps t = .ok pairs) (hp : ∀ p, p ∈ pairs ↔ p = (f, g))
    (ho : ∀ i < caps.length, i ≠ t → rank caps i = .ok []) (hv : viable ⟨cf, ct, cg⟩ = .error .panic) :
    find_groupings_with rank viable caps = .error .panic := by
  have idxe : ∀ {i : Nat} {c : CapStone F}, caps[i]? = some c → idx caps i = .ok c := by
    intro i c h
    unfold idx
    rw [h]
  have first : forList (fun pair st => try_pair viable caps t pair st) pairs ([], []) = .error .panic := by
    cases pairs with
    | nil => exact absurd ((hp _).2 rfl) (by simp)
    | cons p ps =>
      have hpe := (hp p).1 (by simp)
      subst hpe
      unfold forList
      have e : try_pair viable caps t (f, g) ([], []) = .error .panic := by
        unfold try_pair
        dsimp only
        rw [if_neg (by simp), idxe ef, Run.ok_bind, idxe et, Run.ok_bind, idxe eg, Run.ok_bind, hv]
        rfl
      rw [e]
      rfl
  unfold find_groupings_with
  rcases forRange_spec (lo := 0) (hi := caps.length) (s := (([], []) : List Nat × List (CapStoneGroup F)))
    (f := fun i (st : List Nat × List (CapStoneGroup F)) => do
      let (used, groups) := st
      if used.contains i then pure (used, groups)
      else do
        let pairs ← rank caps i
        forList (fun pair st => try_pair viable caps i pair st) pairs (used, groups))
    (fun i st => i ≤ t ∧ st = ([], [])) (fun e => e = .panic) (Nat.zero_le _) ⟨Nat.zero_le _, rfl⟩ (by
      rintro i st - hi ⟨h1, rfl⟩
      dsimp only
      rw [if_neg (by simp)]
      by_cases h : i = t
      · subst h
        rw [hr, Run.ok_bind, first]
        exact .inr ⟨_, rfl, rfl⟩
      · rw [ho i hi h, Run.ok_bind]
        exact .inl ⟨_, rfl, by omega, rfl⟩) with ⟨st, -, h, -⟩ | ⟨e, h, rfl⟩
  · omega
  · rw [h]
    rfl

/-- A drawn symbol with too many pixels per module for its place makes the detection panic. -/
theorem detect_overflow (h0 : Fresh img0) (hw : width img0.buffer ≤ 32768) (hh : height img0.buffer ≤ 32768)
    (h1 : 1 ≤ v) (hv : v ≤ 40) (hR : Renders img0 (side v) M P) (hM : Patterned v M) (hI : ¬ P.InRange (side v))
    (hO : OnlyFinders img0 (side v) P) : img0.detect_grids F = .error .panic := by
  have hn : side v = 17 + 4 * v := rfl
  have hs := hR.scale
  obtain ⟨claims, img, caps, t, r, b, ct, cr, cb, e, hist, h3, hno⟩ := capstones_drawn (F := F) h0 hw hh h1 hR hM hO
  have hsz := renders_size hR (by omega)
  have hK14 : 14 * P.scale ≤ (side v - 7) * P.scale := Nat.mul_le_mul_right _ (by omega)
  have hK20 : (side v - 7) * P.scale ≤ side v * P.scale := Nat.mul_le_mul_right _ (by omega)
  have cK : (((side v - 7 : Nat) : Int) * P.scale) = (((side v - 7) * P.scale : Nat) : Int) := by push_cast; ring
  obtain ⟨⟨pairs, hp1, hp2⟩, hr0, hb0⟩ := h3.rank hR.axis hs hK14 (by omega)
  have lt := (List.getElem?_eq_some_iff.1 h3.top).1
  have ho : ∀ i < caps.length, i ≠ t → find_and_rank_possible_neighbors caps i = .ok [] := by
    intro i hi hne
    rcases h3.cases (List.getElem?_eq_getElem hi) with ⟨h, -⟩ | ⟨rfl, -⟩ | ⟨rfl, -⟩
    · exact absurd h hne
    · exact hr0
    · exact hb0
  have groups : img.find_groupings caps = .error .panic := by
    have viable : ∀ group : CapStoneGroup F, (group = ⟨cb, ct, cr⟩ ∨ group = ⟨cr, ct, cb⟩) → (do
        let (_, loc) ← SkewedGridLocation.from_group img.clone group
        pure loc.isSome : Run Bool) = .error .panic := by
      intro group hg
      rw [from_group_overflow h0 (.clone hist) hw hh h1 hv hR hM h3.framed_t (by rw [cK]; exact h3.framed_r) (by rw [cK]; exact h3.framed_b) hI hg]
      rfl
    rcases hp2 with hp2 | hp2
    · exact group_panic lt h3.top h3.right h3.bottom hp1 hp2 ho (viable _ (.inr rfl))
    · exact group_panic lt h3.top h3.bottom h3.right hp1 hp2 ho (viable _ (.inl rfl))
  unfold PreparedImage.detect_grids
  rw [e, Run.ok_bind]
  dsimp only
  rw [groups]
  rfl

end Rqrr
