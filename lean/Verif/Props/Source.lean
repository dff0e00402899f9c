import Verif.Props.Turning
import Verif.Props.Rounding
import Verif.Props.Pipeline
import Verif.Props.Dotted
import Verif.Proofs.InnerRounded

/-!
# C70: where grids come from
-/

namespace Rqrr

open Spec ImageBuffer LawfulImage

variable {F : Type} [FloatOps F] [Rounding F]

variable {S : Type} [ImageBuffer S] [LawfulImage S] {img0 img : PreparedImage S} {claims : Pos → Option Claim}

/-- The corners are pixels and go round a proper quadrilateral, for which there is a transform. -/
structure Framing (cap : CapStone F) : Prop where
  pixels : ∀ k (hk : k < 4), Pixel cap.corners[k]
  convex : WeaklyConvex cap.corners
  transform : Perspective.create cap.corners (FloatOps.lit 7 0) (FloatOps.lit 7 0) = some cap.c

theorem Framing.within {cap : CapStone F} (h : Framing cap) : Within cap.corners := by
  intro k hk
  have := h.pixels k hk
  unfold Pixel at this
  rw [abs_le, abs_le]
  omega

theorem Framing.positive {cap : CapStone F} (h : Framing cap) : 0 < area2 cap.corners[1] cap.corners[2] cap.corners[3] := by
  by_contra hc
  have := (create_turned (F := F) h.within).2 (by omega)
  rw [h.transform] at this
  cases this

theorem Framing.inner {cap : CapStone F} (h : Framing cap) {fu fv : F} {u v : ℚ} (hu : Sc fu u 7 1) (hv : Sc fv v 7 1)
    (u1 : 1 / 2 ≤ u) (u2 : u ≤ 13 / 2) (v1 : 1 / 2 ≤ v) (v2 : v ≤ 13 / 2) : ∃ p, cap.c.map fu fv = .ok p ∧ InnerPoint cap.corners u v p ∧ Pixel p := by
  obtain ⟨p, e, hp⟩ := inner_rounded h.within h.convex h.transform hu hv u1 u2 v1 v2
  refine ⟨p, e, hp, ?_⟩
  obtain ⟨x, y, rfl, hx, hy⟩ := hp
  have c0 := h.pixels 0 (by omega)
  have c1 := h.pixels 1 (by omega)
  have c2 := h.pixels 2 (by omega)
  have c3 := h.pixels 3 (by omega)
  obtain ⟨v1', v2', v3', -⟩ := h.convex
  have mx := meanOf_between (U := u / 7) (V := v / 7) v1' v2' v3' h.positive (by linarith) (by linarith) (by linarith) (by linarith)
    ⟨c0.1, c0.2.1⟩ ⟨c1.1, c1.2.1⟩ ⟨c2.1, c2.2.1⟩ ⟨c3.1, c3.2.1⟩
  have my := meanOf_between (U := u / 7) (V := v / 7) v1' v2' v3' h.positive (by linarith) (by linarith) (by linarith) (by linarith)
    c0.2.2 c1.2.2 c2.2.2 c3.2.2
  rw [abs_le] at hx hy
  have bx := nearest_between (a := 0) (b := 32767) (x := x) (by push_cast; linarith [hx.1, hx.2]) (by push_cast; linarith [hx.1, hx.2])
  have by' := nearest_between (a := 0) (b := 32767) (x := y) (by push_cast; linarith [hy.1, hy.2]) (by push_cast; linarith [hy.1, hy.2])
  exact ⟨bx.1, bx.2, by'.1, by'.2⟩

theorem pixel_moderate {p : Point} (h : Pixel p) : Moderate p := by
  unfold Pixel at h
  unfold Moderate
  omega

theorem changes_length : ∀ l : List PixelColor, colourChanges l ≤ l.length
  | [] => Nat.le_refl _
  | [_] => by unfold colourChanges; simp
  | a :: b :: l => by
    have := changes_length (b :: l)
    unfold colourChanges
    simp only [List.length_cons] at *
    split <;> omega

theorem scan_changes (hv : Valid img.buffer) (hw : 0 < width img.buffer) (hh : 0 < height img.buffer) {p q : Point} (hp : Pixel p) (hq : Pixel q) :
    ∃ n, timing_scan img p q = .ok n ∧ Changes img p q n ∧ n ≤ 32768 := by
  choose color hc using C50_never_out_of_bounds hv hw hh
  obtain ⟨l, h1, h2, -⟩ := C43_line_scan p q (pixel_moderate hp) (pixel_moderate hq)
  refine ⟨_, timing_scan_ok hc h1, ⟨color, l, hc, h1, rfl⟩, (changes_length _).trans ?_⟩
  rw [List.length_map, h2]
  unfold Pixel at hp hq
  omega

/-- **C70.** The grid size measured between any three capstones: a panic if neither line has a change of colour, and otherwise the size
for the larger number of changes. -/
theorem C70_measure (hv : Valid img.buffer) (hw : 0 < width img.buffer) (hh : 0 < height img.buffer) {a b c : CapStone F}
    (ha : Framing a) (hb : Framing b) (hc : Framing c) :
    ∃ n, Measured img a b c n ∧ measure_timing_pattern img ⟨a, b, c⟩ = if n = 0 then .error .panic else .ok (17 + 4 * ((n - 2) / 4)) := by
  obtain ⟨ta, ea, ia, pa⟩ := ha.inner (sc65 (F := F)) (sc05 (F := F)) (by norm_num) (by norm_num) (by norm_num) (by norm_num)
  obtain ⟨tb, eb, ib, pb⟩ := hb.inner (sc65 (F := F)) (sc65 (F := F)) (by norm_num) (by norm_num) (by norm_num) (by norm_num)
  obtain ⟨tc, ec, ic, pc⟩ := hc.inner (sc05 (F := F)) (sc65 (F := F)) (by norm_num) (by norm_num) (by norm_num) (by norm_num)
  obtain ⟨n1, e1, c1, l1⟩ := scan_changes hv hw hh pb pc
  obtain ⟨n2, e2, c2, l2⟩ := scan_changes hv hw hh pb pa
  refine ⟨max n1 n2, ⟨ta, tb, tc, n1, n2, ia, ib, ic, c1, c2, rfl⟩, ?_⟩
  unfold measure_timing_pattern
  rw [ea, Run.ok_bind, eb, Run.ok_bind, ec, Run.ok_bind, e1, Run.ok_bind, e2, Run.ok_bind]
  exact C46_size small_integers_rounding (by omega)

/-- The capstone turned so that the corner farthest off the line comes first (the first such corner, if there are several). -/
def TurnedOff (h0 hd : Point) (cap cap' : CapStone F) : Prop :=
  ∃ k, k < 4 ∧ (∀ j, j < 4 → offLine h0 hd (turned cap.corners k) ≤ offLine h0 hd (turned cap.corners j)) ∧
    (∀ j, j < k → offLine h0 hd (turned cap.corners k) < offLine h0 hd (turned cap.corners j)) ∧ cap'.center = cap.center ∧
    Perspective.create cap'.corners (FloatOps.lit 7 0) (FloatOps.lit 7 0) = some cap'.c ∧
    ∀ j (hj : j < 4), cap'.corners[j] = turned cap.corners (j + k)

/-- The three corners after the one farthest off the line are on one line. -/
def Degenerate (h0 hd : Point) (cap : CapStone F) : Prop :=
  ∃ k, k < 4 ∧ (∀ j, j < 4 → offLine h0 hd (turned cap.corners k) ≤ offLine h0 hd (turned cap.corners j)) ∧ nextThree cap.corners k = 0

theorem turned_convex {cap cap' : CapStone F} {h0 hd : Point} (hp : ∀ k (hk : k < 4), Pixel cap.corners[k]) (hv : WeaklyConvex cap.corners)
    (h : TurnedOff h0 hd cap cap') : Framing cap' := by
  obtain ⟨k, hk, -, -, -, e, hc⟩ := h
  refine ⟨fun j hj => ?_, ?_, e⟩
  · rw [hc j hj]; exact hp _ _
  · obtain ⟨h1, h2, h3, h4⟩ := hv
    unfold WeaklyConvex
    rw [hc 0 (by omega), hc 1 (by omega), hc 2 (by omega), hc 3 (by omega)]
    unfold turned area2 at *
    have : k = 0 ∨ k = 1 ∨ k = 2 ∨ k = 3 := by omega
    rcases this with rfl | rfl | rfl | rfl <;> norm_num <;> refine ⟨?_, ?_, ?_, ?_⟩ <;> linarith

/-- What follows after the capstones are turned. -/
def afterTurning (img : PreparedImage S) (group : CapStoneGroup F) (hd : Point) : Run (PreparedImage S × Option (SkewedGridLocation F)) := do
  let grid_size ← measure_timing_pattern img group
  let inter ← line_intersect group.a.corners[0] group.a.corners[1] group.c.corners[0] group.c.corners[3]
  match inter with
  | none => pure (img, none)
  | some align => do
    let (img, align) ← (if grid_size > 21 then claim_alignment img align group.a group.c hd else pure (img, some align) :
      Run (PreparedImage S × Option Point))
    match align with
    | none => pure (img, none)
    | some align => do
      let version ← version_from_grid_size grid_size
      if version ≥ VERSION_DATA_BASE.length then pure (img, none)
      else do
        let c ← setup_perspective img group align grid_size
        match c with
        | none => pure (img, none)
        | some c => pure (img, some { grid_size := grid_size, c := c })

theorem after_size {group : CapStoneGroup F} {hd : Point} {img' : PreparedImage S} {loc : SkewedGridLocation F}
    (h : afterTurning img group hd = .ok (img', some loc)) : measure_timing_pattern img group = .ok loc.grid_size := by
  unfold afterTurning at h
  obtain ⟨n, e, h⟩ := Run.bind_eq_ok.1 h
  rw [e]
  obtain ⟨i, -, h⟩ := Run.bind_eq_ok.1 h
  cases i with
  | none => cases h
  | some align =>
    obtain ⟨⟨img1, al⟩, -, h⟩ := Run.bind_eq_ok.1 h
    dsimp only at h
    cases al with
    | none => cases h
    | some al =>
      dsimp only at h
      obtain ⟨v, -, h⟩ := Run.bind_eq_ok.1 h
      split at h
      · cases h
      · obtain ⟨c, -, h⟩ := Run.bind_eq_ok.1 h
        cases c with
        | none => cases h
        | some c => cases h; rfl

/-- The other capstones and the direction of the line between them, such that the middle one is on the right side of it. -/
def sides (a b c : CapStone F) : CapStone F × CapStone F × Point :=
  if 0 < offLine a.center (vector a.center c.center) b.center then (c, a, vector c.center a.center)
  else (a, c, vector a.center c.center)

theorem from_group_start {a b c : CapStone F} (ha : Pixel a.center) (hb : Pixel b.center) (hc : Pixel c.center) :
    SkewedGridLocation.from_group img ⟨a, b, c⟩ = (do
      let ga ← rotate_capstone (sides a b c).1 a.center (sides a b c).2.2
      let gb ← rotate_capstone b a.center (sides a b c).2.2
      let gc ← rotate_capstone (sides a b c).2.1 a.center (sides a b c).2.2
      afterTurning img ⟨ga, gb, gc⟩ (sides a b c).2.2) := by
  have k := rotate_key_pixels (hd := vector a.center c.center) ha (by unfold Pixel at ha hc; unfold vector; rw [abs_le]; dsimp only; omega)
    (by unfold Pixel at ha hc; unfold vector; rw [abs_le]; dsimp only; omega) hb
  unfold rotate_key at k
  have key : SkewedGridLocation.from_group img ⟨a, b, c⟩ = (do
      let hdx ← subI c.center.x a.center.x
      let hdy ← subI c.center.y a.center.y
      let t ← (do
        let k1 ← mulI (← subI b.center.x a.center.x) (← negI hdy)
        let k2 ← mulI (← subI b.center.y a.center.y) hdx
        addI k1 k2)
      let (group, hd) ← (if t > 0 then do
          let nx ← negI hdx
          let ny ← negI hdy
          pure (({ a := c, b := b, c := a } : CapStoneGroup F), ({ x := nx, y := ny } : Point))
        else pure (⟨a, b, c⟩, ({ x := hdx, y := hdy } : Point)) : Run (CapStoneGroup F × Point))
      let ga ← rotate_capstone group.a a.center hd
      let gb ← rotate_capstone group.b a.center hd
      let gc ← rotate_capstone group.c a.center hd
      afterTurning img ⟨ga, gb, gc⟩ hd) := by
    simp only [Run.bind_assoc]
    rfl
  rw [key]
  unfold Pixel at ha hb hc
  have s1 : subI c.center.x a.center.x = .ok (c.center.x - a.center.x) := by unfold subI; exact chk32_ok (by omega) (by omega)
  have s2 : subI c.center.y a.center.y = .ok (c.center.y - a.center.y) := by unfold subI; exact chk32_ok (by omega) (by omega)
  have n1 : negI (c.center.x - a.center.x) = .ok (a.center.x - c.center.x) := by
    unfold negI; rw [chk32_ok (by omega) (by omega)]; congr 1; ring
  have n2 : negI (c.center.y - a.center.y) = .ok (a.center.y - c.center.y) := by
    unfold negI; rw [chk32_ok (by omega) (by omega)]; congr 1; ring
  have e : ∀ z : Int, (vector a.center c.center).x = c.center.x - a.center.x ∧ (vector a.center c.center).y = c.center.y - a.center.y := fun _ => ⟨rfl, rfl⟩
  rw [s1, Run.ok_bind, s2, Run.ok_bind]
  rw [(e 0).1, (e 0).2] at k
  rw [k, Run.ok_bind]
  unfold sides
  by_cases h : 0 < offLine a.center (vector a.center c.center) b.center
  · rw [if_pos h, if_pos h, n1, Run.ok_bind, n2, Run.ok_bind]
    rfl
  · rw [if_neg h, if_neg h]
    rfl

theorem sides_cases (a b c : CapStone F) : ((sides a b c).1 = a ∧ (sides a b c).2.1 = c ∨ (sides a b c).1 = c ∧ (sides a b c).2.1 = a) ∧
    ((sides a b c).2.2 = vector a.center c.center ∨ (sides a b c).2.2 = vector c.center a.center) := by
  unfold sides
  split
  · exact ⟨.inr ⟨rfl, rfl⟩, .inr rfl⟩
  · exact ⟨.inl ⟨rfl, rfl⟩, .inl rfl⟩

/-- Turning one of the capstones found: a panic if the corners are degenerate, and otherwise the capstone turned. -/
theorem turn_found {ya yc y : Nat} {pa pc pos : LinePosition} {a c cap : CapStone F} (hw : width img0.buffer ≤ 32768)
    (hh : height img0.buffer ≤ 32768) (ha : CapstoneAt img0 ya pa a) (hc : CapstoneAt img0 yc pc c) (h : CapstoneAt img0 y pos cap) {hd : Point}
    (hhd : hd = vector a.center c.center ∨ hd = vector c.center a.center) :
    Degenerate a.center hd cap ∧ rotate_capstone cap a.center hd = .error .panic ∨
      ∃ cap', rotate_capstone cap a.center hd = .ok cap' ∧ TurnedOff a.center hd cap cap' ∧ Framing cap' := by
  obtain ⟨k, hk, h1, h2, h3, h4⟩ := C68_found hw hh ha hc h hhd
  by_cases hz : nextThree cap.corners k = 0
  · exact .inl ⟨⟨k, hk, h1, hz⟩, h3 hz⟩
  · obtain ⟨cap', e, e1, e2, e3⟩ := h4 hz
    have ht : TurnedOff a.center hd cap cap' := ⟨k, hk, h1, h2, e1, e2, e3⟩
    exact .inr ⟨cap', e, ht, turned_convex (found_pixels hw hh h) (C42_convex h.corners) ht⟩

/-- **C70.** What is made of any three capstones found in any image. Either one of them is degenerate seen from the line between the outer
two, and locating a grid panics; or they are turned, and the changes of colour between them decide: no change is a panic, and
a grid located has the size for their number. -/
theorem C70_group (h0 : Fresh img0) (hw : width img0.buffer ≤ 32768) (hh : height img0.buffer ≤ 32768) (hpos : 0 < width img0.buffer)
    (hhp : 0 < height img0.buffer) (hH : History img0 claims img) {ya yb yc : Nat} {pa pb pc : LinePosition} {a b c : CapStone F}
    (ha : CapstoneAt img0 ya pa a) (hb : CapstoneAt img0 yb pb b) (hc : CapstoneAt img0 yc pc c) :
    ((∃ cap ∈ [a, b, c], Degenerate a.center (sides a b c).2.2 cap) ∧ SkewedGridLocation.from_group img ⟨a, b, c⟩ = .error .panic) ∨
    ∃ a' b' c' n, TurnedOff a.center (sides a b c).2.2 (sides a b c).1 a' ∧ TurnedOff a.center (sides a b c).2.2 b b' ∧
      TurnedOff a.center (sides a b c).2.2 (sides a b c).2.1 c' ∧ Measured img a' b' c' n ∧
      (n = 0 → SkewedGridLocation.from_group img ⟨a, b, c⟩ = .error .panic) ∧
      ∀ img' loc, SkewedGridLocation.from_group img ⟨a, b, c⟩ = .ok (img', some loc) → 0 < n ∧ loc.grid_size = 17 + 4 * ((n - 2) / 4) := by
  have start := from_group_start (img := img) (found_centre hw hh ha) (found_centre hw hh hb) (found_centre hw hh hc)
  obtain ⟨hs, hd⟩ := sides_cases a b c
  have fa : ∃ y p, CapstoneAt img0 y p (sides a b c).1 := by
    rcases hs with ⟨e, -⟩ | ⟨e, -⟩ <;> rw [e]
    exacts [⟨_, _, ha⟩, ⟨_, _, hc⟩]
  have fc : ∃ y p, CapstoneAt img0 y p (sides a b c).2.1 := by
    rcases hs with ⟨-, e⟩ | ⟨-, e⟩ <;> rw [e]
    exacts [⟨_, _, hc⟩, ⟨_, _, ha⟩]
  have ma : (sides a b c).1 ∈ [a, b, c] := by rcases hs with ⟨e, -⟩ | ⟨e, -⟩ <;> rw [e] <;> simp
  have mc : (sides a b c).2.1 ∈ [a, b, c] := by rcases hs with ⟨-, e⟩ | ⟨-, e⟩ <;> rw [e] <;> simp
  obtain ⟨_, _, fa⟩ := fa
  obtain ⟨_, _, fc⟩ := fc
  rcases turn_found hw hh ha hc fa hd with ⟨d, e⟩ | ⟨a', ea, ta, ga⟩
  · exact .inl ⟨⟨_, ma, d⟩, by rw [start, e]; rfl⟩
  rcases turn_found hw hh ha hc hb hd with ⟨d, e⟩ | ⟨b', eb, tb, gb⟩
  · exact .inl ⟨⟨b, by simp, d⟩, by rw [start, ea, Run.ok_bind, e]; rfl⟩
  rcases turn_found hw hh ha hc fc hd with ⟨d, e⟩ | ⟨c', ec, tc, gc⟩
  · exact .inl ⟨⟨_, mc, d⟩, by rw [start, ea, Run.ok_bind, eb, Run.ok_bind, e]; rfl⟩
  rw [ea, Run.ok_bind, eb, Run.ok_bind, ec, Run.ok_bind] at start
  obtain ⟨hinv, hw', hh'⟩ := history_inv h0 hH
  obtain ⟨n, hm, e⟩ := C70_measure (img := img) hinv.ok.painted.valid (by rw [hw']; exact hpos) (by rw [hh']; exact hhp) ga gb gc
  refine .inr ⟨a', b', c', n, ta, tb, tc, hm, fun hn => ?_, fun img' loc h => ?_⟩
  · rw [start]
    unfold afterTurning
    rw [e, if_pos hn]
    rfl
  · rw [start] at h
    have := after_size h
    rw [e] at this
    by_cases hn : n = 0
    · rw [if_pos hn] at this; cases this
    · rw [if_neg hn] at this
      injection this with this
      exact ⟨Nat.pos_of_ne_zero hn, this.symm⟩

/-- Three capstones found in the image, apart from each other, and the grid located between them at some stage of the detection. -/
def ComesFrom (img0 : PreparedImage S) (loc : SkewedGridLocation F) : Prop :=
  ∃ (ya yb yc : Nat) (pa pb pc : LinePosition) (a b c a' b' c' : CapStone F) (claims : Pos → Option Claim) (img img' : PreparedImage S) (n : Nat),
    CapstoneAt img0 ya pa a ∧ CapstoneAt img0 yb pb b ∧ CapstoneAt img0 yc pc c ∧
    ¬ Reach (IsBlack img0) (pa.right, ya) (pb.right, yb) ∧ ¬ Reach (IsBlack img0) (pb.right, yb) (pc.right, yc) ∧
    ¬ Reach (IsBlack img0) (pa.right, ya) (pc.right, yc) ∧ History img0 claims img ∧
    SkewedGridLocation.from_group img ⟨a, b, c⟩ = .ok (img', some loc) ∧
    TurnedOff a.center (sides a b c).2.2 (sides a b c).1 a' ∧ TurnedOff a.center (sides a b c).2.2 b b' ∧
    TurnedOff a.center (sides a b c).2.2 (sides a b c).2.1 c' ∧ Measured img a' b' c' n ∧ 0 < n ∧ loc.grid_size = 17 + 4 * ((n - 2) / 4)

/-- **C70.** Every grid reported in any image comes from three finder patterns of the image as prepared, of which no two are connected, and
has the size for the number of changes of colour between them. -/
theorem C70_detected (h0 : Fresh img0) (hw : width img0.buffer ≤ 32768) (hh : height img0.buffer ≤ 32768) (hpos : 0 < width img0.buffer)
    {grids : List (DetectedGrid F64)} (e : img0.detect_grids F64 = .ok (img, grids)) : ∀ g ∈ grids, ComesFrom img0 g.location := by
  unfold PreparedImage.detect_grids at e
  obtain ⟨claims, img1, stones, e1, hH, ⟨places, hp1, hp2⟩, -⟩ := C51_search (F := F64) h0 hw hh hpos C51_centres
  rw [e1, Run.ok_bind] at e
  dsimp only at e
  obtain ⟨groups, e2, e⟩ := Run.bind_eq_ok.1 e
  obtain ⟨⟨img2, locs⟩, e3, e⟩ := Run.bind_eq_ok.1 e
  dsimp only at e
  obtain ⟨gs, e4, e⟩ := Run.bind_eq_ok.1 e
  cases e
  unfold PreparedImage.find_groupings at e2
  obtain ⟨ts, names, -, nodup, -⟩ := C62_distinct e2
  have apart : ∀ i j (hi : i < places.length) (hj : j < places.length), i ≠ j →
      ¬ Reach (IsBlack img0) (places[i].2.right, places[i].1) (places[j].2.right, places[j].1) := by
    intro i j hi hj hij
    rcases Nat.lt_or_gt_of_ne hij with h | h
    · exact List.pairwise_iff_getElem.1 hp2 i j hi hj h
    · exact fun hr => List.pairwise_iff_getElem.1 hp2 j i hj hi h hr.symm
  have place : ∀ i cap, stones[i]? = some cap → ∃ hi : i < places.length, CapstoneAt img0 places[i].1 places[i].2 cap := by
    intro i cap h
    obtain ⟨hi, rfl⟩ := List.getElem?_eq_some_iff.1 h
    have hi' : i < places.length := by rw [hp1.length_eq]; exact hi
    exact ⟨hi', (List.forall₂_iff_get.1 hp1 |>.2 i hi' hi).1⟩
  have hl : (∃ claims, History img0 claims img) ∧ ∀ l ∈ locs, ComesFrom img0 l := by
    unfold locate_groups at e3
    refine forList_inv (fun (_ : List (CapStoneGroup F64)) (st : PreparedImage S × List (SkewedGridLocation F64)) =>
      (∃ claims, History img0 claims st.1) ∧ ∀ l ∈ st.2, ComesFrom img0 l) (done := []) ⟨⟨_, hH⟩, by simp⟩ ?_ e3
    rintro ⟨a, b, c⟩ done ⟨i1, ls⟩ ⟨i2, ls'⟩ hm ⟨⟨cl, hcl⟩, hinv⟩ hs
    dsimp only at hcl hinv hs ⊢
    obtain ⟨⟨i3, o⟩, k1, k2⟩ := Run.bind_eq_ok.1 hs
    obtain ⟨t, ht, hn⟩ : ∃ t ∈ ts, t.Names stones ⟨a, b, c⟩ := by
      obtain ⟨k, hk, ek⟩ := List.getElem_of_mem hm
      have hk' : k < ts.length := by rw [names.length_eq]; exact hk
      refine ⟨ts[k], List.getElem_mem _, ?_⟩
      have := List.forall₂_iff_get.1 names |>.2 k hk' hk
      simp only [List.get_eq_getElem] at this
      rwa [ek] at this
    obtain ⟨na, nb, nc⟩ := hn
    obtain ⟨ia, ca⟩ := place _ _ na
    obtain ⟨ib, cb⟩ := place _ _ nb
    obtain ⟨ic, cc⟩ := place _ _ nc
    have nd := nodup t ht
    unfold Triple.indices at nd
    simp only [List.nodup_cons, List.mem_cons, List.not_mem_nil, or_false, not_or] at nd
    have hhp : 0 < height img0.buffer := by
      obtain ⟨x, x1, hb, -⟩ := ca.shape
      have := (rowOf_true.1 hb).2.1
      dsimp only at this
      omega
    have hist : ∃ claims, History img0 claims i3 := by
      rcases settles_from_group h0 hpos hhp hcl (⟨a, b, c⟩ : CapStoneGroup F64) with k | ⟨r, k, h⟩
      · rw [k1] at k; cases k
      · rw [k1] at k; cases k; obtain ⟨claims', h, -⟩ := h; exact ⟨claims', h⟩
    cases o with
    | none => cases k2; exact ⟨hist, hinv⟩
    | some loc =>
      cases k2
      refine ⟨hist, fun l hl => ?_⟩
      rcases List.mem_append.1 hl with hl | hl
      · exact hinv l hl
      · rw [List.mem_singleton] at hl
        subst hl
        rcases C70_group h0 hw hh hpos hhp hcl ca cb cc with ⟨-, k⟩ | ⟨a', b', c', n, ta, tb, tc, hm, -, h⟩
        · rw [k1] at k; cases k
        · obtain ⟨hn, hs⟩ := h _ _ k1
          exact ⟨_, _, _, _, _, _, a, b, c, a', b', c', cl, i1, _, n, ca, cb, cc, apart _ _ ia ib nd.1.1, apart _ _ ib ic nd.2.1,
            apart _ _ ia ic nd.1.2, hcl, k1, ta, tb, tc, hm, hn, hs⟩
  refine forList_inv (fun (_ : List (SkewedGridLocation F64)) (st : List (DetectedGrid F64)) => ∀ g ∈ st, ComesFrom img0 g.location)
    (done := []) (by simp) ?_ e4
  rintro loc done gs gs' hmem hinv hs
  obtain ⟨_, -, hs⟩ := Run.bind_eq_ok.1 hs
  obtain ⟨_, -, hs⟩ := Run.bind_eq_ok.1 hs
  obtain ⟨_, -, hs⟩ := Run.bind_eq_ok.1 hs
  obtain ⟨_, -, hs⟩ := Run.bind_eq_ok.1 hs
  cases hs
  intro g hg
  rcases List.mem_append.1 hg with hg | hg
  · exact hinv g hg
  · rw [List.mem_singleton] at hg; subst hg; exact hl.2 loc hmem

/-- For instance, the message `hi` drawn with five pixels per module and turned by a quarter turn: there is a grid, and it comes from three
capstones. -/
example : ∃ (img0 : PreparedImage BasicImageBuffer) (img : PreparedImage BasicImageBuffer) (g : DetectedGrid F64),
    Fresh img0 ∧ width img0.buffer = 300 ∧ height img0.buffer = 250 ∧ img0.detect_grids F64 = .ok (img, [g]) ∧ ComesFrom img0 g.location := by
  obtain ⟨matrix, -, h⟩ := C67_message
  obtain ⟨img0, e, h⟩ := h hiMessage 300 250 ⟨⟨260, 11⟩, ⟨0, 1⟩, 5⟩ hiMessage_fits (by norm_num) (by norm_num)
    ⟨.inr (.inl rfl), by decide, by decide, by decide⟩ (by decide) ⟨by decide, by decide⟩
  obtain ⟨img, g, d, hg⟩ := h F64
  obtain ⟨img1, e1, h1, h2, h3, -⟩ := C34_from_bitmap 300 250 (fun (_ : Unit) x y =>
    ((⟨⟨260, 11⟩, ⟨0, 1⟩, 5⟩ : Placement).dots (side hiMessage.version) (matrix hiMessage) x y, ())) () (by norm_num)
  have same : ∀ {x : Run (PreparedImage BasicImageBuffer) × Unit} {i j : PreparedImage BasicImageBuffer}, x = (.ok i, ()) → x = (.ok j, ()) → i = j := by
    intro x i j h h'
    rw [h] at h'
    cases h'
    rfl
  have : img1 = img0 := same e1 e
  subst this
  exact ⟨img1, img, g, h1, h2, h3, d, C70_detected h1 (by rw [h2]; norm_num) (by rw [h3]; norm_num) (by rw [h2]; norm_num) d g (by simp)⟩

/-- For instance, the middle of the last module of the first row of an upright capstone with seven pixels per module. -/
example : InnerPoint #v[⟨0, 0⟩, ⟨49, 0⟩, ⟨49, 49⟩, ⟨0, 49⟩] (13 / 2) (1 / 2) ⟨46, 4⟩ := by
  refine ⟨91 / 2, 7 / 2, ?_, ?_, ?_⟩
  · unfold nearest
    norm_num
  · unfold meanOf area2
    norm_num
  · unfold meanOf area2
    norm_num

end Rqrr
