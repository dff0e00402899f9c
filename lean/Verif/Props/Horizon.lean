import Verif.Proofs.HorizonCells

/-!
# C78: an image of a symbol seen at an angle that makes the detection panic
-/

namespace Rqrr

open Spec ImageBuffer LawfulImage FloatOps

/-- What happens with this image. -/
def atAnAngleTest : Bool :=
  endsWith (capstones_from_image F64 (Packed.bitmap 89 89 atAnAngleAt)) fun found =>
    match found.2 with
    | [b, a, c] => decide ([b, a, c].map (fun c => c.corners.toList.map fun p => (p.x, p.y)) = atAnAngleCorners) &&
        (endsWith (find_and_rank_possible_neighbors [b, a, c] 0) (fun pairs => decide (pairs = [(1, 2)])) &&
        endsWith (beforeRefining found.1 ⟨a, b, c⟩) (fun r => decide (r = (17, some atAnAngleRect))))
    | _ => false

set_option maxRecDepth 100000 in
theorem atAnAngle_checked : atAnAngleTest = true := by decide +kernel

/-- Three capstones of a perfect grid with the far corner of its bounds at infinity make the detection fail. -/
theorem horizon_fails {S : Type} [ImageBuffer S] {img img1 : PreparedImage S} {a b c : CapStone F64}
    (h1 : capstones_from_image F64 img = .ok (img1, [b, a, c])) (h2 : find_and_rank_possible_neighbors [b, a, c] 0 = .ok [(1, 2)])
    {rect : Vector Point 4} (h3 : beforeRefining img1 ⟨a, b, c⟩ = .ok (17, some rect)) {p : Perspective F64}
    (k1 : Perspective.create (F := F64) rect (ofInt 10) (ofInt 10) = some p) (k2 : fitness_all img1 p 17 = .ok 1377)
    (k3 : p.map (ofInt 17 + lit 1 0) (ofInt 17 + lit 1 0) = .error .panic) (r : PreparedImage S × List (DetectedGrid F64)) :
    img.detect_grids F64 ≠ .ok r := by
  intro h
  unfold PreparedImage.detect_grids at h
  rw [h1, Run.ok_bind] at h
  dsimp only at h
  obtain ⟨groups, eg, h⟩ := Run.bind_eq_ok.1 h
  obtain ⟨⟨img2, locations⟩, el, h⟩ := Run.bind_eq_ok.1 h
  dsimp only at h
  obtain ⟨grids, ek, -⟩ := Run.bind_eq_ok.1 h
  -- the only group
  have hg : groups = [⟨a, b, c⟩] := by
    unfold PreparedImage.find_groupings find_groupings_with at eg
    obtain ⟨⟨u, g⟩, ef, eg⟩ := Run.bind_eq_ok.1 eg
    cases eg
    obtain ⟨st1, e1, ef⟩ := Run.bind_eq_ok.1 (ef : _ >>= _ = _)
    have e1' : (find_and_rank_possible_neighbors [b, a, c] 0 >>= fun pairs => forList (fun pair st => try_pair (fun group => do
        let (_, loc) ← SkewedGridLocation.from_group img1.clone group
        pure loc.isSome) [b, a, c] 0 pair st) pairs ([], [])) = .ok st1 := e1
    rw [h2, Run.ok_bind] at e1'
    obtain ⟨st2, e2, e1'⟩ := Run.bind_eq_ok.1 (e1' : _ >>= _ = _)
    cases e1'
    have e3 : ((SkewedGridLocation.from_group img1.clone ⟨a, b, c⟩ >>= fun r => pure r.2.isSome) >>= fun ok : Bool =>
      if ok then pure ([1, 0, 2], [⟨a, b, c⟩]) else pure ([], [])) = (.ok st1 : Run (List Nat × List (CapStoneGroup F64))) := e2
    obtain ⟨ok, e4, e3⟩ := Run.bind_eq_ok.1 e3
    obtain ⟨r2, e5, e4⟩ := Run.bind_eq_ok.1 e4
    have := from_group_perfect e5 h3 k1 k2
    subst this
    cases e4
    cases e3
    cases ef
    rfl
  subst hg
  unfold locate_groups at el
  obtain ⟨st, e1, el⟩ := Run.bind_eq_ok.1 (el : _ >>= _ = _)
  cases el
  obtain ⟨r2, e2, e1⟩ := Run.bind_eq_ok.1 e1
  have := from_group_perfect e2 h3 k1 k2
  subst this
  cases e1
  obtain ⟨st, e1, -⟩ := Run.bind_eq_ok.1 (ek : _ >>= _ = _)
  dsimp only at e1
  obtain ⟨b0, -, e1⟩ := Run.bind_eq_ok.1 e1
  obtain ⟨b1, -, e1⟩ := Run.bind_eq_ok.1 e1
  obtain ⟨b2, e2, -⟩ := Run.bind_eq_ok.1 e1
  have : p.map (ofInt 17 + lit 1 0) (ofInt 17 + lit 1 0) = .ok b2 := e2
  rw [k3] at this
  cases this

/-- **C78.** There is an image for which the detection panics, in every build, although the three finder patterns found in it have proper
corners and all samples of the patterns of the grid have the right colour, so that no transform fits better: the grid is seen at such an angle
that the far corner of its bounds is on the horizon, and the assertion fails that the coordinates are in range. -/
theorem C78_horizon : ∃ img : PreparedImage BasicImageBuffer, (PreparedImage.prepare_from_bitmap 89 89 (fun (_ : Unit) x y => (atAnAngleAt x y, ())) ()).1 = .ok img ∧
    (∃ img' stones p, capstones_from_image F64 img = .ok (img', stones) ∧
      stones.map (fun c => c.corners.toList.map fun p => (p.x, p.y)) = atAnAngleCorners ∧
      Perspective.create (F := F64) atAnAngleRect (ofInt 10) (ofInt 10) = some p ∧
      fitness_all img' p 17 = .ok 1377 ∧ (∀ q s, fitness_all img' (q : Perspective F64) 17 = .ok s → s ≤ 1377) ∧
      p.map (ofInt 17 + lit 1 0) (ofInt 17 + lit 1 0) = .error .panic) ∧
    img.detect_grids F64 = .error .panic := by
  obtain ⟨img, e, hf, hw, hh, hv⟩ := C34_from_bitmap 89 89 (fun (_ : Unit) x y => (atAnAngleAt x y, ())) () (by norm_num)
  have hs := Packed.same (w := 89) (h := 89) (f := atAnAngleAt) hf hw hh hv
  refine ⟨img, by rw [e], ?_⟩
  obtain ⟨⟨k, stones⟩, e1, ht⟩ := endsWith_eq atAnAngle_checked
  dsimp only at ht
  obtain ⟨img', e2, hs'⟩ := packed_capstones hs e1
  split at ht
  · rename_i b a c
    obtain ⟨t1, ht⟩ := Bool.and_eq_true_iff.1 ht
    obtain ⟨t2, t3⟩ := Bool.and_eq_true_iff.1 ht
    obtain ⟨pairs, e3, t2⟩ := endsWith_eq t2
    obtain ⟨rr, e4, t3⟩ := endsWith_eq t3
    rw [of_decide_eq_true t2] at e3
    rw [of_decide_eq_true t3] at e4
    obtain ⟨-, -, ew, eh, ev⟩ := hs.pixels
    have hfp : Fresh (Packed.bitmap 89 89 atAnAngleAt) := by
      refine ⟨trivial, fun x y hx hy => ?_, rfl, by show 89 * 89 < 2 ^ 64; norm_num⟩
      rw [ev x y hx hy]
      exact hf.bw x y (by rw [← ew]; exact hx) (by rw [← eh]; exact hy)
    obtain ⟨claims, k', stones', e5, hH, -⟩ := C51_search (F := F64) hfp (show 89 ≤ 32768 by norm_num) (show 89 ≤ 32768 by norm_num)
      (show 0 < 89 by norm_num) C51_centres
    rw [e1] at e5
    cases e5
    have k2 := atAnAngle_fits hfp hH rfl rfl fun x y hx hy => by
      show (x < 89 ∧ y < 89 ∧ _ = _) ↔ _
      rw [ev x y hx hy, hv x y hx hy]
      exact ⟨fun h => h.2.2, fun h => ⟨hx, hy, h⟩⟩
    obtain ⟨f1, f2⟩ := Bool.and_eq_true_iff.1 atAnAngle_far
    obtain ⟨p, k1⟩ := Option.isSome_iff_exists.1 f1
    have ep : atAnAngleMap = p := by unfold atAnAngleMap; rw [k1]; rfl
    have k3 := isPanic_eq f2
    rw [ep] at k2 k3
    have fails := horizon_fails e1 e3 e4 k1 k2 k3
    refine ⟨⟨img', _, p, e2, of_decide_eq_true t1, k1, ?_, fun q s => fitness_17_le, k3⟩, ?_⟩
    · rcases sim_fitness hs' p 17 with e | ⟨_, _, e, e', h⟩ | ⟨_, e, -⟩
      · rw [k2] at e; cases e
      · rw [k2] at e; cases e; subst h; exact e'
      · rw [k2] at e; cases e
    · rcases C63_detection F64 hfp (show 89 ≤ 32768 by norm_num) (show 89 ≤ 32768 by norm_num) (show 0 < 89 by norm_num) with e | ⟨i2, grids, _, e, -⟩
      · exact packed_panic hs e
      · exact absurd e (fails _)
  · cases ht

/-- The patterns have proper corners. -/
example : ∀ r ∈ [#v[⟨0, 14⟩, ⟨0, 0⟩, ⟨15, 1⟩, ⟨19, 19⟩], #v[⟨88, 36⟩, ⟨33, 23⟩, ⟨24, 0⟩, ⟨55, 0⟩], #v[⟨36, 88⟩, ⟨0, 55⟩, ⟨0, 24⟩, ⟨23, 33⟩]], Convex r := by
  intro r hr
  simp only [List.mem_cons, List.not_mem_nil, or_false] at hr
  rcases hr with rfl | rfl | rfl <;> (unfold Convex; decide)

/-- **C78.** In exact arithmetic, when the far corner of the bounds of a grid of size `n` is on the horizon: exactly if the triangles made by
the corner opposite of the one with the finder pattern, together, are `(n + 9) / 8` times as large as the triangle of the corners with finder
patterns. -/
theorem C78_condition {n : Nat} (hn : 8 ≤ n) {r : Vector Point 4} {c : Perspective ℚ}
    (hc : Perspective.create r (ofInt ((n - 7 : Nat) : Int)) (ofInt ((n - 7 : Nat) : Int)) = some c) :
    c[6] * ((n : ℚ) + 1) + c[7] * ((n : ℚ) + 1) + 1 = 0 ↔
      8 * (area2 r[0] r[1] r[2] + area2 r[0] r[2] r[3]) = ((n : Int) + 9) * area2 r[0] r[1] r[3] := by
  have hb := (Exact.create_some hc).1
  have hw : (ofInt ((n - 7 : Nat) : Int) : ℚ) = n - 7 := by
    show (((n - 7 : Nat) : Int) : ℚ) = n - 7
    push_cast [show 7 ≤ n by omega]
    rfl
  have h1 := hb.d1
  have h3 := hb.d3
  have h0 := hb.area
  rw [hw] at h1 h3
  have sum : area2 r[0] r[1] r[2] + area2 r[0] r[2] r[3] = area2 r[1] r[2] r[3] + area2 r[0] r[1] r[3] := by unfold area2; ring
  have sumq : (area2 r[0] r[1] r[2] : ℚ) + area2 r[0] r[2] r[3] = area2 r[1] r[2] r[3] + area2 r[0] r[1] r[3] := by exact_mod_cast sum
  have e : (8 * (area2 r[0] r[1] r[2] + area2 r[0] r[2] r[3]) = ((n : Int) + 9) * area2 r[0] r[1] r[3]) ↔
      ((8 : ℚ) * ((area2 r[0] r[1] r[2] : ℚ) + (area2 r[0] r[2] r[3] : ℚ)) = ((n : ℚ) + 9) * (area2 r[0] r[1] r[3] : ℚ)) := by
    constructor <;> intro h <;> exact_mod_cast h
  rw [e]
  generalize (area2 r[0] r[1] r[2] : ℚ) = C at *
  generalize (area2 r[0] r[2] r[3] : ℚ) = B at *
  generalize (area2 r[1] r[2] r[3] : ℚ) = A at *
  generalize (area2 r[0] r[1] r[3] : ℚ) = E at *
  have nw : (n : ℚ) - 7 ≠ 0 := by
    have : (8 : ℚ) ≤ n := by exact_mod_cast hn
    linarith
  have key : (c[6] * ((n : ℚ) + 1) + c[7] * ((n : ℚ) + 1) + 1) * (((n : ℚ) - 7) * A) = ((n : ℚ) + 9) * E - 8 * (C + B) := by
    linear_combination ((n : ℚ) + 1) * h1 + ((n : ℚ) + 1) * h3 + ((n : ℚ) + 9) * sumq
  constructor
  · intro h
    rw [h, zero_mul] at key
    norm_num at key ⊢
    linarith
  · intro h
    norm_num at key h ⊢
    rw [h, sub_self] at key
    exact (mul_eq_zero.1 key).resolve_right (mul_ne_zero nw h0)

/-- In exact arithmetic the far corner is on the horizon. -/
example : ∃ c : Perspective ℚ, Perspective.create atAnAngleRect (ofInt ((17 - 7 : Nat) : Int)) (ofInt ((17 - 7 : Nat) : Int)) = some c ∧
    c[6] * (((17 : Nat) : ℚ) + 1) + c[7] * (((17 : Nat) : ℚ) + 1) + 1 = 0 := by
  cases e : Perspective.create (F := ℚ) atAnAngleRect (ofInt ((17 - 7 : Nat) : Int)) (ofInt ((17 - 7 : Nat) : Int)) with
  | none =>
    have := (C45_create atAnAngleRect _ _ (by show (1 : ℚ) ≤ ((10 : Int) : ℚ); norm_num) (by show (1 : ℚ) ≤ ((10 : Int) : ℚ); norm_num)).1 e
    exact absurd this (by decide)
  | some c => exact ⟨c, rfl, (C78_condition (n := 17) (by omega) e).2 (by decide)⟩

end Rqrr
