import Verif.Proofs.Squares
import Verif.Proofs.CreateRounded
import Verif.Proofs.Affine
import Verif.Props.Detect
import Verif.Props.Geometry

/-!
# Cleanly drawn finder patterns are found
-/

namespace Rqrr

open Spec ImageBuffer

variable {S : Type} [ImageBuffer S] [LawfulImage S]

/-- The black pixels of the middle row of a finder pattern. -/
theorem drawn_row {img : PreparedImage S} {x0 y0 s : Nat} (h : DrawnFinder (IsBlack img) x0 y0 s) (hs : 0 < s) {x : Nat}
    (h1 : x0 ≤ x + 1) (h2 : x ≤ x0 + 7 * s) : rowOf img (y0 + 3 * s) x = true ↔
      (x0 ≤ x ∧ x < x0 + s) ∨ (x0 + 2 * s ≤ x ∧ x < x0 + 5 * s) ∨ (x0 + 6 * s ≤ x ∧ x < x0 + 7 * s) := by
  rw [rowOf_true, h.iff hs h1 h2 (by dsimp only; omega) (by dsimp only; omega)]
  unfold InFrame InSquare
  dsimp only
  omega

/-- The places of the runs of a drawn finder pattern. -/
def drawnPos (x0 s : Nat) : LinePosition := { left := x0, stone := x0 + 2 * s, right := x0 + 6 * s }

theorem drawn_run {f : Nat → Bool} {a b : Nat} (c : Bool) (hab : a < b) (h : ∀ i, a ≤ i → i < b → f i = c)
    (h' : 1 ≤ a → f (a - 1) = !c) : IsRun f a b := by
  refine ⟨hab, fun i h1 h2 => by rw [h i h1 h2, h a (by omega) hab], ?_⟩
  by_cases h0 : a = 0
  · exact .inl h0
  · right
    rw [h' (by omega), h a (by omega) hab]
    cases c <;> decide

theorem finderRatio_drawn {s : Nat} (hs : 0 < s) : FinderRatio s s (3 * s) s s := by
  unfold FinderRatio
  dsimp only
  omega

theorem drawn_shape {img : PreparedImage S} {x0 y0 s : Nat} (h : DrawnFinder (IsBlack img) x0 y0 s) (hs : 0 < s) :
    FinderShape img (y0 + 3 * s) (x0 + 7 * s) (drawnPos x0 s) := by
  have row : ∀ {x : Nat}, x0 ≤ x + 1 → x ≤ x0 + 7 * s → _ := fun {x} h1 h2 => drawn_row h hs (x := x) h1 h2
  have rowf : ∀ {x : Nat}, x0 ≤ x + 1 → x ≤ x0 + 7 * s → ¬ ((x0 ≤ x ∧ x < x0 + s) ∨ (x0 + 2 * s ≤ x ∧ x < x0 + 5 * s) ∨
      (x0 + 6 * s ≤ x ∧ x < x0 + 7 * s)) → rowOf img (y0 + 3 * s) x = false := by
    intro x h1 h2 h3
    rw [← row h1 h2, Bool.not_eq_true] at h3
    exact h3
  refine ⟨by omega, (row (by omega) (by omega)).2 (by omega), rowf (by omega) (by omega) (by omega), x0 + s, x0 + 5 * s, ?_, ?_, ?_, ?_, ?_, ?_⟩
  · exact drawn_run true (by dsimp only [drawnPos]; omega) (fun i h1 h2 => (row (by dsimp only [drawnPos] at h1; omega) (by omega)).2
      (.inl ⟨h1, h2⟩)) (fun h1 => rowf (by dsimp only [drawnPos] at h1 ⊢; omega) (by dsimp only [drawnPos] at h1 ⊢; omega)
        (by dsimp only [drawnPos] at h1 ⊢; omega))
  · dsimp only [drawnPos]
    exact drawn_run false (by omega) (fun i h1 h2 => rowf (by omega) (by omega) (by omega)) fun h1 => (row (by omega) (by omega)).2 (by omega)
  · dsimp only [drawnPos]
    exact drawn_run true (by omega) (fun i h1 h2 => (row (by omega) (by omega)).2 (by omega)) fun h1 => rowf (by omega) (by omega) (by omega)
  · dsimp only [drawnPos]
    exact drawn_run false (by omega) (fun i h1 h2 => rowf (by omega) (by omega) (by omega)) fun h1 => (row (by omega) (by omega)).2 (by omega)
  · dsimp only [drawnPos]
    exact drawn_run true (by omega) (fun i h1 h2 => (row (by omega) (by omega)).2 (by omega)) fun h1 => rowf (by omega) (by omega) (by omega)
  · dsimp only [drawnPos]
    have := finderRatio_drawn hs
    rwa [show x0 + s - x0 = s by omega, show x0 + 2 * s - (x0 + s) = s by omega, show x0 + 5 * s - (x0 + 2 * s) = 3 * s by omega,
      show x0 + 6 * s - (x0 + 5 * s) = s by omega, show x0 + 7 * s - (x0 + 6 * s) = s by omega]

theorem drawn_right {x0 y0 s : Nat} (hs : 0 < s) : InFrame x0 y0 s (x0 + 6 * s, y0 + 3 * s) := by
  unfold InFrame InSquare; dsimp only; omega

theorem drawn_ring {img : PreparedImage S} {x0 y0 s : Nat} (h : DrawnFinder (IsBlack img) x0 y0 s) (hs : 0 < s) :
    RingAndStone img (y0 + 3 * s) (drawnPos x0 s) := by
  have hR := h.frame_region hs (p := (x0 + 6 * s, y0 + 3 * s)) (drawn_right hs)
  have hS := h.stone_region hs (p := (x0 + 2 * s, y0 + 3 * s)) (by unfold InSquare; dsimp only; omega)
  have a1 : area (IsBlack img) (x0 + 6 * s, y0 + 3 * s) = 24 * (s * s) := by
    unfold area
    rw [← frame_ncard x0 y0 s]
    congr 1
    ext q
    exact hR q
  have a2 : area (IsBlack img) (x0 + 2 * s, y0 + 3 * s) = 9 * (s * s) := by
    unfold area
    rw [show 9 * (s * s) = 3 * s * (3 * s) by ring, ← square_ncard (x0 + 2 * s) (y0 + 2 * s) (3 * s)]
    congr 1
    ext q
    exact hS q
  have hpos : 0 < s * s := by positivity
  have e : 9 * (s * s) * 100 / (24 * (s * s)) = 37 := by
    rw [show 9 * (s * s) * 100 = (s * s) * 900 by ring, show 24 * (s * s) = (s * s) * 24 by ring, Nat.mul_div_mul_left _ _ hpos]
  constructor
  · exact (hR _).2 (by unfold InFrame InSquare drawnPos; dsimp only; omega)
  · intro hh
    have := (hR _).1 hh
    unfold InFrame InSquare drawnPos at this
    dsimp only at this
    omega
  · show 10 < area (IsBlack img) (x0 + 2 * s, y0 + 3 * s) * 100 / area (IsBlack img) (x0 + 6 * s, y0 + 3 * s)
    rw [a1, a2, e]; omega
  · show area (IsBlack img) (x0 + 2 * s, y0 + 3 * s) * 100 / area (IsBlack img) (x0 + 6 * s, y0 + 3 * s) < 70
    rw [a1, a2, e]; omega

/-- A region whose rows have no gaps is no ring of a finder pattern. -/
theorem no_ring_in_square {img : PreparedImage S} {x0 y0 k x y : Nat} {pos : LinePosition} (hs : FinderShape img y x pos)
    (hr : RingAndStone img y pos) (hin : ∀ p, InSquare x0 y0 k p → IsBlack img p)
    (h : ∀ q, Reach (IsBlack img) (pos.right, y) q → InSquare x0 y0 k q) : False := by
  have h1 := h _ hr.joined
  have h2 := h _ (Reach.trans hr.joined hr.joined.symm)
  obtain ⟨-, -, -, x1, x3, r1, r2, r3, r4, -, -⟩ := hs
  have a1 := r1.1
  have a2 := r2.1
  have a3 := r3.1
  have a4 := r4.1
  unfold InSquare at h1 h2
  dsimp only at h1 h2
  have hb : ∀ i, pos.left ≤ i → i ≤ pos.right → rowOf img y i = true := by
    intro i i1 i2
    rw [rowOf_true]
    exact hin _ ⟨by dsimp only; omega, by dsimp only; omega, by dsimp only; omega, by dsimp only; omega⟩
  rcases r2.2.2 with e | e
  · omega
  · rw [hb _ (by omega) (by omega), hb _ (by omega) (by omega)] at e
    exact e rfl

theorem rotate_get {α : Type} (a b c d : α) :
    rotateLeft4 #v[a, b, c, d] 0 = #v[a, b, c, d] ∧ rotateLeft4 #v[a, b, c, d] 1 = #v[b, c, d, a] ∧
      rotateLeft4 #v[a, b, c, d] 2 = #v[c, d, a, b] ∧ rotateLeft4 #v[a, b, c, d] 3 = #v[d, a, b, c] := ⟨rfl, rfl, rfl, rfl⟩

theorem lit70 : (FloatOps.lit 7 0 : ℚ) = 7 := by show ((7 : Nat) : ℚ) / 10 ^ 0 = 7; norm_num

theorem create_square_exact {x0 y0 m : Int} (hm : 0 < m) {k : Nat} (hk : k < 4) :
    Perspective.create (F := ℚ) (rotateLeft4 (squareCorners x0 y0 m) k) (FloatOps.lit 7 0) (FloatOps.lit 7 0) ≠ none := by
  rw [lit70, Ne, C45_create _ _ _ (by norm_num) (by norm_num)]
  unfold squareCorners
  obtain ⟨e0, e1, e2, e3⟩ := rotate_get (⟨x0, y0⟩ : Point) ⟨x0 + m, y0⟩ ⟨x0 + m, y0 + m⟩ ⟨x0, y0 + m⟩
  have : k = 0 ∨ k = 1 ∨ k = 2 ∨ k = 3 := by omega
  rcases this with rfl | rfl | rfl | rfl
  · rw [e0]
    show ¬ ((x0 + m) - (x0 + m)) * ((y0 + m) - y0) - (x0 - (x0 + m)) * ((y0 + m) - y0) ≤ 0
    nlinarith
  · rw [e1]
    show ¬ (x0 - (x0 + m)) * (y0 - (y0 + m)) - (x0 - (x0 + m)) * ((y0 + m) - (y0 + m)) ≤ 0
    nlinarith
  · rw [e2]
    show ¬ (x0 - x0) * (y0 - (y0 + m)) - ((x0 + m) - x0) * (y0 - (y0 + m)) ≤ 0
    nlinarith
  · rw [e3]
    show ¬ ((x0 + m) - x0) * ((y0 + m) - y0) - ((x0 + m) - x0) * (y0 - y0) ≤ 0
    nlinarith

variable {F : Type} [FloatOps F]

theorem lit7_int [Rounding F] : IntB (FloatOps.lit 7 0 : F) 7 200 := IntB.lit (m := 7) (by norm_num) (by norm_num)

theorem create_square_ne_none [Rounding F] {x0 y0 m : Int} (hm : 0 < m) {k : Nat} (hk : k < 4) (hx : 0 ≤ x0) (hy : 0 ≤ y0)
    (hx' : x0 + m ≤ 32767) (hy' : y0 + m ≤ 32767) :
    Perspective.create (F := F) (rotateLeft4 (squareCorners x0 y0 m) k) (FloatOps.lit 7 0) (FloatOps.lit 7 0) ≠ none := by
  have hw : Within (rotateLeft4 (squareCorners x0 y0 m) k) := by
    have : ∀ l (hl : l < 4), |(squareCorners x0 y0 m)[l].x| ≤ 32767 ∧ |(squareCorners x0 y0 m)[l].y| ≤ 32767 := by
      intro l hl
      unfold squareCorners
      have : l = 0 ∨ l = 1 ∨ l = 2 ∨ l = 3 := by omega
      rcases this with rfl | rfl | rfl | rfl
      · show |x0| ≤ _ ∧ |y0| ≤ _
        rw [abs_le, abs_le]; omega
      · show |x0 + m| ≤ _ ∧ |y0| ≤ _
        rw [abs_le, abs_le]; omega
      · show |x0 + m| ≤ _ ∧ |y0 + m| ≤ _
        rw [abs_le, abs_le]; omega
      · show |x0| ≤ _ ∧ |y0 + m| ≤ _
        rw [abs_le, abs_le]; omega
    intro l hl
    unfold rotateLeft4
    rw [Vector.getElem_ofFn]
    exact this _ _
  have h := create_square_exact (x0 := x0) (y0 := y0) hm hk
  rw [lit70] at h
  obtain ⟨q, hq⟩ := Option.ne_none_iff_exists'.1 h
  obtain ⟨c, hc, -⟩ := (create_rounded hw (lit7_int (F := F))).2 q (by push_cast; exact hq)
  rw [hc]
  exact Option.some_ne_none _

/-- A capstone of a drawn finder pattern. -/
structure DrawnCap (cap : CapStone F) (x0 y0 s : Nat) : Prop where
  corners : ∃ k < 4, cap.corners = rotateLeft4 (squareCorners x0 y0 (7 * s - 1)) k
  transform : Perspective.create cap.corners (FloatOps.lit 7 0) (FloatOps.lit 7 0) = some cap.c
  center : cap.c.map (FloatOps.lit 35 1) (FloatOps.lit 35 1) = .ok cap.center

theorem DrawnCap.of_at {img : PreparedImage S} {x0 y0 s y : Nat} {pos : LinePosition} {cap : CapStone F}
    (h : DrawnFinder (IsBlack img) x0 y0 s) (hs : 0 < s) (hp : InFrame x0 y0 s (pos.right, y)) (hc : CapstoneAt img y pos cap) :
    DrawnCap cap x0 y0 s where
  corners := frame_corners hs hp (h.frame_region hs hp) hc.corners
  transform := hc.transform
  center := hc.center

/-- The search finds every drawn finder pattern. -/
theorem drawn_found [Rounding F] {img0 : PreparedImage S} {claims : Pos → Option Claim} {stones : List (CapStone F)}
    (hclaimed : ∀ p c, claims p = some c → c = .CapStone ∧ ∃ y x pos, FinderShape img0 y x pos ∧ RingAndStone img0 y pos ∧
        Reach (IsBlack img0) (pos.right, y) p ∧ ((∃ cap ∈ stones, CapstoneAt img0 y pos cap) ∨
          ∃ r, ExtremeCorners (IsBlack img0) (pos.right, y) r ∧
            Perspective.create (F := F) r (FloatOps.lit 7 0) (FloatOps.lit 7 0) = none))
    (hcomplete : ∀ y x pos, FinderShape img0 y x pos → RingAndStone img0 y pos →
        claims (pos.right, y) = some .CapStone ∨ claims (pos.stone, y) = some .CapStone)
    {x0 y0 s : Nat} (h : DrawnFinder (IsBlack img0) x0 y0 s) (hs : 0 < s) (bx : x0 + 7 * s ≤ 32768)
    (by' : y0 + 7 * s ≤ 32768) : ∃ cap ∈ stones, DrawnCap cap x0 y0 s := by
  rcases hcomplete _ _ _ (drawn_shape h hs) (drawn_ring h hs) with hc | hc
  · obtain ⟨-, y, x, pos, h1, h2, h3, h4⟩ := hclaimed _ _ hc
    have hp : InFrame x0 y0 s (pos.right, y) := (h.frame_region hs (p := (x0 + 6 * s, y0 + 3 * s)) (drawn_right hs) _).1 h3.symm
    rcases h4 with ⟨cap, c1, c2⟩ | ⟨r, r1, r2⟩
    · exact ⟨cap, c1, .of_at h hs hp c2⟩
    · obtain ⟨k, hk, rfl⟩ := frame_corners hs hp (h.frame_region hs hp) r1
      exact absurd r2 (create_square_ne_none (by omega) hk (by omega) (by omega) (by omega) (by omega))
  · exfalso
    obtain ⟨-, y, x, pos, h1, h2, h3, -⟩ := hclaimed _ _ hc
    have hreg := h.stone_region hs (p := (x0 + 2 * s, y0 + 3 * s)) (by unfold InSquare; dsimp only; omega)
    refine no_ring_in_square h1 h2 (x0 := x0 + 2 * s) (y0 := y0 + 2 * s) (k := 3 * s) ?_ ?_
    · intro p hp
      obtain ⟨a, b, c, d⟩ := id hp
      exact (h.iff hs (by omega) (by omega) (by omega) (by omega)).2 (.inr hp)
    · intro q hq
      exact (hreg q).1 (h3.symm.trans hq)

end Rqrr
