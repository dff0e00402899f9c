import Verif.Spec.Again
import Verif.Proofs.Again
import Verif.Props.Pipeline
import Verif.Props.Dotted

/-!
# C77: an image can be searched only once
-/

namespace Rqrr

open Spec ImageBuffer LawfulImage

variable {S : Type} [ImageBuffer S] [LawfulImage S] {img0 : PreparedImage S}

/-- A search that returns has claimed all finder patterns. -/
theorem detect_exhausts (F : Type) [FloatOps F] [Rounding F] (h0 : Fresh img0) (hw : width img0.buffer ≤ 32768)
    (hh : height img0.buffer ≤ 32768) (hpos : 0 < width img0.buffer) :
    Settles (fun r : PreparedImage S × List (DetectedGrid F) => ∃ claims, History img0 claims r.1 ∧ Exhausted img0 claims)
      (img0.detect_grids F) := by
  unfold PreparedImage.detect_grids
  obtain ⟨claims, img, stones, e, hH, -, -, hC⟩ := C51_search (F := F) h0 hw hh hpos C51_centres
  have hE : Exhausted img0 claims := fun y x pos h1 h2 => (hC y x pos h1 h2).imp (fun e => by rw [e]; simp) (fun e => by rw [e]; simp)
  by_cases hhp : height img0.buffer = 0
  · unfold capstones_from_image
    rw [hhp]
    refine .ok ⟨_, .start, fun y x pos h1 h2 => ?_⟩
    have := (rowOf_true.1 h1.2.1).2.1
    dsimp only at this
    omega
  rw [e, Run.ok_bind]
  dsimp only
  refine .bind (P := fun _ => True) ?_ fun groups _ _ => ?_
  · unfold PreparedImage.find_groupings
    refine halts_groupings halts_rank (fun g => ?_) stones
    refine .bind (P := fun _ => True) ?_ fun _ _ _ => .pure trivial
    exact (settles_from_group h0 hpos (Nat.pos_of_ne_zero hhp) (.clone hH) g).mono fun _ _ _ => trivial
  refine .bind (P := fun r : PreparedImage S × List (SkewedGridLocation F) => ∃ claims, History img0 claims r.1 ∧ Exhausted img0 claims) ?_ ?_
  · unfold locate_groups
    refine .forList (fun r : PreparedImage S × List (SkewedGridLocation F) => ∃ claims, History img0 claims r.1 ∧ Exhausted img0 claims) _
      ⟨_, hH, hE⟩ ?_
    rintro g ⟨img', locs⟩ - ⟨c, hc, hc'⟩
    dsimp only at hc ⊢
    refine .bind (settles_from_group h0 hpos (Nat.pos_of_ne_zero hhp) hc g) ?_
    rintro ⟨img'', loc⟩ - ⟨claims'', h'', hk⟩
    dsimp only at h'' ⊢
    split <;> exact .pure ⟨claims'', h'', hc'.keeps hk⟩
  · rintro ⟨img', locs⟩ - h'
    dsimp only at h' ⊢
    refine .bind (P := fun _ => True) ?_ fun grids _ _ => .pure h'
    refine .forList _ _ trivial fun loc grids _ _ => ?_
    refine .bind (P := fun _ => True) (halts_map _ _ _) fun _ _ _ => ?_
    refine .bind (P := fun _ => True) (halts_map _ _ _) fun _ _ _ => ?_
    refine .bind (P := fun _ => True) (halts_map _ _ _) fun _ _ _ => ?_
    refine .bind (P := fun _ => True) (halts_map _ _ _) fun _ _ _ => ?_
    exact .pure trivial

/-- **C77.** Once a prepared image has been searched, whatever it shows and whatever was found, every further search of it, or of a
clone of it, finds nothing, and does not panic. -/
theorem C77_again (F : Type) [FloatOps F] [Rounding F] (h0 : Fresh img0) (hw : width img0.buffer ≤ 32768) (hh : height img0.buffer ≤ 32768)
    (hpos : 0 < width img0.buffer) {img1 img : PreparedImage S} {grids : List (DetectedGrid F)}
    (e : img0.detect_grids F = .ok (img1, grids)) (h : Later F img1 img) : ∃ img', img.detect_grids F = .ok (img', []) := by
  rcases detect_exhausts F h0 hw hh hpos with e' | ⟨⟨img2, grids'⟩, e', claims, hist, hE⟩
  · rw [e] at e'; cases e'
  rw [e] at e'
  cases e'
  dsimp only at hist
  have key : History img0 claims img := by
    induction h with
    | same => exact hist
    | clone _ ih => exact .clone ih
    | search _ run ih =>
      obtain ⟨img', e'', h''⟩ := detect_nothing F h0 hw hh hpos hE ih
      rw [run] at e''
      cases e''
      exact h''
  obtain ⟨img', e', -⟩ := detect_nothing F h0 hw hh hpos hE key
  exact ⟨img', e'⟩

/-- **C77.** The grids found the first time are not affected: their modules read the same in every image made later. -/
theorem C77_grids (F : Type) [FloatOps F] [Rounding F] (h0 : Fresh img0) (hw : width img0.buffer ≤ 32768) (hh : height img0.buffer ≤ 32768)
    (hpos : 0 < width img0.buffer) {img1 img : PreparedImage S} {grids : List (DetectedGrid F)}
    (e : img0.detect_grids F = .ok (img1, grids)) (h : Later F img1 img) (loc : SkewedGridLocation F) :
    RefGridImage loc img = RefGridImage loc img1 := by
  rcases detect_exhausts F h0 hw hh hpos with e' | ⟨⟨img2, grids'⟩, e', claims, hist, hE⟩
  · rw [e] at e'; cases e'
  rw [e] at e'
  cases e'
  dsimp only at hist
  have key : History img0 claims img := by
    induction h with
    | same => exact hist
    | clone _ ih => exact .clone ih
    | search _ run ih =>
      obtain ⟨img', e'', h''⟩ := detect_nothing F h0 hw hh hpos hE ih
      rw [run] at e''
      cases e''
      exact h''
  rw [C38_grid h0 key, C38_grid h0 hist]

/-- **C77.** An image that has not been searched is not affected by searching a clone of it: they are equal before. -/
theorem C77_clone_before (h0 : Fresh img0) : img0.clone = img0 := by
  rw [clone_eq (fresh_inv h0)]
  have : img0.cache.items = [] := by rw [h0.cache]; rfl
  cases img0 with
  | mk buffer cache =>
    cases cache
    dsimp only at this ⊢
    subst this
    rfl

/-- **C77.** In particular every message drawn with dots is found by the first search of the bitmap, and by no later one. -/
theorem C77_message : ∃ matrix : Message → Nat → Nat → Bool, (∀ m : Message, m.Fits → Patterned m.version (matrix m)) ∧
    ∀ (m : Message) (w h : Nat) (P : Placement), m.Fits → w ≤ 32768 → h ≤ 32768 → P.Fits w h (side m.version) → 4 ≤ P.scale →
      P.InRange (side m.version) →
      ∃ img0, PreparedImage.prepare_from_bitmap w h (fun _ x y => (P.dots (side m.version) (matrix m) x y, ())) () = (.ok img0, ()) ∧
        ∀ (F : Type) [FloatOps F] [Rounding F], ∃ img1 g, img0.detect_grids F = .ok (img1, [g]) ∧
          (∀ out, Grid.decode_to vecWriter (RefGridImage g.location img1) out =
            (.ok { version := m.version, ecc_level := m.level.bits, mask := m.mask }, out ++ m.segments.flatMap (·.payload))) ∧
          ∀ img, Later F img1 img → ∃ img', img.detect_grids F = .ok (img', []) := by
  obtain ⟨matrix, hp, hmat⟩ := C67_message
  refine ⟨matrix, hp, fun m w h P hm hw hh hF hs hI => ?_⟩
  obtain ⟨img0, e, hd⟩ := hmat m w h P hm hw hh hF hs hI
  have hsize : w * h < 2 ^ 64 := by
    have : w * h ≤ 32768 * 32768 := Nat.mul_le_mul hw hh
    omega
  obtain ⟨img0', e', h0, ew, eh, -⟩ := C34_from_bitmap w h (fun _ x y => (P.dots (side m.version) (matrix m) x y, ())) () hsize
  rw [e] at e'
  cases e'
  refine ⟨img0, e, fun F _ _ => ?_⟩
  obtain ⟨img1, g, d1, d2⟩ := hd F
  refine ⟨img1, g, d1, d2, fun img hL => C77_again F h0 (by omega) (by omega) ?_ d1 hL⟩
  have := hF.first
  omega

/-- A case: the symbol of C67 is found once. -/
example : ∃ (matrix : Nat → Nat → Bool) (img0 : _),
    PreparedImage.prepare_from_bitmap 300 250 (fun _ x y => ((⟨⟨260, 11⟩, ⟨0, 1⟩, 5⟩ : Placement).dots 45 matrix x y, ())) () = (.ok img0, ()) ∧
    ∃ img1 g img2 img3, img0.detect_grids F64 = .ok (img1, [g]) ∧ img1.detect_grids F64 = .ok (img2, []) ∧
      img2.clone.detect_grids F64 = .ok (img3, []) := by
  obtain ⟨matrix, -, h⟩ := C77_message
  obtain ⟨img0, e, h⟩ := h hiMessage 300 250 ⟨⟨260, 11⟩, ⟨0, 1⟩, 5⟩ hiMessage_fits (by norm_num) (by norm_num)
    ⟨.inr (.inl rfl), by decide, by decide, by decide⟩ (by decide) ⟨by decide, by decide⟩
  obtain ⟨img1, g, d, -, hl⟩ := h F64
  obtain ⟨img2, e2⟩ := hl _ .same
  obtain ⟨img3, e3⟩ := hl _ (.clone (.search .same e2))
  exact ⟨_, img0, e, img1, g, img2, img3, d, e2, e3⟩

end Rqrr
