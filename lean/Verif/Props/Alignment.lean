import Verif.Proofs.Spiral
import Verif.Props.Regions
import Verif.Spec.Geometry

/-!
# C47: the search for the alignment pattern
-/

namespace Rqrr

open ImageBuffer LawfulImage FloatOps Spec

variable {S : Type} [ImageBuffer S] [LawfulImage S]

/-- What is assumed of the image and the seed: image dimensions fit an `isize`, and the spiral does not leave the range of
`i32`. -/
structure SearchRange (img : PreparedImage S) (seed : Point) (n : Nat) : Prop where
  width : width img.buffer ≤ 2 ^ 63
  height : height img.buffer ≤ 2 ^ 63
  estimate : n < 2 ^ 63
  x : seed.x.natAbs + Nat.sqrt (100 * n - 1) + 1 < 2 ^ 31
  y : seed.y.natAbs + Nat.sqrt (100 * n - 1) + 1 < 2 ^ 31

/-- C47. After any history the search terminates without panic, claims nothing, and its result is determined by the regions of
the prepared image and the claims alone: walking along the spiral, the first point in a suitable or claimed region decides. If
its region is suitable, this point is the result. If it is claimed, or if there is no such point, there is no result. -/
theorem C47_search {img0 img : PreparedImage S} {claims : Pos → Option Claim} (h0 : Fresh img0) (h : History img0 claims img)
    {seed : Point} {n : Nat} (hr : SearchRange img0 seed n) :
    ∃ img' found, align_spiral img seed n = .ok (img', found) ∧ History img0 claims img' ∧ ∀ p, found = some p ↔
      ∃ as bs, spiral seed (searchedSides n) = as ++ p :: bs ∧ Suitable img0 claims n p ∧
        ∀ a ∈ as, ¬ Suitable img0 claims n a ∧ ¬ InClaimed img0 claims a := by
  obtain ⟨img', found, e, h', hres⟩ := align_spiral_ok h0 h hr.width hr.height hr.estimate hr.x hr.y
  refine ⟨img', found, e, h', fun p => ?_⟩
  have nst : ∀ a, ¬ Stop img0 claims n a ↔ ¬ Suitable img0 claims n a ∧ ¬ InClaimed img0 claims a := fun a => not_or
  rcases hres with ⟨rfl, hno⟩ | ⟨as, q, bs, hl, has, hq⟩
  · constructor
    · intro e; cases e
    rintro ⟨as, bs, hl, hp, -⟩
    exact absurd (.inl hp) (hno p (by rw [hl]; simp))
  · constructor
    · intro e
      rcases hq with ⟨hq, rfl⟩ | ⟨-, rfl⟩
      · cases e
        exact ⟨as, bs, hl, hq, fun a ha => (nst a).1 (has a ha)⟩
      · cases e
    · rintro ⟨as', bs', hl', hp, has'⟩
      have hqs : Stop img0 claims n q := by
        rcases hq with ⟨hq, -⟩ | ⟨hq, -⟩
        · exact .inl hq
        · exact .inr hq
      have : q = p := by
        rw [hl] at hl'
        rcases List.append_eq_append_iff.1 hl' with ⟨t, h1, h2⟩ | ⟨t, h1, h2⟩
        · cases t with
          | nil => rw [List.nil_append] at h2; injection h2
          | cons a t =>
            rw [List.cons_append] at h2
            injection h2 with h2 _
            exact absurd hqs ((nst q).2 (has' q (by rw [h1, h2]; simp)))
        · cases t with
          | nil => rw [List.nil_append] at h2; injection h2 with h2 _; exact h2.symm
          | cons a t =>
            rw [List.cons_append] at h2
            injection h2 with h2 _
            exact absurd (.inl hp) (has p (by rw [h1, h2]; simp))
      subst this
      rcases hq with ⟨-, rfl⟩ | ⟨hq, -⟩
      · rfl
      · exact absurd hq fun e => not_both hp e

/-- C47, soundness: a point found lies in the image, in an unclaimed region of between half and twice the estimated size. -/
theorem C47_found {img0 img img' : PreparedImage S} {claims : Pos → Option Claim} (h0 : Fresh img0)
    (h : History img0 claims img) {seed p : Point} {n : Nat} (hr : SearchRange img0 seed n)
    (hf : align_spiral img seed n = .ok (img', some p)) :
    ∃ x y : Nat, p = ⟨x, y⟩ ∧ x < width img0.buffer ∧ y < height img0.buffer ∧ IsBlack img0 (x, y) ∧ claims (x, y) = none ∧
      n / 2 ≤ Set.ncard {q | Reach (IsBlack img0) (x, y) q} ∧ Set.ncard {q | Reach (IsBlack img0) (x, y) q} ≤ 2 * n := by
  obtain ⟨img'', found, e, -, hres⟩ := C47_search h0 h hr
  rw [hf] at e
  cases e
  obtain ⟨_, _, -, ⟨x, y, rfl, hb, hc, hl, hu⟩, -⟩ := (hres p).1 rfl
  exact ⟨x, y, rfl, hb.1, hb.2.1, hb, hc, hl, hu⟩

/-- C47, completeness: if no claimed region comes within distance `r` of the seed (in the maximum norm) and a suitable one does,
for some `r` with `(2r+1)² < 100 n`, then the search succeeds, within this distance. -/
theorem C47_complete {img0 img : PreparedImage S} {claims : Pos → Option Claim} (h0 : Fresh img0) (h : History img0 claims img)
    {seed : Point} {n : Nat} (hr : SearchRange img0 seed n) {r : Nat} (hrn : (2 * r + 1) * (2 * r + 1) < 100 * n)
    (hclaim : ∀ p : Point, (p.x - seed.x).natAbs ≤ r → (p.y - seed.y).natAbs ≤ r → ¬ InClaimed img0 claims p)
    {q : Point} (hqx : (q.x - seed.x).natAbs ≤ r) (hqy : (q.y - seed.y).natAbs ≤ r) (hq : Suitable img0 claims n q) :
    ∃ img' p, align_spiral img seed n = .ok (img', some p) ∧ (p.x - seed.x).natAbs ≤ r ∧ (p.y - seed.y).natAbs ≤ r := by
  obtain ⟨img', found, e, -, hres⟩ := align_spiral_ok h0 h hr.width hr.height hr.estimate hr.x hr.y
  have hle : 4 * r + 1 ≤ searchedSides n := by
    unfold searchedSides
    have : 2 * r + 1 ≤ Nat.sqrt (100 * n - 1) := (sqrt_spec (by omega)).1 (by omega)
    omega
  obtain ⟨l, hl⟩ := spiral_prefix seed hle
  have hmem := mem_spiral hqx hqy
  rcases hres with ⟨rfl, hno⟩ | ⟨as, p, bs, hs, has, hp⟩
  · exact absurd (.inl hq) (hno q (by rw [hl]; exact List.mem_append_left _ hmem))
  · -- the first stop is within the square
    have hpm : p ∈ spiral seed (4 * r + 1) := by
      rw [hl] at hs
      rcases List.append_eq_append_iff.1 hs with ⟨t, h1, -⟩ | ⟨t, h1, h2⟩
      · exact absurd (.inl hq) (has q (by rw [h1]; exact List.mem_append_left _ hmem))
      · cases t with
        | nil =>
          rw [List.append_nil] at h1
          exact absurd (.inl hq) (has q (by rw [← h1]; exact hmem))
        | cons a t =>
          rw [List.cons_append] at h2
          injection h2 with h2 _
          rw [h1, h2]
          simp
    have hnear : (p.x - seed.x).natAbs ≤ r ∧ (p.y - seed.y).natAbs ≤ r := spiral_square hpm
    rcases hp with ⟨-, rfl⟩ | ⟨hp, -⟩
    · exact ⟨img', p, e, hnear⟩
    · exact absurd hp (hclaim p hnear.1 hnear.2)

/-- C47, the search does not get past claimed regions: if the seed itself lies in one, nothing is found, whatever there is
beside it. -/
theorem C47_stuck {img0 img : PreparedImage S} {claims : Pos → Option Claim} (h0 : Fresh img0) (h : History img0 claims img)
    {seed : Point} {n : Nat} (hr : SearchRange img0 seed n) (hs : InClaimed img0 claims seed) :
    ∃ img', align_spiral img seed n = .ok (img', none) := by
  obtain ⟨img', found, e, -, hres⟩ := C47_search h0 h hr
  cases found with
  | none => exact ⟨img', e⟩
  | some p =>
    obtain ⟨as, bs, hl, hp, has⟩ := (hres p).1 rfl
    have hhead : (spiral seed (searchedSides n)).head? = some seed := by
      have : searchedSides n ≠ 0 := by
        intro e0
        rw [e0] at hl
        simp [spiral] at hl
      obtain ⟨l, hl'⟩ := spiral_prefix seed (show 1 ≤ searchedSides n by omega)
      rw [hl']
      simp [spiral, sideLength, spiralPoint, corner, direction]
    rw [hl] at hhead
    cases as with
    | nil => simp at hhead; subst hhead; exact absurd hs fun e => not_both hp e
    | cons a as => simp at hhead; subst hhead; exact absurd hs (has a (by simp)).2

omit [LawfulImage S] in
/-- C47, estimate: the size of a module is estimated to be that of the parallelogram spanned by the seed, the point one module below it as the
first finder pattern sees it and the point one module to the right as the second one does. Whatever the floating point arithmetic, it is at
most `2^31`, so only the seed matters for the range of the search. -/
theorem C47_estimate {F : Type} [FloatOps F] {img : PreparedImage S} {seed : Point} {c0 c2 : CapStone F}
    {r : PreparedImage S × Option Point} (h : find_alignment_pattern img seed c0 c2 = .ok r) :
    ∃ below right : Point, c0.c.map (c0.c.unmap seed).1 ((c0.c.unmap seed).2 + lit 1 0) = .ok below ∧
      c2.c.map ((c2.c.unmap seed).1 + lit 1 0) (c2.c.unmap seed).2 = .ok right ∧
      (area2 seed below right).natAbs ≤ 2 ^ 31 ∧ align_spiral img seed (area2 seed below right).natAbs = .ok r := by
  have chk : ∀ {n m : Int}, chk32 n = .ok m → m = n ∧ n.natAbs ≤ 2 ^ 31 := by
    intro n m hn
    unfold chk32 at hn
    split at hn
    · cases hn; exact ⟨rfl, by omega⟩
    · cases hn
  unfold find_alignment_pattern at h
  obtain ⟨n, hn, h⟩ := Run.bind_eq_ok.1 h
  unfold size_estimate at hn
  dsimp only at hn
  obtain ⟨below, e1, hn⟩ := Run.bind_eq_ok.1 hn
  obtain ⟨right, e2, hn⟩ := Run.bind_eq_ok.1 hn
  obtain ⟨_, h1, hn⟩ := Run.bind_eq_ok.1 hn
  obtain ⟨_, h2, hn⟩ := Run.bind_eq_ok.1 hn
  obtain ⟨_, h3, hn⟩ := Run.bind_eq_ok.1 hn
  obtain ⟨_, h4, hn⟩ := Run.bind_eq_ok.1 hn
  obtain ⟨_, h5, hn⟩ := Run.bind_eq_ok.1 hn
  obtain ⟨_, h6, hn⟩ := Run.bind_eq_ok.1 hn
  obtain ⟨_, h7, hn⟩ := Run.bind_eq_ok.1 hn
  obtain ⟨k, hk, hn⟩ := Run.bind_eq_ok.1 hn
  cases hn
  obtain ⟨ek, hle⟩ := chk hk
  have e : (area2 seed below right).natAbs = k.natAbs := by
    rw [ek, (chk h4).1, (chk h7).1, (chk h1).1, (chk h3).1, (chk h2).1, (chk h5).1, (chk h6).1, ← Int.natAbs_neg]
    congr 1
    unfold area2
    ring
  exact ⟨below, right, e1, e2, by rw [e, ek]; exact hle, by rw [e]; exact h⟩

/-! ### Concrete cases

The image of C35, with a region of five pixels above one of two pixels. -/

/-- The result of a search. -/
def searchResult (r : Run (PreparedImage BasicImageBuffer × Option Point)) : Option (Option Point) :=
  match r with
  | .ok (_, p) => some p
  | .error _ => none

theorem testRange : SearchRange testImage ⟨1, 2⟩ 2 := by
  have h : Nat.sqrt (100 * 2 - 1) = 14 := by decide +kernel
  exact ⟨by decide, by decide, by decide, by rw [h]; decide, by rw [h]; decide⟩

/-- The spiral passes the larger region and finds the smaller one. -/
example : searchResult (align_spiral testImage ⟨1, 2⟩ 2) = some (some ⟨0, 3⟩) := by decide +kernel
example : (spiral ⟨1, 2⟩ 5).take 7 = [⟨1, 2⟩, ⟨2, 2⟩, ⟨2, 1⟩, ⟨1, 1⟩, ⟨0, 1⟩, ⟨0, 2⟩, ⟨0, 3⟩] := by decide +kernel

/-- With the larger region claimed, the spiral does not get past it, and the smaller one is not found any more. -/
example : searchResult (do
    let (img, _) ← testImage.repaint_and_apply (fun (_ : Unit) _ => .ok ()) 0 1 .CapStone ()
    align_spiral img ⟨1, 2⟩ 2) = some none := by decide +kernel

/-- The estimate made of two finder patterns, the first with modules of 3 by 2 pixels, the second with modules of 3 by 4. -/
example : ((Perspective.create (F := ℚ) #v[⟨0, 0⟩, ⟨21, 0⟩, ⟨21, 14⟩, ⟨0, 14⟩] 7 7).bind fun p =>
    (Perspective.create (F := ℚ) #v[⟨60, 0⟩, ⟨81, 0⟩, ⟨81, 28⟩, ⟨60, 28⟩] 7 7).map fun q =>
      (size_estimate ⟨60, 60⟩ ⟨#v[⟨0, 0⟩, ⟨21, 0⟩, ⟨21, 14⟩, ⟨0, 14⟩], ⟨10, 7⟩, p⟩ ⟨#v[⟨60, 0⟩, ⟨81, 0⟩, ⟨81, 28⟩, ⟨60, 28⟩], ⟨70, 14⟩, q⟩).toOption) =
    some (some 6) := by decide +kernel

end Rqrr
