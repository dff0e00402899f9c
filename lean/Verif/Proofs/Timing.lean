import Verif.Model.Identify
import Verif.Spec.Grouping
import Verif.Proofs.Partial
import Verif.Proofs.Bresenham

/-!
# Timing pattern and grid size
-/

namespace Rqrr

open ImageBuffer FloatOps Spec

variable {S : Type} [ImageBuffer S] {F : Type} [FloatOps F]

theorem colourChanges_append (a b : PixelColor) : ∀ l : List PixelColor,
    colourChanges (l ++ [a, b]) = colourChanges (l ++ [a]) + (if a ≠ b then 1 else 0)
  | [] => by simp [colourChanges]
  | [c] => by simp [colourChanges]
  | c :: d :: l => by
    have := colourChanges_append a b (d :: l)
    simp only [List.cons_append, colourChanges] at this ⊢
    omega

/-- The step of the timing scan. -/
def timing_step (img : PreparedImage S) (p : Point) (st : Nat × Option PixelColor) : Run (Nat × Option PixelColor) := do
  let (count, previous) := st
  let pixel ← img.get_pixel_at_point p
  let count := match previous with
    | some prev => if prev ≠ pixel then count + 1 else count
    | none => count
  pure (count, some pixel)

theorem timing_scan_eq (img : PreparedImage S) (p0 p1 : Point) : timing_scan img p0 p1 = (do
    let ps ← BresenhamScan.points p0 p1
    let r ← forList (timing_step img) ps (0, none)
    pure r.1) := rfl

theorem timing_loop {img : PreparedImage S} {color : Point → PixelColor} (hc : ∀ p, img.get_pixel_at_point p = .ok (color p)) :
    ∀ (ps done : List Point), forList (timing_step img) ps (colourChanges (done.map color), (done.map color).getLast?) =
      .ok (colourChanges ((done ++ ps).map color), ((done ++ ps).map color).getLast?)
  | [], done => by simp [forList]
  | p :: ps, done => by
    unfold forList
    have e : timing_step img p (colourChanges (done.map color), (done.map color).getLast?) =
        .ok (colourChanges ((done ++ [p]).map color), ((done ++ [p]).map color).getLast?) := by
      unfold timing_step
      dsimp only
      rw [hc, Run.ok_bind]
      rcases List.eq_nil_or_concat done with rfl | ⟨l, q, rfl⟩
      · rfl
      · simp only [List.concat_eq_append, List.map_append, List.map_cons, List.map_nil, List.getLast?_append,
          List.getLast?_singleton, Option.some_or, List.append_assoc, List.cons_append, List.nil_append]
        rw [colourChanges_append]
        by_cases h : color q = color p <;> simp [h] <;> rfl
    rw [e, Run.ok_bind, timing_loop hc ps (done ++ [p])]
    simp

theorem timing_scan_ok {img : PreparedImage S} {color : Point → PixelColor} (hc : ∀ p, img.get_pixel_at_point p = .ok (color p))
    {p0 p1 : Point} {ps : List Point} (hps : BresenhamScan.points p0 p1 = .ok ps) :
    timing_scan img p0 p1 = .ok (colourChanges (ps.map color)) := by
  rw [timing_scan_eq, hps, Run.ok_bind]
  have := timing_loop hc ps []
  simp only [List.map_nil, List.getLast?_nil, List.nil_append] at this
  rw [show colourChanges [] = 0 from rfl] at this
  rw [this, Run.ok_bind]
  rfl

theorem size_from_scan_form {scan n : Nat} (h : size_from_scan F scan = .ok n) : ∃ v, n = 17 + 4 * v := by
  unfold size_from_scan at h
  obtain ⟨_, h1, h2⟩ := Run.bind_eq_ok.1 h
  cases h2
  exact ⟨_, by rw [Nat.mul_comm, Nat.add_comm]⟩

theorem measure_form {img : PreparedImage S} {caps : CapStoneGroup F} {n : Nat} (h : measure_timing_pattern img caps = .ok n) :
    ∃ v, n = 17 + 4 * v := by
  unfold measure_timing_pattern at h
  obtain ⟨_, -, h⟩ := Run.bind_eq_ok.1 h
  obtain ⟨_, -, h⟩ := Run.bind_eq_ok.1 h
  obtain ⟨_, -, h⟩ := Run.bind_eq_ok.1 h
  obtain ⟨_, -, h⟩ := Run.bind_eq_ok.1 h
  obtain ⟨_, -, h⟩ := Run.bind_eq_ok.1 h
  exact size_from_scan_form h

theorem version_ok {n v : Nat} (h : n = 17 + 4 * v) : version_from_grid_size n = .ok v := by
  unfold version_from_grid_size
  rw [subU_ok (by omega), Run.ok_bind]
  show Except.ok _ = _
  congr 1
  omega

theorem from_group_size {img img' : PreparedImage S} {group : CapStoneGroup F} {loc : SkewedGridLocation F}
    (h : SkewedGridLocation.from_group img group = .ok (img', some loc)) : ∃ v, v ≤ 40 ∧ loc.grid_size = 17 + 4 * v := by
  unfold SkewedGridLocation.from_group at h
  obtain ⟨_, -, h⟩ := Run.bind_eq_ok.1 h
  obtain ⟨_, -, h⟩ := Run.bind_eq_ok.1 h
  obtain ⟨_, -, h⟩ := Run.bind_eq_ok.1 h
  obtain ⟨_, -, h⟩ := Run.bind_eq_ok.1 h
  obtain ⟨_, -, h⟩ := Run.bind_eq_ok.1 h
  obtain ⟨_, -, h⟩ := Run.bind_eq_ok.1 h
  obtain ⟨_, -, h⟩ := Run.bind_eq_ok.1 h
  obtain ⟨_, -, h⟩ := Run.bind_eq_ok.1 h
  obtain ⟨⟨g, hd⟩, -, h⟩ := Run.bind_eq_ok.1 h
  dsimp only at h
  obtain ⟨_, -, h⟩ := Run.bind_eq_ok.1 h
  obtain ⟨_, -, h⟩ := Run.bind_eq_ok.1 h
  obtain ⟨_, -, h⟩ := Run.bind_eq_ok.1 h
  obtain ⟨n, hn, h⟩ := Run.bind_eq_ok.1 h
  obtain ⟨inter, -, h⟩ := Run.bind_eq_ok.1 h
  obtain ⟨v, hv⟩ := measure_form hn
  cases inter with
  | none => cases h
  | some p =>
    dsimp only at h
    obtain ⟨⟨img1, al⟩, -, h⟩ := Run.bind_eq_ok.1 h
    cases al with
    | none => cases h
    | some q =>
      dsimp only at h
      rw [version_ok hv, Run.ok_bind] at h
      by_cases hlt : v ≥ VERSION_DATA_BASE.length
      · rw [if_pos hlt] at h; cases h
      · rw [if_neg hlt] at h
        obtain ⟨c, -, h⟩ := Run.bind_eq_ok.1 h
        cases c with
        | none => cases h
        | some c =>
          cases h
          have : VERSION_DATA_BASE.length = 41 := by decide
          exact ⟨v, by omega, hv⟩

theorem detect_sizes {img img' : PreparedImage S} {grids : List (DetectedGrid F)}
    (h : img.detect_grids F = .ok (img', grids)) : ∀ g ∈ grids, ∃ v, v ≤ 40 ∧ g.location.grid_size = 17 + 4 * v := by
  unfold PreparedImage.detect_grids at h
  obtain ⟨⟨img1, stones⟩, -, h⟩ := Run.bind_eq_ok.1 h
  dsimp only at h
  obtain ⟨groups, -, h⟩ := Run.bind_eq_ok.1 h
  obtain ⟨⟨img2, locs⟩, h1, h⟩ := Run.bind_eq_ok.1 h
  dsimp only at h
  obtain ⟨gs, h2, h⟩ := Run.bind_eq_ok.1 h
  cases h
  have hl : ∀ l ∈ locs, ∃ v, v ≤ 40 ∧ l.grid_size = 17 + 4 * v := by
    unfold locate_groups at h1
    have := forList_inv (fun (_ : List (CapStoneGroup F)) (st : PreparedImage S × List (SkewedGridLocation F)) =>
      ∀ l ∈ st.2, ∃ v, v ≤ 40 ∧ l.grid_size = 17 + 4 * v) (done := []) (by simp) (by
        rintro g done ⟨a, ls⟩ ⟨a', ls'⟩ _ hinv hs
        dsimp only at hinv hs ⊢
        obtain ⟨⟨b, o⟩, k1, k2⟩ := Run.bind_eq_ok.1 hs
        cases o with
        | none => cases k2; exact hinv
        | some loc =>
          cases k2
          intro l hl
          rcases List.mem_append.1 hl with hl | hl
          · exact hinv l hl
          · rw [List.mem_singleton] at hl; subst hl; exact from_group_size k1) h1
    exact this
  have := forList_inv (fun (_ : List (SkewedGridLocation F)) (st : List (DetectedGrid F)) =>
    ∀ g ∈ st, ∃ v, v ≤ 40 ∧ g.location.grid_size = 17 + 4 * v) (done := []) (by simp) (by
      rintro loc done gs gs' hmem hinv hs
      obtain ⟨_, -, hs⟩ := Run.bind_eq_ok.1 hs
      obtain ⟨_, -, hs⟩ := Run.bind_eq_ok.1 hs
      obtain ⟨_, -, hs⟩ := Run.bind_eq_ok.1 hs
      obtain ⟨_, -, hs⟩ := Run.bind_eq_ok.1 hs
      cases hs
      intro g hg
      rcases List.mem_append.1 hg with hg | hg
      · exact hinv g hg
      · rw [List.mem_singleton] at hg; subst hg; exact hl loc hmem) h2
  exact this

end Rqrr
