import Verif.Props.Rounding
import Verif.Props.Detect
import Verif.Props.Identify
import Verif.Props.Prepare
import Verif.Proofs.FramedAll

/-!
# C69: no more grids than the finder patterns allow
-/

namespace Rqrr

open Spec ImageBuffer

variable {S : Type} [ImageBuffer S] [LawfulImage S] {img0 : PreparedImage S}

/-- Everything in the image that looks like a finder pattern is connected to one of these pixels. -/
def RingsAmong (img0 : PreparedImage S) (ps : List Pos) : Prop :=
  ∀ y x pos, FinderShape img0 y x pos → RingAndStone img0 y pos → ∃ p ∈ ps, Reach (IsBlack img0) (pos.right, y) p

/-- **C69.** The search finds no more capstones than there are rings. -/
theorem C69_capstones {F : Type} [FloatOps F] [Rounding F] (h0 : Fresh img0) (hw : width img0.buffer ≤ 32768) (hh : height img0.buffer ≤ 32768)
    (hpos : 0 < width img0.buffer) {ps : List Pos} (h : RingsAmong img0 ps) :
    ∃ img stones, capstones_from_image F img0 = .ok (img, stones) ∧ stones.length ≤ ps.length := by
  obtain ⟨claims, img, stones, e, -, ⟨places, h1, h2⟩, -⟩ := C51_search (F := F) h0 hw hh hpos C51_centres
  refine ⟨img, stones, e, ?_⟩
  rw [← h1.length_eq]
  have mem : ∀ k ∈ places, ∃ p ∈ ps, Reach (IsBlack img0) (k.2.right, k.1) p := by
    intro k hk
    obtain ⟨cap, -, hc, -⟩ : ∃ cap ∈ stones, CapstoneAt img0 k.1 k.2 cap ∧ claims (k.2.right, k.1) = some .CapStone := by
      clear h2 e
      induction h1 with
      | nil => cases hk
      | cons hd _ ih =>
        rcases List.mem_cons.1 hk with rfl | hk
        · exact ⟨_, List.mem_cons_self, hd⟩
        · obtain ⟨c, hc, hc'⟩ := ih hk
          exact ⟨c, List.mem_cons_of_mem _ hc, hc'⟩
    obtain ⟨x, hx⟩ := hc.shape
    exact h _ x _ hx hc.ring
  classical
  let g : Nat × LinePosition → Pos := fun k => if hk : ∃ p ∈ ps, Reach (IsBlack img0) (k.2.right, k.1) p then hk.choose else (0, 0)
  have hg : ∀ k ∈ places, g k ∈ ps ∧ Reach (IsBlack img0) (k.2.right, k.1) (g k) := by
    intro k hk
    have := mem k hk
    show (if hk : _ then _ else _) ∈ ps ∧ Reach _ _ (if hk : _ then _ else _)
    rw [dif_pos this]
    exact this.choose_spec
  have nd : (places.map g).Nodup := by
    rw [List.nodup_iff_pairwise_ne, List.pairwise_map]
    refine List.Pairwise.imp_of_mem (fun {a b} ha hb hab e => hab ?_) h2
    have := (hg b hb).2
    rw [← e] at this
    exact (hg a ha).2.trans this.symm
  have := (nd.subperm (l₂ := ps) (by
    intro p hp
    obtain ⟨k, hk, rfl⟩ := List.mem_map.1 hp
    exact (hg k hk).1)).length_le
  simpa using this

theorem bind_result {α β : Type} {x : Run α} {f : α → Run β} {r : β} (h : x >>= f = .ok r) : ∃ a, x = .ok a ∧ f a = .ok r := by
  cases x with
  | error _ => cases h
  | ok a => exact ⟨a, rfl, h⟩

/-- A loop that adds at most one in each round. -/
theorem forList_growth {ι σ : Type} {f : ι → σ → Run σ} {m : σ → Nat} (h : ∀ i s s', f i s = .ok s' → m s' ≤ m s + 1) :
    ∀ (l : List ι) (s s' : σ), forList f l s = .ok s' → m s' ≤ m s + l.length := by
  intro l
  induction l with
  | nil => intro s s' e; cases e; simp
  | cons i l ih =>
    intro s s' e
    unfold forList at e
    cases e1 : f i s with
    | error _ => rw [e1] at e; cases e
    | ok s1 =>
      rw [e1] at e
      have := h i s s1 e1
      have := ih s1 s' e
      rw [List.length_cons]
      omega

omit [LawfulImage S] in
theorem locate_growth {F : Type} [FloatOps F] {groups : List (CapStoneGroup F)} {img img' : PreparedImage S} {locs : List (SkewedGridLocation F)}
    (h : locate_groups groups img = .ok (img', locs)) : locs.length ≤ groups.length := by
  have := forList_growth (m := fun st : PreparedImage S × List (SkewedGridLocation F) => st.2.length) (by
    rintro g ⟨i, l⟩ s' e
    dsimp only at e
    cases e1 : SkewedGridLocation.from_group i g with
    | error _ => rw [e1] at e; cases e
    | ok r =>
      rw [e1] at e
      obtain ⟨i', o⟩ := r
      cases o <;> cases e <;> simp) groups _ _ h
  simpa using this

/-- **C69.** So there are at most half as many grids as rings. -/
theorem C69_grids (h0 : Fresh img0) (hw : width img0.buffer ≤ 32768) (hh : height img0.buffer ≤ 32768)
    (hpos : 0 < width img0.buffer) {ps : List Pos} (h : RingsAmong img0 ps) {img : PreparedImage S} {grids : List (DetectedGrid F64)}
    (e : img0.detect_grids F64 = .ok (img, grids)) : 2 * grids.length ≤ ps.length := by
  obtain ⟨img1, stones, e1, hl⟩ := C69_capstones (F := F64) h0 hw hh hpos h
  unfold PreparedImage.detect_grids at e
  rw [e1, Run.ok_bind] at e
  dsimp only at e
  cases e2 : img1.find_groupings stones with
  | error _ => rw [e2] at e; cases e
  | ok groups =>
    rw [e2, Run.ok_bind] at e
    obtain ⟨-, -, -, -, h2⟩ := C62_distinct e2
    cases e3 : locate_groups groups img1 with
    | error _ => rw [e3] at e; cases e
    | ok r =>
      rw [e3, Run.ok_bind] at e
      obtain ⟨img2, locs⟩ := r
      dsimp only at e
      have h3 := locate_growth e3
      revert e
      generalize e4 : forList _ locs ([] : List (DetectedGrid F64)) = r4
      intro e
      cases r4 with
      | error _ => cases e
      | ok gs =>
        cases e
        have := forList_growth (m := fun l : List (DetectedGrid F64) => l.length) (by
          intro i s s' e
          obtain ⟨b0, -, e⟩ := bind_result e
          obtain ⟨b1, -, e⟩ := bind_result e
          obtain ⟨b2, -, e⟩ := bind_result e
          obtain ⟨b3, -, e⟩ := bind_result e
          cases e
          simp) locs _ _ e4
        simp only [List.length_nil] at this
        omega

/-- **C69.** Without three of them nothing is detected, and nothing panics. -/
theorem C69_none (h0 : Fresh img0) (hw : width img0.buffer ≤ 32768) (hh : height img0.buffer ≤ 32768)
    (hpos : 0 < width img0.buffer) {ps : List Pos} (h : RingsAmong img0 ps) (hps : ps.length ≤ 2) :
    ∃ img, img0.detect_grids F64 = .ok (img, []) := by
  obtain ⟨img1, stones, e1, hl⟩ := C69_capstones (F := F64) h0 hw hh hpos h
  refine ⟨img1, ?_⟩
  have e2 : img1.find_groupings stones = .ok [] := by
    unfold PreparedImage.find_groupings find_groupings_with
    rw [forRange_eq (fun _ => (([], []) : List Nat × List (CapStoneGroup F64))) (Nat.zero_le _) rfl, Run.ok_bind]
    · rfl
    · intro i _ hi
      obtain ⟨pairs, e, -⟩ := C62_ranking hi
      have hp : pairs = [] := by
        rw [List.eq_nil_iff_forall_not_mem]
        intro p hp
        have := rank_distinct_f64 e hp hi
        omega
      rw [hp] at e
      show (find_and_rank_possible_neighbors stones i >>= _) = _
      rw [e]
      rfl
  unfold PreparedImage.detect_grids
  rw [e1, Run.ok_bind]
  dsimp only
  rw [e2]
  rfl

/-- **C69.** Rows of fewer than seven pixels have no room for a finder pattern. -/
theorem C69_narrow (h0 : Fresh img0) (hw : width img0.buffer ≤ 6) (hh : height img0.buffer ≤ 32768) (hpos : 0 < width img0.buffer) :
    ∃ img, img0.detect_grids F64 = .ok (img, []) := by
  refine C69_none h0 (by omega) hh hpos (ps := []) ?_ (by simp)
  rintro y x pos ⟨x1, hb, -, a, b, ⟨r1, -⟩, ⟨r2, -⟩, ⟨r3, -⟩, ⟨r4, -⟩, ⟨r5, -⟩, hr⟩ -
  have hx : IsBlack img0 (x - 1, y) := rowOf_true.1 hb
  have := hx.1
  unfold FinderRatio at hr
  dsimp only at this hr
  omega

/-- A finder pattern of `s` pixels per module at a place in an image. -/
structure FinderAt where
  x : Nat
  y : Nat
  s : Nat

/-- The colour of a pixel in it. -/
def FinderAt.dark (f : FinderAt) (x y : Nat) : Bool :=
  decide (f.x ≤ x ∧ x < f.x + 7 * f.s ∧ f.y ≤ y ∧ y < f.y + 7 * f.s) && finderDark ((y - f.y) / f.s) ((x - f.x) / f.s)

/-- In the image. -/
def FinderAt.Fits (f : FinderAt) (w h : Nat) : Prop := 0 < f.s ∧ f.x + 7 * f.s ≤ w ∧ f.y + 7 * f.s ≤ h

/-- Two finder patterns with at least a pixel between them. -/
def FinderAt.Apart (f g : FinderAt) : Prop :=
  f.x + 7 * f.s < g.x ∨ g.x + 7 * g.s < f.x ∨ f.y + 7 * f.s < g.y ∨ g.y + 7 * g.s < f.y

/-- **C69.** A bitmap with two finder patterns of any sizes at any two places, and nothing else, has no grid. -/
theorem C69_two (w h : Nat) (hw : w ≤ 32768) (hh : h ≤ 32768) (f g : FinderAt) (hf : f.Fits w h) (hg : g.Fits w h) (hfg : f.Apart g) :
    ∃ img0 img, PreparedImage.prepare_from_bitmap w h (fun (_ : Unit) x y => (f.dark x y || g.dark x y, ())) () = (.ok img0, ()) ∧
      img0.detect_grids F64 = .ok (img, []) := by
  have hsize : w * h < 2 ^ 64 := by
    have : w * h ≤ 32768 * 32768 := Nat.mul_le_mul hw hh
    omega
  obtain ⟨img0, e, h0, ew, eh, ev⟩ := C34_from_bitmap w h (fun (_ : Unit) x y => (f.dark x y || g.dark x y, ())) () hsize
  obtain ⟨f1, f2, f3⟩ := hf
  obtain ⟨g1, g2, g3⟩ := hg
  unfold FinderAt.Apart at hfg
  have inside : ∀ (k : FinderAt) (x y : Nat), k.dark x y = true → k.x ≤ x ∧ x < k.x + 7 * k.s ∧ k.y ≤ y ∧ y < k.y + 7 * k.s := by
    intro k x y hk
    unfold FinderAt.dark at hk
    rw [Bool.and_eq_true, decide_eq_true_eq] at hk
    exact hk.1
  have hb : ∀ p : Pos, IsBlack img0 p ↔ (f.dark p.1 p.2 || g.dark p.1 p.2) = true := by
    rintro ⟨x, y⟩
    unfold IsBlack HasColor
    dsimp only
    rw [ew, eh]
    constructor
    · rintro ⟨h1, h2, h3⟩
      exact (ev x y h1 h2).1 h3
    · intro hd
      have hxy : x < w ∧ y < h := by
        rw [Bool.or_eq_true] at hd
        rcases hd with hd | hd
        · have := inside f x y hd
          omega
        · have := inside g x y hd
          omega
      exact ⟨hxy.1, hxy.2, (ev x y hxy.1 hxy.2).2 hd⟩
  have drawn : DrawnFinder (IsBlack img0) f.x f.y f.s ∧ DrawnFinder (IsBlack img0) g.x g.y g.s := by
    constructor
    · intro p a1 a2 a3 a4
      have : g.dark p.1 p.2 = false := by
        by_contra hc
        have := inside g p.1 p.2 (by simpa using hc)
        omega
      rw [hb, this, Bool.or_false]
      unfold FinderAt.dark
      rw [Bool.and_eq_true, decide_eq_true_eq]
      tauto
    · intro p a1 a2 a3 a4
      have : f.dark p.1 p.2 = false := by
        by_contra hc
        have := inside f p.1 p.2 (by simpa using hc)
        omega
      rw [hb, this, Bool.false_or]
      unfold FinderAt.dark
      rw [Bool.and_eq_true, decide_eq_true_eq]
      tauto
  have one : ∀ (k : FinderAt) (_ : 0 < k.s) (_ : DrawnFinder (IsBlack img0) k.x k.y k.s) (y x : Nat) (pos : LinePosition),
      FinderShape img0 y x pos → RingAndStone img0 y pos → k.dark pos.right y = true → Reach (IsBlack img0) (pos.right, y) (k.x, k.y) := by
    intro k k1 kd y x pos h1 h2 h3
    obtain ⟨i1, i2, i3, i4⟩ := inside k _ _ h3
    refine (kd.frame_region k1 (ring_in_frame kd k1 h1 h2 ⟨i1, i2, i3, i4⟩) _).2 ?_
    unfold InFrame InSquare
    dsimp only
    omega
  obtain ⟨img, hd⟩ := C69_none (img0 := img0) h0 (by omega) (by omega) (by omega) (ps := [(f.x, f.y), (g.x, g.y)]) (by
    intro y x pos h1 h2
    have h3 := (hb _).1 h2.joined.left
    rw [Bool.or_eq_true] at h3
    rcases h3 with h3 | h3
    · exact ⟨_, by simp, one f f1 drawn.1 y x pos h1 h2 h3⟩
    · exact ⟨_, by simp, one g g1 drawn.2 y x pos h1 h2 h3⟩) (by simp)
  exact ⟨img0, img, e, hd⟩

example : ∃ img0 img, PreparedImage.prepare_from_bitmap 40 30 (fun (_ : Unit) x y => (FinderAt.dark ⟨2, 3, 1⟩ x y || FinderAt.dark ⟨15, 1, 3⟩ x y, ())) () =
    (.ok img0, ()) ∧ img0.detect_grids F64 = .ok (img, []) :=
  C69_two 40 30 (by omega) (by omega) ⟨2, 3, 1⟩ ⟨15, 1, 3⟩ ⟨by decide, by decide, by decide⟩ ⟨by decide, by decide, by decide⟩ (.inl (by decide))

end Rqrr
