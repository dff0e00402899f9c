import Verif.Spec.Several
import Verif.Props.Matrix

/-!
# Drawings of several symbols as bitmaps
-/

namespace Rqrr

open Spec ImageBuffer

variable {S : Type} [ImageBuffer S] [LawfulImage S] {img : PreparedImage S} {n : Nat} {M : Nat → Nat → Bool} {P : Placement}

/-- The pixels of a drawing form a square. -/
theorem inDrawing_iff (hP : IsAxis P.right) {p : Pos} : InDrawing n P p ↔
    (0 ≤ ((p.1 : Int) - P.corner.x) * P.right.x + (p.2 - P.corner.y) * P.right.y ∧
      ((p.1 : Int) - P.corner.x) * P.right.x + (p.2 - P.corner.y) * P.right.y < (n * P.scale : Nat)) ∧
    (0 ≤ ((p.2 : Int) - P.corner.y) * P.right.x - (p.1 - P.corner.x) * P.right.y ∧
      ((p.2 : Int) - P.corner.y) * P.right.x - (p.1 - P.corner.x) * P.right.y < (n * P.scale : Nat)) := by
  have := Placement.dark_iff (n := n) (M := fun _ _ => true) hP (x := p.1) (y := p.2)
  have e : P.dark n (fun _ _ => true) p.1 p.2 = true ↔ InDrawing n P p := by
    rw [this]
    unfold InDrawing
    simp
  rw [← e]
  unfold Placement.dark
  dsimp only
  rw [Bool.and_true, decide_eq_true_iff]
  push_cast
  tauto

/-- What lies in a row between two pixels of a drawing is in the drawing. -/
theorem inDrawing_between (hP : IsAxis P.right) {a b c y : Nat} (ha : InDrawing n P (a, y)) (hc : InDrawing n P (c, y)) (h1 : a ≤ b)
    (h2 : b ≤ c) : InDrawing n P (b, y) := by
  rw [inDrawing_iff hP] at ha hc ⊢
  rcases hP with h | h | h | h <;> rw [h] at ha hc ⊢ <;> dsimp only at ha hc ⊢ <;> omega

/-- A region that begins inside does not leave. -/
theorem reach_local {B D : Pos → Prop} (hB : ∀ p q, D p → Adj p q → ¬ D q → ¬ B q) {p q : Pos} (hp : D p) :
    Reach B p q ↔ Reach (fun r => B r ∧ D r) p q := by
  constructor
  · rintro ⟨h, hr⟩
    refine ⟨⟨h, hp⟩, ?_⟩
    have : Relation.ReflTransGen (fun a b => Adj a b ∧ (B b ∧ D b)) p q ∧ D q := by
      induction hr with
      | refl => exact ⟨.refl, hp⟩
      | @tail b c _ h2 ih =>
        have : D c := by
          by_contra hd
          exact hB _ _ ih.2 h2.1 hd h2.2
        exact ⟨.tail ih.1 ⟨h2.1, h2.2, this⟩, this⟩
    exact this.1
  · rintro ⟨h, hr⟩
    exact ⟨h.1, Relation.ReflTransGen.mono (r := fun a b => Adj a b ∧ (B b ∧ D b)) (fun a b h => ⟨h.1, h.2.1⟩) p q hr⟩

theorem reach_inside {B D : Pos → Prop} (hB : ∀ p q, D p → Adj p q → ¬ D q → ¬ B q) {p q : Pos} (hp : D p) (h : Reach B p q) : D q := by
  have := (reach_local hB hp).1 h
  rcases Relation.ReflTransGen.cases_tail this.2 with e | ⟨c, -, h2⟩
  · rw [e]; exact hp
  · exact h2.2.2

/-- A drawing lies in a square of 10001 pixels. -/
theorem Spec.Renders.fits (hn : 1 ≤ n) (hR : Renders img n M P) : P.Fits 10001 10001 n := by
  have hs := hR.scale
  have hN : 1 ≤ n * P.scale := Nat.one_le_iff_ne_zero.2 (by positivity)
  have h1 := hR.inside 0 0 (by omega) (by omega)
  have h2 := hR.inside (n * P.scale - 1) (n * P.scale - 1) (by omega) (by omega)
  have e : ((n * P.scale - 1 : Nat) : Int) = (n : Int) * P.scale - 1 := by push_cast [Nat.cast_sub hN]; rfl
  rw [e] at h2
  have e0 : P.pixel ((0 : Nat) : Int) ((0 : Nat) : Int) = P.corner := by
    unfold Placement.pixel
    simp
  rw [e0] at h1
  exact ⟨hR.axis, hs, by omega, by omega⟩

/-- In a drawing with light pixels around it, whose matrix cannot be mistaken, only finder patterns look like finder patterns. -/
theorem only_local (hn : 7 ≤ n) (hR : Renders img n M P) (hX : FullyDrawn img n M P) (hB : Bordered img n P) (hU : Unmistakable n M P.scale) {y x : Nat}
    {pos : LinePosition} (hf : FinderShape img y x pos) (hr : RingAndStone img y pos) (hin : InDrawing n P (pos.right, y)) :
    InFinders n P (pos.right, y) := by
  obtain ⟨imgA, -, -, -, -, hA⟩ := bitmap_pictures (M := M) (hR.fits (by omega)) (by norm_num) (by norm_num)
  have hblack : IsBlack imgA = fun p => IsBlack img p ∧ InDrawing n P p := by
    funext p
    rw [eq_iff_iff, hA.black]
    constructor
    · rintro ⟨i, j, hi, hj, hp, hm⟩
      exact ⟨(hX p i j hi hj hp).2 hm, i, j, hi, hj, hp⟩
    · rintro ⟨hb, i, j, hi, hj, hp⟩
      exact ⟨i, j, hi, hj, hp, (hX p i j hi hj hp).1 hb⟩
  have hreach : ∀ {p q}, InDrawing n P p → (Reach (IsBlack img) p q ↔ Reach (IsBlack imgA) p q) := by
    intro p q hp
    rw [hblack]
    exact reach_local hB hp
  have harea : ∀ {p}, InDrawing n P p → area (IsBlack img) p = area (IsBlack imgA) p := by
    intro p hp
    unfold area
    congr 1
    ext q
    exact hreach hp
  have row : ∀ (J : PreparedImage BasicImageBuffer) z, rowOf J y z = true ↔ IsBlack J (z, y) :=
    fun J z => @decide_eq_true_iff _ (Classical.propDecidable _)
  have row' : ∀ z, rowOf img y z = true ↔ IsBlack img (z, y) := fun z => @decide_eq_true_iff _ (Classical.propDecidable _)
  obtain ⟨hx, hlast, hend, x1, x3, r1, r2, r3, r4, r5, ratio⟩ := hf
  have d0 : InDrawing n P (pos.left, y) := reach_inside hB hin hr.joined
  -- the last run is inside
  have dark : ∀ z, pos.right ≤ z → z < x → IsBlack img (z, y) := by
    intro z h1 h2
    have e1 := r5.2.1 z h1 h2
    have e2 := r5.2.1 (x - 1) (by have := r5.1; omega) (by omega)
    rw [← row', e1, ← e2]
    exact hlast
  have dlast : ∀ z, pos.right ≤ z → z < x → InDrawing n P (z, y) := by
    intro z h1
    induction z, h1 using Nat.le_induction with
    | base => exact fun _ => hin
    | succ z hz ih =>
      intro h2
      by_contra hd
      exact hB (z, y) (z + 1, y) (ih (by omega)) (.inl ⟨rfl, .inl rfl⟩) hd (dark _ (by omega) h2)
  have l1 := r1.1
  have l2 := r2.1
  have l3 := r3.1
  have l4 := r4.1
  have l5 := r5.1
  have dall : ∀ z, pos.left ≤ z → z < x → InDrawing n P (z, y) := by
    intro z h1 h2
    by_cases h : z ≤ pos.right
    · exact inDrawing_between hR.axis d0 hin h1 h
    · exact dlast z (by omega) h2
  have same : ∀ z, pos.left ≤ z → z < x → rowOf imgA y z = rowOf img y z := by
    intro z h1 h2
    rw [Bool.eq_iff_iff, row, row', hblack]
    exact ⟨fun h => h.1, fun h => ⟨h, dall z h1 h2⟩⟩
  have light : ∀ z, rowOf img y z = false → rowOf imgA y z = false := by
    intro z h
    rw [Bool.eq_false_iff] at h ⊢
    intro h'
    apply h
    rw [row, hblack] at h'
    exact (row' z).2 h'.1
  have left : rowOf img y pos.left = true := (row' _).2 ((reach_local hB hin).1 hr.joined |>.2 |> fun h => by
    rcases Relation.ReflTransGen.cases_tail h with e | ⟨c, -, h2⟩
    · rw [e]; exact hr.joined.1
    · exact h2.2.1)
  have run : ∀ a b, pos.left < a → b ≤ x → IsRun (rowOf img y) a b → IsRun (rowOf imgA y) a b := by
    rintro a b h1 h2 ⟨c1, c2, c3⟩
    refine ⟨c1, fun i hi hi' => ?_, ?_⟩
    · rw [same i (by omega) (by omega), same a (by omega) (by omega)]
      exact c2 i hi hi'
    · right
      rw [same (a - 1) (by omega) (by omega), same a (by omega) (by omega)]
      rcases c3 with c3 | c3
      · omega
      · exact c3
  have run0 : IsRun (rowOf imgA y) pos.left x1 := by
    refine ⟨l1, fun i hi hi' => ?_, ?_⟩
    · rw [same i (by omega) (by omega), same pos.left (by omega) (by omega)]
      exact r1.2.1 i hi hi'
    · rcases r1.2.2 with c3 | c3
      · exact .inl c3
      · right
        rw [same pos.left (by omega) (by omega), left]
        rw [left] at c3
        rw [light _ (by simpa using c3)]
        simp
  have ds := dall pos.stone (by omega) (by omega)
  refine unmistakable_spec hn hA hU y x pos ⟨hx, ?_, light _ hend, x1, x3, run0, run _ _ (by omega) (by omega) r2,
    run _ _ (by omega) (by omega) r3, run _ _ (by omega) (by omega) r4, run _ _ (by omega) (by omega) r5, ratio⟩ ⟨?_, ?_, ?_, ?_⟩
  · rw [same _ (by omega) (by omega)]; exact hlast
  · exact (hreach hin).1 hr.joined
  · exact fun h => hr.apart ((hreach hin).2 h)
  · rw [← harea ds, ← harea hin]; exact hr.lower
  · rw [← harea ds, ← harea hin]; exact hr.upper

theorem Spec.Symbol.Clear.symm {A B : Symbol} (h : A.Clear B) : B.Clear A := fun p q hp hq hc => h q p hq hp (by tauto)

/-- A bitmap of several drawings that do not touch: each of them is drawn in the image. -/
theorem several_bitmap {w h : Nat} {syms : List Symbol} (hA : Arranged w h syms) {img : PreparedImage BasicImageBuffer}
    (hw : width img.buffer = w) (hh : height img.buffer = h)
    (hv : ∀ x y, x < w → y < h → (LawfulImage.view img.buffer x y = 1 ↔ sheet syms x y = true)) : Several img syms := by
  have black : ∀ p, IsBlack img p ↔ ∃ A ∈ syms, ∃ i j : Nat, i < side A.version * A.place.scale ∧ j < side A.version * A.place.scale ∧
      A.place.pixel i j = ⟨p.1, p.2⟩ ∧ A.modules (j / A.place.scale) (i / A.place.scale) = true := by
    rintro ⟨x, y⟩
    have e : sheet syms x y = true ↔ ∃ A ∈ syms, ∃ i j : Nat, i < side A.version * A.place.scale ∧ j < side A.version * A.place.scale ∧
      A.place.pixel i j = ⟨x, y⟩ ∧ A.modules (j / A.place.scale) (i / A.place.scale) = true := by
      unfold sheet
      rw [List.any_eq_true]
      exact exists_congr fun A => and_congr_right fun hm => Placement.dark_iff (hA.fits A hm).axis
    rw [← e]
    unfold IsBlack HasColor
    dsimp only
    rw [hw, hh]
    constructor
    · rintro ⟨h1, h2, h3⟩
      exact (hv x y h1 h2).1 h3
    · intro hd
      have hxy : x < w ∧ y < h := by
        obtain ⟨A, hm, i, j, hi, hj, hp, -⟩ := e.1 hd
        have := (hA.fits A hm).inside hi hj
        rw [hp] at this
        dsimp only at this
        omega
      exact ⟨hxy.1, hxy.2, (hv x y hxy.1 hxy.2).2 hd⟩
  have clear : ∀ A ∈ syms, ∀ B ∈ syms, A ≠ B → A.Clear B := by
    intro A ha B hb hne
    have : Std.Symm Symbol.Clear := ⟨fun _ _ h => h.symm⟩
    exact hA.clear.forall ha hb hne
  -- a black pixel near a drawing is in the drawing
  have near : ∀ A ∈ syms, ∀ p q : Pos, A.Covers p → p.1 ≤ q.1 + 1 → q.1 ≤ p.1 + 1 → p.2 ≤ q.2 + 1 → q.2 ≤ p.2 + 1 → ¬ A.Covers q →
      ¬ IsBlack img q := by
    intro A ha p q hp c1 c2 c3 c4 hq hb
    obtain ⟨B, hbm, i, j, hi, hj, hpx, -⟩ := (black q).1 hb
    have hB : B.Covers q := ⟨i, j, hi, hj, hpx⟩
    by_cases hne : A = B
    · subst hne; exact hq hB
    · exact clear A ha B hbm hne p q hp hB ⟨c1, c2, c3, c4⟩
  have filled : ∀ A ∈ syms, FullyDrawn img (side A.version) A.modules A.place := by
    intro A ha p i j hi hj hp
    have hF := hA.fits A ha
    rw [black]
    constructor
    · rintro ⟨B, hb, i', j', hi', hj', hp', hm⟩
      have : A = B := by
        by_contra hne
        exact clear A ha B hb hne p p ⟨i, j, hi, hj, hp⟩ ⟨i', j', hi', hj', hp'⟩ (by omega)
      subst this
      have e := hp.trans hp'.symm
      unfold Placement.pixel at e
      rw [Point.mk.injEq] at e
      have : i = i' ∧ j = j' := by
        rcases hF.axis with h | h | h | h <;> rw [h] at e <;> dsimp only at e <;> omega
      rw [this.1, this.2]
      exact hm
    · intro hm
      exact ⟨A, ha, i, j, hi, hj, hp, hm⟩
  have renders : ∀ A ∈ syms, Renders img (side A.version) A.modules A.place := by
    intro A ha
    have hF := hA.fits A ha
    refine ⟨hF.axis, hF.scale, ?_, fun p i j hi hj _ hp => filled A ha p i j hi hj hp, ?_⟩
    · intro i j hi hj
      rw [hw, hh]
      exact hF.inside hi hj
    · intro p q hp c1 c2 c3 c4 hq
      refine near A ha p q ?_ c1 c2 c3 c4 hq
      obtain ⟨a, b, hab, i, j, h1, h2, h3, h4, h5⟩ := hp
      have hside : 7 ≤ side A.version := by unfold side; omega
      have ha7 : a + 7 ≤ side A.version := by unfold FinderPlace at hab; omega
      have hb7 : b + 7 ≤ side A.version := by unfold FinderPlace at hab; omega
      exact ⟨i, j, lt_of_lt_of_le h2 (Nat.mul_le_mul_right _ ha7), lt_of_lt_of_le h4 (Nat.mul_le_mul_right _ hb7), h5⟩
  refine ⟨fun A ha => ⟨hA.pos A ha, hA.le A ha, hA.ne A ha, renders A ha, hA.patterned A ha, hA.inRange A ha⟩, ?_, ?_, hA.corners⟩
  · exact hA.clear.imp fun h p hp => h p p hp.1 hp.2 (by omega)
  · intro y x pos hf hr
    have hb : IsBlack img (pos.right, y) := hr.joined.1
    obtain ⟨A, ha, i, j, hi, hj, hp, -⟩ := (black _).1 hb
    refine ⟨A, ha, only_local (by unfold side; omega) (renders A ha) (filled A ha) ?_ (hA.unmistakable A ha) hf hr ⟨i, j, hi, hj, hp⟩⟩
    intro p q hp hadj hq
    unfold Adj at hadj
    exact near A ha p q hp (by omega) (by omega) (by omega) (by omega) hq

end Rqrr
