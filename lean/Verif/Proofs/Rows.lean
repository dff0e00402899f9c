import Verif.Proofs.Drawing
import Verif.Props.Detect

/-!
# Checking a bitmap for finder patterns, row by row

For concrete bitmaps: a check that can be computed.
-/

namespace Rqrr

open Spec ImageBuffer

/-- The scanner and its hits after the pixels up to `n`. -/
def hitsTo (f : Nat → PixelColor) : Nat → Run (LineScanner × List LinePosition)
  | 0 => .ok (LineScanner.new (f 0), [])
  | n + 1 => do
    let r ← hitsTo f n
    let a ← r.1.advance (f (n + 1))
    pure (a.2, r.2 ++ a.1.toList)

theorem hitsTo_ok (f : Nat → PixelColor) : ∀ n, ∃ s l, hitsTo f n = .ok (s, l) ∧
    (∃ b k t, Scanned s f (n + 1) b k t ∧ b = f n ∧ s.last_color = b) ∧
    ∀ x pos, 1 ≤ x → x ≤ n → f x = .White → f (x - 1) ≠ .White → FinderRuns f x pos → pos ∈ l
  | 0 => ⟨_, _, rfl, ⟨_, _, _, scanned_new f _, rfl, rfl⟩, fun x pos h1 h2 => by omega⟩
  | n + 1 => by
    obtain ⟨s, l, e, ⟨b, k, t, h1, h2, h3⟩, h⟩ := hitsTo_ok f n
    obtain ⟨o, s', b', n', t', e', l', hs, hb, ho⟩ := advance_ok h1 (c := f (n + 1)) (by rw [h3])
    refine ⟨s', l ++ o.toList, ?_, ⟨b', n', t', hs, hb, by rw [l', hb]⟩, ?_⟩
    · unfold hitsTo
      rw [e, Run.ok_bind]
      dsimp only
      rw [e', Run.ok_bind]
      rfl
    · intro x pos x1 x2 g1 g2 g3
      rcases Nat.lt_or_ge x (n + 1) with hlt | hge
      · exact List.mem_append_left _ (h x pos x1 (by omega) g1 g2 g3)
      · obtain rfl : x = n + 1 := by omega
        rw [Nat.add_sub_cancel] at g2
        have : o = some pos := (ho pos).2 ⟨g1, by rw [h3, h2]; exact g2, g3⟩
        rw [this]
        simp

/-- A check for a pixel of the finder patterns. -/
def Spec.Placement.inFinders (P : Placement) (n x y : Nat) : Bool :=
  let i := (x - P.corner.x) * P.right.x + (y - P.corner.y) * P.right.y
  let j := (y - P.corner.y) * P.right.x - (x - P.corner.x) * P.right.y
  decide (0 ≤ i ∧ i < n * P.scale ∧ 0 ≤ j ∧ j < n * P.scale ∧
    ((i < 7 * P.scale ∧ j < 7 * P.scale) ∨ ((n - 7 : Nat) * P.scale ≤ i ∧ j < 7 * P.scale) ∨ (i < 7 * P.scale ∧ (n - 7 : Nat) * P.scale ≤ j)))

theorem inFinders_spec {P : Placement} {n x y : Nat} (hP : IsAxis P.right) (hn : 7 ≤ n) (h : P.inFinders n x y = true) : InFinders n P (x, y) := by
  unfold Spec.Placement.inFinders at h
  dsimp only at h
  rw [decide_eq_true_iff] at h
  obtain ⟨h1, h2, h3, h4, h5⟩ := h
  set i := ((x : Int) - P.corner.x) * P.right.x + (y - P.corner.y) * P.right.y with hi
  set j := ((y : Int) - P.corner.y) * P.right.x - (x - P.corner.x) * P.right.y with hj
  have hp : P.pixel (i.toNat : Nat) (j.toNat : Nat) = ⟨x, y⟩ := by
    rw [Int.toNat_of_nonneg h1, Int.toNat_of_nonneg h3, hi, hj]
    unfold Spec.Placement.pixel
    rw [Point.mk.injEq]
    rcases hP with h | h | h | h <;> rw [h] <;> dsimp only <;> constructor <;> ring
  have hn7 : (n - 7 + 7) * P.scale = n * P.scale := by rw [Nat.sub_add_cancel hn]
  have c1 : ((n : Int) * P.scale) = ((n * P.scale : Nat) : Int) := by push_cast; rfl
  have c2 : ((n - 7 : Nat) : Int) * P.scale = (((n - 7) * P.scale : Nat) : Int) := by push_cast; rfl
  rw [c1] at h2 h4
  rw [c2] at h5
  rcases h5 with ⟨a, b⟩ | ⟨a, b⟩ | ⟨a, b⟩
  · exact ⟨0, 0, .inl ⟨rfl, rfl⟩, _, _, by omega, by omega, by omega, by omega, hp⟩
  · exact ⟨n - 7, 0, .inr (.inl ⟨rfl, rfl⟩), _, _, by omega, by omega, by omega, by omega, hp⟩
  · exact ⟨0, n - 7, .inr (.inr ⟨rfl, rfl⟩), _, _, by omega, by omega, by omega, by omega, hp⟩

/-- The colours of a row of a bitmap. -/
def rowColors (w : Nat) (d : Nat → Nat → Bool) (y x : Nat) : PixelColor := if decide (x < w) && d x y then .Black else .White

/-- All hits of the scanner in a bitmap are in the finder patterns. -/
def onlyFinders (w h : Nat) (d : Nat → Nat → Bool) (n : Nat) (P : Placement) : Bool :=
  (List.range h).all fun y => match hitsTo (rowColors w d y) w with
    | .ok (_, l) => l.all fun pos => P.inFinders n pos.right y
    | .error _ => false

theorem onlyFinders_spec {w h n : Nat} {d : Nat → Nat → Bool} {P : Placement} {img : PreparedImage BasicImageBuffer} (hP : IsAxis P.right)
    (hn : 7 ≤ n) (hw : width img.buffer = w) (hh : height img.buffer = h)
    (hv : ∀ x y, x < w → y < h → (LawfulImage.view img.buffer x y = 1 ↔ d x y = true)) (hc : onlyFinders w h d n P = true) :
    OnlyFinders img n P := by
  intro y x pos hs _
  obtain ⟨hx, h1, h2, hr⟩ := hs
  have hb : ∀ x, rowOf img y x = true ↔ x < w ∧ y < h ∧ d x y = true := by
    intro x
    unfold rowOf
    refine (@decide_eq_true_iff _ (Classical.propDecidable _)).trans ?_
    unfold IsBlack HasColor
    dsimp only
    rw [hw, hh]
    constructor
    · rintro ⟨a, b, c⟩
      exact ⟨a, b, (hv x y a b).1 c⟩
    · rintro ⟨a, b, c⟩
      exact ⟨a, b, (hv x y a b).2 c⟩
  obtain ⟨a, b, -⟩ := (hb _).1 h1
  have hrow : ∀ x, rowColors w d y x = if rowOf img y x then .Black else .White := by
    intro x
    unfold rowColors
    have : (decide (x < w) && d x y) = rowOf img y x := by
      rw [Bool.eq_iff_iff, hb, Bool.and_eq_true, decide_eq_true_iff]
      exact ⟨fun h => ⟨h.1, b, h.2⟩, fun h => ⟨h.1, h.2.2⟩⟩
    rw [this]
  have heq : ∀ a b, rowColors w d y a = rowColors w d y b ↔ rowOf img y a = rowOf img y b := by
    intro a b
    rw [hrow, hrow]
    cases rowOf img y a <;> cases rowOf img y b <;> simp
  have hrun : ∀ {a b : Nat}, IsRun (rowOf img y) a b → IsRun (rowColors w d y) a b := by
    rintro a b ⟨k1, k2, k3⟩
    exact ⟨k1, fun i i1 i2 => (heq _ _).2 (k2 i i1 i2), k3.imp id fun h h' => h ((heq _ _).1 h')⟩
  have hfr : FinderRuns (rowColors w d y) x pos := by
    obtain ⟨x1, x3, r1, r2, r3, r4, r5, r6⟩ := hr
    exact ⟨x1, x3, hrun r1, hrun r2, hrun r3, hrun r4, hrun r5, r6⟩
  obtain ⟨s, l, e, -, hl⟩ := hitsTo_ok (rowColors w d y) w
  have hmem := hl x pos hx (by omega) (by rw [hrow, h2]; rfl) (by rw [hrow, h1]; simp) hfr
  unfold onlyFinders at hc
  rw [List.all_eq_true] at hc
  have := hc y (List.mem_range.2 b)
  rw [e] at this
  dsimp only at this
  rw [List.all_eq_true] at this
  exact inFinders_spec hP hn (this _ hmem)

end Rqrr
