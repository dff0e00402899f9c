import Verif.Proofs.Fitness
import Verif.Spec.Samples
import Verif.Proofs.History

/-!
# The score of one module
-/

namespace Rqrr

open Spec ImageBuffer LawfulImage

variable {S : Type} [ImageBuffer S] [LawfulImage S] {F : Type} [FloatOps F]

/-- Reading a pixel of the image through a point. -/
theorem point_pixel {img0 img : PreparedImage S} {claims : Pos → Option Claim} (h0 : Fresh img0) (h : History img0 claims img)
    (hw : width img0.buffer ≤ 2 ^ 31) (hh : height img0.buffer ≤ 2 ^ 31) {p : Point} (hp : Inside img0 p) :
    ∃ c, img.get_pixel_at_point p = .ok c ∧ c = .ofByte (view img.buffer p.x.toNat p.y.toNat) ∧ (PixelColor.White ≠ c ↔ BlackAt img0 p) := by
  obtain ⟨hI, ew, eh⟩ := history_inv h0 h
  obtain ⟨a, b, c, d⟩ := hp
  refine ⟨_, ?_, rfl, ?_⟩
  · unfold PreparedImage.get_pixel_at_point
    rw [ew, eh, subU_ok (by omega), Run.ok_bind, subU_ok (by omega), Run.ok_bind]
    dsimp only
    rw [asI32_small (by omega), asI32_small (by omega)]
    rw [show max 0 (min (((width img0.buffer - 1 : Nat) : Int)) p.x) = p.x by omega,
      show max 0 (min (((height img0.buffer - 1 : Nat) : Int)) p.y) = p.y by omega]
    rw [get_ok hI.ok.painted.valid (by omega) (by omega), Run.ok_bind]
    rfl
  · have hwh := hI.ok.painted.white (p.x.toNat, p.y.toNat) (by dsimp only; omega) (by dsimp only; omega)
    rw [ne_comm, ne_eq, ofByte_white, hwh, not_not]
    rfl

theorem sample_ok {img0 img : PreparedImage S} {claims : Pos → Option Claim} (h0 : Fresh img0) (h : History img0 claims img)
    (hw : width img0.buffer ≤ 2 ^ 31) (hh : height img0.buffer ≤ 2 ^ 31) {p : Point}
    (h1 : -(2 ^ 31) ≤ p.x) (h2 : p.x < 2 ^ 31) (h3 : -(2 ^ 31) ≤ p.y) (h4 : p.y < 2 ^ 31) (score : Int) :
    (if p.y < 0 ∨ height img.buffer ≤ asUsize p.y ∨ p.x < 0 ∨ width img.buffer ≤ asUsize p.x then pure score
    else do
      let c ← img.get_pixel_at_point p
      if PixelColor.White ≠ c then pure (score + 1) else pure (score - 1) : Run Int) = .ok (score + sampleScore img0 p) := by
  obtain ⟨-, ew, eh⟩ := history_inv h0 h
  rw [ew, eh]
  unfold sampleScore
  by_cases hi : Inside img0 p
  · obtain ⟨a, b, c, d⟩ := id hi
    rw [if_pos hi, if_neg (by unfold asUsize; omega)]
    obtain ⟨col, e1, -, e2⟩ := point_pixel h0 h hw hh hi
    rw [e1, Run.ok_bind]
    by_cases hb : BlackAt img0 p
    · rw [if_pos (e2.2 hb), if_pos hb]; rfl
    · rw [if_neg (fun hc => hb (e2.1 hc)), if_neg hb]; rfl
  · rw [if_neg hi, if_pos (by
      unfold Inside at hi; unfold asUsize; omega), Int.add_zero]
    rfl

/-- The score of a cell is the sum over its samples. -/
theorem fitness_cell_ok {img0 img : PreparedImage S} {claims : Pos → Option Claim} (h0 : Fresh img0) (h : History img0 claims img)
    (hw : width img0.buffer ≤ 2 ^ 31) (hh : height img0.buffer ≤ 2 ^ 31) {c : Perspective F} {x y : Int} {pt : F → F → Point}
    (hp : SamplesAt c x y pt) : fitness_cell img c x y = .ok (moduleScore img0 pt) := by
  have step : ∀ ou ∈ sampleOffsets F, ∀ ov ∈ sampleOffsets F, ∀ score : Int, (do
      let p ← c.map (FloatOps.add (FloatOps.ofInt x) ou) (FloatOps.add (FloatOps.ofInt y) ov)
      if p.y < 0 ∨ height img.buffer ≤ asUsize p.y ∨ p.x < 0 ∨ width img.buffer ≤ asUsize p.x then pure score
      else do
        let c ← img.get_pixel_at_point p
        if PixelColor.White ≠ c then pure (score + 1) else pure (score - 1) : Run Int) =
        .ok (score + sampleScore img0 (pt ou ov)) := by
    intro ou hu ov hv score
    obtain ⟨e, r1, r2, r3, r4⟩ := hp ou hu ov hv
    rw [e, Run.ok_bind]
    exact sample_ok h0 h hw hh r1 r2 r3 r4 score
  have sum1 : ∀ (l : List F) (g : F → Int → Run Int) (s : F → Int), (∀ a ∈ l, ∀ score, g a score = .ok (score + s a)) →
      ∀ score, forList g l score = .ok (score + (l.map s).sum) := by
    intro l g s
    induction l with
    | nil => intro _ score; simp [forList]
    | cons a l ih =>
      intro hg score
      rw [forList, hg a (by simp), Run.ok_bind, ih (fun b hb => hg b (by simp [hb])), List.map_cons, List.sum_cons]
      congr 1
      ring
  unfold fitness_cell
  rw [show offsets F = sampleOffsets F from rfl]
  have := sum1 (sampleOffsets F) (fun ov score => forList (fun ou score => do
    let p ← c.map (FloatOps.add (FloatOps.ofInt x) ou) (FloatOps.add (FloatOps.ofInt y) ov)
    if p.y < 0 ∨ height img.buffer ≤ asUsize p.y ∨ p.x < 0 ∨ width img.buffer ≤ asUsize p.x then pure score
    else do
      let c ← img.get_pixel_at_point p
      if PixelColor.White ≠ c then pure (score + 1) else pure (score - 1)) (sampleOffsets F) score)
    (fun ov => ((sampleOffsets F).map fun ou => sampleScore img0 (pt ou ov)).sum)
    (fun ov hv score => sum1 (sampleOffsets F) _ _ (fun ou hu score => step ou hu ov hv score) score) 0
  rw [Int.zero_add] at this
  exact this

/-- The score of a module lies between -9 and 9, and is extreme iff all samples have one colour. -/
theorem moduleScore_le (img0 : PreparedImage S) (pt : F → F → Point) :
    -9 ≤ moduleScore img0 pt ∧ moduleScore img0 pt ≤ 9 ∧
      (moduleScore img0 pt = 9 ↔ ∀ ou ∈ sampleOffsets F, ∀ ov ∈ sampleOffsets F, Inside img0 (pt ou ov) ∧ BlackAt img0 (pt ou ov)) ∧
      (moduleScore img0 pt = -9 ↔ ∀ ou ∈ sampleOffsets F, ∀ ov ∈ sampleOffsets F, Inside img0 (pt ou ov) ∧ ¬ BlackAt img0 (pt ou ov)) := by
  have one : ∀ p : Point, -1 ≤ sampleScore img0 p ∧ sampleScore img0 p ≤ 1 ∧
      (sampleScore img0 p = 1 ↔ Inside img0 p ∧ BlackAt img0 p) ∧ (sampleScore img0 p = -1 ↔ Inside img0 p ∧ ¬ BlackAt img0 p) := by
    intro p
    unfold sampleScore
    by_cases hi : Inside img0 p
    · by_cases hb : BlackAt img0 p <;> simp [hi, hb]
    · simp [hi]
  unfold moduleScore sampleOffsets
  simp only [List.map_cons, List.map_nil, List.sum_cons, List.sum_nil, List.mem_cons, List.not_mem_nil, or_false, forall_eq_or_imp, forall_eq]
  generalize FloatOps.lit (F := F) 3 1 = a
  generalize FloatOps.lit (F := F) 5 1 = b
  generalize FloatOps.lit (F := F) 7 1 = c
  obtain ⟨l1, u1, p1, n1⟩ := one (pt a a)
  obtain ⟨l2, u2, p2, n2⟩ := one (pt a b)
  obtain ⟨l3, u3, p3, n3⟩ := one (pt a c)
  obtain ⟨l4, u4, p4, n4⟩ := one (pt b a)
  obtain ⟨l5, u5, p5, n5⟩ := one (pt b b)
  obtain ⟨l6, u6, p6, n6⟩ := one (pt b c)
  obtain ⟨l7, u7, p7, n7⟩ := one (pt c a)
  obtain ⟨l8, u8, p8, n8⟩ := one (pt c b)
  obtain ⟨l9, u9, p9, n9⟩ := one (pt c c)
  rw [← p1, ← p2, ← p3, ← p4, ← p5, ← p6, ← p7, ← p8, ← p9, ← n1, ← n2, ← n3, ← n4, ← n5, ← n6, ← n7, ← n8, ← n9]
  refine ⟨by omega, by omega, ⟨fun h => by omega, fun h => by omega⟩, ⟨fun h => by omega, fun h => by omega⟩⟩

/-- A sum of bounded scores is extreme iff all scores are. -/
theorem agreement_le {f : Int → Int → Int} {l : List (Nat × Nat × Bool)}
    (h : ∀ c ∈ l, -9 ≤ f c.2.1 c.1 ∧ f c.2.1 c.1 ≤ 9) :
    agreement f l ≤ 9 * l.length ∧ (agreement f l = 9 * l.length ↔ ∀ c ∈ l, f c.2.1 c.1 = if c.2.2 then 9 else -9) := by
  induction l with
  | nil => simp [agreement]
  | cons c l ih =>
    obtain ⟨i1, i2⟩ := ih fun c hc => h c (by simp [hc])
    obtain ⟨a, b⟩ := h c (by simp)
    have e : agreement f (c :: l) = (if c.2.2 then f c.2.1 c.1 else -f c.2.1 c.1) + agreement f l := by
      simp [agreement]
    rw [e, List.length_cons, List.forall_mem_cons, ← i2]
    push_cast
    cases c.2.2
    · simp only [Bool.false_eq_true, ↓reduceIte]
      refine ⟨by omega, ⟨fun h => by omega, fun h => by omega⟩⟩
    · simp only [↓reduceIte]
      refine ⟨by omega, ⟨fun h => by omega, fun h => by omega⟩⟩

end Rqrr
