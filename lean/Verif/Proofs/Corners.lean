import Verif.Spec.Corners
import Verif.Model.Identify
import Verif.Proofs.History
import Verif.Proofs.Bresenham
import Verif.Proofs.Partial

/-!
# Claiming a region and finding its corners
-/

namespace Rqrr

open ImageBuffer LawfulImage Spec

theorem foldlM_ok {φ : Type} {update : φ → Row → Run φ} (Inv : List Row → φ → Prop) : ∀ {rows done : List Row} {f : φ},
    Inv done f → (∀ done r f, r ∈ rows → Inv done f → ∃ f', update f r = .ok f' ∧ Inv (done ++ [r]) f') →
    ∃ f', rows.foldlM update f = .ok f' ∧ Inv (done ++ rows) f'
  | [], done, f, h0, _ => ⟨f, rfl, by simpa using h0⟩
  | r :: rows, done, f, h0, step => by
    obtain ⟨f1, h1, h2⟩ := step done r f List.mem_cons_self h0
    obtain ⟨f2, h3, h4⟩ := foldlM_ok Inv h2 fun d r' f hr => step d r' f (List.mem_cons_of_mem _ hr)
    refine ⟨f2, ?_, by simpa using h4⟩
    rw [List.foldlM_cons, h1]
    exact h3

variable {S : Type} [ImageBuffer S] [LawfulImage S]

/-- Claiming the region of a black pixel with a filler that maintains an invariant. -/
theorem claim_run {img0 img : PreparedImage S} {claims : Pos → Option Claim} (h0 : Fresh img0) (h : History img0 claims img)
    {x y : Nat} (hb : IsBlack img0 (x, y)) (c : Claim) (hc : claims (x, y) ≠ some c) {φ : Type} {update : φ → Row → Run φ}
    {f : φ} (Inv : List Row → φ → Prop) (hf : Inv [] f)
    (step : ∀ done r f, (∀ p, inRow r p → Reach (IsBlack img0) (x, y) p) → r.left ≤ r.right → Inv done f →
      ∃ f', update f r = .ok f' ∧ Inv (done ++ [r]) f') :
    ∃ img' f' rows, img.repaint_and_apply update x y c.color f = .ok (img', f') ∧
      History img0 (claimRegion (IsBlack img0) (x, y) c claims) img' ∧
      (∀ p, (∃ r ∈ rows, inRow r p) ↔ Reach (IsBlack img0) (x, y) p) ∧ Inv rows f' := by
  obtain ⟨hI, hw, hh⟩ := history_inv h0 h
  obtain ⟨s', rows, -, -, -, -, -, r6, -, r8, r9⟩ := claim_ok hI hb c hc
  obtain ⟨f', e, hinv⟩ := foldlM_ok (rows := rows) (done := []) Inv hf (by
    intro done r f hr hi
    exact step done r f (fun p hp => (r6 p).1 ⟨r, hr, hp⟩) (r8 r hr) hi)
  have run := r9 φ update f
  rw [e] at run
  refine ⟨_, f', rows, run, .claim h hb.1 hb.2.1 c run ?_ ?_, r6, by simpa using hinv⟩
  · intro p hp; exact if_pos hp
  · intro p hp; exact if_neg hp

/-! ### Arithmetic -/

/-- Coordinates of points in images of at most 32768 pixels width and height. -/
def InRange (p : Point) : Prop := 0 ≤ p.x ∧ p.x ≤ 32767 ∧ 0 ≤ p.y ∧ p.y ≤ 32767

/-- Differences of such points. -/
def DiffRange (p : Point) : Prop := -32767 ≤ p.x ∧ p.x ≤ 32767 ∧ -32767 ≤ p.y ∧ p.y ≤ 32767

theorem small_mul {a b : Int} (ha : -32767 ≤ a) (ha' : a ≤ 32767) (hb : -32767 ≤ b) (hb' : b ≤ 32767) :
    -1073676289 ≤ a * b ∧ a * b ≤ 1073676289 := by
  constructor <;> nlinarith

theorem mulI_ok {a b : Int} (ha : -32767 ≤ a) (ha' : a ≤ 32767) (hb : -32767 ≤ b) (hb' : b ≤ 32767) :
    mulI a b = .ok (a * b) := by
  obtain ⟨h1, h2⟩ := small_mul ha ha' hb hb'
  exact chk32_ok (by omega) (by omega)

theorem point_inj {p q : Pos} (h : point p = point q) : p = q := by
  unfold point at h
  simp only [Point.mk.injEq, Int.natCast_inj] at h
  exact Prod.ext h.1 h.2

/-! ### The first corner -/

/-- A value is at most the larger one of those at the ends of the row. -/
theorem dist2_row {a : Point} {l r x : Int} (h1 : l ≤ x) (h2 : x ≤ r) (y : Int) :
    dist2 a ⟨x, y⟩ ≤ max (dist2 a ⟨l, y⟩) (dist2 a ⟨r, y⟩) := by
  unfold dist2
  dsimp only
  rcases le_total a.x x with h | h
  · refine le_max_of_le_right ?_
    nlinarith
  · refine le_max_of_le_left ?_
    nlinarith

theorem linear_row (a b : Int) {l r x : Int} (h1 : l ≤ x) (h2 : x ≤ r) :
    a * x + b ≤ max (a * l + b) (a * r + b) := by
  rcases le_total 0 a with h | h
  · exact le_max_of_le_right (by nlinarith)
  · exact le_max_of_le_left (by nlinarith)

theorem first_step {f : FirstCornerFinder} {r : Row} (hi : InRange f.initial) (hl : r.left ≤ 32767) (hr : r.right ≤ 32767)
    (hy : r.y ≤ 32767) : ∃ f', f.update r = .ok f' ∧ f'.initial = f.initial ∧
      f'.score = max f.score (max (dist2 f.initial (point (r.left, r.y))) (dist2 f.initial (point (r.right, r.y)))) ∧
      ((f'.best = f.best ∧ f'.score = f.score) ∨
        ((f'.best = point (r.left, r.y) ∨ f'.best = point (r.right, r.y)) ∧ f'.score = dist2 f.initial f'.best)) := by
  obtain ⟨i1, i2, i3, i4⟩ := hi
  unfold FirstCornerFinder.update
  rw [asI32_small (show r.y < 2 ^ 31 by omega), asI32_small (show r.left < 2 ^ 31 by omega),
    asI32_small (show r.right < 2 ^ 31 by omega)]
  have s1 : subI (r.y : Int) f.initial.y = .ok (r.y - f.initial.y) := chk32_ok (by omega) (by omega)
  have s2 : subI (r.left : Int) f.initial.x = .ok (r.left - f.initial.x) := chk32_ok (by omega) (by omega)
  have s3 : subI (r.right : Int) f.initial.x = .ok (r.right - f.initial.x) := chk32_ok (by omega) (by omega)
  rw [s1, Run.ok_bind, s2, Run.ok_bind, s3, Run.ok_bind]
  generalize e1 : (r.y : Int) - f.initial.y = dy
  generalize e2 : (r.left : Int) - f.initial.x = dl
  generalize e3 : (r.right : Int) - f.initial.x = dr
  obtain ⟨m1, m2⟩ := small_mul (a := dy) (b := dy) (by omega) (by omega) (by omega) (by omega)
  obtain ⟨m3, m4⟩ := small_mul (a := dl) (b := dl) (by omega) (by omega) (by omega) (by omega)
  obtain ⟨m5, m6⟩ := small_mul (a := dr) (b := dr) (by omega) (by omega) (by omega) (by omega)
  have a1 : addI (dl * dl) (dy * dy) = .ok (dl * dl + dy * dy) := chk32_ok (by omega) (by omega)
  have a2 : addI (dr * dr) (dy * dy) = .ok (dr * dr + dy * dy) := chk32_ok (by omega) (by omega)
  rw [mulI_ok (a := dl) (b := dl) (by omega) (by omega) (by omega) (by omega), Run.ok_bind,
    mulI_ok (a := dy) (b := dy) (by omega) (by omega) (by omega) (by omega), Run.ok_bind, a1, Run.ok_bind,
    mulI_ok (a := dr) (b := dr) (by omega) (by omega) (by omega) (by omega), Run.ok_bind, Run.ok_bind, a2, Run.ok_bind]
  have d1 : dist2 f.initial (point (r.left, r.y)) = dl * dl + dy * dy := by
    unfold dist2 point; dsimp only; rw [e2, e1]
  have d2 : dist2 f.initial (point (r.right, r.y)) = dr * dr + dy * dy := by
    unfold dist2 point; dsimp only; rw [e3, e1]
  refine ⟨_, rfl, ?_⟩
  rw [d1, d2]
  by_cases c1 : dl * dl + dy * dy > f.score
  · rw [if_pos c1]
    dsimp only
    by_cases c2 : dr * dr + dy * dy > dl * dl + dy * dy
    · rw [if_pos c2]
      exact ⟨rfl, by dsimp only; omega, .inr ⟨.inr rfl, by rw [← d2]; rfl⟩⟩
    · rw [if_neg c2]
      exact ⟨rfl, by dsimp only; omega, .inr ⟨.inl rfl, by rw [← d1]; rfl⟩⟩
  · rw [if_neg c1]
    by_cases c2 : dr * dr + dy * dy > f.score
    · rw [if_pos c2]
      exact ⟨rfl, by dsimp only; omega, .inr ⟨.inr rfl, by rw [← d2]; rfl⟩⟩
    · rw [if_neg c2]
      exact ⟨rfl, by omega, .inl ⟨rfl, rfl⟩⟩

/-- The region lies in an image of moderate size. -/
theorem row_range {img0 : PreparedImage S} (hw : width img0.buffer ≤ 32768) (hh : height img0.buffer ≤ 32768) {x y : Nat}
    {r : Row} (hr : ∀ p, inRow r p → Reach (IsBlack img0) (x, y) p) (hle : r.left ≤ r.right) :
    r.left ≤ 32767 ∧ r.right ≤ 32767 ∧ r.y ≤ 32767 := by
  have h1 := Reach.right (hr (r.right, r.y) ⟨rfl, hle, le_refl _⟩)
  obtain ⟨a, b, -⟩ := h1
  dsimp only at a b
  omega

theorem first_corner {img0 img : PreparedImage S} {claims : Pos → Option Claim} (h0 : Fresh img0) (h : History img0 claims img)
    (hw : width img0.buffer ≤ 32768) (hh : height img0.buffer ≤ 32768) {x y : Nat} (hb : IsBlack img0 (x, y))
    (c : Claim) (hc : claims (x, y) ≠ some c) {a : Point} (ha : InRange a) :
    ∃ img' f, img.repaint_and_apply FirstCornerFinder.update x y c.color (.new a) = .ok (img', f) ∧
      History img0 (claimRegion (IsBlack img0) (x, y) c claims) img' ∧
      ∃ p, f.best = point p ∧ Reach (IsBlack img0) (x, y) p ∧
        ∀ q, Reach (IsBlack img0) (x, y) q → dist2 a (point q) ≤ dist2 a (point p) := by
  obtain ⟨img', f, rows, e, h', hrows, k1, k2, k3⟩ := claim_run h0 h hb c hc (update := FirstCornerFinder.update) (f := .new a)
    (fun done f => f.initial = a ∧ (∀ r ∈ done, ∀ p, inRow r p → dist2 a (point p) ≤ f.score) ∧
      ((done = [] ∧ f.score = -1) ∨ ∃ p, Reach (IsBlack img0) (x, y) p ∧ f.best = point p ∧ f.score = dist2 a (point p)))
    ⟨rfl, by simp, .inl ⟨rfl, rfl⟩⟩ (by
      rintro done r f hr hle ⟨i1, i2, i3⟩
      obtain ⟨l1, l2, l3⟩ := row_range hw hh hr hle
      obtain ⟨f', e, j1, j2, j3⟩ := first_step (f := f) (r := r) (by rw [i1]; exact ha) l1 l2 l3
      rw [i1] at j1 j2 j3
      refine ⟨f', e, j1, ?_, ?_⟩
      · intro r' hr' p hp
        rcases List.mem_append.1 hr' with hr' | hr'
        · exact (i2 r' hr' p hp).trans (by omega)
        · rw [List.mem_singleton] at hr'
          subst hr'
          obtain ⟨p1, p2, p3⟩ := hp
          have := dist2_row (a := a) (l := (r'.left : Int)) (r := (r'.right : Int)) (x := (p.1 : Int)) (by omega) (by omega) (r'.y : Int)
          rw [j2]
          unfold point
          rw [p1]
          exact this.trans (le_max_right _ _)
      · rcases j3 with ⟨j3, j4⟩ | ⟨j3, j4⟩
        · rcases i3 with ⟨i3, i4⟩ | ⟨p, i3, i4, i5⟩
          · exfalso
            have : 0 ≤ dist2 a (point (r.left, r.y)) := by
              unfold dist2
              exact Int.add_nonneg (mul_self_nonneg _) (mul_self_nonneg _)
            omega
          · exact .inr ⟨p, i3, by rw [j3, i4], by rw [j4, i5]⟩
        · rcases j3 with j3 | j3
          · exact .inr ⟨_, hr _ ⟨rfl, le_refl _, hle⟩, j3, by rw [j4, j3]⟩
          · exact .inr ⟨_, hr _ ⟨rfl, hle, le_refl _⟩, j3, by rw [j4, j3]⟩)
  refine ⟨img', f, e, h', ?_⟩
  rcases k3 with ⟨k3, -⟩ | ⟨p, k3, k4, k5⟩
  · exfalso
    obtain ⟨r, hr, -⟩ := (hrows (x, y)).2 ⟨hb, .refl⟩
    rw [k3] at hr
    cases hr
  · refine ⟨p, k4, k3, fun q hq => ?_⟩
    obtain ⟨r, hr, hrq⟩ := (hrows q).2 hq
    rw [← k5]
    exact k2 r hr q hrq

/-! ### The four corners -/

/-- The score for the `j`-th corner. -/
def cornerScore (b : Point) (j : Nat) (p : Point) : Int :=
  if j = 0 then dot b p else if j = 1 then cross b p else if j = 2 then -dot b p else -cross b p

theorem cornerScore_row (b : Point) (j : Nat) {l r x : Int} (h1 : l ≤ x) (h2 : x ≤ r) (y : Int) :
    cornerScore b j ⟨x, y⟩ ≤ max (cornerScore b j ⟨l, y⟩) (cornerScore b j ⟨r, y⟩) := by
  unfold cornerScore dot cross
  dsimp only
  split
  · exact linear_row b.x (b.y * y) h1 h2
  · split
    · have := linear_row (-b.y) (b.x * y) h1 h2
      calc b.x * y - b.y * x = -b.y * x + b.x * y := by ring
        _ ≤ _ := this
        _ = _ := by congr 1 <;> ring
    · split
      · have := linear_row (-b.x) (-(b.y * y)) h1 h2
        calc -(b.x * x + b.y * y) = -b.x * x + -(b.y * y) := by ring
          _ ≤ _ := this
          _ = _ := by congr 1 <;> ring
      · have := linear_row b.y (-(b.x * y)) h1 h2
        calc -(b.x * y - b.y * x) = b.y * x + -(b.x * y) := by ring
          _ ≤ _ := this
          _ = _ := by congr 1 <;> ring

theorem scoresOf_ok {b p : Point} (hb : DiffRange b) (hp : InRange p) : ∃ v : Vector Int 4,
    AllCornerFinder.scoresOf b p.x p.y = .ok v ∧ ∀ (j : Nat) (hj : j < 4), v[j] = cornerScore b j p := by
  obtain ⟨b1, b2, b3, b4⟩ := hb
  obtain ⟨p1, p2, p3, p4⟩ := hp
  obtain ⟨m1, m2⟩ := small_mul (a := p.x) (b := b.x) (by omega) (by omega) (by omega) (by omega)
  obtain ⟨m3, m4⟩ := small_mul (a := p.y) (b := b.y) (by omega) (by omega) (by omega) (by omega)
  obtain ⟨m5, m6⟩ := small_mul (a := -p.x) (b := b.y) (by omega) (by omega) (by omega) (by omega)
  obtain ⟨m7, m8⟩ := small_mul (a := p.y) (b := b.x) (by omega) (by omega) (by omega) (by omega)
  have n1 : negI p.x = .ok (-p.x) := chk32_ok (by omega) (by omega)
  have a1 : addI (p.x * b.x) (p.y * b.y) = .ok (p.x * b.x + p.y * b.y) := chk32_ok (by omega) (by omega)
  have a2 : addI (-p.x * b.y) (p.y * b.x) = .ok (-p.x * b.y + p.y * b.x) := chk32_ok (by omega) (by omega)
  have n2 : negI (p.x * b.x + p.y * b.y) = .ok (-(p.x * b.x + p.y * b.y)) := chk32_ok (by omega) (by omega)
  have n3 : negI (-p.x * b.y + p.y * b.x) = .ok (-(-p.x * b.y + p.y * b.x)) := chk32_ok (by omega) (by omega)
  refine ⟨#v[p.x * b.x + p.y * b.y, -p.x * b.y + p.y * b.x, -(p.x * b.x + p.y * b.y), -(-p.x * b.y + p.y * b.x)], ?_, ?_⟩
  · unfold AllCornerFinder.scoresOf
    rw [mulI_ok (a := p.x) (b := b.x) (by omega) (by omega) (by omega) (by omega), Run.ok_bind,
      mulI_ok (a := p.y) (b := b.y) (by omega) (by omega) (by omega) (by omega), Run.ok_bind, a1, Run.ok_bind, n1, Run.ok_bind,
      mulI_ok (a := -p.x) (b := b.y) (by omega) (by omega) (by omega) (by omega), Run.ok_bind,
      mulI_ok (a := p.y) (b := b.x) (by omega) (by omega) (by omega) (by omega), Run.ok_bind, a2, Run.ok_bind, n2, Run.ok_bind,
      n3, Run.ok_bind]
    rfl
  · intro j hj
    have h : j = 0 ∨ j = 1 ∨ j = 2 ∨ j = 3 := by omega
    rcases h with rfl | rfl | rfl | rfl
    · show p.x * b.x + p.y * b.y = b.x * p.x + b.y * p.y
      ring
    · show -p.x * b.y + p.y * b.x = b.x * p.y - b.y * p.x
      ring
    · show -(p.x * b.x + p.y * b.y) = -(b.x * p.x + b.y * p.y)
      ring
    · show -(-p.x * b.y + p.y * b.x) = -(b.x * p.y - b.y * p.x)
      ring

/-- The `j`-th corner is the best of those seen. -/
def CornerUpdate (b l r : Point) (f f' : AllCornerFinder) (j : Nat) (hj : j < 4) : Prop :=
  f'.scores[j] = max f.scores[j] (max (cornerScore b j l) (cornerScore b j r)) ∧
    ((f'.best[j] = f.best[j] ∧ f'.scores[j] = f.scores[j]) ∨
      ((f'.best[j] = l ∨ f'.best[j] = r) ∧ f'.scores[j] = cornerScore b j f'.best[j]))

theorem all_step {f : AllCornerFinder} {r : Row} (hb : DiffRange f.baseline) (hl : r.left ≤ 32767) (hr : r.right ≤ 32767)
    (hy : r.y ≤ 32767) : ∃ f', f.update r = .ok f' ∧ f'.baseline = f.baseline ∧ ∀ (j : Nat) (hj : j < 4),
      CornerUpdate f.baseline (point (r.left, r.y)) (point (r.right, r.y)) f f' j hj := by
  obtain ⟨lv, e1, hlv⟩ := scoresOf_ok hb (p := point (r.left, r.y)) (by unfold InRange point; dsimp only; omega)
  obtain ⟨rv, e2, hrv⟩ := scoresOf_ok hb (p := point (r.right, r.y)) (by unfold InRange point; dsimp only; omega)
  unfold AllCornerFinder.update
  rw [asI32_small (show r.y < 2 ^ 31 by omega), asI32_small (show r.left < 2 ^ 31 by omega),
    asI32_small (show r.right < 2 ^ 31 by omega)]
  rw [show AllCornerFinder.scoresOf f.baseline (r.left : Int) (r.y : Int) = .ok lv from e1, Run.ok_bind,
    show AllCornerFinder.scoresOf f.baseline (r.right : Int) (r.y : Int) = .ok rv from e2, Run.ok_bind]
  obtain ⟨f', e, i1, i2, -⟩ := forRange_ok (s := f) (f := fun j (self : AllCornerFinder) => do
    let l ← aget lv j
    let r' ← aget rv j
    let s ← aget self.scores j
    let self ← if l > s then do
        let scores ← aset self.scores j l
        let best ← aset self.best j { x := (r.left : Int), y := (r.y : Int) }
        pure { self with scores := scores, best := best }
      else pure self
    let s ← aget self.scores j
    if r' > s then do
        let scores ← aset self.scores j r'
        let best ← aset self.best j { x := (r.right : Int), y := (r.y : Int) }
        pure { self with scores := scores, best := best }
      else pure self)
    (fun i f' => f'.baseline = f.baseline ∧ (∀ (j : Nat) (hj : j < 4), j < i →
      CornerUpdate f.baseline (point (r.left, r.y)) (point (r.right, r.y)) f f' j hj) ∧
      ∀ (j : Nat) (hj : j < 4), i ≤ j → f'.scores[j] = f.scores[j] ∧ f'.best[j] = f.best[j]) (Nat.zero_le 4)
    ⟨rfl, by intro j _ h; omega, fun _ _ _ => ⟨rfl, rfl⟩⟩ (by
      rintro i g _ hi ⟨g1, g2, g3⟩
      obtain ⟨s1, s2⟩ := g3 i hi (le_refl _)
      rw [aget_ok lv hi, Run.ok_bind, aget_ok rv hi, Run.ok_bind, aget_ok g.scores hi, Run.ok_bind, hlv i hi, hrv i hi]
      have done : ∀ g' : AllCornerFinder, g'.baseline = g.baseline →
          CornerUpdate f.baseline (point (r.left, r.y)) (point (r.right, r.y)) f g' i hi →
          (∀ (j : Nat) (hj : j < 4), j ≠ i → g'.scores[j] = g.scores[j] ∧ g'.best[j] = g.best[j]) →
          g'.baseline = f.baseline ∧ (∀ (j : Nat) (hj : j < 4), j < i + 1 →
            CornerUpdate f.baseline (point (r.left, r.y)) (point (r.right, r.y)) f g' j hj) ∧
            ∀ (j : Nat) (hj : j < 4), i + 1 ≤ j → g'.scores[j] = f.scores[j] ∧ g'.best[j] = f.best[j] := by
        intro g' a1 a2 a3
        refine ⟨a1.trans g1, ?_, ?_⟩
        · intro j hj hji
          by_cases h : j = i
          · subst h; exact a2
          · have := g2 j hj (by omega)
            unfold CornerUpdate at this ⊢
            rw [(a3 j hj h).1, (a3 j hj h).2]
            exact this
        · intro j hj hji
          obtain ⟨b1, b2⟩ := a3 j hj (by omega)
          obtain ⟨b3, b4⟩ := g3 j hj (by omega)
          exact ⟨b1.trans b3, b2.trans b4⟩
      by_cases c1 : cornerScore f.baseline i (point (r.left, r.y)) > g.scores[i]
      · rw [if_pos c1, aset_ok g.scores _ hi, Run.ok_bind, aset_ok g.best _ hi, Run.ok_bind, Run.pure_eq, Run.ok_bind]
        dsimp only
        rw [aget_ok _ hi, Run.ok_bind, Vector.getElem_set_self]
        by_cases c2 : cornerScore f.baseline i (point (r.right, r.y)) > cornerScore f.baseline i (point (r.left, r.y))
        · rw [if_pos c2, aset_ok _ _ hi, Run.ok_bind, aset_ok _ _ hi, Run.ok_bind]
          refine ⟨_, rfl, done _ rfl ?_ ?_⟩
          · unfold CornerUpdate
            simp only [Vector.getElem_set_self]
            exact ⟨by omega, .inr ⟨.inr rfl, rfl⟩⟩
          · intro j hj hji
            dsimp only
            rw [Vector.getElem_set_ne _ _ (Ne.symm hji), Vector.getElem_set_ne _ _ (Ne.symm hji),
              Vector.getElem_set_ne _ _ (Ne.symm hji), Vector.getElem_set_ne _ _ (Ne.symm hji)]
            exact ⟨rfl, rfl⟩
        · rw [if_neg c2]
          refine ⟨_, rfl, done _ rfl ?_ ?_⟩
          · unfold CornerUpdate
            simp only [Vector.getElem_set_self]
            exact ⟨by omega, .inr ⟨.inl rfl, rfl⟩⟩
          · intro j hj hji
            dsimp only
            rw [Vector.getElem_set_ne _ _ (Ne.symm hji), Vector.getElem_set_ne _ _ (Ne.symm hji)]
            exact ⟨rfl, rfl⟩
      · rw [if_neg c1, Run.pure_eq, Run.ok_bind]
        dsimp only
        rw [aget_ok _ hi, Run.ok_bind]
        by_cases c2 : cornerScore f.baseline i (point (r.right, r.y)) > g.scores[i]
        · rw [if_pos c2, aset_ok _ _ hi, Run.ok_bind, aset_ok _ _ hi, Run.ok_bind]
          refine ⟨_, rfl, done _ rfl ?_ ?_⟩
          · unfold CornerUpdate
            simp only [Vector.getElem_set_self]
            exact ⟨by omega, .inr ⟨.inr rfl, rfl⟩⟩
          · intro j hj hji
            dsimp only
            rw [Vector.getElem_set_ne _ _ (Ne.symm hji), Vector.getElem_set_ne _ _ (Ne.symm hji)]
            exact ⟨rfl, rfl⟩
        · rw [if_neg c2]
          refine ⟨_, rfl, done _ rfl ?_ ?_⟩
          · unfold CornerUpdate
            exact ⟨by omega, .inl ⟨s2, s1⟩⟩
          · intro j hj hji
            exact ⟨rfl, rfl⟩)
  exact ⟨f', e, i1, fun j hj => i2 j hj hj⟩

theorem all_new {a c : Point} (ha : InRange a) (hc : InRange c) : ∃ f, AllCornerFinder.new a c = .ok f ∧
    f.baseline = ⟨c.x - a.x, c.y - a.y⟩ ∧ ∀ (j : Nat) (hj : j < 4), f.best[j] = a ∧ f.scores[j] = cornerScore f.baseline j a := by
  unfold AllCornerFinder.new
  obtain ⟨a1, a2, a3, a4⟩ := ha
  obtain ⟨c1, c2, c3, c4⟩ := hc
  have s1 : subI c.x a.x = .ok (c.x - a.x) := chk32_ok (by omega) (by omega)
  have s2 : subI c.y a.y = .ok (c.y - a.y) := chk32_ok (by omega) (by omega)
  obtain ⟨v, e, hv⟩ := scoresOf_ok (b := ⟨c.x - a.x, c.y - a.y⟩) (p := a) (by unfold DiffRange; dsimp only; omega)
    ⟨a1, a2, a3, a4⟩
  rw [s1, Run.ok_bind, s2, Run.ok_bind]
  dsimp only
  rw [e, Run.ok_bind]
  refine ⟨_, rfl, rfl, fun j hj => ⟨?_, hv j hj⟩⟩
  have h : j = 0 ∨ j = 1 ∨ j = 2 ∨ j = 3 := by omega
  rcases h with rfl | rfl | rfl | rfl <;> rfl

theorem all_corners {img0 img : PreparedImage S} {claims : Pos → Option Claim} (h0 : Fresh img0) (h : History img0 claims img)
    (hw : width img0.buffer ≤ 32768) (hh : height img0.buffer ≤ 32768) {x y : Nat} (hb : IsBlack img0 (x, y))
    (c : Claim) (hc : claims (x, y) ≠ some c) {f : AllCornerFinder} (hf : DiffRange f.baseline)
    (hs : ∀ (j : Nat) (hj : j < 4), f.best[j] = point (x, y) ∧ f.scores[j] = cornerScore f.baseline j (point (x, y))) :
    ∃ img' f', img.repaint_and_apply AllCornerFinder.update x y c.color f = .ok (img', f') ∧
      History img0 (claimRegion (IsBlack img0) (x, y) c claims) img' ∧
      ∀ (j : Nat) (hj : j < 4), ∃ p, f'.best[j] = point p ∧ Reach (IsBlack img0) (x, y) p ∧
        ∀ q, Reach (IsBlack img0) (x, y) q → cornerScore f.baseline j (point q) ≤ cornerScore f.baseline j (point p) := by
  obtain ⟨img', f', rows, e, h', hrows, k1, k2⟩ := claim_run h0 h hb c hc (update := AllCornerFinder.update) (f := f)
    (fun done f' => f'.baseline = f.baseline ∧ ∀ (j : Nat) (hj : j < 4),
      (∀ r ∈ done, ∀ p, inRow r p → cornerScore f.baseline j (point p) ≤ f'.scores[j]) ∧
      ∃ p, Reach (IsBlack img0) (x, y) p ∧ f'.best[j] = point p ∧ f'.scores[j] = cornerScore f.baseline j (point p))
    ⟨rfl, fun j hj => ⟨by simp, (x, y), ⟨hb, .refl⟩, hs j hj⟩⟩ (by
      rintro done r g hr hle ⟨i1, i2⟩
      obtain ⟨l1, l2, l3⟩ := row_range hw hh hr hle
      obtain ⟨g', e, j1, j2⟩ := all_step (f := g) (r := r) (by rw [i1]; exact hf) l1 l2 l3
      rw [i1] at j1 j2
      refine ⟨g', e, j1, fun j hj => ?_⟩
      obtain ⟨u1, u2⟩ := j2 j hj
      obtain ⟨v1, p, v2, v3, v4⟩ := i2 j hj
      refine ⟨?_, ?_⟩
      · intro r' hr' p hp
        rcases List.mem_append.1 hr' with hr' | hr'
        · exact (v1 r' hr' p hp).trans (by omega)
        · rw [List.mem_singleton] at hr'
          subst hr'
          obtain ⟨p1, p2, p3⟩ := hp
          have := cornerScore_row f.baseline j (l := (r'.left : Int)) (r := (r'.right : Int)) (x := (p.1 : Int)) (by omega)
            (by omega) (r'.y : Int)
          rw [u1]
          unfold point
          rw [p1]
          exact this.trans (le_max_right _ _)
      · rcases u2 with ⟨u2, u3⟩ | ⟨u2, u3⟩
        · exact ⟨p, v2, u2.trans v3, u3.trans v4⟩
        · rcases u2 with u2 | u2
          · exact ⟨_, hr _ ⟨rfl, le_refl _, hle⟩, u2, by rw [u3, u2]⟩
          · exact ⟨_, hr _ ⟨rfl, hle, le_refl _⟩, u2, by rw [u3, u2]⟩)
  refine ⟨img', f', e, h', fun j hj => ?_⟩
  obtain ⟨v1, p, v2, v3, v4⟩ := k2 j hj
  refine ⟨p, v3, v2, fun q hq => ?_⟩
  obtain ⟨r, hr, hrq⟩ := (hrows q).2 hq
  rw [← v4]
  exact v1 r hr q hrq

/-! ### The corner of the alignment pattern -/

theorem leftScore_ok {b p : Point} (hb : DiffRange b) (hp : InRange p) :
    LeftMostFinder.scoreOf b p.x p.y = .ok (cross b p) := by
  obtain ⟨b1, b2, b3, b4⟩ := hb
  obtain ⟨p1, p2, p3, p4⟩ := hp
  obtain ⟨m5, m6⟩ := small_mul (a := -b.y) (b := p.x) (by omega) (by omega) (by omega) (by omega)
  obtain ⟨m7, m8⟩ := small_mul (a := b.x) (b := p.y) (by omega) (by omega) (by omega) (by omega)
  have n1 : negI b.y = .ok (-b.y) := chk32_ok (by omega) (by omega)
  have a2 : addI (-b.y * p.x) (b.x * p.y) = .ok (-b.y * p.x + b.x * p.y) := chk32_ok (by omega) (by omega)
  unfold LeftMostFinder.scoreOf
  rw [n1, Run.ok_bind, mulI_ok (a := -b.y) (b := p.x) (by omega) (by omega) (by omega) (by omega), Run.ok_bind,
    mulI_ok (a := b.x) (b := p.y) (by omega) (by omega) (by omega) (by omega), Run.ok_bind, a2]
  unfold cross
  congr 1
  ring

theorem left_step {f : LeftMostFinder} {r : Row} (hb : DiffRange f.line_p) (hl : r.left ≤ 32767) (hr : r.right ≤ 32767)
    (hy : r.y ≤ 32767) : ∃ f', f.update r = .ok f' ∧ f'.line_p = f.line_p ∧
      f'.score = min f.score (min (cross f.line_p (point (r.left, r.y))) (cross f.line_p (point (r.right, r.y)))) ∧
      ((f'.best = f.best ∧ f'.score = f.score) ∨
        ((f'.best = point (r.left, r.y) ∨ f'.best = point (r.right, r.y)) ∧ f'.score = cross f.line_p f'.best)) := by
  have e1 := leftScore_ok hb (p := point (r.left, r.y)) (by unfold InRange point; dsimp only; omega)
  have e2 := leftScore_ok hb (p := point (r.right, r.y)) (by unfold InRange point; dsimp only; omega)
  unfold LeftMostFinder.update
  rw [asI32_small (show r.y < 2 ^ 31 by omega), asI32_small (show r.left < 2 ^ 31 by omega),
    asI32_small (show r.right < 2 ^ 31 by omega)]
  rw [show LeftMostFinder.scoreOf f.line_p (r.left : Int) (r.y : Int) = .ok _ from e1, Run.ok_bind,
    show LeftMostFinder.scoreOf f.line_p (r.right : Int) (r.y : Int) = .ok _ from e2, Run.ok_bind]
  refine ⟨_, rfl, ?_⟩
  generalize d1 : cross f.line_p (point (r.left, r.y)) = dl
  generalize d2 : cross f.line_p (point (r.right, r.y)) = dr
  by_cases c1 : dl < f.score
  · rw [if_pos c1]
    dsimp only
    by_cases c2 : dr < dl
    · rw [if_pos c2]
      exact ⟨rfl, by dsimp only; omega, .inr ⟨.inr rfl, by rw [← d2]; rfl⟩⟩
    · rw [if_neg c2]
      exact ⟨rfl, by dsimp only; omega, .inr ⟨.inl rfl, by rw [← d1]; rfl⟩⟩
  · rw [if_neg c1]
    by_cases c2 : dr < f.score
    · rw [if_pos c2]
      exact ⟨rfl, by dsimp only; omega, .inr ⟨.inr rfl, by rw [← d2]; rfl⟩⟩
    · rw [if_neg c2]
      exact ⟨rfl, by omega, .inl ⟨rfl, rfl⟩⟩

theorem left_most {img0 img : PreparedImage S} {claims : Pos → Option Claim} (h0 : Fresh img0) (h : History img0 claims img)
    (hw : width img0.buffer ≤ 32768) (hh : height img0.buffer ≤ 32768) {x y : Nat} (hb : IsBlack img0 (x, y))
    (c : Claim) (hc : claims (x, y) ≠ some c) {line : Point} (hl : DiffRange line) :
    ∃ img' f', img.repaint_and_apply LeftMostFinder.update x y c.color
        { line_p := line, best := point (x, y), score := cross line (point (x, y)) } = .ok (img', f') ∧
      History img0 (claimRegion (IsBlack img0) (x, y) c claims) img' ∧
      ∃ p, f'.best = point p ∧ Reach (IsBlack img0) (x, y) p ∧
        ∀ q, Reach (IsBlack img0) (x, y) q → cross line (point p) ≤ cross line (point q) := by
  obtain ⟨img', f', rows, e, h', hrows, k1, k2, p, v2, v3, v4⟩ := claim_run h0 h hb c hc (update := LeftMostFinder.update)
    (f := { line_p := line, best := point (x, y), score := cross line (point (x, y)) })
    (fun done f' => f'.line_p = line ∧
      (∀ r ∈ done, ∀ p, inRow r p → f'.score ≤ cross line (point p)) ∧
      ∃ p, Reach (IsBlack img0) (x, y) p ∧ f'.best = point p ∧ f'.score = cross line (point p))
    ⟨rfl, by simp, (x, y), ⟨hb, .refl⟩, rfl, rfl⟩ (by
      rintro done r g hr hle ⟨i1, v1, p, v2, v3, v4⟩
      obtain ⟨l1, l2, l3⟩ := row_range hw hh hr hle
      obtain ⟨g', e, j1, u1, u2⟩ := left_step (f := g) (r := r) (by rw [i1]; exact hl) l1 l2 l3
      rw [i1] at j1 u1 u2
      refine ⟨g', e, j1, ?_, ?_⟩
      · intro r' hr' p hp
        rcases List.mem_append.1 hr' with hr' | hr'
        · exact le_trans (by omega) (v1 r' hr' p hp)
        · rw [List.mem_singleton] at hr'
          subst hr'
          obtain ⟨p1, p2, p3⟩ := hp
          have := cornerScore_row line 3 (l := (r'.left : Int)) (r := (r'.right : Int)) (x := (p.1 : Int)) (by omega)
            (by omega) (r'.y : Int)
          unfold cornerScore at this
          rw [if_neg (by decide), if_neg (by decide), if_neg (by decide), if_neg (by decide), if_neg (by decide),
            if_neg (by decide), if_neg (by decide), if_neg (by decide), if_neg (by decide)] at this
          rw [u1]
          unfold point
          dsimp only
          rw [p1]
          omega
      · rcases u2 with ⟨u2, u3⟩ | ⟨u2, u3⟩
        · exact ⟨p, v2, u2.trans v3, u3.trans v4⟩
        · rcases u2 with u2 | u2
          · exact ⟨_, hr _ ⟨rfl, le_refl _, hle⟩, u2, by rw [u3, u2]⟩
          · exact ⟨_, hr _ ⟨rfl, hle, le_refl _⟩, u2, by rw [u3, u2]⟩)
  refine ⟨img', f', e, h', p, v3, v2, fun q hq => ?_⟩
  obtain ⟨r, hr, hrq⟩ := (hrows q).2 hq
  rw [← v4]
  exact k2 r hr q hrq

end Rqrr
