import Verif.Spec.Stretch
import Verif.Proofs.Rows
import Verif.Proofs.Drawing

/-!
# Resized pictures of symbols
-/

namespace Rqrr

open Spec ImageBuffer

variable {Q : Resized} {n : Nat} {M : Nat → Nat → Bool}

theorem cut_le_iff {n W k i : Nat} (hn : 0 < n) : (k * W + (n - 1)) / n ≤ i ↔ k * W ≤ i * n := by
  have h1 := Nat.div_add_mod (k * W + (n - 1)) n
  have h2 := Nat.mod_lt (k * W + (n - 1)) hn
  set c := (k * W + (n - 1)) / n
  constructor
  · intro h
    have := Nat.mul_le_mul_left n h
    rw [Nat.mul_comm i n]
    omega
  · intro h
    by_contra hc
    have := Nat.mul_le_mul_left n (show i + 1 ≤ c by omega)
    rw [Nat.mul_add, Nat.mul_one, Nat.mul_comm n i] at this
    omega

theorem cut_even {n W : Nat} (hn : 0 < n) (hW : 7 * n ≤ W) : Even n fun k => (k * W + (n - 1)) / n := by
  have hn' : (0 : ℚ) < n := by exact_mod_cast hn
  refine ⟨(W : ℚ) / n, 1 / 2, ?_, ?_⟩
  · rw [le_div_iff₀ hn']
    exact_mod_cast hW
  · intro k _
    have h1 := Nat.div_add_mod (k * W + (n - 1)) n
    have h2 := Nat.mod_lt (k * W + (n - 1)) hn
    dsimp only
    set c := (k * W + (n - 1)) / n
    have l1 : k * W ≤ n * c := by omega
    have l2 : n * c + 1 ≤ k * W + n := by omega
    have q1 : (k : ℚ) * W ≤ n * c := by exact_mod_cast l1
    have q2 : (n : ℚ) * c + 1 ≤ k * W + n := by exact_mod_cast l2
    have e : (W : ℚ) / n * k = k * W / n := by ring
    have b1 : (k : ℚ) * W / n ≤ c := by rw [div_le_iff₀ hn']; linarith
    have b2 : (c : ℚ) - 1 ≤ k * W / n := by rw [le_div_iff₀ hn']; linarith
    rw [e, abs_le]
    constructor <;> linarith

theorem cut_last {n W : Nat} (hn : 0 < n) : (n * W + (n - 1)) / n = W := by
  apply Nat.div_eq_of_lt_le
  · rw [Nat.mul_comm W]; omega
  · rw [Nat.add_mul, Nat.mul_comm W]; omega

theorem Spec.Resized.dark_iff (hQ : IsAxis Q.right) {x y : Nat} : Q.dark n M x y = true ↔
    ∃ i j : Nat, i < Q.width ∧ j < Q.height ∧ (Q.layout n).pixel i j = ⟨x, y⟩ ∧ M (j * n / Q.height) (i * n / Q.width) = true := by
  unfold Spec.Resized.dark
  dsimp only
  rw [Bool.and_eq_true, decide_eq_true_iff]
  constructor
  · rintro ⟨⟨h1, h2, h3, h4⟩, h⟩
    refine ⟨_, _, by omega, by omega, ?_, h⟩
    rw [Int.toNat_of_nonneg h1, Int.toNat_of_nonneg h3]
    unfold Layout.pixel Placement.pixel Layout.place Resized.layout
    rw [Point.mk.injEq]
    dsimp only
    rcases hQ with h | h | h | h <;> rw [h] <;> dsimp only <;> constructor <;> ring
  · rintro ⟨i, j, hi, hj, hp, h⟩
    unfold Layout.pixel Placement.pixel Layout.place Resized.layout at hp
    rw [Point.mk.injEq] at hp
    dsimp only at hp
    have ei : ((x : Int) - Q.corner.x) * Q.right.x + (y - Q.corner.y) * Q.right.y = i := by
      rw [← hp.1, ← hp.2]
      rcases hQ with h | h | h | h <;> rw [h] <;> dsimp only <;> ring
    have ej : ((y : Int) - Q.corner.y) * Q.right.x - (x - Q.corner.x) * Q.right.y = j := by
      rw [← hp.1, ← hp.2]
      rcases hQ with h | h | h | h <;> rw [h] <;> dsimp only <;> ring
    rw [ei, ej]
    refine ⟨⟨by omega, by exact_mod_cast hi, by omega, by exact_mod_cast hj⟩, ?_⟩
    rw [Int.toNat_natCast, Int.toNat_natCast]
    exact h

theorem layout_inj {L : Layout} (hQ : IsAxis L.right) {i j i' j' : Nat} (h : L.pixel i j = L.pixel i' j') : i = i' ∧ j = j' := by
  unfold Layout.pixel Placement.pixel Layout.place at h
  rw [Point.mk.injEq] at h
  rcases hQ with g | g | g | g <;> rw [g] at h <;> dsimp only at h <;> omega

theorem Spec.Resized.Fits.inside {w h : Nat} (hF : Q.Fits w h n) {i j : Nat} (hi : i < Q.width) (hj : j < Q.height) (p : Point)
    (hp : p = (Q.layout n).pixel i j) : 0 ≤ p.x ∧ p.x < w ∧ p.x ≤ 10000 ∧ 0 ≤ p.y ∧ p.y < h ∧ p.y ≤ 10000 := by
  have hf := hF.first
  have hl := hF.last _ rfl
  subst hp
  unfold Layout.pixel Placement.pixel Layout.place Resized.layout at hl ⊢
  dsimp only at hl ⊢
  rcases hF.axis with h | h | h | h <;> rw [h] at hl ⊢ <;> dsimp only at hl ⊢ <;> omega

/-- A bitmap of a resized picture shows the matrix. -/
theorem resized_bitmap {w h : Nat} (hn : 0 < n) (hF : Q.Fits w h n) {img : PreparedImage BasicImageBuffer}
    (hw : width img.buffer = w) (hh : height img.buffer = h)
    (hv : ∀ x y, x < w → y < h → (LawfulImage.view img.buffer x y = 1 ↔ Q.dark n M x y = true)) : Stretches img n M (Q.layout n) := by
  have cn : (Q.layout n).column n = Q.width := cut_last hn
  have rn : (Q.layout n).row n = Q.height := cut_last hn
  have ax : IsAxis (Q.layout n).right := hF.axis
  have black : ∀ p : Pos, IsBlack img p ↔ Q.dark n M p.1 p.2 = true := by
    rintro ⟨x, y⟩
    unfold IsBlack HasColor
    dsimp only
    rw [hw, hh]
    constructor
    · rintro ⟨h1, h2, h3⟩
      exact (hv x y h1 h2).1 h3
    · intro hd
      have hxy : x < w ∧ y < h := by
        obtain ⟨i, j, hi, hj, hp, -⟩ := (Resized.dark_iff hF.axis).1 hd
        have := hF.inside hi hj _ rfl
        rw [hp] at this
        dsimp only at this
        omega
      exact ⟨hxy.1, hxy.2, (hv x y hxy.1 hxy.2).2 hd⟩
  refine ⟨ax, ⟨?_, ?_⟩, cut_even hn hF.wide, cut_even hn hF.high, ?_, ?_, ?_⟩
  · show (0 * Q.width + (n - 1)) / n = 0
    rw [Nat.zero_mul, Nat.zero_add]
    exact Nat.div_eq_of_lt (by omega)
  · show (0 * Q.height + (n - 1)) / n = 0
    rw [Nat.zero_mul, Nat.zero_add]
    exact Nat.div_eq_of_lt (by omega)
  · intro i j hi hj
    rw [hw, hh]
    exact hF.inside (cn ▸ hi) (rn ▸ hj) _ rfl
  · intro p x y i j hx hy hij hp
    have l1 := (cut_le_iff hn).1 hij.left
    have l3 := (cut_le_iff hn).1 hij.top
    have l2 : i * n < (x + 1) * Q.width := by
      by_contra hc
      have := (cut_le_iff hn).2 (show (x + 1) * Q.width ≤ i * n by omega)
      have := hij.right
      have e : (Q.layout n).column (x + 1) = ((x + 1) * Q.width + (n - 1)) / n := rfl
      omega
    have l4 : j * n < (y + 1) * Q.height := by
      by_contra hc
      have := (cut_le_iff hn).2 (show (y + 1) * Q.height ≤ j * n by omega)
      have := hij.bottom
      have e : (Q.layout n).row (y + 1) = ((y + 1) * Q.height + (n - 1)) / n := rfl
      omega
    have ex : i * n / Q.width = x := Nat.div_eq_of_lt_le l1 l2
    have ey : j * n / Q.height = y := Nat.div_eq_of_lt_le l3 l4
    rw [black, Resized.dark_iff hF.axis]
    constructor
    · rintro ⟨i', j', -, -, hp', hm⟩
      obtain ⟨rfl, rfl⟩ := layout_inj ax (hp.trans hp'.symm)
      rwa [ex, ey] at hm
    · intro hm
      refine ⟨i, j, ?_, ?_, hp, by rw [ex, ey]; exact hm⟩
      · by_contra hc
        have a1 := Nat.mul_le_mul_right n (show Q.width ≤ i by omega)
        have a2 := Nat.mul_le_mul_right Q.width (show x + 1 ≤ n by omega)
        rw [Nat.mul_comm Q.width n] at a1
        omega
      · by_contra hc
        have a1 := Nat.mul_le_mul_right n (show Q.height ≤ j by omega)
        have a2 := Nat.mul_le_mul_right Q.height (show y + 1 ≤ n by omega)
        rw [Nat.mul_comm Q.height n] at a1
        omega
  · intro p q _ _ _ _ _ hq hb
    obtain ⟨i, j, hi, hj, hp, -⟩ := (Resized.dark_iff hF.axis).1 ((black q).1 hb)
    exact hq ⟨i, j, cn ▸ hi, rn ▸ hj, hp⟩

/-- A check for a pixel of the finder patterns. -/
def Spec.Layout.inFinders (L : Layout) (n x y : Nat) : Bool :=
  let i := (x - L.corner.x) * L.right.x + (y - L.corner.y) * L.right.y
  let j := (y - L.corner.y) * L.right.x - (x - L.corner.x) * L.right.y
  decide (0 ≤ i ∧ i < L.column n ∧ 0 ≤ j ∧ j < L.row n ∧
    ((i < L.column 7 ∧ j < L.row 7) ∨ (L.column (n - 7) ≤ i ∧ j < L.row 7) ∨ (i < L.column 7 ∧ L.row (n - 7) ≤ j)))

theorem layout_finders {L : Layout} {n x y : Nat} (hP : IsAxis L.right) (h0 : L.column 0 = 0 ∧ L.row 0 = 0) (hn : 7 ≤ n)
    (h : L.inFinders n x y = true) : L.InFinders n (x, y) := by
  unfold Spec.Layout.inFinders at h
  dsimp only at h
  rw [decide_eq_true_iff] at h
  obtain ⟨h1, h2, h3, h4, h5⟩ := h
  set i := ((x : Int) - L.corner.x) * L.right.x + (y - L.corner.y) * L.right.y with hi
  set j := ((y : Int) - L.corner.y) * L.right.x - (x - L.corner.x) * L.right.y with hj
  have hp : L.pixel (i.toNat : Nat) (j.toNat : Nat) = ⟨x, y⟩ := by
    rw [Int.toNat_of_nonneg h1, Int.toNat_of_nonneg h3, hi, hj]
    unfold Spec.Layout.pixel Spec.Placement.pixel Layout.place
    rw [Point.mk.injEq]
    dsimp only
    rcases hP with h | h | h | h <;> rw [h] <;> dsimp only <;> constructor <;> ring
  have e7 : n - 7 + 7 = n := by omega
  obtain ⟨c0, r0⟩ := h0
  rcases h5 with ⟨a, b⟩ | ⟨a, b⟩ | ⟨a, b⟩
  · exact ⟨0, 0, .inl ⟨rfl, rfl⟩, _, _, by omega, by rw [Nat.zero_add]; omega, by omega, by rw [Nat.zero_add]; omega, hp⟩
  · exact ⟨n - 7, 0, .inr (.inl ⟨rfl, rfl⟩), _, _, by omega, by rw [e7]; omega, by omega, by rw [Nat.zero_add]; omega, hp⟩
  · exact ⟨0, n - 7, .inr (.inr ⟨rfl, rfl⟩), _, _, by omega, by rw [Nat.zero_add]; omega, by omega, by rw [e7]; omega, hp⟩

/-- All hits of the scanner in a bitmap are in the finder patterns. -/
def onlyLayout (w h : Nat) (d : Nat → Nat → Bool) (n : Nat) (L : Layout) : Bool :=
  (List.range h).all fun y => match hitsTo (rowColors w d y) w with
    | .ok (_, l) => l.all fun pos => L.inFinders n pos.right y
    | .error _ => false

theorem onlyLayout_spec {w h n : Nat} {d : Nat → Nat → Bool} {L : Layout} {img : PreparedImage BasicImageBuffer} (hP : IsAxis L.right) (h0 : L.column 0 = 0 ∧ L.row 0 = 0)
    (hn : 7 ≤ n) (hw : width img.buffer = w) (hh : height img.buffer = h)
    (hv : ∀ x y, x < w → y < h → (LawfulImage.view img.buffer x y = 1 ↔ d x y = true)) (hc : onlyLayout w h d n L = true) :
    L.Only img n := by
  intro y x pos hs _
  obtain ⟨hx, h1, h2, hr⟩ := hs
  have hb : ∀ x, rowOf img y x = true ↔ x < w ∧ y < h ∧ d x y = true := by
    intro x
    unfold rowOf
    refine (@decide_eq_true_iff _ (Classical.propDecidable _)).trans ?_
    unfold IsBlack HasColor
    dsimp only
    rw [hw, hh]
    constructor
    · rintro ⟨a, b, c⟩
      exact ⟨a, b, (hv x y a b).1 c⟩
    · rintro ⟨a, b, c⟩
      exact ⟨a, b, (hv x y a b).2 c⟩
  obtain ⟨a, b, -⟩ := (hb _).1 h1
  have hrow : ∀ x, rowColors w d y x = if rowOf img y x then .Black else .White := by
    intro x
    unfold rowColors
    have : (decide (x < w) && d x y) = rowOf img y x := by
      rw [Bool.eq_iff_iff, hb, Bool.and_eq_true, decide_eq_true_iff]
      exact ⟨fun h => ⟨h.1, b, h.2⟩, fun h => ⟨h.1, h.2.2⟩⟩
    rw [this]
  have heq : ∀ a b, rowColors w d y a = rowColors w d y b ↔ rowOf img y a = rowOf img y b := by
    intro a b
    rw [hrow, hrow]
    cases rowOf img y a <;> cases rowOf img y b <;> simp
  have hrun : ∀ {a b : Nat}, IsRun (rowOf img y) a b → IsRun (rowColors w d y) a b := by
    rintro a b ⟨k1, k2, k3⟩
    exact ⟨k1, fun i i1 i2 => (heq _ _).2 (k2 i i1 i2), k3.imp id fun h h' => h ((heq _ _).1 h')⟩
  have hfr : FinderRuns (rowColors w d y) x pos := by
    obtain ⟨x1, x3, r1, r2, r3, r4, r5, r6⟩ := hr
    exact ⟨x1, x3, hrun r1, hrun r2, hrun r3, hrun r4, hrun r5, r6⟩
  obtain ⟨s, l, e, -, hl⟩ := hitsTo_ok (rowColors w d y) w
  have hmem := hl x pos hx (by omega) (by rw [hrow, h2]; rfl) (by rw [hrow, h1]; simp) hfr
  unfold onlyLayout at hc
  rw [List.all_eq_true] at hc
  have := hc y (List.mem_range.2 b)
  rw [e] at this
  dsimp only at this
  rw [List.all_eq_true] at this
  exact layout_finders hP h0 hn (this _ hmem)

end Rqrr
