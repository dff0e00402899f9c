import Verif.Proofs.BoxMeasure
import Verif.Proofs.FramedFit

/-!
# The transform of a drawing with modules of unequal sizes is not changed by the refinement
-/

namespace Rqrr

open Spec ImageBuffer FloatOps Spec.Placement Rounding

/-- Samples of the even grid through the corners of the symbol stay in the modules that they are meant for. -/
theorem Spec.Even.sample {n N : Nat} {f : Nat → Nat} (h : Even n f) (h0 : f 0 = 0) (hN : N + 7 = n) (h14 : 14 ≤ N) {x : Nat} (hx : x < n) {q : ℚ}
    (q1 : 3 / 10 ≤ q) (q2 : q ≤ 7 / 10) {A : Int} (hA : |(A : ℚ) - ((f N : Int) : ℚ) / ((N : Int) : ℚ) * (x + q)| ≤ 41 / 80) :
    (f x : Int) ≤ A ∧ A < f (x + 1) := by
  obtain ⟨α, β, hα, h⟩ := h
  have e0 := h 0 (by omega)
  have eN := h N (by omega)
  have ex := h x (by omega)
  have ex' := h (x + 1) (by omega)
  rw [h0] at e0
  have hN' : (14 : ℚ) ≤ N := by exact_mod_cast h14
  have hx' : (x : ℚ) ≤ N + 6 := by exact_mod_cast (show x ≤ N + 6 by omega)
  have hx0 : (0 : ℚ) ≤ x := by positivity
  obtain ⟨r, hr⟩ : ∃ r : ℚ, r = (x + q) / N := ⟨_, rfl⟩
  have hrN : r * N = x + q := by rw [hr]; field_simp
  have r0 : 0 ≤ r := by rw [hr]; exact div_nonneg (by linarith) (by linarith)
  have r1 : r ≤ 1479 / 1000 := by
    rw [hr, div_le_iff₀ (by linarith)]
    linarith
  have et : ((f N : Int) : ℚ) / ((N : Int) : ℚ) * (x + q) = r * f N := by
    rw [← hrN]; push_cast; field_simp
  rw [et] at hA
  clear hr et
  push_cast at e0 eN ex ex' hA
  generalize (f N : ℚ) = fN at *
  obtain ⟨e, he⟩ : ∃ e, e = fN - (β + α * N) := ⟨_, rfl⟩
  rw [← he] at eN
  have key : r * fN = β + α * (x + q) + ((r - 1) * β + r * e) := by
    rw [he, ← hrN]; ring
  have hδ : |(r - 1) * β + r * e| ≤ 979 / 1000 := by
    have hβ : |β| ≤ 1 / 2 := by rw [← abs_neg]; refine le_trans (le_of_eq ?_) e0; congr 1; ring
    have b1 : |r * e| ≤ r * (1 / 2) := by rw [abs_mul, abs_of_nonneg r0]; exact mul_le_mul_of_nonneg_left eN r0
    have b2 : |(r - 1) * β| ≤ |r - 1| * (1 / 2) := by rw [abs_mul]; exact mul_le_mul_of_nonneg_left hβ (abs_nonneg _)
    have b3 := abs_add_le ((r - 1) * β) (r * e)
    rcases le_total r 1 with hr1 | hr1
    · rw [abs_of_nonpos (show r - 1 ≤ 0 by linarith)] at b2
      linarith
    · rw [abs_of_nonneg (show 0 ≤ r - 1 by linarith)] at b2
      linarith
  rw [key] at hA
  generalize (r - 1) * β + r * e = δ at *
  have p1 : (21 : ℚ) / 10 ≤ α * q := by nlinarith
  have p2 : (21 : ℚ) / 10 ≤ α - α * q := by nlinarith
  rw [abs_le] at hA hδ ex ex'
  rw [mul_add] at hA ex'
  have l1 : (f x : ℚ) < A := by linarith
  have l2 : (A : ℚ) < f (x + 1) := by linarith
  have l1' : (f x : Int) < A := by exact_mod_cast l1
  exact ⟨l1'.le, by exact_mod_cast l2⟩

variable {F : Type} [FloatOps F] [Rounding F] {S : Type} [ImageBuffer S] [LawfulImage S] {img0 img : PreparedImage S} {claims : Pos → Option Claim}
  {n v : Nat} {M : Nat → Nat → Bool} {L : Layout}

theorem Spec.Stretches.blackAt (hR : Stretches img0 n M L) {x y i j : Nat} (hx : x < n) (hy : y < n) (hij : L.InModule x y i j) :
    BlackAt img0 (L.pixel i j) ↔ M y x = true := hR.black' hx hy hij

theorem Spec.Stretches.insideAt (hR : Stretches img0 n M L) {x y i j : Nat} (hx : x < n) (hy : y < n) (hij : L.InModule x y i j) :
    Inside img0 (L.pixel i j) := by
  have m1 := hR.columns.le (k := x + 1) (l := n) hx (Nat.le_refl _)
  have m2 := hR.rows.le (k := y + 1) (l := n) hy (Nat.le_refl _)
  have ins := hR.inside i j (by have := hij.right; omega) (by have := hij.bottom; omega)
  exact ⟨ins.1, ins.2.1, ins.2.2.2.1, ins.2.2.2.2.1⟩

/-- The sides of the whole grid. -/
theorem Spec.Stretches.whole (hR : Stretches img0 n M L) {N : Nat} (hN : N + 7 = n) (h14 : 14 ≤ N) :
    (0 : ℚ) ≤ ((L.column N : Int) : ℚ) / ((N : Int) : ℚ) ∧ ((L.column N : Int) : ℚ) / ((N : Int) : ℚ) ≤ 10000 ∧
    (0 : ℚ) ≤ ((L.row N : Int) : ℚ) / ((N : Int) : ℚ) ∧ ((L.row N : Int) : ℚ) / ((N : Int) : ℚ) ≤ 10000 := by
  have sz := hR.size (by omega)
  have c := hR.columns.le (k := N) (l := n) (by omega) (Nat.le_refl _)
  have r := hR.rows.le (k := N) (l := n) (by omega) (Nat.le_refl _)
  have key : ∀ k : Nat, k ≤ 10001 → (0 : ℚ) ≤ ((k : Int) : ℚ) / ((N : Int) : ℚ) ∧ ((k : Int) : ℚ) / ((N : Int) : ℚ) ≤ 10000 := by
    intro k hk
    have hN' : (14 : ℚ) ≤ N := by exact_mod_cast h14
    have hk' : (k : ℚ) ≤ 10001 := by exact_mod_cast hk
    push_cast
    refine ⟨by positivity, ?_⟩
    rw [div_le_iff₀ (by linarith)]
    linarith
  exact ⟨(key _ (by omega)).1, (key _ (by omega)).2, (key _ (by omega)).1, (key _ (by omega)).2⟩

/-- The whole transform of a drawing takes samples to pixels of their modules. -/
theorem mesh_samplePoint (hR : Stretches img0 n M L) {N : Nat} (hN : N + 7 = n) (h14 : 14 ≤ N) (hn' : n ≤ 200) {c : Perspective F}
    (hc : Rounded c (L.place.mesh 0 0 (((L.column N : Int) : ℚ) / ((N : Int) : ℚ)) (((L.row N : Int) : ℚ) / ((N : Int) : ℚ))))
    {x y : Nat} (hx : x < n) (hy : y < n) {u v : F} {qu qv : ℚ} (hu : Sc u (x + qu) 201 2) (hv : Sc v (y + qv) 201 2) (u1 : 3 / 10 ≤ qu) (u2 : qu ≤ 7 / 10)
    (v1 : 3 / 10 ≤ qv) (v2 : qv ≤ 7 / 10) :
    ∃ i j : Nat, L.InModule x y i j ∧ c.map u v = .ok (L.pixel i j) := by
  have z1 := hR.columns.lt (k := 0) (l := n) (by omega) (Nat.le_refl n)
  have z2 := hR.rows.lt (k := 0) (l := n) (by omega) (Nat.le_refl n)
  obtain ⟨bx, by'⟩ := hR.inside' (i := 0) (j := 0) (by omega) (by omega)
  obtain ⟨t0, t1, s0, s1⟩ := hR.whole hN h14
  obtain ⟨A, B, e, eA, eB⟩ := mesh_near hR.axis hc (T := 10000) (Q := 10000) t0 t1 s0 s1 (by norm_num) (by norm_num) (by norm_num) (by norm_num) bx by'
    hu hv (by norm_num) (by norm_num) (by norm_num)
  obtain ⟨a1, a2⟩ := hR.columns.sample hR.first.1 hN h14 hx u1 u2 eA
  obtain ⟨b1, b2⟩ := hR.rows.sample hR.first.2 hN h14 hy v1 v2 eB
  obtain ⟨A, rfl⟩ : ∃ k : Nat, A = k := ⟨A.toNat, by omega⟩
  obtain ⟨B, rfl⟩ : ∃ k : Nat, B = k := ⟨B.toNat, by omega⟩
  rw [zero_add, zero_add] at e
  exact ⟨A, B, ⟨by omega, by omega, by omega, by omega⟩, e⟩

theorem mesh_tame (hR : Stretches img0 n M L) {N : Nat} (hN : N + 7 = n) (h14 : 14 ≤ N) {c : Perspective F}
    (hc : Rounded c (L.place.mesh 0 0 (((L.column N : Int) : ℚ) / ((N : Int) : ℚ)) (((L.row N : Int) : ℚ) / ((N : Int) : ℚ)))) : Mild c 20000 := by
  have z1 := hR.columns.lt (k := 0) (l := n) (by omega) (Nat.le_refl n)
  have z2 := hR.rows.lt (k := 0) (l := n) (by omega) (Nat.le_refl n)
  obtain ⟨bx, by'⟩ := hR.inside' (i := 0) (j := 0) (by omega) (by omega)
  obtain ⟨t0, t1, s0, s1⟩ := hR.whole hN h14
  have hrx : ∀ {t : ℚ}, 0 ≤ t → t ≤ 10000 → |t * L.place.right.x| ≤ 10000 := by
    intro t t0 t1
    unfold Layout.place
    rcases hR.axis with h | h | h | h <;> dsimp only <;> rw [h] <;> push_cast <;> rw [abs_le] <;> constructor <;> linarith
  have hry : ∀ {t : ℚ}, 0 ≤ t → t ≤ 10000 → |t * L.place.right.y| ≤ 10000 := by
    intro t t0 t1
    unfold Layout.place
    rcases hR.axis with h | h | h | h <;> dsimp only <;> rw [h] <;> push_cast <;> rw [abs_le] <;> constructor <;> linarith
  have val : ∀ {x : F} {q : ℚ}, Is x (rnd F q) → |q| ≤ 10000 → Val x 20000 := fun h1 h2 => (Val.of_rnd h1 h2 (by norm_num)).mono (by norm_num)
  have ha := mesh_aff hR.axis hc (T := 10000) (Q := 10000) t0 t1 s0 s1 (by norm_num) (by norm_num) (by norm_num) (by norm_num) bx by'
  refine ⟨?_, ha.c6, ha.c7⟩
  intro j hj
  have h := hc j (by omega)
  have cases6 : j = 0 ∨ j = 1 ∨ j = 2 ∨ j = 3 ∨ j = 4 ∨ j = 5 := by omega
  rcases cases6 with rfl | rfl | rfl | rfl | rfl | rfl
  · exact val h (hrx t0 t1)
  · exact val h (show |-(_ : ℚ)| ≤ 10000 by rw [abs_neg]; exact hry s0 s1)
  · exact val h bx
  · exact val h (hry t0 t1)
  · exact val h (hrx s0 s1)
  · exact val h by'

/-- The transform of the drawing takes the grid to the pixels; the refinement does not change it. -/
theorem setup_stretched (h0 : Fresh img0) (h : History img0 claims img) (hw : width img0.buffer ≤ 2 ^ 31) (hh : height img0.buffer ≤ 2 ^ 31)
    (h1 : 1 ≤ v) (hv : v ≤ 40) (h21 : v ≠ 21) (hR : Stretches img0 (side v) M L) (hM : Patterned v M) {g : CapStoneGroup F}
    (ha : BoxTurned L 0 (side v - 7) g.a) (hb : BoxTurned L 0 0 g.b) (hc : BoxTurned L (side v - 7) 0 g.c) :
    ∃ c, setup_perspective img g (L.pixel (L.column (side v - 7)) (L.row (side v - 7))) (side v) = .ok (some c) ∧
      Rounded c (L.place.mesh 0 0 (((L.column (side v - 7) : Int) : ℚ) / ((side v - 7 : Nat) : Int)) (((L.row (side v - 7) : Int) : ℚ) / ((side v - 7 : Nat) : Int))) := by
  have hn : side v = 17 + 4 * v := rfl
  unfold setup_perspective
  rw [subU_ok (by omega), Run.ok_bind]
  obtain ⟨f1, f2⟩ := hR.first
  have z1 := hR.columns.lt (k := 0) (l := side v - 7) (by omega) (by omega)
  have z2 := hR.rows.lt (k := 0) (l := side v - 7) (by omega) (by omega)
  have z3 := hR.columns.lt (k := side v - 7) (l := side v) (by omega) (by omega)
  have z4 := hR.rows.lt (k := side v - 7) (l := side v) (by omega) (by omega)
  set N := side v - 7 with hN
  have e : ∃ c, Perspective.create (F := F) #v[g.b.corners[0], g.c.corners[0], L.pixel (L.column N) (L.row N), g.a.corners[0]]
      (ofInt N) (ofInt N) = some c ∧ Rounded c (L.place.mesh 0 0 (((L.column N : Int) : ℚ) / ((N : Int) : ℚ)) (((L.row N : Int) : ℚ) / ((N : Int) : ℚ))) := by
    have hin : Within (L.place.rect 0 0 (L.column N) (L.row N)) := by
      have h1 := hR.inside 0 0 (by omega) (by omega)
      have h2 := hR.inside (L.column N) 0 (by omega) (by omega)
      have h3 := hR.inside (L.column N) (L.row N) (by omega) (by omega)
      have h4 := hR.inside 0 (L.row N) (by omega) (by omega)
      rw [Nat.cast_zero] at h1 h2 h4
      unfold Layout.pixel at h1 h2 h3 h4
      intro k hk
      unfold rect
      simp only [zero_add]
      have cases4 : k = 0 ∨ k = 1 ∨ k = 2 ∨ k = 3 := by omega
      rcases cases4 with rfl | rfl | rfl | rfl <;> rw [abs_le, abs_le]
      · show (_ ≤ (L.place.pixel 0 0).x ∧ (L.place.pixel 0 0).x ≤ _) ∧ _ ≤ (L.place.pixel 0 0).y ∧ (L.place.pixel 0 0).y ≤ _
        omega
      · show (_ ≤ (L.place.pixel (L.column N) 0).x ∧ (L.place.pixel (L.column N) 0).x ≤ _) ∧ _ ≤ (L.place.pixel (L.column N) 0).y ∧ (L.place.pixel (L.column N) 0).y ≤ _
        omega
      · show (_ ≤ (L.place.pixel (L.column N) (L.row N)).x ∧ (L.place.pixel (L.column N) (L.row N)).x ≤ _) ∧ _ ≤ (L.place.pixel (L.column N) (L.row N)).y ∧ (L.place.pixel (L.column N) (L.row N)).y ≤ _
        omega
      · show (_ ≤ (L.place.pixel 0 (L.row N)).x ∧ (L.place.pixel 0 (L.row N)).x ≤ _) ∧ _ ≤ (L.place.pixel 0 (L.row N)).y ∧ (L.place.pixel 0 (L.row N)).y ≤ _
        omega
    obtain ⟨c, e, hr⟩ := create_rect_rounded (F := F) (P := L.place) hR.axis 0 0 (m := L.column N) (l := L.row N) (by omega) (by omega) (w := ofInt (N : Int))
      (W := N) (.ofInt (by rw [abs_of_nonneg (by positivity)]; omega) (by norm_num)) (by omega) hin
    have e1 : #v[g.b.corners[0], g.c.corners[0], L.pixel (L.column N) (L.row N), g.a.corners[0]] = L.place.rect 0 0 (L.column N) (L.row N) := by
      rw [hb.corners, hc.corners, ha.corners, f1, f2]
      unfold rect Layout.pixel
      simp only [zero_add]
      rfl
    rw [e1]
    exact ⟨c, e, hr⟩
  obtain ⟨c, e, hr⟩ := e
  refine ⟨c, ?_, hr⟩
  rw [e]
  dsimp only
  have ht := mesh_tame hR (by omega) (by omega) hr
  have fit : ∀ p : Perspective F, Mild p 100000 → ∃ score, fitness_all img p (side v) = .ok score ∧ score ≤ 9 * (patternModules v).length := by
    intro p hp
    obtain ⟨sc, e1, -, e2, -⟩ := C56_fitness h0 h hw hh (c := p) h1 hv h21 (fun y x hy hx => hp.samples (x := x) (y := y) (by omega) (by omega))
    exact ⟨sc, e1, e2⟩
  have best : fitness_all img c (side v) = .ok (9 * (patternModules v).length) := by
    obtain ⟨sc, e1, -, -, e2⟩ := C56_fitness h0 h hw hh (c := c) h1 hv h21 (fun y x hy hx =>
      Mild.samples ⟨fun j hj => (ht.val j hj).mono (by norm_num), ht.c6, ht.c7⟩ (x := x) (y := y) (by omega) (by omega))
    rw [e1]
    congr 1
    rw [e2]
    intro m hm ou hu ov hv'
    obtain ⟨qu, u1, u2, su⟩ := offset_sc hu
    obtain ⟨qv, v1, v2, sv⟩ := offset_sc hv'
    obtain ⟨m1, m2⟩ := pattern_range h1 hv hm
    obtain ⟨i, j, hij, hp⟩ := mesh_samplePoint hR (by omega) (by omega) (by omega) hr (x := m.2.1) (y := m.1) m2 m1 (position_sc (by omega) su)
      (position_sc (by omega) sv) u1 u2 v1 v2
    have : samplePoint c m.1 m.2.1 ou ov = L.pixel i j := by
      unfold samplePoint
      rw [hp]
    rw [this]
    refine ⟨hR.insideAt m2 m1 hij, ?_⟩
    rw [hR.blackAt m2 m1 hij, hM.pattern m hm]
  unfold jiggle_perspective
  rw [jiggle_fixed best ht fit, Run.ok_bind]
  rfl

end Rqrr
