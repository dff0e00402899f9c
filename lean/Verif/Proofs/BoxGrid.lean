import Verif.Proofs.BoxFrame
import Verif.Proofs.Framed

/-!
# Transforms of a drawing with modules of unequal sizes
-/

namespace Rqrr

open Spec ImageBuffer Rounding

variable {F : Type} [FloatOps F] [Rounding F]

/-- Back from a pixel, if the sides lie along the axes. -/
theorem unmap_diagonal {c : Perspective F} {ex fy px py t u Q : ℚ} (c0 : Sc c[0] ex t 1) (c1 : Is c[1] 0) (c1' : Sc c[1] 0 u 1) (c2 : Sc c[2] px Q 1)
    (c3 : Is c[3] 0) (c3' : Sc c[3] 0 t 1) (c4 : Sc c[4] fy u 1) (c5 : Sc c[5] py Q 1) (c6 : Is c[6] 0) (c7 : Is c[7] 0)
    (he : |ex| = t) (hf : |fy| = u) (ht : t ≤ 32768) (hu : u ≤ 32768) (hQ : Q ≤ 1000000) (htQ : t ≤ Q) (huQ : u ≤ Q) {p : Point}
    (hx : |(p.x : ℚ)| ≤ Q) (hy : |(p.y : ℚ)| ≤ Q) :
    Sc (c.unmap p).1 ((p.x - px) / ex) (8 * Q / t) 113 ∧ Sc (c.unmap p).2 ((p.y - py) / fy) (8 * Q / u) 113 := by
  have h1 := c0.one
  have h2 := c4.one
  have q1 := c2.one
  have X : Sc (FloatOps.ofInt p.x : F) p.x Q 0 := .ofInt hx q1 (by linarith)
  have Y : Sc (FloatOps.ofInt p.y : F) p.y Q 0 := .ofInt hy q1 (by linarith)
  have htt : t * u ≤ 32768 * 32768 := by nlinarith
  have htQ' : t * Q ≤ 32768 * 1000000 := by nlinarith
  have hQt : Q * t ≤ 32768 * 1000000 := by nlinarith
  have huQ' : u * Q ≤ 32768 * 1000000 := by nlinarith
  have hQu : Q * u ≤ 32768 * 1000000 := by nlinarith
  have z1 : Is (FloatOps.add (FloatOps.add (FloatOps.mul (FloatOps.mul (FloatOps.neg c[0]) c[7]) (FloatOps.ofInt p.y))
      (FloatOps.mul (FloatOps.mul c[1] c[6]) (FloatOps.ofInt p.y)))
      (FloatOps.mul (FloatOps.sub (FloatOps.mul c[3] c[7]) (FloatOps.mul c[4] c[6])) (FloatOps.ofInt p.x))) 0 :=
    is_zero_add (is_zero_add (Y.zero_mul (c0.neg.mul_zero c7)) (Y.zero_mul (c1'.mul_zero c6)))
      (X.zero_mul (is_zero_sub (c3'.mul_zero c7) (c4.mul_zero c6)))
  have den := ((c0.mul c4 (by linarith) (by norm_num)).zero_add z1 (by norm_num)).sub_zero (c3'.zero_mul c1) (by norm_num)
  have t0 : (0 : ℚ) < t := by linarith
  have u0 : (0 : ℚ) < u := by linarith
  have hq : (t * u) / 4 ≤ |ex * fy| := by
    rw [abs_mul, he, hf]
    have : 0 < t * u := by positivity
    linarith
  have ex0 : ex ≠ 0 := by intro h; rw [h, abs_zero] at he; linarith
  have fy0 : fy ≠ 0 := by intro h; rw [h, abs_zero] at hf; linarith
  have big : ∀ {w : ℚ}, 1 ≤ w → w ≤ Q → 1 ≤ 8 * Q / w ∧ 8 * Q / w ≤ 2 ^ 100 := by
    intro w w1 w2
    have w0 : (0 : ℚ) < w := by linarith
    exact ⟨by rw [le_div_iff₀ w0]; linarith, by rw [div_le_iff₀ w0]; linarith⟩
  constructor
  · have num := ((((Sc.zero_mul c1 (Y.sub c5 (by linarith) (by norm_num))) |> fun z => is_zero_sub z (Y.zero_mul (c2.mul_zero c7))) |> fun z =>
      (((c4.zero_sub (c5.mul_zero c7) (by norm_num)).mul X (by linarith) (by norm_num)).zero_add z (by norm_num))).add
      (c2.mul c4 (by linarith) (by norm_num)) (by linarith) (by norm_num)).neg
    have s1 : 4 * (u * Q + Q * u) / (t * u) = 8 * Q / t := by field_simp; ring
    have := num.div den hq (by rw [s1]; exact (big h1 htQ).1) (by rw [s1]; exact (big h1 htQ).2) (by norm_num)
    rw [s1] at this
    have e : -(-fy * p.x + px * fy) / (ex * fy) = (p.x - px) / ex := by field_simp; ring
    rw [e] at this
    exact this.mono (le_refl _) (by norm_num) (big h1 htQ).2 (by norm_num)
  · have num := (((c0.mul (Y.sub c5 (by linarith) (by norm_num)) (by linarith) (by norm_num)).sub_zero
      (Y.zero_mul (c2.mul_zero c6)) (by norm_num)).add_zero (X.zero_mul (is_zero_sub (c5.mul_zero c6) c3)) (by norm_num)).add_zero
      (c2.mul_zero c3) (by norm_num)
    have s1 : 4 * (t * (Q + Q)) / (t * u) = 8 * Q / u := by field_simp; ring
    have := num.div den hq (by rw [s1]; exact (big h2 huQ).1) (by rw [s1]; exact (big h2 huQ).2) (by norm_num)
    rw [s1] at this
    have e : ex * (p.y - py) / (ex * fy) = (p.y - py) / fy := by field_simp
    rw [e] at this
    exact this.mono (le_refl _) (by norm_num) (big h2 huQ).2 (by norm_num)

/-- The same, for a drawing turned by a quarter. -/
theorem unmap_turned {c : Perspective F} {fx ey px py t u Q : ℚ} (c0 : Is c[0] 0) (c0' : Sc c[0] 0 t 1) (c1 : Sc c[1] fx u 1) (c2 : Sc c[2] px Q 1)
    (c3 : Sc c[3] ey t 1) (c4 : Is c[4] 0) (c4' : Sc c[4] 0 u 1) (c5 : Sc c[5] py Q 1) (c6 : Is c[6] 0) (c7 : Is c[7] 0)
    (he : |ey| = t) (hf : |fx| = u) (ht : t ≤ 32768) (hu : u ≤ 32768) (hQ : Q ≤ 1000000) (htQ : t ≤ Q) (huQ : u ≤ Q) {p : Point}
    (hx : |(p.x : ℚ)| ≤ Q) (hy : |(p.y : ℚ)| ≤ Q) :
    Sc (c.unmap p).1 ((p.y - py) / ey) (8 * Q / t) 113 ∧ Sc (c.unmap p).2 ((p.x - px) / fx) (8 * Q / u) 113 := by
  have h1 := c3.one
  have h2 := c1.one
  have q1 := c2.one
  have X : Sc (FloatOps.ofInt p.x : F) p.x Q 0 := .ofInt hx q1 (by linarith)
  have Y : Sc (FloatOps.ofInt p.y : F) p.y Q 0 := .ofInt hy q1 (by linarith)
  have htt : u * t ≤ 32768 * 32768 := by nlinarith
  have htQ' : t * Q ≤ 32768 * 1000000 := by nlinarith
  have hQt : Q * t ≤ 32768 * 1000000 := by nlinarith
  have huQ' : u * Q ≤ 32768 * 1000000 := by nlinarith
  have hQu : Q * u ≤ 32768 * 1000000 := by nlinarith
  have z1 : Is (FloatOps.add (FloatOps.add (FloatOps.mul (FloatOps.mul (FloatOps.neg c[0]) c[7]) (FloatOps.ofInt p.y))
      (FloatOps.mul (FloatOps.mul c[1] c[6]) (FloatOps.ofInt p.y)))
      (FloatOps.mul (FloatOps.sub (FloatOps.mul c[3] c[7]) (FloatOps.mul c[4] c[6])) (FloatOps.ofInt p.x))) 0 :=
    is_zero_add (is_zero_add (Y.zero_mul (c0'.neg.mul_zero c7)) (Y.zero_mul (c1.mul_zero c6)))
      (X.zero_mul (is_zero_sub (c3.mul_zero c7) (c4'.mul_zero c6)))
  have den := (c1.mul c3 (by linarith) (by norm_num)).zero_sub (is_zero_add z1 (c4'.zero_mul c0)) (by norm_num)
  have t0 : (0 : ℚ) < t := by linarith
  have u0 : (0 : ℚ) < u := by linarith
  have hq : (u * t) / 4 ≤ |-(fx * ey)| := by
    rw [abs_neg, abs_mul, he, hf]
    have : 0 < u * t := by positivity
    linarith
  have fx0 : fx ≠ 0 := by intro h; rw [h, abs_zero] at hf; linarith
  have ey0 : ey ≠ 0 := by intro h; rw [h, abs_zero] at he; linarith
  have big : ∀ {w : ℚ}, 1 ≤ w → w ≤ Q → 1 ≤ 8 * Q / w ∧ 8 * Q / w ≤ 2 ^ 100 := by
    intro w w1 w2
    have w0 : (0 : ℚ) < w := by linarith
    exact ⟨by rw [le_div_iff₀ w0]; linarith, by rw [div_le_iff₀ w0]; linarith⟩
  constructor
  · have num := ((((c1.mul (Y.sub c5 (by linarith) (by norm_num)) (by linarith) (by norm_num)).sub_zero
      (Y.zero_mul (c2.mul_zero c7)) (by norm_num)).add_zero (X.zero_mul (is_zero_sub (c5.mul_zero c7) c4)) (by norm_num)).add_zero
      (c2.mul_zero c4) (by norm_num)).neg
    have s1 : 4 * (u * (Q + Q)) / (u * t) = 8 * Q / t := by field_simp; ring
    have := num.div den hq (by rw [s1]; exact (big h1 htQ).1) (by rw [s1]; exact (big h1 htQ).2) (by norm_num)
    rw [s1] at this
    have e : -(fx * (p.y - py)) / -(fx * ey) = (p.y - py) / ey := by field_simp
    rw [e] at this
    exact this.mono (le_refl _) (by norm_num) (big h1 htQ).2 (by norm_num)
  · have num := (((Sc.zero_mul c0 (Y.sub c5 (by linarith) (by norm_num))) |> fun z => is_zero_sub z (Y.zero_mul (c2.mul_zero c6))) |> fun z =>
      (((c3.zero_sub (c5.mul_zero c6) (by norm_num)).mul X (by linarith) (by norm_num)).zero_add z (by norm_num))).add
      (c2.mul c3 (by linarith) (by norm_num)) (by linarith) (by norm_num)
    have s1 : 4 * (t * Q + Q * t) / (u * t) = 8 * Q / u := by field_simp; ring
    have := num.div den hq (by rw [s1]; exact (big h2 huQ).1) (by rw [s1]; exact (big h2 huQ).2) (by norm_num)
    rw [s1] at this
    have e : (-ey * p.x + px * ey) / -(fx * ey) = (p.x - px) / fx := by field_simp; ring
    rw [e] at this
    exact this.mono (le_refl _) (by norm_num) (big h2 huQ).2 (by norm_num)

namespace Spec.Placement

variable {P : Placement}

/-- The transform that takes `(u, v)` to column `i + t u` and row `j + s v` of the drawing. -/
def mesh (P : Placement) (i j : Int) (t s : ℚ) : Perspective ℚ :=
  affine (t * P.right.x) (-(s * P.right.y)) (P.pixel i j).x (t * P.right.y) (s * P.right.x) (P.pixel i j).y

theorem mesh_aff {i j : Int} {t s T Q : ℚ} {c : Perspective F} (h : IsAxis P.right) (hc : Rounded c (P.mesh i j t s)) (h0 : 0 ≤ t) (ht : t ≤ T)
    (s0 : 0 ≤ s) (hs : s ≤ T)
    (h1 : 1 ≤ T) (h2 : T ≤ 2 ^ 100) (q1 : 1 ≤ Q) (q2 : Q ≤ 2 ^ 100) (bx : |((P.pixel i j).x : ℚ)| ≤ Q) (by' : |((P.pixel i j).y : ℚ)| ≤ Q) :
    Aff c (t * P.right.x) (-(s * P.right.y)) (P.pixel i j).x (t * P.right.y) (s * P.right.x) (P.pixel i j).y T Q := by
  have hx : ∀ {w : ℚ}, 0 ≤ w → w ≤ T → |w * P.right.x| ≤ T := by
    intro w w0 w1
    rcases h with h | h | h | h <;> rw [h] <;> push_cast <;> rw [abs_le] <;> constructor <;> linarith
  have hy : ∀ {w : ℚ}, 0 ≤ w → w ≤ T → |w * P.right.y| ≤ T := by
    intro w w0 w1
    rcases h with h | h | h | h <;> rw [h] <;> push_cast <;> rw [abs_le] <;> constructor <;> linarith
  exact Rounded.aff hc h1 h2 q1 q2 (hx h0 ht) (by rw [abs_neg]; exact hy s0 hs) bx (hy h0 ht) (hx s0 hs) by'

/-- Where samples fall. -/
theorem mesh_near (h : IsAxis P.right) {i j : Int} {t s T Q : ℚ} {c : Perspective F} (hc : Rounded c (P.mesh i j t s)) (h0 : 0 ≤ t) (ht : t ≤ T)
    (s0 : 0 ≤ s) (hs : s ≤ T)
    (h1 : 1 ≤ T) (h2 : T ≤ 2 ^ 100) (q1 : 1 ≤ Q) (q2 : Q ≤ 2 ^ 100) (bx : |((P.pixel i j).x : ℚ)| ≤ Q) (by' : |((P.pixel i j).y : ℚ)| ≤ Q)
    {u v : F} {U V L k : ℚ} (hu : Sc u U L k) (hv : Sc v V L k) (hk : k ≤ 10000) (hS : T * L + T * L + Q ≤ 1000000000)
    (he : (T * L + T * L + Q) * (2 * k + 10) ≤ 10000000000000) :
    ∃ A B : Int, c.map u v = .ok (P.pixel (i + A) (j + B)) ∧ |A - t * U| ≤ 41 / 80 ∧ |B - s * V| ≤ 41 / 80 := by
  obtain ⟨x, y, e, ex, ey⟩ := (mesh_aff h hc h0 ht s0 hs h1 h2 q1 q2 bx by').map hu hv hk hS he
  obtain ⟨A, B, hAB⟩ := exists_coords h (⟨nearest x, nearest y⟩ : Point)
  have near : ∀ z : ℚ, |(nearest z : ℚ) - z| ≤ 1 / 2 := by
    intro z
    unfold nearest
    have h1 := Int.floor_le (z + 1 / 2)
    have h2 := Int.lt_floor_add_one (z + 1 / 2)
    have h3 := Int.ceil_lt_add_one (z - 1 / 2)
    have h4 := Int.le_ceil (z - 1 / 2)
    split <;> rw [abs_le] <;> constructor <;> linarith
  have nx := near x
  have ny := near y
  have hx : (nearest x : ℚ) = P.corner.x + A * P.right.x - B * P.right.y := by
    have := congrArg Point.x hAB
    unfold pixel at this
    dsimp only at this
    rw [← this]; push_cast; ring
  have hy : (nearest y : ℚ) = P.corner.y + A * P.right.y + B * P.right.x := by
    have := congrArg Point.y hAB
    unfold pixel at this
    dsimp only at this
    rw [← this]; push_cast; ring
  refine ⟨A - i, B - j, by rw [e, add_sub_cancel, add_sub_cancel, hAB], ?_, ?_⟩
  · rw [hx] at nx
    rw [hy] at ny
    unfold pixel at ex ey
    dsimp only at ex ey
    push_cast at ex ey ⊢
    rw [abs_le] at *
    rcases h with h | h | h | h <;> rw [h] at ex ey nx ny <;> push_cast at ex ey nx ny <;> constructor <;> linarith
  · rw [hx] at nx
    rw [hy] at ny
    unfold pixel at ex ey
    dsimp only at ex ey
    push_cast at ex ey ⊢
    rw [abs_le] at *
    rcases h with h | h | h | h <;> rw [h] at ex ey nx ny <;> push_cast at ex ey nx ny <;> constructor <;> linarith

/-- Where samples fall that are not too far from whole numbers of pixels. -/
theorem mesh_map (h : IsAxis P.right) {i j A B : Int} {t s T Q : ℚ} {c : Perspective F} (hc : Rounded c (P.mesh i j t s)) (h0 : 0 ≤ t) (ht : t ≤ T)
    (s0 : 0 ≤ s) (hs : s ≤ T)
    (h1 : 1 ≤ T) (h2 : T ≤ 2 ^ 100) (q1 : 1 ≤ Q) (q2 : Q ≤ 2 ^ 100) (bx : |((P.pixel i j).x : ℚ)| ≤ Q) (by' : |((P.pixel i j).y : ℚ)| ≤ Q)
    {u v : F} {U V L k : ℚ} (hu : Sc u U L k) (hv : Sc v V L k) (hk : k ≤ 10000) (hS : T * L + T * L + Q ≤ 1000000000)
    (he : (T * L + T * L + Q) * (2 * k + 10) ≤ 10000000000000) (hA : |t * U - A| < 39 / 80) (hB : |s * V - B| < 39 / 80) :
    c.map u v = .ok (P.pixel (i + A) (j + B)) := by
  obtain ⟨A', B', e, eA, eB⟩ := mesh_near h hc h0 ht s0 hs h1 h2 q1 q2 bx by' hu hv hk hS he
  rw [abs_le] at eA eB
  rw [abs_lt] at hA hB
  have a1 : A' = A := by
    have l1 : (A' : ℚ) < A + 1 := by linarith
    have l2 : (A : ℚ) < A' + 1 := by linarith
    have l1' : A' < A + 1 := by exact_mod_cast l1
    have l2' : A < A' + 1 := by exact_mod_cast l2
    omega
  have b1 : B' = B := by
    have l1 : (B' : ℚ) < B + 1 := by linarith
    have l2 : (B : ℚ) < B' + 1 := by linarith
    have l1' : B' < B + 1 := by exact_mod_cast l1
    have l2' : B < B' + 1 := by exact_mod_cast l2
    omega
  rw [e, a1, b1]

/-- Back from a pixel. -/
theorem mesh_unmap (h : IsAxis P.right) {i j : Int} {t s Q : ℚ} {c : Perspective F} (hc : Rounded c (P.mesh i j t s)) (h1 : 1 ≤ t) (ht : t ≤ 32768)
    (s1 : 1 ≤ s) (hs : s ≤ 32768) (hQ : Q ≤ 1000000) (htQ : t ≤ Q) (hsQ : s ≤ Q) (bx : |((P.pixel i j).x : ℚ)| ≤ Q)
    (by' : |((P.pixel i j).y : ℚ)| ≤ Q) {A B : Int}
    (hpx : |((P.pixel (i + A) (j + B)).x : ℚ)| ≤ Q) (hpy : |((P.pixel (i + A) (j + B)).y : ℚ)| ≤ Q) :
    Sc (c.unmap (P.pixel (i + A) (j + B))).1 (A / t) (8 * Q / t) 113 ∧ Sc (c.unmap (P.pixel (i + A) (j + B))).2 (B / s) (8 * Q / s) 113 := by
  have t0 : t ≠ 0 := by linarith
  have s0 : s ≠ 0 := by linarith
  have c2 := sc_rnd (hc 2 (by decide)) bx (by linarith) (by linarith)
  have c5 := sc_rnd (hc 5 (by decide)) by' (by linarith) (by linarith)
  have c6 : Is c[6] 0 := by
    have := hc 6 (by decide)
    rw [show (P.mesh i j t s)[6] = 0 from rfl, rnd_zero] at this
    exact this
  have c7 : Is c[7] 0 := by
    have := hc 7 (by decide)
    rw [show (P.mesh i j t s)[7] = 0 from rfl, rnd_zero] at this
    exact this
  have g0 : (P.mesh i j t s)[0] = t * P.right.x := rfl
  have g1 : (P.mesh i j t s)[1] = -(s * P.right.y) := rfl
  have g3 : (P.mesh i j t s)[3] = t * P.right.y := rfl
  have g4 : (P.mesh i j t s)[4] = s * P.right.x := rfl
  have h0 := hc 0 (by decide)
  have h1' := hc 1 (by decide)
  have h3 := hc 3 (by decide)
  have h4 := hc 4 (by decide)
  rw [g0] at h0
  rw [g1] at h1'
  rw [g3] at h3
  rw [g4] at h4
  have at' : |t| = t := abs_of_pos (by linarith)
  have as' : |s| = s := abs_of_pos (by linarith)
  have px : (((P.pixel (i + A) (j + B)).x : ℚ) - (P.pixel i j).x) = A * P.right.x - B * P.right.y := by unfold pixel; push_cast; ring
  have py : (((P.pixel (i + A) (j + B)).y : ℚ) - (P.pixel i j).y) = A * P.right.y + B * P.right.x := by unfold pixel; push_cast; ring
  have z0t : |(0 : ℚ)| ≤ t := by rw [abs_zero]; linarith
  have z0s : |(0 : ℚ)| ≤ s := by rw [abs_zero]; linarith
  have tb : t ≤ 2 ^ 100 := by linarith
  have sb : s ≤ 2 ^ 100 := by linarith
  by_cases hy : P.right.y = 0
  · have hx : P.right.x = 1 ∨ P.right.x = -1 := by
      rcases h with h | h | h | h <;> rw [h] at hy ⊢ <;> first | exact .inl rfl | exact .inr rfl | exact absurd hy (by decide)
    rw [hy] at h1' h3 px py
    rw [Int.cast_zero, mul_zero, neg_zero] at h1'
    rw [Int.cast_zero, mul_zero] at h3
    have hxe : |t * (P.right.x : ℚ)| = t := by rcases hx with e | e <;> rw [e] <;> push_cast <;> simp [at']
    have hxs : |s * (P.right.x : ℚ)| = s := by rcases hx with e | e <;> rw [e] <;> push_cast <;> simp [as']
    have z1 := h1'
    have z3 := h3
    rw [rnd_zero] at z1 z3
    obtain ⟨e1, e2⟩ := unmap_diagonal (sc_rnd h0 hxe.le h1 tb) z1 (sc_rnd h1' z0s s1 sb) c2 z3 (sc_rnd h3 z0t h1 tb) (sc_rnd h4 hxs.le s1 sb) c5 c6 c7 hxe hxs
      ht hs hQ htQ hsQ hpx hpy
    constructor
    · convert e1 using 1
      rw [show (P.mesh i j t s)[2] = (P.pixel i j).x from rfl, px]
      rcases hx with e | e <;> rw [e] <;> push_cast <;> field_simp <;> ring
    · convert e2 using 1
      rw [show (P.mesh i j t s)[5] = (P.pixel i j).y from rfl, py]
      rcases hx with e | e <;> rw [e] <;> push_cast <;> field_simp <;> ring
  · have hx : P.right.x = 0 ∧ (P.right.y = 1 ∨ P.right.y = -1) := by
      rcases h with h | h | h | h <;> rw [h] at hy ⊢ <;> first | exact absurd rfl hy | exact ⟨rfl, .inl rfl⟩ | exact ⟨rfl, .inr rfl⟩
    obtain ⟨hx, hy⟩ := hx
    rw [hx] at h0 h4 px py
    rw [Int.cast_zero, mul_zero] at h0 h4
    have hxe : |t * (P.right.y : ℚ)| = t := by rcases hy with e | e <;> rw [e] <;> push_cast <;> simp [at']
    have hxs : |-(s * (P.right.y : ℚ))| = s := by rcases hy with e | e <;> rw [e] <;> push_cast <;> simp [as']
    have z0 := h0
    have z4 := h4
    rw [rnd_zero] at z0 z4
    obtain ⟨e1, e2⟩ := unmap_turned z0 (sc_rnd h0 z0t h1 tb) (sc_rnd h1' hxs.le s1 sb) c2 (sc_rnd h3 hxe.le h1 tb) z4 (sc_rnd h4 z0s s1 sb) c5 c6 c7 hxe hxs
      ht hs hQ htQ hsQ hpx hpy
    constructor
    · convert e1 using 1
      rw [show (P.mesh i j t s)[5] = (P.pixel i j).y from rfl, py]
      rcases hy with e | e <;> rw [e] <;> push_cast <;> field_simp <;> ring
    · convert e2 using 1
      rw [show (P.mesh i j t s)[2] = (P.pixel i j).x from rfl, px]
      rcases hy with e | e <;> rw [e] <;> push_cast <;> field_simp <;> ring

theorem create_rect (h : IsAxis P.right) (i j : Int) {m l : Int} (hm : 0 < m) (hl : 0 < l) {w : ℚ} (hw : 1 ≤ w) :
    Perspective.create (P.rect i j m l) w w = some (P.mesh i j (m / w) (l / w)) := by
  have hw0 : w ≠ 0 := by linarith
  rw [create_parallelogram hw]
  · congr 1
    unfold mesh
    show affine (((P.pixel (i + m) j).x - (P.pixel i j).x) / w) (((P.pixel i (j + l)).x - (P.pixel i j).x) / w) (P.pixel i j).x
      (((P.pixel (i + m) j).y - (P.pixel i j).y) / w) (((P.pixel i (j + l)).y - (P.pixel i j).y) / w) (P.pixel i j).y = _
    have key : ∀ {a b c d a' b' c' d' x y : ℚ}, a = a' → b = b' → c = c' → d = d' → affine a b x c d y = affine a' b' x c' d' y := by
      rintro _ _ _ _ _ _ _ _ _ _ rfl rfl rfl rfl; rfl
    unfold pixel
    refine key ?_ ?_ ?_ ?_ <;> push_cast <;> field_simp <;> ring
  · show (P.pixel i j).x + (P.pixel (i + m) (j + l)).x = (P.pixel (i + m) j).x + (P.pixel i (j + l)).x
    unfold pixel; dsimp only; ring
  · show (P.pixel i j).y + (P.pixel (i + m) (j + l)).y = (P.pixel (i + m) j).y + (P.pixel i (j + l)).y
    unfold pixel; dsimp only; ring
  · show 0 < area2 (P.pixel (i + m) j) (P.pixel (i + m) (j + l)) (P.pixel i (j + l))
    have : area2 (P.pixel (i + m) j) (P.pixel (i + m) (j + l)) (P.pixel i (j + l)) = m * l := by
      unfold area2 pixel
      rcases h with h | h | h | h <;> rw [h] <;> dsimp only <;> ring
    rw [this]; positivity

/-- The same, rounded. -/
theorem create_rect_rounded (h : IsAxis P.right) (i j : Int) {m l : Int} (hm : 0 < m) (hl : 0 < l) {w : F} {W : Int} (hw : IntB w W 200) (hW : 1 ≤ W)
    (hr : Within (P.rect i j m l)) : ∃ c, Perspective.create (P.rect i j m l) w w = some c ∧ Rounded c (P.mesh i j (m / W) (l / W)) :=
  (create_rounded hr hw).2 _ (create_rect h i j hm hl (by exact_mod_cast hW))

end Spec.Placement

end Rqrr
