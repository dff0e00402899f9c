import Verif.Proofs.FramedMeasure
import Verif.Props.Fitness

/-!
# The transform of a drawn symbol is not changed by the refinement
-/

namespace Rqrr

open Spec ImageBuffer FloatOps Spec.Placement Rounding

variable {F : Type} [FloatOps F] [Rounding F]

/-! ### Moderate numbers -/

/-- A number whose magnitude is at most `B`. -/
def Val (x : F) (B : ℚ) : Prop := ∃ r, Is x r ∧ |r| ≤ B

theorem rnd_abs {q : ℚ} (h : |q| ≤ 1000000000) : |rnd F q| ≤ |q| + 1 / 1000 := by
  have h1 := rnd_near (F := F) q
  have h2 : |rnd F q| ≤ |q| + |rnd F q - q| := by
    have := abs_add_le q (rnd F q - q)
    rwa [add_sub_cancel] at this
  have h3 : |q| / 2 ^ 53 ≤ 1 / 10000 := by
    rw [div_le_iff₀ (by norm_num)]
    linarith
  have h4 : (1 : ℚ) / 2 ^ 200 ≤ 1 / 10000 := by norm_num
  linarith

theorem Val.mono {x : F} {A B : ℚ} (h : Val x A) (hb : A ≤ B) : Val x B := by
  obtain ⟨r, h1, h2⟩ := h
  exact ⟨r, h1, h2.trans hb⟩

theorem Val.of_rnd {x : F} {q A : ℚ} (h : Is x (rnd F q)) (hq : |q| ≤ A) (hA : A ≤ 1000000000) : Val x (A + 1 / 1000) :=
  ⟨_, h, (rnd_abs (hq.trans hA)).trans (by linarith)⟩

theorem Val.add {x y : F} {A B : ℚ} (hx : Val x A) (hy : Val y B) (h : A + B ≤ 1000000000) : Val (FloatOps.add x y) (A + B + 1 / 1000) := by
  obtain ⟨r, h1, h2⟩ := hx
  obtain ⟨s, h3, h4⟩ := hy
  have hb : |r + s| ≤ A + B := (abs_add_le r s).trans (add_le_add h2 h4)
  exact .of_rnd (Rounding.add h1 h3 ((hb.trans h).trans (by norm_num))) hb h

theorem Val.sub {x y : F} {A B : ℚ} (hx : Val x A) (hy : Val y B) (h : A + B ≤ 1000000000) : Val (FloatOps.sub x y) (A + B + 1 / 1000) := by
  obtain ⟨r, h1, h2⟩ := hx
  obtain ⟨s, h3, h4⟩ := hy
  have hb : |r - s| ≤ A + B := (abs_sub r s).trans (add_le_add h2 h4)
  exact .of_rnd (Rounding.sub h1 h3 ((hb.trans h).trans (by norm_num))) hb h

theorem Val.mul {x y : F} {A B : ℚ} (hx : Val x A) (hy : Val y B) (h : A * B ≤ 1000000000) : Val (FloatOps.mul x y) (A * B + 1 / 1000) := by
  obtain ⟨r, h1, h2⟩ := hx
  obtain ⟨s, h3, h4⟩ := hy
  have hb : |r * s| ≤ A * B := by rw [abs_mul]; exact mul_le_mul h2 h4 (abs_nonneg _) ((abs_nonneg _).trans h2)
  exact .of_rnd (Rounding.mul h1 h3 ((hb.trans h).trans (by norm_num))) hb h

theorem val_lit {m e : Nat} {B : ℚ} (h : (m : ℚ) / 10 ^ e + 1 / 1000 ≤ B) (hB : B ≤ 1000000000) : Val (FloatOps.lit m e : F) B := by
  have h0 : |(m : ℚ) / 10 ^ e| ≤ (m : ℚ) / 10 ^ e := by rw [abs_of_nonneg (by positivity)]
  exact (Val.of_rnd (Rounding.lit m e ((show (m : ℚ) / 10 ^ e ≤ 1000000000 by linarith).trans (by norm_num))) h0 (by linarith)).mono h

/-- The coefficients are at most `B`, and the last two are zero. -/
structure Mild (p : Perspective F) (B : ℚ) : Prop where
  val : ∀ (j : Nat) (_ : j < 6), Val p[j] B
  c6 : Is p[6] 0
  c7 : Is p[7] 0

theorem Mild.aff {p : Perspective F} {B : ℚ} (h : Mild p B) (h1 : 1 ≤ B) (h2 : B ≤ 2 ^ 100) : ∃ ex fx px ey fy py, Aff p ex fx px ey fy py B B ∧
    |ex| ≤ B ∧ |fx| ≤ B ∧ |px| ≤ B ∧ |ey| ≤ B ∧ |fy| ≤ B ∧ |py| ≤ B := by
  have sc : ∀ {x : F} {r : ℚ}, Is x r → |r| ≤ B → Sc x r B 1 := fun h3 h4 => (Sc.exact h3 h4 h1 h2).mono (le_refl _) (by norm_num) h2 (by norm_num)
  obtain ⟨r0, a0, b0⟩ := h.val 0 (by decide)
  obtain ⟨r1, a1, b1⟩ := h.val 1 (by decide)
  obtain ⟨r2, a2, b2⟩ := h.val 2 (by decide)
  obtain ⟨r3, a3, b3⟩ := h.val 3 (by decide)
  obtain ⟨r4, a4, b4⟩ := h.val 4 (by decide)
  obtain ⟨r5, a5, b5⟩ := h.val 5 (by decide)
  exact ⟨r0, r1, r2, r3, r4, r5, ⟨sc a0 b0, sc a1 b1, sc a2 b2, sc a3 b3, sc a4 b4, sc a5 b5, h.c6, h.c7⟩, b0, b1, b2, b3, b4, b5⟩

theorem Mild.set {p : Perspective F} {A B : ℚ} (h : Mild p A) (hB : A ≤ B) {j : Nat} (hj : j < 8) {x : F} (hx : j < 6 → Val x B) (hx' : 6 ≤ j → Is x 0) :
    Mild (p.set j x) B where
  val k hk := by
    rw [Vector.getElem_set]
    split
    · rename_i e; subst e; exact hx hk
    · exact (h.val k hk).mono hB
  c6 := by
    rw [Vector.getElem_set]
    split
    · rename_i e; subst e; exact hx' (le_refl _)
    · exact h.c6
  c7 := by
    rw [Vector.getElem_set]
    split
    · rename_i e; subst e; exact hx' (by decide)
    · exact h.c7

/-! ### The refinement -/

/-- A transform such that no change of one coefficient is better stays as it is. -/
theorem jiggle_fixed {fitness : Perspective F → Run Int} {p : Perspective F} {b : Int} (h : fitness p = .ok b) (hp : Mild p 20000)
    (hq : ∀ q : Perspective F, Mild q 100000 → ∃ b', fitness q = .ok b' ∧ b' ≤ b) :
    jiggle_with fitness p = .ok p := by
  rw [jiggle_with_eq, h, Run.ok_bind]
  have try_fixed : ∀ (adj : Perspective F), Mild adj 1000 → ∀ i < 16, jiggle_try fitness adj i (p, b) = .ok (p, b) := by
    intro adj ha i hi
    have hj : i >>> 1 < 8 := by rw [Nat.shiftRight_eq_div_pow]; omega
    unfold jiggle_try
    dsimp only
    rw [aget_ok p hj, Run.ok_bind, aget_ok adj hj, Run.ok_bind, aset_ok p _ hj, Run.ok_bind]
    have z : 6 ≤ i >>> 1 → Is p[i >>> 1] 0 ∧ Is adj[i >>> 1] 0 := by
      generalize i >>> 1 = k at hj
      intro hk
      have : k = 6 ∨ k = 7 := by omega
      rcases this with rfl | rfl
      · exact ⟨hp.c6, ha.c6⟩
      · exact ⟨hp.c7, ha.c7⟩
    have : ∃ b', fitness (p.set (i >>> 1) (if i &&& 1 ≠ 0 then p[i >>> 1] + adj[i >>> 1] else p[i >>> 1] - adj[i >>> 1])) = .ok b' ∧ b' ≤ b := by
      refine hq _ (hp.set (by norm_num) hj ?_ ?_)
      · intro h6
        split
        · exact ((hp.val _ h6).add (ha.val _ h6) (by norm_num)).mono (by norm_num)
        · exact ((hp.val _ h6).sub (ha.val _ h6) (by norm_num)).mono (by norm_num)
      · intro h6
        obtain ⟨z1, z2⟩ := z h6
        split
        · exact is_zero_add z1 z2
        · exact is_zero_sub z1 z2
    obtain ⟨b', e, hle⟩ := this
    rw [e, Run.ok_bind, if_neg (by omega), aset_ok _ _ hj, Run.ok_bind]
    have : (p.set (i >>> 1) (if i &&& 1 ≠ 0 then p[i >>> 1] + adj[i >>> 1] else p[i >>> 1] - adj[i >>> 1])).set (i >>> 1)
        p[i >>> 1] = p := by
      rw [Vector.set_set]
      exact Vector.set_getElem_self hj
    rw [this]
    rfl
  have l2 : Val (lit 2 2 : F) (3 / 100) := val_lit (by norm_num) (by norm_num)
  have l5 : Val (lit 5 1 : F) (6 / 10) := val_lit (by norm_num) (by norm_num)
  obtain ⟨r, hr, e1, e2, -⟩ := forRange_ok (s := (p, b, Vector.map (fun c => c * FloatOps.lit 2 2) p)) (f := fun _ st => jiggle_pass fitness st)
    (fun _ st => st.1 = p ∧ st.2.1 = b ∧ Mild st.2.2 1000) (Nat.zero_le 5) (by
      refine ⟨rfl, rfl, ?_, ?_, ?_⟩
      · intro j hj
        dsimp only
        rw [Vector.getElem_map]
        exact ((hp.val j hj).mul l2 (by norm_num)).mono (by norm_num)
      · dsimp only
        rw [Vector.getElem_map]
        obtain ⟨r, hr, -⟩ := l2
        exact is_zero_mul hp.c6 hr
      · dsimp only
        rw [Vector.getElem_map]
        obtain ⟨r, hr, -⟩ := l2
        exact is_zero_mul hp.c7 hr) (by
      rintro i ⟨p', b', adj⟩ _ hi ⟨rfl, rfl, ha⟩
      dsimp only at ha try_fixed ⊢
      unfold jiggle_pass
      dsimp only
      rw [forRange_eq (fun _ => (p', b')) (Nat.zero_le 16) rfl (by
        intro k _ hk
        exact try_fixed adj ha k hk), Run.ok_bind]
      refine ⟨_, rfl, rfl, rfl, ?_, ?_, ?_⟩
      · intro j hj
        dsimp only
        rw [Vector.getElem_map]
        exact ((ha.val j hj).mul l5 (by norm_num)).mono (by norm_num)
      · dsimp only
        rw [Vector.getElem_map]
        obtain ⟨r, hr, -⟩ := l5
        exact is_zero_mul ha.c6 hr
      · dsimp only
        rw [Vector.getElem_map]
        obtain ⟨r, hr, -⟩ := l5
        exact is_zero_mul ha.c7 hr)
  rw [hr, Run.ok_bind, e1]
  rfl

/-! ### Samples -/

/-- A sample offset is approximately three, five or seven tenths. -/
theorem offset_sc {o : F} (ho : o ∈ sampleOffsets F) : ∃ q : ℚ, 3 / 10 ≤ q ∧ q ≤ 7 / 10 ∧ Sc o q 1 1 := by
  unfold sampleOffsets at ho
  simp only [List.mem_cons, List.not_mem_nil, or_false] at ho
  rcases ho with rfl | rfl | rfl
  · exact ⟨_, by norm_num, by norm_num, Sc.lit (m := 3) (e := 1) (by norm_num) (by norm_num) (by norm_num)⟩
  · exact ⟨_, by norm_num, by norm_num, Sc.lit (m := 5) (e := 1) (by norm_num) (by norm_num) (by norm_num)⟩
  · exact ⟨_, by norm_num, by norm_num, Sc.lit (m := 7) (e := 1) (by norm_num) (by norm_num) (by norm_num)⟩

theorem position_sc {x : Nat} (hx : x < 200) {o : F} {q : ℚ} (h : Sc o q 1 1) : Sc (FloatOps.add (FloatOps.ofInt (x : Int)) o) (x + q) 201 2 := by
  have hx' : |(((x : Int)) : ℚ)| ≤ 200 := by
    rw [abs_of_nonneg (by positivity)]
    exact_mod_cast hx.le
  have := (Sc.ofInt (F := F) hx' (by norm_num) (by norm_num)).add h (by norm_num) (by norm_num)
  rw [show (200 : ℚ) + 1 = 201 by norm_num, show (0 : ℚ) + 1 + 1 = 2 by norm_num] at this
  exact_mod_cast this

/-- Where a transform takes a sample, if that is a point. -/
def samplePoint (c : Perspective F) (y x : Nat) (ou ov : F) : Point :=
  match c.map (FloatOps.add (FloatOps.ofInt (x : Int)) ou) (FloatOps.add (FloatOps.ofInt (y : Int)) ov) with
  | .ok p => p
  | .error _ => ⟨0, 0⟩

theorem abs_near {x q B e : ℚ} (h : |x - q| ≤ e) (hq : |q| ≤ B) : |x| ≤ B + e := by
  have := abs_add_le (x - q) q
  rw [sub_add_cancel] at this
  linarith

/-- A transform with moderate coefficients has its samples in range. -/
theorem Mild.samples {c : Perspective F} (h : Mild c 100000) {x y : Nat} (hx : x < 200) (hy : y < 200) : SamplesAt c x y (samplePoint c y x) := by
  intro ou hu ov hv
  obtain ⟨qu, u1, u2, su⟩ := offset_sc hu
  obtain ⟨qv, v1, v2, sv⟩ := offset_sc hv
  obtain ⟨ex, fx, px, ey, fy, py, ha, b0, b1, b2, b3, b4, b5⟩ := h.aff (by norm_num) (by norm_num)
  obtain ⟨X, Y, e, hX, hY⟩ := ha.map (position_sc hx su) (position_sc hy sv) (by norm_num) (by norm_num) (by norm_num)
  have bU := (position_sc hx su).le
  have bV := (position_sc hy sv).le
  have lin : ∀ {a b p : ℚ}, |a| ≤ 100000 → |b| ≤ 100000 → |p| ≤ 100000 → |a * (x + qu) + b * (y + qv) + p| ≤ 50000000 := by
    intro a b p h1 h2 h3
    have k1 : |a * (x + qu)| ≤ 100000 * 201 := by rw [abs_mul]; exact mul_le_mul h1 bU (abs_nonneg _) (by norm_num)
    have k2 : |b * (y + qv)| ≤ 100000 * 201 := by rw [abs_mul]; exact mul_le_mul h2 bV (abs_nonneg _) (by norm_num)
    have := abs_add_le (a * (x + qu) + b * (y + qv)) p
    have := abs_add_le (a * (x + qu)) (b * (y + qv))
    linarith
  have hX' := abs_le.1 (abs_near hX (lin b0 b1 b2))
  have hY' := abs_le.1 (abs_near hY (lin b3 b4 b5))
  have k1 := Exact.nearest_mem (x := X) (lo := -2000000000) (hi := 2000000000) (by push_cast; linarith) (by push_cast; linarith)
  have k2 := Exact.nearest_mem (x := Y) (lo := -2000000000) (hi := 2000000000) (by push_cast; linarith) (by push_cast; linarith)
  have e' : samplePoint c y x ou ov = ⟨nearest X, nearest Y⟩ := by
    unfold samplePoint
    rw [e]
  rw [e']
  refine ⟨e, ?_⟩
  dsimp only
  omega

/-- Samples well inside a module are rounded to one of its pixels, samples in the middle to one in the middle. -/
theorem sample_near {s : Nat} (hs : 2 ≤ s) (x : Nat) {o : ℚ} (h1 : 3 / 10 ≤ o) (h2 : o ≤ 7 / 10) (c : Int) :
    (∀ z : ℚ, |z - (c + s * (x + o))| ≤ 1 / 80 → ∃ i : Nat, i / s = x ∧ (o = 1 / 2 → Middle s i) ∧ nearest z = c + i) ∧
    (∀ z : ℚ, |z - (c - s * (x + o))| ≤ 1 / 80 → ∃ i : Nat, i / s = x ∧ (o = 1 / 2 → Middle s i) ∧ nearest z = c - i) := by
  have hs' : (2 : ℚ) ≤ s := by exact_mod_cast hs
  have k1 : (s : ℚ) * x ≤ s * (x + o) := by nlinarith
  have k2 : (s : ℚ) * (x + o) ≤ s * x + s - 3 / 5 := by nlinarith
  have fin : ∀ k : Nat, s * x ≤ k → k ≤ s * x + s - 1 → k / s = x := by
    intro k h1 h2
    rw [Nat.div_eq_iff (by omega)]
    rw [Nat.mul_comm] at h1 h2
    constructor <;> omega
  have e1 : ((s * x : Nat) : Int) = (s : Int) * x := by push_cast; ring
  have half : ∀ k : Nat, s * x + s / 2 ≤ k → k ≤ s * x + (s + 1) / 2 → Middle s k := by
    intro k h1 h2
    have hk : k = s * x + (k - s * x) := by omega
    unfold Middle
    rw [hk, Nat.mul_add_mod, Nat.mod_eq_of_lt (by omega)]
    omega
  obtain ⟨d, hd⟩ : ∃ d, d = s / 2 := ⟨_, rfl⟩
  obtain ⟨e, he⟩ : ∃ e, e = (s + 1) / 2 := ⟨_, rfl⟩
  rw [← hd, ← he] at half
  have q1 : (d : ℚ) * 2 ≤ s := by exact_mod_cast (show d * 2 ≤ s by omega)
  have q2 : (s : ℚ) ≤ e * 2 := by exact_mod_cast (show s ≤ e * 2 by omega)
  constructor
  · intro z hz
    rw [abs_le] at hz
    obtain ⟨a, b⟩ := nearest_between (x := z) (a := c + s * x) (b := c + s * x + s - 1) (by push_cast; linarith [hz.1]) (by push_cast; linarith [hz.2])
    refine ⟨(nearest z - c).toNat, fin _ (by omega) (by omega), fun ho => ?_, by omega⟩
    subst ho
    obtain ⟨a', b'⟩ := nearest_between (x := z) (a := c + s * x + d) (b := c + s * x + e)
      (by push_cast; linarith [hz.1]) (by push_cast; linarith [hz.2])
    exact half _ (by omega) (by omega)
  · intro z hz
    rw [abs_le] at hz
    obtain ⟨a, b⟩ := nearest_between (x := z) (a := c - (s * x + s - 1)) (b := c - s * x) (by push_cast; linarith [hz.1]) (by push_cast; linarith [hz.2])
    refine ⟨(c - nearest z).toNat, fin _ (by omega) (by omega), fun ho => ?_, by omega⟩
    subst ho
    obtain ⟨a', b'⟩ := nearest_between (x := z) (a := c - (s * x + e)) (b := c - (s * x + d))
      (by push_cast; linarith [hz.1]) (by push_cast; linarith [hz.2])
    exact half _ (by omega) (by omega)

/-- Where the samples of a module are in the drawing. -/
theorem grid_sample {P : Placement} (h : IsAxis P.right) (hs : 2 ≤ P.scale) (x y : Nat) {ou ov : ℚ} (u1 : 3 / 10 ≤ ou) (u2 : ou ≤ 7 / 10)
    (v1 : 3 / 10 ≤ ov) (v2 : ov ≤ 7 / 10) {X Y : ℚ}
    (hX : |X - ((P.pixel 0 0).x + P.scale * (x + ou) * P.right.x - P.scale * (y + ov) * P.right.y)| ≤ 1 / 80)
    (hY : |Y - ((P.pixel 0 0).y + P.scale * (x + ou) * P.right.y + P.scale * (y + ov) * P.right.x)| ≤ 1 / 80) :
    ∃ i j : Nat, i / P.scale = x ∧ j / P.scale = y ∧ (ou = 1 / 2 → ov = 1 / 2 → Middle P.scale i ∧ Middle P.scale j) ∧
      (⟨nearest X, nearest Y⟩ : Point) = P.pixel i j := by
  have cx : (P.pixel 0 0).x = P.corner.x := by unfold pixel; dsimp only; ring
  have cy : (P.pixel 0 0).y = P.corner.y := by unfold pixel; dsimp only; ring
  rw [cx] at hX
  rw [cy] at hY
  obtain ⟨x1, x2⟩ := sample_near hs x u1 u2 P.corner.x
  obtain ⟨y1, y2⟩ := sample_near hs y v1 v2 P.corner.y
  obtain ⟨x3, x4⟩ := sample_near hs x u1 u2 P.corner.y
  obtain ⟨y3, y4⟩ := sample_near hs y v1 v2 P.corner.x
  unfold pixel
  revert hX hY
  rcases h with h | h | h | h <;> rw [h] <;> push_cast <;> simp only [mul_one, mul_zero, add_zero, sub_zero, mul_neg, ← sub_eq_add_neg, sub_neg_eq_add] <;> intro hX hY
  · obtain ⟨i, hi, mi, ei⟩ := x1 X hX
    obtain ⟨j, hj, mj, ej⟩ := y1 Y hY
    exact ⟨i, j, hi, hj, fun h h' => ⟨mi h, mj h'⟩, by rw [ei, ej]⟩
  · obtain ⟨i, hi, mi, ei⟩ := x3 Y hY
    obtain ⟨j, hj, mj, ej⟩ := y4 X hX
    exact ⟨i, j, hi, hj, fun h h' => ⟨mi h, mj h'⟩, by rw [ei, ej]⟩
  · obtain ⟨i, hi, mi, ei⟩ := x2 X hX
    obtain ⟨j, hj, mj, ej⟩ := y2 Y hY
    exact ⟨i, j, hi, hj, fun h h' => ⟨mi h, mj h'⟩, by rw [ei, ej]⟩
  · obtain ⟨i, hi, mi, ei⟩ := x4 Y hY
    obtain ⟨j, hj, mj, ej⟩ := y3 X hX
    exact ⟨i, j, hi, hj, fun h h' => ⟨mi h, mj h'⟩, by rw [ei, ej]⟩

/-- The modules of the patterns are modules of the symbol. -/
theorem pattern_range {v : Nat} (h1 : 1 ≤ v) (hv : v ≤ 40) {m : Nat × Nat × Bool} (hm : m ∈ patternModules v) : m.1 < side v ∧ m.2.1 < side v := by
  have hs : side v = 17 + 4 * v := rfl
  have sq : ∀ {n : Nat} {dark : Nat → Nat → Bool} {y x : Nat}, m ∈ square n dark y x → m.1 < y + n ∧ m.2.1 < x + n := by
    intro n dark y x h
    unfold square at h
    obtain ⟨i, hi, h⟩ := List.mem_flatMap.1 h
    obtain ⟨j, hj, rfl⟩ := List.mem_map.1 h
    rw [List.mem_range] at hi hj
    dsimp only
    omega
  unfold patternModules finderModules at hm
  simp only [List.mem_append] at hm
  rcases hm with (hm | (hm | hm) | hm) | hm
  · unfold timingModules at hm
    obtain ⟨i, hi, h⟩ := List.mem_flatMap.1 hm
    rw [List.mem_range] at hi
    simp only [List.mem_cons, List.not_mem_nil, or_false] at h
    rcases h with rfl | rfl <;> dsimp only <;> omega
  · have := sq hm; omega
  · have := sq hm; omega
  · have := sq hm; omega
  · unfold alignModules at hm
    obtain ⟨c, hc, h⟩ := List.mem_flatMap.1 hm
    have := centres_range v (by omega) c hc
    have := sq h
    omega

/-- They are among those that must be drawn in full. -/
theorem pattern_essential {v : Nat} (h1 : 1 ≤ v) {m : Nat × Nat × Bool} (hm : m ∈ patternModules v) : Essential (side v) m.2.1 m.1 := by
  have hs : side v = 17 + 4 * v := rfl
  have sq : ∀ {n : Nat} {dark : Nat → Nat → Bool} {y x : Nat}, m ∈ square n dark y x → (y ≤ m.1 ∧ m.1 < y + n) ∧ x ≤ m.2.1 ∧ m.2.1 < x + n := by
    intro n dark y x h
    unfold square at h
    obtain ⟨i, hi, h⟩ := List.mem_flatMap.1 h
    obtain ⟨j, hj, rfl⟩ := List.mem_map.1 h
    rw [List.mem_range] at hi hj
    dsimp only
    omega
  unfold Essential
  unfold patternModules finderModules at hm
  simp only [List.mem_append] at hm
  rcases hm with (hm | (hm | hm) | hm) | hm
  · unfold timingModules at hm
    obtain ⟨i, hi, h⟩ := List.mem_flatMap.1 hm
    simp only [List.mem_cons, List.not_mem_nil, or_false] at h
    rcases h with rfl | rfl
    · exact .inr (.inr (.inr (.inr (.inl rfl))))
    · exact .inr (.inr (.inr (.inl rfl)))
  · have := sq hm; left; omega
  · have := sq hm; right; left; omega
  · have := sq hm; right; right; left; omega
  · refine .inr (.inr (.inr (.inr (.inr ⟨m, ?_, rfl, rfl⟩))))
    rw [show (side v - 17) / 4 = v by omega]
    exact hm

theorem lt_of_div {i s n x : Nat} (h : i / s = x) (hx : x < n) (hs : 0 < s) : i < n * s := by
  rw [← h] at hx
  exact (Nat.div_lt_iff_lt_mul hs).1 hx

variable {S : Type} [ImageBuffer S] [LawfulImage S] {img0 img : PreparedImage S} {claims : Pos → Option Claim} {v : Nat}
  {M : Nat → Nat → Bool} {P : Placement}

/-- The drawing is small compared with the range of the numbers. -/
theorem drawn_scale {n : Nat} (hn : 17 ≤ n) (hR : Renders img0 n M P) : P.scale ≤ 1291 ∧ 0 ≤ P.corner.x ∧ P.corner.x ≤ 10000 ∧
    0 ≤ P.corner.y ∧ P.corner.y ≤ 10000 := by
  have hs := hR.scale
  have h1 : 17 * P.scale ≤ n * P.scale := Nat.mul_le_mul_right _ hn
  have a := hR.inside 0 0 (by omega) (by omega)
  have b := hR.inside (17 * P.scale - 1) 0 (by omega) (by omega)
  unfold pixel at a b
  push_cast at a b
  rw [Nat.cast_sub (by omega)] at b
  rcases hR.axis with h | h | h | h <;> rw [h] at a b <;> dsimp only at a b <;> push_cast at a b <;> omega

/-- The whole transform of a drawing takes samples to pixels of their modules. -/
theorem grid_samplePoint {n : Nat} (hn : 17 ≤ n) (hn' : n ≤ 200) (hR : Renders img0 n M P) {c : Perspective F} (hc : Rounded c (P.grid 0 0 P.scale))
    {x y : Nat} (hx : x < n) (hy : y < n) {u v : F} {qu qv : ℚ} (hu : Sc u (x + qu) 201 2) (hv : Sc v (y + qv) 201 2) (u1 : 3 / 10 ≤ qu) (u2 : qu ≤ 7 / 10)
    (v1 : 3 / 10 ≤ qv) (v2 : qv ≤ 7 / 10) :
    ∃ i j : Nat, i / P.scale = x ∧ j / P.scale = y ∧ c.map u v = .ok (P.pixel i j) ∧ i < n * P.scale ∧ j < n * P.scale ∧
      (qu = 1 / 2 → qv = 1 / 2 → Middle P.scale i ∧ Middle P.scale j) := by
  have hs := hR.scale
  obtain ⟨hs', c1, c2, c3, c4⟩ := drawn_scale hn hR
  have hp : 0 < n * P.scale := Nat.mul_pos (by omega) (by omega)
  obtain ⟨bx, by'⟩ := inside_le hR (i := 0) (j := 0) hp hp
  have sb : ((P.scale : ℚ)) ≤ 10000 := by exact_mod_cast (show P.scale ≤ 10000 by omega)
  obtain ⟨X, Y, e, hX, hY⟩ := grid_near hR.axis hc (T := 10000) (Q := 10000) (by positivity) sb (by norm_num) (by norm_num) (by norm_num) (by norm_num) bx by'
    hu hv (by norm_num) (by norm_num) (by norm_num)
  obtain ⟨i, j, hi, hj, mid, e'⟩ := grid_sample hR.axis hs x y u1 u2 v1 v2 hX hY
  refine ⟨i, j, hi, hj, ?_, lt_of_div hi hx (by omega), lt_of_div hj hy (by omega), mid⟩
  rw [e, e']

theorem grid_tame {n : Nat} (hn : 17 ≤ n) (hR : Renders img0 n M P) {c : Perspective F} (hc : Rounded c (P.grid 0 0 P.scale)) : Mild c 20000 := by
  have hs := hR.scale
  obtain ⟨hs', c1, c2, c3, c4⟩ := drawn_scale hn hR
  have hp : 0 < n * P.scale := Nat.mul_pos (by omega) (by omega)
  obtain ⟨bx, by'⟩ := inside_le hR (i := 0) (j := 0) hp hp
  have sb : ((P.scale : ℚ)) ≤ 10000 := by exact_mod_cast (show P.scale ≤ 10000 by omega)
  have sp : (0 : ℚ) ≤ P.scale := by positivity
  have hrx : |(P.scale : ℚ) * P.right.x| ≤ 10000 := by
    rcases hR.axis with h | h | h | h <;> rw [h] <;> push_cast <;> rw [abs_le] <;> constructor <;> linarith
  have hry : |(P.scale : ℚ) * P.right.y| ≤ 10000 := by
    rcases hR.axis with h | h | h | h <;> rw [h] <;> push_cast <;> rw [abs_le] <;> constructor <;> linarith
  have val : ∀ {x : F} {q : ℚ}, Is x (rnd F q) → |q| ≤ 10000 → Val x 20000 := fun h1 h2 => (Val.of_rnd h1 h2 (by norm_num)).mono (by norm_num)
  have ha := grid_aff hR.axis hc (T := 10000) (Q := 10000) sp sb (by norm_num) (by norm_num) (by norm_num) (by norm_num) bx by'
  refine ⟨?_, ha.c6, ha.c7⟩
  intro j hj
  have h := hc j (by omega)
  have cases6 : j = 0 ∨ j = 1 ∨ j = 2 ∨ j = 3 ∨ j = 4 ∨ j = 5 := by omega
  rcases cases6 with rfl | rfl | rfl | rfl | rfl | rfl
  · exact val h hrx
  · exact val h (show |-((P.scale : ℚ) * P.right.y)| ≤ 10000 by rw [abs_neg]; exact hry)
  · exact val h bx
  · exact val h hry
  · exact val h hrx
  · exact val h by'

/-- The transform of the drawing takes the grid to the pixels; the refinement does not change it. -/
theorem setup_drawn (h0 : Fresh img0) (h : History img0 claims img) (hw : width img0.buffer ≤ 2 ^ 31) (hh : height img0.buffer ≤ 2 ^ 31)
    (h1 : 1 ≤ v) (hv : v ≤ 40) (h21 : v ≠ 21) (hR : Renders img0 (side v) M P) (hM : Patterned v M) {g : CapStoneGroup F}
    (ha : Turned P 0 ((side v - 7 : Nat) * P.scale) g.a) (hb : Turned P 0 0 g.b) (hc : Turned P ((side v - 7 : Nat) * P.scale) 0 g.c) :
    ∃ c, setup_perspective img g (P.pixel ((side v - 7 : Nat) * P.scale) ((side v - 7 : Nat) * P.scale)) (side v) = .ok (some c) ∧
      Rounded c (P.grid 0 0 P.scale) := by
  have hn : side v = 17 + 4 * v := rfl
  have hs := hR.scale
  unfold setup_perspective
  rw [subU_ok (by omega), Run.ok_bind]
  have hmul : side v * P.scale = (side v - 7) * P.scale + 7 * P.scale := by rw [← Nat.add_mul]; congr 1; omega
  have hNpos : 0 < (side v - 7) * P.scale := Nat.mul_pos (by omega) (by omega)
  set N := side v - 7 with hN
  have e : ∃ c, Perspective.create (F := F) #v[g.b.corners[0], g.c.corners[0], P.pixel (N * P.scale) (N * P.scale), g.a.corners[0]]
      (ofInt N) (ofInt N) = some c ∧ Rounded c (P.grid 0 0 P.scale) := by
    have hin : Within (P.corners 0 0 (N * P.scale)) := by
      have h1 := hR.inside 0 0 (by omega) (by omega)
      have h2 := hR.inside (N * P.scale) 0 (by omega) (by omega)
      have h3 := hR.inside (N * P.scale) (N * P.scale) (by omega) (by omega)
      have h4 := hR.inside 0 (N * P.scale) (by omega) (by omega)
      push_cast at h1 h2 h3 h4
      intro k hk
      unfold corners
      simp only [zero_add]
      have cases4 : k = 0 ∨ k = 1 ∨ k = 2 ∨ k = 3 := by omega
      rcases cases4 with rfl | rfl | rfl | rfl <;> rw [abs_le, abs_le]
      · show (_ ≤ (P.pixel 0 0).x ∧ (P.pixel 0 0).x ≤ _) ∧ _ ≤ (P.pixel 0 0).y ∧ (P.pixel 0 0).y ≤ _
        omega
      · show (_ ≤ (P.pixel (N * P.scale) 0).x ∧ (P.pixel (N * P.scale) 0).x ≤ _) ∧ _ ≤ (P.pixel (N * P.scale) 0).y ∧ (P.pixel (N * P.scale) 0).y ≤ _
        omega
      · show (_ ≤ (P.pixel (N * P.scale) (N * P.scale)).x ∧ (P.pixel (N * P.scale) (N * P.scale)).x ≤ _) ∧ _ ≤ (P.pixel (N * P.scale) (N * P.scale)).y ∧ (P.pixel (N * P.scale) (N * P.scale)).y ≤ _
        omega
      · show (_ ≤ (P.pixel 0 (N * P.scale)).x ∧ (P.pixel 0 (N * P.scale)).x ≤ _) ∧ _ ≤ (P.pixel 0 (N * P.scale)).y ∧ (P.pixel 0 (N * P.scale)).y ≤ _
        omega
    obtain ⟨c, e, hr⟩ := create_corners_rounded (F := F) (P := P) hR.axis 0 0 (m := N * P.scale) (by exact_mod_cast hNpos) (w := ofInt (N : Int))
      (W := N) (.ofInt (by rw [abs_of_nonneg (by positivity)]; omega) (by norm_num)) (by omega) hin
    have e1 : #v[g.b.corners[0], g.c.corners[0], P.pixel (N * P.scale) (N * P.scale), g.a.corners[0]] = P.corners 0 0 (N * P.scale) := by
      rw [hb.corners, hc.corners, ha.corners]
      unfold corners
      simp only [zero_add]
      rfl
    rw [e1]
    refine ⟨c, e, ?_⟩
    have : (((N : Int) * P.scale : Int) : ℚ) / ((N : Int) : ℚ) = P.scale := by
      have hN1 : (N : ℚ) ≠ 0 := by exact_mod_cast (show N ≠ 0 by omega)
      push_cast
      field_simp
    rwa [this] at hr
  obtain ⟨c, e, hr⟩ := e
  refine ⟨c, ?_, hr⟩
  rw [e]
  dsimp only
  have ht := grid_tame (by omega) hR hr
  have fit : ∀ p : Perspective F, Mild p 100000 → ∃ score, fitness_all img p (side v) = .ok score ∧ score ≤ 9 * (patternModules v).length := by
    intro p hp
    obtain ⟨sc, e1, -, e2, -⟩ := C56_fitness h0 h hw hh (c := p) h1 hv h21 (fun y x hy hx => hp.samples (x := x) (y := y) (by omega) (by omega))
    exact ⟨sc, e1, e2⟩
  have best : fitness_all img c (side v) = .ok (9 * (patternModules v).length) := by
    obtain ⟨sc, e1, -, -, e2⟩ := C56_fitness h0 h hw hh (c := c) h1 hv h21 (fun y x hy hx =>
      Mild.samples ⟨fun j hj => (ht.val j hj).mono (by norm_num), ht.c6, ht.c7⟩ (x := x) (y := y) (by omega) (by omega))
    rw [e1]
    congr 1
    rw [e2]
    intro m hm ou hu ov hv'
    obtain ⟨qu, u1, u2, su⟩ := offset_sc hu
    obtain ⟨qv, v1, v2, sv⟩ := offset_sc hv'
    obtain ⟨m1, m2⟩ := pattern_range h1 hv hm
    obtain ⟨i, j, hi, hj, hp, hi', hj', -⟩ := grid_samplePoint (by omega) (by omega) hR hr (x := m.2.1) (y := m.1) m2 m1 (position_sc (by omega) su)
      (position_sc (by omega) sv) u1 u2 v1 v2
    have : samplePoint c m.1 m.2.1 ou ov = P.pixel i j := by
      unfold samplePoint
      rw [hp]
    rw [this]
    refine ⟨hR.inside' hi' hj', ?_⟩
    rw [hR.blackAt hi' hj' (.inl (by rw [hi, hj]; exact pattern_essential h1 hm)), hi, hj, hM.pattern m hm]
  unfold jiggle_perspective
  rw [jiggle_fixed best ht fit, Run.ok_bind]
  rfl

end Rqrr
