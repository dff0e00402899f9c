import Verif.Proofs.SeveralCaps

/-!
# Neighbours among the capstones of several drawings
-/

namespace Rqrr

open Spec ImageBuffer Spec.Placement Rounding

variable {F : Type} [FloatOps F] [Rounding F]

variable {S : Type} [ImageBuffer S] [LawfulImage S] {img0 img : PreparedImage S} {syms : List Symbol}

/-- Neighbours with a low score belong to the same symbol. -/
theorem neighbours_same (h : Several img0 syms) {caps : List (CapStone F)} {i p q : Nat} {A B C : Symbol} {a b a' b' a'' b'' : Nat}
    {c d e : CapStone F} (hA : Labelled syms caps i A a b c) (hB : Labelled syms caps p B a' b' d) (hC : Labelled syms caps q C a'' b'' e)
    (hp : p ≠ i) (hq : q ≠ i) (hall : AllCaps syms caps)
    (h1 : beside (axes c d.center).1 (axes c d.center).2 = true) (h2 : beside (axes c e.center).2 (axes c e.center).1 = true) :
    ∃ r, Is (pairing (axes c d.center).2 (axes c e.center).1) r ∧
      (FloatOps.lt (pairing (axes c d.center).2 (axes c e.center).1) (FloatOps.lit 25 2) = true →
        (B = A ∧ C = A) ∨ (a = 0 ∧ b = 0 ∧ (B = A ∨ C = A) ∧ 1 / 10 ≤ r)) := by
  have dA := h.drawn A hA.mem
  have dB := h.drawn B hB.mem
  have dC := h.drawn C hC.mem
  obtain ⟨sA, sA'⟩ := dA.scale
  obtain ⟨sB, -⟩ := dB.scale
  obtain ⟨sC, -⟩ := dC.scale
  obtain ⟨t, t1, t2, ht⟩ := hA.framed.between dA.renders.axis sA sA'
  have q6 : (A.place.scale : ℚ) ≤ 476 := by exact_mod_cast sA'
  have far : ∀ {p : Nat} {B : Symbol} {a' b' : Nat} {d : CapStone F}, p ≠ i → Labelled syms caps p B a' b' d →
      14 + 7 * t ≤ |(((B.finder a' b').x - (A.finder a b).x : Int) : ℚ)| ∨ 14 + 7 * t ≤ |(((B.finder a' b').y - (A.finder a b).y : Int) : ℚ)| := by
    intro p B a' b' d hp hB
    obtain ⟨sB, -⟩ := (h.drawn B hB.mem).scale
    have q7 : (2 : ℚ) ≤ B.place.scale := by exact_mod_cast sB
    have := finders_apart h hB.mem hA.mem hB.place hA.place (by
      rintro ⟨rfl, rfl, rfl⟩
      exact hp (hall.inj hB hA))
    rcases this with this | this
    · left
      have : 7 * ((B.place.scale : ℚ) + A.place.scale) ≤ |(((B.finder a' b').x - (A.finder a b).x : Int) : ℚ)| := by exact_mod_cast this
      linarith
    · right
      have : 7 * ((B.place.scale : ℚ) + A.place.scale) ≤ |(((B.finder a' b').y - (A.finder a b).y : Int) : ℚ)| := by exact_mod_cast this
      linarith
  have le : ∀ {p : Nat} {B : Symbol} {a' b' : Nat} {d : CapStone F}, Labelled syms caps p B a' b' d →
      |(B.finder a' b').x - (A.finder a b).x| ≤ 20000 ∧ |(B.finder a' b').y - (A.finder a b).y| ≤ 20000 := by
    intro p B a' b' d hB
    have k1 := hA.center_le h
    have k2 := hB.center_le h
    rw [abs_le, abs_le]
    omega
  obtain ⟨k1, k2, -⟩ := hB.center_le h
  obtain ⟨k3, k4, -⟩ := hC.center_le h
  have f1 := far hp hB
  have f2 := far hq hC
  obtain ⟨l1, l2⟩ := le hB
  obtain ⟨l3, l4⟩ := le hC
  rcases ht with ht | ht
  · obtain ⟨x, y, hx, hy, ex, ey⟩ := ht _ _ _ d hB.framed k1 k2
    obtain ⟨u, w, hu, hw, eu, ew⟩ := ht _ _ _ e hC.framed k3 k4
    rw [← finder_twice dA.renders.axis (by omega), ← finder_twice dB.renders.axis (by omega)] at ex ey
    rw [← finder_twice dA.renders.axis (by omega), ← finder_twice dC.renders.axis (by omega)] at eu ew
    obtain ⟨r, g1, g3, g2⟩ := almost_corner t1 (t2.trans q6) hx hy hu hw ex ey eu ew l2 l3 f1 f2 h1 h2
    refine ⟨r, g1, fun hlow => ?_⟩
    rcases h.corners A hA.mem B hB.mem C hC.mem a b a' b' a'' b'' hA.place hB.place hC.place (g2 hlow) with this | ⟨z1, z2, z3, z4⟩
    · exact .inl this
    · exact .inr ⟨z1, z2, z3, g3 z4⟩
  · obtain ⟨x, y, hx, hy, ex, ey⟩ := ht _ _ _ d hB.framed k1 k2
    obtain ⟨u, w, hu, hw, eu, ew⟩ := ht _ _ _ e hC.framed k3 k4
    rw [← finder_twice dA.renders.axis (by omega), ← finder_twice dB.renders.axis (by omega)] at ex ey
    rw [← finder_twice dA.renders.axis (by omega), ← finder_twice dC.renders.axis (by omega)] at eu ew
    obtain ⟨r, g1, g3, g2⟩ := almost_corner t1 (t2.trans q6) hx hy hu hw ex ey eu ew l1 l4 f1.symm f2.symm h1 h2
    refine ⟨r, g1, fun hlow => ?_⟩
    obtain ⟨m1, m2, m3, m4⟩ := g2 hlow
    rcases h.corners A hA.mem C hC.mem B hB.mem a b a'' b'' a' b' hA.place hC.place hB.place ⟨m2, m1, m4, m3⟩ with this | ⟨z1, z2, z3, z4⟩
    · exact .inl ⟨this.2, this.1⟩
    · exact .inr ⟨z1, z2, z3.symm, g3 z4.symm⟩

/-- Three capstones at the corners of a drawing, among others. -/
structure Trio (P : Placement) (K : Nat) (caps : List (CapStone F)) (t r b : Nat) (ct cr cb : CapStone F) : Prop where
  tr : t ≠ r
  tb : t ≠ b
  rb : r ≠ b
  top : caps[t]? = some ct
  right : caps[r]? = some cr
  bottom : caps[b]? = some cb
  framed_t : FramedCap P 0 0 ct
  framed_r : FramedCap P K 0 cr
  framed_b : FramedCap P 0 K cb
  closed : ∀ i c, (i = t ∧ c = ct) ∨ (i = r ∧ c = cr) ∨ (i = b ∧ c = cb) → ∀ p q d e, p ≠ i → q ≠ i → caps[p]? = some d → caps[q]? = some e →
    beside (axes c d.center).1 (axes c d.center).2 = true → beside (axes c e.center).2 (axes c e.center).1 = true →
    ∃ s, Is (pairing (axes c d.center).2 (axes c e.center).1) s ∧
    (FloatOps.lt (pairing (axes c d.center).2 (axes c e.center).1) (FloatOps.lit 25 2) = true →
      ((p = t ∨ p = r ∨ p = b) ∧ (q = t ∨ q = r ∨ q = b)) ∨ (i = t ∧ ((p = t ∨ p = r ∨ p = b) ∨ (q = t ∨ q = r ∨ q = b)) ∧ 1 / 10 ≤ s))

variable {P : Placement} {K : Nat} {caps : List (CapStone F)} {t r b : Nat} {ct cr cb : CapStone F}

/-- Distances that are almost the same have a score close to zero. -/
theorem pairing_best {x y : F} {κ r s : ℚ} (hκ : 14 ≤ κ) (hx : Is x r) (hy : Is y s) (h1 : |r - κ| ≤ κ / 25) (h2 : |s - κ| ≤ κ / 25) :
    ∃ q, Is (pairing x y) q ∧ q < 1 / 10 := by
  rw [abs_le] at h1 h2
  have l1 : Is (FloatOps.lit 1 0 : F) 1 := by
    have := IntB.lit (F := F) (m := 1) (B := 1) (by norm_num) (by norm_num)
    exact_mod_cast this.1
  have core : ∀ {x y : F} {a b : ℚ}, Is x a → Is y b → 1 ≤ a → 1 ≤ b → 92 / 100 * b ≤ a → a ≤ b →
      ∃ q, Is (FloatOps.abs (FloatOps.sub (FloatOps.lit 1 0) (FloatOps.div x y))) q ∧ q < 1 / 10 := by
    intro x y a b hx hy ha hb c1 c2
    have b0 : 0 < b := by linarith
    have d1 : 92 / 100 ≤ a / b := by rw [le_div_iff₀ b0]; linarith
    have d2 : a / b ≤ 1 := by rw [div_le_iff₀ b0]; linarith
    have hb' : |a / b| ≤ 2 := by rw [abs_le]; constructor <;> linarith
    have e1 := Rounding.div hx hy b0.ne' (hb'.trans (by norm_num))
    have e2 := rnd_close (F := F) hb' (by norm_num)
    rw [abs_le] at e2
    have hb2 : |1 - rnd F (a / b)| ≤ 9 / 100 := by rw [abs_le]; constructor <;> linarith
    have e3 := Rounding.sub l1 e1 (hb2.trans (by norm_num))
    have e4 := rnd_close (F := F) hb2 (by norm_num)
    refine ⟨_, Rounding.abs e3, ?_⟩
    rw [abs_le] at e4 hb2
    rw [abs_lt]
    constructor <;> linarith
  unfold pairing
  rw [Rounding.lt hx hy]
  by_cases hlt : r < s
  · rw [if_pos (decide_eq_true hlt)]
    exact core hx hy (by linarith) (by linarith) (by linarith) hlt.le
  · rw [if_neg (by simpa using hlt)]
    exact core hy hx (by linarith) (by linarith) (by linarith) (by linarith)

/-- The corner has a pair of neighbours that comes first; all others have a member in common with it. -/
theorem rank_corner_among {f g : Nat} {cf cg : CapStone F} (ht : t < caps.length) (et : caps[t] = ct) (ef : caps[f]? = some cf) (eg : caps[g]? = some cg)
    (tf : t ≠ f) (tg : t ≠ g)
    (closed : ∀ p q d e, p ≠ t → q ≠ t → caps[p]? = some d → caps[q]? = some e →
      beside (axes ct d.center).1 (axes ct d.center).2 = true → beside (axes ct e.center).2 (axes ct e.center).1 = true →
      ∃ s, Is (pairing (axes ct d.center).2 (axes ct e.center).1) s ∧
      (FloatOps.lt (pairing (axes ct d.center).2 (axes ct e.center).1) (FloatOps.lit 25 2) = true →
        ((p = f ∨ p = g) ∧ (q = f ∨ q = g)) ∨ (((p = f ∨ p = g) ∨ (q = f ∨ q = g)) ∧ 1 / 10 ≤ s)))
    {κ : ℚ} (hκ : 14 ≤ κ) (hκ' : κ ≤ 20000) (h : FromCorner ct cf cg κ (κ / 25)) :
    ∃ rest, find_and_rank_possible_neighbors caps t = .ok ((f, g) :: rest) ∧ ∀ p ∈ rest, p.1 = f ∨ p.1 = g ∨ p.2 = f ∨ p.2 = g := by
  have best : ∃ q, Is (pairing (axes ct cf.center).2 (axes ct cg.center).1) q ∧ q < 1 / 10 := by
    obtain ⟨⟨xf, yf, fx, fy, f1, f2⟩, ⟨xg, yg, gx, gy, g1, g2⟩⟩ := h
    exact pairing_best hκ fy gx f2 g1
  obtain ⟨⟨xf, yf, fx, fy, f1, f2⟩, ⟨xg, yg, gx, gy, g1, g2⟩⟩ := h.mono (show κ / 25 ≤ κ / 12 by linarith)
  have low := pairing_far hκ fy gx f2 g1
  obtain ⟨pairs, e, hp, asc⟩ := rank_total comparable_finite ht (by
    intro p q a b hp hq ha hb h1 h2 _
    rw [et] at h1 h2 ⊢
    obtain ⟨s, hs, -⟩ := closed p q a b hp hq ha hb h1 h2
    exact ⟨s, hs⟩)
  have mem : ∀ p ∈ pairs, p = (f, g) ∨ ((p.1 = f ∨ p.1 = g ∨ p.2 = f ∨ p.2 = g) ∧ ∃ s, Is (pairScoreF caps ct p) s ∧ 1 / 10 ≤ s) := by
    rintro ⟨p, q⟩ hpq
    obtain ⟨n1, n2, a, b', h1, h2, c1, c2, c3⟩ := (hp _).1 hpq
    dsimp only at n1 n2 h1 h2
    rw [et] at c1 c2 c3
    obtain ⟨s, hs, hcl⟩ := closed _ _ _ _ n1 n2 h1 h2 c1 c2
    rcases hcl c3 with ⟨k1, k2⟩ | ⟨k, hs'⟩
    · left
      rcases k1 with rfl | rfl
      · rcases k2 with rfl | rfl
        · obtain rfl := Option.some.inj (h2.symm.trans ef)
          exact absurd c2 (beside_not hκ hκ' fy fx f2 (.inl f1))
        · rfl
      · obtain rfl := Option.some.inj (h1.symm.trans eg)
        exact absurd c1 (beside_not hκ hκ' gx gy g1 (.inl g2))
    · right
      refine ⟨by tauto, s, ?_, hs'⟩
      unfold pairScoreF
      dsimp only
      rw [h1, h2]
      exact hs
  have hfg : (f, g) ∈ pairs := by
    refine (hp _).2 ⟨tf.symm, tg.symm, cf, cg, ef, eg, ?_, ?_, ?_⟩
    · rw [et]; exact beside_far hκ hκ' fx fy f1 f2
    · rw [et]; exact beside_far hκ hκ' gy gx g2 g1
    · rw [et]; exact low.2
  cases pairs with
  | nil => simp at hfg
  | cons p rest =>
    have first : p = (f, g) := by
      rcases mem p (by simp) with h | ⟨-, s, hs, hs'⟩
      · exact h
      · rcases List.mem_cons.1 hfg with h | hin
        · exact h.symm
        · have := (List.pairwise_cons.1 asc).1 _ hin
          rw [et] at this
          obtain ⟨s', hb, hb'⟩ := best
          have hb2 : Is (pairScoreF caps ct (f, g)) s' := by
            unfold pairScoreF
            dsimp only
            rw [ef, eg]
            exact hb
          rw [Rounding.le hs hb2, decide_eq_true_eq] at this
          linarith
    subst first
    refine ⟨rest, e, fun q hq => ?_⟩
    rcases mem q (by simp [hq]) with rfl | ⟨h, -⟩
    · exact .inl rfl
    · exact h

/-- The other two do not have any. -/
theorem rank_end_among {f g : Nat} {cf cg : CapStone F} (ht : t < caps.length) (et : caps[t] = ct) (ef : caps[f]? = some cf) (eg : caps[g]? = some cg)
    (closed : ∀ p q d e, p ≠ t → q ≠ t → caps[p]? = some d → caps[q]? = some e →
      beside (axes ct d.center).1 (axes ct d.center).2 = true → beside (axes ct e.center).2 (axes ct e.center).1 = true →
      ∃ s, Is (pairing (axes ct d.center).2 (axes ct e.center).1) s ∧
      (FloatOps.lt (pairing (axes ct d.center).2 (axes ct e.center).1) (FloatOps.lit 25 2) = true → (p = f ∨ p = g) ∧ (q = f ∨ q = g)))
    {κ : ℚ} (hκ : 14 ≤ κ) (hκ' : κ ≤ 20000)
    (h : FromEnd ct cf cg κ (κ / 25)) : find_and_rank_possible_neighbors caps t = .ok [] := by
  obtain ⟨⟨xf, yf, fx, fy, f1⟩, ⟨xg, yg, gx, gy, g1, g2⟩⟩ := h.mono (show κ / 25 ≤ κ / 12 by linarith)
  obtain ⟨pairs, e, hp⟩ := rank_finite ht (by
    intro p q a b hp hq ha hb h1 h2
    rw [et] at h1 h2 ⊢
    obtain ⟨s, hs, -⟩ := closed p q a b hp hq ha hb h1 h2
    exact ⟨s, hs⟩)
  rw [e]
  congr 1
  refine List.eq_nil_iff_forall_not_mem.2 fun p hp' => ?_
  obtain ⟨n1, n2, a, b', h1, h2, c1, c2, c3⟩ := (hp _).1 hp'
  rw [et] at c1 c2 c3
  obtain ⟨-, -, hcl⟩ := closed _ _ _ _ n1 n2 h1 h2 c1 c2
  obtain ⟨k1, k2⟩ := hcl c3
  rcases k1 with k1 | k1
  · rw [k1] at h1
    obtain rfl := Option.some.inj (h1.symm.trans ef)
    rcases k2 with k2 | k2
    · rw [k2] at h2
      obtain rfl := Option.some.inj (h2.symm.trans ef)
      rcases f1 with ⟨a1, a2⟩ | ⟨a1, a2⟩
      · exact beside_not hκ hκ' fy fx a2 (.inl a1) c2
      · exact beside_not hκ hκ' fx fy a1 (.inl a2) c1
    · rw [k2] at h2
      obtain rfl := Option.some.inj (h2.symm.trans eg)
      exact beside_not hκ hκ' gy gx g2 (.inr g1) c2
  · rw [k1] at h1
    obtain rfl := Option.some.inj (h1.symm.trans eg)
    exact beside_not hκ hκ' gx gy g1 (.inr g2) c1

/-- Only the capstone in the corner has a pair of neighbours. -/
theorem Trio.rank (hP : IsAxis P.right) (hs : 2 ≤ P.scale) (hK : 14 * P.scale ≤ K) (hK' : K ≤ 20000) (h : Trio P K caps t r b ct cr cb) :
    (∃ f g rest, ((f = r ∧ g = b) ∨ (f = b ∧ g = r)) ∧ find_and_rank_possible_neighbors caps t = .ok ((f, g) :: rest) ∧
      ∀ p ∈ rest, p.1 = f ∨ p.1 = g ∨ p.2 = f ∨ p.2 = g) ∧
    find_and_rank_possible_neighbors caps r = .ok [] ∧ find_and_rank_possible_neighbors caps b = .ok [] := by
  have hK1 : 14 * (P.scale : ℚ) ≤ K := by exact_mod_cast hK
  have hK2 : (K : ℚ) ≤ 20000 := by exact_mod_cast hK'
  have hs2 : (2 : ℚ) ≤ P.scale := by exact_mod_cast hs
  have hlt := (List.getElem?_eq_some_iff.1 h.top).1
  have hlr := (List.getElem?_eq_some_iff.1 h.right).1
  have hlb := (List.getElem?_eq_some_iff.1 h.bottom).1
  have et : caps[t] = ct := (List.getElem?_eq_some_iff.1 h.top).2
  have er : caps[r] = cr := (List.getElem?_eq_some_iff.1 h.right).2
  have eb : caps[b] = cb := (List.getElem?_eq_some_iff.1 h.bottom).2
  have absK : |((K : Int) : ℚ)| = K := by rw [Int.cast_natCast, abs_of_nonneg (by positivity)]
  have absK' : |((-(K : Int) : Int) : ℚ)| = K := by rw [Int.cast_neg, abs_neg, absK]
  have abs0 : |((0 : Int) : ℚ)| = 0 := by simp
  have unit : ∀ {t : ℚ}, 1 ≤ t → t ≤ P.scale → 14 ≤ K / t ∧ K / t ≤ 20000 ∧ 1 / t + 1 / 1000 ≤ K / t / 25 := by
    intro t h1 h2
    have t0 : 0 < t := by linarith
    refine ⟨?_, ?_, ?_⟩
    · rw [le_div_iff₀ t0]; linarith
    · rw [div_le_iff₀ t0]; linarith
    · rw [div_div, div_add_div _ _ t0.ne' (by norm_num), div_le_div_iff₀ (by positivity) (by positivity)]
      nlinarith
  refine ⟨?_, ?_, ?_⟩
  · obtain ⟨u, u1, u2, hd⟩ := h.framed_t.distances hP hs
    obtain ⟨k1, k2, k3⟩ := unit u1 u2
    have cl := h.closed t ct (.inl ⟨rfl, rfl⟩)
    rcases hd with hd | hd
    · obtain ⟨xr, yr, rx, ry, r1, r2⟩ := hd _ _ _ h.framed_r
      obtain ⟨xb, yb, bx, by', b1, b2⟩ := hd _ _ _ h.framed_b
      rw [sub_zero, absK] at r1 b2
      rw [sub_zero, abs0, zero_div, sub_zero] at r2 b1
      obtain ⟨rest, e, hp⟩ := rank_corner_among hlt et h.bottom h.right h.tb h.tr (fun p q d e hp hq hd he h1 h2 => by
        obtain ⟨s, m1, m2⟩ := cl p q d e hp hq hd he h1 h2
        refine ⟨s, m1, fun hlow => ?_⟩
        rcases m2 hlow with m2 | ⟨-, m2, m3⟩
        · left; omega
        · right; exact ⟨by omega, m3⟩) k1 k2
        ⟨⟨xb, yb, bx, by', b1.trans k3, b2.trans k3⟩, ⟨xr, yr, rx, ry, r1.trans k3, r2.trans k3⟩⟩
      exact ⟨b, r, rest, .inr ⟨rfl, rfl⟩, e, hp⟩
    · obtain ⟨xr, yr, rx, ry, r1, r2⟩ := hd _ _ _ h.framed_r
      obtain ⟨xb, yb, bx, by', b1, b2⟩ := hd _ _ _ h.framed_b
      rw [sub_zero, absK] at r2 b1
      rw [sub_zero, abs0, zero_div, sub_zero] at r1 b2
      obtain ⟨rest, e, hp⟩ := rank_corner_among hlt et h.right h.bottom h.tr h.tb (fun p q d e hp hq hd he h1 h2 => by
        obtain ⟨s, m1, m2⟩ := cl p q d e hp hq hd he h1 h2
        refine ⟨s, m1, fun hlow => ?_⟩
        rcases m2 hlow with m2 | ⟨-, m2, m3⟩
        · left; omega
        · right; exact ⟨by omega, m3⟩) k1 k2
        ⟨⟨xr, yr, rx, ry, r1.trans k3, r2.trans k3⟩, ⟨xb, yb, bx, by', b1.trans k3, b2.trans k3⟩⟩
      exact ⟨r, b, rest, .inl ⟨rfl, rfl⟩, e, hp⟩
  · obtain ⟨u, u1, u2, hd⟩ := h.framed_r.distances hP hs
    obtain ⟨k1, k2, k3⟩ := unit u1 u2
    have cl := h.closed r cr (.inr (.inl ⟨rfl, rfl⟩))
    refine rank_end_among (f := t) (g := b) (cf := ct) (cg := cb) hlr er h.top h.bottom (fun p q d e hp hq hd he h1 h2 => by
        obtain ⟨s, m1, m2⟩ := cl p q d e hp hq hd he h1 h2
        refine ⟨s, m1, fun hlow => ?_⟩
        rcases m2 hlow with m2 | ⟨m2, -⟩
        · omega
        · exact absurd m2.symm h.tr) k1 k2 ?_
    rcases hd with hd | hd
    · obtain ⟨xt, yt, tx, ty, t1, t2⟩ := hd _ _ _ h.framed_t
      obtain ⟨xb, yb, bx, by', b1, b2⟩ := hd _ _ _ h.framed_b
      rw [zero_sub, absK'] at t1 b1
      rw [sub_zero, abs0, zero_div, sub_zero] at t2
      rw [sub_zero, absK] at b2
      exact ⟨⟨xt, yt, tx, ty, .inr ⟨t1.trans k3, t2.trans k3⟩⟩, ⟨xb, yb, bx, by', b1.trans k3, b2.trans k3⟩⟩
    · obtain ⟨xt, yt, tx, ty, t1, t2⟩ := hd _ _ _ h.framed_t
      obtain ⟨xb, yb, bx, by', b1, b2⟩ := hd _ _ _ h.framed_b
      rw [zero_sub, absK'] at t2 b2
      rw [sub_zero, abs0, zero_div, sub_zero] at t1
      rw [sub_zero, absK] at b1
      exact ⟨⟨xt, yt, tx, ty, .inl ⟨t1.trans k3, t2.trans k3⟩⟩, ⟨xb, yb, bx, by', b1.trans k3, b2.trans k3⟩⟩
  · obtain ⟨u, u1, u2, hd⟩ := h.framed_b.distances hP hs
    obtain ⟨k1, k2, k3⟩ := unit u1 u2
    have cl := h.closed b cb (.inr (.inr ⟨rfl, rfl⟩))
    refine rank_end_among (f := t) (g := r) (cf := ct) (cg := cr) hlb eb h.top h.right (fun p q d e hp hq hd he h1 h2 => by
        obtain ⟨s, m1, m2⟩ := cl p q d e hp hq hd he h1 h2
        refine ⟨s, m1, fun hlow => ?_⟩
        rcases m2 hlow with m2 | ⟨m2, -⟩
        · omega
        · exact absurd m2.symm h.tb) k1 k2 ?_
    rcases hd with hd | hd
    · obtain ⟨xt, yt, tx, ty, t1, t2⟩ := hd _ _ _ h.framed_t
      obtain ⟨xb, yb, bx, by', b1, b2⟩ := hd _ _ _ h.framed_r
      rw [zero_sub, absK'] at t2 b2
      rw [sub_zero, abs0, zero_div, sub_zero] at t1
      rw [sub_zero, absK] at b1
      exact ⟨⟨xt, yt, tx, ty, .inl ⟨t1.trans k3, t2.trans k3⟩⟩, ⟨xb, yb, bx, by', b1.trans k3, b2.trans k3⟩⟩
    · obtain ⟨xt, yt, tx, ty, t1, t2⟩ := hd _ _ _ h.framed_t
      obtain ⟨xb, yb, bx, by', b1, b2⟩ := hd _ _ _ h.framed_r
      rw [zero_sub, absK'] at t1 b1
      rw [sub_zero, abs0, zero_div, sub_zero] at t2
      rw [sub_zero, absK] at b2
      exact ⟨⟨xt, yt, tx, ty, .inr ⟨t1.trans k3, t2.trans k3⟩⟩, ⟨xb, yb, bx, by', b1.trans k3, b2.trans k3⟩⟩

/-- The three capstones of a symbol. -/
theorem trio_of (h : Several img0 syms) (hall : AllCaps syms caps) {A : Symbol} (ht : Labelled syms caps t A 0 0 ct)
    (hr : Labelled syms caps r A (side A.version - 7) 0 cr) (hb : Labelled syms caps b A 0 (side A.version - 7) cb) :
    Trio A.place ((side A.version - 7) * A.place.scale) caps t r b ct cr cb := by
  have hn : side A.version = 17 + 4 * A.version := rfl
  have dA := h.drawn A ht.mem
  have cK : (((side A.version - 7 : Nat) : Int) * A.place.scale) = (((side A.version - 7) * A.place.scale : Nat) : Int) := by push_cast; rfl
  have c0 : (((0 : Nat) : Int) * A.place.scale) = 0 := by rw [Nat.cast_zero, zero_mul]
  have ft := ht.framed
  have fr := hr.framed
  have fb := hb.framed
  rw [c0] at ft
  rw [cK, c0] at fr fb
  refine ⟨?_, ?_, ?_, ht.get, hr.get, hb.get, ft, fr, fb, ?_⟩
  · rintro rfl
    have := ht.unique h hr
    omega
  · rintro rfl
    have := ht.unique h hb
    omega
  · rintro rfl
    have := hr.unique h hb
    omega
  · intro i c hic p q d e hp hq hd he h1 h2
    obtain ⟨B, a', b', hB⟩ := hall.label p d hd
    obtain ⟨C, a'', b'', hC⟩ := hall.label q e he
    have hi : ∃ a b, Labelled syms caps i A a b c := by
      rcases hic with ⟨rfl, rfl⟩ | ⟨rfl, rfl⟩ | ⟨rfl, rfl⟩
      · exact ⟨_, _, ht⟩
      · exact ⟨_, _, hr⟩
      · exact ⟨_, _, hb⟩
    obtain ⟨a0, b0, hi⟩ := hi
    obtain ⟨s, m1, m2⟩ := neighbours_same h hi hB hC hp hq hall h1 h2
    refine ⟨s, m1, fun hlow => ?_⟩
    have mem : ∀ {p a' b' d}, Labelled syms caps p A a' b' d → p = t ∨ p = r ∨ p = b := by
      intro p a' b' d hB
      rcases hB.place with ⟨rfl, rfl⟩ | ⟨rfl, rfl⟩ | ⟨rfl, rfl⟩
      · exact .inl (hall.inj hB ht)
      · exact .inr (.inl (hall.inj hB hr))
      · exact .inr (.inr (hall.inj hB hb))
    rcases m2 hlow with ⟨rfl, rfl⟩ | ⟨rfl, rfl, m2, m3⟩
    · exact .inl ⟨mem hB, mem hC⟩
    · right
      refine ⟨hall.inj hi ht, ?_, m3⟩
      rcases m2 with rfl | rfl
      · exact .inl (mem hB)
      · exact .inr (mem hC)

end Rqrr
