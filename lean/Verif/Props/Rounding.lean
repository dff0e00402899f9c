import Verif.Proofs.Double
import Verif.Proofs.CreateRounded
import Verif.Props.Geometry
import Verif.Props.Identify
import Verif.Props.Detect
import Verif.Proofs.NeighborsRounded
import Verif.Proofs.FramedMeasure

/-!
# C61: transforms in double precision
-/

namespace Rqrr

open Spec

/-- The values of finite doubles: significands of 53 bits and exponents from -1074 (and up, overflow apart). -/
def Spec.Dyadic (q : ℚ) : Prop := ∃ m e : Int, |m| ≤ 2 ^ 53 ∧ -1074 ≤ e ∧ q = m * 2 ^ e

/-- `x` is a double with a value nearest to `q`. -/
def Spec.NearestDouble (x : F64) (q : ℚ) : Prop :=
  ∃ r, x.value = some r ∧ Dyadic r ∧ ∀ s, Dyadic s → |r - q| ≤ |s - q|

theorem Spec.Dyadic.abs {q : ℚ} (h : Dyadic q) : Raw64.Representable |q| := by
  obtain ⟨m, e, h1, h2, rfl⟩ := h
  refine ⟨m.natAbs, e, by rw [Int.abs_eq_natAbs] at h1; omega, h2, ?_⟩
  rw [abs_mul, abs_of_pos (Raw64.two_pow_pos e), Nat.cast_natAbs, Int.cast_abs]

theorem nearest_double {x : F64} {q : ℚ} (h : Rounding.Is x (Raw64.rnd q)) : NearestDouble x q := by
  obtain ⟨x, hx⟩ := x
  obtain ⟨s, m, rfl, h0, ⟨k, e, h1, h2, h3⟩, h4⟩ := h
  refine ⟨Raw64.rnd q, by rw [h4]; rfl, ?_, fun r hr => ?_⟩
  · rw [h4, h3]
    cases s
    · exact ⟨k, e, by rw [abs_of_nonneg (by omega)]; exact_mod_cast h1, h2, by simp [Raw64.signed]⟩
    · exact ⟨-k, e, by rw [abs_neg, abs_of_nonneg (by omega)]; exact_mod_cast h1, h2, by simp [Raw64.signed]⟩
  · have key := Raw64.roundMag_best (abs_nonneg q) hr.abs
    have e1 : |Raw64.rnd q - q| = |Raw64.roundMag (|q|) - (|q|)| := by
      unfold Raw64.rnd Raw64.signed
      by_cases hq : q < 0
      · rw [if_pos (by simpa using hq), abs_of_neg hq, ← abs_neg]
        congr 1; ring
      · rw [if_neg (by simpa using hq), abs_of_nonneg (not_lt.1 hq)]
    rw [e1]
    exact key.trans (abs_abs_sub_abs_le r q)

/-- **C61.** The model of `f64` rounds to nearest: sums, products and quotients of finite numbers, up to `2^200`, are doubles nearest to the
exact results. -/
theorem C61_nearest {x y : F64} {p q : ℚ} (hx : x.value = some p) (hy : y.value = some q) :
    (|p + q| ≤ 2 ^ 200 → NearestDouble (FloatOps.add x y) (p + q)) ∧ (|p - q| ≤ 2 ^ 200 → NearestDouble (FloatOps.sub x y) (p - q)) ∧
    (|p * q| ≤ 2 ^ 200 → NearestDouble (FloatOps.mul x y) (p * q)) ∧
    (q ≠ 0 → |p / q| ≤ 2 ^ 200 → NearestDouble (FloatOps.div x y) (p / q)) :=
  ⟨fun h => nearest_double (Rounding.add (F := F64) (F64.value_is hx) (F64.value_is hy) h), fun h => nearest_double (Rounding.sub (F := F64) (F64.value_is hx) (F64.value_is hy) h),
    fun h => nearest_double (Rounding.mul (F := F64) (F64.value_is hx) (F64.value_is hy) h), fun h0 h => nearest_double (Rounding.div (F := F64) (F64.value_is hx) (F64.value_is hy) h0 h)⟩

/-- **C61.** In double precision there is a transform for four corners, with coordinates up to 32767, and a square with a side of up to
200 exactly if there is one in exact arithmetic, and its coefficients are as accurate as can be: each is a double nearest to the exact
coefficient. -/
theorem C61_transform (r : Vector Point 4) (hr : ∀ (k : Nat) (hk : k < 4), |r[k].x| ≤ 32767 ∧ |r[k].y| ≤ 32767) (n : Nat) (hn : n ≤ 200) :
    match Perspective.create r (n : ℚ) n with
    | none => Perspective.create r (FloatOps.ofInt n : F64) (FloatOps.ofInt n) = none
    | some q => ∃ c, Perspective.create r (FloatOps.ofInt n : F64) (FloatOps.ofInt n) = some c ∧
        ∀ (k : Nat) (hk : k < 8), NearestDouble c[k] q[k] := by
  obtain ⟨h1, h2⟩ := create_rounded (F := F64) hr (IntB.ofInt (i := n) (B := 200) (by rw [abs_of_nonneg (by omega)]; exact_mod_cast hn) (by norm_num))
  rw [show (n : ℚ) = ((n : Int) : ℚ) by norm_cast]
  split
  · next h => exact h1 h
  · next q h =>
    obtain ⟨c, e, hc⟩ := h2 q h
    exact ⟨c, e, fun k hk => nearest_double (hc k hk)⟩

/-- A quadrilateral that is not a parallelogram: in double precision it has a transform too. -/
example : ∃ c, Perspective.create #v[⟨3, 1⟩, ⟨100, 5⟩, ⟨103, 97⟩, ⟨2, 99⟩] (FloatOps.ofInt (7 : Nat) : F64) (FloatOps.ofInt (7 : Nat)) = some c := by
  have h := C61_transform #v[⟨3, 1⟩, ⟨100, 5⟩, ⟨103, 97⟩, ⟨2, 99⟩] (by decide) 7 (by omega)
  cases e : Perspective.create #v[⟨3, 1⟩, ⟨100, 5⟩, ⟨103, 97⟩, ⟨2, 99⟩] ((7 : Nat) : ℚ) (7 : Nat) with
  | none => exact absurd ((C45_create _ _ _ (by norm_num) (by norm_num)).1 e) (by decide)
  | some q =>
    rw [e] at h
    obtain ⟨c, hc, -⟩ := h
    exact ⟨c, hc⟩

/-! ## C62: C46, C48 and C51 in double precision -/

/-- **C62.** Ranking in double precision never panics, whatever the capstones (their transforms may have coefficients that are not finite).
The pairs ranked for a capstone are those of a capstone off one axis by less than a fifth of the distance along the other one, a
capstone likewise off the other axis, and a score below a quarter - the score is what a quotient of the distances lacks of 1 -, and they
are in the order of their scores. -/
theorem C62_ranking {caps : List (CapStone F64)} {i : Nat} (hi : i < caps.length) :
    ∃ pairs, find_and_rank_possible_neighbors caps i = .ok pairs ∧ (∀ p, p ∈ pairs ↔
      p.1 ≠ i ∧ p.2 ≠ i ∧ ∃ a b, caps[p.1]? = some a ∧ caps[p.2]? = some b ∧
      beside (axes caps[i] a.center).1 (axes caps[i] a.center).2 = true ∧
      beside (axes caps[i] b.center).2 (axes caps[i] b.center).1 = true ∧
      FloatOps.lt (pairing (axes caps[i] a.center).2 (axes caps[i] b.center).1) (FloatOps.lit 25 2) = true) ∧
      pairs.Pairwise fun p p' => FloatOps.le (pairScoreF caps caps[i] p) (pairScoreF caps caps[i] p') = true := by
  refine rank_total comparable_finite hi fun p q a b _ _ _ _ _ _ h => ?_
  revert h
  unfold pairing
  split <;> exact F64.finite_of_lt

/-- Only pairs of different capstones are ranked. -/
theorem rank_distinct_f64 {caps : List (CapStone F64)} {i : Nat} {pairs : List (Nat × Nat)} {p : Nat × Nat}
    (h : find_and_rank_possible_neighbors caps i = .ok pairs) (hp : p ∈ pairs) (hi : i < caps.length) :
    p.1 ≠ i ∧ p.2 ≠ i ∧ p.1 ≠ p.2 ∧ p.1 < caps.length ∧ p.2 < caps.length := by
  obtain ⟨pairs', h1, h2, -⟩ := C62_ranking hi
  rw [h] at h1
  cases h1
  obtain ⟨a1, a2, a, b, a3, a4, a5, a6, -⟩ := (h2 p).1 hp
  refine ⟨a1, a2, ?_, (List.getElem?_eq_some_iff.1 a3).1, (List.getElem?_eq_some_iff.1 a4).1⟩
  intro e
  rw [e, a4] at a3
  cases a3
  have := F64.fifth_once _ _ a5
  exact absurd (a6.symm.trans this) (by decide)

/-- **C62.** So in double precision too each group consists of three different capstones, two groups have at most their corner in common,
and there are at most half as many groups as capstones. -/
theorem C62_distinct {viable : CapStoneGroup F64 → Run Bool} {caps : List (CapStone F64)} {groups : List (CapStoneGroup F64)}
    (h : find_groupings_with find_and_rank_possible_neighbors viable caps = .ok groups) :
    ∃ ts : List Triple, List.Forall₂ (fun t g => t.Names caps g) ts groups ∧ ts.Pairwise OnlyCornerShared ∧
      (∀ t ∈ ts, t.indices.Nodup) ∧ 2 * groups.length ≤ caps.length :=
  groups_distinct rank_distinct_f64 h

/-- **C62.** Double precision meets the requirements of C46 and C51. -/
theorem C62_laws : SmallIntegersExact F64 ∧ CentresMap F64 := ⟨small_integers_rounding, C51_centres⟩

end Rqrr
