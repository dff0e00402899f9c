import Verif.Proofs.Frame
import Verif.Proofs.Squares

/-!
# Connected modules and connected pixels
-/

namespace Rqrr

open Spec ImageBuffer

namespace Spec

/-- The drawn pixels of the dark modules, in the coordinates of the drawing. -/
def Inked (n s : Nat) (M : Nat → Nat → Bool) (c : Pos) : Prop := c.1 < n * s ∧ c.2 < n * s ∧ M (c.2 / s) (c.1 / s) = true

end Spec

variable {S : Type} [ImageBuffer S] [LawfulImage S] {img : PreparedImage S} {n : Nat} {M : Nat → Nat → Bool} {P : Placement}

/-- The pixel of the image at these coordinates of the drawing. -/
def Spec.Placement.At (P : Placement) (c p : Pos) : Prop := P.pixel c.1 c.2 = ⟨p.1, p.2⟩

theorem at_adj (hP : IsAxis P.right) {c d p q : Pos} (h1 : P.At c p) (h2 : P.At d q) : Adj c d ↔ Adj p q := by
  unfold Spec.Placement.At Spec.Placement.pixel at h1 h2
  rw [Point.mk.injEq] at h1 h2
  obtain ⟨a1, a2⟩ := h1
  obtain ⟨b1, b2⟩ := h2
  unfold Adj
  rcases hP with h | h | h | h <;> rw [h] at a1 a2 b1 b2 <;> dsimp only at a1 a2 b1 b2 <;> omega

theorem at_inked (hR : Pictures img n M P) {c p : Pos} (h : P.At c p) : Inked n P.scale M c ↔ IsBlack img p := by
  rw [hR.black_iff h]
  unfold Inked
  rw [Int.toNat_natCast, Int.toNat_natCast]
  constructor
  · rintro ⟨a, b, c⟩
    exact ⟨by omega, by exact_mod_cast a, by omega, by exact_mod_cast b, c⟩
  · rintro ⟨-, a, -, b, c⟩
    exact ⟨by exact_mod_cast a, by exact_mod_cast b, c⟩

theorem reach_of_pixels (hR : Pictures img n M P) {c p q : Pos} (hc : P.At c p) (h : Reach (IsBlack img) p q) :
    ∃ d, P.At d q ∧ Reach (Inked n P.scale M) c d := by
  obtain ⟨h0, h⟩ := h
  induction h with
  | refl => exact ⟨c, hc, .refl ((at_inked hR hc).2 h0)⟩
  | tail _ hb ih =>
    obtain ⟨d, hd, hr⟩ := ih
    obtain ⟨i, j, -, -, e, -⟩ := (hR.black _).1 hb.2
    replace e : P.At (i, j) _ := e
    exact ⟨(i, j), e, hr.tail ((at_adj hR.axis hd e).2 hb.1) ((at_inked hR e).2 hb.2)⟩

theorem pixels_of_reach (hR : Pictures img n M P) {c d p : Pos} (hc : P.At c p) (h : Reach (Inked n P.scale M) c d) :
    ∃ q, P.At d q ∧ Reach (IsBlack img) p q := by
  obtain ⟨h0, h⟩ := h
  induction h with
  | refl => exact ⟨p, hc, .refl ((at_inked hR hc).1 h0)⟩
  | @tail d e _ hb ih =>
    obtain ⟨q, hq, hr⟩ := ih
    have := hR.inside e.1 e.2 hb.2.1 hb.2.2.1
    have he : P.At e ((P.pixel e.1 e.2).x.toNat, (P.pixel e.1 e.2).y.toNat) := by
      unfold Spec.Placement.At
      dsimp only
      rw [Int.toNat_of_nonneg this.1, Int.toNat_of_nonneg this.2.2.2.1]
    exact ⟨_, he, hr.tail ((at_adj hR.axis hq he).1 hb.1) ((at_inked hR he).1 hb.2)⟩

theorem at_unique (hP : IsAxis P.right) {c d p : Pos} (h1 : P.At c p) (h2 : P.At d p) : c = d := by
  unfold Spec.Placement.At at h1 h2
  obtain ⟨a, b⟩ := Placement.pixel_inj hP (h1.trans h2.symm)
  ext
  · exact_mod_cast a
  · exact_mod_cast b

theorem at_unique' {c p q : Pos} (h1 : P.At c p) (h2 : P.At c q) : p = q := by
  have := h1.symm.trans h2
  rw [Point.mk.injEq] at this
  ext <;> omega

/-- Pixels of the image are connected if and only if they are connected in the coordinates of the drawing. -/
theorem reach_at (hR : Pictures img n M P) {c d p q : Pos} (hc : P.At c p) (hd : P.At d q) :
    Reach (IsBlack img) p q ↔ Reach (Inked n P.scale M) c d := by
  constructor
  · intro h
    obtain ⟨d', h1, h2⟩ := reach_of_pixels hR hc h
    rwa [at_unique hR.axis hd h1]
  · intro h
    obtain ⟨q', h1, h2⟩ := pixels_of_reach hR hc h
    rwa [at_unique' hd h1]

theorem succ_div' (a s : Nat) : (a + 1) / s = a / s ∨ (a + 1) / s = a / s + 1 := by
  rw [Nat.succ_div]
  split <;> simp

/-- And they are connected if and only if their modules are. -/
theorem reach_modules {s : Nat} (hs : 0 < s) {c d : Pos} :
    Reach (Inked n s M) c d ↔ Reach (DarkModule n M) (c.1 / s, c.2 / s) (d.1 / s, d.2 / s) := by
  have dark : ∀ {c : Pos}, Inked n s M c → DarkModule n M (c.1 / s, c.2 / s) := by
    rintro c ⟨a, b, h⟩
    exact ⟨(Nat.div_lt_iff_lt_mul hs).2 a, (Nat.div_lt_iff_lt_mul hs).2 b, h⟩
  constructor
  · rintro ⟨h0, h⟩
    induction h with
    | refl => exact .refl (dark h0)
    | @tail d e _ hb ih =>
      by_cases heq : (e.1 / s, e.2 / s) = (d.1 / s, d.2 / s)
      · rw [heq]; exact ih
      · refine ih.tail ?_ (dark hb.2)
        rw [Prod.mk.injEq] at heq
        unfold Adj
        dsimp only
        rcases hb.1 with ⟨h1, h2 | h2⟩ | ⟨h1, h2 | h2⟩ <;> rw [← h2, h1] at heq ⊢
        · have := succ_div' d.1 s; omega
        · have := succ_div' e.1 s; omega
        · have := succ_div' d.2 s; omega
        · have := succ_div' e.2 s; omega
  · have inSq : ∀ {m c : Pos}, DarkModule n M m → InSquare (m.1 * s) (m.2 * s) s c → Inked n s M c ∧ (c.1 / s, c.2 / s) = m := by
      rintro ⟨m1, m2⟩ ⟨c1, c2⟩ ⟨h1, h2, h3⟩ ⟨k1, k2, k3, k4⟩
      dsimp only at h1 h2 h3 k1 k2 k3 k4
      have e1 : c1 / s = m1 := Nat.div_eq_of_lt_le k1 (by rw [Nat.add_mul]; omega)
      have e2 : c2 / s = m2 := Nat.div_eq_of_lt_le k3 (by rw [Nat.add_mul]; omega)
      refine ⟨⟨?_, ?_, ?_⟩, by dsimp only; rw [e1, e2]⟩
      · exact lt_of_lt_of_le k2 (by rw [← Nat.succ_mul]; exact Nat.mul_le_mul_right s h1)
      · exact lt_of_lt_of_le k4 (by rw [← Nat.succ_mul]; exact Nat.mul_le_mul_right s h2)
      · dsimp only; rw [e1, e2]; exact h3
    have sq : ∀ {c : Pos}, InSquare (c.1 / s * s) (c.2 / s * s) s c := by
      intro c
      have a1 := Nat.div_add_mod c.1 s
      have a2 := Nat.div_add_mod c.2 s
      have b1 := Nat.mod_lt c.1 hs
      have b2 := Nat.mod_lt c.2 hs
      unfold InSquare
      rw [Nat.mul_comm (c.1 / s), Nat.mul_comm (c.2 / s)]
      omega
    have join : ∀ {m c d : Pos}, DarkModule n M m → InSquare (m.1 * s) (m.2 * s) s c → InSquare (m.1 * s) (m.2 * s) s d →
        Reach (Inked n s M) c d := fun hm h1 h2 => (square_conn h1 h2).mono fun p hp => (inSq hm hp).1
    rintro ⟨h0, h⟩
    have key : ∀ m, Relation.ReflTransGen (fun a b => Adj a b ∧ DarkModule n M b) (c.1 / s, c.2 / s) m →
        DarkModule n M m ∧ ∀ d, InSquare (m.1 * s) (m.2 * s) s d → Reach (Inked n s M) c d := by
      intro m hm
      induction hm with
      | refl => exact ⟨h0, fun d hd => join (m := (c.1 / s, c.2 / s)) h0 sq hd⟩
      | @tail m m' _ hb ih =>
        refine ⟨hb.2, fun d hd => ?_⟩
        obtain ⟨hm, ih⟩ := ih
        have step : ∃ a b : Pos, InSquare (m.1 * s) (m.2 * s) s a ∧ InSquare (m'.1 * s) (m'.2 * s) s b ∧ Adj a b := by
          unfold InSquare Adj
          rcases hb.1 with ⟨h1, h2 | h2⟩ | ⟨h1, h2 | h2⟩ <;> rw [← h2, h1, Nat.add_mul, Nat.one_mul]
          · exact ⟨(m.1 * s + s - 1, m'.2 * s), (m.1 * s + s, m'.2 * s), by dsimp only; omega, by dsimp only; omega, by dsimp only; omega⟩
          · exact ⟨(m'.1 * s + s, m'.2 * s), (m'.1 * s + s - 1, m'.2 * s), by dsimp only; omega, by dsimp only; omega, by dsimp only; omega⟩
          · exact ⟨(m'.1 * s, m.2 * s + s - 1), (m'.1 * s, m.2 * s + s), by dsimp only; omega, by dsimp only; omega, by dsimp only; omega⟩
          · exact ⟨(m'.1 * s, m'.2 * s + s), (m'.1 * s, m'.2 * s + s - 1), by dsimp only; omega, by dsimp only; omega, by dsimp only; omega⟩
        obtain ⟨a, b, ha, hb', hab⟩ := step
        exact ((ih a ha).tail hab (inSq hb.2 hb').1).trans (join hb.2 hb' hd)
    exact (key _ h).2 d sq

end Rqrr
