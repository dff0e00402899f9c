import Verif.Proofs.SeveralSheet

/-!
# Symbols in a row have no false corners
-/

namespace Rqrr

open Spec

/-- The arithmetic: finder patterns at `x + a` and height `b`, where `a` and `b` are not both `L`. -/
theorem row_corners {L xA xB xC a b a' b' a'' b'' : Int} (hL : 28 ≤ L)
    (h1 : (a = 0 ∧ b = 0) ∨ (a = L ∧ b = 0) ∨ (a = 0 ∧ b = L)) (h2 : (a' = 0 ∧ b' = 0) ∨ (a' = L ∧ b' = 0) ∨ (a' = 0 ∧ b' = L))
    (h3 : (a'' = 0 ∧ b'' = 0) ∨ (a'' = L ∧ b'' = 0) ∨ (a'' = 0 ∧ b'' = L))
    (hB : xB = xA ∨ 4 * L + 12 < 3 * |xB - xA|)
    (hC : xC = xA ∨ (4 * L + 12 < 3 * |xC - xA| ∧ (8 * |xC - xA| + 24 < 15 * L ∨ 15 * L + 24 < 7 * |xC - xA|)))
    (e1 : 5 * |2 * (xB + a' - (xA + a))| ≤ |2 * (b' - b)| + 24) (e2 : 5 * |2 * (b'' - b)| ≤ |2 * (xC + a'' - (xA + a))| + 24)
    (e3 : 3 * |2 * (b' - b)| ≤ 4 * |2 * (xC + a'' - (xA + a))| + 24) (e4 : 3 * |2 * (xC + a'' - (xA + a))| ≤ 4 * |2 * (b' - b)| + 24) :
    (xB = xA ∧ xC = xA) ∨ (a = 0 ∧ b = 0 ∧ xB = xA ∧
      (8 * |2 * (b' - b)| + 48 < 7 * |2 * (xC + a'' - (xA + a))| ∨ 8 * |2 * (xC + a'' - (xA + a))| + 48 < 7 * |2 * (b' - b)|)) := by
  -- the vertical neighbour is of the same symbol and in the same column
  have hy : |2 * (b' - b)| ≤ 2 * L := by rw [abs_le]; omega
  have hBA : xB = xA := by
    rcases hB with hB | hB
    · exact hB
    · exfalso
      have : 2 * |xB - xA| - 2 * L ≤ |2 * (xB + a' - (xA + a))| := by
        rcases abs_cases (xB - xA) with h | h <;> rcases abs_cases (2 * (xB + a' - (xA + a))) with k | k <;> omega
      omega
  subst hBA
  have haa : a' = a := by
    by_contra hne
    have : 2 * L ≤ |2 * (xB + a' - (xB + a))| := by
      rcases abs_cases (2 * (xB + a' - (xB + a))) with k | k <;> omega
    omega
  subst haa
  rcases hC with hC | ⟨c1, c2⟩
  · exact .inl ⟨rfl, hC⟩
  right
  have far : |xC - xB| - L ≤ |xC + a'' - (xB + a')| := by
    rcases abs_cases (xC - xB) with h | h <;> rcases abs_cases (xC + a'' - (xB + a')) with k | k <;> omega
  have t1 : |2 * (xC + a'' - (xB + a'))| = 2 * |xC + a'' - (xB + a')| := by rw [abs_mul]; rfl
  have t2 : |2 * (b' - b)| = 2 * |b' - b| := by rw [abs_mul]; rfl
  have t3 : |2 * (b'' - b)| = 2 * |b'' - b| := by rw [abs_mul]; rfl
  rw [t1, t2] at e4 e3 ⊢
  rw [t1, t3] at e2
  rw [t2] at hy
  -- the vertical neighbour is not at the same place
  have hbb : |b' - b| = L := by
    have : b' ≠ b := by
      rintro rfl
      have : |b' - b'| = 0 := by simp
      omega
    rcases abs_cases (b' - b) with h | h <;> omega
  rw [hbb] at e3 e4 ⊢
  have hbb'' : b'' = b := by
    by_contra hne
    have : L ≤ |b'' - b| := by rcases abs_cases (b'' - b) with h | h <;> omega
    omega
  subst hbb''
  have ha : a' = 0 := by
    rcases abs_cases (b' - b'') with h | h <;> omega
  subst ha
  have hb : b'' = 0 ∧ a'' = L := by
    rcases abs_cases (xC - xB) with h | h <;> rcases abs_cases (xC + a'' - (xB + 0)) with k | k <;> omega
  refine ⟨rfl, hb.1, rfl, ?_⟩
  have : |xC + a'' - (xB + 0)| = |xC - xB| - L := by
    rcases abs_cases (xC - xB) with h | h <;> rcases abs_cases (xC + a'' - (xB + 0)) with k | k <;> omega
  rw [this]
  omega

/-- Upright finder patterns. -/
theorem finder_upright {A : Symbol} (h : A.place.right = ⟨1, 0⟩) (hs : 1 ≤ A.place.scale) (a b : Nat) :
    A.finder a b = ⟨2 * (A.place.corner.x + (a * A.place.scale : Nat)) + (7 * A.place.scale - 1 : Int),
      2 * (A.place.corner.y + (b * A.place.scale : Nat)) + (7 * A.place.scale - 1 : Int)⟩ := by
  unfold Symbol.finder Placement.pixel
  rw [h]
  dsimp only
  rw [Point.mk.injEq]
  push_cast
  constructor <;> ring

/-- Symbols in a row. -/
theorem Spec.SideBySide.noFalseCorners {v s : Nat} {y : Int} {syms : List Symbol} (h : SideBySide v s y syms) : NoFalseCorners syms := by
  intro A hA B hB C hC a b a' b' a'' b'' p1 p2 p3 hcorner
  have hside : 14 ≤ side v - 7 := by have := h.pos; unfold side; omega
  have hL : (28 : Int) ≤ ((side v - 7) * s : Nat) := by
    have := Nat.mul_le_mul hside h.scale
    exact_mod_cast this
  obtain ⟨vA, rA, sA, yA⟩ := h.same A hA
  obtain ⟨vB, rB, sB, yB⟩ := h.same B hB
  obtain ⟨vC, rC, sC, yC⟩ := h.same C hC
  have h2 := h.scale
  rw [finder_upright rA (by omega), finder_upright rB (by omega), finder_upright rC (by omega)] at hcorner ⊢
  unfold AlmostCorner at hcorner
  unfold OffSquare
  rw [vA] at p1
  rw [vB] at p2
  rw [vC] at p3
  rw [sA, sB, sC, yA, yB, yC] at hcorner ⊢
  dsimp only at hcorner ⊢
  have place : ∀ {a b : Nat}, FinderPlace (side v) a b → (((a * s : Nat) : Int) = 0 ∧ ((b * s : Nat) : Int) = 0) ∨
      (((a * s : Nat) : Int) = ((side v - 7) * s : Nat) ∧ ((b * s : Nat) : Int) = 0) ∨
      (((a * s : Nat) : Int) = 0 ∧ ((b * s : Nat) : Int) = ((side v - 7) * s : Nat)) := by
    rintro a b (⟨rfl, rfl⟩ | ⟨rfl, rfl⟩ | ⟨rfl, rfl⟩) <;> simp
  have sub : ∀ x u z t : Int, 2 * (x + u) + (7 * s - 1) - (2 * (z + t) + (7 * s - 1)) = 2 * (x + u - (z + t)) := by intros; ring
  have suby : ∀ u t : Int, 2 * (y + u) + (7 * s - 1) - (2 * (y + t) + (7 * s - 1)) = 2 * (u - t) := by intros; ring
  rw [sub, suby, suby, sub] at hcorner
  rw [suby, sub]
  obtain ⟨e1, e2, e3, e4⟩ := hcorner
  have dist : ∀ D ∈ syms, D = A ∨ AtDistance v s D A := by
    intro D hD
    by_cases e : D = A
    · exact .inl e
    · have : Std.Symm (AtDistance v s) := ⟨fun _ _ h => by unfold AtDistance at h ⊢; rw [abs_sub_comm]; exact h⟩
      exact .inr (h.apart.forall hD hA e)
  have dB : B.place.corner.x = A.place.corner.x ∨ 4 * (((side v - 7) * s : Nat) : Int) + 12 < 3 * |B.place.corner.x - A.place.corner.x| := by
    rcases dist B hB with rfl | h
    · exact .inl rfl
    · exact .inr h.2.1
  have dC : C.place.corner.x = A.place.corner.x ∨ (4 * (((side v - 7) * s : Nat) : Int) + 12 < 3 * |C.place.corner.x - A.place.corner.x| ∧
      (8 * |C.place.corner.x - A.place.corner.x| + 24 < 15 * (((side v - 7) * s : Nat) : Int) ∨
        15 * (((side v - 7) * s : Nat) : Int) + 24 < 7 * |C.place.corner.x - A.place.corner.x|)) := by
    rcases dist C hC with rfl | h
    · exact .inl rfl
    · exact .inr h.2
  have eq : ∀ D ∈ syms, D.place.corner.x = A.place.corner.x → D = A := by
    intro D hD e
    rcases dist D hD with h | h
    · exact h
    · have := h.1
      rw [e, sub_self, abs_zero] at this
      have := Int.natCast_nonneg (side v * s)
      omega
  have s0 : 0 < s := by omega
  rcases row_corners hL (place p1) (place p2) (place p3) dB dC e1 e2 e3 e4 with ⟨g1, g2⟩ | ⟨g1, g2, g3, g4⟩
  · exact .inl ⟨eq B hB g1, eq C hC g2⟩
  · right
    refine ⟨?_, ?_, .inl (eq B hB g3), g4⟩
    · have : a * s = 0 := by exact_mod_cast g1
      rcases Nat.mul_eq_zero.1 this with h | h
      · exact h
      · omega
    · have : b * s = 0 := by exact_mod_cast g2
      rcases Nat.mul_eq_zero.1 this with h | h
      · exact h
      · omega

/-- They do not touch. -/
theorem Spec.SideBySide.clear {v s : Nat} {y : Int} {syms : List Symbol} (h : SideBySide v s y syms) : syms.Pairwise Symbol.Clear := by
  refine List.Pairwise.imp_of_mem ?_ h.apart
  intro A B hA hB hd p q hp hq hc
  obtain ⟨vA, rA, sA, yA⟩ := h.same A hA
  obtain ⟨vB, rB, sB, yB⟩ := h.same B hB
  have hp' := (inDrawing_iff (.inl rA)).1 hp
  have hq' := (inDrawing_iff (.inl rB)).1 hq
  rw [rA, sA, vA] at hp'
  rw [rB, sB, vB] at hq'
  dsimp only at hp' hq'
  have := hd.1
  rcases abs_cases (A.place.corner.x - B.place.corner.x) with k | k <;> omega

end Rqrr
