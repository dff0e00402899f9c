import Verif.Proofs.Prepare

/-!
# Images from functions
-/

namespace Rqrr

open ImageBuffer LawfulImage Spec

/-- The state of a closure after its first `k` calls, made in row-major order for an image of width `w`. -/
def Spec.callState {σ : Type} (next : σ → Nat → Nat → σ) (w : Nat) (s : σ) : Nat → σ
  | 0 => s
  | k + 1 => next (Spec.callState next w s k) (k % w) (k / w)

/-- The pixels collected after `k` calls. -/
def collected {σ : Type} (g : σ → Nat → Nat → Byte) (next : σ → Nat → Nat → σ) (w : Nat) (s : σ) (k : Nat) : Array Byte :=
  ((List.range k).map fun k => g (callState next w s k) (k % w) (k / w)).toArray

theorem collected_succ {σ : Type} (g : σ → Nat → Nat → Byte) (next : σ → Nat → Nat → σ) {w : Nat} (s : σ) {x y : Nat} (hx : x < w) :
    (collected g next w s (y * w + x)).push (g (callState next w s (y * w + x)) x y) = collected g next w s (y * w + x + 1) ∧
      next (callState next w s (y * w + x)) x y = callState next w s (y * w + x + 1) := by
  have h1 : (y * w + x) / w = y := by
    rw [Nat.mul_comm, Nat.mul_add_div (by omega), Nat.div_eq_of_lt hx]; omega
  have h2 : (y * w + x) % w = x := by rw [Nat.mul_comm, Nat.mul_add_mod, Nat.mod_eq_of_lt hx]
  constructor
  · unfold collected
    rw [List.range_succ, List.map_append, List.map_singleton, h1, h2]
    simp
  · show _ = next _ _ _
    rw [h1, h2]

theorem collect_ok {σ : Type} (g : σ → Nat → Nat → Byte) (next : σ → Nat → Nat → σ) (w h : Nat) (s : σ) :
    collect_pixels w h (fun s x y => (.ok (g s x y), next s x y)) s =
      (.ok (collected g next w s (h * w)), callState next w s (h * w)) := by
  unfold collect_pixels
  induction h with
  | zero => simp [collected, callState]
  | succ y ih =>
    rw [List.range_succ, List.foldl_append, ih, List.foldl_cons, List.foldl_nil]
    have key : ∀ x, x ≤ w → (List.range x).foldl (fun (st : Run (Array Byte) × σ) x =>
        match st with
        | (.error f, s) => (.error f, s)
        | (.ok pixels, s) =>
          match ((.ok (g s x y) : Run Byte), next s x y) with
          | (.error f, s) => (.error f, s)
          | (.ok b, s) => (.ok (pixels.push b), s)) (.ok (collected g next w s (y * w)), callState next w s (y * w)) =
        (.ok (collected g next w s (y * w + x)), callState next w s (y * w + x)) := by
      intro x
      induction x with
      | zero => intro _; rfl
      | succ x ih' =>
        intro hx
        rw [List.range_succ, List.foldl_append, ih' (by omega), List.foldl_cons, List.foldl_nil]
        dsimp only
        obtain ⟨e1, e2⟩ := collected_succ g next s (y := y) (show x < w by omega)
        rw [e1, e2]
        rfl
    rw [Nat.succ_mul]
    exact key w (Nat.le_refl _)

theorem collected_size {σ : Type} (g : σ → Nat → Nat → Byte) (next : σ → Nat → Nat → σ) (w : Nat) (s : σ) (k : Nat) :
    (collected g next w s k).size = k := by simp [collected]

theorem collected_view {σ : Type} (g : σ → Nat → Nat → Byte) (next : σ → Nat → Nat → σ) {w h : Nat} (s : σ) {x y : Nat}
    (hx : x < w) (hy : y < h) : (collected g next w s (h * w)).getD (y * w + x) 0 = g (callState next w s (y * w + x)) x y := by
  have hi : y * w + x < h * w := by rw [Nat.mul_comm h]; exact pixel_index_lt hx hy
  have h1 : (y * w + x) / w = y := by
    rw [Nat.mul_comm, Nat.mul_add_div (by omega), Nat.div_eq_of_lt hx]; omega
  have h2 : (y * w + x) % w = x := by rw [Nat.mul_comm, Nat.mul_add_mod, Nat.mod_eq_of_lt hx]
  unfold collected
  rw [Array.getD_eq_getD_getElem?]
  simp [hi, h1, h2]

theorem without_preparation_ok {S : Type} [ImageBuffer S] [LawfulImage S] {s : S} (hv : Valid s)
    (hb : ∀ x y, x < width s → y < height s → view s x y = 0 ∨ view s x y = 1) :
    PreparedImage.without_preparation s = .ok { buffer := s, cache := .new 251 } := by
  unfold PreparedImage.without_preparation
  obtain ⟨_, h, _⟩ := forRange_ok (s := ()) (f := fun y _ =>
      forRange 0 (width s) () fun x _ => do
        let p ← get_pixel s x y
        Run.assert (p.toNat < 2)) (fun _ _ => True) (Nat.zero_le (height s)) trivial (by
    intro y _ _ hy _
    obtain ⟨_, h', _⟩ := forRange_ok (s := ()) (f := fun x _ => do
        let p ← get_pixel s x y
        Run.assert (p.toNat < 2)) (fun _ _ => True) (Nat.zero_le (width s)) trivial (by
      intro x _ _ hx _
      refine ⟨(), ?_, trivial⟩
      rw [get_ok hv hx hy, Run.ok_bind]
      apply Run.assert_of
      rcases hb x y hx hy with e | e <;> rw [e] <;> decide)
    exact ⟨(), h', trivial⟩)
  rw [h]
  rfl

end Rqrr
