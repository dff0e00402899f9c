import Verif.Proofs.DottedSheet
import Verif.Props.Several

/-!
# C67: symbols drawn with dots
-/

namespace Rqrr

open Spec ImageBuffer

variable (F : Type) [FloatOps F] [Rounding F]

variable {S : Type} [ImageBuffer S] [LawfulImage S] {img0 : PreparedImage S} {v : Nat} {M : Nat → Nat → Bool} {P : Placement} {syms : List Symbol}

/-- **C67.** In a symbol drawn with dots nothing looks like a finder pattern but the finder patterns, whatever the data modules are and
whatever else is in the image. -/
theorem C67_nothing_mistaken (h1 : 1 ≤ v) (hv : v ≤ 40) (hD : Dotted img0 (side v) M P) (hM : Patterned v M) {y x : Nat} {pos : LinePosition}
    (hf : FinderShape img0 y x pos) (hr : RingAndStone img0 y pos) (hin : InDrawing (side v) P (pos.right, y)) :
    InFinders (side v) P (pos.right, y) :=
  dotted_local h1 hv hD hM hf hr hin

/-- **C67.** A symbol drawn with dots, of any version but 21 and with any data modules, is the only one detected, and each of its modules
reads as drawn; provided that nothing outside the drawing looks like a finder pattern. -/
theorem C67_detected (h0 : Fresh img0) (hw : width img0.buffer ≤ 32768) (hh : height img0.buffer ≤ 32768) (h1 : 1 ≤ v) (hv : v ≤ 40) (h21 : v ≠ 21)
    (hD : Dotted img0 (side v) M P) (hM : Patterned v M) (hI : P.InRange (side v))
    (hO : ∀ y x pos, FinderShape img0 y x pos → RingAndStone img0 y pos → InDrawing (side v) P (pos.right, y)) :
    ∃ img g, img0.detect_grids F = .ok (img, [g]) ∧ ReadsAs F img ⟨v, M, P⟩ g :=
  C57_detected F h0 hw hh h1 hv h21 hD.renders hM hI fun y x pos hf hr => dotted_local h1 hv hD hM hf hr (hO y x pos hf hr)

/-- **C67.** A bitmap of symbols drawn with dots that do not touch each other: exactly these are detected, each once, and each module of each
of them reads as drawn. -/
theorem C67_bitmap {w h : Nat} (hw : w ≤ 32768) (hh : h ≤ 32768) (hpos : 0 < w) (hA : ArrangedDots w h syms) :
    ∃ img0, PreparedImage.prepare_from_bitmap w h (fun _ x y => (dotSheet syms x y, ())) () = (.ok img0, ()) ∧
      ∀ (F : Type) [FloatOps F] [Rounding F], ∃ img grids order, img0.detect_grids F = .ok (img, grids) ∧ order.Perm syms ∧
        List.Forall₂ (ReadsAs F img) order grids := by
  have hsize : w * h < 2 ^ 64 := by
    have : w * h ≤ 32768 * 32768 := Nat.mul_le_mul hw hh
    omega
  obtain ⟨img0, e, h0, ew, eh, ev⟩ := C34_from_bitmap w h (fun _ x y => (dotSheet syms x y, ())) () hsize
  exact ⟨img0, e, fun F _ _ => C65_detected F h0 (by omega) (by omega) (by omega) (several_dots hA ew eh ev)⟩

/-- **C67.** From bitmap to text, without any condition on the message: every message that fits into a symbol of any version but 21 has a
matrix, such that every drawing with dots of it, in any of the four orientations, with at least four pixels per module, has exactly one grid,
and that decodes to the message. -/
theorem C67_message : ∃ matrix : Message → Nat → Nat → Bool, (∀ m : Message, m.Fits → Patterned m.version (matrix m)) ∧
    ∀ (m : Message) (w h : Nat) (P : Placement), m.Fits → w ≤ 32768 → h ≤ 32768 → P.Fits w h (side m.version) → 4 ≤ P.scale →
      P.InRange (side m.version) →
      ∃ img0, PreparedImage.prepare_from_bitmap w h (fun _ x y => (P.dots (side m.version) (matrix m) x y, ())) () = (.ok img0, ()) ∧
        ∀ (F : Type) [FloatOps F] [Rounding F], ∃ img g, img0.detect_grids F = .ok (img, [g]) ∧ ∀ out,
          Grid.decode_to vecWriter (RefGridImage g.location img) out =
            (.ok { version := m.version, ecc_level := m.level.bits, mask := m.mask }, out ++ m.segments.flatMap (·.payload)) := by
  obtain ⟨matrix, hmat⟩ := message_matrix
  refine ⟨matrix, fun m hm => (hmat m hm).1, fun m w h P hm hw hh hF hs hI => ?_⟩
  have hsize : w * h < 2 ^ 64 := by
    have : w * h ≤ 32768 * 32768 := Nat.mul_le_mul hw hh
    omega
  obtain ⟨img0, e, h0, ew, eh, ev⟩ := C34_from_bitmap w h (fun _ x y => (P.dots (side m.version) (matrix m) x y, ())) () hsize
  refine ⟨img0, e, fun F _ _ => ?_⟩
  obtain ⟨hD, hcov⟩ := dots_bitmap (syms := [⟨m.version, matrix m, P⟩]) (by simpa using hF) (by simpa using hs) (List.pairwise_singleton _ _) ew eh
    (fun x y hx hy => (ev x y hx hy).trans (by simp [dotSheet]))
  obtain ⟨img, g, d, d1, d2, -⟩ := C67_detected F h0 (by omega) (by omega) hm.pos hm.le hm.ne (hD _ (List.mem_singleton_self _)) (hmat m hm).1 hI
    (fun y x pos _ hr => by
      obtain ⟨A, hA, hc⟩ := hcov _ hr.joined.1
      rw [List.mem_singleton] at hA
      subst hA
      exact hc)
  have s1 : (RefGridImage g.location img).size = side m.version := d1
  exact ⟨img, g, d, (hmat m hm).2 _ (fun y x hy hx => d2 y x (s1 ▸ hy) (s1 ▸ hx)) s1⟩

/-- **C67.** Several messages in one bitmap, drawn with dots: no condition on the messages, only on the places. -/
theorem C67_messages : ∃ matrix : Message → Nat → Nat → Bool, (∀ m : Message, m.Fits → Patterned m.version (matrix m)) ∧
    ∀ (w h : Nat) (items : List (Message × Placement)), w ≤ 32768 → h ≤ 32768 → 0 < w → (∀ i ∈ items, i.1.Fits) →
      (∀ i ∈ items, i.2.Fits w h (side i.1.version)) → (∀ i ∈ items, 4 ≤ i.2.scale) → (∀ i ∈ items, i.2.InRange (side i.1.version)) →
      (items.map fun i => (⟨i.1.version, matrix i.1, i.2⟩ : Symbol)).Pairwise Symbol.Clear →
      NoFalseCorners (items.map fun i => ⟨i.1.version, matrix i.1, i.2⟩) →
      ∃ img0, PreparedImage.prepare_from_bitmap w h
          (fun _ x y => (dotSheet (items.map fun i => ⟨i.1.version, matrix i.1, i.2⟩) x y, ())) () = (.ok img0, ()) ∧
        ∀ (F : Type) [FloatOps F] [Rounding F], ∃ img grids order, img0.detect_grids F = .ok (img, grids) ∧ order.Perm items ∧
          List.Forall₂ (fun i g => ∀ out, Grid.decode_to vecWriter (RefGridImage g.location img) out =
            (.ok { version := i.1.version, ecc_level := i.1.level.bits, mask := i.1.mask }, out ++ i.1.segments.flatMap (·.payload)))
            order grids := by
  obtain ⟨matrix, hmat⟩ := message_matrix
  refine ⟨matrix, fun m hm => (hmat m hm).1, fun w h items hw hh hpos hfits h1 h2 h3 h4 h5 => ?_⟩
  have hA : ArrangedDots w h (items.map fun i => ⟨i.1.version, matrix i.1, i.2⟩) := by
    refine ⟨?_, ?_, ?_, ?_, ?_, ?_, ?_, h4, h5⟩ <;> intro A hA <;> obtain ⟨i, hi, rfl⟩ := List.mem_map.1 hA
    · exact (hfits i hi).pos
    · exact (hfits i hi).le
    · exact (hfits i hi).ne
    · exact h1 i hi
    · exact h2 i hi
    · exact (hmat _ (hfits i hi)).1
    · exact h3 i hi
  obtain ⟨img0, e, h⟩ := C67_bitmap hw hh hpos hA
  refine ⟨img0, e, fun F _ _ => ?_⟩
  obtain ⟨img, grids, order, d, hp, hg⟩ := h F
  obtain ⟨order', p1, p2⟩ := messages_read hmat hfits hp hg
  exact ⟨img, grids, order', d, p1, p2⟩

/-- The message `hi` in a version 7-H symbol with mask 3. -/
def hiMessage : Message := ⟨7, .H, 3, [.byte [0x68, 0x69]]⟩

theorem hiMessage_fits : hiMessage.Fits := by
  refine ⟨by decide, by decide, by decide, by decide, ?_, by decide⟩
  intro s hs
  simp only [hiMessage, List.mem_singleton] at hs
  subst hs
  decide

/-- For instance, with five pixels per module and turned by a quarter turn, it is found and read. -/
example : ∃ (matrix : Nat → Nat → Bool) (img0 : _),
    PreparedImage.prepare_from_bitmap 300 250 (fun _ x y => ((⟨⟨260, 11⟩, ⟨0, 1⟩, 5⟩ : Placement).dots 45 matrix x y, ())) () = (.ok img0, ()) ∧
    ∃ img g, img0.detect_grids F64 = .ok (img, [g]) ∧ ∀ out, Grid.decode_to vecWriter (RefGridImage g.location img) out =
      (.ok { version := 7, ecc_level := 2, mask := 3 }, out ++ [0x68, 0x69]) := by
  obtain ⟨matrix, -, h⟩ := C67_message
  obtain ⟨img0, e, h⟩ := h hiMessage 300 250 ⟨⟨260, 11⟩, ⟨0, 1⟩, 5⟩ hiMessage_fits (by norm_num) (by norm_num)
    ⟨.inr (.inl rfl), by decide, by decide, by decide⟩ (by decide) ⟨by decide, by decide⟩
  obtain ⟨img, g, d, hg⟩ := h F64
  exact ⟨_, img0, e, img, g, d, hg⟩

end Rqrr
