import Verif.Proofs.Reserved
import Verif.Proofs.VersionTable

/-!
# C07, C09, C27: version/size conversion, reserved modules, version table
-/

namespace Rqrr

open Spec

/-! ## C07 -/

/-- **C07.** `from_size` inverts `to_size` on the versions 1 to 40. -/
theorem C07_from_to (v : Nat) (h1 : 1 ≤ v) (h40 : v ≤ 40) : Version.from_size (Version.to_size v) = .ok v := by
  have e : (v * 4 + 17 - 17) / 4 = v := by omega
  unfold Version.from_size Version.to_size
  rw [e]
  simp [h40]; omega

/-- **C07.** `from_size` succeeds exactly for sizes 21 to 180; all other sizes are `InvalidVersion`. -/
theorem C07_from_size_iff (b : Nat) :
    ((21 ≤ b ∧ b ≤ 180) → ∃ v, Version.from_size b = .ok v ∧ 1 ≤ v ∧ v ≤ 40 ∧
      Version.to_size v ≤ b ∧ b < Version.to_size (v + 1)) ∧
    (¬(21 ≤ b ∧ b ≤ 180) → Version.from_size b = .error (.err .InvalidVersion)) := by
  constructor
  · intro h
    refine ⟨(b - 17) / 4, ?_, by omega, by omega, by unfold Version.to_size; omega, by unfold Version.to_size; omega⟩
    unfold Version.from_size
    simp; omega
  · intro h
    unfold Version.from_size
    simp; omega

/-- Sizes that no QR symbol has are accepted (they are rounded down). -/
example : Version.from_size 24 = .ok 1 ∧ Version.from_size 180 = .ok 40 ∧
    Version.from_size 181 = .error (.err .InvalidVersion) := by decide

/-! ## C09 -/

/-- **C09.** For every version but 21 a module of the symbol is treated as reserved iff it belongs to an ISO function
pattern, format or version information area. -/
theorem C09_reserved_iff_function (v : Nat) (h1 : 1 ≤ v) (h40 : v ≤ 40) (h21 : v ≠ 21) (y x : Nat)
    (hy : y < side v) (hx : x < side v) : reserved_cell v y x = .ok (isFunction v y x) := by
  rw [reserved_cell_eq v (by omega) h1 y x hy hx, codeCoords_iso v (by omega) h21]
  rfl

/-- Finding: version 21 is different. Module (95, 96) is in the alignment pattern around (94, 94), but is read as
data; module (90, 92) carries data, but is skipped. -/
theorem C09_fails_for_version_21 :
    reserved_cell 21 95 96 = .ok false ∧ isFunction 21 95 96 = true ∧
    reserved_cell 21 90 92 = .ok true ∧ isFunction 21 90 92 = false := by decide +kernel

/-- **C09 for version 21**, as the code has it: the ISO patterns with last alignment coordinate 92 instead of 94. -/
theorem C09_version_21 (y x : Nat) (hy : y < side 21) (hx : x < side 21) :
    reserved_cell 21 y x = .ok (isFunctionOf [6, 28, 50, 72, 92] 21 y x) := by
  rw [reserved_cell_eq 21 (by omega) (by omega) y x hy hx, codeCoords_21.1]

/-- A reserved and an unreserved module. -/
example : isFunction 7 24 24 = true ∧ isFunction 7 25 25 = false := by decide +kernel

/-! ## C27 -/

/-- **C27.** For all 160 combinations of version and level the block structure in the table is the one of ISO 18004.
(The domain is the finite table itself.) -/
theorem C27_version_table (v : Nat) (h1 : 1 ≤ v) (h40 : v ≤ 40) (l : Level) : IsoEntry v l := isoEntry v h1 h40 l

/-- **C27.** The alignment coordinates are those of ISO 18004 except for version 21, ... -/
theorem C27_alignment (v : Nat) (h40 : v ≤ 40) (h21 : v ≠ 21) : codeCoords v = alignCoords v :=
  codeCoords_iso v (by omega) h21

/-- ... where the last coordinate is 92 instead of 94. -/
theorem C27_alignment_21_wrong : codeCoords 21 ≠ alignCoords 21 := by decide +kernel

/-- The spec's alignment table agrees with the placement rule: equal spacing from the right, last coordinate
`side - 7`. (Sanity check of the transcription.) -/
example : ∀ v < 41, v < 2 ∨ (alignCoords v).getLast? = some (side v - 7) ∧ (alignCoords v).length = v / 7 + 2 := by
  decide +kernel

/-- The spec's capacity formula agrees with the remainder bit table and the published totals. -/
example : ∀ v < 41, v = 0 ∨ dataModules v = 8 * totalCodewords v + remainderBits v := by decide +kernel
example : totalCodewords 1 = 26 ∧ totalCodewords 7 = 196 ∧ totalCodewords 40 = 3706 := by decide +kernel
example : dataLen 5 .Q 0 = 15 ∧ dataLen 5 .Q 3 = 16 ∧ longBlocks 5 .Q = 2 := by decide +kernel

end Rqrr
