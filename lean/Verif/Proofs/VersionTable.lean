import Verif.Model.Decode
import Verif.Spec.Iso

/-!
# The version table against ISO 18004
-/

namespace Rqrr

open Spec

/-- The table entry of a version and level as ISO 18004 has it. -/
def IsoEntry (v : Nat) (l : Level) : Prop :=
  ∃ info p, VERSION_DATA_BASE[v]? = some info ∧ info.ecc[l.bits]? = some p ∧
    info.dataBytes = totalCodewords v ∧
    p.bs = shortLen v l ∧ p.bs - p.dw = ecLen v l ∧ p.dw < p.bs ∧ p.ns = blockCount v l - longBlocks v l ∧
    -- the blocks tile the symbol exactly
    p.ns * p.bs + longBlocks v l * (p.bs + 1) = info.dataBytes ∧
    (info.dataBytes - p.bs * p.ns) / (p.bs + 1) = longBlocks v l ∧
    -- bounds
    7 ≤ ecLen v l ∧ ecLen v l ≤ 30 ∧ p.bs ≤ 153 ∧ (longBlocks v l ≠ 0 → p.bs + 1 ≤ 153) ∧
    1 ≤ p.ns ∧ 1 ≤ p.dw ∧ info.dataBytes ≤ MAX_PAYLOAD_SIZE

/-- Executable form of `IsoEntry`. -/
def isoEntryB (v : Nat) (l : Level) : Bool :=
  match VERSION_DATA_BASE[v]? with
  | none => false
  | some info =>
    match info.ecc[l.bits]? with
    | none => false
    | some p =>
      info.dataBytes == totalCodewords v &&
      p.bs == shortLen v l && p.bs - p.dw == ecLen v l && decide (p.dw < p.bs) &&
      p.ns == blockCount v l - longBlocks v l &&
      p.ns * p.bs + longBlocks v l * (p.bs + 1) == info.dataBytes &&
      (info.dataBytes - p.bs * p.ns) / (p.bs + 1) == longBlocks v l &&
      decide (7 ≤ ecLen v l) && decide (ecLen v l ≤ 30) && decide (p.bs ≤ 153) &&
      (decide (longBlocks v l = 0) || decide (p.bs + 1 ≤ 153)) &&
      decide (1 ≤ p.ns) && decide (1 ≤ p.dw) && decide (info.dataBytes ≤ MAX_PAYLOAD_SIZE)

theorem isoEntry_of_B {v : Nat} {l : Level} (h : isoEntryB v l = true) : IsoEntry v l := by
  unfold isoEntryB at h
  split at h
  · exact absurd h (by decide)
  rename_i info hi
  split at h
  · exact absurd h (by decide)
  rename_i p hp
  simp only [Bool.and_eq_true, beq_iff_eq, decide_eq_true_eq, Bool.or_eq_true] at h
  refine ⟨info, p, hi, hp, ?_⟩
  obtain ⟨⟨⟨⟨⟨⟨⟨⟨⟨⟨⟨⟨⟨h1, h2⟩, h3⟩, h4⟩, h5⟩, h6⟩, h7⟩, h8⟩, h9⟩, h10⟩, h11⟩, h12⟩, h14⟩, h13⟩ := h
  exact ⟨h1, h2, h3, h4, h5, h6, h7, h8, h9, h10, fun hh => h11.resolve_left hh, h12, h14, h13⟩

/-- The whole table, checked by evaluation (the domain is the finite table itself). -/
theorem isoEntry (v : Nat) (h1 : 1 ≤ v) (h40 : v ≤ 40) (l : Level) : IsoEntry v l := by
  have h : ∀ v < 41, v = 0 ∨ (isoEntryB v .L = true ∧ isoEntryB v .M = true ∧ isoEntryB v .Q = true ∧
      isoEntryB v .H = true) := by decide +kernel
  rcases h v (by omega) with h | ⟨a, b, c, d⟩
  · omega
  · cases l <;> exact isoEntry_of_B (by assumption)


end Rqrr
