import Verif.Proofs.Codestream

/-!
# C01, C02, C52: Reed-Solomon error correction of a block
-/

namespace Rqrr

open Spec

/-- **C01.** A block that differs from a codeword in at most half as many positions as it has check symbols is
restored exactly. -/
theorem C01_rs_corrects (c r : List Byte) (ecc : RSParameters) (hc : c.length = ecc.bs) (hr : r.length = ecc.bs)
    (hdw : ecc.dw < ecc.bs) (hnpar : ecc.bs - ecc.dw < 64) (hbs : ecc.bs ≤ 255)
    (hcw : IsCodeword (ecc.bs - ecc.dw) c) (hd : hdist r c ≤ (ecc.bs - ecc.dw) / 2) :
    correct_block r ecc = .ok c :=
  correct_block_corrects c r ecc hc hr hdw hnpar hbs hcw (by omega)

/-- **C01** for the short blocks (`long = 0`) and long blocks (`long = 1`) of every version and level: the parameters
the program uses are those of ISO 18004, and up to `ecLen / 2` wrong codewords are corrected. -/
theorem C01_every_symbol (v : Nat) (h1 : 1 ≤ v) (h40 : v ≤ 40) (lev : Level) (long : Nat) (hlong : long ≤ 1) :
    ∃ info p, VERSION_DATA_BASE[v]? = some info ∧ info.ecc[lev.bits]? = some p ∧
      ∀ c r : List Byte, c.length = shortLen v lev + long → r.length = shortLen v lev + long →
        IsCodeword (ecLen v lev) c → hdist r c ≤ ecLen v lev / 2 →
        correct_block r { bs := p.bs + long, dw := p.dw + long, ns := p.ns } = .ok c := by
  obtain ⟨info, p, e1, e2, e3, e4, e5, e6, e7, e8, e9, e10, e11, e12, e13, e14, e15, e16⟩ := isoEntry v h1 h40 lev
  refine ⟨info, p, e1, e2, ?_⟩
  intro c r hc hr hcw hd
  have e : p.bs + long - (p.dw + long) = ecLen v lev := by omega
  refine correct_block_corrects c r _ ?_ ?_ ?_ ?_ ?_ ?_ ?_
  all_goals dsimp only
  · omega
  · omega
  · omega
  · omega
  · omega
  · rw [e]; exact hcw
  · omega

/-- **C02.** Outcomes of error correction of one block: a codeword, or `DataEcc`; never a panic. -/
theorem C02_rs_sound (r : List Byte) (ecc : RSParameters) (hr : r.length = ecc.bs)
    (hdw : ecc.dw < ecc.bs) (hnpar : ecc.bs - ecc.dw < 64) (hbs : ecc.bs ≤ 255) :
    (∃ c, correct_block r ecc = .ok c ∧ c.length = r.length ∧ IsCodeword (ecc.bs - ecc.dw) c) ∨
    correct_block r ecc = .error (.err .DataEcc) := by
  rcases correct_block_cases r ecc hr hdw hnpar hbs with ⟨c, h1, h2, h3, _⟩ | h
  · exact .inl ⟨c, h1, h2, h3⟩
  · exact .inr h

/-- **C02.** Codewords are left unchanged. -/
theorem C02_rs_codeword_unchanged (r : List Byte) (ecc : RSParameters) (hr : r.length = ecc.bs)
    (hdw : ecc.dw < ecc.bs) (hnpar : ecc.bs - ecc.dw < 64) (hbs : ecc.bs ≤ 255)
    (hcw : IsCodeword (ecc.bs - ecc.dw) r) : correct_block r ecc = .ok r :=
  correct_block_codeword r ecc hr hdw hnpar hbs hcw

/-- **C52.** Whenever correction succeeds the result is a nearest codeword; no codeword of the same length is closer to
what was received. -/
theorem C52_rs_nearest (r c : List Byte) (ecc : RSParameters) (hr : r.length = ecc.bs)
    (hdw : ecc.dw < ecc.bs) (hnpar : ecc.bs - ecc.dw < 64) (hbs : ecc.bs ≤ 255) (h : correct_block r ecc = .ok c)
    (c' : List Byte) (hl : c'.length = r.length) (hc' : IsCodeword (ecc.bs - ecc.dw) c') : hdist r c ≤ hdist r c' := by
  rcases correct_block_cases r ecc hr hdw hnpar hbs with ⟨c₁, h1, h2, h3, h4⟩ | h'
  · rw [h1] at h; cases h; exact h4 c' hl hc'
  · rw [h'] at h; cases h

/-! ### A concrete block

The worked example of ISO 18004 Annex I: "01234567" as a version 1-M symbol, 16 data and 10 check codewords. -/

/-- Its block. -/
def annexBlock : List Byte :=
  [0x10, 0x20, 0x0C, 0x56, 0x61, 0x80, 0xEC, 0x11, 0xEC, 0x11, 0xEC, 0x11, 0xEC, 0x11, 0xEC, 0x11,
   0xA5, 0x24, 0xD4, 0xC1, 0xED, 0x36, 0xC7, 0x87, 0x2C, 0x55]

/-- The same with five wrong codewords. -/
def annexDamaged : List Byte :=
  [0x10, 0xFF, 0x0C, 0x56, 0x61, 0x80, 0xEC, 0x00, 0xEC, 0x11, 0xEC, 0x11, 0xEC, 0x10, 0xEC, 0x11,
   0xA5, 0x24, 0xD4, 0xC1, 0xED, 0x3F, 0xC7, 0x87, 0x2C, 0x54]

/-- The published check codewords do form a codeword with the data. -/
theorem annexBlock_codeword : IsCodeword 10 annexBlock := by
  have h : correct_block annexBlock { bs := 26, dw := 16, ns := 1 } = .ok annexBlock := by decide +kernel
  rcases C02_rs_sound annexBlock { bs := 26, dw := 16, ns := 1 } rfl (by decide) (by decide) (by decide) with
    ⟨c, h1, _, h3⟩ | h'
  · rw [h] at h1; cases h1; exact h3
  · rw [h] at h'; cases h'

/-- The hypotheses of C01 are met by five errors in the example block. -/
example : correct_block annexDamaged { bs := 26, dw := 16, ns := 1 } = .ok annexBlock :=
  C01_rs_corrects annexBlock annexDamaged _ rfl rfl (by decide) (by decide) (by decide) annexBlock_codeword (by decide)

example : hdist annexDamaged annexBlock = 5 := by decide

end Rqrr
