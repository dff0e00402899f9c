import Verif.Proofs.ReadData

/-!
# C03 - C06: format information
-/

namespace Rqrr

open Spec

/-- **C03.** At most three wrong bits in a format word are corrected. -/
theorem C03_format_corrects (u : Nat) (hu : u < 2 ^ 15) (d : Nat) (hd : d < 32) (h : bitDist u (formatWord d) ≤ 3) :
    correct_format u = .ok (formatWord d) := correct_format_corrects u hu d hd h

/-- **C03.** Whatever is accepted is a valid format word; otherwise the error is `FormatEcc`. -/
theorem C03_format_sound (u : Nat) (hu : u < 2 ^ 15) :
    (∃ d, d < 32 ∧ correct_format u = .ok (formatWord d)) ∨ correct_format u = .error (.err .FormatEcc) := by
  rcases correct_format_cases u hu with ⟨d, hd, h, _⟩ | h
  · exact .inl ⟨d, hd, h⟩
  · exact .inr h

/-- Bits of one format copy that differ from the (masked) format word of the data bits `d`. -/
def wrongFormatBits (pos : Nat → Nat × Nat) (m : Nat → Nat → Bool) (d : Nat) : Nat :=
  ((List.range 15).filter fun i => m (pos i).1 (pos i).2 != (formatWord d ^^^ formatMask).testBit i).length

theorem wrongFormatBits_eq (pos : Nat → Nat × Nat) (m : Nat → Nat → Bool) (d : Nat) :
    wrongFormatBits pos m d = bitDist (word15 (fun i => m (pos i).1 (pos i).2) ^^^ formatMask) (formatWord d) := by
  unfold wrongFormatBits bitDist
  congr 1
  apply List.filter_congr
  intro i hi
  rw [Nat.testBit_xor, Nat.testBit_xor, word15_testBit _ _ (by simpa using hi)]
  cases m (pos i).1 (pos i).2 <;> cases (formatWord d).testBit i <;> cases formatMask.testBit i <;> rfl

theorem copy_lt (f : Nat → Bool) : word15 f ^^^ formatMask < 2 ^ 15 := Nat.xor_lt_two_pow (word15_lt _) (by decide)

/-- The metadata that the data bits `d` of a format word stand for, in a grid with `n` modules per side. -/
def metaOf (n d : Nat) : MetaData := { version := (n - 17) / 4, ecc_level := d / 8, mask := d % 8 }

/-- **C03/C04, grid level.** If the first copy in a grid of size 21 to 180 has at most three wrong bits, that copy
determines the metadata. -/
theorem C03_grid_first_copy {code : BitGrid} {m : Nat → Nat → Bool} (h : Shows code m) (h21 : 21 ≤ code.size)
    (h180 : code.size ≤ 180) (d : Nat) (hd : d < 32) (hw : wrongFormatBits formatPos1 m d ≤ 3) :
    read_format code = .ok (metaOf code.size d) := by
  rw [read_format_eq h (by omega)]
  rw [wrongFormatBits_eq] at hw
  unfold copy1
  rw [correct_format_corrects _ (copy_lt _) d hd hw]
  show mdOf _ _ = _
  rw [mdOf_formatWord _ _ hd, if_pos ⟨h21, h180⟩]
  rfl

/-- **C04.** If the first copy is not correctable, the second counts. -/
theorem C04_grid_second_copy {code : BitGrid} {m : Nat → Nat → Bool} (h : Shows code m) (h21 : 21 ≤ code.size)
    (h180 : code.size ≤ 180) (e : Fault) (h1 : correct_format (copy1 m ^^^ formatMask) = .error e) (d : Nat) (hd : d < 32)
    (hw : wrongFormatBits (formatPos2 code.size) m d ≤ 3) :
    read_format code = .ok (metaOf code.size d) := by
  rw [read_format_eq h (by omega), h1]
  rw [wrongFormatBits_eq] at hw
  unfold copy2
  dsimp only
  rw [correct_format_corrects _ (copy_lt _) d hd hw]
  show mdOf _ _ = _
  rw [mdOf_formatWord _ _ hd, if_pos ⟨h21, h180⟩]
  rfl

/-- A format copy is correctable. -/
def Correctable (w : Nat) : Prop := ∃ c, correct_format (w ^^^ formatMask) = .ok c

/-- **C04.** `FormatEcc` exactly if neither copy is correctable; `InvalidVersion` exactly if one is, but the size is
out of range; success otherwise. -/
theorem C04_format_outcome {code : BitGrid} {m : Nat → Nat → Bool} (h : Shows code m) (h9 : 9 ≤ code.size) :
    (read_format code = .error (.err .FormatEcc) ↔ ¬ Correctable (copy1 m) ∧ ¬ Correctable (copy2 code.size m)) ∧
    (read_format code = .error (.err .InvalidVersion) ↔
      (Correctable (copy1 m) ∨ Correctable (copy2 code.size m)) ∧ ¬ (21 ≤ code.size ∧ code.size ≤ 180)) ∧
    ((∃ md, read_format code = .ok md) ↔
      (Correctable (copy1 m) ∨ Correctable (copy2 code.size m)) ∧ 21 ≤ code.size ∧ code.size ≤ 180) := by
  rw [read_format_eq h h9]
  unfold Correctable
  have c1 := correct_format_cases (copy1 m ^^^ formatMask) (copy_lt _)
  have c2 := correct_format_cases (copy2 code.size m ^^^ formatMask) (copy_lt _)
  by_cases hs : 21 ≤ code.size ∧ code.size ≤ 180
  · rcases c1 with ⟨d, hd, h1, _⟩ | h1
    · rw [h1]; dsimp only
      rw [mdOf_formatWord _ _ hd, if_pos hs]
      simp [hs]
    · rw [h1]; dsimp only
      rcases c2 with ⟨d, hd, h2, _⟩ | h2
      · rw [h2]; dsimp only
        rw [mdOf_formatWord _ _ hd, if_pos hs]
        simp [hs]
      · rw [h2]; simp
  · rcases c1 with ⟨d, hd, h1, _⟩ | h1
    · rw [h1]; dsimp only
      rw [mdOf_formatWord _ _ hd, if_neg hs]
      simp [hs]
    · rw [h1]; dsimp only
      rcases c2 with ⟨d, hd, h2, _⟩ | h2
      · rw [h2]; dsimp only
        rw [mdOf_formatWord _ _ hd, if_neg hs]
        simp [hs]
      · rw [h2]; simp

/-- **C05.** A corrected format word is a nearest one. -/
theorem C05_format_nearest (u w : Nat) (hu : u < 2 ^ 15) (h : correct_format u = .ok w) (d : Nat) (hd : d < 32) :
    bitDist u w ≤ bitDist u (formatWord d) := by
  rcases correct_format_cases u hu with ⟨d', hd', h1, h2⟩ | h'
  · rw [h1] at h; cases h; exact h2 d hd
  · rw [h'] at h; cases h

/-- **C05.** Words with four or five wrong bits are sometimes accepted. -/
theorem C05_accepts_distance_4_5 :
    correct_format 421 = .ok 7045 ∧ bitDist 421 7045 = 4 ∧ correct_format 465 = .ok 18677 ∧ bitDist 465 18677 = 5 := by
  decide +kernel

/-- Valid format words differ from each other in at least seven bits, so three errors are the best possible
guarantee. -/
theorem C05_format_min_distance (d d' : Nat) (hd : d < 32) (hd' : d' < 32) (h : d ≠ d') :
    7 ≤ bitDist (formatWord d) (formatWord d') := by
  have : ∀ d < 32, ∀ d' < 32, d ≠ d' → 7 ≤ bitDist (formatWord d) (formatWord d') := by decide +kernel
  exact this d hd d' hd' h

/-- **C06.** Reported metadata is in range and fits the grid. -/
theorem C06_metadata_range {code : BitGrid} {m : Nat → Nat → Bool} (h : Shows code m) (h9 : 9 ≤ code.size) (rm : Bool)
    (md : MetaData) (ds : RawData) (hr : get_raw code rm = .ok (md, ds)) :
    md.version = (code.size - 17) / 4 ∧ 1 ≤ md.version ∧ md.version ≤ 40 ∧ md.ecc_level ≤ 3 ∧ md.mask ≤ 7 := by
  rcases get_raw_eq h h9 rm with ⟨md', ds', h1, _, _, _, h5, h6, h7, h8, h10, _⟩ | ⟨e, h1, _⟩
  · rw [h1] at hr; cases hr; exact ⟨h5, h6, h7, by omega, by omega⟩
  · rw [h1] at hr; cases hr

/-- The published format word of level M, mask 5 (ISO 18004, 7.9.1): 100000011001110 after masking. -/
example : formatWord 0b00101 ^^^ formatMask = 0b100000011001110 := by decide

/-- Three wrong bits in it are corrected. -/
example : correct_format (0b100000011001110 ^^^ formatMask ^^^ 0b100100000000001) = .ok (formatWord 0b00101) :=
  C03_format_corrects _ (by decide) _ (by decide) (by decide)

end Rqrr
