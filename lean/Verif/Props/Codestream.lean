import Verif.Proofs.Codestream
import Verif.Props.ReedSolomon

/-!
# C13, C53: de-interleaving and correction of all blocks of a symbol
-/

namespace Rqrr

open Spec

/-- **C13.** If the raw stream is the interleaving of the Reed-Solomon blocks `c` with at most `⌊E/2⌋` wrong codewords in
every short block and at most `⌊E/2⌋ - 1` in every long block (`E` check codewords per block), error correction succeeds
and the corrected stream consists of exactly the data codewords of the blocks in order. -/
theorem C13_deinterleave (v : Nat) (h1 : 1 ≤ v) (h40 : v ≤ 40) (l : Level) (mask : Nat) (ds : RawData)
    (c : Nat → List Byte) (hc : Blocks v l c)
    (hd : ∀ i, i < blockCount v l →
      damage v l (byteAt ds.data) c i + (if isLong v l i then 1 else 0) ≤ ecLen v l / 2) :
    ∃ cs, codestream_ecc { version := v, ecc_level := l.bits, mask := mask } ds = .ok cs ∧ cs.ptr = 0 ∧
      cs.bit_len = 8 * (dataCodewords v l c).length ∧ cs.rest = bytesBits (dataCodewords v l c) := by
  obtain ⟨cs, e1, e2, e3, e4⟩ := codestream_corrects h1 h40 l { version := v, ecc_level := l.bits, mask := mask } rfl rfl ds c hc
    (by
      intro i hi
      have := hd i hi
      cases h : isLong v l i <;> rw [h] at this <;> simp only [Bool.toNat_false, Bool.toNat_true] <;> simp at this <;> omega)
  refine ⟨cs, e1, e2, ?_, e4⟩
  have := congrArg List.length e4
  rw [cs.rest_length, bytesBits_length, e2] at this
  omega

/-- The outcome of correcting a whole symbol is a stream or `DataEcc`, whatever was received. -/
theorem C13_outcomes (v : Nat) (h1 : 1 ≤ v) (h40 : v ≤ 40) (l : Level) (mask : Nat) (ds : RawData) :
    (∃ cs c, codestream_ecc { version := v, ecc_level := l.bits, mask := mask } ds = .ok cs ∧ Blocks v l c ∧
      cs.ptr = 0 ∧ cs.rest = bytesBits (dataCodewords v l c)) ∨
    codestream_ecc { version := v, ecc_level := l.bits, mask := mask } ds = .error (.err .DataEcc) := by
  rcases codestream_cases h1 h40 l { version := v, ecc_level := l.bits, mask := mask } rfl rfl ds with
    ⟨cs, c, e1, e2, _, e4, e5⟩ | ⟨_, _, _, e⟩
  · left
    refine ⟨cs, c, e1, ?_, e2, e5⟩
    intro i hi
    obtain ⟨f1, f2, f3, f4⟩ := isoPar_facts (l := l) h1 h40 i
    obtain ⟨g1, g2⟩ := e4 i hi
    refine ⟨g2, ?_⟩
    rcases C02_rs_sound (taken v l ds.data i) (isoPar v l i) (by unfold taken; rw [gather_length]; rfl) f1 f3 f4 with
      ⟨c', k1, _, k3⟩ | k
    · rw [k1] at g1; cases g1; rw [f2] at k3; exact k3
    · rw [k] at g1; cases g1
  · exact .inr e

/-! ## C53: long blocks lose one correctable error

The program takes the last data codeword of long block `i` from position `dw * bc + i` of the sequence, but there are only
long blocks in that round, so it stands at `dw * bc + (i - ns)`. The codeword taken belongs to another long block or is an
error correction codeword. So every long block starts with one wrong codeword (unless the values happen to agree). Here is
a version 5-Q symbol (two blocks of 33 and two of 34 codewords, 18 check codewords each) with nine wrong codewords in
block 2 and no other damage. ISO error correction restores it; the program returns other data without an error. -/

/-- Block 0: data `0, ..., 0, 1`. -/
def lossBlock : List Byte := [0, 0, 0, 0, 0, 0, 0, 0, 0, 0, 0, 0, 0, 0, 1, 239, 251, 183, 113, 149, 175, 199, 215, 240, 220, 73, 82, 173, 75, 32, 67, 217, 146]

/-- What block 2 (all zero) is "corrected" to. -/
def lossWrong : List Byte := [0, 0, 0, 0, 0, 0, 0, 0, 0, 0, 0, 0, 0, 0, 0, 239, 255, 50, 199, 80, 168, 186, 120, 46, 53, 41, 129, 208, 121, 66, 172, 105, 93, 31]

/-- The received sequence. -/
def lossReceived : List Byte :=
  [0, 0, 0, 0, 0, 0, 0, 0, 0, 0, 0, 0, 0, 0, 0, 0, 0, 0, 0, 0, 0, 0, 0, 0, 0, 0, 0, 0, 0, 0, 0, 0, 0, 0, 0, 0, 0, 0, 0, 0, 0, 0, 0, 0, 0, 0, 0, 0, 0, 0, 0, 0, 0, 0, 0, 0, 1, 0, 0, 0, 0, 0, 239, 0, 255, 0, 251, 0, 50, 0, 183, 0, 199, 0, 113, 0, 80, 0, 149, 0, 168, 0, 175, 0, 186, 0, 199, 0, 120, 0, 215, 0, 46, 0, 240, 0, 53, 0, 220, 0, 0, 0, 73, 0, 0, 0, 82, 0, 0, 0, 173, 0, 0, 0, 75, 0, 0, 0, 32, 0, 0, 0, 67, 0, 0, 0, 217, 0, 0, 0, 146, 0, 0, 0]

/-- The true blocks. -/
def lossBlocks (i : Nat) : List Byte := if i = 0 then lossBlock else List.replicate (if i = 1 then 33 else 34) 0

/-- The received sequence in a buffer. -/
def lossRaw : RawData := { data := Vector.ofFn fun i => lossReceived.getD i 0, len := 1072 + 7 }

theorem lossRaw_byte (k : Nat) : byteAt lossRaw.data k = lossReceived.getD k 0 := by
  unfold byteAt lossRaw
  by_cases h : k < MAX_PAYLOAD_SIZE
  · rw [dif_pos h]; simp
  · rw [dif_neg h, List.getD_eq_default]
    have : lossReceived.length = 134 := by decide +kernel
    have : MAX_PAYLOAD_SIZE = 8896 := rfl
    omega

theorem codeword_of_fixed {r : List Byte} {ecc : RSParameters} (hr : r.length = ecc.bs)
    (hdw : ecc.dw < ecc.bs) (hnpar : ecc.bs - ecc.dw < 64) (hbs : ecc.bs ≤ 255) (h : correct_block r ecc = .ok r) :
    IsCodeword (ecc.bs - ecc.dw) r := by
  rcases C02_rs_sound r ecc hr hdw hnpar hbs with ⟨c, h1, _, h3⟩ | h'
  · rw [h] at h1; cases h1; exact h3
  · rw [h] at h'; cases h'

open Polynomial in
theorem codeword_zero (npar n : Nat) : IsCodeword npar (List.replicate n 0) := by
  have : codePoly (List.replicate n (0 : Byte)) = 0 := by
    induction n with
    | zero => rfl
    | succ n ih =>
      rw [List.replicate_succ, codePoly, ih, add_zero]
      have : (⟨0⟩ : GF256) = 0 := rfl
      rw [this, C_0, zero_mul]
  unfold IsCodeword
  rw [this]
  exact dvd_zero _

theorem lossBlock_codeword : IsCodeword 18 lossBlock :=
  codeword_of_fixed (ecc := { bs := 33, dw := 15, ns := 2 }) (by decide) (by decide) (by decide) (by decide)
    (by decide +kernel)

theorem lossWrong_codeword : IsCodeword 18 lossWrong :=
  codeword_of_fixed (ecc := { bs := 34, dw := 16, ns := 2 }) (by decide) (by decide) (by decide) (by decide)
    (by decide +kernel)

theorem lossBlocks_ok : Blocks 5 .Q lossBlocks := by
  have hbc : blockCount 5 .Q = 4 := by decide
  have he : ecLen 5 .Q = 18 := by decide
  have key : ∀ i < 4, (lossBlocks i).length = dataLen 5 .Q i + 18 := by decide +kernel
  intro i hi
  rw [hbc] at hi
  refine ⟨by rw [he]; exact key i hi, ?_⟩
  rw [he]
  unfold lossBlocks
  split
  · exact lossBlock_codeword
  · exact codeword_zero _ _

/-- The damage is nine codewords in block 2 and nothing else, ... -/
theorem loss_damage : ∀ i, i < 4 → damage 5 .Q (byteAt lossRaw.data) lossBlocks i = if i = 2 then 9 else 0 := by
  have : byteAt lossRaw.data = fun k => lossReceived.getD k 0 := funext lossRaw_byte
  rw [this]
  decide +kernel

/-- **C53.** Damage within the capacity of ISO 18004 error correction (nine codewords of a block with 18 check codewords),
yet the program reports success with wrong data. -/
theorem C53_long_blocks_lose_an_error :
    ∃ ds c, Blocks 5 .Q c ∧ (∀ i, i < blockCount 5 .Q → damage 5 .Q (byteAt ds.data) c i ≤ ecLen 5 .Q / 2) ∧
      ∃ cs, codestream_ecc { version := 5, ecc_level := Level.Q.bits, mask := 0 } ds = .ok cs ∧
        cs.rest ≠ bytesBits (dataCodewords 5 .Q c) := by
  refine ⟨lossRaw, lossBlocks, lossBlocks_ok, ?_, ?_⟩
  · have hbc : blockCount 5 .Q = 4 := by decide
    have he : ecLen 5 .Q / 2 = 9 := by decide
    intro i hi
    rw [hbc] at hi
    rw [loss_damage i hi, he]
    split <;> omega
  · have hbc : blockCount 5 .Q = 4 := by decide
    have hk : ∀ i, i < 4 → correct_block (taken 5 .Q lossRaw.data i) (isoPar 5 .Q i) =
        .ok (if i = 2 then lossWrong else lossBlocks i) := by
      intro i hi
      have ht : taken 5 .Q lossRaw.data i = (List.range (dataLen 5 .Q i)).map (fun j => lossReceived.getD (j * 4 + i) 0) ++
          (List.range 18).map (fun j => lossReceived.getD (62 + j * 4 + i) 0) := by
        have p1 : (shortLen 5 .Q - ecLen 5 .Q) * blockCount 5 .Q + longBlocks 5 .Q = 62 := by decide
        have p2 : ecLen 5 .Q = 18 := by decide
        unfold taken gather
        rw [p1, p2, hbc]
        simp only [lossRaw_byte]
      obtain ⟨f1, f2, f3, f4⟩ := isoPar_facts (v := 5) (l := .Q) (by decide) (by decide) i
      have p2 : ecLen 5 .Q = 18 := by decide
      rw [p2] at f2
      have key : ∀ i < 4, hdist ((List.range (dataLen 5 .Q i)).map (fun j => lossReceived.getD (j * 4 + i) 0) ++
          (List.range 18).map (fun j => lossReceived.getD (62 + j * 4 + i) 0)) (if i = 2 then lossWrong else lossBlocks i) =
          (if i = 2 then 9 else 0) ∧
          ((List.range (dataLen 5 .Q i)).map (fun j => lossReceived.getD (j * 4 + i) 0) ++
            (List.range 18).map (fun j => lossReceived.getD (62 + j * 4 + i) 0)).length = (isoPar 5 .Q i).bs ∧
          (if i = 2 then lossWrong else lossBlocks i).length = (isoPar 5 .Q i).bs := by decide +kernel
      obtain ⟨k1, k2, k3⟩ := key i hi
      rw [ht]
      refine C01_rs_corrects _ _ _ k3 k2 f1 f3 f4 ?_ ?_
      · rw [f2]
        by_cases h : i = 2
        · rw [if_pos h]; exact lossWrong_codeword
        · rw [if_neg h]; unfold lossBlocks; split
          · exact lossBlock_codeword
          · exact codeword_zero _ _
      · rw [f2, k1]; split <;> omega
    rcases codestream_cases (v := 5) (by decide) (by decide) .Q { version := 5, ecc_level := Level.Q.bits, mask := 0 } rfl rfl
      lossRaw with ⟨cs, c, e1, _, _, e4, e5⟩ | ⟨i, hi, h, _⟩
    · refine ⟨cs, e1, ?_⟩
      rw [e5]
      have hc : ∀ i, i < 4 → c i = if i = 2 then lossWrong else lossBlocks i := by
        intro i hi
        have := (e4 i (by rw [hbc]; exact hi)).1
        rw [hk i hi] at this
        exact (Except.ok.inj this).symm
      have hd : dataCodewords 5 .Q c = dataCodewords 5 .Q fun i => if i = 2 then lossWrong else lossBlocks i := by
        unfold dataCodewords
        rw [hbc, List.flatMap_def, List.flatMap_def]
        apply congrArg List.flatten
        apply List.map_congr_left
        intro i hi
        rw [hc i (by simpa using hi)]
      rw [hd]
      decide +kernel
    · rw [hbc] at hi
      rw [hk i hi] at h
      cases h

/-- The hypotheses of C13 are met by this symbol with eight of the nine errors. -/
example : ∃ (ds : RawData) (c : Nat → List Byte), Blocks 5 .Q c ∧ (∀ i, i < blockCount 5 .Q →
    damage 5 .Q (byteAt ds.data) c i + (if isLong 5 .Q i then 1 else 0) ≤ ecLen 5 .Q / 2) ∧
    damage 5 .Q (byteAt ds.data) c 2 = 8 := by
  let R := lossReceived.set 64 0
  let raw : RawData := { data := Vector.ofFn fun i => R.getD i 0, len := 1079 }
  have hb : byteAt raw.data = fun k => R.getD k 0 := by
    funext k
    unfold byteAt
    by_cases h : k < MAX_PAYLOAD_SIZE
    · rw [dif_pos h]; simp [raw]
    · rw [dif_neg h, List.getD_eq_default]
      have : R.length = 134 := by decide +kernel
      have : MAX_PAYLOAD_SIZE = 8896 := rfl
      omega
  refine ⟨raw, lossBlocks, lossBlocks_ok, ?_, ?_⟩
  · rw [hb]
    have : ∀ i < 4, damage 5 .Q (fun k => R.getD k 0) lossBlocks i + (if isLong 5 .Q i then 1 else 0) ≤ ecLen 5 .Q / 2 := by
      decide +kernel
    exact this
  · rw [hb]
    decide +kernel

end Rqrr
