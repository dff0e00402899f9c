import Verif.Proofs.AstrayTight
import Verif.Spec.Nearest

/-!
# C76: at level L no wrong module may be added to the codewords that are astray
-/

namespace Rqrr

open Spec

/-- `m` with one module changed. -/
def flipped (m : Nat → Nat → Bool) (y0 x0 y x : Nat) : Bool := if y = y0 ∧ x = x0 then !m y x else m y x

theorem quick_path (cs : List Nat) : ((zigzag 101).filter fun p => !quickFunction cs 21 p.1 p.2) = pathOf cs 21 := by
  simp only [quickFunction_eq]
  rfl

theorem first_module : (dataPath 21)[0]? = some (100, 100) := by
  have h := tight_shown_at
  rw [quick_path] at h
  exact (checkAt_get _ _ _ h _ List.mem_cons_self).2

/-- Changing the first module changes the first bit. -/
theorem flipped_carries {mask : Nat} {m : Nat → Nat → Bool} {R : Nat → Byte} (h : Carries 21 mask m R) :
    Carries 21 mask (flipped m 100 100) fun k => if k = 0 then R 0 ^^^ 0x80#8 else R k := by
  intro n p hn hp
  have := h n p hn hp
  by_cases hp0 : p = (100, 100)
  · subst hp0
    have hnd : (dataPath 21).Nodup := (zigzag_nodup _ (by decide) (by decide)).filter _
    obtain rfl : n = 0 := by
      obtain ⟨h1, e1⟩ := List.getElem?_eq_some_iff.1 hp
      obtain ⟨h2, e2⟩ := List.getElem?_eq_some_iff.1 first_module
      exact (hnd.getElem_inj_iff (hi := h1) (hj := h2)).1 (e1.trans e2.symm)
    unfold flipped
    dsimp only at this ⊢
    rw [if_pos ⟨rfl, rfl⟩, this]
    simp only [Nat.zero_div, Nat.zero_mod, if_true]
    have : (R 0 ^^^ 0x80#8).getMsbD 0 = !(R 0).getMsbD 0 := by
      rw [BitVec.getMsbD_xor]
      have : (0x80#8).getMsbD 0 = true := by decide
      rw [this, Bool.xor_true]
    rw [this]
    cases (R 0).getMsbD 0 <;> cases maskCond mask 100 100 <;> rfl
  · have hne : ¬(p.1 = 100 ∧ p.2 = 100) := fun h => hp0 (Prod.ext h.1 h.2)
    unfold flipped
    rw [if_neg hne, this]
    congr 1
    dsimp only
    by_cases h0 : n / 8 = 0
    · rw [if_pos h0, h0, BitVec.getMsbD_xor]
      have hn0 : n ≠ 0 := by
        rintro rfl
        rw [first_module] at hp
        exact hp0 (Option.some.inj hp).symm
      have hlt : n < 8 := by omega
      have key : ∀ i < 8, i ≠ 0 → (0x80#8).getMsbD (i % 8) = false := by decide
      rw [key n hlt hn0, Bool.xor_false]
    · rw [if_neg h0]

/-- What is read for the first block. -/
theorem tight_taken {m : Nat → Nat → Bool} (hR : Carries 21 1 m tightSequence)
    (hm : ∀ y x, isFunction 21 y x = true → (∀ i, i < 15 → formatPos1 i ≠ (y, x)) → m y x = blank 21 y x) {ds : RawData}
    (hh : Holds ds ((pathOf [6, 28, 50, 72, 92] 21).map (cellBit (flipped m 100 100) 1 true))) :
    taken 21 .L ds.data 0 = tightRead := by
  have hk := carries_bytes_21 (flipped_carries hR) hh
  obtain ⟨r1, r2, r3, r4⟩ := tight_rest
  have e1 : ∀ j, j < 116 → byteAt ds.data (8 * j) = tightRead.getD j 0 := by
    intro j hj
    by_cases hj0 : j = 0
    · subst hj0
      rw [hk _ (by omega) r4]
      exact r3
    cases ha : astray (8 * j)
    · rw [hk _ (by omega) ha, if_neg (by omega)]
      exact r1 j hj ha hj0
    · have hkM : 8 * j < MAX_PAYLOAD_SIZE := by
        have : MAX_PAYLOAD_SIZE = 8896 := rfl
        omega
      unfold byteAt
      rw [dif_pos hkM]
      apply BitVec.eq_of_getMsbD_eq
      intro i hi
      obtain ⟨e, he, hen⟩ := tight_covers j hj ha i hi
      obtain ⟨b1, -, b3, b4, b5⟩ := tight_bits e he
      have hb := hh.bit (8 * (8 * j) + i)
      unfold dataBit at hb
      have e3 : (8 * (8 * j) + i) / 8 = 8 * j := by omega
      have e4 : (8 * (8 * j) + i) % 8 = i := by omega
      rw [dif_pos (by omega)] at hb
      simp only [e3, e4] at hb
      have hp : (pathOf [6, 28, 50, 72, 92] 21)[8 * (8 * j) + i]? = some e.2.1 := by
        have h := tight_read_at
        rw [quick_path] at h
        have := (checkAt_get _ _ _ h (e.1, e.2.1) (List.mem_map.2 ⟨e, he, rfl⟩)).2
        rw [Nat.sub_zero] at this
        rwa [show e.1 = 8 * (8 * j) + i by omega] at this
      rw [hb, List.getD_eq_getElem?_getD, List.getElem?_map, hp]
      have hq : tightBit e = (tightRead.getD j 0).getMsbD i := by
        rw [b1, hen, show (64 * j + i) / 64 = j by omega, show (64 * j + i) % 8 = i by omega]
      rw [← hq]
      show cellBit (flipped m 100 100) 1 true e.2.1 = _
      have hne : ¬(e.2.1.1 = 100 ∧ e.2.1.2 = 100) := fun h => b3 (Prod.ext h.1 h.2)
      unfold cellBit flipped tightBit
      rw [if_neg hne]
      cases hs : e.2.2 with
      | none =>
        obtain ⟨f1, f2⟩ := b5 hs
        rw [hm _ _ f1 f2]
        dsimp only
        rw [Bool.true_and]
      | some n =>
        have h := tight_shown_at
        rw [quick_path] at h
        have hmem : (n, e.2.1) ∈ (0, (100, 100)) :: tightTable.filterMap fun e => e.2.2.map fun n => (n, e.2.1) :=
          List.mem_cons_of_mem _ (List.mem_filterMap.2 ⟨e, he, by rw [hs]; rfl⟩)
        have := (checkAt_get _ _ _ h _ hmem).2
        rw [Nat.sub_zero] at this
        have hn := b4 n hs
        rw [hR n e.2.1 (by rw [total_21]; omega) this]
        dsimp only
        cases (tightSequence (n / 8)).getMsbD (n % 8) <;> cases maskCond 1 e.2.1.1 e.2.1.2 <;> rfl
  have e2 : ∀ j, j < 28 → byteAt ds.data (932 + 8 * j) = tightRead.getD (116 + j) 0 := by
    intro j hj
    obtain ⟨g1, g2⟩ := r2 j hj
    rw [hk _ (by omega) g1, if_neg (by omega)]
    exact g2
  have p1 : (shortLen 21 .L - ecLen 21 .L) * blockCount 21 .L + longBlocks 21 .L = 932 := by decide +kernel
  have p2 : ecLen 21 .L = 28 := by decide +kernel
  have p3 : blockCount 21 .L = 8 := by decide +kernel
  have p4 : dataLen 21 .L 0 = 116 := by decide +kernel
  unfold taken gather
  rw [p1, p2, p3, p4]
  have hl : tightRead = (List.range 116).map (fun j => tightRead.getD j 0) ++ (List.range 28).map (fun j => tightRead.getD (116 + j) 0) := by
    decide +kernel
  rw [hl]
  congr 1
  · apply List.map_congr_left
    intro j hj
    rw [← e1 j (by simpa using hj)]
    congr 1
    omega
  · apply List.map_congr_left
    intro j hj
    rw [← e2 j (by simpa using hj)]
    congr 1
    omega

/-- **C76.** At level L there is nothing to spare: there is a version 21 symbol with the right function patterns and without
any damage, which is decoded to 113 letters x, but if the module in the bottom right corner is changed it is not: decoding
ends with an error or with other metadata. One wrong codeword is thus too much for a block with 28 check codewords. -/
theorem C76_nothing_to_spare : ∃ m c, Patterned 21 m ∧ Blocks 21 .L c ∧ Undamaged 21 .L 1 c formatPos1 m ∧
    isFunction 21 100 100 = false ∧
    (∀ code : BitGrid, Shows code m → code.size = side 21 →
      Grid.decode_to vecWriter code [] = (.ok { version := 21, ecc_level := 1, mask := 1 }, List.replicate 113 0x78)) ∧
    ∀ code : BitGrid, Shows code (fun y x => if y = 100 ∧ x = 100 then !m y x else m y x) → code.size = side 21 →
      (Grid.decode_to vecWriter code []).1 ≠ .ok { version := 21, ecc_level := 1, mask := 1 } := by
  obtain ⟨m, a1, a2, a3⟩ := symbol_exists (v := 21) (by omega) 1 tightSequence (formatWord (formatData .L 1) ^^^ formatMask) (blank 21)
  have hclean := format_clean m _ a2
  have hzero : ∀ i, damage 21 .L tightSequence tightBlocks i = 0 := damage_sequenceOf .L tight_blocks
  refine ⟨m, tightBlocks, Patterned.transfer (by omega) (by omega) (blank_patterned (by omega) (by omega)) a3, tight_blocks,
    ⟨⟨_, a1, fun i _ => hzero i⟩, a2⟩, by decide +kernel, ?_, ?_⟩
  · intro code h hs
    have := C76_spare h hs .L 1 (by omega) (by omega) tightSequence a1 tightBlocks tight_blocks (fun i _ => by rw [hzero]; exact Nat.zero_le _)
      [Segment.byte (List.replicate 113 0x78)] ?_ _ (ends_pad 6532) tight_data []
    · exact this
    · intro s hs
      rw [List.mem_singleton] at hs
      subst hs
      decide +kernel
  · intro code h hs
    have hf0 : wrongFormatBits formatPos1 (flipped m 100 100) (formatData .L 1) = 0 := by
      apply format_clean
      intro i hi
      have key : ∀ i < 15, ¬((formatPos1 i).1 = 100 ∧ (formatPos1 i).2 = 100) := by decide
      unfold flipped
      rw [if_neg (key i hi)]
      exact a2 i hi
    have h9 : 9 ≤ code.size := by rw [hs]; decide
    have hsz : code.size = 101 := hs
    have hF : Shows code (flipped m 100 100) := h
    have hf := C03_grid_first_copy hF (by omega) (by omega) _ (formatData_lt .L (by omega : 1 < 8)) (by omega)
    rw [hs, metaOf_symbol 21 .L 1 (by omega)] at hf
    have herr : decode_stream code = .error (.err .DataEcc) := by
      rcases get_raw_eq hF h9 true with ⟨md, ds, e1, e2, _⟩ | ⟨e, _, e2, _⟩
      · rw [hf] at e2; cases e2
        obtain ⟨_, _, hh⟩ := get_raw_path hF 21 (by omega) (by omega) hs true _ ds e1
        rw [codeCoords_21.1] at hh
        have ht := tight_taken a1 a3 hh
        have hpar : isoPar 21 .L 0 = { bs := 144, dw := 116, ns := 4 } := by
          unfold isoPar
          congr 1
        unfold decode_stream
        rw [e1, Run.ok_bind]
        dsimp only
        rcases codestream_cases (v := 21) (by omega) (by omega) .L { version := 21, ecc_level := Level.L.bits, mask := 1 } rfl rfl ds with
          ⟨cs, c, f1, f2, f3, f4, f5⟩ | ⟨_, _, _, f⟩
        · have := (f4 0 (by decide +kernel)).1
          rw [ht, hpar, tight_fails] at this
          cases this
        · rw [f]; rfl
      · rw [hf] at e2; cases e2
    have hM : Shows (MirroredGrid code) fun y x => flipped m 100 100 x y := hF.mirrored
    obtain ⟨t1, t2, t3⟩ := C64_mirrored_format hM (by show 21 ≤ code.size; omega) (by show code.size ≤ 180; omega) (formatData .L 1)
      (formatData_lt .L (by omega)) hf0
    have hmd : metaOf 101 (mistakenFormat (formatData .L 1)) ≠ { version := 21, ecc_level := 1, mask := 1 } := by decide +kernel
    show (decode vecWriter code []).1 ≠ _
    have hst : ∀ md cs, decode_stream (MirroredGrid code) = .ok (md, cs) → md = metaOf 101 (mistakenFormat (formatData .L 1)) := by
      intro md cs e
      rcases get_raw_eq hM h9 true with ⟨md', ds, e1, e2, _⟩ | ⟨f, e1, _⟩
      · rw [t3] at e2
        unfold decode_stream at e
        rw [e1, Run.ok_bind] at e
        dsimp only at e
        cases e3 : codestream_ecc md' ds with
        | error _ => rw [e3] at e; cases e
        | ok cs' =>
          rw [e3] at e
          cases e
          rw [← hsz]
          exact (Except.ok.inj e2).symm
      · unfold decode_stream at e
        rw [e1] at e
        cases e
    cases e : decode_stream (MirroredGrid code) with
    | ok r =>
      obtain ⟨md, cs⟩ := r
      rw [C23_mirrored code _ herr md cs e]
      have hne := hmd
      rw [← hst md cs e] at hne
      intro hcon
      dsimp only at hcon
      cases hp : (decode_payload vecWriter md cs []).1 with
      | error _ => rw [hp] at hcon; cases hcon
      | ok _ =>
        rw [hp] at hcon
        exact hne (Except.ok.inj hcon)
    | error f =>
      unfold decode decode_oriented
      rw [herr, e]
      cases f <;> simp

end Rqrr
