import Verif.Proofs.EndToEnd
import Verif.Props.Decode
import Verif.Spec.Nearest
import Mathlib.Data.List.Nodup

/-!
# Soundness of correction for whole symbols
-/

namespace Rqrr

open Spec

theorem layout_nodup (v : Nat) (l : Level) : (layout v l).Nodup := by
  unfold layout
  rw [List.nodup_append]
  refine ⟨?_, ?_, ?_⟩
  · rw [List.nodup_flatMap]
    refine ⟨fun j _ => ?_, ?_⟩
    · refine List.Nodup.map ?_ (List.nodup_range.filter _)
      intro a b h
      exact (Prod.mk.inj h).1
    · refine List.Pairwise.imp_of_mem ?_ List.nodup_range
      intro a b _ _ hab p hp hq
      rw [List.mem_map] at hp hq
      obtain ⟨_, _, rfl⟩ := hp
      obtain ⟨_, _, h⟩ := hq
      exact hab (Prod.mk.inj h).2.symm
  · rw [List.nodup_flatMap]
    refine ⟨fun j _ => ?_, ?_⟩
    · refine List.Nodup.map ?_ List.nodup_range
      intro a b h
      exact (Prod.mk.inj h).1
    · refine List.Pairwise.imp_of_mem ?_ List.nodup_range
      intro a b _ _ hab p hp hq
      rw [List.mem_map] at hp hq
      obtain ⟨i, _, rfl⟩ := hp
      obtain ⟨i', _, h⟩ := hq
      obtain ⟨rfl, h2⟩ := Prod.mk.inj h
      omega
  · intro p hp q hq heq
    subst heq
    rw [List.mem_flatMap] at hp hq
    obtain ⟨j, _, hp⟩ := hp
    obtain ⟨j', _, hq⟩ := hq
    rw [List.mem_map] at hp hq
    obtain ⟨i, hi, rfl⟩ := hp
    obtain ⟨i', _, h⟩ := hq
    obtain ⟨rfl, h2⟩ := Prod.mk.inj h
    have := of_decide_eq_true (List.mem_filter.1 hi).2
    omega

theorem layout_mem_lt {v : Nat} {l : Level} {p b k : Nat} (hp : (layout v l)[p]? = some (b, k)) :
    b < blockCount v l ∧ k < dataLen v l b + ecLen v l := by
  have hmem := List.mem_of_getElem? hp
  unfold layout at hmem
  rw [List.mem_append, List.mem_flatMap, List.mem_flatMap] at hmem
  rcases hmem with ⟨j, hj, hm⟩ | ⟨j, hj, hm⟩
  · rw [List.mem_map] at hm
    obtain ⟨i', hi', he⟩ := hm
    cases he
    rw [List.mem_filter] at hi'
    have a := List.mem_range.1 hi'.1
    have b := of_decide_eq_true hi'.2
    exact ⟨a, by omega⟩
  · rw [List.mem_map] at hm
    obtain ⟨i', hi', he⟩ := hm
    cases he
    have a := List.mem_range.1 hi'
    have b := List.mem_range.1 hj
    exact ⟨a, by omega⟩

/-- Converse of `hdist_gather`: damaged codewords of a block are among those taken for it, but for the misplaced one. -/
theorem damage_gather {N : Nat} {v : Nat} {l : Level} (s : Sizes v l) (d : Vector Byte N) (c : Nat → List Byte)
    (i : Nat) (hi : i < blockCount v l) (hlen : (c i).length = dataLen v l i + ecLen v l) :
    damage v l (byteAt d) c i ≤ hdist (taken v l d i) (c i) + (isLong v l i).toNat := by
  unfold taken
  rw [hdist_eq_card' (by rw [gather_length, hlen]), gather_length]
  set G := gather d (blockCount v l) ((shortLen v l - ecLen v l) * blockCount v l + longBlocks v l) (dataLen v l i)
      (ecLen v l) i with hG
  have hpos : ∀ k, k < dataLen v l i + ecLen v l → (isLong v l i = true → k ≠ shortLen v l - ecLen v l) →
      G[k]? = some (byteAt d (isoPos v l i k)) := by
    intro k hk hns
    rw [hG, gather_getElem? _ _ _ _ _ _ _ hk]
    congr 2
    unfold isoPos
    by_cases hk1 : k < shortLen v l - ecLen v l
    · rw [if_pos hk1, if_pos (by unfold dataLen; omega)]
    · rw [if_neg hk1]
      by_cases hk2 : k < dataLen v l i
      · exfalso
        have hlong : ¬ i < blockCount v l - longBlocks v l := by
          intro h; unfold dataLen at hk2; rw [if_pos h] at hk2; omega
        have hks : k = shortLen v l - ecLen v l := by
          unfold dataLen at hk2; rw [if_neg hlong] at hk2; omega
        exact hns (by unfold isLong; simp; omega) hks
      · rw [if_neg hk2, if_neg hk2]
  let A := (Finset.range (dataLen v l i + ecLen v l)).filter fun k => G[k]? ≠ (c i)[k]?
  let B := if isLong v l i then insert (shortLen v l - ecLen v l) A else A
  have hBA : B.card ≤ A.card + (isLong v l i).toNat := by
    simp only [B]
    cases isLong v l i
    · simp
    · simpa using Finset.card_insert_le _ _
  refine le_trans ?_ hBA
  have hAB : A ⊆ B := by
    simp only [B]
    split
    · exact Finset.subset_insert _ _
    · exact Finset.Subset.refl _
  have himg : ((Finset.range (totalCodewords v)).filter fun p => wrongAt v l (byteAt d) c i p) ⊆ B.image (isoPos v l i) := by
    intro p hp
    rw [Finset.mem_filter] at hp
    obtain ⟨_, hp⟩ := hp
    unfold wrongAt at hp
    cases hlp : (layout v l)[p]? with
    | none => rw [hlp] at hp; simp at hp
    | some bk =>
      obtain ⟨b, k⟩ := bk
      rw [hlp] at hp
      simp only [Bool.and_eq_true, beq_iff_eq, bne_iff_ne, ne_eq] at hp
      obtain ⟨rfl, hne⟩ := hp
      obtain ⟨_, hk⟩ := layout_mem_lt hlp
      have hpk : p = isoPos v l b k := by
        have h2 := layout_isoPos s b k hi hk
        obtain ⟨q1, q2⟩ := List.getElem?_eq_some_iff.1 hlp
        obtain ⟨q3, q4⟩ := List.getElem?_eq_some_iff.1 h2
        exact (layout_nodup v l).getElem_inj_iff.1 (q2.trans q4.symm)
      rw [Finset.mem_image]
      refine ⟨k, ?_, hpk.symm⟩
      by_cases hl : isLong v l b = true ∧ k = shortLen v l - ecLen v l
      · simp only [B, hl.1, if_true]
        rw [hl.2]
        exact Finset.mem_insert_self _ _
      · apply hAB
        simp only [A, Finset.mem_filter, Finset.mem_range]
        refine ⟨hk, ?_⟩
        rw [hpos k hk (fun h1 h2 => hl ⟨h1, h2⟩), ← hpk]
        exact fun h => hne h.symm
  exact (Finset.card_le_card himg).trans Finset.card_image_le

/-- A raw read is the sequence of codewords that the symbol carries. -/
theorem bytes_carried {v mask : Nat} (h1 : 1 ≤ v) (h40 : v ≤ 40) {m : Nat → Nat → Bool} {ds : RawData}
    (hh : Holds ds ((dataPath v).map (cellBit m mask true))) : Carries v mask m (byteAt ds.data) := by
  intro n p hn hp
  have hc : ∀ v < 41, v = 0 ∨ totalCodewords v ≤ 8896 := by decide +kernel
  have htot : totalCodewords v ≤ MAX_PAYLOAD_SIZE := by
    rcases hc v (by omega) with h | h
    · omega
    · exact h
  have hk : n / 8 < MAX_PAYLOAD_SIZE := by omega
  have hb := hh.bit n
  unfold dataBit at hb
  rw [dif_pos hk] at hb
  unfold byteAt
  rw [dif_pos hk, hb]
  obtain ⟨hlt, he⟩ := List.getElem?_eq_some_iff.1 hp
  rw [List.getD_eq_getElem _ _ (by simpa using hlt), List.getElem_map, he]
  unfold cellBit
  cases m p.1 p.2 <;> cases maskCond mask p.1 p.2 <;> rfl

/-- The format data bits `d` are nearest to one of the copies in `m`, and to the first if it has at most three wrong
bits. -/
theorem format_nearest {code : BitGrid} {m : Nat → Nat → Bool} (h : Shows code m) (h9 : 9 ≤ code.size) {md : MetaData}
    (hf : read_format code = .ok md) :
    ∃ d, d < 32 ∧ md = metaOf code.size d ∧
      ((∀ d', d' < 32 → wrongFormatBits formatPos1 m d ≤ wrongFormatBits formatPos1 m d') ∨
        (∀ d', d' < 32 → 3 < wrongFormatBits formatPos1 m d') ∧
        ∀ d', d' < 32 → wrongFormatBits (formatPos2 code.size) m d ≤ wrongFormatBits (formatPos2 code.size) m d') := by
  rw [read_format_eq h h9] at hf
  rcases correct_format_cases (copy1 m ^^^ formatMask) (copy_lt _) with ⟨d, hd, e, hn⟩ | e
  · rw [e] at hf
    dsimp only at hf
    rw [mdOf_formatWord _ _ hd] at hf
    split at hf
    · refine ⟨d, hd, (Except.ok.inj hf).symm, .inl ?_⟩
      intro d' hd'
      rw [wrongFormatBits_eq, wrongFormatBits_eq]
      exact hn d' hd'
    · cases hf
  · have hfar : ∀ d', d' < 32 → 3 < wrongFormatBits formatPos1 m d' := by
      intro d' hd'
      by_contra hle
      rw [wrongFormatBits_eq] at hle
      have := correct_format_corrects (copy1 m ^^^ formatMask) (copy_lt _) d' hd' (Nat.le_of_not_lt hle)
      rw [e] at this
      cases this
    rw [e] at hf
    dsimp only at hf
    rcases correct_format_cases (copy2 code.size m ^^^ formatMask) (copy_lt _) with ⟨d, hd, e', hn⟩ | e'
    · rw [e'] at hf
      dsimp only at hf
      rw [mdOf_formatWord _ _ hd] at hf
      split at hf
      · refine ⟨d, hd, (Except.ok.inj hf).symm, .inr ⟨hfar, ?_⟩⟩
        intro d' hd'
        rw [wrongFormatBits_eq, wrongFormatBits_eq]
        exact hn d' hd'
      · cases hf
    · rw [e'] at hf
      cases hf

/-- What a successful reading and correction has found. -/
theorem stream_nearest {code : BitGrid} {m : Nat → Nat → Bool} (h : Shows code m) {v : Nat} (h1 : 1 ≤ v) (h40 : v ≤ 40)
    (h21 : v ≠ 21) (hs : code.size = side v) :
    (∃ l mask R c cs, mask < 8 ∧
      decode_stream code = .ok ({ version := v, ecc_level := Level.bits l, mask := mask }, cs) ∧ cs.WF ∧
      cs.rest = bytesBits (dataCodewords v l c) ∧ Blocks v l c ∧ Carries v mask m R ∧ NearestBlocks v l 2 R c ∧
      ((∀ d, d < 32 → wrongFormatBits formatPos1 m (formatData l mask) ≤ wrongFormatBits formatPos1 m d) ∨
        (∀ d, d < 32 → 3 < wrongFormatBits formatPos1 m d) ∧
        ∀ d, d < 32 → wrongFormatBits (formatPos2 (side v)) m (formatData l mask) ≤
          wrongFormatBits (formatPos2 (side v)) m d)) ∨
    ∃ e, (e = DeQRError.FormatEcc ∨ e = .DataEcc) ∧ decode_stream code = .error (.err e) := by
  have h9 : 9 ≤ code.size := by rw [hs]; unfold side; omega
  rcases get_raw_eq h h9 true with ⟨md, ds, e1, e2, _⟩ | ⟨e, e1, e2, he⟩
  · obtain ⟨d, hd, hmd, hnear⟩ := format_nearest h h9 e2
    obtain ⟨_, _, hh⟩ := get_raw_path h v h1 h40 hs true _ ds e1
    rw [codeCoords_iso v (by omega) h21] at hh
    obtain ⟨l, hl⟩ := level_of_bits (d / 8) (by omega)
    have hdl : formatData l (d % 8) = d := by unfold formatData; omega
    have hmd' : md = { version := v, ecc_level := l.bits, mask := d % 8 } := by
      rw [hmd]
      unfold metaOf
      rw [hs, hl]
      congr 1
      unfold side; omega
    subst hmd'
    rcases codestream_cases h1 h40 l { version := v, ecc_level := l.bits, mask := d % 8 } rfl rfl ds with ⟨cs, c, f1, f2, f3, f4, f5⟩ | ⟨_, _, _, f⟩
    · left
      have hblock : ∀ i, i < blockCount v l → IsCodeword (ecLen v l) (c i) ∧
          ∀ c', c'.length = dataLen v l i + ecLen v l → IsCodeword (ecLen v l) c' →
            hdist (taken v l ds.data i) (c i) ≤ hdist (taken v l ds.data i) c' := by
        intro i hi
        obtain ⟨p1, p2, p3, p4⟩ := isoPar_facts (l := l) h1 h40 i
        obtain ⟨g1, g2⟩ := f4 i hi
        have hlen : (taken v l ds.data i).length = (isoPar v l i).bs := by unfold taken; rw [gather_length]; rfl
        rcases correct_block_cases (taken v l ds.data i) (isoPar v l i) hlen p1 p3 p4 with ⟨c₁, q1, q2, q3, q4⟩ | q
        · rw [q1] at g1
          cases g1
          rw [p2] at q3 q4
          exact ⟨q3, fun c' hc' => q4 c' (by rw [hlen]; exact hc')⟩
        · rw [q] at g1; cases g1
      refine ⟨l, d % 8, byteAt ds.data, c, cs, by omega, ?_, f3, f5, ?_, bytes_carried h1 h40 hh, ?_, ?_⟩
      · unfold decode_stream
        rw [e1, Run.ok_bind]
        dsimp only
        rw [f1]
        rfl
      · intro i hi
        exact ⟨(f4 i hi).2, (hblock i hi).1⟩
      · intro c' hc' i hi
        have s := sizes v h1 h40 l
        have a := damage_gather s ds.data c i hi (f4 i hi).2
        have b := hdist_gather s ds.data c' i hi (hc' i hi).1
        have n := (hblock i hi).2 (c' i) (hc' i hi).1 (hc' i hi).2
        unfold taken at a n
        have hle := a.trans (Nat.add_le_add_right (n.trans b) _)
        refine hle.trans ?_
        cases isLong v l i <;> simp
      · rw [hdl]
        rw [hs] at hnear
        exact hnear
    · right
      refine ⟨_, .inr rfl, ?_⟩
      unfold decode_stream
      rw [e1, Run.ok_bind]
      dsimp only
      rw [f]
      rfl
  · right
    have hside : 21 ≤ code.size ∧ code.size ≤ 180 := by rw [hs]; unfold side; omega
    rcases he with rfl | rfl
    · refine ⟨_, .inl rfl, ?_⟩
      unfold decode_stream
      rw [e1]
      rfl
    · exact absurd hside ((C04_format_outcome h h9).2.1.1 e2).2

/-- Reading an undamaged symbol. -/
theorem undamaged_stream {code : BitGrid} {m : Nat → Nat → Bool} (h : Shows code m) {v : Nat} (h1 : 1 ≤ v) (h40 : v ≤ 40)
    (h21 : v ≠ 21) (hs : code.size = side v) {l : Level} {mask : Nat} (hm : mask < 8) {c : Nat → List Byte}
    (hc : Blocks v l c) (hu : Undamaged v l mask c formatPos1 m) :
    ∃ cs, decode_stream code = .ok ({ version := v, ecc_level := l.bits, mask := mask }, cs) ∧ cs.WF ∧
      cs.rest = bytesBits (dataCodewords v l c) := by
  obtain ⟨⟨R, hR, hd⟩, hw⟩ := hu
  have hside : 21 ≤ code.size ∧ code.size ≤ 180 := by rw [hs]; unfold side; omega
  have hdl : formatData l mask < 32 := by
    have := bits_lt l; unfold formatData; omega
  have hclean : wrongFormatBits formatPos1 m (formatData l mask) = 0 := by
    unfold wrongFormatBits
    rw [List.length_eq_zero_iff, List.filter_eq_nil_iff]
    intro i hi
    rw [hw i (by simpa using hi)]
    simp
  have hf := C03_grid_first_copy h hside.1 hside.2 _ hdl (by omega)
  rw [hs, metaOf_symbol v l mask hm] at hf
  refine symbol_stream h h1 h40 h21 hs hf hR hc ?_
  intro i hi
  rw [hd i hi]
  have : ∀ v < 41, v = 0 ∨ ∀ l ∈ [Level.L, .M, .Q, .H], 2 ≤ ecLen v l := by decide +kernel
  have h2 : 2 ≤ ecLen v l := by
    rcases this v (by omega) with h | h
    · omega
    · exact h l (by cases l <;> simp)
  split <;> omega

end Rqrr
