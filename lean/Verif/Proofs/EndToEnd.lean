import Verif.Proofs.Decode
import Verif.Props.Format
import Verif.Spec.Symbol

/-!
# From symbol to payload, and existence of symbols for every message
-/

namespace Rqrr

open Spec

/-- The codewords a raw read recovers are those the symbol carries. -/
theorem carries_bytes {v mask : Nat} (h1 : 1 ≤ v) (h40 : v ≤ 40) {m : Nat → Nat → Bool} {R : Nat → Byte}
    (hc : Carries v mask m R) {ds : RawData}
    (hh : Holds ds ((dataPath v).map (cellBit m mask true))) (k : Nat) (hk : k < totalCodewords v) :
    byteAt ds.data k = R k := by
  have hlen : 8 * totalCodewords v ≤ (dataPath v).length ∧ totalCodewords v ≤ MAX_PAYLOAD_SIZE := by
    have e : (dataPath v).length = dataModules v := by
      rw [← dataCells_card_iso v h1 h40, ← path_card _ v h1]; rfl
    have hc : ∀ v < 41, v = 0 ∨ 8 * totalCodewords v ≤ dataModules v ∧ totalCodewords v ≤ 8896 := by decide +kernel
    rcases hc v (by omega) with h | h
    · omega
    · rw [e]; exact h
  have hkM : k < MAX_PAYLOAD_SIZE := by omega
  unfold byteAt
  rw [dif_pos hkM]
  apply BitVec.eq_of_getMsbD_eq
  intro j hj
  have hb := hh.bit (8 * k + j)
  unfold dataBit at hb
  have e1 : (8 * k + j) / 8 = k := by omega
  have e2 : (8 * k + j) % 8 = j := by omega
  rw [dif_pos (by omega)] at hb
  simp only [e1, e2] at hb
  have hlt : 8 * k + j < (dataPath v).length := by omega
  rw [hb, List.getD_eq_getElem _ _ (by simpa using hlt), List.getElem_map]
  have := hc (8 * k + j) _ (by omega) (List.getElem?_eq_getElem hlt)
  rw [e1, e2] at this
  unfold cellBit
  rw [this]
  cases (R k).getMsbD j <;> cases maskCond mask (dataPath v)[8 * k + j].1 (dataPath v)[8 * k + j].2 <;> rfl

theorem damage_congr (v : Nat) (l : Level) (R R' : Nat → Byte) (h : ∀ k, k < totalCodewords v → R k = R' k) (c : Nat → List Byte)
    (i : Nat) : damage v l R c i = damage v l R' c i := by
  unfold damage
  congr 1
  apply Finset.filter_congr
  intro p hp
  unfold wrongAt
  rw [h p (by simpa using hp)]

/-- Reading and correcting a damaged symbol. -/
theorem symbol_stream {code : BitGrid} {m : Nat → Nat → Bool} (h : Shows code m) {v : Nat} (h1 : 1 ≤ v) (h40 : v ≤ 40)
    (h21 : v ≠ 21) (hs : code.size = side v) {l : Level} {mask : Nat}
    (hf : read_format code = .ok { version := v, ecc_level := l.bits, mask := mask }) {R : Nat → Byte}
    (hR : Carries v mask m R) {c : Nat → List Byte} (hc : Blocks v l c)
    (hd : ∀ i, i < blockCount v l → damage v l R c i + (if isLong v l i then 1 else 0) ≤ ecLen v l / 2) :
    ∃ cs, decode_stream code = .ok ({ version := v, ecc_level := l.bits, mask := mask }, cs) ∧ cs.WF ∧
      cs.rest = bytesBits (dataCodewords v l c) := by
  have h9 : 9 ≤ code.size := by rw [hs]; unfold side; omega
  rcases get_raw_eq h h9 true with ⟨md, ds, e1, e2, _⟩ | ⟨e, _, e2, _⟩
  · rw [hf] at e2; cases e2
    obtain ⟨_, _, hh⟩ := get_raw_path h v h1 h40 hs true _ ds e1
    rw [codeCoords_iso v (by omega) h21] at hh
    have hbytes := carries_bytes h1 h40 hR hh
    obtain ⟨cs, f1, f2, f3, f4⟩ := codestream_corrects h1 h40 l { version := v, ecc_level := l.bits, mask := mask } rfl rfl ds c hc
      (by
        intro i hi
        have := hd i hi
        rw [damage_congr v l _ R hbytes]
        cases h : isLong v l i <;> rw [h] at this <;> simp only [Bool.toNat_false, Bool.toNat_true] <;> simp at this <;> omega)
    refine ⟨cs, ?_, f3, f4⟩
    unfold decode_stream
    rw [e1, Run.ok_bind]
    dsimp only
    rw [f1]
    rfl
  · rw [hf] at e2; cases e2

theorem bits_lt (l : Level) : l.bits < 4 := by cases l <;> decide

/-- The metadata of a symbol. -/
theorem metaOf_symbol (v : Nat) (l : Level) (mask : Nat) (hm : mask < 8) :
    metaOf (side v) (formatData l mask) = { version := v, ecc_level := l.bits, mask := mask } := by
  have := bits_lt l
  unfold metaOf formatData side
  congr 1 <;> omega

/-! ### Encoding -/

open Polynomial

theorem codePoly_append (a b : List Byte) : codePoly (a ++ b) = codePoly a * X ^ b.length + codePoly b := by
  induction a with
  | nil => simp [codePoly]
  | cons x a ih =>
    rw [List.cons_append, codePoly, codePoly, ih, List.length_append, add_mul, mul_assoc, ← pow_add, add_assoc]

theorem codePoly_surj : ∀ (n : Nat) (p : GF256[X]), p.degree < n → ∃ l : List Byte, l.length = n ∧ codePoly l = p
  | 0, p, h => by
    refine ⟨[], rfl, ?_⟩
    have : p = 0 := by
      rw [← degree_eq_bot]
      exact (Nat.WithBot.lt_zero_iff.1 h)
    rw [this]; rfl
  | n + 1, p, h => by
    have hdeg : (p - C (p.coeff n) * X ^ n).degree < (n : WithBot ℕ) := by
      rw [degree_lt_iff_coeff_zero]
      intro k hk
      rw [coeff_sub, coeff_C_mul, coeff_X_pow]
      by_cases hkn : k = n
      · subst hkn; simp
      · rw [if_neg hkn, mul_zero, sub_zero]
        exact (degree_lt_iff_coeff_zero p (n + 1)).1 h k (by omega)
    obtain ⟨l, h1, h2⟩ := codePoly_surj n _ hdeg
    refine ⟨(p.coeff n).val :: l, by simp [h1], ?_⟩
    rw [codePoly, h2, h1]
    show C (p.coeff n) * X ^ n + _ = p
    ring

theorem genPoly_monic (n : Nat) : (genPoly n).Monic := by
  unfold genPoly
  exact monic_prod_of_monic _ _ fun i _ => monic_X_sub_C _

theorem genPoly_degree (n : Nat) : (genPoly n).degree = n := by
  rw [degree_eq_natDegree (genPoly_monic n).ne_zero]
  unfold genPoly
  rw [natDegree_prod_of_monic _ _ fun i _ => monic_X_sub_C _]
  rw [Finset.sum_congr rfl fun i _ => natDegree_X_sub_C _]
  simp

/-- Every data block can be completed to a Reed-Solomon codeword. -/
theorem rs_encode (npar : Nat) (data : List Byte) : ∃ ecc : List Byte, ecc.length = npar ∧ IsCodeword npar (data ++ ecc) := by
  have hdeg : (-(codePoly data * X ^ npar %ₘ genPoly npar)).degree < npar := by
    rw [degree_neg]
    have := degree_modByMonic_lt (codePoly data * X ^ npar) (genPoly_monic npar)
    rwa [genPoly_degree] at this
  obtain ⟨ecc, h1, h2⟩ := codePoly_surj npar _ hdeg
  refine ⟨ecc, h1, ?_⟩
  unfold IsCodeword
  rw [codePoly_append, h1, h2, ← sub_eq_add_neg]
  refine ⟨codePoly data * X ^ npar /ₘ genPoly npar, ?_⟩
  have := modByMonic_add_div (codePoly data * X ^ npar) (genPoly npar)
  rw [sub_eq_iff_eq_add]
  rw [add_comm]
  exact this.symm

/-- Every sequence of data codewords is that of some blocks. -/
theorem blocks_encode (v : Nat) (l : Level) (data : List Byte) (h : data.length = dataCount v l) :
    ∃ c, Blocks v l c ∧ dataCodewords v l c = data := by
  let off : Nat → Nat := fun i => ((List.range i).map (dataLen v l)).sum
  have hoff : ∀ i, off (i + 1) = off i + dataLen v l i := by
    intro i; simp [off, List.range_succ]
  have hmono : ∀ i j, i ≤ j → off i ≤ off j := by
    intro i j hij
    induction j with
    | zero => have : i = 0 := by omega
              subst this; exact Nat.le_refl _
    | succ j ih =>
      by_cases e : i = j + 1
      · subst e; exact Nat.le_refl _
      · have := ih (by omega); rw [hoff]; omega
  let part : Nat → List Byte := fun i => (data.drop (off i)).take (dataLen v l i)
  choose ecc he1 he2 using fun i => rs_encode (ecLen v l) (part i)
  have hpart : ∀ i, i < blockCount v l → (part i).length = dataLen v l i := by
    intro i hi
    have hle := hmono (i + 1) (blockCount v l) hi
    have hd : data.length = off (blockCount v l) := h
    have hs := hoff i
    simp only [part, List.length_take, List.length_drop]
    omega
  refine ⟨fun i => part i ++ ecc i, ?_, ?_⟩
  · intro i hi
    exact ⟨by rw [List.length_append, hpart i hi, he1], he2 i⟩
  · have key : ∀ n, n ≤ blockCount v l →
        ((List.range n).flatMap fun i => (part i ++ ecc i).take (dataLen v l i)) = data.take (off n) := by
      intro n
      induction n with
      | zero => intro _; simp [off]
      | succ n ih =>
        intro hn
        rw [List.range_succ, List.flatMap_append, ih (by omega), List.flatMap_singleton,
          List.take_left' (hpart n (by omega)), hoff, List.take_add]
    unfold dataCodewords
    rw [key _ (Nat.le_refl _), List.take_of_length_le]
    exact Nat.le_of_eq h

/-- Every bit string of a whole number of bytes is that of some bytes. -/
theorem bytes_of_bits : ∀ (n : Nat) (bits : List Bool), bits.length = 8 * n → ∃ bs : List Byte, bs.length = n ∧ bytesBits bs = bits
  | 0, bits, h => ⟨[], rfl, by rw [List.eq_nil_of_length_eq_zero (by omega : bits.length = 0)]; rfl⟩
  | n + 1, bits, h => by
    obtain ⟨bs, h1, h2⟩ := bytes_of_bits n (bits.drop 8) (by rw [List.length_drop]; omega)
    have hb : ∃ b : Byte, byteBits b = bits.take 8 := by
      have key : ∀ a0 a1 a2 a3 a4 a5 a6 a7 : Bool, byteBits (BitVec.ofNat 8 (natOfBits [a0, a1, a2, a3, a4, a5, a6, a7])) =
          [a0, a1, a2, a3, a4, a5, a6, a7] := by decide +kernel
      have hlen : (bits.take 8).length = 8 := by rw [List.length_take]; omega
      match hx : bits.take 8, hlen with
      | [a0, a1, a2, a3, a4, a5, a6, a7], _ => exact ⟨_, key a0 a1 a2 a3 a4 a5 a6 a7⟩
    obtain ⟨b, hb⟩ := hb
    refine ⟨b :: bs, by simp [h1], ?_⟩
    unfold bytesBits at h2 ⊢
    rw [List.flatMap_cons, h2, hb, List.take_append_drop]

/-- The codeword sequence of undamaged blocks. -/
def sequenceOf (v : Nat) (l : Level) (c : Nat → List Byte) (p : Nat) : Byte :=
  match (layout v l)[p]? with
  | some (b, k) => (c b).getD k 0
  | none => 0

theorem damage_sequenceOf {v : Nat} (l : Level) {c : Nat → List Byte} (hc : Blocks v l c) (i : Nat) :
    damage v l (sequenceOf v l c) c i = 0 := by
  unfold damage
  rw [Finset.card_eq_zero, Finset.filter_eq_empty_iff]
  intro p _
  unfold wrongAt sequenceOf
  cases hp : (layout v l)[p]? with
  | none => simp
  | some bk =>
    obtain ⟨b, k⟩ := bk
    have hmem := List.mem_of_getElem? hp
    have hbk : b < blockCount v l ∧ k < dataLen v l b + ecLen v l := by
      unfold layout at hmem
      rw [List.mem_append, List.mem_flatMap, List.mem_flatMap] at hmem
      rcases hmem with ⟨j, hj, hm⟩ | ⟨j, hj, hm⟩
      · rw [List.mem_map] at hm
        obtain ⟨i', hi', he⟩ := hm
        cases he
        rw [List.mem_filter] at hi'
        have a := List.mem_range.1 hi'.1
        have b := of_decide_eq_true hi'.2
        exact ⟨a, by omega⟩
      · rw [List.mem_map] at hm
        obtain ⟨i', hi', he⟩ := hm
        cases he
        have a := List.mem_range.1 hi'
        have b := List.mem_range.1 hj
        exact ⟨a, by omega⟩
    have hl := (hc b hbk.1).1
    have hk : k < (c b).length := by omega
    simp [List.getElem?_eq_getElem hk]

theorem formatPos1_inj : ∀ i < 15, ∀ j < 15, formatPos1 i = formatPos1 j → i = j := by decide

theorem formatPos1_function (v : Nat) : ∀ i < 15, isFunction v (formatPos1 i).1 (formatPos1 i).2 = true := by
  have key : ∀ i < 15, (formatPos1 i).1 = 8 ∧ (formatPos1 i).2 ≤ 8 ∨ (formatPos1 i).2 = 8 ∧ (formatPos1 i).1 ≤ 8 := by decide
  intro i hi
  unfold isFunction isFunctionOf inFormat
  rcases key i hi with ⟨a, b⟩ | ⟨a, b⟩ <;> simp [a, b]

/-- For every codeword sequence there is a symbol carrying it, with correct format information in the first copy and any
given modules in the rest of the function patterns. -/
theorem symbol_exists {v : Nat} (h1 : 1 ≤ v) (mask : Nat) (R : Nat → Byte) (word : Nat) (m0 : Nat → Nat → Bool) :
    ∃ m, Carries v mask m R ∧ (∀ i, i < 15 → m (formatPos1 i).1 (formatPos1 i).2 = word.testBit i) ∧
      ∀ y x, isFunction v y x = true → (∀ i, i < 15 → formatPos1 i ≠ (y, x)) → m y x = m0 y x := by
  classical
  refine ⟨fun y x =>
    if h : ∃ i, i < 15 ∧ formatPos1 i = (y, x) then word.testBit h.choose
    else if isFunction v y x then m0 y x
    else (R ((dataPath v).idxOf (y, x) / 8)).getMsbD ((dataPath v).idxOf (y, x) % 8) ^^ maskCond mask y x, ?_, ?_, ?_⟩
  · intro n p hn hp
    have hmem := List.mem_of_getElem? hp
    have hf : isFunction v p.1 p.2 = false := by
      have := ((C08_path_complete v h1).2 p.1 p.2).1 hmem
      exact this.2.2
    have hno : ¬ ∃ i, i < 15 ∧ formatPos1 i = (p.1, p.2) := by
      rintro ⟨i, hi, he⟩
      have := formatPos1_function v i hi
      rw [he] at this
      rw [hf] at this
      cases this
    have hidx : (dataPath v).idxOf (p.1, p.2) = n := by
      obtain ⟨hlt, he⟩ := List.getElem?_eq_some_iff.1 hp
      show (dataPath v).idxOf p = n
      rw [← he]
      exact (C08_path_complete v h1).1.idxOf_getElem n hlt
    simp only [dif_neg hno, hf, hidx]
    rfl
  · intro i hi
    have hex : ∃ j, j < 15 ∧ formatPos1 j = ((formatPos1 i).1, (formatPos1 i).2) := ⟨i, hi, rfl⟩
    simp only [dif_pos hex]
    congr 1
    exact formatPos1_inj _ hex.choose_spec.1 i hi hex.choose_spec.2
  · intro y x hf hno
    have hno' : ¬ ∃ i, i < 15 ∧ formatPos1 i = (y, x) := by
      rintro ⟨i, hi, he⟩; exact hno i hi he
    simp only [dif_neg hno', hf]
    rfl

end Rqrr
