import Verif.Spec.Astray
import Verif.Props.EndToEnd

/-!
# Reading version 21 symbols
-/

namespace Rqrr

open Spec

/-- Compares two lists in groups of eight; the groups from number `k` on differ exactly where `f` says so. -/
def agreeOff {α : Type} [DecidableEq α] (f : Nat → Bool) : Nat → List α → List α → Bool
  | k, a0 :: a1 :: a2 :: a3 :: a4 :: a5 :: a6 :: a7 :: as, b0 :: b1 :: b2 :: b3 :: b4 :: b5 :: b6 :: b7 :: bs =>
    (f k != (decide (a0 = b0) && decide (a1 = b1) && decide (a2 = b2) && decide (a3 = b3) && decide (a4 = b4) &&
      decide (a5 = b5) && decide (a6 = b6) && decide (a7 = b7))) && agreeOff f (k + 1) as bs
  | _, _, _ => true

theorem path_21 : pathOf (codeCoords 21) 21 = pathOf [6, 28, 50, 72, 92] 21 := by rw [codeCoords_21.1]

/-- The test for function patterns, with a test that fails soon for most modules. -/
def quickFunction (cs : List Nat) (v y x : Nat) : Bool :=
  inFinder v y x || inTiming y x || inFormat v y x || inVersionInfo v y x ||
    (cs.any (fun a => dist a y ≤ 2) && (cs.any (fun a => dist a x ≤ 2) && inAlignment cs y x))

theorem quickFunction_eq (cs : List Nat) (v y x : Nat) : quickFunction cs v y x = isFunctionOf cs v y x := by
  unfold quickFunction isFunctionOf
  congr 1
  cases h : inAlignment cs y x
  · simp
  · unfold inAlignment at h
    simp only [List.any_eq_true, Bool.and_eq_true] at h
    obtain ⟨a, ha, b, hb, ⟨-, h1⟩, h2⟩ := h
    have e1 : cs.any (fun a => dist a y ≤ 2) = true := List.any_eq_true.2 ⟨a, ha, h1⟩
    have e2 : cs.any (fun a => dist a x ≤ 2) = true := List.any_eq_true.2 ⟨b, hb, h2⟩
    rw [e1, e2]
    rfl

theorem agree_quick : agreeOff astray 0 ((zigzag 101).filter fun p => !quickFunction [6, 28, 50, 72, 94] 21 p.1 p.2)
    ((zigzag 101).filter fun p => !quickFunction [6, 28, 50, 72, 92] 21 p.1 p.2) = true := by decide +kernel

theorem agree_21 : agreeOff astray 0 (dataPath 21) (pathOf [6, 28, 50, 72, 92] 21) = true := by
  have h := agree_quick
  simp only [quickFunction_eq] at h
  exact h

theorem eight {α : Type} {l : List α} (h : 8 ≤ l.length) :
    ∃ a0 a1 a2 a3 a4 a5 a6 a7 t, l = a0 :: a1 :: a2 :: a3 :: a4 :: a5 :: a6 :: a7 :: t := by
  match l, h with
  | a0 :: a1 :: a2 :: a3 :: a4 :: a5 :: a6 :: a7 :: t, _ => exact ⟨a0, a1, a2, a3, a4, a5, a6, a7, t, rfl⟩

theorem agreeOff_get {α : Type} [DecidableEq α] {f : Nat → Bool} : ∀ (n k : Nat) (as bs : List α),
    agreeOff f k as bs = true → 8 * n + 8 ≤ as.length → 8 * n + 8 ≤ bs.length →
    (f (k + n) = false ↔ ∀ j, j < 8 → as[8 * n + j]? = bs[8 * n + j]?)
  | n, k, as, bs, h, ha, hb => by
    obtain ⟨a0, a1, a2, a3, a4, a5, a6, a7, as, rfl⟩ := eight (l := as) (by omega)
    obtain ⟨b0, b1, b2, b3, b4, b5, b6, b7, bs, rfl⟩ := eight (l := bs) (by omega)
    rw [agreeOff, Bool.and_eq_true] at h
    cases n with
    | zero =>
      have h1 := h.1
      rw [Nat.add_zero]
      constructor
      · intro hf
        rw [hf] at h1
        simp only [bne_iff_ne, ne_eq, Bool.false_eq, Bool.not_eq_false, Bool.and_eq_true, decide_eq_true_eq] at h1
        obtain ⟨⟨⟨⟨⟨⟨⟨rfl, rfl⟩, rfl⟩, rfl⟩, rfl⟩, rfl⟩, rfl⟩, rfl⟩ := h1
        intro j hj
        have : j = 0 ∨ j = 1 ∨ j = 2 ∨ j = 3 ∨ j = 4 ∨ j = 5 ∨ j = 6 ∨ j = 7 := by omega
        rcases this with rfl | rfl | rfl | rfl | rfl | rfl | rfl | rfl <;> rfl
      · intro hj
        obtain rfl : a0 = b0 := Option.some.inj (hj 0 (by omega))
        obtain rfl : a1 = b1 := Option.some.inj (hj 1 (by omega))
        obtain rfl : a2 = b2 := Option.some.inj (hj 2 (by omega))
        obtain rfl : a3 = b3 := Option.some.inj (hj 3 (by omega))
        obtain rfl : a4 = b4 := Option.some.inj (hj 4 (by omega))
        obtain rfl : a5 = b5 := Option.some.inj (hj 5 (by omega))
        obtain rfl : a6 = b6 := Option.some.inj (hj 6 (by omega))
        obtain rfl : a7 = b7 := Option.some.inj (hj 7 (by omega))
        simpa using h1
    | succ n =>
      simp only [List.length_cons] at ha hb
      have ih := agreeOff_get n (k + 1) as bs h.2 (by omega) (by omega)
      rw [show k + 1 + n = k + (n + 1) by omega] at ih
      rw [ih]
      refine forall_congr' fun j => forall_congr' fun _ => ?_
      have e : 8 * (n + 1) + j = 8 * n + j + 1 + 1 + 1 + 1 + 1 + 1 + 1 + 1 := by omega
      rw [e]
      simp only [List.getElem?_cons_succ]

theorem path_length_21 : (dataPath 21).length = 9252 ∧ (pathOf [6, 28, 50, 72, 92] 21).length = 9252 := by
  have e : dataModules 21 = 9252 := by decide +kernel
  constructor
  · show ((zigzag (side 21)).filter fun p => !isFunctionOf (alignCoords 21) 21 p.1 p.2).length = _
    rw [path_card _ 21 (by omega), dataCells_card_iso 21 (by omega) (by omega), e]
  · rw [← codeCoords_21.1]
    show ((zigzag (side 21)).filter fun p => !isFunctionOf (codeCoords 21) 21 p.1 p.2).length = _
    rw [path_card _ 21 (by omega), dataCells_card 21 (by omega) (by omega), e]

/-- Exactly the bits of the other codewords are read where they are. -/
theorem path_agrees {k : Nat} (hk : k < 1156) :
    astray k = false ↔ ∀ j, j < 8 → (dataPath 21)[8 * k + j]? = (pathOf [6, 28, 50, 72, 92] 21)[8 * k + j]? := by
  obtain ⟨e1, e2⟩ := path_length_21
  have := agreeOff_get k 0 _ _ agree_21 (by omega) (by omega)
  rwa [Nat.zero_add] at this

theorem total_21 : totalCodewords 21 = 1156 := by decide +kernel

/-- What a raw read of a version 21 symbol recovers of the codewords it carries. -/
theorem carries_bytes_21 {mask : Nat} {m : Nat → Nat → Bool} {R : Nat → Byte} (hc : Carries 21 mask m R) {ds : RawData}
    (hh : Holds ds ((pathOf [6, 28, 50, 72, 92] 21).map (cellBit m mask true))) (k : Nat) (hk : k < 1156)
    (hs : astray k = false) : byteAt ds.data k = R k := by
  obtain ⟨e1, e2⟩ := path_length_21
  have hkM : k < MAX_PAYLOAD_SIZE := by
    have : MAX_PAYLOAD_SIZE = 8896 := rfl
    omega
  unfold byteAt
  rw [dif_pos hkM]
  apply BitVec.eq_of_getMsbD_eq
  intro j hj
  have hb := hh.bit (8 * k + j)
  unfold dataBit at hb
  have e3 : (8 * k + j) / 8 = k := by omega
  have e4 : (8 * k + j) % 8 = j := by omega
  rw [dif_pos (by omega)] at hb
  simp only [e3, e4] at hb
  have hlt : 8 * k + j < (dataPath 21).length := by omega
  have hp := ((path_agrees hk).1 hs j hj).symm
  rw [List.getElem?_eq_getElem hlt] at hp
  rw [hb, List.getD_eq_getElem?_getD, List.getElem?_map, hp]
  have := hc (8 * k + j) _ (by rw [total_21]; omega) (List.getElem?_eq_getElem hlt)
  rw [e3, e4] at this
  show cellBit m mask true (dataPath 21)[8 * k + j] = _
  unfold cellBit
  rw [this]
  cases (R k).getMsbD j <;> cases maskCond mask (dataPath 21)[8 * k + j].1 (dataPath 21)[8 * k + j].2 <;> rfl

theorem damage_stray (l : Level) {R R' : Nat → Byte} (h : ∀ k, k < 1156 → astray k = false → R' k = R k) (c : Nat → List Byte)
    (i : Nat) : damage 21 l R' c i ≤ strayDamage l R c i := by
  unfold damage strayDamage
  apply Finset.card_le_card
  intro p hp
  rw [Finset.mem_filter, Finset.mem_range] at hp ⊢
  obtain ⟨hp, hw⟩ := hp
  refine ⟨hp, ?_⟩
  rw [total_21] at hp
  cases ha : astray p
  · rw [Bool.false_and, Bool.or_false]
    unfold wrongAt at hw ⊢
    rwa [h p hp ha] at hw
  · rw [Bool.true_and, Bool.or_eq_true]
    right
    unfold wrongAt at hw
    unfold inBlock
    cases e : (layout 21 l)[p]? with
    | none => rw [e] at hw; exact hw
    | some b =>
      rw [e] at hw
      dsimp only at hw ⊢
      rw [Bool.and_eq_true] at hw
      exact hw.1

/-- Reading and correcting a version 21 symbol. -/
theorem symbol_stream_21 {code : BitGrid} {m : Nat → Nat → Bool} (h : Shows code m) (hs : code.size = side 21) {l : Level}
    {mask : Nat} (hf : read_format code = .ok { version := 21, ecc_level := l.bits, mask := mask }) {R : Nat → Byte}
    (hR : Carries 21 mask m R) {c : Nat → List Byte} (hc : Blocks 21 l c)
    (hd : ∀ i, i < blockCount 21 l → strayDamage l R c i + (if isLong 21 l i then 1 else 0) ≤ ecLen 21 l / 2) :
    ∃ cs, decode_stream code = .ok ({ version := 21, ecc_level := l.bits, mask := mask }, cs) ∧ cs.WF ∧
      cs.rest = bytesBits (dataCodewords 21 l c) := by
  have h9 : 9 ≤ code.size := by rw [hs]; unfold side; omega
  rcases get_raw_eq h h9 true with ⟨md, ds, e1, e2, _⟩ | ⟨e, _, e2, _⟩
  · rw [hf] at e2; cases e2
    obtain ⟨_, _, hh⟩ := get_raw_path h 21 (by omega) (by omega) hs true _ ds e1
    rw [codeCoords_21.1] at hh
    have hbytes := carries_bytes_21 hR hh
    obtain ⟨cs, f1, f2, f3, f4⟩ := codestream_corrects (by omega) (by omega) l { version := 21, ecc_level := l.bits, mask := mask } rfl rfl ds c hc
      (by
        intro i hi
        have hle := damage_stray l hbytes c i
        have := hd i hi
        cases h : isLong 21 l i <;> rw [h] at this <;> simp only [Bool.toNat_false, Bool.toNat_true] <;>
          simp only [if_true, Bool.false_eq_true, if_false] at this <;> omega)
    refine ⟨cs, ?_, f3, f4⟩
    unfold decode_stream
    rw [e1, Run.ok_bind]
    dsimp only
    rw [f1]
    rfl
  · rw [hf] at e2; cases e2

theorem filter_range_length (N : Nat) (f : Nat → Bool) :
    ((List.range N).filter f).length = ((Finset.range N).filter fun p => f p = true).card := by
  rw [← List.toFinset_card_of_nodup ((List.nodup_range).filter _)]
  congr 1
  ext p
  simp

/-- How many codewords of block `i` are read from wrong places. -/
def strayCount (l : Level) (i : Nat) : Nat := ((List.range 1156).filter fun p => astray p && inBlock 21 l i p).length

theorem strayDamage_le (l : Level) (R : Nat → Byte) (c : Nat → List Byte) (i : Nat) :
    strayDamage l R c i ≤ damage 21 l R c i + strayCount l i := by
  have e : strayCount l i = ((Finset.range 1156).filter fun p => (astray p && inBlock 21 l i p) = true).card := by
    exact filter_range_length _ _
  rw [e]
  unfold strayDamage damage
  rw [total_21]
  refine (Finset.card_le_card ?_).trans (Finset.card_union_le _ _)
  intro p hp
  rw [Finset.mem_filter, Bool.or_eq_true] at hp
  rw [Finset.mem_union, Finset.mem_filter, Finset.mem_filter]
  rcases hp.2 with h | h
  · exact .inl ⟨hp.1, h⟩
  · exact .inr ⟨hp.1, h⟩

theorem strayCount_spare : ∀ l : Level, ∀ i < blockCount 21 l,
    strayCount l i + spare l + (if isLong 21 l i then 1 else 0) ≤ ecLen 21 l / 2 := by
  intro l
  cases l <;> decide +kernel

end Rqrr
