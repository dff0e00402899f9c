import Verif.Proofs.EndToEnd
import Verif.Props.Decode

/-!
# C26, C54: from symbol to payload
-/

namespace Rqrr

open Spec

theorem side_range {v : Nat} (h1 : 1 ≤ v) (h40 : v ≤ 40) : 21 ≤ side v ∧ side v ≤ 180 := by unfold side; omega

theorem formatData_lt (l : Level) {mask : Nat} (hm : mask < 8) : formatData l mask < 32 := by
  have := bits_lt l; unfold formatData; omega


/-- **C26.** A grid that shows a symbol (any version but 21, any level and mask) with at most three wrong bits in the first
format copy, at most `⌊E/2⌋` wrong codewords per block (one fewer in a long block) decodes to the encoded payload, and the
symbol's version, level and mask are reported. Function modules other than the first format copy are arbitrary. -/
theorem C26_end_to_end {code : BitGrid} {m : Nat → Nat → Bool} (h : Shows code m) (v : Nat) (h1 : 1 ≤ v) (h40 : v ≤ 40)
    (h21 : v ≠ 21) (hs : code.size = side v) (l : Level) (mask : Nat) (hm : mask < 8)
    (hw : wrongFormatBits formatPos1 m (formatData l mask) ≤ 3) (R : Nat → Byte)
    (hR : Carries v mask m R) (c : Nat → List Byte) (hc : Blocks v l c)
    (hd : ∀ i, i < blockCount v l → damage v l R c i + (if isLong v l i then 1 else 0) ≤ ecLen v l / 2)
    (ss : List Segment) (hss : ∀ s ∈ ss, s.Fits v) (tail : List Bool) (ht : Ends tail)
    (hbits : bytesBits (dataCodewords v l c) = ss.flatMap (·.encode v) ++ tail) (out : List Byte) :
    Grid.decode_to vecWriter code out =
      (.ok { version := v, ecc_level := l.bits, mask := mask }, out ++ ss.flatMap (·.payload)) := by
  have := side_range h1 h40
  have hf := C03_grid_first_copy h (by omega) (by omega) _ (formatData_lt l hm) hw
  rw [hs, metaOf_symbol v l mask hm] at hf
  obtain ⟨cs, e1, e2, e3⟩ := symbol_stream h h1 h40 h21 hs hf hR hc hd
  show decode vecWriter code out = _
  rw [C23_direct code _ cs e1, C19_segments { version := v, ecc_level := l.bits, mask := mask } ss hss tail ht cs e2 (e3.trans hbits)]
  rfl

/-- **C26.** The same if the first format copy is beyond correction and the second has at most three wrong bits. -/
theorem C26_second_format_copy {code : BitGrid} {m : Nat → Nat → Bool} (h : Shows code m) (v : Nat) (h1 : 1 ≤ v) (h40 : v ≤ 40)
    (h21 : v ≠ 21) (hs : code.size = side v) (l : Level) (mask : Nat) (hm : mask < 8) (e : Fault)
    (hbad : correct_format (copy1 m ^^^ formatMask) = .error e)
    (hw : wrongFormatBits (formatPos2 (side v)) m (formatData l mask) ≤ 3) (R : Nat → Byte)
    (hR : Carries v mask m R) (c : Nat → List Byte) (hc : Blocks v l c)
    (hd : ∀ i, i < blockCount v l → damage v l R c i + (if isLong v l i then 1 else 0) ≤ ecLen v l / 2)
    (ss : List Segment) (hss : ∀ s ∈ ss, s.Fits v) (tail : List Bool) (ht : Ends tail)
    (hbits : bytesBits (dataCodewords v l c) = ss.flatMap (·.encode v) ++ tail) (out : List Byte) :
    Grid.decode_to vecWriter code out =
      (.ok { version := v, ecc_level := l.bits, mask := mask }, out ++ ss.flatMap (·.payload)) := by
  have := side_range h1 h40
  rw [← hs] at hw
  have hf := C04_grid_second_copy h (by omega) (by omega) e hbad _ (formatData_lt l hm) hw
  rw [hs, metaOf_symbol v l mask hm] at hf
  obtain ⟨cs, e1, e2, e3⟩ := symbol_stream h h1 h40 h21 hs hf hR hc hd
  show decode vecWriter code out = _
  rw [C23_direct code _ cs e1, C19_segments { version := v, ecc_level := l.bits, mask := mask } ss hss tail ht cs e2 (e3.trans hbits)]
  rfl

/-- **C26.** The same for a transposed symbol, provided the grid as it stands is not readable. -/
theorem C26_mirrored {code : BitGrid} {m : Nat → Nat → Bool} (h : Shows code fun y x => m x y) (v : Nat) (h1 : 1 ≤ v)
    (h40 : v ≤ 40) (h21 : v ≠ 21) (hs : code.size = side v) (l : Level) (mask : Nat) (hm : mask < 8)
    (hno : ∃ e, decode_stream code = .error (.err e))
    (hw : wrongFormatBits formatPos1 m (formatData l mask) ≤ 3) (R : Nat → Byte)
    (hR : Carries v mask m R) (c : Nat → List Byte) (hc : Blocks v l c)
    (hd : ∀ i, i < blockCount v l → damage v l R c i + (if isLong v l i then 1 else 0) ≤ ecLen v l / 2)
    (ss : List Segment) (hss : ∀ s ∈ ss, s.Fits v) (tail : List Bool) (ht : Ends tail)
    (hbits : bytesBits (dataCodewords v l c) = ss.flatMap (·.encode v) ++ tail) (out : List Byte) :
    Grid.decode_to vecWriter code out =
      (.ok { version := v, ecc_level := l.bits, mask := mask }, out ++ ss.flatMap (·.payload)) := by
  have hM : Shows (MirroredGrid code) m := h.mirrored
  have hsM : (MirroredGrid code).size = side v := hs
  have := side_range h1 h40
  have hf := C03_grid_first_copy hM (by omega) (by omega) _ (formatData_lt l hm) hw
  rw [hsM, metaOf_symbol v l mask hm] at hf
  obtain ⟨cs, e1, e2, e3⟩ := symbol_stream hM h1 h40 h21 hsM hf hR hc hd
  obtain ⟨e, he⟩ := hno
  show decode vecWriter code out = _
  rw [C23_mirrored code e he _ cs e1, C19_segments { version := v, ecc_level := l.bits, mask := mask } ss hss tail ht cs e2 (e3.trans hbits)]
  rfl

theorem ends_pad (n : Nat) : Ends (List.replicate n false) := by
  by_cases h : n < 4
  · left; simpa using h
  · right
    refine ⟨List.replicate (n - 4) false, ?_⟩
    have : bitsBE 4 0 = List.replicate 4 false := by decide
    rw [this, List.replicate_append_replicate]
    congr 1; omega

theorem format_clean (m : Nat → Nat → Bool) (d : Nat)
    (h : ∀ i, i < 15 → m (formatPos1 i).1 (formatPos1 i).2 = (formatWord d ^^^ formatMask).testBit i) :
    wrongFormatBits formatPos1 m d = 0 := by
  unfold wrongFormatBits
  rw [List.length_eq_zero_iff, List.filter_eq_nil_iff]
  intro i hi
  rw [h i (by simpa using hi)]
  simp

/-- A symbol for given segments: its modules, codewords and blocks. -/
theorem message_symbol {v : Nat} (h1 : 1 ≤ v) (l : Level) (mask : Nat) (ss : List Segment)
    (hfit : (ss.flatMap (·.encode v)).length ≤ 8 * dataCount v l) (m0 : Nat → Nat → Bool) :
    ∃ m R c tail, Carries v mask m R ∧ Blocks v l c ∧ (∀ i, damage v l R c i = 0) ∧ Ends tail ∧
      bytesBits (dataCodewords v l c) = ss.flatMap (·.encode v) ++ tail ∧
      wrongFormatBits formatPos1 m (formatData l mask) = 0 ∧
      ∀ y x, isFunction v y x = true → (∀ i, i < 15 → formatPos1 i ≠ (y, x)) → m y x = m0 y x := by
  obtain ⟨bs, b1, b2⟩ := bytes_of_bits (dataCount v l)
    (ss.flatMap (·.encode v) ++ List.replicate (8 * dataCount v l - (ss.flatMap (·.encode v)).length) false)
    (by rw [List.length_append, List.length_replicate]; omega)
  obtain ⟨c, c1, c2⟩ := blocks_encode v l bs b1
  obtain ⟨m, m1, m2, m3⟩ := symbol_exists h1 mask (sequenceOf v l c) (formatWord (formatData l mask) ^^^ formatMask) m0
  exact ⟨m, _, c, _, m1, c1, damage_sequenceOf l c1, ends_pad _, by rw [c2, b2], format_clean m _ m2, m3⟩

/-- **C54.** Every message that fits has a symbol: for every version but 21, level, mask and list of segments not longer than the symbol's data capacity, there are modules - agreeing with any given ones on
all function modules outside the first format copy - that decode to exactly the payload of the segments. -/
theorem C54_every_message_has_a_symbol (v : Nat) (h1 : 1 ≤ v) (h40 : v ≤ 40) (h21 : v ≠ 21) (l : Level) (mask : Nat)
    (hm : mask < 8) (ss : List Segment) (hss : ∀ s ∈ ss, s.Fits v)
    (hfit : (ss.flatMap (·.encode v)).length ≤ 8 * dataCount v l) (m0 : Nat → Nat → Bool) :
    ∃ m : Nat → Nat → Bool,
      (∀ y x, isFunction v y x = true → (∀ i, i < 15 → formatPos1 i ≠ (y, x)) → m y x = m0 y x) ∧
      ∀ code : BitGrid, Shows code m → code.size = side v → ∀ out,
        Grid.decode_to vecWriter code out =
          (.ok { version := v, ecc_level := l.bits, mask := mask }, out ++ ss.flatMap (·.payload)) := by
  obtain ⟨m, R, c, tail, a1, a2, a3, a4, a5, a6, a7⟩ := message_symbol h1 l mask ss hfit m0
  refine ⟨m, a7, ?_⟩
  intro code hs hsz out
  refine C26_end_to_end hs v h1 h40 h21 hsz l mask hm (by omega) R a1 c a2 ?_ ss hss tail a4 a5 out
  intro i _
  rw [a3]
  have : ∀ v < 41, v = 0 ∨ ∀ l ∈ [Level.L, .M, .Q, .H], 2 ≤ ecLen v l := by decide +kernel
  have h2 : 2 ≤ ecLen v l := by
    rcases this v (by omega) with h | h
    · omega
    · exact h l (by cases l <;> simp)
  split <;> omega

/-- **C54.** For strings: every string whose UTF-8 bytes fit in one byte segment is the decoding of some `SimpleGrid`. -/
theorem C54_every_string (v : Nat) (h1 : 1 ≤ v) (h40 : v ≤ 40) (h21 : v ≠ 21) (l : Level) (mask : Nat) (hm : mask < 8)
    (s : String) (hss : (Segment.byte (utf8 s)).Fits v)
    (hfit : ((Segment.byte (utf8 s)).encode v).length ≤ 8 * dataCount v l) :
    ∃ f g, SimpleGrid.from_func (side v) f = .ok g ∧
      Grid.decode g.toBitGrid = .ok ({ version := v, ecc_level := l.bits, mask := mask }, s) := by
  obtain ⟨m, _, hm⟩ := C54_every_message_has_a_symbol v h1 h40 h21 l mask hm [.byte (utf8 s)] (by simpa using hss)
    (by simpa using hfit) fun _ _ => false
  obtain ⟨g, g1, g2, g3⟩ := C29_shows (side v) fun x y => m y x
  refine ⟨_, g, g1, ?_⟩
  rw [C22_decode_ok, hm _ g3 g2]
  simp [Segment.payload]

/-- A version 1-L symbol for `hi`. -/
example : ∃ f g, SimpleGrid.from_func 21 f = .ok g ∧
    Grid.decode g.toBitGrid = .ok ({ version := 1, ecc_level := 1, mask := 5 }, "hi") :=
  C54_every_string 1 (by omega) (by omega) (by omega) .L 5 (by omega) "hi" (by decide) (by decide)

/-- The hypotheses of C26 hold for damaged symbols too: any codeword sequence that differs from an undamaged one in one
place is carried by some symbol. Here the first codeword of a version 1-H symbol (17 check codewords) is replaced. -/
example (b : Byte) : ∃ m R c tail, Carries 1 3 m R ∧ R 0 = b ∧ Blocks 1 .H c ∧
    (∀ i, i < blockCount 1 .H → damage 1 .H R c i + (if isLong 1 .H i then 1 else 0) ≤ ecLen 1 .H / 2) ∧ Ends tail ∧
    wrongFormatBits formatPos1 m (formatData .H 3) = 0 ∧
    bytesBits (dataCodewords 1 .H c) = [Segment.numeric [4, 2]].flatMap (·.encode 1) ++ tail := by
  obtain ⟨m, R, c, tail, a1, a2, a3, a4, a5, a6, _⟩ :=
    message_symbol (v := 1) (by omega) .H 3 [.numeric [4, 2]] (by decide) fun _ _ => false
  obtain ⟨m', b1, b2, _⟩ := symbol_exists (v := 1) (by omega) 3 (fun k => if k = 0 then b else R k)
    (formatWord (formatData .H 3) ^^^ formatMask) fun _ _ => false
  refine ⟨m', _, c, tail, b1, rfl, a2, ?_, a4, format_clean m' _ b2, a5⟩
  intro i hi
  have hle : damage 1 .H (fun k => if k = 0 then b else R k) c i ≤ 1 := by
    have h0 := a3 i
    unfold damage at h0 ⊢
    rw [Finset.card_eq_zero] at h0
    rw [Finset.card_le_one]
    have key : ∀ p ∈ (Finset.range (totalCodewords 1)).filter
        (fun p => wrongAt 1 .H (fun k => if k = 0 then b else R k) c i p), p = 0 := by
      intro p hp
      by_contra hne
      have : p ∈ (Finset.range (totalCodewords 1)).filter fun p => wrongAt 1 .H R c i p := by
        rw [Finset.mem_filter] at hp ⊢
        refine ⟨hp.1, ?_⟩
        have := hp.2
        unfold wrongAt at this ⊢
        simpa only [if_neg hne] using this
      rw [h0] at this
      simp at this
    intro p hp q hq
    rw [key p hp, key q hq]
  have : isLong 1 .H i = true ∨ isLong 1 .H i = false := by cases isLong 1 .H i <;> simp
  have he : ecLen 1 .H = 17 := by decide
  rw [he]
  split <;> omega

end Rqrr
