import Verif.Props.Matrix

/-!
# C64: damaged and mirrored drawings

A drawing of a damaged symbol is read as long as the damage can be corrected. A drawing of the mirror image of a symbol is found as
well; it is read back unless the mirror image happens to be correctable as it stands. That can happen: there is a symbol with two
readings.
-/

namespace Rqrr

open Spec ImageBuffer

variable (F : Type) [FloatOps F] [Rounding F]

variable {S : Type} [ImageBuffer S] [LawfulImage S] {img0 : PreparedImage S} {v : Nat} {M : Nat → Nat → Bool} {P : Placement}

/-! ### Transposing a matrix -/

theorem square_transpose {n : Nat} {dark : Nat → Nat → Bool} (hd : ∀ i j, dark i j = dark j i) {y x : Nat} {m : Nat × Nat × Bool}
    (h : m ∈ square n dark y x) : (m.2.1, m.1, m.2.2) ∈ square n dark x y := by
  obtain ⟨i, j, hi, hj, rfl⟩ := mem_square_list h
  unfold square
  refine List.mem_flatMap.2 ⟨j, List.mem_range.2 hj, List.mem_map.2 ⟨i, List.mem_range.2 hi, ?_⟩⟩
  dsimp only
  rw [hd]

theorem finderDark_comm (i j : Nat) : finderDark i j = finderDark j i := by
  unfold finderDark
  rw [Nat.max_comm]

theorem alignDark_comm (i j : Nat) : alignDark i j = alignDark j i := by
  unfold alignDark
  rw [Nat.max_comm]

/-- The patterns of the standard are symmetric. -/
theorem pattern_transpose {m : Nat × Nat × Bool} (h : m ∈ patternModules v) : (m.2.1, m.1, m.2.2) ∈ patternModules v := by
  unfold patternModules finderModules at h ⊢
  simp only [List.mem_append] at h ⊢
  rcases h with (h | (h | h) | h) | h
  · refine .inl (.inl ?_)
    unfold timingModules at h ⊢
    obtain ⟨i, hi, h⟩ := List.mem_flatMap.1 h
    refine List.mem_flatMap.2 ⟨i, hi, ?_⟩
    simp only [List.mem_cons, List.not_mem_nil, or_false] at h ⊢
    rcases h with rfl | rfl
    · exact .inr rfl
    · exact .inl rfl
  · exact .inl (.inr (.inl (.inl (square_transpose finderDark_comm h))))
  · exact .inl (.inr (.inr (square_transpose finderDark_comm h)))
  · exact .inl (.inr (.inl (.inr (square_transpose finderDark_comm h))))
  · refine .inr ?_
    unfold alignModules at h ⊢
    obtain ⟨c, hc, h⟩ := List.mem_flatMap.1 h
    refine List.mem_flatMap.2 ⟨(c.2, c.1), ?_, square_transpose alignDark_comm h⟩
    obtain ⟨c1, c2, c3⟩ := mem_alignCentres hc
    unfold alignCentres
    refine List.mem_flatMap.2 ⟨c.2, c2, List.mem_map.2 ⟨c.1, List.mem_filter.2 ⟨c1, ?_⟩, rfl⟩⟩
    unfold isAlignCentre at c3 ⊢
    simp only [Bool.and_eq_true, Bool.not_eq_true', Bool.and_eq_false_iff, beq_eq_false_iff_ne] at c3 ⊢
    tauto

/-- The mirror image of a matrix with the patterns of the standard has them too. -/
theorem Spec.Patterned.transpose (h : Patterned v M) : Patterned v fun y x => M x y where
  pattern m hm := h.pattern _ (pattern_transpose hm)
  separators i hi := by
    obtain ⟨a, b, c, d, e, f⟩ := h.separators i hi
    exact ⟨b, a, f, e, d, c⟩

theorem adjacent_swap {p q : Pos} (h : Adj p q) : Adj p.swap q.swap := by
  unfold Adj at h ⊢
  simp only [Prod.fst_swap, Prod.snd_swap]
  omega

theorem reach_swap {A B : Pos → Prop} (hA : ∀ p, A p → B p.swap) {p q : Pos} (h : Reach A p q) : Reach B p.swap q.swap := by
  obtain ⟨h1, h2⟩ := h
  induction h2 with
  | refl => exact .refl (hA _ h1)
  | tail _ hb ih => exact ih.tail (adjacent_swap hb.1) (hA _ hb.2)

theorem cell_swap (column : Bool) (k t : Nat) : (cell column k t).swap = cell (!column) k t := by
  cases column <;> rfl

/-- Whether a matrix can be mistaken does not depend on the way it is looked at. -/
theorem Spec.Unmistakable.transpose {n s : Nat} (h : Unmistakable n M s) : Unmistakable n (fun y x => M x y) s := by
  have key : ∀ column k t t', Reach (DarkModule n M) (cell (!column) k t) (cell (!column) k t') ↔
      Reach (DarkModule n fun y x => M x y) (cell column k t) (cell column k t') := by
    intro column k t t'
    constructor
    · intro hr
      have := reach_swap (B := DarkModule n fun y x => M x y) (fun p hp => ⟨hp.2.1, hp.1, hp.2.2⟩) hr
      rwa [cell_swap, cell_swap, Bool.not_not] at this
    · intro hr
      have := reach_swap (B := DarkModule n M) (fun p hp => ⟨hp.2.1, hp.1, hp.2.2⟩) hr
      rwa [cell_swap, cell_swap] at this
  intro column k t0 t1 t2 t3 t4 t5 hk h5 hr h1 h2
  refine h (!column) k t0 t1 t2 t3 t4 t5 hk ?_ hr ((key _ _ _ _).2 h1) fun h' => h2 ((key _ _ _ _).1 h')
  have e : lineOf n M (!column) k = lineOf n (fun y x => M x y) column k := by
    funext t
    cases column <;> rfl
  rw [e]
  exact h5

/-! ### Damaged drawings -/

/-- **C64.** A drawing of a damaged symbol is read as long as C26 allows for the damage: the first copy of the format information has at
most three wrong modules, and each block at most as many wrong codewords as can be corrected. The finder, timing and alignment
patterns are intact. -/
theorem C64_damaged (h0 : Fresh img0) (hwd : width img0.buffer ≤ 32768) (hht : height img0.buffer ≤ 32768)
    (h1 : 1 ≤ v) (h40 : v ≤ 40) (h21 : v ≠ 21) (hr : Renders img0 (side v) M P) (hM : Patterned v M)
    (hI : P.InRange (side v)) (hO : OnlyFinders img0 (side v) P) (l : Level) (mask : Nat) (hm : mask < 8)
    (hw : wrongFormatBits formatPos1 M (formatData l mask) ≤ 3) (R : Nat → Byte)
    (hR : Carries v mask M R) (c : Nat → List Byte) (hc : Blocks v l c)
    (hd : ∀ i, i < blockCount v l → damage v l R c i + (if isLong v l i then 1 else 0) ≤ ecLen v l / 2)
    (ss : List Segment) (hss : ∀ s ∈ ss, s.Fits v) (tail : List Bool) (ht : Ends tail)
    (hbits : bytesBits (dataCodewords v l c) = ss.flatMap (·.encode v) ++ tail) :
    ∃ img g, img0.detect_grids F = .ok (img, [g]) ∧ ∀ out, Grid.decode_to vecWriter (RefGridImage g.location img) out =
      (.ok { version := v, ecc_level := l.bits, mask := mask }, out ++ ss.flatMap (·.payload)) := by
  obtain ⟨img, g, e, e1, e2, -⟩ := C57_detected F h0 hwd hht h1 h40 h21 hr hM hI hO
  have s1 : (RefGridImage g.location img).size = side v := e1
  exact ⟨img, g, e, C26_end_to_end (fun y x hy hx => e2 y x (s1 ▸ hy) (s1 ▸ hx)) v h1 h40 h21 s1 l mask hm hw R hR c hc hd ss hss tail ht hbits⟩

/-! ### Mirrored drawings -/

/-- **C64.** A drawing of the mirror image of a symbol is found, its modules are read as drawn, and it decodes to the content of the symbol -
unless the mirror image can itself be read and corrected. -/
theorem C64_mirrored (h0 : Fresh img0) (hwd : width img0.buffer ≤ 32768) (hht : height img0.buffer ≤ 32768)
    (h1 : 1 ≤ v) (h40 : v ≤ 40) (h21 : v ≠ 21) (hr : Renders img0 (side v) (fun y x => M x y) P) (hM : Patterned v M)
    (hI : P.InRange (side v)) (hO : OnlyFinders img0 (side v) P) (l : Level) (mask : Nat) (hm : mask < 8)
    (hw : wrongFormatBits formatPos1 M (formatData l mask) ≤ 3) (R : Nat → Byte)
    (hR : Carries v mask M R) (c : Nat → List Byte) (hc : Blocks v l c)
    (hd : ∀ i, i < blockCount v l → damage v l R c i + (if isLong v l i then 1 else 0) ≤ ecLen v l / 2)
    (ss : List Segment) (hss : ∀ s ∈ ss, s.Fits v) (tail : List Bool) (ht : Ends tail)
    (hbits : bytesBits (dataCodewords v l c) = ss.flatMap (·.encode v) ++ tail) :
    ∃ img g, img0.detect_grids F = .ok (img, [g]) ∧
      (∀ y x, y < side v → x < side v → (RefGridImage g.location img).bit y x = .ok (M x y)) ∧
      ((∃ r, decode_stream (RefGridImage g.location img) = .ok r) ∨ ∀ out, Grid.decode_to vecWriter (RefGridImage g.location img) out =
        (.ok { version := v, ecc_level := l.bits, mask := mask }, out ++ ss.flatMap (·.payload))) := by
  have hs : side v = 17 + 4 * v := rfl
  obtain ⟨img, g, e, e1, e2, -⟩ := C57_detected F h0 hwd hht h1 h40 h21 hr hM.transpose hI hO
  have s1 : (RefGridImage g.location img).size = side v := e1
  have hsh : Shows (RefGridImage g.location img) fun y x => M x y := fun y x hy hx => e2 y x (s1 ▸ hy) (s1 ▸ hx)
  refine ⟨img, g, e, e2, ?_⟩
  rcases decode_stream_cases hsh (by omega) with ⟨md, cs, f, -⟩ | ⟨f, f1, -⟩
  · exact .inl ⟨_, f⟩
  · exact .inr (C26_mirrored hsh v h1 h40 h21 s1 l mask hm ⟨f, f1⟩ hw R hR c hc hd ss hss tail ht hbits)

/-- The format that the format information of a mirrored symbol is taken for. -/
def mistakenFormat (d : Nat) : Nat :=
  [28, 21, 26, 31, 6, 29, 4, 16, 18, 12, 30, 18, 9, 18, 13, 24, 7, 18, 13, 22, 13, 1, 19, 13, 15, 27, 2, 25, 0, 5, 10, 3].getD d 0

/-- The format information of a symbol as it is read in the mirror image. -/
def mirroredWord (d : Nat) : Nat := word15 (fun i => (formatWord d ^^^ formatMask).testBit (14 - i)) ^^^ formatMask

theorem mistaken_near : ∀ d < 32, mistakenFormat d < 32 ∧ mistakenFormat d ≠ d ∧
    (d ∈ [8, 11, 14, 17, 20, 23] ∨ bitDist (mirroredWord d) (formatWord (mistakenFormat d)) ≤ 3) := by
  decide +kernel

theorem mistaken_far : ∀ d ∈ [8, 11, 14, 17, 20, 23], correct_format (mirroredWord d) = .ok (formatWord (mistakenFormat d)) := by
  decide +kernel

theorem mistaken_table (d : Nat) (hd : d < 32) : mistakenFormat d < 32 ∧ mistakenFormat d ≠ d ∧
    correct_format (mirroredWord d) = .ok (formatWord (mistakenFormat d)) := by
  obtain ⟨h1, h2, h | h⟩ := mistaken_near d hd
  · exact ⟨h1, h2, mistaken_far d h⟩
  · exact ⟨h1, h2, correct_format_corrects _ (copy_lt _) _ h1 h⟩

/-- **C64.** The format information does not tell mirrored symbols: in the mirror image of a symbol with undamaged format information, of
whatever level and mask, it is always corrected to the format information of another level or another mask. So `get_raw_data`
succeeds with the wrong mask, and `decode` depends on the error correction of the data to find out. -/
theorem C64_mirrored_format {code : BitGrid} (h : Shows code fun y x => M x y) (hs : 21 ≤ code.size) (hs' : code.size ≤ 180) (d : Nat) (hd : d < 32)
    (hw : wrongFormatBits formatPos1 M d = 0) :
    mistakenFormat d < 32 ∧ mistakenFormat d ≠ d ∧ read_format code = .ok (metaOf code.size (mistakenFormat d)) := by
  obtain ⟨t1, t2, t3⟩ := mistaken_table d hd
  refine ⟨t1, t2, ?_⟩
  have e : ∀ i < 15, M (formatPos1 i).1 (formatPos1 i).2 = (formatWord d ^^^ formatMask).testBit i := by
    unfold wrongFormatBits at hw
    rw [List.length_eq_zero_iff, List.filter_eq_nil_iff] at hw
    intro i hi
    have := hw i (by simpa using hi)
    simpa using this
  have e' : copy1 (fun y x => M x y) = word15 fun i => (formatWord d ^^^ formatMask).testBit (14 - i) := by
    unfold copy1 word15
    congr 1
    apply List.map_congr_left
    intro i hi
    have hi : i < 15 := by simpa using hi
    have : ∀ i < 15, ((formatPos1 i).2, (formatPos1 i).1) = formatPos1 (14 - i) := by decide
    have := this i hi
    dsimp only
    rw [← e (14 - i) (by omega), ← this]
  unfold mirroredWord at t3
  rw [read_format_eq h (by omega), e', t3]
  show mdOf _ _ = _
  rw [mdOf_formatWord _ _ t1, if_pos ⟨hs, hs'⟩]
  rfl

/-! ### A symbol with two readings -/

/-- A version 1-L symbol with mask 1. -/
def yesNoRows : List Nat :=
  [ 0b111111101111001111111,
    0b100000101110001000001,
    0b101110100000101011101,
    0b101110100010001011101,
    0b101110101110001011101,
    0b100000101000101000001,
    0b111111101010101111111,
    0b000000001000100000000,
    0b111001101001111110011,
    0b101011000010111111001,
    0b111111101001111110101,
    0b101010001000100111010,
    0b000110101111111100010,
    0b000000001001010000011,
    0b111111100000011000001,
    0b100000101000010110011,
    0b101110100101011011111,
    0b101110100101000110100,
    0b101110101010100110111,
    0b100000101110011011000,
    0b111111101001000111001 ]

/-- Its connected parts. -/
def yesNoParts : List (List Nat) :=
  [ [0, 0, 0, 0, 0, 0, 0, 0, 8, 8, 8, 8, 0, 0, 14, 14, 14, 14, 14, 14, 14],
    [0, 0, 0, 0, 0, 0, 0, 0, 8, 8, 8, 0, 0, 0, 14, 0, 0, 0, 0, 0, 14],
    [0, 0, 44, 44, 44, 0, 0, 0, 0, 0, 0, 0, 54, 0, 14, 0, 58, 58, 58, 0, 14],
    [0, 0, 44, 44, 44, 0, 0, 0, 0, 0, 73, 0, 0, 0, 14, 0, 58, 58, 58, 0, 14],
    [0, 0, 44, 44, 44, 0, 0, 0, 73, 73, 73, 0, 0, 0, 14, 0, 58, 58, 58, 0, 14],
    [0, 0, 0, 0, 0, 0, 0, 0, 73, 0, 0, 0, 117, 0, 14, 0, 0, 0, 0, 0, 14],
    [0, 0, 0, 0, 0, 0, 0, 0, 73, 0, 136, 0, 117, 0, 14, 14, 14, 14, 14, 14, 14],
    [0, 0, 0, 0, 0, 0, 0, 0, 73, 0, 0, 0, 117, 0, 0, 0, 0, 0, 0, 0, 0],
    [168, 168, 168, 0, 0, 168, 168, 0, 73, 0, 0, 117, 117, 117, 117, 117, 117, 0, 0, 187, 187],
    [168, 0, 168, 0, 168, 168, 0, 0, 0, 0, 199, 0, 117, 117, 117, 117, 117, 117, 0, 0, 187],
    [168, 168, 168, 168, 168, 168, 168, 0, 117, 0, 0, 117, 117, 117, 117, 117, 117, 0, 228, 0, 187],
    [168, 0, 168, 0, 168, 0, 0, 0, 117, 0, 0, 0, 117, 0, 0, 117, 117, 117, 0, 250, 0],
    [0, 0, 0, 168, 168, 0, 258, 0, 117, 117, 117, 117, 117, 117, 117, 117, 0, 0, 0, 250, 0],
    [0, 0, 0, 0, 0, 0, 0, 0, 117, 0, 0, 117, 0, 117, 0, 0, 0, 0, 0, 250, 250],
    [294, 294, 294, 294, 294, 294, 294, 0, 0, 0, 0, 0, 0, 117, 117, 0, 0, 0, 0, 0, 250],
    [294, 0, 0, 0, 0, 0, 294, 0, 323, 0, 0, 0, 0, 117, 0, 250, 250, 0, 0, 250, 250],
    [294, 0, 338, 338, 338, 0, 294, 0, 0, 345, 0, 347, 0, 117, 117, 0, 250, 250, 250, 250, 250],
    [294, 0, 338, 338, 338, 0, 294, 0, 0, 345, 0, 347, 0, 0, 0, 250, 250, 0, 250, 0, 0],
    [294, 0, 338, 338, 338, 0, 294, 0, 386, 0, 386, 0, 390, 0, 0, 250, 250, 0, 250, 250, 250],
    [294, 0, 0, 0, 0, 0, 294, 0, 386, 386, 386, 0, 0, 412, 412, 0, 250, 250, 0, 0, 0],
    [294, 294, 294, 294, 294, 294, 294, 0, 386, 0, 0, 431, 0, 0, 0, 250, 250, 250, 0, 0, 440] ]

/-- Distances within them. -/
def yesNoDepths : List (List Nat) :=
  [ [0, 1, 2, 3, 4, 5, 6, 0, 0, 1, 2, 3, 0, 0, 0, 1, 2, 3, 4, 5, 6],
    [1, 0, 0, 0, 0, 0, 7, 0, 1, 2, 3, 0, 0, 0, 1, 0, 0, 0, 0, 0, 7],
    [2, 0, 0, 1, 2, 0, 8, 0, 0, 0, 0, 0, 0, 0, 2, 0, 0, 1, 2, 0, 8],
    [3, 0, 1, 2, 3, 0, 9, 0, 0, 0, 0, 0, 0, 0, 3, 0, 1, 2, 3, 0, 9],
    [4, 0, 2, 3, 4, 0, 10, 0, 3, 2, 1, 0, 0, 0, 4, 0, 2, 3, 4, 0, 10],
    [5, 0, 0, 0, 0, 0, 11, 0, 4, 0, 0, 0, 0, 0, 5, 0, 0, 0, 0, 0, 11],
    [6, 7, 8, 9, 10, 11, 12, 0, 5, 0, 0, 0, 1, 0, 6, 7, 8, 9, 10, 11, 12],
    [0, 0, 0, 0, 0, 0, 0, 0, 6, 0, 0, 0, 2, 0, 0, 0, 0, 0, 0, 0, 0],
    [0, 1, 2, 0, 0, 9, 10, 0, 7, 0, 0, 4, 3, 4, 5, 6, 7, 0, 0, 0, 1],
    [1, 0, 3, 0, 7, 8, 0, 0, 0, 0, 0, 0, 4, 5, 6, 7, 8, 9, 0, 0, 2],
    [2, 3, 4, 5, 6, 7, 8, 0, 13, 0, 0, 6, 5, 6, 7, 8, 9, 0, 0, 0, 3],
    [3, 0, 5, 0, 7, 0, 0, 0, 12, 0, 0, 0, 6, 0, 0, 9, 10, 11, 0, 0, 0],
    [0, 0, 0, 9, 8, 0, 0, 0, 11, 10, 9, 8, 7, 8, 9, 10, 0, 0, 0, 1, 0],
    [0, 0, 0, 0, 0, 0, 0, 0, 12, 0, 0, 9, 0, 9, 0, 0, 0, 0, 0, 2, 3],
    [0, 1, 2, 3, 4, 5, 6, 0, 0, 0, 0, 0, 0, 10, 11, 0, 0, 0, 0, 0, 4],
    [1, 0, 0, 0, 0, 0, 7, 0, 0, 0, 0, 0, 0, 11, 0, 12, 11, 0, 0, 6, 5],
    [2, 0, 0, 1, 2, 0, 8, 0, 0, 0, 0, 0, 0, 12, 13, 0, 10, 9, 8, 7, 6],
    [3, 0, 1, 2, 3, 0, 9, 0, 0, 1, 0, 1, 0, 0, 0, 12, 11, 0, 9, 0, 0],
    [4, 0, 2, 3, 4, 0, 10, 0, 0, 0, 4, 0, 0, 0, 0, 13, 12, 0, 10, 11, 12],
    [5, 0, 0, 0, 0, 0, 11, 0, 1, 2, 3, 0, 0, 0, 1, 0, 13, 14, 0, 0, 0],
    [6, 7, 8, 9, 10, 11, 12, 0, 2, 0, 0, 0, 0, 0, 0, 15, 14, 15, 0, 0, 0] ]

def yesNo (y x : Nat) : Bool := (yesNoRows.getD y 0).testBit (20 - x)

def yesNoGrid : BitGrid := ⟨21, fun y x => .ok (yesNo y x)⟩

theorem yesNo_patterned : Patterned 1 yesNo := by
  constructor
  · decide +kernel
  · decide +kernel

def yesNoTable : Parts := ⟨fun y x => (yesNoParts.getD y []).getD x 0, fun y x => (yesNoDepths.getD y []).getD x 0⟩

theorem yesNo_unmistakable {s : Nat} (hs : 2 ≤ s) : Unmistakable 21 yesNo s :=
  unmistakable_of_check (t := yesNoTable) (by decide +kernel) hs

theorem yesNo_yes : Grid.decode_to vecWriter yesNoGrid [] = (.ok { version := 1, ecc_level := 1, mask := 1 }, [0x79, 0x65, 0x73]) := by
  decide +kernel

theorem yesNo_no : Grid.decode_to vecWriter (MirroredGrid yesNoGrid) [] = (.ok { version := 1, ecc_level := 1, mask := 4 }, [0x6e, 0x6f]) := by
  decide +kernel

/-- **C64.** There is a symbol with two readings: every drawing of it reads `yes`, and every drawing of its mirror image reads `no`. Both
are undamaged. So the condition in `C64_mirrored` cannot be dropped. -/
theorem C64_two_readings (w h : Nat) (P : Placement) (hw : w ≤ 32768) (hh : h ≤ 32768) (hF : P.Fits w h 21) (hI : P.InRange 21) :
    (∃ img0, PreparedImage.prepare_from_bitmap w h (fun _ x y => (P.dark 21 yesNo x y, ())) () = (.ok img0, ()) ∧
      ∃ img g, img0.detect_grids F = .ok (img, [g]) ∧
        Grid.decode (RefGridImage g.location img) = .ok ({ version := 1, ecc_level := 1, mask := 1 }, "yes")) ∧
    ∃ img0, PreparedImage.prepare_from_bitmap w h (fun _ x y => (P.dark 21 (fun y x => yesNo x y) x y, ())) () = (.ok img0, ()) ∧
      ∃ img g, img0.detect_grids F = .ok (img, [g]) ∧
        Grid.decode (RefGridImage g.location img) = .ok ({ version := 1, ecc_level := 1, mask := 4 }, "no") := by
  constructor
  · obtain ⟨img0, e, h0, ew, eh, hR⟩ := bitmap_pictures (M := yesNo) hF hw hh
    have hO := C60_nothing_mistaken (by omega) hR (yesNo_unmistakable hF.scale)
    refine ⟨img0, e, ?_⟩
    obtain ⟨img, g, d, d1⟩ := C57_decoded F (v := 1) h0 (by omega) (by omega) (by omega) (by omega) (by omega) hR.renders yesNo_patterned hI hO
      yesNoGrid rfl fun _ _ _ _ => rfl
    refine ⟨img, g, d, ?_⟩
    rw [C22_decode_ok, d1, yesNo_yes]
    decide
  · obtain ⟨img0, e, h0, ew, eh, hR⟩ := bitmap_pictures (M := fun y x => yesNo x y) hF hw hh
    have hO := C60_nothing_mistaken (by omega) hR (yesNo_unmistakable hF.scale).transpose
    refine ⟨img0, e, ?_⟩
    obtain ⟨img, g, d, d1⟩ := C57_decoded F (v := 1) h0 (by omega) (by omega) (by omega) (by omega) (by omega) hR.renders
      yesNo_patterned.transpose hI hO (MirroredGrid yesNoGrid) rfl fun _ _ _ _ => rfl
    refine ⟨img, g, d, ?_⟩
    rw [C22_decode_ok, d1, yesNo_no]
    decide

/-- A case: in the middle of an image of 100 by 100 pixels, three pixels per module, turned. -/
example := C64_two_readings F64 100 100 ⟨⟨80, 20⟩, ⟨0, 1⟩, 3⟩ (by omega) (by omega)
  ⟨.inr (.inl rfl), by decide, by decide, by decide⟩ ⟨by decide, by decide⟩

/-- The mirror image of the symbol for `hi` is read back: as it stands it cannot be corrected. -/
theorem hi_mirrored : Grid.decode_to vecWriter (MirroredGrid hiGrid) [] = (.ok { version := 1, ecc_level := 0, mask := 1 }, [0x68, 0x69]) := by
  decide +kernel

/-- So every drawing of the mirror image of the symbol for `hi` reads `hi`. -/
theorem hi_mirrored_everywhere (w h : Nat) (P : Placement) (hw : w ≤ 32768) (hh : h ≤ 32768) (hF : P.Fits w h 21) (hI : P.InRange 21) :
    ∃ img0, PreparedImage.prepare_from_bitmap w h (fun _ x y => (P.dark 21 (fun y x => hi x y) x y, ())) () = (.ok img0, ()) ∧
      ∃ img g, img0.detect_grids F = .ok (img, [g]) ∧
        Grid.decode (RefGridImage g.location img) = .ok ({ version := 1, ecc_level := 0, mask := 1 }, "hi") := by
  obtain ⟨img0, e, h0, ew, eh, hR⟩ := bitmap_pictures (M := fun y x => hi x y) hF hw hh
  have hO := C60_nothing_mistaken (by omega) hR (hi_unmistakable hF.scale).transpose
  refine ⟨img0, e, ?_⟩
  obtain ⟨img, g, d, d1⟩ := C57_decoded F (v := 1) h0 (by omega) (by omega) (by omega) (by omega) (by omega) hR.renders
    hi_patterned.transpose hI hO (MirroredGrid hiGrid) rfl fun _ _ _ _ => rfl
  refine ⟨img, g, d, ?_⟩
  rw [C22_decode_ok, d1, hi_mirrored]
  decide

/-- The hypotheses of `C64_damaged` and `C64_mirrored` on the matrix hold for some matrix, for every message that fits. -/
example (v : Nat) (h1 : 1 ≤ v) (h40 : v ≤ 40) (l : Level) (mask : Nat) (ss : List Segment)
    (hfit : (ss.flatMap (·.encode v)).length ≤ 8 * dataCount v l) :
    ∃ M R c tail, Patterned v M ∧ wrongFormatBits formatPos1 M (formatData l mask) ≤ 3 ∧ Carries v mask M R ∧ Blocks v l c ∧
      (∀ i, damage v l R c i = 0) ∧ Ends tail ∧ bytesBits (dataCodewords v l c) = ss.flatMap (·.encode v) ++ tail := by
  obtain ⟨M, R, c, tail, a1, a2, a3, a4, a5, a6, a7⟩ := message_symbol h1 l mask ss hfit (blank v)
  exact ⟨M, R, c, tail, Patterned.transfer h1 h40 (blank_patterned h1 h40) a7, by omega, a1, a2, a3, a4, a5⟩

end Rqrr
