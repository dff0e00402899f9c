import Verif.Model.Lib
import Verif.Proofs.ReadData
import Verif.Proofs.Capacity

/-!
# C08, C10, C11, C12, C28: the raw bit stream
-/

namespace Rqrr

open Spec

/-- Bit `n` of a raw stream, most significant bit of each byte first. -/
def rawBit (r : RawData) (n : Nat) : Option Bool := if n < r.len then some (dataBit r.data n) else none

theorem Holds.rawBit {r : RawData} {bits : List Bool} (h : Holds r bits) (n : Nat) : rawBit r n = bits[n]? := by
  unfold Rqrr.rawBit
  rw [h.len, h.bit]
  by_cases hn : n < bits.length
  · rw [if_pos hn, List.getD_eq_getElem _ _ hn, List.getElem?_eq_getElem hn]
  · rw [if_neg hn, List.getElem?_eq_none (by omega)]

theorem Holds.unique {r r' : RawData} {bits : List Bool} (h : Holds r bits) (h' : Holds r' bits) : r = r' := by
  have hd : r.data = r'.data := by
    apply Vector.ext
    intro i hi
    apply BitVec.eq_of_getMsbD_eq
    intro j hj
    have e := (h.bit (8 * i + j)).trans (h'.bit (8 * i + j)).symm
    unfold dataBit at e
    have e1 : (8 * i + j) / 8 = i := by omega
    have e2 : (8 * i + j) % 8 = j := by omega
    rw [dif_pos (by omega), dif_pos (by omega)] at e
    simp only [e1, e2] at e
    exact e
  cases r; cases r'
  simp only at hd
  subst hd
  have := h.len.trans h'.len.symm
  simp only at this
  subst this
  rfl

/-! ## C08: placement order -/

/-- The placement order of ISO 18004 lists every module that is not in a function, format or version area exactly
once. -/
theorem C08_path_complete (v : Nat) (h1 : 1 ≤ v) : (dataPath v).Nodup ∧
    ∀ y x, (y, x) ∈ dataPath v ↔ y < side v ∧ x < side v ∧ isFunction v y x = false := by
  have hodd : side v % 2 = 1 := by unfold side; omega
  have h9 : 9 ≤ side v := by unfold side; omega
  refine ⟨(zigzag_nodup _ hodd h9).filter _, ?_⟩
  intro y x
  unfold dataPath
  rw [List.mem_filter, zigzag_mem _ hodd h9]
  constructor
  · rintro ⟨⟨a, b, c⟩, d⟩
    exact ⟨a, b, by simpa using d⟩
  · rintro ⟨a, b, c⟩
    refine ⟨⟨a, b, ?_⟩, by simpa using c⟩
    rintro rfl
    unfold isFunction isFunctionOf inTiming at c
    simp at c

/-- What a raw read of a grid of version `v` sees, in terms of the alignment coordinates in the program's table. -/
theorem get_raw_path {code : BitGrid} {m : Nat → Nat → Bool} (h : Shows code m) (v : Nat) (h1 : 1 ≤ v) (h40 : v ≤ 40)
    (hs : code.size = side v) (rm : Bool) (md : MetaData) (ds : RawData) (hr : get_raw code rm = .ok (md, ds)) :
    md.version = v ∧ md.mask < 8 ∧ Holds ds (((zigzag (side v)).filter fun p =>
      !isFunctionOf (codeCoords v) v p.1 p.2).map (cellBit m md.mask rm)) := by
  have h9 : 9 ≤ code.size := by rw [hs]; unfold side; omega
  rcases get_raw_eq h h9 rm with ⟨md', ds', e1, _, _, _, e5, e6, e7, e8, e10, e11⟩ | ⟨e, e1, _⟩
  · rw [e1] at hr; cases hr
    have hv : md.version = v := by rw [e5, hs]; unfold side; omega
    refine ⟨hv, e10, ?_⟩
    rw [hs, ← hv, pathBits_dataPath md rm e6 e7] at e11
    rw [hv] at e11
    exact e11
  · rw [e1] at hr; cases hr

/-- **C08.** For every version but 21, a raw read lists the data modules in ISO order: bit `n` of the stream is the
`n`-th module of the placement path (with the mask condition removed if asked). -/
theorem C08_stream_is_path {code : BitGrid} {m : Nat → Nat → Bool} (h : Shows code m) (v : Nat) (h1 : 1 ≤ v)
    (h40 : v ≤ 40) (h21 : v ≠ 21) (hs : code.size = side v) (rm : Bool) (md : MetaData) (ds : RawData)
    (hr : get_raw code rm = .ok (md, ds)) (n : Nat) :
    rawBit ds n = ((dataPath v)[n]?).map fun p => m p.1 p.2 ^^ (rm && maskCond md.mask p.1 p.2) := by
  obtain ⟨_, _, hh⟩ := get_raw_path h v h1 h40 hs rm md ds hr
  rw [codeCoords_iso v (by omega) h21] at hh
  rw [hh.rawBit, List.getElem?_map]
  rfl

/-! ## C10: capacity -/

theorem path_card (cs : List Nat) (v : Nat) (h1 : 1 ≤ v) :
    ((zigzag (side v)).filter fun p => !isFunctionOf cs v p.1 p.2).length = (dataCells cs v).card := by
  have hodd : side v % 2 = 1 := by unfold side; omega
  have h9 : 9 ≤ side v := by unfold side; omega
  rw [← List.toFinset_card_of_nodup ((zigzag_nodup _ hodd h9).filter _)]
  congr 1
  ext ⟨y, x⟩
  rw [List.mem_toFinset, List.mem_filter, zigzag_mem _ hodd h9]
  unfold dataCells
  simp only [Finset.mem_filter, Finset.mem_product, Finset.mem_range]
  constructor
  · rintro ⟨⟨a, b, c⟩, d⟩
    exact ⟨⟨a, b⟩, by simpa using d⟩
  · rintro ⟨⟨a, b⟩, c⟩
    refine ⟨⟨a, b, ?_⟩, by simpa using c⟩
    rintro rfl
    unfold isFunctionOf inTiming at c
    simp at c

/-- **C10.** A raw read returns exactly the capacity of the symbol, whatever the grid contains. -/
theorem C10_capacity {code : BitGrid} {m : Nat → Nat → Bool} (h : Shows code m) (v : Nat) (h1 : 1 ≤ v) (h40 : v ≤ 40)
    (hs : code.size = side v) (rm : Bool) (md : MetaData) (ds : RawData) (hr : get_raw code rm = .ok (md, ds)) :
    ds.len = 8 * totalCodewords v + remainderBits v ∧ ds.len ≤ 8 * MAX_PAYLOAD_SIZE := by
  obtain ⟨_, _, hh⟩ := get_raw_path h v h1 h40 hs rm md ds hr
  have e := hh.len
  rw [List.length_map, path_card _ v h1, dataCells_card v h1 h40] at e
  have hc : ∀ v < 41, v = 0 ∨ dataModules v = 8 * totalCodewords v + remainderBits v ∧ dataModules v ≤ 8 * 8896 := by
    decide +kernel
  rcases hc v (by omega) with h | ⟨a, b⟩
  · omega
  · exact ⟨by rw [e, a], by rw [e]; exact b⟩

/-! ## C11: masking -/

/-- **C11.** The two kinds of reads succeed together, report the same metadata, and differ at position `n` exactly if
the mask condition holds for the `n`-th data module. (The read without unmasking, `get_raw_data`, shows the modules as
they are: C08 with `rm = false`.) -/
theorem C11_unmasking {code : BitGrid} {m : Nat → Nat → Bool} (h : Shows code m) (v : Nat) (h1 : 1 ≤ v)
    (h40 : v ≤ 40) (h21 : v ≠ 21) (hs : code.size = side v) (md : MetaData) (ds : RawData)
    (hr : Grid.get_raw_data code = .ok (md, ds)) :
    ∃ ds', get_raw code true = .ok (md, ds') ∧ ds'.len = ds.len ∧
      ∀ n p, (dataPath v)[n]? = some p →
        rawBit ds n = some (m p.1 p.2) ∧ rawBit ds' n = some (m p.1 p.2 ^^ maskCond md.mask p.1 p.2) := by
  unfold Grid.get_raw_data at hr
  have h9 : 9 ≤ code.size := by rw [hs]; unfold side; omega
  rcases get_raw_eq h h9 false with ⟨md', ds', e1, e2, _⟩ | ⟨e, e1, _⟩
  · rw [e1] at hr; cases hr
    rcases get_raw_eq h h9 true with ⟨md', ds', f1, f2, _⟩ | ⟨e, _, f2, _⟩
    · rw [e2] at f2; cases f2
      refine ⟨ds', f1, ?_, ?_⟩
      · rw [(C10_capacity h v h1 h40 hs true md ds' f1).1, (C10_capacity h v h1 h40 hs false md ds e1).1]
      · intro n p hp
        rw [C08_stream_is_path h v h1 h40 h21 hs false md ds e1, C08_stream_is_path h v h1 h40 h21 hs true md ds' f1, hp]
        simp
    · rw [e2] at f2; cases f2
  · rw [e1] at hr; cases hr

/-! ## C28: what a read depends on -/

/-- **C28.** Two grids of version `v` (not 21) that agree on the format modules and outside the function patterns give
the same result, with or without unmasking. -/
theorem C28_only_data_and_format {code code' : BitGrid} {m m' : Nat → Nat → Bool} (h : Shows code m)
    (h' : Shows code' m') (v : Nat) (h1 : 1 ≤ v) (h40 : v ≤ 40) (h21 : v ≠ 21) (hs : code.size = side v)
    (hs' : code'.size = side v)
    (hfmt : ∀ i, i < 15 → m (formatPos1 i).1 (formatPos1 i).2 = m' (formatPos1 i).1 (formatPos1 i).2 ∧
      m (formatPos2 (side v) i).1 (formatPos2 (side v) i).2 = m' (formatPos2 (side v) i).1 (formatPos2 (side v) i).2)
    (hdata : ∀ y x, y < side v → x < side v → isFunction v y x = false → m y x = m' y x) (rm : Bool) :
    get_raw code rm = get_raw code' rm := by
  have h9 : 9 ≤ code.size := by rw [hs]; unfold side; omega
  have h9' : 9 ≤ code'.size := by rw [hs']; unfold side; omega
  have hw : ∀ f g : Nat → Bool, (∀ i, i < 15 → f i = g i) → word15 f = word15 g := by
    intro f g hfg
    unfold word15
    congr 1
    apply List.map_congr_left
    intro i hi
    rw [hfg i (by simpa using hi)]
  have hf : read_format code = read_format code' := by
    rw [read_format_eq h h9, read_format_eq h' h9']
    unfold copy1 copy2
    rw [hs, hs', hw _ _ fun i hi => (hfmt i hi).1, hw _ _ fun i hi => (hfmt i hi).2]
  rcases get_raw_eq h h9 rm with ⟨md, ds, e1, e2, _⟩ | ⟨e, e1, e2, _⟩
  · rcases get_raw_eq h' h9' rm with ⟨md', ds', f1, f2, _⟩ | ⟨e, _, f2, _⟩
    · rw [← hf, e2] at f2; cases f2
      obtain ⟨_, _, g1⟩ := get_raw_path h v h1 h40 hs rm md ds e1
      obtain ⟨_, _, g2⟩ := get_raw_path h' v h1 h40 hs' rm md ds' f1
      rw [codeCoords_iso v (by omega) h21] at g1 g2
      have hmap : ((zigzag (side v)).filter fun p => !isFunctionOf (alignCoords v) v p.1 p.2).map (cellBit m md.mask rm) =
          ((zigzag (side v)).filter fun p => !isFunctionOf (alignCoords v) v p.1 p.2).map (cellBit m' md.mask rm) := by
        apply List.map_congr_left
        rintro ⟨y, x⟩ hp
        obtain ⟨a, b, c⟩ := ((C08_path_complete v h1).2 y x).mp hp
        unfold cellBit
        simp only
        rw [hdata y x a b c]
      rw [hmap] at g1
      rw [e1, f1, g1.unique g2]
    · rw [← hf, e2] at f2; cases f2
  · rcases get_raw_eq h' h9' rm with ⟨md', ds', f1, f2, _⟩ | ⟨e', f1, f2, _⟩
    · rw [← hf, e2] at f2; cases f2
    · rw [← hf, e2] at f2; cases f2
      rw [e1, f1]

/-! ## C12: bit buffers -/

/-- Push a list of bits. -/
def pushAll (r : RawData) : List Bool → Run RawData
  | [] => .ok r
  | b :: bs => r.push b >>= fun r => pushAll r bs

/-- **C12.** Pushing at most `8 * 8896` bits succeeds and packs them most significant bit first. -/
theorem C12_push (bits : List Bool) (hlen : bits.length ≤ 8 * MAX_PAYLOAD_SIZE) :
    ∃ r, pushAll RawData.empty bits = .ok r ∧ r.len = bits.length ∧ ∀ n, rawBit r n = bits[n]? := by
  have key : ∀ (bs pre : List Bool) (r : RawData), Holds r pre → pre.length + bs.length ≤ 8 * MAX_PAYLOAD_SIZE →
      ∃ r', pushAll r bs = .ok r' ∧ Holds r' (pre ++ bs) := by
    intro bs
    induction bs with
    | nil => intro pre r h _; exact ⟨r, rfl, by simpa using h⟩
    | cons b bs ih =>
      intro pre r h hl
      rw [List.length_cons] at hl
      obtain ⟨r', e1, e2⟩ := h.push (by omega) b
      obtain ⟨r'', e3, e4⟩ := ih (pre ++ [b]) r' e2 (by rw [List.length_append, List.length_singleton]; omega)
      refine ⟨r'', ?_, by simpa using e4⟩
      unfold pushAll
      rw [e1, Run.ok_bind, e3]
  obtain ⟨r, e1, e2⟩ := key bits [] RawData.empty holds_empty (by simpa using hlen)
  exact ⟨r, e1, by simpa using e2.len, fun n => by simpa using e2.rawBit n⟩

/-- Read fields of the given widths, one after the other. -/
def readAll (ds : CorrectedDataStream) : List Nat → Run (List Nat × CorrectedDataStream)
  | [] => .ok ([], ds)
  | n :: ns => ds.take_bits n >>= fun (x, ds) => readAll ds ns >>= fun (xs, ds) => .ok (x :: xs, ds)

/-- The big-endian number of a bit list. -/
def bigEndian : List Bool → Nat
  | [] => 0
  | b :: bs => b.toNat * 2 ^ bs.length + bigEndian bs

/-- Fields of the given widths cut from a bit list (fewer bits at the end of the list). -/
def fields (bits : List Bool) : List Nat → List Nat
  | [] => []
  | n :: ns => bigEndian (bits.take n) :: fields (bits.drop n) ns

theorem bigEndian_eq (bs : List Bool) : bigEndian bs = natOfBits bs := by
  induction bs with
  | nil => rfl
  | cons b bs ih =>
    rw [bigEndian, ih, show b :: bs = [b] ++ bs from rfl, natOfBits_append]
    simp [natOfBits]

/-- **C12.** Reading fields of widths up to 64 from a stream yields the next bits as big-endian numbers, each read
advancing by what it consumed and never beyond the end of the stream. -/
theorem C12_take_bits (d : Vector Byte MAX_PAYLOAD_SIZE) (bits : List Bool) (hlen : bits.length ≤ 8 * MAX_PAYLOAD_SIZE)
    (hd : ∀ n, n < bits.length → dataBit d n = bits.getD n false) (ns : List Nat) (hns : ∀ n ∈ ns, n ≤ 64) :
    ∃ ds', readAll { data := d, ptr := 0, bit_len := bits.length } ns = .ok (fields bits ns, ds') ∧
      ds'.ptr = min bits.length ns.sum ∧ ds'.bit_len = bits.length ∧ ds'.data = d := by
  have key : ∀ (ns : List Nat) (ds : CorrectedDataStream), ds.WF → (∀ n ∈ ns, n ≤ 64) →
      ∃ ds', readAll ds ns = .ok (fields ds.rest ns, ds') ∧ ds'.ptr = min ds.bit_len (ds.ptr + ns.sum) ∧
        ds'.bit_len = ds.bit_len ∧ ds'.data = ds.data := by
    intro ns
    induction ns with
    | nil => intro ds hw _; exact ⟨ds, rfl, by have := hw.ptr; simp; omega, rfl, rfl⟩
    | cons n ns ih =>
      intro ds hw hn
      obtain ⟨ds₁, e1, e2, e3, e4, e5, e6⟩ := take_bits_eq ds hw n (hn n (by simp))
      obtain ⟨ds₂, f1, f2, f3, f4⟩ := ih ds₁ e2 (fun k hk => hn k (by simp [hk]))
      refine ⟨ds₂, ?_, ?_, by rw [f3, e5], by rw [f4, e4]⟩
      · unfold readAll
        rw [e1, Run.ok_bind]
        dsimp only
        rw [f1, Run.ok_bind, e3]
        dsimp only
        rw [fields, bigEndian_eq]
      · have hp := hw.ptr
        have hl := ds.rest_length
        rw [f2, e5, e6, List.sum_cons]
        omega
  have hrest : (CorrectedDataStream.mk d 0 bits.length).rest = bits := by
    unfold CorrectedDataStream.rest
    apply List.ext_getElem (by simp)
    intro n h1 h2
    rw [List.getElem_map, List.getElem_range', hd _ (by simp at h1 ⊢; omega)]
    simp
    rw [List.getElem?_eq_getElem h2]; rfl
  obtain ⟨ds', e1, e2, e3, e4⟩ := key ns { data := d, ptr := 0, bit_len := bits.length } ⟨Nat.zero_le _, hlen⟩ hns
  rw [hrest] at e1
  exact ⟨ds', e1, by simpa using e2, e3, e4⟩

example : fields [true, false, true, true, false, true] [3, 2, 4] = [5, 2, 1] := by decide

/-! ## A grid meeting the hypotheses -/

/-- A version 1 grid: all modules light, except for the first format copy, which is that of level M, mask 5. -/
def sampleGrid : BitGrid :=
  { size := 21, bit := fun y x => .ok (((List.range 15).any fun i => formatPos1 i == (y, x) && Nat.testBit 0b100000011001110 i)) }

example : ∃ ds, get_raw sampleGrid false = .ok ({ version := 1, ecc_level := 0, mask := 5 }, ds) := by
  have h : Shows sampleGrid fun y x => (List.range 15).any fun i => formatPos1 i == (y, x) && Nat.testBit 0b100000011001110 i :=
    fun y x _ _ => rfl
  have hf : read_format sampleGrid = .ok { version := 1, ecc_level := 0, mask := 5 } := by decide +kernel
  rcases get_raw_eq h (by decide) false with ⟨md, ds, e1, e2, _⟩ | ⟨e, _, e2, _⟩
  · rw [hf] at e2; cases e2; exact ⟨ds, e1⟩
  · rw [hf] at e2; cases e2

end Rqrr
