import Verif.Props.UnitTests
import Verif.Proofs.Decode

/-!
# C14-C21: payload decoding
-/

namespace Rqrr

open Spec

variable {σ : Type}

/-! ### Test streams -/

/-- The corrected stream with the given bytes (for the examples). -/
def streamOf (bytes : List Byte) : CorrectedDataStream :=
  { data := Vector.ofFn fun i => bytes.getD i 0, ptr := 0, bit_len := bytes.length * 8 }

theorem streamOf_rest (bytes : List Byte) (h : bytes.length ≤ MAX_PAYLOAD_SIZE) :
    (streamOf bytes).rest = bytesBits bytes := by
  apply rest_of_bytes h
  apply List.ext_getElem
  · simp [h]
  · intro i h1 h2
    simp [h2]

theorem streamOf_wf (bytes : List Byte) (h : bytes.length ≤ MAX_PAYLOAD_SIZE) : (streamOf bytes).WF :=
  ⟨Nat.zero_le _, by show bytes.length * 8 ≤ _; omega⟩

/-- The stream after `k` bits were read. -/
theorem streamOf_rest_from (bytes : List Byte) (h : bytes.length ≤ MAX_PAYLOAD_SIZE) (k : Nat) :
    ({ streamOf bytes with ptr := k } : CorrectedDataStream).rest = (bytesBits bytes).drop k := by
  rw [← streamOf_rest bytes h]
  unfold CorrectedDataStream.rest streamOf
  dsimp only
  rw [← List.map_drop, List.drop_range']
  simp

/-! ### Round trips -/

theorem runChunks_vec : ∀ (cs : List (List Byte)) (out : List Byte), runChunks vecWriter out cs = (true, out ++ cs.flatten)
  | [], out => by simp [runChunks]
  | c :: cs, out => by
    show runChunks vecWriter (out ++ c) cs = _
    rw [runChunks_vec cs, List.flatten_cons, List.append_assoc]

theorem decode_payload_vec (md : MetaData) (ds : CorrectedDataStream) (h : ds.WF) (out : List Byte) :
    decode_payload vecWriter md ds out = ((tPayload md.version ds.rest).2.map fun _ => (),
      out ++ (tPayload md.version ds.rest).1.flatten) := by
  rw [decode_payload_eq _ _ _ h, runChunks_vec]
  dsimp only
  cases (tPayload md.version ds.rest).2 <;> rfl

/-- **C19.** Any list of segments followed by a terminator and anything, or by fewer than four bits, decodes to the
concatenation of the payloads. -/
theorem C19_segments (md : MetaData) (ss : List Segment) (hs : ∀ s ∈ ss, s.Fits md.version) (tail : List Bool)
    (ht : Ends tail) (ds : CorrectedDataStream) (h : ds.WF)
    (hr : ds.rest = ss.flatMap (·.encode md.version) ++ tail) (out : List Byte) :
    decode_payload vecWriter md ds out = (.ok (), out ++ ss.flatMap (·.payload)) := by
  obtain ⟨e1, e2⟩ := tPayload_segments md.version ss hs tail
  obtain ⟨e3, r, e4⟩ := tPayload_ends md.version tail ht
  rw [decode_payload_vec _ _ h, hr, e1, e2, e3, e4, List.flatten_nil, List.append_nil]
  rfl

/-- Digit `7`, ECI 26, bytes `hi`, terminator, then rubbish. -/
example : decode_payload vecWriter { version := 1, ecc_level := 0, mask := 0 }
    (streamOf [0x10, 0x05, 0xdc, 0x69, 0x00, 0x9a, 0x1a, 0x43, 0xa5]) [] = (.ok (), [0x37, 0x68, 0x69]) :=
  C19_segments _ [.numeric [7], .eci 26, .byte [0x68, 0x69]] (by decide +kernel) _
    (.inr ⟨(bytesBits [0x10, 0x05, 0xdc, 0x69, 0x00, 0x9a, 0x1a, 0x43, 0xa5]).drop 62, rfl⟩) _ (streamOf_wf _ (by decide)) (by rw [streamOf_rest _ (by decide)]; decide +kernel) []


/-- **C14.** Numeric segments. -/
theorem C14_numeric (md : MetaData) (digits : List (Fin 10))
    (hfit : digits.length < 2 ^ (if md.version ≤ 9 then 10 else if md.version ≤ 26 then 12 else 14)) (tail : List Bool)
    (ht : Ends tail) (ds : CorrectedDataStream) (h : ds.WF)
    (hr : ds.rest = (Segment.numeric digits).encode md.version ++ tail) (out : List Byte) :
    decode_payload vecWriter md ds out = (.ok (), out ++ digits.map fun d => BitVec.ofNat 8 (48 + d.val)) := by
  have := C19_segments md [.numeric digits] (by intro s hs; rw [List.mem_singleton.1 hs]; exact ⟨hfit, trivial⟩) tail ht ds h
    (by rw [hr]; simp) out
  rw [this]; simp [Segment.payload]

/-- The example of ISO 18004, 7.4.3. -/
example : decode_payload vecWriter { version := 1, ecc_level := 0, mask := 0 } (streamOf [0x10, 0x20, 0x0c, 0x56, 0x61, 0x80, 0xec, 0x11]) [] =
    (.ok (), [0x30, 0x31, 0x32, 0x33, 0x34, 0x35, 0x36, 0x37]) :=
  C14_numeric _ [0, 1, 2, 3, 4, 5, 6, 7] (by decide +kernel) _ (.inr ⟨(bytesBits [0x10, 0x20, 0x0c, 0x56, 0x61, 0x80, 0xec, 0x11]).drop 45, rfl⟩) _ (streamOf_wf _ (by decide))
    (by rw [streamOf_rest _ (by decide)]; decide +kernel) []


/-- **C15.** Alphanumeric segments. -/
theorem C15_alphanumeric (md : MetaData) (chars : List (Fin 45))
    (hfit : chars.length < 2 ^ (if md.version ≤ 9 then 9 else if md.version ≤ 26 then 11 else 13)) (tail : List Bool)
    (ht : Ends tail) (ds : CorrectedDataStream) (h : ds.WF)
    (hr : ds.rest = (Segment.alpha chars).encode md.version ++ tail) (out : List Byte) :
    decode_payload vecWriter md ds out =
      (.ok (), out ++ chars.map fun c => BitVec.ofNat 8 (alphaChars.getD c.val ' ').toNat) := by
  have := C19_segments md [.alpha chars] (by intro s hs; rw [List.mem_singleton.1 hs]; exact ⟨hfit, trivial⟩) tail ht ds h
    (by rw [hr]; simp) out
  rw [this]; simp [Segment.payload]

/-- The example of ISO 18004, 7.4.4: `AC-42`. -/
example : decode_payload vecWriter { version := 1, ecc_level := 0, mask := 0 } (streamOf [0x20, 0x29, 0xce, 0xe7, 0x21, 0x00]) [] =
    (.ok (), [0x41, 0x43, 0x2d, 0x34, 0x32]) :=
  C15_alphanumeric _ [10, 12, 41, 4, 2] (by decide +kernel) _ (.inr ⟨(bytesBits [0x20, 0x29, 0xce, 0xe7, 0x21, 0x00]).drop 45, rfl⟩) _ (streamOf_wf _ (by decide))
    (by rw [streamOf_rest _ (by decide)]; decide +kernel) []


/-- **C16.** Byte segments. -/
theorem C16_bytes (md : MetaData) (bytes : List Byte) (hfit : bytes.length < 2 ^ (if md.version ≤ 9 then 8 else 16))
    (tail : List Bool) (ht : Ends tail) (ds : CorrectedDataStream) (h : ds.WF)
    (hr : ds.rest = (Segment.byte bytes).encode md.version ++ tail) (out : List Byte) :
    decode_payload vecWriter md ds out = (.ok (), out ++ bytes) := by
  have := C19_segments md [.byte bytes] (by intro s hs; rw [List.mem_singleton.1 hs]; exact ⟨hfit, trivial⟩) tail ht ds h
    (by rw [hr]; simp) out
  rw [this]; simp [Segment.payload]

/-- `hi`. -/
example : decode_payload vecWriter { version := 1, ecc_level := 0, mask := 0 } (streamOf [0x40, 0x26, 0x86, 0x90]) [] =
    (.ok (), [0x68, 0x69]) :=
  C16_bytes _ [0x68, 0x69] (by decide +kernel) _ (.inr ⟨(bytesBits [0x40, 0x26, 0x86, 0x90]).drop 32, rfl⟩) _ (streamOf_wf _ (by decide))
    (by rw [streamOf_rest _ (by decide)]; decide +kernel) []


/-- **C17.** Kanji segments. -/
theorem C17_kanji (md : MetaData) (chars : List { w : Nat // isKanji w })
    (hfit : chars.length < 2 ^ (if md.version ≤ 9 then 8 else if md.version ≤ 26 then 10 else 12)) (tail : List Bool)
    (ht : Ends tail) (ds : CorrectedDataStream) (h : ds.WF)
    (hr : ds.rest = (Segment.kanji chars).encode md.version ++ tail) (out : List Byte) :
    decode_payload vecWriter md ds out =
      (.ok (), out ++ chars.flatMap fun k => [BitVec.ofNat 8 (k.1 / 256), BitVec.ofNat 8 (k.1 % 256)]) := by
  have := C19_segments md [.kanji chars] (by intro s hs; rw [List.mem_singleton.1 hs]; exact ⟨hfit, trivial⟩) tail ht ds h
    (by rw [hr]; simp) out
  rw [this]; simp [Segment.payload]

/-- The characters of ISO 18004, 7.4.6. -/
example : decode_payload vecWriter { version := 1, ecc_level := 0, mask := 0 } (streamOf [0x80, 0x26, 0xcf, 0xea, 0xa8, 0x00]) [] =
    (.ok (), [0x93, 0x5f, 0xe4, 0xaa]) :=
  (C17_kanji { version := 1, ecc_level := 0, mask := 0 } [⟨0x935f, by decide⟩, ⟨0xe4aa, by decide⟩] (by decide +kernel) _ (.inr ⟨(bytesBits [0x80, 0x26, 0xcf, 0xea, 0xa8, 0x00]).drop 42, rfl⟩) _ (streamOf_wf [0x80, 0x26, 0xcf, 0xea, 0xa8, 0x00] (by decide))
    (by rw [streamOf_rest _ (by decide)]; decide +kernel) []).trans (by decide +kernel)


/-- **C18.** An ECI header changes nothing: same outcome, same final writer, for every writer and every continuation. -/
theorem C18_eci (W : Writer σ) (w : σ) (md : MetaData) (n : Nat) (ds ds' : CorrectedDataStream)
    (h : ds.WF) (h' : ds'.WF) (hr : ds.rest = (Segment.eci n).encode md.version ++ ds'.rest) :
    decode_payload W md ds w = decode_payload W md ds' w := by
  rw [decode_payload_eq _ _ _ h, decode_payload_eq _ _ _ h', hr, tPayload_eci]

/-- ECI 26 before the bytes `hi`: as if decoding started after the header. -/
example (W : Writer σ) (w : σ) : decode_payload W { version := 1, ecc_level := 0, mask := 0 }
    (streamOf [0x71, 0xa4, 0x02, 0x68, 0x69, 0x00]) w =
    decode_payload W { version := 1, ecc_level := 0, mask := 0 }
      { streamOf [0x71, 0xa4, 0x02, 0x68, 0x69, 0x00] with ptr := 12 } w :=
  C18_eci W w _ 26 _ _ (streamOf_wf _ (by decide)) ⟨by decide, (streamOf_wf _ (by decide)).len⟩
    (by rw [streamOf_rest _ (by decide), streamOf_rest_from _ (by decide)]; decide +kernel)


/-! ### Malformed streams -/

/-- **C20.** Segments followed by a mode indicator that is not defined: their payload is written, then
`UnknownDataType`. -/
theorem C20_unknown_mode (md : MetaData) (ss : List Segment) (hs : ∀ s ∈ ss, s.Fits md.version) (mode : Nat)
    (hm : mode < 16) (hm' : mode ∉ [0, 1, 2, 4, 7, 8]) (tail : List Bool) (ds : CorrectedDataStream) (h : ds.WF)
    (hr : ds.rest = ss.flatMap (·.encode md.version) ++ (bitsBE 4 mode ++ tail)) (out : List Byte) :
    decode_payload vecWriter md ds out = (.error (.err .UnknownDataType), out ++ ss.flatMap (·.payload)) := by
  obtain ⟨e1, e2⟩ := tPayload_segments md.version ss hs (bitsBE 4 mode ++ tail)
  have e3 := tPayload_mode_fail md.version mode hm (by simp at hm'; omega) tail (tMode_unknown _ _ (by simpa using hm') tail)
  rw [decode_payload_vec _ _ h, hr, e1, e2, e3, List.flatten_nil, List.append_nil]
  rfl

/-- `hi` followed by an FNC1 indicator. -/
example : decode_payload vecWriter { version := 1, ecc_level := 0, mask := 0 } (streamOf [0x40, 0x26, 0x86, 0x95]) [] =
    (.error (.err .UnknownDataType), [0x68, 0x69]) :=
  C20_unknown_mode _ [.byte [0x68, 0x69]] (by decide +kernel) 5 (by decide) (by decide) [] _ (streamOf_wf _ (by decide))
    (by rw [streamOf_rest _ (by decide)]; decide +kernel) []


/-- **C20.** A byte segment announcing more bytes than there are: `DataUnderflow`, none of its bytes written. -/
theorem C20_byte_underflow (md : MetaData) (ss : List Segment) (hs : ∀ s ∈ ss, s.Fits md.version) (n : Nat)
    (hn : n < 2 ^ (if md.version ≤ 9 then 8 else 16)) (tail : List Bool) (hshort : tail.length < 8 * n)
    (ds : CorrectedDataStream) (h : ds.WF)
    (hr : ds.rest = ss.flatMap (·.encode md.version) ++
      (bitsBE 4 4 ++ (bitsBE (if md.version ≤ 9 then 8 else 16) n ++ tail))) (out : List Byte) :
    decode_payload vecWriter md ds out = (.error (.err .DataUnderflow), out ++ ss.flatMap (·.payload)) := by
  obtain ⟨e1, e2⟩ := tPayload_segments md.version ss hs (bitsBE 4 4 ++ (bitsBE (if md.version ≤ 9 then 8 else 16) n ++ tail))
  have e3 := tPayload_mode_fail md.version 4 (by omega) (by omega) _ (tByte_short md.version n tail hn hshort)
  rw [decode_payload_vec _ _ h, hr, e1, e2, e3, List.flatten_nil, List.append_nil]
  rfl

/-- Three bytes announced, two present. -/
example : decode_payload vecWriter { version := 1, ecc_level := 0, mask := 0 } (streamOf [0x40, 0x36, 0x86, 0x90]) [] =
    (.error (.err .DataUnderflow), []) :=
  C20_byte_underflow _ [] (by simp) 3 (by decide) ((bytesBits [0x40, 0x36, 0x86, 0x90]).drop 12) (by decide +kernel) _
    (streamOf_wf _ (by decide)) (by rw [streamOf_rest _ (by decide)]; decide +kernel) []


/-- **C20.** A kanji segment announcing more characters than there are: `DataUnderflow`, none of them written. -/
theorem C20_kanji_underflow (md : MetaData) (ss : List Segment) (hs : ∀ s ∈ ss, s.Fits md.version) (n : Nat)
    (hn : n < 2 ^ (if md.version ≤ 9 then 8 else if md.version ≤ 26 then 10 else 12)) (tail : List Bool)
    (hshort : tail.length < 13 * n) (ds : CorrectedDataStream) (h : ds.WF)
    (hr : ds.rest = ss.flatMap (·.encode md.version) ++
      (bitsBE 4 8 ++ (bitsBE (if md.version ≤ 9 then 8 else if md.version ≤ 26 then 10 else 12) n ++ tail)))
    (out : List Byte) :
    decode_payload vecWriter md ds out = (.error (.err .DataUnderflow), out ++ ss.flatMap (·.payload)) := by
  obtain ⟨e1, e2⟩ := tPayload_segments md.version ss hs
    (bitsBE 4 8 ++ (bitsBE (if md.version ≤ 9 then 8 else if md.version ≤ 26 then 10 else 12) n ++ tail))
  have e3 := tPayload_mode_fail md.version 8 (by omega) (by omega) _ (tKanji_short md.version n tail hn hshort)
  rw [decode_payload_vec _ _ h, hr, e1, e2, e3, List.flatten_nil, List.append_nil]
  rfl

/-- Three characters announced, two present. -/
example : decode_payload vecWriter { version := 1, ecc_level := 0, mask := 0 }
    (streamOf [0x80, 0x36, 0xcf, 0xea, 0xa8, 0x00]) [] = (.error (.err .DataUnderflow), []) :=
  C20_kanji_underflow _ [] (by simp) 3 (by decide) ((bytesBits [0x80, 0x36, 0xcf, 0xea, 0xa8, 0x00]).drop 12)
    (by decide +kernel) _ (streamOf_wf _ (by decide)) (by rw [streamOf_rest _ (by decide)]; decide +kernel) []


/-- **C20.** A numeric segment cut short: its complete groups `digits` are written, then `DataUnderflow`. Here the
announced count is larger than `digits.length`, a multiple of three, and fewer bits follow than the next group needs. -/
theorem C20_numeric_underflow (md : MetaData) (ss : List Segment) (hs : ∀ s ∈ ss, s.Fits md.version)
    (digits : List (Fin 10)) (hd : digits.length % 3 = 0) (n : Nat) (hn0 : 0 < n)
    (hn : digits.length + n < 2 ^ (if md.version ≤ 9 then 10 else if md.version ≤ 26 then 12 else 14)) (tail : List Bool)
    (hshort : tail.length < if n = 1 then 4 else if n = 2 then 7 else 10) (ds : CorrectedDataStream) (h : ds.WF)
    (hr : ds.rest = ss.flatMap (·.encode md.version) ++
      (bitsBE 4 1 ++ (bitsBE (if md.version ≤ 9 then 10 else if md.version ≤ 26 then 12 else 14) (digits.length + n) ++
        (numericBits digits ++ tail)))) (out : List Byte) :
    decode_payload vecWriter md ds out = (.error (.err .DataUnderflow),
      out ++ ss.flatMap (·.payload) ++ (Segment.numeric digits).payload) := by
  obtain ⟨e1, e2⟩ := tPayload_segments md.version ss hs
    (bitsBE 4 1 ++ (bitsBE (if md.version ≤ 9 then 10 else if md.version ≤ 26 then 12 else 14) (digits.length + n) ++
        (numericBits digits ++ tail)))
  obtain ⟨cs, e4, e5⟩ := tNumeric_short md.version digits hd n hn0 tail hn hshort
  have e3 := tPayload_mode_fail md.version 1 (by omega) (by omega) _ e4
  rw [decode_payload_vec _ _ h, hr, e1, e2, e3, e5, List.append_assoc]
  rfl

/-- Eight digits announced, cut after six. -/
example : decode_payload vecWriter { version := 1, ecc_level := 0, mask := 0 }
    (streamOf [0x10, 0x20, 0x0c, 0x56, 0x61]) [] =
    (.error (.err .DataUnderflow), [0x30, 0x31, 0x32, 0x33, 0x34, 0x35]) :=
  C20_numeric_underflow _ [] (by simp) [0, 1, 2, 3, 4, 5] (by decide) 2 (by decide) (by decide)
    ((bytesBits [0x10, 0x20, 0x0c, 0x56, 0x61]).drop 34) (by decide +kernel) _
    (streamOf_wf _ (by decide)) (by rw [streamOf_rest _ (by decide)]; decide +kernel) []


/-- **C20.** An alphanumeric segment cut short: its complete pairs are written, then `DataUnderflow`. -/
theorem C20_alpha_underflow (md : MetaData) (ss : List Segment) (hs : ∀ s ∈ ss, s.Fits md.version)
    (chars : List (Fin 45)) (hd : chars.length % 2 = 0) (n : Nat) (hn0 : 0 < n)
    (hn : chars.length + n < 2 ^ (if md.version ≤ 9 then 9 else if md.version ≤ 26 then 11 else 13)) (tail : List Bool)
    (hshort : tail.length < if n = 1 then 6 else 11) (ds : CorrectedDataStream) (h : ds.WF)
    (hr : ds.rest = ss.flatMap (·.encode md.version) ++
      (bitsBE 4 2 ++ (bitsBE (if md.version ≤ 9 then 9 else if md.version ≤ 26 then 11 else 13) (chars.length + n) ++
        (alphaBits chars ++ tail)))) (out : List Byte) :
    decode_payload vecWriter md ds out = (.error (.err .DataUnderflow),
      out ++ ss.flatMap (·.payload) ++ (Segment.alpha chars).payload) := by
  obtain ⟨e1, e2⟩ := tPayload_segments md.version ss hs
    (bitsBE 4 2 ++ (bitsBE (if md.version ≤ 9 then 9 else if md.version ≤ 26 then 11 else 13) (chars.length + n) ++
        (alphaBits chars ++ tail)))
  obtain ⟨cs, e4, e5⟩ := tAlpha_short md.version chars hd n hn0 tail hn hshort
  have e3 := tPayload_mode_fail md.version 2 (by omega) (by omega) _ e4
  rw [decode_payload_vec _ _ h, hr, e1, e2, e3, e5, List.append_assoc]
  rfl

/-- Five characters announced, cut after four. -/
example : decode_payload vecWriter { version := 1, ecc_level := 0, mask := 0 }
    (streamOf [0x20, 0x29, 0xce, 0xe7, 0x21]) [] =
    (.error (.err .DataUnderflow), [0x41, 0x43, 0x2d, 0x34]) :=
  C20_alpha_underflow _ [] (by simp) [10, 12, 41, 4] (by decide) 1 (by decide) (by decide)
    ((bytesBits [0x20, 0x29, 0xce, 0xe7, 0x21]).drop 35) (by decide +kernel) _
    (streamOf_wf _ (by decide)) (by rw [streamOf_rest _ (by decide)]; decide +kernel) []


/-- **C20.** Whatever the stream and the writer, payload decoding returns success, `DataUnderflow`, `UnknownDataType` or
`IoError`: no panic, no endless loop. -/
theorem C20_outcomes (W : Writer σ) (w : σ) (md : MetaData) (ds : CorrectedDataStream) (h : ds.WF) :
    (decode_payload W md ds w).1 ∈
      [.ok (), .error (.err .DataUnderflow), .error (.err .UnknownDataType), .error (.err .IoError)] := by
  rw [decode_payload_eq _ _ _ h]
  have he := tLoop_errors md.version (ds.rest.length + 1) ds.rest (by omega)
  unfold tPayload
  cases runChunks W w (tLoop md.version (ds.rest.length + 1) ds.rest).1 with
  | mk b w' =>
    cases b with
    | false => simp
    | true =>
      dsimp only
      cases hr : (tLoop md.version (ds.rest.length + 1) ds.rest).2 with
      | ok a => simp
      | error e =>
        rw [hr] at he
        rcases he with rfl | rfl <;> simp

/-! ### Writers -/

/-- A writer that accepts everything and remembers the calls. -/
def recorder : Writer (List (List Byte)) := ⟨fun calls c => (true, calls ++ [c])⟩

/-- `W`, also keeping a log of the calls and their success. -/
def logged (W : Writer σ) : Writer (σ × List (List Byte × Bool)) :=
  ⟨fun (w, log) c => ((W.writeAll w c).1, ((W.writeAll w c).2, log ++ [(c, (W.writeAll w c).1)]))⟩

theorem runChunks_recorder : ∀ (cs calls : List (List Byte)), runChunks recorder calls cs = (true, calls ++ cs)
  | [], calls => by simp [runChunks]
  | c :: cs, calls => by
    show runChunks recorder (calls ++ [c]) cs = _
    rw [runChunks_recorder cs, List.append_assoc]; rfl

/-- What the log looks like: all calls succeeded and were made, or the last call made failed. -/
theorem runChunks_logged (W : Writer σ) : ∀ (cs : List (List Byte)) (w : σ) (log : List (List Byte × Bool)),
    ((runChunks W w cs).1 = true ∧
      runChunks (logged W) (w, log) cs = (true, ((runChunks W w cs).2, log ++ cs.map fun c => (c, true)))) ∨
    ((runChunks W w cs).1 = false ∧ ∃ a c b, cs = a ++ c :: b ∧
      runChunks (logged W) (w, log) cs = (false, ((runChunks W w cs).2, log ++ (a.map fun c => (c, true)) ++ [(c, false)])))
  | [], w, log => .inl ⟨rfl, by simp [runChunks]⟩
  | c :: cs, w, log => by
    unfold runChunks
    cases hW : W.writeAll w c with
    | mk b w' =>
      have hL : (logged W).writeAll (w, log) c = (b, (w', log ++ [(c, b)])) := by
        show ((W.writeAll w c).1, ((W.writeAll w c).2, log ++ [(c, (W.writeAll w c).1)])) = _
        rw [hW]
      rw [hL]
      cases b with
      | false => exact .inr ⟨rfl, [], c, cs, rfl, by simp⟩
      | true =>
        dsimp only
        rcases runChunks_logged W cs w' (log ++ [(c, true)]) with ⟨h1, h2⟩ | ⟨h1, a, c', b, h2, h3⟩
        · exact .inl ⟨h1, by rw [h2]; simp⟩
        · exact .inr ⟨h1, c :: a, c', b, by rw [h2]; rfl, by rw [h3]; simp⟩

/-- **C21.** Let `calls` be the writes made to a writer that accepts everything, with outcome `r`. Any other writer is
given these calls in this order until one fails. If none fails, the outcome is `r`; otherwise nothing is written after the
failure and the outcome is `IoError`. -/
theorem C21_writer (code : BitGrid) (W : Writer σ) (w : σ) :
    ∃ r calls w' log, decode recorder code [] = (r, calls) ∧
      decode W code w = ((decode (logged W) code (w, [])).1, w') ∧
      (decode (logged W) code (w, [])).2 = (w', log) ∧
      ((log = calls.map (fun c => (c, true)) ∧ (decode W code w).1 = r) ∨
       (∃ a c b, calls = a ++ c :: b ∧ log = a.map (fun c => (c, true)) ++ [(c, false)] ∧
        (decode W code w).1 = .error (.err .IoError))) := by
  cases ho : decode_oriented code with
  | error f =>
    refine ⟨.error f, [], w, [], ?_, ?_, ?_, .inl ⟨rfl, ?_⟩⟩ <;> simp only [decode_eq, ho]
  | ok p =>
    obtain ⟨md, cs⟩ := p
    have hr := runChunks_recorder (tPayload md.version cs.rest).1 []
    rw [List.nil_append] at hr
    rcases runChunks_logged W (tPayload md.version cs.rest).1 w [] with ⟨h1, h2⟩ | ⟨h1, a, c, b, h2, h3⟩
    · have h1' : runChunks W w (tPayload md.version cs.rest).1 = (true, (runChunks W w (tPayload md.version cs.rest).1).2) := by
        rw [← h1]
      refine ⟨(decode recorder code []).1, (tPayload md.version cs.rest).1,
        (runChunks W w (tPayload md.version cs.rest).1).2, (tPayload md.version cs.rest).1.map fun c => (c, true),
        ?_, ?_, ?_, .inl ⟨rfl, ?_⟩⟩
      all_goals simp only [decode_eq, ho, hr, h2, List.nil_append]
      all_goals try rw [h1']
      all_goals cases (tPayload md.version cs.rest).2 <;> rfl
    · have h1' : runChunks W w (tPayload md.version cs.rest).1 = (false, (runChunks W w (tPayload md.version cs.rest).1).2) := by
        rw [← h1]
      refine ⟨(decode recorder code []).1, (tPayload md.version cs.rest).1,
        (runChunks W w (tPayload md.version cs.rest).1).2, (a.map fun c => (c, true)) ++ [(c, false)],
        ?_, ?_, ?_, .inr ⟨a, c, b, h2, rfl, ?_⟩⟩
      · simp only [decode_eq, ho, hr]
        cases (tPayload md.version cs.rest).2 <;> rfl
      · simp only [decode_eq, ho, h3, List.nil_append]
        rw [h1']
      · simp only [decode_eq, ho, h3, List.nil_append]
      · simp only [decode_eq, ho]
        rw [h1']

/-- A writer that accepts two calls: the third is the last one made. -/
example : decode (σ := List (List Byte)) ⟨fun calls c => (decide (calls.length < 2), calls ++ [c])⟩ testRqrr [] =
    (.error (.err .IoError), [[0x72], [0x71], [0x72]]) := by decide +kernel

example : decode recorder testRqrr [] = (.ok { version := 1, ecc_level := 0, mask := 0 }, [[0x72], [0x71], [0x72], [0x72]]) := by
  decide +kernel

/-- **C21.** A vector receives the concatenation of the calls. -/
theorem C21_vector (code : BitGrid) (out : List Byte) :
    decode vecWriter code out = ((decode recorder code []).1, out ++ (decode recorder code []).2.flatten) := by
  cases ho : decode_oriented code with
  | error f => simp only [decode_eq, ho, List.flatten_nil, List.append_nil]
  | ok p =>
    obtain ⟨md, cs⟩ := p
    simp only [decode_eq, ho, runChunks_vec, runChunks_recorder, List.nil_append]
    cases (tPayload md.version cs.rest).2 <;> rfl

/-- **C21.** A writer that never fails never causes `IoError`. -/
theorem C21_no_io_error {code : BitGrid} {m : Nat → Nat → Bool} (h : Shows code m) (h9 : 9 ≤ code.size) (W : Writer σ)
    (hW : ∀ w c, (W.writeAll w c).1 = true) (w : σ) : (decode W code w).1 ≠ .error (.err .IoError) := by
  have hc : ∀ cs w, (runChunks W w cs).1 = true := by
    intro cs
    induction cs with
    | nil => intro w; rfl
    | cons c cs ih =>
      intro w
      unfold runChunks
      have := hW w c
      cases hw : W.writeAll w c with
      | mk b w' =>
        rw [hw] at this
        subst this
        exact ih w'
  rw [decode_eq]
  rcases decode_oriented_cases h h9 with ⟨md, cs, e, _⟩ | ⟨e, e1, e2⟩
  · rw [e]
    dsimp only
    have he := tLoop_errors md.version (cs.rest.length + 1) cs.rest (by omega)
    have hc' := hc (tPayload md.version cs.rest).1 w
    cases hr : runChunks W w (tPayload md.version cs.rest).1 with
    | mk b w' =>
      rw [hr] at hc'
      subst hc'
      dsimp only
      unfold tPayload
      cases hr : (tLoop md.version (cs.rest.length + 1) cs.rest).2 with
      | ok a => intro h; cases h
      | error f =>
        rw [hr] at he
        intro h
        rcases he with rfl | rfl <;> cases h
  · rw [e1]
    rcases e2 with rfl | rfl | rfl <;> intro h <;> cases h

end Rqrr
