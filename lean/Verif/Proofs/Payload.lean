import Verif.Proofs.Trace
import Verif.Spec.Segments

/-!
# Payload decoding: safety, termination and round trips
-/

namespace Rqrr

open Spec

variable {α β : Type}

/-! ## Only expected errors, no growth -/

/-- Errors that payload decoding itself reports. -/
def PayloadError (e : Fault) : Prop := e = .err .DataUnderflow ∨ e = .err .UnknownDataType

/-- `t` never makes the stream longer and fails with expected errors only. -/
def Tame (t : T α) : Prop := ∀ bits,
  match (t bits).2 with
  | .ok (_, rest) => rest.length ≤ bits.length
  | .error e => PayloadError e

theorem Tame.pure (a : α) : Tame (Pure.pure a : T α) := fun _ => Nat.le_refl _
theorem Tame.under : Tame (T.fail (.err .DataUnderflow) : T α) := fun _ => .inl rfl
theorem Tame.unknown : Tame (T.fail (.err .UnknownDataType) : T α) := fun _ => .inr rfl
theorem Tame.remaining : Tame T.remaining := fun _ => Nat.le_refl _
theorem Tame.take (n : Nat) : Tame (T.take n) := fun bits => by
  show (bits.drop n).length ≤ bits.length
  simp
theorem Tame.write (c : List Byte) : Tame (T.write c) := fun _ => Nat.le_refl _

theorem Tame.seq {t : T α} {f : α → T β} (h : Tame t) (hf : ∀ a, Tame (f a)) : Tame (T.seq t f) := by
  intro bits
  have h1 := h bits
  unfold T.seq
  cases ht : t bits with
  | mk cs r =>
    rw [ht] at h1
    cases r with
    | error e => exact h1
    | ok p =>
      obtain ⟨a, rest⟩ := p
      have h2 := hf a rest
      simp only at h1 ⊢
      split at h2
      · omega
      · exact h2

theorem Tame.bind {t : T α} {f : α → T β} (h : Tame t) (hf : ∀ a, Tame (f a)) : Tame (t >>= f) := Tame.seq h hf

theorem Tame.ite {c : Prop} [Decidable c] {t t' : T α} (h : Tame t) (h' : Tame t') : Tame (if c then t else t') := by
  split
  · exact h
  · exact h'

theorem Tame.lift {r : Run α} (h : ∃ a, r = .ok a) : Tame (T.lift r) := by
  obtain ⟨a, rfl⟩ := h
  exact fun _ => Nat.le_refl _

theorem Tame.times {t : T Unit} (h : Tame t) : ∀ n, Tame (T.times t n)
  | 0 => fun _ => Nat.le_refl _
  | n + 1 => Tame.seq h fun _ => Tame.times h n

theorem alphaDigit_ok : ∀ d < 45, ∃ b, alphaDigit d = .ok b := by
  intro d hd
  have : d < ALPHA_MAP.length := by
    have : ALPHA_MAP.length = 46 := by decide
    omega
  exact ⟨_, idx_ok ALPHA_MAP this⟩

theorem tuple_digits_ok {base : Nat} {digit : Nat → Run Byte} (hb : 0 < base) (h : ∀ d < base, ∃ b, digit d = .ok b) :
    ∀ n tuple acc, ∃ l, tuple_digits base digit n tuple acc = .ok l
  | 0, _, acc => ⟨acc, rfl⟩
  | n + 1, tuple, acc => by
    obtain ⟨b, hb'⟩ := h (tuple % base) (Nat.mod_lt _ hb)
    rw [tuple_digits, hb', Run.ok_bind]
    exact tuple_digits_ok hb h n _ _

theorem Tame.alpha_tuple (n k : Nat) : Tame (tTuple 45 alphaDigit n k) :=
  Tame.bind Tame.remaining fun _ => Tame.ite Tame.under (Tame.bind (Tame.take _) fun _ =>
    Tame.lift (tuple_digits_ok (by omega) alphaDigit_ok _ _ _))

theorem Tame.num_tuple (n k : Nat) : Tame (tTuple 10 numDigit n k) :=
  Tame.bind Tame.remaining fun _ => Tame.ite Tame.under (Tame.bind (Tame.take _) fun _ =>
    Tame.lift (tuple_digits_ok (by omega) (fun d _ => ⟨_, rfl⟩) _ _ _))

theorem tame_alphaLoop : ∀ n, Tame (tAlphaLoop n)
  | 0 => Tame.pure _
  | 1 => Tame.bind (Tame.alpha_tuple _ _) fun _ => Tame.write _
  | n + 2 => by
    rw [tAlphaLoop]
    exact Tame.bind (Tame.alpha_tuple _ _) fun _ => Tame.bind (Tame.write _) fun _ => tame_alphaLoop n

theorem tame_numericLoop : ∀ n, Tame (tNumericLoop n)
  | 0 => Tame.pure _
  | 1 => Tame.bind (Tame.num_tuple _ _) fun _ => Tame.write _
  | 2 => Tame.bind (Tame.num_tuple _ _) fun _ => Tame.write _
  | n + 3 => by
    rw [tNumericLoop]
    exact Tame.bind (Tame.num_tuple _ _) fun _ => Tame.bind (Tame.write _) fun _ => tame_numericLoop n

theorem tame_mode (v ty : Nat) : Tame (tMode v ty) := by
  unfold tMode
  split
  · exact Tame.bind (Tame.take _) fun _ => tame_numericLoop _
  · exact Tame.bind (Tame.take _) fun _ => tame_alphaLoop _
  · exact Tame.bind (Tame.take _) fun _ => Tame.bind Tame.remaining fun _ => Tame.ite Tame.under
      (Tame.times (Tame.bind (Tame.take _) fun _ => Tame.write _) _)
  · exact Tame.bind (Tame.take _) fun _ => Tame.bind Tame.remaining fun _ => Tame.ite Tame.under
      (Tame.times (Tame.bind (Tame.take _) fun _ => Tame.write _) _)
  · exact Tame.bind Tame.remaining fun _ => Tame.ite Tame.under (Tame.bind (Tame.take _) fun _ => Tame.ite
      (Tame.bind Tame.remaining fun _ => Tame.ite Tame.under (Tame.bind (Tame.take _) fun _ => Tame.pure _))
      (Tame.ite (Tame.bind Tame.remaining fun _ => Tame.ite Tame.under (Tame.bind (Tame.take _) fun _ => Tame.pure _))
        (Tame.pure _)))
  · exact Tame.unknown

theorem seq_ok {t : T α} {f : α → T β} {bits rest : List Bool} {cs : List (List Byte)} {a : α}
    (h : t bits = (cs, .ok (a, rest))) : (t >>= f) bits = (cs ++ (f a rest).1, (f a rest).2) := by
  show T.seq t f bits = _
  unfold T.seq
  rw [h]

theorem seq_ok_nil {t : T α} {f : α → T β} {bits rest : List Bool} {a : α}
    (h : t bits = ([], .ok (a, rest))) : (t >>= f) bits = f a rest := by
  rw [seq_ok h]; rfl

/-- One round of the payload loop. -/
theorem tLoop_succ (v fuel : Nat) (bits : List Bool) :
    tLoop v (fuel + 1) bits =
      if bits.length < 4 then ([], .ok ((), bits))
      else if natOfBits (bits.take 4) = 0 then ([], .ok ((), bits.drop 4))
      else match tMode v (natOfBits (bits.take 4)) (bits.drop 4) with
        | (cs, .error e) => (cs, .error e)
        | (cs, .ok (_, rest)) => (cs ++ (tLoop v fuel rest).1, (tLoop v fuel rest).2) := by
  rw [tLoop, seq_ok_nil (t := T.remaining) rfl]
  by_cases h : bits.length ≥ 4
  · rw [if_pos h, if_neg (by omega), seq_ok_nil (t := T.take 4) rfl]
    by_cases h0 : natOfBits (bits.take 4) = 0
    · rw [if_pos h0, if_pos h0]; rfl
    · rw [if_neg h0, if_neg h0]
      show T.seq (tMode v (natOfBits (bits.take 4))) _ (bits.drop 4) = _
      unfold T.seq
      cases hm : tMode v (natOfBits (bits.take 4)) (bits.drop 4) with
      | mk cs r =>
        cases r with
        | error e => rfl
        | ok p => rfl
  · rw [if_neg h, if_pos (by omega)]; rfl

theorem tLoop_fuel (v : Nat) : ∀ f g bits, bits.length < f → bits.length < g → tLoop v f bits = tLoop v g bits
  | 0, _, _, h, _ => by omega
  | _ + 1, 0, _, _, h => by omega
  | f + 1, g + 1, bits, hf, hg => by
    rw [tLoop_succ, tLoop_succ]
    by_cases h4 : bits.length < 4
    · rw [if_pos h4, if_pos h4]
    · rw [if_neg h4, if_neg h4]
      by_cases h0 : natOfBits (bits.take 4) = 0
      · rw [if_pos h0, if_pos h0]
      · rw [if_neg h0, if_neg h0]
        have ht := tame_mode v (natOfBits (bits.take 4)) (bits.drop 4)
        cases hm : tMode v (natOfBits (bits.take 4)) (bits.drop 4) with
        | mk cs r =>
          rw [hm] at ht
          cases r with
          | error e => rfl
          | ok p =>
            simp only at ht
            rw [List.length_drop] at ht
            dsimp only
            rw [tLoop_fuel v f g p.2 (by omega) (by omega)]

theorem tLoop_errors (v : Nat) : ∀ f bits, bits.length < f →
    match (tLoop v f bits).2 with
    | .ok _ => True
    | .error e => PayloadError e
  | 0, _, h => by omega
  | f + 1, bits, hf => by
    rw [tLoop_succ]
    by_cases h4 : bits.length < 4
    · rw [if_pos h4]; trivial
    · rw [if_neg h4]
      by_cases h0 : natOfBits (bits.take 4) = 0
      · rw [if_pos h0]; trivial
      · rw [if_neg h0]
        have ht := tame_mode v (natOfBits (bits.take 4)) (bits.drop 4)
        cases hm : tMode v (natOfBits (bits.take 4)) (bits.drop 4) with
        | mk cs r =>
          rw [hm] at ht
          cases r with
          | error e => exact ht
          | ok p =>
            simp only at ht
            rw [List.length_drop] at ht
            exact tLoop_errors v f p.2 (by omega)

/-- Payload decoding of a bit string in version `v`: the writes and the outcome. -/
def tPayload (v : Nat) (bits : List Bool) : List (List Byte) × Except Fault (Unit × List Bool) :=
  tLoop v (bits.length + 1) bits

/-- The model in terms of `tPayload`, for every writer. -/
theorem decode_payload_eq {σ : Type} (W : Writer σ) (md : MetaData) (ds : CorrectedDataStream) (h : ds.WF) (w : σ) :
    decode_payload W md ds w =
      match runChunks W w (tPayload md.version ds.rest).1 with
      | (false, w') => (.error (.err .IoError), w')
      | (true, w') =>
        match (tPayload md.version ds.rest).2 with
        | .ok _ => (.ok (), w')
        | .error e => (.error e, w') := by
  have hs := sim_loop (W := W) md (ds.bit_len + 1) ds w h
  have hl := ds.rest_length
  have e : tLoop md.version (ds.bit_len + 1) ds.rest = tPayload md.version ds.rest :=
    tLoop_fuel _ _ _ _ (by omega) (by omega)
  rw [e] at hs
  unfold decode_payload
  dsimp only
  split at hs
  · rename_i w' hc
    obtain ⟨ds', hm⟩ := hs
    rw [hm, hc]
  · rename_i w' hc
    split at hs
    · rename_i e' he
      obtain ⟨ds', hm⟩ := hs
      rw [hm, hc, he]
    · rename_i a rest he
      obtain ⟨ds', hm, _⟩ := hs
      rw [hm, hc, he]

/-! ## Round trips -/

theorem bitsBE_length (n k : Nat) : (bitsBE n k).length = n := by simp [bitsBE]

theorem bitsBE_succ (n k : Nat) : bitsBE (n + 1) k = bitsBE n (k / 2) ++ [decide (k % 2 = 1)] := by
  unfold bitsBE
  rw [List.range_succ, List.map_append]
  congr 1
  · apply List.map_congr_left
    intro i hi
    have hi : i < n := by simpa using hi
    have : n + 1 - 1 - i = (n - 1 - i) + 1 := by omega
    rw [this, Nat.testBit_succ]
  · simp [Nat.testBit_zero]

theorem natOfBits_bitsBE (n k : Nat) (h : k < 2 ^ n) : natOfBits (bitsBE n k) = k := by
  induction n generalizing k with
  | zero => have : k = 0 := by simpa using h
            subst this; rfl
  | succ n ih =>
    rw [bitsBE_succ, natOfBits_snoc, ih (k / 2) (by rw [Nat.pow_succ] at h; omega)]
    by_cases hk : k % 2 = 1
    · simp [hk]; omega
    · simp [hk]; omega

theorem take_bitsBE (n k : Nat) (rest : List Bool) (h : k < 2 ^ n) :
    T.take n (bitsBE n k ++ rest) = ([], .ok (k, rest)) := by
  unfold T.take
  have hl := bitsBE_length n k
  rw [List.take_left' hl, List.drop_left' hl, natOfBits_bitsBE n k h]

/-- `t` consumes `bits`, writes `out` and succeeds, whatever follows. -/
def Emits (t : T Unit) (bits : List Bool) (out : List Byte) : Prop :=
  ∀ rest, ∃ cs, t (bits ++ rest) = (cs, .ok ((), rest)) ∧ cs.flatten = out

theorem tuple_emits (base : Nat) (digit : Nat → Run Byte) (n k x : Nat) (l : List Byte) (hx : x < 2 ^ n)
    (hl : tuple_digits base digit k x [] = .ok l) (rest : List Bool) :
    tTuple base digit n k (bitsBE n x ++ rest) = ([], .ok (l, rest)) := by
  unfold tTuple
  rw [seq_ok_nil (t := T.remaining) rfl, if_neg (by rw [List.length_append, bitsBE_length]; omega),
    seq_ok_nil (take_bitsBE n x rest hx), hl]
  rfl

/-- The ASCII code of a digit. -/
def digitByte (d : Fin 10) : Byte := BitVec.ofNat 8 ('0'.toNat + d.val)

theorem numDigit_eq (n : Nat) (d : Fin 10) (h : n = d.val) : numDigit n = .ok (digitByte d) := by
  subst h
  unfold numDigit digitByte
  congr 1
  rw [Nat.add_comm, BitVec.ofNat_add]
  rfl

theorem numeric_emits : ∀ ds : List (Fin 10), Emits (tNumericLoop ds.length) (numericBits ds) (ds.map digitByte)
  | [] => fun rest => ⟨[], rfl, rfl⟩
  | [a] => fun rest => by
    have ha := a.isLt
    refine ⟨[[digitByte a]], ?_, rfl⟩
    rw [List.length_singleton, tNumericLoop, numericBits, seq_ok_nil (tuple_emits 10 numDigit 4 1 a [digitByte a] (by omega) (by
      rw [tuple_digits, numDigit_eq _ a (by omega), Run.ok_bind]; rfl) rest)]
    rfl
  | [a, b] => fun rest => by
    have ha := a.isLt
    have hb := b.isLt
    refine ⟨[[digitByte a, digitByte b]], ?_, rfl⟩
    show tNumericLoop 2 _ = _
    rw [tNumericLoop, numericBits, seq_ok_nil (tuple_emits 10 numDigit 7 2 (10 * a + b) [digitByte a, digitByte b] (by omega) (by
      rw [tuple_digits, numDigit_eq _ b (by omega), Run.ok_bind, tuple_digits, numDigit_eq _ a (by omega), Run.ok_bind]
      rfl) rest)]
    rfl
  | a :: b :: c :: r => fun rest => by
    have ha := a.isLt
    have hb := b.isLt
    have hc := c.isLt
    obtain ⟨cs, h1, h2⟩ := numeric_emits r rest
    refine ⟨[digitByte a, digitByte b, digitByte c] :: cs, ?_, by simp [h2]⟩
    show tNumericLoop (r.length + 3) _ = _
    rw [tNumericLoop, numericBits, List.append_assoc,
      seq_ok_nil (tuple_emits 10 numDigit 10 3 (100 * a + 10 * b + c) [digitByte a, digitByte b, digitByte c] (by omega) (by
        rw [tuple_digits, numDigit_eq _ c (by omega), Run.ok_bind, tuple_digits, numDigit_eq _ b (by omega), Run.ok_bind,
          tuple_digits, numDigit_eq _ a (by omega), Run.ok_bind]
        rfl) (numericBits r ++ rest)),
      seq_ok (t := T.write [digitByte a, digitByte b, digitByte c]) rfl, h1]
    rfl

/-- The ASCII code of an alphanumeric character. -/
def alphaByte (c : Fin 45) : Byte := BitVec.ofNat 8 (alphaChars.getD c.val ' ').toNat

theorem alphaDigit_table : ∀ c : Fin 45, alphaDigit c.val = .ok (alphaByte c) := by decide +kernel

theorem alphaDigit_eq (n : Nat) (c : Fin 45) (h : n = c.val) : alphaDigit n = .ok (alphaByte c) := by
  subst h
  exact alphaDigit_table c

theorem alpha_emits : ∀ cs : List (Fin 45), Emits (tAlphaLoop cs.length) (alphaBits cs) (cs.map alphaByte)
  | [] => fun rest => ⟨[], rfl, rfl⟩
  | [a] => fun rest => by
    have ha := a.isLt
    refine ⟨[[alphaByte a]], ?_, rfl⟩
    rw [List.length_singleton, tAlphaLoop, alphaBits, seq_ok_nil (tuple_emits 45 alphaDigit 6 1 a [alphaByte a] (by omega) (by
      rw [tuple_digits, alphaDigit_eq _ a (by omega), Run.ok_bind]; rfl) rest)]
    rfl
  | a :: b :: r => fun rest => by
    have ha := a.isLt
    have hb := b.isLt
    obtain ⟨cs, h1, h2⟩ := alpha_emits r rest
    refine ⟨[alphaByte a, alphaByte b] :: cs, ?_, by simp [h2]⟩
    show tAlphaLoop (r.length + 2) _ = _
    rw [tAlphaLoop, alphaBits, List.append_assoc,
      seq_ok_nil (tuple_emits 45 alphaDigit 11 2 (45 * a + b) [alphaByte a, alphaByte b] (by omega) (by
        rw [tuple_digits, alphaDigit_eq _ b (by omega), Run.ok_bind, tuple_digits, alphaDigit_eq _ a (by omega), Run.ok_bind]
        rfl) (alphaBits r ++ rest)),
      seq_ok (t := T.write [alphaByte a, alphaByte b]) rfl, h1]
    rfl

theorem times_emits {γ : Type} (t : T Unit) (enc : γ → List Bool) (out : γ → List Byte) (h : ∀ x, Emits t (enc x) (out x)) :
    ∀ xs : List γ, Emits (T.times t xs.length) (xs.flatMap enc) (xs.flatMap out)
  | [] => fun rest => ⟨[], rfl, rfl⟩
  | x :: xs => fun rest => by
    obtain ⟨cs, h1, h2⟩ := times_emits t enc out h xs rest
    obtain ⟨cs', h3, h4⟩ := h x (xs.flatMap enc ++ rest)
    refine ⟨cs' ++ cs, ?_, by simp [h2, h4]⟩
    rw [List.flatMap_cons, List.append_assoc]
    show T.seq t _ _ = _
    unfold T.seq
    rw [h3]
    dsimp only
    rw [h1]

theorem byteChar_emits (b : Byte) : Emits tByteChar (bitsBE 8 b.toNat) [b] := by
  intro rest
  refine ⟨[[b]], ?_, rfl⟩
  unfold tByteChar
  rw [seq_ok_nil (take_bitsBE 8 b.toNat rest b.isLt)]
  have : BitVec.ofNat 8 b.toNat = b := by simp
  rw [this]
  rfl

theorem kanji_word_kanji (w : Nat) (h : isKanji w) :
    kanji_word ((if w ≤ 0x9FFC then w - 0x8140 else w - 0xC140) / 256 * 0xC0 +
      (if w ≤ 0x9FFC then w - 0x8140 else w - 0xC140) % 256) = w ∧
    (if w ≤ 0x9FFC then w - 0x8140 else w - 0xC140) / 256 * 0xC0 +
      (if w ≤ 0x9FFC then w - 0x8140 else w - 0xC140) % 256 < 2 ^ 13 := by
  obtain ⟨h1, h2, h3⟩ := h
  generalize hx : (if w ≤ 0x9FFC then w - 0x8140 else w - 0xC140) = x
  have hxl : x % 256 < 0xC0 := by split at hx <;> omega
  have hxu : x < 0x2A80 := by split at hx <;> omega
  refine ⟨?_, by omega⟩
  have e1 : (x / 256 * 0xC0 + x % 256) / 0xC0 = x / 256 := by omega
  have e2 : (x / 256 * 0xC0 + x % 256) % 0xC0 = x % 256 := by omega
  unfold kanji_word
  simp only [e1, e2]
  have e3 : ((x / 256) <<< 8) ||| (x % 256) = x := by
    rw [Nat.shiftLeft_eq, Nat.mul_comm, ← Nat.two_pow_add_eq_or_of_lt (by omega)]
    omega
  rw [e3]
  split at hx
  · rw [if_pos (by omega)]; omega
  · rw [if_neg (by omega)]; omega

theorem kanjiChar_emits (k : { w : Nat // isKanji w }) :
    Emits tKanjiChar (kanjiBits k.1) [BitVec.ofNat 8 (k.1 / 256), BitVec.ofNat 8 (k.1 % 256)] := by
  intro rest
  obtain ⟨w, hw⟩ := k
  obtain ⟨e1, e2⟩ := kanji_word_kanji w hw
  refine ⟨[[BitVec.ofNat 8 (w / 256), BitVec.ofNat 8 (w % 256)]], ?_, rfl⟩
  unfold tKanjiChar kanjiBits
  dsimp only
  rw [seq_ok_nil (take_bitsBE 13 _ rest e2)]
  rw [e1, Nat.shiftRight_eq_div_pow, show w &&& 0xff = w % 256 from Nat.and_two_pow_sub_one_eq_mod w 8]
  rfl

theorem flatMap_length_const {γ : Type} (f : γ → List Bool) (n : Nat) (h : ∀ x, (f x).length = n) :
    ∀ xs : List γ, (xs.flatMap f).length = xs.length * n
  | [] => by simp
  | x :: xs => by
    rw [List.flatMap_cons, List.length_append, h, flatMap_length_const f n h xs, List.length_cons, Nat.succ_mul]; omega

/-- The first eight bits of a designator. -/
theorem eci_first (pre body rest : List Bool) (p m : Nat) (hp : pre.length = p) (hm : body.length = 8 - p + m) (h8 : p ≤ 8) :
    ∃ r body', r < 2 ^ (8 - p) ∧ body'.length = m ∧
      T.take 8 (pre ++ body ++ rest) = ([], .ok (natOfBits pre * 2 ^ (8 - p) + r, body' ++ rest)) := by
  refine ⟨natOfBits (body.take (8 - p)), body.drop (8 - p), ?_, ?_, ?_⟩
  · have := natOfBits_lt (body.take (8 - p))
    rwa [List.length_take, Nat.min_eq_left (by omega)] at this
  · rw [List.length_drop]; omega
  · unfold T.take
    have e1 : (pre ++ body ++ rest).take 8 = pre ++ body.take (8 - p) := by
      rw [List.append_assoc, List.take_append, List.take_of_length_le (by omega), hp,
        List.take_append_of_le_length (by omega)]
    have e2 : (pre ++ body ++ rest).drop 8 = body.drop (8 - p) ++ rest := by
      rw [List.append_assoc, List.drop_append, List.drop_eq_nil_of_le (by omega), hp, List.nil_append,
        List.drop_append_of_le_length (by omega)]
    rw [e1, e2, natOfBits_append, List.length_take, Nat.min_eq_left (by omega)]

theorem eci_emits_nil (n : Nat) (rest : List Bool) : tEci (eciBits n ++ rest) = ([], .ok ((), rest)) := by
  unfold eciBits tEci
  rw [seq_ok_nil (t := T.remaining) rfl]
  split
  · obtain ⟨r, body', h1, h2, h3⟩ := eci_first [false] (bitsBE 7 n) rest 1 0 rfl (bitsBE_length _ _) (by omega)
    rw [if_neg (by simp [bitsBE_length]), seq_ok_nil h3]
    have hb : body' = [] := List.eq_nil_of_length_eq_zero h2
    have hv : natOfBits [false] * 2 ^ (8 - 1) + r = r := by simp [natOfBits]
    have hd : ∀ r < 2 ^ (8 - 1), ¬ (r &&& 0xc0 == 0x80) = true ∧ ¬ (r &&& 0xe0 == 0xc0) = true := by decide
    rw [hv, if_neg (hd r h1).1, if_neg (hd r h1).2, hb]
    rfl
  · split
    · obtain ⟨r, body', h1, h2, h3⟩ := eci_first [true, false] (bitsBE 14 n) rest 2 8 rfl (bitsBE_length _ _) (by omega)
      rw [if_neg (by simp [bitsBE_length]; omega), seq_ok_nil h3]
      have hv : natOfBits [true, false] * 2 ^ (8 - 2) + r = 128 + r := by simp [natOfBits]
      have hd : ∀ r < 2 ^ (8 - 2), (128 + r &&& 0xc0 == 0x80) = true := by decide
      rw [hv, if_pos (hd r h1), seq_ok_nil (t := T.remaining) rfl, if_neg (by rw [List.length_append, h2]; omega),
        seq_ok_nil (t := T.take 8) rfl, List.drop_left' h2]
      rfl
    · obtain ⟨r, body', h1, h2, h3⟩ := eci_first [true, true, false] (bitsBE 21 n) rest 3 16 rfl (bitsBE_length _ _) (by omega)
      rw [if_neg (by simp [bitsBE_length]; omega), seq_ok_nil h3]
      have hv : natOfBits [true, true, false] * 2 ^ (8 - 3) + r = 192 + r := by simp [natOfBits]
      have hd : ∀ r < 2 ^ (8 - 3), ¬ (192 + r &&& 0xc0 == 0x80) = true ∧ (192 + r &&& 0xe0 == 0xc0) = true := by decide
      rw [hv, if_neg (hd r h1).1, if_pos (hd r h1).2, seq_ok_nil (t := T.remaining) rfl,
        if_neg (by rw [List.length_append, h2]; omega), seq_ok_nil (t := T.take 16) rfl, List.drop_left' h2]
      rfl

theorem eci_emits (n : Nat) : Emits tEci (eciBits n) [] := fun rest => ⟨[], eci_emits_nil n rest, rfl⟩

/-- The decoder of a segment's mode emits its payload. -/
theorem mode_emits (v : Nat) (s : Segment) (h : s.Fits v) :
    Emits (tMode v s.mode) (bitsBE (s.countBits v) s.count ++ s.dataBits) s.payload := by
  intro rest
  have hc := h.1
  rw [List.append_assoc]
  cases s with
  | numeric ds =>
    obtain ⟨cs, h1, h2⟩ := numeric_emits ds rest
    refine ⟨cs, ?_, h2⟩
    show tNumeric v _ = _
    unfold tNumeric
    show (T.take (Segment.countBits v (.numeric ds)) >>= _) _ = _
    rw [seq_ok_nil (take_bitsBE _ _ _ hc)]
    exact h1
  | alpha ds =>
    obtain ⟨cs, h1, h2⟩ := alpha_emits ds rest
    refine ⟨cs, ?_, h2⟩
    show tAlpha v _ = _
    unfold tAlpha
    show (T.take (Segment.countBits v (.alpha ds)) >>= _) _ = _
    rw [seq_ok_nil (take_bitsBE _ _ _ hc)]
    exact h1
  | byte bs =>
    obtain ⟨cs, h1, h2⟩ := times_emits tByteChar (fun b : Byte => bitsBE 8 b.toNat) (fun b => [b]) byteChar_emits bs rest
    refine ⟨cs, ?_, by rw [h2]; show _ = bs; simp⟩
    show tByte v _ = _
    unfold tByte
    show (T.take (Segment.countBits v (.byte bs)) >>= _) _ = _
    rw [seq_ok_nil (take_bitsBE _ _ _ hc), seq_ok_nil (t := T.remaining) rfl, if_neg]
    · exact h1
    · show ¬ (bs.flatMap (fun b => bitsBE 8 b.toNat) ++ rest).length < bs.length * 8
      rw [List.length_append, flatMap_length_const (fun b : Byte => bitsBE 8 b.toNat) 8 (fun b => bitsBE_length 8 _)]
      omega
  | kanji ks =>
    obtain ⟨cs, h1, h2⟩ := times_emits tKanjiChar (fun k : { w : Nat // isKanji w } => kanjiBits k.1)
      (fun k => [BitVec.ofNat 8 (k.1 / 256), BitVec.ofNat 8 (k.1 % 256)]) kanjiChar_emits ks rest
    refine ⟨cs, ?_, h2⟩
    show tKanji v _ = _
    unfold tKanji
    show (T.take (Segment.countBits v (.kanji ks)) >>= _) _ = _
    rw [seq_ok_nil (take_bitsBE _ _ _ hc), seq_ok_nil (t := T.remaining) rfl, if_neg]
    · exact h1
    · show ¬ (ks.flatMap (fun k : { w : Nat // isKanji w } => kanjiBits k.1) ++ rest).length < ks.length * 13
      rw [List.length_append, flatMap_length_const (fun k : { w : Nat // isKanji w } => kanjiBits k.1) 13 (fun k => by unfold kanjiBits; exact bitsBE_length 13 _)]
      omega
  | eci n => exact eci_emits n rest

/-- A segment at the front of the stream contributes its payload. -/
theorem tPayload_segment (v : Nat) (s : Segment) (h : s.Fits v) (rest : List Bool) :
    (tPayload v (s.encode v ++ rest)).1.flatten = s.payload ++ (tPayload v rest).1.flatten ∧
    (tPayload v (s.encode v ++ rest)).2 = (tPayload v rest).2 := by
  have hm : s.mode < 2 ^ 4 ∧ s.mode ≠ 0 := by cases s <;> exact ⟨by simp [Segment.mode], by simp [Segment.mode]⟩
  obtain ⟨cs, h1, h2⟩ := mode_emits v s h rest
  have hbits : s.encode v ++ rest = bitsBE 4 s.mode ++ ((bitsBE (s.countBits v) s.count ++ s.dataBits) ++ rest) := by
    unfold Segment.encode; simp [List.append_assoc]
  have ht : T.take 4 (s.encode v ++ rest) = ([], .ok (s.mode, (bitsBE (s.countBits v) s.count ++ s.dataBits) ++ rest)) := by
    rw [hbits]; exact take_bitsBE 4 _ _ hm.1
  unfold T.take at ht
  simp only [Prod.mk.injEq, Except.ok.injEq, true_and] at ht
  have hlen : 4 + rest.length ≤ (s.encode v ++ rest).length := by
    rw [hbits]; simp [bitsBE_length]; omega
  unfold tPayload
  rw [tLoop_succ, if_neg (by omega), ht.1, if_neg hm.2, ht.2, h1]
  dsimp only
  rw [tLoop_fuel v _ (rest.length + 1) rest (by omega) (by omega)]
  rw [List.flatten_append, h2]
  exact ⟨rfl, rfl⟩

/-- Segments at the front of the stream contribute their payloads. -/
theorem tPayload_segments (v : Nat) (ss : List Segment) (h : ∀ s ∈ ss, s.Fits v) (rest : List Bool) :
    (tPayload v (ss.flatMap (·.encode v) ++ rest)).1.flatten = ss.flatMap (·.payload) ++ (tPayload v rest).1.flatten ∧
    (tPayload v (ss.flatMap (·.encode v) ++ rest)).2 = (tPayload v rest).2 := by
  induction ss with
  | nil => exact ⟨rfl, rfl⟩
  | cons s ss ih =>
    obtain ⟨i1, i2⟩ := ih fun s' hs => h s' (by simp [hs])
    obtain ⟨j1, j2⟩ := tPayload_segment v s (h s (by simp)) (ss.flatMap (·.encode v) ++ rest)
    rw [List.flatMap_cons, List.flatMap_cons, List.append_assoc, List.append_assoc, j1, j2, i1, i2]
    exact ⟨rfl, rfl⟩

/-- At the end of the data nothing more is written. -/
theorem tPayload_ends (v : Nat) (tail : List Bool) (h : Ends tail) :
    (tPayload v tail).1 = [] ∧ ∃ rest, (tPayload v tail).2 = .ok ((), rest) := by
  unfold tPayload
  rw [tLoop_succ]
  rcases h with h | ⟨pad, rfl⟩
  · rw [if_pos h]; exact ⟨rfl, _, rfl⟩
  · have ht : T.take 4 (bitsBE 4 0 ++ pad) = ([], .ok (0, pad)) := take_bitsBE 4 0 pad (by decide)
    unfold T.take at ht
    simp only [Prod.mk.injEq, Except.ok.injEq, true_and] at ht
    rw [if_neg (by simp [bitsBE_length]), if_pos ht.1]
    exact ⟨rfl, _, rfl⟩

/-- An ECI header has no effect. -/
theorem tPayload_eci (v n : Nat) (rest : List Bool) :
    tPayload v ((Segment.eci n).encode v ++ rest) = tPayload v rest := by
  have hcs := eci_emits_nil n rest
  have hbits : (Segment.eci n).encode v ++ rest = bitsBE 4 7 ++ (eciBits n ++ rest) := by
    unfold Segment.encode
    simp only [Segment.mode, Segment.countBits, Segment.count, Segment.dataBits, List.append_assoc]
    rfl
  have ht : T.take 4 (bitsBE 4 7 ++ (eciBits n ++ rest)) = ([], .ok (7, eciBits n ++ rest)) := take_bitsBE 4 7 _ (by decide)
  unfold T.take at ht
  simp only [Prod.mk.injEq, Except.ok.injEq, true_and] at ht
  unfold tPayload
  rw [hbits, tLoop_succ, if_neg (by simp [bitsBE_length]), ht.1, if_neg (by decide), ht.2]
  have hmode : tMode v 7 (eciBits n ++ rest) = ([], .ok ((), rest)) := hcs
  rw [hmode]
  dsimp only
  rw [List.nil_append, tLoop_fuel v _ (rest.length + 1) rest (by simp [bitsBE_length]; omega) (by omega)]

/-- A failing segment decides the outcome. -/
theorem tPayload_mode_fail (v mode : Nat) (hm : mode < 16) (h0 : mode ≠ 0) (tail : List Bool) {cs : List (List Byte)} {e : Fault}
    (h : tMode v mode tail = (cs, .error e)) : tPayload v (bitsBE 4 mode ++ tail) = (cs, .error e) := by
  have ht : T.take 4 (bitsBE 4 mode ++ tail) = ([], .ok (mode, tail)) := take_bitsBE 4 mode _ hm
  unfold T.take at ht
  simp only [Prod.mk.injEq, Except.ok.injEq, true_and] at ht
  unfold tPayload
  rw [tLoop_succ, if_neg (by simp [bitsBE_length]), ht.1, if_neg h0, ht.2, h]

theorem tMode_unknown (v mode : Nat) (h : mode ∉ [0, 1, 2, 4, 7, 8]) (tail : List Bool) :
    tMode v mode tail = ([], .error (.err .UnknownDataType)) := by
  unfold tMode
  split <;> first | rfl | simp at h

theorem tByte_short (v n : Nat) (tail : List Bool) (hn : n < 2 ^ (if v ≤ 9 then 8 else 16)) (hs : tail.length < 8 * n) :
    tMode v 4 (bitsBE (if v ≤ 9 then 8 else 16) n ++ tail) = ([], .error (.err .DataUnderflow)) := by
  show tByte v _ = _
  unfold tByte
  rw [seq_ok_nil (take_bitsBE _ _ _ hn), seq_ok_nil (t := T.remaining) rfl, if_pos (by omega)]
  rfl

theorem tKanji_short (v n : Nat) (tail : List Bool) (hn : n < 2 ^ (if v ≤ 9 then 8 else if v ≤ 26 then 10 else 12))
    (hs : tail.length < 13 * n) :
    tMode v 8 (bitsBE (if v ≤ 9 then 8 else if v ≤ 26 then 10 else 12) n ++ tail) = ([], .error (.err .DataUnderflow)) := by
  show tKanji v _ = _
  unfold tKanji
  rw [seq_ok_nil (take_bitsBE _ _ _ hn), seq_ok_nil (t := T.remaining) rfl, if_pos (by omega)]
  rfl

theorem tuple_short (base : Nat) (digit : Nat → Run Byte) (n k : Nat) (bits : List Bool) (f : List Byte → T α)
    (h : bits.length < n) : (tTuple base digit n k >>= f) bits = ([], .error (.err .DataUnderflow)) := by
  have : tTuple base digit n k bits = ([], .error (.err .DataUnderflow)) := by
    unfold tTuple
    rw [seq_ok_nil (t := T.remaining) rfl, if_pos h]
    rfl
  show T.seq _ _ _ = _
  unfold T.seq
  rw [this]

theorem numericLoop_short (n : Nat) (hn : 0 < n) (tail : List Bool)
    (hs : tail.length < if n = 1 then 4 else if n = 2 then 7 else 10) : ∀ ds : List (Fin 10), ds.length % 3 = 0 →
    ∃ cs, tNumericLoop (ds.length + n) (numericBits ds ++ tail) = (cs, .error (.err .DataUnderflow)) ∧
      cs.flatten = ds.map digitByte
  | [], _ => by
    refine ⟨[], ?_, rfl⟩
    rw [List.length_nil, Nat.zero_add, numericBits, List.nil_append]
    match n, hn with
    | 1, _ => rw [tNumericLoop]; exact tuple_short _ _ _ _ _ _ hs
    | 2, _ => rw [tNumericLoop]; exact tuple_short _ _ _ _ _ _ hs
    | n + 3, _ =>
      rw [if_neg (by omega), if_neg (by omega)] at hs
      rw [tNumericLoop]; exact tuple_short _ _ _ _ _ _ hs
  | [a], h => by simp at h
  | [a, b], h => by simp at h
  | a :: b :: c :: r, h => by
    have ha := a.isLt
    have hb := b.isLt
    have hc := c.isLt
    obtain ⟨cs, h1, h2⟩ := numericLoop_short n hn tail hs r (by simp only [List.length_cons] at h; omega)
    refine ⟨[digitByte a, digitByte b, digitByte c] :: cs, ?_, by simp [h2]⟩
    rw [show (a :: b :: c :: r).length + n = (r.length + n) + 3 by simp only [List.length_cons]; omega]
    rw [tNumericLoop, numericBits, List.append_assoc,
      seq_ok_nil (tuple_emits 10 numDigit 10 3 (100 * a + 10 * b + c) [digitByte a, digitByte b, digitByte c] (by omega) (by
        rw [tuple_digits, numDigit_eq _ c (by omega), Run.ok_bind, tuple_digits, numDigit_eq _ b (by omega), Run.ok_bind,
          tuple_digits, numDigit_eq _ a (by omega), Run.ok_bind]
        rfl) (numericBits r ++ tail)),
      seq_ok (t := T.write [digitByte a, digitByte b, digitByte c]) rfl, h1]
    rfl

theorem alphaLoop_short (n : Nat) (hn : 0 < n) (tail : List Bool)
    (hs : tail.length < if n = 1 then 6 else 11) : ∀ ds : List (Fin 45), ds.length % 2 = 0 →
    ∃ cs, tAlphaLoop (ds.length + n) (alphaBits ds ++ tail) = (cs, .error (.err .DataUnderflow)) ∧
      cs.flatten = ds.map alphaByte
  | [], _ => by
    refine ⟨[], ?_, rfl⟩
    rw [List.length_nil, Nat.zero_add, alphaBits, List.nil_append]
    match n, hn with
    | 1, _ => rw [tAlphaLoop]; exact tuple_short _ _ _ _ _ _ hs
    | n + 2, _ =>
      rw [if_neg (by omega)] at hs
      rw [tAlphaLoop]; exact tuple_short _ _ _ _ _ _ hs
  | [a], h => by simp at h
  | a :: b :: r, h => by
    have ha := a.isLt
    have hb := b.isLt
    obtain ⟨cs, h1, h2⟩ := alphaLoop_short n hn tail hs r (by simp only [List.length_cons] at h; omega)
    refine ⟨[alphaByte a, alphaByte b] :: cs, ?_, by simp [h2]⟩
    rw [show (a :: b :: r).length + n = (r.length + n) + 2 by simp only [List.length_cons]; omega]
    rw [tAlphaLoop, alphaBits, List.append_assoc,
      seq_ok_nil (tuple_emits 45 alphaDigit 11 2 (45 * a + b) [alphaByte a, alphaByte b] (by omega) (by
        rw [tuple_digits, alphaDigit_eq _ b (by omega), Run.ok_bind, tuple_digits, alphaDigit_eq _ a (by omega), Run.ok_bind]
        rfl) (alphaBits r ++ tail)),
      seq_ok (t := T.write [alphaByte a, alphaByte b]) rfl, h1]
    rfl

theorem tNumeric_short (v : Nat) (ds : List (Fin 10)) (hd : ds.length % 3 = 0) (n : Nat) (hn0 : 0 < n) (tail : List Bool)
    (hn : ds.length + n < 2 ^ (if v ≤ 9 then 10 else if v ≤ 26 then 12 else 14))
    (hs : tail.length < if n = 1 then 4 else if n = 2 then 7 else 10) :
    ∃ cs, tMode v 1 (bitsBE (if v ≤ 9 then 10 else if v ≤ 26 then 12 else 14) (ds.length + n) ++ (numericBits ds ++ tail)) =
      (cs, .error (.err .DataUnderflow)) ∧ cs.flatten = (Segment.numeric ds).payload := by
  obtain ⟨cs, h1, h2⟩ := numericLoop_short n hn0 tail hs ds hd
  refine ⟨cs, ?_, h2⟩
  show tNumeric v _ = _
  unfold tNumeric
  rw [seq_ok_nil (take_bitsBE _ _ _ hn)]
  exact h1

theorem tAlpha_short (v : Nat) (ds : List (Fin 45)) (hd : ds.length % 2 = 0) (n : Nat) (hn0 : 0 < n) (tail : List Bool)
    (hn : ds.length + n < 2 ^ (if v ≤ 9 then 9 else if v ≤ 26 then 11 else 13))
    (hs : tail.length < if n = 1 then 6 else 11) :
    ∃ cs, tMode v 2 (bitsBE (if v ≤ 9 then 9 else if v ≤ 26 then 11 else 13) (ds.length + n) ++ (alphaBits ds ++ tail)) =
      (cs, .error (.err .DataUnderflow)) ∧ cs.flatten = (Segment.alpha ds).payload := by
  obtain ⟨cs, h1, h2⟩ := alphaLoop_short n hn0 tail hs ds hd
  refine ⟨cs, ?_, h2⟩
  show tAlpha v _ = _
  unfold tAlpha
  rw [seq_ok_nil (take_bitsBE _ _ _ hn)]
  exact h1

end Rqrr
