import Verif.Proofs.Payload
import Verif.Spec.Payload

/-!
# Payload decoding of every bit string
-/

namespace Rqrr

open Spec

/-! ## Every bit string has a meaning -/

theorem bitsBE_natOfBits (l : List Bool) : bitsBE l.length (natOfBits l) = l := by
  induction l using List.reverseRecOn with
  | nil => rfl
  | append_singleton l b ih =>
    rw [List.length_append, List.length_singleton, bitsBE_succ, natOfBits_snoc]
    have e1 : (2 * natOfBits l + b.toNat) / 2 = natOfBits l := by cases b <;> simp only [Bool.toNat_false, Bool.toNat_true] <;> omega
    have e2 : decide ((2 * natOfBits l + b.toNat) % 2 = 1) = b := by
      cases b <;> simp
    rw [e1, e2, ih]

theorem split_field (n : Nat) (bits : List Bool) (h : n ≤ bits.length) :
    ∃ x rest, x < 2 ^ n ∧ bits = bitsBE n x ++ rest := by
  have hl : (bits.take n).length = n := by rw [List.length_take]; omega
  refine ⟨natOfBits (bits.take n), bits.drop n, ?_, ?_⟩
  · have := natOfBits_lt (bits.take n)
    rwa [hl] at this
  · have := bitsBE_natOfBits (bits.take n)
    rw [hl] at this
    rw [this, List.take_append_drop]

theorem split_groups : ∀ (ws : List Nat) (bits : List Bool),
    (∃ xs rest, Groups ws xs ∧ bits = groupBits xs ++ rest) ∨
    ∃ ws1 w ws2 xs rest, ws = ws1 ++ w :: ws2 ∧ Groups ws1 xs ∧ rest.length < w ∧ bits = groupBits xs ++ rest
  | [], bits => .inl ⟨[], bits, ⟨rfl, by simp⟩, rfl⟩
  | w :: ws, bits => by
    by_cases h : w ≤ bits.length
    · obtain ⟨x, rest, hx, rfl⟩ := split_field w bits h
      rcases split_groups ws rest with ⟨xs, rest', ⟨g1, g2⟩, rfl⟩ | ⟨ws1, w', ws2, xs, rest', rfl, ⟨g1, g2⟩, hr, rfl⟩
      · refine .inl ⟨(w, x) :: xs, rest', ⟨by simp [g1], ?_⟩, by simp [groupBits]⟩
        intro p hp
        rcases List.mem_cons.1 hp with rfl | hp
        · exact hx
        · exact g2 p hp
      · refine .inr ⟨w :: ws1, w', ws2, (w, x) :: xs, rest', by simp, ⟨by simp [g1], ?_⟩, hr, by simp [groupBits]⟩
        intro p hp
        rcases List.mem_cons.1 hp with rfl | hp
        · exact hx
        · exact g2 p hp
    · exact .inr ⟨[], w, ws, [], bits, rfl, ⟨rfl, by simp⟩, by omega, rfl⟩

theorem groupBits_length {ws : List Nat} {xs : List (Nat × Nat)} (h : Groups ws xs) : (groupBits xs).length = ws.sum := by
  obtain ⟨rfl, _⟩ := h
  unfold groupBits
  rw [List.length_flatMap]
  simp only [bitsBE_length]

theorem mode_cases (k : Nat) (hk : k < 16) : k = 0 ∨ k = 7 ∨ (∃ m : Mode, m.indicator = k) ∨ k ∉ [0, 1, 2, 4, 7, 8] := by
  by_cases h : k ∈ [0, 1, 2, 4, 7, 8]
  · simp only [List.mem_cons, List.not_mem_nil, or_false] at h
    rcases h with rfl | rfl | rfl | rfl | rfl | rfl
    · exact .inl rfl
    · exact .inr (.inr (.inl ⟨.numeric, rfl⟩))
    · exact .inr (.inr (.inl ⟨.alpha, rfl⟩))
    · exact .inr (.inr (.inl ⟨.byte, rfl⟩))
    · exact .inr (.inl rfl)
    · exact .inr (.inr (.inl ⟨.kanji, rfl⟩))
  · exact .inr (.inr (.inr h))

/-- Every bit string has a meaning. -/
theorem means_total (v : Nat) : ∀ (len : Nat) (bits : List Bool), bits.length ≤ len → ∃ out e, Means v bits out e
  | 0, bits, h => ⟨_, _, .short bits (by omega)⟩
  | len + 1, bits, h => by
    by_cases h4 : bits.length < 4
    · exact ⟨_, _, .short bits h4⟩
    · obtain ⟨k, r, hk, rfl⟩ := split_field 4 bits (by omega)
      rw [List.length_append, bitsBE_length] at h
      rcases mode_cases k hk with rfl | rfl | ⟨m, rfl⟩ | hu
      · exact ⟨_, _, .terminator r⟩
      · by_cases h8 : r.length < 8
        · exact ⟨_, _, .cutEci r h8⟩
        · obtain ⟨b, r, hb, rfl⟩ := split_field 8 r (by omega)
          rw [List.length_append, bitsBE_length] at h
          by_cases hm : r.length < 8 * eciMore b
          · exact ⟨_, _, .cutEciMore b r hb hm⟩
          · obtain ⟨out, e, ih⟩ := means_total v len (r.drop (8 * eciMore b)) (by rw [List.length_drop]; omega)
            refine ⟨out, e, ?_⟩
            have := Means.eci (v := v) b (r.take (8 * eciMore b)) _ out e hb (by rw [List.length_take]; omega) ih
            rwa [List.take_append_drop] at this
      · by_cases hc : r.length < m.countBits v
        · exact ⟨_, _, .cutCount m r hc⟩
        · obtain ⟨n, r, hn, rfl⟩ := split_field (m.countBits v) r (by omega)
          rw [List.length_append] at h
          rw [← List.append_assoc]
          by_cases hm : m = .byte ∨ m = .kanji
          · by_cases hs : r.length < (m.widths n).sum
            · exact ⟨_, _, .cutSegment m n r hm hn hs⟩
            · rcases split_groups (m.widths n) r with ⟨xs, rest, hg, rfl⟩ | ⟨ws1, w, ws2, xs, rest, hw, hg, hr, rfl⟩
              · rw [List.length_append] at h
                obtain ⟨out, e, ih⟩ := means_total v len rest (by omega)
                exact ⟨_, _, .segment m n xs rest out e hn hg ih⟩
              · exfalso
                rw [hw, List.length_append, groupBits_length hg, List.sum_append, List.sum_cons] at hs
                omega
          · have hm' : m = .numeric ∨ m = .alpha := by cases m <;> simp_all
            rcases split_groups (m.widths n) r with ⟨xs, rest, hg, rfl⟩ | ⟨ws1, w, ws2, xs, rest, hw, hg, hr, rfl⟩
            · rw [List.length_append] at h
              obtain ⟨out, e, ih⟩ := means_total v len rest (by omega)
              exact ⟨_, _, .segment m n xs rest out e hn hg ih⟩
            · exact ⟨_, _, .cutGroup m n ws1 w ws2 xs rest hm' hn hw hg hr⟩
      · exact ⟨_, _, .unknown k r hk hu⟩

/-! ## The decoder follows it -/

/-- `t` writes `out` on `bits`, and its result is `r`. -/
def Does (t : T Unit) (bits : List Bool) (out : List Byte) (r : Except Fault (Unit × List Bool)) : Prop :=
  ∃ cs, t bits = (cs, r) ∧ cs.flatten = out

theorem numDigit_mod (x : Nat) : numDigit (x % 10) = .ok (digitOf x) := by
  unfold numDigit digitOf
  congr 1
  rw [Nat.add_comm, BitVec.ofNat_add]
  rfl

theorem alphaDigit_mod (x : Nat) : alphaDigit (x % 45) = .ok (letterOf x) :=
  alphaDigit_table ⟨x % 45, Nat.mod_lt _ (by omega)⟩

/-- Writing a tuple and going on. -/
theorem tuple_write {base : Nat} {digit : Nat → Run Byte} {n k x : Nat} {l : List Byte} (hx : x < 2 ^ n)
    (hl : tuple_digits base digit k x [] = .ok l) {g : T Unit} {bits : List Bool} {out : List Byte}
    {r : Except Fault (Unit × List Bool)} (h : Does g bits out r) :
    Does (do let buf ← tTuple base digit n k; T.write buf; g) (bitsBE n x ++ bits) (l ++ out) r := by
  obtain ⟨cs, h1, h2⟩ := h
  refine ⟨l :: cs, ?_, by simp [h2]⟩
  rw [seq_ok_nil (tuple_emits base digit n k x l hx hl bits), seq_ok (t := T.write l) rfl, h1]
  rfl

/-- Writing the last tuple. -/
theorem tuple_last {base : Nat} {digit : Nat → Run Byte} {n k x : Nat} {l : List Byte} (hx : x < 2 ^ n)
    (hl : tuple_digits base digit k x [] = .ok l) (rest : List Bool) :
    Does (do let buf ← tTuple base digit n k; T.write buf) (bitsBE n x ++ rest) l (.ok ((), rest)) := by
  refine ⟨[l], ?_, by simp⟩
  rw [seq_ok_nil (tuple_emits base digit n k x l hx hl rest)]
  rfl

theorem num3 (x : Nat) : tuple_digits 10 numDigit 3 x [] = .ok (Mode.numeric.bytes (10, x)) := by
  simp only [tuple_digits, numDigit_mod, Run.ok_bind, Nat.div_div_eq_div_mul]
  rfl
theorem num2 (x : Nat) : tuple_digits 10 numDigit 2 x [] = .ok (Mode.numeric.bytes (7, x)) := by
  simp only [tuple_digits, numDigit_mod, Run.ok_bind]
  rfl
theorem num1 (x : Nat) : tuple_digits 10 numDigit 1 x [] = .ok (Mode.numeric.bytes (4, x)) := by
  simp only [tuple_digits, numDigit_mod, Run.ok_bind]
  rfl
theorem alpha2 (x : Nat) : tuple_digits 45 alphaDigit 2 x [] = .ok (Mode.alpha.bytes (11, x)) := by
  simp only [tuple_digits, alphaDigit_mod, Run.ok_bind]
  rfl
theorem alpha1 (x : Nat) : tuple_digits 45 alphaDigit 1 x [] = .ok (Mode.alpha.bytes (6, x)) := by
  simp only [tuple_digits, alphaDigit_mod, Run.ok_bind]
  rfl

theorem groups_tail {w : Nat} {ws : List Nat} {p : Nat × Nat} {xs : List (Nat × Nat)} (h : Groups (w :: ws) (p :: xs)) :
    p.1 = w ∧ p.2 < 2 ^ w ∧ Groups ws xs := by
  obtain ⟨h1, h2⟩ := h
  rw [List.map_cons, List.cons.injEq] at h1
  refine ⟨h1.1, ?_, h1.2, fun q hq => h2 q (by simp [hq])⟩
  rw [← h1.1]
  exact h2 p (by simp)

theorem groups_nil {xs : List (Nat × Nat)} (h : Groups [] xs) : xs = [] := by
  simpa using h.1

theorem groups_cons {w : Nat} {ws : List Nat} {xs : List (Nat × Nat)} (h : Groups (w :: ws) xs) :
    ∃ x ys, xs = (w, x) :: ys ∧ x < 2 ^ w ∧ Groups ws ys := by
  cases xs with
  | nil => have := h.1; simp at this
  | cons p ys =>
    obtain ⟨rfl, h2, h3⟩ := groups_tail h
    exact ⟨p.2, ys, rfl, h2, h3⟩

/-- A complete numeric segment. -/
theorem numeric_does : ∀ (n : Nat) (xs : List (Nat × Nat)) (rest : List Bool), Groups (numericWidths n) xs →
    Does (tNumericLoop n) (groupBits xs ++ rest) (xs.flatMap Mode.numeric.bytes) (.ok ((), rest))
  | 0, xs, rest, h => by
    obtain rfl := groups_nil h
    exact ⟨[], rfl, rfl⟩
  | 1, xs, rest, h => by
    obtain ⟨x, ys, rfl, hx, hy⟩ := groups_cons h
    obtain rfl := groups_nil hy
    have := tuple_last hx (num1 x) rest
    simpa [groupBits, tNumericLoop] using this
  | 2, xs, rest, h => by
    obtain ⟨x, ys, rfl, hx, hy⟩ := groups_cons h
    obtain rfl := groups_nil hy
    have := tuple_last hx (num2 x) rest
    simpa [groupBits, tNumericLoop] using this
  | n + 3, xs, rest, h => by
    obtain ⟨x, ys, rfl, hx, hy⟩ := groups_cons h
    have := tuple_write hx (num3 x) (numeric_does n ys rest hy)
    rw [tNumericLoop]
    simpa [groupBits] using this

theorem alpha_does : ∀ (n : Nat) (xs : List (Nat × Nat)) (rest : List Bool), Groups (alphaWidths n) xs →
    Does (tAlphaLoop n) (groupBits xs ++ rest) (xs.flatMap Mode.alpha.bytes) (.ok ((), rest))
  | 0, xs, rest, h => by
    obtain rfl := groups_nil h
    exact ⟨[], rfl, rfl⟩
  | 1, xs, rest, h => by
    obtain ⟨x, ys, rfl, hx, hy⟩ := groups_cons h
    obtain rfl := groups_nil hy
    have := tuple_last hx (alpha1 x) rest
    simpa [groupBits, tAlphaLoop] using this
  | n + 2, xs, rest, h => by
    obtain ⟨x, ys, rfl, hx, hy⟩ := groups_cons h
    have := tuple_write hx (alpha2 x) (alpha_does n ys rest hy)
    rw [tAlphaLoop]
    simpa [groupBits] using this

/-- A numeric segment that ends too early. -/
theorem numeric_cut : ∀ (n : Nat) (ws : List Nat) (w : Nat) (ws' : List Nat) (xs : List (Nat × Nat)) (rest : List Bool),
    numericWidths n = ws ++ w :: ws' → Groups ws xs → rest.length < w →
    Does (tNumericLoop n) (groupBits xs ++ rest) (xs.flatMap Mode.numeric.bytes) (.error (.err .DataUnderflow))
  | 0, ws, w, ws', xs, rest, h, _, _ => by simp [numericWidths] at h
  | 1, [], w, ws', xs, rest, h, hg, hr => by
    obtain rfl := groups_nil hg
    simp only [numericWidths, List.nil_append, List.cons.injEq] at h
    exact ⟨[], by rw [tNumericLoop]; exact tuple_short _ _ _ _ _ _ (by rw [h.1]; exact hr), rfl⟩
  | 1, a :: ws, w, ws', xs, rest, h, _, _ => by simp [numericWidths] at h
  | 2, [], w, ws', xs, rest, h, hg, hr => by
    obtain rfl := groups_nil hg
    simp only [numericWidths, List.nil_append, List.cons.injEq] at h
    exact ⟨[], by rw [tNumericLoop]; exact tuple_short _ _ _ _ _ _ (by rw [h.1]; exact hr), rfl⟩
  | 2, a :: ws, w, ws', xs, rest, h, _, _ => by simp [numericWidths] at h
  | n + 3, [], w, ws', xs, rest, h, hg, hr => by
    obtain rfl := groups_nil hg
    simp only [numericWidths, List.nil_append, List.cons.injEq] at h
    exact ⟨[], by rw [tNumericLoop]; exact tuple_short _ _ _ _ _ _ (by rw [h.1]; exact hr), rfl⟩
  | n + 3, a :: ws, w, ws', xs, rest, h, hg, hr => by
    simp only [numericWidths, List.cons_append, List.cons.injEq] at h
    obtain ⟨rfl, h⟩ := h
    obtain ⟨x, ys, rfl, hx, hy⟩ := groups_cons hg
    have := tuple_write hx (num3 x) (numeric_cut n ws w ws' ys rest h hy hr)
    rw [tNumericLoop]
    simpa [groupBits] using this

/-- An alphanumeric segment that ends too early. -/
theorem alpha_cut : ∀ (n : Nat) (ws : List Nat) (w : Nat) (ws' : List Nat) (xs : List (Nat × Nat)) (rest : List Bool),
    alphaWidths n = ws ++ w :: ws' → Groups ws xs → rest.length < w →
    Does (tAlphaLoop n) (groupBits xs ++ rest) (xs.flatMap Mode.alpha.bytes) (.error (.err .DataUnderflow))
  | 0, ws, w, ws', xs, rest, h, _, _ => by simp [alphaWidths] at h
  | 1, [], w, ws', xs, rest, h, hg, hr => by
    obtain rfl := groups_nil hg
    simp only [alphaWidths, List.nil_append, List.cons.injEq] at h
    exact ⟨[], by rw [tAlphaLoop]; exact tuple_short _ _ _ _ _ _ (by rw [h.1]; exact hr), rfl⟩
  | 1, a :: ws, w, ws', xs, rest, h, _, _ => by simp [alphaWidths] at h
  | n + 2, [], w, ws', xs, rest, h, hg, hr => by
    obtain rfl := groups_nil hg
    simp only [alphaWidths, List.nil_append, List.cons.injEq] at h
    exact ⟨[], by rw [tAlphaLoop]; exact tuple_short _ _ _ _ _ _ (by rw [h.1]; exact hr), rfl⟩
  | n + 2, a :: ws, w, ws', xs, rest, h, hg, hr => by
    simp only [alphaWidths, List.cons_append, List.cons.injEq] at h
    obtain ⟨rfl, h⟩ := h
    obtain ⟨x, ys, rfl, hx, hy⟩ := groups_cons hg
    have := tuple_write hx (alpha2 x) (alpha_cut n ws w ws' ys rest h hy hr)
    rw [tAlphaLoop]
    simpa [groupBits] using this

/-- A loop over equal groups. -/
theorem times_does (body : T Unit) (w : Nat) (f : Nat × Nat → List Byte)
    (hb : ∀ x rest, x < 2 ^ w → Does body (bitsBE w x ++ rest) (f (w, x)) (.ok ((), rest))) :
    ∀ (n : Nat) (xs : List (Nat × Nat)) (rest : List Bool), Groups (List.replicate n w) xs →
      Does (T.times body n) (groupBits xs ++ rest) (xs.flatMap f) (.ok ((), rest))
  | 0, xs, rest, h => by
    obtain rfl := groups_nil h
    exact ⟨[], rfl, rfl⟩
  | n + 1, xs, rest, h => by
    rw [List.replicate_succ] at h
    obtain ⟨x, ys, rfl, hx, hy⟩ := groups_cons h
    obtain ⟨cs, h1, h2⟩ := hb x (groupBits ys ++ rest) hx
    obtain ⟨cs', h3, h4⟩ := times_does body w f hb n ys rest hy
    refine ⟨cs ++ cs', ?_, by simp [h2, h4]⟩
    have e : groupBits ((w, x) :: ys) ++ rest = bitsBE w x ++ (groupBits ys ++ rest) := by simp [groupBits]
    rw [e]
    show T.seq body (fun _ => T.times body n) _ = _
    unfold T.seq
    rw [h1]
    dsimp only
    rw [h3]

theorem byte_does (x : Nat) (rest : List Bool) (h : x < 2 ^ 8) :
    Does tByteChar (bitsBE 8 x ++ rest) (Mode.byte.bytes (8, x)) (.ok ((), rest)) := by
  refine ⟨[[BitVec.ofNat 8 x]], ?_, rfl⟩
  unfold tByteChar
  rw [seq_ok_nil (take_bitsBE 8 x rest h)]
  rfl

theorem kanji_word_eq (x : Nat) (h : x < 2 ^ 13) :
    [BitVec.ofNat 8 (kanji_word x >>> 8), BitVec.ofNat 8 (kanji_word x &&& 0xff)] = kanjiOf x := by
  have hor : (x / 0xc0) <<< 8 ||| x % 0xc0 = x / 0xc0 * 256 + x % 0xc0 := by
    rw [← Nat.shiftLeft_add_eq_or_of_lt (by omega), Nat.shiftLeft_eq]
  unfold kanji_word kanjiOf
  simp only [hor]
  have hand : ∀ z, z &&& 0xff = z % 256 := fun z => Nat.and_two_pow_sub_one_eq_mod z 8
  split
  · rw [Nat.mod_eq_of_lt (by omega), hand, Nat.shiftRight_eq_div_pow]
  · rw [Nat.mod_eq_of_lt (by omega), hand, Nat.shiftRight_eq_div_pow]

theorem kanji_does (x : Nat) (rest : List Bool) (h : x < 2 ^ 13) :
    Does tKanjiChar (bitsBE 13 x ++ rest) (Mode.kanji.bytes (13, x)) (.ok ((), rest)) := by
  refine ⟨[kanjiOf x], ?_, by simp [Mode.bytes]⟩
  unfold tKanjiChar
  rw [seq_ok_nil (take_bitsBE 13 x rest h), ← kanji_word_eq x h]
  rfl

/-- Reading a count that is there. -/
theorem take_count {n k : Nat} (h : k < 2 ^ n) {f : Nat → T Unit} {rest : List Bool} {out : List Byte}
    {r : Except Fault (Unit × List Bool)} (hd : Does (f k) rest out r) : Does (T.take n >>= f) (bitsBE n k ++ rest) out r := by
  obtain ⟨cs, h1, h2⟩ := hd
  exact ⟨cs, by rw [seq_ok_nil (take_bitsBE n k rest h), h1], h2⟩

theorem sum_replicate' (n k : Nat) : (List.replicate n k).sum = n * k := by
  induction n with
  | zero => simp
  | succ n ih => rw [List.replicate_succ, List.sum_cons, ih, Nat.succ_mul, Nat.add_comm]

/-- A complete segment. -/
theorem mode_does (v : Nat) (m : Mode) (n : Nat) (xs : List (Nat × Nat)) (rest : List Bool) (hn : n < 2 ^ m.countBits v)
    (hg : Groups (m.widths n) xs) :
    Does (tMode v m.indicator) (bitsBE (m.countBits v) n ++ (groupBits xs ++ rest)) (xs.flatMap m.bytes) (.ok ((), rest)) := by
  have hlen := groupBits_length hg
  cases m with
  | numeric => exact take_count hn (numeric_does n xs rest hg)
  | alpha => exact take_count hn (alpha_does n xs rest hg)
  | byte =>
    refine take_count hn ?_
    obtain ⟨cs, h1, h2⟩ := times_does tByteChar 8 Mode.byte.bytes byte_does n xs rest hg
    refine ⟨cs, ?_, h2⟩
    rw [seq_ok_nil (t := T.remaining) rfl, if_neg ?_, h1]
    rw [List.length_append, hlen]
    simp [Mode.widths]
  | kanji =>
    refine take_count hn ?_
    obtain ⟨cs, h1, h2⟩ := times_does tKanjiChar 13 Mode.kanji.bytes kanji_does n xs rest hg
    refine ⟨cs, ?_, h2⟩
    rw [seq_ok_nil (t := T.remaining) rfl, if_neg ?_, h1]
    rw [List.length_append, hlen]
    simp [Mode.widths]

/-- A numeric or alphanumeric segment cut off. -/
theorem mode_cutGroup (v : Nat) (m : Mode) (n : Nat) (ws : List Nat) (w : Nat) (ws' : List Nat) (xs : List (Nat × Nat))
    (rest : List Bool) (hm : m = .numeric ∨ m = .alpha) (hn : n < 2 ^ m.countBits v) (hw : m.widths n = ws ++ w :: ws')
    (hg : Groups ws xs) (hr : rest.length < w) :
    Does (tMode v m.indicator) (bitsBE (m.countBits v) n ++ (groupBits xs ++ rest)) (xs.flatMap m.bytes)
      (.error (.err .DataUnderflow)) := by
  rcases hm with rfl | rfl
  · exact take_count hn (numeric_cut n ws w ws' xs rest hw hg hr)
  · exact take_count hn (alpha_cut n ws w ws' xs rest hw hg hr)

/-- A byte or kanji segment cut off. -/
theorem mode_cutSegment (v : Nat) (m : Mode) (n : Nat) (rest : List Bool) (hm : m = .byte ∨ m = .kanji)
    (hn : n < 2 ^ m.countBits v) (hr : rest.length < (m.widths n).sum) :
    Does (tMode v m.indicator) (bitsBE (m.countBits v) n ++ rest) [] (.error (.err .DataUnderflow)) := by
  rcases hm with rfl | rfl
  · refine take_count hn ⟨[], ?_, rfl⟩
    rw [seq_ok_nil (t := T.remaining) rfl, if_pos ?_]
    · rfl
    · simpa [Mode.widths, sum_replicate'] using hr
  · refine take_count hn ⟨[], ?_, rfl⟩
    rw [seq_ok_nil (t := T.remaining) rfl, if_pos ?_]
    · rfl
    · simpa [Mode.widths, sum_replicate'] using hr

theorem natOfBits_eq_zero (l : List Bool) : natOfBits l = 0 ↔ l.all (!·) = true := by
  induction l using List.reverseRecOn with
  | nil => simp [natOfBits]
  | append_singleton l b ih =>
    rw [natOfBits_snoc, List.all_append, Bool.and_eq_true, ← ih]
    cases b <;> simp only [Bool.toNat_false, Bool.toNat_true, List.all_cons, List.all_nil] <;> simp <;> omega

/-- A count cut off. -/
theorem mode_cutCount (v : Nat) (m : Mode) (rest : List Bool) (hr : rest.length < m.countBits v) :
    Does (tMode v m.indicator) rest [] (if rest.all (!·) then .ok ((), []) else .error (.err .DataUnderflow)) := by
  have ht : ∀ n, rest.length < n → T.take n rest = ([], .ok (natOfBits rest, [])) := by
    intro n hn
    unfold T.take
    rw [List.take_of_length_le (by omega), List.drop_of_length_le (by omega)]
  have hz := natOfBits_eq_zero rest
  have key : ∀ (f : Nat → T Unit), (f 0 [] = ([], .ok ((), []))) →
      (∀ k, f (k + 1) [] = ([], .error (.err .DataUnderflow))) →
      ∀ n, rest.length < n → Does (T.take n >>= f) rest [] (if rest.all (!·) then .ok ((), []) else .error (.err .DataUnderflow)) := by
    intro f f0 f1 n hn
    refine ⟨[], ?_, rfl⟩
    rw [seq_ok_nil (ht n hn)]
    by_cases h0 : natOfBits rest = 0
    · rw [if_pos (hz.1 h0), h0, f0]
    · rw [if_neg (fun h => h0 (hz.2 h))]
      obtain ⟨k, hk⟩ := Nat.exists_eq_succ_of_ne_zero h0
      rw [hk]
      exact f1 k
  cases m with
  | numeric =>
    refine key tNumericLoop rfl ?_ _ hr
    intro k
    match k with
    | 0 => rfl
    | 1 => rfl
    | k + 2 =>
      show tNumericLoop (k + 3) [] = _
      rw [tNumericLoop]
      exact tuple_short _ _ _ _ _ _ (by simp)
  | alpha =>
    refine key tAlphaLoop rfl ?_ _ hr
    intro k
    match k with
    | 0 => rfl
    | k + 1 =>
      show tAlphaLoop (k + 2) [] = _
      rw [tAlphaLoop]
      exact tuple_short _ _ _ _ _ _ (by simp)
  | byte =>
    refine key _ rfl ?_ _ hr
    intro k
    rw [seq_ok_nil (t := T.remaining) rfl, if_pos (by simp)]
    rfl
  | kanji =>
    refine key _ rfl ?_ _ hr
    intro k
    rw [seq_ok_nil (t := T.remaining) rfl, if_pos (by simp)]
    rfl

theorem eci_tests : ∀ b < 256, ((b &&& 0xc0 == 0x80) = true ∧ eciMore b = 1) ∨
    ((b &&& 0xc0 == 0x80) = false ∧ (b &&& 0xe0 == 0xc0) = true ∧ eciMore b = 2) ∨
    ((b &&& 0xc0 == 0x80) = false ∧ (b &&& 0xe0 == 0xc0) = false ∧ eciMore b = 0) := by decide +kernel

/-- ECI designators. -/
theorem eci_does (b : Nat) (hb : b < 256) (rest : List Bool) :
    tEci (bitsBE 8 b ++ rest) = if rest.length < 8 * eciMore b then ([], .error (.err .DataUnderflow))
      else ([], .ok ((), rest.drop (8 * eciMore b))) := by
  unfold tEci
  rw [seq_ok_nil (t := T.remaining) rfl, if_neg (by rw [List.length_append, bitsBE_length]; omega),
    seq_ok_nil (take_bitsBE 8 b rest hb)]
  rcases eci_tests b hb with ⟨e1, e2⟩ | ⟨e1, e2, e3⟩ | ⟨e1, e2, e3⟩
  · rw [if_pos e1, e2, seq_ok_nil (t := T.remaining) rfl]
    split
    · rfl
    · rfl
  · rw [if_neg (by rw [e1]; simp), if_pos e2, e3, seq_ok_nil (t := T.remaining) rfl]
    split
    · rfl
    · rfl
  · rw [if_neg (by rw [e1]; simp), if_neg (by rw [e2]; simp), e3]
    rfl

/-- What a call returns. -/
def endingResult : Ending → Run Unit
  | .complete => .ok ()
  | .cutOff => .error (.err .DataUnderflow)
  | .unknownMode => .error (.err .UnknownDataType)

/-- One segment that succeeds, and the rest. -/
theorem tPayload_mode_ok (v mode : Nat) (hm : mode < 16) (h0 : mode ≠ 0) (tail rest : List Bool) {cs : List (List Byte)}
    (h : tMode v mode tail = (cs, .ok ((), rest))) :
    tPayload v (bitsBE 4 mode ++ tail) = (cs ++ (tPayload v rest).1, (tPayload v rest).2) := by
  have ht : T.take 4 (bitsBE 4 mode ++ tail) = ([], .ok (mode, tail)) := take_bitsBE 4 mode _ hm
  unfold T.take at ht
  simp only [Prod.mk.injEq, Except.ok.injEq, true_and] at ht
  have hl := tame_mode v mode tail
  rw [h] at hl
  unfold tPayload
  rw [tLoop_succ, if_neg (by simp [bitsBE_length]), ht.1, if_neg h0, ht.2, h]
  dsimp only at hl ⊢
  rw [tLoop_fuel v (bitsBE 4 mode ++ tail).length (rest.length + 1) rest (by rw [List.length_append, bitsBE_length]; omega)
    (by omega)]

theorem indicator_facts (m : Mode) : m.indicator < 16 ∧ m.indicator ≠ 0 := by cases m <;> decide

/-- The decoder does what the bits mean. -/
theorem means_sound {v : Nat} {bits : List Bool} {out : List Byte} {e : Ending} (h : Means v bits out e) :
    (tPayload v bits).1.flatten = out ∧ (tPayload v bits).2.map (fun _ => ()) = endingResult e := by
  induction h with
  | short bits h =>
    obtain ⟨e1, r, e2⟩ := tPayload_ends v bits (.inl h)
    rw [e1, e2]; exact ⟨rfl, rfl⟩
  | terminator rest =>
    obtain ⟨e1, r, e2⟩ := tPayload_ends v _ (.inr ⟨rest, rfl⟩)
    rw [e1, e2]; exact ⟨rfl, rfl⟩
  | unknown k rest hk hu =>
    rw [tPayload_mode_fail v k hk (by rintro rfl; simp at hu) rest (tMode_unknown v k hu rest)]
    exact ⟨rfl, rfl⟩
  | segment m n xs rest out e hn hg _ ih =>
    obtain ⟨cs, h1, h2⟩ := mode_does v m n xs rest hn hg
    obtain ⟨i1, i2⟩ := indicator_facts m
    unfold header
    rw [List.append_assoc, tPayload_mode_ok v _ i1 i2 _ _ h1, List.flatten_append, h2, ih.1]
    exact ⟨rfl, ih.2⟩
  | cutGroup m n ws w ws' xs rest hm hn hw hg hr =>
    obtain ⟨cs, h1, h2⟩ := mode_cutGroup v m n ws w ws' xs rest hm hn hw hg hr
    obtain ⟨i1, i2⟩ := indicator_facts m
    unfold header
    rw [List.append_assoc, tPayload_mode_fail v _ i1 i2 _ h1]
    exact ⟨h2, rfl⟩
  | cutSegment m n rest hm hn hr =>
    obtain ⟨cs, h1, h2⟩ := mode_cutSegment v m n rest hm hn hr
    obtain ⟨i1, i2⟩ := indicator_facts m
    unfold header
    rw [List.append_assoc, tPayload_mode_fail v _ i1 i2 _ h1]
    exact ⟨h2, rfl⟩
  | cutCount m rest hr =>
    obtain ⟨cs, h1, h2⟩ := mode_cutCount v m rest hr
    obtain ⟨i1, i2⟩ := indicator_facts m
    by_cases hz : rest.all (!·) = true
    · rw [if_pos hz] at h1 ⊢
      obtain ⟨e1, r, e2⟩ := tPayload_ends v [] (.inl (by simp))
      rw [tPayload_mode_ok v _ i1 i2 _ _ h1, e1, e2, List.append_nil]
      exact ⟨h2, rfl⟩
    · rw [if_neg hz] at h1 ⊢
      rw [tPayload_mode_fail v _ i1 i2 _ h1]
      exact ⟨h2, rfl⟩
  | eci b more rest out e hb hmore _ ih =>
    have h1 := eci_does b hb (more ++ rest)
    rw [if_neg (by rw [List.length_append]; omega), ← hmore, List.drop_left] at h1
    rw [tPayload_mode_ok v 7 (by omega) (by omega) _ rest (cs := []) h1, List.nil_append]
    exact ih
  | cutEci rest h =>
    have h1 : tMode v 7 rest = ([], .error (.err .DataUnderflow)) := by
      show tEci rest = _
      unfold tEci
      rw [seq_ok_nil (t := T.remaining) rfl, if_pos h]
      rfl
    rw [tPayload_mode_fail v 7 (by omega) (by omega) _ h1]
    exact ⟨rfl, rfl⟩
  | cutEciMore b rest hb h =>
    have h1 := eci_does b hb rest
    rw [if_pos h] at h1
    rw [tPayload_mode_fail v 7 (by omega) (by omega) _ (cs := []) h1]
    exact ⟨rfl, rfl⟩

end Rqrr
