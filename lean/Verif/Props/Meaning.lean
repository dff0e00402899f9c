import Verif.Proofs.Meaning
import Verif.Props.Nearest

/-!
# C75: what every bit string, and so every grid, is decoded to
-/

namespace Rqrr

open Spec

theorem endingResult_injective : ∀ e e' : Ending, endingResult e = endingResult e' → e = e' := by
  intro e e' h
  cases e <;> cases e' <;> first | rfl | cases h

/-- **C75.** Decoding a payload, of whatever bits, appends the bytes that the bits mean and ends as they say; and the bits
mean nothing else. -/
theorem C75_meaning (md : MetaData) (ds : CorrectedDataStream) (h : ds.WF) (out : List Byte) (e : Ending) :
    Means md.version ds.rest out e ↔ ∀ pre, decode_payload vecWriter md ds pre = (endingResult e, pre ++ out) := by
  have key : ∀ out e, Means md.version ds.rest out e → ∀ pre, decode_payload vecWriter md ds pre = (endingResult e, pre ++ out) := by
    intro out e hm pre
    obtain ⟨h1, h2⟩ := means_sound hm
    rw [decode_payload_vec md ds h, h1, h2]
  refine ⟨key out e, ?_⟩
  intro hd
  obtain ⟨out', e', hm⟩ := means_total md.version ds.rest.length ds.rest (Nat.le_refl _)
  have h1 := key out' e' hm []
  rw [hd []] at h1
  simp only [Prod.mk.injEq, List.nil_append] at h1
  rw [endingResult_injective _ _ h1.1, h1.2]
  exact hm

/-- **C75.** Every bit string has exactly one meaning. -/
theorem C75_unique (v : Nat) (bits : List Bool) : ∃ out e, Means v bits out e ∧ ∀ out' e', Means v bits out' e' → out' = out ∧ e' = e := by
  obtain ⟨out, e, hm⟩ := means_total v bits.length bits (Nat.le_refl _)
  refine ⟨out, e, hm, ?_⟩
  intro out' e' hm'
  obtain ⟨h1, h2⟩ := means_sound hm
  obtain ⟨h3, h4⟩ := means_sound hm'
  exact ⟨h3.symm.trans h1, endingResult_injective _ _ (h4.symm.trans h2)⟩

/-- **C75.** The result of decoding any complete grid of the size of a symbol (any version but 21): either the format or
the data cannot be corrected, in the grid as well as its transpose; or level, mask pattern and blocks nearest to one of
them are found, and what is appended and returned is what the data codewords of these blocks mean. -/
theorem C75_grid {code : BitGrid} {m : Nat → Nat → Bool} (h : Shows code m) (v : Nat) (h1 : 1 ≤ v) (h40 : v ≤ 40)
    (h21 : v ≠ 21) (hs : code.size = side v) :
    (∃ e, (e = DeQRError.FormatEcc ∨ e = .DataEcc) ∧
      ∀ pre, Grid.decode_to vecWriter code pre = (.error (.err e), pre)) ∨
    ∃ l mask c m' out e, (m' = m ∨ m' = fun y x => m x y) ∧ TakenFor v l mask c m' ∧
      Means v (bytesBits (dataCodewords v l c)) out e ∧
      ∀ pre, Grid.decode_to vecWriter code pre =
        ((endingResult e).map fun _ => { version := v, ecc_level := Level.bits l, mask := mask }, pre ++ out) := by
  have fin : ∀ (l : Level) (mask : Nat) (c : Nat → List Byte) (cs : CorrectedDataStream), cs.WF →
      cs.rest = bytesBits (dataCodewords v l c) →
      (∀ pre, decode vecWriter code pre =
        ((decode_payload vecWriter { version := v, ecc_level := l.bits, mask := mask } cs pre).1.map
          fun _ => { version := v, ecc_level := l.bits, mask := mask },
         (decode_payload vecWriter { version := v, ecc_level := l.bits, mask := mask } cs pre).2)) →
      ∃ out e, Means v (bytesBits (dataCodewords v l c)) out e ∧ ∀ pre, Grid.decode_to vecWriter code pre =
        ((endingResult e).map fun _ => { version := v, ecc_level := Level.bits l, mask := mask }, pre ++ out) := by
    intro l mask c cs hwf hrest hdec
    obtain ⟨out, e, hm, _⟩ := C75_unique v (bytesBits (dataCodewords v l c))
    refine ⟨out, e, hm, ?_⟩
    intro pre
    show decode vecWriter code pre = _
    have := (C75_meaning { version := v, ecc_level := l.bits, mask := mask } cs hwf out e).1 (by rw [hrest]; exact hm) pre
    rw [hdec, this]
  rcases stream_nearest h h1 h40 h21 hs with ⟨l, mask, R, c, cs, a1, a2, a3, a4, a5, a6, a7, a8⟩ | ⟨e, he, hd⟩
  · obtain ⟨out, e, b1, b2⟩ := fin l mask c cs a3 a4 fun pre => C23_direct code _ cs a2 vecWriter pre
    exact .inr ⟨l, mask, c, m, out, e, .inl rfl, ⟨a1, a5, a8, R, a6, a7⟩, b1, b2⟩
  · rcases stream_nearest h.mirrored h1 h40 h21 hs with ⟨l, mask, R, c, cs, a1, a2, a3, a4, a5, a6, a7, a8⟩ | ⟨e', _, hd'⟩
    · obtain ⟨out, e, b1, b2⟩ := fin l mask c cs a3 a4 fun pre => C23_mirrored code _ hd _ cs a2 vecWriter pre
      exact .inr ⟨l, mask, c, _, out, e, .inr rfl, ⟨a1, a5, a8, R, a6, a7⟩, b1, b2⟩
    · exact .inl ⟨e, he, fun pre => C23_neither code e e' hd hd' vecWriter pre⟩

/-- **C75.** Values that no conforming segment has are accepted: a group of three digits with a value from 1000 to 1023
stands for its last three digits, whatever comes before and after it. -/
theorem C75_large_group (v x : Nat) (hx : x < 2 ^ 10) (hx' : 1000 ≤ x) (rest : List Bool) (out : List Byte) (e : Ending)
    (h : Means v rest out e) :
    Means v (header v .numeric 3 ++ (bitsBE 10 x ++ rest)) ([0x30, digitOf (x / 10), digitOf x] ++ out) e := by
  have hn : 3 < 2 ^ Mode.numeric.countBits v := by
    unfold Mode.countBits
    dsimp only
    split
    · decide
    · split <;> decide
  have := Means.segment (v := v) .numeric 3 [(10, x)] rest out e hn ⟨rfl, by simpa using hx⟩ h
  have e1 : digitOf (x / 100) = 0x30 := by
    have : x / 100 = 10 := by omega
    rw [this]; decide
  simpa [groupBits, Mode.bytes, e1] using this

/-- **C75.** A character count cut off by the end of the data goes unnoticed if its bits are zeros. -/
theorem C75_cut_count (v : Nat) (m : Mode) (k : Nat) (hk : k < m.countBits v) :
    Means v (bitsBE 4 m.indicator ++ List.replicate k false) [] .complete := by
  have := Means.cutCount (v := v) m (List.replicate k false) (by simpa using hk)
  rwa [if_pos (by simp)] at this

/-- Three digits `023` from the value 1023, then a terminator. -/
example : decode_payload vecWriter { version := 1, ecc_level := 0, mask := 0 } (streamOf [0x10, 0x0f, 0xff, 0x00]) [] =
    (.ok (), [0x30, 0x32, 0x33]) :=
  (C75_meaning { version := 1, ecc_level := 0, mask := 0 } _ (streamOf_wf _ (by decide)) [0x30, 0x32, 0x33] .complete).1
    (by
      rw [streamOf_rest _ (by decide)]
      exact C75_large_group 1 1023 (by decide) (by decide) (bitsBE 4 0 ++ List.replicate 4 false) [] .complete
        (Means.terminator _)) []

/-- Two letters in a segment of three: the first group counts, the second is cut off. -/
example : Means 5 (header 5 .alpha 3 ++ (bitsBE 11 (45 * 10 + 11) ++ [true, false])) [0x41, 0x42] .cutOff := by
  have := Means.cutGroup (v := 5) .alpha 3 [11] 6 [] [(11, 461)] [true, false] (.inr rfl) (by decide) rfl ⟨rfl, by simp⟩ (by decide)
  have e : [(11, 461)].flatMap Mode.alpha.bytes = [0x41, 0x42] := by decide
  rw [e] at this
  simpa [groupBits] using this

/-- An ECI designator starting with three ones is skipped as one byte. -/
example (rest : List Bool) (out : List Byte) (e : Ending) (h : Means 1 rest out e) :
    Means 1 (bitsBE 4 7 ++ (bitsBE 8 0xff ++ rest)) out e := Means.eci 0xff [] rest out e (by decide) rfl h

end Rqrr
