import Verif.Proofs.Astray
import Verif.Proofs.Blank

/-!
# C76: version 21 symbols are read in spite of the wrong alignment coordinate
-/

namespace Rqrr

open Spec

/-- **C76.** The codewords of which all bits are read from the modules that show them are those that are not astray: -/
theorem C76_modules {code : BitGrid} {m : Nat → Nat → Bool} (h : Shows code m) (hs : code.size = side 21) (rm : Bool)
    (md : MetaData) (ds : RawData) (hr : get_raw code rm = .ok (md, ds)) :
    (∀ n, rawBit ds n = ((pathOf [6, 28, 50, 72, 92] 21)[n]?).map fun p => m p.1 p.2 ^^ (rm && maskCond md.mask p.1 p.2)) ∧
    ∀ k, k < 1156 →
      (astray k = false ↔ ∀ j, j < 8 → (dataPath 21)[8 * k + j]? = (pathOf [6, 28, 50, 72, 92] 21)[8 * k + j]?) := by
  refine ⟨?_, fun k hk => path_agrees hk⟩
  obtain ⟨_, _, hh⟩ := get_raw_path h 21 (by omega) (by omega) hs rm md ds hr
  rw [codeCoords_21.1] at hh
  intro n
  rw [hh.rawBit, List.getElem?_map]
  rfl

/-- **C76.** A version 21 symbol is decoded if in no block too many codewords are damaged or astray. -/
theorem C76_decodes {code : BitGrid} {m : Nat → Nat → Bool} (h : Shows code m) (hs : code.size = side 21) (l : Level)
    (mask : Nat) (hm : mask < 8) (hw : wrongFormatBits formatPos1 m (formatData l mask) ≤ 3) (R : Nat → Byte)
    (hR : Carries 21 mask m R) (c : Nat → List Byte) (hc : Blocks 21 l c)
    (hd : ∀ i, i < blockCount 21 l → strayDamage l R c i + (if isLong 21 l i then 1 else 0) ≤ ecLen 21 l / 2)
    (ss : List Segment) (hss : ∀ s ∈ ss, s.Fits 21) (tail : List Bool) (ht : Ends tail)
    (hbits : bytesBits (dataCodewords 21 l c) = ss.flatMap (·.encode 21) ++ tail) (out : List Byte) :
    Grid.decode_to vecWriter code out =
      (.ok { version := 21, ecc_level := l.bits, mask := mask }, out ++ ss.flatMap (·.payload)) := by
  have hn : side 21 = 101 := rfl
  have hf := C03_grid_first_copy h (by omega) (by omega) _ (formatData_lt l hm) hw
  rw [hs, metaOf_symbol 21 l mask hm] at hf
  obtain ⟨cs, e1, e2, e3⟩ := symbol_stream_21 h hs hf hR hc hd
  show decode vecWriter code out = _
  rw [C23_direct code _ cs e1, C19_segments { version := 21, ecc_level := l.bits, mask := mask } ss hss tail ht cs e2 (e3.trans hbits)]
  rfl

/-- **C76.** So an undamaged version 21 symbol is always decoded, at every level, and one with at most 6, 8 or 9 wrong
codewords in every block at level M, Q or H. -/
theorem C76_spare {code : BitGrid} {m : Nat → Nat → Bool} (h : Shows code m) (hs : code.size = side 21) (l : Level)
    (mask : Nat) (hm : mask < 8) (hw : wrongFormatBits formatPos1 m (formatData l mask) ≤ 3) (R : Nat → Byte)
    (hR : Carries 21 mask m R) (c : Nat → List Byte) (hc : Blocks 21 l c)
    (hd : ∀ i, i < blockCount 21 l → damage 21 l R c i ≤ spare l)
    (ss : List Segment) (hss : ∀ s ∈ ss, s.Fits 21) (tail : List Bool) (ht : Ends tail)
    (hbits : bytesBits (dataCodewords 21 l c) = ss.flatMap (·.encode 21) ++ tail) (out : List Byte) :
    Grid.decode_to vecWriter code out =
      (.ok { version := 21, ecc_level := l.bits, mask := mask }, out ++ ss.flatMap (·.payload)) := by
  refine C76_decodes h hs l mask hm hw R hR c hc ?_ ss hss tail ht hbits out
  intro i hi
  have h1 := hd i hi
  have h2 := strayDamage_le l R c i
  have h3 := strayCount_spare l i hi
  omega

/-- **C76.** Every message that fits into a version 21 symbol has one, and with any function modules one likes - in
particular the right ones - it is decoded to that message. -/
theorem C76_every_message (l : Level) (mask : Nat) (hm : mask < 8) (ss : List Segment) (hss : ∀ s ∈ ss, s.Fits 21)
    (hfit : (ss.flatMap (·.encode 21)).length ≤ 8 * dataCount 21 l) (m0 : Nat → Nat → Bool) :
    ∃ m : Nat → Nat → Bool,
      (∀ y x, isFunction 21 y x = true → (∀ i, i < 15 → formatPos1 i ≠ (y, x)) → m y x = m0 y x) ∧
      ∀ code : BitGrid, Shows code m → code.size = side 21 → ∀ out,
        Grid.decode_to vecWriter code out =
          (.ok { version := 21, ecc_level := l.bits, mask := mask }, out ++ ss.flatMap (·.payload)) := by
  obtain ⟨m, R, c, tail, a1, a2, a3, a4, a5, a6, a7⟩ := message_symbol (v := 21) (by omega) l mask ss hfit m0
  refine ⟨m, a7, fun code h hs out => ?_⟩
  exact C76_spare h hs l mask hm (by omega) R a1 c a2 (fun i _ => by rw [a3]; exact Nat.zero_le _) ss hss tail a4 a5 out

end Rqrr
