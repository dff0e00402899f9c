import Verif.Proofs.Decode
import Verif.Proofs.SimpleGrid
import Verif.Props.Payload

/-!
# C22-C25, C29, C30: whole-grid decoding and grid types
-/

namespace Rqrr

open Spec

variable {σ : Type}

/-! ### C22: strings -/

/-- The UTF-8 encoding of a string. -/
def utf8 (s : String) : List Byte := s.toByteArray.data.toList.map UInt8.toBitVec

theorem from_utf8_some (bytes : List Byte) (s : String) : from_utf8 bytes = some s ↔ utf8 s = bytes := by
  have hb : ∀ l : List Byte, (l.map UInt8.ofBitVec).map UInt8.toBitVec = l := by
    intro l; rw [List.map_map, show UInt8.toBitVec ∘ UInt8.ofBitVec = id from rfl, List.map_id]
  have hu : ∀ l : List UInt8, (l.map UInt8.toBitVec).map UInt8.ofBitVec = l := by
    intro l; rw [List.map_map, show UInt8.ofBitVec ∘ UInt8.toBitVec = id from rfl, List.map_id]
  unfold from_utf8 String.fromUTF8? utf8
  constructor
  · intro h
    split at h
    · cases h
      exact hb bytes
    · cases h
  · rintro rfl
    have e : (⟨((s.toByteArray.data.toList.map UInt8.toBitVec).map UInt8.ofBitVec).toArray⟩ : ByteArray) = s.toByteArray := by
      rw [hu]
    rw [e, dif_pos s.isValidUTF8]
    rfl

theorem from_utf8_none (bytes : List Byte) : from_utf8 bytes = none ↔ ∀ s, utf8 s ≠ bytes := by
  constructor
  · intro h s hs
    rw [(from_utf8_some bytes s).2 hs] at h
    cases h
  · intro h
    cases e : from_utf8 bytes with
    | none => rfl
    | some s => exact absurd ((from_utf8_some bytes s).1 e) (h s)

/-- **C22.** `decode` returns `s` exactly if `decode_to` into a vector succeeds with the UTF-8 encoding of `s`. -/
theorem C22_decode_ok (code : BitGrid) (md : MetaData) (s : String) :
    Grid.decode code = .ok (md, s) ↔ Grid.decode_to vecWriter code [] = (.ok md, utf8 s) := by
  unfold Grid.decode
  cases h : Grid.decode_to vecWriter code [] with
  | mk r out =>
    cases r with
    | error f => simp
    | ok md' =>
      dsimp only
      cases h' : from_utf8 out with
      | none =>
        have := (from_utf8_none out).1 h' s
        simp
        intro _ e; exact this e.symm
      | some s' =>
        have := (from_utf8_some out s').1 h'
        subst this
        simp only [Except.ok.injEq, Prod.mk.injEq, and_congr_right_iff]
        intro _
        constructor
        · rintro rfl; rfl
        · intro e
          have := (from_utf8_some (utf8 s') s).2 e.symm
          rw [h'] at this
          exact Option.some.inj this

/-- **C22.** `EncodingError` exactly if the bytes are not UTF-8 (for complete grids). -/
theorem C22_encoding_error {code : BitGrid} {m : Nat → Nat → Bool} (h : Shows code m) (h9 : 9 ≤ code.size) :
    Grid.decode code = .error (.err .EncodingError) ↔
      ∃ md bytes, Grid.decode_to vecWriter code [] = (.ok md, bytes) ∧ ∀ s, utf8 s ≠ bytes := by
  unfold Grid.decode
  have hc := decode_cases h h9 vecWriter []
  cases hd : Grid.decode_to vecWriter code [] with
  | mk r out =>
    unfold Grid.decode_to at hd
    rw [hd] at hc
    cases r with
    | error f =>
      simp only [Prod.mk.injEq, reduceCtorEq, false_and, exists_false, iff_false]
      rcases hc with ⟨_, hc, _⟩ | ⟨e, hc, he⟩
      · cases hc
      · cases hc
        intro h; cases h
        rcases he with (h | h | h) | h | h | h <;> cases h
    | ok md' =>
      dsimp only
      cases h' : from_utf8 out with
      | none =>
        simp only [true_iff]
        exact ⟨md', out, rfl, (from_utf8_none out).1 h'⟩
      | some s' =>
        simp only [reduceCtorEq, false_iff]
        rintro ⟨_, _, e, hs⟩
        cases e
        exact hs s' ((from_utf8_some _ _).1 h')

/-- **C22.** Errors of `decode_to` are passed on. -/
theorem C22_errors (code : BitGrid) (f : Fault) (out : List Byte) (h : Grid.decode_to vecWriter code [] = (.error f, out)) :
    Grid.decode code = .error f := by
  unfold Grid.decode; rw [h]

example : Grid.decode testRqrr = .ok ({ version := 1, ecc_level := 0, mask := 0 }, "rqrr") :=
  (C22_decode_ok _ _ _).2 testRqrr_decodes

/-- Not UTF-8. -/
example : from_utf8 [0xff] = none ∧ from_utf8 [0xc3, 0xa9] = some "é" := by decide

/-! ### C30, C23: mirrored grids -/

/-- **C30.** Mirroring transposes, keeps the size, and is an involution. -/
theorem C30_mirror (g : BitGrid) : (MirroredGrid g).size = g.size ∧ (∀ y x, (MirroredGrid g).bit y x = g.bit x y) ∧
    MirroredGrid (MirroredGrid g) = g := ⟨rfl, fun _ _ => rfl, rfl⟩

/-- **C23.** If the grid as given can be read and corrected, its transpose plays no role. -/
theorem C23_direct (code : BitGrid) (md : MetaData) (cs : CorrectedDataStream) (h : decode_stream code = .ok (md, cs))
    (W : Writer σ) (w : σ) : decode W code w = ((decode_payload W md cs w).1.map fun _ => md, (decode_payload W md cs w).2) := by
  unfold decode decode_oriented
  rw [h]
  dsimp only
  cases decode_payload W md cs w with
  | mk r w' => cases r <;> rfl

/-- **C23.** If only the transpose can be read and corrected, it is decoded. -/
theorem C23_mirrored (code : BitGrid) (e : DeQRError) (h : decode_stream code = .error (.err e)) (md : MetaData)
    (cs : CorrectedDataStream) (h' : decode_stream (MirroredGrid code) = .ok (md, cs)) (W : Writer σ) (w : σ) :
    decode W code w = ((decode_payload W md cs w).1.map fun _ => md, (decode_payload W md cs w).2) := by
  unfold decode decode_oriented
  rw [h, h']
  dsimp only
  cases decode_payload W md cs w with
  | mk r w' => cases r <;> rfl

/-- **C23.** If neither can be read and corrected, the error is that of the grid as given, and nothing is written. -/
theorem C23_neither (code : BitGrid) (e e' : DeQRError) (h : decode_stream code = .error (.err e))
    (h' : decode_stream (MirroredGrid code) = .error (.err e')) (W : Writer σ) (w : σ) :
    decode W code w = (.error (.err e), w) := by
  unfold decode decode_oriented
  rw [h, h']

/-- **C23.** If exactly one of a grid and its transpose can be read and corrected, both decode to the same result. -/
theorem C23_transpose (code : BitGrid) (e : DeQRError)
    (h : decode_stream code = .error (.err e) ∧ (∃ r, decode_stream (MirroredGrid code) = .ok r) ∨
      decode_stream (MirroredGrid code) = .error (.err e) ∧ ∃ r, decode_stream code = .ok r) (W : Writer σ) (w : σ) :
    decode W (MirroredGrid code) w = decode W code w := by
  have hm : MirroredGrid (MirroredGrid code) = code := rfl
  rcases h with ⟨h1, ⟨md, cs⟩, h2⟩ | ⟨h1, ⟨md, cs⟩, h2⟩
  · rw [C23_direct _ md cs h2, C23_mirrored code e h1 md cs h2]
  · rw [C23_mirrored (MirroredGrid code) e h1 md cs (by rw [hm]; exact h2), C23_direct _ md cs h2]

/-- Boolean test for an error. -/
def isErr {α : Type} (e : DeQRError) : Run α → Bool
  | .error (.err e') => decide (e' = e)
  | _ => false

theorem isErr_eq {α : Type} {e : DeQRError} : ∀ {r : Run α}, isErr e r = true → r = .error (.err e)
  | .error (.err e'), h => by rw [of_decide_eq_true h]
  | .error .panic, h => nomatch h
  | .error .diverge, h => nomatch h
  | .ok _, h => nomatch h

/-- The test symbol is readable, its mirror image is not, and both decode to the same. -/
theorem testRqrr_orientations : decode_stream (MirroredGrid testRqrr) = .error (.err .DataEcc) ∧
    (decode_stream testRqrr).toOption.isSome = true := by
  constructor
  · exact isErr_eq (by decide +kernel)
  · decide +kernel

example : decode vecWriter (MirroredGrid testRqrr) [] =
    (.ok { version := 1, ecc_level := 0, mask := 0 }, [0x72, 0x71, 0x72, 0x72]) := by
  cases h : decode_stream testRqrr with
  | error f => have := testRqrr_orientations.2; rw [h] at this; cases this
  | ok p =>
    rw [C23_mirrored (MirroredGrid testRqrr) _ testRqrr_orientations.1 p.1 p.2 h, ← C23_direct testRqrr p.1 p.2 h]
    exact testRqrr_decodes

/-! ### C24: totality -/

/-- **C24.** Decoding a complete grid of size at least 9 returns metadata or one of six errors; the reported version
belongs to the size. -/
theorem C24_decode_total {code : BitGrid} {m : Nat → Nat → Bool} (h : Shows code m) (h9 : 9 ≤ code.size) (W : Writer σ)
    (w : σ) : (∃ md, (Grid.decode_to W code w).1 = .ok md ∧ md.version = (code.size - 17) / 4) ∨
      ∃ e ∈ [.FormatEcc, .InvalidVersion, .DataEcc, .DataUnderflow, .UnknownDataType, .IoError],
        (Grid.decode_to W code w).1 = .error (.err e) := by
  rcases decode_cases h h9 W w with h | ⟨e, h1, h2⟩
  · exact .inl h
  · refine .inr ⟨e, ?_, h1⟩
    rcases h2 with (h | h | h) | h | h | h <;> subst h <;> simp

/-- **C24.** The same for `decode`, which may also report `EncodingError` but not `IoError`. -/
theorem C24_decode_string_total {code : BitGrid} {m : Nat → Nat → Bool} (h : Shows code m) (h9 : 9 ≤ code.size) :
    (∃ md s, Grid.decode code = .ok (md, s)) ∨
      ∃ e ∈ [.FormatEcc, .InvalidVersion, .DataEcc, .DataUnderflow, .UnknownDataType, .EncodingError],
        Grid.decode code = .error (.err e) := by
  have hio := C21_no_io_error h h9 vecWriter (fun _ _ => rfl) []
  have hc := C24_decode_total h h9 vecWriter []
  unfold Grid.decode
  cases hd : Grid.decode_to vecWriter code [] with
  | mk r out =>
    rw [hd] at hc
    unfold Grid.decode_to at hd
    rw [hd] at hio
    rcases hc with ⟨md, hc, _⟩ | ⟨e, he, hc⟩
    · dsimp only at hc
      subst hc
      dsimp only
      cases from_utf8 out with
      | none => exact .inr ⟨_, by simp, rfl⟩
      | some s => exact .inl ⟨md, s, rfl⟩
    · dsimp only at hc hio
      subst hc
      refine .inr ⟨e, ?_, rfl⟩
      simp only [List.mem_cons, List.not_mem_nil, or_false] at he ⊢
      rcases he with h | h | h | h | h | h <;> subst h <;> first | exact absurd rfl hio | simp

/-- **C24.** `get_raw_data` returns data or one of two errors. -/
theorem C24_raw_total {code : BitGrid} {m : Nat → Nat → Bool} (h : Shows code m) (h9 : 9 ≤ code.size) :
    (∃ md raw, Grid.get_raw_data code = .ok (md, raw)) ∨
      Grid.get_raw_data code = .error (.err .FormatEcc) ∨ Grid.get_raw_data code = .error (.err .InvalidVersion) := by
  unfold Grid.get_raw_data
  rcases get_raw_eq h h9 false with ⟨md, ds, e, _⟩ | ⟨e, e1, _, h | h⟩
  · exact .inl ⟨md, ds, e⟩
  · subst h; exact .inr (.inl e1)
  · subst h; exact .inr (.inr e1)

/-- **C24, witness.** Below size 9 the claim fails: a `SimpleGrid` of size at most 8 always makes decoding panic. -/
theorem C24_small_grids_panic (n : Nat) (hn : n ≤ 8) (f : Nat → Nat → Bool) (W : Writer σ) (w : σ) :
    ∃ g, SimpleGrid.from_func n f = .ok g ∧ Grid.decode_to W g.toBitGrid w = (.error .panic, w) ∧
      Grid.get_raw_data g.toBitGrid = .error .panic := by
  obtain ⟨g, h1, h2, h3, _⟩ := from_func_ok n f
  have hbit : g.toBitGrid.bit 8 0 = .error .panic := by
    unfold SimpleGrid.toBitGrid
    dsimp only
    have : g.cell_bitmap[(8 * g.size + 0) >>> 3]? = none := by
      apply List.getElem?_eq_none
      rw [h3, h2, Nat.shiftRight_eq_div_pow]
      have : n * n ≤ 8 * n := Nat.mul_le_mul_right n hn
      omega
    unfold idx
    rw [this]
    rfl
  have hf : read_format g.toBitGrid = .error .panic := by
    unfold read_format read_format_first
    have : forList (fun i format => do
        let y ← idx YS i
        let x ← idx XS i
        let b ← g.toBitGrid.bit y x
        pure (shiftIn format b)) [14, 13, 12, 11, 10, 9, 8, 7, 6, 5, 4, 3, 2, 1, 0] 0 = .error .panic := by
      rw [forList]
      show (g.toBitGrid.bit 8 0 >>= fun b => pure (shiftIn 0 b)) >>= _ = _
      rw [hbit]
      rfl
    rw [this]
    rfl
  have hr : ∀ rm, get_raw g.toBitGrid rm = .error .panic := by
    intro rm; unfold get_raw; rw [hf]; rfl
  refine ⟨g, h1, ?_, hr false⟩
  unfold Grid.decode_to decode decode_oriented decode_stream
  rw [hr]
  rfl

/-! ### C25: locality -/

/-- **C25.** Two grids of the same size (at least 9) with the same modules decode alike, whatever they answer for
coordinates outside. -/
theorem C25_only_inside {code code' : BitGrid} {m : Nat → Nat → Bool} (h : Shows code m) (h' : Shows code' m)
    (hs : code.size = code'.size) (h9 : 9 ≤ code.size) (W : Writer σ) (w : σ) :
    Grid.decode_to W code w = Grid.decode_to W code' w ∧ Grid.decode code = Grid.decode code' ∧
      Grid.get_raw_data code = Grid.get_raw_data code' := by
  refine ⟨decode_congr h h' hs h9 W w, ?_, get_raw_congr h h' hs h9 false⟩
  unfold Grid.decode Grid.decode_to
  rw [decode_congr h h' hs h9]

/-- The test grid is complete. -/
theorem testRqrr_shows : Shows testRqrr fun y x => (testRqrr.bit y x).toOption.getD false := fun _ _ _ _ => rfl

example : 9 ≤ testRqrr.size := by decide

/-- The grid that panics when asked for a module outside. -/
def strict (code : BitGrid) : BitGrid where
  size := code.size
  bit := fun y x => if y < code.size ∧ x < code.size then code.bit y x else .error .panic

/-- **C25.** Decoding never asks for a module outside: the grid that panics there behaves the same. -/
theorem C25_no_outside_reads {code : BitGrid} {m : Nat → Nat → Bool} (h : Shows code m) (h9 : 9 ≤ code.size)
    (W : Writer σ) (w : σ) : Grid.decode_to W (strict code) w = Grid.decode_to W code w ∧
      Grid.get_raw_data (strict code) = Grid.get_raw_data code := by
  have h' : Shows (strict code) m := by
    intro y x hy hx
    show (if y < code.size ∧ x < code.size then code.bit y x else .error .panic) = _
    rw [if_pos ⟨hy, hx⟩]
    exact h y x hy hx
  obtain ⟨a, _, c⟩ := C25_only_inside h' h rfl h9 W w
  exact ⟨a, c⟩

/-! ### C29: `SimpleGrid` -/

/-- **C29.** `from_func` never fails; the grid has the given size and module `(y, x)` is `f x y`. -/
theorem C29_simple_grid (n : Nat) (f : Nat → Nat → Bool) : ∃ g, SimpleGrid.from_func n f = .ok g ∧
    g.toBitGrid.size = n ∧ ∀ y x, y < n → x < n → g.toBitGrid.bit y x = .ok (f x y) := by
  obtain ⟨g, h1, h2, h3, h4⟩ := from_func_ok n f
  refine ⟨g, h1, h2, ?_⟩
  intro y x hy hx
  have hlt : y * n + x < n * n := by
    have : (y + 1) * n ≤ n * n := Nat.mul_le_mul_right n hy
    rw [Nat.add_mul] at this
    omega
  rw [simple_bit (by rw [h2, h3]; omega), h4, h2]
  have e1 : (y * n + x) % n = x := by rw [Nat.mul_comm, Nat.mul_add_mod, Nat.mod_eq_of_lt hx]
  have e2 : (y * n + x) / n = y := by
    rw [Nat.mul_comm, Nat.mul_add_div (by omega), Nat.div_eq_of_lt hx, Nat.add_zero]
  rw [e1, e2]
  simp [hlt]

/-- Hence every theorem about complete grids applies to `SimpleGrid`. -/
theorem C29_shows (n : Nat) (f : Nat → Nat → Bool) : ∃ g, SimpleGrid.from_func n f = .ok g ∧
    g.toBitGrid.size = n ∧ Shows g.toBitGrid fun y x => f x y := by
  obtain ⟨g, h1, h2, h3⟩ := C29_simple_grid n f
  exact ⟨g, h1, h2, fun y x hy hx => h3 y x (by rw [← h2]; exact hy) (by rw [← h2]; exact hx)⟩

example : ∃ g, SimpleGrid.from_func 3 (fun x y => decide (x = 2 ∧ y = 1)) = .ok g ∧ g.toBitGrid.bit 1 2 = .ok true ∧
    g.toBitGrid.bit 2 1 = .ok false := by
  obtain ⟨g, h1, _, h3⟩ := C29_simple_grid 3 fun x y => decide (x = 2 ∧ y = 1)
  exact ⟨g, h1, h3 1 2 (by omega) (by omega), h3 2 1 (by omega) (by omega)⟩

end Rqrr
