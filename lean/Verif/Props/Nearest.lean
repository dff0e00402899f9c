import Verif.Proofs.Nearest
import Verif.Props.EndToEnd

/-!
# C74: what is decoded is what an undamaged symbol nearest to the grid says
-/

namespace Rqrr

open Spec

/-- Format data bits `d` are a nearest reading of the two format copies in `m`: of the first one, or, if that has more
than three bits wrong for every reading, of the second one. -/
def NearestFormat (v : Nat) (m : Nat → Nat → Bool) (d : Nat) : Prop :=
  (∀ d', d' < 32 → wrongFormatBits formatPos1 m d ≤ wrongFormatBits formatPos1 m d') ∨
    (∀ d', d' < 32 → 3 < wrongFormatBits formatPos1 m d') ∧
    ∀ d', d' < 32 → wrongFormatBits (formatPos2 (side v)) m d ≤ wrongFormatBits (formatPos2 (side v)) m d'

/-- The modules `m` are taken for the symbol with blocks `c`, level `l` and mask pattern `mask`: nothing is nearer. -/
structure TakenFor (v : Nat) (l : Level) (mask : Nat) (c : Nat → List Byte) (m : Nat → Nat → Bool) : Prop where
  mask_lt : mask < 8
  blocks : Blocks v l c
  format : NearestFormat v m (formatData l mask)
  nearest : ∃ R, Carries v mask m R ∧ NearestBlocks v l 2 R c

/-- **C74.** Whatever a complete grid of a symbol's size (any version but 21) shows, either decoding reports that the
format or the data cannot be corrected, and writes nothing, for every writer; or there are a level, a mask pattern and
Reed-Solomon blocks nearest to what the grid or its transpose shows, and decoding the grid does for every writer exactly
what decoding any undamaged symbol with these blocks, level and mask pattern does. -/
theorem C74_decodes_nearest {code : BitGrid} {m : Nat → Nat → Bool} (h : Shows code m) (v : Nat) (h1 : 1 ≤ v)
    (h40 : v ≤ 40) (h21 : v ≠ 21) (hs : code.size = side v) :
    (∃ e, (e = DeQRError.FormatEcc ∨ e = .DataEcc) ∧
      ∀ (σ : Type) (W : Writer σ) (w : σ), Grid.decode_to W code w = (.error (.err e), w)) ∨
    ∃ l mask c m', (m' = m ∨ m' = fun y x => m x y) ∧ TakenFor v l mask c m' ∧
      ∀ M, Undamaged v l mask c formatPos1 M → ∀ clean : BitGrid, Shows clean M → clean.size = side v →
        ∀ (σ : Type) (W : Writer σ) (w : σ), Grid.decode_to W code w = Grid.decode_to W clean w := by
  have same : ∀ (l : Level) (mask : Nat) (c : Nat → List Byte) (cs : CorrectedDataStream), mask < 8 → Blocks v l c → cs.WF →
      cs.rest = bytesBits (dataCodewords v l c) →
      (∀ (σ : Type) (W : Writer σ) (w : σ), decode W code w =
        ((decode_payload W { version := v, ecc_level := l.bits, mask := mask } cs w).1.map
          fun _ => { version := v, ecc_level := l.bits, mask := mask },
         (decode_payload W { version := v, ecc_level := l.bits, mask := mask } cs w).2)) →
      ∀ M, Undamaged v l mask c formatPos1 M → ∀ clean : BitGrid, Shows clean M → clean.size = side v →
        ∀ (σ : Type) (W : Writer σ) (w : σ), Grid.decode_to W code w = Grid.decode_to W clean w := by
    intro l mask c cs hm hc hwf hrest hdec M hM clean hcl hsz σ W w
    obtain ⟨cs', e1, e2, e3⟩ := undamaged_stream hcl h1 h40 h21 hsz hm hc hM
    show decode W code w = decode W clean w
    rw [hdec, C23_direct clean _ cs' e1, decode_payload_eq W _ cs hwf, decode_payload_eq W _ cs' e2, hrest, e3]
  rcases stream_nearest h h1 h40 h21 hs with ⟨l, mask, R, c, cs, a1, a2, a3, a4, a5, a6, a7, a8⟩ | ⟨e, he, hd⟩
  · exact .inr ⟨l, mask, c, m, .inl rfl, ⟨a1, a5, a8, R, a6, a7⟩,
      same l mask c cs a1 a5 a3 a4 fun σ W w => C23_direct code _ cs a2 W w⟩
  · rcases stream_nearest h.mirrored h1 h40 h21 hs with ⟨l, mask, R, c, cs, a1, a2, a3, a4, a5, a6, a7, a8⟩ | ⟨e', _, hd'⟩
    · exact .inr ⟨l, mask, c, _, .inr rfl, ⟨a1, a5, a8, R, a6, a7⟩,
        same l mask c cs a1 a5 a3 a4 fun σ W w => C23_mirrored code e hd _ cs a2 W w⟩
    · exact .inl ⟨e, he, fun σ W w => C23_neither code e e' hd hd' W w⟩

/-- Undamaged symbols exist for every choice of blocks, level, mask pattern and remaining function modules. -/
theorem C74_undamaged_exists {v : Nat} (h1 : 1 ≤ v) (l : Level) (mask : Nat) {c : Nat → List Byte} (hc : Blocks v l c)
    (f : Nat → Nat → Bool) :
    ∃ M, Undamaged v l mask c formatPos1 M ∧
      ∀ y x, isFunction v y x = true → (∀ i, i < 15 → formatPos1 i ≠ (y, x)) → M y x = f y x := by
  obtain ⟨M, a1, a2, a3⟩ := symbol_exists h1 mask (sequenceOf v l c) (formatWord (formatData l mask) ^^^ formatMask) f
  exact ⟨M, ⟨⟨_, a1, fun i _ => damage_sequenceOf l hc i⟩, a2⟩, a3⟩

/-- **C74.** A string is only ever decoded if it is the text of an undamaged symbol: with the reported version, level and
mask pattern, nearest to what the grid or its transpose shows, and with any function modules one likes in the other
places. -/
theorem C74_string {code : BitGrid} {m : Nat → Nat → Bool} (h : Shows code m) (v : Nat) (h1 : 1 ≤ v)
    (h40 : v ≤ 40) (h21 : v ≠ 21) (hs : code.size = side v) (md : MetaData) (s : String)
    (hd : Grid.decode code = .ok (md, s)) (f : Nat → Nat → Bool) :
    ∃ l mask c m', md = { version := v, ecc_level := Level.bits l, mask := mask } ∧ (m' = m ∨ m' = fun y x => m x y) ∧
      TakenFor v l mask c m' ∧ ∃ M, Undamaged v l mask c formatPos1 M ∧
      (∀ y x, isFunction v y x = true → (∀ i, i < 15 → formatPos1 i ≠ (y, x)) → M y x = f y x) ∧
      ∀ clean : BitGrid, Shows clean M → clean.size = side v → Grid.decode clean = .ok (md, s) := by
  rcases C74_decodes_nearest h v h1 h40 h21 hs with ⟨e, _, he⟩ | ⟨l, mask, c, m', a1, a2, a3⟩
  · unfold Grid.decode at hd
    rw [he] at hd
    cases hd
  · obtain ⟨M, b1, b2⟩ := C74_undamaged_exists h1 l mask a2.blocks f
    have same : ∀ clean : BitGrid, Shows clean M → clean.size = side v → Grid.decode clean = .ok (md, s) := by
      intro clean hcl hsz
      unfold Grid.decode at hd ⊢
      rw [← a3 M b1 clean hcl hsz]
      exact hd
    refine ⟨l, mask, c, m', ?_, a1, a2, M, b1, b2, same⟩
    obtain ⟨g, g1, g2, g3⟩ := C29_shows (side v) fun x y => M y x
    have hg := same g.toBitGrid g3 g2
    obtain ⟨cs, e1, _⟩ := undamaged_stream g3 h1 h40 h21 g2 a2.mask_lt a2.blocks b1
    unfold Grid.decode at hg
    have e2 := C23_direct g.toBitGrid _ cs e1 vecWriter []
    unfold Grid.decode_to at hg
    rw [e2] at hg
    cases hp : (decode_payload vecWriter { version := v, ecc_level := l.bits, mask := mask } cs []).1 with
    | error e => rw [hp] at hg; cases hg
    | ok u =>
      rw [hp] at hg
      simp only [Except.map] at hg
      split at hg
      · cases hg; rfl
      · cases hg

/-- The symbol of the unit tests decodes to `rqrr`, so it is taken for an undamaged symbol saying `rqrr`, which may be
chosen with all other function modules dark. -/
example : ∃ l mask c m', TakenFor 1 l mask c m' ∧ ∃ M, Undamaged 1 l mask c formatPos1 M ∧ M 0 0 = true ∧ M 7 0 = true ∧
    ∀ clean : BitGrid, Shows clean M → clean.size = 21 →
      Grid.decode clean = .ok ({ version := 1, ecc_level := 0, mask := 0 }, "rqrr") := by
  obtain ⟨l, mask, c, m', _, _, h1, M, h2, h3, h4⟩ := C74_string testRqrr_shows 1 (by omega) (by omega) (by omega)
    (by decide) _ "rqrr" ((C22_decode_ok _ _ _).2 testRqrr_decodes) fun _ _ => true
  exact ⟨l, mask, c, m', h1, M, h2, h3 0 0 (by decide) (by decide), h3 7 0 (by decide) (by decide), h4⟩

/-- The other case occurs too: a grid without a dark module. Neither format copy of it is correctable. -/
example : ∃ g, SimpleGrid.from_func 21 (fun _ _ => false) = .ok g ∧
    Grid.decode_to vecWriter g.toBitGrid [] = (.error (.err .FormatEcc), []) := by
  obtain ⟨g, g1, g2, g3⟩ := C29_shows 21 fun _ _ => false
  refine ⟨g, g1, ?_⟩
  have bad : correct_format (copy1 (fun _ _ => false) ^^^ formatMask) = .error (.err .FormatEcc) ∧
      correct_format (copy2 21 (fun _ _ => false) ^^^ formatMask) = .error (.err .FormatEcc) := by decide +kernel
  have hf : ∀ code : BitGrid, code.size = 21 → Shows code (fun _ _ => false) → decode_stream code = .error (.err .FormatEcc) := by
    intro code hs h
    have e := read_format_eq h (by omega)
    rw [hs, bad.1, bad.2] at e
    dsimp only at e
    rcases get_raw_eq h (by omega) true with ⟨_, _, _, e2, _⟩ | ⟨e', e1, e2, _⟩
    · rw [e2] at e; cases e
    · rw [e2] at e
      cases e
      unfold decode_stream
      rw [e1]
      rfl
  exact C23_neither _ _ _ (hf _ g2 g3) (hf _ g2 g3.mirrored) _ _

end Rqrr
