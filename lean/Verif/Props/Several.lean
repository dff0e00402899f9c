import Verif.Proofs.SeveralDetect
import Verif.Proofs.SeveralSheet
import Verif.Proofs.SeveralRow

/-!
# C65: several symbols in one image
-/

namespace Rqrr

open Spec ImageBuffer

variable (F : Type) [FloatOps F] [Rounding F]

variable {S : Type} [ImageBuffer S] [LawfulImage S] {img0 : PreparedImage S} {syms : List Symbol}

/-- What is said of a symbol and a grid found in the image: the size, each module, and the corners. -/
def ReadsAs (img : PreparedImage S) (A : Symbol) (g : DetectedGrid F) : Prop :=
  g.location.grid_size = side A.version ∧
    (∀ y x, y < side A.version → x < side A.version → (RefGridImage g.location img).bit y x = .ok (A.modules y x)) ∧
    g.bounds = [A.place.pixel 0 0, A.place.pixel ((side A.version + 1 : Nat) * A.place.scale) 0,
      A.place.pixel ((side A.version + 1 : Nat) * A.place.scale) ((side A.version + 1 : Nat) * A.place.scale),
      A.place.pixel 0 ((side A.version + 1 : Nat) * A.place.scale)]

/-- **C65.** Several symbols in one image, of any versions but 21, in any orientations, places and sizes: exactly these are detected,
each once, and each module of each of them reads as drawn; provided the drawings do not overlap, nothing else looks like a finder
pattern, and no three finder patterns of different symbols look like those of one. The rest of the image may be anything. -/
theorem C65_detected (h0 : Fresh img0) (hw : width img0.buffer ≤ 32768) (hh : height img0.buffer ≤ 32768) (hpos : 0 < width img0.buffer)
    (h : Several img0 syms) :
    ∃ img grids order, img0.detect_grids F = .ok (img, grids) ∧ order.Perm syms ∧ List.Forall₂ (ReadsAs F img) order grids := by
  obtain ⟨img, claims, grids, order, e, hist, hp, hg⟩ := detect_several (F := F) h0 hw hh hpos h
  refine ⟨img, grids, order, e, hp, ?_⟩
  have hg' := (List.forall₂_and_left _ _).2 ⟨fun A hA => h.drawn A (hp.mem_iff.1 hA), hg⟩
  refine hg'.imp ?_
  rintro A g ⟨hA, ⟨⟨h1, h2⟩, h3⟩⟩
  have e : g.location = { grid_size := side A.version, c := g.location.c } := by rw [← h1]
  have hs : side A.version = 17 + 4 * A.version := rfl
  have := hA.le
  refine ⟨h1, fun y x hy hx => ?_, h3⟩
  rw [e]
  exact read_drawn h0 hist hw hh (by omega) (by omega) hA.renders h2 hy hx

/-- **C65.** In particular the number of grids is the number of symbols. -/
theorem C65_count (h0 : Fresh img0) (hw : width img0.buffer ≤ 32768) (hh : height img0.buffer ≤ 32768) (hpos : 0 < width img0.buffer)
    (h : Several img0 syms) : ∃ img grids, img0.detect_grids F = .ok (img, grids) ∧ grids.length = syms.length := by
  obtain ⟨img, grids, order, e, hp, hg⟩ := C65_detected F h0 hw hh hpos h
  exact ⟨img, grids, e, hg.length_eq.symm.trans hp.length_eq⟩

/-- **C65.** So decoding what is detected is decoding the matrices. -/
theorem C65_decoded (h0 : Fresh img0) (hw : width img0.buffer ≤ 32768) (hh : height img0.buffer ≤ 32768) (hpos : 0 < width img0.buffer)
    (h : Several img0 syms) :
    ∃ img grids order, img0.detect_grids F = .ok (img, grids) ∧ order.Perm syms ∧ List.Forall₂ (fun A g => ∀ code : BitGrid,
      code.size = side A.version → (∀ y x, y < side A.version → x < side A.version → code.bit y x = .ok (A.modules y x)) →
      ∀ {σ : Type} (W : Writer σ) (w : σ), Grid.decode_to W (RefGridImage g.location img) w = Grid.decode_to W code w) order grids := by
  obtain ⟨img, grids, order, e, hp, hg⟩ := C65_detected F h0 hw hh hpos h
  refine ⟨img, grids, order, e, hp, ?_⟩
  have hg' := (List.forall₂_and_left _ _).2 ⟨fun A hA => h.drawn A (hp.mem_iff.1 hA), hg⟩
  refine hg'.imp ?_
  rintro A g ⟨hA, e1, e2, -⟩ code hc hm σ W w
  have hs : side A.version = 17 + 4 * A.version := rfl
  have := hA.le
  have s1 : (RefGridImage g.location img).size = side A.version := e1
  exact decode_congr (m := A.modules) (fun y x hy hx => e2 y x (s1 ▸ hy) (s1 ▸ hx)) (fun y x hy hx => hm y x (hc ▸ hy) (hc ▸ hx))
    (s1.trans hc.symm) (by rw [s1]; omega) W w

/-- **C65.** Looking like a finder pattern is a local matter: in a drawing with light pixels around it, whatever else is in the image,
nothing but the finder patterns does, if nothing in the matrix does. -/
theorem C65_nothing_mistaken {n : Nat} {M : Nat → Nat → Bool} {P : Placement} (hn : 7 ≤ n) (hR : Renders img0 n M P) (hX : FullyDrawn img0 n M P)
    (hB : Bordered img0 n P) (hU : Unmistakable n M P.scale) {y x : Nat} {pos : LinePosition} (hf : FinderShape img0 y x pos)
    (hr : RingAndStone img0 y pos) (hin : InDrawing n P (pos.right, y)) : InFinders n P (pos.right, y) :=
  only_local hn hR hX hB hU hf hr hin

/-- **C65.** A bitmap of symbols that do not touch each other: the conditions are on the matrices and the places only. -/
theorem C65_bitmap {w h : Nat} (hw : w ≤ 32768) (hh : h ≤ 32768) (hpos : 0 < w) (hA : Arranged w h syms) :
    ∃ img0, PreparedImage.prepare_from_bitmap w h (fun _ x y => (sheet syms x y, ())) () = (.ok img0, ()) ∧
      ∀ (F : Type) [FloatOps F] [Rounding F], ∃ img grids order, img0.detect_grids F = .ok (img, grids) ∧ order.Perm syms ∧
        List.Forall₂ (ReadsAs F img) order grids := by
  have hsize : w * h < 2 ^ 64 := by
    have : w * h ≤ 32768 * 32768 := Nat.mul_le_mul hw hh
    omega
  obtain ⟨img0, e, h0, ew, eh, ev⟩ := C34_from_bitmap w h (fun _ x y => (sheet syms x y, ())) () hsize
  exact ⟨img0, e, fun F _ _ => C65_detected F h0 (by omega) (by omega) (by omega) (several_bitmap hA ew eh ev)⟩

/-- A message, with the version, the level and the mask of its symbol. -/
structure Message where
  version : Nat
  level : Level
  mask : Nat
  segments : List Segment

/-- The message fits into the symbol. -/
structure Message.Fits (m : Message) : Prop where
  pos : 1 ≤ m.version
  le : m.version ≤ 40
  ne : m.version ≠ 21
  mask : m.mask < 8
  segments : ∀ s ∈ m.segments, s.Fits m.version
  length : (m.segments.flatMap (·.encode m.version)).length ≤ 8 * dataCount m.version m.level

/-- Every message that fits has a matrix with the patterns of its version, which reads as the message. -/
theorem message_matrix : ∃ matrix : Message → Nat → Nat → Bool, ∀ m : Message, m.Fits → Patterned m.version (matrix m) ∧
    ∀ code : BitGrid, Shows code (matrix m) → code.size = side m.version → ∀ out, Grid.decode_to vecWriter code out =
      (.ok { version := m.version, ecc_level := m.level.bits, mask := m.mask }, out ++ m.segments.flatMap (·.payload)) := by
  have key : ∀ m : Message, ∃ M, m.Fits → Patterned m.version M ∧ ∀ code : BitGrid, Shows code M → code.size = side m.version → ∀ out,
      Grid.decode_to vecWriter code out =
        (.ok { version := m.version, ecc_level := m.level.bits, mask := m.mask }, out ++ m.segments.flatMap (·.payload)) := by
    intro m
    by_cases hm : m.Fits
    · obtain ⟨M, m1, m2⟩ := C54_every_message_has_a_symbol m.version hm.pos hm.le hm.ne m.level m.mask hm.mask m.segments hm.segments hm.length
        (blank m.version)
      exact ⟨M, fun _ => ⟨Patterned.transfer hm.pos hm.le (blank_patterned hm.pos hm.le) m1, m2⟩⟩
    · exact ⟨fun _ _ => false, fun h => absurd h hm⟩
  choose matrix hmat using key
  exact ⟨matrix, hmat⟩

/-- Grids that read as the matrices of messages decode to the messages. -/
theorem messages_read {F : Type} [FloatOps F] {img : PreparedImage S} {matrix : Message → Nat → Nat → Bool}
    (hmat : ∀ m : Message, m.Fits → Patterned m.version (matrix m) ∧ ∀ code : BitGrid, Shows code (matrix m) → code.size = side m.version →
      ∀ out, Grid.decode_to vecWriter code out =
        (.ok { version := m.version, ecc_level := m.level.bits, mask := m.mask }, out ++ m.segments.flatMap (·.payload)))
    {items : List (Message × Placement)} (hfits : ∀ i ∈ items, i.1.Fits) {order : List Symbol} {grids : List (DetectedGrid F)}
    (hp : order.Perm (items.map fun i => ⟨i.1.version, matrix i.1, i.2⟩)) (hg : List.Forall₂ (ReadsAs F img) order grids) :
    ∃ order', order'.Perm items ∧ List.Forall₂ (fun i g => ∀ out, Grid.decode_to vecWriter (RefGridImage g.location img) out =
      (.ok { version := i.1.version, ecc_level := i.1.level.bits, mask := i.1.mask }, out ++ i.1.segments.flatMap (·.payload)))
      order' grids := by
  have h1 : List.Forall₂ (fun (i : Message × Placement) (A : Symbol) => A = ⟨i.1.version, matrix i.1, i.2⟩) items
      (items.map fun i => ⟨i.1.version, matrix i.1, i.2⟩) := by
    rw [List.forall₂_map_right_iff]
    exact List.forall₂_same.2 fun _ _ => rfl
  have h2 : Relation.Comp (List.Forall₂ fun (i : Message × Placement) (A : Symbol) => A = ⟨i.1.version, matrix i.1, i.2⟩) List.Perm items order :=
    ⟨_, h1, hp.symm⟩
  rw [List.forall₂_comp_perm_eq_perm_comp_forall₂] at h2
  obtain ⟨order', p1, p2⟩ := h2
  refine ⟨order', p1.symm, ?_⟩
  have h3 := (List.forall₂_and_left _ _).2 ⟨fun i hi => hfits i (p1.mem_iff.2 hi), p2⟩
  refine forall2_through (R := fun A i => i.1.Fits ∧ A = (⟨i.1.version, matrix i.1, i.2⟩ : Symbol)) h3.flip hg ?_
  rintro A i g ⟨hf, rfl⟩ ⟨e1, e2, -⟩ out
  have s1 : (RefGridImage g.location img).size = side i.1.version := e1
  exact (hmat i.1 hf).2 _ (fun y x hy hx => e2 y x (s1 ▸ hy) (s1 ▸ hx)) s1 out

/-- **C65.** From bitmap to texts: every message that fits has a matrix, such that any number of messages whose symbols are arranged in
one bitmap are detected, each once, and decode to the messages. -/
theorem C65_messages : ∃ matrix : Message → Nat → Nat → Bool, (∀ m : Message, m.Fits → Patterned m.version (matrix m)) ∧
    ∀ (w h : Nat) (items : List (Message × Placement)), w ≤ 32768 → h ≤ 32768 → 0 < w → (∀ i ∈ items, i.1.Fits) →
      Arranged w h (items.map fun i => ⟨i.1.version, matrix i.1, i.2⟩) →
      ∃ img0, PreparedImage.prepare_from_bitmap w h
          (fun _ x y => (sheet (items.map fun i => ⟨i.1.version, matrix i.1, i.2⟩) x y, ())) () = (.ok img0, ()) ∧
        ∀ (F : Type) [FloatOps F] [Rounding F], ∃ img grids order, img0.detect_grids F = .ok (img, grids) ∧ order.Perm items ∧
          List.Forall₂ (fun i g => ∀ out, Grid.decode_to vecWriter (RefGridImage g.location img) out =
            (.ok { version := i.1.version, ecc_level := i.1.level.bits, mask := i.1.mask }, out ++ i.1.segments.flatMap (·.payload)))
            order grids := by
  obtain ⟨matrix, hmat⟩ := message_matrix
  refine ⟨matrix, fun m hm => (hmat m hm).1, fun w h items hw hh hpos hfits hA => ?_⟩
  obtain ⟨img0, e, h⟩ := C65_bitmap hw hh hpos hA
  refine ⟨img0, e, fun F _ _ => ?_⟩
  obtain ⟨img, grids, order, d, hp, hg⟩ := h F
  obtain ⟨order', p1, p2⟩ := messages_read hmat hfits hp hg
  exact ⟨img, grids, order', d, p1, p2⟩

/-- **C65.** Symbols of one version and size in a row, at the distances stated, do not touch and have no false corners. -/
theorem C65_row {v s : Nat} {y : Int} (h : SideBySide v s y syms) : syms.Pairwise Symbol.Clear ∧ NoFalseCorners syms :=
  ⟨h.clear, h.noFalseCorners⟩

/-- The symbols for `hi` in a row, four modules apart. -/
def hiRow (k s : Nat) : List Symbol := (List.range k).map fun i : Nat => ⟨1, hi, ⟨⟨25 * s * i, 0⟩, ⟨1, 0⟩, s⟩⟩

theorem hiRow_beside (k : Nat) {s : Nat} (hs : 3 ≤ s) : SideBySide 1 s 0 (hiRow k s) := by
  refine ⟨le_refl _, by omega, ?_, ?_⟩
  · intro A hA
    obtain ⟨i, -, rfl⟩ := List.mem_map.1 hA
    exact ⟨rfl, rfl, rfl, rfl⟩
  · unfold hiRow
    rw [List.pairwise_map]
    refine List.pairwise_lt_range.imp ?_
    intro i j hij
    have e1 : side 1 = 21 := rfl
    unfold AtDistance
    rw [e1]
    have h : (25 * s : Int) ≤ |25 * s * (i : Int) - 25 * s * j| ∧ (j = i + 1 → |25 * s * (i : Int) - 25 * s * j| = 25 * s) ∧
        (j ≠ i + 1 → 50 * (s : Int) ≤ |25 * s * (i : Int) - 25 * s * j|) := by
      obtain ⟨d, rfl⟩ := Nat.exists_eq_add_of_le (show i + 1 ≤ j by omega)
      have e : 25 * s * (i : Int) - 25 * s * ((i + 1 + d : Nat) : Int) = -(25 * s * (1 + d)) := by push_cast; ring
      rw [e, abs_neg, abs_of_nonneg (by positivity)]
      have h0 : (0 : Int) ≤ 25 * s * d := by positivity
      refine ⟨by linarith [mul_add (25 * (s : Int)) 1 d], fun h => ?_, fun h => ?_⟩
      · have : d = 0 := by omega
        subst this
        simp
      · have h1 : (1 : Int) ≤ d := by omega
        nlinarith
    dsimp only
    push_cast
    by_cases hj : j = i + 1
    · have := h.2.1 hj
      omega
    · have := h.2.2 hj
      omega

/-- Any number of symbols for `hi` in a row, four modules apart, in one bitmap: as many grids, each of which reads as `hi`. -/
theorem hi_row (k s w h : Nat) (hs : 3 ≤ s) (hk : 1 ≤ k) (hw : 25 * s * k ≤ w) (hw' : w ≤ 10000) (hh : 21 * s ≤ h) (hh' : h ≤ 10000)
    (hI : ∀ i : Nat, i < k → (⟨⟨25 * s * i, 0⟩, ⟨1, 0⟩, s⟩ : Placement).InRange 21) :
    ∃ img0, PreparedImage.prepare_from_bitmap w h (fun _ x y => (sheet (hiRow k s) x y, ())) () = (.ok img0, ()) ∧
      ∃ img grids, img0.detect_grids F = .ok (img, grids) ∧ grids.length = k ∧
        ∀ g ∈ grids, Grid.decode (RefGridImage g.location img) = .ok ({ version := 1, ecc_level := 0, mask := 1 }, "hi") := by
  have mem : ∀ A ∈ hiRow k s, ∃ i : Nat, i < k ∧ A = ⟨1, hi, ⟨⟨25 * s * i, 0⟩, ⟨1, 0⟩, s⟩⟩ := by
    intro A hA
    obtain ⟨i, hi, rfl⟩ := List.mem_map.1 hA
    exact ⟨i, List.mem_range.1 hi, rfl⟩
  have hrow := hiRow_beside k hs
  have e1 : side 1 = 21 := rfl
  have hA : Arranged w h (hiRow k s) := by
    refine ⟨?_, ?_, ?_, ?_, ?_, ?_, ?_, hrow.clear, hrow.noFalseCorners⟩ <;> intro A hA <;> obtain ⟨i, hik, rfl⟩ := mem A hA
    · exact le_refl 1
    · show 1 ≤ 40
      omega
    · show 1 ≠ 21
      omega
    · have : 25 * s * i + 25 * s ≤ 25 * s * k := by
        have := Nat.mul_le_mul_left (25 * s) (show i + 1 ≤ k by omega)
        rwa [Nat.mul_add, Nat.mul_one] at this
      obtain ⟨z, hz⟩ : ∃ z, z = 25 * s * i := ⟨_, rfl⟩
      have hz' : (25 * s * i : Int) = z := by rw [hz]; push_cast; rfl
      rw [← hz] at this
      rw [hz']
      refine ⟨.inl rfl, by show 2 ≤ s; omega, ?_, ?_⟩
      · dsimp only
        omega
      · rw [e1]
        unfold Placement.pixel
        dsimp only
        push_cast
        omega
    · exact hi_patterned
    · exact hI i hik
    · exact hi_unmistakable (by show 2 ≤ s; omega)
  obtain ⟨img0, e, hd⟩ := C65_bitmap (by omega) (by omega) (lt_of_lt_of_le (by positivity) hw) hA
  obtain ⟨img, grids, order, d, hp, hg⟩ := hd F
  refine ⟨img0, e, img, grids, d, ?_, ?_⟩
  · rw [← hg.length_eq, hp.length_eq]
    simp [hiRow]
  · intro g hgm
    obtain ⟨A, hA', d1, d2, -⟩ := (forall2_mem hg).2 g hgm
    obtain ⟨i, -, rfl⟩ := mem A (hp.mem_iff.1 hA')
    rw [C22_decode_ok]
    have s1 : (RefGridImage g.location img).size = 21 := d1
    have := decode_congr (code := RefGridImage g.location img) (code' := hiGrid) (m := hi)
      (fun y x hy hx => d2 y x (d1 ▸ hy) (d1 ▸ hx)) (fun _ _ _ _ => rfl) s1 (by rw [s1]; omega) vecWriter []
    exact this.trans (hi_decodes.trans (by decide))

/-- For instance three, with five pixels per module. -/
example : ∃ img0, PreparedImage.prepare_from_bitmap 400 120 (fun _ x y => (sheet (hiRow 3 5) x y, ())) () = (.ok img0, ()) ∧
    ∃ img grids, img0.detect_grids F64 = .ok (img, grids) ∧ grids.length = 3 ∧
      ∀ g ∈ grids, Grid.decode (RefGridImage g.location img) = .ok ({ version := 1, ecc_level := 0, mask := 1 }, "hi") :=
  hi_row F64 3 5 400 120 (by norm_num) (by norm_num) (by norm_num) (by norm_num) (by norm_num) (by norm_num) fun i hi => by
    interval_cases i <;> exact ⟨by decide, by decide⟩

end Rqrr
