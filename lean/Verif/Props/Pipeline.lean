import Verif.Proofs.Halting
import Verif.Props.Detect
import Verif.Props.Decode
import Verif.Proofs.Double

/-!
# C63: detection and decoding end, whatever the image

No run of `detect_grids` goes on for ever, and no run of `decode` on one of its grids does: each ends with a result, an error
value or a panic. What detection does to the image cannot be seen in what is read from it.
-/

namespace Rqrr

open ImageBuffer LawfulImage Spec

/-! ### Grids whose modules may panic -/

/-- The first run panics, or both agree. -/
def Below {α : Type} (r r' : Run α) : Prop := r = .error .panic ∨ r = r'

theorem Below.refl {α : Type} (r : Run α) : Below r r := .inr rfl

theorem Below.bind {α β : Type} {x x' : Run α} {f f' : α → Run β} (h : Below x x') (hf : ∀ a, Below (f a) (f' a)) :
    Below (x >>= f) (x' >>= f') := by
  rcases h with rfl | rfl
  · exact .inl rfl
  · cases x with
    | error e => exact .inr rfl
    | ok a => exact hf a

theorem Below.forList {ι σ : Type} {f f' : ι → σ → Run σ} (h : ∀ i s, Below (f i s) (f' i s)) : ∀ (l : List ι) (s : σ),
    Below (forList f l s) (forList f' l s)
  | [], _ => .refl _
  | i :: is, s => (h i s).bind fun s' => Below.forList h is s'

theorem Below.forRangeAux {σ : Type} {hi : Nat} {f f' : Nat → σ → Run σ} (h : ∀ i s, Below (f i s) (f' i s)) : ∀ (r : Nat) (s : σ),
    Below (forRangeAux hi f r s) (forRangeAux hi f' r s)
  | 0, _ => .refl _
  | r + 1, s => (h _ s).bind fun s' => Below.forRangeAux h r s'

theorem Below.forRange {σ : Type} {lo hi : Nat} {s : σ} {f f' : Nat → σ → Run σ} (h : ∀ i s, Below (f i s) (f' i s)) :
    Below (forRange lo hi s f) (forRange lo hi s f') := Below.forRangeAux h _ s

theorem Below.whileFuel {σ : Type} {cond : σ → Bool} {f f' : σ → Run σ} (h : ∀ s, Below (f s) (f' s)) : ∀ (n : Nat) (s : σ),
    Below (whileFuel cond f n s) (whileFuel cond f' n s)
  | 0, _ => .refl _
  | n + 1, s => by
    unfold Rqrr.whileFuel
    split
    · exact (h s).bind fun s' => Below.whileFuel h n s'
    · exact .refl _

/-- The grid `code'` has the modules of `code` wherever these can be read. -/
def Follows (code code' : BitGrid) : Prop := code.size = code'.size ∧ ∀ y x, Below (code.bit y x) (code'.bit y x)

theorem follows_mirrored {code code' : BitGrid} (h : Follows code code') : Follows (MirroredGrid code) (MirroredGrid code') :=
  ⟨h.1, fun y x => h.2 x y⟩

theorem below_format {code code' : BitGrid} (h : Follows code code') : Below (read_format code) (read_format code') := by
  obtain ⟨hs, hb⟩ := h
  have hfirst : Below (read_format_first code) (read_format_first code') := by
    unfold read_format_first
    refine .bind (.forList (fun i s => ?_) _ _) fun _ => .refl _
    exact .bind (.refl _) fun y => .bind (.refl _) fun x => .bind (hb y x) fun b => .refl _
  have hsecond : Below (read_format_second code) (read_format_second code') := by
    unfold read_format_second
    rw [hs]
    refine .bind (.forRange fun i s => ?_) fun _ => .bind (.forRange fun i s => ?_) fun _ => .refl _
    · exact .bind (.refl _) fun _ => .bind (.refl _) fun _ => .bind (hb _ _) fun _ => .refl _
    · exact .bind (.refl _) fun _ => .bind (hb _ _) fun _ => .refl _
  unfold read_format
  rw [hs]
  refine .bind hfirst fun w => ?_
  dsimp only
  split
  · exact .refl _
  · exact .bind hsecond fun _ => .refl _
  · exact .refl _

theorem below_stream {code code' : BitGrid} (h : Follows code code') (mask : Bool) : Below (get_raw code mask) (get_raw code' mask) := by
  unfold get_raw
  refine .bind (below_format h) fun md => .bind ?_ fun _ => .refl _
  obtain ⟨hs, hb⟩ := h
  have hcell : ∀ y x ds, Below (read_cell code md mask y x ds) (read_cell code' md mask y x ds) := by
    intro y x ds
    unfold read_cell
    refine .bind (.refl _) fun r => ?_
    split
    · exact .refl _
    · refine .bind ?_ fun _ => .refl _
      unfold read_bit
      exact .bind (hb y x) fun _ => .refl _
  unfold read_data
  rw [hs]
  refine .bind (.refl _) fun _ => .bind (.refl _) fun _ => .bind (.whileFuel (fun st => ?_) _ _) fun _ => .refl _
  unfold read_data_step
  rw [hs]
  dsimp only
  have step : ∀ x, Below (read_cell code md mask st.y x st.ds >>= fun ds => subU x 1 >>= fun x1 => read_cell code md mask st.y x1 ds >>= fun ds =>
      (if st.y = 0 ∧ st.neg_dir = true then pure { ds := ds, y := 0, x := x - 2, neg_dir := false }
        else if st.neg_dir = false then do
          let last ← subU code'.size 1
          if st.y = last then pure { ds := ds, y := last, x := x - 2, neg_dir := true }
          else pure { ds := ds, y := st.y + 1, x := x, neg_dir := false }
        else do
          let y ← subU st.y 1
          pure { ds := ds, y := y, x := x, neg_dir := true } : Run ReadState))
      (read_cell code' md mask st.y x st.ds >>= fun ds => subU x 1 >>= fun x1 => read_cell code' md mask st.y x1 ds >>= fun ds =>
      (if st.y = 0 ∧ st.neg_dir = true then pure { ds := ds, y := 0, x := x - 2, neg_dir := false }
        else if st.neg_dir = false then do
          let last ← subU code'.size 1
          if st.y = last then pure { ds := ds, y := last, x := x - 2, neg_dir := true }
          else pure { ds := ds, y := st.y + 1, x := x, neg_dir := false }
        else do
          let y ← subU st.y 1
          pure { ds := ds, y := y, x := x, neg_dir := true } : Run ReadState)) := fun x =>
    .bind (hcell _ _ _) fun _ => .bind (.refl _) fun _ => .bind (hcell _ _ _) fun _ => .refl _
  split
  · exact .bind (.refl _) step
  · exact step st.x

theorem below_oriented {code code' : BitGrid} (h : Follows code code') : Below (decode_oriented code) (decode_oriented code') := by
  have hd : ∀ {c c' : BitGrid}, Follows c c' → Below (decode_stream c) (decode_stream c') := fun h => by
    unfold decode_stream
    exact .bind (below_stream h true) fun _ => .refl _
  unfold decode_oriented
  rcases hd h with e | e
  · rw [e]; exact .inl rfl
  rw [e]
  split
  · exact .refl _
  · rcases hd (follows_mirrored h) with e | e
    · rw [e]; exact .inl rfl
    · rw [e]; exact .refl _
  · exact .refl _

/-- Decoding a grid with unreadable modules: a panic before anything is written, or what decoding the other grid gives. -/
theorem decode_follows {σ : Type} {code code' : BitGrid} (h : Follows code code') (W : Writer σ) (w : σ) :
    Grid.decode_to W code w = (.error .panic, w) ∨ Grid.decode_to W code w = Grid.decode_to W code' w := by
  unfold Grid.decode_to decode
  rcases below_oriented h with e | e
  · rw [e]; exact .inl rfl
  · rw [e]; exact .inr rfl

/-- **C63.** Decoding ends for every grid whose modules can be read or panic: it panics before writing anything, or succeeds with the
version of the grid's size, or reports one of its errors. -/
theorem C63_decode {σ : Type} {code : BitGrid} (hb : ∀ y x, code.bit y x = .error .panic ∨ ∃ b, code.bit y x = .ok b)
    (h9 : 9 ≤ code.size) (W : Writer σ) (w : σ) :
    Grid.decode_to W code w = (.error .panic, w) ∨
    (∃ md, (Grid.decode_to W code w).1 = .ok md ∧ md.version = (code.size - 17) / 4) ∨
      ∃ e ∈ [.FormatEcc, .InvalidVersion, .DataEcc, .DataUnderflow, .UnknownDataType, .IoError],
        (Grid.decode_to W code w).1 = .error (.err e) := by
  let m : Nat → Nat → Bool := fun y x => match code.bit y x with
    | .ok b => b
    | .error _ => false
  have hf : Follows code { size := code.size, bit := fun y x => .ok (m y x) } := by
    refine ⟨rfl, fun y x => ?_⟩
    rcases hb y x with e | ⟨b, e⟩
    · exact .inl e
    · refine .inr ?_
      show _ = Except.ok (m y x)
      simp only [m, e]
  rcases decode_follows hf W w with e | e
  · exact .inl e
  · rw [e]
    exact .inr (C24_decode_total (code := { size := code.size, bit := fun y x => .ok (m y x) }) (fun y x _ _ => rfl) h9 W w)

/-! ### Detection -/

variable {S : Type} [ImageBuffer S] [LawfulImage S]

/-- **C63.** Detection in a freshly prepared image ends: it panics or returns. If it returns, nothing but region queries and claims has
happened to the image, every grid has the size of one of the versions 0 to 40 and four corners, and its modules read as they would in
the image as prepared. -/
theorem C63_detection (F : Type) [FloatOps F] [Rounding F] {img0 : PreparedImage S} (h0 : Fresh img0) (hw : width img0.buffer ≤ 32768)
    (hh : height img0.buffer ≤ 32768) (hpos : 0 < width img0.buffer) :
    img0.detect_grids F = .error .panic ∨ ∃ img grids claims, img0.detect_grids F = .ok (img, grids) ∧ History img0 claims img ∧
      ∀ g ∈ grids, (∃ v, v ≤ 40 ∧ g.location.grid_size = 17 + 4 * v) ∧ g.bounds.length = 4 ∧
        RefGridImage g.location img = RefGridImage g.location img0 := by
  have key : Settles (fun r : PreparedImage S × List (DetectedGrid F) => (∃ claims, History img0 claims r.1) ∧
      ∀ g ∈ r.2, g.bounds.length = 4) (img0.detect_grids F) := by
    unfold PreparedImage.detect_grids
    by_cases hhp : height img0.buffer = 0
    · unfold capstones_from_image
      rw [hhp]
      exact .ok ⟨⟨_, .start⟩, by simp⟩
    obtain ⟨claims, img, stones, e, hH, -⟩ := C51_search (F := F) h0 hw hh hpos C51_centres
    rw [e, Run.ok_bind]
    dsimp only
    refine .bind (P := fun _ => True) ?_ fun groups _ _ => ?_
    · unfold PreparedImage.find_groupings
      refine halts_groupings halts_rank (fun g => ?_) stones
      refine .bind (P := fun _ => True) ?_ fun _ _ _ => .pure trivial
      exact (settles_from_group h0 hpos (Nat.pos_of_ne_zero hhp) (.clone hH) g).mono fun _ _ _ => trivial
    refine .bind (P := fun r : PreparedImage S × List (SkewedGridLocation F) => ∃ claims, History img0 claims r.1) ?_ ?_
    · unfold locate_groups
      refine .forList (fun r : PreparedImage S × List (SkewedGridLocation F) => ∃ claims, History img0 claims r.1) _ ⟨_, hH⟩ ?_
      rintro g ⟨img', locs⟩ - ⟨c, hc⟩
      dsimp only at hc ⊢
      refine .bind (settles_from_group h0 hpos (Nat.pos_of_ne_zero hhp) hc g) ?_
      rintro ⟨img'', loc⟩ - ⟨claims'', h'', -⟩
      dsimp only at h'' ⊢
      split <;> exact .pure ⟨claims'', h''⟩
    · rintro ⟨img', locs⟩ - h'
      dsimp only at h' ⊢
      refine .bind (P := fun grids : List (DetectedGrid F) => ∀ g ∈ grids, g.bounds.length = 4) ?_ fun grids _ hg => .pure ⟨h', hg⟩
      refine .forList _ _ (by simp) fun loc grids _ hg => ?_
      refine .bind (P := fun _ => True) (halts_map _ _ _) fun _ _ _ => ?_
      refine .bind (P := fun _ => True) (halts_map _ _ _) fun _ _ _ => ?_
      refine .bind (P := fun _ => True) (halts_map _ _ _) fun _ _ _ => ?_
      refine .bind (P := fun _ => True) (halts_map _ _ _) fun _ _ _ => ?_
      refine .pure ?_
      intro g hm
      rcases List.mem_append.1 hm with hm | hm
      · exact hg g hm
      · rw [List.mem_singleton] at hm
        rw [hm]
        rfl
  rcases key with e | ⟨⟨img, grids⟩, e, ⟨claims, h⟩, hb⟩
  · exact .inl e
  · exact .inr ⟨img, grids, claims, e, h, fun g hg => ⟨detect_sizes e g hg, hb g hg, C38_grid h0 h g.location⟩⟩

/-- **C63.** Decoding a detected grid ends. -/
theorem C63_read (F : Type) [FloatOps F] [Rounding F] {img0 : PreparedImage S} (h0 : Fresh img0) (hw : width img0.buffer ≤ 32768)
    (hh : height img0.buffer ≤ 32768) (hpos : 0 < width img0.buffer) (hhp : 0 < height img0.buffer) {img : PreparedImage S} {grids : List (DetectedGrid F)}
    (hd : img0.detect_grids F = .ok (img, grids)) {g : DetectedGrid F} (hg : g ∈ grids) {σ : Type} (W : Writer σ) (w : σ) :
    Grid.decode_to W (RefGridImage g.location img) w = (.error .panic, w) ∨
    (∃ md, (Grid.decode_to W (RefGridImage g.location img) w).1 = .ok md ∧ md.version = (g.location.grid_size - 17) / 4) ∨
      ∃ e ∈ [.FormatEcc, .InvalidVersion, .DataEcc, .DataUnderflow, .UnknownDataType, .IoError],
        (Grid.decode_to W (RefGridImage g.location img) w).1 = .error (.err e) := by
  obtain ⟨img', grids', claims, e, h, hall⟩ := (C63_detection F h0 hw hh hpos).resolve_left (by rw [hd]; simp)
  rw [hd] at e
  cases e
  obtain ⟨⟨v, hv, hs⟩, -, -⟩ := hall g hg
  refine C63_decode ?_ (by show 9 ≤ g.location.grid_size; omega) W w
  intro y x
  have := (halts_map g.location.c (FloatOps.add (FloatOps.ofInt (x : Int)) (FloatOps.lit 5 1))
    (FloatOps.add (FloatOps.ofInt (y : Int)) (FloatOps.lit 5 1))).bind (f := fun p => img.get_pixel_at_point p >>= fun c =>
      pure (decide (PixelColor.White ≠ c))) (Q := fun _ => True) fun p _ _ =>
        (halts_sample (sampled_history h0 hpos hhp h) p).bind fun _ _ _ => .pure trivial
  rcases this with e | ⟨b, e, -⟩
  · exact .inl e
  · exact .inr ⟨b, e⟩

/-- **C63.** From a picture to text, for every greyscale picture: preparation succeeds, detection panics or returns, decoding each grid
panics, succeeds or reports an error. None of them goes on for ever. -/
theorem C63_pipeline (F : Type) [FloatOps F] [Rounding F] (w h : Nat) (hw : 0 < w) (hw' : w ≤ 32768) (hh : 0 < h) (hh' : h ≤ 32768)
    (d : Nat → Nat → Byte) : ∃ img0, PreparedImage.prepare_from_greyscale w h (fun _ x y => (d x y, ())) () = (.ok img0, ()) ∧
      (img0.detect_grids F = .error .panic ∨ ∃ img grids, img0.detect_grids F = .ok (img, grids) ∧ ∀ g ∈ grids,
        (∃ md s, Grid.decode (RefGridImage g.location img) = .ok (md, s)) ∨
          ∃ e ∈ [.panic, .err .FormatEcc, .err .InvalidVersion, .err .DataEcc, .err .DataUnderflow, .err .UnknownDataType, .err .IoError,
            .err .EncodingError], Grid.decode (RefGridImage g.location img) = .error e) := by
  have hsize : w * h < 2 ^ 64 := by
    have : w * h ≤ 32768 * 32768 := Nat.mul_le_mul hw' hh'
    omega
  obtain ⟨img0, e, h0, ew, eh, -⟩ := C34_from_greyscale w h (fun _ x y => (d x y, ())) () (by omega) hsize
  refine ⟨img0, e, ?_⟩
  rcases C63_detection F h0 (by rw [ew]; exact hw') (by rw [eh]; exact hh') (by rw [ew]; exact hw) with e1 | ⟨img, grids, claims, e1, -⟩
  · exact .inl e1
  refine .inr ⟨img, grids, e1, fun g hg => ?_⟩
  have := C63_read F h0 (by rw [ew]; exact hw') (by rw [eh]; exact hh') (by rw [ew]; exact hw) (by rw [eh]; exact hh) e1 hg vecWriter []
  unfold Grid.decode
  cases hd : Grid.decode_to vecWriter (RefGridImage g.location img) [] with
  | mk r out =>
    rw [hd] at this
    rcases this with h | ⟨md, h, -⟩ | ⟨e, he, h⟩
    · cases h
      exact .inr ⟨_, by simp, rfl⟩
    · dsimp only at h
      subst h
      dsimp only
      cases hu : from_utf8 out with
      | none => exact .inr ⟨_, by simp, rfl⟩
      | some s => exact .inl ⟨md, s, rfl⟩
    · dsimp only at h
      subst h
      refine .inr ⟨.err e, ?_, rfl⟩
      simp only [List.mem_cons, List.not_mem_nil, or_false] at he ⊢
      rcases he with rfl | rfl | rfl | rfl | rfl | rfl <;> simp

/-- A case: a picture of noise, in double precision. -/
example : ∃ img0, PreparedImage.prepare_from_greyscale 640 480 (fun _ x y => (BitVec.ofNat 8 (x * x * 7919 + y * 104729), ())) () = (.ok img0, ()) ∧
    (img0.detect_grids F64 = .error .panic ∨ ∃ img grids, img0.detect_grids F64 = .ok (img, grids) ∧ ∀ g ∈ grids,
      (∃ md s, Grid.decode (RefGridImage g.location img) = .ok (md, s)) ∨
        ∃ e ∈ [.panic, .err .FormatEcc, .err .InvalidVersion, .err .DataEcc, .err .DataUnderflow, .err .UnknownDataType, .err .IoError,
          .err .EncodingError], Grid.decode (RefGridImage g.location img) = .error e) :=
  C63_pipeline F64 640 480 (by omega) (by omega) (by omega) (by omega) _

end Rqrr
