import Verif.Proofs.Spiral
import Verif.Proofs.Timing
import Verif.Props.Regions
import Verif.Props.Prepare

/-!
# Location of grids halts

Every run of the functions behind `detect_grids` ends with a panic or a result, and the image that comes out is a history of
the one that went in: nothing but region queries and claims has happened to it.
-/

namespace Rqrr

open ImageBuffer LawfulImage FloatOps Spec

/-- The run panics, or gives a result with the property. -/
def Settles {α : Type} (P : α → Prop) (r : Run α) : Prop := r = .error .panic ∨ ∃ a, r = .ok a ∧ P a

/-- The run panics or gives a result. -/
abbrev Halts {α : Type} (r : Run α) : Prop := Settles (fun _ => True) r

section rules

variable {α β σ ι : Type} {P : α → Prop} {Q : β → Prop}

theorem Settles.ok {a : α} (h : P a) : Settles P (.ok a) := .inr ⟨a, rfl, h⟩

theorem Settles.pure {a : α} (h : P a) : Settles P (Pure.pure a) := .inr ⟨a, rfl, h⟩

theorem Settles.panic : Settles P (.error .panic) := .inl rfl

theorem Settles.bind {x : Run α} {f : α → Run β} (h : Settles P x) (hf : ∀ a, x = .ok a → P a → Settles Q (f a)) :
    Settles Q (x >>= f) := by
  rcases h with rfl | ⟨a, rfl, h⟩
  · exact .inl rfl
  · exact hf a rfl h

theorem Settles.mono {x : Run α} {P' : α → Prop} (h : Settles P x) (hp : ∀ a, x = .ok a → P a → P' a) : Settles P' x := by
  rcases h with rfl | ⟨a, rfl, h⟩
  · exact .inl rfl
  · exact .inr ⟨a, rfl, hp a rfl h⟩

theorem Settles.forList {f : ι → σ → Run σ} (Inv : σ → Prop) : ∀ (l : List ι) {s : σ}, Inv s →
    (∀ i s, i ∈ l → Inv s → Settles Inv (f i s)) → Settles Inv (forList f l s)
  | [], _, h, _ => .ok h
  | i :: is, s, h, step => (step i s (by simp) h).bind fun s' _ h' =>
    Settles.forList Inv is h' fun j s hj hs => step j s (by simp [hj]) hs

theorem Settles.forRangeAux {hi : Nat} {f : Nat → σ → Run σ} (Inv : σ → Prop) (step : ∀ i s, Inv s → Settles Inv (f i s)) :
    ∀ (r : Nat) {s : σ}, Inv s → Settles Inv (forRangeAux hi f r s)
  | 0, _, h => .ok h
  | r + 1, s, h => (step _ s h).bind fun _ _ h' => Settles.forRangeAux Inv step r h'

theorem Settles.forRange {lo hi : Nat} {s : σ} {f : Nat → σ → Run σ} (Inv : σ → Prop) (h : Inv s)
    (step : ∀ i s, Inv s → Settles Inv (f i s)) : Settles Inv (forRange lo hi s f) := .forRangeAux Inv step _ h

theorem Settles.whileFuel {cond : σ → Bool} {body : σ → Run σ} (Inv : σ → Prop) (μ : σ → Nat)
    (step : ∀ s, Inv s → cond s = true → Settles (fun s' => Inv s' ∧ μ s' < μ s) (body s)) :
    ∀ (fuel : Nat) (s : σ), Inv s → μ s < fuel → Settles Inv (whileFuel cond body fuel s)
  | 0, _, _, h => by omega
  | n + 1, s, hs, hμ => by
    cases hc : cond s with
    | false => exact .inr ⟨s, by simp [Rqrr.whileFuel, hc], hs⟩
    | true =>
      have := (step s hs hc).bind (f := Rqrr.whileFuel cond body n) (Q := Inv)
        fun s' _ h' => Settles.whileFuel Inv μ step n s' h'.1 (by omega)
      simpa [Rqrr.whileFuel, hc] using this

end rules

theorem halts_chk32 (n : Int) : Halts (chk32 n) := by
  unfold chk32
  split
  · exact .ok trivial
  · exact .panic

theorem halts_chkU (n : Nat) : Halts (chkU n) := by
  unfold chkU
  split
  · exact .ok trivial
  · exact .panic

theorem halts_addI (a b : Int) : Halts (addI a b) := halts_chk32 _
theorem halts_subI (a b : Int) : Halts (subI a b) := halts_chk32 _
theorem halts_mulI (a b : Int) : Halts (mulI a b) := halts_chk32 _
theorem halts_negI (a : Int) : Halts (negI a) := halts_chk32 _

theorem halts_divI (a b : Int) : Halts (divI a b) := by
  unfold divI
  split
  · exact .panic
  · exact halts_chk32 _

theorem halts_subU (a b : Nat) : Halts (subU a b) := by
  unfold subU
  split
  · exact .ok trivial
  · exact .panic

theorem halts_idx {α : Type} (l : List α) (i : Nat) : Halts (idx l i) := by
  unfold idx
  split
  · exact .ok trivial
  · exact .panic

theorem halts_aget {α : Type} {n : Nat} (v : Vector α n) (i : Nat) : Halts (aget v i) := by
  unfold aget
  split
  · exact .ok trivial
  · exact .panic

theorem halts_aset {α : Type} {n : Nat} (v : Vector α n) (i : Nat) (a : α) : Halts (aset v i a) := by
  unfold aset
  split
  · exact .ok trivial
  · exact .panic

theorem halts_assert (b : Bool) : Halts (Run.assert b) := by
  cases b
  · exact .panic
  · exact .ok trivial

/-- One step of a proof that straight-line code halts. -/
macro "halt_step" : tactic => `(tactic| first
  | exact Settles.pure trivial
  | exact Settles.ok trivial
  | exact Settles.panic
  | with_reducible exact halts_addI _ _
  | with_reducible exact halts_subI _ _
  | with_reducible exact halts_mulI _ _
  | with_reducible exact halts_negI _
  | with_reducible exact halts_divI _ _
  | with_reducible exact halts_chk32 _
  | with_reducible exact halts_chkU _
  | with_reducible exact halts_subU _ _
  | with_reducible exact halts_idx _ _
  | with_reducible exact halts_aget _ _
  | with_reducible exact halts_aset _ _ _
  | with_reducible exact halts_assert _
  | refine Settles.bind (P := fun _ => True) ?_ (fun _ _ _ => ?_)
  | split)

section geometry

variable {F : Type} [FloatOps F]

theorem halts_map (c : Perspective F) (u v : F) : Halts (c.map u v) := by
  unfold Perspective.map
  dsimp only
  repeat' halt_step

theorem halts_line_intersect (p0 p1 q0 q1 : Point) : Halts (line_intersect p0 p1 q0 q1) := by
  unfold line_intersect
  repeat' halt_step

theorem halts_bresenham_next (s : BresenhamScan) : Settles (fun r => ∀ p s', r = some (p, s') → s'.d = s.d ∧ s'.i = s.i + 1 ∧ s.i ≤ s.d) s.next := by
  unfold BresenhamScan.next
  split
  · refine .pure ?_
    intro p s' h; cases h
  · rename_i hi
    dsimp only
    refine .bind (P := fun _ => True) (halts_addI _ _) fun a _ _ => ?_
    refine .bind (P := fun _ => True) (halts_addI _ _) fun dom _ _ => ?_
    refine .bind (P := fun _ => True) (by repeat' halt_step) fun na _ _ => ?_
    refine .bind (P := fun i => i = s.i + 1) ?_ fun i _ hi' => ?_
    · unfold addI chk32
      split
      · exact .ok rfl
      · exact .panic
    · refine .pure ?_
      intro p s' h
      cases h
      exact ⟨rfl, hi', by omega⟩

theorem halts_collect : ∀ (fuel : Nat) (s : BresenhamScan), (s.d - s.i + 1).toNat < fuel → Halts (s.collect fuel)
  | 0, _, h => by omega
  | fuel + 1, s, h => by
    unfold BresenhamScan.collect
    refine (halts_bresenham_next s).bind fun r _ hr => ?_
    cases r with
    | none => exact .pure trivial
    | some r =>
      obtain ⟨p, s'⟩ := r
      obtain ⟨h1, h2, h3⟩ := hr p s' rfl
      refine .bind (P := fun _ => True) (halts_collect fuel s' ?_) fun _ _ _ => .pure trivial
      rw [h1, h2]; omega

theorem halts_points (p q : Point) : Halts (BresenhamScan.points p q) := by
  unfold BresenhamScan.points
  refine .bind (P := fun s => s.i = 0) ?_ fun s _ hs => halts_collect _ s (by rw [hs]; omega)
  unfold BresenhamScan.new
  dsimp only
  refine .bind (P := fun _ => True) (halts_subI _ _) fun _ _ _ => ?_
  refine .bind (P := fun _ => True) (halts_subI _ _) fun _ _ _ => ?_
  refine .bind (P := fun _ => True) (halts_chk32 _) fun _ _ _ => ?_
  refine .bind (P := fun _ => True) (halts_chk32 _) fun _ _ _ => ?_
  refine .bind (P := fun _ => True) (by repeat' halt_step) fun _ _ _ => ?_
  refine .bind (P := fun _ => True) (by repeat' halt_step) fun _ _ _ => ?_
  exact .pure rfl

end geometry

section image

variable {S : Type} [ImageBuffer S] {F : Type} [FloatOps F]

/-- Every point can be sampled. -/
def Sampled (img : PreparedImage S) : Prop := ∀ p, ∃ c, img.get_pixel_at_point p = .ok c

theorem halts_sample {img : PreparedImage S} (h : Sampled img) (p : Point) : Halts (img.get_pixel_at_point p) := by
  obtain ⟨c, e⟩ := h p
  rw [e]
  exact .ok trivial

theorem halts_cell {img : PreparedImage S} (h : Sampled img) (c : Perspective F) (x y : Int) : Halts (fitness_cell img c x y) := by
  unfold fitness_cell
  refine .forList _ _ trivial fun _ _ _ _ => .forList _ _ trivial fun _ _ _ _ => ?_
  refine .bind (P := fun _ => True) (halts_map _ _ _) fun p _ _ => ?_
  split
  · exact .pure trivial
  · refine .bind (P := fun _ => True) (halts_sample h p) fun _ _ _ => ?_
    repeat' halt_step

theorem halts_ring {img : PreparedImage S} (h : Sampled img) (c : Perspective F) (x y : Int) (r : Nat) : Halts (fitness_ring img c x y r) := by
  unfold fitness_ring
  refine .forRange _ trivial fun _ _ _ => ?_
  repeat' first | exact halts_cell h _ _ _ | halt_step

theorem halts_apat {img : PreparedImage S} (h : Sampled img) (c : Perspective F) (x y : Int) : Halts (fitness_apat img c x y) := by
  unfold fitness_apat
  repeat' first | exact halts_cell h _ _ _ | exact halts_ring h _ _ _ _ | halt_step

theorem halts_fitness_capstone {img : PreparedImage S} (h : Sampled img) (c : Perspective F) (x y : Int) :
    Halts (fitness_capstone img c x y) := by
  unfold fitness_capstone
  repeat' first | exact halts_cell h _ _ _ | exact halts_ring h _ _ _ _ | halt_step

theorem halts_version (n : Nat) : Halts (version_from_grid_size n) := by
  unfold version_from_grid_size
  repeat' halt_step

theorem halts_fitness {img : PreparedImage S} (h : Sampled img) (c : Perspective F) (n : Nat) : Halts (fitness_all img c n) := by
  unfold fitness_all
  refine .bind (P := fun _ => True) (halts_version n) fun _ _ _ => ?_
  refine .bind (P := fun _ => True) (halts_idx _ _) fun _ _ _ => ?_
  refine .bind (P := fun _ => True) (.forRange _ trivial fun _ _ _ => ?_) fun _ _ _ => ?_
  · repeat' first | exact halts_cell h _ _ _ | halt_step
  refine .bind (P := fun _ => True) (halts_fitness_capstone h _ _ _) fun _ _ _ => ?_
  refine .bind (P := fun _ => True) (halts_fitness_capstone h _ _ _) fun _ _ _ => ?_
  refine .bind (P := fun _ => True) (halts_fitness_capstone h _ _ _) fun _ _ _ => ?_
  dsimp only
  refine .bind (P := fun _ => True) (.forRange _ trivial fun _ _ _ => ?_) fun _ _ _ => ?_
  · repeat' first | exact halts_apat h _ _ _ | halt_step
  refine .forRange _ trivial fun _ _ _ => .forRange _ trivial fun _ _ _ => ?_
  repeat' first | exact halts_apat h _ _ _ | halt_step

omit [ImageBuffer S] in
theorem halts_jiggle {fitness : Perspective F → Run Int} (h : ∀ c, Halts (fitness c)) (c : Perspective F) : Halts (jiggle_with fitness c) := by
  unfold jiggle_with
  refine .bind (P := fun _ => True) (h c) fun _ _ _ => ?_
  dsimp only
  refine .bind (P := fun _ => True) (.forRange _ trivial fun _ _ _ => ?_) fun _ _ _ => .pure trivial
  refine .bind (P := fun _ => True) (.forRange _ trivial fun _ _ _ => ?_) fun _ _ _ => .pure trivial
  unfold jiggle_try
  dsimp only
  repeat' first | exact h _ | halt_step

theorem halts_setup {img : PreparedImage S} (h : Sampled img) (caps : CapStoneGroup F) (align : Point) (n : Nat) :
    Halts (setup_perspective img caps align n) := by
  unfold setup_perspective
  refine .bind (P := fun _ => True) (halts_subU _ _) fun _ _ _ => ?_
  split
  · exact .pure trivial
  · exact .bind (P := fun _ => True) (halts_jiggle (fun c => halts_fitness h c n) _) fun _ _ _ => .pure trivial

theorem halts_rotate_key (h0 hd a : Point) : Halts (rotate_key h0 hd a) := by
  unfold rotate_key
  repeat' halt_step

theorem halts_rotate (cap : CapStone F) (h0 hd : Point) : Halts (rotate_capstone cap h0 hd) := by
  unfold rotate_capstone
  dsimp only
  repeat' first | exact halts_rotate_key _ _ _ | halt_step

theorem halts_timing {img : PreparedImage S} (h : Sampled img) (p q : Point) : Halts (timing_scan img p q) := by
  unfold timing_scan
  refine .bind (P := fun _ => True) (halts_points p q) fun ps _ _ => ?_
  refine .bind (P := fun _ => True) (.forList _ _ trivial fun p st _ _ => ?_) fun _ _ _ => .pure trivial
  exact .bind (P := fun _ => True) (halts_sample h p) fun _ _ _ => .pure trivial

theorem halts_measure {img : PreparedImage S} (h : Sampled img) (caps : CapStoneGroup F) : Halts (measure_timing_pattern img caps) := by
  unfold measure_timing_pattern
  refine .bind (P := fun _ => True) (halts_map _ _ _) fun _ _ _ => ?_
  refine .bind (P := fun _ => True) (halts_map _ _ _) fun _ _ _ => ?_
  refine .bind (P := fun _ => True) (halts_map _ _ _) fun _ _ _ => ?_
  refine .bind (P := fun _ => True) (halts_timing h _ _) fun _ _ _ => ?_
  refine .bind (P := fun _ => True) (halts_timing h _ _) fun _ _ _ => ?_
  unfold size_from_scan
  dsimp only
  repeat' halt_step

theorem halts_size_estimate (seed : Point) (c0 c2 : CapStone F) : Halts (size_estimate seed c0 c2) := by
  unfold size_estimate
  dsimp only
  repeat' first | exact halts_map _ _ _ | halt_step

variable [LawfulImage S]

/-- A point on a black pixel of the image. -/
abbrev OnBlack (img : PreparedImage S) (p : Point) : Prop := IsBlack img (asUsize p.x, asUsize p.y)

theorem sampled_history {img0 img : PreparedImage S} {claims : Pos → Option Claim} (h0 : Fresh img0) (hw : 0 < width img0.buffer)
    (hh : 0 < height img0.buffer) (h : History img0 claims img) : Sampled img := by
  obtain ⟨hI, e1, e2⟩ := history_inv h0 h
  exact C50_never_out_of_bounds hI.ok.painted.valid (by rw [e1]; exact hw) (by rw [e2]; exact hh)

theorem settles_align_step {img0 : PreparedImage S} {claims : Pos → Option Claim} (h0 : Fresh img0) (n dir : Nat)
    (st : PreparedImage S × Point × Option Point) (h : History img0 claims st.1 ∧ ∀ p, st.2.2 = some p → OnBlack img0 p) :
    Settles (fun st => History img0 claims st.1 ∧ ∀ p, st.2.2 = some p → OnBlack img0 p) (align_step n dir st) := by
  obtain ⟨img, seed, found⟩ := st
  obtain ⟨h, hf⟩ := h
  unfold align_step
  dsimp only at h hf ⊢
  have move : ∀ img', History img0 claims img' → Settles (fun st : PreparedImage S × Point × Option Point =>
      History img0 claims st.1 ∧ ∀ p, st.2.2 = some p → OnBlack img0 p)
      (do
        let dx ← idx dxMap dir
        let dy ← idx dyMap dir
        let sx ← addI seed.x dx
        let sy ← addI seed.y dy
        pure (img', { x := sx, y := sy }, none)) := by
    intro img' h'
    refine .bind (P := fun _ => True) (halts_idx _ _) fun _ _ _ => ?_
    refine .bind (P := fun _ => True) (halts_idx _ _) fun _ _ _ => ?_
    refine .bind (P := fun _ => True) (halts_addI _ _) fun _ _ _ => ?_
    refine .bind (P := fun _ => True) (halts_addI _ _) fun _ _ _ => ?_
    exact .pure ⟨h', fun p e => by cases e⟩
  cases found with
  | some q => exact .pure ⟨h, hf⟩
  | none =>
    dsimp only
    obtain ⟨hI, e1, e2⟩ := history_inv h0 h
    split
    · rename_i hin
      obtain ⟨hx, hy⟩ := hin
      unfold PreparedImage.get_pixel_at
      rw [get_ok hI.ok.painted.valid hx hy, Run.ok_bind, Run.pure_eq, Run.ok_bind]
      split
      · rename_i hc
        have hb : IsBlack img0 (asUsize seed.x, asUsize seed.y) := by
          by_contra hb
          rw [(hI.ok.painted.white _ hx hy).2 hb] at hc
          exact hc rfl
        obtain ⟨reg, img', g1, -⟩ := get_region_ok hI hb
        have h' : History img0 claims img' := .query h (by rw [← e1]; exact hx) (by rw [← e2]; exact hy) g1
        rw [g1, Run.ok_bind]
        dsimp only
        split
        · refine .bind (P := fun _ => True) (halts_chkU _) fun _ _ _ => ?_
          split
          · exact .pure ⟨h', fun p e => by cases e; exact hb⟩
          · exact move img' h'
        · exact .pure ⟨h', fun p e => by cases e⟩
      · exact move img h
    · exact move img h

theorem settles_spiral {img0 img : PreparedImage S} {claims : Pos → Option Claim} (h0 : Fresh img0) (h : History img0 claims img)
    (seed : Point) (n : Nat) :
    Settles (fun r => History img0 claims r.1 ∧ ∀ p, r.2 = some p → OnBlack img0 p) (align_spiral img seed n) := by
  unfold align_spiral
  refine .bind (P := fun st : PreparedImage S × Point × Option Point × Nat × Nat =>
      (History img0 claims st.1 ∧ ∀ p, st.2.2.1 = some p → OnBlack img0 p) ∧ 1 ≤ st.2.2.2.2)
    (.whileFuel _ (fun st => if st.2.2.2.2 ≤ n * 100 then 2 * (n * 100 - st.2.2.2.2) + 2 + (if st.2.2.2.1 % 2 = 0 then 1 else 0) else 0) ?_ _ _
      ⟨⟨h, fun p e => by cases e⟩, by simp⟩ ?_)
    fun st _ hst => .pure hst.1
  · rintro ⟨img, seed, found, dir, k⟩ ⟨hi, hk⟩ hc
    dsimp only at hi hk hc ⊢
    simp only [Bool.and_eq_true, decide_eq_true_eq] at hc
    have hlt : k ≤ n * 100 := by
      have : k * 1 ≤ k * k := Nat.mul_le_mul_left k hk
      omega
    refine .bind (P := fun st : PreparedImage S × Point × Option Point => History img0 claims st.1 ∧ ∀ p, st.2.2 = some p → OnBlack img0 p)
      (.forRange _ hi fun _ st hst => settles_align_step h0 n dir st hst) fun st _ hst => .pure ⟨⟨hst, ?_⟩, ?_⟩
    · dsimp only
      split <;> omega
    · dsimp only
      rw [if_pos hlt]
      have e : ((dir + 1) % 4) &&& 1 = ((dir + 1) % 4) % 2 := Nat.and_one_is_mod _
      rw [e]
      split_ifs <;> omega
  · dsimp only
    split_ifs <;> omega

/-- What is claimed remains claimed. -/
def Keeps (claims claims' : Pos → Option Claim) : Prop := ∀ p, claims p ≠ none → claims' p ≠ none

theorem Keeps.refl (claims : Pos → Option Claim) : Keeps claims claims := fun _ h => h

theorem Keeps.trans {a b c : Pos → Option Claim} (h : Keeps a b) (h' : Keeps b c) : Keeps a c := fun p hp => h' p (h p hp)

theorem settles_claim {img0 img : PreparedImage S} {claims : Pos → Option Claim} (h0 : Fresh img0) (h : History img0 claims img)
    (align : Point) (c0 c2 : CapStone F) (hd : Point) :
    Settles (fun r => ∃ claims', History img0 claims' r.1 ∧ Keeps claims claims') (claim_alignment img align c0 c2 hd) := by
  unfold claim_alignment find_alignment_pattern
  refine .bind (P := fun r : PreparedImage S × Option Point => History img0 claims r.1 ∧ ∀ p, r.2 = some p → OnBlack img0 p)
    (.bind (P := fun _ => True) (halts_size_estimate _ _ _) fun n _ _ => settles_spiral h0 h align n) ?_
  rintro ⟨img', found⟩ - ⟨h', hf⟩
  dsimp only at h' hf ⊢
  cases found with
  | none => exact .pure ⟨claims, h', .refl _⟩
  | some p =>
    have hb := hf p rfl
    obtain ⟨hI, e1, e2⟩ := history_inv h0 h'
    have hx : asUsize p.x < width img0.buffer := hb.1
    have hy : asUsize p.y < height img0.buffer := hb.2.1
    refine .bind (P := fun _ => True) ?_ fun score _ _ => ?_
    · unfold LeftMostFinder.scoreOf
      repeat' halt_step
    refine .bind (P := fun r : PreparedImage S × LeftMostFinder => ∃ claims', History img0 claims' r.1 ∧ Keeps claims claims') ?_ fun r _ hr => .pure hr
    by_cases hc : claims (asUsize p.x, asUsize p.y) = some .Alignment
    · refine .inl (repaint_panics hI.ok.painted.valid (by rw [e1]; exact hx) (by rw [e2]; exact hy) (claim_toByte .Alignment) (.inr ?_) _ _)
      have := hI.ok.claim _ hb
      rw [hc] at this
      revert this
      unfold claimOf
      dsimp only
      (repeat' split) <;> simp_all [Claim.byte]
    · obtain ⟨s', rows, -, -, -, -, -, -, -, -, r9⟩ := claim_ok hI hb .Alignment hc
      have run := r9 LeftMostFinder LeftMostFinder.update { line_p := hd, best := p, score := score }
      rw [show PixelColor.Alignment = Claim.color .Alignment from rfl, run]
      have hfold : ∀ (rows : List Row) (f : LeftMostFinder), Halts (rows.foldlM LeftMostFinder.update f) := by
        intro rows
        induction rows with
        | nil => intro f; exact .ok trivial
        | cons r rs ih =>
          intro f
          rw [List.foldlM_cons]
          refine .bind (P := fun _ => True) ?_ fun f' _ _ => ih f'
          unfold LeftMostFinder.update LeftMostFinder.scoreOf
          dsimp only
          repeat' halt_step
      rcases hfold rows { line_p := hd, best := p, score := score } with e | ⟨f', e, -⟩
      · rw [e]; exact .panic
      · rw [e, Run.ok_bind] at run
        rw [e, Run.ok_bind]
        classical
        refine .ok ⟨fun q => if Reach (IsBlack img0) (asUsize p.x, asUsize p.y) q then some .Alignment else claims q,
          .claim h' hx hy .Alignment run (fun q hq => if_pos hq) (fun q hq => if_neg hq), fun q hq => ?_⟩
        dsimp only
        split
        · simp
        · exact hq

theorem settles_from_group {img0 img : PreparedImage S} {claims : Pos → Option Claim} (h0 : Fresh img0) (hw : 0 < width img0.buffer)
    (hh : 0 < height img0.buffer) (h : History img0 claims img) (group : CapStoneGroup F) :
    Settles (fun r => ∃ claims', History img0 claims' r.1 ∧ Keeps claims claims') (SkewedGridLocation.from_group img group) := by
  unfold SkewedGridLocation.from_group
  dsimp only
  refine .bind (P := fun _ => True) (halts_subI _ _) fun _ _ _ => ?_
  refine .bind (P := fun _ => True) (halts_subI _ _) fun _ _ _ => ?_
  refine .bind (P := fun _ => True) (halts_subI _ _) fun _ _ _ => ?_
  refine .bind (P := fun _ => True) (halts_negI _) fun _ _ _ => ?_
  refine .bind (P := fun _ => True) (halts_mulI _ _) fun _ _ _ => ?_
  refine .bind (P := fun _ => True) (halts_subI _ _) fun _ _ _ => ?_
  refine .bind (P := fun _ => True) (halts_mulI _ _) fun _ _ _ => ?_
  refine .bind (P := fun _ => True) (halts_addI _ _) fun _ _ _ => ?_
  refine .bind (P := fun _ => True) (by repeat' halt_step) fun gh _ _ => ?_
  obtain ⟨group, hd⟩ := gh
  dsimp only
  refine .bind (P := fun _ => True) (halts_rotate _ _ _) fun _ _ _ => ?_
  refine .bind (P := fun _ => True) (halts_rotate _ _ _) fun _ _ _ => ?_
  refine .bind (P := fun _ => True) (halts_rotate _ _ _) fun _ _ _ => ?_
  refine .bind (P := fun _ => True) (halts_measure (sampled_history h0 hw hh h) _) fun n _ _ => ?_
  refine .bind (P := fun _ => True) (halts_line_intersect _ _ _ _) fun inter _ _ => ?_
  split
  · exact .pure ⟨claims, h, .refl _⟩
  · refine .bind (P := fun r : PreparedImage S × Option Point => ∃ claims', History img0 claims' r.1 ∧ Keeps claims claims') ?_ ?_
    · split
      · exact settles_claim h0 h _ _ _ _
      · exact .pure ⟨claims, h, .refl _⟩
    · rintro ⟨img', align⟩ - ⟨claims', h', hk⟩
      dsimp only at h' ⊢
      split
      · exact .pure ⟨claims', h', hk⟩
      · refine .bind (P := fun _ => True) (halts_version _) fun _ _ _ => ?_
        split
        · exact .pure ⟨claims', h', hk⟩
        · refine .bind (P := fun _ => True) (halts_setup (sampled_history h0 hw hh h') _ _ _) fun _ _ _ => ?_
          split <;> exact .pure ⟨claims', h', hk⟩

end image

section grouping

variable {F : Type} [FloatOps F]

theorem halts_insert (n : NeighborSet F) : ∀ l, Halts (insertScore n l)
  | [] => .ok trivial
  | m :: ms => by
    unfold insertScore
    split
    · exact .ok trivial
    · split
      · exact .bind (P := fun _ => True) (halts_insert n ms) fun _ _ _ => .pure trivial
      · exact .panic

theorem halts_rank (caps : List (CapStone F)) (i : Nat) : Halts (find_and_rank_possible_neighbors caps i) := by
  unfold find_and_rank_possible_neighbors
  refine .bind (P := fun _ => True) ?_ fun _ _ _ => ?_
  · unfold find_possible_neighbors
    refine .bind (P := fun _ => True) (halts_idx _ _) fun _ _ _ => ?_
    refine .forRange _ trivial fun _ _ _ => ?_
    dsimp only
    repeat' halt_step
  · dsimp only
    refine .bind (P := fun _ => True) (.forList _ _ trivial fun _ _ _ _ => halts_insert _ _) fun _ _ _ => .pure trivial

theorem halts_groupings {rank : List (CapStone F) → Nat → Run (List (Nat × Nat))} {viable : CapStoneGroup F → Run Bool}
    (hr : ∀ caps i, Halts (rank caps i)) (hv : ∀ g, Halts (viable g)) (caps : List (CapStone F)) :
    Halts (find_groupings_with rank viable caps) := by
  unfold find_groupings_with
  refine .bind (P := fun _ => True) (.forRange _ trivial fun i st _ => ?_) fun _ _ _ => .pure trivial
  dsimp only
  split
  · exact .pure trivial
  · refine .bind (P := fun _ => True) (hr _ _) fun pairs _ _ => ?_
    refine .forList _ _ trivial fun pair st _ _ => ?_
    unfold try_pair
    dsimp only
    repeat' first | exact hv _ | halt_step

end grouping

end Rqrr
