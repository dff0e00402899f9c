import Verif.Spec.Buffers
import Verif.Model.Identify

/-!
# Runs on different image buffers
-/

namespace Rqrr

open Spec ImageBuffer LawfulImage

/-- Two runs that end in the same way, with related results, unless the first one diverges. -/
def Alike {α β : Type} (R : α → β → Prop) (x : Run α) (y : Run β) : Prop :=
  x = .error .diverge ∨ (∃ a b, x = .ok a ∧ y = .ok b ∧ R a b) ∨ ∃ e, x = .error e ∧ y = .error e

namespace Alike

theorem pure {α β : Type} {R : α → β → Prop} {a : α} {b : β} (h : R a b) : Alike R (Pure.pure a : Run α) (Pure.pure b : Run β) :=
  .inr (.inl ⟨a, b, rfl, rfl, h⟩)

theorem ok {α β : Type} {R : α → β → Prop} {a : α} {b : β} (h : R a b) : Alike R (.ok a : Run α) (.ok b : Run β) :=
  .inr (.inl ⟨a, b, rfl, rfl, h⟩)

theorem error {α β : Type} {R : α → β → Prop} (e : Fault) : Alike R (.error e : Run α) (.error e : Run β) := .inr (.inr ⟨e, rfl, rfl⟩)

theorem refl {α : Type} (x : Run α) : Alike Eq x x := by
  cases x with
  | error e => exact .error e
  | ok a => exact .ok rfl

theorem bind {α β γ δ : Type} {R : α → β → Prop} {Q : γ → δ → Prop} {x : Run α} {y : Run β} {f : α → Run γ} {g : β → Run δ}
    (h : Alike R x y) (hf : ∀ a b, R a b → Alike Q (f a) (g b)) : Alike Q (x >>= f) (y >>= g) := by
  rcases h with rfl | ⟨a, b, rfl, rfl, h⟩ | ⟨e, rfl, rfl⟩
  · exact .inl rfl
  · exact hf a b h
  · exact .error e

theorem same {α γ δ : Type} {Q : γ → δ → Prop} {x : Run α} {f : α → Run γ} {g : α → Run δ} (hf : ∀ a, Alike Q (f a) (g a)) :
    Alike Q (x >>= f) (x >>= g) :=
  (refl x).bind fun a b h => by cases h; exact hf a

/-- The first run decides a value. -/
theorem bindEq {α γ δ : Type} {Q : γ → δ → Prop} {x y : Run α} {f : α → Run γ} {g : α → Run δ} (h : Alike Eq x y)
    (hf : ∀ a, Alike Q (f a) (g a)) : Alike Q (x >>= f) (y >>= g) :=
  h.bind fun a b h => by cases h; exact hf a

theorem ite {α β : Type} {R : α → β → Prop} {c : Prop} [Decidable c] {x x' : Run α} {y y' : Run β} (h : c → Alike R x y)
    (h' : ¬ c → Alike R x' y') : Alike R (if c then x else x') (if c then y else y') := by
  by_cases hc : c
  · rw [if_pos hc, if_pos hc]; exact h hc
  · rw [if_neg hc, if_neg hc]; exact h' hc

theorem forList {ι α β : Type} {R : α → β → Prop} {f : ι → α → Run α} {g : ι → β → Run β} (h : ∀ i a b, R a b → Alike R (f i a) (g i b)) :
    ∀ (l : List ι) {a : α} {b : β}, R a b → Alike R (forList f l a) (forList g l b)
  | [], _, _, hr => .ok hr
  | i :: l, a, b, hr => (h i a b hr).bind fun _ _ hr' => forList h l hr'

theorem forRangeAux {α β : Type} {R : α → β → Prop} {f : Nat → α → Run α} {g : Nat → β → Run β} (h : ∀ i a b, R a b → Alike R (f i a) (g i b)) (hi : Nat) :
    ∀ (n : Nat) {a : α} {b : β}, R a b → Alike R (forRangeAux hi f n a) (forRangeAux hi g n b)
  | 0, _, _, hr => .ok hr
  | n + 1, a, b, hr => (h _ a b hr).bind fun _ _ hr' => forRangeAux h hi n hr'

theorem forRange {α β : Type} {R : α → β → Prop} {f : Nat → α → Run α} {g : Nat → β → Run β} {lo hi : Nat} {a : α} {b : β} (hr : R a b)
    (h : ∀ i a b, R a b → Alike R (f i a) (g i b)) : Alike R (forRange lo hi a f) (forRange lo hi b g) :=
  forRangeAux h hi _ hr

theorem whileFuel {α β : Type} {R : α → β → Prop} {c : α → Bool} {d : β → Bool} {f : α → Run α} {g : β → Run β}
    (hc : ∀ a b, R a b → c a = d b) (h : ∀ a b, R a b → Alike R (f a) (g b)) :
    ∀ (n : Nat) {a : α} {b : β}, R a b → Alike R (whileFuel c f n a) (whileFuel d g n b)
  | 0, _, _, _ => .inl rfl
  | n + 1, a, b, hr => by
    unfold Rqrr.whileFuel
    rw [hc a b hr]
    by_cases hd : d b = true
    · rw [if_pos hd, if_pos hd]
      exact (h a b hr).bind fun _ _ hr' => whileFuel hc h n hr'
    · rw [if_neg hd, if_neg hd]
      exact .ok hr

end Alike

/-- An image buffer on which accesses outside the image diverge. -/
class GuardedImage (S : Type) [ImageBuffer S] [LawfulImage S] : Prop where
  get_out : ∀ {s : S} {x y : Nat}, ¬ (x < width s ∧ y < height s) → get_pixel s x y = .error .diverge
  set_out : ∀ {s : S} {x y : Nat} (v : Byte), ¬ (x < width s ∧ y < height s) → set_pixel s x y v = .error .diverge

section

variable {S T : Type} [ImageBuffer S] [LawfulImage S] [GuardedImage S] [ImageBuffer T] [LawfulImage T]

/-- Two images with the same pixels and the same cached regions. -/
structure SameImage {S T : Type} [ImageBuffer S] [LawfulImage S] [ImageBuffer T] [LawfulImage T] (i : PreparedImage S) (j : PreparedImage T) : Prop where
  pixels : SamePixels i.buffer j.buffer
  cache : i.cache = j.cache

variable {s : S} {t : T} {i : PreparedImage S} {j : PreparedImage T}

theorem sim_get (h : SamePixels s t) (x y : Nat) : Alike Eq (get_pixel s x y) (get_pixel t x y) := by
  by_cases hr : x < width s ∧ y < height s
  · rw [get_ok h.valid hr.1 hr.2, get_ok h.valid' (h.width ▸ hr.1) (h.height ▸ hr.2), h.view x y hr.1 hr.2]
    exact .ok rfl
  · exact .inl (GuardedImage.get_out hr)

theorem sim_set (h : SamePixels s t) (x y : Nat) (v : Byte) : Alike SamePixels (set_pixel s x y v) (set_pixel t x y v) := by
  by_cases hr : x < width s ∧ y < height s
  · obtain ⟨s', e, hv, hw, hh, hp⟩ := set_ok (s := s) v h.valid hr.1 hr.2
    obtain ⟨t', e', hv', hw', hh', hp'⟩ := set_ok (s := t) v h.valid' (h.width ▸ hr.1) (h.height ▸ hr.2)
    rw [e, e']
    refine .ok ⟨hv, hv', by rw [hw, hw', h.width], by rw [hh, hh', h.height], fun x' y' h1 h2 => ?_⟩
    rw [hw] at h1
    rw [hh] at h2
    rw [hp x' y' h1 h2, hp' x' y' (h.width ▸ h1) (h.height ▸ h2), h.view x' y' h1 h2]
  · exact .inl (GuardedImage.set_out v hr)

theorem sim_prepare_average (h : SamePixels s t) (w ts y x : Nat) (st : List Nat × Nat × Nat) :
    Alike Eq (prepare_average s w ts y x st) (prepare_average t w ts y x st) := by
  unfold prepare_average
  refine .same fun _ => .same fun _ => ?_
  dsimp only
  refine .same fun _ => .same fun _ => .bindEq (sim_get h _ _) fun _ => .same fun _ => .same fun _ => .bindEq (sim_get h _ _) fun _ => .refl _

theorem sim_prepare_pixel (h : SamePixels s t) (ra : List Nat) (ts y x : Nat) :
    Alike SamePixels (prepare_pixel ra ts y x s) (prepare_pixel ra ts y x t) := by
  unfold prepare_pixel
  exact .bindEq (sim_get h _ _) fun _ => .same fun _ => .same fun _ => .same fun _ => .same fun _ => sim_set h _ _ _

theorem sim_prepare_row (h : SamePixels s t) (w ts y : Nat) (a : Nat × Nat) :
    Alike (fun p q => SamePixels p.1 q.1 ∧ p.2 = q.2) (prepare_row w ts y (s, a)) (prepare_row w ts y (t, a)) := by
  unfold prepare_row
  refine .bindEq (.forRange rfl fun x a b e => ?_) fun r => ?_
  · cases e; exact sim_prepare_average h _ _ _ _ _
  · exact .bind (.forRange h fun x a b e => sim_prepare_pixel e _ _ _ _) fun a b e => .pure ⟨e, rfl⟩

theorem sim_prepare (h : SamePixels s t) : Alike SameImage (PreparedImage.prepare s) (PreparedImage.prepare t) := by
  unfold PreparedImage.prepare
  dsimp only
  rw [h.width, h.height]
  refine .bind (R := fun p q => SamePixels p.1 q.1 ∧ p.2 = q.2) (.forRange ⟨h, rfl⟩ ?_) ?_
  · rintro y ⟨a, a'⟩ ⟨b, b'⟩ ⟨e, e'⟩
    dsimp only at e e'
    subst e'
    exact sim_prepare_row e _ _ _ _
  · rintro ⟨a, a'⟩ ⟨b, b'⟩ ⟨e, -⟩
    exact .pure ⟨e, rfl⟩

theorem sim_without (h : SamePixels s t) : Alike SameImage (PreparedImage.without_preparation s) (PreparedImage.without_preparation t) := by
  unfold PreparedImage.without_preparation
  rw [h.width, h.height]
  refine .bindEq (.forRange rfl fun y _ _ _ => .forRange rfl fun x _ _ _ => .bindEq (sim_get h _ _) fun _ => ?_) fun _ => .pure ⟨h, rfl⟩
  exact .refl _

theorem sim_get_at (h : SameImage i j) (x y : Nat) : Alike Eq (i.get_pixel_at x y) (j.get_pixel_at x y) :=
  .bindEq (sim_get h.pixels _ _) fun _ => .refl _

theorem sim_get_point (h : SameImage i j) (p : Point) : Alike Eq (i.get_pixel_at_point p) (j.get_pixel_at_point p) := by
  unfold PreparedImage.get_pixel_at_point
  rw [h.pixels.width, h.pixels.height]
  exact .same fun _ => .same fun _ => .bindEq (sim_get h.pixels _ _) fun _ => .refl _

theorem sim_fill_left (h : SamePixels s t) (y : Nat) (frm : Byte) : ∀ x, Alike Eq (fill_left s y frm x) (fill_left t y frm x)
  | 0 => .ok rfl
  | x + 1 => .bindEq (sim_get h _ _) fun _ => .ite (fun _ => sim_fill_left h y frm x) fun _ => .pure rfl

theorem sim_fill_right (h : SamePixels s t) (w y : Nat) (frm : Byte) : ∀ n x, Alike Eq (fill_right s w y frm n x) (fill_right t w y frm n x)
  | 0, _ => .inl rfl
  | n + 1, x => .ite (fun _ => .bindEq (sim_get h _ _) fun _ => .ite (fun _ => sim_fill_right h w y frm n _) fun _ => .pure rfl) fun _ => .pure rfl

theorem sim_fill_span (h : SamePixels s t) (y l r : Nat) (to : Byte) : Alike SamePixels (fill_span y l r to s) (fill_span y l r to t) :=
  .forRange h fun _ _ _ e => sim_set e _ _ _

theorem sim_fill_seeds (h : SamePixels s t) (l r y : Nat) (frm : Byte) (q : List (Nat × Nat)) :
    Alike Eq (fill_seeds s l r y frm q) (fill_seeds t l r y frm q) := by
  unfold fill_seeds
  refine .bindEq (.forRange rfl fun x a b e => ?_) fun _ => .refl _
  cases e
  exact .bindEq (sim_get h _ _) fun _ => .refl _

theorem sim_fill_step {φ : Type} {update : φ → Row → Run φ} (w : Nat) (frm to : Byte) (h : SamePixels s t) (st : List (Nat × Nat) × φ) :
    Alike (fun p q => SamePixels p.1 q.1 ∧ p.2 = q.2) (fill_step update w frm to (s, st)) (fill_step update w frm to (t, st)) := by
  obtain ⟨q, fill⟩ := st
  cases q with
  | nil => exact .ok ⟨h, rfl⟩
  | cons p q =>
    obtain ⟨x, y⟩ := p
    unfold fill_step
    refine .bindEq (sim_get h _ _) fun p => .ite (fun _ => .pure ⟨h, rfl⟩) fun _ => ?_
    refine .bindEq (sim_fill_left h _ _ _) fun l => .same fun _ => .bindEq (sim_fill_right h _ _ _ _ _) fun r => ?_
    refine .bind (sim_fill_span h _ _ _ _) fun a b e => .same fun f => ?_
    refine .bindEq (.ite (fun _ => sim_fill_seeds e _ _ _ _ _) fun _ => .refl _) fun q => ?_
    rw [e.height]
    refine .same fun _ => .bindEq (.ite (fun _ => sim_fill_seeds e _ _ _ _ _) fun _ => .refl _) fun q => .pure ⟨e, rfl⟩

theorem sim_flood {φ : Type} {update : φ → Row → Run φ} (h : SamePixels s t) (x y : Nat) (frm to : Byte) (fill : φ) :
    Alike (fun p q => SamePixels p.1 q.1 ∧ p.2 = q.2) (flood_fill update s x y frm to fill) (flood_fill update t x y frm to fill) := by
  unfold flood_fill
  dsimp only
  rw [h.width, h.height]
  refine .same fun _ => .bind (R := fun p q => SamePixels p.1 q.1 ∧ p.2 = q.2) (.whileFuel ?_ ?_ _ ⟨h, rfl⟩) ?_
  · rintro ⟨a, a'⟩ ⟨b, b'⟩ ⟨-, e⟩
    dsimp only at e ⊢
    rw [e]
  · rintro ⟨a, a'⟩ ⟨b, b'⟩ ⟨e, e'⟩
    dsimp only at e e'
    subst e'
    exact sim_fill_step _ _ _ e _
  · rintro ⟨a, a', a''⟩ ⟨b, b', b''⟩ ⟨e, e'⟩
    cases e'
    exact .pure ⟨e, rfl⟩

theorem sim_repaint {φ : Type} {update : φ → Row → Run φ} (h : SameImage i j) (x y : Nat) (c : PixelColor) (fill : φ) :
    Alike (fun p q => SameImage p.1 q.1 ∧ p.2 = q.2) (i.repaint_and_apply update x y c fill) (j.repaint_and_apply update x y c fill) := by
  unfold PreparedImage.repaint_and_apply
  refine .bindEq (sim_get h.pixels _ _) fun src => .same fun _ => ?_
  dsimp only
  have rest : ∀ same : Bool, Alike (fun p q => SameImage p.1 q.1 ∧ p.2 = q.2)
      (if same = true then .error .panic else do
        let to ← c.toByte
        let (buffer, fill) ← flood_fill update i.buffer x y src to fill
        pure ({ buffer := buffer, cache := i.cache : PreparedImage S }, fill))
      (if same = true then .error .panic else do
        let to ← c.toByte
        let (buffer, fill) ← flood_fill update j.buffer x y src to fill
        pure ({ buffer := buffer, cache := j.cache : PreparedImage T }, fill)) := by
    refine fun same => .ite (fun _ => .error _) fun _ => .same fun to => .bind (sim_flood h.pixels _ _ _ _ _) ?_
    rintro ⟨a, a'⟩ ⟨b, b'⟩ ⟨e, e'⟩
    exact .pure ⟨⟨e, h.cache⟩, e'⟩
  exact .ite (fun _ => .same rest) fun _ => .same rest

theorem sim_free (h : SameImage i j) : Alike (fun p q => p.1 = q.1 ∧ SameImage p.2 q.2) i.free_index j.free_index := by
  unfold PreparedImage.free_index
  dsimp only
  rw [h.cache]
  refine .ite (fun _ => ?_) fun _ => .pure ⟨rfl, h⟩
  rcases j.cache.pop_lru with ⟨_ | ⟨c, reg⟩, cache⟩
  · exact .error _
  · cases reg with
    | Unclaimed color x y n =>
      dsimp only
      refine .same fun _ => .same fun _ => .bind (sim_flood h.pixels _ _ _ _ _) ?_
      rintro ⟨a, a'⟩ ⟨b, b'⟩ ⟨e, -⟩
      exact .pure ⟨rfl, e, rfl⟩
    | _ => exact .pure ⟨rfl, h.pixels, rfl⟩

theorem sim_region (h : SameImage i j) (x y : Nat) : Alike (fun p q => p.1 = q.1 ∧ SameImage p.2 q.2) (i.get_region x y) (j.get_region x y) := by
  unfold PreparedImage.get_region
  refine .bindEq (sim_get h.pixels _ _) fun p => ?_
  cases PixelColor.ofByte p with
  | Discarded r =>
    dsimp only
    rw [h.cache]
    rcases j.cache.get r with ⟨_ | reg, cache⟩
    · exact .error _
    · exact .pure ⟨rfl, h.pixels, rfl⟩
  | Black =>
    dsimp only
    refine .bind (sim_free h) ?_
    rintro ⟨a, a'⟩ ⟨b, b'⟩ ⟨e, e'⟩
    dsimp only at e e' ⊢
    subst e
    refine .bind (sim_repaint e' _ _ _ _) ?_
    rintro ⟨c, c'⟩ ⟨d, d'⟩ ⟨f, f'⟩
    dsimp only at f f' ⊢
    subst f'
    exact .pure ⟨rfl, f.pixels, by dsimp only; rw [f.cache]⟩
  | White => exact .error _
  | _ => exact .pure ⟨rfl, h⟩

theorem sim_is_capstone (h : SameImage i j) (l : LinePosition) (y : Nat) :
    Alike (fun p q => p.1 = q.1 ∧ SameImage p.2 q.2) (is_capstone i l y) (is_capstone j l y) := by
  unfold is_capstone
  refine .bind (sim_region h _ _) ?_
  rintro ⟨a, a'⟩ ⟨b, b'⟩ ⟨e, e'⟩
  dsimp only at e e' ⊢
  subst e
  refine .bind (sim_region e' _ _) ?_
  rintro ⟨c, c'⟩ ⟨d, d'⟩ ⟨f, f'⟩
  dsimp only at f f' ⊢
  subst f
  refine .bindEq (sim_get_at f' _ _) fun _ => .bindEq (sim_get_at f' _ _) fun _ => .ite (fun _ => .pure ⟨rfl, f'⟩) fun _ => ?_
  split
  · exact .same fun _ => .ite (fun _ => .error _) fun _ => .pure ⟨rfl, f'⟩
  · exact .pure ⟨rfl, f'⟩

variable {F : Type} [FloatOps F]

theorem sim_create (h : SameImage i j) (l : LinePosition) (y : Nat) :
    Alike (fun p q => p.1 = q.1 ∧ SameImage p.2 q.2) (create_capstone F i l y) (create_capstone F j l y) := by
  unfold create_capstone
  refine .bind (sim_repaint h _ _ _ _) ?_
  rintro ⟨a, a'⟩ ⟨b, b'⟩ ⟨e, e'⟩
  dsimp only at e e' ⊢
  subst e'
  refine .same fun _ => .bind (sim_repaint e _ _ _ _) ?_
  rintro ⟨c, c'⟩ ⟨d, d'⟩ ⟨f, f'⟩
  dsimp only at f f' ⊢
  subst f'
  split
  · exact .pure ⟨rfl, f⟩
  · exact .same fun _ => .pure ⟨rfl, f⟩

theorem sim_try (h : SameImage i j) (l : Option LinePosition) (y : Nat) (res : List (CapStone F)) :
    Alike (fun p q => SameImage p.1 q.1 ∧ p.2 = q.2) (try_capstone F l y (i, res)) (try_capstone F l y (j, res)) := by
  unfold try_capstone
  split
  · exact .ok ⟨h, rfl⟩
  · refine .bind (sim_is_capstone h _ _) ?_
    rintro ⟨a, a'⟩ ⟨b, b'⟩ ⟨e, e'⟩
    dsimp only at e e' ⊢
    subst e
    refine .ite (fun _ => .pure ⟨e', rfl⟩) fun _ => .bind (sim_create e' _ _) ?_
    rintro ⟨c, c'⟩ ⟨d, d'⟩ ⟨f, f'⟩
    dsimp only at f f' ⊢
    subst f
    cases c with
    | none => exact .pure ⟨f', rfl⟩
    | some c => exact .pure ⟨f', rfl⟩

theorem sim_scan_row (h : SameImage i j) (y : Nat) (res : List (CapStone F)) :
    Alike (fun p q => SameImage p.1 q.1 ∧ p.2 = q.2) (scan_row F y (i, res)) (scan_row F y (j, res)) := by
  unfold scan_row
  dsimp only
  rw [h.pixels.width]
  refine .bindEq (sim_get_at h _ _) fun p => .bind (R := fun p q => p.1 = q.1 ∧ SameImage p.2.1 q.2.1 ∧ p.2.2 = q.2.2) (.forRange ⟨rfl, h, rfl⟩ ?_) ?_
  · rintro x ⟨a, a', a''⟩ ⟨b, b', b''⟩ ⟨e, e', e''⟩
    dsimp only at e e' e''
    subst e e''
    unfold scan_pixel
    refine .bindEq (sim_get_at e' _ _) fun p => .same fun l => .bind (sim_try e' _ _ _) ?_
    rintro ⟨c, c'⟩ ⟨d, d'⟩ ⟨f, f'⟩
    exact .pure ⟨rfl, f, f'⟩
  · rintro ⟨a, a', a''⟩ ⟨b, b', b''⟩ ⟨e, e', e''⟩
    dsimp only at e e' e'' ⊢
    subst e e''
    exact .same fun l => sim_try e' _ _ _

theorem sim_capstones (h : SameImage i j) :
    Alike (fun p q => SameImage p.1 q.1 ∧ p.2 = q.2) (capstones_from_image F i) (capstones_from_image F j) := by
  unfold capstones_from_image
  rw [h.pixels.height]
  refine .forRange ⟨h, rfl⟩ ?_
  rintro y ⟨a, a'⟩ ⟨b, b'⟩ ⟨e, e'⟩
  dsimp only at e e'
  subst e'
  exact sim_scan_row e _ _

theorem sim_cell (h : SameImage i j) (c : Perspective F) (x y : Int) : Alike Eq (fitness_cell i c x y) (fitness_cell j c x y) := by
  unfold fitness_cell
  rw [h.pixels.width, h.pixels.height]
  refine .forList (fun _ a b e => ?_) _ rfl
  subst e
  refine .forList (fun _ a b e => ?_) _ rfl
  subst e
  exact .same fun p => .ite (fun _ => .pure rfl) fun _ => .bindEq (sim_get_point h _) fun _ => .refl _

theorem sim_ring (h : SameImage i j) (c : Perspective F) (x y : Int) (r : Nat) : Alike Eq (fitness_ring i c x y r) (fitness_ring j c x y r) := by
  unfold fitness_ring
  refine .forRange rfl fun _ a b e => ?_
  subst e
  exact .bindEq (sim_cell h _ _ _) fun _ => .bindEq (sim_cell h _ _ _) fun _ => .bindEq (sim_cell h _ _ _) fun _ => .bindEq (sim_cell h _ _ _) fun _ => .refl _

theorem sim_apat (h : SameImage i j) (c : Perspective F) (x y : Int) : Alike Eq (fitness_apat i c x y) (fitness_apat j c x y) :=
  .bindEq (sim_cell h _ _ _) fun _ => .bindEq (sim_ring h _ _ _ _) fun _ => .bindEq (sim_ring h _ _ _ _) fun _ => .refl _

theorem sim_capstone (h : SameImage i j) (c : Perspective F) (x y : Int) : Alike Eq (fitness_capstone i c x y) (fitness_capstone j c x y) :=
  .bindEq (sim_cell h _ _ _) fun _ => .bindEq (sim_ring h _ _ _ _) fun _ => .bindEq (sim_ring h _ _ _ _) fun _ => .bindEq (sim_ring h _ _ _ _) fun _ => .refl _

theorem sim_fitness (h : SameImage i j) (c : Perspective F) (n : Nat) : Alike Eq (fitness_all i c n) (fitness_all j c n) := by
  unfold fitness_all
  refine .same fun _ => .same fun info => .bindEq (.forRange rfl fun _ a b e => ?_) fun _ => ?_
  · subst e
    exact .bindEq (sim_cell h _ _ _) fun _ => .bindEq (sim_cell h _ _ _) fun _ => .refl _
  refine .bindEq (sim_capstone h _ _ _) fun _ => .bindEq (sim_capstone h _ _ _) fun _ => .bindEq (sim_capstone h _ _ _) fun _ => ?_
  refine .bindEq (.forRange rfl fun _ a b e => ?_) fun _ => .forRange rfl fun _ a b e => ?_
  · subst e
    exact .same fun _ => .bindEq (sim_apat h _ _ _) fun _ => .bindEq (sim_apat h _ _ _) fun _ => .refl _
  · subst e
    refine .forRange rfl fun _ a b e => ?_
    subst e
    exact .same fun _ => .same fun _ => .bindEq (sim_apat h _ _ _) fun _ => .refl _

theorem sim_jiggle (h : SameImage i j) (c : Perspective F) (n : Nat) : Alike Eq (jiggle_perspective i c n) (jiggle_perspective j c n) := by
  unfold jiggle_perspective jiggle_with
  refine .bindEq (sim_fitness h _ _) fun best => .bindEq (.forRange rfl fun _ a b e => ?_) fun _ => .refl _
  subst e
  refine .bindEq (.forRange rfl fun _ a b e => ?_) fun _ => .refl _
  subst e
  unfold jiggle_try
  exact .same fun _ => .same fun _ => .same fun _ => .bindEq (sim_fitness h _ _) fun _ => .refl _

theorem sim_setup (h : SameImage i j) (g : CapStoneGroup F) (p : Point) (n : Nat) : Alike Eq (setup_perspective i g p n) (setup_perspective j g p n) := by
  unfold setup_perspective
  refine .same fun _ => ?_
  split
  · exact .pure rfl
  · exact .bindEq (sim_jiggle h _ _) fun _ => .refl _

theorem sim_timing (h : SameImage i j) (p q : Point) : Alike Eq (timing_scan i p q) (timing_scan j p q) := by
  unfold timing_scan
  refine .same fun _ => .bindEq (.forList (fun _ a b e => ?_) _ rfl) fun _ => .refl _
  subst e
  exact .bindEq (sim_get_point h _) fun _ => .refl _

theorem sim_measure (h : SameImage i j) (g : CapStoneGroup F) : Alike Eq (measure_timing_pattern i g) (measure_timing_pattern j g) := by
  unfold measure_timing_pattern
  exact .same fun _ => .same fun _ => .same fun _ => .bindEq (sim_timing h _ _) fun _ => .bindEq (sim_timing h _ _) fun _ => .refl _

theorem sim_align_step (h : SameImage i j) (n d : Nat) (st : Point × Option Point) :
    Alike (fun p q => SameImage p.1 q.1 ∧ p.2 = q.2) (align_step n d (i, st)) (align_step n d (j, st)) := by
  obtain ⟨p, o⟩ := st
  unfold align_step
  dsimp only
  rw [h.pixels.width, h.pixels.height]
  cases o with
  | some q => exact .pure ⟨h, rfl⟩
  | none =>
    dsimp only
    refine .ite (fun _ => .bindEq (sim_get_at h _ _) fun c => .ite (fun _ => .bind (sim_region h _ _) ?_) fun _ => ?_) fun _ => ?_
    · rintro ⟨a, a'⟩ ⟨b, b'⟩ ⟨e, e'⟩
      dsimp only at e e' ⊢
      subst e
      cases a with
      | Unclaimed color x y m =>
        dsimp only
        refine .same fun _ => .ite (fun _ => .pure ⟨e', rfl⟩) fun _ => ?_
        exact .same fun _ => .same fun _ => .same fun _ => .same fun _ => .pure ⟨e', rfl⟩
      | _ => exact .pure ⟨e', rfl⟩
    · exact .same fun _ => .same fun _ => .same fun _ => .same fun _ => .pure ⟨h, rfl⟩
    · exact .same fun _ => .same fun _ => .same fun _ => .same fun _ => .pure ⟨h, rfl⟩

theorem sim_spiral (h : SameImage i j) (p : Point) (n : Nat) :
    Alike (fun p q => SameImage p.1 q.1 ∧ p.2 = q.2) (align_spiral i p n) (align_spiral j p n) := by
  unfold align_spiral
  refine .bind (R := fun p q => SameImage p.1 q.1 ∧ p.2 = q.2) (.whileFuel ?_ ?_ _ ⟨h, rfl⟩) ?_
  · rintro ⟨a, a'⟩ ⟨b, b'⟩ ⟨-, e⟩
    dsimp only at e ⊢
    rw [e]
  · rintro ⟨a, a1, a2, a3, a4⟩ ⟨b, b'⟩ ⟨e, e'⟩
    dsimp only at e e'
    subst e'
    dsimp only
    refine .bind (R := fun p q => SameImage p.1 q.1 ∧ p.2 = q.2) (.forRange ⟨e, rfl⟩ ?_) ?_
    · rintro _ ⟨c, c'⟩ ⟨d, d'⟩ ⟨f, f'⟩
      dsimp only at f f'
      subst f'
      exact sim_align_step f _ _ _
    · rintro ⟨c, c', c''⟩ ⟨d, d'⟩ ⟨f, f'⟩
      dsimp only at f f'
      subst f'
      exact .pure ⟨f, rfl⟩
  · rintro ⟨a, a1, a2, a3, a4⟩ ⟨b, b'⟩ ⟨e, e'⟩
    dsimp only at e e'
    subst e'
    exact .pure ⟨e, rfl⟩

theorem sim_claim (h : SameImage i j) (p : Point) (c0 c2 : CapStone F) (hd : Point) :
    Alike (fun p q => SameImage p.1 q.1 ∧ p.2 = q.2) (claim_alignment i p c0 c2 hd) (claim_alignment j p c0 c2 hd) := by
  unfold claim_alignment find_alignment_pattern
  refine .bind (.same fun _ => sim_spiral h _ _) ?_
  rintro ⟨a, a'⟩ ⟨b, b'⟩ ⟨e, e'⟩
  dsimp only at e e' ⊢
  subst e'
  cases a' with
  | none => exact .pure ⟨e, rfl⟩
  | some q =>
    dsimp only
    refine .same fun _ => .bind (sim_repaint e _ _ _ _) ?_
    rintro ⟨c, c'⟩ ⟨d, d'⟩ ⟨f, f'⟩
    dsimp only at f f'
    subst f'
    exact .pure ⟨f, rfl⟩

theorem sim_group (h : SameImage i j) (g : CapStoneGroup F) :
    Alike (fun p q => SameImage p.1 q.1 ∧ p.2 = q.2) (SkewedGridLocation.from_group i g) (SkewedGridLocation.from_group j g) := by
  unfold SkewedGridLocation.from_group
  refine .same fun _ => .same fun _ => .same fun _ => .same fun _ => .same fun _ => .same fun _ => .same fun _ => .same fun _ => .same fun _ => ?_
  dsimp only
  refine .same fun _ => .same fun _ => .same fun _ => .bindEq (sim_measure h _) fun n => .same fun inter => ?_
  cases inter with
  | none => exact .pure ⟨h, rfl⟩
  | some p =>
    dsimp only
    refine .bind (R := fun p q => SameImage p.1 q.1 ∧ p.2 = q.2) (.ite (fun _ => sim_claim h _ _ _ _) fun _ => .pure ⟨h, rfl⟩) ?_
    rintro ⟨a, a'⟩ ⟨b, b'⟩ ⟨e, e'⟩
    dsimp only at e e' ⊢
    subst e'
    cases a' with
    | none => exact .pure ⟨e, rfl⟩
    | some q =>
      dsimp only
      refine .same fun _ => .ite (fun _ => .pure ⟨e, rfl⟩) fun _ => .bindEq (sim_setup e _ _ _) fun c => ?_
      cases c with
      | none => exact .pure ⟨e, rfl⟩
      | some c => exact .pure ⟨e, rfl⟩

theorem same_clone (h : SameImage i j) : SameImage i.clone j.clone := by
  refine ⟨h.pixels, ?_⟩
  show (PreparedImage.clone i).cache = (PreparedImage.clone j).cache
  unfold PreparedImage.clone
  dsimp only
  rw [h.cache]

theorem sim_groupings (h : SameImage i j) (caps : List (CapStone F)) : Alike Eq (i.find_groupings caps) (j.find_groupings caps) := by
  unfold PreparedImage.find_groupings find_groupings_with
  refine .bindEq (.forRange rfl fun _ a b e => ?_) fun _ => .refl _
  subst e
  refine .ite (fun _ => .pure rfl) fun _ => .same fun pairs => .forList (fun _ a b e => ?_) _ rfl
  subst e
  unfold try_pair
  refine .ite (fun _ => .pure rfl) fun _ => .same fun _ => .same fun _ => .same fun _ => .bindEq ?_ fun _ => .refl _
  refine .bind (sim_group (same_clone h) _) ?_
  rintro ⟨a, a'⟩ ⟨b, b'⟩ ⟨e, e'⟩
  dsimp only at e e' ⊢
  subst e'
  exact .pure rfl

theorem sim_detect (h : SameImage i j) :
    Alike (fun p q => SameImage p.1 q.1 ∧ p.2 = q.2) (i.detect_grids F) (j.detect_grids F) := by
  unfold PreparedImage.detect_grids locate_groups
  refine .bind (sim_capstones h) ?_
  rintro ⟨a, a'⟩ ⟨b, b'⟩ ⟨e, e'⟩
  dsimp only at e e' ⊢
  subst e'
  refine .bindEq (sim_groupings e _) fun groups => .bind (R := fun p q => SameImage p.1 q.1 ∧ p.2 = q.2) (.forList ?_ _ ⟨e, rfl⟩) ?_
  · rintro g ⟨c, c'⟩ ⟨d, d'⟩ ⟨f, f'⟩
    dsimp only at f f' ⊢
    subst f'
    refine .bind (sim_group f _) ?_
    rintro ⟨k, k'⟩ ⟨l, l'⟩ ⟨m, m'⟩
    dsimp only at m m' ⊢
    subst m'
    cases k' with
    | none => exact .pure ⟨m, rfl⟩
    | some k => exact .pure ⟨m, rfl⟩
  · rintro ⟨c, c'⟩ ⟨d, d'⟩ ⟨f, f'⟩
    dsimp only at f f' ⊢
    subst f'
    exact .same fun _ => .pure ⟨f, rfl⟩

theorem sim_bit (h : SameImage i j) (loc : SkewedGridLocation F) (y x : Nat) : Alike Eq ((RefGridImage loc i).bit y x) ((RefGridImage loc j).bit y x) := by
  unfold RefGridImage
  exact .same fun _ => .bindEq (sim_get_point h _) fun _ => .refl _

end

end Rqrr
