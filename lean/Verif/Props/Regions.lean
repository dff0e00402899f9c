import Verif.Proofs.History
import Verif.Proofs.Images
import Verif.Model.Identify

/-!
# C35-C39: region painting, the region cache, clones
-/

namespace Rqrr

open ImageBuffer LawfulImage Spec

variable {S : Type} [ImageBuffer S] [LawfulImage S]

/-- C35. Repainting at a pixel: terminates without panic of its own (whatever the filler does with the rows it is shown), and
recolours exactly the pixels 4-connected to the start through pixels of its colour; image dimensions, all other pixels and the
cache stay. -/
theorem C35_repaint {img : PreparedImage S} (hv : Valid img.buffer) {x y : Nat} (hx : x < width img.buffer)
    (hy : y < height img.buffer) {target : PixelColor} {dst : Byte} (ht : target.toByte = .ok dst)
    (h0 : view img.buffer x y ≠ 0) (hne : view img.buffer x y ≠ dst) :
    ∃ (buf' : S) (rows : List Row),
      (∀ (φ : Type) (update : φ → Row → Run φ) (f : φ), img.repaint_and_apply update x y target f =
        (rows.foldlM update f >>= fun f' => .ok ({ buffer := buf', cache := img.cache }, f'))) ∧
      Valid buf' ∧ width buf' = width img.buffer ∧ height buf' = height img.buffer ∧
      ∀ p : Pos, p.1 < width img.buffer → p.2 < height img.buffer →
        (Reach (HasColor img.buffer (view img.buffer x y)) (x, y) p → view buf' p.1 p.2 = dst) ∧
        (¬ Reach (HasColor img.buffer (view img.buffer x y)) (x, y) p → view buf' p.1 p.2 = view img.buffer p.1 p.2) := by
  obtain ⟨s', rows, F, hrun⟩ := flood_fill_spec hv hx hy hne
  refine ⟨s', rows, repaint_run hv hx hy ht h0 hne hrun, F.valid, F.width, F.height, ?_⟩
  intro p a b
  exact ⟨fun h => F.inside p a b ⟨_, List.mem_singleton_self _, h⟩, fun h => F.outside p a b fun ⟨q, hq, hr⟩ => h (by
    rw [List.mem_singleton] at hq; rwa [hq] at hr)⟩

/-- C35, the other cases: repainting panics on a white pixel and on one that already has the target colour. -/
theorem C35_repaint_panics {img : PreparedImage S} (hv : Valid img.buffer) {x y : Nat} (hx : x < width img.buffer)
    (hy : y < height img.buffer) {target : PixelColor} {dst : Byte} (ht : target.toByte = .ok dst)
    (h : view img.buffer x y = 0 ∨ view img.buffer x y = dst) {φ : Type} (update : φ → Row → Run φ) (f : φ) :
    img.repaint_and_apply update x y target f = .error .panic :=
  repaint_panics hv hx hy ht h update f

/-- C36. The rows shown to the filler partition the repainted region, and are the same for every filler. -/
theorem C36_rows {img : PreparedImage S} (hv : Valid img.buffer) {x y : Nat} (hx : x < width img.buffer)
    (hy : y < height img.buffer) {target : PixelColor} {dst : Byte} (ht : target.toByte = .ok dst)
    (h0 : view img.buffer x y ≠ 0) (hne : view img.buffer x y ≠ dst) :
    ∃ (buf' : S) (rows : List Row),
      (∀ (φ : Type) (update : φ → Row → Run φ) (f : φ), img.repaint_and_apply update x y target f =
        (rows.foldlM update f >>= fun f' => .ok ({ buffer := buf', cache := img.cache }, f'))) ∧
      (∀ p : Pos, (∃ r ∈ rows, inRow r p) ↔ Reach (HasColor img.buffer (view img.buffer x y)) (x, y) p) ∧
      (rows.Pairwise fun r r' => ∀ p, ¬ (inRow r p ∧ inRow r' p)) ∧ ∀ r ∈ rows, r.left ≤ r.right := by
  obtain ⟨s', rows, F, hrun⟩ := flood_fill_spec hv hx hy hne
  refine ⟨s', rows, repaint_run hv hx hy ht h0 hne hrun, ?_, F.rows_disj, F.rows_le⟩
  intro p
  rw [F.rows_iff p]
  simp

/-- C36, counting: the area counter returns the number of pixels of the region. -/
theorem C36_area {img : PreparedImage S} (hv : Valid img.buffer) (hsize : width img.buffer * height img.buffer < 2 ^ 64)
    {x y : Nat} (hx : x < width img.buffer)
    (hy : y < height img.buffer) {target : PixelColor} {dst : Byte} (ht : target.toByte = .ok dst)
    (h0 : view img.buffer x y ≠ 0) (hne : view img.buffer x y ≠ dst) :
    ∃ buf' : S, img.repaint_and_apply AreaCounter.update x y target 0 = .ok ({ buffer := buf', cache := img.cache },
      Set.ncard {p | Reach (HasColor img.buffer (view img.buffer x y)) (x, y) p}) := by
  obtain ⟨s', rows, hrun, hiff, hdis, hle⟩ := C36_rows hv hx hy ht h0 hne
  refine ⟨s', ?_⟩
  have he : Set.ncard {q : Pos | ∃ r ∈ rows, inRow r q} =
      Set.ncard {p | Reach (HasColor img.buffer (view img.buffer x y)) (x, y) p} := by
    congr 1; ext q; exact hiff q
  have hlt : Set.ncard {p | Reach (HasColor img.buffer (view img.buffer x y)) (x, y) p} ≤ width img.buffer * height img.buffer := by
    have hsub : {p | Reach (HasColor img.buffer (view img.buffer x y)) (x, y) p} ⊆
        (↑(colorSet img.buffer (view img.buffer x y)) : Set Pos) := fun q hq => mem_colorSet.2 (Reach.right hq)
    refine (Set.ncard_le_ncard hsub (Finset.finite_toSet _)).trans ?_
    rw [Set.ncard_coe_finset]
    exact colorSet_card_le _ _
  rw [hrun, area_counter_rows rows 0 hle hdis (by omega), he, Nat.zero_add]
  rfl

/-- C37. After any history of queries, claims and clones, a query at a black pixel of the prepared image does not panic;
a claimed region is reported as such; an unclaimed one is reported with its exact number of pixels, a pixel of it, and a
colour which in the resulting image is the colour of exactly the pixels of this region. -/
theorem C37_region_query {img0 img : PreparedImage S} {claims : Pos → Option Claim} (h0 : Fresh img0)
    (h : History img0 claims img) {x y : Nat} (hb : IsBlack img0 (x, y)) :
    ∃ reg img', img.get_region x y = .ok (reg, img') ∧
      match claims (x, y) with
      | some c => reg = c.region
      | none => ∃ color src, reg = .Unclaimed color src.1 src.2 (Set.ncard {q | Reach (IsBlack img0) (x, y) q}) ∧
          Reach (IsBlack img0) (x, y) src ∧
          ∀ q : Pos, q.1 < width img0.buffer → q.2 < height img0.buffer →
            (img'.get_pixel_at q.1 q.2 = .ok color ↔ Reach (IsBlack img0) (x, y) q) := by
  obtain ⟨hI, hw, hh⟩ := history_inv h0 h
  obtain ⟨reg, img', g1, g2, g3, g4, g5, _⟩ := get_region_ok hI hb
  refine ⟨reg, img', g1, ?_⟩
  unfold Answer at g5
  cases hc : claims (x, y) with
  | some c => rw [hc] at g5; exact g5
  | none =>
    rw [hc] at g5
    obtain ⟨color, src, a1, a2, a3⟩ := g5
    refine ⟨color, src, a1, a2, ?_⟩
    intro q q1 q2
    have q1' : q.1 < width img'.buffer := by rw [g2, hw]; exact q1
    have q2' : q.2 < height img'.buffer := by rw [g3, hh]; exact q2
    rw [← a3 q q1' q2']
    unfold PreparedImage.get_pixel_at
    rw [get_ok g4.ok.painted.valid q1' q2', Run.ok_bind]
    exact ⟨fun e => by injection e, fun e => by rw [e]; rfl⟩

/-- C37, claims: after any history, claiming the region of a black pixel in a way it is not yet claimed does not panic (as
long as the filler does not), and the filler sees exactly the pixels of the region. -/
theorem C37_region_claim {img0 img : PreparedImage S} {claims : Pos → Option Claim} (h0 : Fresh img0)
    (h : History img0 claims img) {x y : Nat} (hb : IsBlack img0 (x, y)) (c : Claim) (hc : claims (x, y) ≠ some c) :
    ∃ (img' : PreparedImage S) (rows : List Row),
      (∀ (φ : Type) (update : φ → Row → Run φ) (f : φ), img.repaint_and_apply update x y c.color f =
        (rows.foldlM update f >>= fun f' => .ok (img', f'))) ∧
      ∀ p : Pos, (∃ r ∈ rows, inRow r p) ↔ Reach (IsBlack img0) (x, y) p := by
  obtain ⟨hI, hw, hh⟩ := history_inv h0 h
  obtain ⟨s', rows, _, _, _, _, _, r6, _, _, r9⟩ := claim_ok hI hb c hc
  exact ⟨_, rows, r9, r6⟩

/-- C38. After any history the white pixels are those of the prepared image. -/
theorem C38_white {img0 img : PreparedImage S} {claims : Pos → Option Claim} (h0 : Fresh img0)
    (h : History img0 claims img) {x y : Nat} (hx : x < width img0.buffer) (hy : y < height img0.buffer) :
    width img.buffer = width img0.buffer ∧ height img.buffer = height img0.buffer ∧
      (img.get_pixel_at x y = .ok .White ↔ img0.get_pixel_at x y = .ok .White) := by
  obtain ⟨hI, hw, hh⟩ := history_inv h0 h
  refine ⟨hw, hh, ?_⟩
  have hx' : x < width img.buffer := by rw [hw]; exact hx
  have hy' : y < height img.buffer := by rw [hh]; exact hy
  unfold PreparedImage.get_pixel_at
  rw [get_ok hI.ok.painted.valid hx' hy', get_ok h0.valid hx hy, Run.ok_bind, Run.ok_bind]
  have key : ∀ b : Byte, (pure (PixelColor.ofByte b) : Run PixelColor) = .ok .White ↔ b = 0 := by
    intro b
    constructor
    · intro e
      injection e with e
      exact (ofByte_white b).1 e
    · rintro rfl; rfl
  rw [key, key, hI.ok.painted.white (x, y) hx' hy', (fresh_inv h0).ok.painted.white (x, y) hx hy]

/-- C38, for grids: modules read through any detected grid are those of the prepared image, whatever has been queried and
claimed since, for any floating point arithmetic. -/
theorem C38_grid {F : Type} [FloatOps F] {img0 img : PreparedImage S} {claims : Pos → Option Claim} (h0 : Fresh img0)
    (h : History img0 claims img) (grid : SkewedGridLocation F) : RefGridImage grid img = RefGridImage grid img0 := by
  have key : ∀ p : Point, (img.get_pixel_at_point p >>= fun c => pure (decide (PixelColor.White ≠ c))) =
      (img0.get_pixel_at_point p >>= fun c => pure (decide (PixelColor.White ≠ c)) : Run Bool) := by
    intro p
    obtain ⟨hI, hw, hh⟩ := history_inv h0 h
    unfold PreparedImage.get_pixel_at_point
    rw [hw, hh]
    by_cases w0 : width img0.buffer = 0
    · rw [w0]; rfl
    by_cases h0' : height img0.buffer = 0
    · rw [h0', subU_ok (show 1 ≤ width img0.buffer by omega)]; rfl
    rw [subU_ok (show 1 ≤ width img0.buffer by omega), subU_ok (show 1 ≤ height img0.buffer by omega)]
    simp only [Run.ok_bind]
    have hx := clamp_lt w0 p.x
    have hy := clamp_lt h0' p.y
    rw [get_ok hI.ok.painted.valid (by rw [hw]; exact hx) (by rw [hh]; exact hy), get_ok h0.valid hx hy]
    simp only [Run.ok_bind]
    have hwhite := (C38_white h0 h hx hy).2.2
    unfold PreparedImage.get_pixel_at at hwhite
    rw [get_ok hI.ok.painted.valid (by rw [hw]; exact hx) (by rw [hh]; exact hy), get_ok h0.valid hx hy, Run.ok_bind,
      Run.ok_bind] at hwhite
    show Except.ok _ = Except.ok _
    congr 1
    rw [decide_eq_decide, not_iff_not]
    constructor
    · intro e
      have := hwhite.1 (by rw [← e]; rfl)
      injection this with this
      exact this.symm
    · intro e
      have := hwhite.2 (by rw [← e]; rfl)
      injection this with this
      exact this.symm
  unfold RefGridImage
  congr 1
  funext y x
  cases grid.c.map (FloatOps.add (FloatOps.ofInt (x : Int)) (FloatOps.lit 5 1)) (FloatOps.add (FloatOps.ofInt (y : Int)) (FloatOps.lit 5 1)) with
  | error e => rfl
  | ok p => exact key p

/-- C39. A clone has the same pixels, and every cached region is found in both with the same description. Its eviction order
is reversed. -/
theorem C39_clone {img0 img : PreparedImage S} {claims : Pos → Option Claim} (h0 : Fresh img0)
    (h : History img0 claims img) :
    img.clone.buffer = img.buffer ∧ (∀ k, (img.clone.cache.get k).1 = (img.cache.get k).1) ∧
      img.clone.cache.len = img.cache.len ∧ img.clone.cache.items = img.cache.items.reverse := by
  obtain ⟨hI, hw, hh⟩ := history_inv h0 h
  rw [clone_eq hI]
  refine ⟨rfl, ?_, by simp [LruCache.len], rfl⟩
  intro k
  unfold LruCache.get
  dsimp only
  have hf : img.cache.items.reverse.find? (fun e => e.1 == k) = img.cache.items.find? (fun e => e.1 == k) :=
    find_reverse hI.ok.nodup k
  rw [hf]
  cases img.cache.items.find? (fun e => e.1 == k) <;> rfl

/-- C39, answers: a pixel of a region known to the cache gets the same answer from the clone. -/
theorem C39_same_answer {img0 img : PreparedImage S} {claims : Pos → Option Claim} (h0 : Fresh img0)
    (h : History img0 claims img) {x y : Nat} (hb : IsBlack img0 (x, y)) (hk : img.get_pixel_at x y ≠ .ok .Black) :
    ∃ reg i1 i2, img.get_region x y = .ok (reg, i1) ∧ img.clone.get_region x y = .ok (reg, i2) := by
  obtain ⟨hI, hw, hh⟩ := history_inv h0 h
  obtain ⟨c1, c2, _⟩ := C39_clone h0 h
  obtain ⟨reg, i1, g1, _⟩ := get_region_ok hI hb
  obtain ⟨reg', i2, g2, _⟩ := get_region_ok (clone_ok hI) hb
  refine ⟨reg, i1, i2, g1, ?_⟩
  rw [g2]
  suffices reg' = reg by rw [this]
  obtain ⟨hx, hy⟩ := hI.ok.painted.range _ hb
  dsimp only at hx hy
  unfold PreparedImage.get_pixel_at at hk
  unfold PreparedImage.get_region at g1 g2
  rw [c1] at g2
  rw [get_ok hI.ok.painted.valid hx hy, Run.ok_bind] at g1 g2 hk
  revert g1 g2 hk
  cases PixelColor.ofByte (view img.buffer x y) with
  | White => intro _ g; cases g
  | Black => intro hk; exact absurd rfl hk
  | CapStone => intro _ g g'; cases g; cases g'; rfl
  | Alignment => intro _ g g'; cases g; cases g'; rfl
  | Tmp1 => intro _ g g'; cases g; cases g'; rfl
  | Discarded r =>
    intro _ g g'
    dsimp only at g g'
    have := c2 r
    revert g g' this
    rcases img.clone.cache.get r with ⟨a, ca⟩
    rcases img.cache.get r with ⟨b, cb⟩
    cases a <;> cases b <;> intro g g' this <;> cases g <;> cases g'
    injection this

/-! ### Concrete cases -/

/-- The image of the unit test in src/prepare.rs:566-580, with one more row:
```
# . #
# # #
. . .
# # .
``` -/
def testImage : PreparedImage BasicImageBuffer where
  buffer := { w := 3, h := 4, pixels := #[1, 0, 1, 1, 1, 1, 0, 0, 0, 1, 1, 0] }
  cache := .new 251

theorem testImage_fresh : Fresh testImage where
  valid := show testImage.buffer.pixels.size = _ by decide
  bw := by
    intro x y hx hy
    have hx' : x < 3 := hx
    have hy' : y < 4 := hy
    have : ∀ y < 4, ∀ x < 3, testImage.buffer.pixels.getD (y * 3 + x) 0 = 0 ∨ testImage.buffer.pixels.getD (y * 3 + x) 0 = 1 := by
      decide
    exact this y hy' x hx'
  cache := rfl
  size := by decide

example : IsBlack testImage (0, 0) ∧ IsBlack testImage (1, 3) ∧ ¬ IsBlack testImage (1, 0) :=
  ⟨⟨by decide, by decide, by decide⟩, ⟨by decide, by decide, by decide⟩, fun h => absurd h.2.2 (by decide)⟩

/-- The outcome of a run as data: the answer and the pixels. -/
def outcome (r : Run (ColoredRegion × PreparedImage BasicImageBuffer)) : Option (ColoredRegion × List Byte) :=
  match r with
  | .ok (reg, img) => some (reg, img.buffer.pixels.toList)
  | .error _ => none

/-- A history on it: two queries and a claim. -/
def testHistory : Run (ColoredRegion × PreparedImage BasicImageBuffer) := do
  let (_, img) ← testImage.get_region 2 0
  let (_, img) ← img.get_region 0 3
  let (img, _) ← img.repaint_and_apply (fun (_ : Unit) _ => .ok ()) 0 1 .CapStone ()
  img.get_region 1 3

example : outcome (testImage.get_region 2 0) =
    some (.Unclaimed (.Discarded 0) 2 0 5, [5, 0, 5, 5, 5, 5, 0, 0, 0, 1, 1, 0]) := by decide +kernel
example : outcome testHistory =
    some (.Unclaimed (.Discarded 1) 0 3 2, [2, 0, 2, 2, 2, 2, 0, 0, 0, 6, 6, 0]) := by decide +kernel
example : outcome (testImage.get_region 1 0) = none := by decide +kernel

/-- More regions than the cache holds: 253 isolated pixels, all queried, and the first one again. -/
def manyRegions : PreparedImage BasicImageBuffer where
  buffer := { w := 506, h := 1, pixels := ((List.range 506).map fun i => if i % 2 = 0 then 1 else 0).toArray }
  cache := .new 251

def manyQueries : Run (ColoredRegion × PreparedImage BasicImageBuffer) := do
  let img ← forRange 0 253 manyRegions fun i img => do
    let (_, img) ← img.get_region (2 * i) 0
    pure img
  img.get_region 0 0

example : (outcome manyQueries).map (fun r => (r.1, r.2.take 7)) =
    some (.Unclaimed (.Discarded 2) 0 0 1, [7, 0, 1, 0, 1, 0, 8]) := by decide +kernel

end Rqrr
