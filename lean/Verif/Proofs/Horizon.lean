import Verif.Proofs.Jiggle
import Verif.Proofs.Partial
import Verif.Model.Identify
import Verif.Props.Identify

/-!
# Locating a grid that fits perfectly

The fitness of a transform is bounded, so a transform of the greatest fitness is not refined.
-/

namespace Rqrr

open FloatOps ImageBuffer

variable {S : Type} [ImageBuffer S] {F : Type} [FloatOps F]

theorem fitness_cell_le {img : PreparedImage S} {p : Perspective F} {x y s : Int} (h : fitness_cell img p x y = .ok s) :
    -9 ≤ s ∧ s ≤ 9 := by
  unfold fitness_cell at h
  have inner : ∀ (ov : F) (t t' : Int), forList (fun ou score => do
      let p ← p.map (ofInt x + ou) (ofInt y + ov)
      if p.y < 0 ∨ height img.buffer ≤ asUsize p.y ∨ p.x < 0 ∨ width img.buffer ≤ asUsize p.x then pure score
      else do
        let c ← img.get_pixel_at_point p
        if PixelColor.White ≠ c then pure (score + 1) else pure (score - 1)) (offsets F) t = (.ok t' : Run Int) →
      t - 3 ≤ t' ∧ t' ≤ t + 3 := by
    intro ov t t' ht
    have := forList_inv (fun (done : List F) (v : Int) => t - done.length ≤ v ∧ v ≤ t + done.length) (done := []) (by simp) (by
      intro ou done v v' _ hv hs
      obtain ⟨q, -, hs⟩ := Run.bind_eq_ok.1 hs
      rw [List.length_append, List.length_singleton]
      push_cast
      split at hs
      · cases hs; omega
      · obtain ⟨c, -, hs⟩ := Run.bind_eq_ok.1 hs
        split at hs <;> cases hs <;> omega) ht
    exact this
  have := forList_inv (fun (done : List F) (v : Int) => -(3 * (done.length : Int)) ≤ v ∧ v ≤ 3 * (done.length : Int)) (done := []) (by simp) (by
    intro ov done v v' _ hv hs
    have := inner ov v v' hs
    rw [List.length_append, List.length_singleton]
    push_cast
    omega) h
  exact this

theorem fitness_ring_le {img : PreparedImage S} {p : Perspective F} {cx cy s : Int} {r : Nat} (h : fitness_ring img p cx cy r = .ok s) :
    -(72 * (r : Int)) ≤ s ∧ s ≤ 72 * (r : Int) := by
  unfold fitness_ring at h
  have := forRange_inv (fun i (v : Int) => -(36 * (i : Int)) ≤ v ∧ v ≤ 36 * (i : Int)) (Nat.zero_le _) (by simp) (by
    intro i v v' _ _ hv hs
    obtain ⟨s1, h1, hs⟩ := Run.bind_eq_ok.1 hs
    obtain ⟨s2, h2, hs⟩ := Run.bind_eq_ok.1 hs
    obtain ⟨s3, h3, hs⟩ := Run.bind_eq_ok.1 hs
    obtain ⟨s4, h4, hs⟩ := Run.bind_eq_ok.1 hs
    cases hs
    have := fitness_cell_le h1
    have := fitness_cell_le h2
    have := fitness_cell_le h3
    have := fitness_cell_le h4
    push_cast
    omega) h
  push_cast at this
  omega

theorem fitness_capstone_le {img : PreparedImage S} {p : Perspective F} {x y s : Int} (h : fitness_capstone img p x y = .ok s) :
    s ≤ 441 := by
  unfold fitness_capstone at h
  obtain ⟨s1, h1, h⟩ := Run.bind_eq_ok.1 h
  obtain ⟨s2, h2, h⟩ := Run.bind_eq_ok.1 h
  obtain ⟨s3, h3, h⟩ := Run.bind_eq_ok.1 h
  obtain ⟨s4, h4, h⟩ := Run.bind_eq_ok.1 h
  cases h
  have := fitness_cell_le h1
  have := fitness_ring_le h2
  have := fitness_ring_le h3
  have := fitness_ring_le h4
  push_cast at *
  omega

/-- No transform fits the smallest size better than this. -/
theorem fitness_17_le {img : PreparedImage S} {p : Perspective F} {s : Int} (h : fitness_all img p 17 = .ok s) : s ≤ 1377 := by
  unfold fitness_all at h
  obtain ⟨v, hv, h⟩ := Run.bind_eq_ok.1 h
  cases hv
  obtain ⟨info, hi, h⟩ := Run.bind_eq_ok.1 h
  obtain ⟨t, ht, h⟩ := Run.bind_eq_ok.1 h
  obtain ⟨c1, h1, h⟩ := Run.bind_eq_ok.1 h
  obtain ⟨c2, h2, h⟩ := Run.bind_eq_ok.1 h
  obtain ⟨c3, h3, h⟩ := Run.bind_eq_ok.1 h
  have e : (info.apat.takeWhile (· != 0)).length = 0 := by
    have : idx VERSION_DATA_BASE 0 = .ok info := hi
    cases this
    decide
  dsimp only at h
  rw [e] at h
  have h' : (Except.ok (t + c1 + c2 + c3) : Run Int) = .ok s := h
  cases h'
  have := forRange_inv (fun i (v : Int) => v ≤ 18 * (i : Int)) (Nat.zero_le _) (by simp) (by
    intro i v v' _ _ hv hs
    obtain ⟨s1, h1, hs⟩ := Run.bind_eq_ok.1 hs
    obtain ⟨s2, h2, hs⟩ := Run.bind_eq_ok.1 hs
    have := fitness_cell_le h1
    have := fitness_cell_le h2
    cases hs
    push_cast
    split <;> omega) ht
  have := fitness_capstone_le h1
  have := fitness_capstone_le h2
  have := fitness_capstone_le h3
  push_cast at *
  omega

/-- The size of the grid of a group, and the four points of which the transform is made before its refinement. -/
def beforeRefining (img : PreparedImage S) (group : CapStoneGroup F) : Run (Nat × Option (Vector Point 4)) := do
  let h0 := group.a.center
  let hdx ← subI group.c.center.x group.a.center.x
  let hdy ← subI group.c.center.y group.a.center.y
  let t1 ← mulI (← subI group.b.center.x h0.x) (← negI hdy)
  let t2 ← mulI (← subI group.b.center.y h0.y) hdx
  let t ← addI t1 t2
  let (group, hd) ← (if t > 0 then do
      let nx ← negI hdx
      let ny ← negI hdy
      pure (({ a := group.c, b := group.b, c := group.a } : CapStoneGroup F), ({ x := nx, y := ny } : Point))
    else pure (group, ({ x := hdx, y := hdy } : Point)) : Run (CapStoneGroup F × Point))
  let ga ← rotate_capstone group.a h0 hd
  let gb ← rotate_capstone group.b h0 hd
  let gc ← rotate_capstone group.c h0 hd
  let grid_size ← measure_timing_pattern img { a := ga, b := gb, c := gc }
  let inter ← line_intersect ga.corners[0] ga.corners[1] gc.corners[0] gc.corners[3]
  match inter with
  | none => pure (grid_size, none)
  | some align => pure (grid_size, some #v[gb.corners[0], gc.corners[0], align, ga.corners[0]])

/-- A grid of the smallest size that fits perfectly is located as it is. -/
theorem from_group_perfect {img : PreparedImage S} {group : CapStoneGroup F} {rect : Vector Point 4} {p : Perspective F}
    {r : PreparedImage S × Option (SkewedGridLocation F)} (h : SkewedGridLocation.from_group img group = .ok r)
    (hp : beforeRefining img group = .ok (17, some rect)) (hc : Perspective.create (F := F) rect (ofInt 10) (ofInt 10) = some p)
    (hf : fitness_all img p 17 = .ok 1377) :
    r = (img, some { grid_size := 17, c := p }) := by
  unfold SkewedGridLocation.from_group at h
  unfold beforeRefining at hp
  dsimp only at h hp
  obtain ⟨hdx, e1, h⟩ := Run.bind_eq_ok.1 h
  rw [e1, Run.ok_bind] at hp
  obtain ⟨hdy, e2, h⟩ := Run.bind_eq_ok.1 h
  rw [e2, Run.ok_bind] at hp
  obtain ⟨k1, e3, h⟩ := Run.bind_eq_ok.1 h
  rw [e3, Run.ok_bind] at hp
  obtain ⟨k2, e4, h⟩ := Run.bind_eq_ok.1 h
  rw [e4, Run.ok_bind] at hp
  obtain ⟨k3, e5, h⟩ := Run.bind_eq_ok.1 h
  rw [e5, Run.ok_bind] at hp
  obtain ⟨k4, e6, h⟩ := Run.bind_eq_ok.1 h
  rw [e6, Run.ok_bind] at hp
  obtain ⟨k5, e7, h⟩ := Run.bind_eq_ok.1 h
  rw [e7, Run.ok_bind] at hp
  obtain ⟨k6, e8, h⟩ := Run.bind_eq_ok.1 h
  rw [e8, Run.ok_bind] at hp
  obtain ⟨⟨g, hd⟩, e9, h⟩ := Run.bind_eq_ok.1 h
  rw [← e4, e9, Run.ok_bind] at hp
  dsimp only at h hp
  obtain ⟨ga, ea, h⟩ := Run.bind_eq_ok.1 h
  rw [ea, Run.ok_bind] at hp
  obtain ⟨gb, eb, h⟩ := Run.bind_eq_ok.1 h
  rw [eb, Run.ok_bind] at hp
  obtain ⟨gc, ec, h⟩ := Run.bind_eq_ok.1 h
  rw [ec, Run.ok_bind] at hp
  obtain ⟨n, en, h⟩ := Run.bind_eq_ok.1 h
  rw [en, Run.ok_bind] at hp
  obtain ⟨inter, ei, h⟩ := Run.bind_eq_ok.1 h
  rw [ei, Run.ok_bind] at hp
  cases inter with
  | none => cases hp
  | some align =>
    dsimp only at h hp
    cases hp
    rw [if_neg (by omega)] at h
    obtain ⟨⟨i', al'⟩, e, h⟩ := Run.bind_eq_ok.1 h
    cases e
    dsimp only at h
    obtain ⟨v, ev, h⟩ := Run.bind_eq_ok.1 h
    cases ev
    rw [if_neg (by decide)] at h
    obtain ⟨c, es, h⟩ := Run.bind_eq_ok.1 h
    unfold setup_perspective at es
    obtain ⟨m, em, es⟩ := Run.bind_eq_ok.1 es
    cases em
    dsimp only at es
    rw [show (ofInt ((17 - 7 : Nat) : Int) : F) = ofInt 10 from rfl, hc] at es
    dsimp only at es
    obtain ⟨q, eq, es⟩ := Run.bind_eq_ok.1 es
    cases es
    cases h
    obtain ⟨b, b', h1, h2, h3⟩ := C49_perspective eq
    rw [hf] at h1
    cases h1
    rcases h3 with rfl | h3
    · rfl
    · have := fitness_17_le h2
      omega

theorem beforeRefining_clone (img : PreparedImage S) (group : CapStoneGroup F) : beforeRefining img.clone group = beforeRefining img group := rfl

theorem fitness_clone (img : PreparedImage S) (p : Perspective F) (n : Nat) : fitness_all img.clone p n = fitness_all img p n := rfl

end Rqrr
