import Verif.Proofs.Regions
import Mathlib.Data.List.Nodup
import Mathlib.Data.List.Perm.Subperm
import Mathlib.Tactic.Push

/-!
# The region cache: invariant and its preservation
-/

namespace Rqrr

open ImageBuffer LawfulImage Spec

variable {S : Type} [ImageBuffer S] [LawfulImage S]

/-- The claim expressed by a colour. -/
def claimOf (b : Byte) : Option Claim :=
  if b = 2 then some .CapStone else if b = 3 then some .Alignment else if b = 4 then some .Tmp1 else none

/-- A cache entry describes one region, and its colour occurs only there. -/
def EntryOk (B : Pos → Prop) (s : S) (e : Byte × ColoredRegion) : Prop :=
  ∃ sx sy, e.2 = .Unclaimed (.Discarded e.1) sx sy (area B (sx, sy)) ∧ B (sx, sy) ∧
    ∀ p, B p → (view s p.1 p.2).toNat = e.1.toNat + 5 → Reach B (sx, sy) p

/-- The invariant without the key discipline. -/
structure CacheOk (B : Pos → Prop) (claims : Pos → Option Claim) (s : S) (items : List (Byte × ColoredRegion)) : Prop where
  painted : Painted B s
  size : width s * height s < 2 ^ 64
  nodup : (items.map Prod.fst).Nodup
  entry : ∀ e ∈ items, EntryOk B s e
  known : ∀ p, B p → 5 ≤ (view s p.1 p.2).toNat → ∃ e ∈ items, e.1.toNat + 5 = (view s p.1 p.2).toNat
  claim : ∀ p, B p → claims p = claimOf (view s p.1 p.2)

/-- The invariant. -/
structure RegInv (B : Pos → Prop) (claims : Pos → Option Claim) (img : PreparedImage S) : Prop where
  ok : CacheOk B claims img.buffer img.cache.items
  cap : img.cache.cap = 251
  len : img.cache.items.length ≤ 251
  keys : ∀ e ∈ img.cache.items, e.1.toNat < img.cache.items.length

theorem area_congr {B : Pos → Prop} {p q : Pos} (h : Reach B p q) : area B p = area B q := by
  unfold area
  congr 1
  ext r
  exact ⟨fun h' => h.symm.trans h', fun h' => h.trans h'⟩

theorem Painted.of_same {B : Pos → Prop} {s s' : S} (h : Painted B s) (hv : Valid s') (hw : width s' = width s)
    (hh : height s' = height s) (he : ∀ p : Pos, p.1 < width s → p.2 < height s → view s' p.1 p.2 = view s p.1 p.2) :
    Painted B s' where
  valid := hv
  range := by rw [hw, hh]; exact h.range
  white := fun p a b => by
    rw [hw] at a
    rw [hh] at b
    rw [he p a b]; exact h.white p a b
  const := fun p q hp hq ha => by
    rw [he p (h.range p hp).1 (h.range p hp).2, he q (h.range q hq).1 (h.range q hq).2]
    exact h.const p q hp hq ha

theorem foldlM_unit (rows : List Row) : rows.foldlM (fun (_ : Unit) _ => (.ok () : Run Unit)) () = .ok () := by
  induction rows with
  | nil => rfl
  | cons r rows ih => rw [List.foldlM_cons, Run.ok_bind]; exact ih

theorem discarded_toByte {c : Byte} (hc : c.toNat < 251) : (PixelColor.Discarded c).toByte = .ok (c + 5) := by
  show (if c.toNat + 5 < 256 then _ else _) = _
  rw [if_pos (by omega)]

theorem add_five {c : Byte} (hc : c.toNat < 251) : (c + 5 : Byte).toNat = c.toNat + 5 := by
  rw [BitVec.toNat_add]; show (c.toNat + 5) % 256 = _; omega

theorem sub_five {v : Byte} (hv : 5 ≤ v.toNat) : (v - 5 : Byte).toNat = v.toNat - 5 := by
  have := v.isLt
  rw [BitVec.toNat_sub]
  show (256 - 5 + v.toNat) % 256 = _
  omega

theorem ofByte_ge {v : Byte} (hv : 5 ≤ v.toNat) : PixelColor.ofByte v = .Discarded (v - 5) := by
  unfold PixelColor.ofByte
  rw [if_neg (byte_ne (by show _ ≠ 0; omega)), if_neg (byte_ne (by show _ ≠ 1; omega)),
    if_neg (byte_ne (by show _ ≠ 2; omega)), if_neg (byte_ne (by show _ ≠ 3; omega)),
    if_neg (byte_ne (by show _ ≠ 4; omega))]

theorem ofByte_discarded {v r : Byte} (hr : r.toNat < 251) : PixelColor.ofByte v = .Discarded r ↔ v = r + 5 := by
  constructor
  · intro h
    by_cases hv : 5 ≤ v.toNat
    · rw [ofByte_ge hv] at h
      injection h with h
      apply BitVec.eq_of_toNat_eq
      rw [add_five hr, ← h, sub_five hv]
      omega
    · exfalso
      unfold PixelColor.ofByte at h
      split at h <;> try contradiction
      split at h <;> try contradiction
      split at h <;> try contradiction
      split at h <;> try contradiction
      split at h <;> try contradiction
      rename_i h0 h1 h2 h3 h4
      have g0 : v.toNat ≠ 0 := fun e => h0 (BitVec.eq_of_toNat_eq e)
      have g1 : v.toNat ≠ 1 := fun e => h1 (BitVec.eq_of_toNat_eq e)
      have g2 : v.toNat ≠ 2 := fun e => h2 (BitVec.eq_of_toNat_eq e)
      have g3 : v.toNat ≠ 3 := fun e => h3 (BitVec.eq_of_toNat_eq e)
      have g4 : v.toNat ≠ 4 := fun e => h4 (BitVec.eq_of_toNat_eq e)
      omega
  · rintro rfl
    rw [ofByte_ge (by rw [add_five hr]; omega)]
    congr 1
    apply BitVec.eq_of_toNat_eq
    rw [sub_five (by rw [add_five hr]; omega), add_five hr]
    omega

/-! ### Lists with distinct keys -/

theorem find_key {V : Type} {items : List (Byte × V)} {e : Byte × V} (he : e ∈ items) :
    ∃ e', items.find? (fun a => a.1 == e.1) = some e' ∧ e' ∈ items ∧ e'.1 = e.1 := by
  cases h : items.find? (fun a => a.1 == e.1) with
  | none =>
    rw [List.find?_eq_none] at h
    exact absurd (beq_self_eq_true e.1) (h e he)
  | some e' => exact ⟨e', rfl, List.mem_of_find?_eq_some h, by simpa using List.find?_some h⟩

theorem get_perm {V : Type} {items : List (Byte × V)} (hn : (items.map Prod.fst).Nodup) {e : Byte × V} (he : e ∈ items) :
    (e :: items.filter fun a => a.1 != e.1).Perm items := by
  have hni : items.Nodup := hn.of_map
  rw [List.perm_ext_iff_of_nodup ?_ hni]
  · intro a
    rw [List.mem_cons, List.mem_filter]
    constructor
    · rintro (rfl | h)
      · exact he
      · exact h.1
    · intro ha
      by_cases e1 : a.1 = e.1
      · exact .inl (List.inj_on_of_nodup_map hn ha he e1)
      · exact .inr ⟨ha, by simpa using e1⟩
  · rw [List.nodup_cons]
    refine ⟨?_, hni.filter _⟩
    rw [List.mem_filter]
    rintro ⟨_, h⟩
    simp at h

/-! ### Preservation -/

theorem CacheOk.perm {B : Pos → Prop} {claims : Pos → Option Claim} {s : S} {items items' : List (Byte × ColoredRegion)}
    (h : CacheOk B claims s items) (hp : items'.Perm items) : CacheOk B claims s items' where
  painted := h.painted
  size := h.size
  nodup := (hp.map _).nodup_iff.2 h.nodup
  entry := fun e he => h.entry e (hp.mem_iff.1 he)
  known := fun p hb hv => by
    obtain ⟨e, he, h2⟩ := h.known p hb hv
    exact ⟨e, hp.mem_iff.2 he, h2⟩
  claim := h.claim

/-- The index for a new region: always available and below 251; afterwards no pixel has the colour of this index. -/
theorem free_index_ok {B : Pos → Prop} {claims : Pos → Option Claim} {img : PreparedImage S} (h : RegInv B claims img) :
    ∃ c img1, img.free_index = .ok (c, img1) ∧ width img1.buffer = width img.buffer ∧ height img1.buffer = height img.buffer ∧
      img1.cache.cap = 251 ∧ CacheOk B claims img1.buffer img1.cache.items ∧ img1.cache.items.length < 251 ∧
      (∀ e ∈ img1.cache.items, e.1 ≠ c ∧ e.1.toNat < img1.cache.items.length + 1) ∧
      c.toNat < img1.cache.items.length + 1 ∧
      (∀ p, B p → (view img1.buffer p.1 p.2).toNat ≠ c.toNat + 5) ∧
      (∀ p, B p → (view img.buffer p.1 p.2).toNat < 5 → view img1.buffer p.1 p.2 = view img.buffer p.1 p.2) ∧
      (∀ e ∈ img.cache.items.head?, e ∈ img1.cache.items ∧
        ∀ p, B p → (view img.buffer p.1 p.2).toNat = e.1.toNat + 5 → view img1.buffer p.1 p.2 = view img.buffer p.1 p.2) := by
  obtain ⟨hok, hcap, hlen, hkeys⟩ := h
  by_cases hfull : img.cache.items.length = 251
  · -- full: evict the last entry
    obtain ⟨init, last, hsplit⟩ : ∃ init last, img.cache.items = init ++ [last] := by
      rcases List.eq_nil_or_concat img.cache.items with h0 | ⟨L, b, hL⟩
      · rw [h0] at hfull; simp at hfull
      · exact ⟨L, b, by simpa using hL⟩
    obtain ⟨c, reg⟩ := last
    have hmem : (c, reg) ∈ img.cache.items := by rw [hsplit]; simp
    obtain ⟨sx, sy, hreg, hsrc, honly⟩ := hok.entry _ hmem
    dsimp only at hreg hsrc honly
    have hc : c.toNat < 251 := by have := hkeys _ hmem; rw [hfull] at this; exact this
    have hl : init.length = 250 := by rw [hsplit] at hfull; simpa using hfull
    obtain ⟨hx, hy⟩ := hok.painted.range _ hsrc
    dsimp only at hx hy
    have hc5 : (c + 5 : Byte).toNat = c.toNat + 5 := by
      rw [BitVec.toNat_add]; show (c.toNat + 5) % 256 = _; omega
    have hne : (c + 5 : Byte) ≠ 1 := byte_ne (by rw [hc5]; show _ ≠ 1; omega)
    have hne0 : (c + 5 : Byte) ≠ 0 := byte_ne (by rw [hc5]; show _ ≠ 0; omega)
    obtain ⟨s', rows, F, hrun⟩ := flood_fill_spec hok.painted.valid hx hy hne
    have hnd := hok.nodup
    rw [hsplit, List.map_append, List.nodup_append] at hnd
    have hcn : ∀ e ∈ init, e.1 ≠ c := fun e he => hnd.2.2 e.1 (List.mem_map_of_mem he) c (by simp)
    have hfacts : Painted B s' ∧ (∀ p, B p → view s' p.1 p.2 = view img.buffer p.1 p.2 ∧
          (view img.buffer p.1 p.2).toNat ≠ c.toNat + 5 ∨
          view s' p.1 p.2 = 1 ∧ (view img.buffer p.1 p.2).toNat = c.toNat + 5) := by
      by_cases hcol : view img.buffer sx sy = c + 5
      · obtain ⟨h1, _, h3, h4⟩ := hok.painted.paint ⟨hx, hy, hcol⟩ hne0 (by decide) F
        refine ⟨h1, ?_⟩
        intro p hp
        by_cases hr : Reach B (sx, sy) p
        · right
          refine ⟨h3 p hr, ?_⟩
          have := hok.painted.reach_color hr
          dsimp only at this
          rw [this, hcol, hc5]
        · left
          refine ⟨h4 p (hok.painted.range p hp).1 (hok.painted.range p hp).2 hr, ?_⟩
          exact fun e => hr (honly p hp e)
      · have hout : ∀ p : Pos, p.1 < width img.buffer → p.2 < height img.buffer →
            view s' p.1 p.2 = view img.buffer p.1 p.2 := by
          intro p a b
          refine F.outside p a b ?_
          rintro ⟨q, hq, hr⟩
          rw [List.mem_singleton] at hq
          subst hq
          exact hcol hr.left.2.2
        refine ⟨hok.painted.of_same F.valid F.width F.height hout, ?_⟩
        intro p hp
        left
        refine ⟨hout p (hok.painted.range p hp).1 (hok.painted.range p hp).2, ?_⟩
        intro e
        have hr := hok.painted.reach_color (honly p hp e)
        dsimp only at hr
        refine hcol ?_
        rw [← hr]
        apply BitVec.eq_of_toNat_eq
        rw [e, hc5]
    obtain ⟨hP, hview⟩ := hfacts
    refine ⟨c, { buffer := s', cache := { img.cache with items := init } }, ?_, F.width, F.height, hcap, ?_, ?_, ?_, ?_, ?_, ?_, ?_⟩
    · unfold PreparedImage.free_index LruCache.len LruCache.pop_lru
      rw [if_pos (by rw [hfull, hcap])]
      simp only [hsplit, List.getLast?_append, List.getLast?_singleton, Option.some_or, List.dropLast_concat, hreg]
      have e1 := discarded_toByte (c := c) hc
      have e2 : PixelColor.Black.toByte = .ok 1 := rfl
      rw [e1, Run.ok_bind, e2, Run.ok_bind, hrun, foldlM_unit, Run.ok_bind, Run.ok_bind]
      rfl
    · refine ⟨hP, by rw [F.width, F.height]; exact hok.size, hnd.1, ?_, ?_, ?_⟩
      · intro e he
        obtain ⟨ex, ey, g1, g2, g3⟩ := hok.entry e (by rw [hsplit]; simp [show e ∈ init from he])
        refine ⟨ex, ey, g1, g2, ?_⟩
        intro p hp hv
        rcases hview p hp with ⟨hh, _⟩ | ⟨hh, _⟩
        · exact g3 p hp (by rw [← hh]; exact hv)
        · exfalso
          rw [hh] at hv
          have : (1 : Byte).toNat = 1 := rfl
          omega
      · intro p hp hv
        rcases hview p hp with ⟨hh, hh2⟩ | ⟨hh, _⟩
        · obtain ⟨e, he, he2⟩ := hok.known p hp (by rw [← hh]; exact hv)
          rw [hsplit] at he
          rcases List.mem_append.1 he with he | he
          · exact ⟨e, he, by rw [he2, hh]⟩
          · rw [List.mem_singleton] at he
            subst he
            dsimp only at he2
            exact absurd he2.symm hh2
        · exfalso
          rw [hh] at hv
          have : (1 : Byte).toNat = 1 := rfl
          omega
      · intro p hp
        rw [hok.claim p hp]
        rcases hview p hp with ⟨hh, _⟩ | ⟨hh, hh2⟩
        · rw [hh]
        · rw [hh]
          unfold claimOf
          rw [if_neg (byte_ne (by rw [hh2]; show _ ≠ 2; omega)), if_neg (byte_ne (by rw [hh2]; show _ ≠ 3; omega)),
            if_neg (byte_ne (by rw [hh2]; show _ ≠ 4; omega))]
          rfl
    · show init.length < 251
      omega
    · intro e he
      refine ⟨hcn e he, ?_⟩
      have := hkeys e (by rw [hsplit]; simp [show e ∈ init from he])
      show e.1.toNat < init.length + 1
      omega
    · show c.toNat < init.length + 1
      omega
    · intro p hp
      rcases hview p hp with ⟨hh, hh2⟩ | ⟨hh, hh2⟩
      · dsimp only; rw [hh]; exact hh2
      · dsimp only; rw [hh]
        have : (1 : Byte).toNat = 1 := rfl
        omega
    · intro p hp hv
      rcases hview p hp with ⟨hh, _⟩ | ⟨hh, hh2⟩
      · exact hh
      · omega
    · intro e he
      have hei : e ∈ init := by
        rw [hsplit] at he
        cases init with
        | nil => simp at hl
        | cons a init => simp at he; simp [he]
      refine ⟨hei, ?_⟩
      intro p hp hv
      rcases hview p hp with ⟨hh, _⟩ | ⟨hh, hh2⟩
      · exact hh
      · exact absurd (BitVec.eq_of_toNat_eq (by omega)) (hcn e hei)
  · have hlt : img.cache.items.length < 251 := by omega
    have hbv : (BitVec.ofNat 8 img.cache.items.length).toNat = img.cache.items.length := by
      rw [BitVec.toNat_ofNat]; exact Nat.mod_eq_of_lt (by omega)
    refine ⟨BitVec.ofNat 8 img.cache.items.length, img, ?_, rfl, rfl, hcap, hok, hlt, ?_, ?_, ?_, fun p _ _ => rfl,
      fun e he => ⟨List.mem_of_mem_head? he, fun p _ _ => rfl⟩⟩
    · unfold PreparedImage.free_index LruCache.len
      rw [if_neg (by rw [hcap]; exact hfull)]
      rfl
    · intro e he
      have := hkeys e he
      exact ⟨byte_ne (by rw [hbv]; omega), by omega⟩
    · rw [hbv]; omega
    · intro p hp hv
      rw [hbv] at hv
      obtain ⟨e, he, he2⟩ := hok.known p hp (by omega)
      have := hkeys e he
      omega

/-- What a query at `p` must answer. -/
def Answer (B : Pos → Prop) (claims : Pos → Option Claim) (s : S) (p : Pos) (reg : ColoredRegion) : Prop :=
  match claims p with
  | some c => reg = c.region
  | none => ∃ color src, reg = .Unclaimed color src.1 src.2 (area B p) ∧ Reach B p src ∧
      ∀ q : Pos, q.1 < width s → q.2 < height s → (PixelColor.ofByte (view s q.1 q.2) = color ↔ Reach B p q)

/-- The region in the front of the cache. -/
def AtFront (img : PreparedImage S) (p : Pos) (reg : ColoredRegion) : Prop :=
  ∃ r : Byte, img.cache.items.head? = some (r, reg) ∧ (view img.buffer p.1 p.2).toNat = r.toNat + 5

theorem Answer.of_entry {B : Pos → Prop} {claims : Pos → Option Claim} {s : S} {items : List (Byte × ColoredRegion)}
    (h : CacheOk B claims s items) {e : Byte × ColoredRegion} (he : e ∈ items) (hlt : e.1.toNat < 251) {p : Pos} (hp : B p)
    (hv : (view s p.1 p.2).toNat = e.1.toNat + 5) : Answer B claims s p e.2 := by
  obtain ⟨sx, sy, g1, g2, g3⟩ := h.entry e he
  have hr := g3 p hp hv
  have hclaim : claims p = none := by
    rw [h.claim p hp]
    unfold claimOf
    rw [if_neg (byte_ne (by show _ ≠ 2; omega)), if_neg (byte_ne (by show _ ≠ 3; omega)),
      if_neg (byte_ne (by show _ ≠ 4; omega))]
  unfold Answer
  rw [hclaim]
  refine ⟨.Discarded e.1, (sx, sy), ?_, hr.symm, ?_⟩
  · rw [g1, area_congr hr]
  · intro q a b
    rw [ofByte_discarded hlt]
    constructor
    · intro hq
      refine hr.symm.trans (g3 q ?_ (by rw [hq, add_five hlt]))
      refine h.painted.black (c := e.1 + 5) (byte_ne ?_) ⟨a, b, hq⟩
      rw [add_five hlt]; show _ ≠ 0; omega
    · intro hq
      apply BitVec.eq_of_toNat_eq
      rw [h.painted.reach_color hq, hv, add_five hlt]

theorem get_region_ok {B : Pos → Prop} {claims : Pos → Option Claim} {img : PreparedImage S} (h : RegInv B claims img)
    {x y : Nat} (hb : B (x, y)) : ∃ reg img', img.get_region x y = .ok (reg, img') ∧
      width img'.buffer = width img.buffer ∧ height img'.buffer = height img.buffer ∧ RegInv B claims img' ∧
      Answer B claims img'.buffer (x, y) reg ∧ (claims (x, y) = none → AtFront img' (x, y) reg) ∧
      (∀ e ∈ img.cache.items.head?, e ∈ img'.cache.items ∧
        ∀ p, B p → (view img.buffer p.1 p.2).toNat = e.1.toNat + 5 → view img'.buffer p.1 p.2 = view img.buffer p.1 p.2) := by
  obtain ⟨hx, hy⟩ := h.ok.painted.range _ hb
  dsimp only at hx hy
  have hw : view img.buffer x y ≠ 0 := fun e => ((h.ok.painted.white (x, y) hx hy).1 e) hb
  unfold PreparedImage.get_region
  rw [get_ok h.ok.painted.valid hx hy, Run.ok_bind]
  by_cases hge : 5 ≤ (view img.buffer x y).toNat
  · -- cached
    rw [ofByte_ge hge]
    obtain ⟨e, he, he2⟩ := h.ok.known (x, y) hb hge
    dsimp only at he2
    have hk : view img.buffer x y - 5 = e.1 := by
      apply BitVec.eq_of_toNat_eq
      rw [sub_five hge]; omega
    obtain ⟨e', hf, he', hke⟩ := find_key he
    have hget : img.cache.get e.1 = (some e'.2, { img.cache with items := e' :: img.cache.items.filter fun a => a.1 != e.1 }) := by
      unfold LruCache.get
      rw [hf]
    have hperm := get_perm h.ok.nodup he'
    rw [hke] at hperm
    have hlen := hperm.length_eq
    have hkl := h.keys e' he'
    have hle := h.len
    simp only [hk, hget]
    refine ⟨e'.2, _, rfl, rfl, rfl, ⟨h.ok.perm hperm, h.cap, ?_, ?_⟩, ?_, ?_, ?_⟩
    · exact hlen ▸ h.len
    · intro a ha
      exact lt_of_lt_of_eq (h.keys a (hperm.mem_iff.1 ha)) hlen.symm
    · exact Answer.of_entry h.ok he' (by omega) hb (by dsimp only; rw [hke]; omega)
    · intro _
      exact ⟨e'.1, rfl, by dsimp only; rw [hke]; omega⟩
    · intro a ha
      exact ⟨hperm.mem_iff.2 (List.mem_of_mem_head? ha), fun p _ _ => rfl⟩
  · have hcases : view img.buffer x y = 1 ∨ view img.buffer x y = 2 ∨ view img.buffer x y = 3 ∨ view img.buffer x y = 4 := by
      have h0 : (view img.buffer x y).toNat ≠ 0 := fun e => hw (BitVec.eq_of_toNat_eq e)
      have : (view img.buffer x y).toNat = 1 ∨ (view img.buffer x y).toNat = 2 ∨ (view img.buffer x y).toNat = 3 ∨
        (view img.buffer x y).toNat = 4 := by omega
      rcases this with e | e | e | e
      · exact .inl (BitVec.eq_of_toNat_eq e)
      · exact .inr (.inl (BitVec.eq_of_toNat_eq e))
      · exact .inr (.inr (.inl (BitVec.eq_of_toNat_eq e)))
      · exact .inr (.inr (.inr (BitVec.eq_of_toNat_eq e)))
    have hclaim := h.ok.claim (x, y) hb
    dsimp only at hclaim
    have hkeep : ∀ e ∈ img.cache.items.head?, e ∈ img.cache.items ∧
        ∀ p, B p → (view img.buffer p.1 p.2).toNat = e.1.toNat + 5 → view img.buffer p.1 p.2 = view img.buffer p.1 p.2 :=
      fun e he => ⟨List.mem_of_mem_head? he, fun p _ _ => rfl⟩
    rcases hcases with e | e | e | e
    · -- black: a new region
      rw [e] at hclaim
      change claims (x, y) = none at hclaim
      rw [e]
      have eb : PixelColor.ofByte 1 = .Black := rfl
      rw [eb]
      obtain ⟨c, img1, f1, f2, f3, f4, f5, f6, f7, f8, f9, f10, f11⟩ := free_index_ok h
      have hv1 : view img1.buffer x y = 1 := by
        rw [f10 (x, y) hb (by dsimp only; rw [e]; decide)]; exact e
      have hc : c.toNat < 251 := by omega
      have hc5 := add_five hc
      obtain ⟨s', rows, r1, r2, r3, r4, r5, r6, r7, r8, r9⟩ := repaint_ok (img := img1) (target := .Discarded c) f5.painted hb
        (discarded_toByte hc) (byte_ne (by rw [hc5]; show _ ≠ 0; omega))
        (by rw [hv1]; exact byte_ne (by rw [hc5]; show 1 ≠ _; omega))
      have hcount := count_rows f5.painted f5.size r6 r7 r8
      have hrun : img1.repaint_and_apply AreaCounter.update x y (.Discarded c) 0 =
          .ok ({ img1 with buffer := s' }, area B (x, y)) := by
        rw [r9, hcount, Run.ok_bind]
      have hput : img1.cache.put c (.Unclaimed (.Discarded c) x y (area B (x, y))) =
          { img1.cache with items := (c, .Unclaimed (.Discarded c) x y (area B (x, y))) :: img1.cache.items } := by
        unfold LruCache.put
        rw [if_neg, if_neg (by rw [f4]; omega)]
        intro hany
        rw [List.any_eq_true] at hany
        obtain ⟨a, ha, ha2⟩ := hany
        exact (f7 a ha).1 (by simpa using ha2)
      have hsame : ∀ p, B p → (view s' p.1 p.2).toNat ≠ c.toNat + 5 → view s' p.1 p.2 = view img1.buffer p.1 p.2 ∧
          ¬ Reach B (x, y) p := by
        intro p hp hne
        have hnr : ¬ Reach B (x, y) p := fun hr => hne (by rw [r4 p hr, hc5])
        exact ⟨r5 p (f5.painted.range p hp).1 (f5.painted.range p hp).2 hnr, hnr⟩
      have hnew : ∀ p, B p → (view s' p.1 p.2).toNat = c.toNat + 5 → Reach B (x, y) p := by
        intro p hp hv
        by_contra hnr
        rw [r5 p (f5.painted.range p hp).1 (f5.painted.range p hp).2 hnr] at hv
        exact f9 p hp hv
      have hok' : CacheOk B claims s' ((c, .Unclaimed (.Discarded c) x y (area B (x, y))) :: img1.cache.items) := by
        refine ⟨r1, by rw [r2, r3]; exact f5.size, ?_, ?_, ?_, ?_⟩
        · rw [List.map_cons, List.nodup_cons]
          refine ⟨?_, f5.nodup⟩
          intro hm
          obtain ⟨a, ha, ha2⟩ := List.mem_map.1 hm
          exact (f7 a ha).1 ha2
        · intro a ha
          rcases List.mem_cons.1 ha with rfl | ha
          · exact ⟨x, y, rfl, hb, hnew⟩
          · obtain ⟨ax, ay, g1, g2, g3⟩ := f5.entry a ha
            refine ⟨ax, ay, g1, g2, ?_⟩
            intro p hp hv
            have hne : a.1.toNat ≠ c.toNat := fun e' => (f7 a ha).1 (BitVec.eq_of_toNat_eq e')
            exact g3 p hp (by rw [← (hsame p hp (by omega)).1]; exact hv)
        · intro p hp hv
          by_cases hvc : (view s' p.1 p.2).toNat = c.toNat + 5
          · exact ⟨_, List.mem_cons_self, hvc.symm⟩
          · rw [(hsame p hp hvc).1] at hv ⊢
            obtain ⟨a, ha, ha2⟩ := f5.known p hp hv
            exact ⟨a, List.mem_cons_of_mem _ ha, ha2⟩
        · intro p hp
          rw [f5.claim p hp]
          by_cases hr : Reach B (x, y) p
          · rw [r4 p hr, f5.painted.reach_color hr]
            dsimp only
            rw [hv1]
            unfold claimOf
            rw [if_neg (show ¬ (c + 5 = 2) from byte_ne (by rw [hc5]; show _ ≠ 2; omega)),
              if_neg (show ¬ (c + 5 = 3) from byte_ne (by rw [hc5]; show _ ≠ 3; omega)),
              if_neg (show ¬ (c + 5 = 4) from byte_ne (by rw [hc5]; show _ ≠ 4; omega))]
            rfl
          · rw [r5 p (f5.painted.range p hp).1 (f5.painted.range p hp).2 hr]
      have hvxy : (view s' x y).toNat = c.toNat + 5 := by
        rw [r4 (x, y) (.refl hb), hc5]
      dsimp only
      rw [f1, Run.ok_bind]
      dsimp only
      rw [hrun, Run.ok_bind]
      dsimp only
      rw [hput]
      refine ⟨_, _, rfl, r2.trans f2, r3.trans f3, ⟨hok', f4, ?_, ?_⟩, ?_, ?_, ?_⟩
      · show _ + 1 ≤ 251
        omega
      · intro a ha
        rcases List.mem_cons.1 ha with rfl | ha
        · exact f8
        · exact (f7 a ha).2
      · exact Answer.of_entry hok' List.mem_cons_self hc hb hvxy
      · intro _
        exact ⟨c, rfl, hvxy⟩
      · intro a ha
        obtain ⟨k1, k2⟩ := f11 a ha
        refine ⟨List.mem_cons_of_mem _ k1, ?_⟩
        intro p hp hv
        have hva := k2 p hp hv
        refine Eq.trans ?_ hva
        have hne : a.1.toNat ≠ c.toNat := fun e' => (f7 a k1).1 (BitVec.eq_of_toNat_eq e')
        refine r5 p (f5.painted.range p hp).1 (f5.painted.range p hp).2 ?_
        intro hr
        have := f5.painted.reach_color hr
        dsimp only at this
        rw [hv1, hva] at this
        rw [this] at hv
        have : (1 : Byte).toNat = 1 := rfl
        omega
    all_goals
      rw [e] at hclaim ⊢
      refine ⟨_, img, rfl, rfl, rfl, h, ?_, ?_, hkeep⟩
      · unfold Answer
        rw [hclaim]
        rfl
      · intro hc
        rw [hclaim] at hc
        exact absurd hc (by decide)

end Rqrr
