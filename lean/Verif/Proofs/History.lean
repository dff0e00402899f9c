import Verif.Proofs.RegionCache

/-!
# Histories keep the region cache invariant
-/

namespace Rqrr

open ImageBuffer LawfulImage Spec

variable {S : Type} [ImageBuffer S] [LawfulImage S]

/-- The byte of a claim colour. -/
def Spec.Claim.byte : Claim → Byte
  | .CapStone => 2
  | .Alignment => 3
  | .Tmp1 => 4

theorem claim_toByte (c : Claim) : c.color.toByte = .ok c.byte := by cases c <;> rfl

theorem claim_byte (c : Claim) : c.byte ≠ 0 ∧ c.byte.toNat < 5 ∧ claimOf c.byte = some c := by
  cases c <;> decide

/-- Repainting panics on a white pixel and on one that already has the target colour. -/
theorem repaint_panics {img : PreparedImage S} (hv : Valid img.buffer) {x y : Nat} (hx : x < width img.buffer)
    (hy : y < height img.buffer) {target : PixelColor} {dst : Byte} (ht : target.toByte = .ok dst)
    (h : view img.buffer x y = 0 ∨ view img.buffer x y = dst) {φ : Type} (update : φ → Row → Run φ) (f : φ) :
    img.repaint_and_apply update x y target f = .error .panic := by
  have e1 : PixelColor.White.eqByte (view img.buffer x y) = .ok (decide (view img.buffer x y = 0)) := by
    unfold PixelColor.eqByte
    rw [show PixelColor.White.toByte = .ok 0 from rfl, Run.ok_bind]
    show Except.ok _ = _
    congr 1
    by_cases e : view img.buffer x y = 0
    · rw [e]; rfl
    · rw [decide_eq_false e, beq_eq_false_iff_ne.2 (Ne.symm e)]
  have e2 : target.eqByte (view img.buffer x y) = .ok (decide (view img.buffer x y = dst)) := by
    unfold PixelColor.eqByte
    rw [ht, Run.ok_bind]
    show Except.ok _ = _
    congr 1
    by_cases e : view img.buffer x y = dst
    · rw [e]; simp
    · rw [decide_eq_false e, beq_eq_false_iff_ne.2 (Ne.symm e)]
  unfold PreparedImage.repaint_and_apply
  rw [get_ok hv hx hy, Run.ok_bind, e1, Run.ok_bind]
  by_cases e : view img.buffer x y = 0
  · rw [decide_eq_true e]; rfl
  · rw [decide_eq_false e]
    dsimp only
    rw [if_neg (by decide), e2, Run.ok_bind, decide_eq_true (h.resolve_left e)]
    rfl

/-- A claim keeps the invariant. -/
theorem claim_ok {B : Pos → Prop} {claims : Pos → Option Claim} {img : PreparedImage S} (h : RegInv B claims img)
    {x y : Nat} (hb : B (x, y)) (c : Claim) (hne : claims (x, y) ≠ some c) : ∃ (s' : S) (rows : List Row),
      width s' = width img.buffer ∧ height s' = height img.buffer ∧
      (∀ claims', (∀ p, Reach B (x, y) p → claims' p = some c) → (∀ p, ¬ Reach B (x, y) p → claims' p = claims p) →
        RegInv B claims' { img with buffer := s' }) ∧
      (∀ p, Reach B (x, y) p → view s' p.1 p.2 = c.byte) ∧
      (∀ p, p.1 < width img.buffer → p.2 < height img.buffer → ¬ Reach B (x, y) p →
        view s' p.1 p.2 = view img.buffer p.1 p.2) ∧
      (∀ p, (∃ r ∈ rows, inRow r p) ↔ Reach B (x, y) p) ∧
      (rows.Pairwise fun r r' => ∀ p, ¬ (inRow r p ∧ inRow r' p)) ∧ (∀ r ∈ rows, r.left ≤ r.right) ∧
      ∀ (φ : Type) (update : φ → Row → Run φ) (f : φ),
        img.repaint_and_apply update x y c.color f =
          (rows.foldlM update f >>= fun f' => .ok ({ img with buffer := s' }, f')) := by
  obtain ⟨c1, c2, c3⟩ := claim_byte c
  have hvne : view img.buffer x y ≠ c.byte := by
    intro e
    refine hne ?_
    rw [h.ok.claim _ hb]
    dsimp only
    rw [e, c3]
  obtain ⟨s', rows, r1, r2, r3, r4, r5, r6, r7, r8, r9⟩ := repaint_ok h.ok.painted hb (claim_toByte c) c1 hvne
  refine ⟨s', rows, r2, r3, ?_, r4, r5, r6, r7, r8, r9⟩
  intro claims' hit miss
  have hsame : ∀ p, B p → 5 ≤ (view s' p.1 p.2).toNat → view s' p.1 p.2 = view img.buffer p.1 p.2 := by
    intro p hp hv
    by_cases hr : Reach B (x, y) p
    · rw [r4 p hr] at hv; omega
    · exact r5 p (h.ok.painted.range p hp).1 (h.ok.painted.range p hp).2 hr
  refine ⟨⟨r1, by dsimp only; rw [r2, r3]; exact h.ok.size, h.ok.nodup, ?_, ?_, ?_⟩, h.cap, h.len, h.keys⟩
  · intro e he
    obtain ⟨sx, sy, g1, g2, g3⟩ := h.ok.entry e he
    refine ⟨sx, sy, g1, g2, fun p hp hv => g3 p hp ?_⟩
    rw [← hsame p hp (by dsimp only at hv; omega)]; exact hv
  · intro p hp hv
    dsimp only at hv ⊢
    have e := hsame p hp hv
    rw [e] at hv ⊢
    exact h.ok.known p hp hv
  · intro p hp
    dsimp only
    by_cases hr : Reach B (x, y) p
    · rw [hit p hr, r4 p hr, c3]
    · rw [miss p hr, r5 p (h.ok.painted.range p hp).1 (h.ok.painted.range p hp).2 hr]
      exact h.ok.claim p hp

theorem ofByte_white (b : Byte) : PixelColor.ofByte b = .White ↔ b = 0 := by
  unfold PixelColor.ofByte
  constructor
  · intro e
    by_contra h
    rw [if_neg h] at e
    (repeat' split at e) <;> contradiction
  · rintro rfl; rfl

theorem asI32_small {n : Nat} (h : n < 2 ^ 31) : asI32 n = n := by
  unfold asI32
  rw [Int.bmod_eq_of_le] <;> omega

/-- The clamped coordinate lies inside the image. -/
theorem clamp_lt {w : Nat} (hw : w ≠ 0) (i : Int) : (max 0 (min (asI32 (w - 1)) i)).toNat < w := by
  have h1 : asI32 (w - 1) ≤ ((w - 1 : Nat) : Int) := by
    unfold asI32 Int.bmod
    dsimp only
    omega
  omega

theorem find_reverse {V : Type} {items : List (Byte × V)} (hn : (items.map Prod.fst).Nodup) (k : Byte) :
    items.reverse.find? (fun e => e.1 == k) = items.find? (fun e => e.1 == k) := by
  cases h : items.find? (fun e => e.1 == k) with
  | none =>
    rw [List.find?_eq_none] at h ⊢
    intro e he
    exact h e (List.mem_reverse.1 he)
  | some e =>
    have he := List.mem_of_find?_eq_some h
    have hk : e.1 = k := by simpa using List.find?_some h
    obtain ⟨e', hf, he', hke⟩ := find_key (List.mem_reverse.2 he)
    rw [hk] at hf
    rw [hf]
    congr 1
    exact List.inj_on_of_nodup_map hn (List.mem_reverse.1 he') he hke

/-! ### Clones -/

theorem put_all {V : Type} (cap : Nat) : ∀ (l acc : List (Byte × V)), (acc.map Prod.fst ++ l.map Prod.fst).Nodup →
    acc.length + l.length ≤ cap →
    l.foldl (fun (cache : LruCache V) e => cache.put e.1 e.2) { cap := cap, items := acc } =
      { cap := cap, items := l.reverse ++ acc }
  | [], acc, _, _ => rfl
  | e :: l, acc, hn, hl => by
    rw [List.length_cons] at hl
    have hput : LruCache.put { cap := cap, items := acc } e.1 e.2 = { cap := cap, items := e :: acc } := by
      unfold LruCache.put
      rw [if_neg, if_neg (by dsimp only; omega)]
      intro hany
      rw [List.any_eq_true] at hany
      obtain ⟨a, ha, ha2⟩ := hany
      rw [List.nodup_append] at hn
      exact hn.2.2 a.1 (List.mem_map_of_mem ha) e.1 (by simp) (by simpa using ha2)
    rw [List.foldl_cons, hput, put_all cap l (e :: acc) ?_ (by rw [List.length_cons]; omega), List.reverse_cons,
      List.append_assoc]
    · rfl
    · have hp : (List.map Prod.fst (e :: acc) ++ List.map Prod.fst l).Perm (List.map Prod.fst acc ++ List.map Prod.fst (e :: l)) := by
        rw [List.map_cons, List.map_cons]
        exact List.perm_middle.symm
      exact hp.nodup_iff.2 hn

theorem clone_eq {B : Pos → Prop} {claims : Pos → Option Claim} {img : PreparedImage S} (h : RegInv B claims img) :
    img.clone = { buffer := img.buffer, cache := { cap := img.cache.cap, items := img.cache.items.reverse } } := by
  unfold PreparedImage.clone LruCache.new
  rw [put_all img.cache.cap img.cache.items [] (by simpa using h.ok.nodup) (by rw [h.cap]; simpa using h.len),
    List.append_nil]

theorem clone_ok {B : Pos → Prop} {claims : Pos → Option Claim} {img : PreparedImage S} (h : RegInv B claims img) :
    RegInv B claims img.clone := by
  rw [clone_eq h]
  refine ⟨h.ok.perm (List.reverse_perm _), h.cap, ?_, ?_⟩
  · simpa using h.len
  · intro e he
    simp only [List.length_reverse]
    exact h.keys e (by simpa using he)

/-! ### Histories -/

theorem fresh_inv {img : PreparedImage S} (h : Fresh img) : RegInv (IsBlack img) (fun _ => none) img := by
  have hb : ∀ p, IsBlack img p → view img.buffer p.1 p.2 = 1 := fun p hp => hp.2.2
  have hitems : img.cache.items = [] := by rw [h.cache]; rfl
  refine ⟨⟨⟨h.valid, fun p hp => ⟨hp.1, hp.2.1⟩, ?_, ?_⟩, h.size, ?_, ?_, ?_, ?_⟩, by rw [h.cache]; rfl, ?_, ?_⟩
  · intro p a b
    constructor
    · intro e hp
      rw [hb p hp] at e
      exact absurd e (by decide)
    · intro hn
      exact (h.bw _ _ a b).resolve_right fun e => hn ⟨a, b, e⟩
  · intro p q hp hq _
    rw [hb p hp, hb q hq]
  · rw [hitems]; exact List.nodup_nil
  · rw [hitems]; intro e he; simp at he
  · intro p hp hv
    rw [hb p hp] at hv
    exact absurd hv (by decide)
  · intro p hp
    rw [hb p hp]; rfl
  · rw [hitems]; simp
  · rw [hitems]; intro e he; simp at he

theorem history_inv {img0 : PreparedImage S} (h0 : Fresh img0) {claims : Pos → Option Claim} {img : PreparedImage S}
    (h : History img0 claims img) : RegInv (IsBlack img0) claims img ∧ width img.buffer = width img0.buffer ∧
      height img.buffer = height img0.buffer := by
  induction h with
  | start => exact ⟨fresh_inv h0, rfl, rfl⟩
  | @query claims img img' x y reg h hx hy run ih =>
    obtain ⟨hI, hw, hh⟩ := ih
    by_cases hb : IsBlack img0 (x, y)
    · obtain ⟨reg', img'', g1, g2, g3, g4, _⟩ := get_region_ok hI hb
      rw [g1] at run
      injection run with run
      injection run with _ e
      subst e
      exact ⟨g4, g2.trans hw, g3.trans hh⟩
    · exfalso
      have hz : view img.buffer x y = 0 := (hI.ok.painted.white (x, y) (by rw [hw]; exact hx) (by rw [hh]; exact hy)).2 hb
      unfold PreparedImage.get_region at run
      rw [get_ok hI.ok.painted.valid (by rw [hw]; exact hx) (by rw [hh]; exact hy), Run.ok_bind, hz] at run
      cases run
  | @claim claims claims' img img' x y h hx hy c φ update f f' run hit miss ih =>
    obtain ⟨hI, hw, hh⟩ := ih
    have hx' : x < width img.buffer := by rw [hw]; exact hx
    have hy' : y < height img.buffer := by rw [hh]; exact hy
    by_cases hp : view img.buffer x y = 0 ∨ view img.buffer x y = c.byte
    · rw [repaint_panics hI.ok.painted.valid hx' hy' (claim_toByte c) hp] at run
      cases run
    · rw [not_or] at hp
      have hb : IsBlack img0 (x, y) := by
        by_contra hb
        exact hp.1 ((hI.ok.painted.white (x, y) hx' hy').2 hb)
      have hne : claims (x, y) ≠ some c := by
        rw [hI.ok.claim _ hb]
        intro e
        apply hp.2
        revert e
        unfold claimOf
        dsimp only
        cases c <;> (repeat' split) <;> simp_all [Claim.byte]
      obtain ⟨s', rows, r2, r3, r4, _, _, _, _, _, r9⟩ := claim_ok hI hb c hne
      rw [r9] at run
      cases hf : rows.foldlM update f with
      | error e => rw [hf] at run; cases run
      | ok f'' =>
        rw [hf, Run.ok_bind] at run
        injection run with run
        injection run with e _
        subst e
        exact ⟨r4 claims' hit miss, r2.trans hw, r3.trans hh⟩
  | @clone claims img h ih =>
    obtain ⟨hI, hw, hh⟩ := ih
    refine ⟨clone_ok hI, ?_, ?_⟩
    · rw [clone_eq hI]; exact hw
    · rw [clone_eq hI]; exact hh

end Rqrr
