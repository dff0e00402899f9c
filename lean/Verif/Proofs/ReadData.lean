import Verif.Proofs.Bits
import Verif.Proofs.Format
import Verif.Proofs.Path

/-!
# Reading a grid: format information and raw data
-/

namespace Rqrr

open Spec

/-- A grid whose `bit` works on all coordinates below the size, returning `m`. -/
def Shows (code : BitGrid) (m : Nat → Nat → Bool) : Prop :=
  ∀ y x, y < code.size → x < code.size → code.bit y x = .ok (m y x)

theorem shiftIn_eq (f : Nat) (b : Bool) : shiftIn f b = 2 * f + b.toNat := by
  unfold shiftIn
  rw [Nat.shiftLeft_eq, Nat.pow_one, Nat.mul_comm]
  cases b with
  | false => simp
  | true => exact (Nat.two_pow_add_eq_or_of_lt (i := 1) (by decide) f).symm

/-- The word formed from bits given most significant first. -/
theorem word15_eq (f : Nat → Bool) : word15 f = natOfBits ([14, 13, 12, 11, 10, 9, 8, 7, 6, 5, 4, 3, 2, 1, 0].map f) := by
  simp only [word15, natOfBits, List.map_cons, List.map_nil, List.foldl_cons, List.foldl_nil]
  simp only [List.range_succ, List.range_zero, List.map_append, List.sum_append, List.map_cons, List.map_nil,
    List.sum_cons, List.sum_nil, List.nil_append]
  omega

theorem word15_lt (f : Nat → Bool) : word15 f < 2 ^ 15 := by
  rw [word15_eq]
  exact natOfBits_lt _

theorem natOfBits_testBit (bs : List Bool) (i : Nat) : (natOfBits bs).testBit i = bs.reverse.getD i false := by
  induction bs using List.reverseRecOn generalizing i with
  | nil => simp [natOfBits]
  | append_singleton bs b ih =>
    rw [natOfBits_snoc, List.reverse_append]
    cases i with
    | zero =>
      rw [Nat.testBit_zero]
      cases b <;> simp <;> omega
    | succ i =>
      rw [Nat.testBit_succ]
      have : (2 * natOfBits bs + b.toNat) / 2 = natOfBits bs := by cases b <;> simp <;> omega
      rw [this, ih]
      simp

theorem word15_testBit (f : Nat → Bool) (i : Nat) (hi : i < 15) : (word15 f).testBit i = f i := by
  rw [word15_eq, natOfBits_testBit]
  have : ∀ i, i < 15 → (([14, 13, 12, 11, 10, 9, 8, 7, 6, 5, 4, 3, 2, 1, 0] : List Nat).map f).reverse.getD i false = f i := by
    intro i hi
    simp only [List.map_cons, List.map_nil, List.reverse_cons, List.reverse_nil, List.nil_append, List.cons_append]
    match i, hi with
    | 0, _ | 1, _ | 2, _ | 3, _ | 4, _ | 5, _ | 6, _ | 7, _ | 8, _ | 9, _ | 10, _ | 11, _ | 12, _ | 13, _ | 14, _ => rfl
  exact this i hi

section
variable {code : BitGrid} {m : Nat → Nat → Bool}

/-- The first format copy as read from the modules `m`. -/
def copy1 (m : Nat → Nat → Bool) : Nat := word15 fun i => m (formatPos1 i).1 (formatPos1 i).2

/-- The second format copy. -/
def copy2 (n : Nat) (m : Nat → Nat → Bool) : Nat := word15 fun i => m (formatPos2 n i).1 (formatPos2 n i).2

theorem pos1_table : ∀ i < 15, YS[i]? = some (formatPos1 i).1 ∧ XS[i]? = some (formatPos1 i).2 := by decide

theorem read_format_first_eq (h : Shows code m) (hn : 9 ≤ code.size) :
    read_format_first code = .ok (copy1 m ^^^ formatMask) := by
  have key : ∀ (l : List Nat) (w : Nat), (∀ i ∈ l, i < 15) →
      forList (fun i format => do
        let y ← idx YS i
        let x ← idx XS i
        let b ← code.bit y x
        pure (shiftIn format b)) l w =
      .ok ((l.map fun i => m (formatPos1 i).1 (formatPos1 i).2).foldl (fun a b => 2 * a + b.toNat) w) := by
    intro l
    induction l with
    | nil => intro w _; rfl
    | cons i l ih =>
      intro w hl
      have hi := hl i (by simp)
      obtain ⟨h1, h2⟩ := pos1_table i hi
      have hb : (formatPos1 i).1 < 9 ∧ (formatPos1 i).2 < 9 := by
        unfold formatPos1; repeat' split
        all_goals simp
        all_goals omega
      have i1 : idx YS i = .ok (formatPos1 i).1 := by unfold idx; rw [h1]
      have i2 : idx XS i = .ok (formatPos1 i).2 := by unfold idx; rw [h2]
      rw [forList, i1, Run.ok_bind, i2, Run.ok_bind, h _ _ (by omega) (by omega), Run.ok_bind, Run.pure_eq, Run.ok_bind, ih _ (fun j hj => hl j (by simp [hj])),
        shiftIn_eq, List.map_cons, List.foldl_cons]
  unfold read_format_first
  rw [key _ 0 (by decide), Run.ok_bind]
  unfold copy1
  rw [word15_eq]
  rfl

theorem read_format_second_eq (h : Shows code m) (hn : 9 ≤ code.size) :
    read_format_second code = .ok (copy2 code.size m ^^^ formatMask) := by
  unfold read_format_second
  have p2 : ∀ i < 15, 8 ≤ i → formatPos2 code.size i = (code.size - 1 - (14 - i), 8) := by
    intro i hi h8
    unfold formatPos2
    rw [if_neg (by omega)]
    congr 1
    omega
  have p3 : ∀ i < 8, formatPos2 code.size i = (8, code.size - 8 + (7 - i)) := by
    intro i hi
    unfold formatPos2
    rw [if_pos hi]
    congr 1
    omega
  set b : Nat → Bool := fun i => m (formatPos2 code.size i).1 (formatPos2 code.size i).2 with hb
  rw [forRange_eq (lo := 0) (hi := 7) (s := 0) (fun k => natOfBits ((List.range k).map fun j => b (14 - j))) (by omega) rfl (by
    intro i _ hi
    rw [subU_ok (by omega), Run.ok_bind, subU_ok (by omega), Run.ok_bind, h _ _ (by omega) (by omega), Run.ok_bind,
      Run.pure_eq, shiftIn_eq, List.range_succ, List.map_append, List.map_singleton, natOfBits_snoc]
    have : b (14 - i) = m (code.size - 1 - i) 8 := by
      rw [hb]
      simp only
      rw [p2 (14 - i) (by omega) (by omega)]
      simp only
      congr 2
      omega
    rw [this])]
  rw [Run.ok_bind, forRange_eq (lo := 0) (hi := 8) (s := natOfBits ((List.range 7).map fun j => b (14 - j)))
    (fun k => natOfBits (((List.range 7).map fun j => b (14 - j)) ++ (List.range k).map fun j => b (7 - j))) (by omega)
    (by simp) (by
    intro i _ hi
    rw [subU_ok (by omega), Run.ok_bind, h _ _ (by omega) (by omega), Run.ok_bind,
      Run.pure_eq, shiftIn_eq, List.range_succ (n := i), List.map_append, List.map_singleton, ← List.append_assoc,
      natOfBits_snoc]
    have : b (7 - i) = m 8 (code.size - 8 + i) := by
      rw [hb]
      simp only
      rw [p3 (7 - i) (by omega)]
      simp only
      congr 1
      omega
    rw [this])]
  rw [Run.ok_bind]
  unfold copy2
  rw [word15_eq]
  rfl

/-- Metadata from a corrected format word. -/
def mdOf (size w : Nat) : Run MetaData := do
  let version ← Version.from_size size
  pure { version := version, ecc_level := w >>> 13, mask := (w >>> 10) &&& 7 }

theorem read_format_eq (h : Shows code m) (hn : 9 ≤ code.size) :
    read_format code =
      match correct_format (copy1 m ^^^ formatMask) with
      | .ok w => mdOf code.size w
      | .error _ =>
        match correct_format (copy2 code.size m ^^^ formatMask) with
        | .ok w => mdOf code.size w
        | .error _ => .error (.err .FormatEcc) := by
  have hm15 : formatMask < 2 ^ 15 := by decide
  have l1 : copy1 m ^^^ formatMask < 2 ^ 15 := Nat.xor_lt_two_pow (word15_lt _) hm15
  have l2 : copy2 code.size m ^^^ formatMask < 2 ^ 15 := Nat.xor_lt_two_pow (word15_lt _) hm15
  have hmd : ∀ w, (do
      let version ← Version.from_size code.size
      pure { version := version, ecc_level := (w >>> 10) >>> 3, mask := (w >>> 10) &&& 7 } : Run MetaData) =
        mdOf code.size w := by
    intro w
    unfold mdOf
    rw [← Nat.shiftRight_add]
  unfold read_format
  rw [read_format_first_eq h hn, Run.ok_bind]
  rcases correct_format_cases _ l1 with ⟨d, _, h1, _⟩ | h1
  · rw [h1]
    exact hmd _
  · rw [h1]
    simp only
    rw [read_format_second_eq h hn, Run.ok_bind]
    rcases correct_format_cases _ l2 with ⟨d, _, h2, _⟩ | h2
    · rw [h2]; exact hmd _
    · rw [h2]; rfl

theorem mdOf_formatWord (size d : Nat) (hd : d < 32) :
    mdOf size (formatWord d) = if 21 ≤ size ∧ size ≤ 180 then
      .ok { version := (size - 17) / 4, ecc_level := d / 8, mask := d % 8 } else .error (.err .InvalidVersion) := by
  unfold mdOf Version.from_size
  have e1 : formatWord d >>> 13 = d / 8 := by
    have : formatWord d >>> 13 = (formatWord d >>> 10) >>> 3 := (Nat.shiftRight_add _ 10 3)
    rw [this, formatWord_shift d hd, Nat.shiftRight_eq_div_pow]
  rw [e1, formatWord_shift d hd, show d &&& 7 = d % 8 from Nat.and_two_pow_sub_one_eq_mod d 3]
  dsimp only
  by_cases h : 21 ≤ size ∧ size ≤ 180
  · rw [if_pos h, if_pos (by simp; omega)]; rfl
  · rw [if_neg h, if_neg (by simp; omega)]; rfl

/-! ## Data -/

theorem mask_bit_eq (k y x : Nat) (hk : k < 8) : mask_bit k y x = .ok (maskCond k y x) := by
  match k, hk with
  | 0, _ | 1, _ | 2, _ | 3, _ | 4, _ | 5, _ | 6, _ =>
    unfold mask_bit maskCond; simp only; congr 1; rw [Bool.eq_iff_iff, beq_iff_eq, beq_iff_eq]; exact eq_comm
  | 7, _ =>
    unfold mask_bit maskCond; simp only; congr 1; rw [Bool.eq_iff_iff, beq_iff_eq, beq_iff_eq, Nat.add_comm ((y + x) % 2)]
    exact eq_comm

/-- Whether the code skips a module (any size). -/
def resv (v y x : Nat) : Bool :=
  match reserved_cell v y x with
  | .ok b => b
  | .error _ => true

theorem resv_eq (v : Nat) (hv : v < 41) (y x : Nat) : reserved_cell v y x = .ok (resv v y x) := by
  obtain ⟨b, hb⟩ := reserved_cell_total v hv y x
  unfold resv; rw [hb]

/-- The bit stored for a module. -/
def cellBit (m : Nat → Nat → Bool) (k : Nat) (rm : Bool) (p : Nat × Nat) : Bool :=
  m p.1 p.2 ^^ (rm && maskCond k p.1 p.2)

theorem read_bit_eq (h : Shows code m) (md : MetaData) (hk : md.mask < 8) (rm : Bool) {y x : Nat} (hy : y < code.size)
    (hx : x < code.size) : read_bit code md y x rm = .ok (cellBit m md.mask rm (y, x)) := by
  unfold read_bit cellBit
  rw [h y x hy hx, Run.ok_bind]
  cases rm with
  | false => simp [Run.pure_eq]
  | true =>
    rw [if_pos rfl, mask_bit_eq _ _ _ hk, Run.ok_bind, Run.pure_eq]
    cases maskCond md.mask y x <;> simp

/-- The bits stored while traversing a list of cells. -/
def pathBits (m : Nat → Nat → Bool) (md : MetaData) (rm : Bool) (l : List (Nat × Nat)) : List Bool :=
  (l.filter fun p => !resv md.version p.1 p.2).map (cellBit m md.mask rm)

theorem traverse_eq (h : Shows code m) (md : MetaData) (hv : md.version < 41) (hk : md.mask < 8) (rm : Bool) :
    ∀ (l : List (Nat × Nat)) (ds : RawData) (bits : List Bool), Holds ds bits →
    (∀ p ∈ l, p.1 < code.size ∧ p.2 < code.size) → bits.length + l.length ≤ 8 * MAX_PAYLOAD_SIZE →
    ∃ ds', forList (visit code md rm) l ds = .ok ds' ∧ Holds ds' (bits ++ pathBits m md rm l)
  | [], ds, bits, hb, _, _ => ⟨ds, rfl, by simpa [pathBits] using hb⟩
  | p :: l, ds, bits, hb, hl, hlen => by
    have hp := hl p (by simp)
    have hl' : ∀ q ∈ l, q.1 < code.size ∧ q.2 < code.size := fun q hq => hl q (by simp [hq])
    rw [List.length_cons] at hlen
    simp only [forList]
    unfold visit read_cell
    rw [resv_eq md.version hv, Run.ok_bind]
    cases hr : resv md.version p.1 p.2 with
    | true =>
      obtain ⟨ds', h1, h2⟩ := traverse_eq h md hv hk rm l ds bits hb hl' (by omega)
      refine ⟨ds', h1, ?_⟩
      unfold pathBits
      rw [List.filter_cons_of_neg (by simp [hr])]
      exact h2
    | false =>
      obtain ⟨ds1, h1, h2⟩ := hb.push (by omega) (cellBit m md.mask rm p)
      obtain ⟨ds', h3, h4⟩ := traverse_eq h md hv hk rm l ds1 _ h2 hl' (by simp; omega)
      refine ⟨ds', ?_, ?_⟩
      · rw [if_neg (by decide), read_bit_eq h md hk rm hp.1 hp.2, Run.ok_bind, h1, Run.ok_bind]
        exact h3
      · have e : pathBits m md rm (p :: l) = cellBit m md.mask rm p :: pathBits m md rm l := by
          unfold pathBits
          rw [List.filter_cons_of_pos (by simp [hr]), List.map_cons]
        rw [e]
        rwa [List.append_assoc, List.singleton_append] at h4

/-- `read_data` succeeds and holds the bits of the path. -/
theorem read_data_holds (h : Shows code m) (md : MetaData) (hv : md.version < 41) (hk : md.mask < 8) (rm : Bool)
    (hn : 1 ≤ code.size) (hn2 : code.size ≤ 180) :
    ∃ ds, read_data code md rm = .ok ds ∧
      Holds ds (pathBits m md rm (pathFrom code.size true (code.size - 1))) := by
  rw [read_data_path code md rm hn]
  have hl := pathFrom_length code.size (code.size - 1) true
  have e : code.size - 1 + 1 = code.size := by omega
  rw [e] at hl
  have hmul : code.size * code.size ≤ 180 * 180 := Nat.mul_le_mul hn2 hn2
  have hM : MAX_PAYLOAD_SIZE = 8896 := rfl
  obtain ⟨ds, h1, h2⟩ := traverse_eq h md hv hk rm (pathFrom code.size true (code.size - 1)) RawData.empty [] holds_empty
    (pathFrom_bounds _ _ _ (by omega)) (by rw [List.length_nil]; omega)
  exact ⟨ds, h1, by simpa using h2⟩

/-- For conforming sizes the bits are those of the data modules in zig-zag order. -/
theorem pathBits_dataPath (md : MetaData) (rm : Bool) (h1 : 1 ≤ md.version) (h40 : md.version ≤ 40) :
    pathBits m md rm (pathFrom (side md.version) true (side md.version - 1)) =
      ((zigzag (side md.version)).filter fun p => !isFunctionOf (codeCoords md.version) md.version p.1 p.2).map
        (cellBit m md.mask rm) := by
  have hodd : side md.version % 2 = 1 := by unfold side; omega
  have h9 : 9 ≤ side md.version := by unfold side; omega
  rw [pathFrom_zigzag _ hodd h9]
  unfold pathBits
  congr 1
  apply List.filter_congr
  intro p hp
  have := (zigzag_mem _ hodd h9 p.1 p.2).mp hp
  have e := reserved_cell_eq md.version (by omega) h1 p.1 p.2 this.1 this.2.1
  unfold resv
  rw [e]

/-- `get_raw` on a readable grid. -/
theorem get_raw_eq (h : Shows code m) (hn : 9 ≤ code.size) (rm : Bool) :
    (∃ md ds, get_raw code rm = .ok (md, ds) ∧ read_format code = .ok md ∧ 21 ≤ code.size ∧ code.size ≤ 180 ∧
      md.version = (code.size - 17) / 4 ∧ 1 ≤ md.version ∧ md.version ≤ 40 ∧ md.ecc_level < 4 ∧ md.mask < 8 ∧
      Holds ds (pathBits m md rm (pathFrom code.size true (code.size - 1)))) ∨
    (∃ e, get_raw code rm = .error (.err e) ∧ read_format code = .error (.err e) ∧
      (e = .FormatEcc ∨ e = .InvalidVersion)) := by
  have hm15 : formatMask < 2 ^ 15 := by decide
  have l1 : copy1 m ^^^ formatMask < 2 ^ 15 := Nat.xor_lt_two_pow (word15_lt _) hm15
  have l2 : copy2 code.size m ^^^ formatMask < 2 ^ 15 := Nat.xor_lt_two_pow (word15_lt _) hm15
  have fin : ∀ d, d < 32 → read_format code = mdOf code.size (formatWord d) →
      (∃ md ds, get_raw code rm = .ok (md, ds) ∧ read_format code = .ok md ∧ 21 ≤ code.size ∧ code.size ≤ 180 ∧
      md.version = (code.size - 17) / 4 ∧ 1 ≤ md.version ∧ md.version ≤ 40 ∧ md.ecc_level < 4 ∧ md.mask < 8 ∧
      Holds ds (pathBits m md rm (pathFrom code.size true (code.size - 1)))) ∨
      (∃ e, get_raw code rm = .error (.err e) ∧ read_format code = .error (.err e) ∧
        (e = .FormatEcc ∨ e = .InvalidVersion)) := by
    intro d hd hrf
    rw [mdOf_formatWord code.size d hd] at hrf
    by_cases hs : 21 ≤ code.size ∧ code.size ≤ 180
    · rw [if_pos hs] at hrf
      left
      obtain ⟨ds, h1, h2⟩ := read_data_holds h { version := (code.size - 17) / 4, ecc_level := d / 8, mask := d % 8 }
        (by simp only; omega) (by simp only; omega) rm (by omega) (by omega)
      refine ⟨_, ds, ?_, hrf, hs.1, hs.2, rfl, by simp only; omega, by simp only; omega, by simp only; omega,
        by simp only; omega, h2⟩
      unfold get_raw
      rw [hrf, Run.ok_bind, h1]; rfl
    · rw [if_neg hs] at hrf
      right
      refine ⟨_, ?_, hrf, .inr rfl⟩
      unfold get_raw
      rw [hrf]; rfl
  have hrf := read_format_eq h hn
  rcases correct_format_cases _ l1 with ⟨d, hd, h1, _⟩ | h1
  · rw [h1] at hrf
    exact fin d hd hrf
  · rw [h1] at hrf
    simp only at hrf
    rcases correct_format_cases _ l2 with ⟨d, hd, h2, _⟩ | h2
    · rw [h2] at hrf
      exact fin d hd hrf
    · rw [h2] at hrf
      simp only at hrf
      right
      refine ⟨.FormatEcc, ?_, hrf, .inl rfl⟩
      unfold get_raw
      rw [hrf]; rfl

end

end Rqrr
