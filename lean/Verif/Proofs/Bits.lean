import Verif.Model.Decode
import Verif.Proofs.Loops
import Mathlib.Data.List.GetD
import Mathlib.Data.List.Induction

/-!
# Bit-level view of `RawData` and `CorrectedDataStream`
-/

namespace Rqrr

/-- Bit `n` of a byte buffer, most significant bit first; false beyond the end. -/
def dataBit {N : Nat} (d : Vector Byte N) (n : Nat) : Bool :=
  if h : n / 8 < N then d[n / 8].getMsbD (n % 8) else false

/-- `r` holds exactly the bits `bits` (and zeros after them). -/
structure Holds (r : RawData) (bits : List Bool) : Prop where
  len : r.len = bits.length
  bit : ∀ n, dataBit r.data n = bits.getD n false

theorem holds_empty : Holds RawData.empty [] := by
  refine ⟨rfl, ?_⟩
  intro n
  unfold dataBit RawData.empty
  split
  · have : n % 8 < 8 := by omega
    simp
  · simp

theorem mask_getMsbD : ∀ k < 8, ∀ j < 8, (0x80#8 >>> k).getMsbD j = decide (j = k) := by decide

theorem Holds.push {r : RawData} {bits : List Bool} (h : Holds r bits) (hlen : bits.length < 8 * MAX_PAYLOAD_SIZE)
    (b : Bool) : ∃ r', r.push b = .ok r' ∧ Holds r' (bits ++ [b]) := by
  have hlt : r.len / 8 < MAX_PAYLOAD_SIZE := by rw [h.len]; omega
  have e1 : r.len &&& 7 = r.len % 8 := Nat.and_two_pow_sub_one_eq_mod r.len 3
  have e2 : r.len >>> 3 = r.len / 8 := Nat.shiftRight_eq_div_pow r.len 3
  unfold RawData.push
  rw [Run.assert_of (by simpa using hlt), Run.ok_bind]
  dsimp only
  rw [e1, e2]
  have hget : ∀ n, (bits ++ [b]).getD n false = if n = bits.length then b else bits.getD n false := by
    intro n
    by_cases hn : n < bits.length
    · rw [if_neg (by omega), List.getD_append _ _ _ _ hn]
    · by_cases hn2 : n = bits.length
      · subst hn2; simp
      · rw [if_neg hn2, List.getD_eq_default _ _ (by simp; omega), List.getD_eq_default _ _ (by omega)]
  cases b with
  | false =>
    refine ⟨{ r with len := r.len + 1 }, rfl, by simp [h.len], ?_⟩
    intro n
    rw [hget]
    show dataBit r.data n = _
    rw [h.bit n]
    split
    · rename_i hn; rw [List.getD_eq_default _ _ (by omega)]
    · rfl
  | true =>
    simp only [if_true]
    rw [aget_ok _ hlt, Run.ok_bind, aset_ok _ _ hlt, Run.ok_bind]
    refine ⟨_, rfl, by simp [h.len], ?_⟩
    intro n
    rw [hget, ← h.bit n]
    unfold dataBit
    by_cases hn : n / 8 < MAX_PAYLOAD_SIZE
    · rw [dif_pos hn, dif_pos hn]
      by_cases heq : n / 8 = r.len / 8
      · have hj : n % 8 < 8 := Nat.mod_lt _ (by decide)
        have hk : r.len % 8 < 8 := Nat.mod_lt _ (by decide)
        simp only [heq, Vector.getElem_set_self]
        rw [BitVec.getMsbD_or, mask_getMsbD _ hk _ hj]
        have hl := h.len
        by_cases hm : n % 8 = r.len % 8
        · rw [if_pos (by omega), decide_eq_true hm, Bool.or_true]
        · rw [if_neg (by intro h'; apply hm; rw [h', hl]), decide_eq_false hm, Bool.or_false]
      · have hl := h.len
        rw [if_neg (by intro h'; apply heq; rw [h', hl])]
        rw [Vector.getElem_set_ne _ _ (fun h' => heq h'.symm)]
    · rw [dif_neg hn, dif_neg hn, if_neg]
      rw [← h.len]; intro h'; subst h'; exact hn hlt

/-! ## Reading -/

/-- Big-endian value of a bit list. -/
def natOfBits (bs : List Bool) : Nat := bs.foldl (fun a b => 2 * a + b.toNat) 0

theorem natOfBits_snoc (bs : List Bool) (b : Bool) : natOfBits (bs ++ [b]) = 2 * natOfBits bs + b.toNat := by
  simp [natOfBits]

theorem natOfBits_append (as bs : List Bool) : natOfBits (as ++ bs) = natOfBits as * 2 ^ bs.length + natOfBits bs := by
  induction bs using List.reverseRecOn with
  | nil => simp [natOfBits]
  | append_singleton bs b ih =>
    rw [← List.append_assoc, natOfBits_snoc, natOfBits_snoc, ih, List.length_append, List.length_singleton,
      Nat.pow_succ, Nat.mul_add, Nat.mul_comm 2 (_ * _), Nat.mul_assoc, Nat.add_assoc]

theorem natOfBits_lt (bs : List Bool) : natOfBits bs < 2 ^ bs.length := by
  induction bs using List.reverseRecOn with
  | nil => simp [natOfBits]
  | append_singleton bs b ih =>
    rw [natOfBits_snoc, List.length_append, List.length_singleton, Nat.pow_succ]
    cases b <;> simp <;> omega

/-- The bits of a stream that have not been read yet. -/
def CorrectedDataStream.rest (ds : CorrectedDataStream) : List Bool :=
  (List.range' ds.ptr (ds.bit_len - ds.ptr)).map (dataBit ds.data)

/-- `ds` is well formed: pointer within the stream, stream within the buffer. -/
structure CorrectedDataStream.WF (ds : CorrectedDataStream) : Prop where
  ptr : ds.ptr ≤ ds.bit_len
  len : ds.bit_len ≤ 8 * MAX_PAYLOAD_SIZE

theorem CorrectedDataStream.rest_length (ds : CorrectedDataStream) : ds.rest.length = ds.bit_len - ds.ptr := by
  simp [rest]

theorem bits_remaining_eq (ds : CorrectedDataStream) (h : ds.WF) : ds.bits_remaining = .ok ds.rest.length := by
  unfold CorrectedDataStream.bits_remaining
  rw [Run.assert_of (by simpa using h.ptr), Run.ok_bind, subU_ok h.ptr, ds.rest_length]

theorem top_bit (b : Byte) : ∀ j < 8, (0#8 != (b <<< j) &&& 0x80#8) = b.getMsbD j := by
  intro j hj
  have e : ∀ (x : BitVec 8), (0#8 != x &&& 0x80#8) = x.getMsbD 0 := by decide +kernel
  rw [e, BitVec.getMsbD_shiftLeft]
  simp

/-- `take_bits n` returns the next `min n remaining` bits as a big-endian number and advances past them. -/
theorem take_bits_eq (ds : CorrectedDataStream) (h : ds.WF) (n : Nat) (hn : n ≤ 64) :
    ∃ ds', ds.take_bits n = .ok (natOfBits (ds.rest.take n), ds') ∧ ds'.WF ∧ ds'.rest = ds.rest.drop n ∧
      ds'.data = ds.data ∧ ds'.bit_len = ds.bit_len ∧ ds'.ptr = ds.ptr + min ds.rest.length n := by
  unfold CorrectedDataStream.take_bits
  rw [bits_remaining_eq ds h, Run.ok_bind]
  dsimp only
  rw [Run.assert_of (by simp; omega), Run.ok_bind]
  have hp := h.ptr
  have hlen := h.len
  have hrl := ds.rest_length
  obtain ⟨⟨r, ds'⟩, h1, h2, h3⟩ := forRange_ok (lo := 0) (hi := min ds.rest.length n) (s := ((0, ds) : Nat × CorrectedDataStream))
    (f := fun _ (x : Nat × CorrectedDataStream) => match x with
      | (ret, ds) => do
        let b ← aget ds.data (ds.ptr >>> 3)
        let bitpos := ds.ptr &&& 7
        let ret := ret <<< 1
        let ret := if 0#8 != (b <<< bitpos) &&& 0x80#8 then ret ||| 1 else ret
        pure (ret, { ds with ptr := ds.ptr + 1 }))
    (fun i x => x.1 = natOfBits (ds.rest.take i) ∧ x.2 = { ds with ptr := ds.ptr + i }) (by omega)
    ⟨rfl, rfl⟩ (by
      rintro i ⟨ret, d⟩ _ hi ⟨hret, hd⟩
      simp only at hret hd
      subst hd
      have hi' : i < ds.rest.length := by omega
      have hb : (ds.ptr + i) / 8 < MAX_PAYLOAD_SIZE := by omega
      have e1 : (ds.ptr + i) &&& 7 = (ds.ptr + i) % 8 := Nat.and_two_pow_sub_one_eq_mod _ 3
      have e2 : (ds.ptr + i) >>> 3 = (ds.ptr + i) / 8 := Nat.shiftRight_eq_div_pow _ 3
      have hbit : dataBit ds.data (ds.ptr + i) = ds.rest[i] := by
        simp [CorrectedDataStream.rest]
      have htop : (0#8 != (ds.data[(ds.ptr + i) / 8] <<< ((ds.ptr + i) % 8)) &&& 0x80#8) = ds.rest[i] := by
        rw [top_bit _ _ (Nat.mod_lt _ (by decide)), ← hbit, dataBit, dif_pos hb]
      refine ⟨(if ds.rest[i] then (ret <<< 1) ||| 1 else ret <<< 1, { ds with ptr := ds.ptr + i + 1 }), ?_, ?_, ?_⟩
      · simp only
        rw [e1, e2, aget_ok _ hb, Run.ok_bind, htop]
        rfl
      · simp only
        rw [List.take_succ_eq_append_getElem hi', natOfBits_snoc, ← hret]
        cases ds.rest[i] with
        | true =>
          have : ret <<< 1 ||| 1 = 2 * ret + 1 := by
            rw [Nat.shiftLeft_eq, Nat.pow_one, Nat.mul_comm]
            exact (Nat.two_pow_add_eq_or_of_lt (i := 1) (by decide) ret).symm
          simp [this]
        | false => simp [Nat.shiftLeft_eq]; omega
      · simp only [Nat.add_assoc])
  simp only at h2 h3
  refine ⟨ds', ?_, ?_, ?_, ?_, ?_, ?_⟩
  · rw [h1, h2]
    congr 3
    rw [Nat.min_comm, ← List.take_take, List.take_length]
  · subst h3; exact ⟨by simp only; omega, hlen⟩
  · subst h3
    rw [hrl]
    unfold CorrectedDataStream.rest
    rw [← List.map_drop, List.drop_range']
    simp only
    congr 1
    by_cases hc : n ≤ ds.bit_len - ds.ptr
    · rw [Nat.min_eq_right hc]
      congr 1 <;> omega
    · rw [Nat.min_eq_left (by omega)]
      have a1 : ds.bit_len - (ds.ptr + (ds.bit_len - ds.ptr)) = 0 := by omega
      have a2 : ds.bit_len - ds.ptr - n = 0 := by omega
      rw [a1, a2]; rfl
  · subst h3; rfl
  · subst h3; rfl
  · subst h3; rfl

end Rqrr
