import Verif.Proofs.RSCorrect
import Verif.Proofs.VersionTable
import Verif.Proofs.Bits
import Verif.Spec.Blocks

/-!
# `codestream_ecc`: de-interleaving and correction of all blocks
-/

namespace Rqrr

open Spec

/-- Byte `k` of a buffer (zero beyond the end). -/
def byteAt {N : Nat} (d : Vector Byte N) (k : Nat) : Byte := if h : k < N then d[k] else 0

theorem aget_byteAt {N : Nat} (d : Vector Byte N) {k : Nat} (h : k < N) : aget d k = .ok (byteAt d k) := by
  rw [aget_ok d h]; unfold byteAt; rw [dif_pos h]

/-- The codewords `codestream_ecc` takes for block `i`. -/
def gather {N : Nat} (d : Vector Byte N) (bc off dw ec i : Nat) : List Byte :=
  (List.range dw).map (fun j => byteAt d (j * bc + i)) ++ (List.range ec).map (fun j => byteAt d (off + j * bc + i))

theorem gather_length {N : Nat} (d : Vector Byte N) (bc off dw ec i : Nat) : (gather d bc off dw ec i).length = dw + ec := by
  simp [gather]

theorem fill_loop {n k : Nat} (dst : List Byte) (f : Nat → Byte) (g : Nat → Run Byte) (hk : k + n ≤ dst.length)
    (hg : ∀ j, j < n → g j = .ok (f j)) :
    forRange 0 n dst (fun j dst => do
      let b ← g j
      setIdx dst (k + j) b) = .ok (dst.take k ++ (List.range n).map f ++ dst.drop (k + n)) := by
  refine (forRange_eq (lo := 0) (hi := n) (fun i => dst.take k ++ (List.range i).map f ++ dst.drop (k + i)) (by omega) ?_ ?_)
  · simp
  · intro i _ hi
    have hlen : (dst.take k ++ (List.range i).map f ++ dst.drop (k + i)).length = dst.length := by
      simp; omega
    rw [hg i hi, Run.ok_bind, setIdx_ok _ _ (by rw [hlen]; omega)]
    congr 1
    have hd : dst.drop (k + i) = dst[k + i] :: dst.drop (k + (i + 1)) := by
      rw [List.drop_eq_getElem_cons (by omega)]; rfl
    rw [List.set_append_right _ _ (by simp)]
    have : k + i - (dst.take k ++ (List.range i).map f).length = 0 := by
      rw [List.length_append, List.length_take, List.length_map, List.length_range]; omega
    rw [this, hd, List.set_cons_zero, List.range_succ, List.map_append]
    simp

theorem blit_spec {N : Nat} (v : Vector Byte N) (off : Nat) (l : List Byte) (h : off + l.length ≤ N) :
    ∃ v', blit v off l = .ok v' ∧ v'.toList = v.toList.take off ++ l ++ v.toList.drop (off + l.length) := by
  unfold blit
  obtain ⟨v', h1, h2⟩ := forRange_ok (lo := 0) (hi := l.length) (s := v)
    (f := fun j v => do
      let b ← idx l j
      aset v (off + j) b)
    (fun i v' => v'.toList = v.toList.take off ++ l.take i ++ v.toList.drop (off + i)) (by omega) (by simp) (by
      intro i v' _ hi hv
      rw [idx_ok l hi, Run.ok_bind, aset_ok _ _ (by omega)]
      refine ⟨_, rfl, ?_⟩
      rw [Vector.toList_set, hv]
      have hd : v.toList.drop (off + i) = v.toList[off + i]'(by simp; omega) :: v.toList.drop (off + (i + 1)) := by
        rw [List.drop_eq_getElem_cons (by simp; omega)]; rfl
      rw [List.set_append_right _ _ (by simp; omega)]
      have : off + i - (v.toList.take off ++ l.take i).length = 0 := by simp; omega
      rw [this, hd, List.set_cons_zero, List.take_succ_eq_append_getElem hi, List.append_assoc, List.append_assoc,
        List.append_assoc]
      rfl)
  exact ⟨v', h1, by simpa using h2⟩

/-- One block. -/
theorem ecc_block_eq (ds : RawData) (sb lb ecc : RSParameters) (bc off i : Nat) (out : Vector Byte MAX_PAYLOAD_SIZE)
    (o : Nat) (hecc : (if i < sb.ns then sb else lb) = ecc) (ho : o + ecc.bs ≤ MAX_PAYLOAD_SIZE) (hdw : ecc.dw < ecc.bs)
    (h1 : ∀ j, j < ecc.dw → j * bc + i < MAX_PAYLOAD_SIZE)
    (h2 : ∀ j, j < ecc.bs - ecc.dw → off + j * bc + i < MAX_PAYLOAD_SIZE) :
    ecc_block ds sb lb bc off i (out, o) =
      correct_block (gather ds.data bc off ecc.dw (ecc.bs - ecc.dw) i) ecc >>= fun dst =>
        blit out o dst >>= fun out => .ok (out, o + ecc.dw) := by
  unfold ecc_block
  simp only
  rw [hecc]
  have hv : viewOf out o ecc.bs = .ok ((out.toList.drop o).take ecc.bs) := by
    unfold viewOf; rw [if_pos ho]
  have hvl : ((out.toList.drop o).take ecc.bs).length = ecc.bs := by simp; omega
  rw [hv, Run.ok_bind, subU_ok (by omega), Run.ok_bind]
  have e1 := fill_loop (k := 0) (n := ecc.dw) ((out.toList.drop o).take ecc.bs) (fun j => byteAt ds.data (j * bc + i))
    (fun j => aget ds.data (j * bc + i)) (by rw [hvl]; omega) (fun j hj => aget_byteAt _ (h1 j hj))
  simp only [Nat.zero_add, List.take_zero, List.nil_append] at e1
  rw [e1, Run.ok_bind]
  have e2 := fill_loop (k := ecc.dw) (n := ecc.bs - ecc.dw)
    ((List.range ecc.dw).map (fun j => byteAt ds.data (j * bc + i)) ++ ((out.toList.drop o).take ecc.bs).drop ecc.dw)
    (fun j => byteAt ds.data (off + j * bc + i))
    (fun j => aget ds.data (off + j * bc + i)) (by simp; omega) (fun j hj => aget_byteAt _ (h2 j hj))
  rw [e2, Run.ok_bind]
  have e3 : (((List.range ecc.dw).map (fun j => byteAt ds.data (j * bc + i)) ++
      ((out.toList.drop o).take ecc.bs).drop ecc.dw).take ecc.dw ++
      (List.range (ecc.bs - ecc.dw)).map (fun j => byteAt ds.data (off + j * bc + i)) ++
      ((List.range ecc.dw).map (fun j => byteAt ds.data (j * bc + i)) ++
      ((out.toList.drop o).take ecc.bs).drop ecc.dw).drop (ecc.dw + (ecc.bs - ecc.dw))) =
      gather ds.data bc off ecc.dw (ecc.bs - ecc.dw) i := by
    unfold gather
    rw [List.take_append_of_le_length (by simp), List.take_of_length_le (by simp), List.drop_eq_nil_of_le (by simp; omega),
      List.append_nil]
  rw [e3]
  rfl

/-- The parameters of block `i`. -/
def blockPar (sb : RSParameters) (i : Nat) : RSParameters :=
  if i < sb.ns then sb else { bs := sb.bs + 1, dw := sb.dw + 1, ns := sb.ns }

/-- All blocks: either every block is corrected, and the output starts with the data codewords of the blocks in order,
or the result is the error of the first block that is not. -/
theorem blocks_loop (ds : RawData) (sb : RSParameters) (bc off : Nat)
    (hdw : sb.dw < sb.bs) (hbs : sb.bs + 1 ≤ 255) (hec : sb.bs - sb.dw < 64)
    (hfit : bc * (sb.bs + 1) ≤ MAX_PAYLOAD_SIZE)
    (h1 : ∀ i j, i < bc → j < (blockPar sb i).dw → j * bc + i < MAX_PAYLOAD_SIZE)
    (h2 : ∀ i j, i < bc → j < sb.bs - sb.dw → off + j * bc + i < MAX_PAYLOAD_SIZE) :
    (∃ out o, forRange 0 bc (Vector.replicate MAX_PAYLOAD_SIZE 0, 0)
        (ecc_block ds sb { bs := sb.bs + 1, dw := sb.dw + 1, ns := sb.ns } bc off) = .ok (out, o) ∧
      ∃ c : Nat → List Byte,
        (∀ i, i < bc → correct_block (gather ds.data bc off (blockPar sb i).dw (sb.bs - sb.dw) i) (blockPar sb i) = .ok (c i) ∧
          (c i).length = (blockPar sb i).bs) ∧
        o ≤ bc * (sb.dw + 1) ∧
        out.toList.take o = (List.range bc).flatMap fun i => (c i).take (blockPar sb i).dw) ∨
    (∃ i, i < bc ∧ correct_block (gather ds.data bc off (blockPar sb i).dw (sb.bs - sb.dw) i) (blockPar sb i) =
        .error (.err .DataEcc) ∧
      forRange 0 bc (Vector.replicate MAX_PAYLOAD_SIZE 0, 0)
        (ecc_block ds sb { bs := sb.bs + 1, dw := sb.dw + 1, ns := sb.ns } bc off) = .error (.err .DataEcc)) := by
  have hpar : ∀ i, (blockPar sb i).bs - (blockPar sb i).dw = sb.bs - sb.dw ∧ (blockPar sb i).dw < (blockPar sb i).bs ∧
      (blockPar sb i).bs ≤ sb.bs + 1 ∧ (blockPar sb i).dw ≤ sb.dw + 1 := by
    intro i; unfold blockPar; split <;> (refine ⟨?_, ?_, ?_, ?_⟩ <;> (try dsimp only) <;> omega)
  let c : Nat → List Byte := fun i =>
    match correct_block (gather ds.data bc off (blockPar sb i).dw (sb.bs - sb.dw) i) (blockPar sb i) with
    | .ok c => c
    | .error _ => []
  have hcases : ∀ i, i < bc →
      (correct_block (gather ds.data bc off (blockPar sb i).dw (sb.bs - sb.dw) i) (blockPar sb i) = .ok (c i) ∧
        (c i).length = (blockPar sb i).bs) ∨
      correct_block (gather ds.data bc off (blockPar sb i).dw (sb.bs - sb.dw) i) (blockPar sb i) = .error (.err .DataEcc) := by
    intro i _
    obtain ⟨p1, p2, p3, p4⟩ := hpar i
    have hgl : (gather ds.data bc off (blockPar sb i).dw (sb.bs - sb.dw) i).length = (blockPar sb i).bs := by
      rw [gather_length]; omega
    rcases correct_block_cases _ (blockPar sb i) hgl p2 (by omega) (by omega) with ⟨c', h, hl, _⟩ | h
    · left
      have : c i = c' := by simp only [c, h]
      rw [this]
      exact ⟨h, by rw [hl, hgl]⟩
    · right; exact h
  have main := forRange_spec (lo := 0) (hi := bc) (s := (Vector.replicate MAX_PAYLOAD_SIZE (0 : Byte), 0))
    (f := ecc_block ds sb { bs := sb.bs + 1, dw := sb.dw + 1, ns := sb.ns } bc off)
    (fun k st => (∀ i, i < k → correct_block (gather ds.data bc off (blockPar sb i).dw (sb.bs - sb.dw) i) (blockPar sb i) = .ok (c i) ∧
          (c i).length = (blockPar sb i).bs) ∧ st.2 ≤ k * (sb.dw + 1) ∧
        st.1.toList.take st.2 = (List.range k).flatMap fun i => (c i).take (blockPar sb i).dw)
    (fun e => e = .err .DataEcc ∧ ∃ i, i < bc ∧
      correct_block (gather ds.data bc off (blockPar sb i).dw (sb.bs - sb.dw) i) (blockPar sb i) = .error (.err .DataEcc))
    (by omega) ⟨by intro i hi; omega, by simp, by simp⟩ (by
      rintro k ⟨out, o⟩ _ hk ⟨hc, ho, ht⟩
      simp only at ho ht
      obtain ⟨p1, p2, p3, p4⟩ := hpar k
      have hko : o + (sb.bs + 1) ≤ bc * (sb.bs + 1) := by
        have a1 : k * (sb.dw + 1) ≤ k * (sb.bs + 1) := Nat.mul_le_mul_left _ (by omega)
        have a2 : (k + 1) * (sb.bs + 1) ≤ bc * (sb.bs + 1) := Nat.mul_le_mul_right _ (by omega)
        rw [Nat.succ_mul] at a2
        omega
      have heq := ecc_block_eq ds sb { bs := sb.bs + 1, dw := sb.dw + 1, ns := sb.ns } (blockPar sb k) bc off k out o rfl
        (by omega) p2 (fun j hj => h1 k j hk hj) (fun j hj => h2 k j hk (by omega))
      rw [p1] at heq
      rcases hcases k hk with ⟨hok, hlen⟩ | herr
      · left
        rw [hok, Run.ok_bind] at heq
        obtain ⟨out', hb1, hb2⟩ := blit_spec out o (c k) (by omega)
        rw [hb1, Run.ok_bind] at heq
        refine ⟨_, heq, ?_, ?_, ?_⟩
        · intro i hi
          rcases Nat.lt_succ_iff_lt_or_eq.mp hi with h | h
          · exact hc i h
          · subst h; exact ⟨hok, hlen⟩
        · simp only
          rw [Nat.succ_mul]
          omega
        · simp only
          have hol : (out.toList.take o).length = o := by simp; omega
          rw [List.range_succ, List.flatMap_append, ← ht, hb2]
          simp only [List.flatMap_cons, List.flatMap_nil, List.append_nil]
          rw [List.append_assoc, List.take_append, hol, List.take_of_length_le (by rw [hol]; omega),
            show o + (blockPar sb k).dw - o = (blockPar sb k).dw by omega,
            List.take_append_of_le_length (by omega)]
      · right
        rw [herr] at heq
        exact ⟨_, heq, rfl, k, hk, herr⟩)
  rcases main with ⟨⟨out, o⟩, hr, hc, ho, ht⟩ | ⟨e, hr, he, i, hi, hci⟩
  · left; exact ⟨out, o, hr, c, hc, ho, ht⟩
  · right; exact ⟨i, hi, hci, by rw [hr, he]⟩

/-! ## The interleaved layout -/

theorem flatMap_rows_length {α : Type} (f : Nat → List α) (n m : Nat) (h : ∀ j, j < n → (f j).length = m) :
    ((List.range n).flatMap f).length = n * m := by
  induction n with
  | zero => simp
  | succ n ih =>
    rw [List.range_succ, List.flatMap_append, List.length_append, ih (fun j hj => h j (by omega))]
    simp [h n (by omega), Nat.succ_mul]

theorem flatMap_rows_get {α : Type} (f : Nat → List α) (n m : Nat) (h : ∀ j, j < n → (f j).length = m) (j i : Nat)
    (hj : j < n) (hi : i < m) : ((List.range n).flatMap f)[j * m + i]? = (f j)[i]? := by
  induction n with
  | zero => omega
  | succ n ih =>
    have hl := flatMap_rows_length f n m (fun j hj => h j (by omega))
    rw [List.range_succ, List.flatMap_append]
    rcases Nat.lt_or_ge j n with hjn | hjn
    · have : j * m + i < n * m := by
        have := Nat.mul_le_mul_right m (show j + 1 ≤ n by omega)
        rw [Nat.succ_mul] at this; omega
      rw [List.getElem?_append_left (by rw [hl]; exact this)]
      exact ih (fun j hj => h j (by omega)) hjn
    · have : j = n := by omega
      subst this
      rw [List.getElem?_append_right (by rw [hl]; omega), hl]
      simp

/-- The facts about a version and level used below. -/
structure Sizes (v : Nat) (l : Level) : Prop where
  lb : longBlocks v l < blockCount v l
  ec : ecLen v l < shortLen v l
  total : totalCodewords v = blockCount v l * shortLen v l + longBlocks v l

theorem sizes (v : Nat) (h1 : 1 ≤ v) (h40 : v ≤ 40) (l : Level) : Sizes v l := by
  obtain ⟨info, p, e1, e2, e3, e4, e5, e6, e7, e8, e9, e10, e11, e12, e13, e14, e15, e16⟩ := isoEntry v h1 h40 l
  refine ⟨by omega, by omega, ?_⟩
  rw [← e3, ← e8, e7, e4, Nat.mul_succ, Nat.mul_comm (longBlocks v l) (shortLen v l),
    Nat.mul_comm (blockCount v l - longBlocks v l) (shortLen v l), ← Nat.add_assoc, ← Nat.mul_add,
    Nat.mul_comm (blockCount v l) (shortLen v l)]
  congr 2
  omega

/-- Where codeword `k` of block `i` stands in the final message sequence. -/
def isoPos (v : Nat) (l : Level) (i k : Nat) : Nat :=
  if k < shortLen v l - ecLen v l then k * blockCount v l + i
  else if k < dataLen v l i then (shortLen v l - ecLen v l) * blockCount v l + (i - (blockCount v l - longBlocks v l))
  else (shortLen v l - ecLen v l) * blockCount v l + longBlocks v l + (k - dataLen v l i) * blockCount v l + i

theorem layout_isoPos {v : Nat} {l : Level} (s : Sizes v l) (i k : Nat) (hi : i < blockCount v l)
    (hk : k < dataLen v l i + ecLen v l) : (layout v l)[isoPos v l i k]? = some (i, k) := by
  obtain ⟨hlb, hec, _⟩ := s
  have hrow : ∀ j, j < shortLen v l - ecLen v l →
      (((List.range (blockCount v l)).filter fun i => decide (j < dataLen v l i)).map fun i => (i, j)) =
        (List.range (blockCount v l)).map fun i => (i, j) := by
    intro j hj
    rw [List.filter_eq_self.mpr]
    intro i _
    unfold dataLen
    simp; omega
  have hlast : (((List.range (blockCount v l)).filter fun i => decide (shortLen v l - ecLen v l < dataLen v l i)).map
      fun i => (i, shortLen v l - ecLen v l)) =
        (List.range (longBlocks v l)).map fun i => (blockCount v l - longBlocks v l + i, shortLen v l - ecLen v l) := by
    have e : blockCount v l = (blockCount v l - longBlocks v l) + longBlocks v l := by omega
    conv => lhs; rw [show List.range (blockCount v l) =
      List.range ((blockCount v l - longBlocks v l) + longBlocks v l) by rw [← e]]
    rw [List.range_add, List.filter_append, List.filter_eq_nil_iff.mpr, List.nil_append, List.filter_eq_self.mpr,
      List.map_map]
    · rfl
    · intro a ha
      simp only [List.mem_map, List.mem_range] at ha
      obtain ⟨b, hb, rfl⟩ := ha
      unfold dataLen
      rw [if_neg (by omega)]
      simp
    · intro a ha
      simp only [List.mem_range] at ha
      unfold dataLen
      rw [if_pos ha]
      simp
  have hlen1 := flatMap_rows_length (fun j => ((List.range (blockCount v l)).filter fun i =>
    decide (j < dataLen v l i)).map fun i => (i, j)) (shortLen v l - ecLen v l) (blockCount v l) (by
      intro j hj; simp only [hrow j hj]; simp)
  unfold layout
  rw [List.range_succ, List.flatMap_append]
  simp only [List.flatMap_cons, List.flatMap_nil, List.append_nil]
  rw [hlast]
  have hdl : shortLen v l - ecLen v l ≤ dataLen v l i := by unfold dataLen; omega
  unfold isoPos
  by_cases hk1 : k < shortLen v l - ecLen v l
  · rw [if_pos hk1]
    have hlt : k * blockCount v l + i < (shortLen v l - ecLen v l) * blockCount v l := by
      have := Nat.mul_le_mul_right (blockCount v l) (show k + 1 ≤ shortLen v l - ecLen v l by omega)
      rw [Nat.succ_mul] at this; omega
    rw [List.append_assoc, List.getElem?_append_left (by rw [hlen1]; exact hlt),
      flatMap_rows_get _ _ (blockCount v l) (by intro j hj; rw [hrow j hj]; simp) k i hk1 hi, hrow k hk1]
    simp [hi]
  · rw [if_neg hk1]
    by_cases hk2 : k < dataLen v l i
    · rw [if_pos hk2]
      have hlong : ¬ i < blockCount v l - longBlocks v l := by
        intro h; unfold dataLen at hk2; rw [if_pos h] at hk2; omega
      have hks : k = shortLen v l - ecLen v l := by
        unfold dataLen at hk2; rw [if_neg hlong] at hk2; omega
      rw [List.append_assoc, List.getElem?_append_right (by rw [hlen1]; omega), hlen1, Nat.add_sub_cancel_left,
        List.getElem?_append_left (by simp; omega)]
      rw [List.getElem?_map, List.getElem?_range (by omega), hks]
      simp; omega
    · rw [if_neg hk2]
      have hl2 : (List.flatMap (fun j => ((List.range (blockCount v l)).filter fun i =>
          decide (j < dataLen v l i)).map fun i => (i, j)) (List.range (shortLen v l - ecLen v l)) ++
          (List.range (longBlocks v l)).map fun i => (blockCount v l - longBlocks v l + i, shortLen v l - ecLen v l)).length =
          (shortLen v l - ecLen v l) * blockCount v l + longBlocks v l := by
        rw [List.length_append, hlen1]; simp
      rw [List.getElem?_append_right (by rw [hl2]; omega), hl2, Nat.add_assoc, Nat.add_sub_cancel_left,
        flatMap_rows_get _ _ (blockCount v l) (by intro j _; simp) (k - dataLen v l i) i (by omega) hi,
        List.getElem?_map, List.getElem?_range hi]
      simp; omega

theorem isoPos_lt {v : Nat} {l : Level} (s : Sizes v l) (i k : Nat) (hi : i < blockCount v l)
    (hk : k < dataLen v l i + ecLen v l) : isoPos v l i k < totalCodewords v := by
  have hlb := s.lb
  have hec := s.ec
  have hm : blockCount v l * shortLen v l = (shortLen v l - ecLen v l) * blockCount v l + ecLen v l * blockCount v l := by
    rw [← Nat.add_mul, Nat.mul_comm]; congr 1; omega
  rw [s.total, hm]
  have hdl : dataLen v l i ≤ shortLen v l - ecLen v l + 1 := by unfold dataLen; split <;> omega
  have hec' : 0 < ecLen v l ∨ ecLen v l = 0 := by omega
  unfold isoPos
  split
  · rename_i h
    have := Nat.mul_le_mul_right (blockCount v l) (show k + 1 ≤ shortLen v l - ecLen v l by omega)
    rw [Nat.succ_mul] at this; omega
  · split
    · rename_i h1 h2
      have hlong : ¬ i < blockCount v l - longBlocks v l := by
        intro h; unfold dataLen at h2; rw [if_pos h] at h2; omega
      omega
    · rename_i h1 h2
      have := Nat.mul_le_mul_right (blockCount v l) (show k - dataLen v l i + 1 ≤ ecLen v l by omega)
      rw [Nat.succ_mul] at this; omega

theorem gather_getElem? {N : Nat} (d : Vector Byte N) (bc off dw ec i k : Nat) (hk : k < dw + ec) :
    (gather d bc off dw ec i)[k]? = some (byteAt d (if k < dw then k * bc + i else off + (k - dw) * bc + i)) := by
  unfold gather
  by_cases h : k < dw
  · rw [if_pos h, List.getElem?_append_left (by simpa using h), List.getElem?_map, List.getElem?_range h]; rfl
  · rw [if_neg h, List.getElem?_append_right (by simp; omega), List.getElem?_map, List.length_map, List.length_range,
      List.getElem?_range (by omega)]
    rfl

theorem hdist_eq_card' {a b : List Byte} (hlen : a.length = b.length) :
    hdist a b = ((Finset.range a.length).filter fun k => a[k]? ≠ b[k]?).card := by
  induction a generalizing b with
  | nil => simp [hdist]
  | cons x as ih =>
    cases b with
    | nil => simp at hlen
    | cons y bs =>
      rw [hdist, ih (by simpa using hlen), List.length_cons, Finset.range_add_one', Finset.filter_insert]
      have e : (Finset.filter (fun k => (x :: as)[k]? ≠ (y :: bs)[k]?)
          ((Finset.range as.length).map ⟨fun i => i + 1, fun i j => by simp⟩)).card =
          (Finset.filter (fun k => as[k]? ≠ bs[k]?) (Finset.range as.length)).card := by
        rw [Finset.filter_map, Finset.card_map]
        congr 1
      by_cases hxy : x = y
      · subst hxy
        rw [if_pos rfl, if_neg (by simp), Nat.zero_add]
        exact e.symm
      · rw [if_neg hxy, if_pos (by simpa using hxy), Finset.card_insert_of_notMem (by simp), Nat.add_comm]
        rw [← e]

/-- The codewords taken for a block differ from its true codewords in the damaged ones, and in the one misplaced
codeword if the block is long. -/
theorem hdist_gather {N : Nat} {v : Nat} {l : Level} (s : Sizes v l) (d : Vector Byte N) (c : Nat → List Byte)
    (i : Nat) (hi : i < blockCount v l) (hlen : (c i).length = dataLen v l i + ecLen v l) :
    hdist (gather d (blockCount v l) ((shortLen v l - ecLen v l) * blockCount v l + longBlocks v l) (dataLen v l i)
      (ecLen v l) i) (c i) ≤ damage v l (byteAt d) c i + (isLong v l i).toNat := by
  rw [hdist_eq_card' (by rw [gather_length, hlen]), gather_length]
  set G := gather d (blockCount v l) ((shortLen v l - ecLen v l) * blockCount v l + longBlocks v l) (dataLen v l i)
      (ecLen v l) i with hG
  have hpos : ∀ k, k < dataLen v l i + ecLen v l → (isLong v l i = true → k ≠ shortLen v l - ecLen v l) →
      G[k]? = some (byteAt d (isoPos v l i k)) := by
    intro k hk hns
    rw [hG, gather_getElem? _ _ _ _ _ _ _ hk]
    congr 2
    unfold isoPos
    by_cases hk1 : k < shortLen v l - ecLen v l
    · rw [if_pos hk1, if_pos (by unfold dataLen; omega)]
    · rw [if_neg hk1]
      by_cases hk2 : k < dataLen v l i
      · exfalso
        have hlong : ¬ i < blockCount v l - longBlocks v l := by
          intro h; unfold dataLen at hk2; rw [if_pos h] at hk2; omega
        have hks : k = shortLen v l - ecLen v l := by
          unfold dataLen at hk2; rw [if_neg hlong] at hk2; omega
        exact hns (by unfold isLong; simp; omega) hks
      · rw [if_neg hk2, if_neg hk2]
  let A := (Finset.range (dataLen v l i + ecLen v l)).filter fun k => G[k]? ≠ (c i)[k]?
  let B := A.filter fun k => (isLong v l i = true → k ≠ shortLen v l - ecLen v l)
  have hB : B.card ≤ damage v l (byteAt d) c i := by
    unfold damage
    apply Finset.card_le_card_of_injOn (isoPos v l i)
    · intro k hk
      simp only [B, A, Finset.coe_filter, Finset.mem_filter, Finset.mem_range, Set.mem_setOf_eq] at hk
      obtain ⟨⟨hk1, hk2⟩, hk3⟩ := hk
      simp only [Finset.coe_filter, Finset.mem_range, Set.mem_setOf_eq]
      refine ⟨isoPos_lt s i k hi hk1, ?_⟩
      unfold wrongAt
      rw [layout_isoPos s i k hi hk1]
      rw [hpos k hk1 hk3] at hk2
      simp only [beq_self_eq_true, Bool.true_and, bne_iff_ne, ne_eq]
      exact fun h => hk2 h.symm
    · intro k hk k' hk' heq
      simp only [B, A, Finset.coe_filter, Finset.mem_filter, Finset.mem_range, Set.mem_setOf_eq] at hk hk'
      have h1 := layout_isoPos s i k hi hk.1.1
      have h2 := layout_isoPos s i k' hi hk'.1.1
      rw [heq, h2] at h1
      simpa using h1.symm
  have hAB : A.card ≤ B.card + (isLong v l i).toNat := by
    cases hl : isLong v l i
    · have : B = A := by simp [B, hl]
      rw [this]; omega
    · have : A ⊆ insert (shortLen v l - ecLen v l) B := by
        intro k hk
        by_cases h : k = shortLen v l - ecLen v l
        · simp [h]
        · apply Finset.mem_insert_of_mem
          simp only [B, Finset.mem_filter]
          exact ⟨hk, fun _ => h⟩
      exact (Finset.card_le_card this).trans (Finset.card_insert_le _ _)
  exact hAB.trans (by omega)

theorem byteBits_length (b : Byte) : (byteBits b).length = 8 := by simp [byteBits]

theorem bytesBits_get (bs : List Byte) (n : Nat) (h : n < 8 * bs.length) :
    (bytesBits bs)[n]? = some ((bs[n / 8]'(by omega)).getMsbD (n % 8)) := by
  have e : bytesBits bs = (List.range bs.length).flatMap fun j => byteBits (bs.getD j 0) := by
    unfold bytesBits
    have e0 : bs = (List.range bs.length).map fun j => bs.getD j 0 := by
      apply List.ext_getElem (by simp)
      intro j h1 h2
      rw [List.getElem_map, List.getElem_range, List.getD_eq_getElem _ _ h1]
    conv => lhs; rw [e0]
    rw [List.flatMap_map]
  rw [e]
  conv => lhs; rw [show n = n / 8 * 8 + n % 8 by omega]
  rw [flatMap_rows_get _ _ 8 (fun j _ => byteBits_length _) (n / 8) (n % 8) (by omega) (by omega)]
  unfold byteBits
  rw [List.getElem?_map, List.getElem?_range (by omega), List.getD_eq_getElem _ _ (by omega)]
  rfl

theorem bytesBits_length (bs : List Byte) : (bytesBits bs).length = 8 * bs.length := by
  unfold bytesBits
  induction bs with
  | nil => rfl
  | cons b bs ih => rw [List.flatMap_cons, List.length_append, ih, byteBits_length, List.length_cons]; omega

/-- The bits of a stream whose buffer starts with `bytes`. -/
theorem rest_of_bytes {d : Vector Byte MAX_PAYLOAD_SIZE} {o : Nat} {bytes : List Byte} (ho : o ≤ MAX_PAYLOAD_SIZE)
    (h : d.toList.take o = bytes) : (CorrectedDataStream.mk d 0 (o * 8)).rest = bytesBits bytes := by
  have hlen : bytes.length = o := by rw [← h]; simp [ho]
  unfold CorrectedDataStream.rest
  apply List.ext_getElem?
  intro n
  by_cases hn : n < o * 8
  · rw [bytesBits_get _ _ (by omega), List.getElem?_map, List.getElem?_range' (by simpa using hn)]
    simp only [Nat.zero_add, Nat.one_mul, Option.map_some, Option.some.injEq]
    unfold dataBit
    rw [dif_pos (by omega)]
    congr 1
    subst h
    simp
  · rw [List.getElem?_eq_none (by simp; omega), List.getElem?_eq_none (by rw [bytesBits_length]; omega)]

/-- What `codestream_ecc` takes for block `i`. -/
def taken {N : Nat} (v : Nat) (l : Level) (d : Vector Byte N) (i : Nat) : List Byte :=
  gather d (blockCount v l) ((shortLen v l - ecLen v l) * blockCount v l + longBlocks v l) (dataLen v l i) (ecLen v l) i

/-- Parameters of block `i` of a symbol. -/
def isoPar (v : Nat) (l : Level) (i : Nat) : RSParameters :=
  { bs := dataLen v l i + ecLen v l, dw := dataLen v l i, ns := blockCount v l - longBlocks v l }

theorem isoPar_facts {v : Nat} {l : Level} (h1 : 1 ≤ v) (h40 : v ≤ 40) (i : Nat) :
    (isoPar v l i).dw < (isoPar v l i).bs ∧ (isoPar v l i).bs - (isoPar v l i).dw = ecLen v l ∧
    (isoPar v l i).bs - (isoPar v l i).dw < 64 ∧ (isoPar v l i).bs ≤ 255 := by
  obtain ⟨info, p, e1, e2, e3, e4, e5, e6, e7, e8, e9, e10, e11, e12, e13, e14, e15, e16⟩ := isoEntry v h1 h40 l
  have hd : dataLen v l i ≤ shortLen v l - ecLen v l + 1 := by unfold dataLen; split <;> omega
  unfold isoPar
  refine ⟨?_, ?_, ?_, ?_⟩ <;> dsimp only <;> omega

/-- `codestream_ecc` as a whole. -/
theorem codestream_cases {v : Nat} (h1 : 1 ≤ v) (h40 : v ≤ 40) (l : Level) (md : MetaData) (hv : md.version = v)
    (hl : md.ecc_level = l.bits) (ds : RawData) :
    (∃ cs c, codestream_ecc md ds = .ok cs ∧ cs.ptr = 0 ∧ cs.WF ∧
      (∀ i, i < blockCount v l → correct_block (taken v l ds.data i) (isoPar v l i) = .ok (c i) ∧
        (c i).length = dataLen v l i + ecLen v l) ∧
      cs.rest = bytesBits (dataCodewords v l c)) ∨
    (∃ i, i < blockCount v l ∧ correct_block (taken v l ds.data i) (isoPar v l i) = .error (.err .DataEcc) ∧
      codestream_ecc md ds = .error (.err .DataEcc)) := by
  have s := sizes v h1 h40 l
  obtain ⟨info, p, e1, e2, e3, e4, e5, e6, e7, e8, e9, e10, e11, e12, e13, e14, e15, e16⟩ := isoEntry v h1 h40 l
  have hpar : ∀ i, blockPar p i = isoPar v l i := by
    intro i
    unfold blockPar isoPar dataLen
    rw [e7]
    split
    · cases p; simp only at *; congr 1 <;> omega
    · congr 1 <;> omega
  have hdw : p.dw = shortLen v l - ecLen v l := by omega
  have htaken : ∀ i, gather ds.data (blockCount v l) (p.dw * blockCount v l + longBlocks v l) (blockPar p i).dw (p.bs - p.dw) i =
      taken v l ds.data i := by
    intro i; rw [hpar, e5, hdw]; rfl
  have hmax : MAX_PAYLOAD_SIZE = 8896 := rfl
  have htot : blockCount v l * (p.bs + 1) ≤ MAX_PAYLOAD_SIZE := by
    have : ∀ v < 41, v = 0 ∨ ((blockCount v .L * (shortLen v .L + 1) ≤ 8896 ∧ blockCount v .M * (shortLen v .M + 1) ≤ 8896) ∧
      blockCount v .Q * (shortLen v .Q + 1) ≤ 8896 ∧ blockCount v .H * (shortLen v .H + 1) ≤ 8896) := by decide +kernel
    rw [e4]
    rcases this v (by omega) with h | h
    · omega
    · cases l <;> omega
  have hprod : blockCount v l * (p.bs + 1) = p.dw * blockCount v l + (p.bs - p.dw) * blockCount v l + blockCount v l := by
    rw [← Nat.add_mul, show p.dw + (p.bs - p.dw) = p.bs by omega, Nat.mul_succ, Nat.mul_comm]
  have hec1 : 1 * blockCount v l ≤ (p.bs - p.dw) * blockCount v l := Nat.mul_le_mul_right _ (by omega)
  have hbound : p.bs + 1 ≤ 255 := by omega
  have hbc : longBlocks v l + p.ns = blockCount v l := by have := s.lb; omega
  have hsub : p.bs * p.ns ≤ info.dataBytes := by rw [← e8, Nat.mul_comm]; omega
  have hle : blockCount v l * (p.dw + 1) ≤ MAX_PAYLOAD_SIZE :=
    Nat.le_trans (Nat.mul_le_mul_left _ (by omega)) htot
  have hloop := blocks_loop ds p (blockCount v l) (p.dw * blockCount v l + longBlocks v l) e6 hbound (by omega) htot
    (by
      intro i j hi hj
      have hj' : j ≤ p.dw := by unfold blockPar at hj; split at hj <;> (try dsimp only at hj) <;> omega
      have := Nat.mul_le_mul_right (blockCount v l) hj'
      omega)
    (by
      intro i j hi hj
      have := Nat.mul_le_mul_right (blockCount v l) (show j + 1 ≤ p.bs - p.dw by omega)
      rw [Nat.succ_mul] at this
      have := s.lb
      omega)
  have hrun : ∀ r, forRange 0 (blockCount v l) (Vector.replicate MAX_PAYLOAD_SIZE 0, 0)
        (ecc_block ds p { bs := p.bs + 1, dw := p.dw + 1, ns := p.ns } (blockCount v l) (p.dw * blockCount v l + longBlocks v l)) = r →
      codestream_ecc md ds = r >>= fun st => .ok { data := st.1, ptr := 0, bit_len := st.2 * 8 } := by
    intro r hr
    unfold codestream_ecc
    have i1 : idx VERSION_DATA_BASE md.version = .ok info := by rw [hv]; unfold idx; rw [e1]
    have i2 : idx info.ecc md.ecc_level = .ok p := by rw [hl]; unfold idx; rw [e2]
    rw [i1, Run.ok_bind, i2, Run.ok_bind, subU_ok hsub, Run.ok_bind]
    dsimp only
    rw [e9, hbc, hr]
    rfl
  rcases hloop with ⟨out, o, hr, c, hc, ho, ht⟩ | ⟨i, hi, hci, hr⟩
  · left
    have hoM : o ≤ MAX_PAYLOAD_SIZE := Nat.le_trans ho hle
    refine ⟨{ data := out, ptr := 0, bit_len := o * 8 }, c, ?_, rfl, ?_, ?_, ?_⟩
    · rw [hrun _ hr, Run.ok_bind]
    · refine ⟨Nat.zero_le _, ?_⟩
      dsimp only
      rw [Nat.mul_comm]
      exact Nat.mul_le_mul_left 8 hoM
    · intro i hi
      have := hc i hi
      rw [htaken, hpar] at this
      exact this
    · rw [rest_of_bytes hoM ht]
      unfold dataCodewords
      simp only [hpar]
      rfl
  · right
    refine ⟨i, hi, ?_, ?_⟩
    · rw [htaken, hpar] at hci; exact hci
    · rw [hrun _ hr]; rfl

/-- Correction of a whole symbol. -/
theorem codestream_corrects {v : Nat} (h1 : 1 ≤ v) (h40 : v ≤ 40) (l : Level) (md : MetaData) (hv : md.version = v)
    (hl : md.ecc_level = l.bits) (ds : RawData) (c : Nat → List Byte) (hc : Blocks v l c)
    (hd : ∀ i, i < blockCount v l → 2 * (damage v l (byteAt ds.data) c i + (isLong v l i).toNat) ≤ ecLen v l) :
    ∃ cs, codestream_ecc md ds = .ok cs ∧ cs.ptr = 0 ∧ cs.WF ∧ cs.rest = bytesBits (dataCodewords v l c) := by
  have s := sizes v h1 h40 l
  have key : ∀ i, i < blockCount v l → correct_block (taken v l ds.data i) (isoPar v l i) = .ok (c i) := by
    intro i hi
    obtain ⟨f1, f2, f3, f4⟩ := isoPar_facts (l := l) h1 h40 i
    have hdist := hdist_gather s ds.data c i hi (hc i hi).1
    have := hd i hi
    refine correct_block_corrects (c i) _ (isoPar v l i) (hc i hi).1 ?_ f1 f3 f4 (by rw [f2]; exact (hc i hi).2) ?_
    · unfold taken; rw [gather_length]; rfl
    · rw [f2]
      unfold taken
      omega
  rcases codestream_cases h1 h40 l md hv hl ds with ⟨cs, c', h, hp, hw, hc', hr⟩ | ⟨i, hi, h, _⟩
  · refine ⟨cs, h, hp, hw, ?_⟩
    rw [hr]
    congr 1
    unfold dataCodewords
    have : ∀ i ∈ List.range (blockCount v l), (c' i).take (dataLen v l i) = (c i).take (dataLen v l i) := by
      intro i hi
      have h1 := (hc' i (by simpa using hi)).1
      rw [key i (by simpa using hi)] at h1
      rw [Except.ok.inj h1]
    rw [List.flatMap_def, List.flatMap_def, List.map_congr_left this]
  · rw [key i hi] at h; cases h

end Rqrr
