import Verif.Proofs.Codestream
import Verif.Props.RawData
import Verif.Proofs.Payload
import Verif.Model.Lib

/-!
# Facts about `decode` as a whole
-/

namespace Rqrr

open Spec

variable {σ : Type}

theorem level_of_bits (e : Nat) (h : e < 4) : ∃ l : Level, l.bits = e :=
  match e, h with
  | 0, _ => ⟨.M, rfl⟩
  | 1, _ => ⟨.L, rfl⟩
  | 2, _ => ⟨.H, rfl⟩
  | 3, _ => ⟨.Q, rfl⟩

theorem idx_some {α : Type} {l : List α} {i : Nat} {a : α} (h : idx l i = .ok a) : l[i]? = some a := by
  unfold idx at h
  split at h
  · cases h; assumption
  · cases h

theorem ecc_length : ∀ v < 41, ∀ info, VERSION_DATA_BASE[v]? = some info → info.ecc.length = 4 ∨ v = 0 := by
  have key : ∀ v < 41, (VERSION_DATA_BASE[v]?.map fun info => info.ecc.length) = some 4 ∨ v = 0 := by decide +kernel
  intro v hv info h
  rcases key v hv with h' | h'
  · rw [h] at h'; simp at h'; exact .inl h'
  · exact .inr h'

/-- Every stream that reaches payload decoding is well formed and stands at its beginning. -/
theorem decode_stream_ok {code : BitGrid} {md : MetaData} {cs : CorrectedDataStream}
    (h : decode_stream code = .ok (md, cs)) :
    1 ≤ md.version ∧ md.version ≤ 40 ∧ md.ecc_level < 4 ∧ cs.ptr = 0 ∧ cs.WF := by
  unfold decode_stream at h
  obtain ⟨⟨md', raw⟩, h1, h⟩ := Run.bind_eq_ok.1 h
  obtain ⟨cs', h2, h⟩ := Run.bind_eq_ok.1 h
  cases h
  unfold get_raw at h1
  obtain ⟨md', h3, h1⟩ := Run.bind_eq_ok.1 h1
  obtain ⟨raw', h4, h1⟩ := Run.bind_eq_ok.1 h1
  cases h1
  have hv : 1 ≤ md.version ∧ md.version ≤ 40 := by
    unfold read_format at h3
    obtain ⟨_, _, h3⟩ := Run.bind_eq_ok.1 h3
    dsimp only at h3
    have ⟨w, h3⟩ : ∃ w : Nat, (Version.from_size code.size >>= fun version =>
        pure { version := version, ecc_level := w >>> 10 >>> 3, mask := w >>> 10 &&& 7 }) = Except.ok md := by
      split at h3
      · exact ⟨_, h3⟩
      · obtain ⟨_, _, h3⟩ := Run.bind_eq_ok.1 h3
        obtain ⟨w, _, h3⟩ := Run.bind_eq_ok.1 h3
        exact ⟨w, h3⟩
      · cases h3
    obtain ⟨ver, h5, h3⟩ := Run.bind_eq_ok.1 h3
    cases h3
    unfold Version.from_size at h5
    dsimp only at h5
    split at h5
    · rename_i hc
      cases h5
      simp only [Bool.and_eq_true, decide_eq_true_eq] at hc
      exact ⟨hc.1, hc.2⟩
    · cases h5
  have hl : md.ecc_level < 4 := by
    have h2' := h2
    unfold codestream_ecc at h2'
    obtain ⟨info, h5, h2'⟩ := Run.bind_eq_ok.1 h2'
    obtain ⟨p, h6, _⟩ := Run.bind_eq_ok.1 h2'
    have := ecc_length md.version (by omega) info (idx_some h5)
    have h7 := idx_some h6
    rw [List.getElem?_eq_some_iff] at h7
    obtain ⟨h8, _⟩ := h7
    omega
  obtain ⟨l, hl'⟩ := level_of_bits _ hl
  refine ⟨hv.1, hv.2, hl, ?_⟩
  rcases codestream_cases hv.1 hv.2 l md rfl hl'.symm raw with ⟨cs', c, e1, e2, e3, _⟩ | ⟨_, _, _, e⟩
  · rw [h2] at e1; cases e1; exact ⟨e2, e3⟩
  · rw [h2] at e; cases e

theorem decode_oriented_ok {code : BitGrid} {md : MetaData} {cs : CorrectedDataStream}
    (h : decode_oriented code = .ok (md, cs)) : ∃ code', decode_stream code' = .ok (md, cs) := by
  unfold decode_oriented at h
  split at h
  · cases h; exact ⟨_, by assumption⟩
  · split at h
    · cases h; exact ⟨_, by assumption⟩
    · cases h
    · cases h
  · cases h

theorem decode_oriented_wf {code : BitGrid} {md : MetaData} {cs : CorrectedDataStream}
    (h : decode_oriented code = .ok (md, cs)) :
    1 ≤ md.version ∧ md.version ≤ 40 ∧ md.ecc_level < 4 ∧ cs.ptr = 0 ∧ cs.WF := by
  obtain ⟨code', h'⟩ := decode_oriented_ok h
  exact decode_stream_ok h'

/-- Errors of reading and correcting. -/
def StreamError (e : DeQRError) : Prop := e = .FormatEcc ∨ e = .InvalidVersion ∨ e = .DataEcc

/-- Reading and correcting a complete grid succeeds or fails with one of three errors. -/
theorem decode_stream_cases {code : BitGrid} {m : Nat → Nat → Bool} (h : Shows code m) (h9 : 9 ≤ code.size) :
    (∃ md cs, decode_stream code = .ok (md, cs) ∧ md.version = (code.size - 17) / 4 ∧ md.mask < 8) ∨
      ∃ e, decode_stream code = .error (.err e) ∧ StreamError e := by
  unfold decode_stream
  rcases get_raw_eq h h9 true with ⟨md, ds, e1, _, _, _, e5, e6, e7, e8, e9, _⟩ | ⟨e, e1, _, he⟩
  · rw [e1, Run.ok_bind]
    obtain ⟨l, hl⟩ := level_of_bits _ e8
    rcases codestream_cases e6 e7 l md rfl hl.symm ds with ⟨cs, c, f1, _⟩ | ⟨_, _, _, f⟩
    · left; exact ⟨md, cs, by dsimp only; rw [f1]; rfl, e5, e9⟩
    · right; exact ⟨_, by dsimp only; rw [f]; rfl, .inr (.inr rfl)⟩
  · rw [e1]
    right
    exact ⟨e, rfl, by rcases he with h | h <;> simp [StreamError, h]⟩

theorem Shows.mirrored {code : BitGrid} {m : Nat → Nat → Bool} (h : Shows code m) :
    Shows (MirroredGrid code) fun y x => m x y := fun y x hy hx => h x y hx hy

theorem decode_oriented_cases {code : BitGrid} {m : Nat → Nat → Bool} (h : Shows code m) (h9 : 9 ≤ code.size) :
    (∃ md cs, decode_oriented code = .ok (md, cs) ∧ md.version = (code.size - 17) / 4 ∧ md.mask < 8) ∨
      ∃ e, decode_oriented code = .error (.err e) ∧ StreamError e := by
  unfold decode_oriented
  rcases decode_stream_cases h h9 with ⟨md, cs, e, e'⟩ | ⟨e, e1, e2⟩
  · rw [e]; exact .inl ⟨md, cs, rfl, e'⟩
  · rw [e1]
    rcases decode_stream_cases h.mirrored h9 with ⟨md, cs, f, f'⟩ | ⟨e', f1, f2⟩
    · rw [f]; exact .inl ⟨md, cs, rfl, f'⟩
    · rw [f1]; exact .inr ⟨e, rfl, e2⟩

/-- `decode` in terms of the description of payload decoding. -/
theorem decode_eq (W : Writer σ) (code : BitGrid) (w : σ) : decode W code w =
    match decode_oriented code with
    | .error f => (.error f, w)
    | .ok (md, cs) =>
      match runChunks W w (tPayload md.version cs.rest).1 with
      | (false, w') => (.error (.err .IoError), w')
      | (true, w') =>
        match (tPayload md.version cs.rest).2 with
        | .ok _ => (.ok md, w')
        | .error e => (.error e, w') := by
  unfold decode
  cases h : decode_oriented code with
  | error f => rfl
  | ok p =>
    obtain ⟨md, cs⟩ := p
    dsimp only
    rw [decode_payload_eq W md cs (decode_oriented_wf h).2.2.2.2]
    cases runChunks W w (tPayload md.version cs.rest).1 with
    | mk b w' =>
      cases b with
      | false => rfl
      | true =>
        dsimp only
        cases (tPayload md.version cs.rest).2 <;> rfl

/-- The outcomes of decoding a complete grid. -/
theorem decode_cases {code : BitGrid} {m : Nat → Nat → Bool} (h : Shows code m) (h9 : 9 ≤ code.size) (W : Writer σ) (w : σ) :
    (∃ md, (decode W code w).1 = .ok md ∧ md.version = (code.size - 17) / 4) ∨ ∃ e, (decode W code w).1 = .error (.err e) ∧
      (StreamError e ∨ e = .DataUnderflow ∨ e = .UnknownDataType ∨ e = .IoError) := by
  rw [decode_eq]
  rcases decode_oriented_cases h h9 with ⟨md, cs, e, e', _⟩ | ⟨e, e1, e2⟩
  · rw [e]
    dsimp only
    have he := tLoop_errors md.version (cs.rest.length + 1) cs.rest (by omega)
    unfold tPayload
    cases runChunks W w (tLoop md.version (cs.rest.length + 1) cs.rest).1 with
    | mk b w' =>
      cases b with
      | false => exact .inr ⟨_, rfl, .inr (.inr (.inr rfl))⟩
      | true =>
        dsimp only
        cases hr : (tLoop md.version (cs.rest.length + 1) cs.rest).2 with
        | ok a => exact .inl ⟨md, rfl, e'⟩
        | error f =>
          rw [hr] at he
          rcases he with rfl | rfl
          · exact .inr ⟨_, rfl, .inr (.inl rfl)⟩
          · exact .inr ⟨_, rfl, .inr (.inr (.inl rfl))⟩
  · rw [e1]
    exact .inr ⟨e, rfl, .inl e2⟩

/-- Equal contents, equal raw reading. -/
theorem get_raw_congr {code code' : BitGrid} {m : Nat → Nat → Bool} (h : Shows code m) (h' : Shows code' m)
    (hs : code.size = code'.size) (h9 : 9 ≤ code.size) (rm : Bool) : get_raw code rm = get_raw code' rm := by
  have hf : read_format code = read_format code' := by
    rw [read_format_eq h h9, read_format_eq h' (by omega), hs]
  rcases get_raw_eq h h9 rm with ⟨md, ds, e1, e2, _, _, _, _, _, _, _, g1⟩ | ⟨e, e1, e2, _⟩
  · rcases get_raw_eq h' (hs ▸ h9) rm with ⟨md', ds', f1, f2, _, _, _, _, _, _, _, g2⟩ | ⟨e, _, f2, _⟩
    · rw [← hf, e2] at f2; cases f2
      rw [← hs] at g2
      rw [e1, f1, g1.unique g2]
    · rw [← hf, e2] at f2; cases f2
  · rcases get_raw_eq h' (hs ▸ h9) rm with ⟨md', ds', f1, f2, _⟩ | ⟨e', f1, f2, _⟩
    · rw [← hf, e2] at f2; cases f2
    · rw [← hf, e2] at f2; cases f2
      rw [e1, f1]

theorem decode_congr {code code' : BitGrid} {m : Nat → Nat → Bool} (h : Shows code m) (h' : Shows code' m)
    (hs : code.size = code'.size) (h9 : 9 ≤ code.size) (W : Writer σ) (w : σ) : decode W code w = decode W code' w := by
  have e1 : decode_stream code = decode_stream code' := by
    unfold decode_stream; rw [get_raw_congr h h' hs h9]
  have e2 : decode_stream (MirroredGrid code) = decode_stream (MirroredGrid code') := by
    unfold decode_stream; rw [get_raw_congr h.mirrored h'.mirrored hs h9]
  unfold decode decode_oriented
  rw [e1, e2]

end Rqrr
