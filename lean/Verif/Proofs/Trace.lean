import Verif.Proofs.Bits

/-!
# Payload decoding as a function of the remaining bits

`T α` describes a payload computation without stream and writer: from the remaining bits to the list of writes it
attempts, and its result. `Sim` relates the model to such a description for every writer.
-/

namespace Rqrr

/-- From the remaining bits to the writes and the result with the bits left. -/
def T (α : Type) : Type := List Bool → List (List Byte) × Except Fault (α × List Bool)

namespace T
variable {α β : Type}

/-- Return. -/
def ret (a : α) : T α := fun bits => ([], .ok (a, bits))
/-- Sequencing. -/
def seq (t : T α) (f : α → T β) : T β := fun bits =>
  match t bits with
  | (cs, .error e) => (cs, .error e)
  | (cs, .ok (a, rest)) => (cs ++ (f a rest).1, (f a rest).2)
instance : Monad T where
  pure := ret
  bind := seq
/-- Fail. -/
def fail (e : Fault) : T α := fun _ => ([], .error e)
/-- Number of bits left. -/
def remaining : T Nat := fun bits => ([], .ok (bits.length, bits))
/-- Take up to `n` bits. -/
def take (n : Nat) : T Nat := fun bits => ([], .ok (natOfBits (bits.take n), bits.drop n))
/-- Write. -/
def write (c : List Byte) : T Unit := fun bits => ([c], .ok ((), bits))
/-- Lift. -/
def lift (r : Run α) : T α := fun bits =>
  match r with
  | .ok a => ([], .ok (a, bits))
  | .error e => ([], .error e)
/-- Repeat. -/
def times (body : T Unit) : Nat → T Unit
  | 0 => ret ()
  | n + 1 => seq body fun _ => times body n

end T

/-- Hand the chunks to the writer until it fails. -/
def runChunks {σ : Type} (W : Writer σ) : σ → List (List Byte) → Bool × σ
  | w, [] => (true, w)
  | w, c :: cs =>
    match W.writeAll w c with
    | (true, w') => runChunks W w' cs
    | (false, w') => (false, w')

theorem runChunks_append {σ : Type} (W : Writer σ) (w : σ) (a b : List (List Byte)) :
    runChunks W w (a ++ b) = match runChunks W w a with
      | (true, w') => runChunks W w' b
      | (false, w') => (false, w') := by
  induction a generalizing w with
  | nil => rfl
  | cons c a ih =>
    rw [List.cons_append, runChunks, runChunks]
    split
    · rw [ih]
    · rfl

/-- `m` behaves as described by `t`, for the writer `W`. -/
def Sim {σ α : Type} (W : Writer σ) (m : PM σ α) (t : T α) : Prop :=
  ∀ (ds : CorrectedDataStream) (w : σ), ds.WF →
    match runChunks W w (t ds.rest).1 with
    | (false, w') => ∃ ds', m (ds, w) = (.error (.err .IoError), (ds', w'))
    | (true, w') =>
      match (t ds.rest).2 with
      | .error e => ∃ ds', m (ds, w) = (.error e, (ds', w'))
      | .ok (a, rest) => ∃ ds', m (ds, w) = (.ok a, (ds', w')) ∧ ds'.WF ∧ ds'.rest = rest

variable {σ α β : Type} {W : Writer σ}

theorem Sim.ret (a : α) : Sim W (PM.ret a) (T.ret a) := by
  intro ds w h
  exact ⟨ds, rfl, h, rfl⟩

theorem Sim.pure (a : α) : Sim W (Pure.pure a) (Pure.pure a) := Sim.ret a

theorem Sim.fail (e : Fault) : Sim W (PM.fail e : PM σ α) (T.fail e) := by
  intro ds w h
  exact ⟨ds, rfl⟩

theorem Sim.seq {m : PM σ α} {t : T α} {f : α → PM σ β} {g : α → T β} (h : Sim W m t) (hf : ∀ a, Sim W (f a) (g a)) :
    Sim W (PM.seq m f) (T.seq t g) := by
  intro ds w hw
  have h1 := h ds w hw
  unfold T.seq PM.seq
  cases ht : t ds.rest with
  | mk cs r =>
    rw [ht] at h1
    simp only at h1
    cases r with
    | error e =>
      dsimp only
      split at h1
      · rename_i w' hc
        obtain ⟨ds', hm⟩ := h1
        exact ⟨ds', by rw [hm]⟩
      · rename_i w' hc
        obtain ⟨ds', hm⟩ := h1
        exact ⟨ds', by rw [hm]⟩
    | ok p =>
      obtain ⟨a, rest⟩ := p
      dsimp only
      rw [runChunks_append]
      split at h1
      · rename_i w' hc
        rw [hc]
        obtain ⟨ds', hm⟩ := h1
        exact ⟨ds', by rw [hm]⟩
      · rename_i w' hc
        rw [hc]
        obtain ⟨ds', hm, hwf, hrest⟩ := h1
        have h2 := hf a ds' w' hwf
        rw [hrest] at h2
        dsimp only
        rw [hm]
        exact h2

theorem Sim.bind {m : PM σ α} {t : T α} {f : α → PM σ β} {g : α → T β} (h : Sim W m t) (hf : ∀ a, Sim W (f a) (g a)) :
    Sim W (m >>= f) (t >>= g) := Sim.seq h hf

theorem Sim.ite {c : Prop} [Decidable c] {m m' : PM σ α} {t t' : T α} (h : Sim W m t) (h' : Sim W m' t') :
    Sim W (if c then m else m') (if c then t else t') := by
  split
  · exact h
  · exact h'

theorem Sim.remaining : Sim W (PM.bits_remaining : PM σ Nat) T.remaining := by
  intro ds w h
  refine ⟨ds, ?_, h, rfl⟩
  unfold PM.bits_remaining
  dsimp only
  rw [bits_remaining_eq ds h]

theorem Sim.take (n : Nat) (hn : n ≤ 64) : Sim W (PM.take_bits n : PM σ Nat) (T.take n) := by
  intro ds w h
  obtain ⟨ds', e1, e2, e3, _⟩ := take_bits_eq ds h n hn
  refine ⟨ds', ?_, e2, e3⟩
  unfold PM.take_bits
  dsimp only
  rw [e1]

theorem Sim.write (c : List Byte) : Sim W (PM.write_all W c) (T.write c) := by
  intro ds w h
  unfold T.write PM.write_all
  dsimp only
  rw [runChunks]
  cases hc : W.writeAll w c with
  | mk b w' =>
    cases b with
    | true => exact ⟨ds, rfl, h, rfl⟩
    | false => exact ⟨ds, rfl⟩

theorem Sim.lift (r : Run α) : Sim W (PM.lift r : PM σ α) (T.lift r) := by
  intro ds w h
  cases r with
  | ok a => exact ⟨ds, rfl, h, rfl⟩
  | error e => exact ⟨ds, rfl⟩

theorem Sim.times {m : PM σ Unit} {t : T Unit} (h : Sim W m t) : ∀ n, Sim W (PM.times m n) (T.times t n)
  | 0 => Sim.ret ()
  | n + 1 => Sim.seq h fun _ => Sim.times h n

/-! ## The payload decoders -/

/-- `decode_eci`. -/
def tEci : T Unit := do
  let rem ← T.remaining
  if rem < 8 then T.fail (.err .DataUnderflow)
  else do
    let eci ← T.take 8
    if eci &&& 0xc0 == 0x80 then do
      let rem ← T.remaining
      if rem < 8 then T.fail (.err .DataUnderflow)
      else do
        let _ ← T.take 8
        pure ()
    else if eci &&& 0xe0 == 0xc0 then do
      let rem ← T.remaining
      if rem < 16 then T.fail (.err .DataUnderflow)
      else do
        let _ ← T.take 16
        pure ()
    else pure ()

theorem sim_eci : Sim W (decode_eci : PM σ Unit) tEci := by
  unfold decode_eci tEci
  refine Sim.bind Sim.remaining fun _ => Sim.ite (Sim.fail _) (Sim.bind (Sim.take 8 (by omega)) fun _ => Sim.ite ?_ (Sim.ite ?_ (Sim.pure _)))
  · exact Sim.bind Sim.remaining fun _ => Sim.ite (Sim.fail _) (Sim.bind (Sim.take 8 (by omega)) fun _ => Sim.pure _)
  · exact Sim.bind Sim.remaining fun _ => Sim.ite (Sim.fail _) (Sim.bind (Sim.take 16 (by omega)) fun _ => Sim.pure _)

/-- One kanji. -/
def tKanjiChar : T Unit := do
  let d ← T.take 13
  let sjw := kanji_word d
  T.write [BitVec.ofNat 8 (sjw >>> 8), BitVec.ofNat 8 (sjw &&& 0xff)]

/-- `decode_kanji`. -/
def tKanji (v : Nat) : T Unit := do
  let count ← T.take (if v ≤ 9 then 8 else if v ≤ 26 then 10 else 12)
  let rem ← T.remaining
  if rem < count * 13 then T.fail (.err .DataUnderflow)
  else T.times tKanjiChar count

theorem sim_kanji (md : MetaData) : Sim W (decode_kanji W md) (tKanji md.version) := by
  unfold decode_kanji tKanji
  exact Sim.bind (Sim.take _ (by split <;> (try split) <;> omega)) fun _ => Sim.bind Sim.remaining fun _ =>
    Sim.ite (Sim.fail _) (Sim.times (Sim.bind (Sim.take 13 (by omega)) fun _ => Sim.write _) _)

/-- One byte. -/
def tByteChar : T Unit := do
  let v ← T.take 8
  T.write [BitVec.ofNat 8 v]

/-- `decode_byte`. -/
def tByte (v : Nat) : T Unit := do
  let count ← T.take (if v ≤ 9 then 8 else 16)
  let rem ← T.remaining
  if rem < count * 8 then T.fail (.err .DataUnderflow)
  else T.times tByteChar count

theorem sim_byte (md : MetaData) : Sim W (decode_byte W md) (tByte md.version) := by
  unfold decode_byte tByte
  exact Sim.bind (Sim.take _ (by split <;> omega)) fun _ => Sim.bind Sim.remaining fun _ =>
    Sim.ite (Sim.fail _) (Sim.times (Sim.bind (Sim.take 8 (by omega)) fun _ => Sim.write _) _)

/-- `alpha_tuple` and `numeric_tuple`. -/
def tTuple (base : Nat) (digit : Nat → Run Byte) (nbits digits : Nat) : T (List Byte) := do
  let rem ← T.remaining
  if rem < nbits then T.fail (.err .DataUnderflow)
  else do
    let tuple ← T.take nbits
    T.lift (tuple_digits base digit digits tuple [])

/-- The digit of `alpha_tuple`. -/
def alphaDigit (d : Nat) : Run Byte := idx ALPHA_MAP d
/-- The digit of `numeric_tuple`. -/
def numDigit (d : Nat) : Run Byte := .ok (BitVec.ofNat 8 d + 0x30#8)

theorem sim_alpha_tuple (nbits digits : Nat) (h : nbits ≤ 64) :
    Sim W (alpha_tuple nbits digits : PM σ (List Byte)) (tTuple 45 alphaDigit nbits digits) :=
  Sim.bind Sim.remaining fun _ => Sim.ite (Sim.fail _) (Sim.bind (Sim.take _ h) fun _ => Sim.lift _)

theorem sim_numeric_tuple (nbits digits : Nat) (h : nbits ≤ 64) :
    Sim W (numeric_tuple nbits digits : PM σ (List Byte)) (tTuple 10 numDigit nbits digits) :=
  Sim.bind Sim.remaining fun _ => Sim.ite (Sim.fail _) (Sim.bind (Sim.take _ h) fun _ => Sim.lift _)

/-- The loop of `decode_alpha`. -/
def tAlphaLoop : Nat → T Unit
  | 0 => pure ()
  | 1 => do
    let buf ← tTuple 45 alphaDigit 6 1
    T.write buf
  | count + 2 => do
    let buf ← tTuple 45 alphaDigit 11 2
    T.write buf
    tAlphaLoop count

theorem sim_alpha_loop : ∀ n, Sim W (alpha_loop W n) (tAlphaLoop n)
  | 0 => by unfold alpha_loop tAlphaLoop; exact Sim.pure _
  | 1 => by
    unfold alpha_loop tAlphaLoop
    exact Sim.bind (sim_alpha_tuple _ _ (by omega)) fun _ => Sim.write _
  | n + 2 => by
    rw [alpha_loop, tAlphaLoop]
    exact Sim.bind (sim_alpha_tuple _ _ (by omega)) fun _ => Sim.bind (Sim.write _) fun _ => sim_alpha_loop n

/-- `decode_alpha`. -/
def tAlpha (v : Nat) : T Unit := do
  let count ← T.take (if v ≤ 9 then 9 else if v ≤ 26 then 11 else 13)
  tAlphaLoop count

theorem sim_alpha (md : MetaData) : Sim W (decode_alpha W md) (tAlpha md.version) := by
  unfold decode_alpha tAlpha
  exact Sim.bind (Sim.take _ (by split <;> (try split) <;> omega)) fun _ => sim_alpha_loop _

/-- The loop of `decode_numeric`. -/
def tNumericLoop : Nat → T Unit
  | 0 => pure ()
  | 1 => do
    let buf ← tTuple 10 numDigit 4 1
    T.write buf
  | 2 => do
    let buf ← tTuple 10 numDigit 7 2
    T.write buf
  | count + 3 => do
    let buf ← tTuple 10 numDigit 10 3
    T.write buf
    tNumericLoop count

theorem sim_numeric_loop : ∀ n, Sim W (numeric_loop W n) (tNumericLoop n)
  | 0 => by unfold numeric_loop tNumericLoop; exact Sim.pure _
  | 1 => by
    unfold numeric_loop tNumericLoop
    exact Sim.bind (sim_numeric_tuple _ _ (by omega)) fun _ => Sim.write _
  | 2 => by
    unfold numeric_loop tNumericLoop
    exact Sim.bind (sim_numeric_tuple _ _ (by omega)) fun _ => Sim.write _
  | n + 3 => by
    rw [numeric_loop, tNumericLoop]
    exact Sim.bind (sim_numeric_tuple _ _ (by omega)) fun _ => Sim.bind (Sim.write _) fun _ => sim_numeric_loop n

/-- `decode_numeric`. -/
def tNumeric (v : Nat) : T Unit := do
  let count ← T.take (if v ≤ 9 then 10 else if v ≤ 26 then 12 else 14)
  tNumericLoop count

theorem sim_numeric (md : MetaData) : Sim W (decode_numeric W md) (tNumeric md.version) := by
  unfold decode_numeric tNumeric
  exact Sim.bind (Sim.take _ (by split <;> (try split) <;> omega)) fun _ => sim_numeric_loop _

/-- The decoder selected by a mode indicator. -/
def tMode (v ty : Nat) : T Unit :=
  match ty with
  | 1 => tNumeric v
  | 2 => tAlpha v
  | 4 => tByte v
  | 8 => tKanji v
  | 7 => tEci
  | _ => T.fail (.err .UnknownDataType)

/-- `payload_loop`. -/
def tLoop (v : Nat) : Nat → T Unit
  | 0 => T.fail .diverge
  | fuel + 1 => do
    let rem ← T.remaining
    if rem ≥ 4 then do
      let ty ← T.take 4
      if ty = 0 then pure ()
      else do
        tMode v ty
        tLoop v fuel
    else pure ()

theorem sim_loop (md : MetaData) : ∀ fuel, Sim W (payload_loop W md fuel) (tLoop md.version fuel)
  | 0 => Sim.fail _
  | fuel + 1 => by
    unfold payload_loop tLoop
    refine Sim.bind Sim.remaining fun _ => Sim.ite (Sim.bind (Sim.take 4 (by omega)) fun ty => Sim.ite (Sim.pure _)
      (Sim.bind ?_ fun _ => sim_loop md fuel)) (Sim.pure _)
    unfold tMode
    split
    · exact sim_numeric md
    · exact sim_alpha md
    · exact sim_byte md
    · exact sim_kanji md
    · exact sim_eci
    · split <;> first | exact Sim.fail _ | (exfalso; simp_all)

end Rqrr
