/-!
# Model of Rust execution used throughout

Conventions shared by all model files (see DESIGN.md): `Result` errors, panics and endless loops are explicit
values; mutation is state passing.
-/

namespace Rqrr

/-- `DeQRError` (src/lib.rs:290-309). -/
inductive DeQRError where
  | IoError
  | DataUnderflow
  | DataOverflow
  | UnknownDataType
  | DataEcc
  | FormatEcc
  | InvalidVersion
  | InvalidGridSize
  | EncodingError
  deriving DecidableEq, Repr

/-- Ways in which a Rust computation can fail to return `Ok`: it returns `Err(e)`; it panics (failed `assert!`,
index out of bounds, checked arithmetic overflow, division by zero, explicit `panic!`/`unwrap`/`expect`); or the
model's loop fuel is exhausted (endless loop). -/
inductive Fault where
  | err (e : DeQRError)
  | panic
  | diverge
  deriving DecidableEq, Repr

/-- A Rust computation returning `α` (or `DeQRResult<α>`, src/lib.rs:311). -/
abbrev Run (α : Type) := Except Fault α

instance {α : Type} [DecidableEq α] : DecidableEq (Run α) := fun a b =>
  match a, b with
  | .ok x, .ok y => if h : x = y then .isTrue (by rw [h]) else .isFalse (by intro h'; cases h'; exact h rfl)
  | .error x, .error y => if h : x = y then .isTrue (by rw [h]) else .isFalse (by intro h'; cases h'; exact h rfl)
  | .ok _, .error _ => .isFalse (by intro h; cases h)
  | .error _, .ok _ => .isFalse (by intro h; cases h)

namespace Run

/-- Rust `return Err(e)`. -/
def fail {α : Type} (e : DeQRError) : Run α := .error (.err e)

/-- Rust panic. -/
def panic {α : Type} : Run α := .error .panic

/-- Rust `assert!(b)`. -/
def assert (b : Bool) : Run Unit := if b then .ok () else .error .panic

end Run

/-- Rust indexing `l[i]`: panics when out of bounds. -/
def idx {α : Type} (l : List α) (i : Nat) : Run α :=
  match l[i]? with
  | some a => .ok a
  | none => .error .panic

/-- Rust indexed assignment `l[i] = a`: panics when out of bounds. -/
def setIdx {α : Type} (l : List α) (i : Nat) (a : α) : Run (List α) :=
  if i < l.length then .ok (l.set i a) else .error .panic

/-- `usize` subtraction; underflow panics in a checked build. -/
def subU (a b : Nat) : Run Nat := if b ≤ a then .ok (a - b) else .error .panic

/-- Indexing into a fixed-size Rust array `[T; n]`: panics when out of bounds. -/
def aget {α : Type} {n : Nat} (v : Vector α n) (i : Nat) : Run α :=
  if h : i < n then .ok v[i] else .error .panic

/-- Assignment into a fixed-size Rust array `[T; n]`: panics when out of bounds. -/
def aset {α : Type} {n : Nat} (v : Vector α n) (i : Nat) (a : α) : Run (Vector α n) :=
  if h : i < n then .ok (v.set i a) else .error .panic

/-- `for i in l { s = f(i, s) }` with early exit on `Err`/panic. -/
def forList {ι σ : Type} (f : ι → σ → Run σ) : List ι → σ → Run σ
  | [], s => .ok s
  | i :: is, s => f i s >>= forList f is

/-- The remaining `r` iterations of a loop `for i in lo..hi`. -/
def forRangeAux {σ : Type} (hi : Nat) (f : Nat → σ → Run σ) : Nat → σ → Run σ
  | 0, s => .ok s
  | r + 1, s => f (hi - (r + 1)) s >>= forRangeAux hi f r

/-- `for i in lo..hi { s = f(i, s) }` with early exit on `Err`/panic. -/
def forRange {σ : Type} (lo hi : Nat) (s : σ) (f : Nat → σ → Run σ) : Run σ :=
  forRangeAux hi f (hi - lo) s

/-- `while cond(s) { s = body(s) }`, cut off after `fuel` tests of the condition. -/
def whileFuel {σ : Type} (cond : σ → Bool) (body : σ → Run σ) : Nat → σ → Run σ
  | 0, _ => .error .diverge
  | n + 1, s => if cond s then body s >>= whileFuel cond body n else .ok s

/-- `u8`. -/
abbrev Byte := BitVec 8

end Rqrr
