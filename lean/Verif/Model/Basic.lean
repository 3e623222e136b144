/-
Rust rendering: results, panics, build profile, byte streams.
-/
namespace QuicSea

/-- Rust `u8`, as in src/packet.rs:16. -/
abbrev U8 := BitVec 8
/-- Rust `u16`, as in src/transport_parameters.rs:7. -/
abbrev U16 := BitVec 16
/-- Rust `u32`, as in src/utils.rs:8. -/
abbrev U32 := BitVec 32
/-- Rust `u64`, as in src/connection.rs:17. -/
abbrev U64 := BitVec 64
/-- Rust `u128`, as in src/utils.rs:9. -/
abbrev U128 := BitVec 128
/-- Rust `Vec<u8>` / `&[u8]`, as in src/packet.rs:214. -/
abbrev Bytes := List U8

/-- src/error.rs:1-21, `enum Error`. The `&'static str` is a `String`. -/
inductive Error where
  | noError
  | internalError (msg : String)
  | connectionRefused
  | flowControlError
  | streamLimitError
  | streamStateError
  | finalSizeError
  | frameEncodingError
  | transportParameterError
  | connectionIdLimitError
  | protocolViolation
  | invalidToken
  | applicationError
  | cryptoBufferExceeded
  | keyUpdateError
  | aeadLimitReached
  | noViablePath
deriving DecidableEq, Repr

/-- src/error.rs:23-45, `Error::to_error_byte`. -/
def Error.toErrorByte : Error → U8
  | .noError => 0x00
  | .internalError _ => 0x01
  | .connectionRefused => 0x02
  | .flowControlError => 0x03
  | .streamLimitError => 0x04
  | .streamStateError => 0x05
  | .finalSizeError => 0x06
  | .frameEncodingError => 0x07
  | .transportParameterError => 0x08
  | .connectionIdLimitError => 0x09
  | .protocolViolation => 0x0a
  | .invalidToken => 0x0b
  | .applicationError => 0x0c
  | .cryptoBufferExceeded => 0x0d
  | .keyUpdateError => 0x0e
  | .aeadLimitReached => 0x0f
  | .noViablePath => 0x10

/-- Outcome of a Rust call returning `error::Result<α>` (src/error.rs:47): a value, an error, or a panic
(`unwrap` of an error, `todo!`, `unreachable!`, `assert!`, index out of range, checked overflow).
The panic text is only documentation. -/
inductive Out (α : Type u) where
  | ok (a : α)
  | err (e : Error)
  | panic (why : String)
deriving Repr, DecidableEq

namespace Out
/-- Sequencing: `?` propagates errors, panics unwind (for instance src/packet.rs:270). -/
@[simp] def bind (x : Out α) (f : α → Out β) : Out β :=
  match x with
  | ok a => f a
  | err e => err e
  | panic w => panic w
/-- Do-notation for it, as in src/packet.rs:264-300. -/
instance : Monad Out where
  pure := ok
  bind := bind
@[simp] theorem pure_eq (a : α) : (pure a : Out α) = ok a := rfl
@[simp] theorem bind_eq (x : Out α) (f : α → Out β) : (x >>= f) = x.bind f := rfl

/-- Rust `Result::unwrap`: an error becomes a panic (for instance src/packet.rs:776). -/
@[simp] def unwrap (x : Out α) : Out α :=
  match x with
  | ok a => ok a
  | err _ => panic "called `Result::unwrap()` on an `Err` value"
  | panic w => panic w

/-- The call returned a value, `Ok` of src/error.rs:47. -/
def isOk : Out α → Bool
  | ok _ => true
  | _ => false
/-- The call panicked (for instance src/packet.rs:776). -/
def isPanic : Out α → Bool
  | panic _ => true
  | _ => false
/-- The call returned an error, `Err` of src/error.rs:47. -/
def isErr : Out α → Bool
  | err _ => true
  | _ => false
@[simp] theorem isOk_ok (a : α) : (ok a).isOk = true := rfl
@[simp] theorem isOk_err (e) : (err e : Out α).isOk = false := rfl
@[simp] theorem isOk_panic (w) : (panic w : Out α).isOk = false := rfl
@[simp] theorem isPanic_ok (a : α) : (ok a).isPanic = false := rfl
@[simp] theorem isPanic_err (e) : (err e : Out α).isPanic = false := rfl
@[simp] theorem isPanic_panic (w) : (panic w : Out α).isPanic = true := rfl
@[simp] theorem isErr_ok (a : α) : (ok a).isErr = false := rfl
@[simp] theorem isErr_err (e) : (err e : Out α).isErr = true := rfl
@[simp] theorem isErr_panic (w) : (panic w : Out α).isErr = false := rfl
end Out

/-- Cargo build profile: `debug` checks integer overflow (and panics), `release` wraps. Cargo.toml sets no
profile, so both are the defaults; the arithmetic concerned is src/connection.rs:212-237 and the length differences of src/packet.rs. -/
inductive Profile where
  | debug
  | release
deriving DecidableEq, Repr

/-- Rust `a - b` on `usize` (64-bit platform; `Env.sub` for others): checked in debug, wrapping in release. Used at src/packet.rs:272. -/
def subUsize (bp : Profile) (a b : Nat) : Out Nat :=
  if b ≤ a then .ok (a - b)
  else match bp with
    | .debug => .panic "attempt to subtract with overflow"
    | .release => .ok (2 ^ 64 + a - b)

/-- Rust `a + b` on `u64`: checked in debug, wrapping in release. Used at src/connection.rs:212-237. -/
def addU64 (bp : Profile) (a b : U64) : Out U64 :=
  if a.toNat + b.toNat < 2 ^ 64 then .ok (a + b)
  else match bp with
    | .debug => .panic "attempt to add with overflow"
    | .release => .ok (a + b)

/-- Rust slicing `&xs[..n]`: panics when `n > xs.len()` (for instance src/packet.rs:268). -/
def sliceTo (xs : List α) (n : Nat) : Out (List α) :=
  if n ≤ xs.length then .ok (xs.take n) else .panic "range end index out of range"

/-- Rust slicing `&xs[n..]`: panics when `n > xs.len()` (for instance src/packet.rs:326). -/
def sliceFrom (xs : List α) (n : Nat) : Out (List α) :=
  if n ≤ xs.length then .ok (xs.drop n) else .panic "range start index out of range"

/-- `T: Iterator<Item = error::Result<u8>>`, modelled as the finite list of items it will still yield.
Cloning such an iterator is copying the list. Simplification: infinite and non-fused iterators are excluded
(every iterator in the crate is a mapped slice iterator, src/utils.rs:487-491). -/
abbrev Stream := List (Except Error U8)

/-- Decidable equality of stream items, only used to evaluate concrete examples. -/
instance [DecidableEq ε] [DecidableEq α] : DecidableEq (Except ε α)
  | .ok a, .ok b => if h : a = b then .isTrue (h ▸ rfl) else .isFalse fun e => h (Except.ok.inj e)
  | .error a, .error b => if h : a = b then .isTrue (h ▸ rfl) else .isFalse fun e => h (Except.error.inj e)
  | .ok _, .error _ => .isFalse nofun
  | .error _, .ok _ => .isFalse nofun

/-- src/utils.rs:487-491 `make_result_stream`. -/
def makeResultStream (bs : Bytes) : Stream := bs.map Except.ok

/-- A function taking `&mut T` for a stream `T`: outcome together with what is left of the stream
(for instance src/utils.rs:426-443). -/
def Rd (α : Type u) := Stream → Out α × Stream

namespace Rd
/-- `Ok(a)`, as at src/utils.rs:442. -/
@[simp] def pure (a : α) : Rd α := fun s => (.ok a, s)
/-- `let a = m(stream)?; f(a, stream)`, as at src/utils.rs:461-462. -/
@[simp] def bind (m : Rd α) (f : α → Rd β) : Rd β := fun s =>
  match m s with
  | (.ok a, s') => f a s'
  | (.err e, s') => (.err e, s')
  | (.panic w, s') => (.panic w, s')
/-- Do-notation for it, as in src/utils.rs:457-465. -/
instance : Monad Rd where
  pure := Rd.pure
  bind := Rd.bind

/-- Run a computation that does not touch the stream (for instance src/packet.rs:268). -/
def lift (x : Out α) : Rd α := fun s => (x, s)
/-- `stream.clone()`, as at src/packet.rs:775. -/
def cloned : Rd Stream := fun s => (.ok s, s)
/-- `return Err(e)`, as at src/utils.rs:131. -/
def fail (e : Error) : Rd α := fun s => (.err e, s)
end Rd

/-- `stream.next().unwrap_or(Err(Error::InternalError(msg)))?`, as at src/utils.rs:223-225. -/
def nextOr (msg : String) : Rd U8 := fun s =>
  match s with
  | [] => (.err (.internalError msg), [])
  | .ok b :: s' => (.ok b, s')
  | .error e :: s' => (.err e, s')

end QuicSea
