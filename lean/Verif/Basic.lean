/-!
# Shared vocabulary of the model

Bytes, error codes, the undefined-behaviour outcome and raw memory writes.
-/

namespace Noise

/-- A byte string. C: `uint8_t[]` together with its length. -/
abbrev Bytes := List UInt8

/-- Error codes. Models `include/noise/protocol/constants.h:131-148`
(`NOISE_ERROR_NONE` .. `NOISE_ERROR_INVALID_SIGNATURE`). -/
inductive Err
  | none | noMemory | unknownId | unknownName | macFailure | notApplicable | system
  | remoteKeyRequired | localKeyRequired | pskRequired | invalidLength | invalidParam
  | invalidState | invalidNonce | invalidPrivateKey | invalidPublicKey | invalidFormat
  | invalidSignature
  deriving DecidableEq, Repr, Inhabited

/-- Outcome of running C code: a value, or undefined behaviour (NULL dereference or an
access outside an object). Not a definition of the code base: it is the outcome type the
model uses so that undefined behaviour is visible. -/
inductive Out (α : Type _)
  | ok (a : α)
  | ub
  deriving Repr, DecidableEq

namespace Out
variable {α β γ : Type _}

/-- Sequencing of C statements (`;`), undefined behaviour absorbs. -/
@[inline] protected def bind (x : Out α) (f : α → Out β) : Out β :=
  match x with
  | ok a => f a
  | ub => ub

instance : Monad Out where
  pure := ok
  bind := Out.bind

@[simp] theorem bind_ok (a : α) (f : α → Out β) : (Out.ok a >>= f) = f a := rfl
@[simp] theorem bind_ub (f : α → Out β) : ((Out.ub : Out α) >>= f) = Out.ub := rfl
@[simp] theorem pure_eq (a : α) : (pure a : Out α) = Out.ok a := rfl
@[simp] theorem map_ok (a : α) (f : α → β) : f <$> (Out.ok a) = Out.ok (f a) := rfl

theorem bind_eq_ok {x : Out α} {f : α → Out β} {b : β} :
    (x >>= f) = Out.ok b ↔ ∃ a, x = Out.ok a ∧ f a = Out.ok b := by
  cases x <;> simp

end Out

/-- `memcpy(data + off, src, src_len)` into an object of `data.length` bytes: defined only
when the written range lies inside the object. Models the C library call (and the equivalent
store loops) used throughout, e.g. `src/protocol/handshakestate.c:1180`. -/
def store (data : Bytes) (off : Nat) (src : Bytes) : Out Bytes :=
  if off + src.length ≤ data.length then
    .ok (data.take off ++ src ++ data.drop (off + src.length))
  else .ub

/-- Reading `len` bytes at `off` from an object of `data.length` bytes: defined only when the
range lies inside the object. Models pointer reads such as the `data`, `len` arguments of
`src/protocol/hashstate.c:163-176`. -/
def load (data : Bytes) (off len : Nat) : Out Bytes :=
  if off + len ≤ data.length then .ok ((data.drop off).take len) else .ub

/-- `NOISE_MAX_PAYLOAD_LEN`, `include/noise/protocol/constants.h:151`. -/
def maxPayload : Nat := 65535

/-- A caller-supplied message buffer. Models `NoiseBuffer` in
`include/noise/protocol/buffer.h:33-39`; the memory behind `data` has exactly `max_size`
bytes, so `max_size` is `data.length` (this is the documented contract of the type). -/
structure Buf where
  data : Bytes
  size : Nat
  deriving DecidableEq, Repr

/-- `buffer->max_size`. Models the field in `include/noise/protocol/buffer.h:37`. -/
def Buf.maxSize (b : Buf) : Nat := b.data.length

/-- The bytes the buffer currently holds: the first `size` bytes of `data`
(`include/noise/protocol/buffer.h:33-39`). -/
def Buf.bytes (b : Buf) : Bytes := b.data.take b.size

theorem store_ok {data src : Bytes} {off : Nat} (h : off + src.length ≤ data.length) :
    store data off src = .ok (data.take off ++ src ++ data.drop (off + src.length)) := by
  simp [store, h]

theorem store_length {data src out : Bytes} {off : Nat} (h : store data off src = .ok out) :
    out.length = data.length := by
  unfold store at h
  split at h
  · cases h; simp; omega
  · cases h

theorem load_ok {data : Bytes} {off len : Nat} (h : off + len ≤ data.length) :
    load data off len = .ok ((data.drop off).take len) := by
  simp [load, h]

end Noise
