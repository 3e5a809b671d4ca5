import Verif.ChaCha
import Verif.RandSpec

/-!
Model of `src/protocol/randstate.c`, without libsodium. The operating system is a function `E`: `E r` is what
`noise_rand_bytes` gives for request number `r`. (`noise_rand_bytes` ends the process if it gets no data; that is not
modelled.) `size_t` is a natural number. The fields `reads` and `log` of the state are not in the code: `reads`
counts the requests to the operating system, and `log` records what happened; nothing that the code does depends on
`log`.
-/

namespace Noise.Rand

open ChaCha RandSpec

/-- `NoiseRandState` (src/protocol/randstate.c:67-82). -/
structure State where
  left : Nat
  chacha : Words
  reads : Nat
  log : List Event

/-- `NOISE_RAND_RESEED_COUNT` and `NOISE_RAND_REKEY_COUNT` (src/protocol/randstate.c:85, 88). -/
def reseedCount : Nat := 1600000
def rekeyCount : Nat := 16

/-- `starting_key` (src/protocol/randstate.c:93-98). -/
def startingKey : Bytes := [0x6A, 0x09, 0xE6, 0x67, 0xBB, 0x67, 0xAE, 0x85, 0x3C, 0x6E, 0xF3, 0x72, 0xA5, 0x4F, 0xF5,
  0x3A, 0x51, 0x0E, 0x52, 0x7F, 0x9B, 0x05, 0x68, 0x8C, 0x1F, 0x83, 0xD9, 0xAB, 0x5B, 0xE0, 0xCD, 0x19]

/-- The three statements that replace the key and nonce by the encryption of `data`
(src/protocol/randstate.c:197-199, 210-212 and 238-240). -/
def replace (x : Words) (data : Bytes) : Words :=
  let d := (encryptBytes x data).2
  ivsetup (keysetup d 256) (d.drop 32) none

/-- `noise_randstate_reseed` (src/protocol/randstate.c:177-218), with a state. -/
def reseed (E : Nat → Bytes) (st : State) : State :=
  { left := reseedCount, chacha := replace (replace st.chacha (E st.reads)) (List.replicate 40 0)
    reads := st.reads + 1, log := st.log ++ [.reseed] }

/-- `noise_randstate_rekey` (src/protocol/randstate.c:225-243). -/
def rekey (st : State) : State :=
  { st with chacha := replace st.chacha (List.replicate 40 0), log := st.log ++ [.rekey] }

/-- `noise_randstate_new` (src/protocol/randstate.c:115-135), when memory is available. -/
def new (E : Nat → Bytes) : State := reseed E ⟨0, keysetup startingKey 256, 0, []⟩

/-- The loop of `noise_randstate_generate` (src/protocol/randstate.c:283-309). `buf` is the object that the buffer
points into, `off` the position. The first argument bounds the number of turns; `len` is always enough. -/
def generateLoop (E : Nat → Bytes) : Nat → State → (blocks : Nat) → Bytes → (off len : Nat) → Out (State × Bytes)
  | 0, st, _, buf, _, _ => .ok (st, buf)
  | n + 1, st, blocks, buf, off, len =>
    if len = 0 then .ok (st, buf)
    else
      let tempLen := if len > 64 then 64 else len
      let r := if 64 ≤ st.left then ({ st with left := st.left - 64 }, blocks) else (reseed E st, 0)
      let r := if rekeyCount ≤ r.2 then (rekey r.1, 0) else (r.1, r.2 + 1)
      do
        let m ← load buf off tempLen
        let c := encryptBytes r.1.chacha m
        let buf ← store buf off c.2
        generateLoop E n { r.1 with chacha := c.1, log := r.1.log ++ [.out tempLen] } r.2 buf (off + tempLen)
          (len - tempLen)

/-- `noise_randstate_generate` (src/protocol/randstate.c:263-316) with a state and a buffer. -/
def generate (E : Nat → Bytes) (st : State) (buf : Bytes) (off len : Nat) : Out (State × Bytes) := do
  let buf ← store buf off (List.replicate len 0)
  let st := if st.left < len then reseed E st else st
  let r ← generateLoop E len st 0 buf off len
  pure (rekey r.1, r.2)

/-- `noise_randstate_generate` with pointers that may be NULL. -/
def generateApi (E : Nat → Bytes) (st : Option State) (buf : Option Bytes) (off len : Nat) :
    Out (Err × Option State × Option Bytes) :=
  match buf with
  | none => .ok (.invalidParam, st, none)
  | some buf =>
    match st with
    | none => do
      let buf ← store buf off (List.replicate len 0)
      pure (.invalidParam, none, some buf)
    | some st => do
      let r ← generate E st buf off len
      pure (.none, some r.1, some r.2)

/-- `noise_randstate_pad` (src/protocol/randstate.c:348-375). `zero` stands for `padding_mode == NOISE_PADDING_ZERO`. -/
def pad (E : Nat → Bytes) (st : Option State) (payload : Option Bytes) (origLen paddedLen : Nat) (zero : Bool) :
    Out (Err × Option State × Option Bytes) :=
  match payload with
  | none => .ok (.invalidParam, st, none)
  | some p =>
    match st with
    | none =>
      if paddedLen > origLen then do
        let p ← store p origLen (List.replicate (paddedLen - origLen) 0)
        pure (.invalidParam, none, some p)
      else .ok (.invalidParam, none, some p)
    | some st =>
      if paddedLen ≤ origLen then .ok (.none, some st, some p)
      else if zero then do
        let p ← store p origLen (List.replicate (paddedLen - origLen) 0)
        pure (.none, some st, some p)
      else generateApi E (some st) (some p) origLen (paddedLen - origLen)

/-- `noise_randstate_generate_simple` (src/protocol/randstate.c:391-415) with a buffer; the state on the stack starts like
that of `noise_randstate_new`, and is cleaned at the end. -/
def generateSimple (E : Nat → Bytes) (buf : Bytes) (off len : Nat) : Out Bytes := do
  let r ← generate E (new E) buf off len
  pure r.2

end Noise.Rand
