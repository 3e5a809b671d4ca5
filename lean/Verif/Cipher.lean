import Verif.Basic
/-!
# Model of `src/protocol/cipherstate.c`
-/

namespace Noise

/-- A cipher back end: the constants and function pointers of `struct NoiseCipherState_s`
(`src/protocol/internal.h:58-149`). `enc key n ad pt` is what `(*state->encrypt)` leaves in
the `len + mac_len` bytes at `data` when called with `len = pt.length`; `dec key n ad ct` is
what `(*state->decrypt)` leaves in the `len + mac_len = ct.length` bytes at `data`. Both also
give the return code. The key schedule set up by `init_key` is a function of the key, so the
key itself stands for it. -/
structure CipherBackend where
  cipherId : Nat
  keyLen : Nat
  macLen : Nat
  enc : (key : Bytes) → (n : UInt64) → (ad pt : Bytes) → Err × Bytes
  dec : (key : Bytes) → (n : UInt64) → (ad ct : Bytes) → Err × Bytes

/-- What the protocol layer relies on from a cipher back end. Proved for the reference
back ends in `Verif.ChaChaPoly` and `Verif.AesGcm`. Not a definition of the code base. -/
structure CipherBackend.Lawful (B : CipherBackend) : Prop where
  macLen_le : B.macLen ≤ maxPayload
  /-- `encrypt` writes exactly the ciphertext and the MAC. -/
  enc_length : ∀ k n ad pt, (B.enc k n ad pt).2.length = pt.length + B.macLen
  /-- `decrypt` works in place. -/
  dec_length : ∀ k n ad ct, (B.dec k n ad ct).2.length = ct.length
  /-- `encrypt` has no failure of its own. -/
  enc_ok : ∀ k n ad pt, (B.enc k n ad pt).1 = .none
  /-- A rejected ciphertext is left alone. -/
  dec_inert : ∀ k n ad ct, (B.dec k n ad ct).1 ≠ .none → (B.dec k n ad ct).2 = ct
  /-- Decryption inverts encryption. -/
  dec_enc : ∀ k n ad pt, (B.dec k n ad (B.enc k n ad pt).2).1 = .none ∧
      (B.dec k n ad (B.enc k n ad pt).2).2.take pt.length = pt

/-- The mutable part of `struct NoiseCipherState_s` (`src/protocol/internal.h:58-149`). -/
structure CipherState where
  hasKey : Bool
  key : Bytes
  n : UInt64
  deriving DecidableEq, Repr

/-- A fresh object: `noise_new` clears the memory. Models
`src/protocol/cipherstate.c:77-104` together with `src/backend/ref/cipher-chachapoly.c:145-158`. -/
def CipherState.new : CipherState := ⟨false, [], 0⟩

/-- Record of one invocation of a back end function, kept so that statements about nonce use
can be made; it has no counterpart in the C text (ghost output of
`src/protocol/cipherstate.c:325` and `:400-401`). -/
inductive Call
  | enc (key : Bytes) (n : UInt64)
  | dec (key : Bytes) (n : UInt64) (err : Err)
  deriving DecidableEq, Repr

/-- Result of an operation on a CipherState and a buffer: return code, new state, new buffer,
and the back end invocations made (ghost). Not a definition of the code base. -/
structure CRes where
  err : Err
  st : CipherState
  buf : Buf
  calls : List Call
  deriving DecidableEq, Repr

namespace CipherState

/-- `noise_cipherstate_init_key`, `src/protocol/cipherstate.c:221-235`. -/
def initKey (B : CipherBackend) (s : CipherState) (key : Bytes) : Err × CipherState :=
  if key.length ≠ B.keyLen then (.invalidLength, s)
  else (.none, { hasKey := true, key := key, n := 0 })

/-- `noise_cipherstate_encrypt_with_ad`, `src/protocol/cipherstate.c:293-333`. The test on
line 313 is written `size > 65535 - mac_len` in C; `mac_len` is a small constant. -/
def encryptWithAd (B : CipherBackend) (s : CipherState) (ad : Bytes) (b : Buf) : Out CRes :=
  if b.size > b.maxSize then .ok ⟨.invalidLength, s, b, []⟩
  else if !s.hasKey then
    if b.size > maxPayload then .ok ⟨.invalidLength, s, b, []⟩
    else .ok ⟨.none, s, b, []⟩
  else if b.size > maxPayload - B.macLen then .ok ⟨.invalidLength, s, b, []⟩
  else if b.maxSize - b.size < B.macLen then .ok ⟨.invalidLength, s, b, []⟩
  else if s.n = 0xFFFFFFFFFFFFFFFF then .ok ⟨.invalidNonce, s, b, []⟩
  else do
    let pt ← load b.data 0 b.size
    let r := B.enc s.key s.n ad pt
    let data ← store b.data 0 r.2
    let s' := { s with n := s.n + 1 }
    if r.1 ≠ .none then .ok ⟨r.1, s', { b with data := data }, [.enc s.key s.n]⟩
    else .ok ⟨.none, s', { data := data, size := b.size + B.macLen }, [.enc s.key s.n]⟩

/-- `noise_cipherstate_decrypt_with_ad`, `src/protocol/cipherstate.c:373-410`. -/
def decryptWithAd (B : CipherBackend) (s : CipherState) (ad : Bytes) (b : Buf) : Out CRes :=
  if b.size > b.maxSize ∨ b.size > maxPayload then .ok ⟨.invalidLength, s, b, []⟩
  else if !s.hasKey then .ok ⟨.none, s, b, []⟩
  else if b.size < B.macLen then .ok ⟨.invalidLength, s, b, []⟩
  else if s.n = 0xFFFFFFFFFFFFFFFF then .ok ⟨.invalidNonce, s, b, []⟩
  else do
    let ct ← load b.data 0 b.size
    let r := B.dec s.key s.n ad ct
    let data ← store b.data 0 r.2
    if r.1 ≠ .none then .ok ⟨r.1, s, { b with data := data }, [.dec s.key s.n r.1]⟩
    else .ok ⟨.none, { s with n := s.n + 1 }, { data := data, size := b.size - B.macLen },
      [.dec s.key s.n .none]⟩

/-- `noise_cipherstate_set_nonce`, `src/protocol/cipherstate.c:518-535`. -/
def setNonce (s : CipherState) (nonce : UInt64) : Err × CipherState :=
  if !s.hasKey then (.invalidState, s)
  else if s.n > nonce then (.invalidNonce, s)
  else (.none, { s with n := nonce })

end CipherState

/-- A call a user can make on a CipherState without installing a new key: models the entry
points `src/protocol/cipherstate.c:293-535` (`encrypt` and `decrypt`, lines 452 and 494, are
the `ad = []` cases; the query functions change nothing and are omitted). -/
inductive COp
  | encrypt (ad : Bytes) (buf : Buf)
  | decrypt (ad : Bytes) (buf : Buf)
  | setNonce (n : UInt64)
  deriving DecidableEq, Repr

/-- One call (`src/protocol/cipherstate.c:293-535`): new state and back end invocations. -/
def COp.step (B : CipherBackend) (s : CipherState) : COp → Out (CipherState × List Call)
  | .encrypt ad buf => do let r ← s.encryptWithAd B ad buf; pure (r.st, r.calls)
  | .decrypt ad buf => do let r ← s.decryptWithAd B ad buf; pure (r.st, r.calls)
  | .setNonce n => pure ((s.setNonce n).2, [])

/-- A finite history of calls; returns the final state and all back end invocations in order
(`src/protocol/cipherstate.c:293-535`). -/
def COp.run (B : CipherBackend) : CipherState → List COp → Out (CipherState × List Call)
  | s, [] => pure (s, [])
  | s, op :: ops => do
    let (s', c) ← op.step B s
    let (s'', cs) ← COp.run B s' ops
    pure (s'', c ++ cs)

end Noise
