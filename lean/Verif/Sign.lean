import Verif.DH
/-!
# Model of `src/protocol/signstate.c` and `src/backend/ref/sign-ed25519.c`
-/

namespace Noise

/-- The Ed25519 primitives used by `src/backend/ref/sign-ed25519.c:34-89`: `pub priv` is the output
of `ed25519_publickey`, `sign msg priv pub` of `ed25519_sign`, and `openOk msg pub sig` says that
`ed25519_sign_open` returns 0. Parameters here. -/
structure EdFns where
  pub : (priv : Bytes) → Bytes
  sign : (msg priv pub : Bytes) → Bytes
  openOk : (msg pub sig : Bytes) → Bool

/-- The mutable part of `NoiseEd25519State` (`src/backend/ref/sign-ed25519.c:26-32`) and of its
parent `struct NoiseSignState_s` (`src/protocol/internal.h:363-470`); both key arrays have 32 bytes
(lines 29-30 and 97-98). -/
structure SignState where
  keyType : KeyType
  priv : Bytes
  pub : Bytes
  deriving DecidableEq, Repr

/-- A second SignState object: of the same algorithm or of another one
(`src/protocol/signstate.c:614`). -/
inductive SignArg
  | same (s : SignState)
  | foreign

namespace SignState

/-- `noise_ed25519_new`, `src/backend/ref/sign-ed25519.c:91-109`: cleared memory. -/
def new : SignState := ⟨.noKey, List.replicate 32 0, List.replicate 32 0⟩

/-- `noise_signstate_new_by_id`, `src/protocol/signstate.c:67-90`; allocation failure is not
modelled. `0x5301` is `NOISE_SIGN_ED25519`. -/
def newById (id : Int) : Except Err SignState :=
  if id = 0x5301 then .ok new else .error .unknownId

/-- `noise_signstate_has_keypair`, `src/protocol/signstate.c:222-228`. -/
def hasKeypair (s : SignState) : Bool := s.keyType == .keypair

/-- `noise_signstate_has_public_key`, `src/protocol/signstate.c:242-248`. -/
def hasPublicKey (s : SignState) : Bool := s.keyType != .noKey

variable (E : EdFns)

/-- `noise_signstate_generate_keypair`, `src/protocol/signstate.c:264-274`, with
`noise_ed25519_generate_keypair`, `src/backend/ref/sign-ed25519.c:34-41`. -/
def generate (s : SignState) (rnd : Nat → UInt8) : Out (Err × SignState) := do
  let priv ← store s.priv 0 (clamp25519 (randBytes rnd 32))
  let pub ← store s.pub 0 (E.pub priv)
  pure (.none, { keyType := .keypair, priv := priv, pub := pub })

/-- `noise_ed25519_validate_keypair`, `src/backend/ref/sign-ed25519.c:43-53`. -/
def validateKeypair (priv pub : Bytes) : Out Err := do
  let equal ← isEqual (E.pub priv) pub 32
  pure (if equal = 1 then .none else .invalidPublicKey)

/-- `noise_signstate_set_keypair`, `src/protocol/signstate.c:300-324`. -/
def setKeypair (s : SignState) (priv pub : Bytes) : Out (Err × SignState) :=
  if priv.length ≠ 32 then .ok (.invalidLength, s)
  else if pub.length ≠ 32 then .ok (.invalidLength, s)
  else do
    let err ← validateKeypair E priv pub
    if err ≠ .none then pure (err, s)
    else do
      let a ← store s.priv 0 priv
      let b ← store s.pub 0 pub
      pure (.none, { keyType := .keypair, priv := a, pub := b })

/-- `noise_signstate_set_keypair_private`, `src/protocol/signstate.c:351-374`; deriving an Ed25519
public key has no failure (`src/backend/ref/sign-ed25519.c:62-68`). -/
def setKeypairPrivate (s : SignState) (priv : Bytes) : Out (Err × SignState) :=
  if priv.length ≠ 32 then .ok (.invalidLength, s)
  else do
    let b ← store s.pub 0 (E.pub priv)
    let a ← store s.priv 0 priv
    pure (.none, { keyType := .keypair, priv := a, pub := b })

/-- `noise_signstate_get_keypair`, `src/protocol/signstate.c:394-417`; the second component is what
is in the caller's buffers afterwards (`none` = untouched). -/
def getKeypair (s : SignState) (privLen pubLen : Nat) : Out (Err × Option (Bytes × Bytes)) :=
  if privLen ≠ 32 then .ok (.invalidLength, none)
  else if pubLen ≠ 32 then .ok (.invalidLength, none)
  else if s.keyType ≠ .keypair then
    .ok (.invalidState, some (List.replicate privLen 0, List.replicate pubLen 0))
  else do
    let a ← load s.priv 0 privLen
    let b ← load s.pub 0 pubLen
    pure (.none, some (a, b))

/-- `noise_signstate_set_public_key`, `src/protocol/signstate.c:442-463`; the back end accepts any
public key (`src/backend/ref/sign-ed25519.c:55-60`). -/
def setPublicKey (s : SignState) (pub : Bytes) : Out (Err × SignState) :=
  if pub.length ≠ 32 then .ok (.invalidLength, s)
  else do
    let b ← store s.pub 0 pub
    let a ← store s.priv 0 (List.replicate 32 0)
    pure (.none, { keyType := .pubOnly, priv := a, pub := b })

/-- `noise_signstate_get_public_key`, `src/protocol/signstate.c:481-495`. -/
def getPublicKey (s : SignState) (len : Nat) : Out (Err × Option Bytes) :=
  if len ≠ 32 then .ok (.invalidLength, none)
  else if s.keyType = .noKey then .ok (.invalidState, none)
  else do
    let b ← load s.pub 0 len
    pure (.none, some b)

/-- `noise_signstate_clear_key`, `src/protocol/signstate.c:507-520`. -/
def clearKey (s : SignState) : Out (Err × SignState) := do
  let b ← store s.pub 0 (List.replicate 32 0)
  let a ← store s.priv 0 (List.replicate 32 0)
  pure (.none, { keyType := .noKey, priv := a, pub := b })

/-- `noise_signstate_sign`, `src/protocol/signstate.c:544-558`, with `noise_ed25519_sign`,
`src/backend/ref/sign-ed25519.c:70-78`. `sig` is the caller's buffer; its new contents are
returned. -/
def signMsg (s : SignState) (msg sig : Bytes) : Out (Err × Bytes) :=
  if sig.length ≠ 64 then .ok (.invalidLength, sig)
  else if s.keyType ≠ .keypair then .ok (.invalidPrivateKey, sig)
  else do
    let a ← load s.priv 0 32
    let b ← load s.pub 0 32
    let out ← store sig 0 (E.sign msg a b)
    pure (.none, out)

/-- `noise_signstate_verify`, `src/protocol/signstate.c:582-596`, with `noise_ed25519_verify`,
`src/backend/ref/sign-ed25519.c:80-89`. -/
def verifyMsg (s : SignState) (msg sig : Bytes) : Out Err :=
  if sig.length ≠ 64 then .ok .invalidLength
  else if s.keyType = .noKey then .ok .invalidPublicKey
  else do
    let b ← load s.pub 0 32
    pure (if E.openOk msg b sig then .none else .invalidSignature)

/-- `noise_signstate_copy`, `src/protocol/signstate.c:609-624` (for two distinct objects; copying
an object to itself does nothing). -/
def copy (s : SignState) : SignArg → Out (Err × SignState)
  | .foreign => .ok (.notApplicable, s)
  | .same src => do
    let x ← load src.priv 0 32
    let y ← load src.pub 0 32
    let a ← store s.priv 0 x
    let b ← store s.pub 0 y
    pure (.none, { keyType := src.keyType, priv := a, pub := b })

end SignState

/-- A call that can change a SignState (`src/protocol/signstate.c:264-624`). -/
inductive SignOp
  | generate (rnd : Nat → UInt8)
  | setKeypair (priv pub : Bytes)
  | setKeypairPrivate (priv : Bytes)
  | setPublicKey (pub : Bytes)
  | clearKey
  | copy (src : SignArg)

/-- One call: return code and the object afterwards (`src/protocol/signstate.c:264-624`). -/
def SignOp.step (E : EdFns) (s : SignState) : SignOp → Out (Err × SignState)
  | .generate rnd => s.generate E rnd
  | .setKeypair a b => s.setKeypair E a b
  | .setKeypairPrivate a => s.setKeypairPrivate E a
  | .setPublicKey b => s.setPublicKey b
  | .clearKey => s.clearKey
  | .copy src => s.copy src

end Noise
