import Verif.Util
/-!
# Model of `src/protocol/dhstate.c` and of the reference Diffie-Hellman back ends
-/

namespace Noise

/-- `NOISE_ROLE_INITIATOR` / `NOISE_ROLE_RESPONDER`, `include/noise/protocol/constants.h:111-112`. -/
inductive Role
  | initiator | responder
  deriving DecidableEq, Repr

/-- The other role. Not a definition of the code base. -/
def Role.flip : Role → Role
  | .initiator => .responder
  | .responder => .initiator

/-- `NOISE_KEY_TYPE_*`, `src/protocol/internal.h:208-210`. -/
inductive KeyType
  | noKey | keypair | pubOnly
  deriving DecidableEq, Repr

/-- The mutable part of `struct NoiseDHState_s`, `src/protocol/internal.h:215-358`, together with
the memory `private_key` and `public_key` point to. `role = none` is the value 0. `ext` is
the rest of the subclass state (`src/backend/ref/dh-newhope.c:29-37`). -/
structure DHState (X : Type) where
  role : Option Role
  keyType : KeyType
  privLen : Nat
  pubLen : Nat
  priv : Bytes
  pub : Bytes
  ext : X
  deriving DecidableEq, Repr

/-- What `noise_rand_bytes(p, n)` leaves at `p`, as a function of the source of random data
(`src/protocol/randstate.c:379-414` is modelled in `Verif.Rand`; here any bytes are possible). -/
def randBytes (rnd : Nat → UInt8) (n : Nat) : Bytes := (List.range n).map rnd

@[simp] theorem randBytes_length (rnd : Nat → UInt8) (n : Nat) : (randBytes rnd n).length = n := by
  simp [randBytes]

/-- A Diffie-Hellman back end: the constants and function pointers of
`struct NoiseDHState_s` (`src/protocol/internal.h:215-358`). `calculate` also returns the private
key object, because `src/backend/ref/dh-newhope.c:130` writes to it. The `other` argument of
`generate` and `copy` is `none` for the NULL pointer. -/
structure DHBackend where
  dhId : Int
  ephemeralOnly : Bool
  nullsAllowed : Bool
  sharedLen : Nat
  Ext : Type
  init : DHState Ext
  generate : (rnd : Nat → UInt8) → DHState Ext → Option (DHState Ext) → Out (Err × DHState Ext)
  setKeypair : DHState Ext → (priv pub : Bytes) → Out (Err × DHState Ext)
  setKeypairPrivate : DHState Ext → (priv : Bytes) → Out (Err × DHState Ext)
  validate : DHState Ext → (pub : Bytes) → Err
  copy : DHState Ext → (src : DHState Ext) → (other : Option (DHState Ext)) →
    Out (Err × DHState Ext)
  calculate : (p q : DHState Ext) → Out (Err × Bytes × DHState Ext)
  changeRole : DHState Ext → DHState Ext

/-- A non-NULL DHState pointer passed next to an object of back end `D`: an object of the same
algorithm, or of another one (`src/protocol/dhstate.c:339`, `:695`, `:737`). -/
inductive DHArg (D : DHBackend)
  | same (s : DHState D.Ext)
  | foreign

namespace DHState
variable {X : Type}

/-- `noise_dhstate_has_keypair`, `src/protocol/dhstate.c:247-253`. -/
def hasKeypair (s : DHState X) : Bool := s.keyType == .keypair

/-- `noise_dhstate_has_public_key`, `src/protocol/dhstate.c:267-273`. -/
def hasPublicKey (s : DHState X) : Bool := s.keyType != .noKey

end DHState

namespace DHBackend
variable (D : DHBackend)

/-- `noise_dhstate_new_by_id`, `src/protocol/dhstate.c:67-98`, restricted to the back end `D`: any
identifier other than its own is reported as unknown. Allocation failure is not modelled. -/
def newById (id : Int) : Except Err (DHState D.Ext) :=
  if id = D.dhId then .ok D.init else .error .unknownId

/-- `noise_dhstate_clear_key`, `src/protocol/dhstate.c:622-635`. -/
def clearKey (s : DHState D.Ext) : Out (DHState D.Ext) := do
  let pub ← store s.pub 0 (List.replicate s.pubLen 0)
  let priv ← store s.priv 0 (List.replicate s.privLen 0)
  pure { s with pub := pub, priv := priv, keyType := .noKey }

/-- `noise_dhstate_generate_dependent_keypair`, `src/protocol/dhstate.c:331-347`;
`noise_dhstate_generate_keypair`, `:289-302`, is the case `other = none`. -/
def generateDependent (rnd : Nat → UInt8) (s : DHState D.Ext) (other : Option (DHArg D)) :
    Out (Err × DHState D.Ext) :=
  match other with
  | some .foreign => .ok (.invalidParam, s)
  | none => finish (D.generate rnd s none)
  | some (.same o) => finish (D.generate rnd s (some o))
where
  /-- Lines 343-346 of `src/protocol/dhstate.c`. -/
  finish (r : Out (Err × DHState D.Ext)) : Out (Err × DHState D.Ext) := do
    let (err, s') ← r
    if err = .none then pure (err, { s' with keyType := .keypair }) else pure (err, s')

/-- Lines 389-394 and 435-440 of `src/protocol/dhstate.c`: common tail of the two key pair
setters. -/
def finishSet (r : Out (Err × DHState D.Ext)) : Out (Err × DHState D.Ext) := do
  let (err, s') ← r
  if err ≠ .none then do
    let s'' ← D.clearKey s'
    pure (err, s'')
  else pure (.none, { s' with keyType := .keypair })

/-- `noise_dhstate_set_keypair`, `src/protocol/dhstate.c:373-395`. -/
def setKeypairApi (s : DHState D.Ext) (priv pub : Bytes) : Out (Err × DHState D.Ext) :=
  if priv.length ≠ s.privLen then .ok (.invalidLength, s)
  else if pub.length ≠ s.pubLen then .ok (.invalidLength, s)
  else D.finishSet (D.setKeypair s priv pub)

/-- `noise_dhstate_set_keypair_private`, `src/protocol/dhstate.c:422-441`. -/
def setKeypairPrivateApi (s : DHState D.Ext) (priv : Bytes) : Out (Err × DHState D.Ext) :=
  if priv.length ≠ s.privLen then .ok (.invalidLength, s)
  else D.finishSet (D.setKeypairPrivate s priv)

/-- `noise_dhstate_get_keypair`, `src/protocol/dhstate.c:461-484`; the last two components are
what is in the caller's buffers afterwards (`none` = untouched). -/
def getKeypair (s : DHState D.Ext) (privLen pubLen : Nat) :
    Out (Err × Option (Bytes × Bytes)) :=
  if privLen ≠ s.privLen then .ok (.invalidLength, none)
  else if pubLen ≠ s.pubLen then .ok (.invalidLength, none)
  else if s.keyType ≠ .keypair then
    .ok (.invalidState, some (List.replicate privLen 0, List.replicate pubLen 0))
  else do
    let a ← load s.priv 0 privLen
    let b ← load s.pub 0 pubLen
    pure (.none, some (a, b))

/-- `nulls_allowed & noise_is_zero(key, len)`: lines 523, 605-606 and 705-706 of
`src/protocol/dhstate.c`. -/
def nullKey (key : Bytes) (len : Nat) : Out Nat := do
  let z ← isZero key len
  pure ((if D.nullsAllowed then 1 else 0) &&& z)

/-- `noise_dhstate_set_public_key`, `src/protocol/dhstate.c:510-534`. `err &= (is_null - 1)` is 0
when `is_null` is 1 and `err` when it is 0. -/
def setPublicKey (s : DHState D.Ext) (pub : Bytes) : Out (Err × DHState D.Ext) :=
  if pub.length ≠ s.pubLen then .ok (.invalidLength, s)
  else do
    let isNull ← D.nullKey pub pub.length
    if (if isNull = 1 then Err.none else D.validate s pub) ≠ .none then
      pure (D.validate s pub, s)
    else do
      let priv ← store s.priv 0 (List.replicate s.privLen 0)
      let mem ← store s.pub 0 pub
      pure (.none, { s with priv := priv, pub := mem, keyType := .pubOnly })

/-- `noise_dhstate_get_public_key`, `src/protocol/dhstate.c:550-562`. -/
def getPublicKey (s : DHState D.Ext) (len : Nat) : Out (Err × Option Bytes) :=
  if len ≠ s.pubLen then .ok (.invalidLength, none)
  else do
    let b ← load s.pub 0 len
    pure (.none, some b)

/-- `noise_dhstate_set_null_public_key`, `src/protocol/dhstate.c:576-589`. -/
def setNullPublicKey (s : DHState D.Ext) : Out (Err × DHState D.Ext) :=
  if !D.nullsAllowed then .ok (.invalidParam, s)
  else do
    let pub ← store s.pub 0 (List.replicate s.pubLen 0)
    let priv ← store s.priv 0 (List.replicate s.privLen 0)
    pure (.none, { s with pub := pub, priv := priv, keyType := .pubOnly })

/-- `noise_dhstate_is_null_public_key`, `src/protocol/dhstate.c:602-610`. -/
def isNullPublicKey (s : DHState D.Ext) : Out Bool :=
  if s.keyType ≠ .noKey then do
    let r ← D.nullKey s.pub s.pubLen
    pure (r == 1)
  else .ok false

/-- `noise_cmove_zero`, `src/protocol/dhstate.c:645-657`. -/
def cmoveZero (data : Bytes) (condition : Nat) : Bytes :=
  data.map (· &&& ~~~(0 - UInt8.ofNat condition))

/-- `noise_dhstate_calculate`, `src/protocol/dhstate.c:685-717`. `shared` is the previous contents
of the caller's buffer; its length is `shared_key_len`. Returns the code, the contents of the
buffer afterwards, and the private key object. The back end's output replaces the buffer. -/
def calculateApi (p : DHState D.Ext) (q : DHArg D) (shared : Bytes) :
    Out (Err × Bytes × DHState D.Ext) :=
  match q with
  | .foreign => .ok (.invalidParam, shared, p)
  | .same q =>
    if shared.length ≠ D.sharedLen then .ok (.invalidLength, shared, p)
    else if p.keyType ≠ .keypair then .ok (.invalidPrivateKey, shared, p)
    else do
      let isNull ← D.nullKey q.pub q.pubLen
      let (err, out, p') ← D.calculate p q
      pure (if isNull = 1 then Err.none else err, cmoveZero out isNull, p')

/-- `noise_dhstate_copy`, `src/protocol/dhstate.c:730-748` (for two distinct objects; copying an
object to itself does nothing). -/
def copyApi (s : DHState D.Ext) (src : DHArg D) : Out (Err × DHState D.Ext) :=
  match src with
  | .foreign => .ok (.notApplicable, s)
  | .same src => do
    let (err, s') ← D.copy s src none
    if err ≠ .none then pure (err, s')
    else pure (.none, { s' with keyType := src.keyType })

/-- `noise_dhstate_set_role`, `src/protocol/dhstate.c:835-845`; other role values are refused on
line 839 and not represented. -/
def setRole (s : DHState D.Ext) (role : Option Role) : DHState D.Ext :=
  D.changeRole { s with role := role }

end DHBackend

/-- A call on a DHState that can change it (`src/protocol/dhstate.c:289-845`). `calcWith q` is
`noise_dhstate_calculate` with this object on the private side. -/
inductive DHOp (D : DHBackend)
  | generate (rnd : Nat → UInt8) (other : Option (DHArg D))
  | setKeypair (priv pub : Bytes)
  | setKeypairPrivate (priv : Bytes)
  | setPublicKey (pub : Bytes)
  | setNullPublicKey
  | clearKey
  | copy (src : DHArg D)
  | setRole (role : Option Role)
  | calcWith (q : DHArg D) (shared : Bytes)

/-- One call: return code and the object afterwards (`src/protocol/dhstate.c:289-845`). -/
def DHOp.step {D : DHBackend} (s : DHState D.Ext) : DHOp D → Out (Err × DHState D.Ext)
  | .generate rnd other => D.generateDependent rnd s other
  | .setKeypair a b => D.setKeypairApi s a b
  | .setKeypairPrivate a => D.setKeypairPrivateApi s a
  | .setPublicKey b => D.setPublicKey s b
  | .setNullPublicKey => D.setNullPublicKey s
  | .clearKey => do let s' ← D.clearKey s; pure (.none, s')
  | .copy src => D.copyApi s src
  | .setRole r => .ok (.none, D.setRole s r)
  | .calcWith q sh => do let r ← D.calculateApi s q sh; pure (r.1, r.2.2)

/-! ## The elliptic curve back ends -/

/-- The curve-specific ingredients of `src/backend/ref/dh-curve25519.c:42-124` and
`src/backend/ref/dh-curve448.c:38-126`: `eval secret point` is the output of
`curve25519_donna` / `curve448_eval`, `valid point` the latter's success flag (which depends on
the point only, `src/crypto/curve448/curve448.c:87`, `:243`), `clamp` the bit fixing of
`generate`. The scalar multiplication itself is a parameter. -/
structure CurveFns where
  dhId : Int
  len : Nat
  base : Bytes
  eval : (secret point : Bytes) → Bytes
  valid : (point : Bytes) → Bool
  clamp : Bytes → Bytes

namespace CurveFns
variable (F : CurveFns)

/-- `noise_curve25519_generate_keypair`, `src/backend/ref/dh-curve25519.c:42-51`, and
`noise_curve448_generate_keypair`, `src/backend/ref/dh-curve448.c:38-53`. -/
def generate (rnd : Nat → UInt8) (s : DHState Unit) (_other : Option (DHState Unit)) :
    Out (Err × DHState Unit) := do
  let priv ← store s.priv 0 (F.clamp (randBytes rnd F.len))
  let k ← load priv 0 F.len
  let pub ← store s.pub 0 (F.eval k F.base)
  pure (.none, { s with priv := priv, pub := pub })

/-- `noise_curve25519_set_keypair`, `src/backend/ref/dh-curve25519.c:53-66`, and
`noise_curve448_set_keypair`, `src/backend/ref/dh-curve448.c:55-68`. -/
def setKeypair (s : DHState Unit) (privKey pubKey : Bytes) : Out (Err × DHState Unit) := do
  let temp := F.eval privKey F.base
  let equal ← isEqual temp pubKey F.len
  let priv ← store s.priv 0 privKey
  let pub ← store s.pub 0 pubKey
  pure (if equal = 1 then .none else .invalidPublicKey, { s with priv := priv, pub := pub })

/-- `noise_curve25519_set_keypair_private`, `src/backend/ref/dh-curve25519.c:68-75`, and
`noise_curve448_set_keypair_private`, `src/backend/ref/dh-curve448.c:70-77`. -/
def setKeypairPrivate (s : DHState Unit) (privKey : Bytes) : Out (Err × DHState Unit) := do
  let priv ← store s.priv 0 privKey
  let k ← load priv 0 F.len
  let pub ← store s.pub 0 (F.eval k F.base)
  pure (.none, { s with priv := priv, pub := pub })

/-- `noise_curve25519_copy`, `src/backend/ref/dh-curve25519.c:84-92`, and `noise_curve448_copy`,
`src/backend/ref/dh-curve448.c:86-94`. -/
def copy (s src : DHState Unit) (_other : Option (DHState Unit)) : Out (Err × DHState Unit) := do
  let a ← load src.priv 0 F.len
  let b ← load src.pub 0 F.len
  let priv ← store s.priv 0 a
  let pub ← store s.pub 0 b
  pure (.none, { s with priv := priv, pub := pub })

/-- `noise_curve25519_calculate`, `src/backend/ref/dh-curve25519.c:94-103`, and
`noise_curve448_calculate`, `src/backend/ref/dh-curve448.c:96-105`. -/
def calculate (p q : DHState Unit) : Out (Err × Bytes × DHState Unit) := do
  let a ← load p.priv 0 F.len
  let b ← load q.pub 0 F.len
  pure (if F.valid b then .none else .invalidPublicKey, F.eval a b, p)

/-- `noise_curve25519_new`, `src/backend/ref/dh-curve25519.c:105-124`, and `noise_curve448_new`,
`src/backend/ref/dh-curve448.c:107-126`: the object is cleared memory with the constants set; there
is no `change_role`, and `validate_public_key` accepts everything
(`src/backend/ref/dh-curve25519.c:77-82`). -/
def backend : DHBackend where
  dhId := F.dhId
  ephemeralOnly := false
  nullsAllowed := true
  sharedLen := F.len
  Ext := Unit
  init := { role := none, keyType := .noKey, privLen := F.len, pubLen := F.len,
            priv := List.replicate F.len 0, pub := List.replicate F.len 0, ext := () }
  generate := F.generate
  setKeypair := F.setKeypair
  setKeypairPrivate := F.setKeypairPrivate
  validate := fun _ _ => .none
  copy := F.copy
  calculate := F.calculate
  changeRole := id

end CurveFns

/-- The clamping of `src/backend/ref/dh-curve25519.c:46-47`. -/
def clamp25519 (k : Bytes) : Bytes :=
  (k.set 0 (k.getD 0 0 &&& 0xF8)).set 31 ((k.getD 31 0 &&& 0x7F) ||| 0x40)

/-- The clamping of `src/backend/ref/dh-curve448.c:47-48`. -/
def clamp448 (k : Bytes) : Bytes :=
  (k.set 0 (k.getD 0 0 &&& 0xFC)).set 55 (k.getD 55 0 ||| 0x80)

/-- Curve25519, `src/backend/ref/dh-curve25519.c:29-124`, for a given scalar multiplication. -/
def curve25519 (eval : Bytes → Bytes → Bytes) : CurveFns where
  dhId := 0x4401
  len := 32
  base := 9 :: List.replicate 31 0
  eval := eval
  valid := fun _ => true
  clamp := clamp25519

/-- Curve448, `src/backend/ref/dh-curve448.c:27-126`, for a given scalar multiplication and
success flag. -/
def curve448 (eval : Bytes → Bytes → Bytes) (valid : Bytes → Bool) : CurveFns where
  dhId := 0x4402
  len := 56
  base := 5 :: List.replicate 55 0
  eval := eval
  valid := valid
  clamp := clamp448

/-! ## The New Hope back end -/

/-- `NEWHOPE_SENDABYTES`, `src/crypto/newhope/params.h:13`. -/
def sendABytes : Nat := 1824
/-- `NEWHOPE_SENDBBYTES`, `src/crypto/newhope/params.h:14`. -/
def sendBBytes : Nat := 2048

/-- The subclass fields of `src/backend/ref/dh-newhope.c:29-37` other than the two key arrays:
`generated` and the memory of the `poly private_key` (2048 bytes), of which the responder uses the
first 32 bytes for the shared secret. -/
structure NewHopeExt where
  generated : Bool
  poly : Bytes
  deriving DecidableEq, Repr

/-- The New Hope functions of `src/crypto/newhope/newhope.c:57-125`. `keygen random` gives the
message and the secret polynomial, `sharedb received random` the shared secret and the message,
`shareda sk received` the shared secret. Parameters here. -/
structure NewHopeFns where
  keygen : (random : Bytes) → Bytes × Bytes
  sharedb : (received random : Bytes) → Bytes × Bytes
  shareda : (sk received : Bytes) → Bytes

namespace NewHopeFns
variable (F : NewHopeFns)

/-- The call of `newhope_keygen` on lines 54 and 74 of `src/backend/ref/dh-newhope.c`. -/
def runKeygen (s : DHState NewHopeExt) : Out (DHState NewHopeExt) := do
  let r ← load s.priv 0 64
  let pub ← store s.pub 0 (F.keygen r).1
  let poly ← store s.ext.poly 0 (F.keygen r).2
  pure { s with pub := pub, ext := { generated := true, poly := poly } }

/-- The calls of `newhope_sharedb` on lines 49 and 111 of `src/backend/ref/dh-newhope.c`. -/
def runSharedB (s o : DHState NewHopeExt) : Out (DHState NewHopeExt) := do
  let r ← load s.priv 0 32
  let rec' ← load o.pub 0 sendABytes
  let poly ← store s.ext.poly 0 (F.sharedb rec' r).1
  let pub ← store s.pub 0 (F.sharedb rec' r).2
  pure { s with pub := pub, ext := { generated := true, poly := poly } }

/-- `noise_newhope_generate_keypair`, `src/backend/ref/dh-newhope.c:39-58`. -/
def generate (rnd : Nat → UInt8) (s : DHState NewHopeExt) (other : Option (DHState NewHopeExt)) :
    Out (Err × DHState NewHopeExt) :=
  if s.role = some .responder then
    match other with
    | none => .ok (.invalidState, s)
    | some o =>
      if o.keyType = .noKey then .ok (.invalidState, s)
      else do
        let priv ← store s.priv 0 (randBytes rnd s.privLen)
        let s' ← F.runSharedB { s with priv := priv } o
        pure (.none, s')
  else do
    let priv ← store s.priv 0 (randBytes rnd s.privLen)
    let s' ← F.runKeygen { s with priv := priv }
    pure (.none, s')

/-- `noise_newhope_set_keypair_private`, `src/backend/ref/dh-newhope.c:60-78`. -/
def setKeypairPrivate (s : DHState NewHopeExt) (privKey : Bytes) : Out (Err × DHState NewHopeExt) := do
  let priv ← store s.priv 0 privKey
  if s.role = some .responder then
    pure (.none, { s with priv := priv, pub := List.replicate s.pub.length 0,
                          ext := { s.ext with generated := false } })
  else do
    let s' ← F.runKeygen { s with priv := priv }
    pure (.none, s')

/-- `noise_newhope_copy`, `src/backend/ref/dh-newhope.c:95-116`. The arrays of the two objects have
the same sizes. -/
def copy (s src : DHState NewHopeExt) (other : Option (DHState NewHopeExt)) :
    Out (Err × DHState NewHopeExt) := do
  let priv ← store s.priv 0 src.priv
  let poly ← store s.ext.poly 0 src.ext.poly
  let pub ← store s.pub 0 src.pub
  let s1 : DHState NewHopeExt :=
    { s with priv := priv, pub := pub, ext := { generated := src.ext.generated, poly := poly } }
  match other with
  | none => pure (.none, s1)
  | some o =>
    if s.role = some .responder ∧ src.ext.generated = false ∧ src.keyType = .keypair then do
      let s2 ← F.runSharedB s1 o
      pure (.none, s2)
    else pure (.none, s1)

/-- `noise_newhope_calculate`, `src/backend/ref/dh-newhope.c:118-142`. -/
def calculate (p q : DHState NewHopeExt) : Out (Err × Bytes × DHState NewHopeExt) :=
  if p.role = some .responder then
    if p.ext.generated then do
      let k ← load p.ext.poly 0 32
      pure (.none, k, p)
    else do
      let r ← load p.priv 0 32
      let rec' ← load q.pub 0 sendABytes
      let pub ← store p.pub 0 (F.sharedb rec' r).2
      pure (.none, (F.sharedb rec' r).1, { p with pub := pub })
  else do
    let rec' ← load q.pub 0 sendBBytes
    pure (.none, F.shareda p.ext.poly rec', p)

/-- `noise_newhope_change_role`, `src/backend/ref/dh-newhope.c:144-154`. -/
def changeRole (s : DHState NewHopeExt) : DHState NewHopeExt :=
  if s.role = some .responder then { s with privLen := 32, pubLen := sendBBytes }
  else { s with privLen := 64, pubLen := sendABytes }

/-- `noise_newhope_new`, `src/backend/ref/dh-newhope.c:156-177`; `set_keypair` ignores the public
key (lines 80-86) and `validate_public_key` accepts everything (lines 88-93). -/
def backend : DHBackend where
  dhId := 0x4403
  ephemeralOnly := true
  nullsAllowed := false
  sharedLen := 32
  Ext := NewHopeExt
  init := { role := none, keyType := .noKey, privLen := 64, pubLen := sendABytes,
            priv := List.replicate 64 0, pub := List.replicate 2048 0,
            ext := { generated := false, poly := List.replicate 2048 0 } }
  generate := F.generate
  setKeypair := fun s priv _ => F.setKeypairPrivate s priv
  setKeypairPrivate := F.setKeypairPrivate
  validate := fun _ _ => .none
  copy := F.copy
  calculate := F.calculate
  changeRole := changeRole

end NewHopeFns

end Noise
