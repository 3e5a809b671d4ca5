import Verif.Symmetric
import Verif.Patterns
/-!
# Model of `src/protocol/handshakestate.c`
-/

namespace Noise

/-- `NOISE_ACTION_*`, `include/noise/protocol/constants.h:115-120`. -/
inductive Action
  | none | write | read | failed | split | complete
  deriving DecidableEq, Repr

/-- The `requirements` bits, `src/protocol/internal.h:637-649`, one Boolean per bit. -/
structure Reqs where
  localReq : Bool
  remoteReq : Bool
  psk : Bool
  fallbackPre : Bool
  localPre : Bool
  remotePre : Bool
  fallbackPossible : Bool
  deriving DecidableEq, Repr

/-- `struct NoiseHandshakeState_s`, `src/protocol/internal.h:531-590`. The key objects `ls` .. `fe`
belong to the back end `D` selected by `id.dh_id`, the objects `lh`, `rh`, `fh` to the back end
`G` selected by `id.hybrid_id`; `none` is the NULL pointer. `tokens` is the rest of the pattern
table from the token pointer on. `psk = []` when `pre_shared_key_len` is 0 and `prologue = []` when
`prologue_len` is 0. -/
structure HS (HB : HashBackend) (D G : DHBackend) where
  role : Role
  reqs : Reqs
  action : Action
  tokens : Bytes
  sym : SymState HB
  ls : Option (DHState D.Ext)
  le : Option (DHState D.Ext)
  lh : Option (DHState G.Ext)
  rs : Option (DHState D.Ext)
  re : Option (DHState D.Ext)
  rh : Option (DHState G.Ext)
  fe : Option (DHState D.Ext)
  fh : Option (DHState G.Ext)
  psk : Bytes
  prologue : Bytes

/-- `(flags & NOISE_PAT_FLAG_x) != 0`, e.g. `src/protocol/handshakestate.c:64`. -/
def hasFlag (flags f : PatFlags) : Bool := (flags &&& f) != 0

/-- `NOISE_PREFIX_PSK`, `include/noise/protocol/constants.h:103`. -/
def prefixPsk : Int := 0x4E02

/-- `NOISE_PATTERN_XX_FALLBACK`, `include/noise/protocol/constants.h:73`. -/
def patternXXfallback : Int := 0x5010

/-- `NOISE_PATTERN_NN`, `include/noise/protocol/constants.h:61`. -/
def patternNN : Int := 0x5004

/-- `NOISE_PSK_LEN`, `src/protocol/internal.h:53`. -/
def pskLen : Nat := 32

namespace HS

/-- `noise_handshakestate_requirements`, `src/protocol/handshakestate.c:60-84`; the
`FALLBACK_POSSIBLE` bit is not set here. -/
def requirements (flags : PatFlags) (prefixId : Int) (isFallback : Bool) : Reqs where
  localReq := hasFlag flags flagLocalStatic || hasFlag flags flagLocalRequired
  localPre := hasFlag flags flagLocalRequired
  remoteReq := hasFlag flags flagRemoteRequired
  remotePre := hasFlag flags flagRemoteRequired
  fallbackPre := hasFlag flags (flagRemoteEphemReq ||| flagLocalEphemReq) && isFallback
  psk := prefixId == prefixPsk
  fallbackPossible := false

/-- One of the conditional calls of `noise_dhstate_new_by_id` on lines 169-174 and 183-188 of
`src/protocol/handshakestate.c`. Takes and returns the `err` variable. -/
def newObj (D : DHBackend) (cond : Bool) (id : Int) (err : Err) : Err × Option (DHState D.Ext) :=
  if cond = true ∧ err = .none then
    match D.newById id with
    | .ok s => (.none, some s)
    | .error e => (e, none)
  else (err, none)

/-- Lines 175-182 and 189-196 of `src/protocol/handshakestate.c`. `NOISE_DH_NONE` is 0. -/
def newHybrid (G : DHBackend) (cond : Bool) (id : Int) (err : Err) : Err × Option (DHState G.Ext) :=
  if cond = true ∧ err = .none then
    if id ≠ 0 then
      match G.newById id with
      | .ok s => (.none, some s)
      | .error e => (e, none)
    else (.notApplicable, none)
  else if id ≠ 0 then (.notApplicable, none)
  else (err, none)

/-- Lines 210-221 of `src/protocol/handshakestate.c`: the extra checks for ephemeral-only
algorithms; the arguments say which objects exist. -/
def ephemeralOnlyCheck (D : DHBackend) (ls rs le re : Bool) (err : Err) : Err :=
  if err ≠ .none then err
  else if D.ephemeralOnly then
    if ls || rs then .notApplicable
    else if le && !re then .notApplicable
    else if !le && re then .notApplicable
    else .none
  else .none

/-- Lines 129-148 of `src/protocol/handshakestate.c`: the roles of the local and the remote
DHState objects. -/
def dhRoles (flags : PatFlags) (role : Role) : Role × Role :=
  if hasFlag flags flagRemoteEphemReq then (role.flip, role) else (role, role.flip)

variable {HB : HashBackend} {D G : DHBackend}

/-- `noise_handshakestate_new`, `src/protocol/handshakestate.c:102-231`. Allocation failure is not
modelled. On an error after line 151 the C code also leaves a dangling pointer in `*state`
(line 225); the model returns just the error code. -/
def new (sym : SymState HB) (role : Role) : Out (Except Err (HS HB D G)) :=
  match patternLookup sym.id.patternId with
  | none => .ok (.error .unknownId)
  | some pattern => do
    let flags0 ← patternFlags pattern
    let flags := if role = .responder then reverseFlags flags0 else flags0
    let (lr, rr) := dhRoles flags role
    let (err, ls) := newObj D (hasFlag flags flagLocalStatic) sym.id.dhId .none
    let (err, le) := newObj D (hasFlag flags flagLocalEphemeral) sym.id.dhId err
    let (err, lh) := newHybrid G (hasFlag flags flagLocalHybrid) sym.id.hybridId err
    let (err, rs) := newObj D (hasFlag flags flagRemoteStatic) sym.id.dhId err
    let (err, re) := newObj D (hasFlag flags flagRemoteEphemeral) sym.id.dhId err
    let (err, rh) := newHybrid G (hasFlag flags flagRemoteHybrid) sym.id.hybridId err
    let err := ephemeralOnlyCheck D ls.isSome rs.isSome le.isSome re.isSome err
    if err ≠ .none then pure (.error err)
    else pure (.ok {
      role := role
      reqs := { requirements flags sym.id.prefixId false with
                fallbackPossible := hasFlag flags0 flagRemoteRequired }
      action := .none
      tokens := pattern.drop 2
      sym := sym
      ls := ls.map (D.setRole · (some lr))
      le := le.map (D.setRole · (some lr))
      lh := lh
      rs := rs.map (D.setRole · (some rr))
      re := re.map (D.setRole · (some rr))
      rh := rh
      fe := none
      fh := none
      psk := []
      prologue := [] })

/-- `noise_handshakestate_new_by_id`, `src/protocol/handshakestate.c:256-278`; an invalid role
(line 268) is not represented. `stack` is the uninitialised name buffer of
`src/protocol/symmetricstate.c:137`. -/
def newById (CB : CipherBackend) (ctx0 : HB.Ctx) (stack : Bytes) (id : ProtocolId) (role : Role) :
    Out (Except Err (HS HB D G)) := do
  let r ← SymState.newById CB HB ctx0 stack id
  match r with
  | .error e => pure (.error e)
  | .ok sym => new sym role

/-- `noise_handshakestate_new_by_name`, `src/protocol/handshakestate.c:302-324`. -/
def newByName (CB : CipherBackend) (ctx0 : HB.Ctx) (name : Bytes) (role : Role) :
    Out (Except Err (HS HB D G)) :=
  match SymState.newByName CB HB ctx0 name with
  | .error e => .ok (.error e)
  | .ok sym => new sym role

/-- `noise_handshakestate_get_fixed_ephemeral_dh`, `src/protocol/handshakestate.c:458-476`: the new
state and whether a non-NULL pointer is returned. -/
def getFixedE (s : HS HB D G) : HS HB D G × Bool :=
  match s.le with
  | none => (s, false)
  | some l =>
    match s.fe with
    | some _ => (s, true)
    | none =>
      match D.newById s.sym.id.dhId with
      | .error _ => (s, false)
      | .ok f => ({ s with fe := some (D.setRole f l.role) }, true)

/-- `noise_dhstate_get_role(state->dh_local_ephemeral)`, where NULL gives 0:
`src/protocol/handshakestate.c:514`, `src/protocol/dhstate.c:814-817`. -/
def leRole (s : HS HB D G) : Option Role :=
  match s.le with
  | none => none
  | some l => l.role

/-- `noise_handshakestate_get_fixed_hybrid_dh`, `src/protocol/handshakestate.c:494-518`. -/
def getFixedH (s : HS HB D G) : HS HB D G × Bool :=
  match s.lh with
  | none => (s, false)
  | some _ =>
    match s.fh with
    | some _ => (s, true)
    | none =>
      match G.newById s.sym.id.hybridId with
      | .error _ => (s, false)
      | .ok f => ({ s with fh := some (G.setRole f s.leRole) }, true)

/-- `noise_handshakestate_needs_pre_shared_key`, `src/protocol/handshakestate.c:531-537`. -/
def needsPsk (s : HS HB D G) : Bool := s.psk.isEmpty && s.reqs.psk

/-- `noise_handshakestate_has_pre_shared_key`, `src/protocol/handshakestate.c:550-556`. -/
def hasPsk (s : HS HB D G) : Bool := !s.psk.isEmpty

/-- `noise_handshakestate_set_pre_shared_key`, `src/protocol/handshakestate.c:578-595`. -/
def setPsk (s : HS HB D G) (key : Bytes) : Err × HS HB D G :=
  if key.length ≠ pskLen then (.invalidLength, s)
  else if s.sym.id.prefixId ≠ prefixPsk then (.notApplicable, s)
  else if s.action ≠ .none then (.invalidState, s)
  else (.none, { s with psk := key })

/-- `noise_handshakestate_set_prologue`, `src/protocol/handshakestate.c:618-645`; all branches of
the copying code leave a copy of the argument. Allocation failure is not modelled. -/
def setPrologue (s : HS HB D G) (prologue : Bytes) : Err × HS HB D G :=
  if s.action ≠ .none then (.invalidState, s)
  else (.none, { s with prologue := prologue })

/-- `noise_dhstate_has_keypair` on a possibly NULL object, `src/protocol/dhstate.c:247-253`. -/
def hasKeypairP {X : Type} : Option (DHState X) → Bool
  | none => false
  | some s => s.hasKeypair

/-- `noise_dhstate_has_public_key` on a possibly NULL object, `src/protocol/dhstate.c:267-273`. -/
def hasPublicKeyP {X : Type} : Option (DHState X) → Bool
  | none => false
  | some s => s.hasPublicKey

/-- `noise_handshakestate_needs_local_keypair`, `src/protocol/handshakestate.c:663-670`. -/
def needsLocalKeypair (s : HS HB D G) : Bool := s.reqs.localReq && !hasKeypairP s.ls

/-- `noise_handshakestate_needs_remote_public_key`, `src/protocol/handshakestate.c:711-718`. -/
def needsRemotePublicKey (s : HS HB D G) : Bool := s.reqs.remoteReq && !hasPublicKeyP s.rs

/-- `noise_handshakestate_mix_public_key`, `src/protocol/handshakestate.c:748-755`. -/
def mixPublicKey {X : Type} (sym : SymState HB) (dh : Option (DHState X)) : Out (SymState HB) :=
  match dh with
  | none => .ok sym
  | some d =>
    if d.hasPublicKey then do
      let b ← load d.pub 0 d.pubLen
      pure (sym.mixHash b).2
    else .ok sym

/-- `noise_handshakestate_mix_chaining_key`, `src/protocol/handshakestate.c:763-770`. -/
def mixChainingKey {X : Type} (CB : CipherBackend) (sym : SymState HB) (dh : Option (DHState X)) :
    Out (SymState HB) :=
  match dh with
  | none => .ok sym
  | some d =>
    if d.hasPublicKey then do
      let b ← load d.pub 0 d.pubLen
      let r ← sym.mixKey CB b
      pure r.2
    else .ok sym

/-- Lines 832-842 of `src/protocol/handshakestate.c`. If HKDF refused its lengths, `temp` would be
used uninitialised (`ub`). -/
def mixPsk (sym : SymState HB) (psk : Bytes) : Out (SymState HB) :=
  if psk.isEmpty then .ok sym
  else do
    let (err, ctx, ck, temp) ← HB.hkdf sym.ctx sym.ck psk HB.hashLen HB.hashLen
    if err ≠ .none then .ub
    else pure (({ sym with ctx := ctx, ck := ck } : SymState HB).mixHash temp).2

/-- Lines 848-858 and 864-874 of `src/protocol/handshakestate.c`: the fallback pre-message, with the
ephemeral and hybrid objects of the party that sent it. -/
def mixFallback (CB : CipherBackend) (s : HS HB D G) (e : Option (DHState D.Ext))
    (h : Option (DHState G.Ext)) (sym : SymState HB) : Out (SymState HB) :=
  if s.reqs.fallbackPre then do
    let sym ← mixPublicKey sym e
    let sym ← mixPublicKey sym h
    if s.reqs.psk then mixChainingKey CB sym e else pure sym
  else .ok sym

/-- Lines 846-847, 859-860, 862-863, 875-876 of `src/protocol/handshakestate.c`: mix a static
public key if the requirement bit is set. -/
def mixStatic {X : Type} (cond : Bool) (sym : SymState HB) (dh : Option (DHState X)) :
    Out (SymState HB) :=
  if cond then mixPublicKey sym dh else .ok sym

/-- Lines 844-877 of `src/protocol/handshakestate.c`. -/
def mixPreMessages (CB : CipherBackend) (s : HS HB D G) (sym : SymState HB) : Out (SymState HB) :=
  match s.role with
  | .initiator => do
    let sym ← mixStatic s.reqs.localPre sym s.ls
    let sym ← mixFallback CB s s.re s.rh sym
    mixStatic s.reqs.remotePre sym s.rs
  | .responder => do
    let sym ← mixStatic s.reqs.remotePre sym s.rs
    let sym ← mixFallback CB s s.le s.lh sym
    mixStatic s.reqs.localPre sym s.ls

/-- `noise_handshakestate_start`, `src/protocol/handshakestate.c:800-885`. -/
def start (CB : CipherBackend) (s : HS HB D G) : Out (Err × HS HB D G) :=
  if s.action ≠ .none then .ok (.invalidState, s)
  else if s.sym.id.patternId = patternXXfallback ∧ s.reqs.fallbackPre = false then
    .ok (.notApplicable, s)
  else if s.reqs.localReq = true ∧ hasKeypairP s.ls = false then .ok (.localKeyRequired, s)
  else if s.reqs.remoteReq = true ∧ hasPublicKeyP s.rs = false then .ok (.remoteKeyRequired, s)
  else if s.reqs.psk = true ∧ s.psk.isEmpty = true then .ok (.pskRequired, s)
  else do
    let sym ← mixPsk (s.sym.mixHash s.prologue).2 s.psk
    let sym ← mixPreMessages CB s sym
    pure (.none, { s with
      sym := sym
      action := match s.role with
        | .initiator => .write
        | .responder => .read })

/-- `noise_dhstate_clear_key` on a possibly NULL object, `src/protocol/dhstate.c:622-635`. -/
def clearOpt (D : DHBackend) : Option (DHState D.Ext) → Out (Option (DHState D.Ext))
  | none => .ok none
  | some s => do
    let s' ← D.clearKey s
    pure (some s')

/-- Lines 1001-1024 of `src/protocol/handshakestate.c`: is the state one fallback is possible
from? -/
def fallbackAllowed (s : HS HB D G) : Bool :=
  match s.role with
  | .initiator => (s.action == .failed || s.action == .read) && hasPublicKeyP s.le &&
      (s.lh.isNone || hasPublicKeyP s.lh)
  | .responder => (s.action == .failed || s.action == .write) && hasPublicKeyP s.re &&
      (s.rh.isNone || hasPublicKeyP s.rh)

/-- Lines 1035-1046 of `src/protocol/handshakestate.c`: forget keys that do not survive and
exchange the roles. -/
def fallbackKeys (s : HS HB D G) (flags : PatFlags) : Out (HS HB D G) :=
  match s.role with
  | .initiator => do
    let re ← clearOpt D s.re
    let rh ← clearOpt G s.rh
    let rs ← clearOpt D s.rs
    pure { s with re := re, rh := rh, rs := rs, role := .responder }
  | .responder => do
    let le ← clearOpt D s.le
    let lh ← clearOpt G s.lh
    let rs ← if hasFlag flags flagRemoteRequired then .ok s.rs else clearOpt D s.rs
    pure { s with le := le, lh := lh, rs := rs, role := .initiator }

/-- Lines 1059-1075 of `src/protocol/handshakestate.c`: re-initialise the symmetric state from the
new protocol name. Line 1074 dereferences the cipher object, which is NULL after a split. -/
def fallbackSym (sym : SymState HB) (patternId : Int) (name : Bytes) : Out (SymState HB) :=
  match sym.cipher with
  | none => .ub
  | some c =>
    let r : HB.Ctx × Bytes :=
      if name.length ≤ HB.hashLen then (sym.ctx, name ++ List.replicate (HB.hashLen - name.length) 0)
      else HB.hashOne sym.ctx name
    .ok { id := { sym.id with patternId := patternId }, ctx := r.1, h := r.2, ck := r.2,
          cipher := some { c with hasKey := false, n := 0 } }

/-- `noise_handshakestate_fallback_to`, `src/protocol/handshakestate.c:973-1079`; `fallback`
(line 921) is the case of `patternXXfallback`. `stack` is the uninitialised name buffer of line
975. -/
def fallbackTo (s : HS HB D G) (patternId : Int) (stack : Bytes) : Out (Err × HS HB D G) :=
  if s.sym.id.patternId < patternNN ∨ s.reqs.fallbackPossible = false then .ok (.notApplicable, s)
  else match patternLookup patternId with
  | none => .ok (.notApplicable, s)
  | some pattern => do
    let flags ← patternFlags pattern
    if hasFlag flags flagRemoteEphemReq = false then pure (.notApplicable, s)
    else if s.fallbackAllowed = false then pure (.invalidState, s)
    else do
      let (err, mem) ← protocolIdToName stack { s.sym.id with patternId := patternId }
      if err ≠ .none then pure (err, s)
      else do
        let s1 ← s.fallbackKeys flags
        let sym ← fallbackSym s.sym patternId (mem.takeWhile (· ≠ 0))
        pure (.none, { s1 with
          tokens := pattern.drop 2
          action := .none
          reqs := requirements (if s1.role = .responder then reverseFlags flags else flags)
            s.sym.id.prefixId true
          sym := sym })

/-! ## Messages -/

/-- `noise_handshake_mix_dh`, `src/protocol/handshakestate.c:1128-1138`. `junk` is the contents of
the `alloca` block. A NULL private key is dereferenced on line 1132; a NULL public key is refused by
`noise_dhstate_calculate`. Note that the block is mixed in even if the calculation failed. -/
def mixDh (CB : CipherBackend) (D : DHBackend) (sym : SymState HB) (priv pub : Option (DHState D.Ext))
    (junk : Nat → UInt8) : Out (Err × SymState HB × Option (DHState D.Ext)) :=
  match priv, pub with
  | none, _ => .ub
  | some p, none => do
    let r ← sym.mixKey CB (randBytes junk D.sharedLen)
    pure (.invalidParam, r.2, some p)
  | some p, some q => do
    let (err, shared, p') ← D.calculateApi p (.same q) (randBytes junk D.sharedLen)
    let r ← sym.mixKey CB shared
    pure (err, r.2, some p')

/-- Lines 1191-1202 and 1277-1288 of `src/protocol/handshakestate.c`: generate a fresh key pair, or
copy the fixed one; `noise_dhstate_generate_dependent_keypair` gets a NULL pointer if the remote
object does not exist. -/
def genKey (D : DHBackend) (rnd : Nat → UInt8) (l : DHState D.Ext) (fixed remote : Option (DHState D.Ext)) :
    Out (Err × DHState D.Ext) :=
  match fixed with
  | none => D.generateDependent rnd l (remote.map .same)
  | some f => D.copy { l with keyType := f.keyType } f remote

/-- Lines 1212-1218 and 1475-1481 of `src/protocol/handshakestate.c`. -/
def pskMixKey (CB : CipherBackend) (sym : SymState HB) (pk : Bytes) : Out (Err × SymState HB) :=
  if sym.id.prefixId = prefixPsk then sym.mixKey CB pk else .ok (.none, sym)

/-- Result of processing one token while writing: code, state, the memory from `rest.data` on, and
`rest.size` (`src/protocol/handshakestate.c:1178-1314`). -/
abbrev WTok (HB : HashBackend) (D G : DHBackend) := Err × HS HB D G × Bytes × Nat

/-- Lines 1205-1218 of `src/protocol/handshakestate.c` (the ephemeral key is in place). -/
def writeEKey (CB : CipherBackend) (s : HS HB D G) (l : DHState D.Ext) (rest : Bytes) :
    Out (WTok HB D G) :=
  if rest.length < l.pubLen then .ok (.invalidLength, s, rest, 0)
  else do
    let pk ← load l.pub 0 l.pubLen
    let rest' ← store rest 0 pk
    let (err, sym) ← pskMixKey CB (s.sym.mixHash pk).2 pk
    pure (err, { s with sym := sym }, rest', l.pubLen)

/-- The `e` token, `src/protocol/handshakestate.c:1185-1219`. -/
def writeE (CB : CipherBackend) (rnd : Nat → UInt8) (s : HS HB D G) (rest : Bytes) :
    Out (WTok HB D G) :=
  match s.le with
  | none => .ok (.invalidState, s, rest, 0)
  | some l => do
    let (err, l') ← genKey D rnd l s.fe s.re
    let s1 := { s with le := some l' }
    if err ≠ .none then pure (err, s1, rest, 0)
    else writeEKey CB s1 l' rest

/-- Lines 1224-1233 and 1291-1300 of `src/protocol/handshakestate.c`: add an encrypted public key. -/
def writeEncrypted {X : Type} (CB : CipherBackend) (s : HS HB D G) (l : DHState X) (rest : Bytes) :
    Out (WTok HB D G) :=
  if rest.length < l.pubLen + s.sym.getMacLength CB then .ok (.invalidLength, s, rest, 0)
  else do
    let pk ← load l.pub 0 l.pubLen
    let rest' ← store rest 0 pk
    let (err, sym, b) ← s.sym.encryptAndHash CB { data := rest', size := l.pubLen }
    pure (err, { s with sym := sym }, b.data, b.size)

/-- The `s` token, `src/protocol/handshakestate.c:1220-1233`. -/
def writeS (CB : CipherBackend) (s : HS HB D G) (rest : Bytes) : Out (WTok HB D G) :=
  match s.ls with
  | none => .ok (.invalidState, s, rest, 0)
  | some l => writeEncrypted CB s l rest

/-- The `f` token, `src/protocol/handshakestate.c:1264-1300`. -/
def writeF (CB : CipherBackend) (rnd : Nat → UInt8) (s : HS HB D G) (rest : Bytes) :
    Out (WTok HB D G) :=
  match s.lh, s.rh with
  | none, _ => .ok (.invalidState, s, rest, 0)
  | some _, none => .ok (.invalidState, s, rest, 0)
  | some l, some r => do
    let l := G.setRole l (some (if r.keyType = .noKey then .initiator else .responder))
    let (err, l') ← genKey G rnd l s.fh (some r)
    let s1 := { s with lh := some l' }
    if err ≠ .none then pure (err, s1, rest, 0)
    else writeEncrypted CB s1 l' rest

/-- The `ee` token, `src/protocol/handshakestate.c:1234-1238` and `:1506-1510`. -/
def dhEE (CB : CipherBackend) (junk : Nat → UInt8) (s : HS HB D G) : Out (Err × HS HB D G) := do
  let (err, sym, p) ← mixDh CB D s.sym s.le s.re junk
  pure (err, { s with sym := sym, le := p })

/-- DH with the local ephemeral and the remote static key: `src/protocol/handshakestate.c:1242`,
`:1255`, `:1514`, `:1527`. -/
def dhLeRs (CB : CipherBackend) (junk : Nat → UInt8) (s : HS HB D G) : Out (Err × HS HB D G) := do
  let (err, sym, p) ← mixDh CB D s.sym s.le s.rs junk
  pure (err, { s with sym := sym, le := p })

/-- DH with the local static and the remote ephemeral key: `src/protocol/handshakestate.c:1245`,
`:1252`, `:1517`, `:1524`. -/
def dhLsRe (CB : CipherBackend) (junk : Nat → UInt8) (s : HS HB D G) : Out (Err × HS HB D G) := do
  let (err, sym, p) ← mixDh CB D s.sym s.ls s.re junk
  pure (err, { s with sym := sym, ls := p })

/-- The `ss` token, `src/protocol/handshakestate.c:1259-1263` and `:1531-1535`. -/
def dhSS (CB : CipherBackend) (junk : Nat → UInt8) (s : HS HB D G) : Out (Err × HS HB D G) := do
  let (err, sym, p) ← mixDh CB D s.sym s.ls s.rs junk
  pure (err, { s with sym := sym, ls := p })

/-- The `ff` token, `src/protocol/handshakestate.c:1301-1305` and `:1574-1578`. -/
def dhFF (CB : CipherBackend) (junk : Nat → UInt8) (s : HS HB D G) : Out (Err × HS HB D G) := do
  let (err, sym, p) ← mixDh CB G s.sym s.lh s.rh junk
  pure (err, { s with sym := sym, lh := p })

/-- The Diffie-Hellman tokens and the default case, the same in both directions:
`src/protocol/handshakestate.c:1234-1263`, `:1301-1310` and `:1506-1535`, `:1574-1583`. -/
def dhToken (CB : CipherBackend) (junk : Nat → UInt8) (t : UInt8) (s : HS HB D G) :
    Out (Err × HS HB D G) :=
  if t = tokEe then dhEE CB junk s
  else if t = tokEs then
    match s.role with
    | .initiator => dhLeRs CB junk s
    | .responder => dhLsRe CB junk s
  else if t = tokSe then
    match s.role with
    | .initiator => dhLsRe CB junk s
    | .responder => dhLeRs CB junk s
  else if t = tokSs then dhSS CB junk s
  else if t = tokFf then dhFF CB junk s
  else .ok (.invalidState, s)

/-- The `switch` of lines 1184-1311 of `src/protocol/handshakestate.c`. -/
def writeToken (CB : CipherBackend) (rnd junk : Nat → UInt8) (t : UInt8) (s : HS HB D G)
    (rest : Bytes) : Out (WTok HB D G) :=
  if t = tokE then writeE CB rnd s rest
  else if t = tokS then writeS CB s rest
  else if t = tokF then writeF CB rnd s rest
  else do
    let (err, s') ← dhToken CB junk t s
    pure (err, s', rest, 0)

/-- The loop of lines 1161-1316 of `src/protocol/handshakestate.c`. `mem` is the memory of the
message buffer and `size` its `size` field; running off the end of the token table is undefined.
`rnd k` and `junk k` are the random and the uninitialised bytes met when `k` tokens are left. -/
def writeLoop (CB : CipherBackend) (rnd junk : Nat → Nat → UInt8) :
    Bytes → HS HB D G → Bytes → Nat → Out (Err × HS HB D G × Bytes × Nat)
  | [], _, _, _ => .ub
  | t :: ts, s, mem, size =>
    if t = tokEnd then .ok (.none, { s with action := .split }, mem, size)
    else if t = tokFlipDir then .ok (.none, { s with tokens := ts, action := .read }, mem, size)
    else do
      let (err, s', rest, n) ← writeToken CB (rnd ts.length) (junk ts.length) t s (mem.drop size)
      let mem' := mem.take size ++ rest
      if err ≠ .none then pure (err, s', mem', size)
      else writeLoop CB rnd junk ts { s' with tokens := ts } mem' (size + n)

/-- Lines 1318-1340 of `src/protocol/handshakestate.c`. `payload = none` is the NULL pointer;
otherwise it is the `size` bytes of the payload buffer. -/
def writePayload (CB : CipherBackend) (payload : Option Bytes) (s : HS HB D G) (mem : Bytes)
    (size : Nat) : Out (Err × HS HB D G × Bytes × Nat) :=
  let macLen := s.sym.getMacLength CB
  let pl := payload.getD []
  if mem.length - size < macLen then .ok (.invalidLength, s, mem, size)
  else if mem.length - size - macLen < pl.length then .ok (.invalidLength, s, mem, size)
  else do
    let rest ← store (mem.drop size) 0 pl
    let (err, sym, b) ← s.sym.encryptAndHash CB { data := rest, size := pl.length }
    let mem' := mem.take size ++ b.data
    if err ≠ .none then pure (err, { s with sym := sym }, mem', size)
    else pure (.none, { s with sym := sym }, mem', size + b.size)

/-- `noise_handshakestate_write`, `src/protocol/handshakestate.c:1151-1341`. -/
def write (CB : CipherBackend) (rnd junk : Nat → Nat → UInt8) (s : HS HB D G) (mem : Bytes)
    (payload : Option Bytes) : Out (Err × HS HB D G × Bytes × Nat) := do
  let (err, s', mem', size) ← writeLoop CB rnd junk s.tokens s mem 0
  if err ≠ .none then pure (err, s', mem', size)
  else writePayload CB payload s' mem' size

/-- `noise_handshakestate_write_message`, `src/protocol/handshakestate.c:1379-1403`. `mem` is the
memory of the message buffer (`max_size` bytes). Returns the code, the state and the message
buffer. -/
def writeMessage (CB : CipherBackend) (rnd junk : Nat → Nat → UInt8) (s : HS HB D G) (mem : Bytes)
    (payload : Option Bytes) : Out (Err × HS HB D G × Buf) :=
  if s.action ≠ .write then .ok (.invalidState, s, { data := mem, size := 0 })
  else do
    let (err, s', mem', size) ← write CB rnd junk s mem payload
    if err ≠ .none then pure (err, { s' with action := .failed }, { data := mem', size := 0 })
    else pure (.none, s', { data := mem', size := size })

/-- `msg.data += len; msg.size -= len; msg.max_size -= len`, e.g.
`src/protocol/handshakestate.c:1471-1473`. The bytes that are passed are never looked at again. -/
def advance (msg : Buf) (len : Nat) : Buf := { data := msg.data.drop len, size := msg.size - len }

/-- Result of processing one token while reading: code, state and the rest of the message
(`src/protocol/handshakestate.c:1447-1587`). -/
abbrev RTok (HB : HashBackend) (D G : DHBackend) := Err × HS HB D G × Buf

/-- Lines 1464-1481 of `src/protocol/handshakestate.c`. -/
def readEKey (CB : CipherBackend) (s : HS HB D G) (r : DHState D.Ext) (msg : Buf) (len : Nat) :
    Out (RTok HB D G) := do
  let null ← D.isNullPublicKey r
  if null then pure (.invalidPublicKey, s, msg)
  else do
    let pk ← load r.pub 0 len
    let (err, sym) ← pskMixKey CB s.sym pk
    pure (err, { s with sym := sym }, advance msg len)

/-- The `e` token, `src/protocol/handshakestate.c:1449-1482`. -/
def readE (CB : CipherBackend) (s : HS HB D G) (msg : Buf) : Out (RTok HB D G) :=
  match s.re with
  | none => .ok (.invalidState, s, msg)
  | some r =>
    if msg.size < r.pubLen then .ok (.invalidLength, s, msg)
    else do
      let b ← load msg.data 0 r.pubLen
      let (err, sym) := s.sym.mixHash b
      let s1 := { s with sym := sym }
      if err ≠ .none then pure (err, s1, msg)
      else do
        let (err, r') ← D.setPublicKey r b
        let s2 := { s1 with re := some r' }
        if err ≠ .none then pure (err, s2, msg)
        else readEKey CB s2 r' msg r.pubLen

/-- Lines 1487-1500 and 1547-1560 of `src/protocol/handshakestate.c`: decrypt a public key and store
it. Returns the code, the symmetric state, the key object, and `len`. -/
def readEncrypted (CB : CipherBackend) (D : DHBackend) (sym : SymState HB) (r : DHState D.Ext)
    (msg : Buf) : Out (Err × SymState HB × DHState D.Ext × Nat) :=
  let len := r.pubLen + sym.getMacLength CB
  if msg.size < len then .ok (.invalidLength, sym, r, len)
  else do
    let d ← load msg.data 0 len
    let (err, sym', b) ← sym.decryptAndHash CB { data := d, size := len }
    if err ≠ .none then pure (err, sym', r, len)
    else do
      let pk ← load b.data 0 b.size
      let (err, r') ← D.setPublicKey r pk
      pure (err, sym', r', len)

/-- The `s` token, `src/protocol/handshakestate.c:1483-1505`. -/
def readS (CB : CipherBackend) (s : HS HB D G) (msg : Buf) : Out (RTok HB D G) :=
  match s.rs with
  | none => .ok (.invalidState, s, msg)
  | some r => do
    let (err, sym, r', len) ← readEncrypted CB D s.sym r msg
    let s1 := { s with sym := sym, rs := some r' }
    if err ≠ .none then pure (err, s1, msg) else pure (.none, s1, advance msg len)

/-- Lines 1562-1573 of `src/protocol/handshakestate.c`. -/
def readFCheck (s : HS HB D G) (r : DHState G.Ext) (msg : Buf) : Out (RTok HB D G) := do
  let null ← G.isNullPublicKey r
  pure (if null then .invalidPublicKey else .none, s, msg)

/-- The `f` token, `src/protocol/handshakestate.c:1536-1573`. -/
def readF (CB : CipherBackend) (s : HS HB D G) (msg : Buf) : Out (RTok HB D G) :=
  match s.lh, s.rh with
  | none, _ => .ok (.invalidState, s, msg)
  | some _, none => .ok (.invalidState, s, msg)
  | some l, some r => do
    let r := G.setRole r (some (if l.keyType = .noKey then .initiator else .responder))
    let (err, sym, r', len) ← readEncrypted CB G s.sym r msg
    let s1 := { s with sym := sym, rh := some r' }
    if err ≠ .none then pure (err, s1, msg) else readFCheck s1 r' (advance msg len)

/-- The `switch` of lines 1448-1584 of `src/protocol/handshakestate.c`. -/
def readToken (CB : CipherBackend) (junk : Nat → UInt8) (t : UInt8) (s : HS HB D G) (msg : Buf) :
    Out (RTok HB D G) :=
  if t = tokE then readE CB s msg
  else if t = tokS then readS CB s msg
  else if t = tokF then readF CB s msg
  else do
    let (err, s') ← dhToken CB junk t s
    pure (err, s', msg)

/-- The loop of lines 1434-1588 of `src/protocol/handshakestate.c`. -/
def readLoop (CB : CipherBackend) (junk : Nat → Nat → UInt8) :
    Bytes → HS HB D G → Buf → Out (Err × HS HB D G × Buf)
  | [], _, _ => .ub
  | t :: ts, s, msg =>
    if t = tokEnd then .ok (.none, { s with action := .split }, msg)
    else if t = tokFlipDir then .ok (.none, { s with tokens := ts, action := .write }, msg)
    else do
      let (err, s', msg') ← readToken CB (junk ts.length) t s msg
      if err ≠ .none then pure (err, s', msg')
      else readLoop CB junk ts { s' with tokens := ts } msg'

/-- Lines 1590-1601 of `src/protocol/handshakestate.c`. `payload` is the memory of the payload
buffer, `none` for the NULL pointer; the result is the code, the state and the payload buffer. -/
def readPayload (CB : CipherBackend) (payload : Option Bytes) (s : HS HB D G) (msg : Buf) :
    Out (Err × HS HB D G × Option Buf) := do
  let (err, sym, b) ← s.sym.decryptAndHash CB msg
  let s1 := { s with sym := sym }
  if err ≠ .none then pure (err, s1, payload.map (⟨·, 0⟩))
  else match payload with
    | none => pure (.none, s1, none)
    | some p =>
      if b.size > p.length then pure (.invalidLength, s1, some ⟨p, 0⟩)
      else do
        let d ← load b.data 0 b.size
        let p' ← store p 0 d
        pure (.none, s1, some ⟨p', b.size⟩)

/-- `noise_handshakestate_read`, `src/protocol/handshakestate.c:1419-1602`. -/
def read (CB : CipherBackend) (junk : Nat → Nat → UInt8) (s : HS HB D G) (msg : Buf)
    (payload : Option Bytes) : Out (Err × HS HB D G × Option Buf) := do
  let (err, s', msg') ← readLoop CB junk s.tokens s msg
  if err ≠ .none then pure (err, s', payload.map (⟨·, 0⟩))
  else readPayload CB payload s' msg'

/-- `noise_handshakestate_read_message`, `src/protocol/handshakestate.c:1639-1663`. The payload buffer
does not overlap the message. Returns the code, the state, the message buffer and the payload
buffer. Decryption happens inside the first `size` bytes of the message memory, which line 1659
then clears, so the model does not keep track of what is in them meanwhile. -/
def readMessage (CB : CipherBackend) (junk : Nat → Nat → UInt8) (s : HS HB D G) (msg : Buf)
    (payload : Option Bytes) : Out (Err × HS HB D G × Buf × Option Buf) :=
  if msg.size > msg.maxSize then .ok (.invalidLength, s, msg, payload.map (⟨·, 0⟩))
  else if s.action ≠ .read then .ok (.invalidState, s, msg, payload.map (⟨·, 0⟩))
  else do
    let (err, s', p) ← read CB junk s msg payload
    let data ← store msg.data 0 (List.replicate msg.size 0)
    let m : Buf := { data := data, size := msg.size }
    if err ≠ .none then pure (err, { s' with action := .failed }, m, p)
    else pure (.none, s', m, p)

/-- `noise_handshakestate_split`, `src/protocol/handshakestate.c:1701-1728`. `wantS` / `wantR` say
whether the `send` / `receive` pointers are non-NULL; returns the code, the state, `*send` and
`*receive`. -/
def split (CB : CipherBackend) (s : HS HB D G) (wantS wantR alloc : Bool) :
    Out (Err × HS HB D G × Option CipherState × Option CipherState) :=
  if !wantS && !wantR then .ok (.invalidParam, s, none, none)
  else if s.action ≠ .split then .ok (.invalidState, s, none, none)
  else if s.sym.cipher.isNone then .ok (.invalidState, s, none, none)
  else do
    let (err, sym, a, b) ← match s.role with
      | .responder => s.sym.split CB wantR wantS alloc
      | .initiator => s.sym.split CB wantS wantR alloc
    let s' := { s with sym := sym, action := if err = .none then Action.complete else s.action }
    match s.role with
    | .responder => pure (err, s', b, a)
    | .initiator => pure (err, s', a, b)

/-- `noise_handshakestate_get_handshake_hash`, `src/protocol/handshakestate.c:1759-1780`; `maxLen` is
the size of the caller's buffer, whose new contents are returned (`none` = untouched). -/
def getHandshakeHash (s : HS HB D G) (maxLen : Nat) : Out (Err × Option Bytes) :=
  if s.action ≠ .split ∧ s.action ≠ .complete then .ok (.invalidState, none)
  else if HB.hashLen ≤ maxLen then do
    let b ← load s.sym.h 0 HB.hashLen
    pure (.none, some (b ++ List.replicate (maxLen - HB.hashLen) 0))
  else do
    let b ← load s.sym.h 0 maxLen
    pure (.none, some b)

end HS

/-! ## Histories -/

/-- A call on a HandshakeState, or on one of the DHState objects the user can get a pointer to:
the local key pair and remote public key objects (`src/protocol/handshakestate.c:417-442`) and the
two fixed key objects (`:458-518`). `fallbackTo` covers `fallback`. The query functions change
nothing and are omitted. -/
inductive HOp (D G : DHBackend)
  | setPsk (key : Bytes)
  | setPrologue (p : Bytes)
  | localStatic (op : DHOp D)
  | remoteStatic (op : DHOp D)
  | getFixedE
  | fixedE (op : DHOp D)
  | getFixedH
  | fixedH (op : DHOp G)
  | start
  | fallbackTo (patternId : Int) (stack : Bytes)
  | write (rnd junk : Nat → Nat → UInt8) (mem : Bytes) (payload : Option Bytes)
  | read (junk : Nat → Nat → UInt8) (msg : Buf) (payload : Option Bytes)
  | split (wantS wantR alloc : Bool)
  | getHash (maxLen : Nat)

/-- What a caller sees of a call (`src/protocol/handshakestate.c:256-1780`): the return code, the
message or payload buffer, the cipher objects, the hash. Not a definition of the code base. -/
structure HObs where
  err : Err
  buf : Option Buf := none
  payload : Option Buf := none
  send : Option CipherState := none
  recv : Option CipherState := none
  hash : Option Bytes := none
  deriving DecidableEq, Repr

namespace HOp
variable {HB : HashBackend} {D G : DHBackend}

/-- A call on a possibly NULL DHState object (`src/protocol/dhstate.c:289-845`: NULL is refused with
INVALID_PARAM, or ignored). -/
def onDH {D : DHBackend} (o : Option (DHState D.Ext)) (op : DHOp D) :
    Out (Err × Option (DHState D.Ext)) :=
  match o with
  | none => .ok (.invalidParam, none)
  | some s => do
    let (e, s') ← op.step s
    pure (e, some s')

/-- One call (`src/protocol/handshakestate.c:417-1780`). -/
def step (CB : CipherBackend) (s : HS HB D G) : HOp D G → Out (HObs × HS HB D G)
  | .setPsk k => let r := s.setPsk k; .ok ({ err := r.1 }, r.2)
  | .setPrologue p => let r := s.setPrologue p; .ok ({ err := r.1 }, r.2)
  | .localStatic op => do let (e, o) ← onDH s.ls op; pure ({ err := e }, { s with ls := o })
  | .remoteStatic op => do let (e, o) ← onDH s.rs op; pure ({ err := e }, { s with rs := o })
  | .getFixedE => .ok ({ err := .none }, s.getFixedE.1)
  | .fixedE op => do let (e, o) ← onDH s.fe op; pure ({ err := e }, { s with fe := o })
  | .getFixedH => .ok ({ err := .none }, s.getFixedH.1)
  | .fixedH op => do let (e, o) ← onDH s.fh op; pure ({ err := e }, { s with fh := o })
  | .start => do let (e, s') ← s.start CB; pure ({ err := e }, s')
  | .fallbackTo p st => do let (e, s') ← s.fallbackTo p st; pure ({ err := e }, s')
  | .write rnd junk mem pl => do
    let (e, s', b) ← s.writeMessage CB rnd junk mem pl
    pure ({ err := e, buf := some b }, s')
  | .read junk msg pl => do
    let (e, s', b, p) ← s.readMessage CB junk msg pl
    pure ({ err := e, buf := some b, payload := p }, s')
  | .split a b c => do
    let (e, s', x, y) ← s.split CB a b c
    pure ({ err := e, send := x, recv := y }, s')
  | .getHash n => do
    let (e, h) ← s.getHandshakeHash n
    pure ({ err := e, hash := h }, s)

/-- A history of calls (`src/protocol/handshakestate.c:417-1780`): what the caller saw, and the
final state. -/
def run (CB : CipherBackend) : HS HB D G → List (HOp D G) → Out (List HObs × HS HB D G)
  | s, [] => .ok ([], s)
  | s, op :: ops => do
    let (o, s') ← op.step CB s
    let (os, s'') ← run CB s' ops
    pure (o :: os, s'')

end HOp

end Noise
