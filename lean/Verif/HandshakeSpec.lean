import Verif.Spec
import Verif.PatternsSpec
/-!
# The Noise specification's HandshakeState

Written from section 5.3 of the Noise specification (the revision implemented by this library: tokens
`ee`, `es`, `se`, `ss`, pre-shared keys by the `NoisePSK_` prefix) and the `hfs` extension
(tokens `f`, `ff`), independently of the C code.
-/

namespace Noise.Spec

/-- The Diffie-Hellman functions (section 4.1), general enough for the New Hope key exchange: the key
pair generated second may depend on the public key generated first, and the two public keys may have
different lengths (`len false` for the first, `len true` for the second). `dh` is `none` where the
function signals an error, and `reject` says which ephemeral public keys a receiver refuses. -/
structure DH where
  KP : Type
  pub : KP → Bytes
  len : Bool → Nat
  gen : Option Bytes → (Nat → UInt8) → KP
  dh : KP → Bytes → Option Bytes
  reject : Bytes → Bool

/-- Result of a step: success, an error signalled to the caller, or a step the specification does not
define because a key variable is empty. -/
inductive Res (α : Type)
  | ok (a : α)
  | fail
  | stuck

/-- Section 5.3: HandshakeState variables. `psk` says whether the protocol name has the `NoisePSK`
prefix. -/
structure HSt (P Q : DH) where
  role : Role
  psk : Bool
  sym : Sym
  s : Option P.KP
  e : Option P.KP
  f : Option Q.KP
  rs : Option Bytes
  re : Option Bytes
  rf : Option Bytes
  msgs : List (List Tok)

namespace HSt
variable {P Q : DH} (C : Crypto)

/-- `MixKey(DH(key, public))`. -/
def mixDH (D : DH) (sym : Sym) (k : Option D.KP) (pb : Option Bytes) : Res Sym :=
  match k, pb with
  | some k, some pb =>
    match D.dh k pb with
    | some z => .ok (sym.mixKey C z)
    | none => .fail
  | _, _ => .stuck

/-- The symmetric state after the Diffie-Hellman token `t`. -/
def dhSym (t : Tok) (st : HSt P Q) : Res Sym :=
  match t, st.role with
  | .ee, _ => mixDH C P st.sym st.e st.re
  | .es, .initiator => mixDH C P st.sym st.e st.rs
  | .es, .responder => mixDH C P st.sym st.s st.re
  | .se, .initiator => mixDH C P st.sym st.s st.re
  | .se, .responder => mixDH C P st.sym st.e st.rs
  | .ss, _ => mixDH C P st.sym st.s st.rs
  | .ff, _ => mixDH C Q st.sym st.f st.rf
  | _, _ => .stuck

/-- A Diffie-Hellman token. -/
def dhTok (t : Tok) (st : HSt P Q) : Res (HSt P Q) :=
  match dhSym C t st with
  | .ok sym => .ok { st with sym := sym }
  | .fail => .fail
  | .stuck => .stuck

/-- The public ephemeral key is mixed into the hash, and into the chaining key in PSK mode. -/
def mixE (psk : Bool) (sym : Sym) (pk : Bytes) : Sym :=
  if psk then (sym.mixHash C pk).mixKey C pk else sym.mixHash C pk

/-- WriteMessage, one token: the new state and what is appended to the message. `ge` and `gf` stand
for GENERATE_KEYPAIR, possibly depending on the remote ephemeral key. -/
def writeTok (ge : Option Bytes → P.KP) (gf : Option Bytes → Q.KP) (t : Tok) (st : HSt P Q) :
    Res (HSt P Q × Bytes) :=
  match t with
  | .e =>
    let k := ge st.re
    .ok ({ st with e := some k, sym := mixE C st.psk st.sym (P.pub k) }, P.pub k)
  | .s =>
    match st.s with
    | none => .stuck
    | some k =>
      match st.sym.encryptAndHash C (P.pub k) with
      | none => .fail
      | some (sym, ct) => .ok ({ st with sym := sym }, ct)
  | .f =>
    if st.f.isSome then .stuck
    else
      let k := gf st.rf
      match st.sym.encryptAndHash C (Q.pub k) with
      | none => .fail
      | some (sym, ct) => .ok ({ st with f := some k, sym := sym }, ct)
  | t =>
    match dhTok C t st with
    | .ok st' => .ok (st', [])
    | .fail => .fail
    | .stuck => .stuck

/-- ReadMessage, one token: the new state and the rest of the message. -/
def readTok (t : Tok) (st : HSt P Q) (msg : Bytes) : Res (HSt P Q × Bytes) :=
  match t with
  | .e =>
    let n := P.len st.e.isSome
    if msg.length < n then .fail
    else if P.reject (msg.take n) then .fail
    else .ok ({ st with re := some (msg.take n), sym := mixE C st.psk st.sym (msg.take n) }, msg.drop n)
  | .s =>
    let n := P.len false + (if st.sym.c.k.isSome then C.macLen else 0)
    if msg.length < n then .fail
    else
      match st.sym.decryptAndHash C (msg.take n) with
      | none => .fail
      | some (sym, pk) => .ok ({ st with rs := some pk, sym := sym }, msg.drop n)
  | .f =>
    if st.rf.isSome then .stuck
    else
      let n := Q.len st.f.isSome + (if st.sym.c.k.isSome then C.macLen else 0)
      if msg.length < n then .fail
      else
        match st.sym.decryptAndHash C (msg.take n) with
        | none => .fail
        | some (sym, pk) =>
          if Q.reject pk then .fail
          else .ok ({ st with rf := some pk, sym := sym }, msg.drop n)
  | t =>
    match dhTok C t st with
    | .ok st' => .ok (st', msg)
    | .fail => .fail
    | .stuck => .stuck

/-- WriteMessage, the tokens of one message. `ge n` and `gf n` are the GENERATE_KEYPAIR of the token
with `n` tokens after it. -/
def writeToks (ge : Nat → Option Bytes → P.KP) (gf : Nat → Option Bytes → Q.KP) :
    List Tok → HSt P Q → Res (HSt P Q × Bytes)
  | [], st => .ok (st, [])
  | t :: ts, st =>
    match writeTok C (ge ts.length) (gf ts.length) t st with
    | .ok (st', a) =>
      match writeToks ge gf ts st' with
      | .ok (st'', b) => .ok (st'', a ++ b)
      | .fail => .fail
      | .stuck => .stuck
    | .fail => .fail
    | .stuck => .stuck

/-- ReadMessage, the tokens of one message. -/
def readToks : List Tok → HSt P Q → Bytes → Res (HSt P Q × Bytes)
  | [], st, msg => .ok (st, msg)
  | t :: ts, st, msg =>
    match readTok C t st msg with
    | .ok (st', rest) => readToks ts st' rest
    | .fail => .fail
    | .stuck => .stuck

/-- WriteMessage(payload). The message is the concatenation of the two byte strings returned: the
public keys, and the encrypted payload. -/
def writeMessage (ge : Nat → Option Bytes → P.KP) (gf : Nat → Option Bytes → Q.KP) (st : HSt P Q)
    (payload : Bytes) : Res (HSt P Q × Bytes × Bytes) :=
  match st.msgs with
  | [] => .stuck
  | m :: ms =>
    match writeToks C ge gf m st with
    | .ok (st', hdr) =>
      match st'.sym.encryptAndHash C payload with
      | none => .fail
      | some (sym, ct) => .ok ({ st' with sym := sym, msgs := ms }, hdr, ct)
    | .fail => .fail
    | .stuck => .stuck

/-- ReadMessage(message): the new state, the encrypted payload and the payload. -/
def readMessage (st : HSt P Q) (msg : Bytes) : Res (HSt P Q × Bytes × Bytes) :=
  match st.msgs with
  | [] => .stuck
  | m :: ms =>
    match readToks C m st msg with
    | .ok (st', ct) =>
      match st'.sym.decryptAndHash C ct with
      | none => .fail
      | some (sym, pl) => .ok ({ st' with sym := sym, msgs := ms }, ct, pl)
    | .fail => .fail
    | .stuck => .stuck

/-- The public key of kind `t` that party `r` sent in a pre-message, as party `st.role` knows it. -/
def preMsgKey (st : HSt P Q) (r : Role) (t : Tok) : Option Bytes :=
  match t with
  | .s => if r = st.role then st.s.map P.pub else st.rs
  | .e => if r = st.role then st.e.map P.pub else st.re
  | .f => if r = st.role then st.f.map Q.pub else st.rf
  | _ => none

/-- One pre-message public key is mixed into the hash; an ephemeral key also into the chaining key in
PSK mode. -/
def mixPre (psk : Bool) (t : Tok) (pk : Option Bytes) (sym : Sym) : Res Sym :=
  match pk with
  | none => .stuck
  | some pk => .ok (if t = .e then mixE C psk sym pk else sym.mixHash C pk)

/-- All the pre-message public keys of one party. -/
def mixPres (st : HSt P Q) (r : Role) : List Tok → Sym → Res Sym
  | [], sym => .ok sym
  | t :: ts, sym =>
    match mixPre C st.psk t (preMsgKey st r t) sym with
    | .ok sym' => mixPres st r ts sym'
    | .fail => .fail
    | .stuck => .stuck

/-- Initialize(handshake_pattern, initiator, prologue, psk, s, e, rs, re): the key variables and the
role are those of `st`, the rest is set here. `psk = none` when the protocol name has no PSK prefix. -/
def initState (name : Bytes) (p : Pattern) (prologue : Bytes) (psk : Option Bytes) (st : HSt P Q) :
    Res (HSt P Q) :=
  let sym := (initializeSymmetric C name).mixHash C prologue
  let sym := match psk with
    | none => sym
    | some k => ({ sym with ck := (hkdf C sym.ck k).1 } : Sym).mixHash C (hkdf C sym.ck k).2
  let st := { st with psk := psk.isSome, sym := sym, msgs := p.msgs }
  match mixPres C st .initiator p.preI st.sym with
  | .ok sym =>
    match mixPres C st .responder p.preR sym with
    | .ok sym => .ok { st with sym := sym }
    | .fail => .fail
    | .stuck => .stuck
  | .fail => .fail
  | .stuck => .stuck

end HSt
end Noise.Spec
