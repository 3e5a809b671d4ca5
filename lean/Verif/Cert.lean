import Verif.Protobuf
import Verif.CertSpec
/-!
# Model of `src/keys/certificate.c`: writing and reading of objects

The file is generated from `doc/noise-certificate.proto`. Objects are values (`CertSpec.lean`); `_new` and
`_free` are the allocation and release of one object. NULL arguments, refused on entry, are not modelled,
except that NULL items of arrays are passed to the write functions (which refuse them, and the code is
ignored).

An allocation succeeds or fails as an oracle says: `al n` is the outcome of the `n`-th request. The counter is
also advanced when a function that may allocate returns before it does so.

The reading loop need not terminate (see `CertSafe.lean`), so reading has a number of rounds as an argument
and `none` means that they were used up.
-/

namespace Noise
namespace Cert

/-! ## Writing -/

/-- `if (obj->s) noise_protobuf_write_string(pbuf, tag, obj->s, obj->s_size_)`, e.g.
`src/keys/certificate.c:504-505`. -/
def wrString (tag : Int) (s : Option Bytes) (p : PB) : Out PB :=
  match s with
  | none => .ok p
  | some s => do
    let (_, p) ← p.writeString tag s
    pure p

/-- `if (obj->b) noise_protobuf_write_bytes(pbuf, tag, obj->b, obj->b_size_)`, e.g.
`src/keys/certificate.c:853-854`. -/
def wrBytes (tag : Int) (b : Option Bytes) (p : PB) : Out PB :=
  match b with
  | none => .ok p
  | some b => do
    let (_, p) ← p.writeBytes tag b
    pure p

/-- `if (obj->v) noise_protobuf_write_uint32(pbuf, tag, obj->v)`, e.g. `src/keys/certificate.c:162-163`. -/
def wrNum (tag : Int) (v : UInt32) (p : PB) : Out PB :=
  if v ≠ 0 then do
    let (_, p) ← p.writeUInt32 tag v
    pure p
  else .ok p

/-- `if (obj->o) Noise_X_write(pbuf, tag, obj->o)`, e.g. `src/keys/certificate.c:160-161`; also the body of the
loops over arrays, where the write function refuses NULL itself. -/
def wrMsg {α : Type} (write : PB → Int → α → Out (Err × PB)) (tag : Int) (o : Option α) (p : PB) : Out PB :=
  match o with
  | none => .ok p
  | some o => do
    let (_, p) ← write p tag o
    pure p

/-- `for (index = obj->a_count_; index > 0; --index) Noise_X_write(pbuf, tag, obj->a[index - 1])`, e.g.
`src/keys/certificate.c:158-159`. -/
def wrList {α : Type} (write : PB → Int → α → Out (Err × PB)) (tag : Int) : List (Option α) → PB → Out PB
  | [], p => .ok p
  | o :: l, p => do
    let p ← wrList write tag l p
    wrMsg write tag o p

/-- `Noise_PublicKeyInfo_write`, `src/keys/certificate.c:847-858`. -/
def PublicKeyInfo.write (p : PB) (tag : Int) (o : PublicKeyInfo) : Out (Err × PB) := do
  let (_, endPosn) := p.writeEndElement
  let p ← wrBytes 2 o.key p
  let p ← wrString 1 o.algorithm p
  p.writeStartElement tag endPosn

/-- `Noise_PrivateKeyInfo_write`, `src/keys/certificate.c:2450-2461`. -/
def PrivateKeyInfo.write (p : PB) (tag : Int) (o : PrivateKeyInfo) : Out (Err × PB) := do
  let (_, endPosn) := p.writeEndElement
  let p ← wrBytes 2 o.key p
  let p ← wrString 1 o.algorithm p
  p.writeStartElement tag endPosn

/-- `Noise_MetaInfo_write`, `src/keys/certificate.c:1007-1018`. -/
def MetaInfo.write (p : PB) (tag : Int) (o : MetaInfo) : Out (Err × PB) := do
  let (_, endPosn) := p.writeEndElement
  let p ← wrString 2 o.value p
  let p ← wrString 1 o.name p
  p.writeStartElement tag endPosn

/-- `Noise_SubjectInfo_write`, `src/keys/certificate.c:493-511`. -/
def SubjectInfo.write (p : PB) (tag : Int) (o : SubjectInfo) : Out (Err × PB) := do
  let (_, endPosn) := p.writeEndElement
  let p ← wrList MetaInfo.write 5 o.metas p
  let p ← wrList PublicKeyInfo.write 4 o.keys p
  let p ← wrString 3 o.role p
  let p ← wrString 2 o.name p
  let p ← wrString 1 o.id p
  p.writeStartElement tag endPosn

/-- `Noise_PrivateKey_write`, `src/keys/certificate.c:2096-2114`. -/
def PrivateKey.write (p : PB) (tag : Int) (o : PrivateKey) : Out (Err × PB) := do
  let (_, endPosn) := p.writeEndElement
  let p ← wrList MetaInfo.write 5 o.metas p
  let p ← wrList PrivateKeyInfo.write 4 o.keys p
  let p ← wrString 3 o.role p
  let p ← wrString 2 o.name p
  let p ← wrString 1 o.id p
  p.writeStartElement tag endPosn

/-- `Noise_ExtraSignedInfo_write`, `src/keys/certificate.c:1527-1543`. -/
def ExtraSignedInfo.write (p : PB) (tag : Int) (o : ExtraSignedInfo) : Out (Err × PB) := do
  let (_, endPosn) := p.writeEndElement
  let p ← wrList MetaInfo.write 4 o.metas p
  let p ← wrString 3 o.validTo p
  let p ← wrString 2 o.validFrom p
  let p ← wrBytes 1 o.nonce p
  p.writeStartElement tag endPosn

/-- `Noise_Signature_write`, `src/keys/certificate.c:1172-1191`. -/
def Signature.write (p : PB) (tag : Int) (o : Signature) : Out (Err × PB) := do
  let (_, endPosn) := p.writeEndElement
  let p ← wrBytes 15 o.signature p
  let p ← wrMsg ExtraSignedInfo.write 5 o.extraSignedInfo p
  let p ← wrString 4 o.hashAlgorithm p
  let p ← wrMsg PublicKeyInfo.write 3 o.signingKey p
  let p ← wrString 2 o.name p
  let p ← wrString 1 o.id p
  p.writeStartElement tag endPosn

/-- `Noise_Certificate_write`, `src/keys/certificate.c:151-165`. -/
def Certificate.write (p : PB) (tag : Int) (o : Certificate) : Out (Err × PB) := do
  let (_, endPosn) := p.writeEndElement
  let p ← wrList Signature.write 3 o.signatures p
  let p ← wrMsg SubjectInfo.write 2 o.subject p
  let p ← wrNum 1 o.version p
  p.writeStartElement tag endPosn

/-- `Noise_CertificateChain_write`, `src/keys/certificate.c:357-367`. -/
def CertificateChain.write (p : PB) (tag : Int) (o : CertificateChain) : Out (Err × PB) := do
  let (_, endPosn) := p.writeEndElement
  let p ← wrList Certificate.write 8 o.certs p
  p.writeStartElement tag endPosn

/-- `Noise_EncryptedPrivateKey_write`, `src/keys/certificate.c:1811-1828`. -/
def EncryptedPrivateKey.write (p : PB) (tag : Int) (o : EncryptedPrivateKey) : Out (Err × PB) := do
  let (_, endPosn) := p.writeEndElement
  let p ← wrBytes 15 o.encryptedData p
  let p ← wrNum 13 o.iterations p
  let p ← wrBytes 12 o.salt p
  let p ← wrString 11 o.algorithm p
  let p ← wrNum 10 o.version p
  p.writeStartElement tag endPosn

/-! ## Reading -/

/-- The protobuf and the number of allocations asked for so far. -/
structure R where
  p : PB
  n : Nat
  deriving DecidableEq, Repr

/-- `noise_protobuf_read_alloc_string(pbuf, tag, &obj->s, 0, &obj->s_size_)`, e.g.
`src/keys/certificate.c:528-533`; the old value has been freed. -/
def rdString (al : Nat → Bool) (tag : Int) (r : R) : Out (Option Bytes × R) := do
  let (_, p, s, size) ← r.p.readAllocString tag 0 (al r.n)
  pure (s.map (·.take size), ⟨p, r.n + 1⟩)

/-- `noise_protobuf_read_alloc_bytes(pbuf, tag, &obj->b, 0, &obj->b_size_)`, e.g.
`src/keys/certificate.c:881-886`. -/
def rdBytes (al : Nat → Bool) (tag : Int) (r : R) : Out (Option Bytes × R) := do
  let (_, p, b, size) ← r.p.readAllocBytes tag 0 (al r.n)
  pure (b.map (·.take size), ⟨p, r.n + 1⟩)

/-- `noise_protobuf_read_uint32(pbuf, tag, &obj->v)`, e.g. `src/keys/certificate.c:181`. -/
def rdNum (tag : Int) (r : R) : Out (UInt32 × R) := do
  let (_, p, v) ← r.p.readUInt32 tag
  pure (v, ⟨p, r.n⟩)

/-- `noise_protobuf_read_skip(pbuf)`, e.g. `src/keys/certificate.c:197`. -/
def rdSkip (r : R) : Out R := do
  let (_, p) ← r.p.readSkip
  pure ⟨p, r.n⟩

/-- Whether an array that was built by adding `n` items is full, so that `noise_protobuf_add_to_array` grows
it: the capacities are 0, 4, 8, 16, 32, 64, 128, 192, ... (`src/protobufs/protobufs.c:2047-2056`, `:2077`). -/
def full (n : Nat) : Bool := n = 4 || n = 8 || n = 16 || n = 32 || n % 64 = 0

/-- `noise_protobuf_add_to_array` on an array built in this way, with the handling of its code, e.g.
`src/keys/certificate.c:192-194`: a failure is recorded only if there is an error already. -/
def addTo {α : Type} (al : Nat → Bool) (l : List (Option α)) (v : Option α) (r : R) : List (Option α) × R :=
  if full l.length = true ∧ al r.n = false then
    (l, ⟨if r.p.err ≠ .none then r.p.fail .noMemory else r.p, r.n + 1⟩)
  else (l ++ [v], ⟨r.p, r.n + 1⟩)

/-- The loop of a read function, e.g. `src/keys/certificate.c:178-200`; `step` is the switch statement, the
number is that of the rounds left; `none` if they were used up. -/
def loop {α : Type} (step : α → R → Out (Option (α × R))) (endPosn : Nat) : Nat → α → R → Out (Option (α × R))
  | 0, o, r => if r.p.readAtEndElement endPosn then .ok (some (o, r)) else .ok none
  | f + 1, o, r =>
    if r.p.readAtEndElement endPosn then .ok (some (o, r))
    else do
      match ← step o r with
      | none => pure none
      | some (o, r) => loop step endPosn f o r

/-- A read function apart from its switch statement: `Noise_X_read`, `src/keys/certificate.c:167-207` and the
corresponding lines of the nine other functions, which are the same text. The result is the code, `*obj` and
the state. -/
def readObj {α : Type} (al : Nat → Bool) (fuel : Nat) (new : α) (step : α → R → Out (Option (α × R))) (r : R) (tag : Int) :
    Out (Option (Err × Option α × R)) :=
  if al r.n = false then .ok (some (.noMemory, none, ⟨r.p, r.n + 1⟩))
  else do
    let (_, p, endPosn) ← r.p.readStartElement tag
    match ← loop step endPosn fuel new ⟨p, r.n + 1⟩ with
    | none => pure none
    | some (o, r) =>
      let (err, p) := r.p.readEndElement endPosn
      pure (some (err, if err ≠ .none then none else some o, ⟨p, r.n⟩))

/-- A field of the switch statement with a string, byte string or number. -/
def rdField {α β : Type} (read : R → Out (β × R)) (set : β → α) (r : R) : Out (Option (α × R)) := do
  let (v, r) ← read r
  pure (some (set v, r))

/-- A nested object, e.g. `src/keys/certificate.c:183-187`: the old object has been freed, and the code of the
read function is ignored. -/
def rdMsg {α β : Type} (read : R → Int → Out (Option (Err × Option β × R))) (tag : Int) (set : Option β → α)
    (r : R) : Out (Option (α × R)) := do
  match ← read r tag with
  | none => pure none
  | some (_, v, r) => pure (some (set v, r))

/-- An item of an array, e.g. `src/keys/certificate.c:188-195`. -/
def rdItem {α β : Type} (al : Nat → Bool) (read : R → Int → Out (Option (Err × Option β × R))) (tag : Int)
    (l : List (Option β)) (set : List (Option β) → α) (r : R) : Out (Option (α × R)) := do
  match ← read r tag with
  | none => pure none
  | some (_, v, r) =>
    let (l, r) := addTo al l v r
    pure (some (set l, r))

/-- The `default` of the switch statement. -/
def rdOther {α : Type} (o : α) (r : R) : Out (Option (α × R)) := do
  let r ← rdSkip r
  pure (some (o, r))

/-- The switch statement of `Noise_PublicKeyInfo_read`, `src/keys/certificate.c:874-890`. -/
def PublicKeyInfo.step (al : Nat → Bool) (o : PublicKeyInfo) (r : R) : Out (Option (PublicKeyInfo × R)) := do
  let t ← r.p.peekTag
  if t = 1 then rdField (rdString al 1) (fun v => { o with algorithm := v }) r
  else if t = 2 then rdField (rdBytes al 2) (fun v => { o with key := v }) r
  else rdOther o r

/-- `Noise_PublicKeyInfo_read`, `src/keys/certificate.c:860-898`. -/
def PublicKeyInfo.read (al : Nat → Bool) (fuel : Nat) := readObj al fuel ({} : PublicKeyInfo) (PublicKeyInfo.step al)

/-- The switch statement of `Noise_PrivateKeyInfo_read`, `src/keys/certificate.c:2477-2493`. -/
def PrivateKeyInfo.step (al : Nat → Bool) (o : PrivateKeyInfo) (r : R) : Out (Option (PrivateKeyInfo × R)) := do
  let t ← r.p.peekTag
  if t = 1 then rdField (rdString al 1) (fun v => { o with algorithm := v }) r
  else if t = 2 then rdField (rdBytes al 2) (fun v => { o with key := v }) r
  else rdOther o r

/-- `Noise_PrivateKeyInfo_read`, `src/keys/certificate.c:2463-2501`. -/
def PrivateKeyInfo.read (al : Nat → Bool) (fuel : Nat) :=
  readObj al fuel ({} : PrivateKeyInfo) (PrivateKeyInfo.step al)

/-- The switch statement of `Noise_MetaInfo_read`, `src/keys/certificate.c:1034-1050`. -/
def MetaInfo.step (al : Nat → Bool) (o : MetaInfo) (r : R) : Out (Option (MetaInfo × R)) := do
  let t ← r.p.peekTag
  if t = 1 then rdField (rdString al 1) (fun v => { o with name := v }) r
  else if t = 2 then rdField (rdString al 2) (fun v => { o with value := v }) r
  else rdOther o r

/-- `Noise_MetaInfo_read`, `src/keys/certificate.c:1020-1058`. -/
def MetaInfo.read (al : Nat → Bool) (fuel : Nat) := readObj al fuel ({} : MetaInfo) (MetaInfo.step al)

/-- The switch statement of `Noise_SubjectInfo_read`, `src/keys/certificate.c:527-565`. -/
def SubjectInfo.step (al : Nat → Bool) (fuel : Nat) (o : SubjectInfo) (r : R) : Out (Option (SubjectInfo × R)) := do
  let t ← r.p.peekTag
  if t = 1 then rdField (rdString al 1) (fun v => { o with id := v }) r
  else if t = 2 then rdField (rdString al 2) (fun v => { o with name := v }) r
  else if t = 3 then rdField (rdString al 3) (fun v => { o with role := v }) r
  else if t = 4 then rdItem al (PublicKeyInfo.read al fuel) 4 o.keys (fun v => { o with keys := v }) r
  else if t = 5 then rdItem al (MetaInfo.read al fuel) 5 o.metas (fun v => { o with metas := v }) r
  else rdOther o r

/-- `Noise_SubjectInfo_read`, `src/keys/certificate.c:513-573`. -/
def SubjectInfo.read (al : Nat → Bool) (fuel : Nat) := readObj al fuel ({} : SubjectInfo) (SubjectInfo.step al fuel)

/-- The switch statement of `Noise_PrivateKey_read`, `src/keys/certificate.c:2130-2168`. -/
def PrivateKey.step (al : Nat → Bool) (fuel : Nat) (o : PrivateKey) (r : R) : Out (Option (PrivateKey × R)) := do
  let t ← r.p.peekTag
  if t = 1 then rdField (rdString al 1) (fun v => { o with id := v }) r
  else if t = 2 then rdField (rdString al 2) (fun v => { o with name := v }) r
  else if t = 3 then rdField (rdString al 3) (fun v => { o with role := v }) r
  else if t = 4 then rdItem al (PrivateKeyInfo.read al fuel) 4 o.keys (fun v => { o with keys := v }) r
  else if t = 5 then rdItem al (MetaInfo.read al fuel) 5 o.metas (fun v => { o with metas := v }) r
  else rdOther o r

/-- `Noise_PrivateKey_read`, `src/keys/certificate.c:2116-2176`. -/
def PrivateKey.read (al : Nat → Bool) (fuel : Nat) := readObj al fuel ({} : PrivateKey) (PrivateKey.step al fuel)

/-- The switch statement of `Noise_ExtraSignedInfo_read`, `src/keys/certificate.c:1559-1589`. -/
def ExtraSignedInfo.step (al : Nat → Bool) (fuel : Nat) (o : ExtraSignedInfo) (r : R) : Out (Option (ExtraSignedInfo × R)) := do
  let t ← r.p.peekTag
  if t = 1 then rdField (rdBytes al 1) (fun v => { o with nonce := v }) r
  else if t = 2 then rdField (rdString al 2) (fun v => { o with validFrom := v }) r
  else if t = 3 then rdField (rdString al 3) (fun v => { o with validTo := v }) r
  else if t = 4 then rdItem al (MetaInfo.read al fuel) 4 o.metas (fun v => { o with metas := v }) r
  else rdOther o r

/-- `Noise_ExtraSignedInfo_read`, `src/keys/certificate.c:1545-1597`. -/
def ExtraSignedInfo.read (al : Nat → Bool) (fuel : Nat) :=
  readObj al fuel ({} : ExtraSignedInfo) (ExtraSignedInfo.step al fuel)

/-- The switch statement of `Noise_Signature_read`, `src/keys/certificate.c:1207-1245`. -/
def Signature.step (al : Nat → Bool) (fuel : Nat) (o : Signature) (r : R) : Out (Option (Signature × R)) := do
  let t ← r.p.peekTag
  if t = 1 then rdField (rdString al 1) (fun v => { o with id := v }) r
  else if t = 2 then rdField (rdString al 2) (fun v => { o with name := v }) r
  else if t = 3 then rdMsg (PublicKeyInfo.read al fuel) 3 (fun v => { o with signingKey := v }) r
  else if t = 4 then rdField (rdString al 4) (fun v => { o with hashAlgorithm := v }) r
  else if t = 5 then rdMsg (ExtraSignedInfo.read al fuel) 5 (fun v => { o with extraSignedInfo := v }) r
  else if t = 15 then rdField (rdBytes al 15) (fun v => { o with signature := v }) r
  else rdOther o r

/-- `Noise_Signature_read`, `src/keys/certificate.c:1193-1253`. -/
def Signature.read (al : Nat → Bool) (fuel : Nat) := readObj al fuel ({} : Signature) (Signature.step al fuel)

/-- The switch statement of `Noise_Certificate_read`, `src/keys/certificate.c:179-199`. -/
def Certificate.step (al : Nat → Bool) (fuel : Nat) (o : Certificate) (r : R) : Out (Option (Certificate × R)) := do
  let t ← r.p.peekTag
  if t = 1 then rdField (rdNum 1) (fun v => { o with version := v }) r
  else if t = 2 then rdMsg (SubjectInfo.read al fuel) 2 (fun v => { o with subject := v }) r
  else if t = 3 then rdItem al (Signature.read al fuel) 3 o.signatures (fun v => { o with signatures := v }) r
  else rdOther o r

/-- `Noise_Certificate_read`, `src/keys/certificate.c:167-207`. -/
def Certificate.read (al : Nat → Bool) (fuel : Nat) := readObj al fuel ({} : Certificate) (Certificate.step al fuel)

/-- The switch statement of `Noise_CertificateChain_read`, `src/keys/certificate.c:381-393`. -/
def CertificateChain.step (al : Nat → Bool) (fuel : Nat) (o : CertificateChain) (r : R) : Out (Option (CertificateChain × R)) := do
  let t ← r.p.peekTag
  if t = 8 then rdItem al (Certificate.read al fuel) 8 o.certs (fun v => { o with certs := v }) r
  else rdOther o r

/-- `Noise_CertificateChain_read`, `src/keys/certificate.c:369-401`. -/
def CertificateChain.read (al : Nat → Bool) (fuel : Nat) :=
  readObj al fuel ({} : CertificateChain) (CertificateChain.step al fuel)

/-- The switch statement of `Noise_EncryptedPrivateKey_read`, `src/keys/certificate.c:1844-1872`. -/
def EncryptedPrivateKey.step (al : Nat → Bool) (o : EncryptedPrivateKey) (r : R) : Out (Option (EncryptedPrivateKey × R)) := do
  let t ← r.p.peekTag
  if t = 10 then rdField (rdNum 10) (fun v => { o with version := v }) r
  else if t = 11 then rdField (rdString al 11) (fun v => { o with algorithm := v }) r
  else if t = 12 then rdField (rdBytes al 12) (fun v => { o with salt := v }) r
  else if t = 13 then rdField (rdNum 13) (fun v => { o with iterations := v }) r
  else if t = 15 then rdField (rdBytes al 15) (fun v => { o with encryptedData := v }) r
  else rdOther o r

/-- `Noise_EncryptedPrivateKey_read`, `src/keys/certificate.c:1830-1880`. -/
def EncryptedPrivateKey.read (al : Nat → Bool) (fuel : Nat) :=
  readObj al fuel ({} : EncryptedPrivateKey) (EncryptedPrivateKey.step al)

end Cert
end Noise
