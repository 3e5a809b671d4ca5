import Verif.Names
/-!
# Model of `examples/echo/echo-server/echo-common.c`

The conversion of protocol identifiers, the loading of keys and the sending and receiving of packets, which the echo client
and the echo server share. Not modelled: connecting, accepting, printing.
-/

namespace Noise.Echo

/-- `EchoProtocolId`, `examples/echo/echo-server/echo-common.h:69-77`. -/
structure Id where
  (psk pattern cipher dh hash : UInt8)
  deriving DecidableEq, Repr

/-- The five bytes sent on the network: the structure as memory,
`examples/echo/echo-client/echo-client.c:312` and `examples/echo/echo-server/echo-server.c:283`. -/
def Id.bytes (id : Id) : Bytes := [id.psk, id.pattern, id.cipher, id.dh, id.hash]

/-- The cases of `examples/echo/echo-server/echo-common.c:72-76`. -/
def pskOf : List (Int × UInt8) := [(0x4e01, 0), (0x4e02, 1)]

/-- The cases of `examples/echo/echo-server/echo-common.c:78-104`. -/
def patternOf : List (Int × UInt8) :=
  [(0x5004, 0x00), (0x500a, 0x01), (0x5005, 0x02), (0x500b, 0x03), (0x5006, 0x04), (0x500c, 0x05),
   (0x5007, 0x06), (0x500d, 0x07), (0x5008, 0x08), (0x500e, 0x09), (0x5009, 0x0a), (0x500f, 0x0b),
   (0x5030, 0x00 ||| 0x80), (0x5036, 0x01 ||| 0x80), (0x5031, 0x02 ||| 0x80), (0x5037, 0x03 ||| 0x80),
   (0x5032, 0x04 ||| 0x80), (0x5038, 0x05 ||| 0x80), (0x5033, 0x06 ||| 0x80), (0x5039, 0x07 ||| 0x80),
   (0x5034, 0x08 ||| 0x80), (0x503a, 0x09 ||| 0x80), (0x5035, 0x0a ||| 0x80), (0x503b, 0x0b ||| 0x80)]

/-- The cases of `examples/echo/echo-server/echo-common.c:106-110`. -/
def cipherOf : List (Int × UInt8) := [(0x4301, 0), (0x4302, 1)]

/-- The cases of `examples/echo/echo-server/echo-common.c:112-117`. -/
def dhOf : List (Int × UInt8) := [(0x4401, 0), (0x4402, 1), (0x4403, 2)]

/-- The cases of `examples/echo/echo-server/echo-common.c:119-125`; nothing is added for `NOISE_DH_NONE`. -/
def hybridOf : List (Int × UInt8) := [(0x4401, 0x10), (0x4402, 0x20), (0x4403, 0x30), (0, 0)]

/-- The cases of `examples/echo/echo-server/echo-common.c:127-133`. -/
def hashOf : List (Int × UInt8) := [(0x4803, 0), (0x4804, 1), (0x4801, 2), (0x4802, 3)]

/-- The switches of `examples/echo/echo-server/echo-common.c:72-135`: return value and `*id`, which was cleared before. -/
def fromNoise (nid : ProtocolId) : Bool × Id :=
  let psk := pskOf.lookup nid.prefixId
  let pattern := patternOf.lookup nid.patternId
  let cipher := cipherOf.lookup nid.cipherId
  let dh := dhOf.lookup nid.dhId
  let hybrid := hybridOf.lookup nid.hybridId
  let hash := hashOf.lookup nid.hashId
  (psk.isSome && pattern.isSome && cipher.isSome && dh.isSome && hybrid.isSome && hash.isSome,
    ⟨psk.getD 0, pattern.getD 0, cipher.getD 0, dh.getD 0 ||| hybrid.getD 0, hash.getD 0⟩)

/-- `echo_get_protocol_id`, `examples/echo/echo-server/echo-common.c:63-136`, of a name without terminator. -/
def getProtocolId (name : Bytes) : Bool × Id :=
  let (err, nid) := protocolNameToId name
  if err ≠ .none then (false, ⟨0, 0, 0, 0, 0⟩) else fromNoise nid

/-- The cases of `examples/echo/echo-server/echo-common.c:145-149`. -/
def ofPsk : List (UInt8 × Int) := [(0, 0x4e01), (1, 0x4e02)]

/-- The cases of `examples/echo/echo-server/echo-common.c:151-177`. -/
def ofPattern : List (UInt8 × Int) :=
  [(0x00, 0x5004), (0x01, 0x500a), (0x02, 0x5005), (0x03, 0x500b), (0x04, 0x5006), (0x05, 0x500c),
   (0x06, 0x5007), (0x07, 0x500d), (0x08, 0x5008), (0x09, 0x500e), (0x0a, 0x5009), (0x0b, 0x500f),
   (0x00 ||| 0x80, 0x5030), (0x01 ||| 0x80, 0x5036), (0x02 ||| 0x80, 0x5031), (0x03 ||| 0x80, 0x5037),
   (0x04 ||| 0x80, 0x5032), (0x05 ||| 0x80, 0x5038), (0x06 ||| 0x80, 0x5033), (0x07 ||| 0x80, 0x5039),
   (0x08 ||| 0x80, 0x5034), (0x09 ||| 0x80, 0x503a), (0x0a ||| 0x80, 0x5035), (0x0b ||| 0x80, 0x503b)]

/-- The cases of `examples/echo/echo-server/echo-common.c:179-183`. -/
def ofCipher : List (UInt8 × Int) := [(0, 0x4301), (1, 0x4302)]

/-- The cases of `examples/echo/echo-server/echo-common.c:185-190`. -/
def ofDh : List (UInt8 × Int) := [(0, 0x4401), (1, 0x4402), (2, 0x4403)]

/-- The cases of `examples/echo/echo-server/echo-common.c:192-198`. -/
def ofHybrid : List (UInt8 × Int) := [(0x10, 0x4401), (0x20, 0x4402), (0x30, 0x4403), (0x00, 0)]

/-- The cases of `examples/echo/echo-server/echo-common.c:200-206`. -/
def ofHash : List (UInt8 × Int) := [(0, 0x4803), (1, 0x4804), (2, 0x4801), (3, 0x4802)]

/-- `echo_to_noise_protocol_id`, `examples/echo/echo-server/echo-common.c:139-209`. -/
def toNoise (id : Id) : Bool × ProtocolId :=
  let psk := ofPsk.lookup id.psk
  let pattern := ofPattern.lookup id.pattern
  let cipher := ofCipher.lookup id.cipher
  let dh := ofDh.lookup (id.dh &&& 0x0f)
  let hybrid := ofHybrid.lookup (id.dh &&& 0xf0)
  let hash := ofHash.lookup id.hash
  (psk.isSome && pattern.isSome && cipher.isSome && dh.isSome && hybrid.isSome && hash.isSome,
    ⟨psk.getD 0, pattern.getD 0, dh.getD 0, cipher.getD 0, hash.getD 0, hybrid.getD 0, [0, 0, 0, 0]⟩)

/-! ## Keys in files -/

/-- The loop of `echo_load_private_key`, `examples/echo/echo-server/echo-common.c:225-232`, with what follows it (lines
233-239); `len` is the argument, `key` the memory. -/
def privateLoop (len : Nat) : Bytes → Bytes → Nat → Out (Bool × Bytes)
  | [], key, posn => pure (!decide (posn < len), key)
  | ch :: file, key, posn =>
    if posn ≥ len then pure (false, key)
    else do
      let key ← store key posn [ch]
      privateLoop len file key (posn + 1)

/-- `echo_load_private_key`, `examples/echo/echo-server/echo-common.c:212-240`; no file means that it cannot be opened. -/
def loadPrivateKey (file : Option Bytes) (key : Bytes) (len : Nat) : Out (Bool × Bytes) :=
  if len > 2048 then pure (false, key)
  else match file with
    | none => pure (false, key)
    | some file => privateLoop len file key 0

/-- The locals of `echo_load_public_key`, `examples/echo/echo-server/echo-common.c:246-249`, and the memory. -/
structure Dec where
  group : UInt32
  groupSize : Nat
  digit : UInt32
  posn : Nat
  key : Bytes
  deriving DecidableEq, Repr

/-- What a character of the file does. -/
inductive Ch
  | digit (d : UInt32) | stop | space | bad
  deriving DecidableEq, Repr

/-- The chain of tests of `examples/echo/echo-server/echo-common.c:260-277`. -/
def classify (ch : UInt8) : Ch :=
  if ch ≥ 65 ∧ ch ≤ 90 then .digit (ch.toUInt32 - 65)
  else if ch ≥ 97 ∧ ch ≤ 122 then .digit (ch.toUInt32 - 97 + 26)
  else if ch ≥ 48 ∧ ch ≤ 57 then .digit (ch.toUInt32 - 48 + 52)
  else if ch = 43 then .digit 62
  else if ch = 47 then .digit 63
  else if ch = 61 then .stop
  else if ch ≠ 32 ∧ ch ≠ 9 ∧ ch ≠ 13 ∧ ch ≠ 10 then .bad
  else .space

/-- The rest of the loop, `examples/echo/echo-server/echo-common.c:278-289`: `none` is the return of zero. White space gets
here as well, with the digit of the character before. -/
def addDigit (len : Nat) (s : Dec) : Out (Option Dec) :=
  let s := { s with group := (s.group <<< 6) ||| s.digit, groupSize := s.groupSize + 1 }
  if s.groupSize ≥ 4 then
    if sizeSub len s.posn < 3 then pure none
    else do
      let key ← store s.key s.posn [(s.group >>> (16 : UInt32)).toUInt8, (s.group >>> (8 : UInt32)).toUInt8, s.group.toUInt8]
      pure (some { s with groupSize := 0, posn := s.posn + 3, key := key })
  else pure (some s)

/-- What follows the loop, `examples/echo/echo-server/echo-common.c:291-313`. -/
def finishPublic (len : Nat) (s : Dec) : Out (Bool × Bytes) :=
  if s.groupSize = 3 then
    if sizeSub len s.posn < 2 then pure (false, s.key)
    else do
      let key ← store s.key s.posn [(s.group >>> (10 : UInt32)).toUInt8, (s.group >>> (2 : UInt32)).toUInt8]
      pure (!decide (s.posn + 2 < len), key)
  else if s.groupSize = 2 then
    if sizeSub len s.posn < 1 then pure (false, s.key)
    else do
      let key ← store s.key s.posn [(s.group >>> (4 : UInt32)).toUInt8]
      pure (!decide (s.posn + 1 < len), key)
  else pure (!decide (s.posn < len), s.key)

/-- The loop of `echo_load_public_key`, `examples/echo/echo-server/echo-common.c:259-290`, and what follows it. On failure the
memory is as it is at that time. -/
def publicLoop (len : Nat) : Bytes → Dec → Out (Bool × Bytes)
  | [], s => finishPublic len s
  | ch :: file, s =>
    match classify ch with
    | .stop => finishPublic len s
    | .bad => pure (false, s.key)
    | .space => do
      match ← addDigit len s with
      | none => pure (false, s.key)
      | some s => publicLoop len file s
    | .digit d => do
      match ← addDigit len { s with digit := d } with
      | none => pure (false, s.key)
      | some s => publicLoop len file s

/-- `echo_load_public_key`, `examples/echo/echo-server/echo-common.c:243-315`. -/
def loadPublicKey (file : Option Bytes) (key : Bytes) (len : Nat) : Out (Bool × Bytes) :=
  if len > 2048 then pure (false, key)
  else match file with
    | none => pure (false, key)
    | some file => publicLoop len file ⟨0, 0, 0, 0, key⟩

/-! ## Packets -/

/-- What the operating system has in store for `recv`: bytes that have arrived together, an interruption (`EINTR` or
`EAGAIN`) or an error. The end of the list is the end of the connection. -/
inductive Seg
  | data (b : Bytes) | again | error
  deriving DecidableEq, Repr

/-- `echo_recv_exact_internal`, `examples/echo/echo-server/echo-common.c:601-624`, into the memory `packet` from offset `off`:
the return value, the memory and what is left. `recv` returns at most `len` bytes of what has arrived together. -/
def recvLoop : List Seg → Bytes → Nat → Nat → Nat → Out (Nat × Bytes × List Seg)
  | segs, packet, _, 0, received => pure (received, packet, segs)
  | [], packet, _, _ + 1, _ => pure (0, packet, [])
  | .again :: segs, packet, off, len + 1, received => recvLoop segs packet off (len + 1) received
  | .error :: segs, packet, _, _ + 1, _ => pure (0, packet, segs)
  | .data b :: segs, packet, off, len + 1, received =>
    if b.length = 0 then pure (0, packet, segs)
    else if b.length ≤ len + 1 then do
      let packet ← store packet off b
      recvLoop segs packet (off + b.length) (len + 1 - b.length) (received + b.length)
    else do
      let packet ← store packet off (b.take (len + 1))
      pure (received + (len + 1), packet, .data (b.drop (len + 1)) :: segs)

/-- `echo_recv_exact`, `examples/echo/echo-server/echo-common.c:628-638`. -/
def recvExact (segs : List Seg) (packet : Bytes) (len : Nat) : Out (Nat × Bytes × List Seg) := recvLoop segs packet 0 len 0

/-- `echo_recv`, `examples/echo/echo-server/echo-common.c:643-659`, into a memory `packet` of at least `maxLen` bytes. -/
def recv (segs : List Seg) (packet : Bytes) (maxLen : Nat) : Out (Nat × Bytes × List Seg) :=
  if maxLen < 2 then pure (0, packet, segs)
  else do
    let (n, packet, segs) ← recvLoop segs packet 0 2 0
    if n = 0 then pure (0, packet, segs)
    else do
      let h ← load packet 0 2
      let size := (h.getD 0 0).toNat <<< 8 ||| (h.getD 1 0).toNat
      if size > maxLen - 2 then pure (0, packet, segs)
      else do
        let (size, packet, segs) ← recvLoop segs packet 2 size 0
        pure (if size ≠ 0 then size + 2 else size, packet, segs)

/-- What `send` does: it takes some bytes, is interrupted or fails. -/
inductive Snd
  | takes (n : Nat) | again | error
  deriving DecidableEq, Repr

/-- `echo_send`, `examples/echo/echo-server/echo-common.c:663-688`: the return value and the bytes that have been sent; no
value when the calls of `send` are used up, that is while the program waits. `send` takes no more than it is given. -/
def send : List Snd → Bytes → Option Bool × Bytes
  | [], _ => (none, [])
  | .again :: ks, p => send ks p
  | .error :: _, _ => (some false, [])
  | .takes n :: ks, p =>
    if min n p.length = p.length then (some true, p)
    else
      let r := send ks (p.drop (min n p.length))
      (r.1, p.take (min n p.length) ++ r.2)

end Noise.Echo
