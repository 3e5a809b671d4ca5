import Verif.Echo
import Verif.Cipher
import Verif.Rand
/-!
# Model of the data phase of the echo server and the echo client

`examples/echo/echo-server/echo-server.c` and `examples/echo/echo-client/echo-client.c`, after the handshake. The memory
`message` is a list of bytes; a buffer at `message + 2` is the list without its first two bytes. `recv` and `send` of the
operating system are as in `Verif.Echo`: what arrives is a list of pieces, and for each call of `echo_send` there is a list of
what `send` does. The messages on the error output are left out.
-/

namespace Noise.Echo

/-- How a turn of a loop ends: with another turn, with `break` and `ok` true or false, or not at all, in `send`. -/
inductive Status
  | next | closed | failed | waiting
  deriving DecidableEq, Repr

/-- What is there after a turn: how it ended, what it sent, what is left to arrive, the memory and the two ciphers, for
receiving and for sending. Not a definition of the code base. -/
structure Turn where
  status : Status
  sent : Bytes
  segs : List Seg
  msg : Bytes
  rc : CipherState
  sc : CipherState
  deriving Repr

/-- What `echo_send` leads to, `echo-server.c:403-406` and `echo-client.c:423-426`. -/
def statusOf : Option Bool → Status
  | some true => .next
  | some false => .failed
  | none => .waiting

/-- The end of both turns: the length in front of the packet (`echo-server.c:401-402`, `echo-client.c:421-422`) and
`echo_send`. -/
def sendPacket (ks : List Snd) (msg : Bytes) (size : Nat) : Out (Bytes × Option Bool × Bytes) := do
  let msg ← store msg 0 [UInt8.ofNat (size >>> 8), UInt8.ofNat size]
  let p ← load msg 0 (size + 2)
  let r := send ks p
  pure (msg, r.1, r.2)

/-- One turn of the loop of the server, `examples/echo/echo-server/echo-server.c:378-407`. -/
def serverTurn (B : CipherBackend) (ks : List Snd) (segs : List Seg) (msg : Bytes) (rc sc : CipherState) : Out Turn := do
  let (size, msg, segs) ← recv segs msg msg.length
  if size = 0 then pure ⟨.closed, [], segs, msg, rc, sc⟩
  else do
    let r ← rc.decryptWithAd B [] ⟨msg.drop 2, size - 2⟩
    if r.err ≠ .none then pure ⟨.failed, [], segs, msg.take 2 ++ r.buf.data, r.st, sc⟩
    else do
      let q ← sc.encryptWithAd B [] r.buf
      let msg := msg.take 2 ++ q.buf.data
      if q.err ≠ .none then pure ⟨.failed, [], segs, msg, r.st, q.st⟩
      else do
        let (msg, ok, sent) ← sendPacket ks msg q.buf.size
        pure ⟨statusOf ok, sent, segs, msg, r.st, q.st⟩

/-- The loop of the server, `examples/echo/echo-server/echo-server.c:378-407`, and the exit code (line 413; `some true` is 0):
one list of `send` results for each turn, no exit code when they are used up. -/
def serverLoop (B : CipherBackend) : List (List Snd) → List Seg → Bytes → CipherState → CipherState → Out (Option Bool × Bytes)
  | [], _, _, _, _ => pure (none, [])
  | ks :: kss, segs, msg, rc, sc => do
    let t ← serverTurn B ks segs msg rc sc
    match t.status with
    | .next => do
      let (ok, sent) ← serverLoop B kss t.segs t.msg t.rc t.sc
      pure (ok, t.sent ++ sent)
    | .closed => pure (some true, t.sent)
    | .failed => pure (some false, t.sent)
    | .waiting => pure (none, t.sent)

/-- Everything up to the first line feed, or everything: what `fgets` reads from a line, and what lines 446-452 of
`examples/echo/echo-client/echo-client.c` leave of the answer. -/
def upto : Bytes → Bytes
  | [] => []
  | c :: cs => if c = 10 then [10] else c :: upto cs

/-- `fgets` with `n` bytes of memory: the bytes read and what is left of the input; nothing at the end of the input. The
terminating zero is not included. -/
def fgets (n : Nat) (input : Bytes) : Option (Bytes × Bytes) :=
  if input = [] then none else some (upto (input.take (n - 1)), input.drop (upto (input.take (n - 1))).length)

/-- The last part of a turn of the client, `examples/echo/echo-client/echo-client.c:428-456`: the answer is read and written to
the standard output. -/
def clientReceive (B : CipherBackend) (padding : Bool) (sent : Bytes) (segs : List Seg) (msg : Bytes) (rc sc : CipherState) :
    Out (Turn × Option Bytes) := do
  let (size, msg, segs) ← recv segs msg msg.length
  if size = 0 then pure (⟨.failed, sent, segs, msg, rc, sc⟩, none)
  else do
    let body ← load msg 2 (size - 2)
    let r ← rc.decryptWithAd B [] ⟨body, size - 2⟩
    let msg ← store msg 2 r.buf.data
    if r.err ≠ .none then pure (⟨.failed, sent, segs, msg, r.st, sc⟩, none)
    else do
      let text ← load r.buf.data 0 r.buf.size
      pure (⟨.next, sent, segs, msg, r.st, sc⟩, some (if padding then upto text else text))

/-- The first part of a turn of the client, `examples/echo/echo-client/echo-client.c:396-410`: the line from `fgets` is put into
the memory and padded if there is a random number generator. -/
def clientFill (B : CipherBackend) (E : Nat → Bytes) (msg : Bytes) (rand : Option Rand.State) (line : Bytes) :
    Out (Err × Option Rand.State × Bytes × Nat) := do
  let maxLine := msg.length - 2 - B.macLen
  let msg ← store msg 2 (line ++ [0])
  let size := (line.takeWhile (· ≠ 0)).length
  match rand with
  | none => pure (.none, none, msg, size)
  | some st => do
    let (e, st, b) ← Rand.pad E (some st) (some (msg.drop 2)) size maxLine false
    pure (e, st, msg.take 2 ++ b.getD [], maxLine)

/-- One turn of the loop of the client, `examples/echo/echo-client/echo-client.c:396-457`, with a line from `fgets`; `rand` is
the random number generator when there is padding. The result also has what is written after `Received: `. -/
def clientTurn (B : CipherBackend) (E : Nat → Bytes) (ks : List Snd) (segs : List Seg) (msg : Bytes) (rc sc : CipherState)
    (rand : Option Rand.State) (line : Bytes) : Out (Turn × Option Rand.State × Option Bytes) := do
  let (err, rand', msg, size) ← clientFill B E msg rand line
  if err ≠ .none then pure (⟨.failed, [], segs, msg, rc, sc⟩, rand', none)
  else do
    let q ← sc.encryptWithAd B [] ⟨msg.drop 2, size⟩
    let msg := msg.take 2 ++ q.buf.data
    if q.err ≠ .none then pure (⟨.failed, [], segs, msg, rc, q.st⟩, rand', none)
    else do
      let (msg, ok, sent) ← sendPacket ks msg q.buf.size
      if ok ≠ some true then pure (⟨statusOf ok, sent, segs, msg, rc, q.st⟩, rand', none)
      else do
        let (t, out) ← clientReceive B rand.isSome sent segs msg rc q.st
        pure (t, rand', out)

/-- The loop of the client, `examples/echo/echo-client/echo-client.c:396-457`, and the exit code (line 464): what it sends and
the list of what it writes after `Received: `. -/
def clientLoop (B : CipherBackend) (E : Nat → Bytes) : List (List Snd) → List Seg → Bytes → CipherState → CipherState →
    Option Rand.State → (input : Bytes) → Out (Option Bool × Bytes × List Bytes)
  | [], _, _, _, _, _, _ => pure (none, [], [])
  | ks :: kss, segs, msg, rc, sc, rand, input =>
    match fgets (msg.length - 2 - B.macLen) input with
    | none => pure (some true, [], [])
    | some (line, input) => do
      let (t, rand, out) ← clientTurn B E ks segs msg rc sc rand line
      match t.status with
      | .next => do
        let (ok, sent, outs) ← clientLoop B E kss t.segs t.msg t.rc t.sc rand input
        pure (ok, t.sent ++ sent, out.toList ++ outs)
      | .closed => pure (some true, t.sent, out.toList)
      | .failed => pure (some false, t.sent, out.toList)
      | .waiting => pure (none, t.sent, out.toList)

end Noise.Echo
