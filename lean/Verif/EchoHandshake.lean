import Verif.EchoLoop
import Verif.Handshake
/-!
# Model of the handshake of the echo programs, and of the programs from there to the end

`examples/echo/echo-server/echo-server.c:320-371` and `examples/echo/echo-client/echo-client.c:324-375` are the same code. The
handshake object is the one after `noise_handshakestate_start`.
-/

namespace Noise.Echo

variable {HB : HashBackend} {D G : DHBackend}

/-- For one turn of the loop: the random and uninitialised bytes of the call to the library and what `send` does. -/
structure HTurn where
  rnd : Nat → Nat → UInt8
  junk : Nat → Nat → UInt8
  ks : List Snd

/-- What is there after a turn or after the loop. Not a definition of the code base. -/
structure Hand (H : Type) where
  status : Status
  sent : Bytes
  segs : List Seg
  msg : Bytes
  s : H

/-- A turn that writes, `examples/echo/echo-server/echo-server.c:323-337`. -/
def handWrite (CB : CipherBackend) (t : HTurn) (segs : List Seg) (msg : Bytes) (s : HS HB D G) : Out (Hand (HS HB D G)) := do
  let (e, s, b) ← s.writeMessage CB t.rnd t.junk (msg.drop 2) none
  let msg := msg.take 2 ++ b.data
  if e ≠ .none then pure ⟨.failed, [], segs, msg, s⟩
  else do
    let (msg, ok, sent) ← sendPacket t.ks msg b.size
    pure ⟨statusOf ok, sent, segs, msg, s⟩

/-- A turn that reads, `examples/echo/echo-server/echo-server.c:338-352`. -/
def handRead (CB : CipherBackend) (t : HTurn) (segs : List Seg) (msg : Bytes) (s : HS HB D G) : Out (Hand (HS HB D G)) := do
  let (size, msg, segs) ← recv segs msg msg.length
  if size = 0 then pure ⟨.failed, [], segs, msg, s⟩
  else do
    let body ← load msg 2 (size - 2)
    let (e, s, b, _) ← s.readMessage CB t.junk ⟨body, size - 2⟩ none
    let msg ← store msg 2 b.data
    if e ≠ .none then pure ⟨.failed, [], segs, msg, s⟩
    else pure ⟨.next, [], segs, msg, s⟩

/-- One turn of the loop when the action is one of the two, `examples/echo/echo-server/echo-server.c:323-352`. -/
def handTurn (CB : CipherBackend) (t : HTurn) (segs : List Seg) (msg : Bytes) (s : HS HB D G) : Out (Hand (HS HB D G)) :=
  if s.action = .write then handWrite CB t segs msg s else handRead CB t segs msg s

/-- The loop, `examples/echo/echo-server/echo-server.c:321-357`, with `next` for an end of the loop with `ok` true; it waits
when the turns are used up. -/
def handLoop (CB : CipherBackend) : List HTurn → List Seg → Bytes → HS HB D G → Out (Hand (HS HB D G))
  | [], segs, msg, s => pure ⟨if s.action = .write ∨ s.action = .read then .waiting else .next, [], segs, msg, s⟩
  | t :: ts, segs, msg, s =>
    if s.action ≠ .write ∧ s.action ≠ .read then pure ⟨.next, [], segs, msg, s⟩
    else do
      let r ← handTurn CB t segs msg s
      if r.status = .next then do
        let q ← handLoop CB ts r.segs r.msg r.s
        pure ⟨q.status, r.sent ++ q.sent, q.segs, q.msg, q.s⟩
      else pure r

/-- The loop, the check of the action and the split, `examples/echo/echo-server/echo-server.c:321-371`: with the ciphers for
sending and receiving if all went well. -/
def handshake (CB : CipherBackend) (ts : List HTurn) (segs : List Seg) (msg : Bytes) (s : HS HB D G) :
    Out (Hand (HS HB D G) × Option (CipherState × CipherState)) := do
  let r ← handLoop CB ts segs msg s
  if r.status ≠ .next then pure (r, none)
  else if r.s.action ≠ .split then pure ({ r with status := .failed }, none)
  else do
    let (e, s, snd, rcv) ← r.s.split CB true true true
    match e, snd, rcv with
    | .none, some a, some b => pure ({ r with s := s }, some (a, b))
    | _, _, _ => pure ({ r with status := .failed, s := s }, none)

/-- The exit code when the handshake does not lead to ciphers. -/
def handExit : Status → Option Bool
  | .waiting => none
  | _ => some false

/-- The server after `noise_handshakestate_start`, `examples/echo/echo-server/echo-server.c:320-413`: the exit code (`some true`
is 0) and what it sends. -/
def serverRun (CB : CipherBackend) (ts : List HTurn) (kss : List (List Snd)) (segs : List Seg) (msg : Bytes) (s : HS HB D G) :
    Out (Option Bool × Bytes) := do
  let (r, c) ← handshake CB ts segs msg s
  match c with
  | none => pure (handExit r.status, r.sent)
  | some (snd, rcv) => do
    let (ok, sent) ← serverLoop CB kss r.segs r.msg rcv snd
    pure (ok, r.sent ++ sent)

/-- The client after `noise_handshakestate_start`, `examples/echo/echo-client/echo-client.c:324-464`: the exit code, what it
sends and what it writes after `Received: `. `noise_randstate_new` finds memory. -/
def clientRun (CB : CipherBackend) (E : Nat → Bytes) (padding : Bool) (ts : List HTurn) (kss : List (List Snd))
    (segs : List Seg) (msg : Bytes) (s : HS HB D G) (input : Bytes) : Out (Option Bool × Bytes × List Bytes) := do
  let (r, c) ← handshake CB ts segs msg s
  match c with
  | none => pure (handExit r.status, r.sent, [])
  | some (snd, rcv) => do
    let (ok, sent, outs) ← clientLoop CB E kss r.segs r.msg rcv snd (if padding then some (Rand.new E) else none) input
    pure (ok, r.sent ++ sent, outs)

end Noise.Echo
