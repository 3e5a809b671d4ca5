import Verif.Rfc7539

/-!
What a random number generator in the style of `arc4random` does, in terms of the blocks of RFC 7539: it hands out
prefixes of blocks, takes a new key from the next block (rekey), or mixes new entropy with the next block and then
rekeys (reseed). A history is a list of such events.
-/

namespace Noise.RandSpec

/-- A key, a nonce of 8 bytes, and the number of the next block. -/
structure Gen where
  key : Bytes
  iv : Bytes
  counter : Nat

/-- The next block of key stream. -/
def Gen.block (g : Gen) : Bytes := Rfc7539.block g.key g.counter ([0, 0, 0, 0] ++ g.iv)

/-- A new key and nonce: 40 bytes encrypted with the next block. -/
def Gen.mix (g : Gen) (m : Bytes) : Gen :=
  let d := List.zipWith (· ^^^ ·) m g.block
  ⟨d.take 32, d.drop 32, 0⟩

/-- An event: a block of which `n` bytes are handed out, a rekey, or a reseed. -/
inductive Event
  | out (n : Nat)
  | rekey
  | reseed

/-- One event. `E` is the operating system: `E r` is the answer to request number `r` for 40 bytes. -/
def step (E : Nat → Bytes) (s : Gen × Nat) : Event → (Gen × Nat) × Bytes
  | .out n => (({ s.1 with counter := s.1.counter + 1 }, s.2), s.1.block.take n)
  | .rekey => ((s.1.mix (List.replicate 40 0), s.2), [])
  | .reseed => (((s.1.mix (E s.2)).mix (List.replicate 40 0), s.2 + 1), [])

/-- The events one after the other, and the bytes handed out. -/
def run (E : Nat → Bytes) (s : Gen × Nat) : List Event → (Gen × Nat) × Bytes
  | [] => (s, [])
  | e :: es => let r := step E s e; let q := run E r.1 es; (q.1, r.2 ++ q.2)

/-- The blocks that the events use: the number of the key, the number of the block under that key, and whether any of
the block is handed out. -/
def uses : (epoch counter : Nat) → List Event → List (Nat × Nat × Bool)
  | _, _, [] => []
  | e, c, .out _ :: es => (e, c, true) :: uses e (c + 1) es
  | e, c, .rekey :: es => (e, c, false) :: uses (e + 1) 0 es
  | e, c, .reseed :: es => (e, c, false) :: (e + 1, 0, false) :: uses (e + 2) 0 es

/-- The number of blocks handed out since the key was changed. -/
def blocksSince : List Event → Nat :=
  List.foldl (fun n e => match e with | .out _ => n + 1 | .rekey => 0 | .reseed => 0) 0

/-- The number of bytes handed out since the last reseed. -/
def bytesSince : List Event → Nat :=
  List.foldl (fun n e => match e with | .out k => n + k | .rekey => n | .reseed => 0) 0

end Noise.RandSpec
