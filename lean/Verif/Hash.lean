import Verif.Basic
/-!
# Model of `src/protocol/hashstate.c`
-/

namespace Noise

/-- A hash back end: the constants and function pointers of `struct NoiseHashState_s`
(`src/protocol/internal.h:151-211`). `Ctx` is the back end's private state; `finalize` gives
the new private state and the bytes written to `hash`. -/
structure HashBackend where
  hashId : Nat
  hashLen : Nat
  blockLen : Nat
  Ctx : Type
  reset : Ctx → Ctx
  update : Ctx → Bytes → Ctx
  finalize : Ctx → Ctx × Bytes

/-- What the protocol layer relies on from a hash back end, `H` being the hash function it
implements. Proved for the reference back ends in the hash modules. Not a definition of the
code base. -/
structure HashBackend.Lawful (B : HashBackend) (H : Bytes → Bytes) : Prop where
  /-- After a reset, any sequence of updates followed by finalize gives the hash of the
  concatenation, whatever was in the context before. -/
  digest : ∀ (c : B.Ctx) (chunks : List Bytes),
    (B.finalize (chunks.foldl B.update (B.reset c))).2 = H chunks.flatten
  length : ∀ m, (H m).length = B.hashLen
  hashLen_pos : 0 < B.hashLen
  hashLen_le_block : B.hashLen ≤ B.blockLen
  hashLen_le_max : B.hashLen ≤ 64

namespace HashBackend
variable (B : HashBackend)

/-- `NOISE_MAX_HASHLEN`, `src/protocol/internal.h:49`. -/
def maxHashLen : Nat := 64

/-- `noise_hashstate_hash_one`, `src/protocol/hashstate.c:308-323`, with the output length
equal to `hash_len` (all callers in the model). -/
def hashOne (c : B.Ctx) (data : Bytes) : B.Ctx × Bytes :=
  B.finalize (B.update (B.reset c) data)

/-- `noise_hashstate_hash_two`, `src/protocol/hashstate.c:351-367`, with the output length
equal to `hash_len` (all callers in the model). -/
def hashTwo (c : B.Ctx) (data1 data2 : Bytes) : B.Ctx × Bytes :=
  B.finalize (B.update (B.update (B.reset c) data1) data2)

/-- `noise_hashstate_xor_key`, `src/protocol/hashstate.c:381-387`. -/
def xorKey : Bytes → UInt8 → Bytes
  | [], _ => []
  | k :: ks, v => (k ^^^ v) :: xorKey ks v

/-- Formatting of the HMAC key block, `src/protocol/hashstate.c:419-427`. The copy and the
`memset` cover the whole key block, so its previous contents do not appear; when the hash is
longer than a block the `memset` length is negative (undefined). -/
def hmacKey (c : B.Ctx) (key : Bytes) : Out (B.Ctx × Bytes) :=
  if key.length ≤ B.blockLen then
    .ok (c, key ++ List.replicate (B.blockLen - key.length) 0)
  else if B.hashLen ≤ B.blockLen then
    .ok ((B.hashOne c key).1, (B.hashOne c key).2 ++ List.replicate (B.blockLen - B.hashLen) 0)
  else .ub

/-- `noise_hashstate_hmac`, `src/protocol/hashstate.c:406-449`. `data2 = none` is the NULL
pointer. -/
def hmac (c : B.Ctx) (key data1 : Bytes) (data2 : Option Bytes) : Out (B.Ctx × Bytes) := do
  let (c, keyBlock) ← B.hmacKey c key
  let keyBlock := xorKey keyBlock 0x36
  let c := B.update (B.reset c) keyBlock
  let c := B.update c data1
  let c := match data2 with
    | none => c
    | some d => B.update c d
  let (c, hash) := B.finalize c
  let keyBlock := xorKey keyBlock (0x36 ^^^ 0x5C)
  let c := B.update (B.reset c) keyBlock
  let c := B.update c hash
  pure (B.finalize c)

/-- `noise_hashstate_hkdf`, `src/protocol/hashstate.c:476-516`: return code, context and the
two outputs. -/
def hkdf (c : B.Ctx) (key data : Bytes) (len1 len2 : Nat) :
    Out (Err × B.Ctx × Bytes × Bytes) :=
  if len1 > B.hashLen ∨ len2 > B.hashLen then .ok (.invalidLength, c, [], [])
  else do
    let (c, tempKey) ← B.hmac c key data none
    let (c, tempHash) ← B.hmac c tempKey [0x01] none
    let output1 := tempHash.take len1
    let (c, tempHash) ← B.hmac c tempKey (tempHash ++ [0x02]) none
    let output2 := tempHash.take len2
    pure (.none, c, output1, output2)

/-- The byte-wise exclusive or of `src/protocol/hashstate.c:577-578`. -/
def xorBytes (a b : Bytes) : Bytes := List.zipWith (· ^^^ ·) a b

/-- The inner loop of `src/protocol/hashstate.c:574-579`, `k` iterations remaining. -/
def pbkdf2Inner (pass : Bytes) : Nat → B.Ctx → Bytes → Bytes → Out (B.Ctx × Bytes)
  | 0, c, t, _ => pure (c, t)
  | k + 1, c, t, u => do
    let (c, u) ← B.hmac c pass u none
    pbkdf2Inner pass k c (xorBytes t u) u

/-- The block counter encoding of `src/protocol/hashstate.c:565-568`. -/
def ibuf (i : Nat) : Bytes :=
  [UInt8.ofNat (i / 2 ^ 24), UInt8.ofNat (i / 2 ^ 16), UInt8.ofNat (i / 2 ^ 8), UInt8.ofNat i]

/-- The outer loop of `src/protocol/hashstate.c:562-590`: the bytes written to `output`. The
counter `i` is a `size_t`; it stays below 2^32 by the length check. A hash of length 0 would
loop forever (`ub`). -/
def pbkdf2Loop (pass salt : Bytes) (iterations : Nat) (i outputLen : Nat) (c : B.Ctx) :
    Out (B.Ctx × Bytes) :=
  if 0 < outputLen then
    if B.hashLen = 0 ∨ B.hashLen > maxHashLen then .ub
    else do
      let (c, t) ← B.hmac c pass salt (some (ibuf i))
      let (c, t) ← B.pbkdf2Inner pass (iterations - 1) c t t
      if _h : outputLen ≥ B.hashLen ∧ 0 < B.hashLen then do
        let (c, rest) ← pbkdf2Loop pass salt iterations (i + 1) (outputLen - B.hashLen) c
        pure (c, t ++ rest)
      else pure (c, t.take outputLen)
  else pure (c, [])
termination_by outputLen

/-- `noise_hashstate_pbkdf2`, `src/protocol/hashstate.c:541-596`: return code, context,
output bytes. -/
def pbkdf2 (c : B.Ctx) (pass salt : Bytes) (iterations outputLen : Nat) :
    Out (Err × B.Ctx × Bytes) :=
  if outputLen > 0xFFFFFFFF * B.hashLen then .ok (.invalidLength, c, [])
  else do
    let (c, out) ← B.pbkdf2Loop pass salt iterations 1 outputLen c
    pure (.none, c, out)

end HashBackend
end Noise
