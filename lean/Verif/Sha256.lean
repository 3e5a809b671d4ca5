import Verif.Hash
/-!
# Model of `src/crypto/sha2/sha256.c` and of `src/backend/ref/hash-sha256.c`

The array `w` is built by appending; every index read is below the number of words already there. The
field `posn` is a `uint8_t` that stays at most 64; it is a natural number here.
-/

namespace Noise.Sha256

/-- `sha256_context_t`, `src/crypto/sha2/sha256.h:33-40`. -/
structure Ctx where
  h : List UInt32
  m : Bytes
  length : UInt64
  posn : Nat
  deriving DecidableEq, Repr

/-- `sha256_reset`, `src/crypto/sha2/sha256.c:26-38`. The buffer keeps its contents. -/
def reset (c : Ctx) : Ctx :=
  { c with
    h := [ 0x6a09e667, 0xbb67ae85, 0x3c6ef372, 0xa54ff53a, 0x510e527f, 0x9b05688c, 0x1f83d9ab, 0x5be0cd19 ]
    length := 0
    posn := 0 }

/-- `rightRotate`, `src/crypto/sha2/sha256.c:40`. -/
def rightRotate (v n : UInt32) : UInt32 := (v >>> n) ||| (v <<< (32 - n))

/-- The table of `src/crypto/sha2/sha256.c:44-61`. -/
def k : List UInt32 :=
  [ 0x428a2f98, 0x71374491, 0xb5c0fbcf, 0xe9b5dba5, 0x3956c25b, 0x59f111f1, 0x923f82a4, 0xab1c5ed5,
    0xd807aa98, 0x12835b01, 0x243185be, 0x550c7dc3, 0x72be5d74, 0x80deb1fe, 0x9bdc06a7, 0xc19bf174,
    0xe49b69c1, 0xefbe4786, 0x0fc19dc6, 0x240ca1cc, 0x2de92c6f, 0x4a7484aa, 0x5cb0a9dc, 0x76f988da,
    0x983e5152, 0xa831c66d, 0xb00327c8, 0xbf597fc7, 0xc6e00bf3, 0xd5a79147, 0x06ca6351, 0x14292967,
    0x27b70a85, 0x2e1b2138, 0x4d2c6dfc, 0x53380d13, 0x650a7354, 0x766a0abb, 0x81c2c92e, 0x92722c85,
    0xa2bfe8a1, 0xa81a664b, 0xc24b8b70, 0xc76c51a3, 0xd192e819, 0xd6990624, 0xf40e3585, 0x106aa070,
    0x19a4c116, 0x1e376c08, 0x2748774c, 0x34b0bcb5, 0x391c0cb3, 0x4ed8aa4a, 0x5b9cca4f, 0x682e6ff3,
    0x748f82ee, 0x78a5636f, 0x84c87814, 0x8cc70208, 0x90befffa, 0xa4506ceb, 0xbef9a3f7, 0xc67178f2 ]

/-- One word of the block, `src/crypto/sha2/sha256.c:78-81`: the bytes at offset `i`. -/
def readWord (m : Bytes) (i : Nat) : UInt32 :=
  (m.getD i 0).toUInt32 <<< 24 ||| (m.getD (i + 1) 0).toUInt32 <<< 16 ||| (m.getD (i + 2) 0).toUInt32 <<< 8 |||
    (m.getD (i + 3) 0).toUInt32

/-- The loop of `src/crypto/sha2/sha256.c:77-83`. -/
def input (m : Bytes) : List UInt32 := (List.range 16).map fun i => readWord m (4 * i)

/-- One step of the loop of `src/crypto/sha2/sha256.c:86-94`. -/
def extendStep (w : List UInt32) (index : Nat) : List UInt32 :=
  w ++ [w.getD (index - 16) 0 + w.getD (index - 7) 0 +
    (rightRotate (w.getD (index - 15) 0) 7 ^^^ rightRotate (w.getD (index - 15) 0) 18 ^^^
      (w.getD (index - 15) 0 >>> 3)) +
    (rightRotate (w.getD (index - 2) 0) 17 ^^^ rightRotate (w.getD (index - 2) 0) 19 ^^^
      (w.getD (index - 2) 0 >>> 10))]

/-- The loop of `src/crypto/sha2/sha256.c:86-94`. -/
def extend (m : Bytes) : List UInt32 := (List.range' 16 48).foldl extendStep (input m)

/-- `SHA256_ROUND`, `src/crypto/sha2/sha256.c:97-104`, with the constant and the word at its index: the new
values of `d` and `h`. -/
def round (a b c d e f g h kn wn : UInt32) : UInt32 × UInt32 :=
  let temp1 := h + kn + wn + (rightRotate e 6 ^^^ rightRotate e 11 ^^^ rightRotate e 25) +
    ((e &&& f) ^^^ (~~~e &&& g))
  let temp2 := (rightRotate a 2 ^^^ rightRotate a 13 ^^^ rightRotate a 22) +
    ((a &&& b) ^^^ (a &&& c) ^^^ (b &&& c))
  (d + temp1, temp1 + temp2)

/-- The local variables a to h. -/
structure Regs where
  (a b c d e f g h : UInt32)
  deriving DecidableEq, Repr

/-- The body of the loop of `src/crypto/sha2/sha256.c:107-116`. -/
def rounds8 (w : List UInt32) (v : Regs) (index : Nat) : Regs :=
  let ⟨a, b, c, d, e, f, g, h⟩ := v
  let (d, h) := round a b c d e f g h (k.getD index 0) (w.getD index 0)
  let (c, g) := round h a b c d e f g (k.getD (index + 1) 0) (w.getD (index + 1) 0)
  let (b, f) := round g h a b c d e f (k.getD (index + 2) 0) (w.getD (index + 2) 0)
  let (a, e) := round f g h a b c d e (k.getD (index + 3) 0) (w.getD (index + 3) 0)
  let (h, d) := round e f g h a b c d (k.getD (index + 4) 0) (w.getD (index + 4) 0)
  let (g, c) := round d e f g h a b c (k.getD (index + 5) 0) (w.getD (index + 5) 0)
  let (f, b) := round c d e f g h a b (k.getD (index + 6) 0) (w.getD (index + 6) 0)
  let (e, a) := round b c d e f g h a (k.getD (index + 7) 0) (w.getD (index + 7) 0)
  ⟨a, b, c, d, e, f, g, h⟩

/-- `sha256_transform`, `src/crypto/sha2/sha256.c:42-127`, of the bytes at `m`: it reads 64 of them. -/
def transform (ctx : Ctx) (m : Bytes) : Out Ctx :=
  if m.length < 64 then .ub else
  let w := extend m
  let v : Regs := ⟨ctx.h.getD 0 0, ctx.h.getD 1 0, ctx.h.getD 2 0, ctx.h.getD 3 0, ctx.h.getD 4 0,
    ctx.h.getD 5 0, ctx.h.getD 6 0, ctx.h.getD 7 0⟩
  let v := ((List.range 8).map (8 * ·)).foldl (rounds8 w) v
  .ok { ctx with h := [ctx.h.getD 0 0 + v.a, ctx.h.getD 1 0 + v.b, ctx.h.getD 2 0 + v.c, ctx.h.getD 3 0 + v.d,
    ctx.h.getD 4 0 + v.e, ctx.h.getD 5 0 + v.f, ctx.h.getD 6 0 + v.g, ctx.h.getD 7 0 + v.h] }

/-- Transforming the buffer when it is full, `src/crypto/sha2/sha256.c:144-147`. -/
def flush (ctx : Ctx) : Out Ctx :=
  if ctx.posn ≥ 64 then do
    let ctx ← transform ctx ctx.m
    pure { ctx with posn := 0 }
  else .ok ctx

/-- One iteration of the loop of `sha256_update`, `src/crypto/sha2/sha256.c:133-151`: the context and the bytes
left. -/
def updateStep (ctx : Ctx) (d : Bytes) : Out (Ctx × Bytes) :=
  if ctx.posn = 0 ∧ d.length ≥ 64 then do
    let ctx ← transform ctx d
    pure ({ ctx with length := ctx.length + 64 * 8 }, d.drop 64)
  else do
    let temp := 64 - ctx.posn
    let temp := if temp > d.length then d.length else temp
    let m ← store ctx.m ctx.posn (d.take temp)
    let ctx ← flush { ctx with m := m, posn := ctx.posn + temp }
    pure ({ ctx with length := ctx.length + UInt64.ofNat temp * 8 }, d.drop temp)

/-- The loop of `sha256_update`, `src/crypto/sha2/sha256.c:132-152`. The first argument bounds the number of
iterations; running out is undefined (it does not happen). -/
def updateLoop : Nat → Ctx → Bytes → Out Ctx
  | _, ctx, [] => .ok ctx
  | 0, _, _ :: _ => .ub
  | n + 1, ctx, x :: d => do
    let (ctx, rest) ← updateStep ctx (x :: d)
    updateLoop n ctx rest

/-- `sha256_update`, `src/crypto/sha2/sha256.c:129-153`. -/
def update (ctx : Ctx) (data : Bytes) : Out Ctx := updateLoop data.length ctx data

/-- `write_be32`, `src/crypto/sha2/sha256.c:155-161`: the bytes stored. -/
def writeBe (value : UInt32) : Bytes :=
  [(value >>> 24).toUInt8, (value >>> 16).toUInt8, (value >>> 8).toUInt8, value.toUInt8]

/-- The padding part of `sha256_finish`, `src/crypto/sha2/sha256.c:165-174`. -/
def pad (ctx : Ctx) : Out Ctx := do
  let m ← store ctx.m ctx.posn [0x80]
  if ctx.posn ≤ 64 - 9 then do
    let m ← store m (ctx.posn + 1) (List.replicate (64 - 8 - (ctx.posn + 1)) 0)
    pure { ctx with m := m }
  else do
    let m ← store m (ctx.posn + 1) (List.replicate (64 - (ctx.posn + 1)) 0)
    let ctx ← transform { ctx with m := m } m
    let m ← store ctx.m 0 (List.replicate (64 - 8) 0)
    pure { ctx with m := m }

/-- `sha256_finish`, `src/crypto/sha2/sha256.c:163-181`: the context and the hash. -/
def finish (ctx : Ctx) : Out (Ctx × Bytes) := do
  let ctx ← pad ctx
  let m ← store ctx.m (64 - 8) (writeBe (ctx.length >>> 32).toUInt32)
  let m ← store m (64 - 4) (writeBe ctx.length.toUInt32)
  let ctx ← transform { ctx with m := m } m
  pure ({ ctx with posn := 0 }, (List.range 8).flatMap fun i => writeBe (ctx.h.getD i 0))

end Noise.Sha256
