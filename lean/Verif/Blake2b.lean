import Verif.Hash
/-!
# Model of `src/crypto/blake2/blake2b.c` and of `src/backend/ref/hash-blake2b.c`

The argument `big` tells whether the machine is big endian (`src/crypto/blake2/blake2-endian.h`): the words are then
converted byte by byte, with a pointer that advances by 4 and not by 8. The field `posn` is a `uint8_t` that stays at most 128; it is a natural number here.
-/

namespace Noise.Blake2b

/-- `BLAKE2b_context_t`, `src/crypto/blake2/blake2b.h:33-40`. -/
structure Ctx where
  h : List UInt64
  m : Bytes
  length : UInt64
  posn : Nat
  deriving DecidableEq, Repr

/-- The constants `BLAKE2b_IV0` to `BLAKE2b_IV7`, `src/crypto/blake2/blake2b.c:34-41`. -/
def iv : List UInt64 :=
  [ 0x6a09e667f3bcc908, 0xbb67ae8584caa73b, 0x3c6ef372fe94f82b, 0xa54ff53a5f1d36f1,
    0x510e527fade682d1, 0x9b05688c2b3e6c1f, 0x1f83d9abfb41bd6b, 0x5be0cd19137e2179 ]

/-- `BLAKE2b_reset`, `src/crypto/blake2/blake2b.c:43-55`. The buffer keeps its contents. -/
def reset (c : Ctx) : Ctx :=
  { c with
    h := [iv.getD 0 0 ^^^ 0x01010040, iv.getD 1 0, iv.getD 2 0, iv.getD 3 0, iv.getD 4 0, iv.getD 5 0, iv.getD 6 0,
      iv.getD 7 0]
    length := 0
    posn := 0 }

/-- The table of `src/crypto/blake2/blake2b.c:58-71`. -/
def sigma : List (List Nat) :=
  [ [0, 1, 2, 3, 4, 5, 6, 7, 8, 9, 10, 11, 12, 13, 14, 15],
    [14, 10, 4, 8, 9, 15, 13, 6, 1, 12, 0, 2, 11, 7, 5, 3],
    [11, 8, 12, 0, 5, 2, 15, 13, 10, 14, 3, 6, 7, 1, 9, 4],
    [7, 9, 3, 1, 13, 12, 11, 14, 2, 6, 5, 10, 4, 0, 15, 8],
    [9, 0, 5, 7, 2, 4, 10, 15, 14, 1, 11, 12, 6, 8, 3, 13],
    [2, 12, 6, 10, 0, 11, 8, 3, 4, 13, 7, 5, 15, 14, 1, 9],
    [12, 5, 1, 15, 14, 13, 4, 10, 0, 7, 6, 3, 9, 2, 8, 11],
    [13, 11, 7, 14, 12, 1, 3, 9, 5, 0, 15, 4, 8, 6, 2, 10],
    [6, 15, 14, 9, 11, 3, 0, 8, 12, 2, 13, 7, 1, 4, 10, 5],
    [10, 2, 8, 4, 7, 6, 1, 5, 15, 11, 9, 14, 3, 12, 13, 0],
    [0, 1, 2, 3, 4, 5, 6, 7, 8, 9, 10, 11, 12, 13, 14, 15],
    [14, 10, 4, 8, 9, 15, 13, 6, 1, 12, 0, 2, 11, 7, 5, 3] ]

/-- `rightRotate`, `src/crypto/blake2/blake2b.c:74`. -/
def rightRotate (x n : UInt64) : UInt64 := (x >>> n) ||| (x <<< (64 - n))

/-- `quarterRound`, `src/crypto/blake2/blake2b.c:77-87`, with the two message words. -/
def quarterRound (a b c d m0 m1 : UInt64) : UInt64 × UInt64 × UInt64 × UInt64 :=
  let a := a + (b + m0)
  let d := rightRotate (d ^^^ a) 32
  let c := c + d
  let b := rightRotate (b ^^^ c) 24
  let a := a + (b + m1)
  let d := rightRotate (d ^^^ a) 16
  let c := c + d
  let b := rightRotate (b ^^^ c) 63
  (a, b, c, d)

/-- The array `v`. -/
structure Work where
  (v0 v1 v2 v3 v4 v5 v6 v7 v8 v9 v10 v11 v12 v13 v14 v15 : UInt64)
  deriving DecidableEq, Repr

/-- One round, `src/crypto/blake2/blake2b.c:127-137`, with the row `s` of the table. -/
def round (m : List UInt64) (v : Work) (s : List Nat) : Work :=
  let ⟨v0, v1, v2, v3, v4, v5, v6, v7, v8, v9, v10, v11, v12, v13, v14, v15⟩ := v
  let w := fun i => m.getD (s.getD i 0) 0
  let (v0, v4, v8, v12) := quarterRound v0 v4 v8 v12 (w 0) (w 1)
  let (v1, v5, v9, v13) := quarterRound v1 v5 v9 v13 (w 2) (w 3)
  let (v2, v6, v10, v14) := quarterRound v2 v6 v10 v14 (w 4) (w 5)
  let (v3, v7, v11, v15) := quarterRound v3 v7 v11 v15 (w 6) (w 7)
  let (v0, v5, v10, v15) := quarterRound v0 v5 v10 v15 (w 8) (w 9)
  let (v1, v6, v11, v12) := quarterRound v1 v6 v11 v12 (w 10) (w 11)
  let (v2, v7, v8, v13) := quarterRound v2 v7 v8 v13 (w 12) (w 13)
  let (v3, v4, v9, v14) := quarterRound v3 v4 v9 v14 (w 14) (w 15)
  ⟨v0, v1, v2, v3, v4, v5, v6, v7, v8, v9, v10, v11, v12, v13, v14, v15⟩

/-- A word stored with the least significant byte first, `src/crypto/blake2/blake2b.c:102-109`. -/
def readWord (p : Bytes) (i : Nat) : UInt64 :=
  (p.getD i 0).toUInt64 ||| (p.getD (i + 1) 0).toUInt64 <<< 8 ||| (p.getD (i + 2) 0).toUInt64 <<< 16 |||
    (p.getD (i + 3) 0).toUInt64 <<< 24 ||| (p.getD (i + 4) 0).toUInt64 <<< 32 ||| (p.getD (i + 5) 0).toUInt64 <<< 40 |||
    (p.getD (i + 6) 0).toUInt64 <<< 48 ||| (p.getD (i + 7) 0).toUInt64 <<< 56

/-- The array `m`, `src/crypto/blake2/blake2b.c:98-111`. -/
def unpack (big : Bool) (data : Bytes) : List UInt64 :=
  if big then (List.range 16).map fun i => readWord data (4 * i)
  else (List.range 16).map fun i => readWord data (8 * i)

/-- Formatting the block to be hashed, `src/crypto/blake2/blake2b.c:114-122`. -/
def format (ctx : Ctx) (f0 : UInt64) : Work :=
  ⟨ctx.h.getD 0 0, ctx.h.getD 1 0, ctx.h.getD 2 0, ctx.h.getD 3 0, ctx.h.getD 4 0, ctx.h.getD 5 0, ctx.h.getD 6 0,
    ctx.h.getD 7 0, iv.getD 0 0, iv.getD 1 0, iv.getD 2 0, iv.getD 3 0, iv.getD 4 0 ^^^ ctx.length,
    iv.getD 5 0, iv.getD 6 0 ^^^ f0, iv.getD 7 0⟩

/-- `blake2b_transform`, `src/crypto/blake2/blake2b.c:89-143`: it reads 128 bytes. -/
def transform (big : Bool) (ctx : Ctx) (data : Bytes) (f0 : UInt64) : Out Ctx :=
  if data.length < 128 then .ub else
  let v := sigma.foldl (round (unpack big data)) (format ctx f0)
  .ok { ctx with h := [ctx.h.getD 0 0 ^^^ (v.v0 ^^^ v.v8), ctx.h.getD 1 0 ^^^ (v.v1 ^^^ v.v9),
    ctx.h.getD 2 0 ^^^ (v.v2 ^^^ v.v10), ctx.h.getD 3 0 ^^^ (v.v3 ^^^ v.v11), ctx.h.getD 4 0 ^^^ (v.v4 ^^^ v.v12),
    ctx.h.getD 5 0 ^^^ (v.v5 ^^^ v.v13), ctx.h.getD 6 0 ^^^ (v.v6 ^^^ v.v14), ctx.h.getD 7 0 ^^^ (v.v7 ^^^ v.v15)] }

/-- Processing the buffer when it is full, `src/crypto/blake2/blake2b.c:151-156`. -/
def flush (big : Bool) (ctx : Ctx) : Out Ctx :=
  if ctx.posn = 128 then do
    let ctx ← transform big ctx ctx.m 0
    pure { ctx with posn := 0 }
  else .ok ctx

/-- One iteration of the loop of `BLAKE2b_update`, `src/crypto/blake2/blake2b.c:151-173`: the context and the
bytes left. -/
def updateStep (big : Bool) (ctx : Ctx) (d : Bytes) : Out (Ctx × Bytes) := do
  let ctx ← flush big ctx
  if d.length > 128 ∧ ctx.posn = 0 then do
    let ctx ← transform big { ctx with length := ctx.length + 128 } d 0
    pure (ctx, d.drop 128)
  else do
    let len := 128 - ctx.posn
    let len := if len > d.length then d.length else len
    let m ← store ctx.m ctx.posn (d.take len)
    pure ({ ctx with m := m, posn := ctx.posn + len, length := ctx.length + UInt64.ofNat len }, d.drop len)

/-- The loop of `BLAKE2b_update`, `src/crypto/blake2/blake2b.c:150-174`. The first numeric argument bounds the
number of iterations; running out is undefined (it does not happen). -/
def updateLoop (big : Bool) : Nat → Ctx → Bytes → Out Ctx
  | _, ctx, [] => .ok ctx
  | 0, _, _ :: _ => .ub
  | n + 1, ctx, x :: d => do
    let (ctx, rest) ← updateStep big ctx (x :: d)
    updateLoop big n ctx rest

/-- `BLAKE2b_update`, `src/crypto/blake2/blake2b.c:145-175`. -/
def update (big : Bool) (ctx : Ctx) (data : Bytes) : Out Ctx := updateLoop big data.length ctx data

/-- The bytes of a word, least significant first, `src/crypto/blake2/blake2b.c:191-198`. -/
def writeWord (h : UInt64) : Bytes :=
  [h.toUInt8, (h >>> 8).toUInt8, (h >>> 16).toUInt8, (h >>> 24).toUInt8,
    (h >>> 32).toUInt8, (h >>> 40).toUInt8, (h >>> 48).toUInt8, (h >>> 56).toUInt8]

/-- The loop of `src/crypto/blake2/blake2b.c:189-199`: the index and the destination. -/
def outputBig (h : List UInt64) : List Nat → Bytes → Out Bytes
  | [], hash => .ok hash
  | i :: is, hash => do
    let hash ← store hash (4 * i) (writeWord (h.getD i 0))
    outputBig h is hash

/-- Copying the hash to the caller, `src/crypto/blake2/blake2b.c:184-201`. -/
def output (big : Bool) (h : List UInt64) (hash : Bytes) : Out Bytes :=
  if big then outputBig h (List.range 8) hash
  else store hash 0 ((List.range 8).flatMap fun i => writeWord (h.getD i 0))

/-- `BLAKE2b_finish`, `src/crypto/blake2/blake2b.c:177-202`: the context and the hash; `hash` is what the
64 bytes at the destination contained before. -/
def finish (big : Bool) (ctx : Ctx) (hash : Bytes) : Out (Ctx × Bytes) := do
  let m ← store ctx.m ctx.posn (List.replicate (128 - ctx.posn) 0)
  let ctx ← transform big { ctx with m := m } m 0xFFFFFFFFFFFFFFFF
  do
    let hash ← output big ctx.h hash
    pure (ctx, hash)

end Noise.Blake2b
