import Verif.Hash
/-!
# Model of `src/crypto/blake2/blake2s.c` and of `src/backend/ref/hash-blake2s.c`

The scalar variant comes first; the variant with vector instructions follows. On a little endian machine the
words are copied with `memcpy`, otherwise byte by byte: both are `readWord` and `writeWord`. The field `posn` is a `uint8_t` that stays at most 64; it is a natural number here.
-/

namespace Noise.Blake2s

/-- `BLAKE2s_context_t`, `src/crypto/blake2/blake2s.h:44-55`. -/
structure Ctx where
  h : List UInt32
  m : Bytes
  length : UInt64
  posn : Nat
  deriving DecidableEq, Repr

/-- The constants `BLAKE2s_IV0` to `BLAKE2s_IV7`, `src/crypto/blake2/blake2s.c:35-42`. -/
def iv : List UInt32 :=
  [ 0x6a09e667, 0xbb67ae85, 0x3c6ef372, 0xa54ff53a, 0x510e527f, 0x9b05688c, 0x1f83d9ab, 0x5be0cd19 ]

/-- `BLAKE2s_reset`, `src/crypto/blake2/blake2s.c:44-63`. The buffer keeps its contents. -/
def reset (c : Ctx) : Ctx :=
  { c with
    h := [iv.getD 0 0 ^^^ 0x01010020, iv.getD 1 0, iv.getD 2 0, iv.getD 3 0, iv.getD 4 0, iv.getD 5 0, iv.getD 6 0,
      iv.getD 7 0]
    length := 0
    posn := 0 }

/-- The table of `src/crypto/blake2/blake2s.c:66-77`. -/
def sigma : List (List Nat) :=
  [ [0, 1, 2, 3, 4, 5, 6, 7, 8, 9, 10, 11, 12, 13, 14, 15],
    [14, 10, 4, 8, 9, 15, 13, 6, 1, 12, 0, 2, 11, 7, 5, 3],
    [11, 8, 12, 0, 5, 2, 15, 13, 10, 14, 3, 6, 7, 1, 9, 4],
    [7, 9, 3, 1, 13, 12, 11, 14, 2, 6, 5, 10, 4, 0, 15, 8],
    [9, 0, 5, 7, 2, 4, 10, 15, 14, 1, 11, 12, 6, 8, 3, 13],
    [2, 12, 6, 10, 0, 11, 8, 3, 4, 13, 7, 5, 15, 14, 1, 9],
    [12, 5, 1, 15, 14, 13, 4, 10, 0, 7, 6, 3, 9, 2, 8, 11],
    [13, 11, 7, 14, 12, 1, 3, 9, 5, 0, 15, 4, 8, 6, 2, 10],
    [6, 15, 14, 9, 11, 3, 0, 8, 12, 2, 13, 7, 1, 4, 10, 5],
    [10, 2, 8, 4, 7, 6, 1, 5, 15, 11, 9, 14, 3, 12, 13, 0] ]

/-- `rightRotate`, `src/crypto/blake2/blake2s.c:80`. -/
def rightRotate (x n : UInt32) : UInt32 := (x >>> n) ||| (x <<< (32 - n))

/-- `quarterRound`, `src/crypto/blake2/blake2s.c:83-93`, with the two message words. -/
def quarterRound (a b c d m0 m1 : UInt32) : UInt32 × UInt32 × UInt32 × UInt32 :=
  let a := a + (b + m0)
  let d := rightRotate (d ^^^ a) 16
  let c := c + d
  let b := rightRotate (b ^^^ c) 12
  let a := a + (b + m1)
  let d := rightRotate (d ^^^ a) 8
  let c := c + d
  let b := rightRotate (b ^^^ c) 7
  (a, b, c, d)

/-- The array `v`. -/
structure Work where
  (v0 v1 v2 v3 v4 v5 v6 v7 v8 v9 v10 v11 v12 v13 v14 v15 : UInt32)
  deriving DecidableEq, Repr

/-- One round, `src/crypto/blake2/blake2s.c:194-204`, with the row `s` of the table. -/
def round (m : List UInt32) (v : Work) (s : List Nat) : Work :=
  let ⟨v0, v1, v2, v3, v4, v5, v6, v7, v8, v9, v10, v11, v12, v13, v14, v15⟩ := v
  let w := fun i => m.getD (s.getD i 0) 0
  let (v0, v4, v8, v12) := quarterRound v0 v4 v8 v12 (w 0) (w 1)
  let (v1, v5, v9, v13) := quarterRound v1 v5 v9 v13 (w 2) (w 3)
  let (v2, v6, v10, v14) := quarterRound v2 v6 v10 v14 (w 4) (w 5)
  let (v3, v7, v11, v15) := quarterRound v3 v7 v11 v15 (w 6) (w 7)
  let (v0, v5, v10, v15) := quarterRound v0 v5 v10 v15 (w 8) (w 9)
  let (v1, v6, v11, v12) := quarterRound v1 v6 v11 v12 (w 10) (w 11)
  let (v2, v7, v8, v13) := quarterRound v2 v7 v8 v13 (w 12) (w 13)
  let (v3, v4, v9, v14) := quarterRound v3 v4 v9 v14 (w 14) (w 15)
  ⟨v0, v1, v2, v3, v4, v5, v6, v7, v8, v9, v10, v11, v12, v13, v14, v15⟩

/-- A word stored with the least significant byte first, `src/crypto/blake2/blake2s.c:173-176`. -/
def readWord (p : Bytes) (i : Nat) : UInt32 :=
  (p.getD i 0).toUInt32 ||| (p.getD (i + 1) 0).toUInt32 <<< 8 ||| (p.getD (i + 2) 0).toUInt32 <<< 16 |||
    (p.getD (i + 3) 0).toUInt32 <<< 24

/-- The array `m`, `src/crypto/blake2/blake2s.c:169-178`. -/
def unpack (data : Bytes) : List UInt32 := (List.range 16).map fun i => readWord data (4 * i)

/-- Formatting the block to be hashed, `src/crypto/blake2/blake2s.c:181-189`. -/
def format (ctx : Ctx) (f0 : UInt32) : Work :=
  ⟨ctx.h.getD 0 0, ctx.h.getD 1 0, ctx.h.getD 2 0, ctx.h.getD 3 0, ctx.h.getD 4 0, ctx.h.getD 5 0, ctx.h.getD 6 0,
    ctx.h.getD 7 0, iv.getD 0 0, iv.getD 1 0, iv.getD 2 0, iv.getD 3 0, iv.getD 4 0 ^^^ ctx.length.toUInt32,
    iv.getD 5 0 ^^^ (ctx.length >>> 32).toUInt32, iv.getD 6 0 ^^^ f0, iv.getD 7 0⟩

/-- `blake2s_transform`, `src/crypto/blake2/blake2s.c:116-118, 162-211`: it reads 64 bytes. -/
def transform (ctx : Ctx) (data : Bytes) (f0 : UInt32) : Out Ctx :=
  if data.length < 64 then .ub else
  let v := sigma.foldl (round (unpack data)) (format ctx f0)
  .ok { ctx with h := [ctx.h.getD 0 0 ^^^ (v.v0 ^^^ v.v8), ctx.h.getD 1 0 ^^^ (v.v1 ^^^ v.v9),
    ctx.h.getD 2 0 ^^^ (v.v2 ^^^ v.v10), ctx.h.getD 3 0 ^^^ (v.v3 ^^^ v.v11), ctx.h.getD 4 0 ^^^ (v.v4 ^^^ v.v12),
    ctx.h.getD 5 0 ^^^ (v.v5 ^^^ v.v13), ctx.h.getD 6 0 ^^^ (v.v6 ^^^ v.v14), ctx.h.getD 7 0 ^^^ (v.v7 ^^^ v.v15)] }

/-- Processing the buffer when it is full, `src/crypto/blake2/blake2s.c:219-224`. -/
def flush (ctx : Ctx) : Out Ctx :=
  if ctx.posn = 64 then do
    let ctx ← transform ctx ctx.m 0
    pure { ctx with posn := 0 }
  else .ok ctx

/-- One iteration of the loop of `BLAKE2s_update`, `src/crypto/blake2/blake2s.c:219-241`: the context and the
bytes left. -/
def updateStep (ctx : Ctx) (d : Bytes) : Out (Ctx × Bytes) := do
  let ctx ← flush ctx
  if d.length > 64 ∧ ctx.posn = 0 then do
    let ctx ← transform { ctx with length := ctx.length + 64 } d 0
    pure (ctx, d.drop 64)
  else do
    let len := 64 - ctx.posn
    let len := if len > d.length then d.length else len
    let m ← store ctx.m ctx.posn (d.take len)
    pure ({ ctx with m := m, posn := ctx.posn + len, length := ctx.length + UInt64.ofNat len }, d.drop len)

/-- The loop of `BLAKE2s_update`, `src/crypto/blake2/blake2s.c:218-242`. The first numeric argument bounds the
number of iterations; running out is undefined (it does not happen). -/
def updateLoop : Nat → Ctx → Bytes → Out Ctx
  | _, ctx, [] => .ok ctx
  | 0, _, _ :: _ => .ub
  | n + 1, ctx, x :: d => do
    let (ctx, rest) ← updateStep ctx (x :: d)
    updateLoop n ctx rest

/-- `BLAKE2s_update`, `src/crypto/blake2/blake2s.c:213-243`. -/
def update (ctx : Ctx) (data : Bytes) : Out Ctx := updateLoop data.length ctx data

/-- The bytes of a word, least significant first, `src/crypto/blake2/blake2s.c:258-262`. -/
def writeWord (h : UInt32) : Bytes :=
  [h.toUInt8, (h >>> 8).toUInt8, (h >>> 16).toUInt8, (h >>> 24).toUInt8]

/-- The bytes copied to the caller, `src/crypto/blake2/blake2s.c:252-265`. -/
def output (h : List UInt32) : Bytes := (List.range 8).flatMap fun i => writeWord (h.getD i 0)

/-- `BLAKE2s_finish`, `src/crypto/blake2/blake2s.c:245-266`: the context and the hash. -/
def finish (ctx : Ctx) : Out (Ctx × Bytes) := do
  let m ← store ctx.m ctx.posn (List.replicate (64 - ctx.posn) 0)
  let ctx ← transform { ctx with m := m } m 0xFFFFFFFF
  pure (ctx, output ctx.h)

/-! ## The variant with vector instructions -/

namespace Vec

/-- `BlakeVectorUInt32`, `src/crypto/blake2/blake2s.h:36-38`. -/
structure V where
  (a b c d : UInt32)
  deriving DecidableEq, Repr

/-- An operation on all elements. -/
def zip (f : UInt32 → UInt32 → UInt32) (x y : V) : V := ⟨f x.a y.a, f x.b y.b, f x.c y.c, f x.d y.d⟩

/-- `rightRotate` of a vector, `src/crypto/blake2/blake2s.c:80`. -/
def rot (x : V) (n : UInt32) : V := ⟨rightRotate x.a n, rightRotate x.b n, rightRotate x.c n, rightRotate x.d n⟩

/-- `shuffleLeft1`, `src/crypto/blake2/blake2s.c:97`. -/
def shuffleLeft1 (x : V) : V := ⟨x.b, x.c, x.d, x.a⟩
/-- `shuffleLeft2`, `src/crypto/blake2/blake2s.c:98`. -/
def shuffleLeft2 (x : V) : V := ⟨x.c, x.d, x.a, x.b⟩
/-- `shuffleLeft3`, `src/crypto/blake2/blake2s.c:99`. -/
def shuffleLeft3 (x : V) : V := ⟨x.d, x.a, x.b, x.c⟩

/-- `quarterRoundVec`, `src/crypto/blake2/blake2s.c:102-112`. -/
def quarterRoundVec (a b c d mv0 mv1 : V) : V × V × V × V :=
  let a := zip (· + ·) a (zip (· + ·) b mv0)
  let d := rot (zip (· ^^^ ·) d a) 16
  let c := zip (· + ·) c d
  let b := rot (zip (· ^^^ ·) b c) 12
  let a := zip (· + ·) a (zip (· + ·) b mv1)
  let d := rot (zip (· ^^^ ·) d a) 8
  let c := zip (· + ·) c d
  let b := rot (zip (· ^^^ ·) b c) 7
  (a, b, c, d)

/-- One round, `src/crypto/blake2/blake2s.c:138-156`. -/
def round (m : List UInt32) (v : V × V × V × V) (s : List Nat) : V × V × V × V :=
  let (v0, v1, v2, v3) := v
  let w := fun i => m.getD (s.getD i 0) 0
  let mv0 : V := ⟨w 0, w 2, w 4, w 6⟩
  let mv1 : V := ⟨w 1, w 3, w 5, w 7⟩
  let (v0, v1, v2, v3) := quarterRoundVec v0 v1 v2 v3 mv0 mv1
  let v1 := shuffleLeft1 v1
  let v2 := shuffleLeft2 v2
  let v3 := shuffleLeft3 v3
  let mv0 : V := ⟨w 8, w 10, w 12, w 14⟩
  let mv1 : V := ⟨w 9, w 11, w 13, w 15⟩
  let (v0, v1, v2, v3) := quarterRoundVec v0 v1 v2 v3 mv0 mv1
  let v1 := shuffleLeft3 v1
  let v2 := shuffleLeft2 v2
  let v3 := shuffleLeft1 v3
  (v0, v1, v2, v3)

/-- `blake2s_transform` with vectors, `src/crypto/blake2/blake2s.c:119-161`, on a little endian machine. The two
vectors of the context are the words 0 to 3 and 4 to 7. -/
def transform (ctx : Ctx) (data : Bytes) (f0 : UInt32) : Out Ctx :=
  if data.length < 64 then .ub else
  let v0 : V := ⟨ctx.h.getD 0 0, ctx.h.getD 1 0, ctx.h.getD 2 0, ctx.h.getD 3 0⟩
  let v1 : V := ⟨ctx.h.getD 4 0, ctx.h.getD 5 0, ctx.h.getD 6 0, ctx.h.getD 7 0⟩
  let v2 : V := ⟨iv.getD 0 0, iv.getD 1 0, iv.getD 2 0, iv.getD 3 0⟩
  let v3 : V := ⟨iv.getD 4 0 ^^^ ctx.length.toUInt32, iv.getD 5 0 ^^^ (ctx.length >>> 32).toUInt32,
    iv.getD 6 0 ^^^ f0, iv.getD 7 0⟩
  let (w0, w1, w2, w3) := sigma.foldl (round (unpack data)) (v0, v1, v2, v3)
  let h0 := zip (· ^^^ ·) v0 (zip (· ^^^ ·) w0 w2)
  let h1 := zip (· ^^^ ·) v1 (zip (· ^^^ ·) w1 w3)
  .ok { ctx with h := [h0.a, h0.b, h0.c, h0.d, h1.a, h1.b, h1.c, h1.d] }

end Vec

end Noise.Blake2s
