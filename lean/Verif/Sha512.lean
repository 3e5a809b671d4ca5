import Verif.Hash
/-!
# Model of `src/crypto/sha2/sha512.c` and of `src/backend/ref/hash-sha512.c`

The array `w` is built by appending; every index read is below the number of words already there. The
field `posn` is a `uint8_t` that stays at most 128; it is a natural number here.
-/

namespace Noise.Sha512

/-- `sha512_context_t`, `src/crypto/sha2/sha512.h:33-40`. -/
structure Ctx where
  h : List UInt64
  m : Bytes
  length : UInt64
  posn : Nat
  deriving DecidableEq, Repr

/-- `sha512_reset`, `src/crypto/sha2/sha512.c:26-36`. The buffer keeps its contents. -/
def reset (c : Ctx) : Ctx :=
  { c with
    h := [ 0x6a09e667f3bcc908, 0xbb67ae8584caa73b, 0x3c6ef372fe94f82b, 0xa54ff53a5f1d36f1,
      0x510e527fade682d1, 0x9b05688c2b3e6c1f, 0x1f83d9abfb41bd6b, 0x5be0cd19137e2179 ]
    length := 0
    posn := 0 }

/-- `rightRotate`, `src/crypto/sha2/sha512.c:38`. -/
def rightRotate (v n : UInt64) : UInt64 := (v >>> n) ||| (v <<< (64 - n))

/-- The table of `src/crypto/sha2/sha512.c:42-70`. -/
def k : List UInt64 :=
  [ 0x428a2f98d728ae22, 0x7137449123ef65cd, 0xb5c0fbcfec4d3b2f, 0xe9b5dba58189dbbc,
    0x3956c25bf348b538, 0x59f111f1b605d019, 0x923f82a4af194f9b, 0xab1c5ed5da6d8118,
    0xd807aa98a3030242, 0x12835b0145706fbe, 0x243185be4ee4b28c, 0x550c7dc3d5ffb4e2,
    0x72be5d74f27b896f, 0x80deb1fe3b1696b1, 0x9bdc06a725c71235, 0xc19bf174cf692694,
    0xe49b69c19ef14ad2, 0xefbe4786384f25e3, 0x0fc19dc68b8cd5b5, 0x240ca1cc77ac9c65,
    0x2de92c6f592b0275, 0x4a7484aa6ea6e483, 0x5cb0a9dcbd41fbd4, 0x76f988da831153b5,
    0x983e5152ee66dfab, 0xa831c66d2db43210, 0xb00327c898fb213f, 0xbf597fc7beef0ee4,
    0xc6e00bf33da88fc2, 0xd5a79147930aa725, 0x06ca6351e003826f, 0x142929670a0e6e70,
    0x27b70a8546d22ffc, 0x2e1b21385c26c926, 0x4d2c6dfc5ac42aed, 0x53380d139d95b3df,
    0x650a73548baf63de, 0x766a0abb3c77b2a8, 0x81c2c92e47edaee6, 0x92722c851482353b,
    0xa2bfe8a14cf10364, 0xa81a664bbc423001, 0xc24b8b70d0f89791, 0xc76c51a30654be30,
    0xd192e819d6ef5218, 0xd69906245565a910, 0xf40e35855771202a, 0x106aa07032bbd1b8,
    0x19a4c116b8d2d0c8, 0x1e376c085141ab53, 0x2748774cdf8eeb99, 0x34b0bcb5e19b48a8,
    0x391c0cb3c5c95a63, 0x4ed8aa4ae3418acb, 0x5b9cca4f7763e373, 0x682e6ff3d6b2b8a3,
    0x748f82ee5defb2fc, 0x78a5636f43172f60, 0x84c87814a1f0ab72, 0x8cc702081a6439ec,
    0x90befffa23631e28, 0xa4506cebde82bde9, 0xbef9a3f7b2c67915, 0xc67178f2e372532b,
    0xca273eceea26619c, 0xd186b8c721c0c207, 0xeada7dd6cde0eb1e, 0xf57d4f7fee6ed178,
    0x06f067aa72176fba, 0x0a637dc5a2c898a6, 0x113f9804bef90dae, 0x1b710b35131c471b,
    0x28db77f523047d84, 0x32caab7b40c72493, 0x3c9ebe0a15c9bebc, 0x431d67c49c100d4c,
    0x4cc5d4becb3e42b6, 0x597f299cfc657e2a, 0x5fcb6fab3ad6faec, 0x6c44198c4a475817 ]

/-- One word of the block, `src/crypto/sha2/sha512.c:87-94`: the bytes at offset `i`. -/
def readWord (m : Bytes) (i : Nat) : UInt64 :=
  (m.getD i 0).toUInt64 <<< 56 ||| (m.getD (i + 1) 0).toUInt64 <<< 48 ||| (m.getD (i + 2) 0).toUInt64 <<< 40 |||
    (m.getD (i + 3) 0).toUInt64 <<< 32 ||| (m.getD (i + 4) 0).toUInt64 <<< 24 ||| (m.getD (i + 5) 0).toUInt64 <<< 16 |||
    (m.getD (i + 6) 0).toUInt64 <<< 8 ||| (m.getD (i + 7) 0).toUInt64

/-- The loop of `src/crypto/sha2/sha512.c:86-96`. -/
def input (m : Bytes) : List UInt64 := (List.range 16).map fun i => readWord m (8 * i)

/-- One step of the loop of `src/crypto/sha2/sha512.c:99-107`. -/
def extendStep (w : List UInt64) (index : Nat) : List UInt64 :=
  w ++ [w.getD (index - 16) 0 + w.getD (index - 7) 0 +
    (rightRotate (w.getD (index - 15) 0) 1 ^^^ rightRotate (w.getD (index - 15) 0) 8 ^^^
      (w.getD (index - 15) 0 >>> 7)) +
    (rightRotate (w.getD (index - 2) 0) 19 ^^^ rightRotate (w.getD (index - 2) 0) 61 ^^^
      (w.getD (index - 2) 0 >>> 6))]

/-- The loop of `src/crypto/sha2/sha512.c:99-107`. -/
def extend (m : Bytes) : List UInt64 := (List.range' 16 64).foldl extendStep (input m)

/-- `SHA512_ROUND`, `src/crypto/sha2/sha512.c:110-117`, with the constant and the word at its index: the new
values of `d` and `h`. -/
def round (a b c d e f g h kn wn : UInt64) : UInt64 × UInt64 :=
  let temp1 := h + kn + wn + (rightRotate e 14 ^^^ rightRotate e 18 ^^^ rightRotate e 41) +
    ((e &&& f) ^^^ (~~~e &&& g))
  let temp2 := (rightRotate a 28 ^^^ rightRotate a 34 ^^^ rightRotate a 39) +
    ((a &&& b) ^^^ (a &&& c) ^^^ (b &&& c))
  (d + temp1, temp1 + temp2)

/-- The local variables a to h. -/
structure Regs where
  (a b c d e f g h : UInt64)
  deriving DecidableEq, Repr

/-- The body of the loop of `src/crypto/sha2/sha512.c:120-129`. -/
def rounds8 (w : List UInt64) (v : Regs) (index : Nat) : Regs :=
  let ⟨a, b, c, d, e, f, g, h⟩ := v
  let (d, h) := round a b c d e f g h (k.getD index 0) (w.getD index 0)
  let (c, g) := round h a b c d e f g (k.getD (index + 1) 0) (w.getD (index + 1) 0)
  let (b, f) := round g h a b c d e f (k.getD (index + 2) 0) (w.getD (index + 2) 0)
  let (a, e) := round f g h a b c d e (k.getD (index + 3) 0) (w.getD (index + 3) 0)
  let (h, d) := round e f g h a b c d (k.getD (index + 4) 0) (w.getD (index + 4) 0)
  let (g, c) := round d e f g h a b c (k.getD (index + 5) 0) (w.getD (index + 5) 0)
  let (f, b) := round c d e f g h a b (k.getD (index + 6) 0) (w.getD (index + 6) 0)
  let (e, a) := round b c d e f g h a (k.getD (index + 7) 0) (w.getD (index + 7) 0)
  ⟨a, b, c, d, e, f, g, h⟩

/-- `sha512_transform`, `src/crypto/sha2/sha512.c:40-140`, of the bytes at `m`: it reads 128 of them. -/
def transform (ctx : Ctx) (m : Bytes) : Out Ctx :=
  if m.length < 128 then .ub else
  let w := extend m
  let v : Regs := ⟨ctx.h.getD 0 0, ctx.h.getD 1 0, ctx.h.getD 2 0, ctx.h.getD 3 0, ctx.h.getD 4 0,
    ctx.h.getD 5 0, ctx.h.getD 6 0, ctx.h.getD 7 0⟩
  let v := ((List.range 10).map (8 * ·)).foldl (rounds8 w) v
  .ok { ctx with h := [ctx.h.getD 0 0 + v.a, ctx.h.getD 1 0 + v.b, ctx.h.getD 2 0 + v.c, ctx.h.getD 3 0 + v.d,
    ctx.h.getD 4 0 + v.e, ctx.h.getD 5 0 + v.f, ctx.h.getD 6 0 + v.g, ctx.h.getD 7 0 + v.h] }

/-- Transforming the buffer when it is full, `src/crypto/sha2/sha512.c:157-160`. -/
def flush (ctx : Ctx) : Out Ctx :=
  if ctx.posn ≥ 128 then do
    let ctx ← transform ctx ctx.m
    pure { ctx with posn := 0 }
  else .ok ctx

/-- One iteration of the loop of `sha512_update`, `src/crypto/sha2/sha512.c:146-164`: the context and the bytes
left. -/
def updateStep (ctx : Ctx) (d : Bytes) : Out (Ctx × Bytes) :=
  if ctx.posn = 0 ∧ d.length ≥ 128 then do
    let ctx ← transform ctx d
    pure ({ ctx with length := ctx.length + 128 * 8 }, d.drop 128)
  else do
    let temp := 128 - ctx.posn
    let temp := if temp > d.length then d.length else temp
    let m ← store ctx.m ctx.posn (d.take temp)
    let ctx ← flush { ctx with m := m, posn := ctx.posn + temp }
    pure ({ ctx with length := ctx.length + UInt64.ofNat temp * 8 }, d.drop temp)

/-- The loop of `sha512_update`, `src/crypto/sha2/sha512.c:145-165`. The first argument bounds the number of
iterations; running out is undefined (it does not happen). -/
def updateLoop : Nat → Ctx → Bytes → Out Ctx
  | _, ctx, [] => .ok ctx
  | 0, _, _ :: _ => .ub
  | n + 1, ctx, x :: d => do
    let (ctx, rest) ← updateStep ctx (x :: d)
    updateLoop n ctx rest

/-- `sha512_update`, `src/crypto/sha2/sha512.c:142-166`. -/
def update (ctx : Ctx) (data : Bytes) : Out Ctx := updateLoop data.length ctx data

/-- `write_be64`, `src/crypto/sha2/sha512.c:168-178`: the bytes stored. -/
def writeBe (value : UInt64) : Bytes :=
  [(value >>> 56).toUInt8, (value >>> 48).toUInt8, (value >>> 40).toUInt8, (value >>> 32).toUInt8,
    (value >>> 24).toUInt8, (value >>> 16).toUInt8, (value >>> 8).toUInt8, value.toUInt8]

/-- The padding part of `sha512_finish`, `src/crypto/sha2/sha512.c:182-191`. -/
def pad (ctx : Ctx) : Out Ctx := do
  let m ← store ctx.m ctx.posn [0x80]
  if ctx.posn ≤ 128 - 17 then do
    let m ← store m (ctx.posn + 1) (List.replicate (128 - 16 - (ctx.posn + 1)) 0)
    pure { ctx with m := m }
  else do
    let m ← store m (ctx.posn + 1) (List.replicate (128 - (ctx.posn + 1)) 0)
    let ctx ← transform { ctx with m := m } m
    let m ← store ctx.m 0 (List.replicate (128 - 16) 0)
    pure { ctx with m := m }

/-- `sha512_finish`, `src/crypto/sha2/sha512.c:180-198`: the context and the hash. -/
def finish (ctx : Ctx) : Out (Ctx × Bytes) := do
  let ctx ← pad ctx
  let m ← store ctx.m (128 - 16) (writeBe 0)
  let m ← store m (128 - 8) (writeBe ctx.length)
  let ctx ← transform { ctx with m := m } m
  pure ({ ctx with posn := 0 }, (List.range 8).flatMap fun i => writeBe (ctx.h.getD i 0))

end Noise.Sha512
