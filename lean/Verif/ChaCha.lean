import Verif.Basic
/-!
# Model of `src/crypto/chacha/chacha.c`

Both variants: the one with plain 32-bit variables, and the one with vectors of four words that is
compiled where SSE2 is available. The machine is little-endian (the constant is copied into the words
with `memcpy` in both variants).
-/

namespace Noise

/-- `fromLittle(ptr)`, `src/crypto/chacha/chacha.c:29-33`, reading the four bytes at offset `i`. -/
def fromLittle (p : Bytes) (i : Nat) : UInt32 :=
  (p.getD i 0).toUInt32 ||| (p.getD (i + 1) 0).toUInt32 <<< 8 ||| (p.getD (i + 2) 0).toUInt32 <<< 16 |||
    (p.getD (i + 3) 0).toUInt32 <<< 24

/-- `toLittle(ptr, v)`, `src/crypto/chacha/chacha.c:35-39`: the four bytes stored. -/
def toLittle (v : UInt32) : Bytes :=
  [v.toUInt8, (v >>> 8).toUInt8, (v >>> 16).toUInt8, (v >>> 24).toUInt8]

namespace ChaCha

/-- `leftRotate(x, n)`, `src/crypto/chacha/chacha.c:59`. -/
def leftRotate (x n : UInt32) : UInt32 := (x <<< n) ||| (x >>> (32 - n))

/-- `quarterRound(a, b, c, d)`, `src/crypto/chacha/chacha.c:62-72`: the new values of the four
variables. -/
def quarterRound (a b c d : UInt32) : UInt32 × UInt32 × UInt32 × UInt32 :=
  let a := a + b
  let d := leftRotate (d ^^^ a) 16
  let c := c + d
  let b := leftRotate (b ^^^ c) 12
  let a := a + b
  let d := leftRotate (d ^^^ a) 8
  let c := c + d
  let b := leftRotate (b ^^^ c) 7
  (a, b, c, d)

/-- Sixteen words: `chacha_ctx` (`src/crypto/chacha/chacha.h:20-28`), and the variables `in0..in15` and
`out0..out15` of `src/crypto/chacha/chacha.c:211-214`. -/
structure Words where
  (x0 x1 x2 x3 x4 x5 x6 x7 x8 x9 x10 x11 x12 x13 x14 x15 : UInt32)
  deriving DecidableEq, Repr

/-- "expand 32-byte k", `src/crypto/chacha/chacha.c:77`. -/
def tag256 : Bytes :=
  [0x65, 0x78, 0x70, 0x61, 0x6e, 0x64, 0x20, 0x33, 0x32, 0x2d, 0x62, 0x79, 0x74, 0x65, 0x20, 0x6b]

/-- "expand 16-byte k", `src/crypto/chacha/chacha.c:76`. -/
def tag128 : Bytes :=
  [0x65, 0x78, 0x70, 0x61, 0x6e, 0x64, 0x20, 0x31, 0x36, 0x2d, 0x62, 0x79, 0x74, 0x65, 0x20, 0x6b]

/-- `chacha_keysetup`, `src/crypto/chacha/chacha.c:74-109`. All words of the context are overwritten. -/
def keysetup (k : Bytes) (kbits : Nat) : Words :=
  if kbits = 256 then
    { x0 := fromLittle tag256 0, x1 := fromLittle tag256 4, x2 := fromLittle tag256 8
      x3 := fromLittle tag256 12
      x4 := fromLittle k 0, x5 := fromLittle k 4, x6 := fromLittle k 8, x7 := fromLittle k 12
      x8 := fromLittle k 16, x9 := fromLittle k 20, x10 := fromLittle k 24, x11 := fromLittle k 28
      x12 := 0, x13 := 0, x14 := 0, x15 := 0 }
  else
    { x0 := fromLittle tag128 0, x1 := fromLittle tag128 4, x2 := fromLittle tag128 8
      x3 := fromLittle tag128 12
      x4 := fromLittle k 0, x5 := fromLittle k 4, x6 := fromLittle k 8, x7 := fromLittle k 12
      x8 := fromLittle k 0, x9 := fromLittle k 4, x10 := fromLittle k 8, x11 := fromLittle k 12
      x12 := 0, x13 := 0, x14 := 0, x15 := 0 }

/-- `chacha_ivsetup`, `src/crypto/chacha/chacha.c:111-133`; `counter` is a pointer that may be NULL. -/
def ivsetup (x : Words) (iv : Bytes) (counter : Option Bytes) : Words :=
  match counter with
  | some c => { x with x12 := fromLittle c 0, x13 := fromLittle c 4, x14 := fromLittle iv 0, x15 := fromLittle iv 4 }
  | none => { x with x12 := 0, x13 := 0, x14 := fromLittle iv 0, x15 := fromLittle iv 4 }

/-! ## The variant with plain variables -/

/-- One iteration of the rounds loop, `src/crypto/chacha/chacha.c:235-245`. -/
def doubleRound (x : Words) : Words :=
  let (out0, out4, out8, out12) := quarterRound x.x0 x.x4 x.x8 x.x12
  let (out1, out5, out9, out13) := quarterRound x.x1 x.x5 x.x9 x.x13
  let (out2, out6, out10, out14) := quarterRound x.x2 x.x6 x.x10 x.x14
  let (out3, out7, out11, out15) := quarterRound x.x3 x.x7 x.x11 x.x15
  let (out0, out5, out10, out15) := quarterRound out0 out5 out10 out15
  let (out1, out6, out11, out12) := quarterRound out1 out6 out11 out12
  let (out2, out7, out8, out13) := quarterRound out2 out7 out8 out13
  let (out3, out4, out9, out14) := quarterRound out3 out4 out9 out14
  ⟨out0, out1, out2, out3, out4, out5, out6, out7, out8, out9, out10, out11, out12, out13, out14, out15⟩

/-- The rounds loop, `src/crypto/chacha/chacha.c:234-246`: `index` counts down by two from 20 while it is
at least two. -/
def rounds : (index : Nat) → Words → Words
  | 0, x => x
  | 1, x => x
  | index + 2, x => rounds index (doubleRound x)

/-- Adding the input, `src/crypto/chacha/chacha.c:249-252`. -/
def addWords (a b : Words) : Words :=
  ⟨a.x0 + b.x0, a.x1 + b.x1, a.x2 + b.x2, a.x3 + b.x3, a.x4 + b.x4, a.x5 + b.x5, a.x6 + b.x6, a.x7 + b.x7,
    a.x8 + b.x8, a.x9 + b.x9, a.x10 + b.x10, a.x11 + b.x11, a.x12 + b.x12, a.x13 + b.x13, a.x14 + b.x14,
    a.x15 + b.x15⟩

/-- Incrementing the counter, `src/crypto/chacha/chacha.c:255-256`. -/
def increment (x : Words) : Words :=
  let x := { x with x12 := x.x12 + 1 }
  if x.x12 = 0 then { x with x13 := x.x13 + 1 } else x

/-- Exclusive or of the sixteen words with the 64 bytes at `m`, and storing the result,
`src/crypto/chacha/chacha.c:266-297`. -/
def xorStore (o : Words) (m : Bytes) : Bytes :=
  toLittle (o.x0 ^^^ fromLittle m 0) ++ toLittle (o.x1 ^^^ fromLittle m 4) ++
  toLittle (o.x2 ^^^ fromLittle m 8) ++ toLittle (o.x3 ^^^ fromLittle m 12) ++
  toLittle (o.x4 ^^^ fromLittle m 16) ++ toLittle (o.x5 ^^^ fromLittle m 20) ++
  toLittle (o.x6 ^^^ fromLittle m 24) ++ toLittle (o.x7 ^^^ fromLittle m 28) ++
  toLittle (o.x8 ^^^ fromLittle m 32) ++ toLittle (o.x9 ^^^ fromLittle m 36) ++
  toLittle (o.x10 ^^^ fromLittle m 40) ++ toLittle (o.x11 ^^^ fromLittle m 44) ++
  toLittle (o.x12 ^^^ fromLittle m 48) ++ toLittle (o.x13 ^^^ fromLittle m 52) ++
  toLittle (o.x14 ^^^ fromLittle m 56) ++ toLittle (o.x15 ^^^ fromLittle m 60)

/-- The loop of `chacha_encrypt_bytes`, `src/crypto/chacha/chacha.c:226-305`, over the remaining input `m`
(`bytes` is its length). In the last, partial, block the input is first copied to `temp`, whose further
bytes are not initialised; they do not reach the output (here they are 0). The first argument bounds the
number of iterations. -/
def encryptLoop : Nat → Words → Bytes → Words × Bytes
  | 0, x, _ => (x, [])
  | n + 1, x, m =>
    if m.length = 0 then (x, [])
    else
      let out := addWords (rounds 20 x) x
      let x := increment x
      if m.length ≥ 64 then
        let t := xorStore out (m.take 64)
        let (x, c) := encryptLoop n x (m.drop 64)
        (x, t ++ c)
      else
        let temp := m ++ List.replicate (64 - m.length) 0
        let t := xorStore out temp
        (x, t.take m.length)

/-- `chacha_encrypt_bytes`, `src/crypto/chacha/chacha.c:209-310`: the new context and the output, for the
input `m` of `bytes` bytes. -/
def encryptBytes (x : Words) (m : Bytes) : Words × Bytes := encryptLoop (m.length / 64 + 1) x m

/-! ## The variant with vectors -/

/-- `VectorUInt32`, `src/crypto/chacha/chacha.h:8-12`: four lanes. -/
structure Vec where
  (a b c d : UInt32)
  deriving DecidableEq, Repr

namespace Vec

/-- An operation on vectors works lane by lane. -/
def zip (f : UInt32 → UInt32 → UInt32) (v w : Vec) : Vec := ⟨f v.a w.a, f v.b w.b, f v.c w.c, f v.d w.d⟩

/-- `leftRotate` on vectors, `src/crypto/chacha/chacha.c:59`. -/
def leftRotate (v : Vec) (n : UInt32) : Vec :=
  ⟨ChaCha.leftRotate v.a n, ChaCha.leftRotate v.b n, ChaCha.leftRotate v.c n, ChaCha.leftRotate v.d n⟩

/-- `shuffleLeft1`, `src/crypto/chacha/chacha.c:137`. -/
def shuffleLeft1 (v : Vec) : Vec := ⟨v.b, v.c, v.d, v.a⟩
/-- `shuffleLeft2`, `src/crypto/chacha/chacha.c:138`. -/
def shuffleLeft2 (v : Vec) : Vec := ⟨v.c, v.d, v.a, v.b⟩
/-- `shuffleLeft3`, `src/crypto/chacha/chacha.c:139`. -/
def shuffleLeft3 (v : Vec) : Vec := ⟨v.d, v.a, v.b, v.c⟩

/-- `quarterRound` on vectors, `src/crypto/chacha/chacha.c:62-72`. -/
def quarterRound (a b c d : Vec) : Vec × Vec × Vec × Vec :=
  let a := zip (· + ·) a b
  let d := (zip (· ^^^ ·) d a).leftRotate 16
  let c := zip (· + ·) c d
  let b := (zip (· ^^^ ·) b c).leftRotate 12
  let a := zip (· + ·) a b
  let d := (zip (· ^^^ ·) d a).leftRotate 8
  let c := zip (· + ·) c d
  let b := (zip (· ^^^ ·) b c).leftRotate 7
  (a, b, c, d)

/-- `fromLittleVec(ptr)`, `src/crypto/chacha/chacha.c:45-49`, at offset `i`. -/
def fromLittleVec (p : Bytes) (i : Nat) : Vec :=
  ⟨fromLittle p i, fromLittle p (i + 4), fromLittle p (i + 8), fromLittle p (i + 12)⟩

/-- `toLittleVec(ptr, v)`, `src/crypto/chacha/chacha.c:50-54`. -/
def toLittleVec (v : Vec) : Bytes := toLittle v.a ++ toLittle v.b ++ toLittle v.c ++ toLittle v.d

end Vec

/-- `chacha_ctx` of four vectors, `src/crypto/chacha/chacha.h:22-23`. -/
structure VWords where
  (v0 v1 v2 v3 : Vec)
  deriving DecidableEq, Repr

namespace VWords

/-- `chacha_keysetup` with vectors, `src/crypto/chacha/chacha.c:74-109`. -/
def keysetup (k : Bytes) (kbits : Nat) : VWords :=
  if kbits = 256 then
    ⟨Vec.fromLittleVec tag256 0, Vec.fromLittleVec k 0, Vec.fromLittleVec k 16, ⟨0, 0, 0, 0⟩⟩
  else
    ⟨Vec.fromLittleVec tag128 0, Vec.fromLittleVec k 0, Vec.fromLittleVec k 0, ⟨0, 0, 0, 0⟩⟩

/-- `chacha_ivsetup` with vectors, `src/crypto/chacha/chacha.c:113-121`. -/
def ivsetup (x : VWords) (iv : Bytes) (counter : Option Bytes) : VWords :=
  match counter with
  | some c => { x with v3 := ⟨fromLittle c 0, fromLittle c 4, fromLittle iv 0, fromLittle iv 4⟩ }
  | none => { x with v3 := ⟨0, 0, fromLittle iv 0, fromLittle iv 4⟩ }

/-- One iteration of the rounds loop, `src/crypto/chacha/chacha.c:158-168`. -/
def doubleRound (x : VWords) : VWords :=
  let (out0, out1, out2, out3) := Vec.quarterRound x.v0 x.v1 x.v2 x.v3
  let out1 := out1.shuffleLeft1
  let out2 := out2.shuffleLeft2
  let out3 := out3.shuffleLeft3
  let (out0, out1, out2, out3) := Vec.quarterRound out0 out1 out2 out3
  let out1 := out1.shuffleLeft3
  let out2 := out2.shuffleLeft2
  let out3 := out3.shuffleLeft1
  ⟨out0, out1, out2, out3⟩

/-- The rounds loop, `src/crypto/chacha/chacha.c:157-169`. -/
def rounds : (index : Nat) → VWords → VWords
  | 0, x => x
  | 1, x => x
  | index + 2, x => rounds index (doubleRound x)

/-- Adding the input, `src/crypto/chacha/chacha.c:172-175`. -/
def addWords (a b : VWords) : VWords :=
  ⟨.zip (· + ·) a.v0 b.v0, .zip (· + ·) a.v1 b.v1, .zip (· + ·) a.v2 b.v2, .zip (· + ·) a.v3 b.v3⟩

/-- Incrementing the counter, `src/crypto/chacha/chacha.c:178-179`. -/
def increment (x : VWords) : VWords :=
  let x := { x with v3 := { x.v3 with a := x.v3.a + 1 } }
  if x.v3.a = 0 then { x with v3 := { x.v3 with b := x.v3.b + 1 } } else x

/-- Exclusive or and store, `src/crypto/chacha/chacha.c:189-196`. -/
def xorStore (o : VWords) (m : Bytes) : Bytes :=
  (Vec.zip (· ^^^ ·) o.v0 (Vec.fromLittleVec m 0)).toLittleVec ++
  (Vec.zip (· ^^^ ·) o.v1 (Vec.fromLittleVec m 16)).toLittleVec ++
  (Vec.zip (· ^^^ ·) o.v2 (Vec.fromLittleVec m 32)).toLittleVec ++
  (Vec.zip (· ^^^ ·) o.v3 (Vec.fromLittleVec m 48)).toLittleVec

/-- The loop of `chacha_encrypt_bytes` with vectors, `src/crypto/chacha/chacha.c:149-204`. -/
def encryptLoop : Nat → VWords → Bytes → VWords × Bytes
  | 0, x, _ => (x, [])
  | n + 1, x, m =>
    if m.length = 0 then (x, [])
    else
      let out := addWords (rounds 20 x) x
      let x := increment x
      if m.length ≥ 64 then
        let t := xorStore out (m.take 64)
        let (x, c) := encryptLoop n x (m.drop 64)
        (x, t ++ c)
      else
        let temp := m ++ List.replicate (64 - m.length) 0
        let t := xorStore out temp
        (x, t.take m.length)

/-- `chacha_encrypt_bytes` with vectors, `src/crypto/chacha/chacha.c:141-205`. -/
def encryptBytes (x : VWords) (m : Bytes) : VWords × Bytes := encryptLoop (m.length / 64 + 1) x m

/-- The same sixteen words. -/
def words (x : VWords) : Words :=
  ⟨x.v0.a, x.v0.b, x.v0.c, x.v0.d, x.v1.a, x.v1.b, x.v1.c, x.v1.d,
    x.v2.a, x.v2.b, x.v2.c, x.v2.d, x.v3.a, x.v3.b, x.v3.c, x.v3.d⟩

end VWords
end ChaCha
end Noise
