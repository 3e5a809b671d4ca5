import Verif.AesTables
import Verif.AesGcm

/-!
Model of the block cipher of the reference AESGCM back end, `src/crypto/aes/rijndael-alg-fst.c`: the key schedule for
256-bit keys and the encryption of a block. The branches for other key lengths and decryption are not used by the
library and not modelled; `FULL_UNROLL` is not defined, and the compiler is not the one of Microsoft.

The schedule is a list of words that grows at the end: the code writes `rk[0]`, `rk[1]`, … in this order, and
`keySetup_length` in `AesProps` shows that it writes 60 words, which is the size of the array. `rk += 8` moves the
base; here the base is an argument.
-/

namespace Noise.Aes

/-- `GETU32(pt + i)` (src/crypto/aes/rijndael-alg-fst.c:719). -/
def getU32 (p : Bytes) (i : Nat) : UInt32 :=
  ((p.getD i 0).toUInt32 <<< 24) ^^^ ((p.getD (i + 1) 0).toUInt32 <<< 16) ^^^
    ((p.getD (i + 2) 0).toUInt32 <<< 8) ^^^ (p.getD (i + 3) 0).toUInt32

/-- `PUTU32(ct, st)` (src/crypto/aes/rijndael-alg-fst.c:720): the four bytes written. -/
def putU32 (s : UInt32) : Bytes := [(s >>> 24).toUInt8, (s >>> 16).toUInt8, (s >>> 8).toUInt8, s.toUInt8]

/-- Reading a word of the key schedule. -/
def rd (rk : List UInt32) (i : Nat) : UInt32 := rk.getD i 0

/-- `Tek[(s >> 24)]` and so on: reading an entry of a table. -/
def tab (t : List UInt32) (i : UInt32) : UInt32 := t.getD i.toNat 0

/-- `rcon` (src/crypto/aes/rijndael-alg-fst.c:707-711). -/
def rcon : List UInt32 := [0x01000000, 0x02000000, 0x04000000, 0x08000000, 0x10000000, 0x20000000, 0x40000000,
  0x80000000, 0x1B000000, 0x36000000]

/-- `rk[8]` to `rk[11]` (src/crypto/aes/rijndael-alg-fst.c:780-789), `b` being the base. -/
def setupA (rk : List UInt32) (b i : Nat) : List UInt32 :=
  let temp := rd rk (b + 7)
  let w8 := rd rk b ^^^ (tab te4 ((temp >>> 16) &&& (0xff : UInt32)) &&& (0xff000000 : UInt32)) ^^^
    (tab te4 ((temp >>> 8) &&& (0xff : UInt32)) &&& (0x00ff0000 : UInt32)) ^^^ (tab te4 (temp &&& (0xff : UInt32)) &&& (0x0000ff00 : UInt32)) ^^^
    (tab te4 (temp >>> 24) &&& (0x000000ff : UInt32)) ^^^ rd rcon i
  let w9 := rd rk (b + 1) ^^^ w8
  let w10 := rd rk (b + 2) ^^^ w9
  let w11 := rd rk (b + 3) ^^^ w10
  rk ++ [w8, w9, w10, w11]

/-- `rk[12]` to `rk[15]` (src/crypto/aes/rijndael-alg-fst.c:793-801). -/
def setupB (rk : List UInt32) (b : Nat) : List UInt32 :=
  let temp := rd rk (b + 11)
  let w12 := rd rk (b + 4) ^^^ (tab te4 (temp >>> 24) &&& (0xff000000 : UInt32)) ^^^
    (tab te4 ((temp >>> 16) &&& (0xff : UInt32)) &&& (0x00ff0000 : UInt32)) ^^^ (tab te4 ((temp >>> 8) &&& (0xff : UInt32)) &&& (0x0000ff00 : UInt32)) ^^^
    (tab te4 (temp &&& (0xff : UInt32)) &&& (0x000000ff : UInt32))
  let w13 := rd rk (b + 5) ^^^ w12
  let w14 := rd rk (b + 6) ^^^ w13
  let w15 := rd rk (b + 7) ^^^ w14
  rk ++ [w12, w13, w14, w15]

/-- The loop (src/crypto/aes/rijndael-alg-fst.c:779-804). `n` counts the turns that are left: the code leaves after
`++i == 7`, in the middle of the seventh turn. -/
def setupLoop : Nat → List UInt32 → Nat → Nat → List UInt32
  | 0, rk, b, i => setupA rk b i
  | n + 1, rk, b, i => setupLoop n (setupB (setupA rk b i) b) (b + 8) (i + 1)

/-- `rijndaelKeySetupEnc(rk, cipherKey, 256)` (src/crypto/aes/rijndael-alg-fst.c:728-807). -/
def keySetup (key : Bytes) : List UInt32 :=
  setupLoop 6 [getU32 key 0, getU32 key 4, getU32 key 8, getU32 key 12, getU32 key 16, getU32 key 20, getU32 key 24,
    getU32 key 28] 0 0

/-- The state of the cipher, `s0` to `s3` or `t0` to `t3`. -/
structure Words where
  a : UInt32
  b : UInt32
  c : UInt32
  d : UInt32

/-- One full round (src/crypto/aes/rijndael-alg-fst.c:945-968 and 975-998): the four assignments, with the words `k` to
`k + 3` of the schedule. -/
def fullRound (rk : List UInt32) (k : Nat) (s : Words) : Words :=
  ⟨tab te0 (s.a >>> 24) ^^^ tab te1 ((s.b >>> 16) &&& (0xff : UInt32)) ^^^ tab te2 ((s.c >>> 8) &&& (0xff : UInt32)) ^^^
      tab te3 (s.d &&& (0xff : UInt32)) ^^^ rd rk k,
    tab te0 (s.b >>> 24) ^^^ tab te1 ((s.c >>> 16) &&& (0xff : UInt32)) ^^^ tab te2 ((s.d >>> 8) &&& (0xff : UInt32)) ^^^
      tab te3 (s.a &&& (0xff : UInt32)) ^^^ rd rk (k + 1),
    tab te0 (s.c >>> 24) ^^^ tab te1 ((s.d >>> 16) &&& (0xff : UInt32)) ^^^ tab te2 ((s.a >>> 8) &&& (0xff : UInt32)) ^^^
      tab te3 (s.b &&& (0xff : UInt32)) ^^^ rd rk (k + 2),
    tab te0 (s.d >>> 24) ^^^ tab te1 ((s.a >>> 16) &&& (0xff : UInt32)) ^^^ tab te2 ((s.b >>> 8) &&& (0xff : UInt32)) ^^^
      tab te3 (s.c &&& (0xff : UInt32)) ^^^ rd rk (k + 3)⟩

/-- The loop over two rounds (src/crypto/aes/rijndael-alg-fst.c:943-999): `n` turns after the present one, base `b`. The
result is `t0` to `t3`; the base has then moved by 8 for each turn. -/
def encLoop (rk : List UInt32) : Nat → Nat → Words → Words
  | 0, b, s => fullRound rk (b + 4) s
  | n + 1, b, s => encLoop rk n (b + 8) (fullRound rk (b + 8) (fullRound rk (b + 4) s))

/-- The last round and the output (src/crypto/aes/rijndael-alg-fst.c:1005-1032), base `b`. -/
def lastRound (rk : List UInt32) (b : Nat) (t : Words) : Bytes :=
  putU32 ((tab te4 (t.a >>> 24) &&& (0xff000000 : UInt32)) ^^^ (tab te4 ((t.b >>> 16) &&& (0xff : UInt32)) &&& (0x00ff0000 : UInt32)) ^^^
      (tab te4 ((t.c >>> 8) &&& (0xff : UInt32)) &&& (0x0000ff00 : UInt32)) ^^^ (tab te4 (t.d &&& (0xff : UInt32)) &&& (0x000000ff : UInt32)) ^^^ rd rk b) ++
  putU32 ((tab te4 (t.b >>> 24) &&& (0xff000000 : UInt32)) ^^^ (tab te4 ((t.c >>> 16) &&& (0xff : UInt32)) &&& (0x00ff0000 : UInt32)) ^^^
      (tab te4 ((t.d >>> 8) &&& (0xff : UInt32)) &&& (0x0000ff00 : UInt32)) ^^^ (tab te4 (t.a &&& (0xff : UInt32)) &&& (0x000000ff : UInt32)) ^^^ rd rk (b + 1)) ++
  putU32 ((tab te4 (t.c >>> 24) &&& (0xff000000 : UInt32)) ^^^ (tab te4 ((t.d >>> 16) &&& (0xff : UInt32)) &&& (0x00ff0000 : UInt32)) ^^^
      (tab te4 ((t.a >>> 8) &&& (0xff : UInt32)) &&& (0x0000ff00 : UInt32)) ^^^ (tab te4 (t.b &&& (0xff : UInt32)) &&& (0x000000ff : UInt32)) ^^^ rd rk (b + 2)) ++
  putU32 ((tab te4 (t.d >>> 24) &&& (0xff000000 : UInt32)) ^^^ (tab te4 ((t.a >>> 16) &&& (0xff : UInt32)) &&& (0x00ff0000 : UInt32)) ^^^
      (tab te4 ((t.b >>> 8) &&& (0xff : UInt32)) &&& (0x0000ff00 : UInt32)) ^^^ (tab te4 (t.c &&& (0xff : UInt32)) &&& (0x000000ff : UInt32)) ^^^ rd rk (b + 3))

/-- `rijndaelEncrypt(rk, Nr, pt, ct)` (src/crypto/aes/rijndael-alg-fst.c:854-1033) for `Nr = MAXNR = 14`, hence seven
turns. -/
def encrypt (rk : List UInt32) (pt : Bytes) : Bytes :=
  lastRound rk 56 (encLoop rk 6 0
    ⟨getU32 pt 0 ^^^ rd rk 0, getU32 pt 4 ^^^ rd rk 1, getU32 pt 8 ^^^ rd rk 2, getU32 pt 12 ^^^ rd rk 3⟩)

/-- The block cipher that `src/backend/ref/cipher-aesgcm.c` uses. -/
def blockCipher : AesGcm.BlockCipher := ⟨List UInt32, List.replicate 60 0, keySetup, encrypt⟩

end Noise.Aes
