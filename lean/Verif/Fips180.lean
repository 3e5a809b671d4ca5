import Verif.Basic
/-!
# SHA-256 and SHA-512 as in FIPS 180-4

Written from the standard, for messages that are sequences of bytes. Nothing here refers to the code.
-/

namespace Noise.Fips180

/-- The number with the given bytes, most significant first. -/
def beNat : Bytes → Nat := List.foldl (fun a b => 256 * a + b.toNat) 0

/-- The `n` low bytes of a number, most significant first. -/
def beBytes : Nat → Nat → Bytes
  | 0, _ => []
  | n + 1, v => beBytes n (v / 256) ++ [UInt8.ofNat (v % 256)]

/-- Section 5.1: the padding of a message of `len` bytes to blocks of `block` bytes, the length in bits being
stored in `lenBytes` bytes. -/
def padding (block lenBytes len : Nat) : Bytes :=
  0x80 :: (List.replicate ((block - (len + 1 + lenBytes) % block) % block) 0 ++ beBytes lenBytes (8 * len))

/-- Section 5.2: the blocks of a padded message. -/
def parse (block : Nat) (m : Bytes) : List Bytes :=
  (List.range (m.length / block)).map fun i => (m.drop (block * i)).take block

/-- Floor of the cube root times 2^bits, modulo 2^bits: the first bits of the fractional part. Checked here
instead of computed: `c` is the root. -/
def isCubeRootFrac (bits p c k : Nat) : Bool :=
  c ^ 3 ≤ p * 2 ^ (3 * bits) && p * 2 ^ (3 * bits) < (c + 1) ^ 3 && c % 2 ^ bits == k

/-- The same for square roots. -/
def isSquareRootFrac (bits p c k : Nat) : Bool :=
  c ^ 2 ≤ p * 2 ^ (2 * bits) && p * 2 ^ (2 * bits) < (c + 1) ^ 2 && c % 2 ^ bits == k

/-- The primes below 410 (the first 80). -/
def primes : List Nat := (List.range 410).filter fun n =>
  2 ≤ n && (List.range n).all fun d => d < 2 || n % d != 0

end Noise.Fips180

/-! ## SHA-256 -/

namespace Noise.Fips180.Sha256

/-- Section 3.2: rotation to the right. -/
def rotr (n : UInt32) (x : UInt32) : UInt32 := (x >>> n) ||| (x <<< (32 - n))

/-- Section 4.1. -/
def Ch (x y z : UInt32) : UInt32 := (x &&& y) ^^^ (~~~x &&& z)
/-- Section 4.1. -/
def Maj (x y z : UInt32) : UInt32 := (x &&& y) ^^^ (x &&& z) ^^^ (y &&& z)
/-- Section 4.1. -/
def Sigma0 (x : UInt32) : UInt32 := rotr 2 x ^^^ rotr 13 x ^^^ rotr 22 x
/-- Section 4.1. -/
def Sigma1 (x : UInt32) : UInt32 := rotr 6 x ^^^ rotr 11 x ^^^ rotr 25 x
/-- Section 4.1. -/
def sigma0 (x : UInt32) : UInt32 := rotr 7 x ^^^ rotr 18 x ^^^ x >>> 3
/-- Section 4.1. -/
def sigma1 (x : UInt32) : UInt32 := rotr 17 x ^^^ rotr 19 x ^^^ x >>> 10

/-- Section 4.2: the constants. -/
def K : List UInt32 :=
  [ 0x428a2f98, 0x71374491, 0xb5c0fbcf, 0xe9b5dba5, 0x3956c25b, 0x59f111f1, 0x923f82a4, 0xab1c5ed5,
    0xd807aa98, 0x12835b01, 0x243185be, 0x550c7dc3, 0x72be5d74, 0x80deb1fe, 0x9bdc06a7, 0xc19bf174,
    0xe49b69c1, 0xefbe4786, 0x0fc19dc6, 0x240ca1cc, 0x2de92c6f, 0x4a7484aa, 0x5cb0a9dc, 0x76f988da,
    0x983e5152, 0xa831c66d, 0xb00327c8, 0xbf597fc7, 0xc6e00bf3, 0xd5a79147, 0x06ca6351, 0x14292967,
    0x27b70a85, 0x2e1b2138, 0x4d2c6dfc, 0x53380d13, 0x650a7354, 0x766a0abb, 0x81c2c92e, 0x92722c85,
    0xa2bfe8a1, 0xa81a664b, 0xc24b8b70, 0xc76c51a3, 0xd192e819, 0xd6990624, 0xf40e3585, 0x106aa070,
    0x19a4c116, 0x1e376c08, 0x2748774c, 0x34b0bcb5, 0x391c0cb3, 0x4ed8aa4a, 0x5b9cca4f, 0x682e6ff3,
    0x748f82ee, 0x78a5636f, 0x84c87814, 0x8cc70208, 0x90befffa, 0xa4506ceb, 0xbef9a3f7, 0xc67178f2 ]

/-- Section 5.3: the initial hash value. -/
def H0 : List UInt32 :=
  [ 0x6a09e667, 0xbb67ae85, 0x3c6ef372, 0xa54ff53a, 0x510e527f, 0x9b05688c, 0x1f83d9ab, 0x5be0cd19 ]

/-- The words of a block. -/
def words (block : Bytes) : List UInt32 :=
  (List.range 16).map fun t => UInt32.ofNat (beNat ((block.drop (4 * t)).take 4))

/-- Section 6: the message schedule, one more word. -/
def scheduleStep (w : List UInt32) : List UInt32 :=
  w ++ [sigma1 (w.getD (w.length - 2) 0) + w.getD (w.length - 7) 0 + sigma0 (w.getD (w.length - 15) 0) +
    w.getD (w.length - 16) 0]

/-- A function applied `n` times. -/
def iter {α : Type} (f : α → α) : Nat → α → α
  | 0, x => x
  | n + 1, x => iter f n (f x)

/-- Section 6: the message schedule. -/
def schedule (block : Bytes) : List UInt32 := iter scheduleStep 48 (words block)

/-- The working variables a to h. -/
structure Vars where
  (a b c d e f g h : UInt32)
  deriving DecidableEq

/-- Section 6: one round. -/
def round (v : Vars) (kw : UInt32 × UInt32) : Vars :=
  let T1 := v.h + Sigma1 v.e + Ch v.e v.f v.g + kw.1 + kw.2
  let T2 := Sigma0 v.a + Maj v.a v.b v.c
  ⟨T1 + T2, v.a, v.b, v.c, v.d + T1, v.e, v.f, v.g⟩

/-- Section 6: the hash value after a block. -/
def compress (H : List UInt32) (block : Bytes) : List UInt32 :=
  let v := (K.zip (schedule block)).foldl round
    ⟨H.getD 0 0, H.getD 1 0, H.getD 2 0, H.getD 3 0, H.getD 4 0, H.getD 5 0, H.getD 6 0, H.getD 7 0⟩
  [v.a + H.getD 0 0, v.b + H.getD 1 0, v.c + H.getD 2 0, v.d + H.getD 3 0, v.e + H.getD 4 0, v.f + H.getD 5 0,
    v.g + H.getD 6 0, v.h + H.getD 7 0]

/-- The hash with a given padding. -/
def hashPadded (m : Bytes) : Bytes :=
  ((parse 64 m).foldl compress H0).flatMap fun w => beBytes 4 w.toNat

/-- SHA-256 of a message (the standard limits the length to less than 2^64 bits). -/
def hash (m : Bytes) : Bytes := hashPadded (m ++ padding 64 8 m.length)

/-- The constants are the first bits of the fractional parts of the cube roots of the first primes. -/
example : (List.range 64).all (fun i => isCubeRootFrac 32 (primes.getD i 0)
    ((K.getD i 0).toNat + 2 ^ 32 * (if primes.getD i 0 < 8 then 1 else if primes.getD i 0 < 27 then 2 else
      if primes.getD i 0 < 64 then 3 else if primes.getD i 0 < 125 then 4 else if primes.getD i 0 < 216 then 5
      else if primes.getD i 0 < 343 then 6 else 7)) (K.getD i 0).toNat) = true := by decide +kernel

/-- The initial value consists of the first bits of the fractional parts of the square roots. -/
example : (List.range 8).all (fun i => isSquareRootFrac 32 (primes.getD i 0)
    ((H0.getD i 0).toNat + 2 ^ 32 * (if primes.getD i 0 < 4 then 1 else if primes.getD i 0 < 9 then 2 else
      if primes.getD i 0 < 16 then 3 else 4)) (H0.getD i 0).toNat) = true := by decide +kernel

/-- The digest of "abc" from the examples of the standard. -/
example : hash [0x61, 0x62, 0x63] =
    [ 0xba, 0x78, 0x16, 0xbf, 0x8f, 0x01, 0xcf, 0xea, 0x41, 0x41, 0x40, 0xde, 0x5d, 0xae, 0x22, 0x23,
      0xb0, 0x03, 0x61, 0xa3, 0x96, 0x17, 0x7a, 0x9c, 0xb4, 0x10, 0xff, 0x61, 0xf2, 0x00, 0x15, 0xad ] := by
  decide +kernel

/-- The digest of the empty message. -/
example : hash [] =
    [ 0xe3, 0xb0, 0xc4, 0x42, 0x98, 0xfc, 0x1c, 0x14, 0x9a, 0xfb, 0xf4, 0xc8, 0x99, 0x6f, 0xb9, 0x24,
      0x27, 0xae, 0x41, 0xe4, 0x64, 0x9b, 0x93, 0x4c, 0xa4, 0x95, 0x99, 0x1b, 0x78, 0x52, 0xb8, 0x55 ] := by
  decide +kernel

end Noise.Fips180.Sha256

/-! ## SHA-512 -/

namespace Noise.Fips180.Sha512

/-- Section 3.2: rotation to the right. -/
def rotr (n : UInt64) (x : UInt64) : UInt64 := (x >>> n) ||| (x <<< (64 - n))

/-- Section 4.1. -/
def Ch (x y z : UInt64) : UInt64 := (x &&& y) ^^^ (~~~x &&& z)
/-- Section 4.1. -/
def Maj (x y z : UInt64) : UInt64 := (x &&& y) ^^^ (x &&& z) ^^^ (y &&& z)
/-- Section 4.1. -/
def Sigma0 (x : UInt64) : UInt64 := rotr 28 x ^^^ rotr 34 x ^^^ rotr 39 x
/-- Section 4.1. -/
def Sigma1 (x : UInt64) : UInt64 := rotr 14 x ^^^ rotr 18 x ^^^ rotr 41 x
/-- Section 4.1. -/
def sigma0 (x : UInt64) : UInt64 := rotr 1 x ^^^ rotr 8 x ^^^ x >>> 7
/-- Section 4.1. -/
def sigma1 (x : UInt64) : UInt64 := rotr 19 x ^^^ rotr 61 x ^^^ x >>> 6

/-- Section 4.2: the constants. -/
def K : List UInt64 :=
  [ 0x428a2f98d728ae22, 0x7137449123ef65cd, 0xb5c0fbcfec4d3b2f, 0xe9b5dba58189dbbc,
    0x3956c25bf348b538, 0x59f111f1b605d019, 0x923f82a4af194f9b, 0xab1c5ed5da6d8118,
    0xd807aa98a3030242, 0x12835b0145706fbe, 0x243185be4ee4b28c, 0x550c7dc3d5ffb4e2,
    0x72be5d74f27b896f, 0x80deb1fe3b1696b1, 0x9bdc06a725c71235, 0xc19bf174cf692694,
    0xe49b69c19ef14ad2, 0xefbe4786384f25e3, 0x0fc19dc68b8cd5b5, 0x240ca1cc77ac9c65,
    0x2de92c6f592b0275, 0x4a7484aa6ea6e483, 0x5cb0a9dcbd41fbd4, 0x76f988da831153b5,
    0x983e5152ee66dfab, 0xa831c66d2db43210, 0xb00327c898fb213f, 0xbf597fc7beef0ee4,
    0xc6e00bf33da88fc2, 0xd5a79147930aa725, 0x06ca6351e003826f, 0x142929670a0e6e70,
    0x27b70a8546d22ffc, 0x2e1b21385c26c926, 0x4d2c6dfc5ac42aed, 0x53380d139d95b3df,
    0x650a73548baf63de, 0x766a0abb3c77b2a8, 0x81c2c92e47edaee6, 0x92722c851482353b,
    0xa2bfe8a14cf10364, 0xa81a664bbc423001, 0xc24b8b70d0f89791, 0xc76c51a30654be30,
    0xd192e819d6ef5218, 0xd69906245565a910, 0xf40e35855771202a, 0x106aa07032bbd1b8,
    0x19a4c116b8d2d0c8, 0x1e376c085141ab53, 0x2748774cdf8eeb99, 0x34b0bcb5e19b48a8,
    0x391c0cb3c5c95a63, 0x4ed8aa4ae3418acb, 0x5b9cca4f7763e373, 0x682e6ff3d6b2b8a3,
    0x748f82ee5defb2fc, 0x78a5636f43172f60, 0x84c87814a1f0ab72, 0x8cc702081a6439ec,
    0x90befffa23631e28, 0xa4506cebde82bde9, 0xbef9a3f7b2c67915, 0xc67178f2e372532b,
    0xca273eceea26619c, 0xd186b8c721c0c207, 0xeada7dd6cde0eb1e, 0xf57d4f7fee6ed178,
    0x06f067aa72176fba, 0x0a637dc5a2c898a6, 0x113f9804bef90dae, 0x1b710b35131c471b,
    0x28db77f523047d84, 0x32caab7b40c72493, 0x3c9ebe0a15c9bebc, 0x431d67c49c100d4c,
    0x4cc5d4becb3e42b6, 0x597f299cfc657e2a, 0x5fcb6fab3ad6faec, 0x6c44198c4a475817 ]

/-- Section 5.3: the initial hash value. -/
def H0 : List UInt64 :=
  [ 0x6a09e667f3bcc908, 0xbb67ae8584caa73b, 0x3c6ef372fe94f82b, 0xa54ff53a5f1d36f1,
    0x510e527fade682d1, 0x9b05688c2b3e6c1f, 0x1f83d9abfb41bd6b, 0x5be0cd19137e2179 ]

/-- The words of a block. -/
def words (block : Bytes) : List UInt64 :=
  (List.range 16).map fun t => UInt64.ofNat (beNat ((block.drop (8 * t)).take 8))

/-- Section 6: the message schedule, one more word. -/
def scheduleStep (w : List UInt64) : List UInt64 :=
  w ++ [sigma1 (w.getD (w.length - 2) 0) + w.getD (w.length - 7) 0 + sigma0 (w.getD (w.length - 15) 0) +
    w.getD (w.length - 16) 0]

/-- A function applied `n` times. -/
def iter {α : Type} (f : α → α) : Nat → α → α
  | 0, x => x
  | n + 1, x => iter f n (f x)

/-- Section 6: the message schedule. -/
def schedule (block : Bytes) : List UInt64 := iter scheduleStep 64 (words block)

/-- The working variables a to h. -/
structure Vars where
  (a b c d e f g h : UInt64)
  deriving DecidableEq

/-- Section 6: one round. -/
def round (v : Vars) (kw : UInt64 × UInt64) : Vars :=
  let T1 := v.h + Sigma1 v.e + Ch v.e v.f v.g + kw.1 + kw.2
  let T2 := Sigma0 v.a + Maj v.a v.b v.c
  ⟨T1 + T2, v.a, v.b, v.c, v.d + T1, v.e, v.f, v.g⟩

/-- Section 6: the hash value after a block. -/
def compress (H : List UInt64) (block : Bytes) : List UInt64 :=
  let v := (K.zip (schedule block)).foldl round
    ⟨H.getD 0 0, H.getD 1 0, H.getD 2 0, H.getD 3 0, H.getD 4 0, H.getD 5 0, H.getD 6 0, H.getD 7 0⟩
  [v.a + H.getD 0 0, v.b + H.getD 1 0, v.c + H.getD 2 0, v.d + H.getD 3 0, v.e + H.getD 4 0, v.f + H.getD 5 0,
    v.g + H.getD 6 0, v.h + H.getD 7 0]

/-- The hash with a given padding. -/
def hashPadded (m : Bytes) : Bytes :=
  ((parse 128 m).foldl compress H0).flatMap fun w => beBytes 8 w.toNat

/-- SHA-512 of a message (the standard limits the length to less than 2^128 bits). -/
def hash (m : Bytes) : Bytes := hashPadded (m ++ padding 128 16 m.length)

/-- The constants are the first bits of the fractional parts of the cube roots of the first primes. -/
example : (List.range 80).all (fun i => isCubeRootFrac 64 (primes.getD i 0)
    ((K.getD i 0).toNat + 2 ^ 64 * (if primes.getD i 0 < 8 then 1 else if primes.getD i 0 < 27 then 2 else
      if primes.getD i 0 < 64 then 3 else if primes.getD i 0 < 125 then 4 else if primes.getD i 0 < 216 then 5
      else if primes.getD i 0 < 343 then 6 else 7)) (K.getD i 0).toNat) = true := by decide +kernel

/-- The initial value consists of the first bits of the fractional parts of the square roots. -/
example : (List.range 8).all (fun i => isSquareRootFrac 64 (primes.getD i 0)
    ((H0.getD i 0).toNat + 2 ^ 64 * (if primes.getD i 0 < 4 then 1 else if primes.getD i 0 < 9 then 2 else
      if primes.getD i 0 < 16 then 3 else 4)) (H0.getD i 0).toNat) = true := by decide +kernel

/-- The digest of "abc" from the examples of the standard. -/
example : hash [0x61, 0x62, 0x63] =
    [ 0xdd, 0xaf, 0x35, 0xa1, 0x93, 0x61, 0x7a, 0xba, 0xcc, 0x41, 0x73, 0x49, 0xae, 0x20, 0x41, 0x31,
      0x12, 0xe6, 0xfa, 0x4e, 0x89, 0xa9, 0x7e, 0xa2, 0x0a, 0x9e, 0xee, 0xe6, 0x4b, 0x55, 0xd3, 0x9a,
      0x21, 0x92, 0x99, 0x2a, 0x27, 0x4f, 0xc1, 0xa8, 0x36, 0xba, 0x3c, 0x23, 0xa3, 0xfe, 0xeb, 0xbd,
      0x45, 0x4d, 0x44, 0x23, 0x64, 0x3c, 0xe8, 0x0e, 0x2a, 0x9a, 0xc9, 0x4f, 0xa5, 0x4c, 0xa4, 0x9f ] := by
  decide +kernel

/-- The digest of the empty message. -/
example : hash [] =
    [ 0xcf, 0x83, 0xe1, 0x35, 0x7e, 0xef, 0xb8, 0xbd, 0xf1, 0x54, 0x28, 0x50, 0xd6, 0x6d, 0x80, 0x07,
      0xd6, 0x20, 0xe4, 0x05, 0x0b, 0x57, 0x15, 0xdc, 0x83, 0xf4, 0xa9, 0x21, 0xd3, 0x6c, 0xe9, 0xce,
      0x47, 0xd0, 0xd1, 0x3c, 0x5d, 0x85, 0xf2, 0xb0, 0xff, 0x83, 0x18, 0xd2, 0x87, 0x7e, 0xec, 0x2f,
      0x63, 0xb9, 0x31, 0xbd, 0x47, 0x41, 0x7a, 0x81, 0xa5, 0x38, 0x32, 0x7a, 0xf9, 0x27, 0xda, 0x3e ] := by
  decide +kernel

end Noise.Fips180.Sha512
