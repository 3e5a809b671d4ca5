import Verif.Rfc7539
/-!
# BLAKE2s and BLAKE2b as in RFC 7693

Written from the RFC, unkeyed and with the full output length. Nothing here refers to the code.
-/

namespace Noise.Rfc7693

/-- Section 2.7: the message schedule. -/
def SIGMA : List (List Nat) :=
  [ [0, 1, 2, 3, 4, 5, 6, 7, 8, 9, 10, 11, 12, 13, 14, 15],
    [14, 10, 4, 8, 9, 15, 13, 6, 1, 12, 0, 2, 11, 7, 5, 3],
    [11, 8, 12, 0, 5, 2, 15, 13, 10, 14, 3, 6, 7, 1, 9, 4],
    [7, 9, 3, 1, 13, 12, 11, 14, 2, 6, 5, 10, 4, 0, 15, 8],
    [9, 0, 5, 7, 2, 4, 10, 15, 14, 1, 11, 12, 6, 8, 3, 13],
    [2, 12, 6, 10, 0, 11, 8, 3, 4, 13, 7, 5, 15, 14, 1, 9],
    [12, 5, 1, 15, 14, 13, 4, 10, 0, 7, 6, 3, 9, 2, 8, 11],
    [13, 11, 7, 14, 12, 1, 3, 9, 5, 0, 15, 4, 8, 6, 2, 10],
    [6, 15, 14, 9, 11, 3, 0, 8, 12, 2, 13, 7, 1, 4, 10, 5],
    [10, 2, 8, 4, 7, 6, 1, 5, 15, 11, 9, 14, 3, 12, 13, 0] ]

end Noise.Rfc7693

/-! ## BLAKE2s -/

namespace Noise.Rfc7693.Bs

/-- Section 2.3: rotation to the right. -/
def rotr (x : UInt32) (n : Nat) : UInt32 := UInt32.ofBitVec (x.toBitVec.rotateRight n)

/-- Section 2.6: the initialization vector. -/
def IV : List UInt32 :=
  [ 0x6a09e667, 0xbb67ae85, 0x3c6ef372, 0xa54ff53a, 0x510e527f, 0x9b05688c, 0x1f83d9ab, 0x5be0cd19 ]

/-- Section 3.1: the mixing function on four words with the input words `x` and `y`. -/
def mix (s : UInt32 × UInt32 × UInt32 × UInt32) (x y : UInt32) : UInt32 × UInt32 × UInt32 × UInt32 :=
  let (a, b, c, d) := s
  let a := a + b + x
  let d := rotr (d ^^^ a) 16
  let c := c + d
  let b := rotr (b ^^^ c) 12
  let a := a + b + y
  let d := rotr (d ^^^ a) 8
  let c := c + d
  let b := rotr (b ^^^ c) 7
  (a, b, c, d)

/-- Section 3.1: the mixing function on the elements of the work vector with the given indices. -/
def G (v : List UInt32) (a b c d : Nat) (x y : UInt32) : List UInt32 :=
  let r := mix (v.getD a 0, v.getD b 0, v.getD c 0, v.getD d 0) x y
  (((v.set a r.1).set b r.2.1).set c r.2.2.1).set d r.2.2.2

/-- Section 3.2: one round with the row `s` of the schedule. -/
def round (m : List UInt32) (v : List UInt32) (s : List Nat) : List UInt32 :=
  [(0, 4, 8, 12, 0, 1), (1, 5, 9, 13, 2, 3), (2, 6, 10, 14, 4, 5), (3, 7, 11, 15, 6, 7),
   (0, 5, 10, 15, 8, 9), (1, 6, 11, 12, 10, 11), (2, 7, 8, 13, 12, 13), (3, 4, 9, 14, 14, 15)].foldl
    (fun v (a, b, c, d, i, j) => G v a b c d (m.getD (s.getD i 0) 0) (m.getD (s.getD j 0) 0)) v

/-- The words of a block. -/
def words (block : Bytes) : List UInt32 :=
  (List.range 16).map fun i => UInt32.ofNat (Rfc7539.leNat ((block.drop (4 * i)).take 4))

/-- Section 3.2: the initial work vector for the counter `t` and the final block flag. -/
def start (h : List UInt32) (t : Nat) (final : Bool) : List UInt32 :=
  h ++ [IV.getD 0 0, IV.getD 1 0, IV.getD 2 0, IV.getD 3 0, IV.getD 4 0 ^^^ UInt32.ofNat t,
    IV.getD 5 0 ^^^ UInt32.ofNat (t / 2 ^ 32), if final then ~~~(IV.getD 6 0) else IV.getD 6 0, IV.getD 7 0]

/-- Section 3.2: the compression function. -/
def F (h : List UInt32) (block : Bytes) (t : Nat) (final : Bool) : List UInt32 :=
  let m := words block
  let v := ((List.range 10).map fun i => SIGMA.getD (i % 10) []).foldl (round m) (start h t final)
  (List.range 8).map fun i => h.getD i 0 ^^^ v.getD i 0 ^^^ v.getD (i + 8) 0

/-- Section 2.5: the initial state for an unkeyed hash of 32 bytes. -/
def initial : List UInt32 := IV.set 0 (IV.getD 0 0 ^^^ 0x01010000 ^^^ 32)

/-- The state after the first `k` blocks, with the counter `ctr n` after `n` bytes. -/
def absorb (ctr : Nat → Nat) (m : Bytes) (k : Nat) : List UInt32 :=
  (List.range k).foldl (fun h i => F h ((m.drop (64 * i)).take 64) (ctr (64 * (i + 1))) false) initial

/-- Section 3.3, with the counter `ctr n` after `n` bytes; all blocks but the last, then the last one padded with
zeros. The empty message is one block. -/
def hashWith (ctr : Nat → Nat) (m : Bytes) : Bytes :=
  let dd := max 1 ((m.length + (64 - 1)) / 64)
  let last := m.drop (64 * (dd - 1))
  (F (absorb ctr m (dd - 1)) (last ++ List.replicate (64 - last.length) 0) (ctr m.length) true).flatMap fun w =>
    Rfc7539.leBytes 4 w.toNat

/-- BLAKE2s-256 of a message (the RFC limits the length to less than 2^64 bytes). -/
def hash (m : Bytes) : Bytes := hashWith id m

/-- The digest of "abc", appendix B of the RFC. -/
example : hash [0x61, 0x62, 0x63] =
    [ 0x50, 0x8c, 0x5e, 0x8c, 0x32, 0x7c, 0x14, 0xe2, 0xe1, 0xa7, 0x2b, 0xa3, 0x4e, 0xeb, 0x45, 0x2f,
      0x37, 0x45, 0x8b, 0x20, 0x9e, 0xd6, 0x3a, 0x29, 0x4d, 0x99, 0x9b, 0x4c, 0x86, 0x67, 0x59, 0x82 ] := by
  decide +kernel

/-- The digest of the empty message. -/
example : hash [] =
    [ 0x69, 0x21, 0x7a, 0x30, 0x79, 0x90, 0x80, 0x94, 0xe1, 0x11, 0x21, 0xd0, 0x42, 0x35, 0x4a, 0x7c,
      0x1f, 0x55, 0xb6, 0x48, 0x2c, 0xa1, 0xa5, 0x1e, 0x1b, 0x25, 0x0d, 0xfd, 0x1e, 0xd0, 0xee, 0xf9 ] := by
  decide +kernel

end Noise.Rfc7693.Bs

/-! ## BLAKE2b -/

namespace Noise.Rfc7693.Bb

/-- Section 2.3: rotation to the right. -/
def rotr (x : UInt64) (n : Nat) : UInt64 := UInt64.ofBitVec (x.toBitVec.rotateRight n)

/-- Section 2.6: the initialization vector. -/
def IV : List UInt64 :=
  [ 0x6a09e667f3bcc908, 0xbb67ae8584caa73b, 0x3c6ef372fe94f82b, 0xa54ff53a5f1d36f1,
    0x510e527fade682d1, 0x9b05688c2b3e6c1f, 0x1f83d9abfb41bd6b, 0x5be0cd19137e2179 ]

/-- Section 3.1: the mixing function on four words with the input words `x` and `y`. -/
def mix (s : UInt64 × UInt64 × UInt64 × UInt64) (x y : UInt64) : UInt64 × UInt64 × UInt64 × UInt64 :=
  let (a, b, c, d) := s
  let a := a + b + x
  let d := rotr (d ^^^ a) 32
  let c := c + d
  let b := rotr (b ^^^ c) 24
  let a := a + b + y
  let d := rotr (d ^^^ a) 16
  let c := c + d
  let b := rotr (b ^^^ c) 63
  (a, b, c, d)

/-- Section 3.1: the mixing function on the elements of the work vector with the given indices. -/
def G (v : List UInt64) (a b c d : Nat) (x y : UInt64) : List UInt64 :=
  let r := mix (v.getD a 0, v.getD b 0, v.getD c 0, v.getD d 0) x y
  (((v.set a r.1).set b r.2.1).set c r.2.2.1).set d r.2.2.2

/-- Section 3.2: one round with the row `s` of the schedule. -/
def round (m : List UInt64) (v : List UInt64) (s : List Nat) : List UInt64 :=
  [(0, 4, 8, 12, 0, 1), (1, 5, 9, 13, 2, 3), (2, 6, 10, 14, 4, 5), (3, 7, 11, 15, 6, 7),
   (0, 5, 10, 15, 8, 9), (1, 6, 11, 12, 10, 11), (2, 7, 8, 13, 12, 13), (3, 4, 9, 14, 14, 15)].foldl
    (fun v (a, b, c, d, i, j) => G v a b c d (m.getD (s.getD i 0) 0) (m.getD (s.getD j 0) 0)) v

/-- The words of a block. -/
def words (block : Bytes) : List UInt64 :=
  (List.range 16).map fun i => UInt64.ofNat (Rfc7539.leNat ((block.drop (8 * i)).take 8))

/-- Section 3.2: the initial work vector for the counter `t` and the final block flag. -/
def start (h : List UInt64) (t : Nat) (final : Bool) : List UInt64 :=
  h ++ [IV.getD 0 0, IV.getD 1 0, IV.getD 2 0, IV.getD 3 0, IV.getD 4 0 ^^^ UInt64.ofNat t,
    IV.getD 5 0 ^^^ UInt64.ofNat (t / 2 ^ 64), if final then ~~~(IV.getD 6 0) else IV.getD 6 0, IV.getD 7 0]

/-- Section 3.2: the compression function. -/
def F (h : List UInt64) (block : Bytes) (t : Nat) (final : Bool) : List UInt64 :=
  let m := words block
  let v := ((List.range 12).map fun i => SIGMA.getD (i % 10) []).foldl (round m) (start h t final)
  (List.range 8).map fun i => h.getD i 0 ^^^ v.getD i 0 ^^^ v.getD (i + 8) 0

/-- Section 2.5: the initial state for an unkeyed hash of 64 bytes. -/
def initial : List UInt64 := IV.set 0 (IV.getD 0 0 ^^^ 0x01010000 ^^^ 64)

/-- The state after the first `k` blocks, with the counter `ctr n` after `n` bytes. -/
def absorb (ctr : Nat → Nat) (m : Bytes) (k : Nat) : List UInt64 :=
  (List.range k).foldl (fun h i => F h ((m.drop (128 * i)).take 128) (ctr (128 * (i + 1))) false) initial

/-- Section 3.3, with the counter `ctr n` after `n` bytes; all blocks but the last, then the last one padded with
zeros. The empty message is one block. -/
def hashWith (ctr : Nat → Nat) (m : Bytes) : Bytes :=
  let dd := max 1 ((m.length + (128 - 1)) / 128)
  let last := m.drop (128 * (dd - 1))
  (F (absorb ctr m (dd - 1)) (last ++ List.replicate (128 - last.length) 0) (ctr m.length) true).flatMap fun w =>
    Rfc7539.leBytes 8 w.toNat

/-- BLAKE2b-512 of a message (the RFC limits the length to less than 2^128 bytes). -/
def hash (m : Bytes) : Bytes := hashWith id m

/-- The digest of "abc", appendix A of the RFC. -/
example : hash [0x61, 0x62, 0x63] =
    [ 0xba, 0x80, 0xa5, 0x3f, 0x98, 0x1c, 0x4d, 0x0d, 0x6a, 0x27, 0x97, 0xb6, 0x9f, 0x12, 0xf6, 0xe9,
      0x4c, 0x21, 0x2f, 0x14, 0x68, 0x5a, 0xc4, 0xb7, 0x4b, 0x12, 0xbb, 0x6f, 0xdb, 0xff, 0xa2, 0xd1,
      0x7d, 0x87, 0xc5, 0x39, 0x2a, 0xab, 0x79, 0x2d, 0xc2, 0x52, 0xd5, 0xde, 0x45, 0x33, 0xcc, 0x95,
      0x18, 0xd3, 0x8a, 0xa8, 0xdb, 0xf1, 0x92, 0x5a, 0xb9, 0x23, 0x86, 0xed, 0xd4, 0x00, 0x99, 0x23 ] := by
  decide +kernel

/-- The digest of the empty message. -/
example : hash [] =
    [ 0x78, 0x6a, 0x02, 0xf7, 0x42, 0x01, 0x59, 0x03, 0xc6, 0xc6, 0xfd, 0x85, 0x25, 0x52, 0xd2, 0x72,
      0x91, 0x2f, 0x47, 0x40, 0xe1, 0x58, 0x47, 0x61, 0x8a, 0x86, 0xe2, 0x17, 0xf7, 0x1f, 0x54, 0x19,
      0xd2, 0x5e, 0x10, 0x31, 0xaf, 0xee, 0x58, 0x53, 0x13, 0x89, 0x64, 0x44, 0x93, 0x4e, 0xb0, 0x4b,
      0x90, 0x3a, 0x68, 0x5b, 0x14, 0x48, 0xb7, 0x55, 0xd5, 0x6f, 0x70, 0x1a, 0xfe, 0x9b, 0xe2, 0xce ] := by
  decide +kernel

end Noise.Rfc7693.Bb
