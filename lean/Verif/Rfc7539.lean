import Verif.Basic
/-!
# RFC 7539: ChaCha20, Poly1305 and the AEAD built from them

Written from the RFC, independently of the C code, and checked against its test vectors.
-/

namespace Noise.Rfc7539

/-! ## Numbers and bytes -/

/-- A number from bytes, least significant first. -/
def leNat : Bytes → Nat
  | [] => 0
  | b :: bs => b.toNat + 256 * leNat bs

/-- The lowest `n` bytes of a number, least significant first. -/
def leBytes : (n : Nat) → Nat → Bytes
  | 0, _ => []
  | n + 1, v => UInt8.ofNat (v % 256) :: leBytes n (v / 256)

/-- The first `n` words of a byte string, four bytes each. -/
def leWords : (n : Nat) → Bytes → List UInt32
  | 0, _ => []
  | n + 1, b => UInt32.ofNat (leNat (b.take 4)) :: leWords n (b.drop 4)

/-! ## ChaCha20 -/

/-- Section 2.1: `n`-bit left rotation. -/
def rotl (x : UInt32) (n : Nat) : UInt32 := UInt32.ofBitVec (x.toBitVec.rotateLeft n)

/-- Section 2.1: the quarter round, its four lines one after the other. -/
def quarter (s : UInt32 × UInt32 × UInt32 × UInt32) : UInt32 × UInt32 × UInt32 × UInt32 :=
  let line1 := fun ((a, b, c, d) : UInt32 × UInt32 × UInt32 × UInt32) =>
    (a + b, b, c, rotl (d ^^^ (a + b)) 16)
  let line2 := fun ((a, b, c, d) : UInt32 × UInt32 × UInt32 × UInt32) =>
    (a, rotl (b ^^^ (c + d)) 12, c + d, d)
  let line3 := fun ((a, b, c, d) : UInt32 × UInt32 × UInt32 × UInt32) =>
    (a + b, b, c, rotl (d ^^^ (a + b)) 8)
  let line4 := fun ((a, b, c, d) : UInt32 × UInt32 × UInt32 × UInt32) =>
    (a, rotl (b ^^^ (c + d)) 7, c + d, d)
  line4 (line3 (line2 (line1 s)))

/-- Section 2.2: QUARTERROUND on the elements of a state with the given indices. -/
def quarterRound (s : List UInt32) (x y z w : Nat) : List UInt32 :=
  let r := quarter (s.getD x 0, s.getD y 0, s.getD z 0, s.getD w 0)
  (((s.set x r.1).set y r.2.1).set z r.2.2.1).set w r.2.2.2

/-- Section 2.3.1: inner_block. -/
def innerBlock (s : List UInt32) : List UInt32 :=
  [(0, 4, 8, 12), (1, 5, 9, 13), (2, 6, 10, 14), (3, 7, 11, 15),
   (0, 5, 10, 15), (1, 6, 11, 12), (2, 7, 8, 13), (3, 4, 9, 14)].foldl
    (fun s (x, y, z, w) => quarterRound s x y z w) s

/-- Section 2.3: the initial state for a 32-byte key, a counter and a 12-byte nonce. -/
def state (key : Bytes) (counter : Nat) (nonce : Bytes) : List UInt32 :=
  [0x61707865, 0x3320646e, 0x79622d32, 0x6b206574] ++ leWords 8 key ++ [UInt32.ofNat counter] ++
    leWords 3 nonce

/-- Repeated application. -/
def iter (f : List UInt32 → List UInt32) : Nat → List UInt32 → List UInt32
  | 0, s => s
  | n + 1, s => iter f n (f s)

/-- Section 2.3.1: ten times inner_block, then addition of the initial state. -/
def core (s : List UInt32) : List UInt32 := List.zipWith (· + ·) (iter innerBlock 10 s) s

/-- Section 2.3: the key stream block for a counter. -/
def block (key : Bytes) (counter : Nat) (nonce : Bytes) : Bytes :=
  (core (state key counter nonce)).flatMap fun w => leBytes 4 w.toNat

/-- Byte `i` of the key stream that starts with the given counter. -/
def stream (key : Bytes) (counter : Nat) (nonce : Bytes) (i : Nat) : UInt8 :=
  (block key (counter + i / 64) nonce).getD (i % 64) 0

/-- Section 2.4: encryption, exclusive or with the key stream. -/
def encrypt (key : Bytes) (counter : Nat) (nonce plaintext : Bytes) : Bytes :=
  plaintext.mapIdx fun i b => b ^^^ stream key counter nonce i

/-! ## Poly1305 -/

/-- Section 2.5: the prime 2^130 - 5. -/
def prime : Nat := 2 ^ 130 - 5

/-- Section 2.5.1: clamping. -/
def clamp (r : Nat) : Nat := r &&& 0x0ffffffc0ffffffc0ffffffc0fffffff

/-- The 16-byte blocks of a message, the last one possibly shorter. -/
def blocks (m : Bytes) : List Bytes :=
  (List.range ((m.length + 15) / 16)).map fun i => (m.drop (16 * i)).take 16

/-- Section 2.5.1: one step of the loop; the block with a 1 byte appended is added. -/
def absorb (r : Nat) (a : Nat) (b : Bytes) : Nat := (a + leNat (b ++ [1])) * r % prime

/-- Section 2.5.1: poly1305_mac. -/
def poly1305 (key msg : Bytes) : Bytes :=
  let r := clamp (leNat (key.take 16))
  let s := leNat ((key.drop 16).take 16)
  leBytes 16 ((blocks msg).foldl (absorb r) 0 + s)

/-! ## The AEAD -/

/-- Section 2.8: zeros up to a multiple of 16 bytes. -/
def pad16 (x : Bytes) : Bytes := List.replicate ((16 - x.length % 16) % 16) 0

/-- Section 2.8: what is authenticated. -/
def macData (aad ciphertext : Bytes) : Bytes :=
  aad ++ pad16 aad ++ (ciphertext ++ pad16 ciphertext) ++
    (leBytes 8 aad.length ++ leBytes 8 ciphertext.length)

/-- Section 2.8: the tag. -/
def tag (key nonce aad ciphertext : Bytes) : Bytes :=
  poly1305 ((block key 0 nonce).take 32) (macData aad ciphertext)

/-- Section 2.8: chacha20_aead_encrypt; the tag follows the ciphertext. -/
def sealBytes (key nonce aad plaintext : Bytes) : Bytes :=
  encrypt key 1 nonce plaintext ++ tag key nonce aad (encrypt key 1 nonce plaintext)

/-- Section 2.8: decryption of a ciphertext followed by a tag, which must be the right one. -/
def openSealed (key nonce aad sealed : Bytes) : Option Bytes :=
  if sealed.length < 16 then none
  else
    let ct := sealed.take (sealed.length - 16)
    if sealed.drop (sealed.length - 16) = tag key nonce aad ct then some (encrypt key 1 nonce ct) else none

/-! ## Test vectors -/

/-- Section 2.3.2. -/
example : block ((List.range 32).map UInt8.ofNat) 1
      [0x00, 0x00, 0x00, 0x09, 0x00, 0x00, 0x00, 0x4a, 0x00, 0x00, 0x00, 0x00] =
    [0x10, 0xf1, 0xe7, 0xe4, 0xd1, 0x3b, 0x59, 0x15, 0x50, 0x0f, 0xdd, 0x1f, 0xa3, 0x20, 0x71, 0xc4,
     0xc7, 0xd1, 0xf4, 0xc7, 0x33, 0xc0, 0x68, 0x03, 0x04, 0x22, 0xaa, 0x9a, 0xc3, 0xd4, 0x6c, 0x4e,
     0xd2, 0x82, 0x64, 0x46, 0x07, 0x9f, 0xaa, 0x09, 0x14, 0xc2, 0xd7, 0x05, 0xd9, 0x8b, 0x02, 0xa2,
     0xb5, 0x12, 0x9c, 0xd1, 0xde, 0x16, 0x4e, 0xb9, 0xcb, 0xd0, 0x83, 0xe8, 0xa2, 0x50, 0x3c, 0x4e] := by
  decide +kernel

/-- Section 2.5.2: "Cryptographic Forum Research Group". -/
example : poly1305
      [0x85, 0xd6, 0xbe, 0x78, 0x57, 0x55, 0x6d, 0x33, 0x7f, 0x44, 0x52, 0xfe, 0x42, 0xd5, 0x06, 0xa8,
       0x01, 0x03, 0x80, 0x8a, 0xfb, 0x0d, 0xb2, 0xfd, 0x4a, 0xbf, 0xf6, 0xaf, 0x41, 0x49, 0xf5, 0x1b]
      [0x43, 0x72, 0x79, 0x70, 0x74, 0x6f, 0x67, 0x72, 0x61, 0x70, 0x68, 0x69, 0x63, 0x20, 0x46, 0x6f,
       0x72, 0x75, 0x6d, 0x20, 0x52, 0x65, 0x73, 0x65, 0x61, 0x72, 0x63, 0x68, 0x20, 0x47, 0x72, 0x6f,
       0x75, 0x70] =
    [0xa8, 0x06, 0x1d, 0xc1, 0x30, 0x51, 0x36, 0xc6, 0xc2, 0x2b, 0x8b, 0xaf, 0x0c, 0x01, 0x27, 0xa9] := by
  decide +kernel

/-- Section 2.8.2: the tag of the AEAD example. -/
example : tag ((List.range 32).map fun i => UInt8.ofNat (0x80 + i))
      [0x07, 0x00, 0x00, 0x00, 0x40, 0x41, 0x42, 0x43, 0x44, 0x45, 0x46, 0x47]
      [0x50, 0x51, 0x52, 0x53, 0xc0, 0xc1, 0xc2, 0xc3, 0xc4, 0xc5, 0xc6, 0xc7]
      [0xd3, 0x1a, 0x8d, 0x34, 0x64, 0x8e, 0x60, 0xdb, 0x7b, 0x86, 0xaf, 0xbc, 0x53, 0xef, 0x7e, 0xc2,
       0xa4, 0xad, 0xed, 0x51, 0x29, 0x6e, 0x08, 0xfe, 0xa9, 0xe2, 0xb5, 0xa7, 0x36, 0xee, 0x62, 0xd6,
       0x3d, 0xbe, 0xa4, 0x5e, 0x8c, 0xa9, 0x67, 0x12, 0x82, 0xfa, 0xfb, 0x69, 0xda, 0x92, 0x72, 0x8b,
       0x1a, 0x71, 0xde, 0x0a, 0x9e, 0x06, 0x0b, 0x29, 0x05, 0xd6, 0xa5, 0xb6, 0x7e, 0xcd, 0x3b, 0x36,
       0x92, 0xdd, 0xbd, 0x7f, 0x2d, 0x77, 0x8b, 0x8c, 0x98, 0x03, 0xae, 0xe3, 0x28, 0x09, 0x1b, 0x58,
       0xfa, 0xb3, 0x24, 0xe4, 0xfa, 0xd6, 0x75, 0x94, 0x55, 0x85, 0x80, 0x8b, 0x48, 0x31, 0xd7, 0xbc,
       0x3f, 0xf4, 0xde, 0xf0, 0x8e, 0x4b, 0x7a, 0x9d, 0xe5, 0x76, 0xd2, 0x65, 0x86, 0xce, 0xc6, 0x4b,
       0x61, 0x16] =
    [0x1a, 0xe1, 0x0b, 0x59, 0x4f, 0x09, 0xe2, 0x6a, 0x7e, 0x90, 0x2e, 0xcb, 0xd0, 0x60, 0x06, 0x91] := by
  decide +kernel

/-- Section 2.8.2: the beginning of the ciphertext ("Ladi"). -/
example : encrypt ((List.range 32).map fun i => UInt8.ofNat (0x80 + i)) 1
      [0x07, 0x00, 0x00, 0x00, 0x40, 0x41, 0x42, 0x43, 0x44, 0x45, 0x46, 0x47] [0x4c, 0x61, 0x64, 0x69] =
    [0xd3, 0x1a, 0x8d, 0x34] := by
  decide +kernel

end Noise.Rfc7539
