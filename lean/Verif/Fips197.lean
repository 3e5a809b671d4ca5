import Verif.Basic

/-!
The AES-256 block cipher as specified in FIPS 197, written from the standard and not from the code: bytes as elements
of GF(2^8), the S-box by inversion and an affine map, the state as 16 bytes filled column by column, and the key
expansion word by word.
-/

namespace Noise.Fips197

/-- Multiplication by x in GF(2^8) = GF(2)[x]/(x^8 + x^4 + x^3 + x + 1) (FIPS 197, 4.2.1), on the numbers that code the
polynomials. -/
def xtimes (a : Nat) : Nat := if 2 * a < 256 then 2 * a else (2 * a) ^^^ 0x11b

/-- `x^i · a`. -/
def xpow (a : Nat) : Nat → Nat
  | 0 => a
  | i + 1 => xtimes (xpow a i)

/-- The product in GF(2^8): the sum of `x^i · a` over the set bits `i` of `b`. -/
def mulNat (a b : Nat) : Nat := (List.range 8).foldl (fun r i => if b.testBit i then r ^^^ xpow a i else r) 0

/-- The product of two bytes in GF(2^8) (4.2). -/
def mul (a b : UInt8) : UInt8 := UInt8.ofNat (mulNat a.toNat b.toNat)

/-- The product of `a^2`, `a^4`, …, `a^(2^n)`. -/
def squares : Nat → Nat → Nat
  | 0, _ => 1
  | n + 1, a => let b := mulNat a a; mulNat b (squares n b)

/-- The multiplicative inverse, with 0 sent to 0 (5.1.1, first step): `a^254`, where 254 = 2 + 4 + … + 128. -/
def inv (a : UInt8) : UInt8 := UInt8.ofNat (squares 7 a.toNat)

/-- The affine map over GF(2) (equation 5.1): bit `i` of the result is the sum of the bits `i`, `i+4`, `i+5`, `i+6`,
`i+7` (modulo 8) of the argument and of bit `i` of {63}. -/
def affine (b : Nat) : Nat :=
  (List.range 8).foldl (fun r i =>
    r + if (b.testBit i ^^ b.testBit ((i + 4) % 8) ^^ b.testBit ((i + 5) % 8) ^^ b.testBit ((i + 6) % 8) ^^
      b.testBit ((i + 7) % 8) ^^ Nat.testBit 0x63 i) then 2 ^ i else 0) 0

/-- The S-box (5.1.1). -/
def sbox (a : UInt8) : UInt8 := UInt8.ofNat (affine (inv a).toNat)

/-- SubBytes (5.1.1). The state is 16 bytes; row `r`, column `c` is byte `r + 4c` (3.4). -/
def subBytes (s : Bytes) : Bytes := s.map sbox

/-- ShiftRows (5.1.2): row `r` is rotated to the left by `r`. -/
def shiftRows (s : Bytes) : Bytes :=
  (List.range 16).map fun i => s.getD (i % 4 + 4 * ((i / 4 + i % 4) % 4)) 0

/-- MixColumns (5.1.3): each column is multiplied by the circulant matrix with first row 2 3 1 1. -/
def mixColumns (s : Bytes) : Bytes :=
  (List.range 16).map fun i =>
    let at' := fun k => s.getD (4 * (i / 4) + (i % 4 + k) % 4) 0
    mul (at' 0) 2 ^^^ mul (at' 1) 3 ^^^ at' 2 ^^^ at' 3

/-- AddRoundKey (5.1.4). -/
def addRoundKey (s k : Bytes) : Bytes := List.zipWith (· ^^^ ·) s k

/-- SubWord (5.2). -/
def subWord (w : Bytes) : Bytes := w.map sbox

/-- RotWord (5.2): [a0, a1, a2, a3] becomes [a1, a2, a3, a0]. -/
def rotWord (w : Bytes) : Bytes := w.drop 1 ++ w.take 1

/-- Rcon[i] (5.2): [x^(i-1), 0, 0, 0]. -/
def rcon (i : Nat) : Bytes := [UInt8.ofNat (xpow 1 (i - 1)), 0, 0, 0]

/-- The number of words in the key and the number of rounds of AES-256 (figure 4). -/
def Nk : Nat := 8
def Nr : Nat := 14

/-- One turn of the loop of KeyExpansion (figure 11): the next word from the words so far. -/
def nextWord (w : List Bytes) : List Bytes :=
  let i := w.length
  let temp := w.getD (i - 1) []
  let temp := if i % Nk = 0 then List.zipWith (· ^^^ ·) (subWord (rotWord temp)) (rcon (i / Nk))
    else if i % Nk = 4 then subWord temp else temp
  w ++ [List.zipWith (· ^^^ ·) (w.getD (i - Nk) []) temp]

/-- The turns of the loop. -/
def extend : Nat → List Bytes → List Bytes
  | 0, w => w
  | n + 1, w => extend n (nextWord w)

/-- The words of the key. -/
def keyWords (key : Bytes) : List Bytes := (List.range Nk).map fun i => (key.drop (4 * i)).take 4

/-- KeyExpansion (figure 11): `4 (Nr + 1)` words. -/
def keyExpansion (key : Bytes) : List Bytes := extend (4 * (Nr + 1) - Nk) (keyWords key)

/-- The key of round `r`: words `4r` to `4r + 3`. -/
def roundKey (w : List Bytes) (r : Nat) : Bytes := ((w.drop (4 * r)).take 4).flatten

/-- One of the rounds 1 to Nr - 1 (figure 5). -/
def round (w : List Bytes) (s : Bytes) (r : Nat) : Bytes :=
  addRoundKey (mixColumns (shiftRows (subBytes s))) (roundKey w r)

/-- Rounds `r`, `r + 1`, … in order, `n` of them. -/
def rounds (w : List Bytes) : Nat → Nat → Bytes → Bytes
  | _, 0, s => s
  | r, n + 1, s => rounds w (r + 1) n (round w s r)

/-- Cipher (figure 5). -/
def cipher (w : List Bytes) (input : Bytes) : Bytes :=
  let s := addRoundKey input (roundKey w 0)
  let s := rounds w 1 (Nr - 1) s
  addRoundKey (shiftRows (subBytes s)) (roundKey w Nr)

/-- AES-256. -/
def aes256 (key input : Bytes) : Bytes := cipher (keyExpansion key) input

/-! ## Checks of the specification -/

/-- `inv` is the multiplicative inverse. -/
example : ∀ a : Fin 256, a.val ≠ 0 → mul (UInt8.ofNat a.val) (inv (UInt8.ofNat a.val)) = 1 := by decide +kernel

/-- The example of section 4.2: {57} · {83} = {c1}; that of 5.1.1: {53} is sent to {ed}. -/
example : mul 0x57 0x83 = 0xc1 ∧ sbox 0x53 = 0xed ∧ sbox 0 = 0x63 := by decide +kernel

/-- Appendix C.3 of FIPS 197: AES-256. -/
example : aes256 [0, 1, 2, 3, 4, 5, 6, 7, 8, 9, 10, 11, 12, 13, 14, 15, 16, 17, 18, 19, 20, 21, 22, 23, 24, 25, 26, 27,
    28, 29, 30, 31] [0x00, 0x11, 0x22, 0x33, 0x44, 0x55, 0x66, 0x77, 0x88, 0x99, 0xaa, 0xbb, 0xcc, 0xdd, 0xee, 0xff] =
    [0x8e, 0xa2, 0xb7, 0xca, 0x51, 0x67, 0x45, 0xbf, 0xea, 0xfc, 0x49, 0x90, 0x4b, 0x49, 0x60, 0x89] := by
  decide +kernel

end Noise.Fips197
