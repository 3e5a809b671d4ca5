import Verif.Basic
import Verif.Fips180
/-!
# Galois/Counter Mode

Transcription of NIST SP 800-38D for byte strings, a 96-bit initialization vector and a 128-bit tag. Not a
definition of the code base.
-/

namespace Noise.Sp80038D

open Fips180 (beNat beBytes)

/-- A byte as a bit string, the most significant bit first. -/
def byteBits (b : UInt8) : List Bool := (List.range 8).map fun i => b.toNat.testBit (7 - i)

/-- A byte string as a bit string. -/
def bits (m : Bytes) : List Bool := m.flatMap byteBits

/-- The number a bit string stands for, the most significant bit first. -/
def bitsNat : List Bool → Nat := List.foldl (fun a b => 2 * a + b.toNat) 0

/-- A bit string of `8 * n` bits as a byte string. -/
def unbits (x : List Bool) : Bytes := beBytes (x.length / 8) (bitsNat x)

/-- Exclusive or of bit strings. -/
def xorBits : List Bool → List Bool → List Bool := List.zipWith xor

/-- Exclusive or of byte strings. -/
def xorBytes : Bytes → Bytes → Bytes := List.zipWith (· ^^^ ·)

/-- The constant R of section 6.3. -/
def R : List Bool := [true, true, true, false, false, false, false, true] ++ List.replicate 120 false

/-- One step of the second component of algorithm 1: V shifted to the right by one bit, plus R if a one was
shifted out. -/
def shift (V : List Bool) : List Bool :=
  let W := false :: V.dropLast
  if V.getLast? = some true then xorBits W R else W

/-- One step of algorithm 1, section 6.3. -/
def mulStep (ZV : List Bool × List Bool) (x : Bool) : List Bool × List Bool :=
  (if x then xorBits ZV.1 ZV.2 else ZV.1, shift ZV.2)

/-- Algorithm 1, section 6.3: the product of two blocks. -/
def mulBits (X Y : List Bool) : List Bool := (X.foldl mulStep (List.replicate 128 false, Y)).1

/-- The product of two blocks of 16 bytes. -/
def mul (X Y : Bytes) : Bytes := unbits (mulBits (bits X) (bits Y))

/-- The blocks of a string whose length is a multiple of 16. -/
def blocks (m : Bytes) : List Bytes := (List.range (m.length / 16)).map fun i => (m.drop (16 * i)).take 16

/-- Algorithm 2, section 6.4: GHASH. -/
def ghash (H X : Bytes) : Bytes := (blocks X).foldl (fun Y B => mul (xorBytes Y B) H) (List.replicate 16 0)

/-- The incrementing function of section 6.2 with s = 32. -/
def inc32 (X : Bytes) : Bytes := X.take 12 ++ beBytes 4 ((beNat (X.drop 12) + 1) % 2 ^ 32)

/-- Applying `inc32` `n` times. -/
def ctrBlock (ICB : Bytes) : Nat → Bytes
  | 0 => ICB
  | n + 1 => inc32 (ctrBlock ICB n)

/-- Algorithm 3, section 6.5: GCTR. The byte `i` is encrypted with byte `i % 16` of the encryption of counter
block `i / 16`. -/
def gctr (ciph : Bytes → Bytes) (ICB X : Bytes) : Bytes :=
  X.mapIdx fun i b => b ^^^ (ciph (ctrBlock ICB (i / 16))).getD (i % 16) 0

/-- The zeros after `x`, steps 4 of algorithms 4 and 5. -/
def pad (x : Bytes) : Bytes := List.replicate ((16 - x.length % 16) % 16) 0

/-- Step 2 of algorithm 4 for a 96-bit IV. -/
def J0 (IV : Bytes) : Bytes := IV ++ [0, 0, 0, 1]

/-- Steps 5 and 6 of algorithm 4 with t = 128: the tag. -/
def tag (ciph : Bytes → Bytes) (IV A C : Bytes) : Bytes :=
  gctr ciph (J0 IV) (ghash (ciph (List.replicate 16 0))
    (A ++ pad A ++ C ++ pad C ++ beBytes 8 (8 * A.length) ++ beBytes 8 (8 * C.length)))

/-- Step 3 of algorithm 4 and step 5 of algorithm 5. -/
def crypt (ciph : Bytes → Bytes) (IV X : Bytes) : Bytes := gctr ciph (inc32 (J0 IV)) X

/-- Algorithm 4: authenticated encryption, the ciphertext and then the tag. -/
def sealBytes (ciph : Bytes → Bytes) (IV A P : Bytes) : Bytes :=
  crypt ciph IV P ++ tag ciph IV A (crypt ciph IV P)

/-- Algorithm 5: authenticated decryption of a ciphertext followed by its tag. -/
def openSealed (ciph : Bytes → Bytes) (IV A M : Bytes) : Option Bytes :=
  if M.length < 16 then none
  else if M.drop (M.length - 16) = tag ciph IV A (M.take (M.length - 16)) then
    some (crypt ciph IV (M.take (M.length - 16)))
  else none

/-- The value of the hash key and of GHASH in test case 2 of the GCM submission. -/
example : ghash
    [0x66, 0xe9, 0x4b, 0xd4, 0xef, 0x8a, 0x2c, 0x3b, 0x88, 0x4c, 0xfa, 0x59, 0xca, 0x34, 0x2b, 0x2e]
    ([0x03, 0x88, 0xda, 0xce, 0x60, 0xb6, 0xa3, 0x92, 0xf3, 0x28, 0xc2, 0xb9, 0x71, 0xb2, 0xfe, 0x78] ++
      List.replicate 15 0 ++ [0x80]) =
    [0xf3, 0x8c, 0xbb, 0x1a, 0xd6, 0x92, 0x23, 0xdc, 0xc3, 0x45, 0x7a, 0xe5, 0xb6, 0xb0, 0xf8, 0x85] := by
  decide +kernel

end Noise.Sp80038D
