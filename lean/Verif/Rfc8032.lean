import Verif.Rfc7748
import Verif.Fips180
/-!
# RFC 8032: Ed25519

A transcription of `https://www.rfc-editor.org/rfc/rfc8032`, section 5.1; independent of the code. The hash function is
an argument; `sha512` is the one of Ed25519.
-/

namespace Noise.Rfc8032

open Rfc7539 (leNat leBytes)
open Rfc7748 (P F)

/-- "H(x): SHA-512(dom2(phflag,context)||x)", where `dom2` is the empty string for Ed25519, table 1. -/
def sha512 : Bytes → Bytes := Fips180.Sha512.hash

/-- "d of edwards25519", table 1: -121665/121666. -/
def d : F := -121665 * 121666⁻¹

/-- "L: order of edwards25519", table 1. -/
def L : Nat := 2 ^ 252 + 27742317777372353535851937790883648493

/-- "B", table 1. -/
def B : F × F := (15112221349535400772501151409588531511454012693041857206046113283949847762202,
  46316835694926478169428394003475163141307993866256225615783033603165251855960)

/-- "-x^2 + y^2 = 1 + d x^2 y^2", section 5.1.4. -/
def OnCurve (p : F × F) : Prop := -p.1 ^ 2 + p.2 ^ 2 = 1 + d * p.1 ^ 2 * p.2 ^ 2

/-- The neutral element, section 5.1.4. -/
def zero : F × F := (0, 1)

/-- Addition, section 3 with `a = -1`. -/
def add (p q : F × F) : F × F :=
  ((p.1 * q.2 + q.1 * p.2) * (1 + d * p.1 * q.1 * p.2 * q.2)⁻¹, (p.2 * q.2 + p.1 * q.1) * (1 - d * p.1 * q.1 * p.2 * q.2)⁻¹)

/-- "[n]X denotes X added to itself n times", section 3. -/
def smul : Nat → F × F → F × F
  | 0, _ => zero
  | n + 1, p => add (smul n p) p

/-- Encoding, section 5.1.2: "encode the y-coordinate as a little-endian string of 32 octets. The most significant bit of
the final octet is always zero. ... copy the least significant bit of the x-coordinate to the most significant bit of the
final octet". -/
def encode (p : F × F) : Bytes := leBytes 32 (p.2.val + 2 ^ 255 * (p.1.val % 2))

/-- The square root of `u/v` in section 5.1.3, steps 2 and 3. -/
def squareRoot (u v : F) : Option F :=
  let x := u * v ^ 3 * (u * v ^ 7) ^ ((P - 5) / 8)
  if v * x ^ 2 = u then some x
  else if v * x ^ 2 = -u then some (x * 2 ^ ((P - 1) / 4))
  else none

/-- Decoding, section 5.1.3, from the number `y` without the sign bit and the sign bit `x0`. -/
def recover (y x0 : Nat) : Option (F × F) :=
  if y ≥ P then none
  else
    (squareRoot ((y : F) ^ 2 - 1) (d * (y : F) ^ 2 + 1)).bind fun x =>
      if x = 0 ∧ x0 = 1 then none
      else if x.val % 2 = x0 then some (x, y)
      else some (-x, y)

/-- Decoding, section 5.1.3: "Bit 255 of this number is the least significant bit of the x-coordinate and denote this
value x_0. The y-coordinate is recovered simply by clearing this bit." -/
def decode (b : Bytes) : Option (F × F) := recover (leNat b % 2 ^ 255) (leNat b / 2 ^ 255 % 2)

/-- The pruned lower half of the hash of the private key as an integer, section 5.1.5, steps 1 to 3. -/
def scalar (H : Bytes → Bytes) (k : Bytes) : Nat :=
  let h := (H k).take 32
  leNat ((h.set 0 (h.getD 0 0 &&& 248)).set 31 ((h.getD 31 0 &&& 127) ||| 64))

/-- Key generation, section 5.1.5. -/
def publicKey (H : Bytes → Bytes) (k : Bytes) : Bytes := encode (smul (scalar H k) B)

/-- Signing, section 5.1.6, with the public key `A` of the signer. -/
def sign (H : Bytes → Bytes) (k A m : Bytes) : Bytes :=
  let r := leNat (H ((H k).drop 32 ++ m))
  let R := encode (smul r B)
  let k' := leNat (H (R ++ A ++ m))
  R ++ leBytes 32 ((r + k' * scalar H k) % L)

/-- Verification, section 5.1.7, with the equation "[S]B = R + [k]A", that it is "sufficient, but not required" to
check. -/
def Verifies (H : Bytes → Bytes) (A m sig : Bytes) : Prop :=
  ∃ R A', decode (sig.take 32) = some R ∧ decode A = some A' ∧ leNat (sig.drop 32) < L ∧
    smul (leNat (sig.drop 32)) B = add R (smul (leNat (H (sig.take 32 ++ A ++ m))) A')

end Noise.Rfc8032
