import Verif.Rfc7539
import Mathlib.Data.ZMod.Basic
/-!
# RFC 7748: the function X25519

A transcription of `https://www.rfc-editor.org/rfc/rfc7748`, section 5, for `bits = 255`; independent of the code.
-/

namespace Noise.Rfc7748

open Rfc7539 (leNat leBytes)

/-- "For X25519, let p = 2^255 - 19", section 4.1. -/
def P : Nat := 2 ^ 255 - 19

/-- "GF(p)", section 4. -/
abbrev F := ZMod P

/-- `decodeUCoordinate`, section 5: "implementations of X25519 ... MUST mask the most significant bit in the final
byte". -/
def decodeUCoordinate (u : Bytes) : F := (leNat (u.set 31 (u.getD 31 0 &&& 0x7F)) : F)

/-- `decodeScalar25519`, section 5. -/
def decodeScalar25519 (k : Bytes) : Nat :=
  leNat ((k.set 0 (k.getD 0 0 &&& 248)).set 31 ((k.getD 31 0 &&& 127) ||| 64))

/-- `encodeUCoordinate`, section 5: "u = u % p", 32 bytes, least significant first. -/
def encodeUCoordinate (u : F) : Bytes := leBytes 32 u.val

/-- `a24`, section 5. -/
def a24 : F := 121665

/-- The variables of the loop in section 5. -/
structure Vars where
  (x2 z2 x3 z3 : F)
  swap : Bool

/-- `cswap`, section 5. -/
def cswap (swap : Bool) (a b : F) : F × F := if swap then (b, a) else (a, b)

/-- The conditional swaps of `x_2` with `x_3` and of `z_2` with `z_3`. -/
def Vars.cswap (v : Vars) (swap : Bool) : Vars :=
  { v with x2 := (Rfc7748.cswap swap v.x2 v.x3).1, x3 := (Rfc7748.cswap swap v.x2 v.x3).2,
           z2 := (Rfc7748.cswap swap v.z2 v.z3).1, z3 := (Rfc7748.cswap swap v.z2 v.z3).2 }

/-- The arithmetic in the body of the loop, section 5. -/
def Vars.arith (x1 : F) (v : Vars) : Vars :=
  let A := v.x2 + v.z2
  let AA := A ^ 2
  let B := v.x2 - v.z2
  let BB := B ^ 2
  let E := AA - BB
  let C := v.x3 + v.z3
  let D := v.x3 - v.z3
  let DA := D * A
  let CB := C * B
  { v with x3 := (DA + CB) ^ 2, z3 := x1 * (DA - CB) ^ 2, x2 := AA * BB, z2 := E * (AA + a24 * E) }

/-- The body of the loop, section 5, for the bit `kt`. -/
def Vars.body (x1 : F) (v : Vars) (kt : Bool) : Vars :=
  let swap := v.swap ^^ kt
  let v := v.cswap swap
  Vars.arith x1 { v with swap := kt }

/-- The loop "For t = bits-1 down to 0", section 5; the argument is the number of remaining rounds. -/
def loop (k : Nat) (x1 : F) : Nat → Vars → Vars
  | 0, v => v
  | t + 1, v => loop k x1 t (v.body x1 (k.testBit t))

/-- The whole procedure, section 5. -/
def ladder (k : Nat) (u : F) : F :=
  let v := loop k u 255 ⟨1, 0, u, 1, false⟩
  let v := v.cswap v.swap
  v.x2 * v.z2 ^ (P - 2)

/-- "X25519", section 5. -/
def x25519 (k u : Bytes) : Bytes := encodeUCoordinate (ladder (decodeScalar25519 k) (decodeUCoordinate u))

end Noise.Rfc7748
