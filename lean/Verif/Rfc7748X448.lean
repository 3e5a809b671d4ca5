import Verif.Rfc7539
import Mathlib.Data.ZMod.Basic
/-!
# RFC 7748: the function X448

A transcription of `https://www.rfc-editor.org/rfc/rfc7748`, section 5, for `bits = 448`; independent of the code. The
procedure is stated for any commutative ring, any `a24` and any number of bits.
-/

namespace Noise.Ladder

variable {F : Type*} [CommRing F]

/-- The variables of the loop in section 5. -/
structure Vars (F : Type*) where
  (x2 z2 x3 z3 : F)
  swap : Bool

/-- `cswap`, section 5. -/
def cswap (swap : Bool) (a b : F) : F × F := if swap then (b, a) else (a, b)

/-- The conditional swaps of `x_2` with `x_3` and of `z_2` with `z_3`. -/
def Vars.cswap (v : Vars F) (swap : Bool) : Vars F :=
  { v with x2 := (Ladder.cswap swap v.x2 v.x3).1, x3 := (Ladder.cswap swap v.x2 v.x3).2,
           z2 := (Ladder.cswap swap v.z2 v.z3).1, z3 := (Ladder.cswap swap v.z2 v.z3).2 }

/-- The arithmetic in the body of the loop, section 5. -/
def Vars.arith (a24 x1 : F) (v : Vars F) : Vars F :=
  let A := v.x2 + v.z2
  let AA := A ^ 2
  let B := v.x2 - v.z2
  let BB := B ^ 2
  let E := AA - BB
  let C := v.x3 + v.z3
  let D := v.x3 - v.z3
  let DA := D * A
  let CB := C * B
  { v with x3 := (DA + CB) ^ 2, z3 := x1 * (DA - CB) ^ 2, x2 := AA * BB, z2 := E * (AA + a24 * E) }

/-- The body of the loop, section 5, for the bit `kt`. -/
def Vars.body (a24 x1 : F) (v : Vars F) (kt : Bool) : Vars F :=
  let swap := v.swap ^^ kt
  let v := v.cswap swap
  Vars.arith a24 x1 { v with swap := kt }

/-- The loop "For t = bits-1 down to 0", section 5; the argument is the number of remaining rounds. -/
def loop (a24 : F) (k : Nat) (x1 : F) : Nat → Vars F → Vars F
  | 0, v => v
  | t + 1, v => loop a24 k x1 t (v.body a24 x1 (k.testBit t))

/-- The whole procedure, section 5. -/
def ladder (a24 : F) (p bits k : Nat) (u : F) : F :=
  let v := loop a24 k u bits ⟨1, 0, u, 1, false⟩
  let v := v.cswap v.swap
  v.x2 * v.z2 ^ (p - 2)

end Noise.Ladder

namespace Noise.X448

set_option exponentiation.threshold 500

open Rfc7539 (leNat leBytes)

/-- "p 2^448 - 2^224 - 1", section 4.2. -/
@[irreducible] def P : Nat := 2 ^ 448 - 2 ^ 224 - 1

/-- "GF(p)", section 4. -/
abbrev F := ZMod P

/-- `decodeUCoordinate`, section 5, for `bits = 448`. -/
def decodeUCoordinate (u : Bytes) : F := (leNat u : F)

/-- `decodeScalar448`, section 5. -/
def decodeScalar448 (k : Bytes) : Nat := leNat ((k.set 0 (k.getD 0 0 &&& 252)).set 55 (k.getD 55 0 ||| 128))

/-- `encodeUCoordinate`, section 5: "u = u % p", 56 bytes, least significant first. -/
def encodeUCoordinate (u : F) : Bytes := leBytes 56 u.val

/-- `a24`, section 5. -/
def a24 : F := 39081

/-- "X448", section 5. -/
def x448 (k u : Bytes) : Bytes :=
  encodeUCoordinate (Ladder.ladder a24 P 448 (decodeScalar448 k) (decodeUCoordinate u))

end Noise.X448
