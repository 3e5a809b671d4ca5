import Verif.Basic
/-!
# FIPS 202: SHA-3 and SHAKE

Strings are lists of bits. Sections are those of FIPS PUB 202 (August 2015). Independent of the code.
-/

namespace Noise.Fips202

/-- A state array: `A x y z`, section 3.1. Coordinates are below 5, 5 and 64. -/
abbrev StateArray := Nat → Nat → Nat → Bool

/-- Section 3.1.2: from a string of 1600 bits. -/
def ofString (s : List Bool) : StateArray := fun x y z => s.getD (64 * (5 * y + x) + z) false

/-- Section 3.1.3: the string of a state array (`Plane(0) ‖ ... ‖ Plane(4)`, each of five lanes). -/
def toString (a : StateArray) : List Bool :=
  (List.range 5).flatMap fun y => (List.range 5).flatMap fun x => (List.range 64).map fun z => a x y z

/-- θ, section 3.2.1. -/
def theta (a : StateArray) : StateArray :=
  let c := fun x z => xor (xor (xor (xor (a x 0 z) (a x 1 z)) (a x 2 z)) (a x 3 z)) (a x 4 z)
  let d := fun x z => xor (c ((x + 4) % 5) z) (c ((x + 1) % 5) ((z + 63) % 64))
  fun x y z => xor (a x y z) (d x z)

/-- The pair `(x, y)` of step 3 of section 3.2.2 in iteration `t`. -/
def rhoPair : Nat → Nat × Nat
  | 0 => (1, 0)
  | t + 1 => let (x, y) := rhoPair t; (y, (2 * x + 3 * y) % 5)

/-- The offset of lane `(x, y)` in section 3.2.2: `(t + 1) (t + 2) / 2` where `(x, y)` is the pair of iteration `t < 24`;
0 for lane `(0, 0)`. -/
def rhoOffset (x y : Nat) : Nat :=
  match (List.range 24).find? fun t => rhoPair t == (x, y) with
  | some t => (t + 1) * (t + 2) / 2 % 64
  | none => 0

/-- ρ, section 3.2.2. -/
def rho (a : StateArray) : StateArray := fun x y z => a x y ((z + 64 - rhoOffset x y) % 64)

/-- π, section 3.2.3. -/
def pi (a : StateArray) : StateArray := fun x y z => a ((x + 3 * y) % 5) x z

/-- χ, section 3.2.4. -/
def chi (a : StateArray) : StateArray :=
  fun x y z => xor (a x y z) (xor (a ((x + 1) % 5) y z) true && a ((x + 2) % 5) y z)

/-- One step of algorithm 5, section 3.2.5 (3.a to 3.f): `R = 0 ‖ R; R[0] ^= R[8]; R[4] ^= R[8]; R[5] ^= R[8];
R[6] ^= R[8]; R = Trunc_8[R]`. -/
def rcStep (r : List Bool) : List Bool :=
  let r := false :: r
  let b := r.getD 8 false
  let r := r.set 0 (xor (r.getD 0 false) b)
  let r := r.set 4 (xor (r.getD 4 false) b)
  let r := r.set 5 (xor (r.getD 5 false) b)
  let r := r.set 6 (xor (r.getD 6 false) b)
  r.take 8

/-- `rc(t)`, algorithm 5, section 3.2.5. -/
def rc (t : Nat) : Bool :=
  if t % 255 = 0 then true
  else ((List.range (t % 255)).foldl (fun r _ => rcStep r) [true, false, false, false, false, false, false, false]).getD 0 false

/-- Bit `z` of the round constant of round `i`: `RC[2^j - 1] = rc(j + 7 i)` for `j ≤ 6`, the others 0. -/
def roundConstant (i z : Nat) : Bool :=
  (List.range 7).any fun j => z == 2 ^ j - 1 && rc (j + 7 * i)

/-- ι, section 3.2.5. -/
def iota (i : Nat) (a : StateArray) : StateArray :=
  fun x y z => if x = 0 ∧ y = 0 then xor (a 0 0 z) (roundConstant i z) else a x y z

/-- `Rnd(A, i)`, section 3.3. -/
def rnd (a : StateArray) (i : Nat) : StateArray := iota i (chi (pi (rho (theta a))))

/-- `KECCAK-f[1600]`, section 3.4. -/
def keccakF (s : List Bool) : List Bool := toString ((List.range 24).foldl rnd (ofString s))

/-- `pad10*1(x, m)`, section 5.1. -/
def pad101 (x m : Nat) : List Bool := true :: List.replicate ((x - (m + 2) % x) % x) false ++ [true]

/-- Steps 1 and 4 to 6 of the sponge construction, section 4: `p` is cut into strings of `r` bits. -/
def absorb (r : Nat) : (n : Nat) → (s p : List Bool) → List Bool
  | 0, s, _ => s
  | n + 1, s, p => absorb r n (keccakF (List.zipWith xor s (p.take r ++ List.replicate (1600 - r) false))) (p.drop r)

/-- Steps 7 to 10 for `n` pieces of output. -/
def squeeze (r : Nat) : (n : Nat) → (s : List Bool) → List Bool
  | 0, _ => []
  | n + 1, s => s.take r ++ squeeze r n (keccakF s)

/-- `SPONGE[KECCAK-f[1600], pad10*1, r](N, d)`, algorithm 8 of section 4. -/
def sponge (r : Nat) (N : List Bool) (d : Nat) : List Bool :=
  let p := N ++ pad101 r N.length
  (squeeze r ((d + r - 1) / r) (absorb r (p.length / r) (List.replicate 1600 false) p)).take d

/-- `KECCAK[c](N, d)`, section 5.2. -/
def keccak (c : Nat) (N : List Bool) (d : Nat) : List Bool := sponge (1600 - c) N d

/-- `SHA3-256(M)`, section 6.1. -/
def sha3_256 (M : List Bool) : List Bool := keccak 512 (M ++ [false, true]) 256

/-- `SHAKE128(M, d)`, section 6.2. -/
def shake128 (M : List Bool) (d : Nat) : List Bool := keccak 256 (M ++ [true, true, true, true]) d

/-- Appendix B.1: the bits of a string of bytes, least significant bit first. -/
def bits (m : Bytes) : List Bool := m.flatMap fun b => (List.range 8).map fun i => b.toNat.testBit i

end Noise.Fips202
