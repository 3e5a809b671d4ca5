import Verif.Basic
/-!
# Model of `src/crypto/donna/curve25519-donna-c64.c`

The variant for 64-bit machines (`src/backend/ref/dh-curve25519.c:126-131`). A value of type `uint128_t` is a
natural number; its operations are computed modulo 2^128 as in C. The arguments of `curve25519_donna` are arrays
of 32 bytes, and every index in the code is a constant or bounded by a constant, so the model is a total function.
-/

namespace Noise.Curve25519

/-- `felem`, `src/crypto/donna/curve25519-donna-c64.c:30`. -/
structure Fe where
  (l0 l1 l2 l3 l4 : UInt64)
  deriving DecidableEq, Repr

/-- Product of two 64-bit numbers in type `uint128_t`. -/
def mul (x y : UInt64) : Nat := x.toNat * y.toNat % 2 ^ 128
/-- Sum in type `uint128_t`. -/
def add (x y : Nat) : Nat := (x + y) % 2 ^ 128
/-- `(limb) (x >> 51)`. -/
def shr51 (x : Nat) : UInt64 := UInt64.ofNat (x / 2 ^ 51)
/-- `((limb) x) & 0x7ffffffffffff`. -/
def low51 (x : Nat) : UInt64 := UInt64.ofNat x &&& 0x7ffffffffffff

/-- `fsum`, `src/crypto/donna/curve25519-donna-c64.c:39-46`: the new value of `output`. -/
def fsum (output input : Fe) : Fe :=
  ⟨output.l0 + input.l0, output.l1 + input.l1, output.l2 + input.l2, output.l3 + input.l3, output.l4 + input.l4⟩

/-- `two54m152`, `src/crypto/donna/curve25519-donna-c64.c:57`. -/
def two54m152 : UInt64 := ((1 : UInt64) <<< 54) - 152
/-- `two54m8`, `src/crypto/donna/curve25519-donna-c64.c:58`. -/
def two54m8 : UInt64 := ((1 : UInt64) <<< 54) - 8

/-- `fdifference_backwards`, `src/crypto/donna/curve25519-donna-c64.c:54-65`: the new value of `out`. -/
def fdifferenceBackwards (out input : Fe) : Fe :=
  ⟨input.l0 + two54m152 - out.l0, input.l1 + two54m8 - out.l1, input.l2 + two54m8 - out.l2,
    input.l3 + two54m8 - out.l3, input.l4 + two54m8 - out.l4⟩

/-- `fscalar_product`, `src/crypto/donna/curve25519-donna-c64.c:68-88`. -/
def fscalarProduct (input : Fe) (scalar : UInt64) : Fe :=
  let a0 := mul input.l0 scalar
  let a1 := add (mul input.l1 scalar) (shr51 a0).toNat
  let a2 := add (mul input.l2 scalar) (shr51 a1).toNat
  let a3 := add (mul input.l3 scalar) (shr51 a2).toNat
  let a4 := add (mul input.l4 scalar) (shr51 a3).toNat
  ⟨low51 a0 + UInt64.ofNat (a4 / 2 ^ 51 * 19 % 2 ^ 128), low51 a1, low51 a2, low51 a3, low51 a4⟩

/-- The carry chain at the end of `fmul` and `fsquare_times`, `src/crypto/donna/curve25519-donna-c64.c:131-138` and
`:172-179`. -/
def reduce (t0 t1 t2 t3 t4 : Nat) : Fe :=
  let r0 := low51 t0
  let t1 := add t1 (shr51 t0).toNat
  let r1 := low51 t1
  let t2 := add t2 (shr51 t1).toNat
  let r2 := low51 t2
  let t3 := add t3 (shr51 t2).toNat
  let r3 := low51 t3
  let t4 := add t4 (shr51 t3).toNat
  let r4 := low51 t4
  let c := shr51 t4
  let r0 := r0 + c * 19
  let c := r0 >>> 51
  let r0 := r0 &&& 0x7ffffffffffff
  let r1 := r1 + c
  let c := r1 >>> 51
  let r1 := r1 &&& 0x7ffffffffffff
  let r2 := r2 + c
  ⟨r0, r1, r2, r3, r4⟩

/-- `fmul`, `src/crypto/donna/curve25519-donna-c64.c:98-145`. -/
def fmul (in2 input : Fe) : Fe :=
  let r0 := input.l0
  let r1 := input.l1
  let r2 := input.l2
  let r3 := input.l3
  let r4 := input.l4
  let s0 := in2.l0
  let s1 := in2.l1
  let s2 := in2.l2
  let s3 := in2.l3
  let s4 := in2.l4
  let t0 := mul r0 s0
  let t1 := add (mul r0 s1) (mul r1 s0)
  let t2 := add (add (mul r0 s2) (mul r2 s0)) (mul r1 s1)
  let t3 := add (add (add (mul r0 s3) (mul r3 s0)) (mul r1 s2)) (mul r2 s1)
  let t4 := add (add (add (add (mul r0 s4) (mul r4 s0)) (mul r3 s1)) (mul r1 s3)) (mul r2 s2)
  let r4 := r4 * 19
  let r1 := r1 * 19
  let r2 := r2 * 19
  let r3 := r3 * 19
  let t0 := add t0 (add (add (add (mul r4 s1) (mul r1 s4)) (mul r2 s3)) (mul r3 s2))
  let t1 := add t1 (add (add (mul r4 s2) (mul r2 s4)) (mul r3 s3))
  let t2 := add t2 (add (mul r4 s3) (mul r3 s4))
  let t3 := add t3 (mul r4 s4)
  reduce t0 t1 t2 t3 t4

/-- One round of `fsquare_times`, `src/crypto/donna/curve25519-donna-c64.c:160-179`. -/
def fsquare (r : Fe) : Fe :=
  let d0 := r.l0 * 2
  let d1 := r.l1 * 2
  let d2 := r.l2 * 2 * 19
  let d419 := r.l4 * 19
  let d4 := d419 * 2
  let t0 := add (add (mul r.l0 r.l0) (mul d4 r.l1)) (mul d2 r.l3)
  let t1 := add (add (mul d0 r.l1) (mul d4 r.l2)) (mul r.l3 (r.l3 * 19))
  let t2 := add (add (mul d0 r.l2) (mul r.l1 r.l1)) (mul d4 r.l3)
  let t3 := add (add (mul d0 r.l3) (mul d1 r.l2)) (mul r.l4 d419)
  let t4 := add (add (mul d0 r.l4) (mul d1 r.l3)) (mul r.l2 r.l2)
  reduce t0 t1 t2 t3 t4

/-- `fsquare_times`, `src/crypto/donna/curve25519-donna-c64.c:147-187`; in all calls `count` is a positive constant. -/
def fsquareTimes (input : Fe) : Nat → Fe
  | 0 => input
  | count + 1 => fsquareTimes (fsquare input) count

/-- `load_limb`, `src/crypto/donna/curve25519-donna-c64.c:190-201`, of the bytes at offset `i`. -/
def loadLimb (p : Bytes) (i : Nat) : UInt64 :=
  (p.getD i 0).toUInt64 ||| (p.getD (i + 1) 0).toUInt64 <<< 8 ||| (p.getD (i + 2) 0).toUInt64 <<< 16 |||
    (p.getD (i + 3) 0).toUInt64 <<< 24 ||| (p.getD (i + 4) 0).toUInt64 <<< 32 |||
    (p.getD (i + 5) 0).toUInt64 <<< 40 ||| (p.getD (i + 6) 0).toUInt64 <<< 48 |||
    (p.getD (i + 7) 0).toUInt64 <<< 56

/-- `store_limb`, `src/crypto/donna/curve25519-donna-c64.c:203-213`: the bytes stored. -/
def storeLimb (v : UInt64) : Bytes :=
  [(v &&& 0xff).toUInt8, ((v >>> 8) &&& 0xff).toUInt8, ((v >>> 16) &&& 0xff).toUInt8, ((v >>> 24) &&& 0xff).toUInt8,
    ((v >>> 32) &&& 0xff).toUInt8, ((v >>> 40) &&& 0xff).toUInt8, ((v >>> 48) &&& 0xff).toUInt8,
    ((v >>> 56) &&& 0xff).toUInt8]

/-- `fexpand`, `src/crypto/donna/curve25519-donna-c64.c:216-223`. -/
def fexpand (input : Bytes) : Fe :=
  ⟨loadLimb input 0 &&& 0x7ffffffffffff, (loadLimb input 6 >>> 3) &&& 0x7ffffffffffff,
    (loadLimb input 12 >>> 6) &&& 0x7ffffffffffff, (loadLimb input 19 >>> 1) &&& 0x7ffffffffffff,
    (loadLimb input 24 >>> 12) &&& 0x7ffffffffffff⟩

/-- The array `t` of `uint128_t` in `fcontract`. -/
structure Wide where
  (t0 t1 t2 t3 t4 : Nat)
  deriving DecidableEq, Repr

/-- The first four lines of a carry chain, e.g. `src/crypto/donna/curve25519-donna-c64.c:238-241`. -/
def carryUp (t : Wide) : Wide :=
  let t1 := add t.t1 (t.t0 / 2 ^ 51)
  let t2 := add t.t2 (t1 / 2 ^ 51)
  let t3 := add t.t3 (t2 / 2 ^ 51)
  let t4 := add t.t4 (t3 / 2 ^ 51)
  ⟨t.t0 &&& 0x7ffffffffffff, t1 &&& 0x7ffffffffffff, t2 &&& 0x7ffffffffffff, t3 &&& 0x7ffffffffffff, t4⟩

/-- A whole carry chain, `src/crypto/donna/curve25519-donna-c64.c:238-242`, `:244-248` and `:255-259`. -/
def carryAround (t : Wide) : Wide :=
  let t := carryUp t
  { t with t0 := add t.t0 (19 * (t.t4 / 2 ^ 51) % 2 ^ 128), t4 := t.t4 &&& 0x7ffffffffffff }

/-- `fcontract`, `src/crypto/donna/curve25519-donna-c64.c:228-281`. -/
def fcontract (input : Fe) : Bytes :=
  let t := carryAround ⟨input.l0.toNat, input.l1.toNat, input.l2.toNat, input.l3.toNat, input.l4.toNat⟩
  let t := carryAround t
  let t := carryAround { t with t0 := add t.t0 19 }
  let t := carryUp ⟨add t.t0 (0x8000000000000 - 19), add t.t1 (0x8000000000000 - 1), add t.t2 (0x8000000000000 - 1),
    add t.t3 (0x8000000000000 - 1), add t.t4 (0x8000000000000 - 1)⟩
  let t := { t with t4 := t.t4 &&& 0x7ffffffffffff }
  storeLimb (UInt64.ofNat (t.t0 ||| (t.t1 <<< 51 % 2 ^ 128))) ++
    storeLimb (UInt64.ofNat ((t.t1 >>> 13) ||| (t.t2 <<< 38 % 2 ^ 128))) ++
    storeLimb (UInt64.ofNat ((t.t2 >>> 26) ||| (t.t3 <<< 25 % 2 ^ 128))) ++
    storeLimb (UInt64.ofNat ((t.t3 >>> 39) ||| (t.t4 <<< 12 % 2 ^ 128)))

/-- A point in projective coordinates: the arrays `nqx` and `nqz`, or `nqpqx` and `nqpqz`. -/
structure Pt where
  (x z : Fe)
  deriving DecidableEq, Repr

/-- `fmonty`, `src/crypto/donna/curve25519-donna-c64.c:292-324`: the new values of `x2`, `z2` and of `x3`, `z3`. What
becomes of the inputs is left out: they are overwritten before they are read again. -/
def fmonty (q q' : Pt) (qmqp : Fe) : Pt × Pt :=
  let origx := q.x
  let x := fsum q.x q.z
  let z := fdifferenceBackwards q.z origx
  let origxprime := q'.x
  let xprime := fsum q'.x q'.z
  let zprime := fdifferenceBackwards q'.z origxprime
  let xxprime := fmul xprime z
  let zzprime := fmul x zprime
  let origxprime := xxprime
  let xxprime := fsum xxprime zzprime
  let zzprime := fdifferenceBackwards zzprime origxprime
  let x3 := fsquareTimes xxprime 1
  let zzzprime := fsquareTimes zzprime 1
  let z3 := fmul zzzprime qmqp
  let xx := fsquareTimes x 1
  let zz := fsquareTimes z 1
  let x2 := fmul xx zz
  let zz := fdifferenceBackwards zz xx
  let zzz := fscalarProduct zz 121665
  let zzz := fsum zzz xx
  let z2 := fmul zz zzz
  (⟨x2, z2⟩, ⟨x3, z3⟩)

/-- One limb in `swap_conditional`, `src/crypto/donna/curve25519-donna-c64.c:339-341`. -/
def swapLimb (iswap a b : UInt64) : UInt64 × UInt64 :=
  let x := (0 - iswap) &&& (a ^^^ b)
  (a ^^^ x, b ^^^ x)

/-- `swap_conditional`, `src/crypto/donna/curve25519-donna-c64.c:333-343`. -/
def swapConditional (a b : Fe) (iswap : UInt64) : Fe × Fe :=
  (⟨(swapLimb iswap a.l0 b.l0).1, (swapLimb iswap a.l1 b.l1).1, (swapLimb iswap a.l2 b.l2).1,
      (swapLimb iswap a.l3 b.l3).1, (swapLimb iswap a.l4 b.l4).1⟩,
    ⟨(swapLimb iswap a.l0 b.l0).2, (swapLimb iswap a.l1 b.l1).2, (swapLimb iswap a.l2 b.l2).2,
      (swapLimb iswap a.l3 b.l3).2, (swapLimb iswap a.l4 b.l4).2⟩)

/-- `swap_conditional` of both coordinates, `src/crypto/donna/curve25519-donna-c64.c:367-368` and `:374-375`. -/
def swapPts (a b : Pt) (iswap : UInt64) : Pt × Pt :=
  (⟨(swapConditional a.x b.x iswap).1, (swapConditional a.z b.z iswap).1⟩,
    ⟨(swapConditional a.x b.x iswap).2, (swapConditional a.z b.z iswap).2⟩)

/-- The body of the inner loop of `cmult`, `src/crypto/donna/curve25519-donna-c64.c:365-390`, for a bit; the exchange of
the pointers means that the results are the inputs of the next round. -/
def cmultBit (q : Fe) (s : Pt × Pt) (bit : UInt64) : Pt × Pt :=
  let s := swapPts s.1 s.2 bit
  let s := fmonty s.1 s.2 q
  swapPts s.1 s.2 bit

/-- The inner loop, `src/crypto/donna/curve25519-donna-c64.c:364-393`; the first argument counts the remaining rounds. -/
def cmultByte (q : Fe) : Nat → UInt8 → Pt × Pt → Pt × Pt
  | 0, _, s => s
  | j + 1, byte, s => cmultByte q j (byte <<< 1) (cmultBit q s (byte >>> 7).toUInt64)

/-- The outer loop, `src/crypto/donna/curve25519-donna-c64.c:362-393`; the bytes that remain are `n[i - 1]` to `n[0]`. -/
def cmultLoop (n : Bytes) (q : Fe) : Nat → Pt × Pt → Pt × Pt
  | 0, s => s
  | i + 1, s => cmultLoop n q i (cmultByte q 8 (n.getD i 0) s)

/-- `cmult`, `src/crypto/donna/curve25519-donna-c64.c:351-397`. -/
def cmult (n : Bytes) (q : Fe) : Pt :=
  (cmultLoop n q 32 (⟨⟨1, 0, 0, 0, 0⟩, ⟨0, 0, 0, 0, 0⟩⟩, ⟨q, ⟨1, 0, 0, 0, 0⟩⟩)).1

/-- `crecip`, `src/crypto/donna/curve25519-donna-c64.c:402-428`. -/
def crecip (z : Fe) : Fe :=
  let a := fsquareTimes z 1
  let t0 := fsquareTimes a 2
  let b := fmul t0 z
  let a := fmul b a
  let t0 := fsquareTimes a 1
  let b := fmul t0 b
  let t0 := fsquareTimes b 5
  let b := fmul t0 b
  let t0 := fsquareTimes b 10
  let c := fmul t0 b
  let t0 := fsquareTimes c 20
  let t0 := fmul t0 c
  let t0 := fsquareTimes t0 10
  let b := fmul t0 b
  let t0 := fsquareTimes b 50
  let c := fmul t0 b
  let t0 := fsquareTimes c 100
  let t0 := fmul t0 c
  let t0 := fsquareTimes t0 50
  let t0 := fmul t0 b
  let t0 := fsquareTimes t0 5
  fmul t0 a

/-- `curve25519_donna`, `src/crypto/donna/curve25519-donna-c64.c:432-449`: the bytes in `mypublic`. -/
def curve25519Donna (secret basepoint : Bytes) : Bytes :=
  let e := secret
  let e := e.set 0 (e.getD 0 0 &&& 248)
  let e := e.set 31 (e.getD 31 0 &&& 127)
  let e := e.set 31 (e.getD 31 0 ||| 64)
  let bp := fexpand basepoint
  let r := cmult e bp
  let zmone := crecip r.z
  let z := fmul r.x zmone
  fcontract z

end Noise.Curve25519
