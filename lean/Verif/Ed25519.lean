import Verif.Ed25519Tables
import Verif.Sha512
/-!
# Model of `src/crypto/ed25519`

The variant for 64-bit machines with `unsigned __int128` (`src/crypto/ed25519/ed25519-donna.h:16-17`), without the
optional inline assembly of `ed25519-donna-64bit-x86.h` (lines 31-41) and without SSE2. A value of type `uint128_t` is a
natural number; its operations are computed modulo 2^128 as in C. Every index in the code is bounded by a constant, so
most functions are total.
-/

namespace Noise.Ed25519

open Curve25519 (Fe mul add low51 shr51 loadLimb storeLimb)

/-! ## The field, `curve25519-donna-64bit.h` -/

/-- `curve25519_add`, `src/crypto/ed25519/curve25519-donna-64bit.h:26-33`. -/
def fadd (a b : Fe) : Fe := ⟨a.l0 + b.l0, a.l1 + b.l1, a.l2 + b.l2, a.l3 + b.l3, a.l4 + b.l4⟩

/-- `curve25519_add_after_basic`, `src/crypto/ed25519/curve25519-donna-64bit.h:36-43`. -/
def faddAfterBasic (a b : Fe) : Fe := ⟨a.l0 + b.l0, a.l1 + b.l1, a.l2 + b.l2, a.l3 + b.l3, a.l4 + b.l4⟩

/-- The carries in `curve25519_add_reduce`, `curve25519_sub_reduce` and `curve25519_neg`,
`src/crypto/ed25519/curve25519-donna-64bit.h:48-53`, `:85-90` and `:97-102`, for the given sums. -/
def carryReduce (s : Fe) : Fe :=
  let o0 := s.l0
  let c := o0 >>> 51
  let o0 := o0 &&& 0x7ffffffffffff
  let o1 := s.l1 + c
  let c := o1 >>> 51
  let o1 := o1 &&& 0x7ffffffffffff
  let o2 := s.l2 + c
  let c := o2 >>> 51
  let o2 := o2 &&& 0x7ffffffffffff
  let o3 := s.l3 + c
  let c := o3 >>> 51
  let o3 := o3 &&& 0x7ffffffffffff
  let o4 := s.l4 + c
  let c := o4 >>> 51
  let o4 := o4 &&& 0x7ffffffffffff
  ⟨o0 + c * 19, o1, o2, o3, o4⟩

/-- `curve25519_add_reduce`, `src/crypto/ed25519/curve25519-donna-64bit.h:45-54`. -/
def faddReduce (a b : Fe) : Fe := carryReduce ⟨a.l0 + b.l0, a.l1 + b.l1, a.l2 + b.l2, a.l3 + b.l3, a.l4 + b.l4⟩

/-- `twoP0`, `src/crypto/ed25519/curve25519-donna-64bit.h:57`. -/
def twoP0 : UInt64 := 0x0fffffffffffda
/-- `twoP1234`, `src/crypto/ed25519/curve25519-donna-64bit.h:58`. -/
def twoP1234 : UInt64 := 0x0ffffffffffffe
/-- `fourP0`, `src/crypto/ed25519/curve25519-donna-64bit.h:59`. -/
def fourP0 : UInt64 := 0x1fffffffffffb4
/-- `fourP1234`, `src/crypto/ed25519/curve25519-donna-64bit.h:60`. -/
def fourP1234 : UInt64 := 0x1ffffffffffffc

/-- `curve25519_sub`, `src/crypto/ed25519/curve25519-donna-64bit.h:63-70`. -/
def fsub (a b : Fe) : Fe :=
  ⟨a.l0 + twoP0 - b.l0, a.l1 + twoP1234 - b.l1, a.l2 + twoP1234 - b.l2, a.l3 + twoP1234 - b.l3, a.l4 + twoP1234 - b.l4⟩

/-- `curve25519_sub_after_basic`, `src/crypto/ed25519/curve25519-donna-64bit.h:73-80`. -/
def fsubAfterBasic (a b : Fe) : Fe :=
  ⟨a.l0 + fourP0 - b.l0, a.l1 + fourP1234 - b.l1, a.l2 + fourP1234 - b.l2, a.l3 + fourP1234 - b.l3,
    a.l4 + fourP1234 - b.l4⟩

/-- `curve25519_sub_reduce`, `src/crypto/ed25519/curve25519-donna-64bit.h:82-91`. -/
def fsubReduce (a b : Fe) : Fe :=
  carryReduce ⟨a.l0 + fourP0 - b.l0, a.l1 + fourP1234 - b.l1, a.l2 + fourP1234 - b.l2, a.l3 + fourP1234 - b.l3,
    a.l4 + fourP1234 - b.l4⟩

/-- `curve25519_neg`, `src/crypto/ed25519/curve25519-donna-64bit.h:94-103`. -/
def fneg (a : Fe) : Fe :=
  carryReduce ⟨twoP0 - a.l0, twoP1234 - a.l1, twoP1234 - a.l2, twoP1234 - a.l3, twoP1234 - a.l4⟩

/-- The end of `curve25519_mul` and of `curve25519_square`, `src/crypto/ed25519/curve25519-donna-64bit.h:158-164` and
`:271-277`. -/
def reduce (t0 t1 t2 t3 t4 : Nat) : Fe :=
  let r0 := low51 t0
  let t1 := add t1 (shr51 t0).toNat
  let r1 := low51 t1
  let t2 := add t2 (shr51 t1).toNat
  let r2 := low51 t2
  let t3 := add t3 (shr51 t2).toNat
  let r3 := low51 t3
  let t4 := add t4 (shr51 t3).toNat
  let r4 := low51 t4
  let c := shr51 t4
  let r0 := r0 + c * 19
  let c := r0 >>> 51
  let r0 := r0 &&& 0x7ffffffffffff
  let r1 := r1 + c
  ⟨r0, r1, r2, r3, r4⟩

/-- `curve25519_mul`, `src/crypto/ed25519/curve25519-donna-64bit.h:106-171`. -/
def fmul (in2 input : Fe) : Fe :=
  let r0 := input.l0
  let r1 := input.l1
  let r2 := input.l2
  let r3 := input.l3
  let r4 := input.l4
  let s0 := in2.l0
  let s1 := in2.l1
  let s2 := in2.l2
  let s3 := in2.l3
  let s4 := in2.l4
  let t0 := mul r0 s0
  let t1 := add (mul r0 s1) (mul r1 s0)
  let t2 := add (add (mul r0 s2) (mul r2 s0)) (mul r1 s1)
  let t3 := add (add (add (mul r0 s3) (mul r3 s0)) (mul r1 s2)) (mul r2 s1)
  let t4 := add (add (add (add (mul r0 s4) (mul r4 s0)) (mul r3 s1)) (mul r1 s3)) (mul r2 s2)
  let r1 := r1 * 19
  let r2 := r2 * 19
  let r3 := r3 * 19
  let r4 := r4 * 19
  let t0 := add t0 (add (add (add (mul r4 s1) (mul r1 s4)) (mul r2 s3)) (mul r3 s2))
  let t1 := add t1 (add (add (mul r4 s2) (mul r2 s4)) (mul r3 s3))
  let t2 := add t2 (add (mul r4 s3) (mul r3 s4))
  let t3 := add t3 (mul r4 s4)
  reduce t0 t1 t2 t3 t4

/-- The numbers `t` in `curve25519_square_times` and `curve25519_square`,
`src/crypto/ed25519/curve25519-donna-64bit.h:195-206` and `:251-262`. -/
def squareColumns (r : Fe) : Curve25519.Wide :=
  let d0 := r.l0 * 2
  let d1 := r.l1 * 2
  let d2 := r.l2 * 2 * 19
  let d419 := r.l4 * 19
  let d4 := d419 * 2
  ⟨add (add (mul r.l0 r.l0) (mul d4 r.l1)) (mul d2 r.l3),
    add (add (mul d0 r.l1) (mul d4 r.l2)) (mul r.l3 (r.l3 * 19)),
    add (add (mul d0 r.l2) (mul r.l1 r.l1)) (mul d4 r.l3),
    add (add (mul d0 r.l3) (mul d1 r.l2)) (mul r.l4 d419),
    add (add (mul d0 r.l4) (mul d1 r.l3)) (mul r.l2 r.l2)⟩

/-- `shl128(c, t, 13)`, `src/crypto/ed25519/ed25519-donna-portable.h:79`. -/
def shl13 (t : Nat) : UInt64 := UInt64.ofNat (t * 2 ^ 13 % 2 ^ 128 / 2 ^ 64)

/-- The body of the loop in `curve25519_square_times`, `src/crypto/ed25519/curve25519-donna-64bit.h:195-226`. -/
def squareRound (r : Fe) : Fe :=
  let t := squareColumns r
  let r0 := low51 t.t0
  let r1 := low51 t.t1 + shl13 t.t0
  let r2 := low51 t.t2 + shl13 t.t1
  let r3 := low51 t.t3 + shl13 t.t2
  let r4 := low51 t.t4 + shl13 t.t3
  let r0 := r0 + shl13 t.t4 * 19
  let c := r0 >>> 51
  let r0 := r0 &&& 0x7ffffffffffff
  let r1 := r1 + c
  let c := r1 >>> 51
  let r1 := r1 &&& 0x7ffffffffffff
  let r2 := r2 + c
  let c := r2 >>> 51
  let r2 := r2 &&& 0x7ffffffffffff
  let r3 := r3 + c
  let c := r3 >>> 51
  let r3 := r3 &&& 0x7ffffffffffff
  let r4 := r4 + c
  let c := r4 >>> 51
  let r4 := r4 &&& 0x7ffffffffffff
  ⟨r0 + c * 19, r1, r2, r3, r4⟩

/-- `curve25519_square_times`, `src/crypto/ed25519/curve25519-donna-64bit.h:179-234`; in all calls `count` is a positive
constant. -/
def squareTimes (r : Fe) : Nat → Fe
  | 0 => r
  | count + 1 => squareTimes (squareRound r) count

/-- `curve25519_square`, `src/crypto/ed25519/curve25519-donna-64bit.h:236-284`. -/
def fsquare (r : Fe) : Fe :=
  let t := squareColumns r
  reduce t.t0 t.t1 t.t2 t.t3 t.t4

/-- `curve25519_expand`, `src/crypto/ed25519/curve25519-donna-64bit.h:314-318`, for the four words of the input. -/
def expandWords (x0 x1 x2 x3 : UInt64) : Fe :=
  ⟨x0 &&& 0x7ffffffffffff, ((x0 >>> 51) ||| (x1 <<< 13)) &&& 0x7ffffffffffff,
    ((x1 >>> 38) ||| (x2 <<< 26)) &&& 0x7ffffffffffff, ((x2 >>> 25) ||| (x3 <<< 39)) &&& 0x7ffffffffffff,
    (x3 >>> 12) &&& 0x7ffffffffffff⟩

/-- `curve25519_expand`, `src/crypto/ed25519/curve25519-donna-64bit.h:287-319`. -/
def expand (input : Bytes) : Fe :=
  expandWords (loadLimb input 0) (loadLimb input 8) (loadLimb input 16) (loadLimb input 24)

/-- `curve25519_contract_carry`, `src/crypto/ed25519/curve25519-donna-64bit.h:335-339`. -/
def contractCarry (t : Fe) : Fe :=
  let t1 := t.l1 + (t.l0 >>> 51)
  let t2 := t.l2 + (t1 >>> 51)
  let t3 := t.l3 + (t2 >>> 51)
  let t4 := t.l4 + (t3 >>> 51)
  ⟨t.l0 &&& 0x7ffffffffffff, t1 &&& 0x7ffffffffffff, t2 &&& 0x7ffffffffffff, t3 &&& 0x7ffffffffffff, t4⟩

/-- `curve25519_contract_carry_full`, `src/crypto/ed25519/curve25519-donna-64bit.h:341-342`. -/
def contractCarryFull (t : Fe) : Fe :=
  let t := contractCarry t
  ⟨t.l0 + (19 : UInt64) * (t.l4 >>> 51), t.l1, t.l2, t.l3, t.l4 &&& 0x7ffffffffffff⟩

/-- `curve25519_contract_carry_final`, `src/crypto/ed25519/curve25519-donna-64bit.h:344-345`. -/
def contractCarryFinal (t : Fe) : Fe :=
  let t := contractCarry t
  ⟨t.l0, t.l1, t.l2, t.l3, t.l4 &&& 0x7ffffffffffff⟩

/-- The digits that `curve25519_contract` writes, `src/crypto/ed25519/curve25519-donna-64bit.h:347-363`. -/
def contractDigits (input : Fe) : Fe :=
  let t := contractCarryFull input
  let t := contractCarryFull t
  let t := contractCarryFull ⟨t.l0 + 19, t.l1, t.l2, t.l3, t.l4⟩
  contractCarryFinal ⟨t.l0 + (0x8000000000000 - 19), t.l1 + (0x8000000000000 - 1), t.l2 + (0x8000000000000 - 1),
    t.l3 + (0x8000000000000 - 1), t.l4 + (0x8000000000000 - 1)⟩

/-- `curve25519_contract`, `src/crypto/ed25519/curve25519-donna-64bit.h:324-373`. -/
def contract (input : Fe) : Bytes :=
  let t := contractDigits input
  storeLimb (t.l0 ||| (t.l1 <<< 51)) ++ storeLimb ((t.l1 >>> 13) ||| (t.l2 <<< 38)) ++
    storeLimb ((t.l2 >>> 26) ||| (t.l3 <<< 25)) ++ storeLimb ((t.l3 >>> 39) ||| (t.l4 <<< 12))

/-- `curve25519_move_conditional_bytes`, `src/crypto/ed25519/curve25519-donna-64bit.h:378-395`; the arrays of 96 bytes
are given as the 12 words as which they are accessed. -/
def moveConditional (out input : List UInt64) (flag : UInt64) : List UInt64 :=
  let nb := flag - 1
  let b := ~~~nb
  List.zipWith (fun o i => (o &&& nb) ||| (i &&& b)) out input

/-- `curve25519_swap_conditional`, `src/crypto/ed25519/curve25519-donna-64bit.h:398-408`: the new values of `a` and `b`. -/
def swapConditional (a b : Fe) (iswap : UInt64) : Fe × Fe := Curve25519.swapConditional a b iswap

/-! ## `curve25519-donna-helpers.h` -/

/-- `curve25519_pow_two5mtwo0_two250mtwo0`, `src/crypto/ed25519/curve25519-donna-helpers.h:12-31`. -/
def powTwo250 (b : Fe) : Fe :=
  let t0 := squareTimes b 5
  let b := fmul t0 b
  let t0 := squareTimes b 10
  let c := fmul t0 b
  let t0 := squareTimes c 20
  let t0 := fmul t0 c
  let t0 := squareTimes t0 10
  let b := fmul t0 b
  let t0 := squareTimes b 50
  let c := fmul t0 b
  let t0 := squareTimes c 100
  let t0 := fmul t0 c
  let t0 := squareTimes t0 50
  fmul t0 b

/-- `curve25519_recip`, `src/crypto/ed25519/curve25519-donna-helpers.h:36-49`. -/
def recip (z : Fe) : Fe :=
  let a := squareTimes z 1
  let t0 := squareTimes a 2
  let b := fmul t0 z
  let a := fmul b a
  let t0 := squareTimes a 1
  let b := fmul t0 b
  let b := powTwo250 b
  let b := squareTimes b 5
  fmul b a

/-- `curve25519_pow_two252m3`, `src/crypto/ed25519/curve25519-donna-helpers.h:54-67`. -/
def powTwo252m3 (z : Fe) : Fe :=
  let c := squareTimes z 1
  let t0 := squareTimes c 2
  let b := fmul t0 z
  let c := fmul b c
  let t0 := squareTimes c 1
  let b := fmul t0 b
  let b := powTwo250 b
  let b := squareTimes b 2
  fmul b z

/-! ## Numbers modulo the order, `modm-donna-64bit.h` -/

/-- `bignum256modm`, `src/crypto/ed25519/modm-donna-64bit.h:19`. -/
structure Modm where
  (l0 l1 l2 l3 l4 : UInt64)
  deriving DecidableEq, Repr

/-- `modm_m`, `src/crypto/ed25519/modm-donna-64bit.h:21-27`. -/
def modmM : Modm := ⟨0x12631a5cf5d3ed, 0xf9dea2f79cd658, 0x000000000014de, 0x00000000000000, 0x00000010000000⟩

/-- `modm_mu`, `src/crypto/ed25519/modm-donna-64bit.h:29-35`. -/
def modmMu : Modm := ⟨0x9ce5a30a2c131b, 0x215d086329a7ed, 0xffffffffeb2106, 0xffffffffffffff, 0x00000fffffffff⟩

/-- `lt_modm`, `src/crypto/ed25519/modm-donna-64bit.h:37-40`. -/
def ltModm (a b : UInt64) : UInt64 := (a - b) >>> 63

/-- The subtraction with borrow in `reduce256_modm` and `barrett_reduce256_modm`,
`src/crypto/ed25519/modm-donna-64bit.h:48-53` and `:98-103`: the digits and the last borrow; `top` is the shift in the
last line. -/
def subModm (r m : Modm) (top : UInt64) : Modm × UInt64 :=
  let pb := m.l0
  let b := ltModm r.l0 pb
  let t0 := r.l0 - pb + (b <<< 56)
  let pb := b + m.l1
  let b := ltModm r.l1 pb
  let t1 := r.l1 - pb + (b <<< 56)
  let pb := b + m.l2
  let b := ltModm r.l2 pb
  let t2 := r.l2 - pb + (b <<< 56)
  let pb := b + m.l3
  let b := ltModm r.l3 pb
  let t3 := r.l3 - pb + (b <<< 56)
  let pb := b + m.l4
  let b := ltModm r.l4 pb
  let t4 := r.l4 - pb + (b <<< top)
  (⟨t0, t1, t2, t3, t4⟩, b)

/-- `reduce256_modm`, `src/crypto/ed25519/modm-donna-64bit.h:42-63`. -/
def reduce256 (r : Modm) : Modm :=
  let (t, b) := subModm r modmM 32
  let mask := b - 1
  ⟨r.l0 ^^^ (mask &&& (r.l0 ^^^ t.l0)), r.l1 ^^^ (mask &&& (r.l1 ^^^ t.l1)), r.l2 ^^^ (mask &&& (r.l2 ^^^ t.l2)),
    r.l3 ^^^ (mask &&& (r.l3 ^^^ t.l3)), r.l4 ^^^ (mask &&& (r.l4 ^^^ t.l4))⟩

/-- `lo128`. -/
def lo (c : Nat) : UInt64 := UInt64.ofNat c
/-- `shr128(f, c, 56)`. -/
def shr56 (c : Nat) : UInt64 := UInt64.ofNat (c / 2 ^ 56)

/-- The computation of `q3`, `src/crypto/ed25519/modm-donna-64bit.h:74-85`. -/
def barrettQ (q1 : Modm) : Modm :=
  let mu := modmMu
  let c := add (add (add (mul mu.l0 q1.l3) (mul mu.l3 q1.l0)) (mul mu.l1 q1.l2)) (mul mu.l2 q1.l1)
  let f := shr56 c
  let c := add (add (add (add (add (mul mu.l0 q1.l4) f.toNat) (mul mu.l4 q1.l0)) (mul mu.l3 q1.l1)) (mul mu.l1 q1.l3))
    (mul mu.l2 q1.l2)
  let f := lo c
  let q0 := (f >>> 40) &&& 0xffff
  let f := shr56 c
  let c := add (add (add (add (mul mu.l4 q1.l1) f.toNat) (mul mu.l1 q1.l4)) (mul mu.l2 q1.l3)) (mul mu.l3 q1.l2)
  let f := lo c
  let q0 := q0 ||| ((f <<< 16) &&& 0xffffffffffffff)
  let q1' := (f >>> 40) &&& 0xffff
  let f := shr56 c
  let c := add (add (add (mul mu.l4 q1.l2) f.toNat) (mul mu.l2 q1.l4)) (mul mu.l3 q1.l3)
  let f := lo c
  let q1' := q1' ||| ((f <<< 16) &&& 0xffffffffffffff)
  let q2 := (f >>> 40) &&& 0xffff
  let f := shr56 c
  let c := add (add (mul mu.l4 q1.l3) f.toNat) (mul mu.l3 q1.l4)
  let f := lo c
  let q2 := q2 ||| ((f <<< 16) &&& 0xffffffffffffff)
  let q3 := (f >>> 40) &&& 0xffff
  let f := shr56 c
  let c := add (mul mu.l4 q1.l4) f.toNat
  let f := lo c
  let q3 := q3 ||| ((f <<< 16) &&& 0xffffffffffffff)
  let q4 := (f >>> 40) &&& 0xffff
  let f := shr56 c
  ⟨q0, q1', q2, q3, q4 ||| (f <<< 16)⟩

/-- The computation of `r2`, `src/crypto/ed25519/modm-donna-64bit.h:87-96`. -/
def barrettR (q3 : Modm) : Modm :=
  let m := modmM
  let c := mul m.l0 q3.l0
  let r0 := lo c &&& 0xffffffffffffff
  let f := shr56 c
  let c := add (add (mul m.l0 q3.l1) f.toNat) (mul m.l1 q3.l0)
  let r1 := lo c &&& 0xffffffffffffff
  let f := shr56 c
  let c := add (add (add (mul m.l0 q3.l2) f.toNat) (mul m.l2 q3.l0)) (mul m.l1 q3.l1)
  let r2 := lo c &&& 0xffffffffffffff
  let f := shr56 c
  let c := add (add (add (add (mul m.l0 q3.l3) f.toNat) (mul m.l3 q3.l0)) (mul m.l1 q3.l2)) (mul m.l2 q3.l1)
  let r3 := lo c &&& 0xffffffffffffff
  let f := shr56 c
  let c := add (add (add (add (add (mul m.l0 q3.l4) f.toNat) (mul m.l4 q3.l0)) (mul m.l3 q3.l1)) (mul m.l1 q3.l3))
    (mul m.l2 q3.l2)
  ⟨r0, r1, r2, r3, lo c &&& 0x0000ffffffffff⟩

/-- `barrett_reduce256_modm`, `src/crypto/ed25519/modm-donna-64bit.h:65-107`. -/
def barrettReduce (q1 r1 : Modm) : Modm :=
  reduce256 (reduce256 (subModm r1 (barrettR (barrettQ q1)) 40).1)

/-- `add256_modm`, `src/crypto/ed25519/modm-donna-64bit.h:110-121`. -/
def add256 (x y : Modm) : Modm :=
  let c := x.l0 + y.l0
  let r0 := c &&& 0xffffffffffffff
  let c := (c >>> 56) + (x.l1 + y.l1)
  let r1 := c &&& 0xffffffffffffff
  let c := (c >>> 56) + (x.l2 + y.l2)
  let r2 := c &&& 0xffffffffffffff
  let c := (c >>> 56) + (x.l3 + y.l3)
  let r3 := c &&& 0xffffffffffffff
  let c := (c >>> 56) + (x.l4 + y.l4)
  reduce256 ⟨r0, r1, r2, r3, c⟩

/-- `mul256_modm`, `src/crypto/ed25519/modm-donna-64bit.h:123-147`: the arguments `q1` and `r1` of the last call. -/
def mul256Split (x y : Modm) : Modm × Modm :=
  let c := mul x.l0 y.l0
  let r0 := lo c &&& 0xffffffffffffff
  let f := shr56 c
  let c := add (add (mul x.l0 y.l1) f.toNat) (mul x.l1 y.l0)
  let r1 := lo c &&& 0xffffffffffffff
  let f := shr56 c
  let c := add (add (add (mul x.l0 y.l2) f.toNat) (mul x.l2 y.l0)) (mul x.l1 y.l1)
  let r2 := lo c &&& 0xffffffffffffff
  let f := shr56 c
  let c := add (add (add (add (mul x.l0 y.l3) f.toNat) (mul x.l3 y.l0)) (mul x.l1 y.l2)) (mul x.l2 y.l1)
  let r3 := lo c &&& 0xffffffffffffff
  let f := shr56 c
  let c := add (add (add (add (add (mul x.l0 y.l4) f.toNat) (mul x.l4 y.l0)) (mul x.l3 y.l1)) (mul x.l1 y.l3))
    (mul x.l2 y.l2)
  let f := lo c
  let r4 := f &&& 0x0000ffffffffff
  let q0 := (f >>> 24) &&& 0xffffffff
  let f := shr56 c
  let c := add (add (add (add (mul x.l4 y.l1) f.toNat) (mul x.l1 y.l4)) (mul x.l2 y.l3)) (mul x.l3 y.l2)
  let f := lo c
  let q0 := q0 ||| ((f <<< 32) &&& 0xffffffffffffff)
  let q1 := (f >>> 24) &&& 0xffffffff
  let f := shr56 c
  let c := add (add (add (mul x.l4 y.l2) f.toNat) (mul x.l2 y.l4)) (mul x.l3 y.l3)
  let f := lo c
  let q1 := q1 ||| ((f <<< 32) &&& 0xffffffffffffff)
  let q2 := (f >>> 24) &&& 0xffffffff
  let f := shr56 c
  let c := add (add (mul x.l4 y.l3) f.toNat) (mul x.l3 y.l4)
  let f := lo c
  let q2 := q2 ||| ((f <<< 32) &&& 0xffffffffffffff)
  let q3 := (f >>> 24) &&& 0xffffffff
  let f := shr56 c
  let c := add (mul x.l4 y.l4) f.toNat
  let f := lo c
  let q3 := q3 ||| ((f <<< 32) &&& 0xffffffffffffff)
  let q4 := (f >>> 24) &&& 0xffffffff
  let f := shr56 c
  (⟨q0, q1, q2, q3, q4 ||| (f <<< 32)⟩, ⟨r0, r1, r2, r3, r4⟩)

/-- `mul256_modm`, `src/crypto/ed25519/modm-donna-64bit.h:123-150`. -/
def mul256 (x y : Modm) : Modm :=
  let (q1, r1) := mul256Split x y
  barrettReduce q1 r1

/-- The word at index `i` of an array, `U8TO64_LE(in + 8 * i)`. -/
def word (input : Bytes) (i : Nat) : UInt64 := loadLimb input (8 * i)

/-- `expand256_modm`, `src/crypto/ed25519/modm-donna-64bit.h:152-187`, for at least 32 bytes, as in all calls; `work` is
the input filled up with zeros to 64 bytes. -/
def expand256 (input : Bytes) : Modm :=
  let work := input ++ List.replicate (64 - input.length) 0
  let x := word work
  let out : Modm := ⟨x 0 &&& 0xffffffffffffff, ((x 0 >>> 56) ||| (x 1 <<< 8)) &&& 0xffffffffffffff,
    ((x 1 >>> 48) ||| (x 2 <<< 16)) &&& 0xffffffffffffff, ((x 2 >>> 40) ||| (x 3 <<< 24)) &&& 0xffffffffffffff,
    ((x 3 >>> 32) ||| (x 4 <<< 32)) &&& 0x0000ffffffffff⟩
  let q1 : Modm := ⟨((x 3 >>> 56) ||| (x 4 <<< 8)) &&& 0xffffffffffffff,
    ((x 4 >>> 48) ||| (x 5 <<< 16)) &&& 0xffffffffffffff, ((x 5 >>> 40) ||| (x 6 <<< 24)) &&& 0xffffffffffffff,
    ((x 6 >>> 32) ||| (x 7 <<< 32)) &&& 0xffffffffffffff, x 7 >>> 24⟩
  barrettReduce q1 out

/-- `expand_raw256_modm`, `src/crypto/ed25519/modm-donna-64bit.h:189-203`. -/
def expandRaw256 (input : Bytes) : Modm :=
  let x := word input
  ⟨x 0 &&& 0xffffffffffffff, ((x 0 >>> 56) ||| (x 1 <<< 8)) &&& 0xffffffffffffff,
    ((x 1 >>> 48) ||| (x 2 <<< 16)) &&& 0xffffffffffffff, ((x 2 >>> 40) ||| (x 3 <<< 24)) &&& 0xffffffffffffff,
    (x 3 >>> 32) &&& 0x000000ffffffff⟩

/-- `contract256_modm`, `src/crypto/ed25519/modm-donna-64bit.h:205-211`. -/
def contract256 (x : Modm) : Bytes :=
  storeLimb (x.l0 ||| (x.l1 <<< 56)) ++ storeLimb ((x.l1 >>> 8) ||| (x.l2 <<< 48)) ++
    storeLimb ((x.l2 >>> 16) ||| (x.l3 <<< 40)) ++ storeLimb ((x.l3 >>> 24) ||| (x.l4 <<< 32))

/-- Conversion to `signed char`. -/
def schar (x : Int) : Int := x.bmod 256

/-- The inner loop in `contract256_window4_modm`, `src/crypto/ed25519/modm-donna-64bit.h:222-225`. -/
def quads : Nat → UInt64 → List Int
  | 0, _ => []
  | m + 1, v => ((v &&& 15).toNat : Int) :: quads m (v >>> 4)

/-- The loop "making it signed", `src/crypto/ed25519/modm-donna-64bit.h:229-237`, on an element `a` of the array and the
rest of the array; `x >> 4` and `x >> 3` of an `int` are divisions that round down, and `x & 15` is the remainder. -/
def makeSigned (carry a : Int) : List Int → List Int
  | [] => [schar (a + carry)]
  | b :: rest =>
    let a := schar (a + carry)
    let b := schar (b + a / 16)
    let a := a % 16
    let carry := a / 8
    let a := schar (a - carry * 16)
    a :: makeSigned carry b rest

/-- `contract256_window4_modm`, `src/crypto/ed25519/modm-donna-64bit.h:213-238`. -/
def contractWindow4 (s : Modm) : List Int :=
  let r := quads 14 s.l0 ++ quads 14 s.l1 ++ quads 14 s.l2 ++ quads 14 s.l3 ++ quads 8 s.l4
  makeSigned 0 (r.getD 0 0) (r.drop 1)

/-! ## Points, `ed25519-donna-impl-base.h` -/

/-- `ge25519`, `src/crypto/ed25519/ed25519-donna.h:81-83`. -/
structure Ge where
  (x y z t : Fe)
  deriving DecidableEq, Repr

/-- `ge25519_p1p1`, `src/crypto/ed25519/ed25519-donna.h:85-87`. -/
structure P1p1 where
  (x y z t : Fe)
  deriving DecidableEq, Repr

/-- `ge25519_pniels`, `src/crypto/ed25519/ed25519-donna.h:93-95`. -/
structure Pniels where
  (ysubx xaddy z t2d : Fe)
  deriving DecidableEq, Repr

/-- `ge25519_p1p1_to_partial`, `src/crypto/ed25519/ed25519-donna-impl-base.h:5-10`: `t` is left as it is. -/
def toPartial (r : Ge) (p : P1p1) : Ge := { r with x := fmul p.x p.t, y := fmul p.y p.z, z := fmul p.z p.t }

/-- `ge25519_p1p1_to_full`, `src/crypto/ed25519/ed25519-donna-impl-base.h:12-18`. -/
def toFull (p : P1p1) : Ge := ⟨fmul p.x p.t, fmul p.y p.z, fmul p.z p.t, fmul p.x p.y⟩

/-- `ge25519_full_to_pniels`, `src/crypto/ed25519/ed25519-donna-impl-base.h:20-26`. -/
def fullToPniels (r : Ge) : Pniels := ⟨fsub r.y r.x, fadd r.y r.x, r.z, fmul r.t ec2d⟩

/-- `ge25519_double_p1p1`, `src/crypto/ed25519/ed25519-donna-impl-base.h:53-67`. -/
def doubleP1p1 (p : Ge) : P1p1 :=
  let a := fsquare p.x
  let b := fsquare p.y
  let c := fsquare p.z
  let c := faddReduce c c
  let rx := fadd p.x p.y
  let rx := fsquare rx
  let ry := fadd b a
  let rz := fsub b a
  let rx := fsubAfterBasic rx ry
  let rt := fsubAfterBasic c rz
  ⟨rx, ry, rz, rt⟩

/-- `ge25519_nielsadd2_p1p1`, `src/crypto/ed25519/ed25519-donna-impl-base.h:69-86`; `signbit` is 0 or 1. -/
def nielsadd2P1p1 (p : Ge) (q : Niels) (signbit : Bool) : P1p1 :=
  let a := fsub p.y p.x
  let b := fadd p.y p.x
  let a := fmul a (if signbit then q.xaddy else q.ysubx)
  let rx := fmul b (if signbit then q.ysubx else q.xaddy)
  let ry := fadd rx a
  let rx := fsub rx a
  let c := fmul p.t q.t2d
  let rt := faddReduce p.z p.z
  let rz := rt
  if signbit then ⟨rx, ry, fsub rz c, fadd rt c⟩ else ⟨rx, ry, fadd rz c, fsub rt c⟩

/-- `ge25519_pnielsadd_p1p1`, `src/crypto/ed25519/ed25519-donna-impl-base.h:88-106`; `signbit` is 0 or 1. -/
def pnielsaddP1p1 (p : Ge) (q : Pniels) (signbit : Bool) : P1p1 :=
  let a := fsub p.y p.x
  let b := fadd p.y p.x
  let a := fmul a (if signbit then q.xaddy else q.ysubx)
  let rx := fmul b (if signbit then q.ysubx else q.xaddy)
  let ry := fadd rx a
  let rx := fsub rx a
  let c := fmul p.t q.t2d
  let rt := fmul p.z q.z
  let rt := faddReduce rt rt
  let rz := rt
  if signbit then ⟨rx, ry, fsub rz c, fadd rt c⟩ else ⟨rx, ry, fadd rz c, fsub rt c⟩

/-- `ge25519_double_partial`, `src/crypto/ed25519/ed25519-donna-impl-base.h:108-113`, for `r == p`. -/
def doublePartial (p : Ge) : Ge := toPartial p (doubleP1p1 p)

/-- `ge25519_double`, `src/crypto/ed25519/ed25519-donna-impl-base.h:115-120`. -/
def geDouble (p : Ge) : Ge := toFull (doubleP1p1 p)

/-- `ge25519_nielsadd2`, `src/crypto/ed25519/ed25519-donna-impl-base.h:129-147`. -/
def nielsadd2 (r : Ge) (q : Niels) : Ge :=
  let a := fsub r.y r.x
  let b := fadd r.y r.x
  let a := fmul a q.ysubx
  let e := fmul b q.xaddy
  let h := fadd e a
  let e := fsub e a
  let c := fmul r.t q.t2d
  let f := fadd r.z r.z
  let g := faddAfterBasic f c
  let f := fsubAfterBasic f c
  ⟨fmul e f, fmul h g, fmul g f, fmul e h⟩

/-- `ge25519_pnielsadd`, `src/crypto/ed25519/ed25519-donna-impl-base.h:149-172`. -/
def pnielsadd (p : Ge) (q : Pniels) : Pniels :=
  let a := fsub p.y p.x
  let b := fadd p.y p.x
  let a := fmul a q.ysubx
  let x := fmul b q.xaddy
  let y := fadd x a
  let x := fsub x a
  let c := fmul p.t q.t2d
  let t := fmul p.z q.z
  let t := fadd t t
  let z := faddAfterBasic t c
  let t := fsubAfterBasic t c
  let xaddy := fmul x t
  let ysubx := fmul y z
  let rz := fmul z t
  let t2d := fmul x y
  let y := ysubx
  let ysubx := fsub ysubx xaddy
  let xaddy := fadd xaddy y
  let t2d := fmul t2d ec2d
  ⟨ysubx, xaddy, rz, t2d⟩

/-- `ge25519_windowb_equal`, `src/crypto/ed25519/ed25519-donna-impl-base.h:298-301`. -/
def windowbEqual (b c : UInt32) : UInt32 := ((b ^^^ c) - 1) >>> 31

/-- The words of an entry of the table of multiples. -/
def entryWords (e : Nat × Nat × Nat) : List UInt64 :=
  [e.1, e.2.1, e.2.2].flatMap fun n =>
    [UInt64.ofNat n, UInt64.ofNat (n / 2 ^ 64), UInt64.ofNat (n / 2 ^ 128), UInt64.ofNat (n / 2 ^ 192)]

/-- The loop in `ge25519_scalarmult_base_choose_niels`, `src/crypto/ed25519/ed25519-donna-impl-base.h:311-317`; the words
of `packed`. -/
def choosePacked (pos : Nat) (u : UInt32) : List UInt64 :=
  (List.range 8).foldl (fun packed i => moveConditional packed (entryWords (baseMultiples.getD (pos * 8 + i) (0, 0, 0)))
    (windowbEqual u (UInt32.ofNat i + 1)).toUInt64) [1, 0, 0, 0, 1, 0, 0, 0, 0, 0, 0, 0]

/-- `ge25519_scalarmult_base_choose_niels`, `src/crypto/ed25519/ed25519-donna-impl-base.h:303-328`; `b` is a
`signed char`, `pos < 32`. -/
def chooseNiels (pos : Nat) (b : Int) : Niels :=
  let sign : UInt32 := UInt32.ofNat ((b % 256).toNat / 2 ^ 7)
  let mask := ~~~(sign - 1)
  let u := (UInt32.ofInt b + mask) ^^^ mask
  let w := choosePacked pos u
  let x := fun i => w.getD i 0
  let ysubx := expandWords (x 0) (x 1) (x 2) (x 3)
  let xaddy := expandWords (x 4) (x 5) (x 6) (x 7)
  let t2d := expandWords (x 8) (x 9) (x 10) (x 11)
  let s := swapConditional ysubx xaddy sign.toUInt64
  let neg := fneg t2d
  ⟨s.1, s.2, (swapConditional t2d neg sign.toUInt64).1⟩

/-- The loops in `ge25519_scalarmult_base_niels`, `src/crypto/ed25519/ed25519-donna-impl-base.h:348-351` and `:359-362`;
the arguments are the digits that remain, of one parity, and the position. -/
def addDigits (r : Ge) : List Int → Nat → Ge
  | [], _ => r
  | d :: ds, pos => addDigits (nielsadd2 r (chooseNiels pos d)) ds (pos + 1)

/-- The elements at even indices. -/
def evens : List Int → List Int
  | [] => []
  | [a] => [a]
  | a :: _ :: rest => a :: evens rest

/-- The elements at odd indices. -/
def odds : List Int → List Int
  | [] => []
  | [_] => []
  | _ :: b :: rest => b :: odds rest

/-- `ge25519_scalarmult_base_niels`, `src/crypto/ed25519/ed25519-donna-impl-base.h:333-363`, for the table
`ge25519_niels_base_multiples`, as in all calls. -/
def scalarmultBase (s : Modm) : Ge :=
  let b := contractWindow4 s
  let t := chooseNiels 0 ((odds b).getD 0 0)
  let r : Ge := ⟨fsubReduce t.xaddy t.ysubx, faddReduce t.xaddy t.ysubx, ⟨2, 0, 0, 0, 0⟩, t.t2d⟩
  let r := addDigits r ((odds b).drop 1) 1
  let r := doublePartial r
  let r := doublePartial r
  let r := doublePartial r
  let r := geDouble r
  let t := chooseNiels 0 ((evens b).getD 0 0)
  let t := { t with t2d := fmul t.t2d ecd }
  let r := nielsadd2 r t
  addDigits r ((evens b).drop 1) 1

/-- `curved25519_scalarmult_basepoint`, `src/crypto/ed25519/ed25519.c:124-149`: the bytes in `pk`. -/
def scalarmultBasepoint (e : Bytes) : Bytes :=
  let ec := e
  let ec := ec.set 0 (ec.getD 0 0 &&& 248)
  let ec := ec.set 31 (ec.getD 31 0 &&& 127)
  let ec := ec.set 31 (ec.getD 31 0 ||| 64)
  let s := expandRaw256 ec
  let p := scalarmultBase s
  let yplusz := fadd p.y p.z
  let zminusy := fsub p.z p.y
  let zminusy := recip zminusy
  let yplusz := fmul yplusz zminusy
  contract yplusz

/-! ## Packing and unpacking -/

/-- `ge25519_pack`, `src/crypto/ed25519/ed25519-donna-impl-base.h:179-189`. -/
def pack (p : Ge) : Bytes :=
  let zi := recip p.z
  let tx := fmul p.x zi
  let ty := fmul p.y zi
  let r := contract ty
  let parity := contract tx
  r.set 31 (r.getD 31 0 ^^^ ((parity.getD 0 0 &&& 1) <<< 7))

/-- `ed25519_verify`, `src/crypto/ed25519/ed25519-donna.h:66-72`, for arrays of equal length: that the result is not
0. -/
def verify (x y : Bytes) : Bool :=
  let differentbits := (List.zipWith (fun a b => a ^^^ b) x y).foldl (fun d v => d ||| v.toUInt64) (0 : UInt64)
  ((1 : UInt64) &&& ((differentbits - 1) >>> 8)) != 0

/-- `ge25519_unpack_negative_vartime`, `src/crypto/ed25519/ed25519-donna-impl-base.h:194-227`: the value of `r->x` after
the comparisons; `none` is the result 0. -/
def unpackRoot (y : Fe) : Option Fe :=
  let one : Fe := ⟨1, 0, 0, 0, 0⟩
  let num := fsquare y
  let den := fmul num ecd
  let num := fsubReduce num one
  let den := fadd den one
  let t := fsquare den
  let d3 := fmul t den
  let x := fsquare d3
  let x := fmul x den
  let x := fmul x num
  let x := powTwo252m3 x
  let x := fmul x d3
  let x := fmul x num
  let t := fsquare x
  let t := fmul t den
  if !verify (contract (fsubReduce t num)) (List.replicate 32 0) then
    if !verify (contract (faddReduce t num)) (List.replicate 32 0) then none
    else some (fmul x sqrtneg1)
  else some x

/-- `ge25519_unpack_negative_vartime`, `src/crypto/ed25519/ed25519-donna-impl-base.h:191-239`; `none` is the result 0. -/
def unpackNegative (p : Bytes) : Option Ge :=
  let y := expand p
  (unpackRoot y).map fun x =>
    let x := if (contract x).getD 0 0 &&& (1 : UInt8) = p.getD 31 0 >>> (7 : UInt8) then fneg x else x
    ⟨x, y, ⟨1, 0, 0, 0, 0⟩, fmul x y⟩

/-! ## Two multiples at once -/

/-- The bits that `contract256_slidingwindow_modm` begins with, `src/crypto/ed25519/modm-donna-64bit.h:247-255`. -/
def bits : Nat → UInt64 → List Int
  | 0, _ => []
  | m + 1, v => ((v &&& 1).toNat : Int) :: bits m (v >>> 1)

/-- The loop on `k`, `src/crypto/ed25519/modm-donna-64bit.h:268-274`; the last argument is the number of iterations
left. -/
def slideCarry (r : List Int) (k : Nat) : Nat → List Int
  | 0 => r
  | n + 1 => if r.getD k 0 = 0 then r.set k 1 else slideCarry (r.set k 0) (k + 1) n

/-- The loop on `b`, `src/crypto/ed25519/modm-donna-64bit.h:262-278`; the fourth argument is the number of iterations
left. -/
def slideDigit (m : Int) (j : Nat) (r : List Int) : Nat → Nat → List Int
  | 0, _ => r
  | n + 1, b =>
    if b < 256 - j then
      let x := r.getD j 0
      let y := r.getD (j + b) 0 * 2 ^ b
      if x + y ≤ m then slideDigit m j ((r.set j (schar (x + y))).set (j + b) 0) n (b + 1)
      else if x - y ≥ -m then slideDigit m j (slideCarry (r.set j (schar (x - y))) (j + b) (256 - (j + b))) n (b + 1)
      else if r.getD (j + b) 0 ≠ 0 then r
      else slideDigit m j r n (b + 1)
    else r

/-- The loop on `j`, `src/crypto/ed25519/modm-donna-64bit.h:258-279`; the last argument is the number of iterations
left. -/
def slideAll (m : Int) (r : List Int) (j : Nat) : Nat → List Int
  | 0 => r
  | n + 1 => if r.getD j 0 = 0 then slideAll m r (j + 1) n else slideAll m (slideDigit m j r 6 1) (j + 1) n

/-- `contract256_slidingwindow_modm`, `src/crypto/ed25519/modm-donna-64bit.h:240-280`. -/
def slidingWindow (s : Modm) (windowsize : Nat) : List Int :=
  slideAll (2 ^ (windowsize - 1) - 1) (bits 56 s.l0 ++ bits 56 s.l1 ++ bits 56 s.l2 ++ bits 56 s.l3 ++ bits 32 s.l4) 0 256

/-- The table `pre1`, `src/crypto/ed25519/ed25519-donna-impl-base.h:264-266`, from the entry `q` on; the last argument
is the number of iterations left. -/
def preTable (d1 : Ge) (q : Pniels) : Nat → List Pniels
  | 0 => [q]
  | n + 1 => q :: preTable d1 (pnielsadd d1 q) n

/-- The body of the loop in `ge25519_double_scalarmult_vartime`,
`src/crypto/ed25519/ed25519-donna-impl-base.h:278-290`. -/
def doubleStep (pre1 : List Pniels) (r : Ge) (s1 s2 : Int) : Ge :=
  let t := doubleP1p1 r
  let (r, t) :=
    if s1 ≠ 0 then
      let r := toFull t
      (r, pnielsaddP1p1 r (pre1.getD (s1.natAbs / 2) ⟨⟨0, 0, 0, 0, 0⟩, ⟨0, 0, 0, 0, 0⟩, ⟨0, 0, 0, 0, 0⟩, ⟨0, 0, 0, 0, 0⟩⟩)
        (s1 < 0))
    else (r, t)
  let (r, t) :=
    if s2 ≠ 0 then
      let r := toFull t
      (r, nielsadd2P1p1 r (slidingMultiples.getD (s2.natAbs / 2) ⟨⟨0, 0, 0, 0, 0⟩, ⟨0, 0, 0, 0, 0⟩, ⟨0, 0, 0, 0, 0⟩⟩)
        (s2 < 0))
    else (r, t)
  toPartial r t

/-- The two loops on `i`, `src/crypto/ed25519/ed25519-donna-impl-base.h:273-291`, on the digits that remain, the most
significant ones first; `started` says that the first loop has ended. -/
def doubleLoop (pre1 : List Pniels) (started : Bool) (r : Ge) : List (Int × Int) → Ge
  | [] => r
  | (s1, s2) :: rest =>
    if !started && s1 = 0 && s2 = 0 then doubleLoop pre1 false r rest
    else doubleLoop pre1 true (doubleStep pre1 r s1 s2) rest

/-- `ge25519_double_scalarmult_vartime`, `src/crypto/ed25519/ed25519-donna-impl-base.h:251-292`. -/
def doubleScalarmult (p1 : Ge) (s1 s2 : Modm) : Ge :=
  let slide1 := slidingWindow s1 5
  let slide2 := slidingWindow s2 7
  let d1 := geDouble p1
  let pre1 := preTable d1 (fullToPniels p1) 7
  let r : Ge := ⟨⟨0, 0, 0, 0, 0⟩, ⟨1, 0, 0, 0, 0⟩, ⟨1, 0, 0, 0, 0⟩, ⟨0, 0, 0, 0, 0⟩⟩
  doubleLoop pre1 false r (List.zip slide1 slide2).reverse

/-! ## `ed25519.c` -/

/-- Resetting, updating and finishing a hash context with uninitialised contents `stack`, as in
`src/crypto/ed25519/ed25519.c:36-41` and `:68-71`, and `sha512_hash`, `src/crypto/sha2/sha512.c:200-206`. -/
def hash (stack : Sha512.Ctx) (parts : List Bytes) : Out Bytes := do
  let ctx ← parts.foldlM (fun ctx d => Sha512.update ctx d) (Sha512.reset stack)
  let (_, h) ← Sha512.finish ctx
  pure h

/-- `ed25519_extsk`, `src/crypto/ed25519/ed25519.c:26-32`. -/
def extsk (stack : Sha512.Ctx) (sk : Bytes) : Out Bytes := do
  let e ← hash stack [sk]
  let e := e.set 0 (e.getD 0 0 &&& 248)
  let e := e.set 31 (e.getD 31 0 &&& 127)
  pure (e.set 31 (e.getD 31 0 ||| 64))

/-- `ed25519_hram`, `src/crypto/ed25519/ed25519.c:34-42`. -/
def hram (stack : Sha512.Ctx) (rs pk m : Bytes) : Out Bytes := hash stack [rs.take 32, pk, m]

/-- `ed25519_publickey`, `src/crypto/ed25519/ed25519.c:44-55`: the bytes in `pk`. -/
def publickey (stack : Sha512.Ctx) (sk : Bytes) : Out Bytes := do
  let extsk ← extsk stack sk
  let a := expand256 (extsk.take 32)
  pure (pack (scalarmultBase a))

/-- `ed25519_sign`, `src/crypto/ed25519/ed25519.c:58-91`: the bytes in `RS`. -/
def sign (stack : Sha512.Ctx) (m sk pk : Bytes) : Out Bytes := do
  let extsk ← extsk stack sk
  let hashr ← hash stack [extsk.drop 32, m]
  let r := expand256 hashr
  let rs := pack (scalarmultBase r)
  let hram ← hram stack rs pk m
  let s := expand256 hram
  let a := expand256 (extsk.take 32)
  let s := mul256 s a
  let s := add256 s r
  pure (rs ++ contract256 s)

/-- `ed25519_sign_open`, `src/crypto/ed25519/ed25519.c:93-116`: that the result is 0; `RS` has 64 bytes. -/
def signOpen (stack : Sha512.Ctx) (m pk rs : Bytes) : Out Bool :=
  if rs.getD 63 0 &&& 224 ≠ 0 then .ok false
  else
    match unpackNegative pk with
    | none => .ok false
    | some a => do
      let hash ← hram stack rs pk m
      let hram := expand256 hash
      let s := expand256 (rs.drop 32)
      let r := doubleScalarmult a hram s
      pure (verify (rs.take 32) (pack r))

end Noise.Ed25519
