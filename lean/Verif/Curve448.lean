import Verif.Basic
/-!
# Model of Curve448: `src/crypto/curve448/curve448.c` and the field of `src/crypto/goldilocks/src/p448`

The scalar multiplication is written once for all versions of the field (`Arith`). The versions for 64-bit machines are
`ref64` (`arch_ref64`) and `x64` (`arch_x86_64`); `configure.ac:13-30` selects the latter on x86-64. A value of type
`__uint128_t` is a `BitVec 128`, a value of type `__int128_t` an integer (all of them are small). The instructions in
inline assembly of `arch_x86_64/x86-64-arith.h` are written as the 128-bit operations that they compute, and vector
operations limb by limb. The outputs of `p448_mul` etc. never overlap their inputs in `curve448_eval`, as `__restrict__`
demands. A failing `assert` is `Out.ub`. The arguments of `curve448_eval` are arrays of 56 bytes, and every index in the
code is a constant or bounded by a constant.
-/

namespace Noise.Curve448

/-! ## The scalar multiplication -/

/-- The operations of the field that `curve448_eval` uses, `src/crypto/goldilocks/src/p448/f_field.h:17-41` and
`src/crypto/goldilocks/src/include/field.h`. -/
structure Arith where
  /-- `field_t`. -/
  T : Type
  /-- `field_set_ui`. -/
  setUi : UInt64 → T
  /-- `field_mul`. -/
  mul : T → T → T
  /-- `field_sqr`. -/
  sqr : T → T
  /-- `field_mulw`. -/
  mulw : T → UInt64 → T
  /-- `field_add`. -/
  add : T → T → T
  /-- `field_sub`. -/
  sub : T → T → T
  /-- `field_serialize`. -/
  serialize : T → Out Bytes
  /-- `field_deserialize`; the flag is bit 0 of the result. -/
  deserialize : Bytes → T × Bool
  /-- `cswap`, `src/crypto/curve448/curve448.c:45-60`. -/
  cswap : UInt8 → T → T → T × T

namespace Arith
variable (A : Arith)

/-- The variables that survive a round of the loop of `curve448_eval`, `src/crypto/curve448/curve448.c:76-78`. -/
structure Vars where
  (x2 z2 x3 z3 : A.T)
  swap : UInt8

/-- The two calls of `cswap`, `src/crypto/curve448/curve448.c:98-99` and `:137-138`. -/
def swapBoth (v : A.Vars) (swap : UInt8) : A.Vars :=
  { v with x2 := (A.cswap swap v.x2 v.x3).1, x3 := (A.cswap swap v.x2 v.x3).2,
           z2 := (A.cswap swap v.z2 v.z3).1, z3 := (A.cswap swap v.z2 v.z3).2 }

/-- The double and add, `src/crypto/curve448/curve448.c:102-120`. -/
def doubleAdd (x1 : A.T) (v : A.Vars) : A.Vars :=
  let a := A.add v.x2 v.z2
  let aa := A.sqr a
  let b := A.sub v.x2 v.z2
  let bb := A.sqr b
  let e := A.sub aa bb
  let c := A.add v.x3 v.z3
  let d := A.sub v.x3 v.z3
  let da := A.mul d a
  let cb := A.mul c b
  let z2 := A.add da cb
  let x3 := A.sqr z2
  let z2 := A.sub da cb
  let x2 := A.sqr z2
  let z3 := A.mul x1 x2
  let x2 := A.mul aa bb
  let z2 := A.mulw e 39081
  let a := A.add aa z2
  let z2 := A.mul e a
  { v with x2 := x2, z2 := z2, x3 := x3, z3 := z3 }

/-- A round of the loop of `curve448_eval`, `src/crypto/curve448/curve448.c:95-120`, for the bit `kt`. -/
def round (x1 : A.T) (v : A.Vars) (kt : UInt8) : A.Vars :=
  let swap := v.swap ^^^ kt
  let v := A.swapBoth v swap
  let v := { v with swap := kt }
  A.doubleAdd x1 v

/-- The rounds for the bits `bit - 1` to 0 of `byte_val`, `src/crypto/curve448/curve448.c:94-124`. -/
def rounds (x1 : A.T) (byteVal : UInt8) : Nat → A.Vars → A.Vars
  | 0, v => v
  | bit + 1, v => rounds x1 byteVal bit (A.round x1 v ((byteVal >>> bit.toUInt8) &&& 1))

/-- `byte_val` at position `posn`, `src/crypto/curve448/curve448.c:93`, `:127` and `:130`. -/
def byteVal (secret : Bytes) (posn : Nat) : UInt8 :=
  if posn = 55 then secret.getD 55 0 ||| 0x80
  else if posn = 0 then secret.getD 0 0 &&& 0xFC
  else secret.getD posn 0

/-- The loop of `curve448_eval`, `src/crypto/curve448/curve448.c:94-134`, for the positions `posn - 1` to 0. -/
def loop (secret : Bytes) (x1 : A.T) : Nat → A.Vars → A.Vars
  | 0, v => v
  | posn + 1, v => loop secret x1 posn (A.rounds x1 (byteVal secret posn) 8 v)

/-- `B` after `n` pairs of squarings: two before a loop and two in each of its `n - 1` rounds, e.g.
`src/crypto/curve448/curve448.c:168-173`. -/
def sqrPairs : Nat → A.T → A.T
  | 0, b => b
  | n + 1, b => sqrPairs n (A.sqr (A.sqr b))

/-- The inversion, `src/crypto/curve448/curve448.c:154-236`: the value of `B` before the last multiplication. -/
def invert (z2 : A.T) : A.T :=
  let b := A.sqr z2
  let a := A.mul b z2
  let b := A.sqr a
  let a := A.mul b z2
  let b := A.sqr a
  let a := A.mul b z2
  let b := A.sqr a
  let c := A.mul b z2
  let b := A.sqr c
  let c := A.mul b z2
  let b := A.sqr c
  let a := A.mul b z2
  let b := A.sqr a
  let a := A.mul b z2
  let b := A.sqrPairs 4 a
  let e := A.mul b a
  let b := A.sqrPairs 8 e
  let aa := A.mul b e
  let b := A.sqrPairs 16 aa
  let bb := A.mul b aa
  let b := A.sqrPairs 32 bb
  let da := A.mul b bb
  let b := A.sqrPairs 32 da
  let cb := A.mul b bb
  let b := A.sqrPairs 8 cb
  let da := A.mul b e
  let b := A.sqrPairs 4 da
  let cb := A.mul b a
  let b := A.sqrPairs 3 cb
  let da := A.mul b c
  let cb := A.sqr da
  let b := A.mul cb z2
  let cb := A.sqr b
  let b := A.sqrPairs 111 cb
  let bb := A.mul b da
  let b := A.sqr bb
  let bb := A.sqr b
  A.mul bb z2

/-- `curve448_eval`, `src/crypto/curve448/curve448.c:74-244`: the bytes in `mypublic` and whether the result is 1. -/
def eval (secret basepoint : Bytes) : Out (Bytes × Bool) := do
  let (x1, success) := A.deserialize basepoint
  let v := A.loop secret x1 56 ⟨A.setUi 1, A.setUi 0, x1, A.setUi 1, 0⟩
  let v := A.swapBoth v v.swap
  let b := A.invert v.z2
  let bb := A.mul v.x2 b
  let mypublic ← A.serialize bb
  return (mypublic, success)

end Arith

/-! ## 64-bit limbs -/

/-- `p448_t`, `arch_ref64/p448.h:13-15` and `arch_x86_64/p448.h:12-14` in `src/crypto/goldilocks/src/p448`. All files named
below are in that directory. -/
structure Fe where
  (l0 l1 l2 l3 l4 l5 l6 l7 : UInt64)
  deriving DecidableEq, Repr

/-- `__uint128_t`. -/
abbrev U128 := BitVec 128

/-- Conversion to `__uint128_t`. -/
def wide (x : UInt64) : U128 := BitVec.ofNat 128 x.toNat
/-- `widemul`, `arch_ref64/p448.c:7-12`, and `widemul` and `widemul_rm`, `arch_x86_64/x86-64-arith.h:14-54`. -/
def widemul (x y : UInt64) : U128 := wide x * wide y
/-- Conversion to `uint64_t`. -/
def narrow (x : U128) : UInt64 := UInt64.ofNat x.toNat
/-- `mask`, e.g. `arch_ref64/p448.c:28`. -/
def mask : UInt64 := ((1 : UInt64) <<< 56) - 1
/-- `((uint64_t)(x)) & mask`. -/
def low (x : U128) : UInt64 := narrow x &&& mask

/-- `is_zero`, `arch_ref64/p448.c:14-17` and `arch_x86_64/x86-64-arith.h:274-277`. -/
def isZero (x : UInt64) : UInt64 := if x = 0 then 0xffffffffffffffff else 0

/-- `p448_set_ui`, `arch_ref64/p448.h:126-136` and `arch_x86_64/p448.h:119-129`. -/
def setUi (x : UInt64) : Fe := ⟨x, 0, 0, 0, 0, 0, 0, 0⟩

/-- `p448_weak_reduce`, `arch_ref64/p448.h:227-239` and `arch_x86_64/p448.h:238-251`. -/
def weakReduce (a : Fe) : Fe :=
  let tmp := a.l7 >>> 56
  let l4 := a.l4 + tmp
  ⟨(a.l0 &&& mask) + tmp, (a.l1 &&& mask) + (a.l0 >>> 56), (a.l2 &&& mask) + (a.l1 >>> 56),
    (a.l3 &&& mask) + (a.l2 >>> 56), (l4 &&& mask) + (a.l3 >>> 56), (a.l5 &&& mask) + (l4 >>> 56),
    (a.l6 &&& mask) + (a.l5 >>> 56), (a.l7 &&& mask) + (a.l6 >>> 56)⟩

/-- `co1`, `arch_ref64/p448.h:158` and, for `amt = 2`, `arch_x86_64/p448.h:216`. -/
def co1 : UInt64 := (((1 : UInt64) <<< 56) - 1) * 2
/-- `co2`, `arch_ref64/p448.h:158` and, for `amt = 2`, `arch_x86_64/p448.h:216`. -/
def co2 : UInt64 := co1 - 2

/-- Limbwise sum, `arch_ref64/p448.h:144-147`; `p448_add_RAW`, `arch_x86_64/p448.h:131-147`. -/
def addLimbs (a b : Fe) : Fe :=
  ⟨a.l0 + b.l0, a.l1 + b.l1, a.l2 + b.l2, a.l3 + b.l3, a.l4 + b.l4, a.l5 + b.l5, a.l6 + b.l6, a.l7 + b.l7⟩

/-- Limbwise difference and bias, `arch_ref64/p448.h:157-161`; `p448_sub_RAW`, `arch_x86_64/p448.h:149-165`, followed by
`p448_bias` with the amount 2, `arch_x86_64/p448.h:211-236`. -/
def subLimbs (a b : Fe) : Fe :=
  ⟨a.l0 - b.l0 + co1, a.l1 - b.l1 + co1, a.l2 - b.l2 + co1, a.l3 - b.l3 + co1, a.l4 - b.l4 + co2, a.l5 - b.l5 + co1,
    a.l6 - b.l6 + co1, a.l7 - b.l7 + co1⟩

/-- `field_add`, `src/crypto/goldilocks/src/include/field.h:187-196`, with `p448_add_RAW`, `arch_ref64/p448.h:138-149`, which
reduces itself. -/
def refAdd (a b : Fe) : Fe := weakReduce (weakReduce (addLimbs a b))
/-- `field_sub`, `src/crypto/goldilocks/src/include/field.h:176-185`, with `p448_sub_RAW`, `arch_ref64/p448.h:151-163`, which
adds the bias and reduces itself, and `p448_bias`, `arch_ref64/p448.h:218-225`, which does nothing. -/
def refSub (a b : Fe) : Fe := weakReduce (weakReduce (subLimbs a b))
/-- `field_add`, `src/crypto/goldilocks/src/include/field.h:187-196`, for `arch_x86_64`. -/
def x64Add (a b : Fe) : Fe := weakReduce (addLimbs a b)
/-- `field_sub`, `src/crypto/goldilocks/src/include/field.h:176-185`, for `arch_x86_64`. -/
def x64Sub (a b : Fe) : Fe := weakReduce (subLimbs a b)

/-- `p448_mulw`, `arch_ref64/p448.c:185-212` and `arch_x86_64/p448.c:148-191`. -/
def mulw (a : Fe) (b : UInt64) : Fe :=
  let accum0 := widemul b a.l0
  let accum4 := widemul b a.l4
  let c0 := low accum0
  let accum0 := accum0 >>> 56
  let c4 := low accum4
  let accum4 := accum4 >>> 56
  let accum0 := accum0 + widemul b a.l1
  let accum4 := accum4 + widemul b a.l5
  let c1 := low accum0
  let accum0 := accum0 >>> 56
  let c5 := low accum4
  let accum4 := accum4 >>> 56
  let accum0 := accum0 + widemul b a.l2
  let accum4 := accum4 + widemul b a.l6
  let c2 := low accum0
  let accum0 := accum0 >>> 56
  let c6 := low accum4
  let accum4 := accum4 >>> 56
  let accum0 := accum0 + widemul b a.l3
  let accum4 := accum4 + widemul b a.l7
  let c3 := low accum0
  let accum0 := accum0 >>> 56
  let c7 := low accum4
  let accum4 := accum4 >>> 56
  let accum0 := accum0 + (accum4 + wide c4)
  let c4 := low accum0
  let c5 := c5 + narrow (accum0 >>> 56)
  let accum4 := accum4 + wide c0
  let c0 := low accum4
  let c1 := c1 + narrow (accum4 >>> 56)
  ⟨c0, c1, c2, c3, c4, c5, c6, c7⟩

/-- `p448_mul`, `arch_ref64/p448.c:19-183`; the other branch of the constant condition is left out, and
`bbb[0]`, which is not used. -/
def refMul (a b : Fe) : Fe :=
  let aa0 := a.l0 + a.l4
  let bb0 := b.l0 + b.l4
  let aa1 := a.l1 + a.l5
  let bb1 := b.l1 + b.l5
  let bbb1 := bb1 + b.l5
  let aa2 := a.l2 + a.l6
  let bb2 := b.l2 + b.l6
  let bbb2 := bb2 + b.l6
  let aa3 := a.l3 + a.l7
  let bb3 := b.l3 + b.l7
  let bbb3 := bb3 + b.l7
  let accum0 : U128 := 0
  let accum1 : U128 := 0
  let accum2 := widemul a.l0 b.l0
  let accum1 := accum1 + widemul aa0 bb0
  let accum0 := accum0 + widemul a.l4 b.l4
  let accum2 := accum2 + widemul a.l1 b.l7
  let accum1 := accum1 + widemul aa1 bbb3
  let accum0 := accum0 + widemul a.l5 bb3
  let accum2 := accum2 + widemul a.l2 b.l6
  let accum1 := accum1 + widemul aa2 bbb2
  let accum0 := accum0 + widemul a.l6 bb2
  let accum2 := accum2 + widemul a.l3 b.l5
  let accum1 := accum1 + widemul aa3 bbb1
  let accum0 := accum0 + widemul a.l7 bb1
  let accum1 := accum1 - accum2
  let accum0 := accum0 + accum2
  let c0 := low accum0
  let c4 := low accum1
  let accum0 := accum0 >>> 56
  let accum1 := accum1 >>> 56
  let accum2 := widemul a.l0 b.l1
  let accum1 := accum1 + widemul aa0 bb1
  let accum0 := accum0 + widemul a.l4 b.l5
  let accum2 := accum2 + widemul a.l1 b.l0
  let accum1 := accum1 + widemul aa1 bb0
  let accum0 := accum0 + widemul a.l5 b.l4
  let accum2 := accum2 + widemul a.l2 b.l7
  let accum1 := accum1 + widemul aa2 bbb3
  let accum0 := accum0 + widemul a.l6 bb3
  let accum2 := accum2 + widemul a.l3 b.l6
  let accum1 := accum1 + widemul aa3 bbb2
  let accum0 := accum0 + widemul a.l7 bb2
  let accum1 := accum1 - accum2
  let accum0 := accum0 + accum2
  let c1 := low accum0
  let c5 := low accum1
  let accum0 := accum0 >>> 56
  let accum1 := accum1 >>> 56
  let accum2 := widemul a.l0 b.l2
  let accum1 := accum1 + widemul aa0 bb2
  let accum0 := accum0 + widemul a.l4 b.l6
  let accum2 := accum2 + widemul a.l1 b.l1
  let accum1 := accum1 + widemul aa1 bb1
  let accum0 := accum0 + widemul a.l5 b.l5
  let accum2 := accum2 + widemul a.l2 b.l0
  let accum1 := accum1 + widemul aa2 bb0
  let accum0 := accum0 + widemul a.l6 b.l4
  let accum2 := accum2 + widemul a.l3 b.l7
  let accum1 := accum1 + widemul aa3 bbb3
  let accum0 := accum0 + widemul a.l7 bb3
  let accum1 := accum1 - accum2
  let accum0 := accum0 + accum2
  let c2 := low accum0
  let c6 := low accum1
  let accum0 := accum0 >>> 56
  let accum1 := accum1 >>> 56
  let accum2 := widemul a.l0 b.l3
  let accum1 := accum1 + widemul aa0 bb3
  let accum0 := accum0 + widemul a.l4 b.l7
  let accum2 := accum2 + widemul a.l1 b.l2
  let accum1 := accum1 + widemul aa1 bb2
  let accum0 := accum0 + widemul a.l5 b.l6
  let accum2 := accum2 + widemul a.l2 b.l1
  let accum1 := accum1 + widemul aa2 bb1
  let accum0 := accum0 + widemul a.l6 b.l5
  let accum2 := accum2 + widemul a.l3 b.l0
  let accum1 := accum1 + widemul aa3 bb0
  let accum0 := accum0 + widemul a.l7 b.l4
  let accum1 := accum1 - accum2
  let accum0 := accum0 + accum2
  let c3 := low accum0
  let c7 := low accum1
  let accum0 := accum0 >>> 56
  let accum1 := accum1 >>> 56
  let accum0 := accum0 + accum1
  let accum0 := accum0 + wide c4
  let accum1 := accum1 + wide c0
  let c4 := low accum0
  let c0 := low accum1
  let accum0 := accum0 >>> 56
  let accum1 := accum1 >>> 56
  let c5 := c5 + narrow accum0
  let c1 := c1 + narrow accum1
  ⟨c0, c1, c2, c3, c4, c5, c6, c7⟩

/-- `p448_mul`, `arch_x86_64/p448.c:8-146`; `bbb[0]` and `bbb[1]`, which are not used, are left out. -/
def x64Mul (a b : Fe) : Fe :=
  let aa0 := a.l0 + a.l4
  let bb0 := b.l0 + b.l4
  let aa1 := a.l1 + a.l5
  let bb1 := b.l1 + b.l5
  let aa2 := a.l2 + a.l6
  let bb2 := b.l2 + b.l6
  let bbb2 := bb2 + b.l6
  let aa3 := a.l3 + a.l7
  let bb3 := b.l3 + b.l7
  let bbb3 := bb3 + b.l7
  let accum2 := widemul a.l0 b.l3
  let accum0 := widemul aa0 bb3
  let accum1 := widemul a.l4 b.l7
  let accum2 := accum2 + widemul a.l1 b.l2
  let accum0 := accum0 + widemul aa1 bb2
  let accum1 := accum1 + widemul a.l5 b.l6
  let accum2 := accum2 + widemul a.l2 b.l1
  let accum0 := accum0 + widemul aa2 bb1
  let accum1 := accum1 + widemul a.l6 b.l5
  let accum2 := accum2 + widemul a.l3 b.l0
  let accum0 := accum0 + widemul aa3 bb0
  let accum1 := accum1 + widemul a.l7 b.l4
  let accum0 := accum0 - accum2
  let accum1 := accum1 + accum2
  let c3 := low accum1
  let c7 := low accum0
  let accum0 := accum0 >>> 56
  let accum1 := accum1 >>> 56
  let accum0 := accum0 + widemul aa1 bb3
  let accum1 := accum1 + widemul a.l5 b.l7
  let accum0 := accum0 + widemul aa2 bb2
  let accum1 := accum1 + widemul a.l6 b.l6
  let accum0 := accum0 + widemul aa3 bb1
  let accum1 := accum1 + accum0
  let accum2 := widemul a.l0 b.l0
  let accum1 := accum1 - accum2
  let accum0 := accum0 + accum2
  let accum0 := accum0 - widemul a.l1 b.l3
  let accum0 := accum0 - widemul a.l2 b.l2
  let accum1 := accum1 + widemul a.l7 b.l5
  let accum0 := accum0 - widemul a.l3 b.l1
  let accum1 := accum1 + widemul aa0 bb0
  let accum0 := accum0 + widemul a.l4 b.l4
  let c0 := low accum0
  let c4 := low accum1
  let accum0 := accum0 >>> 56
  let accum1 := accum1 >>> 56
  let accum2 := widemul a.l2 b.l7
  let accum0 := accum0 + widemul a.l6 bb3
  let accum1 := accum1 + widemul aa2 bbb3
  let accum2 := accum2 + widemul a.l3 b.l6
  let accum0 := accum0 + widemul a.l7 bb2
  let accum1 := accum1 + widemul aa3 bbb2
  let accum2 := accum2 + widemul a.l0 b.l1
  let accum1 := accum1 + widemul aa0 bb1
  let accum0 := accum0 + widemul a.l4 b.l5
  let accum2 := accum2 + widemul a.l1 b.l0
  let accum1 := accum1 + widemul aa1 bb0
  let accum0 := accum0 + widemul a.l5 b.l4
  let accum1 := accum1 - accum2
  let accum0 := accum0 + accum2
  let c1 := low accum0
  let c5 := low accum1
  let accum0 := accum0 >>> 56
  let accum1 := accum1 >>> 56
  let accum2 := widemul a.l3 b.l7
  let accum0 := accum0 + widemul a.l7 bb3
  let accum1 := accum1 + widemul aa3 bbb3
  let accum2 := accum2 + widemul a.l0 b.l2
  let accum1 := accum1 + widemul aa0 bb2
  let accum0 := accum0 + widemul a.l4 b.l6
  let accum2 := accum2 + widemul a.l1 b.l1
  let accum1 := accum1 + widemul aa1 bb1
  let accum0 := accum0 + widemul a.l5 b.l5
  let accum2 := accum2 + widemul a.l2 b.l0
  let accum1 := accum1 + widemul aa2 bb0
  let accum0 := accum0 + widemul a.l6 b.l4
  let accum1 := accum1 - accum2
  let accum0 := accum0 + accum2
  let c2 := low accum0
  let c6 := low accum1
  let accum0 := accum0 >>> 56
  let accum1 := accum1 >>> 56
  let accum0 := accum0 + wide c3
  let accum1 := accum1 + wide c7
  let c3 := low accum0
  let c7 := low accum1
  let accum0 := accum0 >>> 56
  let accum1 := accum1 >>> 56
  let c4 := c4 + (narrow accum0 + narrow accum1)
  let c0 := c0 + narrow accum1
  ⟨c0, c1, c2, c3, c4, c5, c6, c7⟩

/-- `p448_sqr`, `arch_ref64/p448.c:214-327` and `arch_x86_64/p448.c:193-306`. -/
def sqr (a : Fe) : Fe :=
  let aa0 := a.l0 + a.l4
  let aa1 := a.l1 + a.l5
  let aa2 := a.l2 + a.l6
  let aa3 := a.l3 + a.l7
  let accum2 := widemul a.l0 a.l3
  let accum0 := widemul aa0 aa3
  let accum1 := widemul a.l4 a.l7
  let accum2 := accum2 + widemul a.l1 a.l2
  let accum0 := accum0 + widemul aa1 aa2
  let accum1 := accum1 + widemul a.l5 a.l6
  let accum0 := accum0 - accum2
  let accum1 := accum1 + accum2
  let c3 := (narrow accum1 <<< 1) &&& mask
  let c7 := (narrow accum0 <<< 1) &&& mask
  let accum0 := accum0 >>> 55
  let accum1 := accum1 >>> 55
  let accum0 := accum0 + widemul (aa1 + aa1) aa3
  let accum1 := accum1 + widemul (a.l5 + a.l5) a.l7
  let accum0 := accum0 + widemul aa2 aa2
  let accum1 := accum1 + accum0
  let accum0 := accum0 - widemul (a.l1 + a.l1) a.l3
  let accum1 := accum1 + widemul a.l6 a.l6
  let accum2 := widemul a.l0 a.l0
  let accum1 := accum1 - accum2
  let accum0 := accum0 + accum2
  let accum0 := accum0 - widemul a.l2 a.l2
  let accum1 := accum1 + widemul aa0 aa0
  let accum0 := accum0 + widemul a.l4 a.l4
  let c0 := low accum0
  let c4 := low accum1
  let accum0 := accum0 >>> 56
  let accum1 := accum1 >>> 56
  let accum2 := widemul (aa2 + aa2) aa3
  let accum0 := accum0 - widemul (a.l2 + a.l2) a.l3
  let accum1 := accum1 + widemul (a.l6 + a.l6) a.l7
  let accum1 := accum1 + accum2
  let accum0 := accum0 + accum2
  let accum2 := widemul (a.l0 + a.l0) a.l1
  let accum1 := accum1 + widemul (aa0 + aa0) aa1
  let accum0 := accum0 + widemul (a.l4 + a.l4) a.l5
  let accum1 := accum1 - accum2
  let accum0 := accum0 + accum2
  let c1 := low accum0
  let c5 := low accum1
  let accum0 := accum0 >>> 56
  let accum1 := accum1 >>> 56
  let accum2 := widemul aa3 aa3
  let accum0 := accum0 - widemul a.l3 a.l3
  let accum1 := accum1 + widemul a.l7 a.l7
  let accum1 := accum1 + accum2
  let accum0 := accum0 + accum2
  let accum2 := widemul (a.l0 + a.l0) a.l2
  let accum1 := accum1 + widemul (aa0 + aa0) aa2
  let accum0 := accum0 + widemul (a.l4 + a.l4) a.l6
  let accum2 := accum2 + widemul a.l1 a.l1
  let accum1 := accum1 + widemul aa1 aa1
  let accum0 := accum0 + widemul a.l5 a.l5
  let accum1 := accum1 - accum2
  let accum0 := accum0 + accum2
  let c2 := low accum0
  let c6 := low accum1
  let accum0 := accum0 >>> 56
  let accum1 := accum1 >>> 56
  let accum0 := accum0 + wide c3
  let accum1 := accum1 + wide c7
  let c3 := low accum0
  let c7 := low accum1
  let accum0 := accum0 >>> 56
  let accum1 := accum1 >>> 56
  let c4 := c4 + (narrow accum0 + narrow accum1)
  let c0 := c0 + narrow accum1
  ⟨c0, c1, c2, c3, c4, c5, c6, c7⟩

/-- One step of the first loop of `p448_strong_reduce`, `arch_ref64/p448.c:346-348`: the limb and `scarry`. -/
def subStep (scarry : Int) (limb m : UInt64) : UInt64 × Int :=
  let scarry := scarry + limb.toNat - m.toNat
  (UInt64.ofNat (scarry % 2 ^ 56).toNat, scarry / 2 ^ 56)

/-- One step of the second loop of `p448_strong_reduce`, `arch_ref64/p448.c:363-365`: the limb and `carry`. -/
def addStep (carry : U128) (limb m : UInt64) : UInt64 × U128 :=
  let carry := carry + wide limb + wide m
  (low carry, carry >>> 56)

/-- `p448_strong_reduce`, `arch_ref64/p448.c:329-370` and `arch_x86_64/p448.c:308-349`. -/
def strongReduce (a : Fe) : Out Fe :=
  let l4 := a.l4 + (a.l7 >>> 56)
  let l0 := a.l0 + (a.l7 >>> 56)
  let l7 := a.l7 &&& mask
  let (l0, scarry) := subStep 0 l0 mask
  let (l1, scarry) := subStep scarry a.l1 mask
  let (l2, scarry) := subStep scarry a.l2 mask
  let (l3, scarry) := subStep scarry a.l3 mask
  let (l4, scarry) := subStep scarry l4 (mask - 1)
  let (l5, scarry) := subStep scarry a.l5 mask
  let (l6, scarry) := subStep scarry a.l6 mask
  let (l7, scarry) := subStep scarry l7 mask
  if isZero (UInt64.ofNat (scarry % 2 ^ 64).toNat) ||| isZero (UInt64.ofNat ((scarry + 1) % 2 ^ 64).toNat) = 0 then .ub
  else
    let scarryMask := UInt64.ofNat (scarry % 2 ^ 64).toNat &&& mask
    let (l0, carry) := addStep 0 l0 scarryMask
    let (l1, carry) := addStep carry l1 scarryMask
    let (l2, carry) := addStep carry l2 scarryMask
    let (l3, carry) := addStep carry l3 scarryMask
    let (l4, carry) := addStep carry l4 (scarryMask &&& ~~~1)
    let (l5, carry) := addStep carry l5 scarryMask
    let (l6, carry) := addStep carry l6 scarryMask
    let (l7, carry) := addStep carry l7 scarryMask
    if isZero (narrow (carry + BitVec.ofInt 128 scarry)) = 0 then .ub
    else .ok ⟨l0, l1, l2, l3, l4, l5, l6, l7⟩

/-- The inner loop of `p448_serialize`, `arch_ref64/p448.c:398-401`: `n` bytes and what is left of the limb. -/
def limbBytes : Nat → UInt64 → Bytes × UInt64
  | 0, limb => ([], limb)
  | n + 1, limb => let (l, rest) := limbBytes n (limb >>> 8); (limb.toUInt8 :: l, rest)

/-- A round of the outer loop of `p448_serialize`, `arch_ref64/p448.c:397-403`. -/
def serializeLimb (limb : UInt64) : Out Bytes :=
  let (l, rest) := limbBytes 7 limb
  if rest = 0 then .ok l else .ub

/-- `p448_serialize`, `arch_ref64/p448.c:388-404` and `arch_x86_64/p448.c:367-383`. -/
def serialize (x : Fe) : Out Bytes := do
  let red ← strongReduce x
  let b0 ← serializeLimb red.l0
  let b1 ← serializeLimb red.l1
  let b2 ← serializeLimb red.l2
  let b3 ← serializeLimb red.l3
  let b4 ← serializeLimb red.l4
  let b5 ← serializeLimb red.l5
  let b6 ← serializeLimb red.l6
  let b7 ← serializeLimb red.l7
  return b0 ++ b1 ++ b2 ++ b3 ++ b4 ++ b5 ++ b6 ++ b7

/-- The inner loop of `p448_deserialize`, `arch_ref64/p448.c:413-416`, for the bytes at offset `i`. -/
def loadLimb (s : Bytes) (i : Nat) : UInt64 :=
  (s.getD i 0).toUInt64 ||| (s.getD (i + 1) 0).toUInt64 <<< 8 ||| (s.getD (i + 2) 0).toUInt64 <<< 16 |||
    (s.getD (i + 3) 0).toUInt64 <<< 24 ||| (s.getD (i + 4) 0).toUInt64 <<< 32 ||| (s.getD (i + 5) 0).toUInt64 <<< 40 |||
    (s.getD (i + 6) 0).toUInt64 <<< 48

/-- `p448_deserialize`, `arch_ref64/p448.c:406-441` and `arch_x86_64/p448.c:385-420`; the flag is bit 0 of the result. -/
def deserialize (serial : Bytes) : Fe × Bool :=
  let x : Fe := ⟨loadLimb serial 0, loadLimb serial 7, loadLimb serial 14, loadLimb serial 21, loadLimb serial 28,
    loadLimb serial 35, loadLimb serial 42, loadLimb serial 49⟩
  let ge : UInt64 := 0xffffffffffffffff
  let ge := ge &&& x.l0
  let ge := ge &&& x.l1
  let ge := ge &&& x.l2
  let ge := ge &&& x.l3
  let ge := (ge &&& (x.l4 + 1)) ||| isZero (x.l4 ^^^ mask)
  let ge := ge &&& x.l5
  let ge := ge &&& x.l6
  let ge := ge &&& x.l7
  (x, 1 &&& ~~~ (isZero (ge ^^^ mask)) = 1)

/-- A round of `cswap`, `src/crypto/curve448/curve448.c:54-58`. -/
def swapLimb (sel x y : UInt64) : UInt64 × UInt64 :=
  let dummy := sel &&& (x ^^^ y)
  (x ^^^ dummy, y ^^^ dummy)

/-- `cswap`, `src/crypto/curve448/curve448.c:45-60`, for `WORD_BITS` 64. -/
def cswap (swap : UInt8) (x y : Fe) : Fe × Fe :=
  let sel : UInt64 := 0 - swap.toUInt64
  (⟨(swapLimb sel x.l0 y.l0).1, (swapLimb sel x.l1 y.l1).1, (swapLimb sel x.l2 y.l2).1, (swapLimb sel x.l3 y.l3).1,
      (swapLimb sel x.l4 y.l4).1, (swapLimb sel x.l5 y.l5).1, (swapLimb sel x.l6 y.l6).1, (swapLimb sel x.l7 y.l7).1⟩,
    ⟨(swapLimb sel x.l0 y.l0).2, (swapLimb sel x.l1 y.l1).2, (swapLimb sel x.l2 y.l2).2, (swapLimb sel x.l3 y.l3).2,
      (swapLimb sel x.l4 y.l4).2, (swapLimb sel x.l5 y.l5).2, (swapLimb sel x.l6 y.l6).2, (swapLimb sel x.l7 y.l7).2⟩)

/-- The field of `arch_ref64`. -/
def ref64 : Arith := ⟨Fe, setUi, refMul, sqr, mulw, refAdd, refSub, serialize, deserialize, cswap⟩

/-- The field of `arch_x86_64`. -/
def x64 : Arith := ⟨Fe, setUi, x64Mul, sqr, mulw, x64Add, x64Sub, serialize, deserialize, cswap⟩

end Noise.Curve448
