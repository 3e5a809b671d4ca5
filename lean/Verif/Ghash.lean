import Verif.Basic
/-!
# Model of `src/crypto/ghash/ghash.c`

The accumulator `Y` is kept as the 16 bytes it occupies in memory, since the code reads and changes it byte by
byte. The parameter `big` says whether the machine stores the most significant byte first (`__BYTE_ORDER`,
`src/crypto/ghash/ghash.c:25-48`).
-/

namespace Noise.Ghash

/-- A variant of the field arithmetic: how the key is kept (`H` of `src/crypto/ghash/ghash.h:35-47`) and the two
functions that depend on the word size. `mul` takes and gives the 16 bytes of `Y`. -/
structure Impl where
  W : Type
  zero : W
  mulInit : Bytes → W
  mul : Bytes → W → Bytes

/-! ## 64-bit words -/

namespace W64

/-- The word that the machine reads from eight bytes. -/
def get (big : Bool) (m : Bytes) (i : Nat) : UInt64 :=
  let b := fun j => (m.getD (i + j) 0).toUInt64
  if big then
    b 0 <<< 56 ||| b 1 <<< 48 ||| b 2 <<< 40 ||| b 3 <<< 32 ||| b 4 <<< 24 ||| b 5 <<< 16 ||| b 6 <<< 8 ||| b 7
  else
    b 7 <<< 56 ||| b 6 <<< 48 ||| b 5 <<< 40 ||| b 4 <<< 32 ||| b 3 <<< 24 ||| b 2 <<< 16 ||| b 1 <<< 8 ||| b 0

/-- The eight bytes of a word in memory. -/
def put (big : Bool) (x : UInt64) : Bytes :=
  let l := [x.toUInt8, (x >>> 8).toUInt8, (x >>> 16).toUInt8, (x >>> 24).toUInt8, (x >>> 32).toUInt8,
    (x >>> 40).toUInt8, (x >>> 48).toUInt8, (x >>> 56).toUInt8]
  if big then l.reverse else l

/-- `swapEndian`, `src/crypto/ghash/ghash.c:54-68`. -/
def swapEndian (big : Bool) (x : UInt64) : UInt64 :=
  if big then x
  else
    ((x >>> (56 : UInt64)) &&& 0x00000000000000FF) |||
    ((x >>> (40 : UInt64)) &&& 0x000000000000FF00) |||
    ((x >>> (24 : UInt64)) &&& 0x0000000000FF0000) |||
    ((x >>> (8 : UInt64)) &&& 0x00000000FF000000) |||
    ((x <<< (8 : UInt64)) &&& 0x000000FF00000000) |||
    ((x <<< (24 : UInt64)) &&& 0x0000FF0000000000) |||
    ((x <<< (40 : UInt64)) &&& 0x00FF000000000000) |||
    ((x <<< (56 : UInt64)) &&& 0xFF00000000000000)

/-- `GF128_mulInit`, `src/crypto/ghash/ghash.c:70-76`. -/
def mulInit (big : Bool) (key : Bytes) : UInt64 × UInt64 :=
  (swapEndian big (get big key 0), swapEndian big (get big key 8))

/-- The local variables of `GF128_mul`, `src/crypto/ghash/ghash.c:80-83`. -/
structure Vars where
  Z0 : UInt64
  Z1 : UInt64
  V0 : UInt64
  V1 : UInt64

/-- The body of the inner loop, `src/crypto/ghash/ghash.c:91-101`. -/
def step (s : Vars) (value : UInt8) : Vars :=
  let mask := ~~~((value >>> 7).toUInt64) + 1
  let Z0 := s.Z0 ^^^ (s.V0 &&& mask)
  let Z1 := s.Z1 ^^^ (s.V1 &&& mask)
  let mask := (~~~(s.V1 &&& 0x01) + 1) &&& 0xE100000000000000
  let V1 := (s.V1 >>> 1) ||| (s.V0 <<< 63)
  let V0 := (s.V0 >>> 1) ^^^ mask
  ⟨Z0, Z1, V0, V1⟩

/-- The inner loop, `src/crypto/ghash/ghash.c:90-102`, with `n` iterations to go. -/
def inner : Nat → Vars → UInt8 → Vars
  | 0, s, _ => s
  | n + 1, s, value => inner n (step s value) (value <<< 1)

/-- `GF128_mul`, `src/crypto/ghash/ghash.c:78-108`. -/
def mul (big : Bool) (Y : Bytes) (H : UInt64 × UInt64) : Bytes :=
  let s := (List.range 16).foldl (fun s posn => inner 8 s (Y.getD posn 0)) ⟨0, 0, H.1, H.2⟩
  put big (swapEndian big s.Z0) ++ put big (swapEndian big s.Z1)

end W64

/-- The 64-bit variant, `src/crypto/ghash/ghash.c:50-108`. -/
def word64 (big : Bool) : Impl := ⟨UInt64 × UInt64, (0, 0), W64.mulInit big, W64.mul big⟩

/-! ## 32-bit words -/

namespace W32

/-- The word that the machine reads from four bytes. -/
def get (big : Bool) (m : Bytes) (i : Nat) : UInt32 :=
  let b := fun j => (m.getD (i + j) 0).toUInt32
  if big then b 0 <<< 24 ||| b 1 <<< 16 ||| b 2 <<< 8 ||| b 3
  else b 3 <<< 24 ||| b 2 <<< 16 ||| b 1 <<< 8 ||| b 0

/-- The four bytes of a word in memory. -/
def put (big : Bool) (x : UInt32) : Bytes :=
  let l := [x.toUInt8, (x >>> 8).toUInt8, (x >>> 16).toUInt8, (x >>> 24).toUInt8]
  if big then l.reverse else l

/-- `swapEndian`, `src/crypto/ghash/ghash.c:114-124`. -/
def swapEndian (big : Bool) (x : UInt32) : UInt32 :=
  if big then x
  else
    ((x >>> (24 : UInt32)) &&& 0x000000FF) |||
    ((x >>> (8 : UInt32)) &&& 0x0000FF00) |||
    ((x <<< (8 : UInt32)) &&& 0x00FF0000) |||
    ((x <<< (24 : UInt32)) &&& 0xFF000000)

/-- Four words. -/
abbrev Words := UInt32 × UInt32 × UInt32 × UInt32

/-- `GF128_mulInit`, `src/crypto/ghash/ghash.c:126-134`. -/
def mulInit (big : Bool) (key : Bytes) : Words :=
  (swapEndian big (get big key 0), swapEndian big (get big key 4), swapEndian big (get big key 8),
    swapEndian big (get big key 12))

/-- The local variables of `GF128_mul`, `src/crypto/ghash/ghash.c:138-145`. -/
structure Vars where
  Z0 : UInt32
  Z1 : UInt32
  Z2 : UInt32
  Z3 : UInt32
  V0 : UInt32
  V1 : UInt32
  V2 : UInt32
  V3 : UInt32

/-- The body of the inner loop, `src/crypto/ghash/ghash.c:153-167`. -/
def step (s : Vars) (value : UInt8) : Vars :=
  let mask := ~~~((value >>> 7).toUInt32) + 1
  let Z0 := s.Z0 ^^^ (s.V0 &&& mask)
  let Z1 := s.Z1 ^^^ (s.V1 &&& mask)
  let Z2 := s.Z2 ^^^ (s.V2 &&& mask)
  let Z3 := s.Z3 ^^^ (s.V3 &&& mask)
  let mask := (~~~(s.V3 &&& 0x01) + 1) &&& 0xE1000000
  let V3 := (s.V3 >>> 1) ||| (s.V2 <<< 31)
  let V2 := (s.V2 >>> 1) ||| (s.V1 <<< 31)
  let V1 := (s.V1 >>> 1) ||| (s.V0 <<< 31)
  let V0 := (s.V0 >>> 1) ^^^ mask
  ⟨Z0, Z1, Z2, Z3, V0, V1, V2, V3⟩

/-- The inner loop, `src/crypto/ghash/ghash.c:152-168`, with `n` iterations to go. -/
def inner : Nat → Vars → UInt8 → Vars
  | 0, s, _ => s
  | n + 1, s, value => inner n (step s value) (value <<< 1)

/-- `GF128_mul`, `src/crypto/ghash/ghash.c:136-176`. -/
def mul (big : Bool) (Y : Bytes) (H : Words) : Bytes :=
  let s := (List.range 16).foldl (fun s posn => inner 8 s (Y.getD posn 0)) ⟨0, 0, 0, 0, H.1, H.2.1, H.2.2.1, H.2.2.2⟩
  put big (swapEndian big s.Z0) ++ put big (swapEndian big s.Z1) ++ put big (swapEndian big s.Z2) ++
    put big (swapEndian big s.Z3)

end W32

/-- The 32-bit variant, `src/crypto/ghash/ghash.c:110-178`. -/
def word32 (big : Bool) : Impl := ⟨W32.Words, (0, 0, 0, 0), W32.mulInit big, W32.mul big⟩

/-! ## The part that does not depend on the word size -/

variable (I : Impl)

/-- `ghash_state`, `src/crypto/ghash/ghash.h:33-49`; `Y` has 16 bytes. -/
structure State where
  H : I.W
  Y : Bytes
  posn : Nat

/-- The object after `noise_new`, `src/backend/ref/cipher-aesgcm.c:192`: all zero. -/
def zero : State I := ⟨I.zero, List.replicate 16 0, 0⟩

variable {I}

/-- `ghash_reset`, `src/crypto/ghash/ghash.c:180-186`. A null key is `none`. -/
def reset (st : State I) (key : Option Bytes) : State I :=
  let H := match key with
    | some key => I.mulInit key
    | none => st.H
  ⟨H, List.replicate 16 0, 0⟩

/-- Lines 201-204 of `src/crypto/ghash/ghash.c`. -/
def flush (st : State I) : State I :=
  if st.posn = 16 then { st with Y := I.mul st.Y st.H, posn := 0 } else st

/-- One iteration of the loop of `ghash_update`, `src/crypto/ghash/ghash.c:192-204`, with what is left. -/
def updateStep (st : State I) (d : Bytes) : Out (State I × Bytes) := do
  let size := 16 - st.posn
  let size := if size > d.length then d.length else size
  let y ← load st.Y st.posn size
  let Y ← store st.Y st.posn (List.zipWith (· ^^^ ·) y (d.take size))
  pure (flush { st with Y := Y, posn := st.posn + size }, d.drop size)

/-- The loop of `ghash_update`, `src/crypto/ghash/ghash.c:191-205`. The first argument bounds the number of
iterations; running out is undefined (it does not happen). -/
def updateLoop : Nat → State I → Bytes → Out (State I)
  | _, st, [] => .ok st
  | 0, _, _ :: _ => .ub
  | n + 1, st, x :: d => do
    let (st, rest) ← updateStep st (x :: d)
    updateLoop n st rest

/-- `ghash_update`, `src/crypto/ghash/ghash.c:188-206`. -/
def update (st : State I) (data : Bytes) : Out (State I) := updateLoop data.length st data

/-- `ghash_pad`, `src/crypto/ghash/ghash.c:216-224`. -/
def pad (st : State I) : State I :=
  if st.posn ≠ 0 then { st with Y := I.mul st.Y st.H, posn := 0 } else st

/-- `ghash_finalize`, `src/crypto/ghash/ghash.c:208-214`: the state and the bytes stored at `token`. -/
def finalize (st : State I) (len : Nat) : Out (State I × Bytes) := do
  let st := pad st
  let len := if len > 16 then 16 else len
  let t ← load st.Y 0 len
  pure (st, t)

end Noise.Ghash
