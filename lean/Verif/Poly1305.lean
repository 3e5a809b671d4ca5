import Verif.Basic
/-!
# Model of `src/crypto/donna/poly1305-donna.c` with `poly1305-donna-64.h`

The variant for 64-bit machines (`src/crypto/donna/poly1305-donna.c:16-23`). A value of type `uint128_t` is a
natural number; its operations are computed modulo 2^128 as in C.
-/

namespace Noise.Poly1305

/-- `poly1305_state_internal_t`, `src/crypto/donna/poly1305-donna-64.h:39-46`. -/
structure Ctx where
  (r0 r1 r2 h0 h1 h2 pad0 pad1 : UInt64)
  leftover : Nat
  buffer : Bytes
  final : Bool
  deriving DecidableEq, Repr

/-- `U8TO64`, `src/crypto/donna/poly1305-donna-64.h:49-60`, of the eight bytes at offset `i`. -/
def u8to64 (p : Bytes) (i : Nat) : UInt64 :=
  (p.getD i 0).toUInt64 ||| (p.getD (i + 1) 0).toUInt64 <<< 8 ||| (p.getD (i + 2) 0).toUInt64 <<< 16 |||
    (p.getD (i + 3) 0).toUInt64 <<< 24 ||| (p.getD (i + 4) 0).toUInt64 <<< 32 |||
    (p.getD (i + 5) 0).toUInt64 <<< 40 ||| (p.getD (i + 6) 0).toUInt64 <<< 48 |||
    (p.getD (i + 7) 0).toUInt64 <<< 56

/-- `U64TO8`, `src/crypto/donna/poly1305-donna-64.h:63-73`: the eight bytes stored. -/
def u64to8 (v : UInt64) : Bytes :=
  [v.toUInt8, (v >>> 8).toUInt8, (v >>> 16).toUInt8, (v >>> 24).toUInt8, (v >>> 32).toUInt8,
    (v >>> 40).toUInt8, (v >>> 48).toUInt8, (v >>> 56).toUInt8]

/-- `MUL`, `src/crypto/donna/poly1305-donna-64.h:27`: the product of two 64-bit numbers. -/
def mul (x y : UInt64) : Nat := x.toNat * y.toNat % 2 ^ 128
/-- `ADD` and `ADDLO`, `src/crypto/donna/poly1305-donna-64.h:28-29`. -/
def add (x y : Nat) : Nat := (x + y) % 2 ^ 128
/-- `SHR`, `src/crypto/donna/poly1305-donna-64.h:30`, converted to 64 bits. -/
def shr (x shift : Nat) : UInt64 := UInt64.ofNat (x / 2 ^ shift)
/-- `LO`, `src/crypto/donna/poly1305-donna-64.h:31`. -/
def lo (x : Nat) : UInt64 := UInt64.ofNat x

/-- `poly1305_init`, `src/crypto/donna/poly1305-donna-64.h:75-99`. The buffer keeps its contents. -/
def init (st : Ctx) (key : Bytes) : Ctx :=
  let t0 := u8to64 key 0
  let t1 := u8to64 key 8
  { st with
    r0 := t0 &&& 0xffc0fffffff
    r1 := ((t0 >>> 44) ||| (t1 <<< 20)) &&& 0xfffffc0ffff
    r2 := (t1 >>> 24) &&& 0x00ffffffc0f
    h0 := 0, h1 := 0, h2 := 0
    pad0 := u8to64 key 16
    pad1 := u8to64 key 24
    leftover := 0
    final := false }

/-- The three words `h0`, `h1`, `h2`. -/
structure Acc where
  (h0 h1 h2 : UInt64)
  deriving DecidableEq, Repr

/-- Adding a block, `src/crypto/donna/poly1305-donna-64.h:125-131`. -/
def addBlock (hibit : UInt64) (h : Acc) (m : Bytes) : Acc :=
  let t0 := u8to64 m 0
  let t1 := u8to64 m 8
  { h0 := h.h0 + (t0 &&& 0xfffffffffff)
    h1 := h.h1 + (((t0 >>> 44) ||| (t1 <<< 20)) &&& 0xfffffffffff)
    h2 := h.h2 + (((t1 >>> 24) &&& 0x3ffffffffff) ||| hibit) }

/-- Multiplication and partial reduction, `src/crypto/donna/poly1305-donna-64.h:133-143` (`s1` and `s2` as
on lines 118-119). -/
def mulReduce (st : Ctx) (h : Acc) : Acc :=
  let s1 := st.r1 * ((5 : UInt64) <<< 2)
  let s2 := st.r2 * ((5 : UInt64) <<< 2)
  let d0 := add (add (mul h.h0 st.r0) (mul h.h1 s2)) (mul h.h2 s1)
  let d1 := add (add (mul h.h0 st.r1) (mul h.h1 st.r0)) (mul h.h2 s2)
  let d2 := add (add (mul h.h0 st.r2) (mul h.h1 st.r1)) (mul h.h2 st.r0)
  let c := shr d0 44
  let h0 := lo d0 &&& 0xfffffffffff
  let d1 := add d1 c.toNat
  let c := shr d1 44
  let h1 := lo d1 &&& 0xfffffffffff
  let d2 := add d2 c.toNat
  let c := shr d2 42
  let h2 := lo d2 &&& 0x3ffffffffff
  let h0 := h0 + c * 5
  let c := h0 >>> 44
  let h0 := h0 &&& 0xfffffffffff
  let h1 := h1 + c
  ⟨h0, h1, h2⟩

/-- The loop of `poly1305_blocks`, `src/crypto/donna/poly1305-donna-64.h:121-147`; the first argument is the
number of whole blocks in `bytes`. -/
def blocksLoop (st : Ctx) (hibit : UInt64) : Nat → Acc → Bytes → Acc
  | 0, h, _ => h
  | n + 1, h, m => blocksLoop st hibit n (mulReduce st (addBlock hibit h m)) (m.drop 16)

/-- `poly1305_blocks`, `src/crypto/donna/poly1305-donna-64.h:101-151`, of the bytes `m`. -/
def blocks (st : Ctx) (m : Bytes) : Ctx :=
  let hibit : UInt64 := if st.final then 0 else (1 : UInt64) <<< 40
  let h := blocksLoop st hibit (m.length / 16) ⟨st.h0, st.h1, st.h2⟩ m
  { st with h0 := h.h0, h1 := h.h1, h2 := h.h2 }

/-- `poly1305_update` after the left over bytes have been dealt with,
`src/crypto/donna/poly1305-donna.c:47-60`. -/
def updateRest (st : Ctx) (m : Bytes) : Out Ctx := do
  let (st, m) := if m.length ≥ 16 then
      let want := m.length - m.length % 16
      (blocks st (m.take want), m.drop want)
    else (st, m)
  if m.length ≠ 0 then
    let b ← store st.buffer st.leftover m
    pure { st with buffer := b, leftover := st.leftover + m.length }
  else pure st

/-- `poly1305_update`, `src/crypto/donna/poly1305-donna.c:26-61`. -/
def update (st : Ctx) (m : Bytes) : Out Ctx :=
  if st.leftover ≠ 0 then
    let want := 16 - st.leftover
    let want := if want > m.length then m.length else want
    do
      let b ← store st.buffer st.leftover (m.take want)
      let m := m.drop want
      let st := { st with buffer := b, leftover := st.leftover + want }
      if st.leftover < 16 then pure st
      else updateRest { blocks st st.buffer with leftover := 0 } m
  else updateRest st m

/-- Complete carry, `src/crypto/donna/poly1305-donna-64.h:176-182`. -/
def carry (h : Acc) : Acc :=
  let c := h.h1 >>> 44
  let h1 := h.h1 &&& 0xfffffffffff
  let h2 := h.h2 + c
  let c := h2 >>> 42
  let h2 := h2 &&& 0x3ffffffffff
  let h0 := h.h0 + c * 5
  let c := h0 >>> 44
  let h0 := h0 &&& 0xfffffffffff
  let h1 := h1 + c
  let c := h1 >>> 44
  let h1 := h1 &&& 0xfffffffffff
  let h2 := h2 + c
  let c := h2 >>> 42
  let h2 := h2 &&& 0x3ffffffffff
  let h0 := h0 + c * 5
  let c := h0 >>> 44
  let h0 := h0 &&& 0xfffffffffff
  let h1 := h1 + c
  ⟨h0, h1, h2⟩

/-- Selecting `h` or `h - p`, `src/crypto/donna/poly1305-donna-64.h:184-197`. -/
def select (h : Acc) : Acc :=
  let g0 := h.h0 + 5
  let c := g0 >>> 44
  let g0 := g0 &&& 0xfffffffffff
  let g1 := h.h1 + c
  let c := g1 >>> 44
  let g1 := g1 &&& 0xfffffffffff
  let g2 := h.h2 + c - ((1 : UInt64) <<< 42)
  let c := (g2 >>> 63) - 1
  let g0 := g0 &&& c
  let g1 := g1 &&& c
  let g2 := g2 &&& c
  let c := ~~~c
  ⟨(h.h0 &&& c) ||| g0, (h.h1 &&& c) ||| g1, (h.h2 &&& c) ||| g2⟩

/-- Adding the pad and storing the result, `src/crypto/donna/poly1305-donna-64.h:199-212`. -/
def addPad (st : Ctx) (h : Acc) : Bytes :=
  let t0 := st.pad0
  let t1 := st.pad1
  let h0 := h.h0 + (t0 &&& 0xfffffffffff)
  let c := h0 >>> 44
  let h0 := h0 &&& 0xfffffffffff
  let h1 := h.h1 + ((((t0 >>> 44) ||| (t1 <<< 20)) &&& 0xfffffffffff) + c)
  let c := h1 >>> 44
  let h1 := h1 &&& 0xfffffffffff
  let h2 := h.h2 + (((t1 >>> 24) &&& 0x3ffffffffff) + c)
  let h2 := h2 &&& 0x3ffffffffff
  let h0 := h0 ||| (h1 <<< 44)
  let h1 := (h1 >>> 20) ||| (h2 <<< 24)
  u64to8 h0 ++ u64to8 h1

/-- The last, partial, block, `src/crypto/donna/poly1305-donna-64.h:161-169`. -/
def lastBlock (st : Ctx) : Out Ctx :=
  if st.leftover ≠ 0 then do
    let b ← store st.buffer st.leftover [1]
    let b ← store b (st.leftover + 1) (List.replicate (16 - (st.leftover + 1)) 0)
    pure (blocks { st with buffer := b, final := true } b)
  else pure st

/-- `poly1305_finish`, `src/crypto/donna/poly1305-donna-64.h:154-223`: the cleared state and the MAC. -/
def finish (st : Ctx) : Out (Ctx × Bytes) := do
  let st ← lastBlock st
  let mac := addPad st (select (carry ⟨st.h0, st.h1, st.h2⟩))
  pure ({ st with h0 := 0, h1 := 0, h2 := 0, r0 := 0, r1 := 0, r2 := 0, pad0 := 0, pad1 := 0 }, mac)

/-- A context with nothing in it, for a fresh object. Models the cleared memory of
`src/backend/ref/cipher-chachapoly.c:146`. -/
def zero : Ctx := ⟨0, 0, 0, 0, 0, 0, 0, 0, 0, List.replicate 16 0, false⟩

/-- `poly1305_auth`, `src/crypto/donna/poly1305-donna.c:63-69`, with any contents of the context on the
stack. -/
def auth (st : Ctx) (m key : Bytes) : Out Bytes := do
  let st ← update (init st key) m
  let (_, mac) ← finish st
  pure mac

end Noise.Poly1305
