import Verif.Basic
/-!
# Model of `src/crypto/donna/poly1305-donna.c` with `poly1305-donna-32.h`

The variant for other than 64-bit machines (`src/crypto/donna/poly1305-donna.c:18-22`), with `unsigned long` of 32 and
`unsigned long long` of 64 bits.
-/

namespace Noise.Poly1305W

/-- `poly1305_state_internal_t`, `src/crypto/donna/poly1305-donna-32.h:16-23`. -/
structure Ctx where
  (r0 r1 r2 r3 r4 h0 h1 h2 h3 h4 pad0 pad1 pad2 pad3 : UInt32)
  leftover : Nat
  buffer : Bytes
  final : Bool
  deriving DecidableEq, Repr

/-- `U8TO32`, `src/crypto/donna/poly1305-donna-32.h:26-33`, of the four bytes at offset `i`. -/
def u8to32 (p : Bytes) (i : Nat) : UInt32 :=
  (p.getD i 0).toUInt32 ||| (p.getD (i + 1) 0).toUInt32 <<< 8 ||| (p.getD (i + 2) 0).toUInt32 <<< 16 |||
    (p.getD (i + 3) 0).toUInt32 <<< 24

/-- `U32TO8`, `src/crypto/donna/poly1305-donna-32.h:36-42`: the four bytes stored. -/
def u32to8 (v : UInt32) : Bytes := [v.toUInt8, (v >>> 8).toUInt8, (v >>> 16).toUInt8, (v >>> 24).toUInt8]

/-- `poly1305_init`, `src/crypto/donna/poly1305-donna-32.h:44-70`. The buffer keeps its contents. -/
def init (st : Ctx) (key : Bytes) : Ctx :=
  { st with
    r0 := u8to32 key 0 &&& 0x3ffffff
    r1 := (u8to32 key 3 >>> 2) &&& 0x3ffff03
    r2 := (u8to32 key 6 >>> 4) &&& 0x3ffc0ff
    r3 := (u8to32 key 9 >>> 6) &&& 0x3f03fff
    r4 := (u8to32 key 12 >>> 8) &&& 0x00fffff
    h0 := 0, h1 := 0, h2 := 0, h3 := 0, h4 := 0
    pad0 := u8to32 key 16
    pad1 := u8to32 key 20
    pad2 := u8to32 key 24
    pad3 := u8to32 key 28
    leftover := 0
    final := false }

/-- The five words `h0` to `h4`. -/
structure Acc where
  (h0 h1 h2 h3 h4 : UInt32)
  deriving DecidableEq, Repr

/-- Adding a block, `src/crypto/donna/poly1305-donna-32.h:99-104`. -/
def addBlock (hibit : UInt32) (h : Acc) (m : Bytes) : Acc :=
  { h0 := h.h0 + (u8to32 m 0 &&& 0x3ffffff)
    h1 := h.h1 + ((u8to32 m 3 >>> 2) &&& 0x3ffffff)
    h2 := h.h2 + ((u8to32 m 6 >>> 4) &&& 0x3ffffff)
    h3 := h.h3 + ((u8to32 m 9 >>> 6) &&& 0x3ffffff)
    h4 := h.h4 + ((u8to32 m 12 >>> 8) ||| hibit) }

/-- A product as on lines 107-111: 32 times 32 bits. -/
def mul (x y : UInt32) : UInt64 := x.toUInt64 * y.toUInt64

/-- The partial reduction, `src/crypto/donna/poly1305-donna-32.h:113-120`. -/
def reduce (d0 d1 d2 d3 d4 : UInt64) : Acc :=
  let c := (d0 >>> 26).toUInt32
  let h0 := d0.toUInt32 &&& 0x3ffffff
  let d1 := d1 + c.toUInt64
  let c := (d1 >>> 26).toUInt32
  let h1 := d1.toUInt32 &&& 0x3ffffff
  let d2 := d2 + c.toUInt64
  let c := (d2 >>> 26).toUInt32
  let h2 := d2.toUInt32 &&& 0x3ffffff
  let d3 := d3 + c.toUInt64
  let c := (d3 >>> 26).toUInt32
  let h3 := d3.toUInt32 &&& 0x3ffffff
  let d4 := d4 + c.toUInt64
  let c := (d4 >>> 26).toUInt32
  let h4 := d4.toUInt32 &&& 0x3ffffff
  let h0 := h0 + c * 5
  let c := h0 >>> 26
  let h0 := h0 &&& 0x3ffffff
  let h1 := h1 + c
  ⟨h0, h1, h2, h3, h4⟩

/-- Multiplication and partial reduction, `src/crypto/donna/poly1305-donna-32.h:106-120` (`s1` to `s4` as on lines 87-90). -/
def mulReduce (st : Ctx) (h : Acc) : Acc :=
  let s1 := st.r1 * 5
  let s2 := st.r2 * 5
  let s3 := st.r3 * 5
  let s4 := st.r4 * 5
  reduce (mul h.h0 st.r0 + mul h.h1 s4 + mul h.h2 s3 + mul h.h3 s2 + mul h.h4 s1)
    (mul h.h0 st.r1 + mul h.h1 st.r0 + mul h.h2 s4 + mul h.h3 s3 + mul h.h4 s2)
    (mul h.h0 st.r2 + mul h.h1 st.r1 + mul h.h2 st.r0 + mul h.h3 s4 + mul h.h4 s3)
    (mul h.h0 st.r3 + mul h.h1 st.r2 + mul h.h2 st.r1 + mul h.h3 st.r0 + mul h.h4 s4)
    (mul h.h0 st.r4 + mul h.h1 st.r3 + mul h.h2 st.r2 + mul h.h3 st.r1 + mul h.h4 st.r0)

/-- The loop of `poly1305_blocks`, `src/crypto/donna/poly1305-donna-32.h:98-124`; the first argument is the number of whole
blocks in `bytes`. -/
def blocksLoop (st : Ctx) (hibit : UInt32) : Nat → Acc → Bytes → Acc
  | 0, h, _ => h
  | n + 1, h, m => blocksLoop st hibit n (mulReduce st (addBlock hibit h m)) (m.drop 16)

/-- `poly1305_blocks`, `src/crypto/donna/poly1305-donna-32.h:72-131`, of the bytes `m`. -/
def blocks (st : Ctx) (m : Bytes) : Ctx :=
  let hibit : UInt32 := if st.final then 0 else (1 : UInt32) <<< 24
  let h := blocksLoop st hibit (m.length / 16) ⟨st.h0, st.h1, st.h2, st.h3, st.h4⟩ m
  { st with h0 := h.h0, h1 := h.h1, h2 := h.h2, h3 := h.h3, h4 := h.h4 }

/-- `poly1305_update` after the left over bytes have been dealt with,
`src/crypto/donna/poly1305-donna.c:47-60`. -/
def updateRest (st : Ctx) (m : Bytes) : Out Ctx := do
  let (st, m) := if m.length ≥ 16 then
      let want := m.length - m.length % 16
      (blocks st (m.take want), m.drop want)
    else (st, m)
  if m.length ≠ 0 then
    let b ← store st.buffer st.leftover m
    pure { st with buffer := b, leftover := st.leftover + m.length }
  else pure st

/-- `poly1305_update`, `src/crypto/donna/poly1305-donna.c:26-61`. -/
def update (st : Ctx) (m : Bytes) : Out Ctx :=
  if st.leftover ≠ 0 then
    let want := 16 - st.leftover
    let want := if want > m.length then m.length else want
    do
      let b ← store st.buffer st.leftover (m.take want)
      let m := m.drop want
      let st := { st with buffer := b, leftover := st.leftover + want }
      if st.leftover < 16 then pure st
      else updateRest { blocks st st.buffer with leftover := 0 } m
  else updateRest st m

/-- Complete carry, `src/crypto/donna/poly1305-donna-32.h:151-163`. -/
def carry (h : Acc) : Acc :=
  let c := h.h1 >>> 26
  let h1 := h.h1 &&& 0x3ffffff
  let h2 := h.h2 + c
  let c := h2 >>> 26
  let h2 := h2 &&& 0x3ffffff
  let h3 := h.h3 + c
  let c := h3 >>> 26
  let h3 := h3 &&& 0x3ffffff
  let h4 := h.h4 + c
  let c := h4 >>> 26
  let h4 := h4 &&& 0x3ffffff
  let h0 := h.h0 + c * 5
  let c := h0 >>> 26
  let h0 := h0 &&& 0x3ffffff
  let h1 := h1 + c
  ⟨h0, h1, h2, h3, h4⟩

/-- Selecting `h` or `h - p`, `src/crypto/donna/poly1305-donna-32.h:165-184`. -/
def select (h : Acc) : Acc :=
  let g0 := h.h0 + 5
  let c := g0 >>> 26
  let g0 := g0 &&& 0x3ffffff
  let g1 := h.h1 + c
  let c := g1 >>> 26
  let g1 := g1 &&& 0x3ffffff
  let g2 := h.h2 + c
  let c := g2 >>> 26
  let g2 := g2 &&& 0x3ffffff
  let g3 := h.h3 + c
  let c := g3 >>> 26
  let g3 := g3 &&& 0x3ffffff
  let g4 := h.h4 + c - ((1 : UInt32) <<< 26)
  let mask := (g4 >>> 31) - 1
  let g0 := g0 &&& mask
  let g1 := g1 &&& mask
  let g2 := g2 &&& mask
  let g3 := g3 &&& mask
  let g4 := g4 &&& mask
  let mask := ~~~mask
  ⟨(h.h0 &&& mask) ||| g0, (h.h1 &&& mask) ||| g1, (h.h2 &&& mask) ||| g2, (h.h3 &&& mask) ||| g3, (h.h4 &&& mask) ||| g4⟩

/-- Adding the pad and storing the result, `src/crypto/donna/poly1305-donna-32.h:186-201`. -/
def addPad (st : Ctx) (h : Acc) : Bytes :=
  let h0 := (h.h0 ||| (h.h1 <<< 26)) &&& 0xffffffff
  let h1 := ((h.h1 >>> 6) ||| (h.h2 <<< 20)) &&& 0xffffffff
  let h2 := ((h.h2 >>> 12) ||| (h.h3 <<< 14)) &&& 0xffffffff
  let h3 := ((h.h3 >>> 18) ||| (h.h4 <<< 8)) &&& 0xffffffff
  let f := h0.toUInt64 + st.pad0.toUInt64
  let h0 := f.toUInt32
  let f := h1.toUInt64 + st.pad1.toUInt64 + (f >>> 32)
  let h1 := f.toUInt32
  let f := h2.toUInt64 + st.pad2.toUInt64 + (f >>> 32)
  let h2 := f.toUInt32
  let f := h3.toUInt64 + st.pad3.toUInt64 + (f >>> 32)
  let h3 := f.toUInt32
  u32to8 h0 ++ u32to8 h1 ++ u32to8 h2 ++ u32to8 h3

/-- The last, partial, block, `src/crypto/donna/poly1305-donna-32.h:141-149`. -/
def lastBlock (st : Ctx) : Out Ctx :=
  if st.leftover ≠ 0 then do
    let b ← store st.buffer st.leftover [1]
    let b ← store b (st.leftover + 1) (List.replicate (16 - (st.leftover + 1)) 0)
    pure (blocks { st with buffer := b, final := true } b)
  else pure st

/-- `poly1305_finish`, `src/crypto/donna/poly1305-donna-32.h:133-218`: the cleared state and the MAC. -/
def finish (st : Ctx) : Out (Ctx × Bytes) := do
  let st ← lastBlock st
  let mac := addPad st (select (carry ⟨st.h0, st.h1, st.h2, st.h3, st.h4⟩))
  pure ({ st with
    h0 := 0, h1 := 0, h2 := 0, h3 := 0, h4 := 0, r0 := 0, r1 := 0, r2 := 0, r3 := 0, r4 := 0
    pad0 := 0, pad1 := 0, pad2 := 0, pad3 := 0 }, mac)

/-- A context with nothing in it, for a fresh object. Models the cleared memory of
`src/backend/ref/cipher-chachapoly.c:146`. -/
def zero : Ctx := ⟨0, 0, 0, 0, 0, 0, 0, 0, 0, 0, 0, 0, 0, 0, 0, List.replicate 16 0, false⟩

/-- `poly1305_auth`, `src/crypto/donna/poly1305-donna.c:63-69`, with any contents of the context on the
stack. -/
def auth (st : Ctx) (m key : Bytes) : Out Bytes := do
  let st ← update (init st key) m
  let (_, mac) ← finish st
  pure mac

end Noise.Poly1305W
