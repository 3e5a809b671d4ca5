import Verif.Basic
/-!
# Model of `src/protobufs/protobufs.c`

`NoiseProtobuf` and all functions on it. The value `int tag` is an `Int`; a negative tag is converted to
`uint64_t` in two's complement (its left shift on lines 564 and 1205 is undefined in ISO C, every
compiler in use shifts the bits). `float` and `double` are represented by their bit patterns, which is
all the code looks at (the unions of lines 787 and 1544). NULL arguments, refused on entry, are not
modelled. `size_t` has 64 bits, so the range checks for small types (lines 1105 and 1140) are absent.
-/

namespace Noise

/-- `NoiseProtobuf`, `include/noise/protobufs.h:34-41`; `data` is absent when measuring. -/
structure PB where
  data : Option Bytes
  size : Nat
  posn : Nat
  err : Err
  deriving DecidableEq, Repr

namespace PB

/-! ## Preparing and finishing -/

/-- `noise_protobuf_prepare_input`, `src/protobufs/protobufs.c:243-253`. -/
def prepareInput (data : Bytes) : PB := { data := some data, size := data.length, posn := 0, err := .none }

/-- `noise_protobuf_prepare_output`, `src/protobufs/protobufs.c:267-277`. -/
def prepareOutput (data : Bytes) : PB :=
  { data := some data, size := data.length, posn := data.length, err := .none }

/-- `noise_protobuf_prepare_measure`, `src/protobufs/protobufs.c:292-301`. -/
def prepareMeasure (maxSize : Nat) : PB := { data := none, size := maxSize, posn := maxSize, err := .none }

/-- `noise_protobuf_finish_input`, `src/protobufs/protobufs.c:322-333`. -/
def finishInput (p : PB) : Err × PB :=
  if p.err ≠ .none then (p.err, p)
  else if p.posn ≠ p.size then (.invalidFormat, { p with err := .invalidFormat })
  else (.none, p)

/-- `noise_protobuf_finish_output`, `src/protobufs/protobufs.c:361-376`: the offset of the message in
the buffer (if there is a buffer) and its size. -/
def finishOutput (p : PB) : Err × Option Nat × Nat :=
  if p.err ≠ .none then (p.err, none, 0)
  else (.none, p.data.map fun _ => p.posn, p.size - p.posn)

/-- `noise_protobuf_finish_output_shift`, `src/protobufs/protobufs.c:404-424`: the message is moved to
the start of the buffer. -/
def finishOutputShift (p : PB) : Out (Err × PB × Nat) :=
  if p.err ≠ .none then .ok (p.err, p, 0)
  else match p.data with
  | none => .ok (.none, p, p.size - p.posn)
  | some d =>
    if p.posn ≠ 0 then do
      let m ← load d p.posn (p.size - p.posn)
      let d' ← store d 0 m
      pure (.none, { p with data := some d' }, p.size - p.posn)
    else .ok (.none, p, p.size - p.posn)

/-- `noise_protobuf_finish_measure`, `src/protobufs/protobufs.c:444-456`. -/
def finishMeasure (p : PB) : Err × Nat :=
  if p.err ≠ .none then (p.err, 0) else (.none, p.size - p.posn)

/-! ## Writing -/

/-- `noise_protobuf_reserve_space`, `src/protobufs/protobufs.c:470-487`. The pointer is an offset into
`data`. -/
def reserveSpace (p : PB) (size : Nat) : Err × PB × Option Nat :=
  if p.err ≠ .none then (p.err, p, none)
  else if size > p.posn then (.invalidLength, { p with err := .invalidLength }, none)
  else (.none, { p with posn := p.posn - size }, p.data.map fun _ => p.posn - size)

/-- A store through the pointer returned by `noise_protobuf_reserve_space`, e.g.
`src/protobufs/protobufs.c:719-724`. -/
def poke (p : PB) (off : Nat) (bytes : Bytes) : Out PB :=
  match p.data with
  | none => .ub
  | some d => do
    let d' ← store d off bytes
    pure { p with data := some d' }

/-- The number of bytes of a varint, `src/protobufs/protobufs.c:510-529`. -/
def varintSize (value : UInt64) : Nat :=
  if value.toNat < 2 ^ 7 then 1
  else if value.toNat < 2 ^ 14 then 2
  else if value.toNat < 2 ^ 21 then 3
  else if value.toNat < 2 ^ 28 then 4
  else if value.toNat < 2 ^ 35 then 5
  else if value.toNat < 2 ^ 42 then 6
  else if value.toNat < 2 ^ 49 then 7
  else if value.toNat < 2 ^ 56 then 8
  else if value.toNat < 2 ^ 63 then 9
  else 10

/-- The loop `src/protobufs/protobufs.c:535-540`; the argument is `size - 1`. -/
def varintBytes : Nat → UInt64 → Bytes
  | 0, value => [value.toUInt8 &&& 0x7F]
  | n + 1, value => (value.toUInt8 ||| 0x80) :: varintBytes n (value >>> 7)

/-- `noise_protobuf_write_varint`, `src/protobufs/protobufs.c:505-542`. -/
def writeVarint (p : PB) (value : UInt64) : Out (Err × PB) :=
  let size := varintSize value
  match p.reserveSpace size with
  | (.none, p, none) => .ok (.none, p)
  | (.none, p, some off) => do
    let p ← p.poke off (varintBytes (size - 1) value)
    pure (.none, p)
  | (e, p, _) => .ok (e, p)

/-- `(uint64_t)((((int64_t)tag) << NOISE_PROTOBUF_WIRE_BITS) | (int64_t)type)`,
`src/protobufs/protobufs.c:564-565` and `:1205`. -/
def tagWord (tag : Int) (type : Nat) : UInt64 := UInt64.ofNat ((tag * 8 + type) % 2 ^ 64).toNat

/-- Wire types, `src/protobufs/protobufs.c:219-222`. -/
def wireVarint : Nat := 0
/-- `src/protobufs/protobufs.c:220`. -/
def wire64 : Nat := 1
/-- `src/protobufs/protobufs.c:221`. -/
def wireDelim : Nat := 2
/-- `src/protobufs/protobufs.c:222`. -/
def wire32 : Nat := 5

/-- `noise_protobuf_write_tag`, `src/protobufs/protobufs.c:555-566`. -/
def writeTag (p : PB) (tag : Int) (type : Nat) : Out (Err × PB) :=
  if p.err ≠ .none then .ok (p.err, p)
  else if tag = 0 then .ok (.none, p)
  else p.writeVarint (tagWord tag type)

/-- `noise_protobuf_write_integer`, `src/protobufs/protobufs.c:579-586`. -/
def writeInteger (p : PB) (tag : Int) (value : UInt64) : Out (Err × PB) := do
  let (err, p) ← p.writeVarint value
  if err ≠ .none then pure (err, p) else p.writeTag tag wireVarint

/-- `noise_protobuf_write_int32`, `src/protobufs/protobufs.c:599-602`. -/
def writeInt32 (p : PB) (tag : Int) (value : Int32) : Out (Err × PB) :=
  p.writeInteger tag value.toInt64.toUInt64

/-- `noise_protobuf_write_uint32`, `src/protobufs/protobufs.c:615-618`. -/
def writeUInt32 (p : PB) (tag : Int) (value : UInt32) : Out (Err × PB) :=
  p.writeInteger tag value.toUInt64

/-- `noise_protobuf_write_int64`, `src/protobufs/protobufs.c:631-634`. -/
def writeInt64 (p : PB) (tag : Int) (value : Int64) : Out (Err × PB) :=
  p.writeInteger tag value.toUInt64

/-- `noise_protobuf_write_uint64`, `src/protobufs/protobufs.c:647-650`. -/
def writeUInt64 (p : PB) (tag : Int) (value : UInt64) : Out (Err × PB) := p.writeInteger tag value

/-- The value written by `noise_protobuf_write_sint32`, `src/protobufs/protobufs.c:665-666`. -/
def zigzag32 (value : Int32) : UInt64 :=
  ((value.toUInt32 <<< 1) ^^^ (value >>> 31).toUInt32).toUInt64

/-- `noise_protobuf_write_sint32`, `src/protobufs/protobufs.c:663-667`. -/
def writeSInt32 (p : PB) (tag : Int) (value : Int32) : Out (Err × PB) := p.writeInteger tag (zigzag32 value)

/-- The value written by `noise_protobuf_write_sint64`, `src/protobufs/protobufs.c:682-683`. -/
def zigzag64 (value : Int64) : UInt64 := (value.toUInt64 <<< 1) ^^^ (value >>> 63).toUInt64

/-- `noise_protobuf_write_sint64`, `src/protobufs/protobufs.c:680-684`. -/
def writeSInt64 (p : PB) (tag : Int) (value : Int64) : Out (Err × PB) := p.writeInteger tag (zigzag64 value)

/-- The four bytes stored on lines 720-723 of `src/protobufs/protobufs.c`. -/
def le32 (v : UInt32) : Bytes :=
  [v.toUInt8, (v >>> 8).toUInt8, (v >>> 16).toUInt8, (v >>> 24).toUInt8]

/-- The eight bytes stored on lines 762-769 of `src/protobufs/protobufs.c`. -/
def le64 (v : UInt64) : Bytes :=
  [v.toUInt8, (v >>> 8).toUInt8, (v >>> 16).toUInt8, (v >>> 24).toUInt8,
   (v >>> 32).toUInt8, (v >>> 40).toUInt8, (v >>> 48).toUInt8, (v >>> 56).toUInt8]

/-- `noise_protobuf_write_fixed32`, `src/protobufs/protobufs.c:713-726`. -/
def writeFixed32 (p : PB) (tag : Int) (value : UInt32) : Out (Err × PB) :=
  match p.reserveSpace 4 with
  | (.none, p, none) => p.writeTag tag wire32
  | (.none, p, some off) => do
    let p ← p.poke off (le32 value)
    p.writeTag tag wire32
  | (e, p, _) => .ok (e, p)

/-- `noise_protobuf_write_sfixed32`, `src/protobufs/protobufs.c:697-700`. -/
def writeSFixed32 (p : PB) (tag : Int) (value : Int32) : Out (Err × PB) := p.writeFixed32 tag value.toUInt32

/-- `noise_protobuf_write_fixed64`, `src/protobufs/protobufs.c:755-772`. -/
def writeFixed64 (p : PB) (tag : Int) (value : UInt64) : Out (Err × PB) :=
  match p.reserveSpace 8 with
  | (.none, p, none) => p.writeTag tag wire64
  | (.none, p, some off) => do
    let p ← p.poke off (le64 value)
    p.writeTag tag wire64
  | (e, p, _) => .ok (e, p)

/-- `noise_protobuf_write_sfixed64`, `src/protobufs/protobufs.c:739-742`. -/
def writeSFixed64 (p : PB) (tag : Int) (value : Int64) : Out (Err × PB) := p.writeFixed64 tag value.toUInt64

/-- `noise_protobuf_write_float`, `src/protobufs/protobufs.c:785-793`, on the bit pattern. -/
def writeFloat (p : PB) (tag : Int) (bits : UInt32) : Out (Err × PB) := p.writeFixed32 tag bits

/-- `noise_protobuf_write_double`, `src/protobufs/protobufs.c:806-814`, on the bit pattern. -/
def writeDouble (p : PB) (tag : Int) (bits : UInt64) : Out (Err × PB) := p.writeFixed64 tag bits

/-- `noise_protobuf_write_bool`, `src/protobufs/protobufs.c:827-830`. -/
def writeBool (p : PB) (tag : Int) (value : Int32) : Out (Err × PB) :=
  p.writeInteger tag (if value ≠ 0 then 1 else 0)

/-- `ch < 0x80 || ch > 0xBF`, e.g. `src/protobufs/protobufs.c:862`. -/
def notCont (ch : UInt8) : Bool := ch < 0x80 || ch > 0xBF

/-- `noise_protobuf_is_utf8`, `src/protobufs/protobufs.c:843-916`: `str` is the memory from the current
pointer on, `size` the counter. Three- and four-byte sequences decrease the counter without moving the
pointer past the continuation bytes (lines 877 and 902). -/
def isUtf8 : Nat → Bytes → Out Bool
  | 0, _ => .ok true
  | _ + 1, [] => .ub
  | size + 1, ch :: str =>
    if ch = 0 then .ok false
    else if ch < 0x80 then isUtf8 size str
    else if ch ≥ 0xC2 && ch ≤ 0xDF then
      match size, str with
      | 0, _ => .ok false
      | _ + 1, [] => .ub
      | size + 1, c1 :: str => if notCont c1 then .ok false else isUtf8 size str
    else if ch ≥ 0xE0 && ch ≤ 0xEF then
      if size < 2 then .ok false
      else match str with
      | c1 :: c2 :: _ =>
        if notCont c1 then .ok false
        else if notCont c2 then .ok false
        else
          let code : UInt32 := ((ch &&& 0x0F).toUInt32 <<< 12) ||| ((c1 &&& 0x3F).toUInt32 <<< 6) |||
            (c2 &&& 0x3F).toUInt32
          if code ≥ 0xD800 && code ≤ 0xDFFF then .ok false
          else if code < 0x0800 then .ok false
          else isUtf8 (size - 2) str
      | _ => .ub
    else if ch ≥ 0xF0 && ch ≤ 0xF4 then
      if size < 3 then .ok false
      else match str with
      | c1 :: c2 :: c3 :: _ =>
        if notCont c1 then .ok false
        else if notCont c2 then .ok false
        else if notCont c3 then .ok false
        else
          let code : UInt32 := ((ch &&& 0x07).toUInt32 <<< 18) ||| ((c1 &&& 0x3F).toUInt32 <<< 12) |||
            ((c2 &&& 0x3F).toUInt32 <<< 6) ||| (c3 &&& 0x3F).toUInt32
          if code > 0x10FFFF then .ok false
          else if code < 0x10000 then .ok false
          else isUtf8 (size - 3) str
      | _ => .ub
    else .ok false
termination_by size => size

/-- `noise_protobuf_write_bytes`, `src/protobufs/protobufs.c:962-978`. -/
def writeBytes (p : PB) (tag : Int) (data : Bytes) : Out (Err × PB) :=
  match p.reserveSpace data.length with
  | (.none, p, off) => do
    let p ← match off with
      | some off => if data.length ≠ 0 then p.poke off data else pure p
      | none => pure p
    let (err, p) ← p.writeVarint (UInt64.ofNat data.length)
    if err ≠ .none then pure (err, p) else p.writeTag tag wireDelim
  | (e, p, _) => .ok (e, p)

/-- `noise_protobuf_write_string`, `src/protobufs/protobufs.c:934-946`. -/
def writeString (p : PB) (tag : Int) (str : Bytes) : Out (Err × PB) :=
  if p.err ≠ .none then .ok (p.err, p)
  else do
    let ok ← isUtf8 str.length str
    if ok = false then pure (.invalidFormat, { p with err := .invalidFormat })
    else p.writeBytes tag str

/-- `noise_protobuf_write_end_element`, `src/protobufs/protobufs.c:999-1009`. -/
def writeEndElement (p : PB) : Err × Nat :=
  if p.err ≠ .none then (p.err, 0) else (.none, p.posn)

/-- `noise_protobuf_write_start_element`, `src/protobufs/protobufs.c:1026-1038`. -/
def writeStartElement (p : PB) (tag : Int) (endPosn : Nat) : Out (Err × PB) :=
  if endPosn < p.posn ∨ endPosn > p.size then .ok (.invalidParam, p)
  else if tag = 0 then .ok (p.err, p)
  else do
    let (err, p) ← p.writeVarint (UInt64.ofNat (endPosn - p.posn))
    if err ≠ .none then pure (err, p) else p.writeTag tag wireDelim

/-! ## Peeking -/

/-- `pbuf->data[i]`: reading one byte. -/
def byteAt (d : Bytes) (i : Nat) : Out UInt8 :=
  match d[i]? with
  | some b => .ok b
  | none => .ub

/-- The loop `src/protobufs/protobufs.c:1072-1082`; the argument counts the remaining iterations (the
shift goes 7, 14, ..., 63). -/
def peekLoop (p : PB) (d : Bytes) : Nat → Nat → UInt64 → Nat → Nat → Out (Err × UInt64 × Nat)
  | 0, _, value, _, length => .ok (.invalidFormat, value, length)
  | n + 1, shift, value, posn, length =>
    if posn ≥ p.size then .ok (.invalidFormat, value, length)
    else do
      let ch ← byteAt d posn
      let value := value ||| ((ch &&& 0x7F).toUInt64 <<< UInt64.ofNat shift)
      if ch &&& 0x80 = 0 then pure (.none, value, length + 1)
      else peekLoop p d n (shift + 7) value (posn + 1) (length + 1)

/-- `noise_protobuf_peek_varint`, `src/protobufs/protobufs.c:1050-1083`: code, value, new length. The
loop starts at the position of the first byte again. -/
def peekVarint (p : PB) (length : Nat) : Out (Err × UInt64 × Nat) :=
  match p.data with
  | none => .ok (.invalidParam, 0, length)
  | some d =>
    if p.err ≠ .none then .ok (p.err, 0, length)
    else
      let posn := p.posn + length
      if posn ≥ p.size then .ok (.invalidFormat, 0, length)
      else do
        let ch ← byteAt d posn
        if ch &&& 0x80 = 0 then pure (.none, ch.toUInt64, length + 1)
        else peekLoop p d 9 7 (ch &&& 0x7F).toUInt64 posn (length + 1)

/-- `NOISE_PROTOBUF_MAX_TAG`, `src/protobufs/protobufs.c:227`. -/
def maxTag : UInt64 := 0x1FFFFFFF

/-- `noise_protobuf_peek_tag`, `src/protobufs/protobufs.c:1095-1111`. -/
def peekTag (p : PB) : Out Int := do
  let (err, tag, _) ← p.peekVarint 0
  if err ≠ .none then pure 0
  else
    let tag := tag >>> 3
    if tag = 0 ∨ tag > maxTag then pure 0 else pure tag.toNat

/-- `noise_protobuf_peek_size`, `src/protobufs/protobufs.c:1128-1146`. -/
def peekSize (p : PB) : Out Nat := do
  let (err, value, length) ← p.peekVarint 0
  if err ≠ .none then pure 0
  else if value &&& 7 ≠ UInt64.ofNat wireDelim then pure 0
  else do
    let (err, value, _) ← p.peekVarint length
    if err ≠ .none then pure 0 else pure value.toNat

/-! ## Reading -/

/-- Recording an error, e.g. `src/protobufs/protobufs.c:1166-1167`. -/
def fail (p : PB) (e : Err) : PB := { p with err := e }

/-- The loop `src/protobufs/protobufs.c:1176-1188`; the argument counts the remaining iterations. -/
def readLoop (d : Bytes) : Nat → Nat → UInt64 → PB → Out (Err × PB × UInt64)
  | 0, _, value, p => .ok (.invalidFormat, p.fail .invalidFormat, value)
  | n + 1, shift, value, p =>
    if p.posn ≥ p.size then .ok (.invalidFormat, p.fail .invalidFormat, value)
    else do
      let ch ← byteAt d p.posn
      let p := { p with posn := p.posn + 1 }
      let value := value ||| ((ch &&& 0x7F).toUInt64 <<< UInt64.ofNat shift)
      if ch &&& 0x80 = 0 then pure (.none, p, value)
      else readLoop d n (shift + 7) value p

/-- `noise_protobuf_read_varint`, `src/protobufs/protobufs.c:1156-1189`. -/
def readVarint (p : PB) : Out (Err × PB × UInt64) :=
  match p.data with
  | none => .ok (.invalidParam, p, 0)
  | some d =>
    if p.err ≠ .none then .ok (p.err, p, 0)
    else if p.posn ≥ p.size then .ok (.invalidFormat, p.fail .invalidFormat, 0)
    else do
      let ch ← byteAt d p.posn
      let p := { p with posn := p.posn + 1 }
      if ch &&& 0x80 = 0 then pure (.none, p, ch.toUInt64)
      else readLoop d 9 7 (ch &&& 0x7F).toUInt64 p

/-- `noise_protobuf_read_tag`, `src/protobufs/protobufs.c:1200-1224`. The test on line 1219 is the wrong
way round. -/
def readTag (p : PB) (tag : Int) (type : Nat) : Out (Err × PB) :=
  if tag > 0 then do
    let (err, p, actual) ← p.readVarint
    if err = .none then
      if tagWord tag type ≠ actual then pure (.invalidFormat, p.fail .invalidFormat)
      else pure (.none, p)
    else pure (err, p)
  else if tag = 0 then .ok (p.err, p)
  else
    let p := if p.err ≠ .none then p.fail .invalidFormat else p
    .ok (p.err, p)

/-- `noise_protobuf_read_space`, `src/protobufs/protobufs.c:1235-1249`, with the bytes the caller then
reads through the pointer. -/
def readSpace (p : PB) (size : Nat) : Out (Err × PB × Bytes) :=
  match p.data with
  | none => .ok (.invalidParam, p, [])
  | some d =>
    if p.err ≠ .none then .ok (p.err, p, [])
    else if size > p.size - p.posn then .ok (.invalidFormat, p.fail .invalidFormat, [])
    else do
      let bytes ← load d p.posn size
      pure (.none, { p with posn := p.posn + size }, bytes)

/-- `noise_protobuf_read_integer`, `src/protobufs/protobufs.c:1262-1272`. -/
def readInteger (p : PB) (tag : Int) : Out (Err × PB × UInt64) := do
  let (err, p) ← p.readTag tag wireVarint
  if err ≠ .none then pure (err, p, 0) else p.readVarint

/-- `noise_protobuf_read_int32`, `src/protobufs/protobufs.c:1286-1297`. -/
def readInt32 (p : PB) (tag : Int) : Out (Err × PB × Int32) := do
  let (err, p, val) ← p.readInteger tag
  if err ≠ .none then pure (err, p, 0) else pure (.none, p, val.toUInt32.toInt32)

/-- `noise_protobuf_read_uint32`, `src/protobufs/protobufs.c:1311-1322`. -/
def readUInt32 (p : PB) (tag : Int) : Out (Err × PB × UInt32) := do
  let (err, p, val) ← p.readInteger tag
  if err ≠ .none then pure (err, p, 0) else pure (.none, p, val.toUInt32)

/-- `noise_protobuf_read_int64`, `src/protobufs/protobufs.c:1336-1347`. -/
def readInt64 (p : PB) (tag : Int) : Out (Err × PB × Int64) := do
  let (err, p, val) ← p.readInteger tag
  if err ≠ .none then pure (err, p, 0) else pure (.none, p, val.toInt64)

/-- `noise_protobuf_read_uint64`, `src/protobufs/protobufs.c:1361-1372`. -/
def readUInt64 (p : PB) (tag : Int) : Out (Err × PB × UInt64) := do
  let (err, p, val) ← p.readInteger tag
  if err ≠ .none then pure (err, p, 0) else pure (.none, p, val)

/-- `src/protobufs/protobufs.c:1395`. -/
def unzigzag32 (val : UInt64) : Int32 := (val >>> 1).toUInt32.toInt32 ^^^ -(val &&& 1).toUInt32.toInt32

/-- `noise_protobuf_read_sint32`, `src/protobufs/protobufs.c:1386-1397`. -/
def readSInt32 (p : PB) (tag : Int) : Out (Err × PB × Int32) := do
  let (err, p, val) ← p.readInteger tag
  if err ≠ .none then pure (err, p, 0) else pure (.none, p, unzigzag32 val)

/-- `src/protobufs/protobufs.c:1420`. -/
def unzigzag64 (val : UInt64) : Int64 := (val >>> 1).toInt64 ^^^ -(val &&& 1).toInt64

/-- `noise_protobuf_read_sint64`, `src/protobufs/protobufs.c:1411-1422`. -/
def readSInt64 (p : PB) (tag : Int) : Out (Err × PB × Int64) := do
  let (err, p, val) ← p.readInteger tag
  if err ≠ .none then pure (err, p, 0) else pure (.none, p, unzigzag64 val)

/-- `src/protobufs/protobufs.c:1468-1471`. -/
def unle32 : Bytes → Out UInt32
  | [a, b, c, d] => .ok (a.toUInt32 ||| (b.toUInt32 <<< 8) ||| (c.toUInt32 <<< 16) ||| (d.toUInt32 <<< 24))
  | _ => .ub

/-- `src/protobufs/protobufs.c:1519-1526`. -/
def unle64 : Bytes → Out UInt64
  | [a, b, c, d, e, f, g, h] =>
    .ok (a.toUInt64 ||| (b.toUInt64 <<< 8) ||| (c.toUInt64 <<< 16) ||| (d.toUInt64 <<< 24) |||
      (e.toUInt64 <<< 32) ||| (f.toUInt64 <<< 40) ||| (g.toUInt64 <<< 48) ||| (h.toUInt64 <<< 56))
  | _ => .ub

/-- `noise_protobuf_read_fixed32`, `src/protobufs/protobufs.c:1453-1473`. -/
def readFixed32 (p : PB) (tag : Int) : Out (Err × PB × UInt32) := do
  let (err, p) ← p.readTag tag wire32
  if err ≠ .none then pure (err, p, 0)
  else do
    let (err, p, data) ← p.readSpace 4
    if err ≠ .none then pure (err, p, 0)
    else do
      let v ← unle32 data
      pure (.none, p, v)

/-- `noise_protobuf_read_sfixed32`, `src/protobufs/protobufs.c:1436-1439`. -/
def readSFixed32 (p : PB) (tag : Int) : Out (Err × PB × Int32) := do
  let (err, p, v) ← p.readFixed32 tag
  pure (err, p, v.toInt32)

/-- `noise_protobuf_read_fixed64`, `src/protobufs/protobufs.c:1504-1528`. -/
def readFixed64 (p : PB) (tag : Int) : Out (Err × PB × UInt64) := do
  let (err, p) ← p.readTag tag wire64
  if err ≠ .none then pure (err, p, 0)
  else do
    let (err, p, data) ← p.readSpace 8
    if err ≠ .none then pure (err, p, 0)
    else do
      let v ← unle64 data
      pure (.none, p, v)

/-- `noise_protobuf_read_sfixed64`, `src/protobufs/protobufs.c:1487-1490`. -/
def readSFixed64 (p : PB) (tag : Int) : Out (Err × PB × Int64) := do
  let (err, p, v) ← p.readFixed64 tag
  pure (err, p, v.toInt64)

/-- `noise_protobuf_read_float`, `src/protobufs/protobufs.c:1542-1558`, as a bit pattern (that of 0.0 is
0). -/
def readFloat (p : PB) (tag : Int) : Out (Err × PB × UInt32) := do
  let (err, p, v) ← p.readFixed32 tag
  pure (err, p, if err = .none then v else 0)

/-- `noise_protobuf_read_double`, `src/protobufs/protobufs.c:1572-1588`, as a bit pattern. -/
def readDouble (p : PB) (tag : Int) : Out (Err × PB × UInt64) := do
  let (err, p, v) ← p.readFixed64 tag
  pure (err, p, if err = .none then v else 0)

/-- `noise_protobuf_read_bool`, `src/protobufs/protobufs.c:1602-1613`. -/
def readBool (p : PB) (tag : Int) : Out (Err × PB × Int32) := do
  let (err, p, val) ← p.readInteger tag
  if err ≠ .none then pure (err, p, 0) else pure (.none, p, if val ≠ 0 then 1 else 0)

/-- `noise_protobuf_read_string`, `src/protobufs/protobufs.c:1640-1675`: `mem` is the caller's memory
of `max_size` bytes; code, state, memory, `*size`. -/
def readString (p : PB) (tag : Int) (mem : Bytes) : Out (Err × PB × Bytes × Nat) :=
  if mem.length = 0 then .ok (.invalidParam, p, mem, 0)
  else do
    let mem ← store mem 0 [0]
    let (err, p) ← p.readTag tag wireDelim
    if err ≠ .none then pure (err, p, mem, 0)
    else do
      let (err, p, value) ← p.readVarint
      if err ≠ .none then pure (err, p, mem, 0)
      else if value.toNat ≥ mem.length then pure (.invalidFormat, p.fail .invalidFormat, mem, 0)
      else do
        let (err, p, data) ← p.readSpace value.toNat
        if err ≠ .none then pure (err, p, mem, 0)
        else do
          let ok ← isUtf8 value.toNat data
          if ok = false then pure (.invalidFormat, p.fail .invalidFormat, mem, 0)
          else do
            let mem ← store mem 0 data
            let mem ← store mem value.toNat [0]
            pure (.none, p, mem, value.toNat)

/-- `noise_protobuf_read_alloc_string`, `src/protobufs/protobufs.c:1707-1748`: code, state, the new block
(if any), `*size`. `malloc` says whether the allocation succeeds. -/
def readAllocString (p : PB) (tag : Int) (maxSize : Nat) (malloc : Bool) :
    Out (Err × PB × Option Bytes × Nat) := do
  let (err, p) ← p.readTag tag wireDelim
  if err ≠ .none then pure (err, p, none, 0)
  else do
    let (err, p, value) ← p.readVarint
    if err ≠ .none then pure (err, p, none, 0)
    else
      let maxSize := if maxSize = 0 then p.size - p.posn else maxSize
      if value.toNat > maxSize then pure (.invalidFormat, p.fail .invalidFormat, none, 0)
      else do
        let (err, p, data) ← p.readSpace value.toNat
        if err ≠ .none then pure (err, p, none, 0)
        else do
          let ok ← isUtf8 value.toNat data
          if ok = false then pure (.invalidFormat, p.fail .invalidFormat, none, 0)
          else if malloc = false then pure (.noMemory, p.fail .noMemory, none, 0)
          else pure (.none, p, some (data ++ [0]), value.toNat)

/-- `noise_protobuf_read_bytes`, `src/protobufs/protobufs.c:1767-1795`. -/
def readBytes (p : PB) (tag : Int) (mem : Bytes) : Out (Err × PB × Bytes × Nat) := do
  let (err, p) ← p.readTag tag wireDelim
  if err ≠ .none then pure (err, p, mem, 0)
  else do
    let (err, p, value) ← p.readVarint
    if err ≠ .none then pure (err, p, mem, 0)
    else if value.toNat > mem.length then pure (.invalidFormat, p.fail .invalidFormat, mem, 0)
    else do
      let (err, p, data) ← p.readSpace value.toNat
      if err ≠ .none then pure (err, p, mem, 0)
      else do
        let mem ← store mem 0 data
        pure (.none, p, mem, value.toNat)

/-- `noise_protobuf_read_alloc_bytes`, `src/protobufs/protobufs.c:1821-1866`. An empty byte string
gets a block of one byte (line 1857). -/
def readAllocBytes (p : PB) (tag : Int) (maxSize : Nat) (malloc : Bool) :
    Out (Err × PB × Option Bytes × Nat) := do
  let (err, p) ← p.readTag tag wireDelim
  if err ≠ .none then pure (err, p, none, 0)
  else do
    let (err, p, value) ← p.readVarint
    if err ≠ .none then pure (err, p, none, 0)
    else
      let maxSize := if maxSize = 0 then p.size - p.posn else maxSize
      if value.toNat > maxSize then pure (.invalidFormat, p.fail .invalidFormat, none, 0)
      else do
        let (err, p, data) ← p.readSpace value.toNat
        if err ≠ .none then pure (err, p, none, 0)
        else if malloc = false then pure (.noMemory, p.fail .noMemory, none, 0)
        else pure (.none, p, some (if value.toNat > 0 then data else [0]), value.toNat)

/-- `noise_protobuf_read_start_element`, `src/protobufs/protobufs.c:1885-1910`. -/
def readStartElement (p : PB) (tag : Int) : Out (Err × PB × Nat) := do
  let (err, p) ← p.readTag tag wireDelim
  if err ≠ .none then pure (err, p, 0)
  else if tag ≠ 0 then do
    let (err, p, size) ← p.readVarint
    if err ≠ .none then pure (err, p, 0)
    else if size.toNat > p.size - p.posn then pure (.invalidFormat, p.fail .invalidFormat, 0)
    else pure (.none, p, p.posn + size.toNat)
  else pure (.none, p, p.size)

/-- `noise_protobuf_read_end_element`, `src/protobufs/protobufs.c:1926-1937`. -/
def readEndElement (p : PB) (endPosn : Nat) : Err × PB :=
  if p.err ≠ .none then (p.err, p)
  else if p.posn ≠ endPosn then (.invalidFormat, p.fail .invalidFormat)
  else (.none, p)

/-- `noise_protobuf_read_at_end_element`, `src/protobufs/protobufs.c:1952-1958`. -/
def readAtEndElement (p : PB) (endPosn : Nat) : Bool :=
  if p.err ≠ .none then true else p.posn ≥ endPosn

/-- `noise_protobuf_read_stop`, `src/protobufs/protobufs.c:1976-1983`. -/
def readStop (p : PB) : Err × PB :=
  let p := if p.err = .none then p.fail .invalidFormat else p
  (p.err, p)

/-- `noise_protobuf_read_skip`, `src/protobufs/protobufs.c:2001-2038`. -/
def readSkip (p : PB) : Out (Err × PB) := do
  let (err, p, value) ← p.readVarint
  if err ≠ .none then pure (err, p)
  else if value &&& 7 = UInt64.ofNat wireVarint then do
    let (err, p, _) ← p.readVarint
    pure (err, p)
  else if value &&& 7 = UInt64.ofNat wire64 then do
    let (err, p, _) ← p.readSpace 8
    pure (err, p)
  else if value &&& 7 = UInt64.ofNat wireDelim then do
    let (err, p, value) ← p.readVarint
    if err = .none then
      if value.toNat ≤ p.size - p.posn then pure (.none, { p with posn := p.posn + value.toNat })
      else pure (.invalidFormat, p.fail .invalidFormat)
    else pure (err, p)
  else if value &&& 7 = UInt64.ofNat wire32 then do
    let (err, p, _) ← p.readSpace 4
    pure (err, p)
  else pure (.invalidFormat, p.fail .invalidFormat)

end PB

/-! ## Dynamic arrays -/

/-- `noise_protobuf_grow_array`, `src/protobufs/protobufs.c:2047-2056`. -/
def growArray (max : Nat) : Nat := if max ≥ 64 then max + 64 else if max ≠ 0 then max * 2 else 4

/-- The three variables `void *array; size_t count; size_t max`: `mem` is the block behind the pointer,
absent while the pointer is NULL. -/
structure DynArray where
  mem : Option Bytes
  count : Nat
  max : Nat
  deriving DecidableEq, Repr

namespace DynArray

/-- Growing, `src/protobufs/protobufs.c:2077-2087` and `:2227-2237`; `calloc` says whether the
allocation succeeds. `none` if it fails. The overflow check is that of `calloc` itself. -/
def grow (a : DynArray) (size : Nat) (calloc : Bool) : Out (Option DynArray) :=
  if a.count ≥ a.max then
    let newMax := growArray a.max
    if calloc = false then .ok none
    else do
      let new := List.replicate (newMax * size) 0
      let new ← if a.count ≠ 0 then
          match a.mem with
          | none => .ub
          | some m => do store new 0 (← load m 0 (a.count * size))
        else pure new
      pure (some { mem := some new, count := a.count, max := newMax })
  else .ok (some a)

/-- A store into the block of the array. -/
def write (a : DynArray) (off : Nat) (bytes : Bytes) : Out DynArray :=
  match a.mem with
  | none => .ub
  | some m => do
    let m ← store m off bytes
    pure { a with mem := some m }

/-- `noise_protobuf_add_to_array`, `src/protobufs/protobufs.c:2074-2091`; the element size is the length
of `value`. -/
def add (a : DynArray) (value : Bytes) (calloc : Bool) : Out (Err × DynArray) := do
  match ← a.grow value.length calloc with
  | none => pure (.noMemory, a)
  | some a => do
    let a ← a.write (a.count * value.length) value
    pure (.none, { a with count := a.count + 1 })

/-- `noise_protobuf_insert_into_array`, `src/protobufs/protobufs.c:2214-2246`. -/
def insert (a : DynArray) (index : Nat) (value : Bytes) (calloc : Bool) : Out (Err × DynArray) :=
  if index ≥ a.count then a.add value calloc
  else do
    match ← a.grow value.length calloc with
    | none => pure (.noMemory, a)
    | some a =>
      match a.mem with
      | none => .ub
      | some m => do
        let tail ← load m (index * value.length) ((a.count - index) * value.length)
        let m ← store m ((index + 1) * value.length) tail
        let m ← store m (index * value.length) value
        pure (.none, { a with mem := some m, count := a.count + 1 })

end DynArray

/-- The variables of an array of blocks: `void **array; size_t *len_array; size_t count; size_t max`
(`src/protobufs/protobufs.c:2097-2099`): the slots of the two arrays, a slot holds the copied block and
its length. -/
structure BlockArray where
  slots : List (Option Bytes × Nat)
  count : Nat
  max : Nat
  deriving DecidableEq, Repr

namespace BlockArray

/-- `noise_protobuf_add_to_block_array`, `src/protobufs/protobufs.c:2097-2145`. The two flags say
whether `malloc`, and whether both `calloc` calls, succeed. -/
def add (a : BlockArray) (value : Bytes) (addNul malloc calloc : Bool) : Out (Err × BlockArray) :=
  if malloc = false then .ok (.noMemory, a)
  else
    let data := if addNul then value ++ [0] else value
    let put (a : BlockArray) : Out (Err × BlockArray) :=
      if a.count < a.slots.length then
        .ok (.none, { a with slots := a.slots.set a.count (some data, value.length), count := a.count + 1 })
      else .ub
    if a.count ≥ a.max then
      let newMax := growArray a.max
      if calloc = false then .ok (.noMemory, a)
      else if a.count ≤ a.slots.length then
        put { slots := a.slots.take a.count ++ List.replicate (newMax - a.count) (none, 0),
              count := a.count, max := newMax }
      else .ub
    else put a

/-- `noise_protobuf_add_to_string_array`, `src/protobufs/protobufs.c:2164-2170`. -/
def addString (a : BlockArray) (value : Bytes) (malloc calloc : Bool) : Out (Err × BlockArray) :=
  a.add value true malloc calloc

/-- `noise_protobuf_add_to_bytes_array`, `src/protobufs/protobufs.c:2189-2195`. -/
def addBytes (a : BlockArray) (value : Bytes) (malloc calloc : Bool) : Out (Err × BlockArray) :=
  a.add value (value.length = 0) malloc calloc

end BlockArray
end Noise
