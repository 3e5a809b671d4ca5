import Verif.Util
/-!
# Model of `src/protocol/names.c`
-/

namespace Noise

/-- One row of the name table: `NoiseIdMapping`, `src/protocol/names.c:49-55`. -/
structure IdMapping where
  id : Nat
  name : Bytes
  nameLen : Nat
  deriving DecidableEq, Repr

/-- `algorithm_names`, `src/protocol/names.c:56-123` (the terminator row is the end of the
list); the numeric identifiers are those of `include/noise/protocol/constants.h:35-108`. -/
def algorithmNames : List IdMapping :=
  [ ⟨0x4301, ascii "ChaChaPoly", 10⟩,
    ⟨0x4302, ascii "AESGCM", 6⟩,
    ⟨0x4801, ascii "BLAKE2s", 7⟩,
    ⟨0x4802, ascii "BLAKE2b", 7⟩,
    ⟨0x4803, ascii "SHA256", 6⟩,
    ⟨0x4804, ascii "SHA512", 6⟩,
    ⟨0x4401, ascii "25519", 5⟩,
    ⟨0x4402, ascii "448", 3⟩,
    ⟨0x4403, ascii "NewHope", 7⟩,
    ⟨0x5001, ascii "N", 1⟩,
    ⟨0x5002, ascii "X", 1⟩,
    ⟨0x5003, ascii "K", 1⟩,
    ⟨0x5004, ascii "NN", 2⟩,
    ⟨0x5005, ascii "NK", 2⟩,
    ⟨0x5006, ascii "NX", 2⟩,
    ⟨0x5007, ascii "XN", 2⟩,
    ⟨0x5008, ascii "XK", 2⟩,
    ⟨0x5009, ascii "XX", 2⟩,
    ⟨0x500a, ascii "KN", 2⟩,
    ⟨0x500b, ascii "KK", 2⟩,
    ⟨0x500c, ascii "KX", 2⟩,
    ⟨0x500d, ascii "IN", 2⟩,
    ⟨0x500e, ascii "IK", 2⟩,
    ⟨0x500f, ascii "IX", 2⟩,
    ⟨0x5010, ascii "XXfallback", 10⟩,
    ⟨0x5020, ascii "Xnoidh", 6⟩,
    ⟨0x5021, ascii "NXnoidh", 7⟩,
    ⟨0x5022, ascii "XXnoidh", 7⟩,
    ⟨0x5023, ascii "KXnoidh", 7⟩,
    ⟨0x5024, ascii "IKnoidh", 7⟩,
    ⟨0x5025, ascii "IXnoidh", 7⟩,
    ⟨0x5030, ascii "NNhfs", 5⟩,
    ⟨0x5031, ascii "NKhfs", 5⟩,
    ⟨0x5032, ascii "NXhfs", 5⟩,
    ⟨0x5033, ascii "XNhfs", 5⟩,
    ⟨0x5034, ascii "XKhfs", 5⟩,
    ⟨0x5035, ascii "XXhfs", 5⟩,
    ⟨0x5036, ascii "KNhfs", 5⟩,
    ⟨0x5037, ascii "KKhfs", 5⟩,
    ⟨0x5038, ascii "KXhfs", 5⟩,
    ⟨0x5039, ascii "INhfs", 5⟩,
    ⟨0x503a, ascii "IKhfs", 5⟩,
    ⟨0x503b, ascii "IXhfs", 5⟩,
    ⟨0x503c, ascii "XXfallback+hfs", 14⟩,
    ⟨0x5050, ascii "NXnoidh+hfs", 11⟩,
    ⟨0x5051, ascii "XXnoidh+hfs", 11⟩,
    ⟨0x5052, ascii "KXnoidh+hfs", 11⟩,
    ⟨0x5053, ascii "IKnoidh+hfs", 11⟩,
    ⟨0x5054, ascii "IXnoidh+hfs", 11⟩,
    ⟨0x4e01, ascii "Noise", 5⟩,
    ⟨0x4e02, ascii "NoisePSK", 8⟩,
    ⟨0x5301, ascii "Ed25519", 7⟩ ]

/-- `NOISE_CIPHER_CATEGORY` etc., `include/noise/protocol/constants.h:36-107`. -/
def catCipher : Int := 0x4300
/-- `NOISE_HASH_CATEGORY`, `include/noise/protocol/constants.h:42`. -/
def catHash : Int := 0x4800
/-- `NOISE_DH_CATEGORY`, `include/noise/protocol/constants.h:50`. -/
def catDH : Int := 0x4400
/-- `NOISE_PATTERN_CATEGORY`, `include/noise/protocol/constants.h:57`. -/
def catPattern : Int := 0x5000
/-- `NOISE_PREFIX_CATEGORY`, `include/noise/protocol/constants.h:101`. -/
def catPrefix : Int := 0x4E00
/-- `NOISE_SIGN_CATEGORY`, `include/noise/protocol/constants.h:107`. -/
def catSign : Int := 0x5300

/-- The test `(mapping->id & mask) == category` of `src/protocol/names.c:149-153` and
`:185-189`; the mask is `0xFF00`, or 0 when the category is 0. -/
def IdMapping.inCategory (m : IdMapping) (category : Int) : Bool :=
  ((m.id &&& (if category ≠ 0 then 0xFF00 else 0) : Nat) : Int) == category

/-- `noise_name_to_id`, `src/protocol/names.c:146-162`; `name` has exactly `name_len` bytes, so
`memcmp` over `name_len` bytes compares the whole of `name` with the first bytes of the entry. -/
def nameToId (category : Int) (name : Bytes) : Nat :=
  match algorithmNames.find? (fun m => m.inCategory category &&
      (m.nameLen == name.length && m.name.take name.length == name)) with
  | some m => m.id
  | none => 0

/-- `noise_id_to_name`, `src/protocol/names.c:182-196`; `none` is the NULL result. -/
def idToName (category : Int) (id : Int) : Option Bytes :=
  if id ≤ 0 then none
  else match algorithmNames.find? (fun m => m.inCategory category && ((m.id : Int) == id)) with
    | some m => some m.name
    | none => none

/-- `NoiseProtocolId`, `include/noise/protocol/names.h:33-43`. -/
structure ProtocolId where
  prefixId : Int
  patternId : Int
  dhId : Int
  cipherId : Int
  hashId : Int
  hybridId : Int
  reserved : List Int
  deriving DecidableEq, Repr

/-- The all-zero identifier produced by `memset` at `src/protocol/names.c:344` and `:358`. -/
def ProtocolId.zero : ProtocolId := ⟨0, 0, 0, 0, 0, 0, [0, 0, 0, 0]⟩

/-- Advance over characters until one satisfies `stop` or the end: the loops
`src/protocol/names.c:227-228` and `:286-287`. The pair is (characters passed over, rest from
the stopping position). The position `*posn` of the C code is represented by the remaining
suffix of the name, so reads are within `len` by construction. -/
def scan (stop : UInt8 → Bool) : Bytes → Bytes × Bytes
  | [] => ([], [])
  | c :: cs => if stop c then ([], c :: cs) else let r := scan stop cs; (c :: r.1, r.2)

/-- `noise_protocol_parse_field`, `src/protocol/names.c:214-251`. `none` is `*ok = 0` (once
cleared, `*ok` makes every later field a no-op and the caller fails, which is the `Option`
monad); otherwise the id and the remaining suffix. -/
def parseField (category : Int) (rest : Bytes) (isLast : Bool) : Option (Nat × Bytes) :=
  let (field, after) := scan (· == 95) rest
  if isLast then
    match after with
    | _ :: _ => none
    | [] => let id := nameToId category field; if id = 0 then none else some (id, [])
  else
    match after with
    | [] => none
    | _ :: rest' => let id := nameToId category field; if id = 0 then none else some (id, rest')

/-- `noise_protocol_parse_dual_field`, `src/protocol/names.c:270-315`: ids and remaining suffix. -/
def parseDualField (category : Int) (rest : Bytes) : Option (Nat × Nat × Bytes) :=
  let (field, after) := scan (fun c => c == 95 || c == 43) rest
  match after with
  | [] => none
  | c :: rest' =>
    let firstId := nameToId category field
    if firstId = 0 then none
    else if c = 95 then some (firstId, 0, rest')
    else do
      let (secondId, rest'') ← parseField category rest' false
      if secondId ≠ 0 then some (firstId, secondId, rest'') else none

/-- The field sequence of `src/protocol/names.c:345-354`; `none` is `ok == 0`. -/
def parseProtocolName (name : Bytes) : Option ProtocolId := do
  let (prefixId, r) ← parseField catPrefix name false
  let (patternId, r) ← parseField catPattern r false
  let (dhId, hybridId, r) ← parseDualField catDH r
  let (cipherId, r) ← parseField catCipher r false
  let (hashId, _) ← parseField catHash r true
  some ⟨prefixId, patternId, dhId, cipherId, hashId, hybridId, [0, 0, 0, 0]⟩

/-- `noise_protocol_name_to_id`, `src/protocol/names.c:331-364`: return code and `*id`. -/
def protocolNameToId (name : Bytes) : Err × ProtocolId :=
  match parseProtocolName name with
  | some id => (.none, id)
  | none => (.unknownName, ProtocolId.zero)

/-- Formatting state: the caller's memory (of `name_len` bytes), `posn` and `err`
(locals of `src/protocol/names.c:436-495`). -/
structure Fmt where
  mem : Bytes
  posn : Nat
  err : Err
  deriving DecidableEq, Repr

/-- `len - *posn` in `size_t` arithmetic (64-bit wrap-around), `src/protocol/names.c:399`. -/
def sizeSub (a b : Nat) : Nat := if b ≤ a then a - b else a + 2 ^ 64 - b

/-- `noise_protocol_format_field`, `src/protocol/names.c:379-411`. -/
def formatField (category id : Int) (isLast : Bool) (f : Fmt) : Out Fmt :=
  if f.err ≠ .none then .ok f
  else match idToName category id with
    | none => .ok { f with err := .unknownId }
    | some alg =>
      if alg.length ≥ sizeSub f.mem.length f.posn then .ok { f with err := .invalidLength }
      else do
        let mem ← store f.mem f.posn alg
        let posn := f.posn + alg.length
        if !isLast then do
          let mem ← store mem posn [95]
          pure { f with mem := mem, posn := posn + 1 }
        else do
          let mem ← store mem posn [0]
          pure { f with mem := mem, posn := posn }

/-- The `'+'` separator, `src/protocol/names.c:467-472`. -/
def formatPlus (f : Fmt) : Out Fmt :=
  if f.err = .none then
    if f.posn + 1 < f.mem.length then do
      let mem ← store f.mem f.posn [43]
      pure { f with mem := mem, posn := f.posn + 1 }
    else .ok { f with err := .invalidLength }
  else .ok f

/-- The reserved-identifier check, `src/protocol/names.c:483-487`. -/
def checkReserved (f : Fmt) (reserved : List Int) : Fmt :=
  if f.err = .none ∧ reserved.any (· ≠ 0) then { f with err := .unknownId } else f

/-- `noise_protocol_id_to_name`, `src/protocol/names.c:436-495`, with non-NULL arguments and
`mem` the caller's memory of `name_len` bytes: return code and memory. -/
def protocolIdToName (mem : Bytes) (id : ProtocolId) : Out (Err × Bytes) :=
  if mem.length = 0 then .ok (.invalidLength, mem)
  else do
    let f ← formatField catPrefix id.prefixId false ⟨mem, 0, .none⟩
    let f ← formatField catPattern id.patternId false f
    let f ← if id.hybridId = 0 then formatField catDH id.dhId false f
      else do
        let f ← formatField catDH id.dhId true f
        let f ← formatPlus f
        formatField catDH id.hybridId false f
    let f ← formatField catCipher id.cipherId false f
    let f ← formatField catHash id.hashId true f
    let f := checkReserved f id.reserved
    if f.err ≠ .none then do
      let m ← store f.mem 0 [0]
      pure (f.err, m)
    else pure (.none, f.mem)

end Noise
