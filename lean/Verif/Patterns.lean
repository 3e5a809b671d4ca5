import Verif.DH
/-!
# Model of `src/protocol/patterns.c`

Every table is transcribed byte for byte (flags in two little-endian bytes, then the tokens).
-/

namespace Noise

/-- `NOISE_PAT_FLAG_*` and `NoisePatternFlags_t` (16 bits), `src/protocol/internal.h:601-634` and `src/protocol/internal.h:669`. -/
abbrev PatFlags := UInt16

/-- `NOISE_PAT_FLAG_LOCAL_STATIC`, `src/protocol/internal.h:601`. -/
def flagLocalStatic : PatFlags := 0x0001
/-- `NOISE_PAT_FLAG_LOCAL_EPHEMERAL`, `src/protocol/internal.h:603`. -/
def flagLocalEphemeral : PatFlags := 0x0002
/-- `NOISE_PAT_FLAG_LOCAL_REQUIRED`, `src/protocol/internal.h:608`. -/
def flagLocalRequired : PatFlags := 0x0004
/-- `NOISE_PAT_FLAG_LOCAL_EPHEM_REQ`, `src/protocol/internal.h:611`. -/
def flagLocalEphemReq : PatFlags := 0x0008
/-- `NOISE_PAT_FLAG_LOCAL_HYBRID`, `src/protocol/internal.h:613`. -/
def flagLocalHybrid : PatFlags := 0x0010
/-- `NOISE_PAT_FLAG_LOCAL_HYBRID_REQ`, `src/protocol/internal.h:616`. -/
def flagLocalHybridReq : PatFlags := 0x0020
/-- `NOISE_PAT_FLAG_REMOTE_STATIC`, `src/protocol/internal.h:619`. -/
def flagRemoteStatic : PatFlags := 0x0100
/-- `NOISE_PAT_FLAG_REMOTE_EPHEMERAL`, `src/protocol/internal.h:621`. -/
def flagRemoteEphemeral : PatFlags := 0x0200
/-- `NOISE_PAT_FLAG_REMOTE_REQUIRED`, `src/protocol/internal.h:626`. -/
def flagRemoteRequired : PatFlags := 0x0400
/-- `NOISE_PAT_FLAG_REMOTE_EPHEM_REQ`, `src/protocol/internal.h:629`. -/
def flagRemoteEphemReq : PatFlags := 0x0800
/-- `NOISE_PAT_FLAG_REMOTE_HYBRID`, `src/protocol/internal.h:631`. -/
def flagRemoteHybrid : PatFlags := 0x1000
/-- `NOISE_PAT_FLAG_REMOTE_HYBRID_REQ`, `src/protocol/internal.h:634`. -/
def flagRemoteHybridReq : PatFlags := 0x2000
/-- `NOISE_TOKEN_END`, `src/protocol/internal.h:589`. -/
abbrev tokEnd : UInt8 := 0
/-- `NOISE_TOKEN_S`, `src/protocol/internal.h:590`. -/
abbrev tokS : UInt8 := 1
/-- `NOISE_TOKEN_E`, `src/protocol/internal.h:591`. -/
abbrev tokE : UInt8 := 2
/-- `NOISE_TOKEN_EE`, `src/protocol/internal.h:592`. -/
abbrev tokEe : UInt8 := 3
/-- `NOISE_TOKEN_ES`, `src/protocol/internal.h:593`. -/
abbrev tokEs : UInt8 := 4
/-- `NOISE_TOKEN_SE`, `src/protocol/internal.h:594`. -/
abbrev tokSe : UInt8 := 5
/-- `NOISE_TOKEN_SS`, `src/protocol/internal.h:595`. -/
abbrev tokSs : UInt8 := 6
/-- `NOISE_TOKEN_F`, `src/protocol/internal.h:596`. -/
abbrev tokF : UInt8 := 7
/-- `NOISE_TOKEN_FF`, `src/protocol/internal.h:597`. -/
abbrev tokFf : UInt8 := 8
/-- `NOISE_TOKEN_FLIP_DIR`, `src/protocol/internal.h:598`. -/
abbrev tokFlipDir : UInt8 := 255

/-- `FLAGS(x)`, `src/protocol/patterns.c:31`. -/
def FLAGS (x : PatFlags) : Bytes := [(x &&& 0xFF).toUInt8, ((x >>> 8) &&& 0xFF).toUInt8]

/-- `noise_pattern_N`, `src/protocol/patterns.c:44-54`. -/
def patN : Bytes :=
  FLAGS (flagLocalEphemeral |||
    flagRemoteStatic |||
    flagRemoteRequired) ++
  [tokE, tokEs, tokEnd]
/-- `noise_pattern_K`, `src/protocol/patterns.c:67-80`. -/
def patK : Bytes :=
  FLAGS (flagLocalStatic |||
    flagLocalEphemeral |||
    flagLocalRequired |||
    flagRemoteStatic |||
    flagRemoteRequired) ++
  [tokE, tokEs, tokSs, tokEnd]
/-- `noise_pattern_X`, `src/protocol/patterns.c:92-105`. -/
def patX : Bytes :=
  FLAGS (flagLocalStatic |||
    flagLocalEphemeral |||
    flagRemoteStatic |||
    flagRemoteRequired) ++
  [tokE, tokEs, tokS, tokSs, tokEnd]
/-- `noise_pattern_NN`, `src/protocol/patterns.c:116-127`. -/
def patNN : Bytes :=
  FLAGS (flagLocalEphemeral |||
    flagRemoteEphemeral) ++
  [tokE, tokFlipDir, tokE, tokEe, tokEnd]
/-- `noise_pattern_NK`, `src/protocol/patterns.c:140-154`. -/
def patNK : Bytes :=
  FLAGS (flagLocalEphemeral |||
    flagRemoteStatic |||
    flagRemoteEphemeral |||
    flagRemoteRequired) ++
  [tokE, tokEs, tokFlipDir, tokE, tokEe, tokEnd]
/-- `noise_pattern_NX`, `src/protocol/patterns.c:165-179`. -/
def patNX : Bytes :=
  FLAGS (flagLocalEphemeral |||
    flagRemoteStatic |||
    flagRemoteEphemeral) ++
  [tokE, tokFlipDir, tokE, tokEe, tokS, tokEs, tokEnd]
/-- `noise_pattern_XN`, `src/protocol/patterns.c:191-206`. -/
def patXN : Bytes :=
  FLAGS (flagLocalStatic |||
    flagLocalEphemeral |||
    flagRemoteEphemeral) ++
  [tokE, tokFlipDir, tokE, tokEe, tokFlipDir, tokS, tokSe, tokEnd]
/-- `noise_pattern_XK`, `src/protocol/patterns.c:220-238`. -/
def patXK : Bytes :=
  FLAGS (flagLocalStatic |||
    flagLocalEphemeral |||
    flagRemoteStatic |||
    flagRemoteEphemeral |||
    flagRemoteRequired) ++
  [tokE, tokEs, tokFlipDir, tokE, tokEe, tokFlipDir, tokS, tokSe, tokEnd]
/-- `noise_pattern_XX`, `src/protocol/patterns.c:250-268`. -/
def patXX : Bytes :=
  FLAGS (flagLocalStatic |||
    flagLocalEphemeral |||
    flagRemoteStatic |||
    flagRemoteEphemeral) ++
  [tokE, tokFlipDir, tokE, tokEe, tokS, tokEs, tokFlipDir, tokS, tokSe, tokEnd]
/-- `noise_pattern_KN`, `src/protocol/patterns.c:281-295`. -/
def patKN : Bytes :=
  FLAGS (flagLocalStatic |||
    flagLocalEphemeral |||
    flagLocalRequired |||
    flagRemoteEphemeral) ++
  [tokE, tokFlipDir, tokE, tokEe, tokSe, tokEnd]
/-- `noise_pattern_KK`, `src/protocol/patterns.c:309-327`. -/
def patKK : Bytes :=
  FLAGS (flagLocalStatic |||
    flagLocalEphemeral |||
    flagLocalRequired |||
    flagRemoteStatic |||
    flagRemoteEphemeral |||
    flagRemoteRequired) ++
  [tokE, tokEs, tokSs, tokFlipDir, tokE, tokEe, tokSe, tokEnd]
/-- `noise_pattern_KX`, `src/protocol/patterns.c:340-357`. -/
def patKX : Bytes :=
  FLAGS (flagLocalStatic |||
    flagLocalEphemeral |||
    flagLocalRequired |||
    flagRemoteStatic |||
    flagRemoteEphemeral) ++
  [tokE, tokFlipDir, tokE, tokEe, tokSe, tokS, tokEs, tokEnd]
/-- `noise_pattern_IN`, `src/protocol/patterns.c:368-382`. -/
def patIN : Bytes :=
  FLAGS (flagLocalStatic |||
    flagLocalEphemeral |||
    flagRemoteEphemeral) ++
  [tokE, tokS, tokFlipDir, tokE, tokEe, tokSe, tokEnd]
/-- `noise_pattern_IK`, `src/protocol/patterns.c:395-413`. -/
def patIK : Bytes :=
  FLAGS (flagLocalStatic |||
    flagLocalEphemeral |||
    flagRemoteStatic |||
    flagRemoteEphemeral |||
    flagRemoteRequired) ++
  [tokE, tokEs, tokS, tokSs, tokFlipDir, tokE, tokEe, tokSe, tokEnd]
/-- `noise_pattern_IX`, `src/protocol/patterns.c:424-441`. -/
def patIX : Bytes :=
  FLAGS (flagLocalStatic |||
    flagLocalEphemeral |||
    flagRemoteStatic |||
    flagRemoteEphemeral) ++
  [tokE, tokS, tokFlipDir, tokE, tokEe, tokSe, tokS, tokEs, tokEnd]
/-- `noise_pattern_XXfallback`, `src/protocol/patterns.c:454-471`. -/
def patXXfallback : Bytes :=
  FLAGS (flagLocalStatic |||
    flagLocalEphemeral |||
    flagRemoteStatic |||
    flagRemoteEphemeral |||
    flagRemoteEphemReq) ++
  [tokE, tokEe, tokS, tokSe, tokFlipDir, tokS, tokEs, tokEnd]
/-- `noise_pattern_Xnoidh`, `src/protocol/patterns.c:483-496`. -/
def patXnoidh : Bytes :=
  FLAGS (flagLocalStatic |||
    flagLocalEphemeral |||
    flagRemoteStatic |||
    flagRemoteRequired) ++
  [tokE, tokS, tokEs, tokSs, tokEnd]
/-- `noise_pattern_NXnoidh`, `src/protocol/patterns.c:507-521`. -/
def patNXnoidh : Bytes :=
  FLAGS (flagLocalEphemeral |||
    flagRemoteStatic |||
    flagRemoteEphemeral) ++
  [tokE, tokFlipDir, tokE, tokS, tokEe, tokEs, tokEnd]
/-- `noise_pattern_XXnoidh`, `src/protocol/patterns.c:533-551`. -/
def patXXnoidh : Bytes :=
  FLAGS (flagLocalStatic |||
    flagLocalEphemeral |||
    flagRemoteStatic |||
    flagRemoteEphemeral) ++
  [tokE, tokFlipDir, tokE, tokS, tokEe, tokEs, tokFlipDir, tokS, tokSe, tokEnd]
/-- `noise_pattern_KXnoidh`, `src/protocol/patterns.c:564-581`. -/
def patKXnoidh : Bytes :=
  FLAGS (flagLocalStatic |||
    flagLocalEphemeral |||
    flagLocalRequired |||
    flagRemoteStatic |||
    flagRemoteEphemeral) ++
  [tokE, tokFlipDir, tokE, tokS, tokEe, tokSe, tokEs, tokEnd]
/-- `noise_pattern_IKnoidh`, `src/protocol/patterns.c:594-612`. -/
def patIKnoidh : Bytes :=
  FLAGS (flagLocalStatic |||
    flagLocalEphemeral |||
    flagRemoteStatic |||
    flagRemoteEphemeral |||
    flagRemoteRequired) ++
  [tokE, tokS, tokEs, tokSs, tokFlipDir, tokE, tokEe, tokSe, tokEnd]
/-- `noise_pattern_IXnoidh`, `src/protocol/patterns.c:623-640`. -/
def patIXnoidh : Bytes :=
  FLAGS (flagLocalStatic |||
    flagLocalEphemeral |||
    flagRemoteStatic |||
    flagRemoteEphemeral) ++
  [tokE, tokS, tokFlipDir, tokE, tokS, tokEe, tokSe, tokEs, tokEnd]
/-- `noise_pattern_NNhfs`, `src/protocol/patterns.c:651-667`. -/
def patNNhfs : Bytes :=
  FLAGS (flagLocalEphemeral |||
    flagLocalHybrid |||
    flagRemoteEphemeral |||
    flagRemoteHybrid) ++
  [tokE, tokF, tokFlipDir, tokE, tokF, tokEe, tokFf, tokEnd]
/-- `noise_pattern_NKhfs`, `src/protocol/patterns.c:680-699`. -/
def patNKhfs : Bytes :=
  FLAGS (flagLocalEphemeral |||
    flagLocalHybrid |||
    flagRemoteStatic |||
    flagRemoteEphemeral |||
    flagRemoteRequired |||
    flagRemoteHybrid) ++
  [tokE, tokF, tokEs, tokFlipDir, tokE, tokF, tokEe, tokFf, tokEnd]
/-- `noise_pattern_NXhfs`, `src/protocol/patterns.c:710-729`. -/
def patNXhfs : Bytes :=
  FLAGS (flagLocalEphemeral |||
    flagLocalHybrid |||
    flagRemoteStatic |||
    flagRemoteEphemeral |||
    flagRemoteHybrid) ++
  [tokE, tokF, tokFlipDir, tokE, tokF, tokEe, tokFf, tokS, tokEs, tokEnd]
/-- `noise_pattern_XNhfs`, `src/protocol/patterns.c:741-761`. -/
def patXNhfs : Bytes :=
  FLAGS (flagLocalStatic |||
    flagLocalEphemeral |||
    flagLocalHybrid |||
    flagRemoteEphemeral |||
    flagRemoteHybrid) ++
  [tokE, tokF, tokFlipDir, tokE, tokF, tokEe, tokFf, tokFlipDir, tokS, tokSe, tokEnd]
/-- `noise_pattern_XKhfs`, `src/protocol/patterns.c:775-798`. -/
def patXKhfs : Bytes :=
  FLAGS (flagLocalStatic |||
    flagLocalEphemeral |||
    flagLocalHybrid |||
    flagRemoteStatic |||
    flagRemoteEphemeral |||
    flagRemoteRequired |||
    flagRemoteHybrid) ++
  [tokE, tokF, tokEs, tokFlipDir, tokE, tokF, tokEe, tokFf, tokFlipDir, tokS, tokSe, tokEnd]
/-- `noise_pattern_XXhfs`, `src/protocol/patterns.c:810-833`. -/
def patXXhfs : Bytes :=
  FLAGS (flagLocalStatic |||
    flagLocalEphemeral |||
    flagLocalHybrid |||
    flagRemoteStatic |||
    flagRemoteEphemeral |||
    flagRemoteHybrid) ++
  [tokE, tokF, tokFlipDir, tokE, tokF, tokEe, tokFf, tokS, tokEs, tokFlipDir, tokS, tokSe, tokEnd]
/-- `noise_pattern_KNhfs`, `src/protocol/patterns.c:846-865`. -/
def patKNhfs : Bytes :=
  FLAGS (flagLocalStatic |||
    flagLocalEphemeral |||
    flagLocalHybrid |||
    flagLocalRequired |||
    flagRemoteEphemeral |||
    flagRemoteHybrid) ++
  [tokE, tokF, tokFlipDir, tokE, tokF, tokEe, tokFf, tokSe, tokEnd]
/-- `noise_pattern_KKhfs`, `src/protocol/patterns.c:879-902`. -/
def patKKhfs : Bytes :=
  FLAGS (flagLocalStatic |||
    flagLocalEphemeral |||
    flagLocalRequired |||
    flagLocalHybrid |||
    flagRemoteStatic |||
    flagRemoteEphemeral |||
    flagRemoteRequired |||
    flagRemoteHybrid) ++
  [tokE, tokF, tokEs, tokSs, tokFlipDir, tokE, tokF, tokEe, tokFf, tokSe, tokEnd]
/-- `noise_pattern_KXhfs`, `src/protocol/patterns.c:915-937`. -/
def patKXhfs : Bytes :=
  FLAGS (flagLocalStatic |||
    flagLocalEphemeral |||
    flagLocalRequired |||
    flagLocalHybrid |||
    flagRemoteStatic |||
    flagRemoteEphemeral |||
    flagRemoteHybrid) ++
  [tokE, tokF, tokFlipDir, tokE, tokF, tokEe, tokFf, tokSe, tokS, tokEs, tokEnd]
/-- `noise_pattern_INhfs`, `src/protocol/patterns.c:948-967`. -/
def patINhfs : Bytes :=
  FLAGS (flagLocalStatic |||
    flagLocalEphemeral |||
    flagLocalHybrid |||
    flagRemoteEphemeral |||
    flagRemoteHybrid) ++
  [tokE, tokF, tokS, tokFlipDir, tokE, tokF, tokEe, tokFf, tokSe, tokEnd]
/-- `noise_pattern_IKhfs`, `src/protocol/patterns.c:980-1003`. -/
def patIKhfs : Bytes :=
  FLAGS (flagLocalStatic |||
    flagLocalEphemeral |||
    flagLocalHybrid |||
    flagRemoteStatic |||
    flagRemoteEphemeral |||
    flagRemoteRequired |||
    flagRemoteHybrid) ++
  [tokE, tokF, tokEs, tokS, tokSs, tokFlipDir, tokE, tokF, tokEe, tokFf, tokSe, tokEnd]
/-- `noise_pattern_IXhfs`, `src/protocol/patterns.c:1014-1036`. -/
def patIXhfs : Bytes :=
  FLAGS (flagLocalStatic |||
    flagLocalEphemeral |||
    flagLocalHybrid |||
    flagRemoteStatic |||
    flagRemoteEphemeral |||
    flagRemoteHybrid) ++
  [tokE, tokF, tokS, tokFlipDir, tokE, tokF, tokEe, tokFf, tokSe, tokS, tokEs, tokEnd]
/-- `noise_pattern_XXfallback_hfs`, `src/protocol/patterns.c:1049-1071`. -/
def patXXfallbackHfs : Bytes :=
  FLAGS (flagLocalStatic |||
    flagLocalEphemeral |||
    flagLocalHybrid |||
    flagRemoteStatic |||
    flagRemoteEphemeral |||
    flagRemoteEphemReq |||
    flagRemoteHybrid |||
    flagRemoteHybridReq) ++
  [tokE, tokF, tokEe, tokFf, tokS, tokSe, tokFlipDir, tokS, tokEs, tokEnd]
/-- `noise_pattern_NXnoidh_hfs`, `src/protocol/patterns.c:1082-1101`. -/
def patNXnoidhHfs : Bytes :=
  FLAGS (flagLocalEphemeral |||
    flagLocalHybrid |||
    flagRemoteStatic |||
    flagRemoteEphemeral |||
    flagRemoteHybrid) ++
  [tokE, tokF, tokFlipDir, tokE, tokF, tokS, tokEe, tokFf, tokEs, tokEnd]
/-- `noise_pattern_XXnoidh_hfs`, `src/protocol/patterns.c:1113-1136`. -/
def patXXnoidhHfs : Bytes :=
  FLAGS (flagLocalStatic |||
    flagLocalEphemeral |||
    flagLocalHybrid |||
    flagRemoteStatic |||
    flagRemoteEphemeral |||
    flagRemoteHybrid) ++
  [tokE, tokF, tokFlipDir, tokE, tokF, tokS, tokEe, tokFf, tokEs, tokFlipDir, tokS, tokSe, tokEnd]
/-- `noise_pattern_KXnoidh_hfs`, `src/protocol/patterns.c:1149-1171`. -/
def patKXnoidhHfs : Bytes :=
  FLAGS (flagLocalStatic |||
    flagLocalEphemeral |||
    flagLocalRequired |||
    flagLocalHybrid |||
    flagRemoteStatic |||
    flagRemoteEphemeral |||
    flagRemoteHybrid) ++
  [tokE, tokF, tokFlipDir, tokE, tokF, tokS, tokEe, tokFf, tokSe, tokEs, tokEnd]
/-- `noise_pattern_IKnoidh_hfs`, `src/protocol/patterns.c:1184-1207`. -/
def patIKnoidhHfs : Bytes :=
  FLAGS (flagLocalStatic |||
    flagLocalEphemeral |||
    flagLocalHybrid |||
    flagRemoteStatic |||
    flagRemoteEphemeral |||
    flagRemoteRequired |||
    flagRemoteHybrid) ++
  [tokE, tokF, tokS, tokEs, tokSs, tokFlipDir, tokE, tokF, tokEe, tokFf, tokSe, tokEnd]
/-- `noise_pattern_IXnoidh_hfs`, `src/protocol/patterns.c:1218-1240`. -/
def patIXnoidhHfs : Bytes :=
  FLAGS (flagLocalStatic |||
    flagLocalEphemeral |||
    flagLocalHybrid |||
    flagRemoteStatic |||
    flagRemoteEphemeral |||
    flagRemoteHybrid) ++
  [tokE, tokF, tokS, tokFlipDir, tokE, tokF, tokS, tokEe, tokFf, tokSe, tokEs, tokEnd]

/-- The cases of the `switch` in `noise_pattern_lookup`, `src/protocol/patterns.c:1255-1297`, with
the identifiers of `include/noise/protocol/constants.h:57-97`. -/
def patternTable : List (Int × Bytes) :=
  [(0x5001, patN),
   (0x5003, patK),
   (0x5002, patX),
   (0x5004, patNN),
   (0x5005, patNK),
   (0x5006, patNX),
   (0x5007, patXN),
   (0x5008, patXK),
   (0x5009, patXX),
   (0x500a, patKN),
   (0x500b, patKK),
   (0x500c, patKX),
   (0x500d, patIN),
   (0x500e, patIK),
   (0x500f, patIX),
   (0x5010, patXXfallback),
   (0x5020, patXnoidh),
   (0x5021, patNXnoidh),
   (0x5022, patXXnoidh),
   (0x5023, patKXnoidh),
   (0x5024, patIKnoidh),
   (0x5025, patIXnoidh),
   (0x5030, patNNhfs),
   (0x5031, patNKhfs),
   (0x5032, patNXhfs),
   (0x5033, patXNhfs),
   (0x5034, patXKhfs),
   (0x5035, patXXhfs),
   (0x5036, patKNhfs),
   (0x5037, patKKhfs),
   (0x5038, patKXhfs),
   (0x5039, patINhfs),
   (0x503a, patIKhfs),
   (0x503b, patIXhfs),
   (0x503c, patXXfallbackHfs),
   (0x5050, patNXnoidhHfs),
   (0x5051, patXXnoidhHfs),
   (0x5052, patKXnoidhHfs),
   (0x5053, patIKnoidhHfs),
   (0x5054, patIXnoidhHfs)]

/-- `noise_pattern_lookup`, `src/protocol/patterns.c:1253-1298`; `none` is NULL. -/
def patternLookup (id : Int) : Option Bytes :=
  match patternTable.find? (fun p => p.1 == id) with
  | some p => some p.2
  | none => none

/-- `noise_pattern_reverse_flags`, `src/protocol/patterns.c:1306-1309`. -/
def reverseFlags (flags : PatFlags) : PatFlags :=
  ((flags >>> (8 : PatFlags)) &&& (0x00FF : PatFlags)) |||
    ((flags <<< (8 : PatFlags)) &&& (0xFF00 : PatFlags))

/-- `((NoisePatternFlags_t)(pattern[0])) | (((NoisePatternFlags_t)(pattern[1])) << 8)`,
`src/protocol/handshakestate.c:120-121` and `:996-997`; undefined if the table is too short. -/
def patternFlags (pattern : Bytes) : Out PatFlags :=
  match pattern with
  | a :: b :: _ => .ok (a.toUInt16 ||| (b.toUInt16 <<< 8))
  | _ => .ub

end Noise
