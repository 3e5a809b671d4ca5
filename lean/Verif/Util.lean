import Verif.Basic
/-!
# Model of `src/protocol/util.c` (comparison, cleaning, fingerprints) and `src/protocol/errors.c`
-/

namespace Noise

/-- `noise_clean`, `src/protocol/util.c:170-177`: overwrite `size` bytes with zero, one at a time. -/
def cleanLoop : Bytes → Nat → Out Bytes
  | d, 0 => .ok d
  | [], _ + 1 => .ub
  | _ :: ds, size + 1 => do let r ← cleanLoop ds size; pure (0 :: r)

/-- The accumulation loop of `noise_is_equal`, `src/protocol/util.c:193-198`. -/
def isEqualLoop : Bytes → Bytes → Nat → UInt8 → Out UInt8
  | _, _, 0, temp => .ok temp
  | a :: as, b :: bs, size + 1, temp => isEqualLoop as bs size (temp ||| (a ^^^ b))
  | _, _, _ + 1, _ => .ub

/-- The final expression `(0x0100 - (int)temp) >> 8` of `src/protocol/util.c:199` and `:219`.
The subtraction is never negative, so the arithmetic shift is a division. -/
def ctResult (temp : UInt8) : Nat := (0x0100 - temp.toNat) >>> 8

/-- `noise_is_equal`, `src/protocol/util.c:188-200`. -/
def isEqual (s1 s2 : Bytes) (size : Nat) : Out Nat := do
  let t ← isEqualLoop s1 s2 size 0
  pure (ctResult t)

/-- The accumulation loop of `noise_is_zero`, `src/protocol/util.c:215-218`. -/
def isZeroLoop : Bytes → Nat → UInt8 → Out UInt8
  | _, 0, temp => .ok temp
  | a :: as, size + 1, temp => isZeroLoop as size (temp ||| a)
  | [], _ + 1, _ => .ub

/-- `noise_is_zero`, `src/protocol/util.c:211-220`. -/
def isZero (d : Bytes) (size : Nat) : Out Nat := do
  let t ← isZeroLoop d size 0
  pure (ctResult t)

/-- `NOISE_FINGERPRINT_BASIC`/`FULL`, `include/noise/protocol/constants.h`; any other value. -/
inductive FpType
  | basic | full | other
  deriving DecidableEq, Repr

/-- `hexchars`, `src/protocol/util.c:249`, as ASCII codes. -/
def hexchars : List UInt8 :=
  [48, 49, 50, 51, 52, 53, 54, 55, 56, 57, 97, 98, 99, 100, 101, 102]

/-- `hexchars[i]` for a value already masked to four bits, `src/protocol/util.c:285-286`. -/
def hexchar (i : UInt8) : UInt8 := hexchars.getD i.toNat 0

/-- The formatting loop of `noise_format_fingerprint`, `src/protocol/util.c:283-288`, writing
three characters per digest byte from `posn` on. -/
def fpLoop (hash : Bytes) : (buffer : Bytes) → (posn f_len : Nat) → Out Bytes
  | buffer, _, 0 => .ok buffer
  | buffer, posn, k + 1 =>
    match hash[posn]? with
    | none => .ub
    | some byte => do
      let b1 ← store buffer (posn * 3) [hexchar ((byte >>> 4) &&& 0x0F)]
      let b2 ← store b1 (posn * 3 + 1) [hexchar (byte &&& 0x0F)]
      let b3 ← store b2 (posn * 3 + 2) [58]
      fpLoop hash b3 (posn + 1) k

/-- `noise_format_fingerprint`, `src/protocol/util.c:245-292`. `buffer` is the caller's memory
of `len = buffer.length` bytes; `sha256` is the digest function used on lines 277-279. Both
pointers are non-NULL. -/
def formatFingerprint (sha256 : Bytes → Bytes) (ty : FpType) (buffer : Bytes)
    (publicKey : Bytes) : Out (Err × Bytes) :=
  if buffer.length = 0 then .ok (.invalidLength, buffer)
  else do
    let buffer ← store buffer 0 [0]
    match ty with
    | .other => pure (.invalidParam, buffer)
    | ty =>
      let fLen := if ty = .basic then 16 else 32
      if fLen * 3 > buffer.length then pure (.invalidLength, buffer)
      else do
        let b ← fpLoop (sha256 publicKey) buffer 0 fLen
        let b ← store b (fLen * 3 - 1) [0]
        pure (.none, b)

/-! ## errors.c -/

/-- Numeric code of an error: `include/noise/protocol/constants.h:131-148`, where
`NOISE_ID('E', n) = 0x4500 + n`. -/
def Err.code : Err → Nat
  | .none => 0
  | .noMemory => 0x4501 | .unknownId => 0x4502 | .unknownName => 0x4503
  | .macFailure => 0x4504 | .notApplicable => 0x4505 | .system => 0x4506
  | .remoteKeyRequired => 0x4507 | .localKeyRequired => 0x4508 | .pskRequired => 0x4509
  | .invalidLength => 0x450A | .invalidParam => 0x450B | .invalidState => 0x450C
  | .invalidNonce => 0x450D | .invalidPrivateKey => 0x450E | .invalidPublicKey => 0x450F
  | .invalidFormat => 0x4510 | .invalidSignature => 0x4511

/-- An ASCII string literal as bytes. Lean plumbing for C string literals such as
`src/protocol/errors.c:46`. -/
def ascii (s : String) : Bytes := s.toList.map (fun c => UInt8.ofNat c.toNat)

/-- `error_strings`, `src/protocol/errors.c:45-65`, without the trailing "END". -/
def errorStrings : List Bytes := [
  "No error", "Out of memory", "Unknown identifier", "Unknown name", "MAC failure",
  "Not applicable", "System error", "Remote public key required", "Local keypair required",
  "Pre shared key required", "Invalid length", "Invalid parameter", "Invalid state",
  "Invalid nonce", "Invalid private key", "Invalid public key", "Invalid format",
  "Invalid signature"].map ascii

/-- `noise_errstr`, `src/protocol/errors.c:76-83`; the argument is a C `int`. -/
def errstr (err : Int) : Option Bytes :=
  if err = 0 then errorStrings[0]?
  else if err < 0x4501 ∨ err ≥ 0x4500 + errorStrings.length then none
  else errorStrings[(err - 0x4500).toNat]?

/-- `strncpy(buf, s, n)`: copies at most `n` characters and pads with zeros to `n`.
C library function used at `src/protocol/errors.c:122`. -/
def strncpy (s : Bytes) (n : Nat) : Bytes :=
  if s.length < n then s ++ List.replicate (n - s.length) 0 else s.take n

/-- Hexadecimal digits of `n` without leading zeros (`"0"` for zero): the `%x` conversion used
at `src/protocol/errors.c:124`. -/
def hexDigits (n : Nat) : Bytes :=
  if n < 16 then [hexchar (UInt8.ofNat n)]
  else hexDigits (n / 16) ++ [hexchar (UInt8.ofNat (n % 16))]

/-- `snprintf(buf, size, "Unknown error 0x%x", err)`: the bytes written (at most `size - 1`
characters and a terminator); `%x` prints the 32-bit two's complement of the `int`.
`src/protocol/errors.c:124`. -/
def snprintfUnknown (err : Int) (size : Nat) : Bytes :=
  (ascii "Unknown error 0x" ++ hexDigits (err % 4294967296).toNat).take (size - 1) ++ [0]

/-- `noise_strerror`, `src/protocol/errors.c:116-127`; `buf` is the caller's memory of
`size = buf.length` bytes. Returns the C return value and the memory. -/
def strerror (err : Int) (buf : Bytes) : Out (Int × Bytes) :=
  if buf.length = 0 then .ok (-1, buf)
  else do
    let b ← match errstr err with
      | some s => store buf 0 (strncpy s buf.length)
      | none => store buf 0 (snprintfUnknown err buf.length)
    let b ← store b (b.length - 1) [0]
    pure (0, b)

end Noise
