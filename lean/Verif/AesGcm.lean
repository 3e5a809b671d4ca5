import Verif.Ghash
import Verif.Cipher
import Verif.Util
/-!
# Model of `src/backend/ref/cipher-aesgcm.c`

The block cipher and the arithmetic of GHASH are parameters; `Verif.Aes` and `Verif.Ghash` have the ones of the
code base. Arrays that are written as a whole are replaced as a whole.
-/

namespace Noise.AesGcm

/-- The functions of `src/crypto/aes/rijndael-alg-fst.h:39` and `:41` as they are called at
`src/backend/ref/cipher-aesgcm.c:44`, `:48`, `:86` and `:113`: the key schedule for 256-bit keys and the encryption of
a block. The key schedule writes all of the array it is given. -/
structure BlockCipher where
  Rk : Type
  zero : Rk
  setup : Bytes → Rk
  enc : Rk → Bytes → Bytes

variable (B : BlockCipher) (I : Ghash.Impl)

/-- The part of `NoiseAESGCMState` that is private to the back end, `src/backend/ref/cipher-aesgcm.c:28-36`;
`counter` and `hash` have 16 bytes. -/
structure State where
  aes : B.Rk
  ghash : Ghash.State I
  counter : Bytes
  hash : Bytes

/-- A fresh object, `src/backend/ref/cipher-aesgcm.c:192`: `noise_new` clears the memory. -/
def fresh : State B I := ⟨B.zero, Ghash.zero I, List.replicate 16 0, List.replicate 16 0⟩

variable {B I}

/-- `noise_aesgcm_init_key`, `src/backend/ref/cipher-aesgcm.c:38-50`. -/
def initKey (st : State B I) (key : Bytes) : State B I :=
  let aes := B.setup key
  let counter := List.replicate 16 0
  let hash := B.enc aes counter
  ⟨aes, Ghash.reset st.ghash (some hash), counter, hash⟩

/-- `PUT_UINT64`, `src/backend/ref/cipher-aesgcm.c:52-63`: the eight bytes stored. -/
def putUint64 (v : UInt64) : Bytes :=
  [(v >>> 56).toUInt8, (v >>> 48).toUInt8, (v >>> 40).toUInt8, (v >>> 32).toUInt8, (v >>> 24).toUInt8,
    (v >>> 16).toUInt8, (v >>> 8).toUInt8, v.toUInt8]

/-- `noise_aesgcm_setup_iv`, `src/backend/ref/cipher-aesgcm.c:70-90`. -/
def setupIv (st : State B I) (n : UInt64) : State B I :=
  let counter := [0, 0, 0, 0] ++ putUint64 n ++ [0, 0, 0, 1]
  { st with counter := counter, hash := B.enc st.aes counter, ghash := Ghash.reset st.ghash none }

/-- The increment of the counter, `src/backend/ref/cipher-aesgcm.c:109-112`. -/
def bump (counter : Bytes) : Out Bytes := do
  let c := ((counter.getD 15 0).toUInt16 ||| ((counter.getD 14 0).toUInt16 <<< 8)) + 1
  let counter ← store counter 15 [c.toUInt8]
  store counter 14 [(c >>> 8).toUInt8]

/-- The loop of `noise_aesgcm_encrypt_or_decrypt`, `src/backend/ref/cipher-aesgcm.c:104-123`: the counter and the
bytes that replace the data. The first argument bounds the number of iterations; running out is undefined (it does
not happen). -/
def cryptLoop (aes : B.Rk) : Nat → Bytes → Bytes → Out (Bytes × Bytes)
  | _, counter, [] => .ok (counter, [])
  | 0, _, _ :: _ => .ub
  | n + 1, counter, x :: d => do
    let counter ← bump counter
    let keystream := B.enc aes counter
    let temp := if 16 > (x :: d).length then (x :: d).length else 16
    let r ← cryptLoop aes n counter ((x :: d).drop temp)
    pure (r.1, List.zipWith (· ^^^ ·) ((x :: d).take temp) keystream ++ r.2)

/-- `noise_aesgcm_encrypt_or_decrypt`, `src/backend/ref/cipher-aesgcm.c:99-125`. -/
def crypt (st : State B I) (d : Bytes) : Out (State B I × Bytes) := do
  let r ← cryptLoop st.aes d.length st.counter d
  pure ({ st with counter := r.1 }, r.2)

/-- `noise_aesgcm_finalize_hash`, `src/backend/ref/cipher-aesgcm.c:135-154`: the state and the 16 bytes stored. -/
def finalizeHash (st : State B I) (adLen dataLen : UInt64) : Out (State B I × Bytes) := do
  let gh ← Ghash.update (Ghash.pad st.ghash) (putUint64 (adLen * 8) ++ putUint64 (dataLen * 8))
  pure ({ st with ghash := gh }, List.zipWith (· ^^^ ·) st.hash gh.Y)

/-- The associated data, `src/backend/ref/cipher-aesgcm.c:162-165` and `:178-181`. -/
def authAd (st : State B I) (ad : Bytes) : Out (State B I) :=
  if ad.length ≠ 0 then do
    let gh ← Ghash.update st.ghash ad
    pure { st with ghash := Ghash.pad gh }
  else pure st

/-- `noise_aesgcm_encrypt`, `src/backend/ref/cipher-aesgcm.c:156-170`. `data` is the whole object the pointer
refers to. -/
def encrypt (st : State B I) (n : UInt64) (ad data : Bytes) (len : Nat) : Out (State B I × Bytes) := do
  let st := setupIv st n
  let st ← authAd st ad
  let m ← load data 0 len
  let r ← crypt st m
  let data ← store data 0 r.2
  let m ← load data 0 len
  let gh ← Ghash.update r.1.ghash m
  let f ← finalizeHash { r.1 with ghash := gh } (UInt64.ofNat ad.length) (UInt64.ofNat len)
  let data ← store data len f.2
  pure (f.1, data)

/-- `noise_aesgcm_decrypt`, `src/backend/ref/cipher-aesgcm.c:172-188`. -/
def decrypt (st : State B I) (n : UInt64) (ad data : Bytes) (len : Nat) : Out (Err × State B I × Bytes) := do
  let st := setupIv st n
  let st ← authAd st ad
  let m ← load data 0 len
  let gh ← Ghash.update st.ghash m
  let f ← finalizeHash { st with ghash := gh } (UInt64.ofNat ad.length) (UInt64.ofNat len)
  let st := { f.1 with hash := f.2 }
  let tag ← load data len 16
  let e ← isEqual tag st.hash 16
  if e = 0 then pure (.macFailure, st, data)
  else do
    let m ← load data 0 len
    let r ← crypt st m
    let data ← store data 0 r.2
    pure (.none, r.1, data)

/-- The outcome of `encrypt` for the caller, `src/backend/ref/cipher-aesgcm.c:169`. A call without defined behaviour
is given a result here that no caller sees. -/
def encOut : Out (State B I × Bytes) → Err × Bytes
  | .ok r => (.none, r.2)
  | .ub => (.system, [])

/-- The outcome of `decrypt` for the caller, `src/backend/ref/cipher-aesgcm.c:184-187`. -/
def decOut (ct : Bytes) : Out (Err × State B I × Bytes) → Err × Bytes
  | .ok r => (r.1, r.2.2)
  | .ub => (.system, ct)

variable (B I) in
/-- The back end as the protocol layer sees it, `src/backend/ref/cipher-aesgcm.c:190-203`. The bytes after the
plaintext are the room for the MAC. -/
def backend : CipherBackend where
  cipherId := 0x4302
  keyLen := 32
  macLen := 16
  enc k n ad pt := encOut (encrypt (initKey (fresh B I) k) n ad (pt ++ List.replicate 16 0) pt.length)
  dec k n ad ct := decOut ct (decrypt (initKey (fresh B I) k) n ad ct (ct.length - 16))

end Noise.AesGcm
