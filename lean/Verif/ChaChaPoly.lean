import Verif.ChaCha
import Verif.Poly1305
import Verif.Cipher
import Verif.Util
/-!
# Model of `src/backend/ref/cipher-chachapoly.c`
-/

namespace Noise.ChaChaPoly

/-- The part of `NoiseChaChaPolyState` that is private to the back end,
`src/backend/ref/cipher-chachapoly.c:28-35`; `block` has 64 bytes. -/
structure State where
  chacha : ChaCha.Words
  poly : Poly1305.Ctx
  block : Bytes
  deriving DecidableEq, Repr

/-- `noise_chachapoly_init_key`, `src/backend/ref/cipher-chachapoly.c:37-42`. -/
def initKey (st : State) (key : Bytes) : State := { st with chacha := ChaCha.keysetup key 256 }

/-- `PUT_UINT64`, `src/backend/ref/cipher-chachapoly.c:44-54`: the eight bytes stored. -/
def putUint64 (v : UInt64) : Bytes :=
  [v.toUInt8, (v >>> 8).toUInt8, (v >>> 16).toUInt8, (v >>> 24).toUInt8, (v >>> 32).toUInt8,
    (v >>> 40).toUInt8, (v >>> 48).toUInt8, (v >>> 56).toUInt8]

/-- `chacha_encrypt_bytes` called with a `size_t` length: the parameter `bytes` of
`src/crypto/chacha/chacha.c:141` and `:209` has 32 bits, so only the low 32 bits of the length count. -/
def chachaBytes (x : ChaCha.Words) (m : Bytes) : ChaCha.Words × Bytes :=
  let len := m.length % 2 ^ 32
  let r := ChaCha.encryptBytes x (m.take len)
  (r.1, r.2 ++ m.drop len)

/-- `noise_chachapoly_setup`, `src/backend/ref/cipher-chachapoly.c:62-73`. -/
def setup (st : State) (n : UInt64) : Out State := do
  let block ← store st.block 0 (putUint64 n)
  let chacha := ChaCha.ivsetup st.chacha block none
  let block ← store block 0 (List.replicate 64 0)
  let m ← load block 0 64
  let r := chachaBytes chacha m
  let block ← store block 0 r.2
  let poly := Poly1305.init st.poly block
  let block ← store block 0 (List.replicate 64 0)
  pure { chacha := r.1, poly := poly, block := block }

/-- `noise_chachapoly_pad_auth`, `src/backend/ref/cipher-chachapoly.c:81-90`. -/
def padAuth (st : State) (len : Nat) : Out State :=
  if len % 16 ≠ 0 then do
    let poly ← Poly1305.update st.poly (List.replicate (16 - len % 16) 0)
    pure { st with poly := poly }
  else pure st

/-- `noise_chachapoly_auth_lengths`, `src/backend/ref/cipher-chachapoly.c:99-105`. -/
def authLengths (st : State) (adLen dataLen : UInt64) : Out State := do
  let block ← store st.block 0 (putUint64 adLen)
  let block ← store block 8 (putUint64 dataLen)
  let m ← load block 0 16
  let poly ← Poly1305.update st.poly m
  pure { st with block := block, poly := poly }

/-- The associated data, `src/backend/ref/cipher-chachapoly.c:113-116` and `:131-134`. -/
def authAd (st : State) (ad : Bytes) : Out State :=
  if ad.length ≠ 0 then do
    let poly ← Poly1305.update st.poly ad
    padAuth { st with poly := poly } ad.length
  else pure st

/-- `noise_chachapoly_encrypt`, `src/backend/ref/cipher-chachapoly.c:107-123`. `data` is the whole object the
pointer refers to. -/
def encrypt (st : State) (n : UInt64) (ad data : Bytes) (len : Nat) : Out (State × Bytes) := do
  let st ← setup st n
  let st ← authAd st ad
  let m ← load data 0 len
  let r := chachaBytes st.chacha m
  let data ← store data 0 r.2
  let m ← load data 0 len
  let poly ← Poly1305.update st.poly m
  let st ← padAuth { st with chacha := r.1, poly := poly } len
  let st ← authLengths st (UInt64.ofNat ad.length) (UInt64.ofNat len)
  let f ← Poly1305.finish st.poly
  let data ← store data len f.2
  pure ({ st with poly := f.1 }, data)

/-- `noise_chachapoly_decrypt`, `src/backend/ref/cipher-chachapoly.c:125-143`. -/
def decrypt (st : State) (n : UInt64) (ad data : Bytes) (len : Nat) : Out (Err × State × Bytes) := do
  let st ← setup st n
  let st ← authAd st ad
  let m ← load data 0 len
  let poly ← Poly1305.update st.poly m
  let st ← padAuth { st with poly := poly } len
  let st ← authLengths st (UInt64.ofNat ad.length) (UInt64.ofNat len)
  let f ← Poly1305.finish st.poly
  let block ← store st.block 0 f.2
  let st := { st with poly := f.1, block := block }
  let tag ← load data len 16
  let e ← isEqual st.block tag 16
  if e = 0 then pure (.macFailure, st, data)
  else do
    let m ← load data 0 len
    let r := chachaBytes st.chacha m
    let data ← store data 0 r.2
    pure (.none, { st with chacha := r.1 }, data)

/-- A fresh object, `src/backend/ref/cipher-chachapoly.c:145-149`: `noise_new` clears the memory. -/
def fresh : State :=
  ⟨⟨0, 0, 0, 0, 0, 0, 0, 0, 0, 0, 0, 0, 0, 0, 0, 0⟩, Poly1305.zero, List.replicate 64 0⟩

/-- The outcome of `encrypt` for the caller, `src/backend/ref/cipher-chachapoly.c:122`. A call without defined
behaviour is given a result here that no caller sees. -/
def encOut : Out (State × Bytes) → Err × Bytes
  | .ok r => (.none, r.2)
  | .ub => (.system, [])

/-- The outcome of `decrypt` for the caller, `src/backend/ref/cipher-chachapoly.c:139-142`. -/
def decOut (ct : Bytes) : Out (Err × State × Bytes) → Err × Bytes
  | .ok r => (r.1, r.2.2)
  | .ub => (.system, ct)

/-- The back end as the protocol layer sees it, `src/backend/ref/cipher-chachapoly.c:145-158`. The bytes
after the plaintext are the room for the MAC. -/
def backend : CipherBackend where
  cipherId := 0x4301
  keyLen := 32
  macLen := 16
  enc k n ad pt := encOut (encrypt (initKey fresh k) n ad (pt ++ List.replicate 16 0) pt.length)
  dec k n ad ct := decOut ct (decrypt (initKey fresh k) n ad ct (ct.length - 16))

end Noise.ChaChaPoly
