import Verif.Loader
import Verif.HashProps
import Verif.Fips180
/-!
# Specification for `src/keys/loader.c`: protected private keys

What an encrypted private key should be, from the documentation of the file format (`doc/noise-certificate.proto`) in terms of
PBKDF2 (RFC 8018, specified in `HashProps.lean`) and an AEAD algorithm.
-/

namespace Noise
namespace Loader
open Cert

/-- The algorithms of a protection name: an AEAD algorithm and a hash function with its parameters. -/
structure Prot where
  CB : CipherBackend
  H : Bytes → Bytes
  blockLen : Nat
  hashLen : Nat

namespace Prot
variable (P : Prot) (pass salt : Bytes) (iterations : Nat)

/-- 40 bytes of key material from the passphrase. -/
def material : Bytes := specPbkdf2 (specHmac P.H P.blockLen pass) P.hashLen salt iterations 40

/-- The AEAD key: the first 32 bytes. -/
def key : Bytes := (P.material pass salt iterations).take 32

/-- The AEAD nonce: the last 8 bytes as a big endian number. -/
def nonce : UInt64 := UInt64.ofNat (Fips180.beNat ((P.material pass salt iterations).drop 32))

/-- The encrypted form of a plaintext. -/
def encrypt (pt : Bytes) : Bytes := (P.CB.enc (P.key pass salt iterations) (P.nonce pass salt iterations) [] pt).2

/-- The outcome of decrypting. -/
def decrypt (ct : Bytes) : Err × Bytes := P.CB.dec (P.key pass salt iterations) (P.nonce pass salt iterations) [] ct

/-- A salt can be used unless the nonce is the reserved one. -/
def Usable : Prop := P.nonce pass salt iterations ≠ 0xFFFFFFFFFFFFFFFF

instance : Decidable (P.Usable pass salt iterations) := by unfold Usable; infer_instance

/-- A private key protected with a passphrase under an algorithm name, with a salt, version 1 and 20000 iterations. -/
def «protected» (name : Bytes) (key : PrivateKey) : EncryptedPrivateKey where
  version := 1
  algorithm := some name
  salt := some salt
  iterations := 20000
  encryptedData := some (P.encrypt pass salt 20000 key.enc)

end Prot

/-- The protection name `name` stands for the algorithms `P`, and these are available: the name can be parsed, there is a
cipher object with a key of 32 bytes, and a hash object that computes `P.H`. -/
structure Protects (A : Algs) (name : Bytes) (P : Prot) where
  cipherId : Nat
  hashId : Nat
  hash : HashObj
  parse : parseProtectName name = some (cipherId, hashId)
  cipher_eq : A.cipher cipherId = some P.CB
  hash_eq : A.hash hashId = some hash
  keyLen : P.CB.keyLen = 32
  cipher_lawful : P.CB.Lawful
  hash_lawful : hash.B.Lawful P.H
  blockLen : hash.B.blockLen = P.blockLen
  hashLen : hash.B.hashLen = P.hashLen

/-- The names: the algorithm names of a cipher and a hash function and "PBKDF2", with underscores between. -/
def protectNames : List (String × Nat × Nat) := [
  ("ChaChaPoly_BLAKE2s_PBKDF2", 0x4301, 0x4801), ("ChaChaPoly_BLAKE2b_PBKDF2", 0x4301, 0x4802),
  ("ChaChaPoly_SHA256_PBKDF2", 0x4301, 0x4803), ("ChaChaPoly_SHA512_PBKDF2", 0x4301, 0x4804),
  ("AESGCM_BLAKE2s_PBKDF2", 0x4302, 0x4801), ("AESGCM_BLAKE2b_PBKDF2", 0x4302, 0x4802),
  ("AESGCM_SHA256_PBKDF2", 0x4302, 0x4803), ("AESGCM_SHA512_PBKDF2", 0x4302, 0x4804)]

end Loader
end Noise
