import Verif.HashProps
/-!
# The Noise specification's CipherState and SymmetricState

Written from the Noise Protocol Framework document (sections 4 and 5: the revision implemented
by this library, in which HKDF has two outputs), independently of the C code.
-/

namespace Noise.Spec

/-- The cryptographic functions a Noise protocol is parameterised by (section 4). `macLen` is
the length of the authentication data that ENCRYPT appends. -/
structure Crypto where
  hashLen : Nat
  blockLen : Nat
  macLen : Nat
  HASH : Bytes → Bytes
  ENCRYPT : (k : Bytes) → (n : Nat) → (ad plaintext : Bytes) → Bytes
  DECRYPT : (k : Bytes) → (n : Nat) → (ad ciphertext : Bytes) → Option Bytes

/-- Section 5.1: CipherState variables. -/
structure Cipher where
  k : Option Bytes
  n : Nat
  deriving DecidableEq, Repr

/-- Section 5.1: EncryptWithAd. `none` signals the error for the reserved nonce. -/
def Cipher.encryptWithAd (P : Crypto) (c : Cipher) (ad pt : Bytes) : Option (Cipher × Bytes) :=
  match c.k with
  | none => some (c, pt)
  | some k => if c.n = 2 ^ 64 - 1 then none
    else some ({ c with n := c.n + 1 }, P.ENCRYPT k c.n ad pt)

/-- Section 5.1: DecryptWithAd. `none` signals an error to the caller. -/
def Cipher.decryptWithAd (P : Crypto) (c : Cipher) (ad ct : Bytes) : Option (Cipher × Bytes) :=
  match c.k with
  | none => some (c, ct)
  | some k => if c.n = 2 ^ 64 - 1 then none
    else match P.DECRYPT k c.n ad ct with
      | none => none
      | some pt => some ({ c with n := c.n + 1 }, pt)

/-- Section 5.2: SymmetricState variables. -/
structure Sym where
  c : Cipher
  ck : Bytes
  h : Bytes
  deriving DecidableEq, Repr

/-- Section 5.2: InitializeSymmetric(protocol_name). -/
def initializeSymmetric (P : Crypto) (name : Bytes) : Sym :=
  let h := if name.length ≤ P.hashLen then name ++ List.replicate (P.hashLen - name.length) 0
    else P.HASH name
  { c := ⟨none, 0⟩, ck := h, h := h }

/-- Section 4.3: HKDF(chaining_key, input_key_material). -/
def hkdf (P : Crypto) (ck ikm : Bytes) : Bytes × Bytes := specHkdf P.HASH P.blockLen ck ikm

/-- Section 5.2: MixKey(input_key_material); keys are 32 bytes ("if HASHLEN is 64, truncates
temp_k to 32 bytes"). -/
def Sym.mixKey (P : Crypto) (s : Sym) (ikm : Bytes) : Sym :=
  { s with ck := (hkdf P s.ck ikm).1, c := ⟨some ((hkdf P s.ck ikm).2.take 32), 0⟩ }

/-- Section 5.2: MixHash(data). -/
def Sym.mixHash (P : Crypto) (s : Sym) (data : Bytes) : Sym :=
  { s with h := P.HASH (s.h ++ data) }

/-- Section 5.2: EncryptAndHash(plaintext). -/
def Sym.encryptAndHash (P : Crypto) (s : Sym) (pt : Bytes) : Option (Sym × Bytes) :=
  match s.c.encryptWithAd P s.h pt with
  | none => none
  | some (c, ct) => some (({ s with c := c } : Sym).mixHash P ct, ct)

/-- Section 5.2: DecryptAndHash(ciphertext). -/
def Sym.decryptAndHash (P : Crypto) (s : Sym) (ct : Bytes) : Option (Sym × Bytes) :=
  match s.c.decryptWithAd P s.h ct with
  | none => none
  | some (c, pt) => some (({ s with c := c } : Sym).mixHash P ct, pt)

/-- Section 5.2: Split(). -/
def Sym.split (P : Crypto) (s : Sym) : Cipher × Cipher :=
  (⟨some ((hkdf P s.ck []).1.take 32), 0⟩, ⟨some ((hkdf P s.ck []).2.take 32), 0⟩)

end Noise.Spec
