import Verif.ProtobufWrite
/-!
# Certificates and key files as messages (specification for C50)

The messages of `doc/noise-certificate.proto` as plain data, and their encoding by the rules of protocol
buffers (proto3): fields in the order of their numbers, a string, byte string or nested message as a
length-delimited field, a number as a varint that is left out when it is zero, an absent field left out, a
repeated field as one field per item.

An item of a repeated field is an optional object because the C structures hold an array of pointers; a NULL
pointer has no encoding.
-/

namespace Noise
namespace Cert

/-- `struct _Noise_PublicKeyInfo`, `src/keys/certificate.c:56-61`. A
string or byte string is the contents of the block (`_size_` bytes), without the terminating NUL. -/
structure PublicKeyInfo where
  algorithm : Option Bytes := none
  key : Option Bytes := none
  deriving DecidableEq, Repr

/-- `struct _Noise_PrivateKeyInfo`, `src/keys/certificate.c:121-126`. -/
structure PrivateKeyInfo where
  algorithm : Option Bytes := none
  key : Option Bytes := none
  deriving DecidableEq, Repr

/-- `struct _Noise_MetaInfo`, `src/keys/certificate.c:63-68`. -/
structure MetaInfo where
  name : Option Bytes := none
  value : Option Bytes := none
  deriving DecidableEq, Repr

/-- `struct _Noise_SubjectInfo`, `src/keys/certificate.c:41-54`. -/
structure SubjectInfo where
  id : Option Bytes := none
  name : Option Bytes := none
  role : Option Bytes := none
  keys : List (Option PublicKeyInfo) := []
  metas : List (Option MetaInfo) := []
  deriving DecidableEq, Repr

/-- `struct _Noise_PrivateKey`, `src/keys/certificate.c:106-119`. -/
structure PrivateKey where
  id : Option Bytes := none
  name : Option Bytes := none
  role : Option Bytes := none
  keys : List (Option PrivateKeyInfo) := []
  metas : List (Option MetaInfo) := []
  deriving DecidableEq, Repr

/-- `struct _Noise_ExtraSignedInfo`, `src/keys/certificate.c:83-93`. -/
structure ExtraSignedInfo where
  nonce : Option Bytes := none
  validFrom : Option Bytes := none
  validTo : Option Bytes := none
  metas : List (Option MetaInfo) := []
  deriving DecidableEq, Repr

/-- `struct _Noise_Signature`, `src/keys/certificate.c:70-81`. -/
structure Signature where
  id : Option Bytes := none
  name : Option Bytes := none
  signingKey : Option PublicKeyInfo := none
  hashAlgorithm : Option Bytes := none
  extraSignedInfo : Option ExtraSignedInfo := none
  signature : Option Bytes := none
  deriving DecidableEq, Repr

/-- `struct _Noise_Certificate`, `src/keys/certificate.c:27-33`. -/
structure Certificate where
  version : UInt32 := 0
  subject : Option SubjectInfo := none
  signatures : List (Option Signature) := []
  deriving DecidableEq, Repr

/-- `struct _Noise_CertificateChain`, `src/keys/certificate.c:35-39`. -/
structure CertificateChain where
  certs : List (Option Certificate) := []
  deriving DecidableEq, Repr

/-- `struct _Noise_EncryptedPrivateKey`, `src/keys/certificate.c:95-104`. -/
structure EncryptedPrivateKey where
  version : UInt32 := 0
  algorithm : Option Bytes := none
  salt : Option Bytes := none
  iterations : UInt32 := 0
  encryptedData : Option Bytes := none
  deriving DecidableEq, Repr

/-! ## Encoding -/

/-- A string or byte string. -/
def fBlock (tag : Nat) : Option Bytes → Bytes
  | none => []
  | some b => Wire.field tag (.delim b)

/-- A number. -/
def fNum (tag : Nat) (v : UInt32) : Bytes := if v = 0 then [] else Wire.field tag (.varint v.toNat)

/-- A nested message. -/
def fMsg {α : Type} (enc : α → Bytes) (tag : Nat) : Option α → Bytes
  | none => []
  | some o => Wire.field tag (.delim (enc o))

/-- A repeated nested message. -/
def fList {α : Type} (enc : α → Bytes) (tag : Nat) (l : List (Option α)) : Bytes :=
  (l.map (fMsg enc tag)).flatten

/-- `doc/noise-certificate.proto`, message PublicKeyInfo. -/
def PublicKeyInfo.enc (o : PublicKeyInfo) : Bytes := fBlock 1 o.algorithm ++ fBlock 2 o.key

/-- `doc/noise-certificate.proto`, message PrivateKeyInfo. -/
def PrivateKeyInfo.enc (o : PrivateKeyInfo) : Bytes := fBlock 1 o.algorithm ++ fBlock 2 o.key

/-- `doc/noise-certificate.proto`, message MetaInfo. -/
def MetaInfo.enc (o : MetaInfo) : Bytes := fBlock 1 o.name ++ fBlock 2 o.value

/-- `doc/noise-certificate.proto`, message SubjectInfo. -/
def SubjectInfo.enc (o : SubjectInfo) : Bytes :=
  fBlock 1 o.id ++ fBlock 2 o.name ++ fBlock 3 o.role ++ fList PublicKeyInfo.enc 4 o.keys ++
    fList MetaInfo.enc 5 o.metas

/-- `doc/noise-certificate.proto`, message PrivateKey. -/
def PrivateKey.enc (o : PrivateKey) : Bytes :=
  fBlock 1 o.id ++ fBlock 2 o.name ++ fBlock 3 o.role ++ fList PrivateKeyInfo.enc 4 o.keys ++
    fList MetaInfo.enc 5 o.metas

/-- `doc/noise-certificate.proto`, message ExtraSignedInfo. -/
def ExtraSignedInfo.enc (o : ExtraSignedInfo) : Bytes :=
  fBlock 1 o.nonce ++ fBlock 2 o.validFrom ++ fBlock 3 o.validTo ++ fList MetaInfo.enc 4 o.metas

/-- `doc/noise-certificate.proto`, message Signature. -/
def Signature.enc (o : Signature) : Bytes :=
  fBlock 1 o.id ++ fBlock 2 o.name ++ fMsg PublicKeyInfo.enc 3 o.signingKey ++ fBlock 4 o.hashAlgorithm ++
    fMsg ExtraSignedInfo.enc 5 o.extraSignedInfo ++ fBlock 15 o.signature

/-- `doc/noise-certificate.proto`, message Certificate. -/
def Certificate.enc (o : Certificate) : Bytes :=
  fNum 1 o.version ++ fMsg SubjectInfo.enc 2 o.subject ++ fList Signature.enc 3 o.signatures

/-- `doc/noise-certificate.proto`, message CertificateChain. -/
def CertificateChain.enc (o : CertificateChain) : Bytes := fList Certificate.enc 8 o.certs

/-- `doc/noise-certificate.proto`, message EncryptedPrivateKey. -/
def EncryptedPrivateKey.enc (o : EncryptedPrivateKey) : Bytes :=
  fNum 10 o.version ++ fBlock 11 o.algorithm ++ fBlock 12 o.salt ++ fNum 13 o.iterations ++
    fBlock 15 o.encryptedData

/-! ## Strings -/

/-- The strings of the items of an array. -/
def strings {α : Type} (f : α → List Bytes) (l : List (Option α)) : List Bytes :=
  (l.map fun x => (x.map f).getD []).flatten

/-- The fields of type `string`. -/
def PublicKeyInfo.strings (o : PublicKeyInfo) : List Bytes := o.algorithm.toList

/-- The fields of type `string`. -/
def PrivateKeyInfo.strings (o : PrivateKeyInfo) : List Bytes := o.algorithm.toList

/-- The fields of type `string`. -/
def MetaInfo.strings (o : MetaInfo) : List Bytes := o.name.toList ++ o.value.toList

/-- The fields of type `string`, including those of nested objects. -/
def SubjectInfo.strings (o : SubjectInfo) : List Bytes :=
  o.id.toList ++ o.name.toList ++ o.role.toList ++ Cert.strings PublicKeyInfo.strings o.keys ++
    Cert.strings MetaInfo.strings o.metas

/-- The fields of type `string`, including those of nested objects. -/
def PrivateKey.strings (o : PrivateKey) : List Bytes :=
  o.id.toList ++ o.name.toList ++ o.role.toList ++ Cert.strings PrivateKeyInfo.strings o.keys ++
    Cert.strings MetaInfo.strings o.metas

/-- The fields of type `string`, including those of nested objects. -/
def ExtraSignedInfo.strings (o : ExtraSignedInfo) : List Bytes :=
  o.validFrom.toList ++ o.validTo.toList ++ Cert.strings MetaInfo.strings o.metas

/-- The fields of type `string`, including those of nested objects. -/
def Signature.strings (o : Signature) : List Bytes :=
  o.id.toList ++ o.name.toList ++ (o.signingKey.map PublicKeyInfo.strings).getD [] ++ o.hashAlgorithm.toList ++
    (o.extraSignedInfo.map ExtraSignedInfo.strings).getD []

/-- The fields of type `string`, including those of nested objects. -/
def Certificate.strings (o : Certificate) : List Bytes :=
  (o.subject.map SubjectInfo.strings).getD [] ++ Cert.strings Signature.strings o.signatures

/-- The fields of type `string`, including those of nested objects. -/
def CertificateChain.strings (o : CertificateChain) : List Bytes := Cert.strings Certificate.strings o.certs

/-- The fields of type `string`. -/
def EncryptedPrivateKey.strings (o : EncryptedPrivateKey) : List Bytes := o.algorithm.toList

/-! ## NULL items

The format leaves NULL items of arrays out. -/

/-- An array without its NULL items, the others changed by `f`. -/
def items {α : Type} (f : α → α) (l : List (Option α)) : List (Option α) := (l.filterMap _root_.id).map fun x => some (f x)

/-- A subject without NULL items. -/
def SubjectInfo.norm (o : SubjectInfo) : SubjectInfo := { o with keys := items _root_.id o.keys, metas := items _root_.id o.metas }

/-- A private key without NULL items. -/
def PrivateKey.norm (o : PrivateKey) : PrivateKey := { o with keys := items _root_.id o.keys, metas := items _root_.id o.metas }

/-- Extra signed information without NULL items. -/
def ExtraSignedInfo.norm (o : ExtraSignedInfo) : ExtraSignedInfo := { o with metas := items _root_.id o.metas }

/-- A signature without NULL items. -/
def Signature.norm (o : Signature) : Signature :=
  { o with extraSignedInfo := o.extraSignedInfo.map ExtraSignedInfo.norm }

/-- A certificate without NULL items. -/
def Certificate.norm (o : Certificate) : Certificate :=
  { o with subject := o.subject.map SubjectInfo.norm, signatures := items Signature.norm o.signatures }

/-- A certificate chain without NULL items. -/
def CertificateChain.norm (o : CertificateChain) : CertificateChain := { certs := items Certificate.norm o.certs }

end Cert
end Noise
