import Verif.Cert
import Verif.Cipher
import Verif.Hash
import Verif.Names
/-!
# Model of `src/keys/loader.c`

What the code takes from its surroundings is a parameter: the cipher and hash objects by identifier
(`noise_cipherstate_new_by_id`, `noise_hashstate_new_by_id`), the outcome of each allocation, the salts that the random number
generator gives, and the file system. NULL arguments, refused on entry, are not modelled.

The loop of `noise_save_private_key_to_buffer` need not end, nor need the reading loops of `certificate.c`: both have a number
of rounds as an argument, and `none` means that they were used up.
-/

namespace Noise
namespace Loader
open PB Cert

/-- A hash object: the algorithm and the private state of a new object. -/
structure HashObj where
  B : HashBackend
  ctx : B.Ctx

/-- The algorithms, by identifier: `noise_cipherstate_new_by_id` (`src/protocol/cipherstate.c:77-104`) and
`noise_hashstate_new_by_id` (`src/protocol/hashstate.c:73-108`), where memory is available. -/
structure Algs where
  cipher : Nat → Option CipherBackend
  hash : Nat → Option HashObj

/-- `NOISE_KEY_VERSION`, `NOISE_KEY_ITERATIONS` and `NOISE_ENC_KEY_OVERHEAD` (`src/keys/loader.c:49-65`); the salt has
`NOISE_KEY_SALT_LEN` = 16 bytes. -/
def keyVersion : UInt32 := 1
/-- `src/keys/loader.c:59`. -/
def keyIterations : UInt32 := 20000
/-- `src/keys/loader.c:65`. -/
def encKeyOverhead : Nat := 128

/-- `noise_parse_protect_name`, `src/keys/loader.c:401-424`; `name` is the string without its terminator. The result is the
identifiers, or `none` for `UNKNOWN_NAME`. -/
def parseProtectName (name : Bytes) : Option (Nat × Nat) :=
  match scan (· == 95) name with
  | (_, []) => none
  | (c, _ :: rest) =>
    let cipherId := nameToId catCipher c
    if cipherId = 0 then none
    else match scan (· == 95) rest with
      | (_, []) => none
      | (h, _ :: rest) =>
        let hashId := nameToId catHash h
        if hashId = 0 then none
        else if rest = ascii "PBKDF2" then some (cipherId, hashId) else none

/-- The nonce in bytes 32 to 39 of the key material, `src/keys/loader.c:516-524` and `:894-902`. -/
def nonceOf (keyData : Bytes) : UInt64 :=
  (keyData.getD 32 0).toUInt64 <<< 56 ||| (keyData.getD 33 0).toUInt64 <<< 48 ||| (keyData.getD 34 0).toUInt64 <<< 40 |||
    (keyData.getD 35 0).toUInt64 <<< 32 ||| (keyData.getD 36 0).toUInt64 <<< 24 ||| (keyData.getD 37 0).toUInt64 <<< 16 |||
    (keyData.getD 38 0).toUInt64 <<< 8 ||| (keyData.getD 39 0).toUInt64

/-- Deriving key and nonce and setting them, `src/keys/loader.c:504-524` and `:883-902`: the new private state of the hash
object and the cipher object. A hash of length 0 would leave `key_data` uninitialised (`ub`). -/
def setKey (CB : CipherBackend) (HB : HashBackend) (ctx : HB.Ctx) (c : CipherState) (pass salt : Bytes) (iterations : Nat) :
    Out (HB.Ctx × CipherState) := do
  let (err, ctx, keyData) ← HB.pbkdf2 ctx pass salt iterations 40
  if err ≠ .none then .ub
  else
    let c := (c.initKey CB (keyData.take 32)).2
    pure (ctx, (c.setNonce (nonceOf keyData)).2)

/-! ## Loading a private key -/

/-- `noise_load_private_key_from_buffer`, `src/keys/loader.c:450-548`: return code, `*key` and the protobuf. The allocations
of the two objects are requests like the others. -/
def loadPrivateKey (A : Algs) (al : Nat → Bool) (fuel : Nat) (p : PB) (pass : Bytes) :
    Out (Option (Err × Option PrivateKey × PB)) := do
  match ← EncryptedPrivateKey.read al fuel ⟨p, 0⟩ 0 with
  | none => pure none
  | some (.none, some k, r) =>
    if k.version ≠ keyVersion then pure (some (.invalidFormat, none, r.p))
    else match k.algorithm, k.salt, k.encryptedData with
      | some algorithm, some salt, some encryptedData =>
        if k.iterations = 0 then pure (some (.invalidFormat, none, r.p))
        else match parseProtectName (algorithm.takeWhile (· ≠ 0)) with
          | none => pure (some (.unknownName, none, r.p))
          | some (cipherId, hashId) =>
            match A.cipher cipherId with
            | none => pure (some (.unknownId, none, r.p))
            | some CB =>
              if al r.n = false then pure (some (.noMemory, none, r.p))
              else if CB.keyLen ≠ 32 then pure (some (.unknownName, none, r.p))
              else match A.hash hashId with
                | none => pure (some (.unknownId, none, r.p))
                | some H =>
                  if al (r.n + 1) = false then pure (some (.noMemory, none, r.p))
                  else do
                    let (_, c) ← setKey CB H.B H.ctx CipherState.new pass salt k.iterations.toNat
                    let d ← c.decryptWithAd CB [] ⟨encryptedData, encryptedData.length⟩
                    if d.err ≠ .none then pure (some (d.err, none, r.p))
                    else do
                      match ← PrivateKey.read al fuel ⟨prepareInput d.buf.bytes, r.n + 2⟩ 0 with
                      | none => pure none
                      | some (err, key, _) => pure (some (err, key, r.p))
      | _, _, _ => pure (some (.invalidFormat, none, r.p))
  | some (err, _, r) => pure (some (err, none, r.p))

/-! ## Saving a private key -/

/-- `noise_clean(pcopy.data + pcopy.posn, pbuf->posn - pcopy.posn)`, `src/keys/loader.c:859` and `:926`. Arithmetic on a
NULL `data` (a protobuf that only measures) is undefined. -/
def cleanRegion (data : Option Bytes) (lo hi : Nat) : Out (Option Bytes) :=
  match data with
  | none => .ub
  | some d => do
    let d ← store d lo (List.replicate (hi - lo) 0)
    pure (some d)

/-- The loop `src/keys/loader.c:882-915`. `region` is the memory between the two positions, `tries` counts the salts used; the
result is the salt and the encrypted region. -/
def encryptLoop (CB : CipherBackend) (HB : HashBackend) (pass : Bytes) (salts : Nat → Bytes) :
    Nat → Nat → HB.Ctx → CipherState → Bytes → Out (Option (Bytes × Bytes))
  | 0, _, _, _, _ => .ok none
  | fuel + 1, tries, ctx, c, region => do
    let (ctx, c) ← setKey CB HB ctx c pass (salts tries) keyIterations.toNat
    let r ← c.encryptWithAd CB [] ⟨region, region.length - CB.macLen⟩
    if r.err ≠ .none then encryptLoop CB HB pass salts fuel (tries + 1) ctx r.st r.buf.data
    else pure (some (salts tries, r.buf.data))

/-- Writing the private key in front of the space for the MAC, `src/keys/loader.c:851-857`: the error and `pcopy`. -/
def writePlain (CB : CipherBackend) (p : PB) (key : PrivateKey) : Out (Err × PB) :=
  if p.posn < CB.macLen then .ok (.invalidLength, p)
  else PrivateKey.write { p with posn := p.posn - CB.macLen } 0 key

/-- `noise_save_private_key_to_buffer`, `src/keys/loader.c:807-940`: return code and protobuf. The allocations are, in order,
the cipher object, the hash object, the `EncryptedPrivateKey` object, and its algorithm, salt and data. -/
def savePrivateKey (A : Algs) (al : Nat → Bool) (salts : Nat → Bytes) (fuel : Nat) (key : PrivateKey) (p : PB)
    (pass protectName : Bytes) : Out (Option (Err × PB)) :=
  match parseProtectName protectName with
  | none => .ok (some (.unknownName, p))
  | some (cipherId, hashId) =>
    match A.cipher cipherId with
    | none => .ok (some (.unknownId, p))
    | some CB =>
      if al 0 = false then .ok (some (.noMemory, p))
      else if CB.keyLen ≠ 32 then .ok (some (.unknownName, p))
      else match A.hash hashId with
        | none => .ok (some (.unknownId, p))
        | some H =>
          if al 1 = false then .ok (some (.noMemory, p))
          else do
            let (err, pcopy) ← writePlain CB p key
            if err ≠ .none then do
              let d ← cleanRegion pcopy.data pcopy.posn p.posn
              pure (some (err, { p with data := d }))
            else if al 2 = false ∨ al 3 = false then do
              let d ← cleanRegion pcopy.data pcopy.posn p.posn
              pure (some (.noMemory, { p with data := d }))
            else match pcopy.data with
              | none => .ub
              | some d => do
                let region ← load d pcopy.posn (p.posn - pcopy.posn)
                match ← encryptLoop CB H.B pass salts fuel 0 H.ctx CipherState.new region with
                | none => pure none
                | some (salt, region) => do
                  let d ← store d pcopy.posn region
                  let data ← load d pcopy.posn (p.posn - pcopy.posn)
                  let d ← cleanRegion (some d) pcopy.posn p.posn
                  if al 4 = false ∨ al 5 = false then pure (some (.noMemory, { p with data := d }))
                  else do
                    let (err, p) ← EncryptedPrivateKey.write { p with data := d } 0
                      { version := keyVersion, algorithm := some protectName, salt := some salt
                        iterations := keyIterations, encryptedData := some data }
                    pure (some (err, p))

/-! ## Certificates -/

/-- The loop `src/keys/loader.c:233-241`: the certificate kept and the state. `fuel` bounds the reading of one certificate,
the second number the rounds. -/
def certLoop (al : Nat → Bool) (fuel endPosn : Nat) : Nat → Option Certificate → R → Out (Option (Option Certificate × R))
  | 0, cert, r => if r.p.readAtEndElement endPosn then .ok (some (cert, r)) else .ok none
  | f + 1, cert, r =>
    if r.p.readAtEndElement endPosn then .ok (some (cert, r))
    else do
      match ← Certificate.read al fuel r 8 with
      | none => pure none
      | some (err, cert2, r) =>
        if err ≠ .none then pure (some (cert, r))
        else certLoop al fuel endPosn f (match cert with | none => cert2 | some c => some c) r

/-- `noise_load_certificate_from_buffer`, `src/keys/loader.c:213-252`: return code, `*cert`, state. -/
def loadCertificate (al : Nat → Bool) (fuel : Nat) (r : R) : Out (Option (Err × Option Certificate × R)) :=
  if r.p.err ≠ .none then .ok (some (r.p.err, none, r))
  else do
    let t ← r.p.peekTag
    if t = 8 then do
      let (_, p, endPosn) ← r.p.readStartElement 0
      match ← certLoop al fuel endPosn fuel none ⟨p, r.n⟩ with
      | none => pure none
      | some (cert, r) =>
        let (err, p) := r.p.readEndElement endPosn
        pure (some (err, if err ≠ .none then none else cert, ⟨p, r.n⟩))
    else Certificate.read al fuel r 0

/-- `noise_load_certificate_chain_from_buffer`, `src/keys/loader.c:314-347`: return code, `*chain`, state. -/
def loadChain (al : Nat → Bool) (fuel : Nat) (r : R) : Out (Option (Err × Option CertificateChain × R)) :=
  if r.p.err ≠ .none then .ok (some (r.p.err, none, r))
  else do
    let t ← r.p.peekTag
    if t ≠ 8 then
      if al r.n = false then pure (some (.noMemory, none, ⟨r.p, r.n + 1⟩))
      else do
        match ← Certificate.read al fuel ⟨r.p, r.n + 1⟩ 0 with
        | none => pure none
        | some (.none, some cert, r) =>
          if al r.n = false then pure (some (.noMemory, none, ⟨r.p, r.n + 1⟩))
          else pure (some (.none, some { certs := [some cert] }, ⟨r.p, r.n + 1⟩))
        | some (.none, none, r) => pure (some (.invalidParam, none, r))
        | some (err, _, r) => pure (some (err, none, r))
    else CertificateChain.read al fuel r 0

/-! ## Files -/

/-- A file that exists: its contents, and whether one can seek in it. -/
structure File where
  content : Bytes
  seekable : Bool
  deriving DecidableEq, Repr

/-- `noise_load_file`, `src/keys/loader.c:87-141`: the file if it can be opened, whether memory is available and whether
reading works. `fread` gives the first `size` bytes of the contents. -/
def loadFile (file : Option File) (malloc readable : Bool) : Except Err PB :=
  match file with
  | none => .error .system
  | some f =>
    if f.seekable ∧ (f.content.length = 0 ∨ f.content.length > maxPayload) then .error .invalidFormat
    else
      let size := if f.seekable then f.content.length else maxPayload
      if malloc = false then .error .noMemory
      else if readable = false then .error .system
      else .ok (prepareInput (f.content.take size))

/-- What becomes of opening a file for writing and writing to it: opening fails, only some bytes are written, or all goes
well. -/
inductive Disk
  | closed
  | short (n : Nat)
  | good
  deriving DecidableEq, Repr

/-- `fopen` and `fwrite`, `src/keys/loader.c:606-613` and `:770-778`: return code and the new contents of the file, if it was
opened. -/
def writeFile (disk : Disk) (bytes : Bytes) : Err × Option Bytes :=
  match disk with
  | .closed => (.system, none)
  | .short n => (if n < bytes.length then .system else .none, some (bytes.take n))
  | .good => (.none, some bytes)

/-- `noise_save_to_file`, `src/keys/loader.c:568-618`; `mem` is what `malloc` gives, of which the first `size` bytes are
used. -/
def saveToFile {α : Type} (write : PB → Int → α → Out (Err × PB)) (obj : α) (malloc : Bool) (mem : Bytes) (disk : Disk) :
    Out (Err × Option Bytes) := do
  let (err, p) ← write (prepareMeasure maxPayload) 0 obj
  if err ≠ .none then pure (err, none)
  else
    let (err, size) := p.finishMeasure
    if err ≠ .none then pure (err, none)
    else if malloc = false then pure (.noMemory, none)
    else do
      let (err, p) ← write (prepareOutput (mem.take size)) 0 obj
      if err ≠ .none then pure (err, none)
      else
        match p.finishOutput, p.data with
        | (.none, some off, size), some d => do
          let bytes ← load d off size
          pure (writeFile disk bytes)
        | (.none, _, _), _ => .ub
        | (err, _, _), _ => pure (err, none)

/-- `noise_save_private_key_to_file`, `src/keys/loader.c:726-784`. -/
def savePrivateKeyToFile (A : Algs) (al : Nat → Bool) (salts : Nat → Bytes) (fuel : Nat) (key : PrivateKey)
    (pass protectName : Bytes) (malloc : Bool) (mem : Bytes) (disk : Disk) : Out (Option (Err × Option Bytes)) :=
  match parseProtectName protectName with
  | none => .ok (some (.unknownName, none))
  | some _ => do
    let (err, p) ← PrivateKey.write (prepareMeasure maxPayload) 0 key
    if err ≠ .none then pure (some (err, none))
    else
      let (err, size) := p.finishMeasure
      if err ≠ .none then pure (some (err, none))
      else if malloc = false then pure (some (.noMemory, none))
      else do
        match ← savePrivateKey A al salts fuel key
          (prepareOutput (mem.take (size + protectName.length + encKeyOverhead))) pass protectName with
        | none => pure none
        | some (err, p) =>
          if err ≠ .none then pure (some (err, none))
          else if p.size - p.posn > maxPayload then pure (some (.invalidLength, none))
          else
            match p.data with
            | none => .ub
            | some d => do
              let bytes ← load d p.posn (p.size - p.posn)
              pure (some (writeFile disk bytes))

/-- The functions that load from a file, `noise_load_X_from_file`, e.g. `src/keys/loader.c:375-387`; `*obj` is left alone, here
NULL, if the file cannot be loaded. -/
def loadFrom {α : Type} (load : PB → Out (Option (Err × Option α))) (file : Option File) (malloc readable : Bool) :
    Out (Option (Err × Option α)) :=
  match loadFile file malloc readable with
  | .error e => .ok (some (e, none))
  | .ok p => load p

/-- `noise_load_private_key_from_file`, `src/keys/loader.c:375-387`. -/
def loadPrivateKeyFromFile (A : Algs) (al : Nat → Bool) (fuel : Nat) (pass : Bytes) :
    Option File → Bool → Bool → Out (Option (Err × Option PrivateKey)) :=
  loadFrom fun p => do
    match ← loadPrivateKey A al fuel p pass with
    | none => pure none
    | some (e, k, _) => pure (some (e, k))

/-- `noise_load_certificate_from_file`, `src/keys/loader.c:178-188`. -/
def loadCertificateFromFile (al : Nat → Bool) (fuel : Nat) : Option File → Bool → Bool → Out (Option (Err × Option Certificate)) :=
  loadFrom fun p => do
    match ← loadCertificate al fuel ⟨p, 0⟩ with
    | none => pure none
    | some (e, k, _) => pure (some (e, k))

/-- `noise_load_certificate_chain_from_file`, `src/keys/loader.c:279-289`. -/
def loadChainFromFile (al : Nat → Bool) (fuel : Nat) :
    Option File → Bool → Bool → Out (Option (Err × Option CertificateChain)) :=
  loadFrom fun p => do
    match ← loadChain al fuel ⟨p, 0⟩ with
    | none => pure none
    | some (e, k, _) => pure (some (e, k))

/-- `noise_save_certificate_to_file`, `src/keys/loader.c:636-641`, and `noise_save_certificate_chain_to_file`,
`src/keys/loader.c:677-682`. -/
def saveCertificateToFile (cert : Certificate) (malloc : Bool) (mem : Bytes) (disk : Disk) : Out (Err × Option Bytes) :=
  saveToFile Certificate.write cert malloc mem disk

/-- `src/keys/loader.c:677-682`. -/
def saveChainToFile (chain : CertificateChain) (malloc : Bool) (mem : Bytes) (disk : Disk) : Out (Err × Option Bytes) :=
  saveToFile CertificateChain.write chain malloc mem disk

end Loader
end Noise
