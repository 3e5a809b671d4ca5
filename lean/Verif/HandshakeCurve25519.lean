import Verif.HandshakeTwo
import Verif.Curve25519Base
import Verif.ChaChaPolyProps
import Verif.AesProps
import Verif.Sha256Props
import Verif.Sha512Props
import Verif.Blake2sProps
import Verif.Blake2bProps
/-!
# Handshakes with the library's own Curve25519, ciphers and hashes

C12 holds for any back ends that keep their promises. Here it is applied to the reference back ends, so that
nothing about a cryptographic function is left as a hypothesis.
-/

namespace Noise

/-- The reference cipher back ends; AESGCM in each of the four builds of its GHASH. -/
inductive RefCipher
  | chachapoly
  | aesgcm64 (bigEndian : Bool)
  | aesgcm32 (bigEndian : Bool)

/-- The reference hash back ends. -/
inductive RefHash
  | blake2s
  | blake2b
  | sha256
  | sha512

def RefCipher.backend : RefCipher → CipherBackend
  | .chachapoly => ChaChaPoly.backend
  | .aesgcm64 big => Aes.aesgcm (Ghash.word64 big)
  | .aesgcm32 big => Aes.aesgcm (Ghash.word32 big)

theorem RefCipher.lawful : (c : RefCipher) → c.backend.Lawful
  | .chachapoly => ChaChaPoly.C33_lawful
  | .aesgcm64 big => Aes.C55_lawful (Ghash.word64_correct big)
  | .aesgcm32 big => Aes.C55_lawful (Ghash.word32_correct big)

theorem RefCipher.mac16 (c : RefCipher) : c.backend.macLen = 16 := by cases c <;> rfl

def RefHash.backend : RefHash → HashBackend
  | .blake2s => Blake2s.backend
  | .blake2b => Blake2b.backend
  | .sha256 => Sha256.backend
  | .sha512 => Sha512.backend

def RefHash.fn : RefHash → Bytes → Bytes
  | .blake2s => Blake2s.hash64
  | .blake2b => Blake2b.hash64
  | .sha256 => Sha256.hash64
  | .sha512 => Sha512.hash64

theorem RefHash.lawful : (h : RefHash) → h.backend.Lawful h.fn
  | .blake2s => Blake2s.C32_blake2s_lawful
  | .blake2b => Blake2b.C32_blake2b_lawful
  | .sha256 => Sha256.C32_sha256_lawful
  | .sha512 => Sha512.C32_sha512_lawful

/-- The suite of two reference back ends. -/
def refSuite (c : RefCipher) (h : RefHash) : Suite where
  CB := c.backend
  HB := h.backend
  H := h.fn
  cl := c.lawful
  hl := h.lawful
  key32 := by cases c <;> rfl
  hash32 := by cases h <;> decide

/-- The library with Curve25519 as it is built for 64-bit machines, for handshakes without hybrid forward
secrecy or with Curve25519 again as the hybrid algorithm. -/
def refSetup (c : RefCipher) (h : RefHash) : Setup :=
  curveSetup (refSuite c h) donna25519 donna25519 donna25519_sized donna25519_sized

/-- The room that the messages of a Curve25519 handshake need (`FitAll` of C12). -/
def RefFit (c : RefCipher) (h : RefHash) (turns : List Turn) (p : Spec.Pattern) : Prop :=
  FitAll (refSuite c h).crypto (donna25519.specDH donna25519_sized) (donna25519.specDH donna25519_sized) turns p.msgs

/-- **C12** for the reference back ends: any two Curve25519 handshake objects for the same protocol, set up
consistently, complete the handshake and agree. No hypothesis concerns a cryptographic function. -/
theorem C12_curve25519_agreement (c : RefCipher) (h : RefHash) (i r i1 r1 : (refSetup c h).H)
    (hi : SetUp (refSetup c h) i) (hr : SetUp (refSetup c h) r) (hri : i.role = .initiator)
    (hrr : r.role = .responder) (hid : i.sym.id = r.sym.id) (hpro : i.prologue = r.prologue)
    (hpsk : i.psk = r.psk) (p : Spec.Pattern) (hp : specPattern i.sym.id.patternId = some p)
    (hfb : p.preKey .responder .e = false)
    (hks : p.preKey .responder .s = true → pubOf i.rs = pubOf r.ls)
    (hkr : p.preKey .initiator .s = true → pubOf r.rs = pubOf i.ls)
    (hfix : i.fe = none ∧ i.fh = none ∧ r.fe = none ∧ r.fh = none)
    (si : i.start c.backend = .ok (.none, i1)) (sr : r.start c.backend = .ok (.none, r1))
    (turns : List Turn) (hfit : RefFit c h turns p) :
    ∃ i2 r2, HS.exchange c.backend turns i1 r1 = .ok (some (i2, r2, turns.map (·.payload))) ∧
      i2.action = .split ∧ r2.action = .split ∧ i2.sym.h = r2.sym.h ∧
      ∃ i3 r3 c1 c2, i2.split c.backend true true true = .ok (.none, i3, some c1, some c2) ∧
        r2.split c.backend true true true = .ok (.none, r3, some c2, some c1) ∧
        i3.action = .complete ∧ r3.action = .complete := by
  have h16 : donna25519.len + (refSuite c h).CB.macLen ≤ 65535 := by
    have := c.mac16
    show 32 + c.backend.macLen ≤ 65535
    omega
  have nn : ∀ k : (donna25519.specDH donna25519_sized).KP, ¬ AllZero (donna25519.eval k.1 donna25519.base) :=
    fun k => donna25519_nonzero k.1 k.2
  have gen : ∀ (s : (refSetup c h).H) (t : Turn), s.fe = none → s.fh = none →
      HS.Generates (curveReal (refSuite c h) donna25519 donna25519 donna25519_sized donna25519_sized h16 h16)
        (fun g => ∃ k, ¬ AllZero (donna25519.eval k.1 donna25519.base) ∧ g = fun _ => k) t s :=
    fun s t h1 h2 n => ⟨⟨_, by rw [h1]; rfl, fun _ => decide_eq_false (nn _)⟩, _,
      by rw [h2]; rfl, _, nn _, rfl⟩
  exact HS.C12_handshake_agreement
    (curveReal (refSuite c h) donna25519 donna25519 donna25519_sized donna25519_sized h16 h16)
    (curveReal_genuine _ _ _ _ _ h16 h16) (donna25519.good donna25519_sized donna25519_commutes) _
    (donna25519.goodGen donna25519_sized donna25519_commutes) i r i1 r1 hi hr hri hrr hid hpro hpsk p hp hfb hks hkr
    si sr turns hfit fun t _ => ⟨gen i t hfix.1 hfix.2.1, gen r t hfix.2.2.1 hfix.2.2.2⟩

/-! ## A test vector of the repository -/

/-- A hash context with other contents than a fresh one. -/
def vecCtx : Sha256.backend.Ctx := (⟨⟨List.replicate 8 1, List.replicate 64 1, 3, 3⟩, rfl⟩ : Sha256.Context)

def vecSetup : Setup := refSetup .chachapoly .sha256

/-- A party of `Noise_NN_25519_ChaChaPoly_SHA256` in `tests/vector/cacophony.txt`, before it starts. -/
def vecMake (role : Role) : Option vecSetup.H :=
  match (HS.newByName ChaChaPoly.backend vecCtx (ascii "Noise_NN_25519_ChaChaPoly_SHA256") role : Out (Except Err vecSetup.H)) with
  | .ok (.ok s0) =>
    match HOp.run ChaChaPoly.backend s0 [.setPrologue [0x4a, 0x6f, 0x68, 0x6e, 0x20, 0x47, 0x61, 0x6c, 0x74]] with
    | .ok (_, s) => some s
    | .ub => none
  | _ => none

/-- A turn in which the system's generator returns the given ephemeral key. -/
def vecTurn (e payload : Bytes) : Turn where
  rnd := fun _ i => e.getD i 0
  junkW := fun _ _ => 9
  junkR := fun _ _ => 8
  payload := payload
  mem := List.replicate 64 1
  slack := [5, 5]
  pmem := List.replicate 16 2

/-- The private keys and the payloads of the vector. -/
def vecTurns : List Turn :=
  [vecTurn [0x89, 0x3e, 0x28, 0xb9, 0xdc, 0x6c, 0xa8, 0xd6, 0x11, 0xab, 0x66, 0x47, 0x54, 0xb8, 0xce, 0xb7, 0xba, 0xc5, 0x11, 0x73, 0x49, 0xa4, 0x43, 0x9a, 0x6b, 0x05, 0x69, 0xda, 0x97, 0x7c, 0x46, 0x4a] [0x4c, 0x75, 0x64, 0x77, 0x69, 0x67, 0x20, 0x76, 0x6f, 0x6e, 0x20, 0x4d, 0x69, 0x73, 0x65, 0x73],
   vecTurn [0xbb, 0xdb, 0x4c, 0xdb, 0xd3, 0x09, 0xf1, 0xa1, 0xf2, 0xe1, 0x45, 0x69, 0x67, 0xfe, 0x28, 0x8c, 0xad, 0xd6, 0xf7, 0x12, 0xd6, 0x5d, 0xc7, 0xb7, 0x79, 0x3d, 0x5e, 0x63, 0xda, 0x6b, 0x37, 0x5b] [0x4d, 0x75, 0x72, 0x72, 0x61, 0x79, 0x20, 0x52, 0x6f, 0x74, 0x68, 0x62, 0x61, 0x72, 0x64]]

theorem vecMake_setUp {role : Role} {s : vecSetup.H} (h : vecMake role = some s) (hn : s.action = .none)
    (hr : s.sym.id.reserved.length = 4) : SetUp vecSetup s := by
  unfold vecMake at h
  split at h
  · next s1 h1 =>
    split at h
    · next os1 s2 h2 =>
      cases h
      have hid : s1.sym.id = s.sym.id := by
        cases h2
        unfold HS.setPrologue
        split <;> rfl
      refine ⟨_, _, os1, .byName _ _ _ _ h1, hid ▸ hr, fun op hop => ?_, h2, ?_, hn⟩
      · cases List.mem_singleton.1 hop; trivial
      · cases h2; rfl
    · cases h
  · cases h

/-- The parties and turns of the vector meet the hypotheses of C12. -/
example : ∃ i r i1 r1 p, vecMake .initiator = some i ∧ vecMake .responder = some r ∧ SetUp vecSetup i ∧
    SetUp vecSetup r ∧ i.role = .initiator ∧ r.role = .responder ∧ i.sym.id = r.sym.id ∧ i.prologue = r.prologue ∧
    i.psk = r.psk ∧ specPattern i.sym.id.patternId = some p ∧ p.preKey .responder .e = false ∧
    p.preKey .responder .s = false ∧ p.preKey .initiator .s = false ∧
    (i.fe = none ∧ i.fh = none ∧ r.fe = none ∧ r.fh = none) ∧
    i.start ChaChaPoly.backend = .ok (.none, i1) ∧ r.start ChaChaPoly.backend = .ok (.none, r1) ∧
    RefFit .chachapoly .sha256 vecTurns p :=
  ⟨_, _, _, _, _, rfl, rfl, @vecMake_setUp .initiator _ rfl rfl rfl,
    @vecMake_setUp .responder _ rfl rfl rfl, rfl, rfl, rfl, rfl, rfl, rfl, rfl,
    rfl, rfl, ⟨rfl, rfl, rfl, rfl⟩, rfl, rfl,
    ⟨by unfold Turn.Fits; decide, by unfold Turn.Fits; decide, trivial⟩⟩

end Noise
