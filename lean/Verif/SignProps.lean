import Verif.Sign
import Verif.DHProps
/-!
# Properties of the SignState layer (C26)
-/

namespace Noise

/-- Output lengths and correctness of the signature primitives: a signature made with a key pair
verifies under its public key. A hypothesis about Ed25519, not a definition of the code base. -/
structure EdFns.Lawful (E : EdFns) : Prop where
  pub_len : ∀ k, (E.pub k).length = 32
  sign_len : ∀ m k p, (E.sign m k p).length = 64
  correct : ∀ m k, k.length = 32 → E.openOk m (E.pub k) (E.sign m k (E.pub k)) = true

/-- Objects that can exist: created and then changed by any number of calls, each possibly copying
from other such objects. Not a definition of the code base. -/
inductive SignReach (E : EdFns) : SignState → Prop
  | init (id : Int) (s : SignState) : SignState.newById id = .ok s → SignReach E s
  | call (op : SignOp) (s : SignState) (e : Err) (s' : SignState) : SignReach E s →
      (∀ src, op ≠ .copy (.same src)) → op.step E s = .ok (e, s') → SignReach E s'
  | copy (src s : SignState) (e : Err) (s' : SignState) : SignReach E s → SignReach E src →
      (SignOp.copy (.same src)).step E s = .ok (e, s') → SignReach E s'

/-- The invariant of signing objects. Not a definition of the code base. -/
def SignState.Good (E : EdFns) (s : SignState) : Prop :=
  s.priv.length = 32 ∧ s.pub.length = 32 ∧ (s.keyType = .keypair → s.pub = E.pub s.priv)

theorem clamp25519_length (k : Bytes) : (clamp25519 k).length = k.length := by
  simp [clamp25519]

theorem sign_step_good (E : EdFns) (L : E.Lawful) (s : SignState) (h : s.Good E) (op : SignOp)
    (ha : ∀ src, op = .copy (.same src) → src.Good E) :
    ∃ e s', op.step E s = .ok (e, s') ∧ s'.Good E ∧
      (e ≠ .none → s' = s) := by
  obtain ⟨h1, h2, h3⟩ := h
  cases op with
  | generate rnd =>
    refine ⟨.none, ⟨.keypair, clamp25519 (randBytes rnd 32), E.pub (clamp25519 (randBytes rnd 32))⟩,
      ?_, ⟨?_, ?_, ?_⟩, ?_⟩
    · simp only [SignOp.step, SignState.generate]
      rw [store_full _ _ (by simp [clamp25519_length, h1])]
      simp only [Out.bind_ok]
      rw [store_full _ _ (by rw [L.pub_len, h2])]
      rfl
    · simp [clamp25519_length]
    · exact L.pub_len _
    · intro _; rfl
    · intro h; exact absurd rfl h
  | setKeypair a b =>
    simp only [SignOp.step, SignState.setKeypair]
    by_cases ha1 : a.length ≠ 32
    · rw [if_pos ha1]; exact ⟨_, _, rfl, ⟨h1, h2, h3⟩, fun _ => rfl⟩
    · rw [if_neg ha1]
      by_cases hb1 : b.length ≠ 32
      · rw [if_pos hb1]; exact ⟨_, _, rfl, ⟨h1, h2, h3⟩, fun _ => rfl⟩
      · rw [if_neg hb1]
        have ha2 : a.length = 32 := by omega
        have hb2 : b.length = 32 := by omega
        have hv : SignState.validateKeypair E a b =
            .ok (if E.pub a = b then .none else .invalidPublicKey) := by
          unfold SignState.validateKeypair
          rw [C37_is_equal_correct _ _ _ (by rw [L.pub_len]; omega) (by omega)]
          rw [List.take_of_length_le (by rw [L.pub_len]; omega),
            List.take_of_length_le (show b.length ≤ 32 by omega)]
          by_cases he : E.pub a = b <;> simp [he]
        rw [hv]
        simp only [Out.bind_ok]
        by_cases he : E.pub a = b
        · rw [if_pos he, if_neg (by simp), store_full _ _ (by omega), store_full _ _ (by omega)]
          exact ⟨_, _, rfl, ⟨ha2, hb2, fun _ => he.symm⟩, fun h => absurd rfl h⟩
        · rw [if_neg he, if_pos (by simp)]
          exact ⟨_, _, rfl, ⟨h1, h2, h3⟩, fun _ => rfl⟩
  | setKeypairPrivate a =>
    simp only [SignOp.step, SignState.setKeypairPrivate]
    by_cases ha1 : a.length ≠ 32
    · rw [if_pos ha1]; exact ⟨_, _, rfl, ⟨h1, h2, h3⟩, fun _ => rfl⟩
    · rw [if_neg ha1, store_full _ _ (by rw [L.pub_len, h2]), store_full _ _ (by omega)]
      exact ⟨_, _, rfl, ⟨by simpa using ha1, L.pub_len _, fun _ => rfl⟩, fun h => absurd rfl h⟩
  | setPublicKey b =>
    simp only [SignOp.step, SignState.setPublicKey]
    by_cases ha1 : b.length ≠ 32
    · rw [if_pos ha1]; exact ⟨_, _, rfl, ⟨h1, h2, h3⟩, fun _ => rfl⟩
    · rw [if_neg ha1, store_full _ _ (by omega), store_full _ _ (by simp [h1])]
      exact ⟨_, _, rfl, ⟨by simp, by simpa using ha1, fun h => by cases h⟩, fun h => absurd rfl h⟩
  | clearKey =>
    simp only [SignOp.step, SignState.clearKey]
    rw [store_full _ _ (by simp [h2]), store_full _ _ (by simp [h1])]
    exact ⟨_, _, rfl, ⟨by simp, by simp, fun h => by cases h⟩, fun h => absurd rfl h⟩
  | copy src =>
    match src with
    | .foreign => exact ⟨_, _, rfl, ⟨h1, h2, h3⟩, fun _ => rfl⟩
    | .same src =>
      obtain ⟨g1, g2, g3⟩ := ha src rfl
      simp only [SignOp.step, SignState.copy]
      rw [load_full _ _ g1.symm, load_full _ _ g2.symm]
      simp only [Out.bind_ok]
      rw [store_full _ _ (by omega), store_full _ _ (by omega)]
      exact ⟨_, _, rfl, ⟨g1, g2, g3⟩, fun h => absurd rfl h⟩

theorem signReach_good (E : EdFns) (L : E.Lawful) (s : SignState) (h : SignReach E s) : s.Good E := by
  induction h with
  | init id s h =>
    unfold SignState.newById at h
    split at h
    · cases h
      exact ⟨List.length_replicate .., List.length_replicate .., fun h => by cases h⟩
    · cases h
  | call op s e s' _ hn hr ih =>
    obtain ⟨e1, s1, h1, h2, _⟩ := sign_step_good E L s ih op (fun src h => absurd h (hn src))
    rw [h1] at hr; cases hr; exact h2
  | copy src s e s' _ _ hr ih ihs =>
    obtain ⟨e1, s1, h1, h2, _⟩ := sign_step_good E L s ih (.copy (.same src))
      (fun x h => by cases h; exact ihs)
    rw [h1] at hr; cases hr; exact h2

/-- **C26.** A signing object that claims a key pair always has matching halves; every call on it is
defined, and one that reports an error changes nothing. -/
theorem C26_keypair_consistent (E : EdFns) (L : E.Lawful) (s : SignState) (h : SignReach E s) :
    (s.hasKeypair = true → s.pub = E.pub s.priv) ∧
    (∀ op : SignOp, (∀ src, op = .copy (.same src) → SignReach E src) →
      ∃ e s', op.step E s = .ok (e, s') ∧ (e ≠ .none → s' = s)) := by
  have hg := signReach_good E L s h
  refine ⟨fun hk => hg.2.2 (by simpa [SignState.hasKeypair] using hk), fun op ho => ?_⟩
  obtain ⟨e, s', h1, _, h2⟩ := sign_step_good E L s hg op
    (fun src hs => signReach_good E L src (ho src hs))
  exact ⟨e, s', h1, h2⟩

/-- **C26.** `noise_signstate_set_keypair` installs exactly the matching pairs: it succeeds iff the
lengths are right and the public key is the one derived from the private key. -/
theorem C26_set_keypair_iff (E : EdFns) (L : E.Lawful) (s : SignState) (h : SignReach E s)
    (a b : Bytes) : ∃ e s', s.setKeypair E a b = .ok (e, s') ∧
      (e = .none ↔ a.length = 32 ∧ b.length = 32 ∧ b = E.pub a) ∧
      (e = .none → s'.hasKeypair = true ∧ s'.priv = a ∧ s'.pub = b) := by
  obtain ⟨h1, h2, h3⟩ := signReach_good E L s h
  unfold SignState.setKeypair
  by_cases ha1 : a.length ≠ 32
  · rw [if_pos ha1]
    exact ⟨_, _, rfl, ⟨(fun h => by cases h), fun h => absurd h.1 ha1⟩, fun h => by cases h⟩
  · rw [if_neg ha1]
    by_cases hb1 : b.length ≠ 32
    · rw [if_pos hb1]
      exact ⟨_, _, rfl, ⟨(fun h => by cases h), fun h => absurd h.2.1 hb1⟩, fun h => by cases h⟩
    · rw [if_neg hb1]
      have ha2 : a.length = 32 := by omega
      have hb2 : b.length = 32 := by omega
      have hv : SignState.validateKeypair E a b =
          .ok (if E.pub a = b then .none else .invalidPublicKey) := by
        unfold SignState.validateKeypair
        rw [C37_is_equal_correct _ _ _ (by rw [L.pub_len]; omega) (by omega)]
        rw [List.take_of_length_le (by rw [L.pub_len]; omega),
          List.take_of_length_le (show b.length ≤ 32 by omega)]
        by_cases he : E.pub a = b <;> simp [he]
      rw [hv]
      simp only [Out.bind_ok]
      by_cases he : E.pub a = b
      · rw [if_pos he, if_neg (by simp), store_full _ _ (by omega), store_full _ _ (by omega)]
        exact ⟨_, _, rfl, ⟨fun _ => ⟨ha2, hb2, he.symm⟩, fun _ => rfl⟩, fun _ => ⟨rfl, rfl, rfl⟩⟩
      · rw [if_neg he, if_pos (by simp)]
        exact ⟨_, _, rfl, ⟨(fun h => by cases h), fun h => absurd h.2.2.symm he⟩,
          fun h => by cases h⟩

/-- **C26.** Signing needs a key pair and verifying a public key; without them the caller's buffer
is untouched. -/
theorem C26_key_required (E : EdFns) (s : SignState) (msg sig : Bytes) (hl : sig.length = 64) :
    (s.hasKeypair = false → s.signMsg E msg sig = .ok (.invalidPrivateKey, sig)) ∧
    (s.hasPublicKey = false → s.verifyMsg E msg sig = .ok .invalidPublicKey) := by
  constructor
  · intro h
    have : s.keyType ≠ .keypair := by simpa [SignState.hasKeypair] using h
    simp [SignState.signMsg, hl, this]
  · intro h
    have : s.keyType = .noKey := by simpa [SignState.hasPublicKey] using h
    simp [SignState.verifyMsg, hl, this]

/-- **C26.** Sign then verify: a signature made by any object with a key pair is accepted by any
object that holds the corresponding public key (installed by any history of calls). -/
theorem C26_sign_verify (E : EdFns) (L : E.Lawful) (s v : SignState) (hs : SignReach E s)
    (hv : SignReach E v) (hk : s.hasKeypair = true) (hp : v.hasPublicKey = true)
    (hpub : s.getPublicKey 32 = v.getPublicKey 32) (msg buf : Bytes) (hb : buf.length = 64) :
    ∃ sig, s.signMsg E msg buf = .ok (.none, sig) ∧ v.verifyMsg E msg sig = .ok .none := by
  obtain ⟨h1, h2, h3⟩ := signReach_good E L s hs
  obtain ⟨g1, g2, g3⟩ := signReach_good E L v hv
  have hk' : s.keyType = .keypair := by simpa [SignState.hasKeypair] using hk
  have hp' : v.keyType ≠ .noKey := by simpa [SignState.hasPublicKey] using hp
  have epub : s.pub = v.pub := by
    unfold SignState.getPublicKey at hpub
    rw [if_neg (by simp), if_neg (by simp [hk']), if_neg (by simp), if_neg hp',
      load_full _ _ h2.symm, load_full _ _ g2.symm] at hpub
    simpa using hpub
  refine ⟨E.sign msg s.priv s.pub, ?_, ?_⟩
  · unfold SignState.signMsg
    rw [if_neg (by omega), if_neg (by simp [hk']), load_full _ _ h1.symm, load_full _ _ h2.symm]
    simp only [Out.bind_ok]
    rw [store_full _ _ (by rw [L.sign_len]; omega)]
    rfl
  · unfold SignState.verifyMsg
    rw [if_neg (by rw [L.sign_len]; omega), if_neg hp', load_full _ _ g2.symm, ← epub]
    simp [h3 hk', L.correct msg s.priv h1]

/-- **C26.** A signature is accepted exactly when the primitive accepts it for the stored public
key. -/
theorem C26_verify_exact (E : EdFns) (L : E.Lawful) (v : SignState) (hv : SignReach E v)
    (hp : v.hasPublicKey = true) (msg sig : Bytes) (hl : sig.length = 64) :
    v.verifyMsg E msg sig = .ok (if E.openOk msg v.pub sig then .none else .invalidSignature) := by
  obtain ⟨g1, g2, g3⟩ := signReach_good E L v hv
  have hp' : v.keyType ≠ .noKey := by simpa [SignState.hasPublicKey] using hp
  unfold SignState.verifyMsg
  rw [if_neg (by omega), if_neg hp', load_full _ _ g2.symm]
  rfl

/-- **C26.** Ed25519 is the only algorithm, and a new object holds nothing. -/
theorem C26_new (id : Int) : (id = 0x5301 → ∃ s, SignState.newById id = .ok s ∧ s.hasPublicKey = false ∧
      s.hasKeypair = false ∧ s.priv = List.replicate 32 0 ∧ s.pub = List.replicate 32 0) ∧
    (id ≠ 0x5301 → SignState.newById id = .error .unknownId) :=
  ⟨fun h => ⟨_, by rw [h]; rfl, rfl, rfl, rfl, rfl⟩, fun h => by simp [SignState.newById, h]⟩

/-- **C26.** What the setters leave, and the codes of their refusals: a public key alone and a
cleared object hold no private bytes. -/
theorem C26_setters (E : EdFns) (L : E.Lawful) (s : SignState) (h : SignReach E s) :
    (∀ b : Bytes, s.setPublicKey b = if b.length = 32 then .ok (.none, ⟨.pubOnly, List.replicate 32 0, b⟩)
      else .ok (.invalidLength, s)) ∧
    (∀ a : Bytes, s.setKeypairPrivate E a = if a.length = 32 then .ok (.none, ⟨.keypair, a, E.pub a⟩)
      else .ok (.invalidLength, s)) ∧
    (∀ a b : Bytes, s.setKeypair E a b = if a.length = 32 ∧ b.length = 32 then
      (if b = E.pub a then .ok (.none, ⟨.keypair, a, b⟩) else .ok (.invalidPublicKey, s))
      else .ok (.invalidLength, s)) ∧
    (∀ rnd, ∃ k, s.generate E rnd = .ok (.none, ⟨.keypair, k, E.pub k⟩) ∧ k.length = 32 ∧
      k = clamp25519 (randBytes rnd 32)) ∧
    s.clearKey = .ok (.none, ⟨.noKey, List.replicate 32 0, List.replicate 32 0⟩) ∧
    s.copy .foreign = .ok (.notApplicable, s) ∧
    (∀ src, SignReach E src → s.copy (.same src) = .ok (.none, src)) := by
  obtain ⟨h1, h2, h3⟩ := signReach_good E L s h
  refine ⟨fun b => ?_, fun a => ?_, fun a b => ?_, fun rnd => ?_, ?_, rfl, fun src hs => ?_⟩
  · unfold SignState.setPublicKey
    by_cases hb : b.length = 32
    · rw [if_neg (by omega), if_pos hb, store_full _ _ (by omega), store_full _ _ (by simp [h1])]
      rfl
    · rw [if_pos hb, if_neg hb]
  · unfold SignState.setKeypairPrivate
    by_cases ha : a.length = 32
    · rw [if_neg (by omega), if_pos ha, store_full _ _ (by rw [L.pub_len, h2]), store_full _ _ (by omega)]
      rfl
    · rw [if_pos ha, if_neg ha]
  · obtain ⟨e, s', hr, he, hs⟩ := C26_set_keypair_iff E L s h a b
    by_cases hl : a.length = 32 ∧ b.length = 32
    · rw [if_pos hl]
      unfold SignState.setKeypair
      rw [if_neg (by omega), if_neg (by omega)]
      unfold SignState.validateKeypair
      rw [C37_is_equal_correct _ _ _ (by rw [L.pub_len]; omega) (by omega),
        List.take_of_length_le (by rw [L.pub_len]; omega),
        List.take_of_length_le (show b.length ≤ 32 by omega)]
      by_cases hb : b = E.pub a
      · rw [if_pos hb, ← hb]
        simp only [Out.bind_ok, Out.pure_eq, if_true, ne_eq, not_true_eq_false, if_false]
        rw [store_full _ _ (by omega), store_full _ _ (by omega)]
        rfl
      · rw [if_neg hb]
        simp [Ne.symm hb]
    · rw [if_neg hl]
      unfold SignState.setKeypair
      by_cases ha : a.length = 32
      · rw [if_neg (by omega), if_pos (by omega)]
      · rw [if_pos ha]
  · refine ⟨_, ?_, by simp [clamp25519_length], rfl⟩
    unfold SignState.generate
    rw [store_full _ _ (by simp [clamp25519_length, h1])]
    simp only [Out.bind_ok]
    rw [store_full _ _ (by rw [L.pub_len, h2])]
    rfl
  · unfold SignState.clearKey
    rw [store_full _ _ (by simp [h2]), store_full _ _ (by simp [h1])]
    rfl
  · obtain ⟨g1, g2, g3⟩ := signReach_good E L src hs
    simp only [SignState.copy]
    rw [load_full _ _ g1.symm, load_full _ _ g2.symm]
    simp only [Out.bind_ok]
    rw [store_full _ _ (by omega), store_full _ _ (by omega)]
    rfl

/-- **C26.** What the getters give: the stored keys, or a code; the buffers for a key pair are
zeroed if there is none. -/
theorem C26_getters (E : EdFns) (L : E.Lawful) (s : SignState) (h : SignReach E s) (a b : Nat) :
    s.getKeypair a b = (if a = 32 ∧ b = 32 then
      (if s.hasKeypair then .ok (.none, some (s.priv, s.pub))
        else .ok (.invalidState, some (List.replicate 32 0, List.replicate 32 0)))
      else .ok (.invalidLength, none)) ∧
    s.getPublicKey b = (if b = 32 then
      (if s.hasPublicKey then .ok (.none, some s.pub) else .ok (.invalidState, none))
      else .ok (.invalidLength, none)) := by
  obtain ⟨h1, h2, h3⟩ := signReach_good E L s h
  constructor
  · unfold SignState.getKeypair SignState.hasKeypair
    by_cases ha : a = 32
    · by_cases hb : b = 32
      · subst ha hb
        rw [if_neg (by simp), if_neg (by simp), load_full _ _ h1.symm, load_full _ _ h2.symm]
        cases hk : s.keyType <;> simp
      · rw [if_neg (by omega), if_pos hb, if_neg (by omega)]
    · rw [if_pos ha, if_neg (by omega)]
  · unfold SignState.getPublicKey SignState.hasPublicKey
    by_cases hb : b = 32
    · subst hb
      rw [if_neg (by simp), if_pos rfl, load_full _ _ h2.symm]
      cases hk : s.keyType <;> simp
    · rw [if_pos hb, if_neg hb]

/-- **C26.** Signatures of another length than 64 are refused, and the buffer is untouched. -/
theorem C26_signature_length (E : EdFns) (s : SignState) (msg sig : Bytes) (hl : sig.length ≠ 64) :
    s.signMsg E msg sig = .ok (.invalidLength, sig) ∧ s.verifyMsg E msg sig = .ok .invalidLength := by
  simp [SignState.signMsg, SignState.verifyMsg, hl]

/-- A toy signature scheme for the examples: the signature is the public key followed by a
checksum. -/
def toyEd : EdFns where
  pub := fun k => List.replicate 32 (k.getD 0 0 + 1)
  sign := fun m _ p => List.replicate 32 (p.getD 0 0) ++ List.replicate 32 (m.getD 0 0)
  openOk := fun m p s => s == List.replicate 32 (p.getD 0 0) ++ List.replicate 32 (m.getD 0 0)

theorem toyEd_lawful : toyEd.Lawful where
  pub_len := by intro k; exact List.length_replicate ..
  sign_len := by intro m k p; simp [toyEd]
  correct := by intro m k _; simp [toyEd]

/-- A history meeting the hypotheses of the theorems above: a signer with a key pair set from a
private key, a verifier that was given the public key. -/
example : ∃ s v : SignState,
    (SignOp.setKeypairPrivate (List.replicate 32 6)).step toyEd SignState.new = .ok (.none, s) ∧
    (SignOp.setPublicKey (List.replicate 32 7)).step toyEd SignState.new = .ok (.none, v) ∧
    s.hasKeypair = true ∧ v.hasPublicKey = true ∧ v.hasKeypair = false ∧
    s.getPublicKey 32 = v.getPublicKey 32 ∧
    v.verifyMsg toyEd [5] (List.replicate 32 7 ++ List.replicate 32 5) = .ok .none ∧
    v.verifyMsg toyEd [4] (List.replicate 32 7 ++ List.replicate 32 5) = .ok .invalidSignature :=
  ⟨⟨.keypair, List.replicate 32 6, List.replicate 32 7⟩,
   ⟨.pubOnly, List.replicate 32 0, List.replicate 32 7⟩, by decide +kernel, by decide +kernel,
   rfl, rfl, rfl, rfl, by decide +kernel, by decide +kernel⟩

end Noise
