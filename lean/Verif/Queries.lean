import Verif.HandshakeFallbackProps
import Verif.ProtobufNest
/-!
# What the query functions report (C15, C19, C24, C46, C57)

Found by testing the theorems against wrong programs: these were not determined by the other theorems.
-/

namespace Noise

/-- **C24.** The getters of a DHState: the key is given out exactly if it is there and the lengths are right;
`get_keypair` clears the buffers if there is no key pair. -/
theorem C24_getters {D : DHBackend} {Inv : DHState D.Ext → Prop} {L : Option Role → Nat} (W : D.Lawful Inv L)
    (s : DHState D.Ext) (h : DHReach D s) (a b : Nat) :
    D.getKeypair s a b = (if a = s.privLen ∧ b = s.pubLen then
      (if s.hasKeypair then .ok (.none, some (s.priv.take a, s.pub.take b))
        else .ok (.invalidState, some (List.replicate a 0, List.replicate b 0)))
      else .ok (.invalidLength, none)) ∧
    D.getPublicKey s b = (if b = s.pubLen then .ok (.none, some (s.pub.take b)) else .ok (.invalidLength, none)) := by
  have hl := W.lens s (dhreach_inv W s h)
  constructor
  · unfold DHBackend.getKeypair DHState.hasKeypair
    by_cases ha : a = s.privLen
    · by_cases hb : b = s.pubLen
      · rw [if_neg (by simp [ha]), if_neg (by simp [hb]), if_pos (c := a = s.privLen ∧ b = s.pubLen) ⟨ha, hb⟩,
          load_ok (show 0 + a ≤ s.priv.length by omega), load_ok (show 0 + b ≤ s.pub.length by omega)]
        cases hk : s.keyType <;> simp
      · rw [if_neg (by simp [ha]), if_pos hb, if_neg (by simp [hb])]
    · rw [if_pos ha, if_neg (by simp [ha])]
  · unfold DHBackend.getPublicKey
    by_cases hb : b = s.pubLen
    · rw [if_neg (by simp [hb]), if_pos hb, load_ok (by omega)]
      simp
    · rw [if_pos hb, if_neg hb]

namespace HS

theorem reqs_spec {X : Setup} {s0 s : X.H} (hs : Created X s0) {ops : List (HOp X.D X.G)} {os : List HObs}
    (ha : ∀ op ∈ ops, op.ArgsOk X) (hr : HOp.run X.S.CB s0 ops = .ok (os, s)) :
    ∃ p, specPattern s.sym.id.patternId = some p ∧ s.reqs.localReq = p.needsLocalStatic s.role ∧
      s.reqs.remoteReq = p.needsRemoteStatic s.role ∧ s.reqs.psk = decide (s.sym.id.prefixId = prefixPsk) := by
  have hq := reqs_run ops hs.inv hs.reqs ha hr
  obtain ⟨t, fl, h1, h2, r1, r2, r3, r4, r5, r6⟩ := hq
  obtain ⟨p, fl', p1, p2, p3, p4⟩ := C17_tables_are_the_specification h1
  rw [h2] at p3; cases p3
  obtain ⟨f1, f2, f3⟩ := flags_role p4 s.role
  refine ⟨p, p1, ?_, ?_, ?_⟩
  · rw [r1]; simp [HS.requirements, Spec.Pattern.needsLocalStatic, f1, f2]
  · rw [r2]; simp [HS.requirements, Spec.Pattern.needsRemoteStatic, f3]
  · rw [r3]
    simp only [HS.requirements]
    rw [Bool.eq_iff_iff]
    simp

end HS

/-- **C15.** After any history the three `needs` functions say which key that the pattern of the Noise specification
asks for is missing, and a handshake that is not started and not of pattern XXfallback starts exactly if all three say no. -/
theorem C15_queries (X : Setup) (s0 s : X.H) (hs : Created X s0) (ops : List (HOp X.D X.G))
    (os : List HObs) (ha : ∀ op ∈ ops, op.ArgsOk X) (hr : HOp.run X.S.CB s0 ops = .ok (os, s)) :
    ∃ p e s', specPattern s.sym.id.patternId = some p ∧ s.start X.S.CB = .ok (e, s') ∧
      (s.needsLocalKeypair = true ↔ p.needsLocalStatic s.role = true ∧ HS.hasKeypairP s.ls = false) ∧
      (s.needsRemotePublicKey = true ↔ p.needsRemoteStatic s.role = true ∧ HS.hasPublicKeyP s.rs = false) ∧
      (s.needsPsk = true ↔ s.sym.id.prefixId = prefixPsk ∧ s.hasPsk = false) ∧
      (s.action = .none → s.sym.id.patternId ≠ patternXXfallback →
        (e = .none ↔ s.needsLocalKeypair = false ∧ s.needsRemotePublicKey = false ∧ s.needsPsk = false)) := by
  obtain ⟨p, h1, h2, h3, h4⟩ := HS.reqs_spec hs ha hr
  obtain ⟨p', e, s', g1, g2, g3, -, -⟩ := C15_start X s0 s hs ops os ha hr
  rw [h1] at g1
  cases g1
  have q1 : s.needsLocalKeypair = true ↔ p.needsLocalStatic s.role = true ∧ HS.hasKeypairP s.ls = false := by
    unfold HS.needsLocalKeypair
    rw [h2]
    simp
  have q2 : s.needsRemotePublicKey = true ↔ p.needsRemoteStatic s.role = true ∧ HS.hasPublicKeyP s.rs = false := by
    unfold HS.needsRemotePublicKey
    rw [h3]
    simp
  have q3 : s.needsPsk = true ↔ s.sym.id.prefixId = prefixPsk ∧ s.hasPsk = false := by
    unfold HS.needsPsk HS.hasPsk
    rw [h4]
    simp [and_comm]
  refine ⟨p, e, s', h1, g2, q1, q2, q3, fun hn hx => ?_⟩
  have q3' : s.sym.id.prefixId = prefixPsk ∧ s.psk = [] ↔ s.needsPsk = true := by
    rw [q3]
    unfold HS.hasPsk
    simp
  rw [g3, if_neg (by simp [hn]), if_neg (by simp [hx])]
  simp only [← q1, ← q2, q3']
  cases s.needsLocalKeypair <;> cases s.needsRemotePublicKey <;> cases s.needsPsk <;> simp

/-- **C19.** The codes of a refused fallback: NOT_APPLICABLE if the handshake or the new pattern does not allow it, and
otherwise INVALID_STATE if it is not the moment for it. -/
theorem C19_codes {X : Setup} (s : X.H) (h : Reached X s) (pid : Int) (stack : Bytes) :
    ((s.sym.id.patternId < patternNN ∨ s.reqs.fallbackPossible = false ∨
        ¬∃ t fl, patternLookup pid = some t ∧ patternFlags t = .ok fl ∧ hasFlag fl flagRemoteEphemReq = true) →
      s.fallbackTo pid stack = .ok (.notApplicable, s)) ∧
    (patternNN ≤ s.sym.id.patternId → s.reqs.fallbackPossible = true →
      (∃ t fl, patternLookup pid = some t ∧ patternFlags t = .ok fl ∧ hasFlag fl flagRemoteEphemReq = true) →
      s.fallbackAllowed = false → s.fallbackTo pid stack = .ok (.invalidState, s)) := by
  constructor
  · intro hc
    obtain ⟨e, s', h1, -⟩ := HS.fallbackTo_ok h.inv pid stack
    unfold HS.fallbackTo at h1 ⊢
    by_cases c1 : s.sym.id.patternId < patternNN ∨ s.reqs.fallbackPossible = false
    · rw [if_pos c1]
    · rw [if_neg c1] at h1 ⊢
      cases ht : patternLookup pid with
      | none => rfl
      | some t =>
        rw [ht] at h1
        dsimp only at h1 ⊢
        cases hf : patternFlags t with
        | ub => rw [hf] at h1; cases h1
        | ok fl =>
          rw [Out.bind_ok, if_pos]
          · rfl
          · rcases hc with hc | hc | hc
            · exact absurd (.inl hc) c1
            · exact absurd (.inr hc) c1
            · cases hn : hasFlag fl flagRemoteEphemReq with
              | false => rfl
              | true => exact absurd ⟨t, fl, ht, hf, hn⟩ hc
  · rintro c1 c2 ⟨t, fl, ht, hf, c3⟩ c4
    unfold HS.fallbackTo
    rw [if_neg (by simp [c2]; omega), ht]
    dsimp only
    rw [hf, Out.bind_ok, if_neg (by simp [c3]), if_pos c4]
    rfl

/-- **C57.** The object for a fixed ephemeral key exists as soon as it has been asked for, keeps its identity, and a new
one has the role of the local ephemeral key; likewise for the hybrid key. -/
theorem C57_fixed {X : Setup} (s : X.H) :
    (s.getFixedE.2 = true → s.le.isSome = true ∧ s.getFixedE.1.fe.isSome = true) ∧
    (s.le.isSome = true → s.fe.isSome = true → s.getFixedE = (s, true)) ∧
    (∀ l f, s.le = some l → s.fe = none → X.D.newById s.sym.id.dhId = .ok f →
      s.getFixedE = ({ s with fe := some (X.D.setRole f l.role) }, true)) ∧
    (s.getFixedH.2 = true → s.lh.isSome = true ∧ s.getFixedH.1.fh.isSome = true) ∧
    (s.lh.isSome = true → s.fh.isSome = true → s.getFixedH = (s, true)) ∧
    (∀ l e f, s.lh = some l → s.le = some e → s.fh = none → X.G.newById s.sym.id.hybridId = .ok f →
      s.getFixedH = ({ s with fh := some (X.G.setRole f e.role) }, true)) := by
  unfold HS.getFixedE HS.getFixedH HS.leRole
  refine ⟨?_, ?_, ?_, ?_, ?_, ?_⟩
  · cases hl : s.le with
    | none => simp
    | some l =>
      cases hf : s.fe with
      | some f => simp [hf]
      | none =>
        dsimp only
        split <;> simp
  · intro h1 h2
    obtain ⟨l, hl⟩ := Option.isSome_iff_exists.1 h1
    obtain ⟨f, hf⟩ := Option.isSome_iff_exists.1 h2
    rw [hl, hf]
  · intro l f h1 h2 h3
    rw [h1, h2]
    dsimp only
    rw [h3]
  · cases hl : s.lh with
    | none => simp
    | some l =>
      cases hf : s.fh with
      | some f => simp [hf]
      | none =>
        dsimp only
        split <;> simp
  · intro h1 h2
    obtain ⟨l, hl⟩ := Option.isSome_iff_exists.1 h1
    obtain ⟨f, hf⟩ := Option.isSome_iff_exists.1 h2
    rw [hl, hf]
  · intro l e f h1 h2 h3 h4
    rw [h1, h3, h2]
    dsimp only
    rw [h4]

/-- What the functions report for IK before and after keys are set, for both parties; and the fixed keys. -/
example : ([Role.initiator, Role.responder].map fun role =>
    match meetMake "Noise_IK_25519_ChaChaPoly_BLAKE2s" role [], meetMake "Noise_IK_25519_ChaChaPoly_BLAKE2s" role
        [.localStatic (.setKeypairPrivate [3, 4]), .remoteStatic (.setPublicKey [5, 5])] with
    | some (a, _, _), some (_, _, b) => [a.needsLocalKeypair, a.needsRemotePublicKey, a.needsPsk, b.needsLocalKeypair,
        b.needsRemotePublicKey, a.getFixedE.2, a.getFixedH.2, a.getFixedE.1.getFixedE.2]
    | _, _ => []) =
    [[true, true, false, false, false, true, false, true], [true, false, false, false, false, true, false, true]] := by
  decide +kernel

namespace PB

/-- **C46.** Peeking gives the tag 0 where the next key has the tag 0, which is not valid. -/
theorem C46_tag_zero {p : PB} {b : UInt8} {rest : Bytes} (h : Ready p (b :: rest)) (hb : b.toNat < 8) :
    p.peekTag = .ok 0 := by
  unfold peekTag
  rw [peek_one h (by omega), Out.bind_ok]
  dsimp only
  rw [if_neg (by simp), if_pos]
  · rfl
  · left
    apply UInt64.toNat_inj.1
    rw [u64_shr _ (n := 3) rfl (by omega), UInt8.toNat_toUInt64]
    show _ = 0
    omega

example := C46_tag_zero (prepareInput_ready [2, 0]) (by decide)

end PB
end Noise
