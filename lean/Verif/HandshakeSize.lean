import Verif.HandshakeTwo
/-!
# C21: the size of handshake messages
-/

namespace Noise

open Spec (Tok HSt Res)

namespace HS
variable {X : Setup} {P Q : Spec.DH}

/-- C21, what does hold: in every state reached by following the specification, a message that is
written consists of the public keys, whose size is bounded by the pattern, and an encrypted payload of
at most 65535 bytes. The full claim (65535 bytes in all) is false, see `C21_fails`. -/
theorem C21_written_partial (R : Real X P Q) (rnd junk : Nat → Nat → UInt8) (s s' : X.H) (st : HSt P Q)
    (h : Follows R s st) (ha : s.action = .write)
    (ge : Nat → Option Bytes → P.KP) (gf : Nat → Option Bytes → Q.KP)
    (hge : ∀ n, GenOf R.RD s.fe (rnd (n + later s st)) (ge n))
    (hgf : ∀ n, GenOf R.RG s.fh (rnd (n + later s st)) (gf n))
    (hP : ∀ k, (P.pub k).length = P.len false) (hQ : ∀ n o, (Q.pub (gf n o)).length = Q.len o.isSome)
    (hC : ∀ k n ad pt, (X.S.crypto.ENCRYPT k n ad pt).length = pt.length + X.S.crypto.macLen)
    (mem : Bytes) (payload : Option Bytes) (b : Buf)
    (hw : writeMessage X.S.CB rnd junk s mem payload = .ok (.none, s', b)) :
    ∃ hdr ct : Bytes, b.bytes = hdr ++ ct ∧ b.size = hdr.length + ct.length ∧ ct.length ≤ 65535 ∧
      hdr.length ≤ ((st.msgs.headD []).map (HSt.tokMax X.S.crypto P Q)).sum := by
  obtain ⟨hne, _, _, _⟩ := h.write ha
  have key := C13_write R rnd junk s st h ha ge gf hge hgf mem payload
  cases hsp : HSt.writeMessage X.S.crypto ge gf st (payload.getD []) with
  | stuck => rw [hsp] at key; exact key.elim
  | fail =>
    rw [hsp] at key
    obtain ⟨e, s1, b1, k1, k2, _⟩ := key
    rw [hw] at k1; cases k1; exact absurd rfl k2
  | ok x =>
    obtain ⟨st', hdr, ct⟩ := x
    rw [hsp] at key
    by_cases hf : hdr.length + ct.length ≤ mem.length ∧ ct.length ≤ 65535
    · obtain ⟨s1, k1, _⟩ := key.1 hf
      rw [hw] at k1
      cases k1
      refine ⟨hdr, ct, ?_, rfl, hf.2, ?_⟩
      · simp only [Buf.bytes]
        rw [List.take_left' (by simp)]
      · cases hm : st.msgs with
        | nil => exact absurd hm hne
        | cons m ms =>
          exact (HSt.writeMessage_len hC hP hQ hm hsp).1
    · obtain ⟨e, s1, b1, k1, k2, _⟩ := key.2 hf
      rw [hw] at k1; cases k1; exact absurd rfl k2

/-- C21, what does hold of reading: the encrypted payload of an accepted message is at most 65535
bytes. -/
theorem C21_read_partial (R : Real X P Q) (junk : Nat → Nat → UInt8) (s s' : X.H) (st : HSt P Q)
    (h : Follows R s st) (ha : s.action = .read) (msg b : Buf) (hm : msg.size ≤ msg.maxSize)
    (payload : Option Bytes) (p : Option Buf)
    (hr : readMessage X.S.CB junk s msg payload = .ok (.none, s', b, p)) :
    ∃ st' ct pl, HSt.readMessage X.S.crypto st msg.bytes = .ok (st', ct, pl) ∧ ct.length ≤ 65535 := by
  have key := C13_read R junk s st h ha msg hm payload
  cases hsp : HSt.readMessage X.S.crypto st msg.bytes with
  | stuck => rw [hsp] at key; exact key.elim
  | fail =>
    rw [hsp] at key
    obtain ⟨e, s1, b1, k1, k2, _⟩ := key
    rw [hr] at k1; cases k1; exact absurd rfl k2
  | ok x =>
    obtain ⟨st', ct, pl⟩ := x
    rw [hsp] at key
    by_cases hf : ct.length ≤ 65535 ∧ (∀ p, payload = some p → pl.length ≤ p.length)
    · exact ⟨_, _, _, rfl, hf.1⟩
    · obtain ⟨e, s1, b1, k1, k2, _⟩ := key.2 hf
      rw [hr] at k1; cases k1; exact absurd rfl k2

/-- An initiator that is about to send the message `e`, with no key and no PSK yet: any payload of up to
65535 bytes is sent, after the public key. -/
theorem first_message_size (R : Real X P Q) (hP : ∀ k, (P.pub k).length = P.len false) (s : X.H)
    (st : HSt P Q) (h : Follows R s st)
    (ha : s.action = .write) (ms : List (List Tok)) (hm : st.msgs = [.e] :: ms) (hk : st.sym.c.k = none)
    (hp : st.psk = false) (hfe : s.fe = none) (hfh : s.fh = none) (rnd junk : Nat → Nat → UInt8) (mem payload : Bytes)
    (hl : payload.length ≤ 65535) (hmem : P.len false + payload.length ≤ mem.length) :
    ∃ s' b, writeMessage X.S.CB rnd junk s mem (some payload) = .ok (.none, s', b) ∧
      b.size = P.len false + payload.length := by
  have key := C13_write R rnd junk s st h ha
    (fun n o => P.gen o (rnd (n + later s st))) (fun n o => Q.gen o (rnd (n + later s st)))
    (fun n => by rw [hfe]; rfl) (fun n => by rw [hfh]; rfl) mem (some payload)
  have hsp : ∃ st', HSt.writeMessage X.S.crypto (fun n o => P.gen o (rnd (n + later s st)))
      (fun n o => Q.gen o (rnd (n + later s st))) st payload =
      .ok (st', P.pub (P.gen st.re (rnd (0 + later s st))), payload) := by
    unfold HSt.writeMessage
    rw [hm]
    simp [HSt.writeToks, HSt.writeTok, HSt.mixE, hp, Spec.Sym.mixHash, Spec.Sym.encryptAndHash,
      Spec.Cipher.encryptWithAd, hk]
  obtain ⟨st', hsp⟩ := hsp
  simp only [Option.getD_some] at key
  rw [hsp] at key
  obtain ⟨s', k1, _⟩ := key.1 ⟨by rw [hP]; exact hmem, hl⟩
  exact ⟨_, _, k1, by simp [hP]⟩

end HS

/-- The initiator of the examples, not started. -/
theorem c21_object : ∃ s0 s, meetMake "Noise_NN_25519_ChaChaPoly_BLAKE2s" .initiator [] = some (s0, [], s) ∧
    s0.sym.id.reserved.length = 4 ∧ s.action = .none ∧ s.role = .initiator ∧ s.fe = none ∧ s.fh = none ∧
    s.sym.id.prefixId ≠ prefixPsk ∧ specPattern s.sym.id.patternId = some ⟨[], [], [[.e], [.e, .ee]]⟩ ∧
    (∃ s', s.start meetSetup.S.CB = .ok (.none, s')) := by
  have hc : (match meetMake "Noise_NN_25519_ChaChaPoly_BLAKE2s" .initiator [] with
      | some (s0, os, s) => os.isEmpty && decide (s0.sym.id.reserved.length = 4 ∧ s.action = .none ∧
          s.role = .initiator ∧ s.sym.id.prefixId ≠ prefixPsk) && s.fe.isNone && s.fh.isNone &&
          decide (specPattern s.sym.id.patternId = some ⟨[], [], [[.e], [.e, .ee]]⟩) &&
          (match s.start meetSetup.S.CB with
            | .ok (e, _) => e == .none
            | .ub => false)
      | none => false) = true := by decide +kernel
  revert hc
  cases meetMake "Noise_NN_25519_ChaChaPoly_BLAKE2s" .initiator [] with
  | none => intro h; cases h
  | some x =>
    obtain ⟨s0, os, s⟩ := x
    intro h
    simp only [Bool.and_eq_true, decide_eq_true_eq] at h
    obtain ⟨⟨⟨⟨⟨h1, h2, h3, h4, h5⟩, h6⟩, h7⟩, h8⟩, h9⟩ := h
    refine ⟨s0, s, ?_, h2, h3, h4, by simpa using h6, by simpa using h7, h5, h8, ?_⟩
    · cases os with
      | nil => rfl
      | cons a b => simp at h1
    · revert h9
      cases s.start meetSetup.S.CB with
      | ub => intro h; cases h
      | ok y =>
        obtain ⟨e, s'⟩ := y
        intro h
        simp at h
        exact ⟨s', by rw [h]⟩

/-- C21 is false: an initiator that has just been started for NN sends a payload of 65535 bytes without
complaint; with the public key the message is longer than 65535 bytes. -/
theorem C21_fails : ∃ s s1 : meetSetup.H, SetUp meetSetup s ∧ s.start meetSetup.S.CB = .ok (.none, s1) ∧
    ∀ (rnd junk : Nat → Nat → UInt8) (mem payload : Bytes), payload.length = 65535 → 65537 ≤ mem.length →
      ∃ s2 b, s1.writeMessage meetSetup.S.CB rnd junk mem (some payload) = .ok (.none, s2, b) ∧
        b.size = 65537 := by
  obtain ⟨s0, s, h1, h2, h3, h4, h5, h6, h7, h8, s1, h9⟩ := c21_object
  have hset : SetUp meetSetup s := meetMake_setUp h1 (by simp) h2 rfl h3
  refine ⟨s, s1, hset, h9, fun rnd junk mem payload hl hm => ?_⟩
  let R := curveReal toySuite toyCurve toyCurve2 toyCurve_sized
    ⟨toyCurve_sized.eval_len, toyCurve_sized.clamp_len⟩ (by decide) (by decide)
  obtain ⟨name, own, st', _, _, k1, k2, k3, k4⟩ := HS.C13_start R (curveReal_genuine _ _ _ _ _ _ _) s s1
    hset _ h8 (by decide) h9
  rw [if_neg h7] at k1
  have hinv := hset.idle
  have hfe : s1.fe = none ∧ s1.fh = none := by
    unfold HS.start at h9
    repeat (split at h9; · cases h9)
    rw [Out.bind_eq_ok] at h9
    obtain ⟨sy, _, h9⟩ := h9
    rw [Out.bind_eq_ok] at h9
    obtain ⟨sy', _, h9⟩ := h9
    cases h9
    exact ⟨h5, h6⟩
  have hst : st'.psk = false ∧ st'.sym.c.k = none := by
    simp only [HSt.initState, HSt.mixPres] at k1
    cases k1
    exact ⟨rfl, rfl⟩
  obtain ⟨s2, b, j1, j2⟩ := HS.first_message_size R (fun k => by
      exact toyCurve_sized.eval_len _ _) s1 st' k2 (by rw [k4, h4]) [[.e, .ee]] k3
    hst.2 hst.1 hfe.1 hfe.2 rnd junk mem payload (by omega) (by
      show toyCurve.len + payload.length ≤ _; simp only [toyCurve]; omega)
  exact ⟨s2, b, j1, by rw [j2, hl]; rfl⟩

/-- The hypothesis of `C21_fails` is met. -/
example : ∃ payload mem : Bytes, payload.length = 65535 ∧ 65537 ≤ mem.length :=
  ⟨List.replicate 65535 0, List.replicate 65537 0, List.length_replicate,
    Nat.le_of_eq List.length_replicate.symm⟩

end Noise
