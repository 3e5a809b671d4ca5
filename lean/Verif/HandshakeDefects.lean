import Verif.HandshakeFallbackProps
import Verif.HandshakeNull
/-!
# Buffers of the symmetric state (C76), fallback from one-way patterns (C77), the keys mixed in after a fallback (C78)
-/

namespace Noise

/-! ## C76 -/

/-- **C76** for encryption: `noise_symmetricstate_encrypt_and_hash` is defined for every buffer, and refuses one whose
`size` exceeds its `max_size`. -/
theorem C76_encrypt {HB : HashBackend} (CB : CipherBackend) (hB : CB.Lawful) (s : SymState HB) (b : Buf) :
    (∃ e s' b', s.encryptAndHash CB b = .ok (e, s', b')) ∧
    (∀ c, s.cipher = some c → b.maxSize < b.size → s.encryptAndHash CB b = .ok (.invalidLength, s, b)) := by
  unfold SymState.encryptAndHash
  cases hc : s.cipher with
  | none => exact ⟨⟨_, _, _, rfl⟩, fun c h => by cases h⟩
  | some c =>
    obtain ⟨r, hr, hm, hs, hn, -⟩ := C06_encrypt_respects_capacity CB hB c s.h b
    dsimp only
    constructor
    · rw [hr]
      simp only [Out.bind_ok]
      split
      · exact ⟨_, _, _, rfl⟩
      · next he =>
        have he' : r.err = .none := by simpa using he
        have h1 := hs (hn.1 he').1
        rw [load_ok (by unfold Buf.maxSize at h1; omega)]
        exact ⟨_, _, _, rfl⟩
    · intro c' e hlt
      have : c.encryptWithAd CB s.h b = .ok ⟨.invalidLength, c, b, []⟩ := by
        unfold CipherState.encryptWithAd
        rw [if_pos hlt]
      rw [this]
      simp only [Out.bind_ok]
      rw [if_pos (by decide), ← hc]
      rfl

/-- **C76** for decryption holds if `size` is at most `max_size`: then the call is defined. -/
theorem C76_decrypt_partial {HB : HashBackend} (CB : CipherBackend) (hB : CB.Lawful) (s : SymState HB) (b : Buf)
    (h : b.size ≤ b.maxSize) : ∃ e s' b', s.decryptAndHash CB b = .ok (e, s', b') := by
  unfold SymState.decryptAndHash
  cases hc : s.cipher with
  | none => exact ⟨_, _, _, rfl⟩
  | some c =>
    obtain ⟨r, hr, -⟩ := C06_decrypt_respects_capacity CB hB c s.h b
    dsimp only
    split
    · exact ⟨_, _, _, rfl⟩
    · split
      · exact ⟨_, _, _, rfl⟩
      · rw [load_ok (by unfold Buf.maxSize at h; omega), hr]
        simp only [Out.bind_ok]
        split <;> exact ⟨_, _, _, rfl⟩

/-- **C76 fails** for decryption: a `size` above `max_size` that is otherwise acceptable makes
`noise_symmetricstate_decrypt_and_hash` hash bytes behind the buffer before the cipher refuses it. -/
theorem C76_fails {HB : HashBackend} (CB : CipherBackend) (s : SymState HB) (c : CipherState) (hc : s.cipher = some c) (b : Buf)
    (h : b.maxSize < b.size) (h1 : b.size ≤ 65535) (h2 : c.hasKey = true → CB.macLen ≤ b.size) :
    s.decryptAndHash CB b = .ub := by
  unfold SymState.decryptAndHash
  rw [hc]
  dsimp only
  rw [if_neg (by unfold maxPayload; omega), if_neg (by rintro ⟨a, a'⟩; have := h2 a; omega)]
  have : load b.data 0 b.size = .ub := by
    unfold load
    rw [if_neg (by unfold Buf.maxSize at h; omega)]
  rw [this]
  rfl

/-- The hypotheses of `C76_fails` can be met, with and without a key. -/
example : (⟨[1, 2], 20⟩ : Buf).maxSize < 20 ∧ (20 ≤ 65535) ∧ toyCipher.macLen ≤ 20 := by decide

/-! ## C23: what is mixed in when the calculation fails early -/

/-- If a private key is missing, `noise_handshake_mix_dh` mixes the uninitialised block into the chaining key; the error then ends
the handshake, so that nothing that can be observed depends on the block (`C23_uninitialised_memory`). -/
theorem C23_block_is_mixed {HB : HashBackend} (CB : CipherBackend) (D : DHBackend) (sym : SymState HB)
    (p q : DHState D.Ext) (hk : p.keyType ≠ .keypair) (junk : Nat → UInt8) :
    HS.mixDh CB D sym (some p) (some q) junk =
      (sym.mixKey CB (randBytes junk D.sharedLen) >>= fun r => .ok (.invalidPrivateKey, r.2, some p)) := by
  unfold HS.mixDh DHBackend.calculateApi
  dsimp only
  rw [if_neg (by rw [randBytes_length]; simp), if_pos hk]
  rfl

/-! ## C77 -/

/-- **C77** for the patterns numbered as one-way ones (N, X, K): a fallback is refused and nothing changes. -/
theorem C77_one_way_partial (X : Setup) (s : X.H) (hid : s.sym.id.patternId < patternNN) (pid : Int) (stack : Bytes) :
    s.fallbackTo pid stack = .ok (.notApplicable, s) := by
  unfold HS.fallbackTo
  rw [if_pos (Or.inl hid)]

/-- **C77 fails** for Xnoidh: for a responder that was sent half a message, fallback and start succeed, although the one-way initiator
reads nothing. The responder has no object for an ephemeral key of its own, so that it then cannot write. -/
theorem C77_fails :
    toyHistory "Noise_Xnoidh_25519_ChaChaPoly_BLAKE2s" .responder
      [.localStatic (.setKeypairPrivate [3, 4]), .start,
       .read (fun _ _ => 0) ⟨[1, 2, 3], 3⟩ none,
       .fallbackTo patternXXfallback (List.replicate 256 9), .start,
       .write (fun _ i => UInt8.ofNat i) (fun _ _ => 0) (List.replicate 90 0) (some [1, 2])] =
    .ok ([.none, .none, .invalidLength, .none, .none, .invalidState], [.failed]) := by decide +kernel

/-- The pattern has one message only. -/
example : (specPattern 0x5020).map (·.msgs.length) = some 1 := by decide +kernel

/-- The same with N is refused. -/
example :
    toyHistory "Noise_N_25519_ChaChaPoly_BLAKE2s" .responder
      [.localStatic (.setKeypairPrivate [3, 4]), .start,
       .read (fun _ _ => 0) ⟨[1, 2, 3], 3⟩ none,
       .fallbackTo patternXXfallback (List.replicate 256 9)] =
    .ok ([.none, .none, .invalidLength, .notApplicable], [.failed]) := by decide +kernel

/-! ## C78 -/

/-- Run a history and return the handshake hash. -/
def toyH (name : String) (role : Role) (ops : List (HOp toySetup.D toySetup.G)) : Option (List Err × Bytes) :=
  match (HS.newByName toySetup.S.CB ([] : Bytes) (ascii name) role : Out (Except Err toySetup.H)) with
  | .ok (.ok s) =>
    match HOp.run toySetup.S.CB s ops with
    | .ok (os, s') => some (os.map (·.err), s'.sym.h)
    | .ub => none
  | _ => none

/-- A responder that falls back to XXfallback after having read a message. -/
def fallbackOps (msg : Bytes) : List (HOp toySetup.D toySetup.G) :=
  [.localStatic (.setKeypairPrivate [3, 4]), .start,
   .read (fun _ _ => 0) ⟨msg, msg.length⟩ none,
   .fallbackTo patternXXfallback (List.replicate 256 9), .start]

/-- **C78 fails** when the first handshake was a hybrid one: the handshake hash after the start of XXfallback depends on the
hybrid key `f` of the message that was read (here [3, 4] or [3, 6]), which is not a pre-message of XXfallback. -/
theorem C78_fails :
    (toyH "Noise_NKhfs_25519+448_ChaChaPoly_BLAKE2s" .responder (fallbackOps [1, 2, 3, 4, 5])).map (·.1) =
      some [.none, .none, .invalidLength, .none, .none] ∧
    (toyH "Noise_NKhfs_25519+448_ChaChaPoly_BLAKE2s" .responder (fallbackOps [1, 2, 3, 4, 5])).map (·.2) ≠
      (toyH "Noise_NKhfs_25519+448_ChaChaPoly_BLAKE2s" .responder (fallbackOps [1, 2, 3, 6, 5])).map (·.2) := by decide +kernel

/-- The pattern's only pre-message is the responder's `e`. -/
example : (specPattern patternXXfallback).map (fun p => (p.preI, p.preR)) = some ([], [.e]) := by decide +kernel

/-- **C78** if there are no hybrid keys: the fallback pre-message is the ephemeral public key. -/
theorem C78_partial {HB : HashBackend} {D G : DHBackend} (CB : CipherBackend) (s : HS HB D G) (e : DHState D.Ext)
    (hk : e.keyType ≠ .noKey) (hl : e.pub.length = e.pubLen) (hf : s.reqs.fallbackPre = true) (hp : s.reqs.psk = false)
    (sym : SymState HB) : s.mixFallback CB (some e) none sym = .ok (sym.mixHash e.pub).2 := by
  have hpk : e.hasPublicKey = true := by simp [DHState.hasPublicKey, hk]
  unfold HS.mixFallback HS.mixPublicKey
  rw [if_pos hf]
  dsimp only
  rw [if_pos hpk, load_ok (by omega), ← hl]
  simp [hp]

/-- Without the hybrid extension the fallback above works and the hash does not depend on the rest of the message. -/
example : toyH "Noise_NK_25519_ChaChaPoly_BLAKE2s" .responder (fallbackOps [1, 2, 3, 4, 5]) =
      toyH "Noise_NK_25519_ChaChaPoly_BLAKE2s" .responder (fallbackOps [1, 2, 3, 6, 5]) ∧
    (toyH "Noise_NK_25519_ChaChaPoly_BLAKE2s" .responder (fallbackOps [1, 2, 3, 6, 5])).map (·.1.drop 3) =
      some [.none, .none] := by decide +kernel

end Noise
