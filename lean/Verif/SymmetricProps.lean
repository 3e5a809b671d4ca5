import Verif.Symmetric
import Verif.Spec
import Verif.CipherProps
import Verif.NamesProps
/-!
# Properties C08-C10 of the SymmetricState API
-/

namespace Noise

/-- A cipher suite: lawful cipher and hash back ends with Noise's 32-byte keys. -/
structure Suite where
  CB : CipherBackend
  HB : HashBackend
  H : Bytes → Bytes
  cl : CB.Lawful
  hl : HB.Lawful H
  key32 : CB.keyLen = 32
  hash32 : 32 ≤ HB.hashLen

/-- The specification's view of a suite's functions. -/
def Suite.crypto (S : Suite) : Spec.Crypto where
  hashLen := S.HB.hashLen
  blockLen := S.HB.blockLen
  macLen := S.CB.macLen
  HASH := S.H
  ENCRYPT k n ad pt := (S.CB.enc k (UInt64.ofNat n) ad pt).2
  DECRYPT k n ad ct :=
    if ct.length < S.CB.macLen then none
    else if (S.CB.dec k (UInt64.ofNat n) ad ct).1 = .none then
      some ((S.CB.dec k (UInt64.ofNat n) ad ct).2.take (ct.length - S.CB.macLen))
    else none

/-- The specification's CipherState held by an object. -/
def CipherState.abs (c : CipherState) : Spec.Cipher :=
  ⟨if c.hasKey then some c.key else none, c.n.toNat⟩

/-- The object holds the given specification state. -/
def SymState.Rep {HB : HashBackend} (s : SymState HB) (sp : Spec.Sym) : Prop :=
  (∃ c, s.cipher = some c ∧ c.abs = sp.c) ∧ s.ck = sp.ck ∧ s.h = sp.h

/-! ## Cipher steps in specification terms -/

theorem u64_ofNat_toNat (x : UInt64) : UInt64.ofNat x.toNat = x := by simp

theorem u64_max_iff (x : UInt64) : x = 0xFFFFFFFFFFFFFFFF ↔ x.toNat = 2 ^ 64 - 1 := by
  rw [← UInt64.toNat_inj]; rfl

/-- Overhead of a message: the MAC length once keyed. -/
def CipherState.overhead (CB : CipherBackend) (c : CipherState) : Nat :=
  if c.hasKey then CB.macLen else 0

theorem cipher_encrypt_spec (S : Suite) (c : CipherState) (ad : Bytes) (b : Buf)
    (hb : b.size ≤ b.maxSize) :
    (b.size + c.overhead S.CB ≤ b.maxSize ∧ b.size + c.overhead S.CB ≤ maxPayload →
      match c.abs.encryptWithAd S.crypto ad b.bytes with
      | none => ∃ l, c.encryptWithAd S.CB ad b = .ok ⟨.invalidNonce, c, b, l⟩
      | some (c', ct) => ∃ r, c.encryptWithAd S.CB ad b = .ok r ∧ r.err = .none ∧ r.st.abs = c' ∧
          r.buf = ⟨ct ++ b.data.drop ct.length, ct.length⟩ ∧ ct.length = b.size + c.overhead S.CB ∧
          r.st.hasKey = c.hasKey) ∧
    (¬ (b.size + c.overhead S.CB ≤ b.maxSize ∧ b.size + c.overhead S.CB ≤ maxPayload) →
      ∃ l, c.encryptWithAd S.CB ad b = .ok ⟨.invalidLength, c, b, l⟩) := by
  have hm := S.cl.macLen_le
  unfold CipherState.encryptWithAd CipherState.overhead CipherState.abs Spec.Cipher.encryptWithAd
  have hbl : b.bytes.length = b.size := by
    rw [Buf.bytes, List.length_take]; exact Nat.min_eq_left hb
  rw [if_neg (show ¬ b.size > b.maxSize by omega)]
  cases hk : c.hasKey with
  | false =>
    simp only [Bool.not_false, if_true, Bool.false_eq_true, if_false, Nat.add_zero]
    refine ⟨?_, ?_⟩
    · rintro ⟨h1, h2⟩
      rw [if_neg (show ¬ b.size > maxPayload by omega)]
      refine ⟨⟨.none, c, b, []⟩, rfl, rfl, by simp [hk], ?_, hbl, hk⟩
      rw [hbl]
      simp [Buf.bytes]
    · intro h
      rw [if_pos (show b.size > maxPayload by omega)]
      exact ⟨_, rfl⟩
  | true =>
    simp only [Bool.not_true, if_true, Bool.false_eq_true, if_false]
    refine ⟨?_, ?_⟩
    · rintro ⟨h1, h2⟩
      rw [if_neg (show ¬ b.size > maxPayload - S.CB.macLen by omega),
        if_neg (show ¬ b.maxSize - b.size < S.CB.macLen by omega)]
      simp only [u64_max_iff]
      by_cases hn : c.n.toNat = 2 ^ 64 - 1
      · simp only [if_pos hn]
        exact ⟨_, rfl⟩
      · simp only [if_neg hn]
        have hload : load b.data 0 b.size = .ok b.bytes := by
          rw [load_ok (by simpa [Buf.maxSize] using hb)]; simp [Buf.bytes]
        have hel := S.cl.enc_length c.key c.n ad b.bytes
        have hst : store b.data 0 (S.CB.enc c.key c.n ad b.bytes).2 =
            .ok ((S.CB.enc c.key c.n ad b.bytes).2 ++ b.data.drop (S.CB.enc c.key c.n ad b.bytes).2.length) := by
          rw [store_ok (by rw [hel, hbl]; simpa [Buf.maxSize] using h1)]
          simp
        rw [hload]
        simp only [Out.bind_ok]
        rw [hst]
        simp only [Out.bind_ok, S.cl.enc_ok, ne_eq, not_true, if_false]
        refine ⟨_, rfl, rfl, ?_, ?_, ?_, ?_⟩
        · have := u64_succ (x := c.n) (by rw [Ne, u64_max_iff]; exact hn)
          simp only [if_true, this]
        · simp only [Suite.crypto, u64_ofNat_toNat, hel, hbl]
        · simp only [Suite.crypto, u64_ofNat_toNat, hel, hbl]
        · rfl
    · intro h
      by_cases h1 : b.size > maxPayload - S.CB.macLen
      · rw [if_pos h1]; exact ⟨_, rfl⟩
      · rw [if_neg h1]
        by_cases h2 : b.maxSize - b.size < S.CB.macLen
        · rw [if_pos h2]; exact ⟨_, rfl⟩
        · exfalso; apply h; omega

theorem cipher_decrypt_spec (S : Suite) (c : CipherState) (ad : Bytes) (b : Buf)
    (hb : b.size ≤ b.maxSize) :
    (c.overhead S.CB ≤ b.size ∧ b.size ≤ maxPayload →
      match c.abs.decryptWithAd S.crypto ad b.bytes with
      | none => ∃ e l, e ≠ .none ∧ c.decryptWithAd S.CB ad b = .ok ⟨e, c, b, l⟩
      | some (c', pt) => ∃ r, c.decryptWithAd S.CB ad b = .ok r ∧ r.err = .none ∧ r.st.abs = c' ∧
          r.buf.bytes = pt ∧ r.buf.size = pt.length ∧ r.buf.maxSize = b.maxSize ∧
          r.buf.data.drop b.size = b.data.drop b.size ∧
          pt.length + c.overhead S.CB = b.size ∧ r.st.hasKey = c.hasKey) ∧
    (¬ (c.overhead S.CB ≤ b.size ∧ b.size ≤ maxPayload) →
      ∃ l, c.decryptWithAd S.CB ad b = .ok ⟨.invalidLength, c, b, l⟩) := by
  have hm := S.cl.macLen_le
  unfold CipherState.decryptWithAd CipherState.overhead CipherState.abs Spec.Cipher.decryptWithAd
  have hbl : b.bytes.length = b.size := by
    rw [Buf.bytes, List.length_take]; exact Nat.min_eq_left hb
  cases hk : c.hasKey with
  | false =>
    simp only [Bool.not_false, if_true, Bool.false_eq_true, if_false, Nat.add_zero]
    refine ⟨?_, ?_⟩
    · rintro ⟨h1, h2⟩
      rw [if_neg (show ¬ (b.size > b.maxSize ∨ b.size > maxPayload) by omega)]
      exact ⟨⟨.none, c, b, []⟩, rfl, rfl, by simp [hk], rfl, hbl.symm, rfl, rfl, hbl, hk⟩
    · intro h
      rw [if_pos (show (b.size > b.maxSize ∨ b.size > maxPayload) by omega)]
      exact ⟨_, rfl⟩
  | true =>
    simp only [Bool.not_true, if_true, Bool.false_eq_true, if_false]
    refine ⟨?_, ?_⟩
    · rintro ⟨h1, h2⟩
      rw [if_neg (show ¬ (b.size > b.maxSize ∨ b.size > maxPayload) by omega),
        if_neg (show ¬ b.size < S.CB.macLen by omega)]
      simp only [u64_max_iff]
      by_cases hn : c.n.toNat = 2 ^ 64 - 1
      · simp only [if_pos hn]
        exact ⟨.invalidNonce, _, by decide, rfl⟩
      · simp only [if_neg hn]
        have hload : load b.data 0 b.size = .ok b.bytes := by
          rw [load_ok (by simpa [Buf.maxSize] using hb)]; simp [Buf.bytes]
        have hel := S.cl.dec_length c.key c.n ad b.bytes
        have hst : store b.data 0 (S.CB.dec c.key c.n ad b.bytes).2 =
            .ok ((S.CB.dec c.key c.n ad b.bytes).2 ++ b.data.drop (S.CB.dec c.key c.n ad b.bytes).2.length) := by
          rw [store_ok (by rw [hel, hbl]; simpa [Buf.maxSize] using hb)]
          simp
        rw [hload]
        simp only [Out.bind_ok]
        rw [hst]
        simp only [Out.bind_ok, Suite.crypto, u64_ofNat_toNat]
        rw [if_neg (show ¬ b.bytes.length < S.CB.macLen by omega)]
        by_cases he : (S.CB.dec c.key c.n ad b.bytes).1 = .none
        · simp only [he, ne_eq, not_true, if_false, if_true]
          refine ⟨_, rfl, rfl, ?_, ?_, ?_, ?_, ?_, ?_, ?_⟩
          · have := u64_succ (x := c.n) (by rw [Ne, u64_max_iff]; exact hn)
            simp only [if_true, this]
          · rw [show ∀ (d : Bytes) n, (Buf.mk d n).bytes = d.take n from fun _ _ => rfl]
            rw [List.take_append_of_le_length (by rw [hel, hbl]; omega), hbl]
          · simp [hel, hbl]
          · simp only [Buf.maxSize, List.length_append, List.length_drop, hel, hbl]
            simp only [Buf.maxSize] at hb
            omega
          · dsimp only
            rw [← hbl, ← hel, List.drop_left]
          · rw [List.length_take, hel, hbl]; omega
          · rfl
        · simp only [he, ne_eq, not_false_eq_true, if_true, if_false]
          refine ⟨_, [.dec c.key c.n (S.CB.dec c.key c.n ad b.bytes).1], he, ?_⟩
          rw [S.cl.dec_inert _ _ _ _ he]
          have : b.bytes ++ b.data.drop b.bytes.length = b.data := by
            rw [hbl]; simp [Buf.bytes]
          rw [this]
    · intro h
      by_cases h1 : b.size > b.maxSize ∨ b.size > maxPayload
      · rw [if_pos h1]; exact ⟨_, rfl⟩
      · rw [if_neg h1, if_pos (by omega)]; exact ⟨_, rfl⟩

/-! ## C08 -/

/-- C08: creating a SymmetricState is InitializeSymmetric of the protocol name. -/
theorem C08_new (S : Suite) (ctx0 : S.HB.Ctx) (name : Bytes) (id : ProtocolId) :
    ∃ s, SymState.new S.CB S.HB ctx0 name id = .ok s ∧ s.id = id ∧
      s.Rep (Spec.initializeSymmetric S.crypto name) := by
  unfold SymState.new Spec.initializeSymmetric
  have h1 := S.hl.hashLen_le_max
  have h2 := S.key32
  have h3 := S.hash32
  rw [if_neg (by unfold HashBackend.maxHashLen; omega), if_neg (by omega)]
  simp only [Suite.crypto]
  by_cases h : name.length ≤ S.HB.hashLen
  · simp only [if_pos h]
    refine ⟨_, rfl, rfl, ⟨_, rfl, rfl⟩, ?_, ?_⟩ <;> simp [h]
  · simp only [if_neg h]
    refine ⟨_, rfl, rfl, ⟨_, rfl, rfl⟩, ?_, ?_⟩ <;>
      (show _ = (if name.length ≤ S.HB.hashLen then
          name ++ List.replicate (S.HB.hashLen - name.length) 0 else S.H name)
       rw [if_neg h]; exact hashOne_eq S.hl ctx0 name)

/-- C08: creation by identifier initialises from the identifier's full protocol name. -/
theorem C08_new_by_id (S : Suite) (ctx0 : S.HB.Ctx) (stack : Bytes) (id : ProtocolId) (name : Bytes)
    (hstack : stack.length = 128) (hn : IsNameOf id name) (hr : id.reserved = [0, 0, 0, 0])
    (hl : name.length < 128) :
    ∃ s, SymState.newById S.CB S.HB ctx0 stack id = .ok (.ok s) ∧ s.id = id ∧
      s.Rep (Spec.initializeSymmetric S.crypto name) := by
  obtain ⟨m, h1, h2⟩ := (C27_id_to_name_succeeds stack id name hn hr).mpr (by omega)
  obtain ⟨s, e, hs⟩ := C08_new S ctx0 name id
  refine ⟨s, ?_, hs⟩
  unfold SymState.newById
  rw [h1]
  unfold cstr at h2
  simp only [Out.bind_ok, ne_eq, not_true, if_false, Out.pure_eq] at h2 ⊢
  rw [h2, e]

/-- C08: creation by name initialises from exactly that name. -/
theorem C08_new_by_name (S : Suite) (ctx0 : S.HB.Ctx) (name : Bytes) (id : ProtocolId)
    (h : protocolNameToId name = (.none, id)) :
    ∃ s, SymState.newByName S.CB S.HB ctx0 name = .ok s ∧ s.id = id ∧
      s.Rep (Spec.initializeSymmetric S.crypto name) := by
  obtain ⟨s, e, hs⟩ := C08_new S ctx0 name id
  exact ⟨s, by simp [SymState.newByName, h, e], hs⟩

/-- C08: mix_key is MixKey. -/
theorem C08_mix_key (S : Suite) (s : SymState S.HB) (sp : Spec.Sym) (h : s.Rep sp) (input : Bytes) :
    ∃ s', s.mixKey S.CB input = .ok (.none, s') ∧ s'.Rep (sp.mixKey S.crypto input) ∧ s'.id = s.id := by
  obtain ⟨⟨c, hc, habs⟩, hck, hh⟩ := h
  unfold SymState.mixKey
  simp only [hc]
  obtain ⟨ctx, he⟩ := (C31_hkdf S.hl s.ctx s.ck input S.HB.hashLen S.CB.keyLen).1
    ⟨Nat.le_refl _, by rw [S.key32]; exact S.hash32⟩
  rw [he]
  simp only [Out.bind_ok, ne_eq, not_true, if_false, Out.pure_eq]
  refine ⟨_, rfl, ⟨⟨_, rfl, ?_⟩, ?_, ?_⟩, rfl⟩
  · have hl : (specHkdf S.H S.HB.blockLen s.ck input).2.length = S.HB.hashLen := by
      simp [specHkdf, specHmac_length S.hl]
    have h32 := S.hash32
    unfold CipherState.initKey
    rw [if_neg (by rw [List.length_take, hl, S.key32]; omega)]
    simp [CipherState.abs, Spec.Sym.mixKey, Spec.hkdf, Suite.crypto, hck, S.key32]
  · have hl : (specHkdf S.H S.HB.blockLen s.ck input).1.length = S.HB.hashLen := by
      simp [specHkdf, specHmac_length S.hl]
    dsimp only
    rw [← hl, List.take_length]
    simp [Spec.Sym.mixKey, Spec.hkdf, Suite.crypto, hck]
  · simp [Spec.Sym.mixKey, hh]

/-- C08: mix_hash is MixHash. -/
theorem C08_mix_hash (S : Suite) (s : SymState S.HB) (sp : Spec.Sym) (h : s.Rep sp) (input : Bytes) :
    ∃ s', s.mixHash input = (.none, s') ∧ s'.Rep (sp.mixHash S.crypto input) ∧ s'.id = s.id ∧
      s'.cipher = s.cipher := by
  obtain ⟨⟨c, hc, habs⟩, hck, hh⟩ := h
  unfold SymState.mixHash
  simp only [hc]
  refine ⟨_, rfl, ⟨⟨c, rfl, habs⟩, hck, ?_⟩, rfl, rfl⟩
  dsimp only
  rw [hashTwo_eq S.hl, hh]
  rfl

/-- MAC overhead of the next message in a specification state. -/
def Spec.Sym.overhead (P : Spec.Crypto) (sp : Spec.Sym) : Nat :=
  if sp.c.k.isSome then P.macLen else 0

theorem overhead_abs (S : Suite) (c : CipherState) :
    c.overhead S.CB = if c.abs.k.isSome then S.crypto.macLen else 0 := by
  unfold CipherState.overhead CipherState.abs
  cases c.hasKey <;> simp [Suite.crypto]

/-- C08: encrypt_and_hash is EncryptAndHash on the buffer's bytes when the result fits in the
buffer and in a Noise message; otherwise it fails and changes nothing. The bytes behind the
ciphertext are not touched. -/
theorem C08_encrypt_and_hash (S : Suite) (s : SymState S.HB) (sp : Spec.Sym) (h : s.Rep sp) (b : Buf)
    (hb : b.size ≤ b.maxSize) :
    (b.size + sp.overhead S.crypto ≤ b.maxSize ∧ b.size + sp.overhead S.crypto ≤ 65535 →
      match sp.encryptAndHash S.crypto b.bytes with
      | some (sp', ct) => ∃ s', s.encryptAndHash S.CB b =
            .ok (.none, s', ⟨ct ++ b.data.drop ct.length, ct.length⟩) ∧ s'.Rep sp' ∧
          ct.length = b.size + sp.overhead S.crypto ∧ s'.id = s.id
      | none => ∃ s', s.encryptAndHash S.CB b = .ok (.invalidNonce, s', b) ∧ s'.Rep sp ∧ s'.id = s.id) ∧
    (¬ (b.size + sp.overhead S.crypto ≤ b.maxSize ∧ b.size + sp.overhead S.crypto ≤ 65535) →
      ∃ s', s.encryptAndHash S.CB b = .ok (.invalidLength, s', b) ∧ s'.Rep sp ∧ s'.id = s.id) := by
  obtain ⟨⟨c, hc, habs⟩, hck, hh⟩ := h
  have hov : sp.overhead S.crypto = c.overhead S.CB := by
    rw [overhead_abs, habs]; rfl
  obtain ⟨k1, k2⟩ := cipher_encrypt_spec S c s.h b hb
  rw [hov]
  unfold SymState.encryptAndHash
  simp only [hc]
  refine ⟨?_, ?_⟩
  · intro hfit
    have := k1 hfit
    unfold Spec.Sym.encryptAndHash
    rw [habs, hh] at this
    cases hsp : sp.c.encryptWithAd S.crypto sp.h b.bytes with
    | none =>
      simp only [hsp] at this ⊢
      obtain ⟨l, e⟩ := this
      rw [hh, e]
      simp only [Out.bind_ok, ne_eq, reduceCtorEq, not_false_eq_true, if_true, Out.pure_eq]
      exact ⟨_, rfl, ⟨⟨c, rfl, habs⟩, hck, rfl⟩, rfl⟩
    | some p =>
      obtain ⟨c', ct⟩ := p
      simp only [hsp] at this ⊢
      obtain ⟨r, e, he, hst, hbuf, hlen, _⟩ := this
      rw [hh, e]
      simp only [Out.bind_ok, he, ne_eq, not_true, if_false, Out.pure_eq]
      have hl : load r.buf.data 0 r.buf.size = .ok ct := by
        rw [hbuf]
        rw [load_ok (by simp)]
        simp
      rw [hl]
      simp only [Out.bind_ok, hbuf, SymState.mixHash]
      refine ⟨_, rfl, ⟨⟨r.st, rfl, ?_⟩, ?_, ?_⟩, hlen, rfl⟩
      · simp [Spec.Sym.mixHash, hst]
      · simpa [Spec.Sym.mixHash] using hck
      · dsimp only
        rw [hashTwo_eq S.hl]
        simp [Spec.Sym.mixHash, Suite.crypto]
  · intro hfit
    obtain ⟨l, e⟩ := k2 hfit
    rw [e]
    simp only [Out.bind_ok, ne_eq, reduceCtorEq, not_false_eq_true, if_true, Out.pure_eq]
    exact ⟨_, rfl, ⟨⟨c, rfl, habs⟩, hck, hh⟩, rfl⟩

/-- C08: decrypt_and_hash is DecryptAndHash on the buffer's bytes (whose length must be at least
the MAC length and at most a Noise message), failing exactly when the specification signals an
error. Bytes behind the message are not touched. -/
theorem C08_decrypt_and_hash (S : Suite) (s : SymState S.HB) (sp : Spec.Sym) (h : s.Rep sp) (b : Buf)
    (hb : b.size ≤ b.maxSize) :
    (sp.overhead S.crypto ≤ b.size ∧ b.size ≤ 65535 →
      match sp.decryptAndHash S.crypto b.bytes with
      | some (sp', pt) => ∃ s' b', s.decryptAndHash S.CB b = .ok (.none, s', b') ∧ s'.Rep sp' ∧
          b'.bytes = pt ∧ b'.size = pt.length ∧ b'.maxSize = b.maxSize ∧
          b'.data.drop b.size = b.data.drop b.size ∧
          pt.length + sp.overhead S.crypto = b.size ∧ s'.id = s.id
      | none => ∃ e s', e ≠ .none ∧ s.decryptAndHash S.CB b = .ok (e, s', b) ∧ s'.Rep sp ∧
          s'.cipher = s.cipher ∧ s'.id = s.id) ∧
    (¬ (sp.overhead S.crypto ≤ b.size ∧ b.size ≤ 65535) →
      s.decryptAndHash S.CB b = .ok (.invalidLength, s, b)) := by
  obtain ⟨⟨c, hc, habs⟩, hck, hh⟩ := h
  have hov : sp.overhead S.crypto = c.overhead S.CB := by
    rw [overhead_abs, habs]; rfl
  obtain ⟨k1, k2⟩ := cipher_decrypt_spec S c s.h b hb
  rw [hov]
  unfold SymState.decryptAndHash
  simp only [hc]
  refine ⟨?_, ?_⟩
  · intro hfit
    have := k1 hfit
    have hfit' := hfit
    unfold CipherState.overhead at hfit'
    rw [if_neg (by unfold maxPayload; omega), if_neg (by
      rintro ⟨ha, hb2⟩
      rw [ha] at hfit'
      simp at hfit'
      omega)]
    have hload : load b.data 0 b.size = .ok b.bytes := by
      rw [load_ok (by simpa [Buf.maxSize] using hb)]; simp [Buf.bytes]
    rw [hload]
    simp only [Out.bind_ok]
    unfold Spec.Sym.decryptAndHash
    rw [habs, hh] at this
    cases hsp : sp.c.decryptWithAd S.crypto sp.h b.bytes with
    | none =>
      simp only [hsp] at this ⊢
      obtain ⟨e', l, hne, e⟩ := this
      rw [hh, e]
      simp only [Out.bind_ok, ne_eq, hne, not_false_eq_true, if_true, Out.pure_eq]
      exact ⟨e', _, hne, rfl, ⟨⟨c, rfl, habs⟩, hck, rfl⟩, rfl, rfl⟩
    | some p =>
      obtain ⟨c', pt⟩ := p
      simp only [hsp] at this ⊢
      obtain ⟨r, e, he, hst, hby, hsz, hmax, hrest, hlen, _⟩ := this
      rw [hh, e]
      simp only [Out.bind_ok, he, ne_eq, not_true, if_false, Out.pure_eq]
      refine ⟨_, _, rfl, ⟨⟨r.st, rfl, ?_⟩, ?_, ?_⟩, hby, hsz, hmax, hrest, hlen, rfl⟩
      · simp [Spec.Sym.mixHash, hst]
      · simpa [Spec.Sym.mixHash] using hck
      · dsimp only
        rw [hashTwo_eq S.hl]
        simp [Spec.Sym.mixHash, Suite.crypto]
  · intro hfit
    by_cases h1 : b.size > maxPayload
    · rw [if_pos h1]
    · rw [if_neg h1]
      have : c.hasKey = true ∧ b.size < S.CB.macLen := by
        unfold CipherState.overhead at hfit
        unfold maxPayload at h1
        cases hk : c.hasKey with
        | false => simp [hk] at hfit; omega
        | true => simp [hk] at hfit; exact ⟨rfl, by omega⟩
      rw [if_pos this]

/-- C08: get_mac_length is the MAC overhead of the specification state. -/
theorem C08_mac_length (S : Suite) (s : SymState S.HB) (sp : Spec.Sym) (h : s.Rep sp) :
    s.getMacLength S.CB = if sp.c.k.isSome then S.CB.macLen else 0 := by
  obtain ⟨⟨c, hc, habs⟩, _, _⟩ := h
  have := overhead_abs S c
  rw [habs] at this
  simpa [SymState.getMacLength, hc, CipherState.overhead, Suite.crypto] using this

/-- C08: split gives the two ciphers of Split(), each only if asked for. -/
theorem C08_split (S : Suite) (s : SymState S.HB) (sp : Spec.Sym) (h : s.Rep sp) (want1 want2 : Bool)
    (hw : want1 = true ∨ want2 = true) :
    ∃ s' c1 c2, s.split S.CB want1 want2 true =
        .ok (.none, s', if want1 then some c1 else none, if want2 then some c2 else none) ∧
      c1.abs = (sp.split S.crypto).1 ∧ c2.abs = (sp.split S.crypto).2 ∧
      s'.cipher = none ∧ s'.h = s.h ∧ s'.id = s.id := by
  obtain ⟨⟨c, hc, habs⟩, hck, hh⟩ := h
  obtain ⟨ctx, he⟩ := (C31_hkdf S.hl s.ctx s.ck [] S.CB.keyLen S.CB.keyLen).1
    ⟨by rw [S.key32]; exact S.hash32, by rw [S.key32]; exact S.hash32⟩
  have h32 := S.hash32
  have hl1 : (specHkdf S.H S.HB.blockLen s.ck []).1.length = S.HB.hashLen := by
    simp [specHkdf, specHmac_length S.hl]
  have hl2 : (specHkdf S.H S.HB.blockLen s.ck []).2.length = S.HB.hashLen := by
    simp [specHkdf, specHmac_length S.hl]
  have a1 : ∀ d : CipherState, (d.initKey S.CB ((specHkdf S.H S.HB.blockLen s.ck []).1.take S.CB.keyLen)).2.abs =
      (sp.split S.crypto).1 := by
    intro d
    unfold CipherState.initKey
    rw [if_neg (by rw [List.length_take, hl1, S.key32]; omega)]
    simp [CipherState.abs, Spec.Sym.split, Spec.hkdf, Suite.crypto, hck, S.key32]
  have a2 : ∀ d : CipherState, (d.initKey S.CB ((specHkdf S.H S.HB.blockLen s.ck []).2.take S.CB.keyLen)).2.abs =
      (sp.split S.crypto).2 := by
    intro d
    unfold CipherState.initKey
    rw [if_neg (by rw [List.length_take, hl2, S.key32]; omega)]
    simp [CipherState.abs, Spec.Sym.split, Spec.hkdf, Suite.crypto, hck, S.key32]
  unfold SymState.split
  simp only [hc]
  rw [he]
  cases want1 <;> cases want2 <;>
    simp only [Bool.not_false, Bool.not_true, Bool.and_true, Bool.and_false, Bool.and_self,
      if_true, if_false, Bool.false_eq_true, Out.bind_ok, ne_eq, not_true, Out.pure_eq]
  · simp at hw
  · exact ⟨_, c.initKey S.CB ((specHkdf S.H S.HB.blockLen s.ck []).1.take S.CB.keyLen) |>.2, _, rfl,
      a1 _, a2 _, rfl, rfl, rfl⟩
  · exact ⟨_, _, c.initKey S.CB ((specHkdf S.H S.HB.blockLen s.ck []).2.take S.CB.keyLen) |>.2, rfl,
      a1 _, a2 _, rfl, rfl, rfl⟩
  · exact ⟨_, _, _, rfl, a1 _, a2 _, rfl, rfl, rfl⟩

/-! ## C09 -/

/-- C09: a failed decrypt_and_hash leaves handshake hash, chaining key, cipher (key, nonce) and
buffer as they were. (Only the scratch context of the hash object differs; every hash
computation resets it.) -/
theorem C09_failed_decrypt_inert (S : Suite) (s s' : SymState S.HB) (b b' : Buf) (e : Err)
    (h : s.decryptAndHash S.CB b = .ok (e, s', b')) (he : e ≠ .none) :
    s'.h = s.h ∧ s'.ck = s.ck ∧ s'.cipher = s.cipher ∧ s'.id = s.id ∧ b' = b := by
  unfold SymState.decryptAndHash at h
  cases hc : s.cipher with
  | none => simp [hc] at h; obtain ⟨-, rfl, rfl⟩ := h; exact ⟨rfl, rfl, hc, rfl, rfl⟩
  | some c =>
    simp only [hc] at h
    split at h
    · cases h; exact ⟨rfl, rfl, hc, rfl, rfl⟩
    · split at h
      · cases h; exact ⟨rfl, rfl, hc, rfl, rfl⟩
      · rw [Out.bind_eq_ok] at h
        obtain ⟨ct, _, h⟩ := h
        rw [Out.bind_eq_ok] at h
        obtain ⟨r, hr, h⟩ := h
        split at h
        · rename_i hre
          cases h
          have := C04_failed_decrypt_has_no_effect S.CB S.cl c s.h b r hr hre
          refine ⟨rfl, rfl, ?_, rfl, this.2⟩
          rw [this.1]
        · cases h; exact absurd rfl he

/-- C09: every failed operation other than encryption leaves the same things alone. -/
theorem C09_failed_encrypt_inert (S : Suite) (s s' : SymState S.HB) (b b' : Buf) (e : Err)
    (hb : b.size ≤ b.maxSize)
    (h : s.encryptAndHash S.CB b = .ok (e, s', b')) (he : e ≠ .none) :
    s'.h = s.h ∧ s'.ck = s.ck ∧ s'.cipher = s.cipher ∧ s'.id = s.id ∧ b' = b := by
  unfold SymState.encryptAndHash at h
  cases hc : s.cipher with
  | none => simp [hc] at h; obtain ⟨-, rfl, rfl⟩ := h; exact ⟨rfl, rfl, hc, rfl, rfl⟩
  | some c =>
    simp only [hc] at h
    rw [Out.bind_eq_ok] at h
    obtain ⟨r, hr, h⟩ := h
    obtain ⟨k1, k2⟩ := cipher_encrypt_spec S c s.h b hb
    by_cases hfit : b.size + c.overhead S.CB ≤ b.maxSize ∧ b.size + c.overhead S.CB ≤ maxPayload
    · have := k1 hfit
      split at this
      · obtain ⟨l, e1⟩ := this
        rw [hr] at e1
        cases e1
        simp at h
        obtain ⟨-, rfl, rfl⟩ := h
        exact ⟨rfl, rfl, rfl, rfl, rfl⟩
      · obtain ⟨r', e1, he1, _⟩ := this
        rw [hr] at e1
        cases e1
        rw [if_neg (by simp [he1]), Out.bind_eq_ok] at h
        obtain ⟨ct, _, h⟩ := h
        cases h
        exact absurd rfl he
    · obtain ⟨l, e1⟩ := k2 hfit
      rw [hr] at e1
      cases e1
      simp at h
      obtain ⟨-, rfl, rfl⟩ := h
      exact ⟨rfl, rfl, rfl, rfl, rfl⟩

/-! ## C10 -/

/-- C10: on a split object every further operation with valid arguments fails with
`INVALID_STATE` and changes nothing, and the MAC length is 0. -/
theorem C10_split_is_final (S : Suite) (s : SymState S.HB) (hs : s.cipher = none) (op : SOp) :
    (∃ e, op.step S.CB s = .ok (e, s) ∧
      (e = .invalidState ∨ (e = .invalidParam ∧ ∃ a, op = .split false false a))) ∧
    s.getMacLength S.CB = 0 := by
  refine ⟨?_, by simp [SymState.getMacLength, hs]⟩
  cases op with
  | mixKey i => exact ⟨.invalidState, by simp [SOp.step, SymState.mixKey, hs], Or.inl rfl⟩
  | mixHash i => exact ⟨.invalidState, by simp [SOp.step, SymState.mixHash, hs], Or.inl rfl⟩
  | encrypt b => exact ⟨.invalidState, by simp [SOp.step, SymState.encryptAndHash, hs], Or.inl rfl⟩
  | decrypt b => exact ⟨.invalidState, by simp [SOp.step, SymState.decryptAndHash, hs], Or.inl rfl⟩
  | split a b c =>
    by_cases h : (!a && !b) = true
    · refine ⟨.invalidParam, by simp only [SOp.step, SymState.split, h, if_true]; rfl, Or.inr ⟨rfl, ?_⟩⟩
      cases a <;> cases b <;> simp at h
      exact ⟨c, rfl⟩
    · exact ⟨.invalidState, by simp only [SOp.step, SymState.split, h, hs]; rfl, Or.inl rfl⟩

/-- C10: a successful split leaves the object in the final condition. -/
theorem C10_split_consumes (S : Suite) (s s' : SymState S.HB) (a b c : Bool)
    (h : (SOp.split a b c).step S.CB s = .ok (.none, s')) : s'.cipher = none := by
  simp only [SOp.step, Out.bind_eq_ok] at h
  obtain ⟨r, hr, h⟩ := h
  simp only [Out.pure_eq, Out.ok.injEq, Prod.mk.injEq] at h
  obtain ⟨h1, h2⟩ := h
  unfold SymState.split at hr
  split at hr
  · cases hr; cases h1
  · split at hr
    · cases hr; cases h1
    · rw [Out.bind_eq_ok] at hr
      obtain ⟨q, _, hr⟩ := hr
      repeat' split at hr
      all_goals cases hr
      all_goals first | (cases h1; done) | (rw [← h2])

/-- C10: once the cipher is gone it stays gone and every later call fails. -/
theorem final_run (S : Suite) : ∀ (ops : List SOp) (s s' : SymState S.HB) (log : List (SOp × Err)),
    s.cipher = none → SOp.run S.CB s ops = .ok (log, s') → ∀ p ∈ log, p.2 ≠ .none := by
  intro ops
  induction ops with
  | nil => intro s s' log _ h; cases h; simp
  | cons op ops ih =>
    intro s s' log hs h p hp
    obtain ⟨e, he, hcase⟩ := (C10_split_is_final S s hs op).1
    simp only [SOp.run, he, Out.bind_ok, Out.bind_eq_ok] at h
    obtain ⟨⟨es, s2⟩, hrun, h⟩ := h
    cases h
    rcases List.mem_cons.mp hp with rfl | hp
    · rcases hcase with rfl | ⟨rfl, _⟩ <;> simp
    · exact ih s _ es hs hrun p hp

/-- The entry of a history records a successful split. -/
def splitDone (p : SOp × Err) : Bool :=
  match p with
  | (.split _ _ _, .none) => true
  | _ => false

/-- C10: in every history at most one split succeeds. -/
theorem C10_at_most_one_split (S : Suite) : ∀ (ops : List SOp) (s s' : SymState S.HB)
    (log : List (SOp × Err)), SOp.run S.CB s ops = .ok (log, s') →
    (log.filter splitDone).length ≤ 1 := by
  intro ops
  induction ops with
  | nil => intro s s' log h; cases h; simp
  | cons op ops ih =>
    intro s s' log h
    simp only [SOp.run, Out.bind_eq_ok] at h
    obtain ⟨⟨e, s1⟩, hstep, ⟨es, s2⟩, hrun, h⟩ := h
    cases h
    dsimp only
    by_cases hsp : splitDone (op, e) = true
    · rw [List.filter_cons, if_pos hsp]
      have hnone : s1.cipher = none := by
        cases op <;> simp [splitDone] at hsp
        cases e <;> simp at hsp
        exact C10_split_consumes S s s1 _ _ _ hstep
      have hf := final_run S ops s1 s2 es hnone hrun
      have : es.filter splitDone = [] := by
        rw [List.filter_eq_nil_iff]
        intro p hp
        have := hf p hp
        obtain ⟨o, e⟩ := p
        cases o <;> cases e <;> simp_all [splitDone]
      rw [this]
      simp
    · rw [List.filter_cons, if_neg hsp]
      exact ih s1 s2 es hrun

/-! ## A suite that meets the hypotheses -/

/-- Example cipher (not part of the code base) with a 32-byte key and a two-byte MAC derived from
key, nonce, associated data and text. -/
def toyCipher32 : CipherBackend where
  cipherId := 0
  keyLen := 32
  macLen := 2
  enc k n ad pt := (.none, pt ++ [(k ++ ad ++ pt).foldl (fun a b => 3 * a + b) 7, n.toUInt8])
  dec k n ad ct :=
    if ct.drop (ct.length - 2) =
      [(k ++ ad ++ ct.take (ct.length - 2)).foldl (fun a b => 3 * a + b) 7, n.toUInt8] then (.none, ct)
    else (.macFailure, ct)

theorem toyCipher32_lawful : toyCipher32.Lawful where
  macLen_le := by decide
  enc_length := by simp [toyCipher32]
  dec_length := by intro k n ad ct; simp only [toyCipher32]; split <;> rfl
  enc_ok := by simp [toyCipher32]
  dec_inert := by intro k n ad ct; simp only [toyCipher32]; split <;> simp
  dec_enc := by intro k n ad pt; simp [toyCipher32]

/-- Example hash (not part of the code base) with 32-byte output. -/
def toyHash32 : HashBackend where
  hashId := 0
  hashLen := 32
  blockLen := 64
  Ctx := Bytes
  reset _ := []
  update c d := c ++ d
  finalize c := (c, List.replicate 30 (c.foldl (fun a b => 5 * a + b) 1) ++
    [c.foldl (· + ·) 1, UInt8.ofNat c.length])

theorem toyHash32_lawful :
    toyHash32.Lawful (fun m => List.replicate 30 (m.foldl (fun a b => 5 * a + b) 1) ++
      [m.foldl (· + ·) 1, UInt8.ofNat m.length]) where
  digest := by
    intro c chunks
    have h : ∀ (l : List Bytes) (a : Bytes),
        l.foldl (fun (c : Bytes) (d : Bytes) => c ++ d) a = a ++ l.flatten := by
      intro l
      induction l with
      | nil => intro a; simp
      | cons x xs ih => intro a; rw [List.foldl_cons, ih]; simp
    have h2 := h chunks []
    rw [List.nil_append] at h2
    exact congrArg (fun (m : Bytes) => List.replicate 30 (m.foldl (fun a b => 5 * a + b) 1) ++
      [m.foldl (· + ·) 1, UInt8.ofNat m.length]) h2
  length := by intro m; rfl
  hashLen_pos := by decide
  hashLen_le_block := by decide
  hashLen_le_max := by decide

/-- Example suite showing that the hypotheses of this file can be met. -/
def toySuite : Suite where
  CB := toyCipher32
  HB := toyHash32
  H := _
  cl := toyCipher32_lawful
  hl := toyHash32_lawful
  key32 := rfl
  hash32 := by decide

/-- A concrete run: create from a name, mix a key, encrypt, decrypt a forged message (fails),
then split. -/
def toyRun : Out (List Err) :=
  match SymState.newByName toySuite.CB toySuite.HB ([] : Bytes) (ascii "Noise_XX_25519_ChaChaPoly_BLAKE2s") with
  | .error e => .ok [e]
  | .ok s => do
    let (l, _) ← SOp.run toySuite.CB s
      [.mixKey [1, 2, 3], .mixHash [4], .encrypt ⟨[5, 6, 0, 0, 0], 2⟩, .decrypt ⟨[5, 6, 7], 3⟩,
       .encrypt ⟨[5, 6, 0], 2⟩, .split true true true, .split true true true, .mixHash [1]]
    .ok (l.map (·.2))

example : toyRun = .ok [.none, .none, .none, .macFailure, .invalidLength, .none, .invalidState,
    .invalidState] := by decide +kernel

end Noise
