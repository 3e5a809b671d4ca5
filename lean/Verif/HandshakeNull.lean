import Verif.HandshakeTwo
/-!
# C18: null ephemeral public keys from the peer
-/

namespace Noise

open Spec (Tok HSt)

namespace HS
variable {X : Setup}

theorem readE_null {s : X.H} (h : s.Sound X) (hc : s.sym.cipher.isSome = true) (r : DHState X.D.Ext)
    (hre : s.re = some r) (hn : X.D.nullsAllowed = true) (msg : Buf) (hm : msg.size ≤ msg.maxSize)
    (hl : r.pubLen ≤ msg.size) (hz : AllZero (msg.bytes.take r.pubLen)) :
    ∃ s' m', readE X.S.CB s msg = .ok (.invalidPublicKey, s', m') := by
  unfold readE
  rw [hre]
  dsimp only
  simp only [Buf.maxSize] at hm
  rw [if_neg (by omega), load_ok (by omega)]
  simp only [Out.bind_ok, List.drop_zero]
  have hz' : AllZero (msg.data.take r.pubLen) := by
    have e : msg.bytes.take r.pubLen = msg.data.take r.pubLen := by
      simp [Buf.bytes, List.take_take, Nat.min_eq_left hl]
    rwa [e] at hz
  generalize hb : List.take r.pubLen msg.data = b at hz'
  have hbl : b.length = r.pubLen := by rw [← hb]; simp; omega
  have hmx := (mixHash_next X.S s.sym b).2.2 hc
  generalize hmx' : s.sym.mixHash b = mx at hmx
  obtain ⟨e, sym⟩ := mx
  dsimp only at hmx ⊢
  rw [if_neg (by simp [hmx])]
  obtain ⟨e2, r', k1, k2, _, _, k3, _, k4⟩ := setPublicKey_eq X.WD r (h.re r hre) b
  have he2 : e2 = .none := k3 hbl (.inr ⟨hn, hz'⟩)
  obtain ⟨_, k5, k6, _⟩ := k4 he2
  rw [k1]
  simp only [Out.bind_ok]
  rw [if_neg (by simp [he2])]
  unfold readEKey
  rw [isNullPublicKey_eq X.WD r' k2]
  simp only [Out.bind_ok]
  rw [if_pos (by simp [k5, k6, hn, hz'])]
  exact ⟨_, _, rfl⟩

theorem readF_null {s : X.H} (h : s.Sound X) (l r : DHState X.G.Ext)
    (hlh : s.lh = some l) (hrh : s.rh = some r) (hn : X.G.nullsAllowed = true) (msg : Buf)
    (hm : msg.size ≤ msg.maxSize) (n : Nat)
    (hn' : n = (X.G.setRole r (some (if l.keyType = .noKey then .initiator else .responder))).pubLen +
      s.sym.getMacLength X.S.CB) (hl : n ≤ msg.size) (sym : X.Sy) (b : Buf)
    (hd : s.sym.decryptAndHash X.S.CB ⟨msg.bytes.take n, n⟩ = .ok (.none, sym, b))
    (hz : AllZero b.bytes) :
    ∃ s' m', readF X.S.CB s msg = .ok (.invalidPublicKey, s', m') := by
  unfold readF
  rw [hlh, hrh]
  dsimp only
  simp only [Buf.maxSize] at hm
  have hI := (X.WG.changeRole r (some (if l.keyType = .noKey then .initiator else .responder))
    (h.rh r hrh)).1
  change X.IG (X.G.setRole r _) at hI
  generalize X.G.setRole r (some (if l.keyType = .noKey then .initiator else .responder)) = q at hn' hI ⊢
  unfold readEncrypted
  dsimp only
  rw [← hn', if_neg (by omega), load_ok (by omega)]
  simp only [Out.bind_ok, List.drop_zero]
  have e : msg.bytes.take n = msg.data.take n := by
    simp [Buf.bytes, List.take_take, Nat.min_eq_left hl]
  have hsz := decrypt_next X.S s.sym ⟨msg.bytes.take n, n⟩ (by
    simp only [Buf.maxSize, Buf.bytes]; simp; omega)
  obtain ⟨e1, s1, b1, j1, _, j3, j4, _, j6⟩ := hsz
  rw [hd] at j1
  cases j1
  rw [e] at hd
  rw [hd]
  simp only [Out.bind_ok, ne_eq, not_true, if_false]
  have hbl := (j6 rfl).2
  simp only [Buf.maxSize] at j3 j4
  have hlen : b.size ≤ b.data.length := by rw [j3]; simp [Buf.bytes]; omega
  rw [load_ok (by omega)]
  simp only [Out.bind_ok, List.drop_zero]
  have hz' : AllZero (b.data.take b.size) := hz
  obtain ⟨e2, r', k1, k2, _, _, k3, _, k4⟩ := setPublicKey_eq X.WG q hI (b.data.take b.size)
  have he2 : e2 = .none := k3 (by
    simp only [List.length_take]
    have : b.size + s.sym.getMacLength X.S.CB = n := hbl
    omega) (.inr ⟨hn, hz'⟩)
  obtain ⟨_, k5, k6, _⟩ := k4 he2
  rw [k1]
  simp only [Out.bind_ok, Out.pure_eq]
  rw [if_neg (by simp [he2])]
  unfold readFCheck
  rw [isNullPublicKey_eq X.WG r' k2]
  simp only [Out.bind_ok]
  rw [if_pos (by simp [k5, k6, hn, hz'])]
  exact ⟨_, _, rfl⟩

/-- The loop fails on its first token: so does the whole call, with the same code. -/
theorem readMessage_fail (junk : Nat → Nat → UInt8) {s s1 : X.H} {e : Err} {msg m1 : Buf} (payload : Option Bytes)
    (ha : s.action = .read) (hm : msg.size ≤ msg.maxSize)
    (hl : readLoop X.S.CB junk s.tokens s msg = .ok (e, s1, m1)) (he : e ≠ .none) :
    ∃ s' b, s.readMessage X.S.CB junk msg payload = .ok (e, s', b, payload.map (⟨·, 0⟩)) ∧
      s'.action = .failed := by
  unfold readMessage
  rw [if_neg (by omega), if_neg (by simp [ha])]
  unfold HS.read
  rw [hl]
  simp only [Out.bind_ok]
  rw [if_pos he]
  simp only [Out.pure_eq, Out.bind_ok]
  simp only [Buf.maxSize] at hm
  rw [store_zero_len _ _ hm]
  simp only [Out.bind_ok]
  rw [if_pos he]
  exact ⟨_, _, rfl, rfl⟩

/-- C18 for the ephemeral key, which is always the first thing in a message that has one
(`C18_ephemeral_first`): if the bytes received for it are all zero then `read_message` returns
INVALID_PUBLIC_KEY and the handshake has failed. This holds in every state reached by any history, for
algorithms with a null public key (both curves); it is false for New Hope, see
`C18_fails_for_newhope`. -/
theorem C18_null_ephemeral_partial (s : X.H) (h : Reached X s) (ha : s.action = .read)
    (hn : X.D.nullsAllowed = true) (ts : Bytes) (ht : s.tokens = tokE :: ts)
    (r : DHState X.D.Ext) (hre : s.re = some r) (junk : Nat → Nat → UInt8) (msg : Buf)
    (hm : msg.size ≤ msg.maxSize) (hl : r.pubLen ≤ msg.size) (hz : AllZero (msg.bytes.take r.pubLen))
    (payload : Option Bytes) :
    ∃ s' b, s.readMessage X.S.CB junk msg payload =
      .ok (.invalidPublicKey, s', b, payload.map (⟨·, 0⟩)) ∧ s'.action = .failed := by
  obtain ⟨s1, m1, k⟩ := readE_null h.inv.sound (h.inv.cipher (by simp [ha])) r hre hn msg hm hl hz
  refine readMessage_fail junk payload ha hm (s1 := s1) (m1 := m1) ?_ (by simp)
  rw [ht]
  unfold readLoop readToken
  rw [if_neg (by decide), if_neg (by decide), if_pos rfl, k]
  rfl

/-- C18 for the hybrid ephemeral key, which always comes right after the ephemeral key: if what is
received for it decrypts to zero bytes then `read_message` returns INVALID_PUBLIC_KEY and the handshake
has failed. `s1` and `m1` are the state and the rest of the message after the ephemeral key. -/
theorem C18_null_hybrid_partial (s : X.H) (h : Reached X s) (ha : s.action = .read)
    (hn : X.G.nullsAllowed = true) (ts : Bytes) (ht : s.tokens = tokE :: tokF :: ts)
    (l r : DHState X.G.Ext) (hlh : s.lh = some l) (hrh : s.rh = some r)
    (junk : Nat → Nat → UInt8) (msg : Buf) (hm : msg.size ≤ msg.maxSize) (s1 : X.H) (m1 : Buf)
    (hE : readE X.S.CB s msg = .ok (.none, s1, m1)) (n : Nat)
    (hn' : n = (X.G.setRole r (some (if l.keyType = .noKey then .initiator else .responder))).pubLen +
      s1.sym.getMacLength X.S.CB) (hl : n ≤ m1.size) (sym : X.Sy) (b : Buf)
    (hd : s1.sym.decryptAndHash X.S.CB ⟨m1.bytes.take n, n⟩ = .ok (.none, sym, b))
    (hz : AllZero b.bytes) (payload : Option Bytes) :
    ∃ s' b, s.readMessage X.S.CB junk msg payload =
      .ok (.invalidPublicKey, s', b, payload.map (⟨·, 0⟩)) ∧ s'.action = .failed := by
  obtain ⟨x, i1, i2, _⟩ := readE_ok h.inv.sound msg hm
  rw [hE] at i1
  cases i1
  have keep : s1.lh = s.lh ∧ s1.rh = s.rh := by
    unfold readE at hE
    split at hE
    · cases hE
    · split at hE
      · cases hE
      · rw [Out.bind_eq_ok] at hE
        obtain ⟨b0, _, hE⟩ := hE
        dsimp only at hE
        split at hE
        · next hne =>
          simp only [Out.pure_eq, Out.ok.injEq, Prod.mk.injEq] at hE
          exact absurd hE.1 hne
        · rw [Out.bind_eq_ok] at hE
          obtain ⟨⟨e2, r2⟩, _, hE⟩ := hE
          dsimp only at hE
          split at hE
          · cases hE; exact ⟨rfl, rfl⟩
          · unfold readEKey at hE
            rw [Out.bind_eq_ok] at hE
            obtain ⟨nl, _, hE⟩ := hE
            split at hE
            · cases hE
            · rw [Out.bind_eq_ok] at hE
              obtain ⟨pk, _, hE⟩ := hE
              rw [Out.bind_eq_ok] at hE
              obtain ⟨⟨e3, r3⟩, _, hE⟩ := hE
              cases hE; exact ⟨rfl, rfl⟩
  let s2 : X.H := { s1 with tokens := tokF :: ts }
  have hs2 : s2.Sound X := i2.sound.congr rfl rfl rfl rfl rfl rfl rfl rfl rfl
  obtain ⟨s3, m3, k⟩ := readF_null (s := s2) hs2 l r (keep.1.trans hlh) (keep.2.trans hrh) hn m1 i2.size
    n hn' hl sym b hd hz
  refine readMessage_fail junk payload ha hm (s1 := s3) (m1 := m3) ?_ (by simp)
  rw [ht]
  unfold readLoop readToken
  rw [if_neg (by decide), if_neg (by decide), if_pos rfl, hE]
  simp only [Out.bind_ok, ne_eq, not_true, if_false]
  unfold readLoop readToken
  rw [if_neg (by decide), if_neg (by decide), if_neg (by decide), if_neg (by decide), if_pos rfl]
  change (do let (err, s', msg') ← readF X.S.CB s2 m1; _) = _
  rw [k]
  rfl

end HS

/-- Every message of a specification pattern has its ephemeral key first, if any, and its hybrid
ephemeral key, if any, right after that. -/
def ephemeralFirst (p : Spec.Pattern) : Bool := p.msgs.all fun m =>
  !(m.drop 1).contains .e && !(m.drop 2).contains .f && (!m.contains .f || m.take 2 == [.e, .f])

/-- The pattern tables transmit ephemeral keys only where `C18_null_ephemeral_partial` and
`C18_null_hybrid_partial` look for them. -/
theorem C18_ephemeral_first {id : Int} {t : Bytes} {p : Spec.Pattern} (h : patternLookup id = some t)
    (hp : specPattern id = some p) : ephemeralFirst p = true := by
  have key : ∀ e ∈ patternTable, (match specPattern e.1 with
      | some p => ephemeralFirst p
      | none => true) = true := by decide +kernel
  have := key _ (patternLookup_mem h)
  rw [hp] at this
  exact this

/-! ## Where it fails -/

/-- A setup with a curve, and New Hope as hybrid algorithm. -/
def nullNewHope : Setup := newHopeSetup toySuite toyCurve toyNewHope toyCurve_sized toyNewHope_sized

/-- The codes of a history of an object created by name. -/
def codes (X : Setup) (ctx0 : X.S.HB.Ctx) (name : String) (role : Role) (ops : List (HOp X.D X.G)) :
    Out (List Err × List Action) :=
  match (HS.newByName X.S.CB ctx0 (ascii name) role : Out (Except Err X.H)) with
  | .ub => .ub
  | .ok (.error e) => .ok ([e], [])
  | .ok (.ok s) => do
    let (os, s') ← HOp.run X.S.CB s ops
    .ok (os.map (·.err), [s'.action])

/-- C18 is false for New Hope: a responder accepts a first message whose hybrid ephemeral key is 1824
zero bytes (`nulls_allowed` is 0 for New Hope, so `noise_dhstate_is_null_public_key` is always false). -/
theorem C18_fails_for_newhope :
    codes nullNewHope ([] : Bytes) "Noise_NNhfs_25519+NewHope_ChaChaPoly_BLAKE2s" .responder
      [.start, .read (fun _ _ => 0) ⟨[1, 2] ++ List.replicate 1824 0, 1826⟩ none] =
    .ok ([.none, .none], [.write]) := by decide +kernel

/-- A null ephemeral key is refused, but kept: `fallback` is then allowed, and the handshake goes on
with it. (Diffie-Hellman with the null key gives zero bytes whatever the private key is, see
`C25_null_public_key`.) -/
theorem C18_fallback_keeps_null_key :
    toyHistory "Noise_IK_25519_ChaChaPoly_BLAKE2s" .responder
      [.localStatic (.setKeypairPrivate [3, 4]), .start,
       .read (fun _ _ => 0) ⟨List.replicate 60 0, 60⟩ none,
       .fallbackTo patternXXfallback (List.replicate 256 9), .start,
       .write (fun _ i => UInt8.ofNat i) (fun _ _ => 0) (List.replicate 90 0) (some [1, 2])] =
    .ok ([.none, .none, .invalidPublicKey, .none, .none, .none], [.read]) := by decide +kernel

/-! ## Concrete cases -/

/-- A null ephemeral key, and a null hybrid key (not encrypted, and in the case of PSK encrypted). -/
example : toyHistory "Noise_XX_25519_ChaChaPoly_BLAKE2s" .responder
    [.localStatic (.setKeypairPrivate [3, 4]), .start, .read (fun _ _ => 0) ⟨[0, 0, 7], 3⟩ none] =
    .ok ([.none, .none, .invalidPublicKey], [.failed]) := by decide +kernel

example : toyHistory "Noise_NNhfs_25519+448_ChaChaPoly_BLAKE2s" .responder
    [.start, .read (fun _ _ => 0) ⟨[1, 3, 0, 0, 7], 5⟩ none] =
    .ok ([.none, .invalidPublicKey], [.failed]) := by decide +kernel

end Noise
