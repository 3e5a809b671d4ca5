import Verif.HandshakeSafe
import Verif.HandshakeSpec
/-!
# The handshake layer refines the Noise specification: tokens and messages
-/

namespace Noise

open Spec (Tok HSt Res)

/-- The role an object must have to generate the first / the second public key of an exchange. -/
def genRole (second : Bool) : Role := if second then .responder else .initiator

/-- The public key a possibly absent object holds. -/
def pubOf {X : Type} : Option (DHState X) → Option Bytes
  | none => none
  | some r => if r.keyType = .noKey then none else some r.pubKey

/-- A back end implements the specification's Diffie-Hellman functions `P`. `KPof s k`: the object
holds the key pair `k`. `FixedOf f g`: copying the object `f` instead of generating gives `g`.
`any = true` if roles do not matter. Not a definition of the code base. -/
structure Realizes (B : DHBackend) (Inv : DHState B.Ext → Prop) (L : Option Role → Nat) (any : Bool)
    (P : Spec.DH) where
  KPof : DHState B.Ext → P.KP → Prop
  FixedOf : DHState B.Ext → (Option Bytes → P.KP) → Prop
  keypair : ∀ s k, KPof s k → s.keyType = .keypair
  pub : ∀ s k, Inv s → KPof s k → s.pubKey = P.pub k
  len : ∀ b, L (some (genRole b)) = P.len b
  anyLen : any = true → ∀ r b, L r = P.len b
  validate : ∀ s pb, B.validate s pb = .none
  reject : ∀ pb, P.reject pb = decide (B.nullsAllowed = true ∧ AllZero pb)
  anyGen : any = true → ∀ o o' rnd, P.gen o rnd = P.gen o' rnd
  anyFixed : any = true → ∀ f g o o', FixedOf f g → g o = g o'
  gen : ∀ rnd l remote, Inv l → (∀ r, remote = some r → Inv r) →
    (any = true ∨ (l.role = some (genRole (pubOf remote).isSome) ∧
      ∀ r, remote = some r → r.keyType ≠ .noKey → r.role = some .initiator)) →
    ∃ l', B.generateDependent rnd l (remote.map .same) = .ok (.none, l') ∧
      KPof l' (P.gen (pubOf remote) rnd)
  fixed : ∀ f g l remote, Inv l → Inv f → (∀ r, remote = some r → Inv r) → FixedOf f g →
    (any = true ∨ (l.role = some (genRole (pubOf remote).isSome) ∧
      ∀ r, remote = some r → r.keyType ≠ .noKey → r.role = some .initiator)) →
    ∃ l', B.copy { l with keyType := f.keyType } f remote = .ok (.none, l') ∧
      KPof l' (g (pubOf remote))
  calcSpec : ∀ p k q shared, Inv p → KPof p k → Inv q → q.keyType ≠ .noKey →
    shared.length = B.sharedLen →
    (any = true ∨ ∃ b, p.role = some (genRole b) ∧ q.role = some (genRole (!b))) →
    ∃ e sh p', B.calculateApi p (.same q) shared = .ok (e, sh, p') ∧ KPof p' k ∧
      (match P.dh k q.pubKey with
       | some z => e = .none ∧ sh = z
       | none => e ≠ .none)
  calcSame : ∀ p q shared e sh p', (any = true ∨ p.role = some .initiator) →
    B.calculateApi p (.same q) shared = .ok (e, sh, p') → p' = p

/-- The main back end and the hybrid one implement `P` and `Q`, and their public keys are small. Not a
definition of the code base. -/
structure Real (X : Setup) (P Q : Spec.DH) where
  RD : Realizes X.D X.ID X.LD true P
  anyG : Bool
  RG : Realizes X.G X.IG X.LG anyG Q
  smallD : ∀ b, P.len b + X.S.CB.macLen ≤ 65535
  smallG : ∀ b, Q.len b + X.S.CB.macLen ≤ 65535

/-- The key generator of a call: random generation, or the fixed key pair (used by test vectors). -/
def GenOf {B : DHBackend} {Inv : DHState B.Ext → Prop} {L : Option Role → Nat} {any : Bool}
    {P : Spec.DH} (R : Realizes B Inv L any P) (fixed : Option (DHState B.Ext)) (rnd : Nat → UInt8)
    (g : Option Bytes → P.KP) : Prop :=
  match fixed with
  | none => g = fun o => P.gen o rnd
  | some f => R.FixedOf f g

namespace HS

variable {X : Setup} {P Q : Spec.DH}

/-- The object's key variables are those of the specification state. -/
structure Rel (R : Real X P Q) (s : X.H) (st : HSt P Q) : Prop where
  sound : s.Sound X
  sym : s.sym.Rep st.sym
  role : st.role = s.role
  psk : st.psk = decide (s.sym.id.prefixId = prefixPsk)
  ls : ∀ k, st.s = some k → ∃ d, s.ls = some d ∧ R.RD.KPof d k
  le : ∀ k, st.e = some k → ∃ d, s.le = some d ∧ R.RD.KPof d k
  lh : ∀ k, st.f = some k → ∃ d, s.lh = some d ∧ R.RG.KPof d k
  lhNone : st.f = none → ∀ d, s.lh = some d → d.keyType = .noKey
  rs : ∀ pb, st.rs = some pb → ∃ d, s.rs = some d ∧ d.keyType ≠ .noKey ∧ d.pubKey = pb
  re : ∀ pb, st.re = some pb → ∃ d, s.re = some d ∧ d.keyType ≠ .noKey ∧ d.pubKey = pb
  rh : ∀ pb, st.rf = some pb → ∃ d, s.rh = some d ∧ d.keyType ≠ .noKey ∧ d.pubKey = pb
  rhNone : st.rf = none → ∀ d, s.rh = some d → d.keyType = .noKey
  lhRole : ∀ d, s.lh = some d → st.f.isSome = true → st.rf = none → d.role = some .initiator
  rhRole : ∀ d, s.rh = some d → st.rf.isSome = true → st.f = none → d.role = some .initiator
  bothRole : ∀ d q, s.lh = some d → s.rh = some q → st.f.isSome = true → st.rf.isSome = true →
    ∃ b, d.role = some (genRole b) ∧ q.role = some (genRole (!b))

/-- The two states differ only in the symmetric state. -/
theorem Rel.setSym {R : Real X P Q} {s s' : X.H} {st : HSt P Q} (h : Rel R s st) {sp : Spec.Sym}
    (hs : s'.Sound X) (hsym : s'.sym.Rep sp) (hid : s'.sym.id = s.sym.id) (h1 : s'.role = s.role)
    (h2 : s'.ls = s.ls) (h3 : s'.le = s.le) (h4 : s'.lh = s.lh) (h5 : s'.rs = s.rs)
    (h6 : s'.re = s.re) (h7 : s'.rh = s.rh) : Rel R s' { st with sym := sp } where
  sound := hs
  sym := hsym
  role := by rw [h1]; exact h.role
  psk := by rw [hid]; exact h.psk
  ls := by rw [h2]; exact h.ls
  le := by rw [h3]; exact h.le
  lh := by rw [h4]; exact h.lh
  lhNone := by rw [h4]; exact h.lhNone
  rs := by rw [h5]; exact h.rs
  re := by rw [h6]; exact h.re
  rh := by rw [h7]; exact h.rh
  rhNone := by rw [h7]; exact h.rhNone
  lhRole := by rw [h4]; exact h.lhRole
  rhRole := by rw [h7]; exact h.rhRole
  bothRole := by rw [h4, h7]; exact h.bothRole

theorem spec_encrypt_length (S : Suite) {sp sp' : Spec.Sym} {pt ct : Bytes}
    (h : sp.encryptAndHash S.crypto pt = some (sp', ct)) :
    ct.length = pt.length + sp.overhead S.crypto := by
  unfold Spec.Sym.encryptAndHash Spec.Cipher.encryptWithAd at h
  unfold Spec.Sym.overhead
  cases hk : sp.c.k with
  | none => simp [hk] at h; simp [← h.2]
  | some k =>
    simp only [hk] at h
    by_cases hn : sp.c.n = 2 ^ 64 - 1
    · simp [hn] at h
    · rw [if_neg hn] at h
      simp only [Option.some.injEq, Prod.mk.injEq] at h
      rw [← h.2]
      simp [Suite.crypto, S.cl.enc_length]

theorem spec_decrypt_length (S : Suite) {sp sp' : Spec.Sym} {pt ct : Bytes}
    (h : sp.decryptAndHash S.crypto ct = some (sp', pt)) :
    pt.length + sp.overhead S.crypto = ct.length := by
  unfold Spec.Sym.decryptAndHash Spec.Cipher.decryptWithAd at h
  unfold Spec.Sym.overhead
  cases hk : sp.c.k with
  | none => simp [hk] at h; simp [← h.2]
  | some k =>
    simp only [hk] at h
    by_cases hn : sp.c.n = 2 ^ 64 - 1
    · simp [hn] at h
    · rw [if_neg hn] at h
      simp only [Suite.crypto] at h
      by_cases hl : ct.length < S.CB.macLen
      · simp [hl] at h
      · simp only [hl, if_false] at h
        by_cases he : (S.CB.dec k (UInt64.ofNat sp.c.n) sp.h ct).1 = .none
        · simp only [he, if_true, Option.some.injEq, Prod.mk.injEq] at h
          rw [← h.2]
          have := S.cl.dec_length k (UInt64.ofNat sp.c.n) sp.h ct
          simp [Suite.crypto, this]; omega
        · simp [he] at h

theorem getMac_overhead (S : Suite) {s : SymState S.HB} {sp : Spec.Sym} (h : s.Rep sp) :
    s.getMacLength S.CB = sp.overhead S.crypto := C08_mac_length S s sp h

theorem writeEncrypted_rel {Y : Type} (s : X.H) (sp : Spec.Sym) (h : s.sym.Rep sp) (l : DHState Y)
    (hl : l.pubLen ≤ l.pub.length) (hs : l.pubLen + X.S.CB.macLen ≤ 65535) (rest : Bytes) :
    match sp.encryptAndHash X.S.crypto l.pubKey with
    | some (sp', ct) =>
      (ct.length ≤ rest.length → ∃ sym', writeEncrypted X.S.CB s l rest =
          .ok (.none, { s with sym := sym' }, ct ++ rest.drop ct.length, ct.length) ∧ sym'.Rep sp' ∧
          sym'.id = s.sym.id) ∧
      (rest.length < ct.length → ∃ r, writeEncrypted X.S.CB s l rest = .ok r ∧ r.1 ≠ .none)
    | none => ∃ r, writeEncrypted X.S.CB s l rest = .ok r ∧ r.1 ≠ .none := by
  have hmac := getMac_overhead X.S h
  have hpk : l.pubKey.length = l.pubLen := by simp [DHState.pubKey]; omega
  have hov : sp.overhead X.S.crypto ≤ X.S.CB.macLen := by
    unfold Spec.Sym.overhead; simp only [Suite.crypto]; split <;> omega
  by_cases hc : rest.length < l.pubLen + s.sym.getMacLength X.S.CB
  · have hu : writeEncrypted X.S.CB s l rest = .ok (.invalidLength, s, rest, 0) := by
      unfold writeEncrypted; rw [if_pos hc]
    split
    · next sp' ct he =>
      have := spec_encrypt_length X.S he
      exact ⟨fun hle => by omega, fun _ => ⟨_, hu, by simp⟩⟩
    · exact ⟨_, hu, by simp⟩
  · have hu : writeEncrypted X.S.CB s l rest = (do
        let (err, sym, b) ← s.sym.encryptAndHash X.S.CB
          { data := l.pubKey ++ rest.drop l.pubLen, size := l.pubLen }
        pure (err, { s with sym := sym }, b.data, b.size)) := by
      unfold writeEncrypted
      rw [if_neg hc, load_ok (by omega)]
      simp only [Out.bind_ok]
      rw [store_at_zero _ _ (by simp; omega)]
      simp only [Out.bind_ok, List.drop_zero]
      rw [show (List.take l.pubLen l.pub).length = l.pubLen by simp; omega]
      rfl
    obtain ⟨k1, _⟩ := C08_encrypt_and_hash X.S s.sym sp h
      ⟨l.pubKey ++ rest.drop l.pubLen, l.pubLen⟩ (by simp [Buf.maxSize, hpk])
    have hb : Buf.bytes ⟨l.pubKey ++ rest.drop l.pubLen, l.pubLen⟩ = l.pubKey := by
      simp only [Buf.bytes]
      rw [List.take_append_of_le_length (by omega)]
      exact List.take_of_length_le (by omega)
    have k1 := k1 (by simp only [Buf.maxSize, List.length_append, hpk, List.length_drop]; omega)
    rw [hb] at k1
    rw [hu]
    cases he : sp.encryptAndHash X.S.crypto l.pubKey with
    | none =>
      rw [he] at k1
      obtain ⟨s', k1, _⟩ := k1
      rw [k1]
      exact ⟨_, rfl, by simp⟩
    | some x =>
      obtain ⟨sp', ct⟩ := x
      rw [he] at k1
      obtain ⟨s', k1, k2, k3, k4⟩ := k1
      rw [k1]
      refine ⟨fun _ => ⟨s', ?_, k2, k4⟩, fun hlt => by dsimp only at k3; omega⟩
      simp only [Out.bind_ok, Out.pure_eq, Out.ok.injEq, Prod.mk.injEq, true_and]
      refine ⟨?_, trivial⟩
      dsimp only at k3
      rw [List.drop_append, List.drop_of_length_le (by omega), hpk, List.drop_drop]
      simp only [List.nil_append]
      congr 2; omega

theorem genKey_rel {B : DHBackend} {Inv : DHState B.Ext → Prop} {L : Option Role → Nat} {any : Bool}
    {P : Spec.DH} (R : Realizes B Inv L any P) (fixed : Option (DHState B.Ext)) (rnd : Nat → UInt8)
    (g : Option Bytes → P.KP) (hg : GenOf R fixed rnd g) (l : DHState B.Ext)
    (remote : Option (DHState B.Ext)) (hl : Inv l) (hf : ∀ f, fixed = some f → Inv f)
    (hr : ∀ r, remote = some r → Inv r)
    (hrole : any = true ∨ (l.role = some (genRole (pubOf remote).isSome) ∧
      ∀ r, remote = some r → r.keyType ≠ .noKey → r.role = some .initiator)) :
    ∃ l', genKey B rnd l fixed remote = .ok (.none, l') ∧ R.KPof l' (g (pubOf remote)) := by
  unfold genKey
  cases fixed with
  | none =>
    cases hg
    exact R.gen rnd l remote hl hr hrole
  | some f => exact R.fixed f g l remote hl (hf f rfl) hr hg hrole

theorem gen_any {B : DHBackend} {Inv : DHState B.Ext → Prop} {L : Option Role → Nat}
    {P : Spec.DH} (R : Realizes B Inv L true P) (fixed : Option (DHState B.Ext)) (rnd : Nat → UInt8)
    (g : Option Bytes → P.KP) (hg : GenOf R fixed rnd g) (o o' : Option Bytes) : g o = g o' := by
  cases fixed with
  | none => cases hg; exact R.anyGen rfl o o' rnd
  | some f => exact R.anyFixed rfl f g o o' hg

/-- `mixDh` computes `MixKey(DH(..))`. -/
theorem mixDh_rel {B : DHBackend} {Inv : DHState B.Ext → Prop} {L : Option Role → Nat} {any : Bool}
    {P : Spec.DH} (S : Suite) (R : Realizes B Inv L any P) (sym : SymState S.HB) (sp : Spec.Sym)
    (hs : sym.Rep sp) (priv pub : Option (DHState B.Ext)) (k : Option P.KP) (pb : Option Bytes)
    (hk : ∀ x, k = some x → ∃ d, priv = some d ∧ Inv d ∧ R.KPof d x)
    (hp : ∀ x, pb = some x → ∃ d, pub = some d ∧ Inv d ∧ d.keyType ≠ .noKey ∧ d.pubKey = x)
    (hrole : any = true ∨ ∀ d q, priv = some d → pub = some q → k.isSome = true → pb.isSome = true →
      ∃ b, d.role = some (genRole b) ∧ q.role = some (genRole (!b)))
    (junk : Nat → UInt8) :
    match HSt.mixDH S.crypto P sp k pb with
    | .ok sp' => ∃ sym' p', mixDh S.CB B sym priv pub junk = .ok (.none, sym', some p') ∧
        sym'.Rep sp' ∧ sym'.id = sym.id ∧ ∀ x, k = some x → R.KPof p' x
    | .fail => ∃ r, mixDh S.CB B sym priv pub junk = .ok r ∧ r.1 ≠ .none
    | .stuck => True := by
  cases k with
  | none => trivial
  | some k =>
    cases pb with
    | none => trivial
    | some pb =>
      obtain ⟨p, hp1, hp2, hp3⟩ := hk k rfl
      obtain ⟨q, hq1, hq2, hq3, hq4⟩ := hp pb rfl
      subst hp1 hq1 hq4
      obtain ⟨e, sh, p', k1, k2, k3⟩ := R.calcSpec p k q (randBytes junk B.sharedLen) hp2 hp3 hq2 hq3
        (by simp) (by
          rcases hrole with h | h
          · exact .inl h
          · exact .inr (h p q rfl rfl rfl rfl))
      obtain ⟨sym', m1, m2, m3⟩ := C08_mix_key S sym sp hs sh
      have hm : mixDh S.CB B sym (some p) (some q) junk = .ok (e, sym', some p') := by
        simp only [mixDh, k1, Out.bind_ok, m1, Out.pure_eq]
      unfold HSt.mixDH
      dsimp only
      cases hd : P.dh k q.pubKey with
      | none => rw [hd] at k3; exact ⟨_, hm, k3⟩
      | some z =>
        rw [hd] at k3
        obtain ⟨k3, k4⟩ := k3
        subst k3 k4
        exact ⟨sym', p', hm, m2, m3, fun x hx => by cases hx; exact k2⟩

/-- The Diffie-Hellman tokens. -/
theorem dhToken_rel {R : Real X P Q} {s : X.H} {st : HSt P Q} (h : Rel R s st) (t : UInt8) (k : Tok)
    (hd : decodeTok t = some k) (h1 : t ≠ tokE) (h2 : t ≠ tokS) (h3 : t ≠ tokF)
    (hp : s.pres.priv s.role t = true) (junk : Nat → UInt8) :
    match HSt.dhTok X.S.crypto k st with
    | .ok st' => ∃ s', dhToken X.S.CB junk t s = .ok (.none, s') ∧ Rel R s' st' ∧ s.Frame s' ∧
        s'.action = s.action ∧ s'.tokens = s.tokens
    | .fail => ∃ r, dhToken X.S.CB junk t s = .ok r ∧ r.1 ≠ .none
    | .stuck => True := by
  obtain ⟨e0, s0, t1, t2, t3, t4, t5, _⟩ := dhToken_ok h.sound t hp junk
  have base : ∀ (k : Option P.KP) (pb : Option Bytes) (priv pub : Option (DHState X.D.Ext)),
      (∀ x, k = some x → ∃ d, priv = some d ∧ X.ID d ∧ R.RD.KPof d x) →
      (∀ x, pb = some x → ∃ d, pub = some d ∧ X.ID d ∧ d.keyType ≠ .noKey ∧ d.pubKey = x) →
      match HSt.mixDH X.S.crypto P st.sym k pb with
      | .ok sp' => ∃ sym' p', mixDh X.S.CB X.D s.sym priv pub junk = .ok (.none, sym', some p') ∧
          sym'.Rep sp' ∧ sym'.id = s.sym.id ∧ ∀ x, k = some x → R.RD.KPof p' x
      | .fail => ∃ r, mixDh X.S.CB X.D s.sym priv pub junk = .ok r ∧ r.1 ≠ .none
      | .stuck => True := by
    intro k pb priv pub hk hp
    exact mixDh_rel X.S R.RD s.sym st.sym h.sym priv pub k pb hk hp (.inl rfl) junk
  have hls : ∀ x, st.s = some x → ∃ d, s.ls = some d ∧ X.ID d ∧ R.RD.KPof d x := by
    intro x hx; obtain ⟨d, d1, d2⟩ := h.ls x hx; exact ⟨d, d1, h.sound.ls d d1, d2⟩
  have hle : ∀ x, st.e = some x → ∃ d, s.le = some d ∧ X.ID d ∧ R.RD.KPof d x := by
    intro x hx; obtain ⟨d, d1, d2⟩ := h.le x hx; exact ⟨d, d1, h.sound.le d d1, d2⟩
  have hrs : ∀ x, st.rs = some x → ∃ d, s.rs = some d ∧ X.ID d ∧ d.keyType ≠ .noKey ∧ d.pubKey = x := by
    intro x hx; obtain ⟨d, d1, d2⟩ := h.rs x hx; exact ⟨d, d1, h.sound.rs d d1, d2⟩
  have hre : ∀ x, st.re = some x → ∃ d, s.re = some d ∧ X.ID d ∧ d.keyType ≠ .noKey ∧ d.pubKey = x := by
    intro x hx; obtain ⟨d, d1, d2⟩ := h.re x hx; exact ⟨d, d1, h.sound.re d d1, d2⟩
  -- a token that uses the local ephemeral key
  have useLe : ∀ (pb : Option Bytes) (pub : Option (DHState X.D.Ext)),
      (∀ x, pb = some x → ∃ d, pub = some d ∧ X.ID d ∧ d.keyType ≠ .noKey ∧ d.pubKey = x) →
      dhToken X.S.CB junk t s = (do
        let (err, sym, p) ← mixDh X.S.CB X.D s.sym s.le pub junk
        pure (err, { s with sym := sym, le := p })) →
      HSt.dhSym X.S.crypto k st = HSt.mixDH X.S.crypto P st.sym st.e pb →
      match HSt.dhTok X.S.crypto k st with
      | .ok st' => ∃ s', dhToken X.S.CB junk t s = .ok (.none, s') ∧ Rel R s' st' ∧ s.Frame s' ∧
          s'.action = s.action ∧ s'.tokens = s.tokens
      | .fail => ∃ r, dhToken X.S.CB junk t s = .ok r ∧ r.1 ≠ .none
      | .stuck => True := by
    intro pb pub hpb hdt hds
    have hb := base st.e pb s.le pub hle hpb
    unfold HSt.dhTok
    rw [hds]
    cases hm : HSt.mixDH X.S.crypto P st.sym st.e pb with
    | stuck => trivial
    | fail =>
      rw [hm] at hb
      obtain ⟨⟨e, y, p⟩, b1, b2⟩ := hb
      rw [hdt, b1]
      exact ⟨_, rfl, b2⟩
    | ok sp' =>
      rw [hm] at hb
      obtain ⟨sym', p', b1, b2, b3, b4⟩ := hb
      have hx : dhToken X.S.CB junk t s = .ok (.none, { s with sym := sym', le := some p' }) := by
        rw [hdt, b1]; rfl
      have := t1.symm.trans hx
      cases this
      refine ⟨_, hx, ?_, t3, rfl, rfl⟩
      exact {
        sound := t2, sym := b2, role := h.role, psk := by simp only [b3]; exact h.psk
        ls := h.ls, le := fun x hx => ⟨p', rfl, b4 x hx⟩, lh := h.lh, lhNone := h.lhNone
        rs := h.rs, re := h.re, rh := h.rh, rhNone := h.rhNone
        lhRole := h.lhRole, rhRole := h.rhRole, bothRole := h.bothRole }
  have useLs : ∀ (pb : Option Bytes) (pub : Option (DHState X.D.Ext)),
      (∀ x, pb = some x → ∃ d, pub = some d ∧ X.ID d ∧ d.keyType ≠ .noKey ∧ d.pubKey = x) →
      dhToken X.S.CB junk t s = (do
        let (err, sym, p) ← mixDh X.S.CB X.D s.sym s.ls pub junk
        pure (err, { s with sym := sym, ls := p })) →
      HSt.dhSym X.S.crypto k st = HSt.mixDH X.S.crypto P st.sym st.s pb →
      match HSt.dhTok X.S.crypto k st with
      | .ok st' => ∃ s', dhToken X.S.CB junk t s = .ok (.none, s') ∧ Rel R s' st' ∧ s.Frame s' ∧
          s'.action = s.action ∧ s'.tokens = s.tokens
      | .fail => ∃ r, dhToken X.S.CB junk t s = .ok r ∧ r.1 ≠ .none
      | .stuck => True := by
    intro pb pub hpb hdt hds
    have hb := base st.s pb s.ls pub hls hpb
    unfold HSt.dhTok
    rw [hds]
    cases hm : HSt.mixDH X.S.crypto P st.sym st.s pb with
    | stuck => trivial
    | fail =>
      rw [hm] at hb
      obtain ⟨⟨e, y, p⟩, b1, b2⟩ := hb
      rw [hdt, b1]
      exact ⟨_, rfl, b2⟩
    | ok sp' =>
      rw [hm] at hb
      obtain ⟨sym', p', b1, b2, b3, b4⟩ := hb
      have hx : dhToken X.S.CB junk t s = .ok (.none, { s with sym := sym', ls := some p' }) := by
        rw [hdt, b1]; rfl
      have := t1.symm.trans hx
      cases this
      refine ⟨_, hx, ?_, t3, rfl, rfl⟩
      exact {
        sound := t2, sym := b2, role := h.role, psk := by simp only [b3]; exact h.psk
        ls := fun x hx => ⟨p', rfl, b4 x hx⟩, le := h.le, lh := h.lh, lhNone := h.lhNone
        rs := h.rs, re := h.re, rh := h.rh, rhNone := h.rhNone
        lhRole := h.lhRole, rhRole := h.rhRole, bothRole := h.bothRole }
  unfold decodeTok at hd
  rw [if_neg h1, if_neg h2, if_neg h3] at hd
  by_cases c1 : t = tokEe
  · rw [if_pos c1] at hd; cases hd
    refine useLe st.re s.re hre ?_ ?_
    · unfold dhToken; rw [if_pos c1]; rfl
    · unfold HSt.dhSym; rfl
  rw [if_neg c1] at hd
  by_cases c2 : t = tokEs
  · rw [if_pos c2] at hd; cases hd
    cases hr : s.role with
    | initiator =>
      refine useLe st.rs s.rs hrs ?_ ?_
      · exact (show dhToken X.S.CB junk t s = dhLeRs X.S.CB junk s by unfold dhToken; rw [if_neg c1, if_pos c2, hr])
      · unfold HSt.dhSym; rw [h.role, hr]
    | responder =>
      refine useLs st.re s.re hre ?_ ?_
      · exact (show dhToken X.S.CB junk t s = dhLsRe X.S.CB junk s by unfold dhToken; rw [if_neg c1, if_pos c2, hr])
      · unfold HSt.dhSym; rw [h.role, hr]
  rw [if_neg c2] at hd
  by_cases c3 : t = tokSe
  · rw [if_pos c3] at hd; cases hd
    cases hr : s.role with
    | initiator =>
      refine useLs st.re s.re hre ?_ ?_
      · exact (show dhToken X.S.CB junk t s = dhLsRe X.S.CB junk s by unfold dhToken; rw [if_neg c1, if_neg c2, if_pos c3, hr])
      · unfold HSt.dhSym; rw [h.role, hr]
    | responder =>
      refine useLe st.rs s.rs hrs ?_ ?_
      · exact (show dhToken X.S.CB junk t s = dhLeRs X.S.CB junk s by unfold dhToken; rw [if_neg c1, if_neg c2, if_pos c3, hr])
      · unfold HSt.dhSym; rw [h.role, hr]
  rw [if_neg c3] at hd
  by_cases c4 : t = tokSs
  · rw [if_pos c4] at hd; cases hd
    refine useLs st.rs s.rs hrs ?_ ?_
    · unfold dhToken; rw [if_neg c1, if_neg c2, if_neg c3, if_pos c4]; rfl
    · unfold HSt.dhSym; rfl
  rw [if_neg c4] at hd
  by_cases c5 : t = tokFf
  · rw [if_pos c5] at hd; cases hd
    have hdt : dhToken X.S.CB junk t s = dhFF X.S.CB junk s := by
      unfold dhToken; rw [if_neg c1, if_neg c2, if_neg c3, if_neg c4, if_pos c5]
    have hb := mixDh_rel X.S R.RG s.sym st.sym h.sym s.lh s.rh st.f st.rf
      (by intro x hx; obtain ⟨d, d1, d2⟩ := h.lh x hx; exact ⟨d, d1, h.sound.lh d d1, d2⟩)
      (by intro x hx; obtain ⟨d, d1, d2⟩ := h.rh x hx; exact ⟨d, d1, h.sound.rh d d1, d2⟩)
      (.inr h.bothRole) junk
    unfold HSt.dhTok HSt.dhSym
    dsimp only
    cases hm : HSt.mixDH X.S.crypto Q st.sym st.f st.rf with
    | stuck => trivial
    | fail =>
      rw [hm] at hb
      obtain ⟨⟨e, y, p⟩, b1, b2⟩ := hb
      rw [hdt]
      unfold dhFF
      rw [b1]
      exact ⟨_, rfl, b2⟩
    | ok sp' =>
      rw [hm] at hb
      obtain ⟨sym', p', b1, b2, b3, b4⟩ := hb
      have hx : dhToken X.S.CB junk t s = .ok (.none, { s with sym := sym', lh := some p' }) := by
        rw [hdt]; unfold dhFF; rw [b1]; rfl
      have := t1.symm.trans hx
      cases this
      -- the object keeps its role
      have hsf : st.f.isSome = true := by
        cases hf : st.f with
        | none => rw [hf] at hm; simp [HSt.mixDH] at hm
        | some _ => rfl
      obtain ⟨kf, hkf⟩ := Option.isSome_iff_exists.mp hsf
      obtain ⟨l, hl1, hl2⟩ := h.lh kf hkf
      obtain ⟨e1, sy1, p1, m1, _, _, m4, m5⟩ := mixDh_ok X.S X.WG s.sym l (h.sound.lh l hl1) s.rh
        h.sound.rh junk
      rw [hl1] at b1
      have := m1.symm.trans b1
      cases this
      refine ⟨_, hx, ?_, t3, rfl, rfl⟩
      exact {
        sound := t2, sym := b2, role := h.role, psk := by simp only [b3]; exact h.psk
        ls := h.ls, le := h.le, lh := fun x hx => ⟨_, rfl, b4 x hx⟩
        lhNone := fun hn => by rw [hkf] at hn; cases hn
        rs := h.rs, re := h.re, rh := h.rh, rhNone := h.rhNone
        lhRole := fun d hd a b => by cases hd; rw [m4]; exact h.lhRole l hl1 a b
        rhRole := h.rhRole
        bothRole := fun d q hd hq a b => by cases hd; rw [m4]; exact h.bothRole l q hl1 hq a b }
  rw [if_neg c5] at hd
  cases hd

/-! ## Writing -/

/-- The result `r` of writing a token (or several) agrees with the specification's `res`: success
exactly if the output fits, otherwise an error. -/
def WSim (R : Real X P Q) (s : X.H) (rest : Bytes) (r : Out (Err × X.H × Bytes × Nat))
    (res : Res (HSt P Q × Bytes)) : Prop :=
  match res with
  | .ok (st', a) =>
    (a.length ≤ rest.length → ∃ s', r = .ok (.none, s', a ++ rest.drop a.length, a.length) ∧
      Rel R s' st' ∧ s.Frame s' ∧ s'.action = s.action ∧ s'.tokens = s.tokens) ∧
    (rest.length < a.length → ∃ x, r = .ok x ∧ x.1 ≠ .none)
  | .fail => ∃ x, r = .ok x ∧ x.1 ≠ .none
  | .stuck => True

theorem mixE_rel (S : Suite) {sym : SymState S.HB} {sp : Spec.Sym} (h : sym.Rep sp) (pk : Bytes) :
    ∃ sym', pskMixKey S.CB (sym.mixHash pk).2 pk = .ok (.none, sym') ∧
      sym'.Rep (HSt.mixE S.crypto (decide (sym.id.prefixId = prefixPsk)) sp pk) ∧ sym'.id = sym.id := by
  obtain ⟨s1, h1, h2, h3, _⟩ := C08_mix_hash S sym sp h pk
  rw [h1]
  unfold pskMixKey HSt.mixE
  by_cases hp : sym.id.prefixId = prefixPsk
  · rw [if_pos (by rw [h3]; exact hp)]
    obtain ⟨s2, k1, k2, k3⟩ := C08_mix_key S s1 _ h2 pk
    exact ⟨s2, k1, by simpa [hp] using k2, k3.trans h3⟩
  · rw [if_neg (by rw [h3]; exact hp)]
    exact ⟨s1, rfl, by simpa [hp] using h2, h3⟩

theorem writeE_rel {R : Real X P Q} {s : X.H} {st : HSt P Q} (h : Rel R s st)
    (hle : s.le.isSome = true) (rnd : Nat → UInt8) (ge : Option Bytes → P.KP)
    (hge : GenOf R.RD s.fe rnd ge) (gf : Option Bytes → Q.KP) (rest : Bytes) :
    WSim R s rest (writeE X.S.CB rnd s rest) (HSt.writeTok X.S.crypto ge gf .e st) := by
  obtain ⟨l, hl⟩ := Option.isSome_iff_exists.mp hle
  obtain ⟨x, w1, w2, _⟩ := writeE_ok h.sound rnd rest
  obtain ⟨l3, g1, g2⟩ := genKey_rel R.RD s.fe rnd ge hge l s.re (h.sound.le l hl) h.sound.fe h.sound.re
    (.inl rfl)
  obtain ⟨e3, l', n1, n2, _⟩ := genKey_ok X.WD rnd l (h.sound.le l hl) s.fe s.re h.sound.fe h.sound.re
  have := n1.symm.trans g1
  cases this
  rw [gen_any R.RD s.fe rnd ge hge (pubOf s.re) st.re] at g2
  have hpk := R.RD.pub l3 _ n2 g2
  have hlen := (X.WD.lens l3 n2).2
  have hpl : (P.pub (ge st.re)).length = l3.pubLen := by rw [← hpk]; simp [DHState.pubKey]; omega
  have hw : writeE X.S.CB rnd s rest = writeEKey X.S.CB { s with le := some l3 } l3 rest := by
    unfold writeE
    rw [hl]
    simp only [g1, Out.bind_ok]
    rfl
  unfold WSim HSt.writeTok
  dsimp only
  refine ⟨fun hfit => ?_, fun hno => ?_⟩
  · obtain ⟨sym', m1, m2, m3⟩ := mixE_rel X.S h.sym (P.pub (ge st.re))
    have hx : writeE X.S.CB rnd s rest = .ok (.none, { s with le := some l3, sym := sym' },
        P.pub (ge st.re) ++ rest.drop (P.pub (ge st.re)).length, (P.pub (ge st.re)).length) := by
      rw [hw]
      unfold writeEKey
      rw [if_neg (by omega), load_ok (by omega)]
      simp only [Out.bind_ok, List.drop_zero]
      rw [show List.take l3.pubLen l3.pub = P.pub (ge st.re) from hpk, store_at_zero _ _ (by omega)]
      simp only [Out.bind_ok, m1, Out.pure_eq]
      rw [hpl]
    have := w1.symm.trans hx
    cases this
    refine ⟨_, hx, ?_, w2.frame, rfl, rfl⟩
    exact {
      sound := w2.sound, sym := by rw [h.psk]; exact m2
      role := h.role, psk := by simp only [m3]; exact h.psk
      ls := h.ls, le := fun x hx => ⟨l3, rfl, by cases hx; exact g2⟩, lh := h.lh, lhNone := h.lhNone
      rs := h.rs, re := h.re, rh := h.rh, rhNone := h.rhNone
      lhRole := h.lhRole, rhRole := h.rhRole, bothRole := h.bothRole }
  · rw [hw]
    unfold writeEKey
    rw [if_pos (by omega)]
    exact ⟨_, rfl, by simp⟩

theorem writeS_rel {R : Real X P Q} {s : X.H} {st : HSt P Q} (h : Rel R s st)
    (ge : Option Bytes → P.KP) (gf : Option Bytes → Q.KP) (rest : Bytes) :
    WSim R s rest (writeS X.S.CB s rest) (HSt.writeTok X.S.crypto ge gf .s st) := by
  unfold HSt.writeTok
  dsimp only
  cases hs : st.s with
  | none => trivial
  | some k =>
    obtain ⟨l, hl, hk⟩ := h.ls k hs
    have hI := h.sound.ls l hl
    have hpk := R.RD.pub l k hI hk
    have hpl : l.pubLen = P.len false := by
      rw [X.WD.pubLen l hI]; exact R.RD.anyLen rfl _ _
    have hw : writeS X.S.CB s rest = writeEncrypted X.S.CB s l rest := by
      unfold writeS; rw [hl]
    have he := writeEncrypted_rel s st.sym h.sym l (X.WD.lens l hI).2
      (by rw [hpl]; exact R.smallD false) rest
    rw [hpk] at he
    dsimp only
    rw [hw]
    obtain ⟨x, w1, w2⟩ := writeEncrypted_ok h.sound l (X.WD.lens l hI).2 rest
    cases hc : st.sym.encryptAndHash X.S.crypto (P.pub k) with
    | none => rw [hc] at he; exact he
    | some y =>
      obtain ⟨sp', ct⟩ := y
      rw [hc] at he
      refine ⟨fun hfit => ?_, he.2⟩
      obtain ⟨sym', e1, e2, e3⟩ := he.1 hfit
      have := w1.symm.trans e1
      cases this
      refine ⟨_, e1, ?_, w2.frame, rfl, rfl⟩
      have := h.setSym w2.sound e2 e3 rfl rfl rfl rfl rfl rfl rfl
      simpa [hs] using this

theorem writeF_rel {R : Real X P Q} {s : X.H} {st : HSt P Q} (h : Rel R s st)
    (hlh : s.lh.isSome = true) (hrh : s.rh.isSome = true) (rnd : Nat → UInt8)
    (ge : Option Bytes → P.KP) (gf : Option Bytes → Q.KP) (hgf : GenOf R.RG s.fh rnd gf)
    (rest : Bytes) :
    WSim R s rest (writeF X.S.CB rnd s rest) (HSt.writeTok X.S.crypto ge gf .f st) := by
  obtain ⟨l, hl⟩ := Option.isSome_iff_exists.mp hlh
  obtain ⟨r, hr⟩ := Option.isSome_iff_exists.mp hrh
  obtain ⟨x, w1, w2, _⟩ := writeF_ok h.sound rnd rest
  unfold HSt.writeTok
  dsimp only
  by_cases hf : st.f.isSome = true
  · rw [if_pos hf]; trivial
  rw [if_neg hf]
  have hf0 : st.f = none := by simpa using hf
  -- what the specification knows of the remote key is what the object holds
  have hpub : pubOf s.rh = st.rf := by
    rw [hr]
    cases hrf : st.rf with
    | none => simp [pubOf, h.rhNone hrf r hr]
    | some pb =>
      obtain ⟨d, d1, d2, d3⟩ := h.rh pb hrf
      cases hr.symm.trans d1
      simp [pubOf, d2, d3]
  have hrole : ∀ d, s.rh = some d → d.keyType ≠ .noKey → d.role = some .initiator := by
    intro d hd hk
    apply h.rhRole d hd _ hf0
    rw [← hpub, hd]; simp [pubOf, hk]
  have hcond : (if r.keyType = .noKey then Role.initiator else .responder) =
      genRole (pubOf s.rh).isSome := by
    rw [hr]; by_cases hk : r.keyType = .noKey <;> simp [pubOf, hk, genRole]
  obtain ⟨c1, c2, c3⟩ := X.WG.changeRole l (some (genRole (pubOf s.rh).isSome)) (h.sound.lh l hl)
  obtain ⟨l3, g1, g2⟩ := genKey_rel R.RG s.fh rnd gf hgf
    (X.G.setRole l (some (genRole (pubOf s.rh).isSome))) s.rh c1 h.sound.fh h.sound.rh
    (.inr ⟨c2, hrole⟩)
  obtain ⟨e3, l', n1, n2, n3⟩ := genKey_ok X.WG rnd
    (X.G.setRole l (some (genRole (pubOf s.rh).isSome))) c1 s.fh s.rh h.sound.fh h.sound.rh
  have := n1.symm.trans g1
  cases this
  have n3 : l3.role = some (genRole (pubOf s.rh).isSome) := n3.trans c2
  rw [hpub] at g2 n3
  have hpk := R.RG.pub l3 _ n2 g2
  have hlen := (X.WG.lens l3 n2).2
  have hpl : l3.pubLen = Q.len st.rf.isSome := by
    rw [X.WG.pubLen l3 n2, n3]; exact R.RG.len _
  have hw : writeF X.S.CB rnd s rest = writeEncrypted X.S.CB { s with lh := some l3 } l3 rest := by
    unfold writeF
    rw [hl]
    simp only []
    rw [hr] at g1 ⊢
    dsimp only
    rw [hr] at hcond
    rw [hcond]
    simp only [g1, Out.bind_ok]
    rfl
  have he := writeEncrypted_rel { s with lh := some l3 } st.sym h.sym l3 hlen
    (by rw [hpl]; exact R.smallG _) rest
  rw [hpk] at he
  rw [hw] at w1 ⊢
  cases hc : st.sym.encryptAndHash X.S.crypto (Q.pub (gf st.rf)) with
  | none => rw [hc] at he; exact he
  | some y =>
    obtain ⟨sp', ct⟩ := y
    rw [hc] at he
    refine ⟨fun hfit => ?_, he.2⟩
    obtain ⟨sym', e1, e2, e3⟩ := he.1 hfit
    have := w1.symm.trans e1
    cases this
    refine ⟨_, e1, ?_, w2.frame, rfl, rfl⟩
    exact {
      sound := w2.sound, sym := e2, role := h.role, psk := by simp only [e3]; exact h.psk
      ls := h.ls, le := h.le, lh := fun x hx => ⟨l3, rfl, by cases hx; exact g2⟩
      lhNone := fun hn => by cases hn
      rs := h.rs, re := h.re, rh := h.rh, rhNone := h.rhNone
      lhRole := fun d hd _ hn => by
        cases hd
        have hn' : st.rf = none := hn
        rw [n3, hn']; rfl
      rhRole := fun d hd _ hn => by cases hn
      bothRole := fun d q hd hq _ hsome => by
        cases hd
        have hsome' : st.rf.isSome = true := hsome
        refine ⟨true, by rw [n3, hsome'], ?_⟩
        exact h.rhRole q hq hsome' hf0 }

theorem writeToken_rel {R : Real X P Q} {s : X.H} {st : HSt P Q} (h : Rel R s st) (t : UInt8) (k : Tok)
    (hd : decodeTok t = some k) (ha : s.pres.avail true t = true)
    (hp : s.pres.priv s.role t = true) (rnd junk : Nat → UInt8) (ge : Option Bytes → P.KP)
    (hge : GenOf R.RD s.fe rnd ge) (gf : Option Bytes → Q.KP) (hgf : GenOf R.RG s.fh rnd gf)
    (rest : Bytes) :
    WSim R s rest (writeToken X.S.CB rnd junk t s rest) (HSt.writeTok X.S.crypto ge gf k st) := by
  unfold writeToken
  unfold Pres.avail at ha
  by_cases h1 : t = tokE
  · rw [if_pos h1] at ha ⊢
    have hk : k = .e := by unfold decodeTok at hd; rw [if_pos h1] at hd; cases hd; rfl
    subst hk
    exact writeE_rel h (by simpa [pres] using ha) rnd ge hge gf rest
  rw [if_neg h1] at ha ⊢
  by_cases h2 : t = tokS
  · rw [if_pos h2] at ha ⊢
    have hk : k = .s := by unfold decodeTok at hd; rw [if_neg h1, if_pos h2] at hd; cases hd; rfl
    subst hk
    exact writeS_rel h ge gf rest
  rw [if_neg h2] at ha ⊢
  by_cases h3 : t = tokF
  · rw [if_pos h3] at ha ⊢
    have hk : k = .f := by
      unfold decodeTok at hd; rw [if_neg h1, if_neg h2, if_pos h3] at hd; cases hd; rfl
    subst hk
    simp only [pres, Bool.and_eq_true] at ha
    exact writeF_rel h ha.1 ha.2 rnd ge gf hgf rest
  rw [if_neg h3]
  have hdh := dhToken_rel h t k hd h1 h2 h3 hp junk
  have hwt : HSt.writeTok X.S.crypto ge gf k st = (match HSt.dhTok X.S.crypto k st with
      | .ok st' => .ok (st', [])
      | .fail => .fail
      | .stuck => .stuck) := by
    unfold decodeTok at hd
    rw [if_neg h1, if_neg h2, if_neg h3] at hd
    cases k with
    | e => repeat' (split at hd; cases hd)
           cases hd
    | s => repeat' (split at hd; cases hd)
           cases hd
    | f => repeat' (split at hd; cases hd)
           cases hd
    | ee => rfl
    | es => rfl
    | se => rfl
    | ss => rfl
    | ff => rfl
  rw [hwt]
  cases hx : HSt.dhTok X.S.crypto k st with
  | stuck => trivial
  | fail =>
    rw [hx] at hdh
    obtain ⟨⟨e, s'⟩, d1, d2⟩ := hdh
    rw [d1]
    exact ⟨_, rfl, d2⟩
  | ok st' =>
    rw [hx] at hdh
    obtain ⟨s', d1, d2, d3, d4, d5⟩ := hdh
    rw [d1]
    refine ⟨fun _ => ⟨s', by simp, d2, d3, d4, d5⟩, fun hc => by simp at hc⟩

/-- Every object the remaining tokens refer to exists. -/
def ready (p : Pres) (role : Role) : Bool → Bytes → Bool
  | _, [] => false
  | w, t :: ts =>
    if t = tokEnd then true
    else if t = tokFlipDir then ready p role (!w) ts
    else p.avail w t && p.priv role t && ready p role w ts

theorem decodeMsgs_ne_nil : ∀ (ts : Bytes), decodeMsgs ts ≠ some [] := by
  intro ts
  cases ts with
  | nil => simp [decodeMsgs]
  | cons t ts =>
    unfold decodeMsgs
    split
    · simp
    · split
      · cases decodeMsgs ts <;> simp
      · split <;> simp

/-- Action and token position after a message with `ms` still to come; `next` is the next action. -/
def After (next : Action) (ms : List (List Tok)) (s : X.H) : Prop :=
  (ms = [] → s.action = .split) ∧
  (ms ≠ [] → s.action = next ∧ decodeMsgs s.tokens = some ms)

theorem writeLoop_rel {R : Real X P Q} (rnd junk : Nat → Nat → UInt8) (c : Nat)
    (ge : Nat → Option Bytes → P.KP) (gf : Nat → Option Bytes → Q.KP) :
    ∀ (ts : Bytes) (m : List Tok) (ms : List (List Tok)) (s : X.H) (st : HSt P Q) (mem : Bytes)
      (size : Nat), decodeMsgs ts = some (m :: ms) → Rel R s st →
      ready s.pres s.role true ts = true → ts.length = m.length + c → size ≤ mem.length →
      (∀ n, GenOf R.RD s.fe (rnd (n + c)) (ge n)) → (∀ n, GenOf R.RG s.fh (rnd (n + c)) (gf n)) →
      match HSt.writeToks X.S.crypto ge gf m st with
      | .ok (st', hdr) =>
        (size + hdr.length ≤ mem.length → ∃ s', writeLoop X.S.CB rnd junk ts s mem size =
          .ok (.none, s', mem.take size ++ hdr ++ mem.drop (size + hdr.length), size + hdr.length) ∧
          Rel R s' st' ∧ s.Frame s' ∧ After .read ms s' ∧
          (ms ≠ [] → ready s'.pres s'.role false s'.tokens = true)) ∧
        (mem.length < size + hdr.length → ∃ x, writeLoop X.S.CB rnd junk ts s mem size = .ok x ∧
          x.1 ≠ .none)
      | .fail => ∃ x, writeLoop X.S.CB rnd junk ts s mem size = .ok x ∧ x.1 ≠ .none
      | .stuck => True := by
  intro ts
  induction ts with
  | nil => intro m ms s st mem size hd; simp [decodeMsgs] at hd
  | cons t ts ih =>
    intro m ms s st mem size hd h hr hlen hsz hge hgf
    unfold decodeMsgs at hd
    unfold ready at hr
    unfold writeLoop
    have relEq : ∀ (s' : X.H), s'.sym = s.sym → s'.role = s.role → s'.ls = s.ls → s'.le = s.le →
        s'.lh = s.lh → s'.rs = s.rs → s'.re = s.re → s'.rh = s.rh → s'.fe = s.fe → s'.fh = s.fh →
        Rel R s' st := by
      intro s' e1 e2 e3 e4 e5 e6 e7 e8 e9 e10
      exact h.setSym (h.sound.congr e1 e3 e4 e5 e6 e7 e8 e9 e10) (by rw [e1]; exact h.sym) (by rw [e1])
        e2 e3 e4 e5 e6 e7 e8
    by_cases h1 : t = tokEnd
    · rw [if_pos h1] at hd
      rw [if_pos h1]
      simp only [Option.some.injEq, List.cons.injEq] at hd
      obtain ⟨rfl, hms⟩ := hd
      have hms' : ms = [] := by simpa using hms.symm
      subst hms'
      simp only [HSt.writeToks, List.length_nil, Nat.add_zero, List.append_nil, List.take_append_drop]
      refine ⟨fun _ => ⟨_, rfl, relEq _ rfl rfl rfl rfl rfl rfl rfl rfl rfl rfl,
        ⟨rfl, rfl, rfl, rfl, rfl, rfl, rfl, .refl⟩, ⟨fun _ => rfl, fun hn => absurd rfl hn⟩,
        fun hn => absurd rfl hn⟩, fun hc => by omega⟩
    rw [if_neg h1] at hd hr ⊢
    by_cases h2 : t = tokFlipDir
    · rw [if_pos h2] at hd hr ⊢
      cases hdm : decodeMsgs ts with
      | none => rw [hdm] at hd; simp at hd
      | some ms' =>
        rw [hdm] at hd
        simp only [Option.map_some, Option.some.injEq, List.cons.injEq] at hd
        obtain ⟨rfl, rfl⟩ := hd
        simp only [HSt.writeToks, List.length_nil, Nat.add_zero, List.append_nil, List.take_append_drop]
        refine ⟨fun _ => ⟨_, rfl, relEq _ rfl rfl rfl rfl rfl rfl rfl rfl rfl rfl,
          ⟨rfl, rfl, rfl, rfl, rfl, rfl, rfl, .refl⟩, ⟨fun hn => ?_, fun _ => ⟨rfl, hdm⟩⟩,
          fun _ => hr⟩, fun hc => by omega⟩
        subst hn
        exact absurd hdm (decodeMsgs_ne_nil ts)
    rw [if_neg h2] at hd hr ⊢
    cases hk : decodeTok t with
    | none => rw [hk] at hd; simp at hd
    | some k =>
    cases hdm : decodeMsgs ts with
    | none => rw [hk, hdm] at hd; simp at hd
    | some ms0 =>
    cases ms0 with
    | nil => exact absurd hdm (decodeMsgs_ne_nil ts)
    | cons m' ms' =>
    rw [hk, hdm] at hd
    simp only [Option.some.injEq, List.cons.injEq] at hd
    obtain ⟨rfl, rfl⟩ := hd
    simp only [Bool.and_eq_true] at hr
    obtain ⟨⟨hav, hpr⟩, hrd⟩ := hr
    simp only [List.length_cons] at hlen
    have hidx : ts.length = m'.length + c := by omega
    have hw := writeToken_rel h t k hk hav hpr (rnd ts.length) (junk ts.length) (ge m'.length)
      (by rw [hidx]; exact hge _) (gf m'.length) (by rw [hidx]; exact hgf _) (mem.drop size)
    unfold HSt.writeToks
    cases hwt : HSt.writeTok X.S.crypto (ge m'.length) (gf m'.length) k st with
    | stuck => trivial
    | fail =>
      rw [hwt] at hw
      obtain ⟨⟨e, s', rest, n⟩, w1, w2⟩ := hw
      simp only [w1, Out.bind_ok]
      rw [if_pos w2]
      exact ⟨_, rfl, w2⟩
    | ok x =>
      obtain ⟨st1, a⟩ := x
      rw [hwt] at hw
      obtain ⟨hfit, hnofit⟩ := hw
      dsimp only
      by_cases hf : a.length ≤ (mem.drop size).length
      · obtain ⟨s1, w1, w2, w3, w4, w5⟩ := hfit hf
        simp only [w1, Out.bind_ok]
        rw [if_neg (by simp)]
        simp only [List.length_drop] at hf
        have h2r : Rel R { s1 with tokens := ts } st1 :=
          w2.setSym (w2.sound.congr rfl rfl rfl rfl rfl rfl rfl rfl rfl) w2.sym rfl rfl rfl rfl rfl rfl
            rfl rfl
        have ihh := ih m' ms' { s1 with tokens := ts } st1
          (mem.take size ++ (a ++ (mem.drop size).drop a.length)) (size + a.length) hdm h2r
          (by rw [show ({ s1 with tokens := ts } : X.H).pres = s1.pres from rfl, w3.pres]
              rw [show ({ s1 with tokens := ts } : X.H).role = s1.role from rfl, w3.role]; exact hrd)
          hidx (by simp; omega)
          (fun n => by rw [show ({ s1 with tokens := ts } : X.H).fe = s1.fe from rfl, w3.fe]; exact hge n)
          (fun n => by rw [show ({ s1 with tokens := ts } : X.H).fh = s1.fh from rfl, w3.fh]; exact hgf n)
        have hml : (mem.take size ++ (a ++ (mem.drop size).drop a.length)).length = mem.length := by
          simp; omega
        rw [hml] at ihh
        have fr : s.Frame { s1 with tokens := ts } :=
          w3.trans ⟨rfl, rfl, rfl, rfl, rfl, rfl, rfl, .refl⟩
        cases hrest : HSt.writeToks X.S.crypto ge gf m' st1 with
        | stuck => trivial
        | fail => rw [hrest] at ihh; exact ihh
        | ok y =>
          obtain ⟨st2, b⟩ := y
          rw [hrest] at ihh
          obtain ⟨i1, i2⟩ := ihh
          dsimp only
          rw [List.length_append]
          refine ⟨fun hle => ?_, fun hgt => i2 (by omega)⟩
          obtain ⟨s2, j1, j2, j3, j4, j5⟩ := i1 (by omega)
          refine ⟨s2, ?_, j2, fr.trans j3, j4, j5⟩
          rw [j1]
          have e1 : (mem.take size ++ (a ++ (mem.drop size).drop a.length)).take (size + a.length) =
              mem.take size ++ a := by
            rw [← List.append_assoc, List.take_append_of_le_length (by simp; omega)]
            exact List.take_of_length_le (by simp; omega)
          have e2 : (mem.take size ++ (a ++ (mem.drop size).drop a.length)).drop
              (size + a.length + b.length) = mem.drop (size + (a.length + b.length)) := by
            rw [← List.append_assoc, List.drop_append, List.drop_of_length_le (by simp; omega)]
            simp only [List.nil_append, List.drop_drop, List.length_append, List.length_take]
            congr 1; omega
          rw [e1, e2]
          simp [Nat.add_assoc]
      · obtain ⟨⟨e, s', rest, n⟩, w1, w2⟩ := hnofit (by omega)
        simp only [w1, Out.bind_ok]
        rw [if_pos w2]
        simp only [List.length_drop] at hf
        cases hrest : HSt.writeToks X.S.crypto ge gf m' st1 with
        | stuck => trivial
        | fail => exact ⟨_, rfl, w2⟩
        | ok y =>
          obtain ⟨st2, b⟩ := y
          dsimp only
          rw [List.length_append]
          exact ⟨fun hle => by omega, fun _ => ⟨_, rfl, w2⟩⟩

theorem writePayload_rel (s : X.H) (sp : Spec.Sym) (h : s.sym.Rep sp) (payload : Option Bytes)
    (mem : Bytes) (size : Nat) (hsz : size ≤ mem.length) :
    match sp.encryptAndHash X.S.crypto (payload.getD []) with
    | some (sp', ct) =>
      (size + ct.length ≤ mem.length ∧ ct.length ≤ 65535 → ∃ sym', writePayload X.S.CB payload s mem size =
          .ok (.none, { s with sym := sym' }, mem.take size ++ ct ++ mem.drop (size + ct.length),
            size + ct.length) ∧ sym'.Rep sp' ∧ sym'.id = s.sym.id) ∧
      (¬ (size + ct.length ≤ mem.length ∧ ct.length ≤ 65535) →
        ∃ r, writePayload X.S.CB payload s mem size = .ok r ∧ r.1 ≠ .none)
    | none => ∃ r, writePayload X.S.CB payload s mem size = .ok r ∧ r.1 ≠ .none := by
  have hmac := getMac_overhead X.S h
  generalize hpl : payload.getD [] = pl
  by_cases hc : mem.length - size < sp.overhead X.S.crypto ∨
      mem.length - size - sp.overhead X.S.crypto < pl.length
  · have hu : writePayload X.S.CB payload s mem size = .ok (.invalidLength, s, mem, size) := by
      unfold writePayload
      dsimp only
      rw [hmac, hpl]
      rcases hc with hc | hc
      · rw [if_pos hc]
      · by_cases h1 : mem.length - size < sp.overhead X.S.crypto
        · rw [if_pos h1]
        · rw [if_neg h1, if_pos hc]
    split
    · next sp' ct he =>
      have := spec_encrypt_length X.S he
      exact ⟨fun hle => by omega, fun _ => ⟨_, hu, by simp⟩⟩
    · exact ⟨_, hu, by simp⟩
  · have hu : writePayload X.S.CB payload s mem size = (do
        let (err, sym, b) ← s.sym.encryptAndHash X.S.CB
          { data := pl ++ (mem.drop size).drop pl.length, size := pl.length }
        let mem' := mem.take size ++ b.data
        if err ≠ .none then pure (err, { s with sym := sym }, mem', size)
        else pure (.none, { s with sym := sym }, mem', size + b.size)) := by
      unfold writePayload
      dsimp only
      rw [hmac, hpl, if_neg (by omega), if_neg (by omega),
        store_at_zero _ _ (by simp only [List.length_drop]; omega)]
      rfl
    obtain ⟨k1, k2⟩ := C08_encrypt_and_hash X.S s.sym sp h
      ⟨pl ++ (mem.drop size).drop pl.length, pl.length⟩ (by simp [Buf.maxSize])
    have hb : Buf.bytes ⟨pl ++ (mem.drop size).drop pl.length, pl.length⟩ = pl := by
      simp [Buf.bytes]
    rw [hb] at k1
    simp only [Buf.maxSize, List.length_append, List.length_drop] at k1 k2
    rw [hu]
    by_cases hf : pl.length + sp.overhead X.S.crypto ≤ 65535
    · have k1 := k1 (by omega)
      cases he : sp.encryptAndHash X.S.crypto pl with
      | none =>
        rw [he] at k1
        obtain ⟨s', k1, _⟩ := k1
        rw [k1]
        exact ⟨_, rfl, by simp⟩
      | some x =>
        obtain ⟨sp', ct⟩ := x
        rw [he] at k1
        obtain ⟨s', k1, k2, k3, k4⟩ := k1
        rw [k1]
        refine ⟨fun _ => ⟨s', ?_, k2, k4⟩, fun hn => absurd (by omega) hn⟩
        simp only [Out.bind_ok, Out.pure_eq, ne_eq, not_true, if_false, Out.ok.injEq, Prod.mk.injEq,
          true_and, and_true]
        rw [List.drop_append, List.drop_of_length_le (by omega), List.drop_drop, List.drop_drop]
        simp only [List.nil_append, List.append_assoc]
        congr 3; omega
    · obtain ⟨s', k2, _⟩ := k2 (by omega)
      rw [k2]
      have herr : ∃ r, ((do
          let (err, sym, b) ← Out.ok (Err.invalidLength, s', (⟨pl ++ (mem.drop size).drop pl.length,
            pl.length⟩ : Buf))
          let mem' := mem.take size ++ b.data
          if err ≠ .none then pure (err, { s with sym := sym }, mem', size)
          else pure (.none, { s with sym := sym }, mem', size + b.size)) :
            Out (Err × X.H × Bytes × Nat)) = .ok r ∧ r.1 ≠ .none := ⟨_, rfl, by simp⟩
      split
      · next sp' ct he =>
        have := spec_encrypt_length X.S he
        exact ⟨fun hle => by omega, fun _ => herr⟩
      · exact herr

/-- The result of writing or reading is an error and leaves the handshake failed. -/
def WriteFails (r : Out (Err × X.H × Buf)) : Prop :=
  ∃ e s' b, r = .ok (e, s', b) ∧ e ≠ .none ∧ s'.action = .failed ∧ b.size = 0

/-- What a successful message leaves. -/
structure Done (R : Real X P Q) (s : X.H) (st : HSt P Q) (w : Bool) (s' : X.H) : Prop where
  rel : Rel R s' st
  frame : s.Frame s'
  after : After (if w then .write else .read) st.msgs s'
  ready : st.msgs ≠ [] → ready s'.pres s'.role w s'.tokens = true

/-- write_message is the specification's WriteMessage. -/
theorem writeMessage_rel {R : Real X P Q} (rnd junk : Nat → Nat → UInt8) (c : Nat)
    (ge : Nat → Option Bytes → P.KP) (gf : Nat → Option Bytes → Q.KP) (s : X.H) (st : HSt P Q)
    (h : Rel R s st) (ha : s.action = .write) (hd : decodeMsgs s.tokens = some st.msgs)
    (hr : HS.ready s.pres s.role true s.tokens = true)
    (hc : s.tokens.length = (st.msgs.headD []).length + c)
    (hge : ∀ n, GenOf R.RD s.fe (rnd (n + c)) (ge n))
    (hgf : ∀ n, GenOf R.RG s.fh (rnd (n + c)) (gf n)) (mem : Bytes) (payload : Option Bytes) :
    match HSt.writeMessage X.S.crypto ge gf st (payload.getD []) with
    | .ok (st', hdr, ct) =>
      (hdr.length + ct.length ≤ mem.length ∧ ct.length ≤ 65535 → ∃ s',
        writeMessage X.S.CB rnd junk s mem payload = .ok (.none, s',
          ⟨hdr ++ ct ++ mem.drop (hdr.length + ct.length), hdr.length + ct.length⟩) ∧
        Done R s st' false s') ∧
      (¬ (hdr.length + ct.length ≤ mem.length ∧ ct.length ≤ 65535) →
        WriteFails (writeMessage X.S.CB rnd junk s mem payload))
    | .fail => WriteFails (writeMessage X.S.CB rnd junk s mem payload)
    | .stuck => True := by
  have failed : ∀ x, write X.S.CB rnd junk s mem payload = .ok x → x.1 ≠ .none →
      WriteFails (writeMessage X.S.CB rnd junk s mem payload) := by
    rintro ⟨e, s', m', n⟩ hx hne
    unfold writeMessage
    rw [if_neg (by simp [ha]), hx]
    simp only [Out.bind_ok]
    rw [if_pos hne]
    exact ⟨_, _, _, rfl, hne, rfl, rfl⟩
  unfold HSt.writeMessage
  cases hms : st.msgs with
  | nil => trivial
  | cons m ms =>
    rw [hms] at hd hc
    have hl := writeLoop_rel rnd junk c ge gf s.tokens m ms s st mem 0 hd h hr hc (Nat.zero_le _) hge hgf
    dsimp only
    cases hw : HSt.writeToks X.S.crypto ge gf m st with
    | stuck => trivial
    | fail =>
      rw [hw] at hl
      obtain ⟨⟨e, s', m', n⟩, l1, l2⟩ := hl
      refine failed (e, s', m', n) ?_ l2
      unfold write
      rw [l1]
      simp only [Out.bind_ok]
      rw [if_pos l2]; rfl
    | ok x =>
      obtain ⟨st1, hdr⟩ := x
      rw [hw] at hl
      simp only [Nat.zero_add, List.take_zero, List.nil_append] at hl
      obtain ⟨l1, l2⟩ := hl
      dsimp only
      by_cases hf : hdr.length ≤ mem.length
      · obtain ⟨s1, l1, l3, l4, l5, l6⟩ := l1 hf
        have hp := writePayload_rel s1 st1.sym l3.sym payload (hdr ++ mem.drop hdr.length) hdr.length
          (by simp)
        have hml : (hdr ++ mem.drop hdr.length).length = mem.length := by simp; omega
        have hwr : write X.S.CB rnd junk s mem payload =
            writePayload X.S.CB payload s1 (hdr ++ mem.drop hdr.length) hdr.length := by
          unfold write
          rw [l1]
          simp
        rw [hml] at hp
        cases he : st1.sym.encryptAndHash X.S.crypto (payload.getD []) with
        | none =>
          rw [he] at hp
          obtain ⟨r, p1, p2⟩ := hp
          exact failed r (hwr.trans p1) p2
        | some y =>
          obtain ⟨sp', ct⟩ := y
          rw [he] at hp
          obtain ⟨p1, p2⟩ := hp
          refine ⟨fun hfit => ?_, fun hno => ?_⟩
          · obtain ⟨sym', q1, q2, q3⟩ := p1 hfit
            have e1 : (hdr ++ mem.drop hdr.length).take hdr.length = hdr := by simp
            have e2 : (hdr ++ mem.drop hdr.length).drop (hdr.length + ct.length) =
                mem.drop (hdr.length + ct.length) := by
              rw [List.drop_append, List.drop_of_length_le (by omega), List.drop_drop]
              simp
            rw [e1, e2] at q1
            refine ⟨{ s1 with sym := sym' }, ?_, ?_⟩
            · unfold writeMessage
              rw [if_neg (by simp [ha]), hwr, q1]
              rfl
            · have hok : sym'.Ok := by
                have hp2 := writePayload_ok l3.sound payload (hdr ++ mem.drop hdr.length) hdr.length
                  (by simp)
                obtain ⟨e5, s5, m5, n5, p5, p6, _⟩ := hp2
                rw [q1] at p5
                cases p5
                exact p6.sym
              have hrel := l3.setSym (s' := { s1 with sym := sym' }) (l3.sound.setSym hok) q2 q3 rfl rfl
                rfl rfl rfl rfl rfl
              refine ⟨?_, ?_, ?_, ?_⟩
              · exact { hrel with }
              · refine l4.trans (.setSym ⟨fun _ => hok, q3, ?_⟩)
                rw [rep_isSome X.S q2, rep_isSome X.S l3.sym]
              · exact l5
              · exact l6
          · obtain ⟨r, q1, q2⟩ := p2 hno
            exact failed r (hwr.trans q1) q2
      · obtain ⟨⟨e, s', m', n⟩, l1, l3⟩ := l2 (by omega)
        have hF : WriteFails (writeMessage X.S.CB rnd junk s mem payload) := by
          refine failed (e, s', m', n) ?_ l3
          unfold write
          rw [l1]
          simp only [Out.bind_ok]
          rw [if_pos l3]; rfl
        cases he : st1.sym.encryptAndHash X.S.crypto (payload.getD []) with
        | none => exact hF
        | some y => exact ⟨fun hfit => by omega, fun _ => hF⟩

/-! ## Reading -/

/-- The result `r` of reading a token agrees with the specification's `res`. -/
def RSim (R : Real X P Q) (s : X.H) (r : Out (Err × X.H × Buf)) (res : Res (HSt P Q × Bytes)) : Prop :=
  match res with
  | .ok (st', rest) => ∃ s' m', r = .ok (.none, s', m') ∧ m'.bytes = rest ∧ m'.size ≤ m'.maxSize ∧
      Rel R s' st' ∧ s.Frame s' ∧ s'.action = s.action ∧ s'.tokens = s.tokens
  | .fail => ∃ x, r = .ok x ∧ x.1 ≠ .none
  | .stuck => True

theorem bytes_length {msg : Buf} (hm : msg.size ≤ msg.maxSize) : msg.bytes.length = msg.size := by
  simp only [Buf.bytes, Buf.maxSize, List.length_take] at *; omega

theorem bytes_take {msg : Buf} {n : Nat} (hn : n ≤ msg.size) : msg.bytes.take n = msg.data.take n := by
  simp only [Buf.bytes, List.take_take]; congr 1; omega

theorem advance_bytes (msg : Buf) (n : Nat) : (advance msg n).bytes = msg.bytes.drop n := by
  simp [advance, Buf.bytes, List.drop_take]

theorem readE_rel {R : Real X P Q} {s : X.H} {st : HSt P Q} (h : Rel R s st)
    (hre : s.re.isSome = true) (msg : Buf) (hm : msg.size ≤ msg.maxSize) :
    RSim R s (readE X.S.CB s msg) (HSt.readTok X.S.crypto .e st msg.bytes) := by
  obtain ⟨r, hr⟩ := Option.isSome_iff_exists.mp hre
  have hI := h.sound.re r hr
  have hpl : r.pubLen = P.len st.e.isSome := by
    rw [X.WD.pubLen r hI]; exact R.RD.anyLen rfl _ _
  obtain ⟨x, w1, w2, _⟩ := readE_ok h.sound msg hm
  unfold HSt.readTok
  dsimp only
  rw [bytes_length hm, ← hpl]
  by_cases hc : msg.size < r.pubLen
  · rw [if_pos hc]
    unfold readE
    rw [hr]
    dsimp only
    rw [if_pos hc]
    exact ⟨_, rfl, by simp⟩
  rw [if_neg hc, bytes_take (by omega)]
  have hbl : (msg.data.take r.pubLen).length = r.pubLen := by
    simp only [Buf.maxSize] at hm; simp; omega
  generalize hpk : msg.data.take r.pubLen = pk at hbl
  obtain ⟨sym1, m1, _⟩ := C08_mix_hash X.S s.sym st.sym h.sym pk
  obtain ⟨e2, r', k1, k2, k3, _, k5, _, k6⟩ := setPublicKey_eq X.WD r hI pk
  have he2 := k5 hbl (.inl (R.RD.validate r pk))
  subst he2
  obtain ⟨_, k7, k8, _⟩ := k6 rfl
  have hpl' : r'.pubLen = r.pubLen := by
    rw [X.WD.pubLen r' k2, X.WD.pubLen r hI, k3]
  have hrd : readE X.S.CB s msg = readEKey X.S.CB { s with sym := sym1, re := some r' } r' msg r.pubLen := by
    unfold readE
    rw [hr]
    dsimp only
    rw [if_neg hc, load_ok (by simp only [Buf.maxSize] at hm; omega)]
    simp only [Out.bind_ok, List.drop_zero]
    rw [hpk, m1]
    simp only [k1, Out.bind_ok]
    rfl
  have hn := isNullPublicKey_eq X.WD r' k2
  rw [k8] at hn
  by_cases hrej : P.reject pk = true
  · rw [if_pos hrej]
    rw [R.RD.reject] at hrej
    simp only [decide_eq_true_eq] at hrej
    rw [hrd]
    unfold readEKey
    rw [hn]
    simp [k7, hrej, RSim]
  · rw [if_neg hrej]
    have hrej' := hrej
    rw [R.RD.reject] at hrej'
    simp only [decide_eq_true_eq] at hrej'
    obtain ⟨sym', n1, n2, n3⟩ := mixE_rel X.S h.sym pk
    rw [m1] at n1
    have hx : readE X.S.CB s msg = .ok (.none, { s with sym := sym', re := some r' },
        advance msg r.pubLen) := by
      rw [hrd]
      unfold readEKey
      rw [hn]
      simp only [Out.bind_ok]
      rw [if_neg (by simpa [k7] using hrej')]
      rw [load_ok (by have := (X.WD.lens r' k2).2; omega)]
      simp only [Out.bind_ok, List.drop_zero]
      rw [← hpl', show r'.pub.take r'.pubLen = pk from k8, n1]
      rfl
    have := w1.symm.trans hx
    cases this
    refine ⟨_, _, hx, advance_bytes _ _, w2.size, ?_, w2.frame, rfl, rfl⟩
    exact {
      sound := w2.sound, sym := by rw [h.psk]; exact n2
      role := h.role, psk := by simp only [n3]; exact h.psk
      ls := h.ls, le := h.le, lh := h.lh, lhNone := h.lhNone
      rs := h.rs, re := fun x hx => ⟨r', rfl, by simp [k7], by cases hx; exact k8⟩
      rh := h.rh, rhNone := h.rhNone
      lhRole := h.lhRole, rhRole := h.rhRole, bothRole := h.bothRole }

theorem readEncrypted_rel {B : DHBackend} {Inv : DHState B.Ext → Prop} {L : Option Role → Nat}
    (S : Suite) (W : B.Lawful Inv L) (sym : SymState S.HB) (sp : Spec.Sym) (h : sym.Rep sp)
    (r : DHState B.Ext) (hr : Inv r) (hv : ∀ pk, B.validate r pk = .none)
    (hs : r.pubLen + S.CB.macLen ≤ 65535) (msg : Buf) (hm : msg.size ≤ msg.maxSize) :
    if msg.size < r.pubLen + sp.overhead S.crypto then
      ∃ x, readEncrypted S.CB B sym r msg = .ok x ∧ x.1 ≠ .none
    else
      match sp.decryptAndHash S.crypto (msg.bytes.take (r.pubLen + sp.overhead S.crypto)) with
      | some (sp', pk) => ∃ sym' r', readEncrypted S.CB B sym r msg =
            .ok (.none, sym', r', r.pubLen + sp.overhead S.crypto) ∧ sym'.Rep sp' ∧
            sym'.id = sym.id ∧ Inv r' ∧ r'.role = r.role ∧ r'.keyType = .pubOnly ∧ r'.pubKey = pk
      | none => ∃ x, readEncrypted S.CB B sym r msg = .ok x ∧ x.1 ≠ .none := by
  have hmac := getMac_overhead S h
  have hov : sp.overhead S.crypto ≤ S.CB.macLen := by
    unfold Spec.Sym.overhead; simp only [Suite.crypto]; split <;> omega
  have hov0 : sp.overhead S.crypto = sp.overhead S.crypto := rfl
  split
  · next hc =>
    unfold readEncrypted
    dsimp only
    rw [hmac, if_pos hc]
    exact ⟨_, rfl, by simp⟩
  · next hc =>
    rw [bytes_take (by omega)]
    have hbl : (msg.data.take (r.pubLen + sp.overhead S.crypto)).length =
        r.pubLen + sp.overhead S.crypto := by
      simp only [Buf.maxSize] at hm; simp; omega
    generalize hpk : msg.data.take (r.pubLen + sp.overhead S.crypto) = d at hbl
    have hre : readEncrypted S.CB B sym r msg = (do
        let (err, sym', b) ← sym.decryptAndHash S.CB ⟨d, r.pubLen + sp.overhead S.crypto⟩
        if err ≠ .none then pure (err, sym', r, r.pubLen + sp.overhead S.crypto)
        else do
          let pk ← load b.data 0 b.size
          let (err, r') ← B.setPublicKey r pk
          pure (err, sym', r', r.pubLen + sp.overhead S.crypto)) := by
      unfold readEncrypted
      dsimp only
      rw [hmac, if_neg hc, load_ok (by simp only [Buf.maxSize] at hm; omega)]
      simp only [Out.bind_ok, List.drop_zero]
      rw [hpk]
    obtain ⟨k1, _⟩ := C08_decrypt_and_hash S sym sp h ⟨d, r.pubLen + sp.overhead S.crypto⟩
      (by simp [Buf.maxSize, hbl])
    have k1 := k1 ⟨by simp, by simp only; omega⟩
    have hb : Buf.bytes ⟨d, r.pubLen + sp.overhead S.crypto⟩ = d := by
      simp [Buf.bytes, ← hbl]
    rw [hb] at k1
    rw [hre]
    cases he : sp.decryptAndHash S.crypto d with
    | none =>
      rw [he] at k1
      obtain ⟨e, s', k0, k1, _⟩ := k1
      rw [k1]
      simp only [Out.bind_ok]
      rw [if_pos k0]
      exact ⟨_, rfl, k0⟩
    | some y =>
      obtain ⟨sp', pk⟩ := y
      rw [he] at k1
      obtain ⟨s', b', k1, k2, k3, k4, k5, _, k7, k8⟩ := k1
      simp only [Buf.maxSize] at k5 k7
      obtain ⟨e2, r', j1, j2, j3, _, j5, _, j6⟩ := setPublicKey_eq W r hr pk
      have he2 := j5 (by omega) (.inl (hv pk))
      subst he2
      obtain ⟨_, j7, j8, _⟩ := j6 rfl
      refine ⟨s', r', ?_, k2, k8, j2, j3, j7, j8⟩
      rw [k1]
      simp only [Out.bind_ok]
      rw [if_neg (by simp), load_ok (by omega)]
      simp only [Out.bind_ok, List.drop_zero]
      rw [show b'.data.take b'.size = pk from k3, j1]
      rfl

theorem overhead_eq (C : Spec.Crypto) (sp : Spec.Sym) :
    sp.overhead C = if sp.c.k.isSome then C.macLen else 0 := rfl

theorem readS_rel {R : Real X P Q} {s : X.H} {st : HSt P Q} (h : Rel R s st)
    (hrs : s.rs.isSome = true) (msg : Buf) (hm : msg.size ≤ msg.maxSize) :
    RSim R s (readS X.S.CB s msg) (HSt.readTok X.S.crypto .s st msg.bytes) := by
  obtain ⟨r, hr⟩ := Option.isSome_iff_exists.mp hrs
  have hI := h.sound.rs r hr
  have hpl : r.pubLen = P.len false := by
    rw [X.WD.pubLen r hI]; exact R.RD.anyLen rfl _ _
  obtain ⟨x, w1, w2, _⟩ := readS_ok h.sound msg hm
  have he := readEncrypted_rel X.S X.WD s.sym st.sym h.sym r hI (R.RD.validate r)
    (by rw [hpl]; exact R.smallD _) msg hm
  unfold HSt.readTok
  dsimp only
  rw [bytes_length hm, ← hpl, ← overhead_eq]
  have err : (∃ x, readEncrypted X.S.CB X.D s.sym r msg = .ok x ∧ x.1 ≠ .none) →
      ∃ x, readS X.S.CB s msg = .ok x ∧ x.1 ≠ .none := by
    rintro ⟨⟨e, a, b, c⟩, x1, x2⟩
    unfold readS
    rw [hr]
    dsimp only
    rw [x1]
    simp only [Out.bind_ok]
    rw [if_pos x2]
    exact ⟨_, rfl, x2⟩
  by_cases hc : msg.size < r.pubLen + st.sym.overhead X.S.crypto
  · rw [if_pos hc] at he ⊢
    exact err he
  rw [if_neg hc] at he ⊢
  cases hd : st.sym.decryptAndHash X.S.crypto
      (msg.bytes.take (r.pubLen + st.sym.overhead X.S.crypto)) with
  | none => rw [hd] at he; exact err he
  | some y =>
    obtain ⟨sp', pk⟩ := y
    rw [hd] at he
    obtain ⟨sym', r', e1, e2, e3, e4, e5, e6, e7⟩ := he
    have hx : readS X.S.CB s msg = .ok (.none, { s with sym := sym', rs := some r' },
        advance msg (r.pubLen + st.sym.overhead X.S.crypto)) := by
      unfold readS
      rw [hr]
      dsimp only
      rw [e1]
      rfl
    have := w1.symm.trans hx
    cases this
    refine ⟨_, _, hx, advance_bytes _ _, w2.size, ?_, w2.frame, rfl, rfl⟩
    exact {
      sound := w2.sound, sym := e2
      role := h.role, psk := by simp only [e3]; exact h.psk
      ls := h.ls, le := h.le, lh := h.lh, lhNone := h.lhNone
      rs := fun x hx => ⟨r', rfl, by simp [e6], by cases hx; exact e7⟩, re := h.re
      rh := h.rh, rhNone := h.rhNone
      lhRole := h.lhRole, rhRole := h.rhRole, bothRole := h.bothRole }

theorem readF_rel {R : Real X P Q} {s : X.H} {st : HSt P Q} (h : Rel R s st)
    (hlh : s.lh.isSome = true) (hrh : s.rh.isSome = true) (msg : Buf) (hm : msg.size ≤ msg.maxSize) :
    RSim R s (readF X.S.CB s msg) (HSt.readTok X.S.crypto .f st msg.bytes) := by
  obtain ⟨l, hl⟩ := Option.isSome_iff_exists.mp hlh
  obtain ⟨r0, hr0⟩ := Option.isSome_iff_exists.mp hrh
  obtain ⟨x, w1, w2, _⟩ := readF_ok h.sound msg hm
  unfold HSt.readTok
  dsimp only
  by_cases hf : st.rf.isSome = true
  · rw [if_pos hf]; trivial
  rw [if_neg hf]
  have hrf0 : st.rf = none := by simpa using hf
  have hcond : (if l.keyType = .noKey then Role.initiator else .responder) = genRole st.f.isSome := by
    cases hsf : st.f with
    | none => simp [h.lhNone hsf l hl, genRole]
    | some k =>
      obtain ⟨d, d1, d2⟩ := h.lh k hsf
      cases hl.symm.trans d1
      simp [R.RG.keypair _ _ d2, genRole]
  obtain ⟨c1, c2, c3⟩ := X.WG.changeRole r0 (some (genRole st.f.isSome)) (h.sound.rh r0 hr0)
  obtain ⟨r, hr⟩ : ∃ r, X.G.setRole r0 (some (genRole st.f.isSome)) = r := ⟨_, rfl⟩
  replace c1 : X.IG r := hr ▸ c1
  replace c2 : r.role = some (genRole st.f.isSome) := hr ▸ c2
  have hpl : r.pubLen = Q.len st.f.isSome := by
    rw [X.WG.pubLen r c1, c2]; exact R.RG.len _
  have he := readEncrypted_rel X.S X.WG s.sym st.sym h.sym r c1 (R.RG.validate r)
    (by rw [hpl]; exact R.smallG _) msg hm
  rw [bytes_length hm, ← hpl, ← overhead_eq]
  have err : (∃ x, readEncrypted X.S.CB X.G s.sym r msg = .ok x ∧ x.1 ≠ .none) →
      ∃ x, readF X.S.CB s msg = .ok x ∧ x.1 ≠ .none := by
    rintro ⟨⟨e, a, b, c⟩, x1, x2⟩
    unfold readF
    rw [hl, hr0]
    dsimp only
    rw [hcond, hr, x1]
    simp only [Out.bind_ok]
    rw [if_pos x2]
    exact ⟨_, rfl, x2⟩
  by_cases hc : msg.size < r.pubLen + st.sym.overhead X.S.crypto
  · rw [if_pos hc] at he ⊢
    exact err he
  rw [if_neg hc] at he ⊢
  cases hd : st.sym.decryptAndHash X.S.crypto
      (msg.bytes.take (r.pubLen + st.sym.overhead X.S.crypto)) with
  | none => rw [hd] at he; exact err he
  | some y =>
    obtain ⟨sp', pk⟩ := y
    rw [hd] at he
    obtain ⟨sym', r', e1, e2, e3, e4, e5, e6, e7⟩ := he
    have hn := isNullPublicKey_eq X.WG r' e4
    rw [e7] at hn
    have hx0 : readF X.S.CB s msg = readFCheck { s with sym := sym', rh := some r' } r'
        (advance msg (r.pubLen + st.sym.overhead X.S.crypto)) := by
      unfold readF
      rw [hl, hr0]
      dsimp only
      rw [hcond, hr, e1]
      rfl
    dsimp only
    by_cases hrej : Q.reject pk = true
    · rw [if_pos hrej]
      rw [R.RG.reject] at hrej
      simp only [decide_eq_true_eq] at hrej
      rw [hx0]
      unfold readFCheck
      rw [hn]
      simp [e6, hrej, RSim]
    rw [if_neg hrej]
    rw [R.RG.reject] at hrej
    simp only [decide_eq_true_eq] at hrej
    have hx : readF X.S.CB s msg = .ok (.none, { s with sym := sym', rh := some r' },
        advance msg (r.pubLen + st.sym.overhead X.S.crypto)) := by
      rw [hx0]
      unfold readFCheck
      rw [hn]
      simp only [Out.bind_ok, Out.pure_eq]
      rw [if_neg (by simpa [e6] using hrej)]
    have := w1.symm.trans hx
    cases this
    refine ⟨_, _, hx, advance_bytes _ _, w2.size, ?_, w2.frame, rfl, rfl⟩
    have hrole : r'.role = some (genRole st.f.isSome) := e5.trans c2
    exact {
      sound := w2.sound, sym := e2
      role := h.role, psk := by simp only [e3]; exact h.psk
      ls := h.ls, le := h.le, lh := h.lh, lhNone := h.lhNone
      rs := h.rs, re := h.re
      rh := fun x hx => ⟨r', rfl, by simp [e6], by cases hx; exact e7⟩
      rhNone := fun hn => by cases hn
      lhRole := fun d hd _ hn => by cases hn
      rhRole := fun d hd _ hn => by
        cases hd
        have hn' : st.f = none := hn
        rw [hrole, hn']; rfl
      bothRole := fun d q hd hq hsome _ => by
        cases hq
        have hsome' : st.f.isSome = true := hsome
        refine ⟨false, ?_, by rw [hrole, hsome']; rfl⟩
        exact h.lhRole d hd hsome' hrf0 }

theorem readToken_rel {R : Real X P Q} {s : X.H} {st : HSt P Q} (h : Rel R s st) (t : UInt8) (k : Tok)
    (hd : decodeTok t = some k) (ha : s.pres.avail false t = true)
    (hp : s.pres.priv s.role t = true) (junk : Nat → UInt8) (msg : Buf) (hm : msg.size ≤ msg.maxSize) :
    RSim R s (readToken X.S.CB junk t s msg) (HSt.readTok X.S.crypto k st msg.bytes) := by
  unfold readToken
  unfold Pres.avail at ha
  by_cases h1 : t = tokE
  · rw [if_pos h1] at ha ⊢
    have hk : k = .e := by unfold decodeTok at hd; rw [if_pos h1] at hd; cases hd; rfl
    subst hk
    exact readE_rel h (by simpa [pres] using ha) msg hm
  rw [if_neg h1] at ha ⊢
  by_cases h2 : t = tokS
  · rw [if_pos h2] at ha ⊢
    have hk : k = .s := by unfold decodeTok at hd; rw [if_neg h1, if_pos h2] at hd; cases hd; rfl
    subst hk
    exact readS_rel h (by simpa [pres] using ha) msg hm
  rw [if_neg h2] at ha ⊢
  by_cases h3 : t = tokF
  · rw [if_pos h3] at ha ⊢
    have hk : k = .f := by
      unfold decodeTok at hd; rw [if_neg h1, if_neg h2, if_pos h3] at hd; cases hd; rfl
    subst hk
    simp only [pres, Bool.and_eq_true] at ha
    exact readF_rel h ha.1 ha.2 msg hm
  rw [if_neg h3]
  have hdh := dhToken_rel h t k hd h1 h2 h3 hp junk
  have hwt : HSt.readTok X.S.crypto k st msg.bytes = (match HSt.dhTok X.S.crypto k st with
      | .ok st' => .ok (st', msg.bytes)
      | .fail => .fail
      | .stuck => .stuck) := by
    unfold decodeTok at hd
    rw [if_neg h1, if_neg h2, if_neg h3] at hd
    cases k with
    | e => repeat' (split at hd; cases hd)
           cases hd
    | s => repeat' (split at hd; cases hd)
           cases hd
    | f => repeat' (split at hd; cases hd)
           cases hd
    | ee => rfl
    | es => rfl
    | se => rfl
    | ss => rfl
    | ff => rfl
  rw [hwt]
  cases hx : HSt.dhTok X.S.crypto k st with
  | stuck => trivial
  | fail =>
    rw [hx] at hdh
    obtain ⟨⟨e, s'⟩, d1, d2⟩ := hdh
    rw [d1]
    exact ⟨_, rfl, d2⟩
  | ok st' =>
    rw [hx] at hdh
    obtain ⟨s', d1, d2, d3, d4, d5⟩ := hdh
    rw [d1]
    exact ⟨s', msg, rfl, rfl, hm, d2, d3, d4, d5⟩

theorem readLoop_rel {R : Real X P Q} (junk : Nat → Nat → UInt8) :
    ∀ (ts : Bytes) (m : List Tok) (ms : List (List Tok)) (s : X.H) (st : HSt P Q) (msg : Buf),
      decodeMsgs ts = some (m :: ms) → Rel R s st → ready s.pres s.role false ts = true →
      msg.size ≤ msg.maxSize →
      match HSt.readToks X.S.crypto m st msg.bytes with
      | .ok (st', rest) => ∃ s' msg', readLoop X.S.CB junk ts s msg = .ok (.none, s', msg') ∧
          msg'.bytes = rest ∧ msg'.size ≤ msg'.maxSize ∧
          Rel R s' st' ∧ s.Frame s' ∧ After .write ms s' ∧
          (ms ≠ [] → ready s'.pres s'.role true s'.tokens = true)
      | .fail => ∃ x, readLoop X.S.CB junk ts s msg = .ok x ∧ x.1 ≠ .none
      | .stuck => True := by
  intro ts
  induction ts with
  | nil => intro m ms s st msg hd; simp [decodeMsgs] at hd
  | cons t ts ih =>
    intro m ms s st msg hd h hr hsz
    unfold decodeMsgs at hd
    unfold ready at hr
    unfold readLoop
    have relEq : ∀ (s' : X.H), s'.sym = s.sym → s'.role = s.role → s'.ls = s.ls → s'.le = s.le →
        s'.lh = s.lh → s'.rs = s.rs → s'.re = s.re → s'.rh = s.rh → s'.fe = s.fe → s'.fh = s.fh →
        Rel R s' st := by
      intro s' e1 e2 e3 e4 e5 e6 e7 e8 e9 e10
      exact h.setSym (h.sound.congr e1 e3 e4 e5 e6 e7 e8 e9 e10) (by rw [e1]; exact h.sym) (by rw [e1])
        e2 e3 e4 e5 e6 e7 e8
    by_cases h1 : t = tokEnd
    · rw [if_pos h1] at hd
      rw [if_pos h1]
      simp only [Option.some.injEq, List.cons.injEq] at hd
      obtain ⟨rfl, hms⟩ := hd
      have hms' : ms = [] := by simpa using hms.symm
      subst hms'
      exact ⟨_, _, rfl, rfl, hsz, relEq _ rfl rfl rfl rfl rfl rfl rfl rfl rfl rfl,
        ⟨rfl, rfl, rfl, rfl, rfl, rfl, rfl, .refl⟩, ⟨fun _ => rfl, fun hn => absurd rfl hn⟩,
        fun hn => absurd rfl hn⟩
    rw [if_neg h1] at hd hr ⊢
    by_cases h2 : t = tokFlipDir
    · rw [if_pos h2] at hd hr ⊢
      cases hdm : decodeMsgs ts with
      | none => rw [hdm] at hd; simp at hd
      | some ms' =>
        rw [hdm] at hd
        simp only [Option.map_some, Option.some.injEq, List.cons.injEq] at hd
        obtain ⟨rfl, rfl⟩ := hd
        refine ⟨_, _, rfl, rfl, hsz, relEq _ rfl rfl rfl rfl rfl rfl rfl rfl rfl rfl,
          ⟨rfl, rfl, rfl, rfl, rfl, rfl, rfl, .refl⟩, ⟨fun hn => ?_, fun _ => ⟨rfl, hdm⟩⟩,
          fun _ => hr⟩
        subst hn
        exact absurd hdm (decodeMsgs_ne_nil ts)
    rw [if_neg h2] at hd hr ⊢
    cases hk : decodeTok t with
    | none => rw [hk] at hd; simp at hd
    | some k =>
    cases hdm : decodeMsgs ts with
    | none => rw [hk, hdm] at hd; simp at hd
    | some ms0 =>
    cases ms0 with
    | nil => exact absurd hdm (decodeMsgs_ne_nil ts)
    | cons m' ms' =>
    rw [hk, hdm] at hd
    simp only [Option.some.injEq, List.cons.injEq] at hd
    obtain ⟨rfl, rfl⟩ := hd
    simp only [Bool.and_eq_true] at hr
    obtain ⟨⟨hav, hpr⟩, hrd⟩ := hr
    have hw := readToken_rel h t k hk hav hpr (junk ts.length) msg hsz
    unfold HSt.readToks
    cases hwt : HSt.readTok X.S.crypto k st msg.bytes with
    | stuck => trivial
    | fail =>
      rw [hwt] at hw
      obtain ⟨⟨e, s', m1⟩, w1, w2⟩ := hw
      simp only [w1, Out.bind_ok]
      rw [if_pos w2]
      exact ⟨_, rfl, w2⟩
    | ok x =>
      obtain ⟨st1, rest⟩ := x
      rw [hwt] at hw
      obtain ⟨s1, msg1, w1, w0, w2, w3, w4, w5, w6⟩ := hw
      simp only [w1, Out.bind_ok]
      rw [if_neg (by simp)]
      have h2r : Rel R { s1 with tokens := ts } st1 :=
        w3.setSym (w3.sound.congr rfl rfl rfl rfl rfl rfl rfl rfl rfl) w3.sym rfl rfl rfl rfl rfl rfl
          rfl rfl
      have ihh := ih m' ms' { s1 with tokens := ts } st1 msg1 hdm h2r
        (by rw [show ({ s1 with tokens := ts } : X.H).pres = s1.pres from rfl, w4.pres]
            rw [show ({ s1 with tokens := ts } : X.H).role = s1.role from rfl, w4.role]; exact hrd)
        w2
      have fr : s.Frame { s1 with tokens := ts } :=
        w4.trans ⟨rfl, rfl, rfl, rfl, rfl, rfl, rfl, .refl⟩
      rw [w0] at ihh
      cases hrest : HSt.readToks X.S.crypto m' st1 rest with
      | stuck => trivial
      | fail => rw [hrest] at ihh; exact ihh
      | ok y =>
        obtain ⟨st2, b⟩ := y
        rw [hrest] at ihh
        obtain ⟨s2, msg2, j1, j2, j3, j4, j5, j6, j7⟩ := ihh
        exact ⟨s2, msg2, j1, j2, j3, j4, fr.trans j5, j6, j7⟩

/-- The read failed: an error, the handshake failed and no payload was stored. -/
def ReadFails (payload : Option Bytes) (r : Out (Err × X.H × Buf × Option Buf)) : Prop :=
  ∃ e s' b, r = .ok (e, s', b, payload.map (⟨·, 0⟩)) ∧ e ≠ .none ∧ s'.action = .failed

/-- The buffers after a successful read: the message is wiped, the payload (if wanted) is stored at the
start of the payload memory. -/
def payloadBuf (payload : Option Bytes) (pl : Bytes) : Option Buf :=
  payload.map fun p => ⟨pl ++ p.drop pl.length, pl.length⟩

/-- read_message is the specification's ReadMessage. -/
theorem readMessage_rel {R : Real X P Q} (junk : Nat → Nat → UInt8) (s : X.H) (st : HSt P Q)
    (h : Rel R s st) (ha : s.action = .read) (hd : decodeMsgs s.tokens = some st.msgs)
    (hr : HS.ready s.pres s.role false s.tokens = true) (msg : Buf) (hm : msg.size ≤ msg.maxSize)
    (payload : Option Bytes) :
    match HSt.readMessage X.S.crypto st msg.bytes with
    | .ok (st', ct, pl) =>
      (ct.length ≤ 65535 ∧ (∀ p, payload = some p → pl.length ≤ p.length) → ∃ s',
        readMessage X.S.CB junk s msg payload = .ok (.none, s',
          ⟨List.replicate msg.size 0 ++ msg.data.drop msg.size, msg.size⟩, payloadBuf payload pl) ∧
        Done R s st' true s') ∧
      (¬ (ct.length ≤ 65535 ∧ (∀ p, payload = some p → pl.length ≤ p.length)) →
        ReadFails payload (readMessage X.S.CB junk s msg payload))
    | .fail => ReadFails payload (readMessage X.S.CB junk s msg payload)
    | .stuck => True := by
  have hst : store msg.data 0 (List.replicate msg.size 0) =
      .ok (List.replicate msg.size 0 ++ msg.data.drop msg.size) := by
    rw [store_at_zero _ _ (by simpa [Buf.maxSize] using hm)]; simp
  have failed : ∀ e s' p, read X.S.CB junk s msg payload = .ok (e, s', p) → e ≠ .none →
      p = payload.map (⟨·, 0⟩) → ReadFails payload (readMessage X.S.CB junk s msg payload) := by
    intro e s' p hx hne hp
    unfold readMessage
    rw [if_neg (by omega), if_neg (by simp [ha]), hx]
    simp only [Out.bind_ok, hst]
    rw [if_pos hne, hp]
    exact ⟨_, _, _, rfl, hne, rfl⟩
  have loopFailed : (∃ x, readLoop X.S.CB junk s.tokens s msg = .ok x ∧ x.1 ≠ .none) →
      ReadFails payload (readMessage X.S.CB junk s msg payload) := by
    rintro ⟨⟨e, s', m'⟩, l1, l2⟩
    refine failed e s' _ ?_ l2 rfl
    unfold read
    rw [l1]
    simp only [Out.bind_ok]
    rw [if_pos l2]
    rfl
  unfold HSt.readMessage
  cases hms : st.msgs with
  | nil => trivial
  | cons m ms =>
    rw [hms] at hd
    have hl := readLoop_rel junk s.tokens m ms s st msg hd h hr hm
    dsimp only
    cases hw : HSt.readToks X.S.crypto m st msg.bytes with
    | stuck => trivial
    | fail => rw [hw] at hl; exact loopFailed hl
    | ok x =>
      obtain ⟨st1, rest⟩ := x
      rw [hw] at hl
      obtain ⟨s1, msg1, l1, l2, l3, l4, l5, l6, l7⟩ := hl
      have hrd : read X.S.CB junk s msg payload = readPayload X.S.CB payload s1 msg1 := by
        unfold read
        rw [l1]
        simp
      have hrl : rest.length = msg1.size := by rw [← l2]; exact bytes_length l3
      obtain ⟨k1, k2⟩ := C08_decrypt_and_hash X.S s1.sym st1.sym l4.sym msg1 l3
      rw [l2] at k1
      obtain ⟨e5, s5, p5, q1, q2, q3, _, _, _, q7⟩ := readPayload_ok l4.sound payload msg1 l3
      dsimp only
      have hfail0 : e5 ≠ .none → ReadFails payload (readMessage X.S.CB junk s msg payload) :=
        fun hne => failed e5 s5 p5 (hrd.trans q1) hne (q7 hne)
      have hF : (∃ e y b, s1.sym.decryptAndHash X.S.CB msg1 = .ok (e, y, b) ∧ e ≠ .none) →
          ReadFails payload (readMessage X.S.CB junk s msg payload) := by
        rintro ⟨e, y, b, d1, d2⟩
        apply hfail0
        unfold readPayload at q1
        rw [d1] at q1
        simp only [Out.bind_ok] at q1
        rw [if_pos d2] at q1
        cases q1
        exact d2
      cases he : st1.sym.decryptAndHash X.S.crypto rest with
      | none =>
        rw [he] at k1
        by_cases hfit : st1.sym.overhead X.S.crypto ≤ msg1.size ∧ msg1.size ≤ 65535
        · obtain ⟨e, s', d0, d1, _⟩ := k1 hfit
          exact hF ⟨_, _, _, d1, d0⟩
        · exact hF ⟨_, _, _, k2 hfit, by simp⟩
      | some y =>
        obtain ⟨sp', pl⟩ := y
        rw [he] at k1
        have hpl := spec_decrypt_length X.S he
        dsimp only at k1 ⊢
        by_cases h65 : rest.length ≤ 65535
        · obtain ⟨sym', b', d1, d2, d3, d4, d5, d6, d7, d8⟩ := k1 (by omega)
          simp only [Buf.maxSize] at d5 l3
          have hload : load b'.data 0 b'.size = .ok pl := by
            rw [load_ok (by omega)]
            simp only [List.drop_zero]
            rw [show b'.data.take b'.size = pl from d3]
          by_cases hp : ∀ p, payload = some p → pl.length ≤ p.length
          · refine ⟨fun _ => ?_, fun hn => absurd ⟨h65, hp⟩ hn⟩
            have hx : readPayload X.S.CB payload s1 msg1 = .ok (.none, { s1 with sym := sym' },
                payloadBuf payload pl) := by
              unfold readPayload
              rw [d1]
              simp only [Out.bind_ok]
              rw [if_neg (by simp)]
              cases payload with
              | none => rfl
              | some p =>
                have hp := hp p rfl
                dsimp only
                rw [if_neg (by omega), hload]
                simp only [Out.bind_ok]
                rw [store_at_zero _ _ hp, d4]
                rfl
            have := q1.symm.trans hx
            cases this
            refine ⟨{ s1 with sym := sym' }, ?_, ?_⟩
            · unfold readMessage
              rw [if_neg (by omega), if_neg (by simp [ha]), hrd, hx]
              simp only [Out.bind_ok, hst]
              rfl
            · exact ⟨{ l4.setSym (s' := { s1 with sym := sym' }) q2 d2 d8 rfl rfl rfl rfl rfl rfl rfl with },
                l5.trans q3, l6, l7⟩
          · refine ⟨fun hn => absurd hn.2 hp, fun _ => ?_⟩
            apply hfail0
            unfold readPayload at q1
            rw [d1] at q1
            simp only [Out.bind_ok] at q1
            rw [if_neg (by simp)] at q1
            cases payload with
            | none => exact absurd (fun p h => by cases h) hp
            | some p =>
              dsimp only at q1
              rw [if_pos (by
                apply Nat.lt_of_not_le
                intro hle
                exact hp (fun p' h => by cases h; omega))] at q1
              cases q1
              simp
        · refine ⟨fun hn => absurd hn.1 h65, fun _ => ?_⟩
          exact hF ⟨_, _, _, k2 (by omega), by simp⟩

end HS
end Noise
