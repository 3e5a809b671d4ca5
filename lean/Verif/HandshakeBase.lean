import Verif.Handshake
import Verif.SymmetricProps
import Verif.DHProps
import Verif.PatternsProps
/-!
# Invariants of the handshake layer: every operation is defined and keeps the objects sound
-/

namespace Noise

/-- A cipher suite and two Diffie-Hellman back ends (the main one and the hybrid one), with their
invariants. Not a definition of the code base. -/
structure Setup where
  S : Suite
  D : DHBackend
  ID : DHState D.Ext → Prop
  LD : Option Role → Nat
  WD : D.Lawful ID LD
  G : DHBackend
  IG : DHState G.Ext → Prop
  LG : Option Role → Nat
  WG : G.Lawful IG LG

namespace Setup
/-- Handshake objects of a setup. -/
abbrev H (X : Setup) := HS X.S.HB X.D X.G
/-- Symmetric states of a setup. -/
abbrev Sy (X : Setup) := SymState X.S.HB
end Setup

/-- `h` and `ck` hold `hash_len` bytes. -/
def SymState.Ok {HB : HashBackend} (s : SymState HB) : Prop :=
  s.h.length = HB.hashLen ∧ s.ck.length = HB.hashLen

/-- What no symmetric operation during a handshake changes. -/
structure SymState.Next {HB : HashBackend} (s s' : SymState HB) : Prop where
  ok : s.Ok → s'.Ok
  id : s'.id = s.id
  cipher : s'.cipher.isSome = s.cipher.isSome

namespace SymState.Next
variable {HB : HashBackend} {s s' s'' : SymState HB}
theorem refl : s.Next s := ⟨fun h => h, rfl, rfl⟩
theorem trans (a : s.Next s') (b : s'.Next s'') : s.Next s'' :=
  ⟨fun h => b.ok (a.ok h), b.id.trans a.id, b.cipher.trans a.cipher⟩
end SymState.Next

section sym
variable (S : Suite)

theorem rep_self {s : SymState S.HB} {c : CipherState} (h : s.cipher = some c) :
    s.Rep ⟨c.abs, s.ck, s.h⟩ := ⟨⟨c, h, rfl⟩, rfl, rfl⟩

theorem rep_isSome {s : SymState S.HB} {sp : Spec.Sym} (h : s.Rep sp) : s.cipher.isSome = true := by
  obtain ⟨⟨c, hc, _⟩, _⟩ := h; simp [hc]

theorem mixKey_next (s : SymState S.HB) (input : Bytes) :
    ∃ e s', s.mixKey S.CB input = .ok (e, s') ∧ s.Next s' ∧ s'.h = s.h ∧
      (s.cipher.isSome = true → e = .none) := by
  cases hc : s.cipher with
  | none =>
    exact ⟨.invalidState, s, by simp [SymState.mixKey, hc], .refl, rfl, by simp⟩
  | some c =>
    obtain ⟨s', h1, h2, h3⟩ := C08_mix_key S s _ (rep_self S hc) input
    refine ⟨_, _, h1, ⟨?_, h3, ?_⟩, ?_, fun _ => rfl⟩
    · intro ho
      refine ⟨?_, ?_⟩
      · rw [h2.2.2]; exact ho.1
      · rw [h2.2.1]
        simp [Spec.Sym.mixKey, Spec.hkdf, Suite.crypto, specHkdf, specHmac_length S.hl]
    · rw [rep_isSome S h2, hc]; rfl
    · rw [h2.2.2]; rfl

theorem mixHash_next (s : SymState S.HB) (input : Bytes) :
    s.Next (s.mixHash input).2 ∧ (s.mixHash input).2.ck = s.ck ∧
      (s.cipher.isSome = true → (s.mixHash input).1 = .none) := by
  cases hc : s.cipher with
  | none =>
    have : s.mixHash input = (.invalidState, s) := by simp [SymState.mixHash, hc]
    rw [this]; exact ⟨.refl, rfl, by simp⟩
  | some c =>
    obtain ⟨s', h1, h2, h3, h4⟩ := C08_mix_hash S s _ (rep_self S hc) input
    rw [h1]
    refine ⟨⟨?_, h3, by rw [h4]⟩, h2.2.1, fun _ => rfl⟩
    intro ho
    refine ⟨?_, ?_⟩
    · rw [h2.2.2]; simp [Spec.Sym.mixHash, Suite.crypto, S.hl.length]
    · rw [h2.2.1]; exact ho.2

theorem encrypt_next (s : SymState S.HB) (b : Buf) (hb : b.size ≤ b.maxSize) :
    ∃ e s' b', s.encryptAndHash S.CB b = .ok (e, s', b') ∧ s.Next s' ∧ b'.maxSize = b.maxSize ∧
      b'.size ≤ b'.maxSize ∧ s'.ck = s.ck := by
  cases hc : s.cipher with
  | none =>
    exact ⟨.invalidState, s, b, by simp [SymState.encryptAndHash, hc], .refl, rfl, hb, rfl⟩
  | some c =>
    obtain ⟨k1, k2⟩ := C08_encrypt_and_hash S s _ (rep_self S hc) b hb
    have nx : ∀ (sp : Spec.Sym) (s' : SymState S.HB), s'.Rep sp → s'.id = s.id →
        (sp.h.length = s.h.length ∨ sp.h.length = S.HB.hashLen) → sp.ck = s.ck → s.Next s' := by
      intro sp s' hr hid hh hk
      refine ⟨?_, hid, by rw [rep_isSome S hr, hc]; rfl⟩
      intro ho
      refine ⟨?_, by rw [hr.2.1, hk]; exact ho.2⟩
      rw [hr.2.2]
      rcases hh with hh | hh
      · rw [hh]; exact ho.1
      · exact hh
    by_cases hfit : b.size + Spec.Sym.overhead S.crypto ⟨c.abs, s.ck, s.h⟩ ≤ b.maxSize ∧
        b.size + Spec.Sym.overhead S.crypto ⟨c.abs, s.ck, s.h⟩ ≤ 65535
    · have := k1 hfit
      unfold Spec.Sym.encryptAndHash at this
      cases hsp : (Spec.Cipher.encryptWithAd S.crypto c.abs s.h b.bytes) with
      | none =>
        simp only [hsp] at this
        obtain ⟨s', h1, h2, h3⟩ := this
        exact ⟨_, _, _, h1, nx _ _ h2 h3 (.inl rfl) rfl, rfl, hb, h2.2.1⟩
      | some p =>
        obtain ⟨c', ct⟩ := p
        simp only [hsp] at this
        obtain ⟨s', h1, h2, h3, h4⟩ := this
        refine ⟨_, _, _, h1, nx _ _ h2 h4 (.inr ?_) rfl, ?_, ?_, h2.2.1⟩
        · simp [Spec.Sym.mixHash, Suite.crypto, S.hl.length]
        · simp only [Buf.maxSize] at hfit ⊢
          simp; omega
        · simp [Buf.maxSize]
    · obtain ⟨s', h1, h2, h3⟩ := k2 hfit
      exact ⟨_, _, _, h1, nx _ _ h2 h3 (.inl rfl) rfl, rfl, hb, h2.2.1⟩

theorem decrypt_next (s : SymState S.HB) (b : Buf) (hb : b.size ≤ b.maxSize) :
    ∃ e s' b', s.decryptAndHash S.CB b = .ok (e, s', b') ∧ s.Next s' ∧ b'.maxSize = b.maxSize ∧
      b'.size ≤ b.size ∧ s'.ck = s.ck ∧
      (e = .none → s.cipher.isSome = true ∧ b'.size + s.getMacLength S.CB = b.size) := by
  cases hc : s.cipher with
  | none =>
    exact ⟨.invalidState, s, b, by simp [SymState.decryptAndHash, hc], .refl, rfl,
      Nat.le_refl _, rfl, (fun h => by cases h)⟩
  | some c =>
    obtain ⟨k1, k2⟩ := C08_decrypt_and_hash S s _ (rep_self S hc) b hb
    have hmac := C08_mac_length S s _ (rep_self S hc)
    have nx : ∀ (sp : Spec.Sym) (s' : SymState S.HB), s'.Rep sp → s'.id = s.id →
        (sp.h.length = s.h.length ∨ sp.h.length = S.HB.hashLen) → sp.ck = s.ck → s.Next s' := by
      intro sp s' hr hid hh hk
      refine ⟨?_, hid, by rw [rep_isSome S hr, hc]; rfl⟩
      intro ho
      refine ⟨?_, by rw [hr.2.1, hk]; exact ho.2⟩
      rw [hr.2.2]
      rcases hh with hh | hh
      · rw [hh]; exact ho.1
      · exact hh
    by_cases hfit : Spec.Sym.overhead S.crypto ⟨c.abs, s.ck, s.h⟩ ≤ b.size ∧ b.size ≤ 65535
    · have := k1 hfit
      unfold Spec.Sym.decryptAndHash at this
      cases hsp : (Spec.Cipher.decryptWithAd S.crypto c.abs s.h b.bytes) with
      | none =>
        simp only [hsp] at this
        obtain ⟨e, s', hne, h1, h2, _, h3⟩ := this
        exact ⟨_, _, _, h1, nx _ _ h2 h3 (.inl rfl) rfl, rfl, Nat.le_refl _, h2.2.1, fun h => absurd h hne⟩
      | some p =>
        obtain ⟨c', ct⟩ := p
        simp only [hsp] at this
        obtain ⟨s', b', h1, h2, h3, h4, h5, h6, h7, h8⟩ := this
        refine ⟨_, _, _, h1, nx _ _ h2 h8 (.inr ?_) rfl, h5, by omega, h2.2.1, fun _ => ⟨rfl, ?_⟩⟩
        · simp [Spec.Sym.mixHash, Suite.crypto, S.hl.length]
        · rw [hmac, h4]
          simpa [Spec.Sym.overhead, Suite.crypto] using h7
    · exact ⟨_, _, _, k2 hfit, .refl, rfl, Nat.le_refl _, rfl, (fun h => by cases h)⟩

end sym

/-! ## Which key objects exist, and which token lists are safe for them -/

/-- Which of the six key objects exist. -/
structure Pres where
  ls : Bool
  le : Bool
  lh : Bool
  rs : Bool
  re : Bool
  rh : Bool
  deriving DecidableEq, Repr

/-- Which of the six key objects exist in a state. -/
def HS.pres {HB : HashBackend} {D G : DHBackend} (s : HS HB D G) : Pres :=
  ⟨s.ls.isSome, s.le.isSome, s.lh.isSome, s.rs.isSome, s.re.isSome, s.rh.isSome⟩

/-- The private key object that a Diffie-Hellman token dereferences exists. -/
def Pres.priv (p : Pres) (role : Role) (t : UInt8) : Bool :=
  if t = tokEe then p.le
  else if t = tokEs then (match role with | .initiator => p.le | .responder => p.ls)
  else if t = tokSe then (match role with | .initiator => p.ls | .responder => p.le)
  else if t = tokSs then p.ls
  else if t = tokFf then p.lh
  else true

/-- The token can be processed without a missing-object error. -/
def Pres.avail (p : Pres) (writing : Bool) (t : UInt8) : Bool :=
  if t = tokE then (if writing then p.le else p.re)
  else if t = tokS then (if writing then p.ls else p.rs)
  else if t = tokF then p.lh && p.rh
  else t = tokEe || t = tokEs || t = tokSe || t = tokSs || t = tokFf

/-- Processing the token list from here never dereferences a missing object or runs off its end. -/
def safe (p : Pres) (role : Role) : Bool → Bytes → Bool
  | _, [] => false
  | w, t :: ts =>
    if t = tokEnd then true
    else if t = tokFlipDir then safe p role (!w) ts
    else !p.avail w t || (p.priv role t && safe p role w ts)

namespace HS

/-- All key objects satisfy their back end's invariant and the symmetric state is well formed. -/
structure Sound (X : Setup) (s : X.H) : Prop where
  sym : s.sym.Ok
  ls : ∀ d, s.ls = some d → X.ID d
  le : ∀ d, s.le = some d → X.ID d
  lh : ∀ d, s.lh = some d → X.IG d
  rs : ∀ d, s.rs = some d → X.ID d
  re : ∀ d, s.re = some d → X.ID d
  rh : ∀ d, s.rh = some d → X.IG d
  fe : ∀ d, s.fe = some d → X.ID d
  fh : ∀ d, s.fh = some d → X.IG d

/-- What processing message tokens does not change. -/
structure Frame {HB : HashBackend} {D G : DHBackend} (s s' : HS HB D G) : Prop where
  role : s'.role = s.role
  reqs : s'.reqs = s.reqs
  psk : s'.psk = s.psk
  prologue : s'.prologue = s.prologue
  fe : s'.fe = s.fe
  fh : s'.fh = s.fh
  pres : s'.pres = s.pres
  sym : s.sym.Next s'.sym

namespace Frame
variable {HB : HashBackend} {D G : DHBackend} {s s' s'' : HS HB D G}
theorem refl : s.Frame s := ⟨rfl, rfl, rfl, rfl, rfl, rfl, rfl, .refl⟩
theorem trans (a : s.Frame s') (b : s'.Frame s'') : s.Frame s'' :=
  ⟨b.role.trans a.role, b.reqs.trans a.reqs, b.psk.trans a.psk, b.prologue.trans a.prologue,
   b.fe.trans a.fe, b.fh.trans a.fh, b.pres.trans a.pres, a.sym.trans b.sym⟩
end Frame

variable {X : Setup}

theorem Sound.setSym {s : X.H} (h : s.Sound X) {sym : X.Sy} (hs : sym.Ok) :
    Sound X { s with sym := sym } :=
  ⟨hs, h.ls, h.le, h.lh, h.rs, h.re, h.rh, h.fe, h.fh⟩

theorem Frame.setSym {HB : HashBackend} {D G : DHBackend} {s : HS HB D G} {sym : SymState HB}
    (hs : s.sym.Next sym) : s.Frame { s with sym := sym } :=
  ⟨rfl, rfl, rfl, rfl, rfl, rfl, rfl, hs⟩

section objects
variable (S : Suite) {D : DHBackend} {Inv : DHState D.Ext → Prop} {L : Option Role → Nat}

theorem mixDh_ok (W : D.Lawful Inv L) (sym : SymState S.HB) (p : DHState D.Ext) (hp : Inv p)
    (pub : Option (DHState D.Ext)) (hq : ∀ q, pub = some q → Inv q) (junk : Nat → UInt8) :
    ∃ e sym' p', mixDh S.CB D sym (some p) pub junk = .ok (e, sym', some p') ∧ sym.Next sym' ∧
      Inv p' ∧ p'.role = p.role ∧ p'.keyType = p.keyType := by
  cases pub with
  | none =>
    obtain ⟨e, s', h1, h2, _⟩ := mixKey_next S sym (randBytes junk D.sharedLen)
    exact ⟨.invalidParam, s', p, by simp [mixDh, h1], h2, hp, rfl, rfl⟩
  | some q =>
    obtain ⟨e, sh, p', h1, _, h3, h4, h5⟩ := calculateApi_eq W p hp (.same q) (hq q rfl)
      (randBytes junk D.sharedLen)
    obtain ⟨e2, s', k1, k2, _⟩ := mixKey_next S sym sh
    exact ⟨e, s', p', by simp [mixDh, h1, k1], k2, h3, h4, h5⟩

theorem genKey_ok (W : D.Lawful Inv L) (rnd : Nat → UInt8) (l : DHState D.Ext) (hl : Inv l)
    (fixed remote : Option (DHState D.Ext)) (hf : ∀ f, fixed = some f → Inv f)
    (hr : ∀ r, remote = some r → Inv r) :
    ∃ e l', genKey D rnd l fixed remote = .ok (e, l') ∧ Inv l' ∧ l'.role = l.role := by
  cases fixed with
  | none =>
    obtain ⟨e, s', h1, h2, h3, _⟩ := generateDependent_eq W rnd l hl (remote.map .same) (by
      intro o ho
      cases remote with
      | none => cases ho
      | some r => cases ho; exact hr r rfl)
    exact ⟨e, s', h1, h2, h3⟩
  | some f =>
    obtain ⟨e, s', h1, h2, h3, _⟩ := W.copy { l with keyType := f.keyType } f remote
      (W.mem l _ _ _ hl rfl rfl) (hf f rfl) hr
    exact ⟨e, s', h1, h2, h3⟩

theorem mixPublicKey_ok (W : D.Lawful Inv L) (sym : SymState S.HB) (o : Option (DHState D.Ext))
    (h : ∀ d, o = some d → Inv d) :
    ∃ sym', mixPublicKey sym o = .ok sym' ∧ sym.Next sym' := by
  cases o with
  | none => exact ⟨_, rfl, .refl⟩
  | some d =>
    unfold mixPublicKey
    dsimp only
    by_cases hk : d.hasPublicKey = true
    · rw [if_pos hk, load_ok (by have := (W.lens d (h d rfl)).2; omega)]
      exact ⟨_, rfl, (mixHash_next S sym _).1⟩
    · rw [if_neg hk]; exact ⟨_, rfl, .refl⟩

theorem mixChainingKey_ok (W : D.Lawful Inv L) (sym : SymState S.HB) (o : Option (DHState D.Ext))
    (h : ∀ d, o = some d → Inv d) :
    ∃ sym', mixChainingKey S.CB sym o = .ok sym' ∧ sym.Next sym' := by
  cases o with
  | none => exact ⟨_, rfl, .refl⟩
  | some d =>
    unfold mixChainingKey
    dsimp only
    by_cases hk : d.hasPublicKey = true
    · rw [if_pos hk, load_ok (by have := (W.lens d (h d rfl)).2; omega)]
      obtain ⟨e, s', h1, h2, _⟩ := mixKey_next S sym ((d.pub.drop 0).take d.pubLen)
      simp only [Out.bind_ok, h1]
      exact ⟨_, rfl, h2⟩
    · rw [if_neg hk]; exact ⟨_, rfl, .refl⟩

theorem mixPsk_ok (sym : SymState S.HB) (psk : Bytes) :
    ∃ sym', mixPsk sym psk = .ok sym' ∧ sym.Next sym' := by
  unfold mixPsk
  by_cases h : psk.isEmpty = true
  · rw [if_pos h]; exact ⟨_, rfl, .refl⟩
  · rw [if_neg h]
    obtain ⟨ctx, he⟩ := (C31_hkdf S.hl sym.ctx sym.ck psk S.HB.hashLen S.HB.hashLen).1
      ⟨Nat.le_refl _, Nat.le_refl _⟩
    rw [he]
    simp only [Out.bind_ok, ne_eq, not_true, if_false, Out.pure_eq]
    refine ⟨_, rfl, SymState.Next.trans ?_ (mixHash_next S _ _).1⟩
    exact ⟨fun ho => ⟨ho.1, by simp [specHkdf, specHmac_length S.hl]⟩, rfl, rfl⟩

theorem clearOpt_ok (W : D.Lawful Inv L) (o : Option (DHState D.Ext)) (h : ∀ d, o = some d → Inv d) :
    ∃ o', clearOpt D o = .ok o' ∧ o'.isSome = o.isSome ∧ (∀ d, o' = some d → Inv d) ∧
      (∀ d, o' = some d → d.keyType = .noKey ∧ AllZero d.pubKey) := by
  cases o with
  | none => exact ⟨none, rfl, rfl, (fun d hd => by cases hd), (fun d hd => by cases hd)⟩
  | some d =>
    obtain ⟨s', h1, h2, _, h4, _, _, h7, _⟩ := clearKey_eq W d (h d rfl)
    exact ⟨some s', by simp [clearOpt, h1], rfl, (fun d hd => by cases hd; exact h2),
      (fun d hd => by cases hd; exact ⟨h4, h7⟩)⟩

end objects

/-! ## Tokens -/

theorem dhEE_ok {s : X.H} (h : s.Sound X) (hp : s.le.isSome = true) (junk : Nat → UInt8) :
    ∃ e s', dhEE X.S.CB junk s = .ok (e, s') ∧ s'.Sound X ∧ s.Frame s' ∧ s'.action = s.action ∧
      s'.tokens = s.tokens := by
  obtain ⟨p, hpe⟩ := Option.isSome_iff_exists.mp hp
  obtain ⟨e, sym', p', h1, h2, h3, _⟩ := mixDh_ok X.S X.WD s.sym p (h.le p hpe) s.re h.re junk
  refine ⟨e, { s with sym := sym', le := some p' }, by simp [dhEE, hpe, h1], ?_, ?_, rfl, rfl⟩
  · exact ⟨h2.ok h.sym, h.ls, (fun d hd => by cases hd; exact h3), h.lh, h.rs, h.re, h.rh, h.fe, h.fh⟩
  · exact ⟨rfl, rfl, rfl, rfl, rfl, rfl, by simp [pres, hpe], h2⟩

theorem dhLeRs_ok {s : X.H} (h : s.Sound X) (hp : s.le.isSome = true) (junk : Nat → UInt8) :
    ∃ e s', dhLeRs X.S.CB junk s = .ok (e, s') ∧ s'.Sound X ∧ s.Frame s' ∧ s'.action = s.action ∧
      s'.tokens = s.tokens := by
  obtain ⟨p, hpe⟩ := Option.isSome_iff_exists.mp hp
  obtain ⟨e, sym', p', h1, h2, h3, _⟩ := mixDh_ok X.S X.WD s.sym p (h.le p hpe) s.rs h.rs junk
  refine ⟨e, { s with sym := sym', le := some p' }, by simp [dhLeRs, hpe, h1], ?_, ?_, rfl, rfl⟩
  · exact ⟨h2.ok h.sym, h.ls, (fun d hd => by cases hd; exact h3), h.lh, h.rs, h.re, h.rh, h.fe, h.fh⟩
  · exact ⟨rfl, rfl, rfl, rfl, rfl, rfl, by simp [pres, hpe], h2⟩

theorem dhLsRe_ok {s : X.H} (h : s.Sound X) (hp : s.ls.isSome = true) (junk : Nat → UInt8) :
    ∃ e s', dhLsRe X.S.CB junk s = .ok (e, s') ∧ s'.Sound X ∧ s.Frame s' ∧ s'.action = s.action ∧
      s'.tokens = s.tokens := by
  obtain ⟨p, hpe⟩ := Option.isSome_iff_exists.mp hp
  obtain ⟨e, sym', p', h1, h2, h3, _⟩ := mixDh_ok X.S X.WD s.sym p (h.ls p hpe) s.re h.re junk
  refine ⟨e, { s with sym := sym', ls := some p' }, by simp [dhLsRe, hpe, h1], ?_, ?_, rfl, rfl⟩
  · exact ⟨h2.ok h.sym, (fun d hd => by cases hd; exact h3), h.le, h.lh, h.rs, h.re, h.rh, h.fe, h.fh⟩
  · exact ⟨rfl, rfl, rfl, rfl, rfl, rfl, by simp [pres, hpe], h2⟩

theorem dhSS_ok {s : X.H} (h : s.Sound X) (hp : s.ls.isSome = true) (junk : Nat → UInt8) :
    ∃ e s', dhSS X.S.CB junk s = .ok (e, s') ∧ s'.Sound X ∧ s.Frame s' ∧ s'.action = s.action ∧
      s'.tokens = s.tokens := by
  obtain ⟨p, hpe⟩ := Option.isSome_iff_exists.mp hp
  obtain ⟨e, sym', p', h1, h2, h3, _⟩ := mixDh_ok X.S X.WD s.sym p (h.ls p hpe) s.rs h.rs junk
  refine ⟨e, { s with sym := sym', ls := some p' }, by simp [dhSS, hpe, h1], ?_, ?_, rfl, rfl⟩
  · exact ⟨h2.ok h.sym, (fun d hd => by cases hd; exact h3), h.le, h.lh, h.rs, h.re, h.rh, h.fe, h.fh⟩
  · exact ⟨rfl, rfl, rfl, rfl, rfl, rfl, by simp [pres, hpe], h2⟩

theorem dhFF_ok {s : X.H} (h : s.Sound X) (hp : s.lh.isSome = true) (junk : Nat → UInt8) :
    ∃ e s', dhFF X.S.CB junk s = .ok (e, s') ∧ s'.Sound X ∧ s.Frame s' ∧ s'.action = s.action ∧
      s'.tokens = s.tokens := by
  obtain ⟨p, hpe⟩ := Option.isSome_iff_exists.mp hp
  obtain ⟨e, sym', p', h1, h2, h3, _⟩ := mixDh_ok X.S X.WG s.sym p (h.lh p hpe) s.rh h.rh junk
  refine ⟨e, { s with sym := sym', lh := some p' }, by simp [dhFF, hpe, h1], ?_, ?_, rfl, rfl⟩
  · exact ⟨h2.ok h.sym, h.ls, h.le, (fun d hd => by cases hd; exact h3), h.rs, h.re, h.rh, h.fe, h.fh⟩
  · exact ⟨rfl, rfl, rfl, rfl, rfl, rfl, by simp [pres, hpe], h2⟩

theorem dhToken_ok {s : X.H} (h : s.Sound X) (t : UInt8) (hp : s.pres.priv s.role t = true)
    (junk : Nat → UInt8) :
    ∃ e s', dhToken X.S.CB junk t s = .ok (e, s') ∧ s'.Sound X ∧ s.Frame s' ∧ s'.action = s.action ∧
      s'.tokens = s.tokens ∧
      (e = .none → t = tokEe ∨ t = tokEs ∨ t = tokSe ∨ t = tokSs ∨ t = tokFf) := by
  have fin : ∀ (r : Out (Err × X.H)), (t = tokEe ∨ t = tokEs ∨ t = tokSe ∨ t = tokSs ∨ t = tokFf) →
      (∃ e s', r = .ok (e, s') ∧ s'.Sound X ∧ s.Frame s' ∧ s'.action = s.action ∧
        s'.tokens = s.tokens) →
      ∃ e s', r = .ok (e, s') ∧ s'.Sound X ∧ s.Frame s' ∧ s'.action = s.action ∧
        s'.tokens = s.tokens ∧
        (e = .none → t = tokEe ∨ t = tokEs ∨ t = tokSe ∨ t = tokSs ∨ t = tokFf) := by
    rintro r ht ⟨e, s', h1, h2, h3, h4, h5⟩
    exact ⟨e, s', h1, h2, h3, h4, h5, fun _ => ht⟩
  unfold dhToken
  unfold Pres.priv at hp
  by_cases h1 : t = tokEe
  · rw [if_pos h1] at hp ⊢
    exact fin _ (by simp [h1]) (dhEE_ok h hp junk)
  rw [if_neg h1] at hp ⊢
  by_cases h2 : t = tokEs
  · rw [if_pos h2] at hp ⊢
    cases hr : s.role with
    | initiator => rw [hr] at hp; exact fin _ (by simp [h2]) (dhLeRs_ok h hp junk)
    | responder => rw [hr] at hp; exact fin _ (by simp [h2]) (dhLsRe_ok h hp junk)
  rw [if_neg h2] at hp ⊢
  by_cases h3 : t = tokSe
  · rw [if_pos h3] at hp ⊢
    cases hr : s.role with
    | initiator => rw [hr] at hp; exact fin _ (by simp [h3]) (dhLsRe_ok h hp junk)
    | responder => rw [hr] at hp; exact fin _ (by simp [h3]) (dhLeRs_ok h hp junk)
  rw [if_neg h3] at hp ⊢
  by_cases h4 : t = tokSs
  · rw [if_pos h4] at hp ⊢
    exact fin _ (by simp [h4]) (dhSS_ok h hp junk)
  rw [if_neg h4] at hp ⊢
  by_cases h5 : t = tokFf
  · rw [if_pos h5] at hp ⊢
    exact fin _ (by simp [h5]) (dhFF_ok h hp junk)
  rw [if_neg h5]
  exact ⟨_, s, rfl, h, .refl, rfl, rfl, (fun h => by cases h)⟩

theorem pskMixKey_ok (S : Suite) (sym : SymState S.HB) (pk : Bytes) :
    ∃ e sym', pskMixKey S.CB sym pk = .ok (e, sym') ∧ sym.Next sym' := by
  unfold pskMixKey
  by_cases h : sym.id.prefixId = prefixPsk
  · rw [if_pos h]
    obtain ⟨e, s', h1, h2, _⟩ := mixKey_next S sym pk
    exact ⟨e, s', h1, h2⟩
  · rw [if_neg h]; exact ⟨_, _, rfl, .refl⟩

/-- What a token step on the writing side guarantees. -/
structure WOk (X : Setup) (s : X.H) (rest : Bytes) (r : Err × X.H × Bytes × Nat) : Prop where
  sound : r.2.1.Sound X
  frame : s.Frame r.2.1
  action : r.2.1.action = s.action
  tokens : r.2.1.tokens = s.tokens
  len : r.2.2.1.length = rest.length
  size : r.2.2.2 ≤ rest.length

theorem writeEncrypted_ok {Y : Type} {s : X.H} (h : s.Sound X) (l : DHState Y)
    (hl : l.pubLen ≤ l.pub.length) (rest : Bytes) :
    ∃ r, writeEncrypted X.S.CB s l rest = .ok r ∧ WOk X s rest r := by
  unfold writeEncrypted
  by_cases hc : rest.length < l.pubLen + s.sym.getMacLength X.S.CB
  · rw [if_pos hc]
    exact ⟨_, rfl, h, .refl, rfl, rfl, rfl, Nat.zero_le _⟩
  · rw [if_neg hc, load_ok (by omega)]
    simp only [Out.bind_ok]
    rw [store_at_zero _ _ (by simp; omega)]
    simp only [Out.bind_ok]
    obtain ⟨e, s', b', h1, h2, h3, h4, _⟩ := encrypt_next X.S s.sym
      ⟨List.take l.pubLen (List.drop 0 l.pub) ++ rest.drop (List.take l.pubLen (List.drop 0 l.pub)).length,
        l.pubLen⟩ (by simp [Buf.maxSize]; omega)
    rw [h1]
    simp only [Out.bind_ok, Out.pure_eq]
    simp only [Buf.maxSize] at h3 h4
    refine ⟨_, rfl, h.setSym (h2.ok h.sym), .setSym h2, rfl, rfl, ?_, ?_⟩
    · dsimp only; rw [h3]; simp; omega
    · dsimp only; rw [h3] at h4; simp at h4; omega

theorem writeE_ok {s : X.H} (h : s.Sound X) (rnd : Nat → UInt8) (rest : Bytes) :
    ∃ r, writeE X.S.CB rnd s rest = .ok r ∧ WOk X s rest r ∧ (r.1 = .none → s.le.isSome = true) := by
  unfold writeE
  cases hle : s.le with
  | none => exact ⟨_, rfl, ⟨h, .refl, rfl, rfl, rfl, Nat.zero_le _⟩, (fun h => by cases h)⟩
  | some l =>
    dsimp only
    obtain ⟨e, l', h1, h2, _⟩ := genKey_ok X.WD rnd l (h.le l hle) s.fe s.re h.fe h.re
    rw [h1]
    simp only [Out.bind_ok]
    have hs1 : Sound X { s with le := some l' } :=
      ⟨h.sym, h.ls, (fun d hd => by cases hd; exact h2), h.lh, h.rs, h.re, h.rh, h.fe, h.fh⟩
    have hf1 : Frame s { s with le := some l' } :=
      ⟨rfl, rfl, rfl, rfl, rfl, rfl, by simp [pres, hle], .refl⟩
    by_cases he : e = .none
    · rw [if_neg (by simp [he])]
      unfold writeEKey
      by_cases hc : rest.length < l'.pubLen
      · rw [if_pos hc]
        exact ⟨_, rfl, ⟨hs1, hf1, rfl, rfl, rfl, Nat.zero_le _⟩, fun _ => rfl⟩
      · rw [if_neg hc, load_ok (by have := (X.WD.lens l' h2).2; omega)]
        simp only [Out.bind_ok]
        have hpl : (List.take l'.pubLen (List.drop 0 l'.pub)).length = l'.pubLen := by
          have := (X.WD.lens l' h2).2
          simp; omega
        rw [store_at_zero _ _ (by rw [hpl]; omega)]
        simp only [Out.bind_ok]
        obtain ⟨e2, sym', k1, k2⟩ := pskMixKey_ok X.S (s.sym.mixHash
          (List.take l'.pubLen (List.drop 0 l'.pub))).2 (List.take l'.pubLen (List.drop 0 l'.pub))
        rw [k1]
        have kn := (mixHash_next X.S s.sym (List.take l'.pubLen (List.drop 0 l'.pub))).1.trans k2
        refine ⟨_, rfl, ⟨hs1.setSym (kn.ok h.sym), hf1.trans (.setSym kn), rfl, rfl, ?_, ?_⟩,
          fun _ => rfl⟩
        · simp; omega
        · dsimp only; omega
    · rw [if_pos he]
      exact ⟨_, rfl, ⟨hs1, hf1, rfl, rfl, rfl, Nat.zero_le _⟩, fun h' => absurd h' he⟩

theorem writeS_ok {s : X.H} (h : s.Sound X) (rest : Bytes) :
    ∃ r, writeS X.S.CB s rest = .ok r ∧ WOk X s rest r ∧ (r.1 = .none → s.ls.isSome = true) := by
  unfold writeS
  cases hls : s.ls with
  | none => exact ⟨_, rfl, ⟨h, .refl, rfl, rfl, rfl, Nat.zero_le _⟩, (fun h => by cases h)⟩
  | some l =>
    obtain ⟨r, h1, h2⟩ := writeEncrypted_ok h l (X.WD.lens l (h.ls l hls)).2 rest
    exact ⟨r, h1, h2, fun _ => rfl⟩

theorem writeF_ok {s : X.H} (h : s.Sound X) (rnd : Nat → UInt8) (rest : Bytes) :
    ∃ r, writeF X.S.CB rnd s rest = .ok r ∧ WOk X s rest r ∧
      (r.1 = .none → s.lh.isSome = true ∧ s.rh.isSome = true) := by
  unfold writeF
  cases hlh : s.lh with
  | none => exact ⟨_, rfl, ⟨h, .refl, rfl, rfl, rfl, Nat.zero_le _⟩, (fun h => by cases h)⟩
  | some l =>
    cases hrh : s.rh with
    | none => exact ⟨_, rfl, ⟨h, .refl, rfl, rfl, rfl, Nat.zero_le _⟩, (fun h => by cases h)⟩
    | some r =>
      dsimp only
      obtain ⟨e, l', h1, h2, _⟩ := genKey_ok X.WG rnd
        (X.G.setRole l (some (if r.keyType = .noKey then .initiator else .responder)))
        (X.WG.changeRole l _ (h.lh l hlh)).1 s.fh (some r) h.fh
        (fun q hq => by cases hq; exact h.rh r hrh)
      rw [h1]
      simp only [Out.bind_ok]
      have hs1 : Sound X { s with lh := some l', rh := some r } :=
        ⟨h.sym, h.ls, h.le, (fun d hd => by cases hd; exact h2), h.rs, h.re,
         (fun d hd => by cases hd; exact h.rh r hrh), h.fe, h.fh⟩
      have hf1 : Frame s { s with lh := some l', rh := some r } :=
        ⟨rfl, rfl, rfl, rfl, rfl, rfl, by simp [pres, hlh, hrh], .refl⟩
      by_cases he : e = .none
      · rw [if_neg (by simp [he])]
        obtain ⟨r, k1, k2⟩ := writeEncrypted_ok hs1 l' (X.WG.lens l' h2).2 rest
        exact ⟨r, k1, ⟨k2.sound, hf1.trans k2.frame, k2.action, k2.tokens, k2.len, k2.size⟩,
          fun _ => ⟨rfl, rfl⟩⟩
      · rw [if_pos he]
        exact ⟨_, rfl, ⟨hs1, hf1, rfl, rfl, rfl, Nat.zero_le _⟩, fun h' => absurd h' he⟩

theorem writeToken_ok {s : X.H} (h : s.Sound X) (t : UInt8) (rnd junk : Nat → UInt8) (rest : Bytes)
    (hp : s.pres.avail true t = true → s.pres.priv s.role t = true) :
    ∃ r, writeToken X.S.CB rnd junk t s rest = .ok r ∧ WOk X s rest r ∧
      (r.1 = .none → s.pres.avail true t = true) := by
  unfold writeToken
  unfold Pres.avail at hp ⊢
  by_cases h1 : t = tokE
  · rw [if_pos h1, if_pos h1]
    exact writeE_ok h rnd rest
  rw [if_neg h1, if_neg h1]
  rw [if_neg h1] at hp
  by_cases h2 : t = tokS
  · rw [if_pos h2, if_pos h2]
    exact writeS_ok h rest
  rw [if_neg h2, if_neg h2]
  rw [if_neg h2] at hp
  by_cases h3 : t = tokF
  · rw [if_pos h3, if_pos h3]
    simpa [pres] using writeF_ok h rnd rest
  rw [if_neg h3, if_neg h3]
  rw [if_neg h3] at hp
  by_cases hd : t = tokEe ∨ t = tokEs ∨ t = tokSe ∨ t = tokSs ∨ t = tokFf
  · obtain ⟨e, s', k1, k2, k3, k4, k5, k6⟩ := dhToken_ok h t (hp (by
      rcases hd with h | h | h | h | h <;> simp [h])) junk
    rw [k1]
    refine ⟨_, rfl, ⟨k2, k3, k4, k5, rfl, Nat.zero_le _⟩, fun _ => ?_⟩
    rcases hd with h | h | h | h | h <;> simp [h]
  · have : dhToken X.S.CB junk t s = .ok (.invalidState, s) := by
      unfold dhToken
      simp only [not_or] at hd
      rw [if_neg hd.1, if_neg hd.2.1, if_neg hd.2.2.1, if_neg hd.2.2.2.1, if_neg hd.2.2.2.2]
    rw [this]
    exact ⟨_, rfl, ⟨h, .refl, rfl, rfl, rfl, Nat.zero_le _⟩, (fun h => by cases h)⟩

theorem writeLoop_ok (rnd junk : Nat → Nat → UInt8) : ∀ (ts : Bytes) (s : X.H) (mem : Bytes) (size : Nat),
    s.Sound X → safe s.pres s.role true ts = true → size ≤ mem.length → s.tokens = ts →
    ∃ e s' mem' size', writeLoop X.S.CB rnd junk ts s mem size = .ok (e, s', mem', size') ∧
      s'.Sound X ∧ s.Frame s' ∧ mem'.length = mem.length ∧ size' ≤ mem.length ∧
      (e ≠ .none → s'.action = s.action) ∧
      (e = .none → s'.action = .split ∨
        (s'.action = .read ∧ safe s.pres s.role false s'.tokens = true)) := by
  intro ts
  induction ts with
  | nil => intro s mem size _ hs; simp [safe] at hs
  | cons t ts ih =>
    intro s mem size h hs hsz htok
    unfold writeLoop
    unfold safe at hs
    by_cases h1 : t = tokEnd
    · rw [if_pos h1]
      exact ⟨_, _, _, _, rfl, ⟨h.sym, h.ls, h.le, h.lh, h.rs, h.re, h.rh, h.fe, h.fh⟩,
        ⟨rfl, rfl, rfl, rfl, rfl, rfl, rfl, .refl⟩, rfl, hsz, fun h => absurd rfl h, fun _ => .inl rfl⟩
    rw [if_neg h1] at hs ⊢
    by_cases h2 : t = tokFlipDir
    · rw [if_pos h2] at hs ⊢
      exact ⟨_, _, _, _, rfl, ⟨h.sym, h.ls, h.le, h.lh, h.rs, h.re, h.rh, h.fe, h.fh⟩,
        ⟨rfl, rfl, rfl, rfl, rfl, rfl, rfl, .refl⟩, rfl, hsz, fun h => absurd rfl h,
        fun _ => .inr ⟨rfl, hs⟩⟩
    rw [if_neg h2] at hs ⊢
    obtain ⟨r, k1, k2, k3⟩ := writeToken_ok h t (rnd ts.length) (junk ts.length) (mem.drop size)
      (by intro ha; simp [ha] at hs; exact hs.1)
    obtain ⟨e, s', rest, n⟩ := r
    rw [k1]
    simp only [Out.bind_ok]
    have hl := k2.len
    have hn := k2.size
    simp only [List.length_drop] at hl hn
    by_cases he : e = .none
    · rw [if_neg (by simp [he])]
      have ha := k3 he
      rw [ha] at hs
      simp at hs
      have hsafe : safe s'.pres s'.role true ts = true := by
        rw [k2.frame.pres, k2.frame.role]; exact hs.2
      have hs2 : Sound X { s' with tokens := ts } :=
        ⟨k2.sound.sym, k2.sound.ls, k2.sound.le, k2.sound.lh, k2.sound.rs, k2.sound.re, k2.sound.rh,
         k2.sound.fe, k2.sound.fh⟩
      obtain ⟨e2, s2, m2, z2, j1, j2, j3, j4, j5, j6, j7⟩ := ih { s' with tokens := ts }
        (mem.take size ++ rest) (size + n) hs2 hsafe (by simp [hl]; omega) rfl
      refine ⟨e2, s2, m2, z2, j1, j2, ?_, ?_, ?_, ?_, ?_⟩
      · exact k2.frame.trans ⟨j3.role, j3.reqs, j3.psk, j3.prologue, j3.fe, j3.fh, j3.pres, j3.sym⟩
      · rw [j4]; simp [hl]; omega
      · refine Nat.le_trans j5 ?_
        simp [hl]; omega
      · intro h'; rw [j6 h']; exact k2.action
      · intro h'
        rcases j7 h' with j | j
        · exact .inl j
        · refine .inr ⟨j.1, ?_⟩
          have := j.2
          rw [show ({ s' with tokens := ts } : X.H).pres = s'.pres from rfl,
            show ({ s' with tokens := ts } : X.H).role = s'.role from rfl,
            k2.frame.pres, k2.frame.role] at this
          exact this
    · rw [if_pos he]
      exact ⟨e, s', _, size, rfl, k2.sound, k2.frame, by simp [hl]; omega, hsz,
        fun _ => k2.action, fun h' => absurd h' he⟩

end HS
end Noise
