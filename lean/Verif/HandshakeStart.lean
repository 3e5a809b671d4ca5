import Verif.HandshakeReal
import Verif.HandshakeProps
/-!
# `noise_handshakestate_start` is the specification's Initialize
-/

namespace Noise

open Spec (Tok HSt Res)

/-- What every pattern of the table has in common about pre-messages: the initiator's can only be `s`,
the responder's `e`, `f`, `s` in that order, `f` only after `e`; and the flag the code tests to mix the
fallback pre-message is set exactly if there is an `e`. -/
def preShape (p : Spec.Pattern) (fl : PatFlags) : Bool :=
  decide (p.preI = if p.preKey .initiator .s then [.s] else []) &&
  decide (p.preR = (if p.preKey .responder .e then [.e] else []) ++
    (if p.preKey .responder .f then [.f] else []) ++ (if p.preKey .responder .s then [.s] else [])) &&
  (!p.preKey .responder .f || p.preKey .responder .e) &&
  [Role.initiator, .responder].all fun r =>
    hasFlag (HS.roleFlags fl r) (flagRemoteEphemReq ||| flagLocalEphemReq) == p.preKey .responder .e

theorem preShape_table {id : Int} {t : Bytes} {p : Spec.Pattern} {fl : PatFlags}
    (h : patternLookup id = some t) (hp : specPattern id = some p) (hf : patternFlags t = .ok fl) :
    preShape p fl = true := by
  have key : ∀ e ∈ patternTable, (match specPattern e.1, patternFlags e.2 with
      | some p, .ok fl => preShape p fl
      | _, _ => true) = true := by decide +kernel
  have := key _ (patternLookup_mem h)
  simpa only [hp, hf] using this

/-- `p` is a pattern in the sense of the specification that the table entry of `id` implements: the
messages are the decoded tokens, the flags say which static keys are used, and the pre-messages have the
shape the code can mix in. Not a definition of the code base. -/
structure PatOk (id : Int) (p : Spec.Pattern) (t : Bytes) (fl : PatFlags) : Prop where
  shape : preShape p fl = true
  flags : ∀ role, hasFlag (HS.roleFlags fl role) flagLocalStatic = p.hasKey role .s ∧
    hasFlag (HS.roleFlags fl role) flagLocalRequired = p.preKey role .s ∧
    hasFlag (HS.roleFlags fl role) flagRemoteRequired = p.preKey role.flip .s
  msgs : decodeMsgs (t.drop 2) = some p.msgs
  noRepeat : p.NoRepeat
  keys : p.KeysAvailable

theorem PatOk.of_spec {id : Int} {p : Spec.Pattern} {t : Bytes} {fl : PatFlags}
    (hp : specPattern id = some p) (h : patternLookup id = some t) (hf : patternFlags t = .ok fl) :
    PatOk id p t fl := by
  obtain ⟨p', fl', p1, p2, p3, p4⟩ := C17_tables_are_the_specification h
  rw [hf] at p3; cases p3
  rw [hp] at p1; cases p1
  exact ⟨preShape_table h hp hf, flags_role p4, p2, C17_no_key_sent_twice h hp, C17_keys_available h hp⟩

namespace HS

variable {X : Setup} {P Q : Spec.DH}

theorem mixPublicKey_rel (S : Suite) {D : DHBackend} {Inv : DHState D.Ext → Prop}
    {L : Option Role → Nat} (W : D.Lawful Inv L) {sym : SymState S.HB} {sp : Spec.Sym}
    (h : sym.Rep sp) (d : DHState D.Ext) (hd : Inv d) (hk : d.keyType ≠ .noKey) :
    ∃ sym', mixPublicKey sym (some d) = .ok sym' ∧ sym'.Rep (sp.mixHash S.crypto d.pubKey) ∧
      sym'.id = sym.id := by
  obtain ⟨s1, h1, h2, h3, _⟩ := C08_mix_hash S sym sp h d.pubKey
  refine ⟨s1, ?_, h2, h3⟩
  unfold mixPublicKey
  dsimp only
  rw [if_pos (by simp [DHState.hasPublicKey, hk]), load_ok (by have := (W.lens d hd).2; omega)]
  simp only [Out.bind_ok, Out.pure_eq, List.drop_zero]
  exact congrArg Out.ok (congrArg Prod.snd h1)

theorem mixChainingKey_rel (S : Suite) {D : DHBackend} {Inv : DHState D.Ext → Prop}
    {L : Option Role → Nat} (W : D.Lawful Inv L) {sym : SymState S.HB} {sp : Spec.Sym}
    (h : sym.Rep sp) (d : DHState D.Ext) (hd : Inv d) (hk : d.keyType ≠ .noKey) :
    ∃ sym', mixChainingKey S.CB sym (some d) = .ok sym' ∧ sym'.Rep (sp.mixKey S.crypto d.pubKey) ∧
      sym'.id = sym.id := by
  obtain ⟨s1, h1, h2, h3⟩ := C08_mix_key S sym sp h d.pubKey
  refine ⟨s1, ?_, h2, h3⟩
  unfold mixChainingKey
  dsimp only
  rw [if_pos (by simp [DHState.hasPublicKey, hk]), load_ok (by have := (W.lens d hd).2; omega)]
  simp only [Out.bind_ok, Out.pure_eq, List.drop_zero]
  rw [show d.pub.take d.pubLen = d.pubKey from rfl, h1]
  rfl

theorem mixPsk_rel (S : Suite) {sym : SymState S.HB} {sp : Spec.Sym} (h : sym.Rep sp) (psk : Bytes)
    (hp : psk ≠ []) :
    ∃ sym', mixPsk sym psk = .ok sym' ∧
      sym'.Rep (({ sp with ck := (Spec.hkdf S.crypto sp.ck psk).1 } : Spec.Sym).mixHash S.crypto
        (Spec.hkdf S.crypto sp.ck psk).2) ∧ sym'.id = sym.id := by
  obtain ⟨⟨c, hc, habs⟩, hck, hh⟩ := h
  obtain ⟨ctx, he⟩ := (C31_hkdf S.hl sym.ctx sym.ck psk S.HB.hashLen S.HB.hashLen).1
    ⟨Nat.le_refl _, Nat.le_refl _⟩
  have e1 : (specHkdf S.H S.HB.blockLen sym.ck psk).1.take S.HB.hashLen =
      (specHkdf S.H S.HB.blockLen sym.ck psk).1 :=
    List.take_of_length_le (by simp [specHkdf, specHmac_length S.hl])
  have e2 : (specHkdf S.H S.HB.blockLen sym.ck psk).2.take S.HB.hashLen =
      (specHkdf S.H S.HB.blockLen sym.ck psk).2 :=
    List.take_of_length_le (by simp [specHkdf, specHmac_length S.hl])
  rw [e1, e2] at he
  have hr : SymState.Rep (HB := S.HB)
      { sym with ctx := ctx, ck := (specHkdf S.H S.HB.blockLen sym.ck psk).1 }
      { sp with ck := (Spec.hkdf S.crypto sp.ck psk).1 } :=
    ⟨⟨c, hc, habs⟩, by simp [Spec.hkdf, Suite.crypto, hck], hh⟩
  obtain ⟨s1, h1, h2, h3, _⟩ := C08_mix_hash S _ _ hr (Spec.hkdf S.crypto sp.ck psk).2
  refine ⟨s1, ?_, h2, h3⟩
  unfold mixPsk
  rw [if_neg (by simpa using hp), he]
  simp only [Out.bind_ok, ne_eq, not_true, if_false, Out.pure_eq]
  rw [show (specHkdf S.H S.HB.blockLen sym.ck psk).2 = (Spec.hkdf S.crypto sp.ck psk).2 by
    simp [Spec.hkdf, Suite.crypto, hck], h1]

/-- The object holds the public key `pk`. -/
def HasPub {D : DHBackend} (Inv : DHState D.Ext → Prop) (o : Option (DHState D.Ext)) (pk : Bytes) :
    Prop := ∃ d, o = some d ∧ Inv d ∧ d.keyType ≠ .noKey ∧ d.pubKey = pk

theorem mixStatic_rel (cond : Bool) {sym : X.Sy} {sp : Spec.Sym} (h : sym.Rep sp)
    (o : Option (DHState X.D.Ext)) (pk : Bytes) (ho : cond = true → HasPub X.ID o pk) :
    ∃ sym', mixStatic cond sym o = .ok sym' ∧
      sym'.Rep (if cond then sp.mixHash X.S.crypto pk else sp) ∧ sym'.id = sym.id := by
  unfold mixStatic
  cases cond with
  | false => exact ⟨sym, rfl, h, rfl⟩
  | true =>
    obtain ⟨d, rfl, h1, h2, rfl⟩ := ho rfl
    exact mixPublicKey_rel X.S X.WD h d h1 h2

theorem mixFallback_rel {s : X.H} (hasF : Bool) {sym : X.Sy} {sp : Spec.Sym} (h : sym.Rep sp)
    (e : Option (DHState X.D.Ext)) (f : Option (DHState X.G.Ext)) (pe pf : Bytes)
    (he : s.reqs.fallbackPre = true → HasPub X.ID e pe)
    (hf : s.reqs.fallbackPre = true → hasF = true → HasPub X.IG f pf)
    (hnf : s.reqs.fallbackPre = true → hasF = false → ∀ d, f = some d → d.keyType = .noKey) :
    ∃ sym', mixFallback X.S.CB s e f sym = .ok sym' ∧ sym'.id = sym.id ∧
      sym'.Rep (if s.reqs.fallbackPre then
          (if hasF then (HSt.mixE X.S.crypto s.reqs.psk sp pe).mixHash X.S.crypto pf
           else HSt.mixE X.S.crypto s.reqs.psk sp pe)
        else sp) := by
  unfold mixFallback
  cases hb : s.reqs.fallbackPre with
  | false => exact ⟨sym, rfl, rfl, h⟩
  | true =>
    obtain ⟨d, rfl, d1, d2, rfl⟩ := he hb
    obtain ⟨s1, h1, h2, h3⟩ := mixPublicKey_rel X.S X.WD h d d1 d2
    simp only [if_true, h1, Out.bind_ok]
    have hfin : ∀ (s2 : X.Sy) (sp2 : Spec.Sym), s2.Rep sp2 → s2.id = sym.id →
        (∃ x, sp2 = { sp with h := x }) →
        ∃ sym', (if s.reqs.psk = true then mixChainingKey X.S.CB s2 (some d) else pure s2) = .ok sym' ∧
          sym'.id = sym.id ∧
          sym'.Rep (if s.reqs.psk then sp2.mixKey X.S.crypto d.pubKey else sp2) := by
      intro s2 sp2 k1 k2 _
      cases s.reqs.psk with
      | false => exact ⟨s2, rfl, k2, k1⟩
      | true =>
        obtain ⟨s3, j1, j2, j3⟩ := mixChainingKey_rel X.S X.WD k1 d d1 d2
        exact ⟨s3, j1, j3.trans k2, j2⟩
    cases hasF with
    | false =>
      have hm : mixPublicKey s1 f = .ok s1 := by
        unfold mixPublicKey
        cases f with
        | none => rfl
        | some q =>
          have := hnf hb rfl q rfl
          simp [DHState.hasPublicKey, this]
      rw [hm]
      simp only [Out.bind_ok]
      obtain ⟨s3, j1, j2, j3⟩ := hfin s1 _ h2 h3 ⟨_, rfl⟩
      refine ⟨s3, j1, j2, ?_⟩
      cases hp : s.reqs.psk <;> simpa [HSt.mixE, hp] using j3
    | true =>
      obtain ⟨q, rfl, q1, q2, rfl⟩ := hf hb rfl
      obtain ⟨s2, k1, k2, k3⟩ := mixPublicKey_rel X.S X.WG h2 q q1 q2
      rw [k1]
      simp only [Out.bind_ok]
      obtain ⟨s3, j1, j2, j3⟩ := hfin s2 _ k2 (k3.trans h3) ⟨_, rfl⟩
      refine ⟨s3, j1, j2, ?_⟩
      cases hp : s.reqs.psk <;> simpa [HSt.mixE, hp, Spec.Sym.mixHash, Spec.Sym.mixKey] using j3

/-- The part of `Rel` that concerns keys and roles only, carried to a new symmetric state. -/
theorem Rel.start {R : Real X P Q} {s s' : X.H} {st : HSt P Q} (h : Rel R s st) {sp : Spec.Sym}
    {psk : Bool} {msgs : List (List Tok)}
    (hs : s'.Sound X) (hsym : s'.sym.Rep sp) (h1 : s'.role = s.role)
    (hpsk : psk = decide (s'.sym.id.prefixId = prefixPsk))
    (h2 : s'.ls = s.ls) (h3 : s'.le = s.le) (h4 : s'.lh = s.lh) (h5 : s'.rs = s.rs)
    (h6 : s'.re = s.re) (h7 : s'.rh = s.rh) :
    Rel R s' { st with psk := psk, sym := sp, msgs := msgs } where
  sound := hs
  sym := hsym
  role := by rw [h1]; exact h.role
  psk := hpsk
  ls := by rw [h2]; exact h.ls
  le := by rw [h3]; exact h.le
  lh := by rw [h4]; exact h.lh
  lhNone := by rw [h4]; exact h.lhNone
  rs := by rw [h5]; exact h.rs
  re := by rw [h6]; exact h.re
  rh := by rw [h7]; exact h.rh
  rhNone := by rw [h7]; exact h.rhNone
  lhRole := by rw [h4]; exact h.lhRole
  rhRole := by rw [h7]; exact h.rhRole
  bothRole := by rw [h4, h7]; exact h.bothRole

theorem mixPres_opt (C : Spec.Crypto) (st : HSt P Q) (r : Role) (c : Bool) (t : Tok) (ts : List Tok)
    (sym : Spec.Sym) (pk : Bytes) (h : c = true → st.preMsgKey r t = some pk) :
    HSt.mixPres C st r ((if c then [t] else []) ++ ts) sym =
      HSt.mixPres C st r ts (if c then (if t = .e then HSt.mixE C st.psk sym pk else sym.mixHash C pk)
        else sym) := by
  cases c with
  | false => rfl
  | true => simp [HSt.mixPres, HSt.mixPre, h rfl]

theorem initState_shape (C : Spec.Crypto) (name : Bytes) (p : Spec.Pattern) (prologue : Bytes)
    (psk : Option Bytes) (st : HSt P Q) (a b c d : Bool) (ka kb kc kd : Bytes)
    (hI : p.preI = if a then [.s] else [])
    (hR : p.preR = (if b then [.e] else []) ++ (if c then [.f] else []) ++ (if d then [.s] else []))
    (ha : a = true → st.preMsgKey .initiator .s = some ka)
    (hb : b = true → st.preMsgKey .responder .e = some kb)
    (hc : c = true → st.preMsgKey .responder .f = some kc)
    (hd : d = true → st.preMsgKey .responder .s = some kd) :
    HSt.initState C name p prologue psk st = .ok (
      let sym := (Spec.initializeSymmetric C name).mixHash C prologue
      let sym := match psk with
        | none => sym
        | some k => ({ sym with ck := (Spec.hkdf C sym.ck k).1 } : Spec.Sym).mixHash C
            (Spec.hkdf C sym.ck k).2
      let sym := if a then sym.mixHash C ka else sym
      let sym := if b then HSt.mixE C psk.isSome sym kb else sym
      let sym := if c then sym.mixHash C kc else sym
      let sym := if d then sym.mixHash C kd else sym
      { st with psk := psk.isSome, sym := sym, msgs := p.msgs }) := by
  unfold HSt.initState
  dsimp only
  rw [hI, hR]
  rw [show (if a then [Tok.s] else []) = (if a then [Tok.s] else []) ++ [] by simp,
    mixPres_opt C _ .initiator a .s [] _ ka (by exact ha)]
  simp only [HSt.mixPres, List.append_assoc]
  rw [mixPres_opt C _ .responder b .e _ _ kb (by exact hb),
    mixPres_opt C _ .responder c .f _ _ kc (by exact hc),
    show (if d then [Tok.s] else []) = (if d then [Tok.s] else []) ++ [] by simp,
    mixPres_opt C _ .responder d .s [] _ kd (by exact hd)]
  rfl

theorem preMessages_rel {s : X.H} {sym : X.Sy} {sp : Spec.Sym} (h : sym.Rep sp) (a c d : Bool)
    (ka kb kc kd : Bytes)
    (h1 : (if s.role = .initiator then s.reqs.localPre else s.reqs.remotePre) = a)
    (h2 : (if s.role = .initiator then s.reqs.remotePre else s.reqs.localPre) = d)
    (hcb : c = true → s.reqs.fallbackPre = true)
    (ha : a = true → HasPub X.ID (if s.role = .initiator then s.ls else s.rs) ka)
    (hb : s.reqs.fallbackPre = true → HasPub X.ID (if s.role = .initiator then s.re else s.le) kb)
    (hc : s.reqs.fallbackPre = true → c = true →
      HasPub X.IG (if s.role = .initiator then s.rh else s.lh) kc)
    (hn : s.reqs.fallbackPre = true → c = false →
      ∀ x, (if s.role = .initiator then s.rh else s.lh) = some x → x.keyType = .noKey)
    (hd : d = true → HasPub X.ID (if s.role = .initiator then s.rs else s.ls) kd) :
    ∃ sym', mixPreMessages X.S.CB s sym = .ok sym' ∧ sym'.id = sym.id ∧ sym'.Rep (
      let sym := if a then sp.mixHash X.S.crypto ka else sp
      let sym := if s.reqs.fallbackPre then HSt.mixE X.S.crypto s.reqs.psk sym kb else sym
      let sym := if c then sym.mixHash X.S.crypto kc else sym
      if d then sym.mixHash X.S.crypto kd else sym) := by
  have fin : ∀ (l r : Bool) (xl xr : Option (DHState X.D.Ext)) (xe : Option (DHState X.D.Ext))
      (xf : Option (DHState X.G.Ext)), l = a → r = d → (a = true → HasPub X.ID xl ka) →
      (d = true → HasPub X.ID xr kd) → (s.reqs.fallbackPre = true → HasPub X.ID xe kb) →
      (s.reqs.fallbackPre = true → c = true → HasPub X.IG xf kc) →
      (s.reqs.fallbackPre = true → c = false → ∀ x, xf = some x → x.keyType = .noKey) →
      ∃ sym', (do
          let sym ← mixStatic l sym xl
          let sym ← mixFallback X.S.CB s xe xf sym
          mixStatic r sym xr) = .ok sym' ∧ sym'.id = sym.id ∧ sym'.Rep (
      let sym := if a then sp.mixHash X.S.crypto ka else sp
      let sym := if s.reqs.fallbackPre then HSt.mixE X.S.crypto s.reqs.psk sym kb else sym
      let sym := if c then sym.mixHash X.S.crypto kc else sym
      if d then sym.mixHash X.S.crypto kd else sym) := by
    rintro l r xl xr xe xf rfl rfl g1 g2 g3 g4 g5
    obtain ⟨y1, a1, a2, a3⟩ := mixStatic_rel l h xl ka g1
    obtain ⟨y2, b1, b2, b3⟩ := mixFallback_rel (s := s) c a2 xe xf kb kc g3 g4 g5
    obtain ⟨y3, c1, c2, c3⟩ := mixStatic_rel r b3 xr kd g2
    refine ⟨y3, by simp [a1, b1, c1], by rw [c3, b2, a3], ?_⟩
    dsimp only at c2 ⊢
    cases hfb : s.reqs.fallbackPre with
    | true => simpa [hfb] using c2
    | false =>
      have : c = false := by
        cases hc' : c with
        | false => rfl
        | true => rw [hcb hc'] at hfb; cases hfb
      subst this
      simpa [hfb] using c2
  unfold mixPreMessages
  cases hr : s.role with
  | initiator =>
    simp only [hr, if_true] at h1 h2 ha hb hc hn hd
    exact fin _ _ _ _ _ _ h1 h2 ha hd hb hc hn
  | responder =>
    simp only [hr, reduceCtorEq, if_false] at h1 h2 ha hb hc hn hd
    exact fin _ _ _ _ _ _ h1 h2 ha hd hb hc hn

/-- Before `start`: the object was set up for the protocol `name` with the specification's pattern `p`
(`fb`: by a fallback), and its keys are those of `st`. -/
structure Waiting (R : Real X P Q) (fb : Bool) (name : Bytes) (p : Spec.Pattern) (s : X.H)
    (st : HSt P Q) : Prop where
  inv : s.Inv X
  rel : Rel R s st
  sym : st.sym = Spec.initializeSymmetric X.S.crypto name
  reqs : ReqsOk X fb s
  pat : ∀ t fl, patternLookup s.sym.id.patternId = some t → patternFlags t = .ok fl →
    PatOk s.sym.id.patternId p t fl
  psk : s.sym.id.prefixId ≠ prefixPsk → s.psk = []
  /-- local key pairs are genuine -/
  own : ∀ d, s.ls = some d → d.keyType = .keypair → st.s.isSome = true
  /-- known remote static keys are recorded -/
  rem : ∀ d, s.rs = some d → d.keyType ≠ .noKey → st.rs.isSome = true
  /-- an ephemeral pre-message is only possible by fallback -/
  eph : p.preKey .responder .e = true → fb = true ∧ (st.preMsgKey .responder .e).isSome = true
  hyb : p.preKey .responder .e = true →
    (p.preKey .responder .f = true ↔ (st.preMsgKey .responder .f).isSome = true)

/-- `start`, when it succeeds, is the specification's Initialize. -/
theorem start_rel {R : Real X P Q} {fb : Bool} {name : Bytes} {p : Spec.Pattern} {s s' : X.H}
    {st : HSt P Q} (h : Waiting R fb name p s st) (hs : s.start X.S.CB = .ok (.none, s')) :
    ∃ st', HSt.initState X.S.crypto name p s.prologue
        (if s.sym.id.prefixId = prefixPsk then some s.psk else none) st = .ok st' ∧
      Rel R s' st' ∧ s.Frame s' ∧ s'.tokens = s.tokens ∧ st'.msgs = p.msgs ∧
      s'.action = (match s.role with | .initiator => .write | .responder => .read) ∧
      st'.s = st.s ∧ st'.e = st.e ∧ st'.f = st.f ∧ st'.rs = st.rs ∧ st'.re = st.re ∧ st'.rf = st.rf := by
  obtain ⟨e0, s0, k1, kInv, _, k3⟩ := start_ok h.inv
  rw [hs] at k1
  cases k1
  obtain ⟨kf, kn, kt, ka⟩ := k3 rfl
  obtain ⟨t, fl, h1, h2, r1, r2, r3, r4, r5, r6⟩ := h.reqs
  have hpat := h.pat t fl h1 h2
  obtain ⟨f1, f2, f3⟩ := hpat.flags s.role
  have hshape := hpat.shape
  simp only [preShape, Bool.and_eq_true, decide_eq_true_eq, List.all_eq_true] at hshape
  obtain ⟨⟨⟨sI, sR⟩, sF⟩, sE⟩ := hshape
  have sE := sE s.role (by cases s.role <;> simp)
  simp only [beq_iff_eq] at sE
  have hfb : s.reqs.fallbackPre = p.preKey .responder .e := by
    rw [r6]
    simp only [requirements, sE]
    cases hpe : p.preKey .responder .e with
    | false => rfl
    | true => rw [(h.eph hpe).1]; rfl
  have hlp : s.reqs.localPre = p.preKey s.role .s := by rw [r4]; exact f2
  have hrp : s.reqs.remotePre = p.preKey s.role.flip .s := by rw [r5]; exact f3
  have hlq : s.reqs.localReq = (p.hasKey s.role .s || p.preKey s.role .s) := by
    rw [r1]; simp [requirements, f1, f2]
  have hrq : s.reqs.remoteReq = p.preKey s.role.flip .s := by rw [r2]; exact f3
  have hpk : s.reqs.psk = decide (s.sym.id.prefixId = prefixPsk) := by
    rw [r3]; rfl
  -- what the tests of `start` established
  unfold start at hs
  rw [if_neg (by simp [kn])] at hs
  split at hs
  · cases hs
  split at hs
  · cases hs
  next c1 =>
  split at hs
  · cases hs
  next c2 =>
  split at hs
  · cases hs
  next c3 =>
  rw [hlq] at c1; rw [hrq] at c2
  have own : p.preKey s.role .s = true → ∃ pk, st.preMsgKey s.role .s = some pk ∧ HasPub X.ID s.ls pk := by
    intro hp
    have : hasKeypairP s.ls = true := by
      cases hk : hasKeypairP s.ls with
      | true => rfl
      | false => exact absurd ⟨by simp [hp], hk⟩ c1
    cases hl : s.ls with
    | none => rw [hl] at this; cases this
    | some d =>
      rw [hl] at this
      have hd : d.keyType = .keypair := by simpa [hasKeypairP, DHState.hasKeypair] using this
      obtain ⟨k, hk⟩ := Option.isSome_iff_exists.mp (h.own d hl hd)
      obtain ⟨d', e1, e2⟩ := h.rel.ls k hk
      rw [hl] at e1; cases e1
      exact ⟨P.pub k, by simp [HSt.preMsgKey, hk, h.rel.role], d, rfl, h.rel.sound.ls d hl, by simp [hd],
        R.RD.pub d k (h.rel.sound.ls d hl) e2⟩
  have rem : p.preKey s.role.flip .s = true →
      ∃ pk, st.preMsgKey s.role.flip .s = some pk ∧ HasPub X.ID s.rs pk := by
    intro hp
    have : hasPublicKeyP s.rs = true := by
      cases hk : hasPublicKeyP s.rs with
      | true => rfl
      | false => exact absurd ⟨hp, hk⟩ c2
    cases hl : s.rs with
    | none => rw [hl] at this; cases this
    | some d =>
      rw [hl] at this
      have hd : d.keyType ≠ .noKey := by simpa [hasPublicKeyP, DHState.hasPublicKey] using this
      obtain ⟨pk, hk⟩ := Option.isSome_iff_exists.mp (h.rem d hl hd)
      obtain ⟨d', e1, e2, e3⟩ := h.rel.rs pk hk
      rw [hl] at e1; cases e1
      refine ⟨pk, ?_, d, rfl, h.rel.sound.rs d hl, e2, e3⟩
      simp only [HSt.preMsgKey, h.rel.role]
      rw [if_neg (by cases s.role <;> simp [Role.flip]), hk]
  have eph : p.preKey .responder .e = true → ∃ pe, st.preMsgKey .responder .e = some pe ∧
      HasPub X.ID (if s.role = .initiator then s.re else s.le) pe := by
    intro hp
    obtain ⟨pe, hpe⟩ := Option.isSome_iff_exists.mp (h.eph hp).2
    refine ⟨pe, hpe, ?_⟩
    simp only [HSt.preMsgKey, h.rel.role] at hpe
    cases hr : s.role with
    | responder =>
      rw [hr] at hpe
      rw [if_neg (by simp)]
      rw [if_pos rfl, Option.map_eq_some_iff] at hpe
      obtain ⟨k, e1, rfl⟩ := hpe
      obtain ⟨d, e2, e3⟩ := h.rel.le k e1
      exact ⟨d, e2, h.rel.sound.le d e2, by rw [R.RD.keypair d k e3]; simp,
        R.RD.pub d k (h.rel.sound.le d e2) e3⟩
    | initiator =>
      rw [hr] at hpe
      rw [if_pos rfl]
      rw [if_neg (by simp)] at hpe
      obtain ⟨d, e1, e2, e3⟩ := h.rel.re pe hpe
      exact ⟨d, e1, h.rel.sound.re d e1, e2, e3⟩
  have hyb : p.preKey .responder .e = true → p.preKey .responder .f = true →
      ∃ pf, st.preMsgKey .responder .f = some pf ∧
      HasPub X.IG (if s.role = .initiator then s.rh else s.lh) pf := by
    intro hpe hpf
    obtain ⟨pf, hpf⟩ := Option.isSome_iff_exists.mp ((h.hyb hpe).mp hpf)
    refine ⟨pf, hpf, ?_⟩
    simp only [HSt.preMsgKey, h.rel.role] at hpf
    cases hr : s.role with
    | responder =>
      rw [hr] at hpf
      rw [if_neg (by simp)]
      rw [if_pos rfl, Option.map_eq_some_iff] at hpf
      obtain ⟨k, e1, rfl⟩ := hpf
      obtain ⟨d, e2, e3⟩ := h.rel.lh k e1
      exact ⟨d, e2, h.rel.sound.lh d e2, by rw [R.RG.keypair d k e3]; simp,
        R.RG.pub d k (h.rel.sound.lh d e2) e3⟩
    | initiator =>
      rw [hr] at hpf
      rw [if_pos rfl]
      rw [if_neg (by simp)] at hpf
      obtain ⟨d, e1, e2, e3⟩ := h.rel.rh pf hpf
      exact ⟨d, e1, h.rel.sound.rh d e1, e2, e3⟩
  have nohyb : p.preKey .responder .e = true → p.preKey .responder .f = false →
      ∀ d, (if s.role = .initiator then s.rh else s.lh) = some d → d.keyType = .noKey := by
    intro hpe hpf d hd
    have hn : st.preMsgKey .responder .f = none := by
      cases hx : st.preMsgKey .responder .f with
      | none => rfl
      | some y => have := (h.hyb hpe).mpr (by simp [hx]); rw [hpf] at this; cases this
    simp only [HSt.preMsgKey, h.rel.role] at hn
    cases hr : s.role with
    | responder =>
      rw [hr] at hn hd
      rw [if_neg (by simp)] at hd
      rw [if_pos rfl, Option.map_eq_none_iff] at hn
      exact h.rel.lhNone hn d hd
    | initiator =>
      rw [hr] at hn hd
      rw [if_pos rfl] at hd
      rw [if_neg (by simp)] at hn
      exact h.rel.rhNone hn d hd
  -- the prologue and the pre-shared key
  obtain ⟨y1, m1, m2, m3, _⟩ := C08_mix_hash X.S s.sym st.sym h.rel.sym s.prologue
  rw [h.sym] at m2
  have hs' := hs
  rw [m1] at hs'
  have pskStep : ∃ y2 : X.Sy, mixPsk y1 s.psk = .ok y2 ∧ y2.id = s.sym.id ∧
      y2.Rep (match (if s.sym.id.prefixId = prefixPsk then some s.psk else none : Option Bytes) with
        | none => (Spec.initializeSymmetric X.S.crypto name).mixHash X.S.crypto s.prologue
        | some k => ({ (Spec.initializeSymmetric X.S.crypto name).mixHash X.S.crypto s.prologue with
            ck := (Spec.hkdf X.S.crypto
              ((Spec.initializeSymmetric X.S.crypto name).mixHash X.S.crypto s.prologue).ck k).1 } :
              Spec.Sym).mixHash X.S.crypto (Spec.hkdf X.S.crypto
              ((Spec.initializeSymmetric X.S.crypto name).mixHash X.S.crypto s.prologue).ck k).2) := by
    by_cases hp : s.sym.id.prefixId = prefixPsk
    · rw [if_pos hp]
      have hne : s.psk ≠ [] := by
        intro h0
        apply c3
        rw [hpk]
        simp [hp, h0]
      obtain ⟨y2, n1, n2, n3⟩ := mixPsk_rel X.S m2 s.psk hne
      exact ⟨y2, n1, n3.trans m3, n2⟩
    · rw [if_neg hp]
      refine ⟨y1, ?_, m3, m2⟩
      simp [mixPsk, h.psk hp]
  obtain ⟨y2, n1, n2, n3⟩ := pskStep
  simp only [n1, Out.bind_ok] at hs'
  generalize hsp : (match (if s.sym.id.prefixId = prefixPsk then some s.psk else none : Option Bytes) with
        | none => (Spec.initializeSymmetric X.S.crypto name).mixHash X.S.crypto s.prologue
        | some k => ({ (Spec.initializeSymmetric X.S.crypto name).mixHash X.S.crypto s.prologue with
            ck := (Spec.hkdf X.S.crypto
              ((Spec.initializeSymmetric X.S.crypto name).mixHash X.S.crypto s.prologue).ck k).1 } :
              Spec.Sym).mixHash X.S.crypto (Spec.hkdf X.S.crypto
              ((Spec.initializeSymmetric X.S.crypto name).mixHash X.S.crypto s.prologue).ck k).2) = sp1 at n3
  have hpskB : (if s.sym.id.prefixId = prefixPsk then some s.psk else none : Option Bytes).isSome =
      s.reqs.psk := by
    rw [hpk]; split <;> simp_all
  have statI : p.preKey .initiator .s = true →
      st.preMsgKey .initiator .s = some ((st.preMsgKey .initiator .s).getD []) ∧
      HasPub X.ID (if s.role = .initiator then s.ls else s.rs) ((st.preMsgKey .initiator .s).getD []) := by
    intro hp
    cases hr : s.role with
    | initiator =>
      rw [hr] at own
      obtain ⟨pk, e1, e2⟩ := own hp
      rw [e1]; exact ⟨rfl, e2⟩
    | responder =>
      rw [hr] at rem
      obtain ⟨pk, e1, e2⟩ := rem hp
      rw [show Role.responder.flip = Role.initiator from rfl] at e1
      rw [e1]; exact ⟨rfl, e2⟩
  have statR : p.preKey .responder .s = true →
      st.preMsgKey .responder .s = some ((st.preMsgKey .responder .s).getD []) ∧
      HasPub X.ID (if s.role = .initiator then s.rs else s.ls) ((st.preMsgKey .responder .s).getD []) := by
    intro hp
    cases hr : s.role with
    | responder =>
      rw [hr] at own
      obtain ⟨pk, e1, e2⟩ := own hp
      rw [e1]; exact ⟨rfl, e2⟩
    | initiator =>
      rw [hr] at rem
      obtain ⟨pk, e1, e2⟩ := rem hp
      rw [show Role.initiator.flip = Role.responder from rfl] at e1
      rw [e1]; exact ⟨rfl, e2⟩
  have hcb : p.preKey .responder .f = true → p.preKey .responder .e = true := by
    intro hf
    rw [hf] at sF
    simpa using sF
  obtain ⟨y3, q1, q2, q3⟩ := preMessages_rel (s := s) n3 (p.preKey .initiator .s)
    (p.preKey .responder .f) (p.preKey .responder .s)
    ((st.preMsgKey .initiator .s).getD []) ((st.preMsgKey .responder .e).getD [])
    ((st.preMsgKey .responder .f).getD []) ((st.preMsgKey .responder .s).getD [])
    (by rw [hlp, hrp]; cases s.role <;> rfl) (by rw [hlp, hrp]; cases s.role <;> rfl)
    (fun hf => by rw [hfb]; exact hcb hf)
    (fun hp => (statI hp).2)
    (fun hb => by
      obtain ⟨pe, e1, e2⟩ := eph (hfb ▸ hb)
      rw [e1]; exact e2)
    (fun hb hc => by
      obtain ⟨pe, e1, e2⟩ := hyb (hfb ▸ hb) hc
      rw [e1]; exact e2)
    (fun hb hc => nohyb (hfb ▸ hb) hc)
    (fun hp => (statR hp).2)
  rw [q1] at hs'
  simp only [Out.bind_ok, Out.pure_eq, Out.ok.injEq, Prod.mk.injEq, true_and] at hs'
  rw [initState_shape X.S.crypto name p s.prologue _ st _ _ _ _
    ((st.preMsgKey .initiator .s).getD []) ((st.preMsgKey .responder .e).getD [])
    ((st.preMsgKey .responder .f).getD []) ((st.preMsgKey .responder .s).getD []) sI sR
    (fun hp => (statI hp).1)
    (fun hp => by obtain ⟨pe, e1, _⟩ := eph hp; rw [e1]; rfl)
    (fun hp => by obtain ⟨pe, e1, _⟩ := hyb (hcb hp) hp; rw [e1]; rfl)
    (fun hp => (statR hp).1)]
  subst hs'
  refine ⟨_, rfl, ?_, kf, kt, rfl, ka, rfl, rfl, rfl, rfl, rfl, rfl⟩
  refine Rel.start h.rel kInv.1 ?_ rfl ?_ rfl rfl rfl rfl rfl rfl
  · dsimp only
    rw [hsp, hpskB, ← hfb]
    exact q3
  · show _ = decide (y3.id.prefixId = prefixPsk)
    rw [q2, n2, hpskB, hpk]

end HS
end Noise
