import Verif.HandshakeFallback
/-!
# C19: falling back to another pattern, the theorems
-/

namespace Noise

open Spec (Tok HSt Res)

namespace HS
variable {X : Setup} {P Q : Spec.DH}

/-- The ephemeral key objects of an object that fell back hold `ek` and `fk`. -/
structure FbKeys (R : Real X P Q) (s : X.H) (ek : Option P.KP) (fk : Option Q.KP) : Prop where
  le : ∀ k, ek = some k → ∃ d, s.le = some d ∧ R.RD.KPof d k
  lh : ∀ k, fk = some k → ∃ d, s.lh = some d ∧ R.RG.KPof d k
  lhNone : fk = none → ∀ d, s.lh = some d → d.keyType = .noKey
  lhRole : ∀ d, s.lh = some d → fk.isSome = true → d.role = some .initiator
  rhRole : ∀ d, s.rh = some d → d.keyType ≠ .noKey → d.role = some .initiator
  one : fk.isSome = true → pubOf s.rh = none

theorem pubOf_some {Y : Type} {o : Option (DHState Y)} {pb : Bytes} (h : pubOf o = some pb) :
    ∃ d, o = some d ∧ d.keyType ≠ .noKey ∧ d.pubKey = pb := by
  unfold pubOf at h
  split at h
  · cases h
  · next r =>
    split at h
    · cases h
    · next hk => exact ⟨r, rfl, hk, by simpa using h⟩

theorem pubOf_none {Y : Type} {o : Option (DHState Y)} (h : pubOf o = none) :
    ∀ d, o = some d → d.keyType = .noKey := by
  rintro d rfl
  unfold pubOf at h
  dsimp only at h
  split at h
  · next hk => exact hk
  · cases h

theorem pubOf_noKey {Y : Type} {o : Option (DHState Y)} (h : ∀ d, o = some d → d.keyType = .noKey) :
    pubOf o = none := by
  cases o with
  | none => rfl
  | some d => simp [pubOf, h d rfl]

theorem pubOf_isSome {Y : Type} {o : Option (DHState Y)} (h : hasPublicKeyP o = true) :
    (pubOf o).isSome = true := by
  cases o with
  | none => cases h
  | some d =>
    have : d.keyType ≠ .noKey := by simpa [hasPublicKeyP, DHState.hasPublicKey] using h
    simp [pubOf, this]

/-- The specification's key variables before the start of a fallback handshake. -/
def fbState (s : X.H) (sym : Spec.Sym) (own ek : Option P.KP) (fk : Option Q.KP) : HSt P Q where
  role := s.role
  psk := decide (s.sym.id.prefixId = prefixPsk)
  sym := sym
  s := own
  e := ek
  f := fk
  rs := pubOf s.rs
  re := pubOf s.re
  rf := pubOf s.rh
  msgs := []

theorem FbKeys.rel {R : Real X P Q} {s : X.H} {own ek : Option P.KP} {fk : Option Q.KP}
    (h : FbKeys R s ek fk) (hs : s.Sound X) (ho : OwnKey R s own) {sym : Spec.Sym}
    (hsym : s.sym.Rep sym) : Rel R s (fbState s sym own ek fk) where
  sound := hs
  sym := hsym
  role := rfl
  psk := rfl
  ls := fun k hk => by
    have hk : own = some k := hk
    rw [hk] at ho
    exact ho
  le := h.le
  lh := h.lh
  lhNone := h.lhNone
  rs := fun _ hp => pubOf_some hp
  re := fun _ hp => pubOf_some hp
  rh := fun _ hp => pubOf_some hp
  rhNone := fun hp => pubOf_none hp
  lhRole := fun d hd hk _ => h.lhRole d hd hk
  rhRole := fun d hd hk _ => by
    refine h.rhRole d hd (fun h0 => ?_)
    have hk : (pubOf s.rh).isSome = true := hk
    rw [hd] at hk
    simp [pubOf, h0] at hk
  bothRole := fun _ _ _ _ hk hk' => by
    have hk' : (pubOf s.rh).isSome = true := hk'
    rw [h.one hk] at hk'
    cases hk'

/-- `start` after a fallback. -/
theorem _root_.Noise.Resting.follows {R : Real X P Q} (hK : KeysGenuine R) {s0 s s' : X.H}
    (h : Resting X s0 s) {name : Bytes}
    (hn : s0.sym.Rep (Spec.initializeSymmetric X.S.crypto name)) {p : Spec.Pattern} {t : Bytes}
    {fl : PatFlags} (hp : specPattern s0.sym.id.patternId = some p)
    (ht : patternLookup s0.sym.id.patternId = some t) (hfl : patternFlags t = .ok fl)
    (hee : hasFlag fl flagRemoteEphemReq = true) (htok : s0.tokens = t.drop 2) {hyb : Bool}
    (hh : p.preKey .responder .f = true → hyb = true) {ek : Option P.KP} {fk : Option Q.KP}
    (hk : FbKeys R s0 ek fk)
    (hre : s.role = .initiator → fk = none ∧ (pubOf s.re).isSome = true ∧
      (hyb = true ↔ (pubOf s.rh).isSome = true))
    (hrr : s.role = .responder → pubOf s.rh = none ∧ ek.isSome = true ∧ (hyb = true ↔ fk.isSome = true))
    (hready : (p.hasKey s.role .s = true → s.pres.ls = true) → 
      ready s0.pres s0.role (s0.role == .initiator) s0.tokens = true)
    (hs : s.start X.S.CB = .ok (.none, s')) :
    ∃ own st', HSt.initState X.S.crypto name (fbPattern p hyb) s.prologue
        (if s.sym.id.prefixId = prefixPsk then some s.psk else none)
        (fbState s (Spec.initializeSymmetric X.S.crypto name) own ek fk) = .ok st' ∧
      Follows R s' st' ∧ s.Frame s' ∧ st'.msgs = p.msgs ∧ st'.role = s.role ∧
      s'.action = (match s.role with | .initiator => .write | .responder => .read) ∧
      st'.e = ek ∧ st'.f = fk ∧ st'.re = pubOf s.re ∧ st'.rf = pubOf s.rh ∧
      (p.hasKey s.role .s = true → s.pres.ls = true) := by
  have hk' : FbKeys R s ek fk := by
    obtain ⟨h1, h2, h3, h4, h5, h6⟩ := hk
    refine ⟨?_, ?_, ?_, ?_, ?_, ?_⟩
    · rw [h.le]; exact h1
    · rw [h.lh]; exact h2
    · rw [h.lh]; exact h3
    · rw [h.lh]; exact h4
    · rw [h.rh]; exact h5
    · rw [h.rh]; exact h6
  obtain ⟨own, ho⟩ : ∃ own, OwnKey R s own := by
    cases hl : hasKeypairP s.ls with
    | false => exact ⟨none, hl⟩
    | true =>
      cases hd : s.ls with
      | none => rw [hd] at hl; cases hl
      | some d =>
        rw [hd] at hl
        obtain ⟨k, hk⟩ := hK d (h.ls d hd) hl
        exact ⟨some k, d, hd, hk⟩
  have hpat : ∀ t fl, patternLookup s.sym.id.patternId = some t → patternFlags t = .ok fl →
      PatOk s.sym.id.patternId (fbPattern p hyb) t fl := by
    intro t' fl' h1 h2
    rw [h.sym] at h1 ⊢
    rw [ht] at h1; cases h1
    rw [hfl] at h2; cases h2
    exact (patOk_fb ht hp hfl hee hyb hh).1
  have hpk : (fbPattern p hyb).preKey .responder .e = true := by
    cases hyb <;> simp [Spec.Pattern.preKey, Spec.Pattern.known, fbPattern]
  have hpf : (fbPattern p hyb).preKey .responder .f = true ↔ hyb = true := by
    have hI := (patOk_fb ht hp hfl hee hyb hh).2.1
    cases hyb <;> simp [Spec.Pattern.preKey, Spec.Pattern.known, fbPattern, hI]
  have hW : Waiting R true name (fbPattern p hyb) s
      (fbState s (Spec.initializeSymmetric X.S.crypto name) own ek fk) := {
    inv := h.inv
    rel := hk'.rel h.inv.sound ho (by rw [h.sym]; exact hn)
    sym := rfl
    reqs := h.reqs
    pat := hpat
    psk := h.psk
    own := fun d hd hk => by
      show own.isSome = true
      cases own with
      | some k => rfl
      | none =>
        have ho : hasKeypairP s.ls = false := ho
        rw [hd] at ho
        simp [hasKeypairP, DHState.hasKeypair, hk] at ho
    rem := fun d hd hk => by
      show (pubOf s.rs).isSome = true
      simp [hd, pubOf, hk]
    eph := fun _ => ⟨rfl, by
      cases hr : s.role with
      | initiator => simp [HSt.preMsgKey, fbState, hr, (hre hr).2.1]
      | responder => simp [HSt.preMsgKey, fbState, hr, (hrr hr).2.1]⟩
    hyb := fun _ => by
      rw [hpf]
      cases hr : s.role with
      | initiator => simp [HSt.preMsgKey, fbState, hr, (hre hr).2.2]
      | responder => simp [HSt.preMsgKey, fbState, hr, (hrr hr).2.2] }
  have hd : decodeMsgs s.tokens = some (fbPattern p hyb).msgs := by
    rw [h.tokens, htok]
    exact (patOk_fb ht hp hfl hee hyb hh).1.msgs
  have hloc : p.hasKey s.role .s = true → s.pres.ls = true := by
    intro hx
    obtain ⟨t', fl', g1, g2, r1, _⟩ := h.reqs
    obtain ⟨f1, f2, f3⟩ := (hpat t' fl' g1 g2).flags s.role
    have hx' : (fbPattern p hyb).hasKey s.role .s = true := by
      rw [h.sym, ht] at g1; cases g1
      rw [hfl] at g2; cases g2
      rw [← f1]
      obtain ⟨p', fl', p1, p2, p3, p4⟩ := C17_tables_are_the_specification ht
      rw [hfl] at p3; cases p3
      rw [hp] at p1; cases p1
      rw [(flags_role p4 s.role).1]; exact hx
    have := (start_requirements hs).2.1 (by rw [r1]; simp [requirements, f1, hx'])
    cases hl : s.ls with
    | none => rw [hl] at this; cases this
    | some d => simp [pres, hl]
  obtain ⟨st', k1, k2, k3, k4, k5, k6, k7, k8, k9, k10, k11, k12, k13⟩ := hW.follows hs hd
    (by rw [h.pres, h.role, h.tokens]; exact hready hloc)
    (by
      cases hr : s.role with
      | initiator => simp [HSt.preMsgKey, fbState, hr, (hre hr).1]
      | responder => simp [HSt.preMsgKey, fbState, hr, (hrr hr).1])
    (fun hx => by rw [hpk] at hx; cases hx)
  exact ⟨own, st', k1, k2, k3, k4, k5, k6, k8, k9, k11, k12, hloc⟩

/-! ## The ephemeral key in the first message -/

/-- No `e` among the tokens of the current message. -/
def noE : Bytes → Bool
  | [] => true
  | t :: ts => (t == tokEnd) || (t == tokFlipDir) || ((t != tokE) && noE ts)

theorem dhToken_re {s s' : X.H} {junk : Nat → UInt8} {t : UInt8} {e : Err}
    (h : dhToken X.S.CB junk t s = .ok (e, s')) : s'.re = s.re := by
  unfold dhToken at h
  cases hr : s.role <;> rw [hr] at h <;> repeat' split at h
  all_goals first
    | (cases h; rfl)
    | (simp only [dhEE, dhLeRs, dhLsRe, dhSS, dhFF, Out.bind_eq_ok] at h
       obtain ⟨⟨e1, sy, p⟩, h1, h2⟩ := h
       cases h2
       rfl)

theorem readToken_re {s s' : X.H} {junk : Nat → UInt8} {t : UInt8} {msg m : Buf}
    {e : Err} (ht : t ≠ tokE) (h : readToken X.S.CB junk t s msg = .ok (e, s', m)) : s'.re = s.re := by
  unfold readToken at h
  rw [if_neg ht] at h
  split at h
  · unfold readS at h
    split at h
    · cases h; rfl
    simp only [Out.bind_eq_ok] at h
    obtain ⟨⟨e1, sy, r', n⟩, h1, h⟩ := h
    split at h <;> (cases h; rfl)
  split at h
  · unfold readF at h
    split at h
    · cases h; rfl
    · cases h; rfl
    simp only [Out.bind_eq_ok] at h
    obtain ⟨⟨e1, sy, r', n⟩, h1, h⟩ := h
    split at h
    · cases h; rfl
    · simp only [readFCheck, Out.bind_eq_ok] at h
      obtain ⟨null, _, h⟩ := h
      cases h; rfl
  simp only [Out.bind_eq_ok] at h
  obtain ⟨⟨e1, s1⟩, h1, h⟩ := h
  cases h
  exact dhToken_re h1

theorem readLoop_re (junk : Nat → Nat → UInt8) : ∀ (ts : Bytes) {s s' : X.H}
    {msg m : Buf} {e : Err}, noE ts = true → readLoop X.S.CB junk ts s msg = .ok (e, s', m) →
    s'.re = s.re := by
  intro ts
  induction ts with
  | nil => intro s s' msg m e _ h; cases h
  | cons t ts ih =>
    intro s s' msg m e hn h
    unfold readLoop at h
    split at h
    · cases h; rfl
    next c1 =>
    split at h
    · cases h; rfl
    next c2 =>
    simp only [noE, Bool.or_eq_true, beq_iff_eq, c1, c2, false_or, Bool.and_eq_true, bne_iff_ne] at hn
    simp only [Out.bind_eq_ok] at h
    obtain ⟨⟨e1, s1, m1⟩, h1, h⟩ := h
    have hc := readToken_re hn.1 h1
    split at h
    · cases h; exact hc
    · exact (ih hn.2 h).trans hc

/-- The key the `e` token stores is the beginning of the message. -/
theorem readE_re {s s' : X.H} {msg m : Buf} {e : Err} (hs : s.Sound X)
    (h : readE X.S.CB s msg = .ok (e, s', m)) (d' : DHState X.D.Ext) (hd' : s'.re = some d') :
    ∃ d, s.re = some d ∧ (d' = d ∨ d'.pubKey = msg.data.take d.pubLen) := by
  unfold readE at h
  split at h
  · next hn => cases h; rw [hn] at hd'; cases hd'
  next r hr =>
  refine ⟨r, hr, ?_⟩
  split at h
  · cases h; rw [hr] at hd'; cases hd'; exact .inl rfl
  simp only [Out.bind_eq_ok] at h
  obtain ⟨b, hb, h⟩ := h
  have hb : b = msg.data.take r.pubLen := by
    unfold load at hb
    split at hb
    · cases hb; simp
    · cases hb
  split at h
  · cases h; have hd' : s.re = some d' := hd'; rw [hr] at hd'; cases hd'; exact .inl rfl
  simp only [Out.bind_eq_ok] at h
  obtain ⟨⟨e1, r'⟩, h1, h⟩ := h
  have key : d' = r' := by
    split at h
    · cases h; cases hd'; rfl
    simp only [readEKey, Out.bind_eq_ok] at h
    obtain ⟨null, _, h⟩ := h
    split at h
    · cases h; cases hd'; rfl
    simp only [Out.bind_eq_ok] at h
    obtain ⟨pk, _, ⟨e2, sy⟩, _, h⟩ := h
    cases h; cases hd'; rfl
  subst key
  obtain ⟨e2, r2, k1, _, _, _, _, k2, k3⟩ := setPublicKey_eq X.WD r (hs.re r hr) b
  rw [h1] at k1; cases k1
  by_cases he : e1 = .none
  · exact .inr (by rw [(k3 he).2.2.1, hb])
  · exact .inl (k2 he)

/-- Whatever the result of reading a message that begins with `e`: no key, or the one in the message. -/
theorem readMessage_re {junk : Nat → Nat → UInt8} {s s' : X.H} {msg m : Buf} {ts : Bytes}
    {pl : Option Bytes} {p : Option Buf} {e : Err} (hs : s.Sound X) (ht : s.tokens = tokE :: ts)
    (hn : noE ts = true) (h : s.readMessage X.S.CB junk msg pl = .ok (e, s', m, p))
    (hno : ∀ d, s.re = some d → d.keyType = .noKey) (d' : DHState X.D.Ext) (hd' : s'.re = some d') :
    d'.keyType = .noKey ∨ ∃ d, s.re = some d ∧ d'.pubKey = msg.data.take d.pubLen := by
  have keep : s'.re = s.re → d'.keyType = .noKey := fun hx => hno d' (by rw [← hx]; exact hd')
  unfold readMessage at h
  split at h
  · cases h; exact .inl (keep rfl)
  split at h
  · cases h; exact .inl (keep rfl)
  simp only [Out.bind_eq_ok] at h
  obtain ⟨⟨e1, s1, p1⟩, h1, data, _, h⟩ := h
  have hd1 : s1.re = some d' := by
    split at h
    · cases h; exact hd'
    · cases h; exact hd'
  simp only [HS.read, Out.bind_eq_ok] at h1
  obtain ⟨⟨e2, s2, m2⟩, h2, h1⟩ := h1
  have hd2 : s2.re = some d' := by
    split at h1
    · cases h1; exact hd1
    · simp only [readPayload, Out.bind_eq_ok] at h1
      obtain ⟨⟨e3, sy, b⟩, _, h1⟩ := h1
      split at h1
      · cases h1; exact hd1
      split at h1
      · cases h1; exact hd1
      split at h1
      · cases h1; exact hd1
      simp only [Out.bind_eq_ok] at h1
      obtain ⟨d, _, p', _, h1⟩ := h1
      cases h1; exact hd1
  rw [ht] at h2
  unfold readLoop at h2
  rw [if_neg (by decide), if_neg (by decide)] at h2
  simp only [Out.bind_eq_ok] at h2
  obtain ⟨⟨e3, s3, m3⟩, h3, h2⟩ := h2
  unfold readToken at h3
  rw [if_pos rfl] at h3
  have hd3 : s3.re = some d' := by
    split at h2
    · cases h2; exact hd2
    · rw [← hd2]; exact (readLoop_re junk ts hn h2).symm
  obtain ⟨d, k1, k2⟩ := readE_re hs h3 d' hd3
  rcases k2 with k2 | k2
  · left; rw [k2]; exact hno d k1
  · exact .inr ⟨d, k1, k2⟩

theorem first_tokens {id : Int} {t : Bytes} (h : patternLookup id = some t) {fl : PatFlags}
    (hf : patternFlags t = .ok fl) (hr : hasFlag fl flagRemoteRequired = true) {p : Spec.Pattern}
    (hp : specPattern id = some p) :
    (∃ ts, t.drop 2 = tokE :: ts ∧ noE ts = true) ∧ ∃ m ms, p.msgs = (.e :: m) :: ms ∧ .e ∉ m := by
  have key : ∀ e ∈ patternTable, (match specPattern e.1, patternFlags e.2 with
      | some p, .ok fl => !hasFlag fl flagRemoteRequired ||
        ((match e.2.drop 2 with | [] => false | t :: ts => (t == tokE) && noE ts) &&
         (match p.msgs with | (.e :: m) :: _ => decide (.e ∉ m) | _ => false))
      | _, _ => true) = true := by decide +kernel
  have := key _ (patternLookup_mem h)
  simp only [hp, hf, hr, Bool.not_true, Bool.false_or, Bool.and_eq_true] at this
  obtain ⟨h1, h2⟩ := this
  constructor
  · split at h1
    · cases h1
    · next a b he =>
      simp only [Bool.and_eq_true, beq_iff_eq] at h1
      exact ⟨b, by rw [he, h1.1], h1.2⟩
  · split at h2
    · next m ms he => exact ⟨m, ms, he, of_decide_eq_true h2⟩
    · cases h2

/-! ## The two sides up to the fallback -/

/-- What holds of both sides after the fallback; `s` is the object before the first handshake, `s3` just
before the fallback, `s4` after it. -/
structure FbSide (pid : Int) (s s3 s4 : X.H) : Prop where
  back : FellBack s3 pid s4
  rest : Resting X s4 s4
  id : s4.sym.id = { s.sym.id with patternId := pid }
  role : s4.role = s.role.flip
  old : ∃ t fl, patternLookup s.sym.id.patternId = some t ∧ patternFlags t = .ok fl ∧
    hasFlag fl flagRemoteRequired = true ∧ s4.pres = presOf (roleFlags fl s.role) ∧
    s.pres = s4.pres

theorem fbSide {s s3 s4 : X.H} {pid : Int} {stack : Bytes} (h : Idle X s) (hi : s3.Inv X)
    (hk : s3.KeysReach) (h1 : s3.reqs = s.reqs) (h2 : s3.role = s.role) (h3 : s3.sym.id = s.sym.id)
    (h4 : s3.pres = s.pres) (h5 : s.sym.id.prefixId ≠ prefixPsk → s3.psk = [])
    (hf : s3.fallbackTo pid stack = .ok (.none, s4)) : FbSide pid s s3 s4 := by
  have hb := fellBack hi hf
  obtain ⟨t, fl, t1, t2, t3, t4⟩ := h.tokens
  obtain ⟨t', fl', q1, q2, q3⟩ := h.possible
  rw [t1] at q1; cases q1
  rw [t2] at q2; cases q2
  obtain ⟨tp, flp, r1, r2, r3, r4, r5⟩ := hb.post.pattern
  have hid : s4.sym.id = { s.sym.id with patternId := pid } := by rw [hb.post.id, h3]
  refine ⟨hb, ⟨hb.inv, ⟨tp, flp, by rw [hid]; exact r1, r2, ?_⟩, hb.post.action, rfl, rfl, rfl, rfl, rfl, rfl,
    rfl, rfl, ?_, ?_, hb.rs hk.rs⟩, hid, by rw [hb.post.role, h2], t, fl, t1, t2, ?_, ?_, ?_⟩
  · rw [r5, hid, h3]
    exact ⟨rfl, rfl, rfl, rfl, rfl, rfl⟩
  · intro hx
    rw [hid] at hx
    rw [hb.psk]
    exact h5 hx
  · rw [hb.ls]; exact hk.ls
  · rw [← q3, ← h1]; exact hb.post.was
  · rw [hb.pres, h4, t4]
  · rw [hb.pres, h4]

theorem _root_.Noise.Idle.keysReach {s : X.H} (h : Idle X s) : s.KeysReach := ⟨h.ls, h.rs, h.reReach⟩

theorem _root_.Noise.Idle.still {s : X.H} (R : Real X P Q) (h : Idle X s) : LhStill R s :=
  .inr fun d hd => .inl (by rw [h.lh d hd]; decide)

/-- The responder of the first handshake: it started, and perhaps read something. -/
theorem responder_fb (R : Real X P Q) {r r2 r3 : X.H} (hr : SetUp X r) (hrr : r.role = .responder)
    {ops : List (HOp X.D X.G)} {os : List HObs} (ha : ∀ op ∈ ops, op.ArgsReach X ∧ op.quiet = true)
    (hrun : HOp.run X.S.CB r ops = .ok (os, r2)) {pid : Int} {stack : Bytes}
    (hf : r2.fallbackTo pid stack = .ok (.none, r3)) :
    FbSide pid r r2 r3 ∧ FbKeys R r3 none none ∧ r3.re = r2.re ∧ r3.rh = r2.rh ∧
    (pubOf r2.re).isSome = true ∧ (r.rh.isSome = true → (pubOf r2.rh).isSome = true) := by
  have hI := hr.idle
  have T := Trail.run R ops hI.inv (hI.still R) ha hrun
  have S := fbSide hI T.inv (T.calm.reach hI.keysReach) T.reqs T.role T.id T.pres (T.psk hI.psk) hf
  obtain ⟨c1, c2, c3, c4⟩ := S.back.resp (by rw [T.role, hrr])
  have hh : r2.HybOk := T.calm.hyb fun _ q hq =>
    ⟨hI.inv.sound.rh q hq, fun hx => absurd (hI.rh q hq) hx⟩
  have hal := S.back.post.allowed
  simp only [fallbackAllowed, T.role, hrr, Bool.and_eq_true, Bool.or_eq_true] at hal
  refine ⟨S, ⟨by simp, by simp, fun _ => c4, by simp, ?_, by simp⟩, c1, c2, pubOf_isSome hal.1.2, fun hx => ?_⟩
  · rw [c2]
    intro d hd hk
    exact (hh (fun d hd => hI.lh d (by rw [← T.calm.lh]; exact hd)) d hd).2 hk
  · have : r2.rh.isSome = true := by
      have := congrArg Pres.rh T.pres
      simp only [pres] at this
      rw [this]; exact hx
    rcases hal.2 with hal | hal
    · cases hr : r2.rh <;> simp_all
    · exact pubOf_isSome hal

theorem quiet_keep : ∀ (ops : List (HOp X.D X.G)) {s s' : X.H} {os : List HObs}, s.Inv X →
    (∀ op ∈ ops, op.ArgsReach X ∧ op.quiet = true) → HOp.run X.S.CB s ops = .ok (os, s') →
    s'.Inv X ∧ s'.reqs = s.reqs := by
  intro ops
  induction ops with
  | nil => intro s s' os hi _ hr; cases hr; exact ⟨hi, rfl⟩
  | cons op ops ih =>
    intro s s' os hi ha hr
    simp only [HOp.run, Out.bind_eq_ok] at hr
    obtain ⟨⟨o, s1⟩, hstep, ⟨os1, s2⟩, hrun, hx⟩ := hr
    cases hx
    obtain ⟨o1, q1, k1, hinv, _⟩ := HOp.step_ok hi op (ha op (by simp)).1.ok
    rw [hstep] at k1; cases k1
    have hq := (ha op (by simp)).2
    have hkeep := keep_step hi hstep (by cases op <;> first | rfl | cases hq)
    have := ih hinv (fun q hq => ha q (by simp [hq])) hrun
    exact ⟨this.1, this.2.trans hkeep.1⟩

/-- The initiator of the first handshake: it sent the first message, and perhaps read something. -/
theorem initiator_fb (R : Real X P Q) (hK : KeysGenuine R) {G : (Option Bytes → Q.KP) → Prop}
    {i i1 i2 i3 i4 : X.H} (hi : SetUp X i) (hri : i.role = .initiator) {p0 : Spec.Pattern}
    (hp0 : specPattern i.sym.id.patternId = some p0) (si : i.start X.S.CB = .ok (.none, i1)) {t0 : Turn}
    (hg : Generates R G t0 i) {m : Buf}
    (hw : i1.writeMessage X.S.CB t0.rnd t0.junkW t0.mem (some t0.payload) = .ok (.none, i2, m))
    {ops : List (HOp X.D X.G)} {os : List HObs} (ha : ∀ op ∈ ops, op.ArgsReach X ∧ op.quiet = true)
    (hrun : HOp.run X.S.CB i2 ops = .ok (os, i3)) {pid : Int} {stack : Bytes}
    (hf : i3.fallbackTo pid stack = .ok (.none, i4)) :
    FbSide pid i i3 i4 ∧ ∃ ek fk, FbKeys R i4 (some ek) fk ∧ pubOf i3.le = some (P.pub ek) ∧
      pubOf i3.lh = fk.map Q.pub ∧ (∀ k, fk = some k → ∃ g, G g ∧ k = g none) ∧
      fk.isSome = i.lh.isSome ∧ 2 ≤ p0.msgs.length ∧ pubOf i4.rh = none ∧
      ∃ rest, m.data = P.pub ek ++ rest := by
  have hI := hi.idle
  have T1 : Trail i i1 := Trail.step R hI.inv (hI.still R) (op := .start) trivial rfl (by
    simp only [HOp.step, si]; rfl)
  obtain ⟨e2, q2, b2, w1, winv, _⟩ := writeMessage_ok T1.inv t0.rnd t0.junkW t0.mem (some t0.payload)
  rw [hw] at w1; cases w1
  obtain ⟨name, n1, n2⟩ := hI.named
  obtain ⟨oi, hoi⟩ := hK.own hI
  obtain ⟨t, fl, t1, t2, t3, t4⟩ := hI.tokens
  obtain ⟨t', fl', q1, q2, q3⟩ := hI.possible
  rw [t1] at q1; cases q1
  rw [t2] at q2; cases q2
  have hact : i1.action = .write := by
    obtain ⟨e, s1, h1, _, _, h4⟩ := start_ok hI.inv
    rw [si] at h1; cases h1
    have := (h4 rfl).2.2.2
    rw [hri] at this
    exact this
  obtain ⟨e3, q3', b3, y1, _, _, _, _, y2⟩ := writeMessage_ok T1.inv t0.rnd t0.junkW t0.mem (some t0.payload)
  rw [hw] at y1; cases y1
  obtain ⟨F2, _, _⟩ := y2 hact
  -- the reads
  have key : LhStill R i2 → FbSide pid i i3 i4 ∧ Trail i2 i3 := by
    intro hl
    have T2 := Trail.run R ops winv hl ha hrun
    refine ⟨fbSide hI T2.inv (T2.calm.reach (writeMessage_reach hw (T1.calm.reach hI.keysReach)))
      (by rw [T2.reqs, F2.reqs, T1.reqs]) (by rw [T2.role, F2.role, T1.role])
      (by rw [T2.id, F2.sym.id, T1.id]) (by rw [T2.pres, F2.pres, T1.pres]) ?_ hf, T2⟩
    intro hx
    exact T2.psk (fun hy => by rw [F2.psk]; exact T1.psk hI.psk hx)
      (by rw [F2.sym.id, T1.id]; exact hx)
  have hrem : hasFlag fl flagRemoteRequired = true := by
    obtain ⟨k1, k2⟩ := quiet_keep ops winv ha hrun
    rw [← q3, ← T1.reqs, ← F2.reqs, ← k2]
    exact (fellBack k1 hf).post.was
  obtain ⟨sa, a1, a2, a3, a4, a5, a6, a7, a8, a9, a10, a11, a12, a13⟩ :=
    hI.follows n2 hp0 (no_second t1 hp0 t2 hrem) hoi si
  have hg' : Generates R G t0 i1 := hg.frame a3
  obtain ⟨ge, hge'⟩ := Classical.axiomOfChoice fun n => (hg' n).1
  have hge := fun n => (hge' n).1
  obtain ⟨gf, hgf'⟩ := Classical.axiomOfChoice fun n => (hg' n).2
  have hgf := fun n => (hgf' n).1
  have hG := fun n => (hgf' n).2
  have hwr := C13_write R t0.rnd t0.junkW i1 sa a2 hact (fun n => ge (n + later i1 sa))
    (fun n => gf (n + later i1 sa)) (fun n => hge _) (fun n => hgf _) t0.mem (some t0.payload)
  obtain ⟨sb, hdr, ct, v1, v2, rest, hrest⟩ : ∃ sb hdr ct, HSt.writeMessage X.S.crypto
      (fun n => ge (n + later i1 sa)) (fun n => gf (n + later i1 sa)) sa t0.payload = .ok (sb, hdr, ct) ∧
      Follows R i2 sb ∧ ∃ rest, m.data = hdr ++ rest := by
    dsimp only [Option.getD] at hwr
    split at hwr
    · next st' hdr ct hx =>
      refine ⟨st', hdr, ct, hx, ?_⟩
      by_cases hfit : hdr.length + ct.length ≤ t0.mem.length ∧ ct.length ≤ 65535
      · obtain ⟨s', z1, z2, _⟩ := hwr.1 hfit
        rw [hw] at z1; cases z1
        exact ⟨z2, ct ++ t0.mem.drop (hdr.length + ct.length), by simp⟩
      · obtain ⟨e', s', b', z1, z2, _⟩ := hwr.2 hfit
        rw [hw] at z1; cases z1
        exact absurd rfl z2
    · obtain ⟨e', s', b', z1, z2, _⟩ := hwr
      rw [hw] at z1; cases z1
      exact absurd rfl z2
    · exact hwr.elim
  obtain ⟨o1, o2, o3⟩ := HSt.writeMessage_keys v1
  have hne := o1 (by rw [a4]; exact first_e t1 hp0)
  obtain ⟨ek, hek⟩ := Option.isSome_iff_exists.mp hne
  rw [a12] at o2 o3
  rw [a9] at o3
  have hlh : LhStill R i2 := by
    right
    intro d hd
    cases hfk : sb.f with
    | none => exact .inl (by rw [v2.rel.lhNone hfk d hd]; decide)
    | some k => exact .inr (v2.rel.lhRole d hd (by rw [hfk]; rfl) o2)
  obtain ⟨S, T2⟩ := key hlh
  obtain ⟨c1, c2, c3, c4, _⟩ := S.back.init (by rw [T2.role, F2.role, T1.role, hri])
  have hal := S.back.post.allowed
  simp only [fallbackAllowed, T2.role, F2.role, T1.role, hri, Bool.and_eq_true, Bool.or_eq_true] at hal
  have hle4 : i4.le = i2.le := c1.trans T2.calm.le
  have hlh4 : i4.lh = i2.lh := c2.trans T2.calm.lh
  refine ⟨S, ek, sb.f, ⟨?_, ?_, ?_, ?_, ?_, ?_⟩, ?_, ?_, ?_, ?_, ?_, pubOf_noKey c4, ?_⟩
  · rintro k hk; cases hk; rw [hle4]; exact v2.rel.le ek hek
  · rw [hlh4]; exact v2.rel.lh
  · rw [hlh4]; exact v2.rel.lhNone
  · rw [hlh4]; exact fun d hd hk => v2.rel.lhRole d hd hk o2
  · exact fun d hd hk => absurd (c4 d hd) hk
  · exact fun _ => pubOf_noKey c4
  · rw [T2.calm.le]
    obtain ⟨d, d1, d2⟩ := v2.rel.le ek hek
    simp only [pubOf, d1, R.RD.keypair d ek d2, R.RD.pub d ek (v2.rel.sound.le d d1) d2]
    rfl
  · rw [T2.calm.lh]
    cases hfk : sb.f with
    | none => exact pubOf_noKey (v2.rel.lhNone hfk)
    | some k =>
      obtain ⟨d, d1, d2⟩ := v2.rel.lh k hfk
      simp only [pubOf, d1, R.RG.keypair d k d2, R.RG.pub d k (v2.rel.sound.lh d d1) d2]
      rfl
  · intro k hk
    rcases o3 with o3 | ⟨n, o3⟩
    · rw [o3] at hk; cases hk
    · rw [o3] at hk; cases hk
      exact ⟨_, hG _, rfl⟩
  · have hp : i3.lh.isSome = i.lh.isSome := by
      have := congrArg Pres.lh (T2.pres.trans (F2.pres.trans T1.pres))
      simpa only [pres] using this
    rw [← hp]
    cases hfk : sb.f with
    | none =>
      have hn : hasPublicKeyP i3.lh = false := by
        cases hl : i3.lh with
        | none => rfl
        | some d =>
          have := v2.rel.lhNone hfk d (by rw [← T2.calm.lh]; exact hl)
          simp [hasPublicKeyP, DHState.hasPublicKey, this]
      rw [hn] at hal
      have := hal.2
      cases hl : i3.lh with
      | none => rfl
      | some d => rw [hl] at this; simp at this
    | some k =>
      obtain ⟨d, d1, d2⟩ := v2.rel.lh k hfk
      rw [T2.calm.lh, d1]; rfl
  · refine Nat.le_of_not_lt fun hlen => ?_
    have hms : sb.msgs = [] := by
      have := ((a2.write hact).2.2.2.write (C := X.S.crypto) (a2.write hact).1 _ _ t0.payload).2 _ _ _ v1
      rw [this.2.2.2.2, a4]
      cases hm : p0.msgs with
      | nil => rfl
      | cons x xs =>
        cases xs with
        | nil => rfl
        | cons y ys => rw [hm] at hlen; simp at hlen; omega
    have := T2.ended (.inl (v2.split hms))
    rcases hal.1.1 with h | h <;> rcases this with h' | h' <;> rw [h'] at h <;> cases h
  · obtain ⟨_, m0, ms0, hm0, hn0⟩ := first_tokens t1 t2 hrem hp0
    obtain ⟨k, b, g1, g2⟩ := HSt.writeMessage_first (by rw [a4]; exact hm0) hn0 v1
    rw [hek] at g1; cases g1
    exact ⟨b ++ rest, by rw [hrest, g2, List.append_assoc]⟩

/-! ## C19 -/

theorem FbSide.reserved {pid : Int} {s s3 s4 : X.H} (h : FbSide pid s s3 s4) (hI : Idle X s) :
    s3.sym.id.reserved.length = 4 := by
  obtain ⟨name, n1, _⟩ := hI.named
  have h1 := congrArg ProtocolId.reserved (h.back.post.id.symm.trans h.id)
  dsimp only at h1
  rw [h1, (isNameOf_of_parse n1).2]
  rfl

/-- C19: two parties that were created for the same protocol with opposite roles fall back to the same
pattern after the initiator's first message. The first handshake may have been set up differently on the
two sides (wrong static key, prologue or pre-shared key), and may have failed at any point of reading. If
the responder received the initiator's ephemeral key, and its hybrid key if there is one, and
the two sides agree on the prologue and the pre-shared key when they start again, then the exchange of the
messages of the fallback pattern with exchanged roles succeeds whatever the keys, payloads and randomness;
every payload arrives; both sides are then at SPLIT with the same handshake hash, and the ciphers they
split into match crosswise. -/
theorem C19_fallback_agreement (R : Real X P Q) (hK : KeysGenuine R) (hP : P.Good)
    (G : (Option Bytes → Q.KP) → Prop) (hQ : Q.GoodGen G) (i i1 i2 i3 i4 i5 i6 r r2 r3 r4 r5 : X.H)
    (hi : SetUp X i) (hr : SetUp X r) (hri : i.role = .initiator) (hrr : r.role = .responder)
    (hid : i.sym.id = r.sym.id)
    -- the first handshake: the initiator sends a message; then either side may do anything but write
    (si : i.start X.S.CB = .ok (.none, i1)) (t0 : Turn) (hg0 : Generates R G t0 i) (m : Buf)
    (hw : i1.writeMessage X.S.CB t0.rnd t0.junkW t0.mem (some t0.payload) = .ok (.none, i2, m))
    (iops rops : List (HOp X.D X.G)) (ios ros : List HObs)
    (hia : ∀ op ∈ iops, op.ArgsReach X ∧ op.quiet = true) (hirun : HOp.run X.S.CB i2 iops = .ok (ios, i3))
    (hra : ∀ op ∈ rops, op.ArgsReach X ∧ op.quiet = true) (hrrun : HOp.run X.S.CB r rops = .ok (ros, r2))
    -- the responder has the ephemeral keys
    (hke : pubOf r2.re = pubOf i3.le) (hkf : pubOf r2.rh = pubOf i3.lh)
    -- both fall back
    (pid : Int) (stack stack' : Bytes) (fi : i3.fallbackTo pid stack = .ok (.none, i4))
    (fr : r2.fallbackTo pid stack' = .ok (.none, r3)) (p : Spec.Pattern) (hp : specPattern pid = some p)
    (hpf : p.preKey .responder .f = true → i.lh.isSome = true)
    -- both are set up again and start
    (iops' rops' : List (HOp X.D X.G)) (ios' ros' : List HObs)
    (hia' : ∀ op ∈ iops', op.ArgsReach X) (hirun' : HOp.run X.S.CB i4 iops' = .ok (ios', i5))
    (hif' : (iops'.zip ios').any isFallback = false)
    (hra' : ∀ op ∈ rops', op.ArgsReach X) (hrrun' : HOp.run X.S.CB r3 rops' = .ok (ros', r4))
    (hrf' : (rops'.zip ros').any isFallback = false)
    (hpro : i5.prologue = r4.prologue) (hpsk : i5.psk = r4.psk)
    (si' : i5.start X.S.CB = .ok (.none, i6)) (sr' : r4.start X.S.CB = .ok (.none, r5))
    -- the messages
    (turns : List Turn) (hfit : FitAll X.S.crypto P Q turns p.msgs)
    (hgen : ∀ t ∈ turns, Generates R G t i5 ∧ Generates R G t r4) :
    ∃ r6 i7, exchange X.S.CB turns r5 i6 = .ok (some (r6, i7, turns.map (·.payload))) ∧
      r6.action = .split ∧ i7.action = .split ∧ r6.sym.h = i7.sym.h ∧
      ∃ r7 i8 c1 c2, r6.split X.S.CB true true true = .ok (.none, r7, some c1, some c2) ∧
        i7.split X.S.CB true true true = .ok (.none, i8, some c2, some c1) ∧
        r7.action = .complete ∧ i8.action = .complete := by
  have hiI := hi.idle
  have hrI := hr.idle
  obtain ⟨t0', fl0', t1, t2, _⟩ := hiI.tokens
  obtain ⟨p0, _, hp0, _⟩ := C17_tables_are_the_specification t1
  obtain ⟨SI, ek, fk, KI, hle, hlh, hG, hfk, hlen, hrhI, _⟩ := initiator_fb R hK hi hri hp0 si hg0 hw hia hirun fi
  obtain ⟨SR, KR, cre, crh, hreS, _⟩ := responder_fb R hr hrr hra hrrun fr
  obtain ⟨ti, fli, u1, u2, u3, u4, u5⟩ := SI.old
  obtain ⟨tr, flr, w1, w2, w3, w4, w5⟩ := SR.old
  rw [← hid] at w1
  rw [u1] at w1; cases w1
  rw [u2] at w2; cases w2
  obtain ⟨tp, flp, v1, v2, v3, v4, _⟩ := SI.back.post.pattern
  obtain ⟨tp', flp', x1, x2, x3, x4, _⟩ := SR.back.post.pattern
  rw [v1] at x1; cases x1
  rw [v2] at x2; cases x2
  obtain ⟨pk1, pk2, pk3, pk4⟩ := patOk_fb v1 hp v2 v3 i.lh.isSome hpf
  -- names
  obtain ⟨name, n1, n2⟩ := SI.back.named (SI.reserved hiI)
  obtain ⟨name', n1', n2'⟩ := SR.back.named (SR.reserved hrI)
  have hidS : r3.sym.id = i4.sym.id := by rw [SR.id, SI.id, hid]
  have hname : name' = name := C28_names_unique _ _ _ (by rw [hidS] at n1'; exact n1') n1
  subst hname
  -- set up again
  have RI : Resting X i4 i5 := Resting.run iops' SI.rest.inv (fun _ => SI.rest) hia' hirun' hif'
    (start_requirements si').1
  have RR : Resting X r3 r4 := Resting.run rops' SR.rest.inv (fun _ => SR.rest) hra' hrrun' hrf'
    (start_requirements sr').1
  have roleI : i5.role = .responder := by rw [RI.role, SI.role, hri]; rfl
  have roleR : r4.role = .initiator := by rw [RR.role, SR.role, hrr]; rfl
  have hlhp : i.lh.isSome = hasFlag fli flagLocalHybrid := by
    have h1 := (hybrid_pairs u1 u2 i.role).1
    rw [← u4, ← u5] at h1
    exact h1
  have hidI : i4.sym.id.patternId = pid := by rw [SI.id]
  have hidR : r3.sym.id.patternId = pid := by rw [SR.id]
  have ready : hasFlag fli flagLocalStatic = true → ∀ role, HS.ready (presOf (roleFlags fli role)) role.flip
      (role.flip == .initiator) (tp.drop 2) = true := fun hl role =>
    ready_fb u1 hp0 u2 v1 hp v2 u3 v3 hl hlen (fun hx => by rw [← hlhp]; exact hpf hx) role
  have locI : i5.pres.ls = true → hasFlag fli flagLocalStatic = true := by
    rw [RI.pres, u4, hri]
    exact id
  have pre5 : pubOf i5.re = none ∧ pubOf i5.rh = none := by
    obtain ⟨_, _, c3, c4, _⟩ := SI.back.init (by
      have := SI.back.post.role
      rw [SI.role, hri] at this
      cases h : i3.role with
      | initiator => rfl
      | responder => rw [h] at this; cases this)
    exact ⟨by rw [RI.re]; exact pubOf_noKey c3, by rw [RI.rh]; exact pubOf_noKey c4⟩
  obtain ⟨oi, sb, b1, b2, b3, b4, b5, b6, b8, b9, b11, b12, b13⟩ := RI.follows hK n2
    (by rw [hidI]; exact hp) (by rw [hidI]; exact v1) v2 v3 v4 hpf KI
    (fun hx => by rw [roleI] at hx; cases hx)
    (fun _ => ⟨pre5.2, rfl, by rw [hfk]⟩)
    (fun hx => by
      rw [v4, u4, SI.role, hri]
      refine ready (locI (hx ?_)) .initiator
      rw [roleI]
      exact pk3) si'
  have hl : hasFlag fli flagLocalStatic = true := locI (b13 (by rw [roleI]; exact pk3))
  have hre4 : pubOf r4.re = some (P.pub ek) := by rw [RR.re, cre, hke, hle]
  have hrh4 : pubOf r4.rh = fk.map Q.pub := by rw [RR.rh, crh, hkf, hlh]
  obtain ⟨or, sa, a1, a2, a3, a4, a5, a6, a8, a9, a11, a12, _⟩ := RR.follows hK n2'
    (by rw [hidR]; exact hp) (by rw [hidR]; exact v1) v2 v3 x4 hpf KR
    (fun _ => ⟨rfl, by rw [hre4]; rfl, by rw [hrh4, Option.isSome_map, hfk]⟩)
    (fun hx => by rw [roleR] at hx; cases hx)
    (fun _ => by
      rw [x4, w4, SR.role, hrr]
      exact ready hl .responder) sr'
  rw [roleI] at b5 b6
  rw [roleR] at a5 a6
  have hids : r4.sym.id = i5.sym.id := by rw [RR.sym, RI.sym, hidS]
  rw [hids, ← hpro, ← hpsk] at a1
  have hmemI : ∀ u, (Role.initiator, u) ∉ (fbPattern p i.lh.isSome).known := by
    intro u hu
    simp [Spec.Pattern.known, fbPattern, pk2] at hu
  have hmemR : ∀ u, (Role.responder, u) ∈ (fbPattern p i.lh.isSome).known ↔
      u = .e ∨ (u = .f ∧ i.lh.isSome = true) := by
    intro u
    cases i.lh.isSome <;> simp [Spec.Pattern.known, fbPattern, pk2]
  obtain ⟨e1, e2, e3⟩ := initState_sym a1 b1
    (fun u hu => by simp [fbPattern, pk2] at hu)
    (fun u hu => by
      have : (Role.responder, u) ∈ (fbPattern p i.lh.isSome).known := by
        simp [Spec.Pattern.known, hu]
      rcases (hmemR u).mp this with rfl | ⟨rfl, _⟩
      · simp [HSt.preMsgKey, fbState, roleR, roleI, hre4]
      · simp [HSt.preMsgKey, fbState, roleR, roleI, hrh4])
  have hlink : HSt.Link G .initiator (fbPattern p i.lh.isSome).known 0 sa sb := {
    ra := a5
    rb := b5
    psk := e2
    sym := e1
    msgs := by rw [a4, b4]
    nonce := by omega
    ab := fun u _ hm => absurd hm (hmemI u)
    ba := fun u _ hm => by
      rcases (hmemR u).mp hm with rfl | ⟨rfl, hy⟩
      · exact ⟨P.pub ek, by simp [HSt.ownPub, b8], by simp [HSt.remPub, a11, hre4]⟩
      · rw [← hfk] at hy
        obtain ⟨k, hk⟩ := Option.isSome_iff_exists.mp hy
        exact ⟨Q.pub k, by simp [HSt.ownPub, b9, hk], by simp [HSt.remPub, a12, hrh4, hk]⟩
    fa := fun _ => ⟨a9, by rw [b12, pre5.2]⟩
    fb := fun hm => by
      have hn : fk = none := by
        cases hk : fk with
        | none => rfl
        | some k => exact absurd ((hmemR .f).mpr (.inr ⟨rfl, by rw [← hfk, hk]; rfl⟩)) hm
      exact ⟨by rw [b9, hn], by rw [a12, hrh4, hn]; rfl⟩
    ga := fun _ k hk => by rw [a9] at hk; cases hk
    gb := fun _ k hk => hG k (by rw [← b9]; exact hk)
    gab := fun k _ hk => by rw [a9] at hk; cases hk }
  obtain ⟨_, _, _, la⟩ := a2.write a6
  obtain ⟨_, _, _, lb⟩ := b2.read b6
  have hsa := la.static
  have hsb := lb.static
  rw [a5, a4] at hsa
  rw [b5, b4] at hsb
  obtain ⟨r6, i7, sa', sb', y1, y2, y3, _, _, y4, y5, y6, y7, y8⟩ := exchange_agree R hP hQ turns p.msgs .initiator
    _ 0 r5 i6 sa sb a2 b2 (fun _ => ⟨a6, b6⟩) hlink a4 (by have := msgs_small v1 hp; omega)
    (Spec.Pattern.wellFrom _ pk1.noRepeat pk1.keys) hsa hsb hfit
    (fun t ht => ⟨(hgen t ht).2.frame a3, (hgen t ht).1.frame b3⟩)
  obtain ⟨z1, z2, r7, s1, s2, z3, z4, z5⟩ := C13_split R r6 sa' y2 y4
  obtain ⟨o1, o2, i8, s3, s4, o3, o4, o5⟩ := C13_split R i7 sb' y3 y5
  rw [y7] at z5
  rw [y8] at o5
  simp only [Role.flip, Prod.ext_iff, Prod.fst_swap, Prod.snd_swap] at z5 o5
  refine ⟨r6, i7, y1, z1, o1, by rw [z2, o2, y6], r7, i8, s1, s2, z3, ?_, z4, o4⟩
  have k1 : s1 = s4 := CipherState.abs_inj (by rw [z5.1, o5.2, y6]) (by rw [z5.1]; rfl)
  have k2 : s2 = s3 := CipherState.abs_inj (by rw [z5.2, o5.1, y6]) (by rw [z5.2]; rfl)
  rw [k1, k2]
  exact o3

/-- What the responder makes of the initiator's first message: if it permits the fallback, it has the
ephemeral key that was sent. -/
theorem first_key (R : Real X P Q) (hP : P.Good) {r r1 r2 : X.H} (hr : SetUp X r)
    (hrem : r.reqs.fallbackPossible = true) (sr : r.start X.S.CB = .ok (.none, r1)) {junk : Nat → Nat → UInt8}
    {msg b : Buf} {pl : Option Bytes} {p : Option Buf} {e : Err}
    (rd : r1.readMessage X.S.CB junk msg pl = .ok (e, r2, b, p)) {k : P.KP} {rest : Bytes}
    (hm : msg.data = P.pub k ++ rest) (hk : (pubOf r2.re).isSome = true) : pubOf r2.re = some (P.pub k) := by
  have hI := hr.idle
  obtain ⟨t, fl, t1, t2, t3, t4⟩ := hI.tokens
  obtain ⟨t', fl', q1, q2, q3⟩ := hI.possible
  rw [t1] at q1; cases q1
  rw [t2] at q2; cases q2
  obtain ⟨p0, _, hp0, _⟩ := C17_tables_are_the_specification t1
  obtain ⟨⟨ts, e1, e2⟩, _⟩ := first_tokens t1 t2 (by rw [← q3]; exact hrem) hp0
  obtain ⟨er, s1, h1, h2, _, h4⟩ := start_ok hI.inv
  rw [sr] at h1; cases h1
  have hst : r1.re = r.re ∧ r1.tokens = r.tokens := by
    unfold HS.start at sr
    repeat' split at sr
    all_goals first
      | (cases sr; done)
      | (simp only [Out.bind_eq_ok] at sr
         obtain ⟨_, _, _, _, sr⟩ := sr
         cases sr
         exact ⟨rfl, rfl⟩)
  obtain ⟨pk, hpk⟩ := Option.isSome_iff_exists.mp hk
  obtain ⟨d', d1, d2, d3⟩ := pubOf_some hpk
  rcases readMessage_re h2.sound (by rw [hst.2, t3, e1]) e2 rd (by rw [hst.1]; exact hI.re) d' d1 with hx | ⟨d, x1, x2⟩
  · exact absurd hx d2
  · rw [hpk, ← d3, x2, hm, X.WD.pubLen d (h2.sound.re d x1), R.RD.anyLen rfl d.role true, ← hP.len k true]
    simp

/-- C19, for a message that arrives: as `C19_fallback_agreement`, where the responder started and called
`read_message` on the initiator's first message, with whatever result. That it has received the
initiator's ephemeral key is then a consequence of its being permitted to fall back. -/
theorem C19_fallback_after_first_message (R : Real X P Q) (hK : KeysGenuine R) (hP : P.Good)
    (G : (Option Bytes → Q.KP) → Prop) (hQ : Q.GoodGen G) (i i1 i2 i3 i4 i5 i6 r r1 r2 r3 r4 r5 : X.H)
    (hi : SetUp X i) (hr : SetUp X r) (hri : i.role = .initiator) (hrr : r.role = .responder)
    (hid : i.sym.id = r.sym.id)
    -- the first message
    (si : i.start X.S.CB = .ok (.none, i1)) (t0 : Turn) (hg0 : Generates R G t0 i) (m : Buf)
    (hw : i1.writeMessage X.S.CB t0.rnd t0.junkW t0.mem (some t0.payload) = .ok (.none, i2, m))
    (sr : r.start X.S.CB = .ok (.none, r1)) (e : Err) (pmem : Option Bytes) (b : Buf) (pl : Option Buf)
    (rd : r1.readMessage X.S.CB t0.junkR m pmem = .ok (e, r2, b, pl))
    (hkf : i.lh.isSome = true → pubOf r2.rh = pubOf i3.lh)
    -- the initiator may have read something, too
    (iops : List (HOp X.D X.G)) (ios : List HObs) (hia : ∀ op ∈ iops, op.ArgsReach X ∧ op.quiet = true)
    (hirun : HOp.run X.S.CB i2 iops = .ok (ios, i3))
    -- both fall back
    (pid : Int) (stack stack' : Bytes) (fi : i3.fallbackTo pid stack = .ok (.none, i4))
    (fr : r2.fallbackTo pid stack' = .ok (.none, r3)) (p : Spec.Pattern) (hp : specPattern pid = some p)
    (hpf : p.preKey .responder .f = true → i.lh.isSome = true)
    -- both are set up again and start
    (iops' rops' : List (HOp X.D X.G)) (ios' ros' : List HObs)
    (hia' : ∀ op ∈ iops', op.ArgsReach X) (hirun' : HOp.run X.S.CB i4 iops' = .ok (ios', i5))
    (hif' : (iops'.zip ios').any isFallback = false)
    (hra' : ∀ op ∈ rops', op.ArgsReach X) (hrrun' : HOp.run X.S.CB r3 rops' = .ok (ros', r4))
    (hrf' : (rops'.zip ros').any isFallback = false)
    (hpro : i5.prologue = r4.prologue) (hpsk : i5.psk = r4.psk)
    (si' : i5.start X.S.CB = .ok (.none, i6)) (sr' : r4.start X.S.CB = .ok (.none, r5))
    -- the messages
    (turns : List Turn) (hfit : FitAll X.S.crypto P Q turns p.msgs)
    (hgen : ∀ t ∈ turns, Generates R G t i5 ∧ Generates R G t r4) :
    ∃ r6 i7, exchange X.S.CB turns r5 i6 = .ok (some (r6, i7, turns.map (·.payload))) ∧
      r6.action = .split ∧ i7.action = .split ∧ r6.sym.h = i7.sym.h ∧
      ∃ r7 i8 c1 c2, r6.split X.S.CB true true true = .ok (.none, r7, some c1, some c2) ∧
        i7.split X.S.CB true true true = .ok (.none, i8, some c2, some c1) ∧
        r7.action = .complete ∧ i8.action = .complete := by
  have hiI := hi.idle
  have hrI := hr.idle
  obtain ⟨t0', fl0', t1, t2, _⟩ := hiI.tokens
  obtain ⟨p0, _, hp0, _⟩ := C17_tables_are_the_specification t1
  obtain ⟨SI, ek, fk, KI, hle, hlh, hG, hfk, hlen, hrhI, rest, hrest⟩ :=
    initiator_fb R hK hi hri hp0 si hg0 hw hia hirun fi
  have hra : ∀ op ∈ ([.start, .read t0.junkR m pmem] : List (HOp X.D X.G)), op.ArgsReach X ∧ op.quiet = true := by
    intro op ho
    simp only [List.mem_cons, List.not_mem_nil, or_false] at ho
    rcases ho with rfl | rfl <;> exact ⟨trivial, rfl⟩
  have hrrun : HOp.run X.S.CB r [.start, .read t0.junkR m pmem] =
      .ok ([{ err := .none }, { err := e, buf := some b, payload := pl }], r2) := by
    simp only [HOp.run, HOp.step, sr, rd, Out.bind_ok, Out.pure_eq]
  obtain ⟨SR, KR, cre, crh, hreS, _⟩ := responder_fb R hr hrr hra hrrun fr
  have T := Trail.run R _ hrI.inv (hrI.still R) hra hrrun
  have hke := first_key R hP hr (by rw [← T.reqs]; exact SR.back.post.was) sr rd hrest hreS
  have hkf' : pubOf r2.rh = pubOf i3.lh := by
    cases hx : i.lh.isSome with
    | true => exact hkf hx
    | false =>
      rw [hx] at hfk
      obtain ⟨ti, fli, u1, u2, u3, u4, u5⟩ := SI.old
      obtain ⟨tr, flr, w1, w2, w3, w4, w5⟩ := SR.old
      rw [← hid] at w1
      rw [u1] at w1; cases w1
      rw [u2] at w2; cases w2
      have h1 : i.lh.isSome = _ := congrArg Pres.lh (u5.trans u4)
      rw [hx, (hybrid_pairs u1 u2 i.role).1] at h1
      have h2 : r3.rh.isSome = _ := congrArg Pres.rh w4
      rw [(hybrid_pairs u1 u2 r.role).2 u3, ← h1, crh] at h2
      cases hrh : r2.rh with
      | some d => rw [hrh] at h2; cases h2
      | none =>
        rw [hlh]
        cases fk with
        | none => rfl
        | some k => cases hfk
  exact C19_fallback_agreement R hK hP G hQ i i1 i2 i3 i4 i5 i6 r r2 r3 r4 r5 hi hr hri hrr hid si t0 hg0 m hw
    iops _ ios _ hia hirun hra hrrun (by rw [hke, hle]) hkf' pid stack stack' fi fr p hp hpf iops' rops' ios' ros'
    hia' hirun' hif' hra' hrrun' hrf' hpro hpsk si' sr' turns hfit hgen

/-! ## When falling back is permitted, and what it does -/

/-- C19: a fallback is permitted exactly when the handshake is of an interactive pattern in which the
responder's static key is known beforehand, no fallback happened before, the new pattern is one of the
fallback patterns, its protocol name can be formed, and the party has the ephemeral key of
the initiator (and its hybrid key, if the protocol has one) and either the handshake failed or the
first message has just passed. Otherwise nothing changes at all. -/
theorem C19_permitted (s : X.H) (h : Reached X s) (pid : Int) (stack : Bytes) :
    ∃ e s' e' mem, s.fallbackTo pid stack = .ok (e, s') ∧
      protocolIdToName stack { s.sym.id with patternId := pid } = .ok (e', mem) ∧
      (e = .none ↔ patternNN ≤ s.sym.id.patternId ∧ s.reqs.fallbackPossible = true ∧
        (∃ t fl, patternLookup pid = some t ∧ patternFlags t = .ok fl ∧
          hasFlag fl flagRemoteEphemReq = true) ∧ e' = .none ∧
        match s.role with
        | .initiator => (s.action = .failed ∨ s.action = .read) ∧ (pubOf s.le).isSome = true ∧
            (s.lh.isSome = true → (pubOf s.lh).isSome = true)
        | .responder => (s.action = .failed ∨ s.action = .write) ∧ (pubOf s.re).isSome = true ∧
            (s.rh.isSome = true → (pubOf s.rh).isSome = true)) ∧
      (e ≠ .none → s' = s) ∧ (e = .none → s'.role = s.role.flip) := by
  have hi := h.inv
  obtain ⟨e, s', h1, h2, h3, h4⟩ := fallbackTo_ok hi pid stack
  obtain ⟨e', mem, hn, _⟩ := C29_formatting_stays_inside stack { s.sym.id with patternId := pid }
  refine ⟨e, s', e', mem, h1, hn, ?_, h3, fun he => (h4 he).role⟩
  have hpk : ∀ {Y : Type} (o : Option (DHState Y)), (pubOf o).isSome = hasPublicKeyP o := by
    intro Y o
    cases o with
    | none => rfl
    | some d =>
      by_cases hk : d.keyType = .noKey <;> simp [pubOf, hasPublicKeyP, DHState.hasPublicKey, hk]
  have himp : ∀ a b : Bool, ((!a) || b) = true ↔ (a = true → b = true) := by decide
  have hal : s.fallbackAllowed = true ↔ (match s.role with
        | .initiator => (s.action = .failed ∨ s.action = .read) ∧ (pubOf s.le).isSome = true ∧
            (s.lh.isSome = true → (pubOf s.lh).isSome = true)
        | .responder => (s.action = .failed ∨ s.action = .write) ∧ (pubOf s.re).isSome = true ∧
            (s.rh.isSome = true → (pubOf s.rh).isSome = true)) := by
    unfold fallbackAllowed
    have hn : ∀ {Y : Type} (o : Option Y), o.isNone = !o.isSome := by intro Y o; cases o <;> rfl
    cases s.role <;> simp only [hpk, hn, Bool.and_eq_true, himp, Bool.or_eq_true, beq_iff_eq, and_assoc]
  rw [← hal]
  constructor
  · intro he
    have hp := h4 he
    subst he
    unfold fallbackTo at h1
    split at h1
    · cases h1
    next c1 =>
    split at h1
    · cases h1
    next t ht =>
    simp only [Out.bind_eq_ok] at h1
    obtain ⟨fl, hfl, h1⟩ := h1
    split at h1
    · cases h1
    next c2 =>
    split at h1
    · cases h1
    simp only [Out.bind_eq_ok, hn] at h1
    obtain ⟨⟨e2, mem2⟩, g1, h1⟩ := h1
    cases g1
    split at h1
    · next he => cases h1; exact absurd rfl he
    next he =>
    exact ⟨by omega, hp.was, ⟨t, fl, ht, hfl, by simpa using c2⟩, by simpa using he, hp.allowed⟩
  · rintro ⟨c1, c2, ⟨t, fl, ht, hfl, c3⟩, c4, c5⟩
    subst c4
    unfold fallbackTo at h1
    rw [if_neg (by simp [c2]; omega), ht] at h1
    simp only [hfl, Out.bind_ok, c3, c5, hn, Bool.true_eq_false, if_false, ne_eq, not_true_eq_false,
      Out.bind_eq_ok] at h1
    obtain ⟨s1, _, sy, _, h1⟩ := h1
    cases h1
    rfl

theorem fb_noRequired {id : Int} {t : Bytes} {fl : PatFlags} (h : patternLookup id = some t)
    (hf : patternFlags t = .ok fl) (he : hasFlag fl flagRemoteEphemReq = true) :
    hasFlag fl flagRemoteRequired = false := by
  have key : ∀ e ∈ patternTable, (match patternFlags e.2 with
      | .ok fl => !hasFlag fl flagRemoteEphemReq || !hasFlag fl flagRemoteRequired
      | .ub => true) = true := by decide +kernel
  have := key _ (patternLookup_mem h)
  rw [hf] at this
  simpa [he] using this

/-- C19: what a successful fallback leaves: the symmetric state of a new handshake with the new protocol
name, without a cipher key; the static key pair and the initiator's ephemeral keys are kept, all
other ephemeral keys are gone, as is the static key of the other party. -/
theorem C19_fallback_state (s s' : X.H) (h : Reached X s) (pid : Int) (stack : Bytes)
    (hs : s.fallbackTo pid stack = .ok (.none, s')) :
    (s.sym.id.reserved.length = 4 → ∃ name, protocolNameToId name = (.none, s'.sym.id) ∧
      s'.sym.Rep (Spec.initializeSymmetric X.S.crypto name)) ∧
    (∃ c, s'.sym.cipher = some c ∧ c.hasKey = false) ∧
    s'.sym.id = { s.sym.id with patternId := pid } ∧ s'.action = .none ∧ s'.role = s.role.flip ∧
    s'.ls = s.ls ∧ s'.psk = s.psk ∧ s'.prologue = s.prologue ∧
    pubOf s'.rs = none ∧
    (s.role = .initiator → s'.le = s.le ∧ s'.lh = s.lh ∧ pubOf s'.re = none ∧ pubOf s'.rh = none) ∧
    (s.role = .responder → s'.re = s.re ∧ s'.rh = s.rh ∧ pubOf s'.le = none ∧ pubOf s'.lh = none) := by
  have hb := fellBack h.inv hs
  refine ⟨hb.named, ?_, hb.post.id, hb.post.action, hb.post.role, hb.ls, hb.psk, hb.prologue, ?_, fun hr => ?_, fun hr => ?_⟩
  · have hc := hb.inv.cipher (by rw [hb.post.action]; decide)
    obtain ⟨c, hc⟩ := Option.isSome_iff_exists.mp hc
    refine ⟨c, hc, ?_⟩
    unfold fallbackTo at hs
    split at hs
    · cases hs
    split at hs
    · cases hs
    simp only [Out.bind_eq_ok] at hs
    obtain ⟨fl, hfl, hs⟩ := hs
    split at hs
    · cases hs
    split at hs
    · cases hs
    simp only [Out.bind_eq_ok] at hs
    obtain ⟨⟨e, mem⟩, hn, hs⟩ := hs
    split at hs
    · next he => cases hs; exact absurd rfl he
    simp only [Out.bind_eq_ok] at hs
    obtain ⟨s1, h1, sy, h2, hs⟩ := hs
    cases hs
    unfold fallbackSym at h2
    split at h2
    · cases h2
    · cases h2
      cases hc
      rfl
  · cases hr : s.role with
    | initiator =>
      obtain ⟨_, _, _, _, c5⟩ := hb.init hr
      exact pubOf_noKey c5
    | responder =>
      unfold fallbackTo at hs
      split at hs
      · cases hs
      split at hs
      · cases hs
      next t ht =>
      simp only [Out.bind_eq_ok] at hs
      obtain ⟨fl, hfl, hs⟩ := hs
      split at hs
      · cases hs
      next c =>
      split at hs
      · cases hs
      simp only [Out.bind_eq_ok] at hs
      obtain ⟨⟨e, mem⟩, hn, hs⟩ := hs
      split at hs
      · next he => cases hs; exact absurd rfl he
      simp only [Out.bind_eq_ok] at hs
      obtain ⟨s1, h1, sy, h2, hs⟩ := hs
      cases hs
      simp only [fallbackKeys, hr, fb_noRequired ht hfl (by simpa using c), Bool.false_eq_true, if_false,
        Out.bind_eq_ok] at h1
      obtain ⟨le, c1, lh, c2, rs, c3, h1⟩ := h1
      cases h1
      obtain ⟨_, d1, _, _, d2⟩ := clearOpt_ok X.WD s.rs h.inv.sound.rs
      rw [c3] at d1; cases d1
      exact pubOf_noKey fun d hd => (d2 d hd).1
  · obtain ⟨c1, c2, c3, c4, _⟩ := hb.init hr
    exact ⟨c1, c2, pubOf_noKey c3, pubOf_noKey c4⟩
  · obtain ⟨c1, c2, c3, c4⟩ := hb.resp hr
    exact ⟨c1, c2, pubOf_noKey c3, pubOf_noKey c4⟩

/-- C19: along every history of an object there is at most one successful fallback; the role is the
original one before it and the opposite one after it. -/
theorem C19_at_most_once (s0 s : X.H) (h0 : Created X s0) (ops : List (HOp X.D X.G)) (os : List HObs)
    (ha : ∀ op ∈ ops, op.ArgsOk X) (hr : HOp.run X.S.CB s0 ops = .ok (os, s)) :
    (ops.zip os).countP isFallback ≤ 1 ∧
    s.role = (if (ops.zip os).countP isFallback = 1 then s0.role.flip else s0.role) := by
  have key : ∀ (ops : List (HOp X.D X.G)) (s0 s : X.H) (os : List HObs), s0.Inv X →
      (∀ op ∈ ops, op.ArgsOk X) → HOp.run X.S.CB s0 ops = .ok (os, s) →
      ((ops.zip os).countP isFallback ≤ if s0.reqs.fallbackPossible then 1 else 0) ∧
      s.role = (if (ops.zip os).countP isFallback = 1 then s0.role.flip else s0.role) := by
    intro ops
    induction ops with
    | nil => intro s0 s os _ _ hr; cases hr; simp
    | cons op ops ih =>
      intro s0 s os hi ha hr
      simp only [HOp.run, Out.bind_eq_ok] at hr
      obtain ⟨⟨o, s1⟩, hstep, ⟨os1, s2⟩, hrun, hr⟩ := hr
      cases hr
      obtain ⟨o', s1', hs1, hi1, _⟩ := HOp.step_ok hi op (ha op (by simp))
      rw [hstep] at hs1; cases hs1
      obtain ⟨k1, k2⟩ := ih s1 s2 os1 hi1 (fun q hq => ha q (by simp [hq])) hrun
      rw [List.zip_cons_cons, List.countP_cons]
      cases hf : isFallback (op, o) with
      | false =>
        obtain ⟨g1, g2, g3⟩ := keep_step hi hstep hf
        rw [g1] at k1
        rw [g2] at k2
        simpa using ⟨k1, k2⟩
      | true =>
        have hp : ∃ pid, FallbackPost s0 pid s1 := by
          cases op with
          | fallbackTo p st =>
            obtain ⟨e, q, h1, _, h3, h4⟩ := HS.fallbackTo_ok hi p st
            simp only [HOp.step, h1, Out.bind_ok, Out.pure_eq, Out.ok.injEq, Prod.mk.injEq] at hstep
            obtain ⟨rfl, rfl⟩ := hstep
            exact ⟨p, h4 (by simpa [isFallback] using hf)⟩
          | _ => simp [isFallback] at hf
        obtain ⟨pid, hp⟩ := hp
        rw [hp.now] at k1
        have k0 : (ops.zip os1).countP isFallback = 0 := by simpa using k1
        rw [k0] at k2 ⊢
        simp [hp.was, k2, hp.role]
  obtain ⟨k1, k2⟩ := key ops s0 s os h0.inv ha hr
  refine ⟨?_, k2⟩
  split at k1 <;> omega

/-! ## C57: the roles of the key objects -/

/-- The patterns that `noise_handshakestate_new` treats as fallback patterns: for the initiator the two of
the table, for the responder none. -/
theorem dhRoles_table {id : Int} {t : Bytes} {fl : PatFlags} (h : patternLookup id = some t)
    (hf : patternFlags t = .ok fl) (role : Role) :
    hasFlag (roleFlags fl role) flagRemoteEphemReq =
      decide (role = .initiator ∧ (id = patternXXfallback ∨ id = patternXXfallbackHfs)) := by
  have key : ∀ e ∈ patternTable, (match patternFlags e.2 with
      | .ok fl => [Role.initiator, .responder].all fun role =>
          hasFlag (roleFlags fl role) flagRemoteEphemReq ==
          decide (role = .initiator ∧ (e.1 = patternXXfallback ∨ e.1 = patternXXfallbackHfs))
      | .ub => true) = true := by decide +kernel
  have := key _ (patternLookup_mem h)
  rw [hf] at this
  simp only [List.all_cons, List.all_nil, Bool.and_true, Bool.and_eq_true, beq_iff_eq] at this
  cases role
  · simpa using this.1
  · simpa using this.2

/-- C57: in an object created for a regular pattern the keys of the party itself have the role of the
party and the keys of the other party have the other role, so that the two parties agree on the
role of each key. In an object created directly for a fallback pattern, the keys of the party itself
have the role of the responder and the other ones that of the initiator, *for both parties*. -/
theorem C57_dh_roles (s : X.H) (hc : Created X s) :
    let lr := if s.sym.id.patternId = patternXXfallback ∨ s.sym.id.patternId = patternXXfallbackHfs
      then .responder else s.role
    (∀ d, s.ls = some d → d.role = some lr) ∧ (∀ d, s.le = some d → d.role = some lr) ∧
    (∀ d, s.rs = some d → d.role = some lr.flip) ∧ (∀ d, s.re = some d → d.role = some lr.flip) := by
  have key : ∀ sym role t fl, HS.Fresh X sym role t fl s → patternLookup sym.id.patternId = some t →
      patternFlags t = .ok fl → let lr := if s.sym.id.patternId = patternXXfallback ∨
      s.sym.id.patternId = patternXXfallbackHfs then .responder else s.role
    (∀ d, s.ls = some d → d.role = some lr) ∧ (∀ d, s.le = some d → d.role = some lr) ∧
    (∀ d, s.rs = some d → d.role = some lr.flip) ∧ (∀ d, s.re = some d → d.role = some lr.flip) := by
    intro sym role t fl h1 h2 h3
    have hd : dhRoles (roleFlags fl role) role =
        (let lr := if s.sym.id.patternId = patternXXfallback ∨
          s.sym.id.patternId = patternXXfallbackHfs then .responder else s.role
        (lr, lr.flip)) := by
      unfold dhRoles
      rw [dhRoles_table h2 h3 role, h1.sym, h1.role]
      by_cases c : sym.id.patternId = patternXXfallback ∨ sym.id.patternId = patternXXfallbackHfs <;>
        cases role <;> simp [c, Role.flip]
    have hr : ∀ r, (X.D.setRole X.D.init (some r)).role = some r := fun r =>
      (X.WD.changeRole X.D.init (some r) X.WD.init).2.1
    have hl := congrArg Prod.fst hd
    have hrr := congrArg Prod.snd hd
    dsimp only at hl hrr ⊢
    rw [← hrr, ← hl]
    exact ⟨fun d h => h1.ls d h ▸ hr _, fun d h => h1.le d h ▸ hr _,
      fun d h => h1.rs d h ▸ hr _, fun d h => h1.re d h ▸ hr _⟩
  cases hc with
  | byId ctx0 stack id role _ h =>
    obtain ⟨r, h1, h2⟩ := HS.newById_ok (X := X) ctx0 stack id role
    rw [h1] at h
    obtain ⟨_, sym, t, fl, k1, k2, k3, k4⟩ := h2 s (Out.ok.inj h)
    exact key sym role t fl k2 (k1 ▸ k3) k4
  | byName ctx0 name role _ h =>
    obtain ⟨r, h1, h2⟩ := HS.newByName_ok (X := X) ctx0 name role
    rw [h1] at h
    obtain ⟨_, sym, t, fl, _, k2, k3, k4⟩ := h2 s (Out.ok.inj h)
    exact key sym role t fl k2 k3 k4

/-- C57 for every pattern but the fallback ones: whatever the two parties have of the same key has the
same role in both objects. Missing: objects created directly for XXfallback and XXfallback+hfs, for
which it is false (`C57_fails`). -/
theorem C57_partial (i r : X.H) (hi : Created X i) (hr : Created X r) (hir : i.role = .initiator)
    (hrr : r.role = .responder) (hid : i.sym.id = r.sym.id)
    (hp : i.sym.id.patternId ≠ patternXXfallback ∧ i.sym.id.patternId ≠ patternXXfallbackHfs) :
    (∀ d d', (i.ls = some d ∧ r.rs = some d' ∨ i.le = some d ∧ r.re = some d') →
      d.role = some .initiator ∧ d'.role = some .initiator) ∧
    (∀ d d', (i.rs = some d ∧ r.ls = some d' ∨ i.re = some d ∧ r.le = some d') →
      d.role = some .responder ∧ d'.role = some .responder) := by
  obtain ⟨a1, a2, a3, a4⟩ := C57_dh_roles i hi
  obtain ⟨b1, b2, b3, b4⟩ := C57_dh_roles r hr
  rw [if_neg (by simp [hp]), hir] at a1 a2 a3 a4
  rw [if_neg (by simp [← hid, hp]), hrr] at b1 b2 b3 b4
  refine ⟨fun d d' h => ?_, fun d d' h => ?_⟩
  · rcases h with ⟨h1, h2⟩ | ⟨h1, h2⟩
    · exact ⟨a1 d h1, b3 d' h2⟩
    · exact ⟨a2 d h1, b4 d' h2⟩
  · rcases h with ⟨h1, h2⟩ | ⟨h1, h2⟩
    · exact ⟨a3 d h1, b1 d' h2⟩
    · exact ⟨a4 d h1, b2 d' h2⟩

/-- C57 is false for the fallback patterns: the parties give the same key opposite roles, whenever
both have it. -/
theorem C57_fails (i r : X.H) (hi : Created X i) (hr : Created X r) (hid : i.sym.id = r.sym.id)
    (hp : i.sym.id.patternId = patternXXfallback ∨ i.sym.id.patternId = patternXXfallbackHfs) :
    ∀ d d', (i.ls = some d ∧ r.rs = some d' ∨ i.le = some d ∧ r.re = some d') →
      d.role = some .responder ∧ d'.role = some .initiator := by
  obtain ⟨a1, a2, a3, a4⟩ := C57_dh_roles i hi
  obtain ⟨b1, b2, b3, b4⟩ := C57_dh_roles r hr
  rw [if_pos hp] at a1 a2 a3 a4
  rw [if_pos (hid ▸ hp)] at b1 b2 b3 b4
  rintro d d' (⟨h1, h2⟩ | ⟨h1, h2⟩)
  · exact ⟨a1 d h1, b3 d' h2⟩
  · exact ⟨a2 d h1, b4 d' h2⟩

end HS

/-! ## Concrete cases -/

/-- Everything `C19_fallback_after_first_message` assumes about the two objects (apart from `SetUp`), and
what it concludes, as a check; also that the responder's `read_message` returned `e`. -/
def fallCheck (name : String) (iops rops iops' rops' : List (HOp meetSetup.D meetSetup.G)) (pid : Int)
    (e : Err) : Bool :=
  match meetMake name .initiator iops, meetMake name .responder rops, (meetTurns 1).head? with
  | some (i0, ios, i), some (r0, ros, r), some t0 =>
    match i.start meetSetup.S.CB, r.start meetSetup.S.CB, specPattern pid with
    | .ok (.none, i1), .ok (.none, r1), some p =>
      match i1.writeMessage meetSetup.S.CB t0.rnd t0.junkW t0.mem (some t0.payload) with
      | .ok (.none, i2, m) =>
        match r1.readMessage meetSetup.S.CB t0.junkR m none with
        | .ok (e', r2, _, _) =>
          match i2.fallbackTo pid (List.replicate 256 7), r2.fallbackTo pid (List.replicate 256 8) with
          | .ok (.none, i4), .ok (.none, r3) =>
            match HOp.run meetSetup.S.CB i4 iops', HOp.run meetSetup.S.CB r3 rops' with
            | .ok (ios', i5), .ok (ros', r4) =>
              match i5.start meetSetup.S.CB, r4.start meetSetup.S.CB with
              | .ok (.none, i6), .ok (.none, r5) =>
                decide (e' = e) &&
                decide (i0.sym.id.reserved.length = 4) && decide (r0.sym.id.reserved.length = 4) &&
                !(iops.zip ios).any isFallback && !(rops.zip ros).any isFallback &&
                !(iops'.zip ios').any isFallback && !(rops'.zip ros').any isFallback &&
                decide (i.action = .none) && decide (r.action = .none) &&
                decide (i.sym.id = r.sym.id) && decide (i5.prologue = r4.prologue) &&
                decide (i5.psk = r4.psk) && decide (pubOf r2.rh = pubOf i2.lh) &&
                (!p.preKey .responder .f || i.lh.isSome) &&
                decide (i5.fe.isNone ∧ i5.fh.isNone ∧ r4.fe.isNone ∧ r4.fh.isNone ∧ i.fe.isNone ∧ i.fh.isNone) &&
                match HS.exchange meetSetup.S.CB (meetTurns p.msgs.length) r5 i6 with
                | .ok (some (r6, i7, ps)) =>
                  decide (i7.action = .split ∧ r6.action = .split ∧ i7.sym.h = r6.sym.h ∧
                    ps = (meetTurns p.msgs.length).map (·.payload))
                | _ => false
              | _, _ => false
            | _, _ => false
          | _, _ => false
        | _ => false
      | _ => false
    | _, _, _ => false
  | _, _, _ => false

/-- IK where the initiator has an old static key of the responder: the responder cannot decrypt the first
message, both fall back to XXfallback and complete it. -/
example : fallCheck "Noise_IK_25519_ChaChaPoly_BLAKE2s"
    [.localStatic (.setKeypairPrivate [3, 4]), .remoteStatic (.setPublicKey [5, 5])]
    [.localStatic (.setKeypairPrivate [6, 9])] [] [] patternXXfallback .macFailure = true := by
  decide +kernel

/-- XK with a pre-shared key and different prologues, set up again with equal ones. -/
example : fallCheck "NoisePSK_XK_25519_ChaChaPoly_BLAKE2s"
    [.localStatic (.setKeypairPrivate [3, 4]), .remoteStatic (.setPublicKey [7, 9]), .setPrologue [1],
     .setPsk (List.replicate 32 7)]
    [.localStatic (.setKeypairPrivate [6, 9]), .setPrologue [2], .setPsk (List.replicate 32 7)]
    [.setPrologue [1, 2]] [.setPrologue [1, 2]] patternXXfallback .macFailure = true := by
  decide +kernel

/-- With the hybrid extension. -/
example : fallCheck "Noise_IKhfs_25519+448_ChaChaPoly_BLAKE2s"
    [.localStatic (.setKeypairPrivate [3, 4]), .remoteStatic (.setPublicKey [5, 5])]
    [.localStatic (.setKeypairPrivate [6, 9])] [] [] patternXXfallbackHfs .macFailure = true := by
  decide +kernel

/-- The responder may also fall back although it could read the first message. -/
example : fallCheck "Noise_IK_25519_ChaChaPoly_BLAKE2s"
    [.localStatic (.setKeypairPrivate [3, 4]), .remoteStatic (.setPublicKey [7, 9])]
    [.localStatic (.setKeypairPrivate [6, 9])] [] [] patternXXfallback .none = true := by
  decide +kernel

/-- `C57_dh_roles` for both kinds of patterns: the two parties of IK agree on the roles of the keys, those
of XXfallback do not. -/
example : (["Noise_IK_25519_ChaChaPoly_BLAKE2s", "Noise_XXfallback_25519_ChaChaPoly_BLAKE2s"].map fun n =>
    match meetMake n .initiator [], meetMake n .responder [] with
    | some (i, _, _), some (r, _, _) => some (i.le.map (·.role), r.re.map (·.role))
    | _, _ => none) =
    [some (some (some .initiator), some (some .initiator)),
     some (some (some .responder), some (some .initiator))] := by
  decide +kernel

end Noise
