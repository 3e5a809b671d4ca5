import Verif.HandshakeTwo
/-!
# What reading messages leaves alone

Towards C19: between the first message and a fallback the objects may be used in any way that does not
write; the ephemeral keys the fallback depends on survive.
-/

namespace Noise

open Spec (Tok HSt Res)

/-- A public key call keeps the role and the invariant. -/
theorem setPublicKey_keeps {D : DHBackend} {Inv : DHState D.Ext → Prop} {L : Option Role → Nat}
    (W : D.Lawful Inv L) {r r' : DHState D.Ext} {b : Bytes} {e : Err} (hr : Inv r)
    (h : D.setPublicKey r b = .ok (e, r')) : Inv r' ∧ r'.role = r.role := by
  obtain ⟨e1, r1, h1, h2, h3, _⟩ := setPublicKey_eq W r hr b
  rw [h] at h1; cases h1
  exact ⟨h2, h3⟩

namespace HS
variable {X : Setup} {P Q : Spec.DH}

/-- The key objects other than the local ephemeral ones were made through the interface. -/
structure KeysReach (s : X.H) : Prop where
  ls : ∀ d, s.ls = some d → DHReach X.D d
  rs : ∀ d, s.rs = some d → DHReach X.D d
  re : ∀ d, s.re = some d → DHReach X.D d

/-- A hybrid public key received before a hybrid key pair was generated has the initiator's role. -/
def HybOk (s : X.H) : Prop :=
  (∀ d, s.lh = some d → d.keyType = .noKey) → ∀ q, s.rh = some q →
    X.IG q ∧ (q.keyType ≠ .noKey → q.role = some .initiator)

/-- Key agreement does not change the hybrid key pair. -/
def LhStill (R : Real X P Q) (s : X.H) : Prop :=
  R.anyG = true ∨ ∀ d, s.lh = some d → d.keyType ≠ .keypair ∨ d.role = some .initiator

/-- The local ephemeral keys are untouched, and the other keys are still as the interface makes
them. -/
structure Calm (s s' : X.H) : Prop where
  le : s'.le = s.le
  lh : s'.lh = s.lh
  reach : s.KeysReach → s'.KeysReach
  hyb : s.HybOk → s'.HybOk

theorem Calm.refl (s : X.H) : Calm s s := ⟨rfl, rfl, id, id⟩

theorem Calm.trans {a b c : X.H} (h : Calm a b) (h' : Calm b c) : Calm a c :=
  ⟨h'.le.trans h.le, h'.lh.trans h.lh, fun x => h'.reach (h.reach x), fun x => h'.hyb (h.hyb x)⟩

theorem KeysReach.congr {s s' : X.H} (h : s.KeysReach) (h1 : s'.ls = s.ls) (h2 : s'.rs = s.rs)
    (h3 : s'.re = s.re) : s'.KeysReach :=
  ⟨by rw [h1]; exact h.ls, by rw [h2]; exact h.rs, by rw [h3]; exact h.re⟩

theorem HybOk.congr {s s' : X.H} (h : s.HybOk) (h1 : s'.lh = s.lh) (h2 : s'.rh = s.rh) : s'.HybOk := by
  unfold HybOk
  rw [h1, h2]
  exact h

theorem Calm.congr {s s' : X.H} (h1 : s'.ls = s.ls) (h2 : s'.le = s.le) (h3 : s'.lh = s.lh)
    (h4 : s'.rs = s.rs) (h5 : s'.re = s.re) (h6 : s'.rh = s.rh) : Calm s s' :=
  ⟨h2, h3, fun h => h.congr h1 h4 h5, fun h => h.congr h3 h6⟩

theorem LhStill.calm {R : Real X P Q} {s s' : X.H} (h : LhStill R s) (hc : Calm s s') :
    LhStill R s' := by
  unfold LhStill
  rw [hc.lh]
  exact h

/-! ## Key agreement -/

theorem mixDh_reach {HB : HashBackend} {CB : CipherBackend} {D : DHBackend} {sym sym' : SymState HB}
    {p q p' : Option (DHState D.Ext)} {junk : Nat → UInt8} {e : Err}
    (h : mixDh CB D sym p q junk = .ok (e, sym', p')) (hp : ∀ d, p = some d → DHReach D d)
    (hq : ∀ d, q = some d → DHReach D d) : ∀ d, p' = some d → DHReach D d := by
  cases p with
  | none => cases h
  | some p =>
    cases q with
    | none =>
      simp only [mixDh, Out.bind_eq_ok] at h
      obtain ⟨r, _, h2⟩ := h
      cases h2
      exact hp
    | some q =>
      simp only [mixDh, Out.bind_eq_ok] at h
      obtain ⟨⟨e1, sh, p1⟩, h1, r, _, h2⟩ := h
      cases h2
      intro d hd
      cases hd
      exact .calcWith q (randBytes junk D.sharedLen) p e1 p1 (hp p rfl) (hq q rfl) (by
        simp only [DHOp.step, h1]; rfl)

theorem mixDh_still {HB : HashBackend} {CB : CipherBackend} {D : DHBackend}
    {Inv : DHState D.Ext → Prop} {L : Option Role → Nat} {any : Bool} {P : Spec.DH}
    (R : Realizes D Inv L any P) {sym sym' : SymState HB}
    {p q p' : Option (DHState D.Ext)} {junk : Nat → UInt8} {e : Err}
    (h : mixDh CB D sym p q junk = .ok (e, sym', p'))
    (hs : any = true ∨ ∀ d, p = some d → d.keyType ≠ .keypair ∨ d.role = some .initiator) : p' = p := by
  cases p with
  | none => cases h
  | some p =>
    cases q with
    | none =>
      simp only [mixDh, Out.bind_eq_ok] at h
      obtain ⟨r, _, h2⟩ := h
      cases h2
      rfl
    | some q =>
      simp only [mixDh, Out.bind_eq_ok] at h
      obtain ⟨⟨e1, sh, p1⟩, h1, r, _, h2⟩ := h
      cases h2
      have h1' := h1
      unfold DHBackend.calculateApi at h1
      dsimp only at h1
      split at h1
      · cases h1; rfl
      split at h1
      · cases h1; rfl
      next hk =>
      rw [R.calcSame p q _ e1 sh p1 ?_ h1']
      rcases hs with hs | hs
      · exact .inl hs
      · exact .inr ((hs p rfl).resolve_left (fun hx => hk hx))

theorem dhToken_reach {s s' : X.H} {junk : Nat → UInt8} {t : UInt8} {e : Err}
    (h : dhToken X.S.CB junk t s = .ok (e, s')) (hk : s.KeysReach) : s'.KeysReach := by
  have h1 : ∀ {e : Err} {s' : X.H}, dhEE X.S.CB junk s = .ok (e, s') → s'.KeysReach := by
    intro e s' h
    simp only [dhEE, Out.bind_eq_ok] at h
    obtain ⟨⟨e1, sy, p⟩, _, h2⟩ := h
    cases h2
    exact ⟨hk.ls, hk.rs, hk.re⟩
  have h2 : ∀ {e : Err} {s' : X.H}, dhLeRs X.S.CB junk s = .ok (e, s') → s'.KeysReach := by
    intro e s' h
    simp only [dhLeRs, Out.bind_eq_ok] at h
    obtain ⟨⟨e1, sy, p⟩, _, h2⟩ := h
    cases h2
    exact ⟨hk.ls, hk.rs, hk.re⟩
  have h3 : ∀ {e : Err} {s' : X.H}, dhLsRe X.S.CB junk s = .ok (e, s') → s'.KeysReach := by
    intro e s' h
    simp only [dhLsRe, Out.bind_eq_ok] at h
    obtain ⟨⟨e1, sy, p⟩, h1, h2⟩ := h
    cases h2
    exact ⟨mixDh_reach h1 hk.ls hk.re, hk.rs, hk.re⟩
  have h4 : ∀ {e : Err} {s' : X.H}, dhSS X.S.CB junk s = .ok (e, s') → s'.KeysReach := by
    intro e s' h
    simp only [dhSS, Out.bind_eq_ok] at h
    obtain ⟨⟨e1, sy, p⟩, h1, h2⟩ := h
    cases h2
    exact ⟨mixDh_reach h1 hk.ls hk.rs, hk.rs, hk.re⟩
  have h5 : ∀ {e : Err} {s' : X.H}, dhFF X.S.CB junk s = .ok (e, s') → s'.KeysReach := by
    intro e s' h
    simp only [dhFF, Out.bind_eq_ok] at h
    obtain ⟨⟨e1, sy, p⟩, _, h2⟩ := h
    cases h2
    exact ⟨hk.ls, hk.rs, hk.re⟩
  unfold dhToken at h
  cases hr : s.role <;> rw [hr] at h <;> repeat' split at h
  all_goals first
    | exact h1 h | exact h2 h | exact h3 h | exact h4 h | exact h5 h | (cases h; exact hk)

theorem dhToken_calm (R : Real X P Q) {s s' : X.H} {junk : Nat → UInt8} {t : UInt8} {e : Err}
    (hl : LhStill R s) (h : dhToken X.S.CB junk t s = .ok (e, s')) : Calm s s' := by
  have h1 : ∀ {e : Err} {s' : X.H}, dhEE X.S.CB junk s = .ok (e, s') →
      s'.le = s.le ∧ s'.lh = s.lh ∧ s'.rh = s.rh := by
    intro e s' h
    simp only [dhEE, Out.bind_eq_ok] at h
    obtain ⟨⟨e1, sy, p⟩, h1, h2⟩ := h
    cases h2
    exact ⟨mixDh_still R.RD h1 (.inl rfl), rfl, rfl⟩
  have h2 : ∀ {e : Err} {s' : X.H}, dhLeRs X.S.CB junk s = .ok (e, s') →
      s'.le = s.le ∧ s'.lh = s.lh ∧ s'.rh = s.rh := by
    intro e s' h
    simp only [dhLeRs, Out.bind_eq_ok] at h
    obtain ⟨⟨e1, sy, p⟩, h1, h2⟩ := h
    cases h2
    exact ⟨mixDh_still R.RD h1 (.inl rfl), rfl, rfl⟩
  have h3 : ∀ {e : Err} {s' : X.H}, dhLsRe X.S.CB junk s = .ok (e, s') →
      s'.le = s.le ∧ s'.lh = s.lh ∧ s'.rh = s.rh := by
    intro e s' h
    simp only [dhLsRe, Out.bind_eq_ok] at h
    obtain ⟨⟨e1, sy, p⟩, h1, h2⟩ := h
    cases h2
    exact ⟨rfl, rfl, rfl⟩
  have h4 : ∀ {e : Err} {s' : X.H}, dhSS X.S.CB junk s = .ok (e, s') →
      s'.le = s.le ∧ s'.lh = s.lh ∧ s'.rh = s.rh := by
    intro e s' h
    simp only [dhSS, Out.bind_eq_ok] at h
    obtain ⟨⟨e1, sy, p⟩, h1, h2⟩ := h
    cases h2
    exact ⟨rfl, rfl, rfl⟩
  have h5 : ∀ {e : Err} {s' : X.H}, dhFF X.S.CB junk s = .ok (e, s') →
      s'.le = s.le ∧ s'.lh = s.lh ∧ s'.rh = s.rh := by
    intro e s' h
    simp only [dhFF, Out.bind_eq_ok] at h
    obtain ⟨⟨e1, sy, p⟩, h1, h2⟩ := h
    cases h2
    exact ⟨rfl, mixDh_still R.RG h1 hl, rfl⟩
  have key : s'.le = s.le ∧ s'.lh = s.lh ∧ s'.rh = s.rh := by
    have h := h
    unfold dhToken at h
    cases hr : s.role <;> rw [hr] at h <;> repeat' split at h
    all_goals first
      | exact h1 h | exact h2 h | exact h3 h | exact h4 h | exact h5 h | (cases h; exact ⟨rfl, rfl, rfl⟩)
  exact ⟨key.1, key.2.1, dhToken_reach h, fun hh => hh.congr key.2.1 key.2.2⟩

/-! ## Reading -/

theorem setPublicKey_reach {D : DHBackend} {r r' : DHState D.Ext} {b : Bytes} {e : Err}
    (hr : DHReach D r) (h : D.setPublicKey r b = .ok (e, r')) : DHReach D r' :=
  .setPublicKey b r e r' hr h

theorem readE_calm {s s' : X.H} {msg m : Buf} {e : Err} (h : readE X.S.CB s msg = .ok (e, s', m)) :
    Calm s s' := by
  unfold readE at h
  split at h
  · cases h; exact .refl _
  next r hre =>
  split at h
  · cases h; exact .refl _
  simp only [Out.bind_eq_ok] at h
  obtain ⟨b, _, h⟩ := h
  split at h
  · cases h; exact .congr rfl rfl rfl rfl rfl rfl
  simp only [Out.bind_eq_ok] at h
  obtain ⟨⟨e1, r'⟩, h1, h⟩ := h
  have hc : ∀ sy : X.Sy, Calm s { s with sym := sy, re := some r' } := fun sy =>
    ⟨rfl, rfl, fun hk => ⟨hk.ls, hk.rs, fun d hd => by
      cases hd; exact setPublicKey_reach (hk.re r hre) h1⟩, fun hh => hh.congr rfl rfl⟩
  split at h
  · cases h; exact hc _
  simp only [readEKey, Out.bind_eq_ok] at h
  obtain ⟨null, _, h⟩ := h
  split at h
  · cases h; exact hc _
  simp only [Out.bind_eq_ok] at h
  obtain ⟨pk, _, ⟨e2, sy⟩, _, h⟩ := h
  cases h
  exact hc _

theorem readEncrypted_shape {HB : HashBackend} {CB : CipherBackend} {D : DHBackend}
    {sym sym' : SymState HB} {r r' : DHState D.Ext} {msg : Buf} {e : Err} {n : Nat}
    (h : readEncrypted CB D sym r msg = .ok (e, sym', r', n)) :
    r' = r ∨ ∃ b e', D.setPublicKey r b = .ok (e', r') := by
  unfold readEncrypted at h
  dsimp only at h
  split at h
  · cases h; exact .inl rfl
  simp only [Out.bind_eq_ok] at h
  obtain ⟨d, _, ⟨e1, sy, b⟩, _, h⟩ := h
  split at h
  · cases h; exact .inl rfl
  simp only [Out.bind_eq_ok] at h
  obtain ⟨pk, _, ⟨e2, r2⟩, h2, h⟩ := h
  cases h
  exact .inr ⟨_, _, h2⟩

theorem readS_calm {s s' : X.H} {msg m : Buf} {e : Err} (h : readS X.S.CB s msg = .ok (e, s', m)) :
    Calm s s' := by
  unfold readS at h
  split at h
  · cases h; exact .refl _
  next r hrs =>
  simp only [Out.bind_eq_ok] at h
  obtain ⟨⟨e1, sy, r', n⟩, h1, h⟩ := h
  have hc : Calm s { s with sym := sy, rs := some r' } :=
    ⟨rfl, rfl, fun hk => ⟨hk.ls, fun d hd => by
      cases hd
      rcases readEncrypted_shape h1 with hx | ⟨b, e', hx⟩
      · rw [hx]; exact hk.rs r hrs
      · exact setPublicKey_reach (hk.rs r hrs) hx, hk.re⟩, fun hh => hh.congr rfl rfl⟩
  split at h
  · cases h; exact hc
  · cases h; exact hc

theorem readF_calm {s s' : X.H} {msg m : Buf} {e : Err} (h : readF X.S.CB s msg = .ok (e, s', m)) :
    Calm s s' := by
  unfold readF at h
  split at h
  · cases h; exact .refl _
  · cases h; exact .refl _
  next l r hlh hrh =>
  simp only [Out.bind_eq_ok] at h
  obtain ⟨⟨e1, sy, r', n⟩, h1, h⟩ := h
  have hc : Calm s { s with sym := sy, rh := some r' } := by
    refine ⟨rfl, rfl, fun hk => hk.congr rfl rfl rfl, fun hh hno q hq => ?_⟩
    cases hq
    have hl : l.keyType = .noKey := hno l hlh
    rw [if_pos hl] at h1
    obtain ⟨g1, g2, _⟩ := X.WG.changeRole r (some .initiator) (hh hno r hrh).1
    rcases readEncrypted_shape h1 with hx | ⟨b, e', hx⟩
    · rw [hx]; exact ⟨g1, fun _ => g2⟩
    · obtain ⟨j1, j2⟩ := setPublicKey_keeps X.WG g1 hx
      exact ⟨j1, fun _ => j2.trans g2⟩
  split at h
  · cases h; exact hc
  · simp only [readFCheck, Out.bind_eq_ok] at h
    obtain ⟨null, _, h⟩ := h
    cases h; exact hc

theorem readToken_calm (R : Real X P Q) {s s' : X.H} {junk : Nat → UInt8} {t : UInt8} {msg m : Buf}
    {e : Err} (hl : LhStill R s) (h : readToken X.S.CB junk t s msg = .ok (e, s', m)) : Calm s s' := by
  unfold readToken at h
  split at h
  · exact readE_calm h
  split at h
  · exact readS_calm h
  split at h
  · exact readF_calm h
  simp only [Out.bind_eq_ok] at h
  obtain ⟨⟨e1, s1⟩, h1, h⟩ := h
  cases h
  exact dhToken_calm R hl h1

theorem readLoop_calm (R : Real X P Q) (junk : Nat → Nat → UInt8) : ∀ (ts : Bytes) {s s' : X.H}
    {msg m : Buf} {e : Err}, LhStill R s → readLoop X.S.CB junk ts s msg = .ok (e, s', m) → Calm s s' := by
  intro ts
  induction ts with
  | nil => intro s s' msg m e _ h; cases h
  | cons t ts ih =>
    intro s s' msg m e hl h
    unfold readLoop at h
    split at h
    · cases h; exact .congr rfl rfl rfl rfl rfl rfl
    split at h
    · cases h; exact .congr rfl rfl rfl rfl rfl rfl
    simp only [Out.bind_eq_ok] at h
    obtain ⟨⟨e1, s1, m1⟩, h1, h⟩ := h
    have hc := readToken_calm R hl h1
    split at h
    · cases h; exact hc
    · have hc' : Calm s { s1 with tokens := ts } := hc.trans (.congr rfl rfl rfl rfl rfl rfl)
      exact hc'.trans (ih (hl.calm hc') h)

theorem readMessage_calm (R : Real X P Q) {junk : Nat → Nat → UInt8} {s s' : X.H} {msg m : Buf}
    {pl : Option Bytes} {p : Option Buf} {e : Err} (hl : LhStill R s)
    (h : s.readMessage X.S.CB junk msg pl = .ok (e, s', m, p)) : Calm s s' := by
  unfold readMessage at h
  split at h
  · cases h; exact .refl _
  split at h
  · cases h; exact .refl _
  simp only [Out.bind_eq_ok] at h
  obtain ⟨⟨e1, s1, p1⟩, h1, data, _, h⟩ := h
  have hc : Calm s s1 := by
    simp only [HS.read, Out.bind_eq_ok] at h1
    obtain ⟨⟨e2, s2, m2⟩, h2, h1⟩ := h1
    have hc := readLoop_calm R junk _ hl h2
    split at h1
    · cases h1; exact hc
    · simp only [readPayload, Out.bind_eq_ok] at h1
      obtain ⟨⟨e3, sy, b⟩, _, h1⟩ := h1
      have hc' : Calm s { s2 with sym := sy } := hc.trans (.congr rfl rfl rfl rfl rfl rfl)
      split at h1
      · cases h1; exact hc'
      split at h1
      · cases h1; exact hc'
      split at h1
      · cases h1; exact hc'
      simp only [Out.bind_eq_ok] at h1
      obtain ⟨d, _, p', _, h1⟩ := h1
      cases h1; exact hc'
  split at h
  · cases h; exact hc.trans (.congr rfl rfl rfl rfl rfl rfl)
  · cases h; exact hc

/-! ## Writing -/

theorem writeToken_reach {s s' : X.H} {rnd junk : Nat → UInt8} {t : UInt8} {rest rest' : Bytes}
    {n : Nat} {e : Err} (h : writeToken X.S.CB rnd junk t s rest = .ok (e, s', rest', n))
    (hk : s.KeysReach) : s'.KeysReach := by
  have enc : ∀ {Y : Type} {q q' : X.H} {l : DHState Y} {e : Err} {rest' : Bytes} {n : Nat},
      writeEncrypted X.S.CB q l rest = .ok (e, q', rest', n) → q.KeysReach → q'.KeysReach := by
    intro Y q q' l e rest' n h hq
    unfold writeEncrypted at h
    split at h
    · cases h; exact hq
    simp only [Out.bind_eq_ok] at h
    obtain ⟨pk, _, r', _, ⟨e1, sy, b⟩, _, h⟩ := h
    cases h
    exact hq.congr rfl rfl rfl
  unfold writeToken at h
  split at h
  · unfold writeE at h
    split at h
    · cases h; exact hk
    simp only [Out.bind_eq_ok] at h
    obtain ⟨⟨e1, l'⟩, _, h⟩ := h
    split at h
    · cases h; exact hk.congr rfl rfl rfl
    unfold writeEKey at h
    split at h
    · cases h; exact hk.congr rfl rfl rfl
    simp only [Out.bind_eq_ok] at h
    obtain ⟨pk, _, r', _, ⟨e1, sy⟩, _, h⟩ := h
    cases h
    exact hk.congr rfl rfl rfl
  split at h
  · unfold writeS at h
    split at h
    · cases h; exact hk
    · exact enc h hk
  split at h
  · unfold writeF at h
    split at h
    · cases h; exact hk
    · cases h; exact hk
    simp only [Out.bind_eq_ok] at h
    obtain ⟨⟨e1, l'⟩, _, h⟩ := h
    split at h
    · cases h; exact hk.congr rfl rfl rfl
    · exact enc h (hk.congr rfl rfl rfl)
  simp only [Out.bind_eq_ok] at h
  obtain ⟨⟨e1, s1⟩, h1, h⟩ := h
  cases h
  exact dhToken_reach h1 hk

theorem writeLoop_reach (rnd junk : Nat → Nat → UInt8) : ∀ (ts : Bytes) {s s' : X.H}
    {mem mem' : Bytes} {n n' : Nat} {e : Err}, writeLoop X.S.CB rnd junk ts s mem n = .ok (e, s', mem', n') →
    s.KeysReach → s'.KeysReach := by
  intro ts
  induction ts with
  | nil => intro s s' mem mem' n n' e h; cases h
  | cons t ts ih =>
    intro s s' mem mem' n n' e h hk
    unfold writeLoop at h
    split at h
    · cases h; exact hk.congr rfl rfl rfl
    split at h
    · cases h; exact hk.congr rfl rfl rfl
    simp only [Out.bind_eq_ok] at h
    obtain ⟨⟨e1, s1, m1, n1⟩, h1, h⟩ := h
    have hc := writeToken_reach h1 hk
    split at h
    · cases h; exact hc
    · exact ih h (hc.congr rfl rfl rfl)

theorem writeMessage_reach {rnd junk : Nat → Nat → UInt8} {s s' : X.H} {mem : Bytes} {m : Buf}
    {pl : Option Bytes} {e : Err} (h : s.writeMessage X.S.CB rnd junk mem pl = .ok (e, s', m))
    (hk : s.KeysReach) : s'.KeysReach := by
  unfold writeMessage at h
  split at h
  · cases h; exact hk
  simp only [Out.bind_eq_ok] at h
  obtain ⟨⟨e1, s1, m1, n1⟩, h1, h⟩ := h
  have hc : s1.KeysReach := by
    simp only [HS.write, Out.bind_eq_ok] at h1
    obtain ⟨⟨e2, s2, m2, n2⟩, h2, h1⟩ := h1
    have hc := writeLoop_reach rnd junk _ h2 hk
    split at h1
    · cases h1; exact hc
    · unfold writePayload at h1
      dsimp only at h1
      split at h1
      · cases h1; exact hc
      split at h1
      · cases h1; exact hc
      simp only [Out.bind_eq_ok] at h1
      obtain ⟨r, _, ⟨e3, sy, b⟩, _, h1⟩ := h1
      split at h1
      · cases h1; exact hc.congr rfl rfl rfl
      · cases h1; exact hc.congr rfl rfl rfl
  split at h
  · cases h; exact hc.congr rfl rfl rfl
  · cases h; exact hc

end HS
end Noise
