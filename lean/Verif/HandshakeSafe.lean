import Verif.HandshakeBase
/-!
# Memory safety of the handshake layer (C16)
-/

namespace Noise
namespace HS

variable {X : Setup}

/-! ## Reading -/

/-- What a token step on the reading side guarantees. -/
structure ROk (X : Setup) (s : X.H) (msg : Buf) (r : Err × X.H × Buf) : Prop where
  sound : r.2.1.Sound X
  frame : s.Frame r.2.1
  action : r.2.1.action = s.action
  tokens : r.2.1.tokens = s.tokens
  size : r.2.2.size ≤ r.2.2.maxSize

theorem advance_size (msg : Buf) (h : msg.size ≤ msg.maxSize) (n : Nat) :
    (advance msg n).size ≤ (advance msg n).maxSize := by
  simp only [advance, Buf.maxSize, List.length_drop] at *; omega

theorem readE_ok {s : X.H} (h : s.Sound X) (msg : Buf) (hm : msg.size ≤ msg.maxSize) :
    ∃ r, readE X.S.CB s msg = .ok r ∧ ROk X s msg r ∧ (r.1 = .none → s.re.isSome = true) := by
  unfold readE
  cases hre : s.re with
  | none => exact ⟨_, rfl, ⟨h, .refl, rfl, rfl, hm⟩, (fun h => by cases h)⟩
  | some r =>
    dsimp only
    by_cases hc : msg.size < r.pubLen
    · rw [if_pos hc]; exact ⟨_, rfl, ⟨h, .refl, rfl, rfl, hm⟩, fun _ => rfl⟩
    rw [if_neg hc, load_ok (by simp only [Buf.maxSize] at hm; omega)]
    simp only [Out.bind_ok]
    generalize hb : List.take r.pubLen (List.drop 0 msg.data) = b
    have kn := (mixHash_next X.S s.sym b).1
    generalize hmx : s.sym.mixHash b = mx at kn
    obtain ⟨e, sym⟩ := mx
    dsimp only at kn ⊢
    have f1 : s.Frame { s with sym := sym } := .setSym kn
    have s1 : Sound X { s with sym := sym } := h.setSym (kn.ok h.sym)
    by_cases he : e = .none
    · rw [if_neg (by simp [he])]
      obtain ⟨e2, r', k1, k2, _, _, _, _, k3⟩ := setPublicKey_eq X.WD r (h.re r hre) b
      rw [k1]
      simp only [Out.bind_ok]
      have f2 : s.Frame { s with sym := sym, re := some r' } :=
        ⟨rfl, rfl, rfl, rfl, rfl, rfl, by simp [pres, hre], kn⟩
      have s2 : Sound X { s with sym := sym, re := some r' } :=
        ⟨kn.ok h.sym, h.ls, h.le, h.lh, h.rs, (fun d hd => by cases hd; exact k2), h.rh, h.fe, h.fh⟩
      by_cases he2 : e2 = .none
      · rw [if_neg (by simp [he2])]
        unfold readEKey
        rw [isNullPublicKey_eq X.WD r' k2]
        simp only [Out.bind_ok]
        split
        · exact ⟨_, rfl, ⟨s2, f2, rfl, rfl, hm⟩, fun _ => rfl⟩
        · have hp := k3 he2
          have hlen : r.pubLen ≤ r'.pub.length := by
            have h1 := (X.WD.lens r' k2).2
            have h2 : r'.pubLen = r.pubLen := by
              rw [X.WD.pubLen r' k2, X.WD.pubLen r (h.re r hre)]
              have := setPublicKey_eq X.WD r (h.re r hre) b
              obtain ⟨e3, r3, j1, _, j3, _⟩ := this
              rw [k1] at j1; cases j1
              rw [j3]
            omega
          rw [load_ok (by omega)]
          simp only [Out.bind_ok]
          obtain ⟨e3, sym3, j1, j2⟩ := pskMixKey_ok X.S sym (List.take r.pubLen (List.drop 0 r'.pub))
          rw [j1]
          exact ⟨_, rfl, ⟨s2.setSym (j2.ok s2.sym), f2.trans (.setSym j2), rfl, rfl,
            advance_size msg hm _⟩, fun _ => rfl⟩
      · rw [if_pos he2]; exact ⟨_, rfl, ⟨s2, f2, rfl, rfl, hm⟩, fun _ => rfl⟩
    · rw [if_pos he]
      have f1' : s.Frame { s with sym := sym, re := some r } :=
        ⟨rfl, rfl, rfl, rfl, rfl, rfl, by simp [pres, hre], kn⟩
      exact ⟨_, rfl, ⟨by simpa [hre] using s1, by simpa [hre] using f1, rfl, rfl, hm⟩, fun _ => rfl⟩

theorem readEncrypted_ok (S : Suite) {D : DHBackend} {Inv : DHState D.Ext → Prop}
    {L : Option Role → Nat} (W : D.Lawful Inv L) (sym : SymState S.HB) (r : DHState D.Ext) (hr : Inv r)
    (msg : Buf) (hm : msg.size ≤ msg.maxSize) :
    ∃ e sym' r' len, readEncrypted S.CB D sym r msg = .ok (e, sym', r', len) ∧ sym.Next sym' ∧ Inv r' ∧
      r'.role = r.role := by
  unfold readEncrypted
  dsimp only
  by_cases hc : msg.size < r.pubLen + sym.getMacLength S.CB
  · rw [if_pos hc]; exact ⟨_, _, _, _, rfl, .refl, hr, rfl⟩
  · rw [if_neg hc, load_ok (by simp only [Buf.maxSize] at hm; omega)]
    simp only [Out.bind_ok]
    obtain ⟨e, s', b', h1, h2, h3, h4, _, _⟩ := decrypt_next S sym
      ⟨List.take (r.pubLen + sym.getMacLength S.CB) (List.drop 0 msg.data),
        r.pubLen + sym.getMacLength S.CB⟩ (by simp only [Buf.maxSize] at hm ⊢; simp; omega)
    rw [h1]
    simp only [Out.bind_ok]
    by_cases he : e = .none
    · rw [if_neg (by simp [he])]
      rw [load_ok (by
        simp only [Buf.maxSize] at h3 h4 hm
        simp at h3
        omega)]
      simp only [Out.bind_ok]
      obtain ⟨e2, r', k1, k2, k3, _⟩ := setPublicKey_eq W r hr (List.take b'.size (List.drop 0 b'.data))
      rw [k1]
      exact ⟨_, _, _, _, rfl, h2, k2, k3⟩
    · rw [if_pos he]; exact ⟨_, _, _, _, rfl, h2, hr, rfl⟩

theorem readS_ok {s : X.H} (h : s.Sound X) (msg : Buf) (hm : msg.size ≤ msg.maxSize) :
    ∃ r, readS X.S.CB s msg = .ok r ∧ ROk X s msg r ∧ (r.1 = .none → s.rs.isSome = true) := by
  unfold readS
  cases hrs : s.rs with
  | none => exact ⟨_, rfl, ⟨h, .refl, rfl, rfl, hm⟩, (fun h => by cases h)⟩
  | some r =>
    obtain ⟨e, sym', r', len, h1, h2, h3, _⟩ := readEncrypted_ok X.S X.WD s.sym r (h.rs r hrs) msg hm
    dsimp only
    rw [h1]
    simp only [Out.bind_ok]
    have f2 : s.Frame { s with sym := sym', rs := some r' } :=
      ⟨rfl, rfl, rfl, rfl, rfl, rfl, by simp [pres, hrs], h2⟩
    have s2 : Sound X { s with sym := sym', rs := some r' } :=
      ⟨h2.ok h.sym, h.ls, h.le, h.lh, (fun d hd => by cases hd; exact h3), h.re, h.rh, h.fe, h.fh⟩
    split
    · exact ⟨_, rfl, ⟨s2, f2, rfl, rfl, hm⟩, fun _ => rfl⟩
    · exact ⟨_, rfl, ⟨s2, f2, rfl, rfl, advance_size msg hm _⟩, fun _ => rfl⟩

theorem readF_ok {s : X.H} (h : s.Sound X) (msg : Buf) (hm : msg.size ≤ msg.maxSize) :
    ∃ r, readF X.S.CB s msg = .ok r ∧ ROk X s msg r ∧
      (r.1 = .none → s.lh.isSome = true ∧ s.rh.isSome = true) := by
  unfold readF
  cases hlh : s.lh with
  | none => exact ⟨_, rfl, ⟨h, .refl, rfl, rfl, hm⟩, (fun h => by cases h)⟩
  | some l =>
    cases hrh : s.rh with
    | none => exact ⟨_, rfl, ⟨h, .refl, rfl, rfl, hm⟩, (fun h => by cases h)⟩
    | some r =>
      dsimp only
      obtain ⟨e, sym', r', len, h1, h2, h3, _⟩ := readEncrypted_ok X.S X.WG s.sym
        (X.G.setRole r (some (if l.keyType = .noKey then .initiator else .responder)))
        (X.WG.changeRole r _ (h.rh r hrh)).1 msg hm
      rw [h1]
      simp only [Out.bind_ok]
      have f2 : s.Frame { s with sym := sym', lh := some l, rh := some r' } :=
        ⟨rfl, rfl, rfl, rfl, rfl, rfl, by simp [pres, hrh, hlh], h2⟩
      have s2 : Sound X { s with sym := sym', lh := some l, rh := some r' } :=
        ⟨h2.ok h.sym, h.ls, h.le, (fun d hd => by cases hd; exact h.lh l hlh), h.rs, h.re,
         (fun d hd => by cases hd; exact h3), h.fe, h.fh⟩
      split
      · exact ⟨_, rfl, ⟨s2, f2, rfl, rfl, hm⟩, fun _ => ⟨rfl, rfl⟩⟩
      · unfold readFCheck
        rw [isNullPublicKey_eq X.WG r' h3]
        exact ⟨_, rfl, ⟨s2, f2, rfl, rfl, advance_size msg hm _⟩, fun _ => ⟨rfl, rfl⟩⟩

theorem readToken_ok {s : X.H} (h : s.Sound X) (t : UInt8) (junk : Nat → UInt8) (msg : Buf)
    (hm : msg.size ≤ msg.maxSize)
    (hp : s.pres.avail false t = true → s.pres.priv s.role t = true) :
    ∃ r, readToken X.S.CB junk t s msg = .ok r ∧ ROk X s msg r ∧
      (r.1 = .none → s.pres.avail false t = true) := by
  unfold readToken
  unfold Pres.avail at hp ⊢
  by_cases h1 : t = tokE
  · rw [if_pos h1, if_pos h1]
    exact readE_ok h msg hm
  rw [if_neg h1, if_neg h1]
  rw [if_neg h1] at hp
  by_cases h2 : t = tokS
  · rw [if_pos h2, if_pos h2]
    exact readS_ok h msg hm
  rw [if_neg h2, if_neg h2]
  rw [if_neg h2] at hp
  by_cases h3 : t = tokF
  · rw [if_pos h3, if_pos h3]
    simpa [pres] using readF_ok h msg hm
  rw [if_neg h3, if_neg h3]
  rw [if_neg h3] at hp
  by_cases hd : t = tokEe ∨ t = tokEs ∨ t = tokSe ∨ t = tokSs ∨ t = tokFf
  · obtain ⟨e, s', k1, k2, k3, k4, k5, k6⟩ := dhToken_ok h t (hp (by
      rcases hd with h | h | h | h | h <;> simp [h])) junk
    rw [k1]
    refine ⟨_, rfl, ⟨k2, k3, k4, k5, hm⟩, fun _ => ?_⟩
    rcases hd with h | h | h | h | h <;> simp [h]
  · have : dhToken X.S.CB junk t s = .ok (.invalidState, s) := by
      unfold dhToken
      simp only [not_or] at hd
      rw [if_neg hd.1, if_neg hd.2.1, if_neg hd.2.2.1, if_neg hd.2.2.2.1, if_neg hd.2.2.2.2]
    rw [this]
    exact ⟨_, rfl, ⟨h, .refl, rfl, rfl, hm⟩, (fun h => by cases h)⟩

theorem readLoop_ok (junk : Nat → Nat → UInt8) : ∀ (ts : Bytes) (s : X.H) (msg : Buf),
    s.Sound X → safe s.pres s.role false ts = true → msg.size ≤ msg.maxSize → s.tokens = ts →
    ∃ e s' msg', readLoop X.S.CB junk ts s msg = .ok (e, s', msg') ∧
      s'.Sound X ∧ s.Frame s' ∧ msg'.size ≤ msg'.maxSize ∧
      (e ≠ .none → s'.action = s.action) ∧
      (e = .none → s'.action = .split ∨
        (s'.action = .write ∧ safe s.pres s.role true s'.tokens = true)) := by
  intro ts
  induction ts with
  | nil => intro s msg _ hs; simp [safe] at hs
  | cons t ts ih =>
    intro s msg h hs hsz htok
    unfold readLoop
    unfold safe at hs
    by_cases h1 : t = tokEnd
    · rw [if_pos h1]
      exact ⟨_, _, _, rfl, ⟨h.sym, h.ls, h.le, h.lh, h.rs, h.re, h.rh, h.fe, h.fh⟩,
        ⟨rfl, rfl, rfl, rfl, rfl, rfl, rfl, .refl⟩, hsz, fun h => absurd rfl h, fun _ => .inl rfl⟩
    rw [if_neg h1] at hs ⊢
    by_cases h2 : t = tokFlipDir
    · rw [if_pos h2] at hs ⊢
      exact ⟨_, _, _, rfl, ⟨h.sym, h.ls, h.le, h.lh, h.rs, h.re, h.rh, h.fe, h.fh⟩,
        ⟨rfl, rfl, rfl, rfl, rfl, rfl, rfl, .refl⟩, hsz, fun h => absurd rfl h,
        fun _ => .inr ⟨rfl, hs⟩⟩
    rw [if_neg h2] at hs ⊢
    obtain ⟨r, k1, k2, k3⟩ := readToken_ok h t (junk ts.length) msg hsz
      (by intro ha; simp [ha] at hs; exact hs.1)
    obtain ⟨e, s', msg'⟩ := r
    rw [k1]
    simp only [Out.bind_ok]
    by_cases he : e = .none
    · rw [if_neg (by simp [he])]
      have ha := k3 he
      rw [ha] at hs
      simp at hs
      have hsafe : safe s'.pres s'.role false ts = true := by
        rw [k2.frame.pres, k2.frame.role]; exact hs.2
      have hs2 : Sound X { s' with tokens := ts } :=
        ⟨k2.sound.sym, k2.sound.ls, k2.sound.le, k2.sound.lh, k2.sound.rs, k2.sound.re, k2.sound.rh,
         k2.sound.fe, k2.sound.fh⟩
      obtain ⟨e2, s2, m2, j1, j2, j3, j5, j6, j7⟩ := ih { s' with tokens := ts }
        msg' hs2 hsafe k2.size rfl
      refine ⟨e2, s2, m2, j1, j2, ?_, j5, ?_, ?_⟩
      · exact k2.frame.trans ⟨j3.role, j3.reqs, j3.psk, j3.prologue, j3.fe, j3.fh, j3.pres, j3.sym⟩
      · intro h'; rw [j6 h']; exact k2.action
      · intro h'
        rcases j7 h' with j | j
        · exact .inl j
        · refine .inr ⟨j.1, ?_⟩
          have := j.2
          rw [show ({ s' with tokens := ts } : X.H).pres = s'.pres from rfl,
            show ({ s' with tokens := ts } : X.H).role = s'.role from rfl,
            k2.frame.pres, k2.frame.role] at this
          exact this
    · rw [if_pos he]
      exact ⟨e, s', _, rfl, k2.sound, k2.frame, k2.size,
        fun _ => k2.action, fun h' => absurd h' he⟩

/-! ## The message functions -/

/-- The token list is safe for every fallback pattern after the roles are exchanged. -/
def FallbackSafe (p : Pres) (role : Role) : Prop :=
  ∀ id t flags, patternLookup id = some t → patternFlags t = .ok flags →
    hasFlag flags flagRemoteEphemReq = true →
    safe p role.flip (role.flip == .initiator) (t.drop 2) = true

/-- The invariant of a HandshakeState object: key objects are sound, the cipher is there until the
split, and the remaining tokens never touch an object that does not exist. -/
structure Inv (X : Setup) (s : X.H) : Prop where
  sound : s.Sound X
  cipher : s.action ≠ .complete → s.sym.cipher.isSome = true
  fresh : s.action = .none → safe s.pres s.role (s.role == .initiator) s.tokens = true
  write : s.action = .write → safe s.pres s.role true s.tokens = true
  read : s.action = .read → safe s.pres s.role false s.tokens = true
  fallback : s.reqs.fallbackPossible = true → FallbackSafe s.pres s.role

theorem Sound.congr {s s' : X.H} (h : s.Sound X) (h1 : s'.sym = s.sym) (h2 : s'.ls = s.ls)
    (h3 : s'.le = s.le) (h4 : s'.lh = s.lh) (h5 : s'.rs = s.rs) (h6 : s'.re = s.re) (h7 : s'.rh = s.rh)
    (h8 : s'.fe = s.fe) (h9 : s'.fh = s.fh) : s'.Sound X :=
  ⟨h1 ▸ h.sym, h2 ▸ h.ls, h3 ▸ h.le, h4 ▸ h.lh, h5 ▸ h.rs, h6 ▸ h.re, h7 ▸ h.rh, h8 ▸ h.fe, h9 ▸ h.fh⟩

/-- After a message the state is at SPLIT, in the other direction, or FAILED. -/
theorem Inv.after {s s' : X.H} (h : s.Inv X) (hn : s.action ≠ .complete) (hs : s'.Sound X)
    (hf : s.Frame s') (ha : s'.action = .split ∨ s'.action = .failed ∨
      (s'.action = .read ∧ safe s.pres s.role false s'.tokens = true) ∨
      (s'.action = .write ∧ safe s.pres s.role true s'.tokens = true)) : s'.Inv X := by
  refine ⟨hs, fun _ => ?_, ?_, ?_, ?_, ?_⟩
  · rw [hf.sym.cipher]; exact h.cipher hn
  · intro h'; rw [h'] at ha; simp at ha
  · intro h'
    rw [h'] at ha; simp at ha
    rw [hf.pres, hf.role]; exact ha
  · intro h'
    rw [h'] at ha; simp at ha
    rw [hf.pres, hf.role]; exact ha
  · rw [hf.reqs, hf.pres, hf.role]; exact h.fallback

theorem writePayload_ok {s : X.H} (h : s.Sound X) (payload : Option Bytes) (mem : Bytes) (size : Nat)
    (hz : size ≤ mem.length) :
    ∃ e s' mem' size', writePayload X.S.CB payload s mem size = .ok (e, s', mem', size') ∧ s'.Sound X ∧
      s.Frame s' ∧ s'.action = s.action ∧ s'.tokens = s.tokens ∧ mem'.length = mem.length ∧
      size' ≤ mem.length := by
  unfold writePayload
  dsimp only
  by_cases h1 : mem.length - size < s.sym.getMacLength X.S.CB
  · rw [if_pos h1]; exact ⟨_, _, _, _, rfl, h, .refl, rfl, rfl, rfl, hz⟩
  rw [if_neg h1]
  by_cases h2 : mem.length - size - s.sym.getMacLength X.S.CB < (payload.getD []).length
  · rw [if_pos h2]; exact ⟨_, _, _, _, rfl, h, .refl, rfl, rfl, rfl, hz⟩
  rw [if_neg h2, store_at_zero _ _ (by rw [List.length_drop]; omega)]
  simp only [Out.bind_ok]
  obtain ⟨e, s', b', k1, k2, k3, k4, _⟩ := encrypt_next X.S s.sym
    ⟨payload.getD [] ++ (mem.drop size).drop (payload.getD []).length, (payload.getD []).length⟩
    (by simp only [Buf.maxSize, List.length_append]; omega)
  rw [k1]
  simp only [Out.bind_ok]
  simp only [Buf.maxSize, List.length_append, List.length_drop] at k3 k4
  have hl : (List.take size mem ++ b'.data).length = mem.length := by
    rw [List.length_append, List.length_take, k3]; omega
  split
  · exact ⟨_, _, _, _, rfl, h.setSym (k2.ok h.sym), .setSym k2, rfl, rfl, hl, hz⟩
  · refine ⟨_, _, _, _, rfl, h.setSym (k2.ok h.sym), .setSym k2, rfl, rfl, hl, ?_⟩
    omega

theorem writeMessage_ok {s : X.H} (h : s.Inv X) (rnd junk : Nat → Nat → UInt8) (mem : Bytes)
    (payload : Option Bytes) :
    ∃ e s' b, s.writeMessage X.S.CB rnd junk mem payload = .ok (e, s', b) ∧ s'.Inv X ∧
      b.maxSize = mem.length ∧ b.size ≤ mem.length ∧
      (s.action ≠ .write → e = .invalidState ∧ s' = s) ∧
      (s.action = .write → s.Frame s' ∧ (e = .none → s'.action = .read ∨ s'.action = .split) ∧
        (e ≠ .none → s'.action = .failed ∧ b.size = 0)) := by
  unfold writeMessage
  by_cases ha : s.action = .write
  · rw [if_neg (by simp [ha])]
    unfold HS.write
    obtain ⟨e, s', m', z', k1, k2, k3, k4, k5, k6, k7⟩ := writeLoop_ok rnd junk s.tokens s mem 0 h.sound
      (h.write ha) (Nat.zero_le _) rfl
    have hnc : s.action ≠ .complete := by simp [ha]
    have failed : ∀ {q : X.H}, q.Sound X → s.Frame q →
        (HS.Inv X { q with action := .failed } ∧ s.Frame { q with action := .failed }) := by
      intro q hq hf
      have hf' : s.Frame { q with action := .failed } :=
        ⟨hf.role, hf.reqs, hf.psk, hf.prologue, hf.fe, hf.fh, hf.pres, hf.sym⟩
      exact ⟨h.after hnc (hq.congr rfl rfl rfl rfl rfl rfl rfl rfl rfl) hf' (.inr (.inl rfl)), hf'⟩
    rw [k1]
    simp only [Out.bind_ok]
    by_cases he : e = .none
    · rw [if_neg (by simp [he])]
      obtain ⟨e2, s2, m2, z2, j1, j2, j3, j4, j5, j6, j7⟩ := writePayload_ok k2 payload m' z'
        (by rw [k4]; exact k5)
      rw [j1]
      simp only [Out.bind_ok]
      rw [k4] at j6 j7
      by_cases he2 : e2 = .none
      · rw [if_neg (by simp [he2])]
        refine ⟨_, _, _, rfl, ?_, j6, j7, (fun h' => absurd ha h'),
          fun _ => ⟨k3.trans j3, fun _ => ?_, (fun h' => absurd rfl h')⟩⟩
        · refine h.after hnc j2 (k3.trans j3) ?_
          rw [j4, j5]
          rcases k7 he with k | k
          · exact .inl k
          · exact .inr (.inr (.inl k))
        · rw [j4]
          rcases k7 he with k | k
          · exact .inr k
          · exact .inl k.1
      · rw [if_pos he2]
        obtain ⟨i1, i2⟩ := failed j2 (k3.trans j3)
        exact ⟨_, _, _, rfl, i1, j6, Nat.zero_le _, (fun h' => absurd ha h'),
          fun _ => ⟨i2, (fun h' => absurd h' he2), fun _ => ⟨rfl, rfl⟩⟩⟩
    · rw [if_pos he]
      simp only [Out.pure_eq, Out.bind_ok]
      rw [if_pos he]
      obtain ⟨i1, i2⟩ := failed k2 k3
      exact ⟨_, _, _, rfl, i1, k4, Nat.zero_le _, (fun h' => absurd ha h'),
        fun _ => ⟨i2, (fun h' => absurd h' he), fun _ => ⟨rfl, rfl⟩⟩⟩
  · rw [if_pos ha]
    exact ⟨_, _, _, rfl, h, rfl, Nat.zero_le _, fun _ => ⟨rfl, rfl⟩, (fun h' => absurd h' ha)⟩

/-- The payload buffer comes back with the same memory size, and holds at most that much. -/
def PayloadOk (p : Option Bytes) (q : Option Buf) : Prop :=
  match p, q with
  | none, none => True
  | some m, some b => b.maxSize = m.length ∧ b.size ≤ m.length
  | _, _ => False

theorem payloadOk_zero (p : Option Bytes) : PayloadOk p (p.map (⟨·, 0⟩)) := by
  cases p with
  | none => trivial
  | some m => exact ⟨rfl, Nat.zero_le _⟩

theorem readPayload_ok {s : X.H} (h : s.Sound X) (payload : Option Bytes) (msg : Buf)
    (hm : msg.size ≤ msg.maxSize) :
    ∃ e s' p, readPayload X.S.CB payload s msg = .ok (e, s', p) ∧ s'.Sound X ∧ s.Frame s' ∧
      s'.action = s.action ∧ s'.tokens = s.tokens ∧ PayloadOk payload p ∧
      (e ≠ .none → p = payload.map (⟨·, 0⟩)) := by
  unfold readPayload
  obtain ⟨e, s', b', k1, k2, k3, k4, _, _⟩ := decrypt_next X.S s.sym msg hm
  rw [k1]
  simp only [Out.bind_ok]
  have a1 := h.setSym (k2.ok h.sym)
  have a2 := Frame.setSym (s := s) k2
  by_cases he : e = .none
  · rw [if_neg (by simp [he])]
    cases payload with
    | none => exact ⟨_, _, _, rfl, a1, a2, rfl, rfl, trivial, (fun h => absurd rfl h)⟩
    | some p =>
      dsimp only
      by_cases hb : b'.size > p.length
      · rw [if_pos hb]
        exact ⟨_, _, _, rfl, a1, a2, rfl, rfl, ⟨rfl, Nat.zero_le _⟩, fun _ => rfl⟩
      · have hbl : b'.size ≤ b'.data.length := by simp only [Buf.maxSize] at k3 hm; omega
        rw [if_neg hb, load_ok (by omega)]
        simp only [Out.bind_ok]
        rw [store_at_zero _ _ (by simp; omega)]
        refine ⟨_, _, _, rfl, a1, a2, rfl, rfl, ⟨?_, by dsimp only; omega⟩, (fun h => absurd rfl h)⟩
        simp [Buf.maxSize]; omega
  · rw [if_pos he]
    exact ⟨_, _, _, rfl, a1, a2, rfl, rfl, payloadOk_zero _, fun _ => rfl⟩

theorem readMessage_ok {s : X.H} (h : s.Inv X) (junk : Nat → Nat → UInt8) (msg : Buf)
    (payload : Option Bytes) :
    ∃ e s' b p, s.readMessage X.S.CB junk msg payload = .ok (e, s', b, p) ∧ s'.Inv X ∧
      b.maxSize = msg.maxSize ∧ b.size = msg.size ∧ PayloadOk payload p ∧
      (msg.size > msg.maxSize → e = .invalidLength ∧ s' = s) ∧
      (msg.size ≤ msg.maxSize → s.action ≠ .read → e = .invalidState ∧ s' = s) ∧
      (msg.size ≤ msg.maxSize → s.action = .read → s.Frame s' ∧
        (e = .none → s'.action = .write ∨ s'.action = .split) ∧
        (e ≠ .none → s'.action = .failed ∧ p = payload.map (⟨·, 0⟩))) := by
  unfold readMessage
  by_cases hm : msg.size > msg.maxSize
  · rw [if_pos hm]
    exact ⟨_, _, _, _, rfl, h, rfl, rfl, payloadOk_zero _, fun _ => ⟨rfl, rfl⟩, (fun h' => by omega),
      (fun h' => by omega)⟩
  rw [if_neg hm]
  have hm' : msg.size ≤ msg.maxSize := by omega
  by_cases ha : s.action = .read
  · rw [if_neg (by simp [ha])]
    unfold HS.read
    obtain ⟨e, s', m', k1, k2, k3, k5, k6, k7⟩ := readLoop_ok junk s.tokens s msg h.sound
      (h.read ha) hm' rfl
    have hnc : s.action ≠ .complete := by simp [ha]
    have failed : ∀ {q : X.H}, q.Sound X → s.Frame q →
        (HS.Inv X { q with action := .failed } ∧ s.Frame { q with action := .failed }) := by
      intro q hq hf
      have hf' : s.Frame { q with action := .failed } :=
        ⟨hf.role, hf.reqs, hf.psk, hf.prologue, hf.fe, hf.fh, hf.pres, hf.sym⟩
      exact ⟨h.after hnc (hq.congr rfl rfl rfl rfl rfl rfl rfl rfl rfl) hf' (.inr (.inl rfl)), hf'⟩
    have hst : store msg.data 0 (List.replicate msg.size 0) =
        .ok (List.replicate msg.size 0 ++ msg.data.drop msg.size) := by
      simp only [Buf.maxSize] at hm'
      rw [store_zero_len _ _ hm']
    have hlen : (List.replicate msg.size (0 : UInt8) ++ msg.data.drop msg.size).length = msg.maxSize := by
      simp only [Buf.maxSize] at hm' ⊢
      simp; omega
    rw [k1]
    simp only [Out.bind_ok]
    by_cases he : e = .none
    · rw [if_neg (by simp [he])]
      obtain ⟨e2, s2, p, j1, j2, j3, j4, j5, j6, j7⟩ := readPayload_ok k2 payload m' k5
      rw [j1]
      simp only [Out.bind_ok, hst]
      by_cases he2 : e2 = .none
      · rw [if_neg (by simp [he2])]
        refine ⟨_, _, _, _, rfl, ?_, hlen, rfl, j6, (fun h' => by omega), (fun _ h' => absurd ha h'),
          fun _ _ => ⟨k3.trans j3, fun _ => ?_, (fun h' => absurd rfl h')⟩⟩
        · refine h.after hnc j2 (k3.trans j3) ?_
          rw [j4, j5]
          rcases k7 he with k | k
          · exact .inl k
          · exact .inr (.inr (.inr k))
        · rw [j4]
          rcases k7 he with k | k
          · exact .inr k
          · exact .inl k.1
      · rw [if_pos he2]
        obtain ⟨i1, i2⟩ := failed j2 (k3.trans j3)
        exact ⟨_, _, _, _, rfl, i1, hlen, rfl, j6, (fun h' => by omega), (fun _ h' => absurd ha h'),
          fun _ _ => ⟨i2, (fun h' => absurd h' he2), fun _ => ⟨rfl, j7 he2⟩⟩⟩
    · rw [if_pos he]
      simp only [Out.pure_eq, Out.bind_ok, hst]
      rw [if_pos he]
      obtain ⟨i1, i2⟩ := failed k2 k3
      exact ⟨_, _, _, _, rfl, i1, hlen, rfl, payloadOk_zero _, (fun h' => by omega),
        (fun _ h' => absurd ha h'), fun _ _ => ⟨i2, (fun h' => absurd h' he), fun _ => ⟨rfl, rfl⟩⟩⟩
  · rw [if_pos ha]
    exact ⟨_, _, _, _, rfl, h, rfl, rfl, payloadOk_zero _, (fun h' => by omega),
      (fun _ _ => ⟨rfl, rfl⟩), (fun _ h' => absurd h' ha)⟩

/-! ## The other operations -/

/-- The flags as seen by a role. -/
def roleFlags (flags : PatFlags) (role : Role) : PatFlags :=
  if role = .responder then reverseFlags flags else flags

theorem mixFallback_ok {s : X.H} (e : Option (DHState X.D.Ext))
    (he : ∀ d, e = some d → X.ID d) (f : Option (DHState X.G.Ext)) (hf : ∀ d, f = some d → X.IG d)
    (sym : X.Sy) : ∃ sym', mixFallback X.S.CB s e f sym = .ok sym' ∧ sym.Next sym' := by
  unfold mixFallback
  split
  · obtain ⟨s1, h1, h2⟩ := mixPublicKey_ok X.S X.WD sym e he
    rw [h1]
    simp only [Out.bind_ok]
    obtain ⟨s2, h3, h4⟩ := mixPublicKey_ok X.S X.WG s1 f hf
    rw [h3]
    simp only [Out.bind_ok]
    split
    · obtain ⟨s3, h5, h6⟩ := mixChainingKey_ok X.S X.WD s2 e he
      exact ⟨s3, h5, (h2.trans h4).trans h6⟩
    · exact ⟨s2, rfl, h2.trans h4⟩
  · exact ⟨_, rfl, .refl⟩

theorem mixStatic_ok (cond : Bool) (sym : X.Sy) (o : Option (DHState X.D.Ext))
    (h : ∀ d, o = some d → X.ID d) : ∃ sym', mixStatic cond sym o = .ok sym' ∧ sym.Next sym' := by
  unfold mixStatic
  split
  · exact mixPublicKey_ok X.S X.WD sym o h
  · exact ⟨_, rfl, .refl⟩

theorem mixPreMessages_ok {s : X.H} (h : s.Sound X) (sym : X.Sy) :
    ∃ sym', mixPreMessages X.S.CB s sym = .ok sym' ∧ sym.Next sym' := by
  unfold mixPreMessages
  cases s.role with
  | initiator =>
    obtain ⟨s1, h1, h2⟩ := mixStatic_ok s.reqs.localPre sym s.ls h.ls
    obtain ⟨s2, h3, h4⟩ := mixFallback_ok (s := s) s.re h.re s.rh h.rh s1
    obtain ⟨s3, h5, h6⟩ := mixStatic_ok s.reqs.remotePre s2 s.rs h.rs
    exact ⟨s3, by simp [h1, h3, h5], (h2.trans h4).trans h6⟩
  | responder =>
    obtain ⟨s1, h1, h2⟩ := mixStatic_ok s.reqs.remotePre sym s.rs h.rs
    obtain ⟨s2, h3, h4⟩ := mixFallback_ok (s := s) s.le h.le s.lh h.lh s1
    obtain ⟨s3, h5, h6⟩ := mixStatic_ok s.reqs.localPre s2 s.ls h.ls
    exact ⟨s3, by simp [h1, h3, h5], (h2.trans h4).trans h6⟩

theorem start_ok {s : X.H} (h : s.Inv X) :
    ∃ e s', s.start X.S.CB = .ok (e, s') ∧ s'.Inv X ∧
      (e ≠ .none → s' = s) ∧
      (e = .none → s.Frame s' ∧ s.action = .none ∧ s'.tokens = s.tokens ∧
        s'.action = (match s.role with | .initiator => .write | .responder => .read)) := by
  unfold start
  have bad : ∀ er, er ≠ Err.none → ∃ e s', (.ok (er, s) : Out (Err × X.H)) = .ok (e, s') ∧ s'.Inv X ∧
      (e ≠ .none → s' = s) ∧ (e = .none → s.Frame s' ∧ s.action = .none ∧ s'.tokens = s.tokens ∧
        s'.action = (match s.role with | .initiator => .write | .responder => .read)) :=
    fun er her => ⟨er, s, rfl, h, fun _ => rfl, fun h' => absurd h' her⟩
  by_cases c1 : s.action = .none
  · rw [if_neg (by simp [c1])]
    split
    · exact bad _ (by simp)
    split
    · exact bad _ (by simp)
    split
    · exact bad _ (by simp)
    split
    · exact bad _ (by simp)
    obtain ⟨s1, h1, h2⟩ := mixPsk_ok X.S (s.sym.mixHash s.prologue).2 s.psk
    obtain ⟨s2, h3, h4⟩ := mixPreMessages_ok h.sound s1
    rw [h1]
    simp only [Out.bind_ok, h3]
    have nx := ((mixHash_next X.S s.sym s.prologue).1.trans h2).trans h4
    have hf : ∀ a, s.Frame { s with sym := s2, action := a } :=
      fun a => ⟨rfl, rfl, rfl, rfl, rfl, rfl, rfl, nx⟩
    refine ⟨_, _, rfl, ?_, (fun h' => absurd rfl h'), fun _ => ⟨hf _, c1, rfl, rfl⟩⟩
    refine h.after (by simp [c1]) ((h.sound.setSym (nx.ok h.sound.sym)).congr rfl rfl rfl rfl rfl rfl rfl rfl
      rfl) (hf _) ?_
    have hfr := h.fresh c1
    cases hr : s.role with
    | initiator => rw [hr] at hfr; exact .inr (.inr (.inr ⟨rfl, hfr⟩))
    | responder => rw [hr] at hfr; exact .inr (.inr (.inl ⟨rfl, hfr⟩))
  · rw [if_pos c1]; exact bad _ (by simp)

theorem fallbackKeys_ok {s : X.H} (h : s.Sound X) (flags : PatFlags) :
    ∃ s', s.fallbackKeys flags = .ok s' ∧ s'.Sound X ∧ s'.pres = s.pres ∧ s'.role = s.role.flip ∧
      s'.sym = s.sym := by
  unfold fallbackKeys
  cases hr : s.role with
  | initiator =>
    obtain ⟨a, h1, h2, h3, _⟩ := clearOpt_ok X.WD s.re h.re
    obtain ⟨b, h4, h5, h6, _⟩ := clearOpt_ok X.WG s.rh h.rh
    obtain ⟨c, h7, h8, h9, _⟩ := clearOpt_ok X.WD s.rs h.rs
    simp only [h1, h4, h7, Out.bind_ok]
    exact ⟨_, rfl, ⟨h.sym, h.ls, h.le, h.lh, h9, h3, h6, h.fe, h.fh⟩, by simp [pres, h2, h5, h8], rfl, rfl⟩
  | responder =>
    obtain ⟨a, h1, h2, h3, _⟩ := clearOpt_ok X.WD s.le h.le
    obtain ⟨b, h4, h5, h6, _⟩ := clearOpt_ok X.WG s.lh h.lh
    obtain ⟨c, h7, h8, h9, _⟩ := clearOpt_ok X.WD s.rs h.rs
    simp only [h1, h4, Out.bind_ok]
    split
    · exact ⟨_, rfl, ⟨h.sym, h.ls, h3, h6, h.rs, h.re, h.rh, h.fe, h.fh⟩, by simp [pres, h2, h5], rfl, rfl⟩
    · simp only [h7, Out.bind_ok]
      exact ⟨_, rfl, ⟨h.sym, h.ls, h3, h6, h9, h.re, h.rh, h.fe, h.fh⟩, by simp [pres, h2, h5, h8], rfl, rfl⟩

theorem fallbackAllowed_not_complete {s : X.H} (h : s.fallbackAllowed = true) : s.action ≠ .complete := by
  intro hc
  unfold fallbackAllowed at h
  cases hr : s.role <;> simp [hr, hc] at h

theorem fallbackSym_ok (sym : X.Sy) (hc : sym.cipher.isSome = true) (pid : Int) (name : Bytes) :
    ∃ sym', fallbackSym sym pid name = .ok sym' ∧ sym'.Ok ∧ sym'.cipher.isSome = true ∧
      sym'.id = { sym.id with patternId := pid } := by
  unfold fallbackSym
  obtain ⟨c, hc⟩ := Option.isSome_iff_exists.mp hc
  rw [hc]
  refine ⟨_, rfl, ?_, rfl, rfl⟩
  dsimp only [SymState.Ok]
  split
  · simp; omega
  · have hd : (X.S.HB.hashOne sym.ctx name).2.length = X.S.HB.hashLen := by
      rw [show (X.S.HB.hashOne sym.ctx name).2 = X.S.H name from hashOne_eq X.S.hl sym.ctx name]
      exact X.S.hl.length name
    exact ⟨hd, hd⟩

theorem patternFlags_ok {id : Int} {t : Bytes} (h : patternLookup id = some t) :
    ∃ flags, patternFlags t = .ok flags := by
  obtain ⟨p, fl, _, _, h1, _⟩ := C17_tables_are_the_specification h
  exact ⟨fl, h1⟩

/-- What a successful fallback establishes. -/
structure FallbackPost (s : X.H) (pid : Int) (s' : X.H) : Prop where
  allowed : s.fallbackAllowed = true
  was : s.reqs.fallbackPossible = true
  now : s'.reqs.fallbackPossible = false
  role : s'.role = s.role.flip
  action : s'.action = .none
  id : s'.sym.id = { s.sym.id with patternId := pid }
  pattern : ∃ t fl, patternLookup pid = some t ∧ patternFlags t = .ok fl ∧
    hasFlag fl flagRemoteEphemReq = true ∧ s'.tokens = t.drop 2 ∧
    s'.reqs = requirements (roleFlags fl s'.role) s.sym.id.prefixId true

theorem fallbackTo_ok {s : X.H} (h : s.Inv X) (pid : Int) (stack : Bytes) :
    ∃ e s', s.fallbackTo pid stack = .ok (e, s') ∧ s'.Inv X ∧
      (e ≠ .none → s' = s) ∧
      (e = .none → FallbackPost s pid s') := by
  unfold fallbackTo
  have bad : ∀ er, er ≠ Err.none → ∃ e s', (.ok (er, s) : Out (Err × X.H)) = .ok (e, s') ∧ s'.Inv X ∧
      (e ≠ .none → s' = s) ∧
      (e = .none → FallbackPost s pid s') :=
    fun er her => ⟨er, s, rfl, h, fun _ => rfl, fun h' => absurd h' her⟩
  by_cases c1 : s.sym.id.patternId < patternNN ∨ s.reqs.fallbackPossible = false
  · rw [if_pos c1]; exact bad _ (by simp)
  rw [if_neg c1]
  cases hpat : patternLookup pid with
  | none => exact bad _ (by simp)
  | some t =>
    dsimp only
    obtain ⟨flags, hfl⟩ := patternFlags_ok hpat
    rw [hfl]
    simp only [Out.bind_ok]
    by_cases c2 : hasFlag flags flagRemoteEphemReq = false
    · rw [if_pos c2]; exact bad _ (by simp)
    rw [if_neg c2]
    by_cases c3 : s.fallbackAllowed = false
    · rw [if_pos c3]; exact bad _ (by simp)
    rw [if_neg c3]
    obtain ⟨e, mem, hn, _⟩ := C29_formatting_stays_inside stack { s.sym.id with patternId := pid }
    rw [hn]
    simp only [Out.bind_ok]
    by_cases he : e = .none
    · rw [if_neg (by simp [he])]
      have c3' : s.fallbackAllowed = true := by simpa using c3
      have hfp : s.reqs.fallbackPossible = true := by
        have : ¬ s.reqs.fallbackPossible = false := fun h' => c1 (.inr h')
        simpa using this
      obtain ⟨s1, k1, k2, k3, k4, k5⟩ := fallbackKeys_ok h.sound flags
      obtain ⟨sy, j1, j2, j3, j4⟩ := fallbackSym_ok s.sym
        (h.cipher (fallbackAllowed_not_complete c3')) pid (mem.takeWhile (· ≠ 0))
      rw [k1]
      simp only [Out.bind_ok, j1]
      refine ⟨_, _, rfl, ?_, (fun h' => absurd rfl h'), fun _ => ⟨c3', hfp, rfl, k4, rfl, j4, t, flags, hpat, hfl, by simpa using c2, rfl, rfl⟩⟩
      refine ⟨⟨j2, k2.ls, k2.le, k2.lh, k2.rs, k2.re, k2.rh, k2.fe, k2.fh⟩, fun _ => j3, fun _ => ?_,
        (fun h' => by cases h'), (fun h' => by cases h'), (fun h' => by cases h')⟩
      have := h.fallback hfp pid t flags hpat hfl (by simpa using c2)
      rw [← k3, ← k4] at this
      exact this
    · rw [if_pos he]; exact bad _ he

theorem split_ok {s : X.H} (h : s.Inv X) (a b c : Bool) :
    ∃ e s' x y, s.split X.S.CB a b c = .ok (e, s', x, y) ∧ s'.Inv X ∧
      s'.sym.h = s.sym.h ∧
      (e = .none → s.action = .split ∧ s'.action = .complete) ∧
      (e ≠ .none → s'.action = s.action ∧ x = none ∧ y = none) ∧
      (s'.role = s.role ∧ s'.reqs = s.reqs ∧ s'.sym.id = s.sym.id) := by
  unfold HS.split
  by_cases h1 : (!a && !b) = true
  · rw [if_pos h1]
    exact ⟨_, _, _, _, rfl, h, rfl, (fun h => by cases h), fun _ => ⟨rfl, rfl, rfl⟩, rfl, rfl, rfl⟩
  rw [if_neg h1]
  by_cases h2 : s.action = .split
  · rw [if_neg (by simp [h2])]
    have hc := h.cipher (by simp [h2])
    rw [if_neg (by simp only [Option.isNone_iff_eq_none]; intro h'; simp [h'] at hc)]
    have key : ∀ w1 w2, (!w1 && !w2) = false → ∃ e sym' x y, s.sym.split X.S.CB w1 w2 c = .ok (e, sym', x, y) ∧
        sym'.h = s.sym.h ∧ sym'.ck = s.sym.ck ∧ sym'.id = s.sym.id ∧
        (e ≠ .none → sym'.cipher = s.sym.cipher ∧ x = none ∧ y = none) := by
      intro w1 w2 hw
      obtain ⟨ci, hci⟩ := Option.isSome_iff_exists.mp hc
      obtain ⟨ctx, he⟩ := (C31_hkdf X.S.hl s.sym.ctx s.sym.ck [] X.S.CB.keyLen X.S.CB.keyLen).1
        ⟨by rw [X.S.key32]; exact X.S.hash32, by rw [X.S.key32]; exact X.S.hash32⟩
      unfold SymState.split
      rw [if_neg (by simp [hw]), hci]
      dsimp only
      rw [he]
      simp only [Out.bind_ok, ne_eq, not_true, if_false]
      split
      · exact ⟨_, _, _, _, rfl, rfl, rfl, rfl, (fun h => absurd rfl h)⟩
      · split
        · split
          · exact ⟨_, _, _, _, rfl, rfl, rfl, rfl, fun _ => ⟨hci.symm ▸ rfl, rfl, rfl⟩⟩
          · exact ⟨_, _, _, _, rfl, rfl, rfl, rfl, (fun h => absurd rfl h)⟩
        · exact ⟨_, _, _, _, rfl, rfl, rfl, rfl, (fun h => absurd rfl h)⟩
    have fin : ∀ (e : Err) (sym' : X.Sy), sym'.h = s.sym.h → sym'.ck = s.sym.ck →
        (e ≠ .none → sym'.cipher = s.sym.cipher) →
        HS.Inv X { s with sym := sym', action := if e = .none then Action.complete else s.action } := by
      intro e sym' k2 k3 k5
      refine ⟨(h.sound.setSym (sym := sym') ⟨by rw [k2]; exact h.sound.sym.1,
        by rw [k3]; exact h.sound.sym.2⟩).congr rfl rfl rfl rfl rfl rfl rfl rfl rfl, ?_, ?_, ?_, ?_, ?_⟩
      · dsimp only
        by_cases he : e = .none
        · rw [if_pos he]; intro h'; exact absurd rfl h'
        · intro _; rw [k5 he]; exact hc
      · dsimp only
        by_cases he : e = .none
        · rw [if_pos he]; intro h'; cases h'
        · rw [if_neg he, h2]; intro h'; cases h'
      · dsimp only
        by_cases he : e = .none
        · rw [if_pos he]; intro h'; cases h'
        · rw [if_neg he, h2]; intro h'; cases h'
      · dsimp only
        by_cases he : e = .none
        · rw [if_pos he]; intro h'; cases h'
        · rw [if_neg he, h2]; intro h'; cases h'
      · exact h.fallback
    cases hr : s.role with
    | initiator =>
      obtain ⟨e, sy, x, y, k1, k2, k3, k4, k5⟩ := key a b (by simpa using h1)
      simp only [k1, Out.bind_ok, Out.pure_eq]
      refine ⟨_, _, _, _, rfl, hr ▸ fin e sy k2 k3 (fun he => (k5 he).1), k2, fun he => ⟨h2, by simp [he]⟩,
        fun he => ⟨by simp [he], (k5 he).2⟩, hr.symm ▸ rfl, rfl, k4⟩
    | responder =>
      obtain ⟨e, sy, x, y, k1, k2, k3, k4, k5⟩ := key b a (by
        have := h1; cases a <;> cases b <;> simp at this ⊢)
      simp only [k1, Out.bind_ok, Out.pure_eq]
      refine ⟨_, _, _, _, rfl, hr ▸ fin e sy k2 k3 (fun he => (k5 he).1), k2, fun he => ⟨h2, by simp [he]⟩,
        fun he => ⟨by simp [he], (k5 he).2.2, (k5 he).2.1⟩, hr.symm ▸ rfl, rfl, k4⟩
  · rw [if_pos h2]
    exact ⟨_, _, _, _, rfl, h, rfl, (fun h => by cases h), fun _ => ⟨rfl, rfl, rfl⟩, rfl, rfl, rfl⟩

theorem getHandshakeHash_ok {s : X.H} (h : s.Inv X) (n : Nat) :
    ∃ e o, s.getHandshakeHash n = .ok (e, o) := by
  unfold getHandshakeHash
  split
  · exact ⟨_, _, rfl⟩
  · split
    · rw [load_ok (by rw [h.sound.sym.1]; omega)]; exact ⟨_, _, rfl⟩
    · rw [load_ok (by rw [h.sound.sym.1]; omega)]; exact ⟨_, _, rfl⟩

/-! ## Creation -/

/-- Which key objects a pattern's flags (as seen by the role) call for. -/
def presOf (f : PatFlags) : Pres :=
  ⟨hasFlag f flagLocalStatic, hasFlag f flagLocalEphemeral, hasFlag f flagLocalHybrid,
   hasFlag f flagRemoteStatic, hasFlag f flagRemoteEphemeral, hasFlag f flagRemoteHybrid⟩

/-- Decides that the pattern is safe for both roles, and after a fallback to any pattern. -/
def safeCheck (e : Int × Bytes) : Bool :=
  match patternFlags e.2 with
  | .ub => false
  | .ok fl => [Role.initiator, Role.responder].all fun role =>
    safe (presOf (roleFlags fl role)) role (role == .initiator) (e.2.drop 2) &&
    (!hasFlag fl flagRemoteRequired || patternTable.all fun e' =>
      match patternFlags e'.2 with
      | .ub => false
      | .ok fl' => !hasFlag fl' flagRemoteEphemReq ||
        safe (presOf (roleFlags fl role)) role.flip (role.flip == .initiator) (e'.2.drop 2))

theorem safeTable : ∀ e ∈ patternTable, safeCheck e = true := by decide +kernel

theorem safe_new {id : Int} {t : Bytes} {fl : PatFlags} (h : patternLookup id = some t)
    (hf : patternFlags t = .ok fl) (role : Role) :
    safe (presOf (roleFlags fl role)) role (role == .initiator) (t.drop 2) = true ∧
    (hasFlag fl flagRemoteRequired = true → FallbackSafe (presOf (roleFlags fl role)) role) := by
  have hc := safeTable _ (patternLookup_mem h)
  simp only [safeCheck, hf, List.all_eq_true] at hc
  have hr := hc role (by cases role <;> simp)
  simp only [Bool.and_eq_true] at hr
  refine ⟨hr.1, fun hrr => ?_⟩
  intro id' t' fl' h' hf' hreq
  have h2 := hr.2
  rw [hrr] at h2
  simp only [Bool.not_true, Bool.false_or, List.all_eq_true] at h2
  have h3 := h2 _ (patternLookup_mem h')
  simp only [hf', hreq] at h3
  simpa using h3

theorem newObj_spec {D : DHBackend} {cond : Bool} {id : Int} {err : Err}
    (h : (newObj D cond id err).1 = .none) :
    err = .none ∧ (newObj D cond id err).2.isSome = cond ∧
      ∀ d, (newObj D cond id err).2 = some d → d = D.init := by
  unfold newObj at *
  by_cases hc : cond = true ∧ err = .none
  · rw [if_pos hc] at h ⊢
    unfold DHBackend.newById at *
    by_cases hi : id = D.dhId
    · rw [if_pos hi]; simp [hc]
    · rw [if_neg hi] at h; simp at h
  · rw [if_neg hc] at h ⊢
    dsimp only at h
    have : cond = false := by
      cases cond with
      | false => rfl
      | true => exact absurd ⟨rfl, h⟩ hc
    simp [h, this]

theorem newHybrid_spec {G : DHBackend} {cond : Bool} {id : Int} {err : Err}
    (h : (newHybrid G cond id err).1 = .none) :
    err = .none ∧ (newHybrid G cond id err).2.isSome = cond ∧
      (∀ d, (newHybrid G cond id err).2 = some d → d = G.init) ∧ (cond = true ↔ id ≠ 0) := by
  unfold newHybrid at *
  by_cases hc : cond = true ∧ err = .none
  · rw [if_pos hc] at h ⊢
    by_cases h0 : id ≠ 0
    · rw [if_pos h0] at h ⊢
      unfold DHBackend.newById at *
      by_cases hi : id = G.dhId
      · rw [if_pos hi]; simp [hc, h0]
      · rw [if_neg hi] at h; simp at h
    · rw [if_neg h0] at h; cases h
  · rw [if_neg hc] at h ⊢
    by_cases h0 : id ≠ 0
    · rw [if_pos h0] at h; cases h
    · rw [if_neg h0] at h ⊢
      dsimp only at h
      have : cond = false := by
        cases cond with
        | false => rfl
        | true => exact absurd ⟨rfl, h⟩ hc
      simp [h, this]
      simpa using h0

/-- What `new` establishes. -/
structure Fresh (X : Setup) (sy : X.Sy) (rl : Role) (t : Bytes) (fl : PatFlags) (s : X.H) : Prop where
  sym : s.sym = sy
  role : s.role = rl
  action : s.action = .none
  tokens : s.tokens = t.drop 2
  pres : s.pres = presOf (roleFlags fl rl)
  reqs : s.reqs = { requirements (roleFlags fl rl) sy.id.prefixId false with
      fallbackPossible := hasFlag fl flagRemoteRequired }
  hybrid : (hasFlag (roleFlags fl rl) flagLocalHybrid = true ↔ sy.id.hybridId ≠ 0) ∧
    (hasFlag (roleFlags fl rl) flagRemoteHybrid = true ↔ sy.id.hybridId ≠ 0)
  ls : ∀ d, s.ls = some d → d = X.D.setRole X.D.init (some (dhRoles (roleFlags fl rl) rl).1)
  le : ∀ d, s.le = some d → d = X.D.setRole X.D.init (some (dhRoles (roleFlags fl rl) rl).1)
  rs : ∀ d, s.rs = some d → d = X.D.setRole X.D.init (some (dhRoles (roleFlags fl rl) rl).2)
  re : ∀ d, s.re = some d → d = X.D.setRole X.D.init (some (dhRoles (roleFlags fl rl) rl).2)
  lh : ∀ d, s.lh = some d → d = X.G.init
  rh : ∀ d, s.rh = some d → d = X.G.init
  fe : s.fe = none
  fh : s.fh = none
  psk : s.psk = []
  prologue : s.prologue = []

theorem map_spec {α : Type} {o : Option α} {f : α → α} {a : α} (h : ∀ d, o = some d → d = a) :
    ∀ d, o.map f = some d → d = f a := by
  intro d hd
  cases o with
  | none => cases hd
  | some x => simp at hd; rw [← hd, h x rfl]

theorem new_spec (sym : X.Sy) (role : Role) :
    ∃ r : Except Err X.H, new sym role = .ok r ∧
      ∀ s, r = .ok s → ∃ t fl, patternLookup sym.id.patternId = some t ∧ patternFlags t = .ok fl ∧
        Fresh X sym role t fl s := by
  unfold new
  cases hp : patternLookup sym.id.patternId with
  | none => exact ⟨_, rfl, by intro s hs; cases hs⟩
  | some t =>
    obtain ⟨fl, hf⟩ := patternFlags_ok hp
    dsimp only
    rw [hf]
    simp only [Out.bind_ok]
    rw [show (if role = Role.responder then reverseFlags fl else fl) = roleFlags fl role from rfl]
    generalize hfl : roleFlags fl role = F
    generalize h1 : newObj X.D (hasFlag F flagLocalStatic) sym.id.dhId .none = r1
    generalize h2 : newObj X.D (hasFlag F flagLocalEphemeral) sym.id.dhId r1.1 = r2
    generalize h3 : newHybrid X.G (hasFlag F flagLocalHybrid) sym.id.hybridId r2.1 = r3
    generalize h4 : newObj X.D (hasFlag F flagRemoteStatic) sym.id.dhId r3.1 = r4
    generalize h5 : newObj X.D (hasFlag F flagRemoteEphemeral) sym.id.dhId r4.1 = r5
    generalize h6 : newHybrid X.G (hasFlag F flagRemoteHybrid) sym.id.hybridId r5.1 = r6
    generalize h7 : ephemeralOnlyCheck X.D r1.2.isSome r4.2.isSome r2.2.isSome r5.2.isSome r6.1 = er
    by_cases he : er = .none
    · rw [if_neg (by simp [he])]
      refine ⟨_, rfl, ?_⟩
      intro s hs
      have hs := Except.ok.inj hs
      have e6 : r6.1 = .none := by
        rw [← h7] at he
        unfold ephemeralOnlyCheck at he
        split at he
        · exact he
        · next hn => simpa using hn
      obtain ⟨e5, p6, q6, g6⟩ := newHybrid_spec (h6 ▸ e6)
      obtain ⟨e4, p5, q5⟩ := newObj_spec (h5 ▸ e5)
      obtain ⟨e3, p4, q4⟩ := newObj_spec (h4 ▸ e4)
      obtain ⟨e2, p3, q3, g3⟩ := newHybrid_spec (h3 ▸ e3)
      obtain ⟨e1, p2, q2⟩ := newObj_spec (h2 ▸ e2)
      obtain ⟨_, p1, q1⟩ := newObj_spec (h1 ▸ e1)
      rw [h1] at p1 q1
      rw [h2] at p2 q2
      rw [h3] at p3 q3
      rw [h4] at p4 q4
      rw [h5] at p5 q5
      rw [h6] at p6 q6
      refine ⟨t, fl, rfl, hf, ?_⟩
      subst hs
      refine ⟨rfl, rfl, rfl, rfl, ?_, by rw [hfl], by rw [hfl]; exact ⟨g3, g6⟩, ?_, ?_, ?_, ?_, q3, q6,
        rfl, rfl, rfl, rfl⟩
      · simp [HS.pres, presOf, hfl, p1, p2, p3, p4, p5, p6]
      · rw [hfl]; exact map_spec q1
      · rw [hfl]; exact map_spec q2
      · rw [hfl]; exact map_spec q4
      · rw [hfl]; exact map_spec q5
    · rw [if_pos he]; exact ⟨_, rfl, by intro s hs; cases hs⟩

theorem Fresh.inv {sym : X.Sy} {role : Role} {t : Bytes} {fl : PatFlags} {s : X.H}
    (h : Fresh X sym role t fl s) (hs : sym.Ok) (hc : sym.cipher.isSome = true)
    (hp : patternLookup sym.id.patternId = some t) (hf : patternFlags t = .ok fl) : s.Inv X := by
  have hsafe := safe_new hp hf role
  have hi : ∀ r, X.ID (X.D.setRole X.D.init r) := fun r => (X.WD.changeRole _ r X.WD.init).1
  refine ⟨⟨h.sym ▸ hs, ?_, ?_, ?_, ?_, ?_, ?_, ?_, ?_⟩, fun _ => h.sym ▸ hc, fun _ => ?_,
    (fun h' => by rw [h.action] at h'; cases h'), (fun h' => by rw [h.action] at h'; cases h'),
    fun h' => ?_⟩
  · intro d hd; rw [h.ls d hd]; exact hi _
  · intro d hd; rw [h.le d hd]; exact hi _
  · intro d hd; rw [h.lh d hd]; exact X.WG.init
  · intro d hd; rw [h.rs d hd]; exact hi _
  · intro d hd; rw [h.re d hd]; exact hi _
  · intro d hd; rw [h.rh d hd]; exact X.WG.init
  · intro d hd; rw [h.fe] at hd; cases hd
  · intro d hd; rw [h.fh] at hd; cases hd
  · rw [h.pres, h.role, h.tokens]; exact hsafe.1
  · rw [h.pres, h.role]
    rw [h.reqs] at h'
    exact hsafe.2 h'

theorem symNew_ok (S : Suite) (ctx0 : S.HB.Ctx) (name : Bytes) (id : ProtocolId) :
    ∃ s, SymState.new S.CB S.HB ctx0 name id = .ok s ∧ s.id = id ∧ s.Ok ∧ s.cipher.isSome = true ∧
      s.Rep (Spec.initializeSymmetric S.crypto name) := by
  obtain ⟨s, h1, h2, h3⟩ := C08_new S ctx0 name id
  refine ⟨s, h1, h2, ?_, rep_isSome S h3, h3⟩
  unfold SymState.Ok
  rw [h3.2.1, h3.2.2]
  unfold Spec.initializeSymmetric
  by_cases h : name.length ≤ S.crypto.hashLen
  · simp only [h, if_true]
    simp [Suite.crypto] at h ⊢; omega
  · simp only [h, if_false]
    simp [Suite.crypto, S.hl.length]

theorem newById_ok (ctx0 : X.S.HB.Ctx) (stack : Bytes) (id : ProtocolId) (role : Role) :
    ∃ r : Except Err X.H, newById X.S.CB ctx0 stack id role = .ok r ∧ ∀ s, r = .ok s →
      s.Inv X ∧ ∃ sym t fl, sym.id = id ∧ Fresh X sym role t fl s ∧
        patternLookup id.patternId = some t ∧ patternFlags t = .ok fl := by
  unfold newById SymState.newById
  obtain ⟨e, mem, hn, _⟩ := C29_formatting_stays_inside stack id
  rw [hn]
  simp only [Out.bind_ok]
  by_cases he : e = .none
  · rw [if_neg (by simp [he])]
    obtain ⟨sym, h1, h2, h3, h4, _⟩ := symNew_ok X.S ctx0 (mem.takeWhile (· ≠ 0)) id
    simp only [Out.pure_eq, Out.bind_ok, h1]
    obtain ⟨r, k1, k2⟩ := new_spec (X := X) sym role
    refine ⟨r, k1, fun s hs => ?_⟩
    obtain ⟨t, fl, j1, j2, j3⟩ := k2 s hs
    exact ⟨j3.inv h3 h4 j1 j2, sym, t, fl, h2, j3, h2 ▸ j1, j2⟩
  · rw [if_pos he]
    exact ⟨_, rfl, by intro s hs; cases hs⟩

theorem newByName_ok (ctx0 : X.S.HB.Ctx) (name : Bytes) (role : Role) :
    ∃ r : Except Err X.H, newByName X.S.CB ctx0 name role = .ok r ∧ ∀ s, r = .ok s →
      s.Inv X ∧ ∃ sym t fl, sym.id = (protocolNameToId name).2 ∧ Fresh X sym role t fl s ∧
        patternLookup sym.id.patternId = some t ∧ patternFlags t = .ok fl := by
  unfold newByName SymState.newByName
  dsimp only
  by_cases he : (protocolNameToId name).1 = .none
  · rw [if_neg (by simp [he])]
    obtain ⟨sym, h1, h2, h3, h4, _⟩ := symNew_ok X.S ctx0 name (protocolNameToId name).2
    rw [h1]
    obtain ⟨r, k1, k2⟩ := new_spec (X := X) sym role
    refine ⟨r, k1, fun s hs => ?_⟩
    obtain ⟨t, fl, j1, j2, j3⟩ := k2 s hs
    exact ⟨j3.inv h3 h4 j1 j2, sym, t, fl, h2, j3, j1, j2⟩
  · rw [if_pos he]
    exact ⟨_, rfl, by intro s hs; cases hs⟩

end HS

/-! ## Histories -/

namespace HOp
variable {X : Setup}

/-- The key objects a caller passes in are live, well-formed objects. -/
def ArgsOk (X : Setup) : HOp X.D X.G → Prop
  | .localStatic op => op.ArgsOk X.ID
  | .remoteStatic op => op.ArgsOk X.ID
  | .fixedE op => op.ArgsOk X.ID
  | .fixedH op => op.ArgsOk X.IG
  | _ => True

/-- The caller's buffers come back with the same amount of memory, and `size` within it. -/
def BufOk (op : HOp X.D X.G) (o : HObs) : Prop :=
  match op with
  | .write _ _ mem _ => ∃ b, o.buf = some b ∧ b.maxSize = mem.length ∧ b.size ≤ b.maxSize
  | .read _ msg pl => ∃ b, o.buf = some b ∧ b.maxSize = msg.maxSize ∧ b.size = msg.size ∧
      HS.PayloadOk pl o.payload
  | _ => True

theorem onDH_ok {D : DHBackend} {Inv : DHState D.Ext → Prop} {L : Option Role → Nat} (W : D.Lawful Inv L)
    (o : Option (DHState D.Ext)) (h : ∀ d, o = some d → Inv d) (op : DHOp D) (ha : op.ArgsOk Inv) :
    ∃ e o', onDH o op = .ok (e, o') ∧ o'.isSome = o.isSome ∧ ∀ d, o' = some d → Inv d := by
  cases o with
  | none => exact ⟨_, _, rfl, rfl, (fun d hd => by cases hd)⟩
  | some s =>
    obtain ⟨e, s', h1, h2⟩ := dhop_step_ok W s (h s rfl) op ha
    exact ⟨e, some s', by simp [onDH, h1], rfl, (fun d hd => by cases hd; exact h2)⟩

theorem inv_congr {s s' : X.H} (h : s.Inv X) (hs : s'.Sound X) (h1 : s'.action = s.action)
    (h2 : s'.tokens = s.tokens) (h3 : s'.role = s.role) (h4 : s'.pres = s.pres)
    (h5 : s'.reqs = s.reqs) (h6 : s'.sym = s.sym) : s'.Inv X := by
  refine ⟨hs, ?_, ?_, ?_, ?_, ?_⟩
  · rw [h1, h6]; exact h.cipher
  · rw [h1, h2, h3, h4]; exact h.fresh
  · rw [h1, h2, h3, h4]; exact h.write
  · rw [h1, h2, h3, h4]; exact h.read
  · rw [h5, h3, h4]; exact h.fallback

theorem step_ok {s : X.H} (h : s.Inv X) (op : HOp X.D X.G) (ha : op.ArgsOk X) :
    ∃ o s', op.step X.S.CB s = .ok (o, s') ∧ s'.Inv X ∧ op.BufOk o := by
  cases op with
  | setPsk k =>
    refine ⟨_, _, rfl, ?_, trivial⟩
    unfold HS.setPsk
    split
    · exact h
    split
    · exact h
    split
    · exact h
    · exact inv_congr h (h.sound.congr rfl rfl rfl rfl rfl rfl rfl rfl rfl) rfl rfl rfl rfl rfl rfl
  | setPrologue p =>
    refine ⟨_, _, rfl, ?_, trivial⟩
    unfold HS.setPrologue
    split
    · exact h
    · exact inv_congr h (h.sound.congr rfl rfl rfl rfl rfl rfl rfl rfl rfl) rfl rfl rfl rfl rfl rfl
  | localStatic op =>
    obtain ⟨e, o, h1, h2, h3⟩ := onDH_ok X.WD s.ls h.sound.ls op ha
    refine ⟨{ err := e }, { s with ls := o }, by simp [step, h1], inv_congr h ?_ rfl rfl rfl ?_ rfl rfl, trivial⟩
    · exact ⟨h.sound.sym, h3, h.sound.le, h.sound.lh, h.sound.rs, h.sound.re, h.sound.rh, h.sound.fe,
        h.sound.fh⟩
    · simp [HS.pres, h2]
  | remoteStatic op =>
    obtain ⟨e, o, h1, h2, h3⟩ := onDH_ok X.WD s.rs h.sound.rs op ha
    refine ⟨{ err := e }, { s with rs := o }, by simp [step, h1], inv_congr h ?_ rfl rfl rfl ?_ rfl rfl, trivial⟩
    · exact ⟨h.sound.sym, h.sound.ls, h.sound.le, h.sound.lh, h3, h.sound.re, h.sound.rh, h.sound.fe,
        h.sound.fh⟩
    · simp [HS.pres, h2]
  | getFixedE =>
    refine ⟨_, _, rfl, ?_, trivial⟩
    unfold HS.getFixedE
    split
    · exact h
    · split
      · exact h
      · split
        · exact h
        · next f hf =>
          refine inv_congr h ⟨h.sound.sym, h.sound.ls, h.sound.le, h.sound.lh, h.sound.rs, h.sound.re,
            h.sound.rh, ?_, h.sound.fh⟩ rfl rfl rfl rfl rfl rfl
          intro d hd
          cases hd
          unfold DHBackend.newById at hf
          split at hf
          · cases hf; exact (X.WD.changeRole _ _ X.WD.init).1
          · cases hf
  | fixedE op =>
    obtain ⟨e, o, h1, h2, h3⟩ := onDH_ok X.WD s.fe h.sound.fe op ha
    refine ⟨{ err := e }, { s with fe := o }, by simp [step, h1], inv_congr h ?_ rfl rfl rfl rfl rfl rfl, trivial⟩
    exact ⟨h.sound.sym, h.sound.ls, h.sound.le, h.sound.lh, h.sound.rs, h.sound.re, h.sound.rh, h3,
        h.sound.fh⟩
  | getFixedH =>
    refine ⟨_, _, rfl, ?_, trivial⟩
    unfold HS.getFixedH
    split
    · exact h
    · split
      · exact h
      · split
        · exact h
        · next f hf =>
          refine inv_congr h ⟨h.sound.sym, h.sound.ls, h.sound.le, h.sound.lh, h.sound.rs, h.sound.re,
            h.sound.rh, h.sound.fe, ?_⟩ rfl rfl rfl rfl rfl rfl
          intro d hd
          cases hd
          unfold DHBackend.newById at hf
          split at hf
          · cases hf; exact (X.WG.changeRole _ _ X.WG.init).1
          · cases hf
  | fixedH op =>
    obtain ⟨e, o, h1, h2, h3⟩ := onDH_ok X.WG s.fh h.sound.fh op ha
    refine ⟨{ err := e }, { s with fh := o }, by simp [step, h1], inv_congr h ?_ rfl rfl rfl rfl rfl rfl, trivial⟩
    exact ⟨h.sound.sym, h.sound.ls, h.sound.le, h.sound.lh, h.sound.rs, h.sound.re, h.sound.rh, h.sound.fe,
        h3⟩
  | start =>
    obtain ⟨e, s', h1, h2, _⟩ := HS.start_ok h
    exact ⟨{ err := e }, s', by simp [step, h1], h2, trivial⟩
  | fallbackTo p st =>
    obtain ⟨e, s', h1, h2, _⟩ := HS.fallbackTo_ok h p st
    exact ⟨{ err := e }, s', by simp [step, h1], h2, trivial⟩
  | write rnd junk mem pl =>
    obtain ⟨e, s', b, h1, h2, h3, h4, _⟩ := HS.writeMessage_ok h rnd junk mem pl
    exact ⟨{ err := e, buf := some b }, s', by simp [step, h1], h2, _, rfl, h3, by omega⟩
  | read junk msg pl =>
    obtain ⟨e, s', b, p, h1, h2, h3, h4, h5, _⟩ := HS.readMessage_ok h junk msg pl
    exact ⟨{ err := e, buf := some b, payload := p }, s', by simp [step, h1], h2, _, rfl, h3, h4, h5⟩
  | split a b c =>
    obtain ⟨e, s', x, y, h1, h2, _⟩ := HS.split_ok h a b c
    exact ⟨{ err := e, send := x, recv := y }, s', by simp [step, h1], h2, trivial⟩
  | getHash n =>
    obtain ⟨e, o, h1⟩ := HS.getHandshakeHash_ok h n
    exact ⟨{ err := e, hash := o }, s, by simp [step, h1], h, trivial⟩

theorem run_ok : ∀ (ops : List (HOp X.D X.G)) {s : X.H}, s.Inv X → (∀ op ∈ ops, op.ArgsOk X) →
    ∃ os s', run X.S.CB s ops = .ok (os, s') ∧ s'.Inv X ∧ os.length = ops.length ∧
      ∀ p ∈ ops.zip os, BufOk p.1 p.2 := by
  intro ops
  induction ops with
  | nil => intro s h _; exact ⟨[], s, rfl, h, rfl, by simp⟩
  | cons op ops ih =>
    intro s h ha
    obtain ⟨o, s1, h1, h2, h3⟩ := step_ok h op (ha op (by simp))
    obtain ⟨os, s2, k1, k2, k3, k4⟩ := ih h2 (fun q hq => ha q (by simp [hq]))
    refine ⟨o :: os, s2, by simp [run, h1, k1], k2, by simp [k3], ?_⟩
    intro p hp
    simp only [List.zip_cons_cons, List.mem_cons] at hp
    rcases hp with rfl | hp
    · exact h3
    · exact k4 p hp

end HOp
end Noise
