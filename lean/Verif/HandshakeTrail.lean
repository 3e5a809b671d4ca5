import Verif.HandshakeCalm
/-!
# Histories without writing, falling back, and setting up again
-/

namespace Noise

open Spec (Tok HSt Res)

variable {X : Setup} {P Q : Spec.DH}

/-- Calls other than `write_message` and `fallback_to`. -/
def HOp.quiet : HOp X.D X.G → Bool
  | .write .. => false
  | .fallbackTo .. => false
  | _ => true

theorem onDH_isSome {D : DHBackend} {o o' : Option (DHState D.Ext)} {op : DHOp D} {e : Err}
    (hs : HOp.onDH o op = .ok (e, o')) : o'.isSome = o.isSome := by
  cases o with
  | none => cases hs; rfl
  | some d =>
    simp only [HOp.onDH, Out.bind_eq_ok] at hs
    obtain ⟨⟨e1, d1⟩, h1, h2⟩ := hs
    cases h2
    rfl

/-- What a history of quiet calls keeps. -/
structure Trail (s s' : X.H) : Prop where
  inv : s'.Inv X
  calm : HS.Calm s s'
  reqs : s'.reqs = s.reqs
  role : s'.role = s.role
  id : s'.sym.id = s.sym.id
  pres : s'.pres = s.pres
  psk : (s.sym.id.prefixId ≠ prefixPsk → s.psk = []) → s.sym.id.prefixId ≠ prefixPsk → s'.psk = []
  ended : s.action = .split ∨ s.action = .complete → s'.action = .split ∨ s'.action = .complete

theorem Trail.trans {a b c : X.H} (h : Trail a b) (h' : Trail b c) : Trail a c where
  inv := h'.inv
  calm := h.calm.trans h'.calm
  reqs := h'.reqs.trans h.reqs
  role := h'.role.trans h.role
  id := h'.id.trans h.id
  pres := h'.pres.trans h.pres
  psk := fun h0 h1 => h'.psk (fun h2 => h.psk h0 (by rw [← h.id]; exact h2)) (by rw [h.id]; exact h1)
  ended := fun h0 => h'.ended (h.ended h0)

theorem Trail.step (R : Real X P Q) {s s' : X.H} (h : s.Inv X) (hl : HS.LhStill R s)
    {op : HOp X.D X.G} {o : HObs} (ha : op.ArgsReach X) (hq : op.quiet = true)
    (hst : op.step X.S.CB s = .ok (o, s')) : Trail s s' := by
  obtain ⟨o1, q1, k1, hinv, _⟩ := HOp.step_ok h op ha.ok
  rw [hst] at k1; cases k1
  have hlife := lifecycle_step h hst
  have hkeep := keep_step h hst (by cases op <;> first | rfl | cases hq)
  have build : HS.Calm s s' → s'.pres = s.pres →
      ((s.sym.id.prefixId ≠ prefixPsk → s.psk = []) → s.sym.id.prefixId ≠ prefixPsk → s'.psk = []) →
      (s.action = .split ∨ s.action = .complete → s'.action = .split ∨ s'.action = .complete) →
      Trail s s' := fun h1 h2 h3 h4 => ⟨hinv, h1, hkeep.1, hkeep.2.1, hkeep.2.2, h2, h3, h4⟩
  have same : s' = s → Trail s s' := fun he => by
    subst he; exact build (.refl _) rfl (fun h => h) (fun h => h)
  cases op with
  | setPsk k =>
    cases hst
    dsimp only [Lifecycle] at hlife
    refine build ?_ ?_ ?_ (fun ha => by rw [hlife.1]; exact ha) <;> unfold HS.setPsk
    · repeat' split
      all_goals exact .congr rfl rfl rfl rfl rfl rfl
    · repeat' split
      all_goals rfl
    · intro h0 h1
      split
      · exact h0 h1
      · exact h0 h1
  | setPrologue p =>
    cases hst
    dsimp only [Lifecycle] at hlife
    refine build ?_ ?_ ?_ (fun ha => by rw [hlife.1]; exact ha) <;> unfold HS.setPrologue
    · repeat' split
      all_goals exact .congr rfl rfl rfl rfl rfl rfl
    · repeat' split
      all_goals rfl
    · intro h0 h1
      split <;> exact h0 h1
  | localStatic op =>
    simp only [HOp.step, Out.bind_eq_ok] at hst
    obtain ⟨r, h1, h2⟩ := hst
    cases h2
    refine build ⟨rfl, rfl, fun hk => ⟨(onDH_reach ha hk.ls h1).1, hk.rs, hk.re⟩,
      fun hh => hh.congr rfl rfl⟩ ?_ (fun h => h) (fun h => h)
    simp [HS.pres, onDH_isSome h1]
  | remoteStatic op =>
    simp only [HOp.step, Out.bind_eq_ok] at hst
    obtain ⟨r, h1, h2⟩ := hst
    cases h2
    refine build ⟨rfl, rfl, fun hk => ⟨hk.ls, (onDH_reach ha hk.rs h1).1, hk.re⟩,
      fun hh => hh.congr rfl rfl⟩ ?_ (fun h => h) (fun h => h)
    simp [HS.pres, onDH_isSome h1]
  | getFixedE =>
    cases hst
    rcases getFixedE_shape s with hx | ⟨f, hx⟩
    · exact same hx
    · refine build ?_ ?_ ?_ ?_ <;> rw [hx]
      · exact .congr rfl rfl rfl rfl rfl rfl
      · rfl
      · exact fun h => h
      · exact fun h => h
  | getFixedH =>
    cases hst
    rcases getFixedH_shape s with hx | ⟨f, hx⟩
    · exact same hx
    · refine build ?_ ?_ ?_ ?_ <;> rw [hx]
      · exact .congr rfl rfl rfl rfl rfl rfl
      · rfl
      · exact fun h => h
      · exact fun h => h
  | fixedE op =>
    simp only [HOp.step, Out.bind_eq_ok] at hst
    obtain ⟨r, h1, h2⟩ := hst
    cases h2
    exact build (.congr rfl rfl rfl rfl rfl rfl) rfl (fun h => h) (fun h => h)
  | fixedH op =>
    simp only [HOp.step, Out.bind_eq_ok] at hst
    obtain ⟨r, h1, h2⟩ := hst
    cases h2
    exact build (.congr rfl rfl rfl rfl rfl rfl) rfl (fun h => h) (fun h => h)
  | start =>
    obtain ⟨e, s1, h1, _, h3, h4⟩ := HS.start_ok h
    simp only [HOp.step, h1, Out.bind_ok, Out.pure_eq, Out.ok.injEq, Prod.mk.injEq] at hst
    obtain ⟨rfl, rfl⟩ := hst
    by_cases he : e = .none
    · obtain ⟨f, g1, _, _⟩ := h4 he
      have hc : HS.Calm s s1 := by
        unfold HS.start at h1
        repeat' split at h1
        all_goals first
          | (cases h1; exact .refl _)
          | (simp only [Out.bind_eq_ok] at h1
             obtain ⟨_, _, _, _, h1⟩ := h1
             cases h1
             exact .congr rfl rfl rfl rfl rfl rfl)
      exact build hc f.pres (fun h0 h1 => by rw [f.psk]; exact h0 h1) (fun ha => by
        rw [g1] at ha; rcases ha with h | h <;> cases h)
    · exact same (h3 he)
  | fallbackTo p st => cases hq
  | write rnd junk mem pl => cases hq
  | read junk msg pl =>
    obtain ⟨e, q, b, p, h1, _, _, _, _, h2, h3, h4⟩ := HS.readMessage_ok h junk msg pl
    simp only [HOp.step, h1, Out.bind_ok, Out.pure_eq, Out.ok.injEq, Prod.mk.injEq] at hst
    obtain ⟨rfl, rfl⟩ := hst
    by_cases hm : msg.size > msg.maxSize
    · exact same (h2 hm).2
    by_cases hr : s.action = .read
    · obtain ⟨f, _⟩ := h4 (by omega) hr
      exact build (HS.readMessage_calm R hl h1) f.pres (fun h0 h1 => by rw [f.psk]; exact h0 h1)
        (fun ha => by rw [hr] at ha; rcases ha with h | h <;> cases h)
    · exact same (h3 (by omega) hr).2
  | split a b c =>
    refine build ?_ ?_ ?_ ?_
    · simp only [HOp.step, Out.bind_eq_ok] at hst
      obtain ⟨⟨e, s1, x, y⟩, h1, h2⟩ := hst
      cases h2
      unfold HS.split at h1
      repeat' split at h1
      all_goals first
        | (cases h1; exact .refl _)
        | (simp only [Out.bind_eq_ok] at h1
           obtain ⟨_, _, h1⟩ := h1
           cases h1
           exact .congr rfl rfl rfl rfl rfl rfl)
    · simp only [HOp.step, Out.bind_eq_ok] at hst
      obtain ⟨⟨e, s1, x, y⟩, h1, h2⟩ := hst
      cases h2
      unfold HS.split at h1
      repeat' split at h1
      all_goals first
        | (cases h1; rfl)
        | (simp only [Out.bind_eq_ok] at h1
           obtain ⟨_, _, h1⟩ := h1
           cases h1
           rfl)
    · intro h0 hp
      simp only [HOp.step, Out.bind_eq_ok] at hst
      obtain ⟨⟨e, s1, x, y⟩, h1, h2⟩ := hst
      cases h2
      unfold HS.split at h1
      repeat' split at h1
      all_goals first
        | (cases h1; exact h0 hp)
        | (simp only [Out.bind_eq_ok] at h1
           obtain ⟨_, _, h1⟩ := h1
           cases h1
           exact h0 hp)
    · intro ha
      rcases hlife with hl | hl
      · exact .inr hl.2.2
      · rw [hl.2]; exact ha
  | getHash n =>
    simp only [HOp.step, Out.bind_eq_ok] at hst
    obtain ⟨r, _, h2⟩ := hst; cases h2; exact same rfl

theorem Trail.run (R : Real X P Q) : ∀ (ops : List (HOp X.D X.G)) {s s' : X.H} {os : List HObs},
    s.Inv X → HS.LhStill R s → (∀ op ∈ ops, op.ArgsReach X ∧ op.quiet = true) →
    HOp.run X.S.CB s ops = .ok (os, s') → Trail s s' := by
  intro ops
  induction ops with
  | nil =>
    intro s s' os hi _ _ hr
    cases hr
    exact ⟨hi, .refl _, rfl, rfl, rfl, rfl, fun h => h, fun h => h⟩
  | cons op ops ih =>
    intro s s' os hi hl ha hr
    simp only [HOp.run, Out.bind_eq_ok] at hr
    obtain ⟨⟨o, s1⟩, hstep, ⟨os1, s2⟩, hrun, hx⟩ := hr
    cases hx
    have h1 := Trail.step R hi hl (ha op (by simp)).1 (ha op (by simp)).2 hstep
    exact h1.trans (ih h1.inv (hl.calm h1.calm) (fun q hq => ha q (by simp [hq])) hrun)

/-! ## Falling back -/

namespace HS

theorem clearOpt_reach {D : DHBackend} {o o' : Option (DHState D.Ext)} (h : clearOpt D o = .ok o')
    (hr : ∀ d, o = some d → DHReach D d) : ∀ d, o' = some d → DHReach D d := by
  cases o with
  | none => cases h; exact hr
  | some d =>
    simp only [clearOpt, Out.bind_eq_ok] at h
    obtain ⟨d', h1, h2⟩ := h
    cases h2
    intro q hq
    cases hq
    exact .clearKey d .none d' (hr d rfl) (by simp only [DHOp.step, h1]; rfl)

theorem fallbackSym_rep {sym sym' : X.Sy} {pid : Int} {name : Bytes}
    (h : fallbackSym sym pid name = .ok sym') :
    sym'.Rep (Spec.initializeSymmetric X.S.crypto name) ∧ sym'.id = { sym.id with patternId := pid } := by
  unfold fallbackSym at h
  split at h
  · cases h
  next c hc =>
  cases h
  refine ⟨⟨⟨_, rfl, rfl⟩, ?_, ?_⟩, rfl⟩ <;>
  · dsimp only [Spec.initializeSymmetric, Suite.crypto]
    split
    · rfl
    · exact hashOne_eq X.S.hl sym.ctx name

/-- The state of an object right after a successful fallback. -/
structure FellBack (s : X.H) (pid : Int) (s' : X.H) : Prop where
  post : FallbackPost s pid s'
  inv : s'.Inv X
  named : s.sym.id.reserved.length = 4 → ∃ name, protocolNameToId name = (.none, s'.sym.id) ∧
    s'.sym.Rep (Spec.initializeSymmetric X.S.crypto name)
  ls : s'.ls = s.ls
  rs : (∀ d, s.rs = some d → DHReach X.D d) → ∀ d, s'.rs = some d → DHReach X.D d
  psk : s'.psk = s.psk
  prologue : s'.prologue = s.prologue
  fe : s'.fe = s.fe
  fh : s'.fh = s.fh
  pres : s'.pres = s.pres
  init : s.role = .initiator → s'.le = s.le ∧ s'.lh = s.lh ∧
    (∀ d, s'.re = some d → d.keyType = .noKey) ∧ (∀ d, s'.rh = some d → d.keyType = .noKey) ∧
    (∀ d, s'.rs = some d → d.keyType = .noKey)
  resp : s.role = .responder → s'.re = s.re ∧ s'.rh = s.rh ∧
    (∀ d, s'.le = some d → d.keyType = .noKey) ∧ (∀ d, s'.lh = some d → d.keyType = .noKey)

theorem fellBack {s s' : X.H} {pid : Int} {stack : Bytes} (h : s.Inv X)
    (hs : s.fallbackTo pid stack = .ok (.none, s')) : FellBack s pid s' := by
  obtain ⟨e0, q0, k0, hinv, _, hpost⟩ := fallbackTo_ok h pid stack
  rw [hs] at k0
  cases k0
  have hpost := hpost rfl
  unfold fallbackTo at hs
  split at hs
  · cases hs
  split at hs
  · cases hs
  next t ht =>
  simp only [Out.bind_eq_ok] at hs
  obtain ⟨fl, hfl, hs⟩ := hs
  split at hs
  · cases hs
  split at hs
  · cases hs
  simp only [Out.bind_eq_ok] at hs
  obtain ⟨⟨e, mem⟩, hn, hs⟩ := hs
  split at hs
  · next he => cases hs; exact absurd rfl he
  next he =>
  have he : e = .none := by simpa using he
  subst he
  simp only [Out.bind_eq_ok] at hs
  obtain ⟨s1, h1, sy, h2, hs⟩ := hs
  obtain ⟨rep, hid⟩ := fallbackSym_rep h2
  obtain ⟨s1', g1, _, gp, _⟩ := fallbackKeys_ok h.sound fl
  rw [h1] at g1; cases g1
  cases hs
  have named : s.sym.id.reserved.length = 4 → ∃ name, protocolNameToId name = (.none, sy.id) ∧
      sy.Rep (Spec.initializeSymmetric X.S.crypto name) := fun hr =>
    ⟨_, by rw [hid]; exact C27_id_to_name_to_id _ _ _ hr hn, rep⟩
  unfold fallbackKeys at h1
  split at h1
  · next hr =>
    simp only [Out.bind_eq_ok] at h1
    obtain ⟨re, c1, rh, c2, rs, c3, h1⟩ := h1
    cases h1
    obtain ⟨_, d1, _, _, d2⟩ := clearOpt_ok X.WD s.re h.sound.re
    obtain ⟨_, d3, _, _, d4⟩ := clearOpt_ok X.WG s.rh h.sound.rh
    obtain ⟨_, d5, _, _, d6⟩ := clearOpt_ok X.WD s.rs h.sound.rs
    rw [c1] at d1; cases d1
    rw [c2] at d3; cases d3
    rw [c3] at d5; cases d5
    exact ⟨hpost, hinv, named, rfl, clearOpt_reach c3, rfl, rfl, rfl, rfl, gp,
      fun _ => ⟨rfl, rfl, fun d hd => (d2 d hd).1, fun d hd => (d4 d hd).1, fun d hd => (d6 d hd).1⟩,
      fun hx => by rw [hr] at hx; cases hx⟩
  · next hr =>
    simp only [Out.bind_eq_ok] at h1
    obtain ⟨le, c1, lh, c2, h1⟩ := h1
    obtain ⟨rs, c3, h1⟩ : ∃ rs, (rs = s.rs ∨ clearOpt X.D s.rs = .ok rs) ∧
        Out.ok { s with le := le, lh := lh, rs := rs, role := .initiator } = Out.ok s1 := by
      split at h1
      · exact ⟨s.rs, .inl rfl, h1⟩
      · simp only [Out.bind_eq_ok] at h1
        obtain ⟨rs, c3, h1⟩ := h1
        exact ⟨rs, .inr c3, h1⟩
    cases h1
    obtain ⟨_, d1, _, _, d2⟩ := clearOpt_ok X.WD s.le h.sound.le
    obtain ⟨_, d3, _, _, d4⟩ := clearOpt_ok X.WG s.lh h.sound.lh
    rw [c1] at d1; cases d1
    rw [c2] at d3; cases d3
    refine ⟨hpost, hinv, named, rfl, fun hx => ?_, rfl, rfl, rfl, rfl, gp,
      (fun hx => by rw [hr] at hx; cases hx),
      fun _ => ⟨rfl, rfl, fun d hd => (d2 d hd).1, fun d hd => (d4 d hd).1⟩⟩
    rcases c3 with c3 | c3
    · rw [c3]; exact hx
    · exact clearOpt_reach c3 hx

end HS

/-! ## Setting up again -/

/-- An object that fell back to the state `s0` and has since been set up but not started. -/
structure Resting (X : Setup) (s0 s : X.H) : Prop where
  inv : s.Inv X
  reqs : ReqsOk X true s
  action : s.action = .none
  sym : s.sym = s0.sym
  role : s.role = s0.role
  tokens : s.tokens = s0.tokens
  pres : s.pres = s0.pres
  le : s.le = s0.le
  lh : s.lh = s0.lh
  re : s.re = s0.re
  rh : s.rh = s0.rh
  psk : s.sym.id.prefixId ≠ prefixPsk → s.psk = []
  ls : ∀ d, s.ls = some d → DHReach X.D d
  rs : ∀ d, s.rs = some d → DHReach X.D d

theorem Resting.step {s0 s s' : X.H} (h : Resting X s0 s) {op : HOp X.D X.G} {o : HObs}
    (ha : op.ArgsReach X) (hst : op.step X.S.CB s = .ok (o, s')) (hn : s'.action = .none) :
    Resting X s0 s' := by
  obtain ⟨o1, q1, k1, hinv, _⟩ := HOp.step_ok h.inv op ha.ok
  rw [hst] at k1; cases k1
  have hreq := reqs_step h.inv h.reqs hst
  rw [Bool.true_or] at hreq
  cases op with
  | setPsk k =>
    cases hst
    unfold HS.setPsk at hinv hreq ⊢
    split
    · exact h
    split
    · exact h
    split
    · exact h
    next h1 h2 h3 =>
    have h2 : s.sym.id.prefixId = prefixPsk := by simpa using h2
    rw [if_neg h1, if_neg (by simp [h2]), if_neg h3] at hinv hreq
    exact { h with inv := hinv, reqs := hreq, psk := fun h' => absurd h2 h' }
  | setPrologue p =>
    cases hst
    unfold HS.setPrologue at hinv hreq ⊢
    split
    · exact h
    next h1 =>
    rw [if_neg h1] at hinv hreq
    exact { h with inv := hinv, reqs := hreq }
  | localStatic op =>
    simp only [HOp.step, Out.bind_eq_ok] at hst
    obtain ⟨r, h1, h2⟩ := hst
    cases h2
    obtain ⟨h3, h4⟩ := onDH_reach ha h.ls h1
    exact { h with inv := hinv, reqs := hreq, ls := h3, pres := by rw [← h.pres]; simp [HS.pres, h4] }
  | remoteStatic op =>
    simp only [HOp.step, Out.bind_eq_ok] at hst
    obtain ⟨r, h1, h2⟩ := hst
    cases h2
    obtain ⟨h3, h4⟩ := onDH_reach ha h.rs h1
    exact { h with inv := hinv, reqs := hreq, rs := h3, pres := by rw [← h.pres]; simp [HS.pres, h4] }
  | getFixedE =>
    cases hst
    rcases getFixedE_shape s with hx | ⟨f, hx⟩
    · rw [hx]; exact h
    · rw [hx] at hinv hreq ⊢
      exact { h with inv := hinv, reqs := hreq }
  | getFixedH =>
    cases hst
    rcases getFixedH_shape s with hx | ⟨f, hx⟩
    · rw [hx]; exact h
    · rw [hx] at hinv hreq ⊢
      exact { h with inv := hinv, reqs := hreq }
  | fixedE op =>
    simp only [HOp.step, Out.bind_eq_ok] at hst
    obtain ⟨r, h1, h2⟩ := hst
    cases h2
    exact { h with inv := hinv, reqs := hreq }
  | fixedH op =>
    simp only [HOp.step, Out.bind_eq_ok] at hst
    obtain ⟨r, h1, h2⟩ := hst
    cases h2
    exact { h with inv := hinv, reqs := hreq }
  | start =>
    obtain ⟨e, s1, h1, _, h3, h4⟩ := HS.start_ok h.inv
    simp only [HOp.step, h1, Out.bind_ok, Out.pure_eq, Out.ok.injEq, Prod.mk.injEq] at hst
    obtain ⟨rfl, rfl⟩ := hst
    by_cases he : e = .none
    · have := (h4 he).2.2.2
      rw [hn] at this
      cases hr : s.role <;> rw [hr] at this <;> cases this
    · rw [h3 he]; exact h
  | fallbackTo p st =>
    obtain ⟨e, s1, h1, _, h3, h4⟩ := HS.fallbackTo_ok h.inv p st
    simp only [HOp.step, h1, Out.bind_ok, Out.pure_eq, Out.ok.injEq, Prod.mk.injEq] at hst
    obtain ⟨rfl, rfl⟩ := hst
    by_cases he : e = .none
    · have := fallbackAllowed_action (h4 he).allowed
      simp [h.action] at this
    · rw [h3 he]; exact h
  | write rnd junk mem pl =>
    simp only [HOp.step, (C11_wrong_state_inert X s rnd junk mem pl ⟨[], 0⟩ true true true).1
      (by simp [h.action]), Out.bind_ok, Out.pure_eq, Out.ok.injEq, Prod.mk.injEq] at hst
    rw [← hst.2]; exact h
  | read junk msg pl =>
    by_cases hm : msg.size ≤ msg.maxSize
    · simp only [HOp.step, (C11_wrong_state_inert X s junk junk [] pl msg true true true).2.1
        (by simp [h.action]) hm, Out.bind_ok, Out.pure_eq, Out.ok.injEq, Prod.mk.injEq] at hst
      rw [← hst.2]; exact h
    · obtain ⟨e, q, b, p, h1, _, _, _, _, h2, _⟩ := HS.readMessage_ok h.inv junk msg pl
      simp only [HOp.step, h1, Out.bind_ok, Out.pure_eq, Out.ok.injEq, Prod.mk.injEq] at hst
      rw [← hst.2, (h2 (by omega)).2]; exact h
  | split a b c =>
    have : s.split X.S.CB a b c = .ok ((if !a && !b then .invalidParam else .invalidState), s, none, none) := by
      unfold HS.split
      split
      · rfl
      · rw [if_pos (by simp [h.action])]
    simp only [HOp.step, this, Out.bind_ok, Out.pure_eq, Out.ok.injEq, Prod.mk.injEq] at hst
    rw [← hst.2]; exact h
  | getHash n =>
    simp only [HOp.step, Out.bind_eq_ok] at hst
    obtain ⟨r, _, h2⟩ := hst; cases h2; exact h

/-- A state that does not return to its beginning without a fallback. -/
theorem action_none_back {s s' : X.H} (hi : s.Inv X) {op : HOp X.D X.G} {o : HObs}
    (hstep : op.step X.S.CB s = .ok (o, s')) (hf : isFallback (op, o) = false)
    (hn : s'.action = .none) : s.action = .none := by
  have hl := lifecycle_step hi hstep
  rw [hn] at hl
  cases op with
  | fallbackTo p st =>
    rcases hl with hl | hl
    · simp [isFallback, hl.1] at hf
    · exact hl.2.symm
  | start =>
    rcases hl with hl | hl
    · exact hl.2.1
    · exact hl.2.symm
  | write rnd junk mem pl =>
    rcases hl with hl | hl | hl
    · exact hl.2.2.symm
    · rcases hl.2.2 with h | h <;> cases h
    · cases hl.2.2
  | read junk msg pl =>
    rcases hl with hl | hl | hl | hl
    · exact hl.2.2.symm
    · exact hl.2.2.symm
    · rcases hl.2.2 with h | h <;> cases h
    · cases hl.2.2
  | split a b c =>
    rcases hl with hl | hl
    · cases hl.2.2
    · exact hl.2.symm
  | setPsk k => exact hl.1.symm
  | setPrologue k => exact hl.1.symm
  | getHash k => exact hl.1.symm
  | localStatic k => exact hl.symm
  | remoteStatic k => exact hl.symm
  | getFixedE => exact hl.symm
  | getFixedH => exact hl.symm
  | fixedE k => exact hl.symm
  | fixedH k => exact hl.symm

theorem Resting.run {s0 : X.H} : ∀ (ops : List (HOp X.D X.G)) {s s' : X.H} {os : List HObs}, s.Inv X →
    (s.action = .none → Resting X s0 s) → (∀ op ∈ ops, op.ArgsReach X) →
    HOp.run X.S.CB s ops = .ok (os, s') → (ops.zip os).any isFallback = false →
    s'.action = .none → Resting X s0 s' := by
  intro ops
  induction ops with
  | nil => intro s s' os _ h _ hr _ hn; cases hr; exact h hn
  | cons op ops ih =>
    intro s s' os hi h ha hr hf hn
    simp only [HOp.run, Out.bind_eq_ok] at hr
    obtain ⟨⟨o, s1⟩, hstep, ⟨os1, s2⟩, hrun, hx⟩ := hr
    cases hx
    simp only [List.zip_cons_cons, List.any_cons, Bool.or_eq_false_iff] at hf
    obtain ⟨o', s1', hs1, hi1, _⟩ := HOp.step_ok hi op (ha op (by simp)).ok
    rw [hstep] at hs1; cases hs1
    exact ih hi1 (fun hn1 => (h (action_none_back hi hstep hf.1 hn1)).step (ha op (by simp)) hstep hn1)
      (fun q hq => ha q (by simp [hq])) hrun hf.2 hn

end Noise
