import Verif.HandshakeStart
/-!
# Objects that have not been started
-/

namespace Noise

open Spec (Tok HSt Res)

variable {X : Setup}

/-- The key objects a caller passes in were themselves made through the interface. -/
def HOp.ArgsReach (X : Setup) : HOp X.D X.G → Prop
  | .localStatic op => op.ArgsOk (DHReach X.D)
  | .remoteStatic op => op.ArgsOk (DHReach X.D)
  | .fixedE op => op.ArgsOk (DHReach X.D)
  | .fixedH op => op.ArgsOk (DHReach X.G)
  | _ => True

theorem DHOp.argsOk_of_reach {D : DHBackend} {Inv : DHState D.Ext → Prop} {L : Option Role → Nat}
    (W : D.Lawful Inv L) (op : DHOp D) (ha : op.ArgsOk (DHReach D)) : op.ArgsOk Inv := by
  have inv := dhreach_inv W
  match op, ha with
  | .generate _ (some (.same o)), ha => exact inv _ ha
  | .generate _ (some .foreign), _ => trivial
  | .generate _ none, _ => trivial
  | .copy (.same src), ha => exact inv _ ha
  | .copy .foreign, _ => trivial
  | .calcWith (.same q) _, ha => exact inv _ ha
  | .calcWith .foreign _, _ => trivial
  | .setKeypair _ _, _ => trivial
  | .setKeypairPrivate _, _ => trivial
  | .setPublicKey _, _ => trivial
  | .setNullPublicKey, _ => trivial
  | .clearKey, _ => trivial
  | .setRole _, _ => trivial

theorem HOp.ArgsReach.ok {op : HOp X.D X.G} (h : op.ArgsReach X) : op.ArgsOk X := by
  cases op with
  | localStatic op => exact op.argsOk_of_reach X.WD h
  | remoteStatic op => exact op.argsOk_of_reach X.WD h
  | fixedE op => exact op.argsOk_of_reach X.WD h
  | fixedH op => exact op.argsOk_of_reach X.WG h
  | _ => trivial

theorem DHReach.step {D : DHBackend} {op : DHOp D} (ha : op.ArgsOk (DHReach D)) {s s' : DHState D.Ext}
    {e : Err} (h : DHReach D s) (hs : op.step s = .ok (e, s')) : DHReach D s' := by
  match op, ha with
  | .generate _ (some (.same o)), ha => exact .generateDep _ _ _ _ _ h ha hs
  | .generate _ (some .foreign), _ => exact .generateForeign _ _ _ _ h hs
  | .generate _ none, _ => exact .generate _ _ _ _ h hs
  | .copy (.same src), ha => exact .copy _ _ _ _ h ha hs
  | .copy .foreign, _ => exact .copyForeign _ _ _ h hs
  | .calcWith (.same q) _, ha => exact .calcWith _ _ _ _ _ h ha hs
  | .calcWith .foreign _, _ => exact .calcForeign _ _ _ _ h hs
  | .setKeypair _ _, _ => exact .setKeypair _ _ _ _ _ h hs
  | .setKeypairPrivate _, _ => exact .setKeypairPrivate _ _ _ _ h hs
  | .setPublicKey _, _ => exact .setPublicKey _ _ _ _ h hs
  | .setNullPublicKey, _ => exact .setNullPublicKey _ _ _ h hs
  | .clearKey, _ => exact .clearKey _ _ _ h hs
  | .setRole _, _ => exact .setRole _ _ _ _ h hs

/-- An object that was created and set up, but not started: what it still has from its creation. -/
structure Idle (X : Setup) (s : X.H) : Prop where
  inv : s.Inv X
  reqs : ReqsOk X false s
  action : s.action = .none
  named : ∃ name, protocolNameToId name = (.none, s.sym.id) ∧
    s.sym.Rep (Spec.initializeSymmetric X.S.crypto name)
  tokens : ∃ t fl, patternLookup s.sym.id.patternId = some t ∧ patternFlags t = .ok fl ∧
    s.tokens = t.drop 2 ∧ s.pres = HS.presOf (HS.roleFlags fl s.role)
  possible : ∃ t fl, patternLookup s.sym.id.patternId = some t ∧ patternFlags t = .ok fl ∧
    s.reqs.fallbackPossible = hasFlag fl flagRemoteRequired
  psk : s.sym.id.prefixId ≠ prefixPsk → s.psk = []
  ls : ∀ d, s.ls = some d → DHReach X.D d
  rs : ∀ d, s.rs = some d → DHReach X.D d
  le : ∀ d, s.le = some d → d.keyType = .noKey
  re : ∀ d, s.re = some d → d.keyType = .noKey
  reReach : ∀ d, s.re = some d → DHReach X.D d
  lh : ∀ d, s.lh = some d → d.keyType = .noKey
  rh : ∀ d, s.rh = some d → d.keyType = .noKey

theorem setRole_reach {D : DHBackend} (r : Option Role) : DHReach D (D.setRole D.init r) :=
  .setRole r _ .none _ .init rfl

theorem Idle.created {s : X.H} (h : Created X s) (hr : s.sym.id.reserved.length = 4) : Idle X s := by
  have key : ∀ sym role t fl name, HS.Fresh X sym role t fl s → patternLookup sym.id.patternId = some t →
      patternFlags t = .ok fl → protocolNameToId name = (.none, sym.id) →
      sym.Rep (Spec.initializeSymmetric X.S.crypto name) → Idle X s := by
    intro sym role t fl name hf h1 h2 h3 h4
    have hk : ∀ (r : Role), (X.D.setRole X.D.init (some r)).keyType = .noKey := fun r =>
      (X.WD.changeRole X.D.init (some r) X.WD.init).2.2.trans X.WD.initKey
    exact {
      inv := h.inv
      reqs := h.reqs
      action := hf.action
      named := ⟨name, by rw [hf.sym]; exact h3, by rw [hf.sym]; exact h4⟩
      tokens := ⟨t, fl, by rw [hf.sym]; exact h1, h2, hf.tokens, by rw [hf.role]; exact hf.pres⟩
      possible := ⟨t, fl, by rw [hf.sym]; exact h1, h2, by rw [hf.reqs]⟩
      psk := fun _ => hf.psk
      ls := fun d hd => by rw [hf.ls d hd]; exact setRole_reach _
      rs := fun d hd => by rw [hf.rs d hd]; exact setRole_reach _
      le := fun d hd => by rw [hf.le d hd]; exact hk _
      re := fun d hd => by rw [hf.re d hd]; exact hk _
      reReach := fun d hd => by rw [hf.re d hd]; exact setRole_reach _
      lh := fun d hd => by rw [hf.lh d hd]; exact X.WG.initKey
      rh := fun d hd => by rw [hf.rh d hd]; exact X.WG.initKey }
  cases h with
  | byId ctx0 stack id role _ h =>
    unfold HS.newById SymState.newById at h
    obtain ⟨e, mem, hn, _⟩ := C29_formatting_stays_inside stack id
    rw [hn] at h
    simp only [Out.bind_ok] at h
    by_cases he : e = .none
    · subst he
      rw [if_neg (by simp)] at h
      obtain ⟨sym, h1, h2, h3, h4, h5⟩ := HS.symNew_ok X.S ctx0 (mem.takeWhile (· ≠ 0)) id
      simp only [Out.pure_eq, Out.bind_ok, h1] at h
      obtain ⟨r, k1, k2⟩ := HS.new_spec (X := X) sym role
      rw [h] at k1; cases k1
      obtain ⟨t, fl, j1, j2, j3⟩ := k2 s rfl
      rw [j3.sym, h2] at hr
      exact key sym role t fl _ j3 j1 j2 (by rw [h2]; exact C27_id_to_name_to_id _ _ _ hr hn) h5
    · rw [if_pos he] at h; cases h
  | byName ctx0 name role _ h =>
    unfold HS.newByName SymState.newByName at h
    dsimp only at h
    by_cases he : (protocolNameToId name).1 = .none
    · rw [if_neg (by simp [he])] at h
      obtain ⟨sym, h1, h2, h3, h4, h5⟩ := HS.symNew_ok X.S ctx0 name (protocolNameToId name).2
      rw [h1] at h
      obtain ⟨r, k1, k2⟩ := HS.new_spec (X := X) sym role
      dsimp only at h
      rw [h] at k1; cases k1
      obtain ⟨t, fl, j1, j2, j3⟩ := k2 s rfl
      exact key sym role t fl name j3 j1 j2 (by rw [h2, ← he]) h5
    · rw [if_pos he] at h; cases h

theorem onDH_reach {D : DHBackend} {o o' : Option (DHState D.Ext)} {op : DHOp D} {e : Err}
    (ha : op.ArgsOk (DHReach D)) (h : ∀ d, o = some d → DHReach D d)
    (hs : HOp.onDH o op = .ok (e, o')) : (∀ d, o' = some d → DHReach D d) ∧ o'.isSome = o.isSome := by
  cases o with
  | none => cases hs; exact ⟨(fun d hd => by cases hd), rfl⟩
  | some d =>
    simp only [HOp.onDH, Out.bind_eq_ok] at hs
    obtain ⟨⟨e1, d1⟩, h1, h2⟩ := hs
    cases h2
    refine ⟨fun d' hd' => ?_, rfl⟩
    cases hd'
    exact DHReach.step ha (h d rfl) h1

theorem getFixedE_shape (s : X.H) : s.getFixedE.1 = s ∨ ∃ f, s.getFixedE.1 = { s with fe := some f } := by
  unfold HS.getFixedE
  repeat' split
  all_goals first | exact .inl rfl | exact .inr ⟨_, rfl⟩

theorem getFixedH_shape (s : X.H) : s.getFixedH.1 = s ∨ ∃ f, s.getFixedH.1 = { s with fh := some f } := by
  unfold HS.getFixedH
  repeat' split
  all_goals first | exact .inl rfl | exact .inr ⟨_, rfl⟩

/-- Set-up calls keep an object idle. -/
theorem Idle.step {s s' : X.H} (h : Idle X s) {op : HOp X.D X.G} {o : HObs} (ha : op.ArgsReach X)
    (hst : op.step X.S.CB s = .ok (o, s')) (hn : s'.action = .none) : Idle X s' := by
  obtain ⟨o1, q1, k1, hinv, _⟩ := HOp.step_ok h.inv op ha.ok
  rw [hst] at k1; cases k1
  have hreq := reqs_step h.inv h.reqs hst
  have hkeep := lifecycle_step h.inv hst
  cases op with
  | setPsk k =>
    cases hst
    unfold HS.setPsk at hinv hreq ⊢
    split
    · exact h
    split
    · exact h
    split
    · exact h
    next h1 h2 h3 =>
    have h2 : s.sym.id.prefixId = prefixPsk := by simpa using h2
    rw [if_neg h1, if_neg (by simp [h2]), if_neg h3] at hinv hreq
    exact { h with inv := hinv, reqs := hreq, psk := fun h' => absurd h2 h' }
  | setPrologue p =>
    cases hst
    unfold HS.setPrologue at hinv hreq ⊢
    split
    · exact h
    next h1 =>
    rw [if_neg h1] at hinv hreq
    exact { h with inv := hinv, reqs := hreq }
  | localStatic op =>
    simp only [HOp.step, Out.bind_eq_ok] at hst
    obtain ⟨r, h1, h2⟩ := hst
    cases h2
    obtain ⟨h3, h4⟩ := onDH_reach ha h.ls h1
    refine { h with inv := hinv, reqs := hreq, tokens := ?_, ls := h3 }
    obtain ⟨t, fl, t1, t2, t3, t4⟩ := h.tokens
    exact ⟨t, fl, t1, t2, t3, by rw [← t4]; simp [HS.pres, h4]⟩
  | remoteStatic op =>
    simp only [HOp.step, Out.bind_eq_ok] at hst
    obtain ⟨r, h1, h2⟩ := hst
    cases h2
    obtain ⟨h3, h4⟩ := onDH_reach ha h.rs h1
    refine { h with inv := hinv, reqs := hreq, tokens := ?_, rs := h3 }
    obtain ⟨t, fl, t1, t2, t3, t4⟩ := h.tokens
    exact ⟨t, fl, t1, t2, t3, by rw [← t4]; simp [HS.pres, h4]⟩
  | getFixedE =>
    cases hst
    rcases getFixedE_shape s with hx | ⟨f, hx⟩
    · rw [hx]; exact h
    · rw [hx] at hinv hreq ⊢
      exact { h with inv := hinv, reqs := hreq }
  | getFixedH =>
    cases hst
    rcases getFixedH_shape s with hx | ⟨f, hx⟩
    · rw [hx]; exact h
    · rw [hx] at hinv hreq ⊢
      exact { h with inv := hinv, reqs := hreq }
  | fixedE op =>
    simp only [HOp.step, Out.bind_eq_ok] at hst
    obtain ⟨r, h1, h2⟩ := hst
    cases h2
    exact { h with inv := hinv, reqs := hreq }
  | fixedH op =>
    simp only [HOp.step, Out.bind_eq_ok] at hst
    obtain ⟨r, h1, h2⟩ := hst
    cases h2
    exact { h with inv := hinv, reqs := hreq }
  | start =>
    obtain ⟨e, s1, h1, _, h3, h4⟩ := HS.start_ok h.inv
    simp only [HOp.step, h1, Out.bind_ok, Out.pure_eq, Out.ok.injEq, Prod.mk.injEq] at hst
    obtain ⟨rfl, rfl⟩ := hst
    by_cases he : e = .none
    · have := (h4 he).2.2.2
      rw [hn] at this
      cases hr : s.role <;> rw [hr] at this <;> cases this
    · rw [h3 he]; exact h
  | fallbackTo p st =>
    obtain ⟨e, s1, h1, _, h3, h4⟩ := HS.fallbackTo_ok h.inv p st
    simp only [HOp.step, h1, Out.bind_ok, Out.pure_eq, Out.ok.injEq, Prod.mk.injEq] at hst
    obtain ⟨rfl, rfl⟩ := hst
    by_cases he : e = .none
    · have := fallbackAllowed_action (h4 he).allowed
      simp [h.action] at this
    · rw [h3 he]; exact h
  | write rnd junk mem pl =>
    simp only [HOp.step, (C11_wrong_state_inert X s rnd junk mem pl ⟨[], 0⟩ true true true).1
      (by simp [h.action]), Out.bind_ok, Out.pure_eq, Out.ok.injEq, Prod.mk.injEq] at hst
    rw [← hst.2]; exact h
  | read junk msg pl =>
    by_cases hm : msg.size ≤ msg.maxSize
    · simp only [HOp.step, (C11_wrong_state_inert X s junk junk [] pl msg true true true).2.1
        (by simp [h.action]) hm, Out.bind_ok, Out.pure_eq, Out.ok.injEq, Prod.mk.injEq] at hst
      rw [← hst.2]; exact h
    · obtain ⟨e, q, b, p, h1, _, _, _, _, h2, _⟩ := HS.readMessage_ok h.inv junk msg pl
      simp only [HOp.step, h1, Out.bind_ok, Out.pure_eq, Out.ok.injEq, Prod.mk.injEq] at hst
      rw [← hst.2, (h2 (by omega)).2]; exact h
  | split a b c =>
    have : s.split X.S.CB a b c = .ok ((if !a && !b then .invalidParam else .invalidState), s, none, none) := by
      unfold HS.split
      split
      · rfl
      · rw [if_pos (by simp [h.action])]
    simp only [HOp.step, this, Out.bind_ok, Out.pure_eq, Out.ok.injEq, Prod.mk.injEq] at hst
    rw [← hst.2]; exact h
  | getHash n =>
    simp only [HOp.step, Out.bind_eq_ok] at hst
    obtain ⟨r, _, h2⟩ := hst; cases h2; exact h

/-- An object that is not started (and was not put back by a fallback) is still idle. -/
theorem Idle.run : ∀ (ops : List (HOp X.D X.G)) {s s' : X.H} {os : List HObs}, s.Inv X →
    (s.action = .none → Idle X s) → (∀ op ∈ ops, op.ArgsReach X) →
    HOp.run X.S.CB s ops = .ok (os, s') → (ops.zip os).any isFallback = false →
    s'.action = .none → Idle X s' := by
  intro ops
  induction ops with
  | nil => intro s s' os _ h _ hr _ hn; cases hr; exact h hn
  | cons op ops ih =>
    intro s s' os hi h ha hr hf hn
    simp only [HOp.run, Out.bind_eq_ok] at hr
    obtain ⟨⟨o, s1⟩, hstep, ⟨os1, s2⟩, hrun, hx⟩ := hr
    cases hx
    simp only [List.zip_cons_cons, List.any_cons, Bool.or_eq_false_iff] at hf
    obtain ⟨o', s1', hs1, hi1, _⟩ := HOp.step_ok hi op (ha op (by simp)).ok
    rw [hstep] at hs1; cases hs1
    refine ih hi1 (fun hn1 => ?_) (fun q hq => ha q (by simp [hq])) hrun hf.2 hn
    by_cases hs : s.action = .none
    · exact (h hs).step (ha op (by simp)) hstep hn1
    · exfalso
      have hl := lifecycle_step hi hstep
      rw [hn1] at hl
      cases op with
      | fallbackTo p st =>
        rcases hl with hl | hl
        · simp [isFallback, hl.1] at hf
        · exact hs hl.2.symm
      | start =>
        rcases hl with hl | hl
        · exact hs hl.2.1
        · exact hs hl.2.symm
      | write rnd junk mem pl =>
        rcases hl with hl | hl | hl
        · exact hs hl.2.2.symm
        · rcases hl.2.2 with h | h <;> cases h
        · cases hl.2.2
      | read junk msg pl =>
        rcases hl with hl | hl | hl | hl
        · exact hs hl.2.2.symm
        · exact hs hl.2.2.symm
        · rcases hl.2.2 with h | h <;> cases h
        · cases hl.2.2
      | split a b c =>
        rcases hl with hl | hl
        · cases hl.2.2
        · exact hs hl.2.symm
      | setPsk k => exact hs hl.1.symm
      | setPrologue k => exact hs hl.1.symm
      | getHash k => exact hs hl.1.symm
      | localStatic k => exact hs hl.symm
      | remoteStatic k => exact hs hl.symm
      | getFixedE => exact hs hl.symm
      | getFixedH => exact hs hl.symm
      | fixedE k => exact hs hl.symm
      | fixedH k => exact hs hl.symm

end Noise
