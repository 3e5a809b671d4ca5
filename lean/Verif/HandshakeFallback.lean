import Verif.HandshakeTrail
/-!
# C19: falling back to another pattern
-/

namespace Noise

open Spec (Tok HSt Res)

/-! ## The specification's first message -/

namespace Spec.HSt
variable {P Q : DH} {C : Crypto}

/-- What sending a token does to the ephemeral key variables. -/
theorem writeTok_keys {ge : Option Bytes → P.KP} {gf : Option Bytes → Q.KP} {t : Tok}
    {st st' : HSt P Q} {a : Bytes} (h : writeTok C ge gf t st = .ok (st', a)) :
    (t = .e → st'.e.isSome = true) ∧ (st.e.isSome = true → st'.e.isSome = true) ∧ st'.rf = st.rf ∧
    (st'.f = st.f ∨ st'.f = some (gf st.rf)) := by
  have dh : ∀ t, (match dhTok C t st with
      | .ok st' => Res.ok (st', ([] : Bytes))
      | .fail => .fail
      | .stuck => .stuck) = .ok (st', a) →
      (st.e.isSome = true → st'.e.isSome = true) ∧ st'.rf = st.rf ∧
      (st'.f = st.f ∨ st'.f = some (gf st.rf)) := by
    intro t h
    unfold dhTok at h
    cases hd : dhSym C t st with
    | ok sym => rw [hd] at h; cases h; exact ⟨id, rfl, .inl rfl⟩
    | fail => rw [hd] at h; cases h
    | stuck => rw [hd] at h; cases h
  cases t with
  | e => cases h; exact ⟨fun _ => rfl, fun _ => rfl, rfl, .inl rfl⟩
  | s =>
    simp only [writeTok] at h
    repeat' split at h
    all_goals first | (cases h; done) | (cases h; exact ⟨by simp, id, rfl, .inl rfl⟩)
  | f =>
    simp only [writeTok] at h
    repeat' split at h
    all_goals first | (cases h; done) | (cases h; exact ⟨by simp, id, rfl, .inr rfl⟩)
  | ee => exact ⟨by simp, dh .ee h⟩
  | es => exact ⟨by simp, dh .es h⟩
  | se => exact ⟨by simp, dh .se h⟩
  | ss => exact ⟨by simp, dh .ss h⟩
  | ff => exact ⟨by simp, dh .ff h⟩

theorem writeToks_keys {ge : Nat → Option Bytes → P.KP} {gf : Nat → Option Bytes → Q.KP} :
    ∀ (ts : List Tok) {st st' : HSt P Q} {a : Bytes}, writeToks C ge gf ts st = .ok (st', a) →
    (.e ∈ ts ∨ st.e.isSome = true → st'.e.isSome = true) ∧ st'.rf = st.rf ∧
    (st'.f = st.f ∨ ∃ n, st'.f = some (gf n st.rf)) := by
  intro ts
  induction ts with
  | nil => intro st st' a h; cases h; exact ⟨by simp, rfl, .inl rfl⟩
  | cons t ts ih =>
    intro st st' a h
    simp only [writeToks] at h
    split at h
    · next st1 a1 h1 =>
      split at h
      · next st2 b h2 =>
        cases h
        obtain ⟨k1, k2, k3, k4⟩ := writeTok_keys h1
        obtain ⟨j1, j2, j3⟩ := ih h2
        refine ⟨fun hx => j1 ?_, by rw [j2, k3], ?_⟩
        · rcases hx with hx | hx
          · rw [List.mem_cons] at hx
            rcases hx with hx | hx
            · exact .inr (k1 hx.symm)
            · exact .inl hx
          · exact .inr (k2 hx)
        · rcases j3 with j3 | ⟨n, j3⟩
          · rcases k4 with k4 | k4
            · exact .inl (j3.trans k4)
            · exact .inr ⟨ts.length, j3.trans k4⟩
          · exact .inr ⟨n, by rw [j3, k3]⟩
      · cases h
      · cases h
    · cases h
    · cases h

theorem writeMessage_keys {ge : Nat → Option Bytes → P.KP} {gf : Nat → Option Bytes → Q.KP}
    {st st' : HSt P Q} {pl hdr ct : Bytes} (h : writeMessage C ge gf st pl = .ok (st', hdr, ct)) :
    (.e ∈ st.msgs.headD [] → st'.e.isSome = true) ∧ st'.rf = st.rf ∧
    (st'.f = st.f ∨ ∃ n, st'.f = some (gf n st.rf)) := by
  unfold writeMessage at h
  split at h
  · cases h
  next m ms hm =>
  split at h
  · next st1 hdr1 h1 =>
    split at h
    · cases h
    · cases h
      obtain ⟨k1, k2, k3⟩ := writeToks_keys m h1
      rw [hm]
      exact ⟨fun hx => k1 (.inl hx), k2, k3⟩
  · cases h
  · cases h

/-- Other tokens leave the ephemeral key pair alone. -/
theorem writeTok_e {ge : Option Bytes → P.KP} {gf : Option Bytes → Q.KP} {t : Tok}
    {st st' : HSt P Q} {a : Bytes} (ht : t ≠ .e) (h : writeTok C ge gf t st = .ok (st', a)) :
    st'.e = st.e := by
  have dh : ∀ t, (match dhTok C t st with
      | .ok st' => Res.ok (st', ([] : Bytes))
      | .fail => .fail
      | .stuck => .stuck) = .ok (st', a) → st'.e = st.e := by
    intro t h
    unfold dhTok at h
    cases hd : dhSym C t st with
    | ok sym => rw [hd] at h; cases h; rfl
    | fail => rw [hd] at h; cases h
    | stuck => rw [hd] at h; cases h
  cases t with
  | e => exact absurd rfl ht
  | s =>
    simp only [writeTok] at h
    repeat' split at h
    all_goals first | (cases h; done) | (cases h; rfl)
  | f =>
    simp only [writeTok] at h
    repeat' split at h
    all_goals first | (cases h; done) | (cases h; rfl)
  | ee => exact dh .ee h
  | es => exact dh .es h
  | se => exact dh .se h
  | ss => exact dh .ss h
  | ff => exact dh .ff h

theorem writeToks_e {ge : Nat → Option Bytes → P.KP} {gf : Nat → Option Bytes → Q.KP} :
    ∀ (ts : List Tok) {st st' : HSt P Q} {a : Bytes}, .e ∉ ts → writeToks C ge gf ts st = .ok (st', a) →
    st'.e = st.e := by
  intro ts
  induction ts with
  | nil => intro st st' a _ h; cases h; rfl
  | cons t ts ih =>
    intro st st' a hn h
    rw [List.mem_cons, not_or] at hn
    simp only [writeToks] at h
    split at h
    · next st1 a1 h1 =>
      split at h
      · next st2 b h2 =>
        cases h
        rw [ih hn.2 h2, writeTok_e (Ne.symm hn.1) h1]
      · cases h
      · cases h
    · cases h
    · cases h

/-- A message that begins with `e` begins with the ephemeral public key. -/
theorem writeMessage_first {ge : Nat → Option Bytes → P.KP} {gf : Nat → Option Bytes → Q.KP}
    {st st' : HSt P Q} {pl hdr ct : Bytes} {m : List Tok} {ms : List (List Tok)}
    (hm : st.msgs = (.e :: m) :: ms) (hn : .e ∉ m)
    (h : writeMessage C ge gf st pl = .ok (st', hdr, ct)) :
    ∃ k b, st'.e = some k ∧ hdr = P.pub k ++ b := by
  unfold writeMessage at h
  rw [hm] at h
  dsimp only at h
  split at h
  · next st1 hdr1 h1 =>
    simp only [writeToks, writeTok] at h1
    split at h1
    · next st2 b h2 =>
      cases h1
      have := writeToks_e m hn h2
      split at h
      · cases h
      · cases h
        exact ⟨_, b, this, rfl⟩
    · cases h1
    · cases h1
  · cases h
  · cases h

end Spec.HSt

/-! ## Table facts -/

/-- The pre-messages of a fallback pattern: the ephemeral key, and the hybrid key if there is one. -/
def fbPattern (p : Spec.Pattern) (hyb : Bool) : Spec.Pattern :=
  { p with preR := if hyb then [.e, .f] else [.e] }

theorem first_e {id : Int} {t : Bytes} {p : Spec.Pattern} (h : patternLookup id = some t)
    (hp : specPattern id = some p) : .e ∈ p.msgs.headD [] := by
  have key : ∀ e ∈ patternTable, (match specPattern e.1 with
      | some p => decide (Tok.e ∈ p.msgs.headD [])
      | none => true) = true := by decide +kernel
  have := key _ (patternLookup_mem h)
  rw [hp] at this
  exact of_decide_eq_true this

theorem patOk_fb {id : Int} {t : Bytes} {p : Spec.Pattern} {fl : PatFlags} (h : patternLookup id = some t)
    (hp : specPattern id = some p) (hf : patternFlags t = .ok fl)
    (he : hasFlag fl flagRemoteEphemReq = true) (hyb : Bool)
    (hh : p.preKey .responder .f = true → hyb = true) :
    PatOk id (fbPattern p hyb) t fl ∧ p.preI = [] ∧ (p.hasKey .responder .s = true) ∧
      (hasFlag fl flagLocalHybrid = p.preKey .responder .f) := by
  have key : ∀ e ∈ patternTable, (match specPattern e.1, patternFlags e.2 with
      | some p, .ok fl => !hasFlag fl flagRemoteEphemReq || [true, false].all fun hyb =>
          (p.preKey .responder .f && !hyb) || (preShape (fbPattern p hyb) fl &&
          ([Role.initiator, .responder].all fun role =>
            hasFlag (HS.roleFlags fl role) flagLocalStatic == (fbPattern p hyb).hasKey role .s &&
            hasFlag (HS.roleFlags fl role) flagLocalRequired == (fbPattern p hyb).preKey role .s &&
            hasFlag (HS.roleFlags fl role) flagRemoteRequired == (fbPattern p hyb).preKey role.flip .s) &&
          decide (fbPattern p hyb).NoRepeat && decide (fbPattern p hyb).KeysAvailable &&
          decide (p.preI = []) && p.hasKey .responder .s &&
          (hasFlag fl flagLocalHybrid == p.preKey .responder .f))
      | _, _ => true) = true := by decide +kernel
  have := key _ (patternLookup_mem h)
  simp only [hp, hf, he, Bool.not_true, Bool.false_or] at this
  have := List.all_eq_true.mp this hyb (by cases hyb <;> simp)
  obtain ⟨p', fl', p1, p2, p3, p4⟩ := C17_tables_are_the_specification h
  rw [hp] at p1; cases p1
  have hnot : (p.preKey .responder .f && !hyb) = false := by
    cases hx : p.preKey .responder .f with
    | false => rfl
    | true => rw [hh hx]; rfl
  rw [hnot] at this
  simp only [Bool.false_or, Bool.and_eq_true, List.all_eq_true, decide_eq_true_eq, beq_iff_eq] at this
  obtain ⟨⟨⟨⟨⟨⟨a1, a2⟩, a3⟩, a4⟩, a5⟩, a6⟩, a7⟩ := this
  refine ⟨⟨a1, fun role => ?_, p2, a3, a4⟩, a5, a6, a7⟩
  have := a2 role (by cases role <;> simp)
  exact ⟨this.1.1, this.1.2, this.2⟩

/-- After a fallback both parties are ready for the first message of the new pattern. -/
theorem ready_fb {id pid : Int} {t t' : Bytes} {p p' : Spec.Pattern} {fl fl' : PatFlags}
    (h : patternLookup id = some t) (hp : specPattern id = some p) (hf : patternFlags t = .ok fl)
    (h' : patternLookup pid = some t') (hp' : specPattern pid = some p') (hf' : patternFlags t' = .ok fl')
    (hr : hasFlag fl flagRemoteRequired = true) (he : hasFlag fl' flagRemoteEphemReq = true)
    (hl : hasFlag fl flagLocalStatic = true) (hm : 2 ≤ p.msgs.length)
    (hh : p'.preKey .responder .f = true → hasFlag fl flagLocalHybrid = true) (role : Role) :
    HS.ready (HS.presOf (HS.roleFlags fl role)) role.flip (role.flip == .initiator) (t'.drop 2) = true := by
  have key : ∀ e ∈ patternTable, ∀ e' ∈ patternTable,
      (match specPattern e.1, patternFlags e.2, specPattern e'.1, patternFlags e'.2 with
      | some p, .ok fl, some p', .ok fl' =>
        !hasFlag fl flagRemoteRequired || !hasFlag fl' flagRemoteEphemReq || !hasFlag fl flagLocalStatic ||
        !decide (2 ≤ p.msgs.length) || (p'.preKey .responder .f && !hasFlag fl flagLocalHybrid) ||
        [Role.initiator, .responder].all fun role =>
          HS.ready (HS.presOf (HS.roleFlags fl role)) role.flip (role.flip == .initiator) (e'.2.drop 2)
      | _, _, _, _ => true) = true := by decide +kernel
  have := key _ (patternLookup_mem h) _ (patternLookup_mem h')
  simp only [hp, hf, hp', hf', hr, he, hl, hm, decide_true, Bool.not_true, Bool.false_or] at this
  have hnot : (p'.preKey .responder .f && !hasFlag fl flagLocalHybrid) = false := by
    cases hx : p'.preKey .responder .f with
    | false => rfl
    | true => rw [hh hx]; rfl
  rw [hnot, Bool.false_or, List.all_eq_true] at this
  exact this role (by cases role <;> simp)

/-- Hybrid objects come in pairs, on both sides. -/
theorem hybrid_pairs {id : Int} {t : Bytes} {fl : PatFlags} (h : patternLookup id = some t)
    (hf : patternFlags t = .ok fl) (role : Role) :
    (HS.presOf (HS.roleFlags fl role)).lh = hasFlag fl flagLocalHybrid ∧
    (hasFlag fl flagRemoteRequired = true → 
      (HS.presOf (HS.roleFlags fl role)).rh = hasFlag fl flagLocalHybrid) := by
  have key : ∀ e ∈ patternTable, (match patternFlags e.2 with
      | .ok fl => [Role.initiator, .responder].all fun role =>
        ((HS.presOf (HS.roleFlags fl role)).lh == hasFlag fl flagLocalHybrid) &&
        (!hasFlag fl flagRemoteRequired ||
          (HS.presOf (HS.roleFlags fl role)).rh == hasFlag fl flagLocalHybrid)
      | _ => true) = true := by decide +kernel
  have := key _ (patternLookup_mem h)
  simp only [hf, List.all_eq_true] at this
  have := this role (by cases role <;> simp)
  simp only [Bool.and_eq_true, beq_iff_eq, Bool.or_eq_true, Bool.not_eq_true'] at this
  exact ⟨this.1, fun hr => this.2.resolve_left (by simp [hr])⟩

/-- Fallback patterns cannot be fallen back from. -/
theorem no_second {id : Int} {t : Bytes} {p : Spec.Pattern} {fl : PatFlags} (h : patternLookup id = some t)
    (hp : specPattern id = some p) (hf : patternFlags t = .ok fl)
    (hr : hasFlag fl flagRemoteRequired = true) : p.preKey .responder .e = false := by
  have key : ∀ e ∈ patternTable, (match specPattern e.1, patternFlags e.2 with
      | some p, .ok fl => !hasFlag fl flagRemoteRequired || !p.preKey .responder .e
      | _, _ => true) = true := by decide +kernel
  have := key _ (patternLookup_mem h)
  simp only [hp, hf, hr, Bool.not_true, Bool.false_or, Bool.not_eq_true'] at this
  exact this

end Noise
