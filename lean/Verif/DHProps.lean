import Verif.DH
import Verif.UtilProps
/-!
# Properties of the DHState layer (C24, C25)
-/

namespace Noise

/-- What the generic layer relies on from a Diffie-Hellman back end: an invariant `Inv` on objects,
kept by every entry point, which never touches memory outside the key arrays. `L role` is the
length of the public key for a role. Proved for the reference back ends below. Not a definition of
the code base. -/
structure DHBackend.Lawful (D : DHBackend) (Inv : DHState D.Ext → Prop)
    (L : Option Role → Nat) : Prop where
  init : Inv D.init
  initKey : D.init.keyType = .noKey
  lens : ∀ s, Inv s → s.privLen ≤ s.priv.length ∧ s.pubLen ≤ s.pub.length
  pubLen : ∀ s, Inv s → s.pubLen = L s.role
  mem : ∀ s p q k, Inv s → p.length = s.priv.length → q.length = s.pub.length →
    Inv { s with priv := p, pub := q, keyType := k }
  generate : ∀ rnd s other, Inv s → (∀ o, other = some o → Inv o) →
    ∃ e s', D.generate rnd s other = .ok (e, s') ∧ Inv s' ∧ s'.role = s.role ∧
      s'.keyType = s.keyType
  setKeypair : ∀ s a b, Inv s → a.length = s.privLen → b.length = s.pubLen →
    ∃ e s', D.setKeypair s a b = .ok (e, s') ∧ Inv s' ∧ s'.role = s.role
  setKeypairPrivate : ∀ s a, Inv s → a.length = s.privLen →
    ∃ e s', D.setKeypairPrivate s a = .ok (e, s') ∧ Inv s' ∧ s'.role = s.role
  copy : ∀ s src other, Inv s → Inv src → (∀ o, other = some o → Inv o) →
    ∃ e s', D.copy s src other = .ok (e, s') ∧ Inv s' ∧ s'.role = s.role ∧
      s'.keyType = s.keyType
  calculate : ∀ p q, Inv p → Inv q →
    ∃ e sh p', D.calculate p q = .ok (e, sh, p') ∧ sh.length = D.sharedLen ∧ Inv p' ∧
      p'.role = p.role ∧ p'.keyType = p.keyType
  changeRole : ∀ s r, Inv s → Inv (D.changeRole { s with role := r }) ∧
    (D.changeRole { s with role := r }).role = r ∧
    (D.changeRole { s with role := r }).keyType = s.keyType

/-- The public key an object holds: the first `public_key_len` bytes of the array. Not a definition
of the code base. -/
def DHState.pubKey {X : Type} (s : DHState X) : Bytes := s.pub.take s.pubLen

/-- All bytes are zero. Not a definition of the code base. -/
def AllZero (b : Bytes) : Prop := ∀ x ∈ b, x = 0

instance (b : Bytes) : Decidable (AllZero b) := inferInstanceAs (Decidable (∀ x ∈ b, x = 0))

theorem store_zero_len (d : Bytes) (n : Nat) (h : n ≤ d.length) :
    store d 0 (List.replicate n 0) = .ok (List.replicate n 0 ++ d.drop n) := by
  rw [store_ok (by simpa using h)]; simp

theorem store_at_zero (d s : Bytes) (h : s.length ≤ d.length) :
    store d 0 s = .ok (s ++ d.drop s.length) := by
  rw [store_ok (by simpa using h)]; simp

theorem store_full (d s : Bytes) (h : s.length = d.length) : store d 0 s = .ok s := by
  rw [store_at_zero d s (by omega)]; simp [h]

theorem load_full (d : Bytes) (n : Nat) (h : n = d.length) : load d 0 n = .ok d := by
  subst h; rw [load_ok (by omega)]; simp

section generic
variable {D : DHBackend} {Inv : DHState D.Ext → Prop} {L : Option Role → Nat}

/-- Objects passed as the second argument satisfy the invariant. Not a definition of the code
base. -/
def DHArg.Ok (Inv : DHState D.Ext → Prop) : DHArg D → Prop
  | .same s => Inv s
  | .foreign => True

theorem nullKey_eq (b : Bytes) (n : Nat) (h : n ≤ b.length) :
    D.nullKey b n = .ok (if D.nullsAllowed = true ∧ AllZero (b.take n) then 1 else 0) := by
  unfold DHBackend.nullKey
  rw [C37_is_zero_correct b n h]
  simp only [Out.bind_ok, Out.pure_eq]
  by_cases hz : AllZero (b.take n)
  · have hz' : ∀ x ∈ b.take n, x = 0 := hz
    rw [if_pos hz']
    cases D.nullsAllowed <;> simp [hz]
  · have hz' : ¬ ∀ x ∈ b.take n, x = 0 := hz
    rw [if_neg hz']
    cases D.nullsAllowed <;> simp [hz]

theorem clearKey_eq (W : D.Lawful Inv L) (s : DHState D.Ext) (h : Inv s) :
    ∃ s', D.clearKey s = .ok s' ∧ Inv s' ∧ s'.role = s.role ∧ s'.keyType = .noKey ∧
      s'.pubLen = s.pubLen ∧ s'.privLen = s.privLen ∧ AllZero s'.pubKey ∧
      AllZero (s'.priv.take s'.privLen) ∧ s'.ext = s.ext := by
  obtain ⟨h1, h2⟩ := W.lens s h
  refine ⟨{ s with
      pub := List.replicate s.pubLen 0 ++ s.pub.drop s.pubLen,
      priv := List.replicate s.privLen 0 ++ s.priv.drop s.privLen,
      keyType := .noKey }, ?_, ?_, rfl, rfl, rfl, rfl, ?_, ?_, rfl⟩
  · unfold DHBackend.clearKey
    rw [store_zero_len _ _ h2, store_zero_len _ _ h1]
    rfl
  · exact W.mem s _ _ _ h (by simp; omega) (by simp; omega)
  · intro x hx
    simp only [DHState.pubKey, List.take_append] at hx
    simp at hx
    exact hx.2
  · intro x hx
    simp only [List.take_append] at hx
    simp at hx
    exact hx.2

theorem setPublicKey_eq (W : D.Lawful Inv L) (s : DHState D.Ext) (h : Inv s) (pub : Bytes) :
    ∃ e s', D.setPublicKey s pub = .ok (e, s') ∧ Inv s' ∧ s'.role = s.role ∧
      (pub.length ≠ s.pubLen → e = .invalidLength) ∧
      (pub.length = s.pubLen → (D.validate s pub = .none ∨ (D.nullsAllowed = true ∧ AllZero pub)) →
        e = .none) ∧
      (e ≠ .none → s' = s) ∧
      (e = .none → pub.length = s.pubLen ∧ s'.keyType = .pubOnly ∧ s'.pubKey = pub ∧
        AllZero (s'.priv.take s'.privLen)) := by
  obtain ⟨h1, h2⟩ := W.lens s h
  unfold DHBackend.setPublicKey
  by_cases hl : pub.length ≠ s.pubLen
  · refine ⟨.invalidLength, s, by rw [if_pos hl], h, rfl, fun _ => rfl, fun h' => absurd h' hl,
      fun _ => rfl, fun h' => by cases h'⟩
  · have hl' : pub.length = s.pubLen := by omega
    rw [if_neg hl, nullKey_eq _ _ (Nat.le_refl _)]
    simp only [Out.bind_ok, List.take_length]
    by_cases hn : D.nullsAllowed = true ∧ AllZero pub
    · rw [if_pos hn]
      rw [store_zero_len _ _ h1, store_at_zero _ _ (by omega)]
      refine ⟨_, _, rfl, ?_, rfl, fun h' => absurd hl' h', fun _ _ => rfl, fun h' => absurd rfl h',
        fun _ => ⟨hl', rfl, ?_, ?_⟩⟩
      · exact W.mem s _ _ _ h (by simp; omega) (by simp; omega)
      · simp [DHState.pubKey, ← hl']
      · intro x hx
        simp only [List.take_append] at hx
        simp at hx
        exact hx.2
    · rw [if_neg hn]
      simp only [Nat.zero_ne_one, if_false]
      by_cases hv : D.validate s pub ≠ .none
      · rw [if_pos hv]
        exact ⟨_, _, rfl, h, rfl, fun h' => absurd hl' h', fun _ h' => h'.elim id (fun x => absurd x hn),
          fun _ => rfl, fun h' => absurd h' hv⟩
      · rw [if_neg hv, store_zero_len _ _ h1, store_at_zero _ _ (by omega)]
        refine ⟨_, _, rfl, ?_, rfl, fun h' => absurd hl' h', fun _ _ => rfl, fun h' => absurd rfl h',
          fun _ => ⟨hl', rfl, ?_, ?_⟩⟩
        · exact W.mem s _ _ _ h (by simp; omega) (by simp; omega)
        · simp [DHState.pubKey, ← hl']
        · intro x hx
          simp only [List.take_append] at hx
          simp at hx
          exact hx.2

theorem isNullPublicKey_eq (W : D.Lawful Inv L) (s : DHState D.Ext) (h : Inv s) :
    D.isNullPublicKey s =
      .ok (decide (s.keyType ≠ .noKey ∧ D.nullsAllowed = true ∧ AllZero s.pubKey)) := by
  obtain ⟨h1, h2⟩ := W.lens s h
  unfold DHBackend.isNullPublicKey
  by_cases hk : s.keyType = .noKey
  · simp [hk]
  · rw [if_pos hk, nullKey_eq _ _ h2]
    simp only [Out.bind_ok, Out.pure_eq, DHState.pubKey]
    by_cases hn : D.nullsAllowed = true ∧ AllZero (List.take s.pubLen s.pub)
    · simp [hn, hk]
    · rw [if_neg hn]; simp only [Out.ok.injEq]
      exact (decide_eq_false (fun h => hn h.2)).symm

theorem finishSet_eq (W : D.Lawful Inv L) (e : Err) (s : DHState D.Ext) (h : Inv s) :
    ∃ s', D.finishSet (.ok (e, s)) = .ok (e, s') ∧ Inv s' ∧ s'.role = s.role ∧
      (e = .none → s' = { s with keyType := .keypair }) ∧
      (e ≠ .none → s'.keyType = .noKey ∧ AllZero s'.pubKey ∧ AllZero (s'.priv.take s'.privLen)) := by
  unfold DHBackend.finishSet
  simp only [Out.bind_ok]
  by_cases he : e = .none
  · subst he
    refine ⟨_, rfl, W.mem s _ _ _ h rfl rfl, rfl, fun _ => rfl, fun h' => absurd rfl h'⟩
  · obtain ⟨s', h1, h2, h3, h4, h5, h6, h7, h8, _⟩ := clearKey_eq W s h
    rw [if_pos he, h1]
    exact ⟨s', rfl, h2, h3, fun h' => absurd h' he, fun _ => ⟨h4, h7, h8⟩⟩

theorem generateDependent_eq (W : D.Lawful Inv L) (rnd : Nat → UInt8) (s : DHState D.Ext) (h : Inv s)
    (other : Option (DHArg D)) (ho : ∀ o, other = some o → o.Ok Inv) :
    ∃ e s', D.generateDependent rnd s other = .ok (e, s') ∧ Inv s' ∧ s'.role = s.role ∧
      (e = .none → s'.keyType = .keypair) := by
  have key : ∀ o : Option (DHState D.Ext), (∀ x, o = some x → Inv x) →
      ∃ e s', DHBackend.generateDependent.finish D (D.generate rnd s o) = .ok (e, s') ∧ Inv s' ∧
        s'.role = s.role ∧ (e = .none → s'.keyType = .keypair) := by
    intro o hoo
    obtain ⟨e, s', h1, h2, h3, h4⟩ := W.generate rnd s o h hoo
    unfold DHBackend.generateDependent.finish
    rw [h1]
    simp only [Out.bind_ok]
    by_cases he : e = .none
    · rw [if_pos he]
      exact ⟨_, _, rfl, W.mem s' _ _ _ h2 rfl rfl, h3, fun _ => rfl⟩
    · rw [if_neg he]
      exact ⟨_, _, rfl, h2, h3, fun h' => absurd h' he⟩
  match other with
  | none => exact key none (by intro x hx; cases hx)
  | some .foreign => exact ⟨_, _, rfl, h, rfl, fun h' => by cases h'⟩
  | some (.same o) => exact key (some o) (by intro x hx; cases hx; exact ho _ rfl)

theorem calculateApi_eq (W : D.Lawful Inv L) (p : DHState D.Ext) (hp : Inv p) (q : DHArg D)
    (hq : q.Ok Inv) (shared : Bytes) :
    ∃ e sh p', D.calculateApi p q shared = .ok (e, sh, p') ∧ sh.length = shared.length ∧ Inv p' ∧
      p'.role = p.role ∧ p'.keyType = p.keyType := by
  match q with
  | .foreign => exact ⟨_, _, _, rfl, rfl, hp, rfl, rfl⟩
  | .same q =>
    unfold DHBackend.calculateApi
    dsimp only
    by_cases h1 : shared.length ≠ D.sharedLen
    · rw [if_pos h1]; exact ⟨_, _, _, rfl, rfl, hp, rfl, rfl⟩
    · rw [if_neg h1]
      by_cases h2 : p.keyType ≠ .keypair
      · rw [if_pos h2]; exact ⟨_, _, _, rfl, rfl, hp, rfl, rfl⟩
      · rw [if_neg h2]
        obtain ⟨e, sh, p', h3, h4, h5, h6, h7⟩ := W.calculate p q hp hq
        rw [nullKey_eq _ _ (W.lens q hq).2, h3]
        simp only [Out.bind_ok]
        refine ⟨_, _, _, rfl, ?_, h5, h6, h7⟩
        simp [DHBackend.cmoveZero, h4]; omega

theorem copyApi_eq (W : D.Lawful Inv L) (s : DHState D.Ext) (h : Inv s) (src : DHArg D)
    (ho : src.Ok Inv) :
    ∃ e s', D.copyApi s src = .ok (e, s') ∧ Inv s' ∧ s'.role = s.role := by
  match src with
  | .foreign => exact ⟨_, _, rfl, h, rfl⟩
  | .same src =>
    obtain ⟨e, s', h1, h2, h3, _⟩ := W.copy s src none h ho (by intro o ho; cases ho)
    unfold DHBackend.copyApi
    simp only [h1, Out.bind_ok]
    by_cases he : e ≠ .none
    · rw [if_pos he]; exact ⟨_, _, rfl, h2, h3⟩
    · rw [if_neg he]; exact ⟨_, _, rfl, W.mem s' _ _ _ h2 rfl rfl, h3⟩

theorem setKeypairApi_eq (W : D.Lawful Inv L) (s : DHState D.Ext) (h : Inv s) (a b : Bytes) :
    ∃ e s', D.setKeypairApi s a b = .ok (e, s') ∧ Inv s' ∧ s'.role = s.role ∧
      (e = .none → s'.keyType = .keypair) ∧
      (e ≠ .none → s' = s ∨ (s'.keyType = .noKey ∧ AllZero s'.pubKey ∧
        AllZero (s'.priv.take s'.privLen))) := by
  unfold DHBackend.setKeypairApi
  by_cases h1 : a.length ≠ s.privLen
  · rw [if_pos h1]; exact ⟨_, _, rfl, h, rfl, (fun h' => by cases h'), fun _ => .inl rfl⟩
  · rw [if_neg h1]
    by_cases h2 : b.length ≠ s.pubLen
    · rw [if_pos h2]; exact ⟨_, _, rfl, h, rfl, (fun h' => by cases h'), fun _ => .inl rfl⟩
    · rw [if_neg h2]
      obtain ⟨e, s', h3, h4, h5⟩ := W.setKeypair s a b h (by omega) (by omega)
      obtain ⟨s'', h6, h7, h8, h9, h10⟩ := finishSet_eq W e s' h4
      rw [h3, h6]
      exact ⟨_, _, rfl, h7, h8.trans h5, (fun h' => by rw [h9 h']), fun h' => .inr (h10 h')⟩

theorem setKeypairPrivateApi_eq (W : D.Lawful Inv L) (s : DHState D.Ext) (h : Inv s) (a : Bytes) :
    ∃ e s', D.setKeypairPrivateApi s a = .ok (e, s') ∧ Inv s' ∧ s'.role = s.role ∧
      (e = .none → s'.keyType = .keypair) ∧
      (e ≠ .none → s' = s ∨ (s'.keyType = .noKey ∧ AllZero s'.pubKey ∧
        AllZero (s'.priv.take s'.privLen))) := by
  unfold DHBackend.setKeypairPrivateApi
  by_cases h1 : a.length ≠ s.privLen
  · rw [if_pos h1]; exact ⟨_, _, rfl, h, rfl, (fun h' => by cases h'), fun _ => .inl rfl⟩
  · rw [if_neg h1]
    obtain ⟨e, s', h3, h4, h5⟩ := W.setKeypairPrivate s a h (by omega)
    obtain ⟨s'', h6, h7, h8, h9, h10⟩ := finishSet_eq W e s' h4
    rw [h3, h6]
    exact ⟨_, _, rfl, h7, h8.trans h5, (fun h' => by rw [h9 h']), fun h' => .inr (h10 h')⟩

theorem setNullPublicKey_eq (W : D.Lawful Inv L) (s : DHState D.Ext) (h : Inv s) :
    ∃ e s', D.setNullPublicKey s = .ok (e, s') ∧ Inv s' ∧ s'.role = s.role := by
  obtain ⟨h1, h2⟩ := W.lens s h
  unfold DHBackend.setNullPublicKey
  by_cases hn : D.nullsAllowed
  · rw [if_neg (by simp [hn]), store_zero_len _ _ h2, store_zero_len _ _ h1]
    exact ⟨_, _, rfl, W.mem s _ _ _ h (by simp; omega) (by simp; omega), rfl⟩
  · rw [if_pos (by simpa using hn)]
    exact ⟨_, _, rfl, h, rfl⟩

/-- Objects handed to a call satisfy the invariant. Not a definition of the code base. -/
def DHOp.ArgsOk (Inv : DHState D.Ext → Prop) : DHOp D → Prop
  | .generate _ (some o) => o.Ok Inv
  | .copy src => src.Ok Inv
  | .calcWith q _ => q.Ok Inv
  | _ => True

/-- No DHState call accesses memory outside the key arrays, and each keeps the invariant. -/
theorem dhop_step_ok (W : D.Lawful Inv L) (s : DHState D.Ext) (h : Inv s) (op : DHOp D)
    (ha : op.ArgsOk Inv) : ∃ e s', op.step s = .ok (e, s') ∧ Inv s' := by
  cases op with
  | generate rnd other =>
    obtain ⟨e, s', h1, h2, _⟩ := generateDependent_eq W rnd s h other
      (by intro o ho; subst ho; exact ha)
    exact ⟨e, s', h1, h2⟩
  | setKeypair a b => obtain ⟨e, s', h1, h2, _⟩ := setKeypairApi_eq W s h a b; exact ⟨e, s', h1, h2⟩
  | setKeypairPrivate a =>
    obtain ⟨e, s', h1, h2, _⟩ := setKeypairPrivateApi_eq W s h a; exact ⟨e, s', h1, h2⟩
  | setPublicKey b => obtain ⟨e, s', h1, h2, _⟩ := setPublicKey_eq W s h b; exact ⟨e, s', h1, h2⟩
  | setNullPublicKey => obtain ⟨e, s', h1, h2, _⟩ := setNullPublicKey_eq W s h; exact ⟨e, s', h1, h2⟩
  | clearKey =>
    obtain ⟨s', h1, h2, _⟩ := clearKey_eq W s h
    exact ⟨.none, s', by simp [DHOp.step, h1], h2⟩
  | copy src => obtain ⟨e, s', h1, h2, _⟩ := copyApi_eq W s h src ha; exact ⟨e, s', h1, h2⟩
  | setRole r => exact ⟨_, _, rfl, (W.changeRole s r h).1⟩
  | calcWith q sh =>
    obtain ⟨e, o, p', h1, _, h2, _⟩ := calculateApi_eq W s h q ha sh
    exact ⟨e, p', by simp [DHOp.step, h1], h2⟩

end generic

/-- Objects of back end `D` that can exist: created and then changed by any number of calls, each
possibly involving other such objects. Not a definition of the code base. -/
inductive DHReach (D : DHBackend) : DHState D.Ext → Prop
  | init : DHReach D D.init
  | generate (rnd s e s') : DHReach D s → (DHOp.generate rnd none).step s = .ok (e, s') → DHReach D s'
  | generateDep (rnd s o e s') : DHReach D s → DHReach D o →
      (DHOp.generate rnd (some (.same o))).step s = .ok (e, s') → DHReach D s'
  | generateForeign (rnd s e s') : DHReach D s →
      (DHOp.generate rnd (some .foreign)).step s = .ok (e, s') → DHReach D s'
  | setKeypair (a b s e s') : DHReach D s → (DHOp.setKeypair a b).step s = .ok (e, s') → DHReach D s'
  | setKeypairPrivate (a s e s') : DHReach D s →
      (DHOp.setKeypairPrivate a).step s = .ok (e, s') → DHReach D s'
  | setPublicKey (b s e s') : DHReach D s → (DHOp.setPublicKey b).step s = .ok (e, s') → DHReach D s'
  | setNullPublicKey (s e s') : DHReach D s → DHOp.setNullPublicKey.step s = .ok (e, s') → DHReach D s'
  | clearKey (s e s') : DHReach D s → DHOp.clearKey.step s = .ok (e, s') → DHReach D s'
  | copy (src s e s') : DHReach D s → DHReach D src →
      (DHOp.copy (.same src)).step s = .ok (e, s') → DHReach D s'
  | copyForeign (s e s') : DHReach D s → (DHOp.copy .foreign).step s = .ok (e, s') → DHReach D s'
  | setRole (r s e s') : DHReach D s → (DHOp.setRole r).step s = .ok (e, s') → DHReach D s'
  | calcWith (q sh s e s') : DHReach D s → DHReach D q →
      (DHOp.calcWith (.same q) sh).step s = .ok (e, s') → DHReach D s'
  | calcForeign (sh s e s') : DHReach D s →
      (DHOp.calcWith .foreign sh).step s = .ok (e, s') → DHReach D s'

/-! ## The curve back ends -/

/-- Output lengths of the curve functions. Not a definition of the code base. -/
structure CurveFns.Sized (F : CurveFns) : Prop where
  eval_len : ∀ a b, (F.eval a b).length = F.len
  clamp_len : ∀ k, k.length = F.len → (F.clamp k).length = F.len

/-- The invariant of curve objects. Not a definition of the code base. -/
def CurveFns.Inv (F : CurveFns) (s : DHState Unit) : Prop :=
  s.privLen = F.len ∧ s.pubLen = F.len ∧ s.priv.length = F.len ∧ s.pub.length = F.len

theorem curve_generate (F : CurveFns) (Z : F.Sized) (rnd : Nat → UInt8) (s : DHState Unit)
    (h : F.Inv s) (o : Option (DHState Unit)) :
    F.generate rnd s o = .ok (.none, { s with
      priv := F.clamp (randBytes rnd F.len),
      pub := F.eval (F.clamp (randBytes rnd F.len)) F.base }) := by
  obtain ⟨h1, h2, h3, h4⟩ := h
  have hc := Z.clamp_len (randBytes rnd F.len) (by simp)
  unfold CurveFns.generate
  rw [store_full _ _ (by omega)]
  simp only [Out.bind_ok]
  rw [load_full _ _ (by omega)]
  simp only [Out.bind_ok]
  rw [store_full _ _ (by rw [Z.eval_len]; omega)]
  rfl

theorem curve_setKeypairPrivate (F : CurveFns) (Z : F.Sized) (s : DHState Unit) (h : F.Inv s)
    (a : Bytes) (ha : a.length = s.privLen) :
    F.setKeypairPrivate s a = .ok (.none, { s with priv := a, pub := F.eval a F.base }) := by
  obtain ⟨h1, h2, h3, h4⟩ := h
  unfold CurveFns.setKeypairPrivate
  rw [store_full _ _ (by omega)]
  simp only [Out.bind_ok]
  rw [load_full _ _ (by omega)]
  simp only [Out.bind_ok]
  rw [store_full _ _ (by rw [Z.eval_len]; omega)]
  rfl

theorem curve_setKeypair (F : CurveFns) (Z : F.Sized) (s : DHState Unit) (h : F.Inv s)
    (a b : Bytes) (ha : a.length = s.privLen) (hb : b.length = s.pubLen) :
    F.setKeypair s a b = .ok (if F.eval a F.base = b then .none else .invalidPublicKey,
      { s with priv := a, pub := b }) := by
  obtain ⟨h1, h2, h3, h4⟩ := h
  unfold CurveFns.setKeypair
  dsimp only
  rw [C37_is_equal_correct _ _ _ (by rw [Z.eval_len]; omega) (by omega)]
  rw [store_full _ _ (by omega), store_full _ _ (by omega)]
  simp only [Out.bind_ok, Out.pure_eq]
  have e1 : (F.eval a F.base).take F.len = F.eval a F.base :=
    List.take_of_length_le (by rw [Z.eval_len]; omega)
  have e2 : b.take F.len = b := List.take_of_length_le (by omega)
  rw [e1, e2]
  by_cases he : F.eval a F.base = b <;> simp [he]

theorem curve_copy (F : CurveFns) (s src : DHState Unit) (h : F.Inv s) (hs : F.Inv src)
    (o : Option (DHState Unit)) :
    F.copy s src o = .ok (.none, { s with priv := src.priv, pub := src.pub }) := by
  obtain ⟨h1, h2, h3, h4⟩ := h
  obtain ⟨g1, g2, g3, g4⟩ := hs
  unfold CurveFns.copy
  rw [load_full _ _ (by omega), load_full _ _ (by omega)]
  simp only [Out.bind_ok]
  rw [store_full _ _ (by omega), store_full _ _ (by omega)]
  rfl

theorem curve_calculate (F : CurveFns) (p q : DHState Unit) (h : F.Inv p) (hs : F.Inv q) :
    F.calculate p q = .ok (if F.valid q.pub then .none else .invalidPublicKey,
      F.eval p.priv q.pub, p) := by
  obtain ⟨h1, h2, h3, h4⟩ := h
  obtain ⟨g1, g2, g3, g4⟩ := hs
  unfold CurveFns.calculate
  rw [load_full _ _ (by omega), load_full _ _ (by omega)]
  rfl

/-- The curve back ends satisfy the requirements of the generic layer. -/
theorem curve_lawful (F : CurveFns) (Z : F.Sized) :
    F.backend.Lawful F.Inv (fun _ => F.len) where
  init := by simp [CurveFns.Inv, CurveFns.backend]
  initKey := rfl
  lens := by rintro s ⟨h1, h2, h3, h4⟩; omega
  pubLen := by rintro s ⟨h1, h2, h3, h4⟩; omega
  mem := by
    rintro s p q k ⟨h1, h2, h3, h4⟩ hp hq
    exact ⟨h1, h2, hp.trans h3, hq.trans h4⟩
  generate := by
    intro rnd s other h _
    refine ⟨_, _, curve_generate F Z rnd s h other, ?_, rfl, rfl⟩
    obtain ⟨h1, h2, h3, h4⟩ := h
    exact ⟨h1, h2, Z.clamp_len _ (by simp), Z.eval_len _ _⟩
  setKeypair := by
    intro s a b h ha hb
    refine ⟨_, _, curve_setKeypair F Z s h a b ha hb, ?_, rfl⟩
    obtain ⟨h1, h2, h3, h4⟩ := h
    exact ⟨h1, h2, ha.trans h1, hb.trans h2⟩
  setKeypairPrivate := by
    intro s a h ha
    refine ⟨_, _, curve_setKeypairPrivate F Z s h a ha, ?_, rfl⟩
    obtain ⟨h1, h2, h3, h4⟩ := h
    exact ⟨h1, h2, ha.trans h1, Z.eval_len _ _⟩
  copy := by
    intro s src other h hs _
    refine ⟨_, _, curve_copy F s src h hs other, ?_, rfl, rfl⟩
    obtain ⟨h1, h2, h3, h4⟩ := h
    obtain ⟨g1, g2, g3, g4⟩ := hs
    exact ⟨h1, h2, g3, g4⟩
  calculate := by
    intro p q h hs
    exact ⟨_, _, _, curve_calculate F p q h hs, Z.eval_len _ _, h, rfl, rfl⟩
  changeRole := by
    rintro s r ⟨h1, h2, h3, h4⟩
    exact ⟨⟨h1, h2, h3, h4⟩, rfl, rfl⟩

/-- A curve object that claims to hold a key pair holds a matching one. Not a definition of the
code base. -/
def CurveFns.Consistent (F : CurveFns) (s : DHState Unit) : Prop :=
  s.keyType = .keypair → s.pub = F.eval s.priv F.base

theorem curve_step (F : CurveFns) (Z : F.Sized) (s s' : DHState Unit) (e : Err)
    (op : DHOp F.backend) (h : F.Inv s) (hc : F.Consistent s)
    (ha : op.ArgsOk (D := F.backend) (fun o => F.Inv o ∧ F.Consistent o))
    (hr : op.step (D := F.backend) s = .ok (e, s')) : F.Inv s' ∧ F.Consistent s' := by
  have W := curve_lawful F Z
  have ha' : op.ArgsOk (D := F.backend) F.Inv := by
    match op, ha with
    | .generate _ (some (.same o)), ha => exact ha.1
    | .generate _ (some .foreign), _ => trivial
    | .generate _ none, _ => trivial
    | .copy (.same src), ha => exact ha.1
    | .copy .foreign, _ => trivial
    | .calcWith (.same q) _, ha => exact ha.1
    | .calcWith .foreign _, _ => trivial
    | .setKeypair _ _, _ => trivial
    | .setKeypairPrivate _, _ => trivial
    | .setPublicKey _, _ => trivial
    | .setNullPublicKey, _ => trivial
    | .clearKey, _ => trivial
    | .setRole _, _ => trivial
  obtain ⟨e1, s1, h1, h2⟩ := dhop_step_ok W s h op ha'
  rw [h1] at hr
  cases hr
  refine ⟨h2, ?_⟩
  cases op with
  | generate rnd other =>
    have fin : ∀ o, DHBackend.generateDependent.finish F.backend (F.generate rnd s o) =
        .ok (.none, { s with
          priv := F.clamp (randBytes rnd F.len),
          pub := F.eval (F.clamp (randBytes rnd F.len)) F.base, keyType := .keypair }) := by
      intro o
      rw [curve_generate F Z rnd s h o]
      rfl
    match other with
    | none =>
      have := h1.symm.trans (fin none)
      cases this
      intro _; rfl
    | some .foreign => cases h1; exact hc
    | some (.same o) =>
      have := h1.symm.trans (fin (some o))
      cases this
      intro _; rfl
  | setKeypair a b =>
    simp only [DHOp.step, DHBackend.setKeypairApi] at h1
    split at h1
    · cases h1; exact hc
    · split at h1
      · cases h1; exact hc
      · rename_i g1 g2
        have hk := curve_setKeypair F Z s h a b (by omega) (by omega)
        have h1' : F.backend.finishSet (F.setKeypair s a b) = .ok (e, s') := h1
        rw [hk] at h1'
        have hI : F.Inv { s with priv := a, pub := b } :=
          ⟨h.1, h.2.1, by have := h.1; simp only; omega, by have := h.2.1; simp only; omega⟩
        obtain ⟨s'', k1, _, _, k4, k5⟩ := finishSet_eq W
          (if F.eval a F.base = b then .none else .invalidPublicKey) _ hI
        have h1'' := h1'.symm.trans k1
        cases h1''
        by_cases heq : F.eval a F.base = b
        · have k := k4 (by simp [heq])
          subst k; intro _; exact heq.symm
        · have k := (k5 (by simp [heq])).1
          intro hk'; rw [k] at hk'; cases hk'
  | setKeypairPrivate a =>
    simp only [DHOp.step, DHBackend.setKeypairPrivateApi] at h1
    split at h1
    · cases h1; exact hc
    · rename_i g1
      have hk := curve_setKeypairPrivate F Z s h a (by omega)
      have h1' : F.backend.finishSet (F.setKeypairPrivate s a) = .ok (e, s') := h1
      rw [hk] at h1'
      cases h1'
      intro _; rfl
  | setPublicKey b =>
    obtain ⟨e2, s2, k1, k2, k3, k4, k5, k6, k7⟩ := setPublicKey_eq W s h b
    have := h1.symm.trans k1
    cases this
    by_cases he : e = .none
    · intro hk'; rw [(k7 he).2.1] at hk'; cases hk'
    · rw [k6 he]; exact hc
  | setNullPublicKey =>
    simp only [DHOp.step, DHBackend.setNullPublicKey] at h1
    split at h1
    · cases h1; exact hc
    · rw [store_zero_len _ _ (W.lens s h).2, store_zero_len _ _ (W.lens s h).1] at h1
      cases h1
      intro hk'; cases hk'
  | clearKey =>
    obtain ⟨s2, k1, _, _, k4, _⟩ := clearKey_eq W s h
    simp only [DHOp.step] at h1
    rw [k1] at h1
    cases h1
    intro hk'; rw [k4] at hk'; cases hk'
  | copy src =>
    match src with
    | .foreign => cases h1; exact hc
    | .same src =>
      have hs := ha
      have hk := curve_copy F s src h hs.1 none
      have h1' : (do
        let (err, s') ← F.copy s src none
        if err ≠ .none then pure (err, s')
        else pure (.none, { s' with keyType := src.keyType })) = Out.ok (e, s') := h1
      rw [hk] at h1'
      cases h1'
      intro hk'; exact hs.2 hk'
  | setRole r => cases h1; exact hc
  | calcWith q sh =>
    match q with
    | .foreign => cases h1; exact hc
    | .same q =>
      have hq := ha
      simp only [DHOp.step, DHBackend.calculateApi] at h1
      split at h1
      · cases h1; exact hc
      · split at h1
        · cases h1; exact hc
        · rw [nullKey_eq _ _ (W.lens q hq.1).2] at h1
          have hk : F.backend.calculate s q = _ := curve_calculate F s q h hq.1
          rw [hk] at h1
          simp only [Out.bind_ok] at h1
          cases h1
          exact hc

/-- **C24.** After any sequence of DHState calls on Curve25519 / Curve448 objects (including
`copy`, `calculate` and dependent generation with other such objects), an object for which
`noise_dhstate_has_keypair` holds contains the public key derived from its private key. -/
theorem C24_keypair_consistent (F : CurveFns) (Z : F.Sized) (s : DHState Unit)
    (h : DHReach F.backend s) : s.hasKeypair = true → s.pub = F.eval s.priv F.base := by
  have key : ∀ s : DHState F.backend.Ext, DHReach F.backend s → F.Inv s ∧ F.Consistent s := by
    intro s h
    induction h with
    | init => exact ⟨(curve_lawful F Z).init, fun h => by cases h⟩
    | generate rnd s e s' _ hr ih => exact curve_step F Z _ _ _ _ ih.1 ih.2 (by exact trivial) hr
    | generateDep rnd s o e s' _ _ hr ih iho => exact curve_step F Z _ _ _ (.generate rnd (some (.same o))) ih.1 ih.2 iho hr
    | generateForeign rnd s e s' _ hr ih => exact curve_step F Z _ _ _ _ ih.1 ih.2 (by exact trivial) hr
    | setKeypair a b s e s' _ hr ih => exact curve_step F Z _ _ _ _ ih.1 ih.2 (by exact trivial) hr
    | setKeypairPrivate a s e s' _ hr ih => exact curve_step F Z _ _ _ _ ih.1 ih.2 (by exact trivial) hr
    | setPublicKey b s e s' _ hr ih => exact curve_step F Z _ _ _ _ ih.1 ih.2 (by exact trivial) hr
    | setNullPublicKey s e s' _ hr ih => exact curve_step F Z _ _ _ _ ih.1 ih.2 (by exact trivial) hr
    | clearKey s e s' _ hr ih => exact curve_step F Z _ _ _ _ ih.1 ih.2 (by exact trivial) hr
    | copy src s e s' _ _ hr ih ihs => exact curve_step F Z _ _ _ (.copy (.same src)) ih.1 ih.2 ihs hr
    | copyForeign s e s' _ hr ih => exact curve_step F Z _ _ _ _ ih.1 ih.2 (by exact trivial) hr
    | setRole r s e s' _ hr ih => exact curve_step F Z _ _ _ _ ih.1 ih.2 (by exact trivial) hr
    | calcWith q sh s e s' _ _ hr ih ihq => exact curve_step F Z _ _ _ (.calcWith (.same q) sh) ih.1 ih.2 ihq hr
    | calcForeign sh s e s' _ hr ih => exact curve_step F Z _ _ _ _ ih.1 ih.2 (by exact trivial) hr
  intro hk
  exact (key s h).2 (by simpa [DHState.hasKeypair] using hk)

/-- Reachable objects satisfy a lawful back end's invariant. -/
theorem dhreach_inv {D : DHBackend} {Inv : DHState D.Ext → Prop}
    {L : Option Role → Nat} (W : D.Lawful Inv L) (s : DHState D.Ext) (h : DHReach D s) : Inv s := by
  have go : ∀ (op : DHOp D) (s s' : DHState D.Ext) (e : Err), Inv s → op.ArgsOk Inv →
      op.step s = .ok (e, s') → Inv s' := by
    intro op s s' e hi ha hr
    obtain ⟨e1, s1, h1, h2⟩ := dhop_step_ok W s hi op ha
    rw [h1] at hr; cases hr; exact h2
  induction h with
  | init => exact W.init
  | generate rnd s e s' _ hr ih => exact go _ _ _ _ ih (by exact trivial) hr
  | generateDep rnd s o e s' _ _ hr ih iho =>
    exact go (.generate rnd (some (.same o))) _ _ _ ih iho hr
  | generateForeign rnd s e s' _ hr ih =>
    exact go (.generate rnd (some .foreign)) _ _ _ ih (by exact trivial) hr
  | setKeypair a b s e s' _ hr ih => exact go _ _ _ _ ih (by exact trivial) hr
  | setKeypairPrivate a s e s' _ hr ih => exact go _ _ _ _ ih (by exact trivial) hr
  | setPublicKey b s e s' _ hr ih => exact go _ _ _ _ ih (by exact trivial) hr
  | setNullPublicKey s e s' _ hr ih => exact go _ _ _ _ ih (by exact trivial) hr
  | clearKey s e s' _ hr ih => exact go _ _ _ _ ih (by exact trivial) hr
  | copy src s e s' _ _ hr ih ihs => exact go (.copy (.same src)) _ _ _ ih ihs hr
  | copyForeign s e s' _ hr ih => exact go (.copy .foreign) _ _ _ ih (by exact trivial) hr
  | setRole r s e s' _ hr ih => exact go _ _ _ _ ih (by exact trivial) hr
  | calcWith q sh s e s' _ _ hr ih ihq => exact go (.calcWith (.same q) sh) _ _ _ ih ihq hr
  | calcForeign sh s e s' _ hr ih => exact go (.calcWith .foreign sh) _ _ _ ih (by exact trivial) hr

/-- **C24.** No history of DHState calls leads to an access outside the key arrays: on every
reachable object every call is defined. -/
theorem C24_no_undefined_behaviour {D : DHBackend} {Inv : DHState D.Ext → Prop}
    {L : Option Role → Nat} (W : D.Lawful Inv L) (s : DHState D.Ext) (h : DHReach D s) (op : DHOp D)
    (ha : op.ArgsOk (DHReach D)) : ∃ e s', op.step s = .ok (e, s') := by
  have inv := dhreach_inv W
  have ha' : op.ArgsOk Inv := by
    match op, ha with
    | .generate _ (some (.same o)), ha => exact inv _ ha
    | .generate _ (some .foreign), _ => trivial
    | .generate _ none, _ => trivial
    | .copy (.same src), ha => exact inv _ ha
    | .copy .foreign, _ => trivial
    | .calcWith (.same q) _, ha => exact inv _ ha
    | .calcWith .foreign _, _ => trivial
    | .setKeypair _ _, _ => trivial
    | .setKeypairPrivate _, _ => trivial
    | .setPublicKey _, _ => trivial
    | .setNullPublicKey, _ => trivial
    | .clearKey, _ => trivial
    | .setRole _, _ => trivial
  obtain ⟨e, s', h1, _⟩ := dhop_step_ok W s (inv s h) op ha'
  exact ⟨e, s', h1⟩

/-- **C24.** A key pair setter that fails leaves either the object as it was (arguments refused up
front) or no key at all, with the key bytes zeroed; one that succeeds leaves a key pair. -/
theorem C24_failed_keypair_setter {D : DHBackend} {Inv : DHState D.Ext → Prop}
    {L : Option Role → Nat} (W : D.Lawful Inv L) (s s' : DHState D.Ext) (h : Inv s) (a b : Bytes)
    (e : Err) (hr : (DHOp.setKeypair a b).step s = .ok (e, s') ∨
      (DHOp.setKeypairPrivate a).step s = .ok (e, s')) :
    (e = .none → s'.hasKeypair = true) ∧
    (e ≠ .none → s' = s ∨ (s'.hasPublicKey = false ∧ AllZero s'.pubKey ∧
      AllZero (s'.priv.take s'.privLen))) := by
  rcases hr with hr | hr
  · obtain ⟨e1, s1, h1, h2, h3, h4, h5⟩ := setKeypairApi_eq W s h a b
    have := hr.symm.trans h1
    cases this
    refine ⟨fun he => by simp [DHState.hasKeypair, h4 he], fun he => ?_⟩
    rcases h5 he with h6 | h6
    · exact .inl h6
    · exact .inr ⟨by simp [DHState.hasPublicKey, h6.1], h6.2⟩
  · obtain ⟨e1, s1, h1, h2, h3, h4, h5⟩ := setKeypairPrivateApi_eq W s h a
    have := hr.symm.trans h1
    cases this
    refine ⟨fun he => by simp [DHState.hasKeypair, h4 he], fun he => ?_⟩
    rcases h5 he with h6 | h6
    · exact .inl h6
    · exact .inr ⟨by simp [DHState.hasPublicKey, h6.1], h6.2⟩

/-- **C24.** A public key setter that fails changes nothing; one that succeeds stores exactly the
given bytes, drops any private key, and `is_null_public_key` then says whether they are all zero. -/
theorem C24_public_key_setter {D : DHBackend} {Inv : DHState D.Ext → Prop}
    {L : Option Role → Nat} (W : D.Lawful Inv L) (s s' : DHState D.Ext) (h : Inv s) (b : Bytes)
    (e : Err) (hr : (DHOp.setPublicKey b).step s = .ok (e, s')) :
    (e ≠ .none → s' = s) ∧
    (e = .none → D.getPublicKey s' b.length = .ok (.none, some b) ∧ s'.hasKeypair = false ∧
      s'.hasPublicKey = true ∧ AllZero (s'.priv.take s'.privLen) ∧
      D.isNullPublicKey s' = .ok (decide (D.nullsAllowed = true ∧ AllZero b))) := by
  obtain ⟨e1, s1, h1, h2, h3, h4, h5, h6, h7⟩ := setPublicKey_eq W s h b
  have := hr.symm.trans h1
  cases this
  refine ⟨h6, fun he => ?_⟩
  obtain ⟨k1, k2, k3, k4⟩ := h7 he
  have hl : s'.pubLen = b.length := by
    rw [W.pubLen s' h2, h3, ← W.pubLen s h, k1]
  refine ⟨?_, by simp [DHState.hasKeypair, k2], by simp [DHState.hasPublicKey, k2], k4, ?_⟩
  · unfold DHBackend.getPublicKey
    rw [if_neg (by omega), load_ok (by have := (W.lens s' h2).2; omega)]
    simp only [DHState.pubKey, hl] at k3
    simp [k3]
  · rw [isNullPublicKey_eq W s' h2, k2, k3]
    simp

/-! ## Diffie-Hellman (C25) -/

/-- **C25.** `noise_dhstate_calculate` succeeds only for two objects of the same algorithm, a
buffer of exactly the shared key length, and a key pair on the private side; each refusal has its
own code and leaves the buffer alone. -/
theorem C25_calculate_requires {D : DHBackend} (p : DHState D.Ext) (q : DHArg D) (shared : Bytes) :
    (q = .foreign → D.calculateApi p q shared = .ok (.invalidParam, shared, p)) ∧
    (q ≠ .foreign → shared.length ≠ D.sharedLen →
      D.calculateApi p q shared = .ok (.invalidLength, shared, p)) ∧
    (q ≠ .foreign → shared.length = D.sharedLen → p.hasKeypair = false →
      D.calculateApi p q shared = .ok (.invalidPrivateKey, shared, p)) ∧
    (∀ sh p', D.calculateApi p q shared = .ok (.none, sh, p') →
      (∃ q', q = .same q') ∧ shared.length = D.sharedLen ∧ p.hasKeypair = true) := by
  unfold DHBackend.calculateApi
  cases q with
  | foreign => simp
  | same q =>
    dsimp only
    by_cases h1 : shared.length ≠ D.sharedLen
    · rw [if_pos h1]; simp [h1]
    · rw [if_neg h1]
      by_cases h2 : p.keyType ≠ .keypair
      · rw [if_pos h2]; simp; omega
      · have h1' : shared.length = D.sharedLen := by omega
        have h2' : p.keyType = .keypair := by simpa using h2
        simp [h1', h2', DHState.hasKeypair]

theorem cmoveZero_zero (d : Bytes) : DHBackend.cmoveZero d 0 = d := by
  unfold DHBackend.cmoveZero
  have : ∀ x : UInt8, x &&& ~~~(0 - UInt8.ofNat 0) = x := by
    intro x
    have : (~~~(0 - UInt8.ofNat 0) : UInt8) = 255 := by decide
    rw [this]
    apply UInt8.eq_of_toBitVec_eq
    simp
    exact BitVec.and_allOnes (w := 8)
  simp only [this, List.map_id']

theorem cmoveZero_one (d : Bytes) : DHBackend.cmoveZero d 1 = List.replicate d.length 0 := by
  unfold DHBackend.cmoveZero
  have : ∀ x : UInt8, x &&& ~~~(0 - UInt8.ofNat 1) = 0 := by
    intro x
    have : (~~~(0 - UInt8.ofNat 1) : UInt8) = 0 := by decide
    rw [this]; simp
  simp only [this, List.map_const']

/-- **C25.** Where null public keys are allowed, a null public key gives the all-zero secret and
success, whatever the back end reports. -/
theorem C25_null_public_key {D : DHBackend} {Inv : DHState D.Ext → Prop}
    {L : Option Role → Nat} (W : D.Lawful Inv L) (p q : DHState D.Ext) (hp : Inv p) (hq : Inv q)
    (hk : p.hasKeypair = true) (hn : D.nullsAllowed = true) (hz : AllZero q.pubKey)
    (shared : Bytes) (hl : shared.length = D.sharedLen) :
    ∃ p', D.calculateApi p (.same q) shared = .ok (.none, List.replicate D.sharedLen 0, p') := by
  obtain ⟨e, sh, p', h3, h4, _⟩ := W.calculate p q hp hq
  have hk' : p.keyType = .keypair := by simpa [DHState.hasKeypair] using hk
  refine ⟨p', ?_⟩
  unfold DHBackend.calculateApi
  dsimp only
  rw [if_neg (by omega), if_neg (by simp [hk']), nullKey_eq _ _ (W.lens q hq).2, h3]
  have hz' : AllZero (q.pub.take q.pubLen) := hz
  simp only [Out.bind_ok, Out.pure_eq, hn, hz', and_self, if_true, cmoveZero_one, h4]

/-- The algebraic facts about a curve that Diffie-Hellman needs. A hypothesis about the scalar
multiplication (not a definition of the code base). -/
structure CurveFns.Commutes (F : CurveFns) : Prop where
  comm : ∀ a b, a.length = F.len → b.length = F.len →
    F.eval a (F.eval b F.base) = F.eval b (F.eval a F.base)
  valid : ∀ a, a.length = F.len → F.valid (F.eval a F.base) = true
  null : ∀ a b, a.length = F.len → b.length = F.len → AllZero (F.eval b F.base) → AllZero (F.eval a (F.eval b F.base))

theorem curve_calculateApi (F : CurveFns) (Z : F.Sized) (p q : DHState Unit) (hp : F.Inv p)
    (hq : F.Inv q) (hk : p.keyType = .keypair) (shared : Bytes) (hl : shared.length = F.len) :
    F.backend.calculateApi p (.same q) shared =
      .ok (if AllZero q.pub then .none else if F.valid q.pub then .none else .invalidPublicKey,
        if AllZero q.pub then List.replicate F.len 0 else F.eval p.priv q.pub, p) := by
  unfold DHBackend.calculateApi
  dsimp only
  have hc : F.backend.calculate p q = _ := curve_calculate F p q hp hq
  have hn : F.backend.nullsAllowed = true := rfl
  have ht : q.pub.take q.pubLen = q.pub := List.take_of_length_le (by
    have := hq.2.1; have := hq.2.2.2; omega)
  rw [if_neg (show ¬ shared.length ≠ F.backend.sharedLen by
    show ¬ shared.length ≠ F.len; omega), if_neg (by simp [hk]),
    nullKey_eq _ _ ((curve_lawful F Z).lens q hq).2, hc]
  simp only [Out.bind_ok, Out.pure_eq, hn, ht, true_and]
  by_cases hz : AllZero q.pub
  · have e : DHBackend.cmoveZero (F.eval p.priv q.pub) 1 = List.replicate F.len 0 := by
      rw [cmoveZero_one, Z.eval_len]
    simp only [hz, if_true]
    rw [← e]
    rfl
  · have e : DHBackend.cmoveZero (F.eval p.priv q.pub) 0 = F.eval p.priv q.pub := cmoveZero_zero _
    simp only [hz, if_false]
    exact (congrArg (fun x => Out.ok (if F.valid q.pub = true then Err.none else
      Err.invalidPublicKey, x, p)) e : _)

/-- **C25.** Two Curve25519 / Curve448 objects holding key pairs, each giving its public key to the
other, compute the same shared secret, successfully, in both directions. -/
theorem C25_curve_agreement (F : CurveFns) (Z : F.Sized) (C : F.Commutes) (a b : DHState Unit)
    (ha : DHReach F.backend a) (hb : DHReach F.backend b) (hka : a.hasKeypair = true)
    (hkb : b.hasKeypair = true) (sh1 sh2 : Bytes) (h1 : sh1.length = F.len)
    (h2 : sh2.length = F.len) :
    ∃ secret, F.backend.calculateApi a (.same b) sh1 = .ok (.none, secret, a) ∧
      F.backend.calculateApi b (.same a) sh2 = .ok (.none, secret, b) := by
  have hIa : F.Inv a := dhreach_inv (curve_lawful F Z) a ha
  have hIb : F.Inv b := dhreach_inv (curve_lawful F Z) b hb
  have ea := C24_keypair_consistent F Z a ha hka
  have eb := C24_keypair_consistent F Z b hb hkb
  have la : a.priv.length = F.len := hIa.2.2.1
  have lb : b.priv.length = F.len := hIb.2.2.1
  have va : F.valid a.pub = true := by rw [ea]; exact C.valid _ la
  have vb : F.valid b.pub = true := by rw [eb]; exact C.valid _ lb
  have hka' : a.keyType = .keypair := by simpa [DHState.hasKeypair] using hka
  have hkb' : b.keyType = .keypair := by simpa [DHState.hasKeypair] using hkb
  rw [curve_calculateApi F Z a b hIa hIb hka' sh1 h1, curve_calculateApi F Z b a hIb hIa hkb' sh2 h2]
  simp only [va, vb, if_true, ite_self]
  have ec : F.eval a.priv b.pub = F.eval b.priv a.pub := by rw [ea, eb, C.comm _ _ la lb]
  have na : AllZero a.pub → F.eval a.priv b.pub = List.replicate F.len 0 := by
    intro hz
    rw [ec]
    rw [ea] at hz ⊢
    exact List.eq_replicate_iff.2 ⟨Z.eval_len _ _, C.null _ _ lb la hz⟩
  have nb : AllZero b.pub → F.eval b.priv a.pub = List.replicate F.len 0 := by
    intro hz
    rw [← ec]
    rw [eb] at hz ⊢
    exact List.eq_replicate_iff.2 ⟨Z.eval_len _ _, C.null _ _ la lb hz⟩
  by_cases za : AllZero a.pub <;> by_cases zb : AllZero b.pub
  · exact ⟨_, by rw [if_pos zb], by rw [if_pos za]⟩
  · exact ⟨_, by rw [if_neg zb, na za], by rw [if_pos za]⟩
  · exact ⟨_, by rw [if_pos zb], by rw [if_neg za, nb zb]⟩
  · exact ⟨_, by rw [if_neg zb], by rw [if_neg za, ec]⟩

/-! ## New Hope -/

/-- Output lengths of the New Hope functions. Not a definition of the code base. -/
structure NewHopeFns.Sized (F : NewHopeFns) : Prop where
  keygen_send : ∀ r, (F.keygen r).1.length = sendABytes
  keygen_sk : ∀ r, (F.keygen r).2.length = 2048
  sharedb_key : ∀ r s, (F.sharedb r s).1.length = 32
  sharedb_send : ∀ r s, (F.sharedb r s).2.length = sendBBytes
  shareda_key : ∀ s r, (F.shareda s r).length = 32

/-- The invariant of New Hope objects. Not a definition of the code base. -/
def newHopeInv (s : DHState NewHopeExt) : Prop :=
  s.priv.length = 64 ∧ s.pub.length = 2048 ∧ s.ext.poly.length = 2048 ∧
  (s.role = some .responder → s.privLen = 32 ∧ s.pubLen = sendBBytes) ∧
  (s.role ≠ some .responder → s.privLen = 64 ∧ s.pubLen = sendABytes)

theorem newHope_lens (s : DHState NewHopeExt) (h : newHopeInv s) :
    s.privLen ≤ s.priv.length ∧ s.pubLen ≤ s.pub.length := by
  obtain ⟨h1, h2, h3, h4, h5⟩ := h
  by_cases hr : s.role = some .responder
  · obtain ⟨h6, h7⟩ := h4 hr; simp [sendBBytes] at h7; omega
  · obtain ⟨h6, h7⟩ := h5 hr; simp [sendABytes] at h7; omega

theorem runKeygen_eq (F : NewHopeFns) (Z : F.Sized) (s : DHState NewHopeExt) (h : newHopeInv s) :
    F.runKeygen s = .ok { s with
      pub := (F.keygen s.priv).1 ++ s.pub.drop sendABytes,
      ext := { generated := true, poly := (F.keygen s.priv).2 } } := by
  obtain ⟨h1, h2, h3, h4, h5⟩ := h
  unfold NewHopeFns.runKeygen
  rw [load_full _ _ (by omega)]
  simp only [Out.bind_ok]
  rw [store_at_zero _ _ (by rw [Z.keygen_send, h2]; simp [sendABytes]), Z.keygen_send]
  simp only [Out.bind_ok]
  rw [store_full _ _ (by rw [Z.keygen_sk, h3])]
  rfl

theorem runSharedB_eq (F : NewHopeFns) (Z : F.Sized) (s o : DHState NewHopeExt) (h : newHopeInv s)
    (ho : newHopeInv o) :
    F.runSharedB s o = .ok { s with
      pub := (F.sharedb (o.pub.take sendABytes) (s.priv.take 32)).2,
      ext := { generated := true,
               poly := (F.sharedb (o.pub.take sendABytes) (s.priv.take 32)).1 ++
                 s.ext.poly.drop 32 } } := by
  obtain ⟨h1, h2, h3, h4, h5⟩ := h
  unfold NewHopeFns.runSharedB
  rw [load_ok (by omega), load_ok (by rw [ho.2.1]; simp [sendABytes])]
  simp only [Out.bind_ok, List.drop_zero]
  rw [store_at_zero _ _ (by rw [Z.sharedb_key]; omega), Z.sharedb_key]
  simp only [Out.bind_ok]
  rw [store_full _ _ (by rw [Z.sharedb_send, h2]; rfl)]
  rfl

theorem newHope_generate (F : NewHopeFns) (Z : F.Sized) (rnd : Nat → UInt8)
    (s : DHState NewHopeExt) (other : Option (DHState NewHopeExt)) (h : newHopeInv s)
    (ho : ∀ o, other = some o → newHopeInv o) :
    ∃ e s', F.generate rnd s other = .ok (e, s') ∧ newHopeInv s' ∧ s'.role = s.role ∧
      s'.keyType = s.keyType := by
  have hl := newHope_lens s h
  obtain ⟨h1, h2, h3, h4, h5⟩ := h
  unfold NewHopeFns.generate
  have hp : newHopeInv { s with priv := randBytes rnd s.privLen ++ s.priv.drop s.privLen } :=
    ⟨by simp; omega, h2, h3, h4, h5⟩
  split
  · rename_i hr
    match other with
    | none => exact ⟨_, _, rfl, ⟨h1, h2, h3, h4, h5⟩, rfl, rfl⟩
    | some o =>
      dsimp only
      split
      · exact ⟨_, _, rfl, ⟨h1, h2, h3, h4, h5⟩, rfl, rfl⟩
      · rw [store_at_zero _ _ (by simp; omega)]
        simp only [Out.bind_ok, randBytes_length]
        rw [runSharedB_eq F Z _ o hp (ho o rfl)]
        refine ⟨_, _, rfl, ⟨hp.1, ?_, ?_, h4, h5⟩, rfl, rfl⟩
        · simp [Z.sharedb_send, sendBBytes]
        · simp [Z.sharedb_key]; omega
  · rw [store_at_zero _ _ (by simp; omega)]
    simp only [Out.bind_ok, randBytes_length]
    rw [runKeygen_eq F Z _ hp]
    refine ⟨_, _, rfl, ⟨hp.1, ?_, ?_, h4, h5⟩, rfl, rfl⟩
    · simp [Z.keygen_send, h2]; simp [sendABytes]
    · simp [Z.keygen_sk]

theorem newHope_setKeypairPrivate (F : NewHopeFns) (Z : F.Sized) (s : DHState NewHopeExt)
    (a : Bytes) (h : newHopeInv s) (ha : a.length = s.privLen) :
    ∃ e s', F.setKeypairPrivate s a = .ok (e, s') ∧ newHopeInv s' ∧ s'.role = s.role := by
  have hl := newHope_lens s h
  obtain ⟨h1, h2, h3, h4, h5⟩ := h
  unfold NewHopeFns.setKeypairPrivate
  rw [store_at_zero _ _ (by omega)]
  simp only [Out.bind_ok]
  have hp : newHopeInv { s with priv := a ++ s.priv.drop a.length } :=
    ⟨by simp; omega, h2, h3, h4, h5⟩
  split
  · exact ⟨_, _, rfl, ⟨hp.1, (List.length_replicate ..).trans h2, h3, h4, h5⟩, rfl⟩
  · rw [runKeygen_eq F Z _ hp]
    refine ⟨_, _, rfl, ⟨hp.1, ?_, ?_, h4, h5⟩, rfl⟩
    · simp [Z.keygen_send, h2]; simp [sendABytes]
    · simp [Z.keygen_sk]

theorem newHope_copy (F : NewHopeFns) (Z : F.Sized) (s src : DHState NewHopeExt)
    (other : Option (DHState NewHopeExt)) (h : newHopeInv s) (hs : newHopeInv src)
    (ho : ∀ o, other = some o → newHopeInv o) :
    ∃ e s', F.copy s src other = .ok (e, s') ∧ newHopeInv s' ∧ s'.role = s.role ∧
      s'.keyType = s.keyType := by
  obtain ⟨h1, h2, h3, h4, h5⟩ := h
  obtain ⟨g1, g2, g3, g4, g5⟩ := hs
  unfold NewHopeFns.copy
  rw [store_full _ _ (by omega), store_full _ _ (by omega), store_full _ _ (by omega)]
  simp only [Out.bind_ok]
  have hp : newHopeInv { s with
      priv := src.priv
      pub := src.pub
      ext := ⟨src.ext.generated, src.ext.poly⟩ } :=
    ⟨g1, g2, g3, h4, h5⟩
  cases other with
  | none => exact ⟨_, _, rfl, hp, rfl, rfl⟩
  | some o =>
    dsimp only
    split
    · rw [runSharedB_eq F Z _ o hp (ho o rfl)]
      refine ⟨_, _, rfl, ⟨g1, ?_, ?_, h4, h5⟩, rfl, rfl⟩
      · simp [Z.sharedb_send, sendBBytes]
      · simp [Z.sharedb_key]; omega
    · exact ⟨_, _, rfl, hp, rfl, rfl⟩

theorem newHope_calculate (F : NewHopeFns) (Z : F.Sized) (p q : DHState NewHopeExt)
    (h : newHopeInv p) (hq : newHopeInv q) :
    ∃ e sh p', F.calculate p q = .ok (e, sh, p') ∧ sh.length = 32 ∧ newHopeInv p' ∧
      p'.role = p.role ∧ p'.keyType = p.keyType := by
  have h0 := h
  obtain ⟨h1, h2, h3, h4, h5⟩ := h
  unfold NewHopeFns.calculate
  split
  · split
    · rw [load_ok (by omega)]
      exact ⟨_, _, _, rfl, by simp; omega, h0, rfl, rfl⟩
    · rw [load_ok (by omega), load_ok (by rw [hq.2.1]; simp [sendABytes])]
      simp only [Out.bind_ok]
      rw [store_full _ _ (by rw [Z.sharedb_send, h2]; rfl)]
      exact ⟨_, _, _, rfl, Z.sharedb_key _ _,
        ⟨h1, by simp [Z.sharedb_send, sendBBytes], h3, h4, h5⟩, rfl, rfl⟩
  · rw [load_ok (by rw [hq.2.1]; simp [sendBBytes])]
    exact ⟨_, _, _, rfl, Z.shareda_key _ _, h0, rfl, rfl⟩

theorem newHope_changeRole (s : DHState NewHopeExt) (r : Option Role) (h : newHopeInv s) :
    newHopeInv (NewHopeFns.changeRole { s with role := r }) ∧
    (NewHopeFns.changeRole { s with role := r }).role = r ∧
    (NewHopeFns.changeRole { s with role := r }).keyType = s.keyType := by
  obtain ⟨h1, h2, h3, h4, h5⟩ := h
  unfold NewHopeFns.changeRole
  dsimp only
  by_cases hr : r = some .responder
  · rw [if_pos hr]
    exact ⟨⟨h1, h2, h3, fun _ => ⟨rfl, rfl⟩, fun h => absurd hr h⟩, rfl, rfl⟩
  · rw [if_neg hr]
    exact ⟨⟨h1, h2, h3, fun h => absurd h hr, fun _ => ⟨rfl, rfl⟩⟩, rfl, rfl⟩

theorem newHope_init (F : NewHopeFns) : newHopeInv F.backend.init :=
  ⟨List.length_replicate .., List.length_replicate .., List.length_replicate ..,
    (fun h => by cases h), fun _ => ⟨rfl, rfl⟩⟩

/-- The New Hope back end satisfies the requirements of the generic layer. -/
theorem newHope_lawful (F : NewHopeFns) (Z : F.Sized) :
    F.backend.Lawful newHopeInv
      (fun r => if r = some .responder then sendBBytes else sendABytes) where
  init := newHope_init F
  initKey := rfl
  lens := newHope_lens
  pubLen := by
    rintro s ⟨h1, h2, h3, h4, h5⟩
    by_cases hr : s.role = some .responder
    · simp [hr, h4 hr]
    · simp [hr, h5 hr]
  mem := by
    rintro s p q k ⟨h1, h2, h3, h4, h5⟩ hp hq
    exact ⟨hp.trans h1, hq.trans h2, h3, h4, h5⟩
  generate := fun rnd s other h ho => newHope_generate F Z rnd s other h ho
  setKeypair := fun s a _ h ha _ => newHope_setKeypairPrivate F Z s a h ha
  setKeypairPrivate := fun s a h ha => newHope_setKeypairPrivate F Z s a h ha
  copy := fun s src other h hs ho => newHope_copy F Z s src other h hs ho
  calculate := fun p q h hq => newHope_calculate F Z p q h hq
  changeRole := fun s r h => newHope_changeRole s r h

theorem newHope_generate_initiator (F : NewHopeFns) (Z : F.Sized) (rnd : Nat → UInt8)
    (a : DHState NewHopeExt) (h : newHopeInv a) (hr : a.role ≠ some .responder) :
    F.generate rnd a none = .ok (.none, { a with
        priv := randBytes rnd 64,
        pub := (F.keygen (randBytes rnd 64)).1 ++ a.pub.drop sendABytes,
        ext := (⟨true, (F.keygen (randBytes rnd 64)).2⟩ : NewHopeExt) }) := by
  have pa : a.privLen = 64 := (h.2.2.2.2 hr).1
  have hI : newHopeInv { a with priv := randBytes rnd 64 } :=
    ⟨by simp, h.2.1, h.2.2.1, h.2.2.2.1, h.2.2.2.2⟩
  unfold NewHopeFns.generate
  rw [if_neg hr, store_full a.priv (randBytes rnd a.privLen) (by simp [pa, h.1])]
  simp only [Out.bind_ok]
  have := runKeygen_eq F Z _ hI
  rw [pa] at this ⊢
  rw [this]
  rfl

theorem newHope_calculateApi (F : NewHopeFns) (p q p' : DHState NewHopeExt) (k shared : Bytes)
    (hq : newHopeInv q) (hk : p.keyType = .keypair) (hl : shared.length = 32)
    (hc : F.calculate p q = .ok (.none, k, p')) :
    F.backend.calculateApi p (.same q) shared = .ok (.none, k, p') := by
  have hc' : F.backend.calculate p q = .ok (.none, k, p') := hc
  have hn : F.backend.nullsAllowed = false := rfl
  unfold DHBackend.calculateApi
  dsimp only
  rw [if_neg (show ¬ shared.length ≠ F.backend.sharedLen by show ¬ shared.length ≠ 32; omega),
    if_neg (by simp [hk]), nullKey_eq _ _ (newHope_lens q hq).2, hc']
  have e : (if F.backend.nullsAllowed = true ∧ AllZero (q.pub.take q.pubLen) then 1 else 0) = 0 := by
    simp [hn]
  rw [e]
  exact congrArg (fun x => Out.ok (Err.none, x, p')) (cmoveZero_zero k)

/-- **C25.** New Hope: a responder object that generated its key pair against the initiator's public
key, and the initiator object given the responder's public key, compute the same secret, provided
New Hope's reconciliation succeeds for this pair (it fails with negligible probability, so it is a
hypothesis on the particular values). -/
theorem C25_newhope_agreement (F : NewHopeFns) (Z : F.Sized) (rndA rndB : Nat → UInt8)
    (a b a1 b1 ra rb ra1 rb1 : DHState NewHopeExt) (ea eb era erb : Err)
    (hIa : newHopeInv a) (hIb : newHopeInv b) (hIra : newHopeInv ra) (hIrb : newHopeInv rb)
    (hra : a.role = some .initiator) (hrb : b.role = some .responder)
    (hrra : ra.role = some .initiator) (hrrb : rb.role = some .responder)
    (hga : F.backend.generateDependent rndA a none = .ok (ea, a1))
    (hsa : F.backend.setPublicKey ra a1.pubKey = .ok (era, ra1))
    (hgb : F.backend.generateDependent rndB b (some (.same ra1)) = .ok (eb, b1))
    (hsb : F.backend.setPublicKey rb b1.pubKey = .ok (erb, rb1))
    (hrec : F.shareda (F.keygen (randBytes rndA 64)).2
        (F.sharedb (F.keygen (randBytes rndA 64)).1 (randBytes rndB 32)).2 =
      (F.sharedb (F.keygen (randBytes rndA 64)).1 (randBytes rndB 32)).1)
    (sh1 sh2 : Bytes) (h1 : sh1.length = 32) (h2 : sh2.length = 32) :
    ∃ secret, F.backend.calculateApi a1 (.same rb1) sh1 = .ok (.none, secret, a1) ∧
      F.backend.calculateApi b1 (.same ra1) sh2 = .ok (.none, secret, b1) := by
  have W := newHope_lawful F Z
  have pb : b.privLen = 32 := (hIb.2.2.2.1 hrb).1
  -- the initiator's key pair
  have e1 : F.backend.generateDependent rndA a none = .ok (.none,
      ({ a with
        priv := randBytes rndA 64,
        pub := (F.keygen (randBytes rndA 64)).1 ++ a.pub.drop sendABytes,
        ext := { generated := true, poly := (F.keygen (randBytes rndA 64)).2 },
        keyType := .keypair } : DHState NewHopeExt)) := by
    show DHBackend.generateDependent.finish F.backend (F.generate rndA a none) = _
    rw [newHope_generate_initiator F Z rndA a hIa (by simp [hra])]
    rfl
  have hga' := hga.symm.trans e1
  cases hga'
  have hpk : DHState.pubKey ({ a with
        priv := randBytes rndA 64,
        pub := (F.keygen (randBytes rndA 64)).1 ++ a.pub.drop sendABytes,
        ext := { generated := true, poly := (F.keygen (randBytes rndA 64)).2 },
        keyType := .keypair } : DHState NewHopeExt) = (F.keygen (randBytes rndA 64)).1 := by
    have : a.pubLen = sendABytes := (hIa.2.2.2.2 (by simp [hra])).2
    simp only [DHState.pubKey, this]
    rw [List.take_append_of_le_length (by rw [Z.keygen_send]; omega)]
    exact List.take_of_length_le (by rw [Z.keygen_send]; omega)
  rw [hpk] at hsa
  -- the responder's copy of it
  obtain ⟨e2, s2, k1, k2, k3, k4, k5, k6, k7⟩ := setPublicKey_eq W ra hIra
    (F.keygen (randBytes rndA 64)).1
  have := hsa.symm.trans k1
  cases this
  have pra : ra.pubLen = sendABytes := (hIra.2.2.2.2 (by simp [hrra])).2
  have hera : era = .none := k5 (by rw [Z.keygen_send, pra]) (.inl rfl)
  obtain ⟨_, kt, kpub, _⟩ := k7 hera
  have pra1 : ra1.pubLen = sendABytes := (k2.2.2.2.2 (by rw [k3, hrra]; simp)).2
  have kpub' : ra1.pub.take sendABytes = (F.keygen (randBytes rndA 64)).1 := by
    rw [← pra1]; exact kpub
  -- the responder's key pair
  have e3 : F.backend.generateDependent rndB b (some (.same ra1)) = .ok (.none,
      ({ b with
        priv := randBytes rndB 32 ++ b.priv.drop 32,
        pub := (F.sharedb (F.keygen (randBytes rndA 64)).1 (randBytes rndB 32)).2,
        ext := { generated := true,
                 poly := (F.sharedb (F.keygen (randBytes rndA 64)).1 (randBytes rndB 32)).1 ++
                   b.ext.poly.drop 32 },
        keyType := .keypair } : DHState NewHopeExt)) := by
    show DHBackend.generateDependent.finish F.backend (F.generate rndB b (some ra1)) = _
    unfold NewHopeFns.generate
    rw [if_pos hrb]
    dsimp only
    rw [if_neg (by rw [kt]; simp), store_at_zero _ _ (by simp [hIb.1, pb])]
    simp only [Out.bind_ok, randBytes_length]
    have hI : newHopeInv { b with priv := randBytes rndB 32 ++ b.priv.drop 32 } :=
      ⟨by simp [hIb.1], hIb.2.1, hIb.2.2.1, hIb.2.2.2.1, hIb.2.2.2.2⟩
    have := runSharedB_eq F Z _ ra1 hI k2
    rw [pb] at this ⊢
    rw [this, kpub']
    have : List.take 32 (randBytes rndB 32 ++ b.priv.drop 32) = randBytes rndB 32 := by
      rw [List.take_append_of_le_length (by simp)]
      exact List.take_of_length_le (by simp)
    simp only [this]
    rfl
  have hgb' := hgb.symm.trans e3
  cases hgb'
  have hpb : DHState.pubKey ({ b with
        priv := randBytes rndB 32 ++ b.priv.drop 32,
        pub := (F.sharedb (F.keygen (randBytes rndA 64)).1 (randBytes rndB 32)).2,
        ext := { generated := true,
                 poly := (F.sharedb (F.keygen (randBytes rndA 64)).1 (randBytes rndB 32)).1 ++
                   b.ext.poly.drop 32 },
        keyType := .keypair } : DHState NewHopeExt) =
      (F.sharedb (F.keygen (randBytes rndA 64)).1 (randBytes rndB 32)).2 := by
    have : b.pubLen = sendBBytes := (hIb.2.2.2.1 hrb).2
    simp only [DHState.pubKey, this]
    exact List.take_of_length_le (by rw [Z.sharedb_send]; omega)
  rw [hpb] at hsb
  obtain ⟨e4, s4, j1, j2, j3, j4, j5, j6, j7⟩ := setPublicKey_eq W rb hIrb
    (F.sharedb (F.keygen (randBytes rndA 64)).1 (randBytes rndB 32)).2
  have := hsb.symm.trans j1
  cases this
  have prb : rb.pubLen = sendBBytes := (hIrb.2.2.2.1 hrrb).2
  have herb : erb = .none := j5 (by rw [Z.sharedb_send, prb]) (.inl rfl)
  obtain ⟨_, _, jpub, _⟩ := j7 herb
  have prb1 : rb1.pubLen = sendBBytes := (j2.2.2.2.1 (by rw [j3, hrrb])).2
  have jpub' : rb1.pub.take sendBBytes =
      (F.sharedb (F.keygen (randBytes rndA 64)).1 (randBytes rndB 32)).2 := by
    rw [← prb1]; exact jpub
  refine ⟨(F.sharedb (F.keygen (randBytes rndA 64)).1 (randBytes rndB 32)).1, ?_, ?_⟩
  · refine newHope_calculateApi F _ rb1 _ _ sh1 j2 rfl h1 ?_
    unfold NewHopeFns.calculate
    rw [if_neg (by simp [hra]), load_ok (by rw [j2.2.1]; simp [sendBBytes])]
    simp only [List.drop_zero, jpub', hrec, Out.bind_ok, Out.pure_eq]
  · refine newHope_calculateApi F _ ra1 _ _ sh2 k2 rfl h2 ?_
    unfold NewHopeFns.calculate
    rw [if_pos hrb]
    dsimp only
    rw [if_pos rfl, load_ok (by simp [Z.sharedb_key])]
    simp only [List.drop_zero, Out.bind_ok, Out.pure_eq]
    rw [List.take_append_of_le_length (by rw [Z.sharedb_key]; omega),
      List.take_of_length_le (by rw [Z.sharedb_key]; omega)]

/-! ## Concrete cases meeting the hypotheses -/

/-- A small commutative "curve" on two-byte strings used in the examples. -/
def toyCurve : CurveFns where
  dhId := 0x4401
  len := 2
  base := [1, 1]
  eval := fun a p => [(a.getD 0 0 ||| 1) * p.getD 0 0, (a.getD 1 0 ||| 1) * p.getD 1 0]
  valid := fun _ => true
  clamp := fun k => [k.getD 0 0 ||| 1, k.getD 1 0]

theorem toyCurve_sized : toyCurve.Sized where
  eval_len := by intro a b; rfl
  clamp_len := by intro k _; rfl

theorem u8_or_one_ne (x : UInt8) : (x ||| 1) * 1 ≠ 0 := by
  intro h
  have h2 := congrArg UInt8.toBitVec h
  simp at h2

theorem toyCurve_nonzero (a : Bytes) : ¬ AllZero (toyCurve.eval a toyCurve.base) := by
  intro h
  have : (a.getD 0 0 ||| 1) * 1 = 0 := h _ (by simp [toyCurve])
  exact u8_or_one_ne _ this

theorem toyCurve_commutes : toyCurve.Commutes where
  comm := by
    intro a b _ _
    simp only [toyCurve]
    simp [UInt8.mul_comm]
  valid := by intro a _; rfl
  null := fun _ a _ _ h => absurd h (toyCurve_nonzero a)

/-- Two objects whose history meets the hypotheses of `C24_keypair_consistent` and
`C25_curve_agreement`, and the secret they agree on. -/
example : ∃ a b : DHState Unit,
    (DHOp.generate (fun i => UInt8.ofNat (7 * i + 4)) none).step (D := toyCurve.backend)
      toyCurve.backend.init = .ok (.none, a) ∧
    (DHOp.setKeypairPrivate [6, 9]).step (D := toyCurve.backend) toyCurve.backend.init =
      .ok (.none, b) ∧
    a.hasKeypair = true ∧ b.hasKeypair = true ∧ toyCurve.Inv a ∧ toyCurve.Inv b ∧
    toyCurve.backend.calculateApi a (.same b) [0, 0] = .ok (.none, [35, 99], a) ∧
    toyCurve.backend.calculateApi b (.same a) [0, 0] = .ok (.none, [35, 99], b) := by
  refine ⟨⟨none, .keypair, 2, 2, [5, 11], [5, 11], ()⟩, ⟨none, .keypair, 2, 2, [6, 9], [7, 9], ()⟩,
    ?_, ?_, ?_, ?_, ?_, ?_, ?_, ?_⟩ <;> first | rfl | exact ⟨rfl, rfl, rfl, rfl⟩ | decide

/-- An inconsistent key pair is refused and wiped; a null key is recognised. -/
example : (DHOp.setKeypair [6, 9] [7, 8]).step (D := toyCurve.backend) toyCurve.backend.init =
      .ok (.invalidPublicKey, toyCurve.backend.init) ∧
    toyCurve.backend.isNullPublicKey ⟨none, .pubOnly, 2, 2, [0, 0], [0, 0], ()⟩ = .ok true := by
  constructor <;> rfl

/-- Fixed-output New Hope functions for which the hypotheses of `C25_newhope_agreement` hold. -/
def toyNewHope : NewHopeFns where
  keygen := fun r => (List.replicate 1824 (r.getD 0 0), List.replicate 2048 (r.getD 1 0))
  sharedb := fun _ r => (List.replicate 32 (r.getD 0 0), r.getD 0 0 :: List.replicate 2047 3)
  shareda := fun _ r => List.replicate 32 (r.getD 0 0)

theorem toyNewHope_sized : toyNewHope.Sized where
  keygen_send := by intro r; exact List.length_replicate ..
  keygen_sk := by intro r; exact List.length_replicate ..
  sharedb_key := by intro r s; exact List.length_replicate ..
  sharedb_send := by
    intro r s; exact congrArg (· + 1) (List.length_replicate (n := 2047) (a := (3 : UInt8)))
  shareda_key := by intro r s; exact List.length_replicate ..

example (rndA rndB : Nat → UInt8) :
    toyNewHope.shareda (toyNewHope.keygen (randBytes rndA 64)).2
        (toyNewHope.sharedb (toyNewHope.keygen (randBytes rndA 64)).1 (randBytes rndB 32)).2 =
      (toyNewHope.sharedb (toyNewHope.keygen (randBytes rndA 64)).1 (randBytes rndB 32)).1 := by
  rfl

end Noise
