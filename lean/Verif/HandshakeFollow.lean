import Verif.HandshakeIdle
import Verif.HandshakeLive
/-!
# Following the specification through a whole handshake
-/

namespace Noise

open Spec (Tok HSt Res)

/-- Every party of every library pattern is ready for the first message. -/
theorem ready_table {id : Int} {t : Bytes} {fl : PatFlags} (h : patternLookup id = some t)
    (hf : patternFlags t = .ok fl) (role : Role) :
    HS.ready (HS.presOf (HS.roleFlags fl role)) role (role == .initiator) (t.drop 2) = true := by
  have key : ∀ e ∈ patternTable, (match patternFlags e.2 with
      | .ok fl => [Role.initiator, .responder].all fun role =>
          HS.ready (HS.presOf (HS.roleFlags fl role)) role (role == .initiator) (e.2.drop 2)
      | _ => true) = true := by decide +kernel
  have := key _ (patternLookup_mem h)
  simp only [hf, List.all_eq_true] at this
  exact this role (by cases role <;> simp)

namespace HS
variable {X : Setup} {P Q : Spec.DH}

/-- The object stands where the specification state `st` stands: same keys and symmetric state, same
messages to come, and its turn to send or receive (or to split). -/
structure Follows (R : Real X P Q) (s : X.H) (st : HSt P Q) : Prop where
  rel : Rel R s st
  split : st.msgs = [] → s.action = .split
  turn : st.msgs ≠ [] → ∃ w : Bool, s.action = (if w then .write else .read) ∧
    decodeMsgs s.tokens = some st.msgs ∧ ready s.pres s.role w s.tokens = true ∧
    st.Live (if w then st.role else st.role.flip)

theorem start_requirements {s s' : X.H} (hs : s.start X.S.CB = .ok (.none, s')) :
    s.action = .none ∧ (s.reqs.localReq = true → hasKeypairP s.ls = true) ∧
    (s.reqs.remoteReq = true → hasPublicKeyP s.rs = true) := by
  unfold start at hs
  split at hs
  · cases hs
  next c0 =>
  split at hs
  · cases hs
  split at hs
  · cases hs
  next c1 =>
  split at hs
  · cases hs
  next c2 =>
  refine ⟨by simpa using c0, fun h => ?_, fun h => ?_⟩
  · cases hk : hasKeypairP s.ls with
    | true => rfl
    | false => exact absurd ⟨h, hk⟩ c1
  · cases hk : hasPublicKeyP s.rs with
    | true => rfl
    | false => exact absurd ⟨h, hk⟩ c2

theorem mem_known {p : Spec.Pattern} {r : Role} {t : Tok} : (r, t) ∈ p.known ↔ p.preKey r t = true := by
  simp [Spec.Pattern.preKey]

/-- After `start` the object follows the specification. -/
theorem Waiting.follows {R : Real X P Q} {fb : Bool} {name : Bytes} {p : Spec.Pattern} {s s' : X.H}
    {st : HSt P Q} (h : Waiting R fb name p s st) (hs : s.start X.S.CB = .ok (.none, s'))
    (hd : decodeMsgs s.tokens = some p.msgs)
    (hr : ready s.pres s.role (s.role == .initiator) s.tokens = true)
    (hf0 : st.preMsgKey .initiator .f = none)
    (hf1 : p.preKey .responder .e = false → st.preMsgKey .responder .f = none) :
    ∃ st', HSt.initState X.S.crypto name p s.prologue
        (if s.sym.id.prefixId = prefixPsk then some s.psk else none) st = .ok st' ∧
      Follows R s' st' ∧ s.Frame s' ∧ st'.msgs = p.msgs ∧ st'.role = s.role ∧
      s'.action = (match s.role with | .initiator => .write | .responder => .read) ∧
      st'.s = st.s ∧ st'.e = st.e ∧ st'.f = st.f ∧ st'.rs = st.rs ∧ st'.re = st.re ∧ st'.rf = st.rf ∧
      st'.Knows p.known := by
  obtain ⟨st', k1, k2, kf, k3, k4, k5, k6, k7, k8, k9, k10, k11⟩ := start_rel h hs
  have hrole : st'.role = s.role := k2.role.trans kf.role
  obtain ⟨t, fl, h1, h2, r1, r2, r3, r4, r5, r6⟩ := h.reqs
  have hpat := h.pat t fl h1 h2
  obtain ⟨f1, f2, f3⟩ := hpat.flags s.role
  obtain ⟨_, q1, q2⟩ := start_requirements hs
  have hloc : p.hasKey s.role .s = true ∨ p.preKey s.role .s = true → st.s.isSome = true := by
    intro hk
    have := q1 (by rw [r1]; simpa [requirements, f1, f2] using hk)
    cases hl : s.ls with
    | none => rw [hl] at this; cases this
    | some d => exact h.own d hl (by rw [hl] at this; simpa [hasKeypairP, DHState.hasKeypair] using this)
  have hrem : p.preKey s.role.flip .s = true → st.rs.isSome = true := by
    intro hk
    have := q2 (by rw [r2]; simpa [requirements, f3] using hk)
    cases hl : s.rs with
    | none => rw [hl] at this; cases this
    | some d => exact h.rem d hl (by rw [hl] at this; simpa [hasPublicKeyP, DHState.hasPublicKey] using this)
  have hshape := hpat.shape
  simp only [preShape, Bool.and_eq_true, decide_eq_true_eq] at hshape
  obtain ⟨⟨⟨sI, sR⟩, sF⟩, sE⟩ := hshape
  have hIe : p.preKey .initiator .e = false ∧ p.preKey .initiator .f = false := by
    have : ∀ t, t ≠ .s → p.preKey .initiator t = false := by
      intro t ht
      have hmem : ∀ x ∈ p.preI, x = .s := by
        intro x hx
        rw [sI] at hx
        split at hx <;> simp_all
      have hnot : t ∉ p.preI := fun hx => ht (hmem t hx)
      simp [Spec.Pattern.preKey, Spec.Pattern.known, hnot]
    exact ⟨this _ (by simp), this _ (by simp)⟩
  have hRf : p.preKey .responder .f = true → p.preKey .responder .e = true := by
    intro hx; rw [hx] at sF; simpa using sF
  have knows : st'.Knows p.known := by
    refine ⟨fun u hu hm => ?_, fun u hu hm => ?_, fun hm => ?_, fun hm => ?_⟩
    · rw [hrole, mem_known] at hm
      cases u with
      | s => simp only [HSt.ownPub, k6, Option.isSome_map]; exact hloc (.inr hm)
      | e =>
        cases hro : s.role with
        | initiator => rw [hro, hIe.1] at hm; cases hm
        | responder =>
          rw [hro] at hm
          have := (h.eph hm).2
          simp only [HSt.preMsgKey, h.rel.role, hro, if_true] at this
          simpa [HSt.ownPub, k7] using this
      | f =>
        cases hro : s.role with
        | initiator => rw [hro, hIe.2] at hm; cases hm
        | responder =>
          rw [hro] at hm
          have := (h.hyb (hRf hm)).mp hm
          simp only [HSt.preMsgKey, h.rel.role, hro, if_true] at this
          simpa [HSt.ownPub, k8] using this
      | _ => cases hu
    · rw [hrole, mem_known] at hm
      cases u with
      | s => simp only [HSt.remPub, k9]; exact hrem hm
      | e =>
        cases hro : s.role with
        | responder => rw [hro] at hm; exact absurd hm (by simp [Role.flip, hIe.1])
        | initiator =>
          rw [hro] at hm
          have := (h.eph hm).2
          simp only [HSt.preMsgKey, h.rel.role, hro] at this
          simpa [HSt.remPub, k10] using this
      | f =>
        cases hro : s.role with
        | responder => rw [hro] at hm; exact absurd hm (by simp [Role.flip, hIe.2])
        | initiator =>
          rw [hro] at hm
          have := (h.hyb (hRf hm)).mp hm
          simp only [HSt.preMsgKey, h.rel.role, hro] at this
          simpa [HSt.remPub, k11] using this
      | _ => cases hu
    · rw [hrole, mem_known] at hm
      rw [k8]
      cases hro : s.role with
      | initiator =>
        simp only [HSt.preMsgKey, h.rel.role, hro, if_true, Option.map_eq_none_iff] at hf0
        exact hf0
      | responder =>
        rw [hro] at hm
        have : st.preMsgKey .responder .f = none := by
          cases he : p.preKey .responder .e with
          | false => exact hf1 he
          | true =>
            cases hx : st.preMsgKey .responder .f with
            | none => rfl
            | some y => exact absurd ((h.hyb he).mpr (by simp [hx])) hm
        simp only [HSt.preMsgKey, h.rel.role, hro, if_true, Option.map_eq_none_iff] at this
        exact this
    · rw [hrole, mem_known] at hm
      rw [k11]
      cases hro : s.role with
      | responder =>
        simp only [HSt.preMsgKey, h.rel.role, hro] at hf0
        simpa using hf0
      | initiator =>
        rw [hro] at hm
        have : st.preMsgKey .responder .f = none := by
          cases he : p.preKey .responder .e with
          | false => exact hf1 he
          | true =>
            cases hx : st.preMsgKey .responder .f with
            | none => rfl
            | some y => exact absurd ((h.hyb he).mpr (by simp [hx])) hm
        simp only [HSt.preMsgKey, h.rel.role, hro] at this
        simpa using this
  have hne : p.msgs ≠ [] := by
    intro h0; rw [h0] at hd; exact decodeMsgs_ne_nil _ hd
  refine ⟨st', k1, ⟨k2, fun h0 => absurd (k4.symm.trans h0) hne, fun _ => ?_⟩, kf, k4, hrole, k5, k6, k7, k8,
    k9, k10, k11, knows⟩
  refine ⟨s.role == .initiator, ?_, by rw [k3, k4]; exact hd, by rw [k3, kf.pres, kf.role]; exact hr, ?_⟩
  · rw [k5]; cases s.role <;> rfl
  · have : (if (s.role == Role.initiator) = true then st'.role else st'.role.flip) = .initiator := by
      rw [hrole]; cases s.role <;> rfl
    rw [this]
    refine ⟨⟨p.known, knows, ?_⟩, fun hm => ?_⟩
    · rw [k4]
      exact Spec.Pattern.wellFrom p hpat.noRepeat hpat.keys
    · rw [k6]
      rw [k4, hrole] at hm
      exact hloc (.inl (by simp [Spec.Pattern.hasKey, hm]))

/-- The specification's key variables before the start of an ordinary (not fallback) handshake: the
caller's static key pair `own` and the remote static key, if set. -/
def startKeys (s : X.H) (own : Option P.KP) : HSt P Q where
  role := s.role
  psk := decide (s.sym.id.prefixId = prefixPsk)
  sym := { ck := [], h := [], c := { k := none, n := 0 } }
  s := own
  e := none
  f := none
  rs := pubOf s.rs
  re := none
  rf := none
  msgs := []

/-- `own` is the local static key pair of the object. -/
def OwnKey (R : Real X P Q) (s : X.H) : Option P.KP → Prop
  | none => hasKeypairP s.ls = false
  | some k => ∃ d, s.ls = some d ∧ R.RD.KPof d k

/-- Every key pair made through the interface is a genuine one (proved for the curves: C24). -/
def KeysGenuine (R : Real X P Q) : Prop :=
  ∀ d, DHReach X.D d → d.hasKeypair = true → ∃ k, R.RD.KPof d k

theorem KeysGenuine.own {R : Real X P Q} (hk : KeysGenuine R) {s : X.H} (h : Idle X s) :
    ∃ own, OwnKey R s own := by
  cases hl : hasKeypairP s.ls with
  | false => exact ⟨none, hl⟩
  | true =>
    cases hd : s.ls with
    | none => rw [hd] at hl; cases hl
    | some d =>
      rw [hd] at hl
      obtain ⟨k, hk⟩ := hk d (h.ls d hd) hl
      exact ⟨some k, d, hd, hk⟩

theorem _root_.Noise.Idle.waiting {R : Real X P Q} {s : X.H} (h : Idle X s) {name : Bytes}
    (hn : s.sym.Rep (Spec.initializeSymmetric X.S.crypto name)) {p : Spec.Pattern}
    (hp : specPattern s.sym.id.patternId = some p) (he : p.preKey .responder .e = false)
    {own : Option P.KP} (ho : OwnKey R s own) :
    Waiting R false name p s
      { startKeys (Q := Q) s own with sym := Spec.initializeSymmetric X.S.crypto name } where
  inv := h.inv
  rel := {
    sound := h.inv.sound
    sym := hn
    role := rfl
    psk := rfl
    ls := fun k hk => by
      have hk : own = some k := hk
      rw [hk] at ho
      exact ho
    le := fun k hk => by cases hk
    lh := fun k hk => by cases hk
    lhNone := fun _ => h.lh
    rs := fun pb hpb => by
      have hpb : pubOf s.rs = some pb := hpb
      unfold pubOf at hpb
      split at hpb
      · cases hpb
      · next r hr =>
        split at hpb
        · cases hpb
        · next hk => exact ⟨r, hr, hk, by simpa using hpb⟩
    re := fun k hk => by cases hk
    rh := fun k hk => by cases hk
    rhNone := fun _ => h.rh
    lhRole := fun _ _ hk => by cases hk
    rhRole := fun _ _ hk => by cases hk
    bothRole := fun _ _ _ _ hk => by cases hk }
  sym := rfl
  reqs := h.reqs
  pat := fun _ _ h1 h2 => .of_spec hp h1 h2
  psk := h.psk
  own := fun d hd hk => by
    show own.isSome = true
    cases own with
    | some k => rfl
    | none =>
      have ho : hasKeypairP s.ls = false := ho
      rw [hd] at ho
      simp [hasKeypairP, DHState.hasKeypair, hk] at ho
  rem := fun d hd hk => by
    show (pubOf s.rs).isSome = true
    simp [hd, pubOf, hk]
  eph := fun hx => by rw [he] at hx; cases hx
  hyb := fun hx => by rw [he] at hx; cases hx

/-- `start` of an ordinary handshake. -/
theorem _root_.Noise.Idle.follows {R : Real X P Q} {s s' : X.H} (h : Idle X s) {name : Bytes}
    (hn : s.sym.Rep (Spec.initializeSymmetric X.S.crypto name)) {p : Spec.Pattern}
    (hp : specPattern s.sym.id.patternId = some p) (he : p.preKey .responder .e = false)
    {own : Option P.KP} (ho : OwnKey R s own) (hs : s.start X.S.CB = .ok (.none, s')) :
    ∃ st', HSt.initState X.S.crypto name p s.prologue
        (if s.sym.id.prefixId = prefixPsk then some s.psk else none) (startKeys (Q := Q) s own) = .ok st' ∧
      Follows R s' st' ∧ s.Frame s' ∧ st'.msgs = p.msgs ∧ st'.role = s.role ∧
      s'.action = (match s.role with | .initiator => .write | .responder => .read) ∧
      st'.s = own ∧ st'.e = none ∧ st'.f = none ∧ st'.rs = pubOf s.rs ∧ st'.re = none ∧ st'.rf = none ∧
      st'.Knows p.known := by
  obtain ⟨t, fl, t1, t2, t3, t4⟩ := h.tokens
  obtain ⟨p', fl', p1, p2, p3, p4⟩ := C17_tables_are_the_specification t1
  rw [hp] at p1; cases p1
  refine (h.waiting hn hp he ho).follows hs ?_ ?_ ?_ ?_
  · rw [t3]
    exact p2
  · rw [t3, t4]; exact ready_table t1 t2 s.role
  · cases hr : s.role <;> simp [HSt.preMsgKey, startKeys, hr]
  · intro _; cases hr : s.role <;> simp [HSt.preMsgKey, startKeys, hr]

end HS
end Noise
