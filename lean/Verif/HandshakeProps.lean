import Verif.HandshakeSafe
/-!
# Properties of the handshake API over arbitrary call histories
C11 (life-cycle), C15 (start), C16 (memory safety), C20 (fallback patterns), C22 (handshake hash).
-/

namespace Noise

variable {X : Setup}

/-- A HandshakeState object as created by one of the two constructors. -/
inductive Created (X : Setup) : X.H → Prop
  | byId (ctx0 : X.S.HB.Ctx) (stack : Bytes) (id : ProtocolId) (role : Role) (s : X.H) :
      HS.newById X.S.CB ctx0 stack id role = .ok (.ok s) → Created X s
  | byName (ctx0 : X.S.HB.Ctx) (name : Bytes) (role : Role) (s : X.H) :
      HS.newByName X.S.CB ctx0 name role = .ok (.ok s) → Created X s

/-- A HandshakeState object after some calls. -/
def Reached (X : Setup) (s : X.H) : Prop :=
  ∃ s0 ops os, Created X s0 ∧ (∀ op ∈ ops, HOp.ArgsOk X op) ∧ HOp.run X.S.CB s0 ops = .ok (os, s)

theorem Created.inv {s : X.H} (h : Created X s) : s.Inv X := by
  cases h with
  | byId ctx0 stack id role _ h =>
    obtain ⟨r, h1, h2⟩ := HS.newById_ok (X := X) ctx0 stack id role
    rw [h1] at h
    exact (h2 s (Out.ok.inj h)).1
  | byName ctx0 name role _ h =>
    obtain ⟨r, h1, h2⟩ := HS.newByName_ok (X := X) ctx0 name role
    rw [h1] at h
    exact (h2 s (Out.ok.inj h)).1

theorem Reached.inv {s : X.H} (h : Reached X s) : s.Inv X := by
  obtain ⟨s0, ops, os, h1, h2, h3⟩ := h
  obtain ⟨os', s', k1, k2, _⟩ := HOp.run_ok ops h1.inv h2
  rw [h3] at k1
  cases k1
  exact k2

/-! ## C16 -/

/-- C16: creating a HandshakeState is defined for every identifier, every string and every
contents of the stack. -/
theorem C16_creation_defined (X : Setup) (ctx0 : X.S.HB.Ctx) (stack : Bytes) (id : ProtocolId)
    (name : Bytes) (role : Role) :
    (HS.newById X.S.CB ctx0 stack id role : Out (Except Err X.H)) ≠ .ub ∧
    (HS.newByName X.S.CB ctx0 name role : Out (Except Err X.H)) ≠ .ub := by
  obtain ⟨r, h1, _⟩ := HS.newById_ok (X := X) ctx0 stack id role
  obtain ⟨r2, h2, _⟩ := HS.newByName_ok (X := X) ctx0 name role
  rw [h1, h2]
  exact ⟨by simp, by simp⟩

/-- C16: no history of calls on a HandshakeState, whatever the pattern, the role, the keys, the
messages, the random and the uninitialised bytes, dereferences a missing object or accesses memory
outside a buffer; every message and payload buffer comes back with the memory it had and a size
within it. -/
theorem C16_handshake_memory_safe (X : Setup) (s : X.H) (hs : Created X s)
    (ops : List (HOp X.D X.G)) (ha : ∀ op ∈ ops, op.ArgsOk X) :
    ∃ os s', HOp.run X.S.CB s ops = .ok (os, s') ∧ os.length = ops.length ∧
      ∀ p ∈ ops.zip os, HOp.BufOk p.1 p.2 := by
  obtain ⟨os, s', h1, _, h3, h4⟩ := HOp.run_ok ops hs.inv ha
  exact ⟨os, s', h1, h3, h4⟩

/-! ## C11 -/

/-- The life-cycle of the `action` of a HandshakeState, as documented: what each call may do, given
the role, the action before, the code returned and the action after. -/
def Lifecycle (role : Role) (a : Action) (e : Err) (a' : Action) : HOp X.D X.G → Prop
  | .start =>
    (e = .none ∧ a = .none ∧ a' = (match role with | .initiator => .write | .responder => .read)) ∨
    (e ≠ .none ∧ a' = a)
  | .write .. =>
    (a ≠ .write ∧ e = .invalidState ∧ a' = a) ∨
    (a = .write ∧ e = .none ∧ (a' = .read ∨ a' = .split)) ∨
    (a = .write ∧ e ≠ .none ∧ a' = .failed)
  | .read _ msg _ =>
    (msg.size > msg.maxSize ∧ e = .invalidLength ∧ a' = a) ∨
    (a ≠ .read ∧ e = .invalidState ∧ a' = a) ∨
    (a = .read ∧ e = .none ∧ (a' = .write ∨ a' = .split)) ∨
    (a = .read ∧ e ≠ .none ∧ a' = .failed)
  | .split .. =>
    (a = .split ∧ e = .none ∧ a' = .complete) ∨ (e ≠ .none ∧ a' = a)
  | .fallbackTo .. =>
    (e = .none ∧ a' = .none ∧
      (a = .failed ∨ (role = .initiator ∧ a = .read) ∨ (role = .responder ∧ a = .write))) ∨
    (e ≠ .none ∧ a' = a)
  | .setPsk _ => a' = a ∧ (a ≠ .none → e ≠ .none)
  | .setPrologue _ => a' = a ∧ (a ≠ .none → e = .invalidState)
  | .getHash _ => a' = a ∧ (e = .none ↔ a = .split ∨ a = .complete)
  | _ => a' = a

theorem fallbackAllowed_action {s : X.H} (h : s.fallbackAllowed = true) :
    s.action = .failed ∨ (s.role = .initiator ∧ s.action = .read) ∨
      (s.role = .responder ∧ s.action = .write) := by
  unfold HS.fallbackAllowed at h
  cases hr : s.role <;> simp [hr] at h <;> rcases h.1.1 with h | h <;> simp [h]

theorem getFixedE_action (s : X.H) : s.getFixedE.1.action = s.action := by
  unfold HS.getFixedE; repeat' split <;> try rfl

theorem getFixedH_action (s : X.H) : s.getFixedH.1.action = s.action := by
  unfold HS.getFixedH; repeat' split <;> try rfl

theorem lifecycle_step {s s' : X.H} (h : s.Inv X) {op : HOp X.D X.G} {o : HObs}
    (hst : op.step X.S.CB s = .ok (o, s')) : Lifecycle s.role s.action o.err s'.action op := by
  cases op with
  | setPsk k =>
    simp only [HOp.step, Out.ok.injEq, Prod.mk.injEq] at hst
    obtain ⟨rfl, rfl⟩ := hst
    unfold HS.setPsk
    dsimp only [Lifecycle]
    split
    · exact ⟨rfl, by simp⟩
    split
    · exact ⟨rfl, by simp⟩
    split
    · exact ⟨rfl, by simp⟩
    · next h1 => exact ⟨rfl, fun h' => absurd h' h1⟩
  | setPrologue p =>
    simp only [HOp.step, Out.ok.injEq, Prod.mk.injEq] at hst
    obtain ⟨rfl, rfl⟩ := hst
    unfold HS.setPrologue
    dsimp only [Lifecycle]
    split
    · exact ⟨rfl, by simp⟩
    · next h1 => exact ⟨rfl, fun h' => absurd h' h1⟩
  | localStatic op =>
    simp only [HOp.step, Out.bind_eq_ok] at hst
    obtain ⟨r, _, h2⟩ := hst; cases h2; rfl
  | remoteStatic op =>
    simp only [HOp.step, Out.bind_eq_ok] at hst
    obtain ⟨r, _, h2⟩ := hst; cases h2; rfl
  | getFixedE => cases hst; exact getFixedE_action s
  | getFixedH => cases hst; exact getFixedH_action s
  | fixedE op =>
    simp only [HOp.step, Out.bind_eq_ok] at hst
    obtain ⟨r, _, h2⟩ := hst; cases h2; rfl
  | fixedH op =>
    simp only [HOp.step, Out.bind_eq_ok] at hst
    obtain ⟨r, _, h2⟩ := hst; cases h2; rfl
  | start =>
    obtain ⟨e, s1, h1, _, h3, h4⟩ := HS.start_ok h
    simp only [HOp.step, h1, Out.bind_ok, Out.pure_eq, Out.ok.injEq, Prod.mk.injEq] at hst
    obtain ⟨rfl, rfl⟩ := hst
    by_cases he : e = .none
    · exact .inl ⟨he, (h4 he).2.1, (h4 he).2.2.2⟩
    · exact .inr ⟨he, by rw [h3 he]⟩
  | fallbackTo p st =>
    obtain ⟨e, s1, h1, _, h3, h4⟩ := HS.fallbackTo_ok h p st
    simp only [HOp.step, h1, Out.bind_ok, Out.pure_eq, Out.ok.injEq, Prod.mk.injEq] at hst
    obtain ⟨rfl, rfl⟩ := hst
    by_cases he : e = .none
    · exact .inl ⟨he, (h4 he).action, fallbackAllowed_action (h4 he).allowed⟩
    · exact .inr ⟨he, by rw [h3 he]⟩
  | write rnd junk mem pl =>
    obtain ⟨e, s1, b, h1, _, _, _, h3, h4⟩ := HS.writeMessage_ok h rnd junk mem pl
    simp only [HOp.step, h1, Out.bind_ok, Out.pure_eq, Out.ok.injEq, Prod.mk.injEq] at hst
    obtain ⟨rfl, rfl⟩ := hst
    by_cases ha : s.action = .write
    · obtain ⟨_, k2, k3⟩ := h4 ha
      by_cases he : e = .none
      · exact .inr (.inl ⟨ha, he, k2 he⟩)
      · exact .inr (.inr ⟨ha, he, (k3 he).1⟩)
    · exact .inl ⟨ha, (h3 ha).1, by rw [(h3 ha).2]⟩
  | read junk msg pl =>
    obtain ⟨e, s1, b, p, h1, _, _, _, _, h2, h3, h4⟩ := HS.readMessage_ok h junk msg pl
    simp only [HOp.step, h1, Out.bind_ok, Out.pure_eq, Out.ok.injEq, Prod.mk.injEq] at hst
    obtain ⟨rfl, rfl⟩ := hst
    by_cases hm : msg.size > msg.maxSize
    · exact .inl ⟨hm, (h2 hm).1, by rw [(h2 hm).2]⟩
    have hm' : msg.size ≤ msg.maxSize := by omega
    by_cases ha : s.action = .read
    · obtain ⟨_, k2, k3⟩ := h4 hm' ha
      by_cases he : e = .none
      · exact .inr (.inr (.inl ⟨ha, he, k2 he⟩))
      · exact .inr (.inr (.inr ⟨ha, he, (k3 he).1⟩))
    · exact .inr (.inl ⟨ha, (h3 hm' ha).1, by rw [(h3 hm' ha).2]⟩)
  | split a b c =>
    obtain ⟨e, s1, x, y, h1, _, _, h3, h4, _⟩ := HS.split_ok h a b c
    simp only [HOp.step, h1, Out.bind_ok, Out.pure_eq, Out.ok.injEq, Prod.mk.injEq] at hst
    obtain ⟨rfl, rfl⟩ := hst
    by_cases he : e = .none
    · exact .inl ⟨(h3 he).1, he, (h3 he).2⟩
    · exact .inr ⟨he, (h4 he).1⟩
  | getHash n =>
    obtain ⟨e, x, h1⟩ := HS.getHandshakeHash_ok h n
    simp only [HOp.step, h1, Out.bind_ok, Out.pure_eq, Out.ok.injEq, Prod.mk.injEq] at hst
    obtain ⟨rfl, rfl⟩ := hst
    refine ⟨rfl, ?_⟩
    unfold HS.getHandshakeHash at h1
    dsimp only
    split at h1
    · next hc => cases h1; simp at hc ⊢; exact hc
    · next hc =>
      have : e = .none := by
        split at h1
        · rw [load_ok (by rw [h.sound.sym.1]; omega)] at h1; cases h1; rfl
        · rw [load_ok (by rw [h.sound.sym.1]; omega)] at h1; cases h1; rfl
      simp only [this, true_iff]
      by_cases h5 : s.action = .split
      · exact .inl h5
      · right
        apply Classical.byContradiction
        intro h6; exact hc ⟨h5, h6⟩

/-- C11: in every reachable state, every call follows the documented life-cycle. -/
theorem C11_lifecycle (X : Setup) (s s' : X.H) (hs : Reached X s) (op : HOp X.D X.G) (o : HObs)
    (hst : op.step X.S.CB s = .ok (o, s')) : Lifecycle s.role s.action o.err s'.action op :=
  lifecycle_step hs.inv hst

/-- The calls that drive a handshake forward. -/
def HOp.isDriver : HOp X.D X.G → Bool
  | .start | .write .. | .read .. | .split .. | .fallbackTo .. | .setPsk _ | .setPrologue _ => true
  | _ => false

/-- C11: a message, split or start call in the wrong state, with arguments that pass the argument
checks, returns INVALID_STATE and changes nothing at all (messages and payload are returned
empty). -/
theorem C11_wrong_state_inert (X : Setup) (s : X.H) (rnd junk : Nat → Nat → UInt8) (mem : Bytes)
    (payload : Option Bytes) (msg : Buf) (a b c : Bool) :
    (s.action ≠ .write → s.writeMessage X.S.CB rnd junk mem payload = .ok (.invalidState, s, ⟨mem, 0⟩)) ∧
    (s.action ≠ .read → msg.size ≤ msg.maxSize →
      s.readMessage X.S.CB junk msg payload = .ok (.invalidState, s, msg, payload.map (⟨·, 0⟩))) ∧
    (s.action ≠ .split → (a = true ∨ b = true) → s.split X.S.CB a b c = .ok (.invalidState, s, none, none)) ∧
    (s.action ≠ .none → s.start X.S.CB = .ok (.invalidState, s)) := by
  refine ⟨fun h => ?_, fun h hm => ?_, fun h hw => ?_, fun h => ?_⟩
  · rw [HS.writeMessage, if_pos h]
  · rw [HS.readMessage, if_neg (by omega), if_pos h]
  · rw [HS.split, if_neg (by rcases hw with h | h <;> simp [h]), if_pos h]
  · rw [HS.start, if_pos h]

/-- C11: FAILED can only be left by a fallback: along every history from a FAILED state in which no
fallback succeeds, nothing that drives a handshake succeeds and the state stays FAILED. -/
theorem C11_failed_is_stuck (X : Setup) : ∀ (ops : List (HOp X.D X.G)) (s s' : X.H) (os : List HObs),
    Reached X s → s.action = .failed → (∀ op ∈ ops, op.ArgsOk X) →
    HOp.run X.S.CB s ops = .ok (os, s') →
    (∀ p ∈ ops.zip os, (∃ id st, p.1 = .fallbackTo id st) → p.2.err ≠ .none) →
    s'.action = .failed ∧ ∀ p ∈ ops.zip os, p.1.isDriver = true → p.2.err ≠ .none := by
  suffices H : ∀ (ops : List (HOp X.D X.G)) (s s' : X.H) (os : List HObs),
      s.Inv X → s.action = .failed → (∀ op ∈ ops, op.ArgsOk X) →
      HOp.run X.S.CB s ops = .ok (os, s') →
      (∀ p ∈ ops.zip os, (∃ id st, p.1 = .fallbackTo id st) → p.2.err ≠ .none) →
      s'.action = .failed ∧ ∀ p ∈ ops.zip os, p.1.isDriver = true → p.2.err ≠ .none from
    fun ops s s' os h => H ops s s' os h.inv
  intro ops
  induction ops with
  | nil => intro s s' os _ ha _ hr _; cases hr; exact ⟨ha, by simp⟩
  | cons op ops ih =>
    intro s s' os hi ha harg hr hno
    simp only [HOp.run, Out.bind_eq_ok] at hr
    obtain ⟨⟨o, s1⟩, hstep, ⟨os1, s2⟩, hrun, hr⟩ := hr
    cases hr
    have hl := lifecycle_step hi hstep
    obtain ⟨o', s1', hs1, hi1, _⟩ := HOp.step_ok hi op (harg op (by simp))
    rw [hstep] at hs1; cases hs1
    have hop := hno (op, o) (by simp)
    rw [ha] at hl
    have key : s1.action = .failed ∧ (op.isDriver = true → o.err ≠ .none) := by
      cases op <;> simp only [Lifecycle, HOp.isDriver] at hl ⊢ <;> try simp at hl
      case setPsk => exact ⟨hl.1, fun _ => hl.2⟩
      case setPrologue => exact ⟨hl.1, fun _ => by rw [hl.2]; simp⟩
      case localStatic => exact ⟨hl, by simp⟩
      case remoteStatic => exact ⟨hl, by simp⟩
      case getFixedE => exact ⟨hl, by simp⟩
      case fixedE => exact ⟨hl, by simp⟩
      case getFixedH => exact ⟨hl, by simp⟩
      case fixedH => exact ⟨hl, by simp⟩
      case start => exact ⟨hl.2, fun _ => hl.1⟩
      case fallbackTo =>
        have h' := hop ⟨_, _, rfl⟩
        rcases hl with h | h
        · exact absurd h.1 h'
        · exact ⟨h.2, fun _ => h'⟩
      case write => exact ⟨hl.2, fun _ => by rw [hl.1]; simp⟩
      case read =>
        rcases hl with h | h
        · exact ⟨h.2.2, fun _ => by rw [h.2.1]; simp⟩
        · exact ⟨h.2, fun _ => by rw [h.1]; simp⟩
      case split => exact ⟨hl.2, fun _ => hl.1⟩
      case getHash => exact ⟨hl.1, by simp⟩
    obtain ⟨k1, k2⟩ := ih s1 s2 os1 hi1 key.1 (fun q hq => harg q (by simp [hq])) hrun
      (fun p hp => hno p (by simp [hp]))
    refine ⟨k1, ?_⟩
    intro p hp
    simp only [List.zip_cons_cons, List.mem_cons] at hp
    rcases hp with rfl | hp
    · exact key.2
    · exact k2 p hp

/-- C11: COMPLETE is terminal: along every history from a COMPLETE state the state stays COMPLETE
and no call that drives a handshake succeeds (in particular no second split). -/
theorem C11_complete_is_terminal (X : Setup) : ∀ (ops : List (HOp X.D X.G)) (s s' : X.H) (os : List HObs),
    Reached X s → s.action = .complete → (∀ op ∈ ops, op.ArgsOk X) →
    HOp.run X.S.CB s ops = .ok (os, s') →
    s'.action = .complete ∧ ∀ p ∈ ops.zip os, p.1.isDriver = true → p.2.err ≠ .none := by
  suffices H : ∀ (ops : List (HOp X.D X.G)) (s s' : X.H) (os : List HObs),
      s.Inv X → s.action = .complete → (∀ op ∈ ops, op.ArgsOk X) →
      HOp.run X.S.CB s ops = .ok (os, s') →
      s'.action = .complete ∧ ∀ p ∈ ops.zip os, p.1.isDriver = true → p.2.err ≠ .none from
    fun ops s s' os h => H ops s s' os h.inv
  intro ops
  induction ops with
  | nil => intro s s' os _ ha _ hr; cases hr; exact ⟨ha, by simp⟩
  | cons op ops ih =>
    intro s s' os hi ha harg hr
    simp only [HOp.run, Out.bind_eq_ok] at hr
    obtain ⟨⟨o, s1⟩, hstep, ⟨os1, s2⟩, hrun, hr⟩ := hr
    cases hr
    have hl := lifecycle_step hi hstep
    obtain ⟨o', s1', hs1, hi1, _⟩ := HOp.step_ok hi op (harg op (by simp))
    rw [hstep] at hs1; cases hs1
    rw [ha] at hl
    have key : s1.action = .complete ∧ (op.isDriver = true → o.err ≠ .none) := by
      cases op <;> simp only [Lifecycle, HOp.isDriver] at hl ⊢ <;> try simp at hl
      case setPsk => exact ⟨hl.1, fun _ => hl.2⟩
      case setPrologue => exact ⟨hl.1, fun _ => by rw [hl.2]; simp⟩
      case localStatic => exact ⟨hl, by simp⟩
      case remoteStatic => exact ⟨hl, by simp⟩
      case getFixedE => exact ⟨hl, by simp⟩
      case fixedE => exact ⟨hl, by simp⟩
      case getFixedH => exact ⟨hl, by simp⟩
      case fixedH => exact ⟨hl, by simp⟩
      case start => exact ⟨hl.2, fun _ => hl.1⟩
      case fallbackTo => exact ⟨hl.2, fun _ => hl.1⟩
      case write => exact ⟨hl.2, fun _ => by rw [hl.1]; simp⟩
      case read =>
        rcases hl with h | h
        · exact ⟨h.2.2, fun _ => by rw [h.2.1]; simp⟩
        · exact ⟨h.2, fun _ => by rw [h.1]; simp⟩
      case split => exact ⟨hl.2, fun _ => hl.1⟩
      case getHash => exact ⟨hl.1, by simp⟩
    obtain ⟨k1, k2⟩ := ih s1 s2 os1 hi1 key.1 (fun q hq => harg q (by simp [hq])) hrun
    refine ⟨k1, ?_⟩
    intro p hp
    simp only [List.zip_cons_cons, List.mem_cons] at hp
    rcases hp with rfl | hp
    · exact key.2
    · exact k2 p hp

/-! ## C22 -/

/-- C22: the handshake hash is available exactly from SPLIT on; the caller gets the hash, truncated
or padded with zeros to the length asked for, in exactly that length. -/
theorem C22_handshake_hash (X : Setup) (s : X.H) (hs : Reached X s) (n : Nat) :
    ((s.action = .split ∨ s.action = .complete) →
      s.getHandshakeHash n =
        .ok (.none, some ((s.sym.h ++ List.replicate (n - s.sym.h.length) 0).take n))) ∧
    (¬(s.action = .split ∨ s.action = .complete) → s.getHandshakeHash n = .ok (.invalidState, none)) := by
  have hl := hs.inv.sound.sym.1
  unfold HS.getHandshakeHash
  constructor
  · intro h
    rw [if_neg (by rcases h with h | h <;> simp [h])]
    by_cases hn : X.S.HB.hashLen ≤ n
    · rw [if_pos hn, load_full _ _ hl.symm]
      simp only [Out.bind_ok, Out.pure_eq, hl]
      rw [List.take_of_length_le (by simp; omega)]
    · rw [if_neg hn, load_ok (by omega)]
      simp only [Out.bind_ok, Out.pure_eq, List.drop_zero]
      rw [List.take_append_of_le_length (by omega)]
  · intro h
    rw [if_pos (by simpa using h)]

/-- C22: once SPLIT is reached, the handshake hash does not change any more, whatever is called. -/
theorem C22_hash_is_final (X : Setup) : ∀ (ops : List (HOp X.D X.G)) (s s' : X.H) (os : List HObs),
    Reached X s → (s.action = .split ∨ s.action = .complete) → (∀ op ∈ ops, op.ArgsOk X) →
    HOp.run X.S.CB s ops = .ok (os, s') →
    (s'.action = .split ∨ s'.action = .complete) ∧
    ∀ n, s'.getHandshakeHash n = s.getHandshakeHash n := by
  suffices H : ∀ (ops : List (HOp X.D X.G)) (s s' : X.H) (os : List HObs),
      s.Inv X → (s.action = .split ∨ s.action = .complete) → (∀ op ∈ ops, op.ArgsOk X) →
      HOp.run X.S.CB s ops = .ok (os, s') →
      (s'.action = .split ∨ s'.action = .complete) ∧ s'.sym.h = s.sym.h by
    intro ops s s' os hs ha harg hr
    obtain ⟨k1, k2⟩ := H ops s s' os hs.inv ha harg hr
    refine ⟨k1, fun n => ?_⟩
    unfold HS.getHandshakeHash
    rw [if_neg (show ¬(s'.action ≠ .split ∧ s'.action ≠ .complete) by rcases k1 with h | h <;> simp [h]),
      if_neg (show ¬(s.action ≠ .split ∧ s.action ≠ .complete) by rcases ha with h | h <;> simp [h]), k2]
  intro ops
  induction ops with
  | nil => intro s s' os _ ha _ hr; cases hr; exact ⟨ha, rfl⟩
  | cons op ops ih =>
    intro s s' os hi ha harg hr
    simp only [HOp.run, Out.bind_eq_ok] at hr
    obtain ⟨⟨o, s1⟩, hstep, ⟨os1, s2⟩, hrun, hr⟩ := hr
    cases hr
    obtain ⟨o', s1', hs1, hi1, _⟩ := HOp.step_ok hi op (harg op (by simp))
    rw [hstep] at hs1; cases hs1
    have key : (s1.action = .split ∨ s1.action = .complete) ∧ s1.sym.h = s.sym.h := by
      cases op with
      | setPsk k =>
        cases hstep
        unfold HS.setPsk
        repeat' split <;> try exact ⟨ha, rfl⟩
      | setPrologue p =>
        cases hstep
        unfold HS.setPrologue
        repeat' split <;> try exact ⟨ha, rfl⟩
      | localStatic op =>
        simp only [HOp.step, Out.bind_eq_ok] at hstep
        obtain ⟨r, _, h2⟩ := hstep; cases h2; exact ⟨ha, rfl⟩
      | remoteStatic op =>
        simp only [HOp.step, Out.bind_eq_ok] at hstep
        obtain ⟨r, _, h2⟩ := hstep; cases h2; exact ⟨ha, rfl⟩
      | fixedE op =>
        simp only [HOp.step, Out.bind_eq_ok] at hstep
        obtain ⟨r, _, h2⟩ := hstep; cases h2; exact ⟨ha, rfl⟩
      | fixedH op =>
        simp only [HOp.step, Out.bind_eq_ok] at hstep
        obtain ⟨r, _, h2⟩ := hstep; cases h2; exact ⟨ha, rfl⟩
      | getFixedE =>
        cases hstep
        unfold HS.getFixedE
        repeat' split <;> try exact ⟨ha, rfl⟩
      | getFixedH =>
        cases hstep
        unfold HS.getFixedH
        repeat' split <;> try exact ⟨ha, rfl⟩
      | start =>
        obtain ⟨e, q, h1, _, h3, h4⟩ := HS.start_ok hi
        simp only [HOp.step, h1, Out.bind_ok, Out.pure_eq, Out.ok.injEq, Prod.mk.injEq] at hstep
        obtain ⟨rfl, rfl⟩ := hstep
        by_cases he : e = .none
        · rw [(h4 he).2.1] at ha; simp at ha
        · rw [h3 he]; exact ⟨ha, rfl⟩
      | fallbackTo p st =>
        obtain ⟨e, q, h1, _, h3, h4⟩ := HS.fallbackTo_ok hi p st
        simp only [HOp.step, h1, Out.bind_ok, Out.pure_eq, Out.ok.injEq, Prod.mk.injEq] at hstep
        obtain ⟨rfl, rfl⟩ := hstep
        by_cases he : e = .none
        · have := fallbackAllowed_action (h4 he).allowed
          rcases ha with h | h <;> rw [h] at this <;> simp at this
        · rw [h3 he]; exact ⟨ha, rfl⟩
      | write rnd junk mem pl =>
        obtain ⟨e, q, b, h1, _, _, _, h3, h4⟩ := HS.writeMessage_ok hi rnd junk mem pl
        simp only [HOp.step, h1, Out.bind_ok, Out.pure_eq, Out.ok.injEq, Prod.mk.injEq] at hstep
        obtain ⟨rfl, rfl⟩ := hstep
        rw [(h3 (by rcases ha with h | h <;> simp [h])).2]; exact ⟨ha, rfl⟩
      | read junk msg pl =>
        obtain ⟨e, q, b, p, h1, _, _, _, _, h2, h3, _⟩ := HS.readMessage_ok hi junk msg pl
        simp only [HOp.step, h1, Out.bind_ok, Out.pure_eq, Out.ok.injEq, Prod.mk.injEq] at hstep
        obtain ⟨rfl, rfl⟩ := hstep
        by_cases hm : msg.size > msg.maxSize
        · rw [(h2 hm).2]; exact ⟨ha, rfl⟩
        · rw [(h3 (by omega) (by rcases ha with h | h <;> simp [h])).2]; exact ⟨ha, rfl⟩
      | split a b c =>
        obtain ⟨e, q, x, y, h1, _, hh, h3, h4, _⟩ := HS.split_ok hi a b c
        simp only [HOp.step, h1, Out.bind_ok, Out.pure_eq, Out.ok.injEq, Prod.mk.injEq] at hstep
        obtain ⟨rfl, rfl⟩ := hstep
        refine ⟨?_, hh⟩
        by_cases he : e = .none
        · exact .inr (h3 he).2
        · rw [(h4 he).1]; exact ha
      | getHash n =>
        simp only [HOp.step, Out.bind_eq_ok] at hstep
        obtain ⟨r, _, h2⟩ := hstep; cases h2; exact ⟨ha, rfl⟩
    obtain ⟨k1, k2⟩ := ih s1 s2 os1 hi1 key.1 (fun q hq => harg q (by simp [hq])) hrun
    exact ⟨k1, k2.trans key.2⟩

/-! ## C15, C20 -/

/-- The requirement bits are those of the current pattern; `fb` says whether it was entered by a
fallback. -/
def ReqsOk (X : Setup) (fb : Bool) (s : X.H) : Prop :=
  ∃ t fl, patternLookup s.sym.id.patternId = some t ∧ patternFlags t = .ok fl ∧
    s.reqs.localReq = (HS.requirements (HS.roleFlags fl s.role) s.sym.id.prefixId fb).localReq ∧
    s.reqs.remoteReq = (HS.requirements (HS.roleFlags fl s.role) s.sym.id.prefixId fb).remoteReq ∧
    s.reqs.psk = (HS.requirements (HS.roleFlags fl s.role) s.sym.id.prefixId fb).psk ∧
    s.reqs.localPre = (HS.requirements (HS.roleFlags fl s.role) s.sym.id.prefixId fb).localPre ∧
    s.reqs.remotePre = (HS.requirements (HS.roleFlags fl s.role) s.sym.id.prefixId fb).remotePre ∧
    s.reqs.fallbackPre = (HS.requirements (HS.roleFlags fl s.role) s.sym.id.prefixId fb).fallbackPre

theorem ReqsOk.congr {fb : Bool} {s s' : X.H} (h : ReqsOk X fb s) (h1 : s'.reqs = s.reqs)
    (h2 : s'.role = s.role) (h3 : s'.sym.id = s.sym.id) : ReqsOk X fb s' := by
  unfold ReqsOk
  rw [h1, h2, h3]
  exact h

theorem Created.reqs {s : X.H} (h : Created X s) : ReqsOk X false s := by
  have key : ∀ sym role t fl, HS.Fresh X sym role t fl s → patternLookup sym.id.patternId = some t →
      patternFlags t = .ok fl → ReqsOk X false s := by
    intro sym role t fl hf h1 h2
    refine ⟨t, fl, by rw [hf.sym]; exact h1, h2, ?_⟩
    rw [hf.reqs, hf.role, hf.sym]
    exact ⟨rfl, rfl, rfl, rfl, rfl, rfl⟩
  cases h with
  | byId ctx0 stack id role _ h =>
    obtain ⟨r, h1, h2⟩ := HS.newById_ok (X := X) ctx0 stack id role
    rw [h1] at h
    obtain ⟨_, sym, t, fl, k1, k2, k3, k4⟩ := h2 s (Out.ok.inj h)
    exact key sym role t fl k2 (k1 ▸ k3) k4
  | byName ctx0 name role _ h =>
    obtain ⟨r, h1, h2⟩ := HS.newByName_ok (X := X) ctx0 name role
    rw [h1] at h
    obtain ⟨_, sym, t, fl, k1, k2, k3, k4⟩ := h2 s (Out.ok.inj h)
    exact key sym role t fl k2 k3 k4

/-- A fallback call that succeeded. -/
def isFallback (p : HOp X.D X.G × HObs) : Bool :=
  match p.1 with
  | .fallbackTo .. => p.2.err == .none
  | _ => false

/-- Only a successful fallback changes the requirements, the role or the protocol. -/
theorem keep_step {s s' : X.H} (h : s.Inv X) {op : HOp X.D X.G} {o : HObs}
    (hst : op.step X.S.CB s = .ok (o, s')) (hnf : isFallback (op, o) = false) :
    s'.reqs = s.reqs ∧ s'.role = s.role ∧ s'.sym.id = s.sym.id := by
  have same : ∀ q : X.H, isFallback (op, o) = false → q.reqs = s.reqs → q.role = s.role →
      q.sym.id = s.sym.id → q.reqs = s.reqs ∧ q.role = s.role ∧ q.sym.id = s.sym.id := by
    intro q h0 h1 h2 h3
    exact ⟨h1, h2, h3⟩
  cases op with
  | setPsk k =>
    cases hst
    refine same _ rfl ?_ ?_ ?_ <;> (unfold HS.setPsk; repeat' split) <;> rfl
  | setPrologue p =>
    cases hst
    refine same _ rfl ?_ ?_ ?_ <;> (unfold HS.setPrologue; repeat' split) <;> rfl
  | localStatic op =>
    simp only [HOp.step, Out.bind_eq_ok] at hst
    obtain ⟨r, _, h2⟩ := hst; cases h2; exact same _ rfl rfl rfl rfl
  | remoteStatic op =>
    simp only [HOp.step, Out.bind_eq_ok] at hst
    obtain ⟨r, _, h2⟩ := hst; cases h2; exact same _ rfl rfl rfl rfl
  | fixedE op =>
    simp only [HOp.step, Out.bind_eq_ok] at hst
    obtain ⟨r, _, h2⟩ := hst; cases h2; exact same _ rfl rfl rfl rfl
  | fixedH op =>
    simp only [HOp.step, Out.bind_eq_ok] at hst
    obtain ⟨r, _, h2⟩ := hst; cases h2; exact same _ rfl rfl rfl rfl
  | getFixedE =>
    cases hst
    refine same _ rfl ?_ ?_ ?_ <;> (unfold HS.getFixedE; repeat' split) <;> rfl
  | getFixedH =>
    cases hst
    refine same _ rfl ?_ ?_ ?_ <;> (unfold HS.getFixedH; repeat' split) <;> rfl
  | start =>
    obtain ⟨e, q, h1, _, h3, h4⟩ := HS.start_ok h
    simp only [HOp.step, h1, Out.bind_ok, Out.pure_eq, Out.ok.injEq, Prod.mk.injEq] at hst
    obtain ⟨rfl, rfl⟩ := hst
    by_cases he : e = .none
    · exact same _ rfl (h4 he).1.reqs (h4 he).1.role (h4 he).1.sym.id
    · rw [h3 he]; exact same _ rfl rfl rfl rfl
  | fallbackTo p st =>
    obtain ⟨e, q, h1, _, h3, h4⟩ := HS.fallbackTo_ok h p st
    simp only [HOp.step, h1, Out.bind_ok, Out.pure_eq, Out.ok.injEq, Prod.mk.injEq] at hst
    obtain ⟨rfl, rfl⟩ := hst
    have he : e ≠ .none := by intro he; simp [isFallback, he] at hnf
    rw [h3 he]; exact same _ (by simp [isFallback, he]) rfl rfl rfl
  | write rnd junk mem pl =>
    obtain ⟨e, q, b, h1, _, _, _, h3, h4⟩ := HS.writeMessage_ok h rnd junk mem pl
    simp only [HOp.step, h1, Out.bind_ok, Out.pure_eq, Out.ok.injEq, Prod.mk.injEq] at hst
    obtain ⟨rfl, rfl⟩ := hst
    by_cases ha : s.action = .write
    · exact same _ rfl (h4 ha).1.reqs (h4 ha).1.role (h4 ha).1.sym.id
    · rw [(h3 ha).2]; exact same _ rfl rfl rfl rfl
  | read junk msg pl =>
    obtain ⟨e, q, b, p, h1, _, _, _, _, h2, h3, h4⟩ := HS.readMessage_ok h junk msg pl
    simp only [HOp.step, h1, Out.bind_ok, Out.pure_eq, Out.ok.injEq, Prod.mk.injEq] at hst
    obtain ⟨rfl, rfl⟩ := hst
    by_cases hm : msg.size > msg.maxSize
    · rw [(h2 hm).2]; exact same _ rfl rfl rfl rfl
    · by_cases ha : s.action = .read
      · exact same _ rfl (h4 (by omega) ha).1.reqs (h4 (by omega) ha).1.role (h4 (by omega) ha).1.sym.id
      · rw [(h3 (by omega) ha).2]; exact same _ rfl rfl rfl rfl
  | split a b c =>
    obtain ⟨e, q, x, y, h1, _, hh, h3, h4, k1, k2, k3⟩ := HS.split_ok h a b c
    simp only [HOp.step, h1, Out.bind_ok, Out.pure_eq, Out.ok.injEq, Prod.mk.injEq] at hst
    obtain ⟨rfl, rfl⟩ := hst
    exact same _ rfl k2 k1 k3
  | getHash n =>
    simp only [HOp.step, Out.bind_eq_ok] at hst
    obtain ⟨r, _, h2⟩ := hst; cases h2; exact same _ rfl rfl rfl rfl

theorem reqs_step {s s' : X.H} (h : s.Inv X) {fb : Bool} (hr : ReqsOk X fb s) {op : HOp X.D X.G} {o : HObs}
    (hst : op.step X.S.CB s = .ok (o, s')) : ReqsOk X (fb || isFallback (op, o)) s' := by
  by_cases hf : isFallback (op, o) = true
  · rw [hf, Bool.or_true]
    cases op with
    | fallbackTo p st =>
      obtain ⟨e, q, h1, _, h3, h4⟩ := HS.fallbackTo_ok h p st
      simp only [HOp.step, h1, Out.bind_ok, Out.pure_eq, Out.ok.injEq, Prod.mk.injEq] at hst
      obtain ⟨rfl, rfl⟩ := hst
      have he : e = .none := by simpa [isFallback] using hf
      have hp := h4 he
      obtain ⟨t, fl, k1, k2, k3, k4, k5⟩ := hp.pattern
      refine ⟨t, fl, by rw [hp.id]; exact k1, k2, ?_⟩
      rw [k5, hp.id]
      exact ⟨rfl, rfl, rfl, rfl, rfl, rfl⟩
    | _ => simp [isFallback] at hf
  · have hf : isFallback (op, o) = false := by simpa using hf
    obtain ⟨h1, h2, h3⟩ := keep_step h hst hf
    rw [hf, Bool.or_false]
    exact hr.congr h1 h2 h3

theorem reqs_run : ∀ (ops : List (HOp X.D X.G)) {s s' : X.H} {fb : Bool} {os : List HObs}, s.Inv X →
    ReqsOk X fb s → (∀ op ∈ ops, op.ArgsOk X) → HOp.run X.S.CB s ops = .ok (os, s') →
    ReqsOk X (fb || (ops.zip os).any isFallback) s' := by
  intro ops
  induction ops with
  | nil => intro s s' fb os _ hr _ h; cases h; simpa using hr
  | cons op ops ih =>
    intro s s' fb os hi hr ha h
    simp only [HOp.run, Out.bind_eq_ok] at h
    obtain ⟨⟨o, s1⟩, hstep, ⟨os1, s2⟩, hrun, h⟩ := h
    cases h
    obtain ⟨o', s1', hs1, hi1, _⟩ := HOp.step_ok hi op (ha op (by simp))
    rw [hstep] at hs1; cases hs1
    have := ih hi1 (reqs_step hi hr hstep) (fun q hq => ha q (by simp [hq])) hrun
    simpa [Bool.or_assoc] using this

/-- What the specification's pattern asks of a party before it may start: its own static key pair if
it ever uses one. -/
def Spec.Pattern.needsLocalStatic (p : Spec.Pattern) (role : Role) : Bool :=
  p.hasKey role .s || p.preKey role .s

/-- ... and the other party's static public key if it is a pre-message. -/
def Spec.Pattern.needsRemoteStatic (p : Spec.Pattern) (role : Role) : Bool := p.preKey role.flip .s

theorem flags_role {fl : PatFlags} {p : Spec.Pattern} (h : FlagsAgree fl p) (role : Role) :
    hasFlag (HS.roleFlags fl role) flagLocalStatic = p.hasKey role .s ∧
    hasFlag (HS.roleFlags fl role) flagLocalRequired = p.preKey role .s ∧
    hasFlag (HS.roleFlags fl role) flagRemoteRequired = p.preKey role.flip .s := by
  obtain ⟨h1, h2, h3, h4, h5, h6, h7, h8, h9, h10, h11, h12⟩ := h
  cases role with
  | initiator => exact ⟨h1, h7, h10⟩
  | responder =>
    obtain ⟨a1, a2, a3, a4, a5, a6, a7, a8, a9, _⟩ := C17_responder_flags_mirror fl
    exact ⟨a1.trans h4, a3.trans h10, a9.trans h7⟩

theorem xxfallback_flags (fl : PatFlags) (h : patternFlags patXXfallback = .ok fl) (r : Role) :
    hasFlag (HS.roleFlags fl r) (flagRemoteEphemReq ||| flagLocalEphemReq) = true ∧
    hasFlag fl flagRemoteRequired = false := by
  have : (match patternFlags patXXfallback with
    | .ok fl => hasFlag (HS.roleFlags fl .initiator) (flagRemoteEphemReq ||| flagLocalEphemReq) &&
        hasFlag (HS.roleFlags fl .responder) (flagRemoteEphemReq ||| flagLocalEphemReq) &&
        !hasFlag fl flagRemoteRequired
    | .ub => false) = true := by decide +kernel
  rw [h] at this
  simp only [Bool.and_eq_true] at this
  cases r <;> simp_all

/-- C15: after any history (`fb` says whether a fallback was made in it), the code returned by
`noise_handshakestate_start` is this, where `p` is the Noise specification's pattern of the
protocol: INVALID_STATE if already started; NOT_APPLICABLE for XXfallback entered directly; otherwise
the code for the first item missing among the key pair, the remote key and the pre-shared key; and
success exactly if none is missing. On failure the state is untouched. -/
theorem C15_start (X : Setup) (s0 s : X.H) (hs : Created X s0) (ops : List (HOp X.D X.G))
    (os : List HObs) (ha : ∀ op ∈ ops, op.ArgsOk X) (hr : HOp.run X.S.CB s0 ops = .ok (os, s)) :
    ∃ p e s', specPattern s.sym.id.patternId = some p ∧ s.start X.S.CB = .ok (e, s') ∧
      e = (if s.action ≠ .none then .invalidState
        else if s.sym.id.patternId = patternXXfallback ∧ (ops.zip os).any isFallback = false then
          .notApplicable
        else if p.needsLocalStatic s.role = true ∧ HS.hasKeypairP s.ls = false then .localKeyRequired
        else if p.needsRemoteStatic s.role = true ∧ HS.hasPublicKeyP s.rs = false then .remoteKeyRequired
        else if s.sym.id.prefixId = prefixPsk ∧ s.psk = [] then .pskRequired
        else .none) ∧
      (e ≠ .none → s' = s) ∧
      (e = .none → s'.action = (match s.role with | .initiator => .write | .responder => .read)) := by
  have hi : s.Inv X := Reached.inv ⟨s0, ops, os, hs, ha, hr⟩
  have hq := reqs_run ops hs.inv hs.reqs ha hr
  rw [Bool.false_or] at hq
  generalize hfb : (ops.zip os).any isFallback = fb at hq ⊢
  obtain ⟨t, fl, h1, h2, r1, r2, r3, r4, r5, r6⟩ := hq
  obtain ⟨p, fl', p1, p2, p3, p4⟩ := C17_tables_are_the_specification h1
  rw [h2] at p3; cases p3
  obtain ⟨f1, f2, f3⟩ := flags_role p4 s.role
  obtain ⟨e, s', k1, _, k3, k4⟩ := HS.start_ok hi
  refine ⟨p, e, s', p1, k1, ?_, k3, fun he => (k4 he).2.2.2⟩
  have hl : s.reqs.localReq = p.needsLocalStatic s.role := by
    rw [r1]; simp [HS.requirements, Spec.Pattern.needsLocalStatic, f1, f2]
  have hrr : s.reqs.remoteReq = p.needsRemoteStatic s.role := by
    rw [r2]; simp [HS.requirements, Spec.Pattern.needsRemoteStatic, f3]
  have hpsk : s.reqs.psk = true ↔ s.sym.id.prefixId = prefixPsk := by
    rw [r3]; simp [HS.requirements]
  have hfbp : s.sym.id.patternId = patternXXfallback → s.reqs.fallbackPre = fb := by
    intro hx
    rw [r6]
    have hreq : hasFlag (HS.roleFlags fl s.role) (flagRemoteEphemReq ||| flagLocalEphemReq) = true := by
      rw [hx] at h1
      have h5 : patternLookup patternXXfallback = some patXXfallback := by decide +kernel
      rw [h5] at h1; cases h1
      exact (xxfallback_flags fl h2 s.role).1
    simp [HS.requirements, hreq]
  unfold HS.start at k1
  by_cases c1 : s.action = .none
  · rw [if_neg (by simp [c1])] at k1 ⊢
    by_cases c2 : s.sym.id.patternId = patternXXfallback ∧ s.reqs.fallbackPre = false
    · rw [if_pos c2] at k1
      rw [if_pos ⟨c2.1, by rw [← hfbp c2.1]; exact c2.2⟩]
      cases k1; rfl
    rw [if_neg c2] at k1
    rw [if_neg (fun h => c2 ⟨h.1, by rw [hfbp h.1]; exact h.2⟩)]
    rw [hl] at k1
    by_cases c3 : p.needsLocalStatic s.role = true ∧ HS.hasKeypairP s.ls = false
    · rw [if_pos c3] at k1 ⊢; cases k1; rfl
    rw [if_neg c3] at k1 ⊢
    rw [hrr] at k1
    by_cases c4 : p.needsRemoteStatic s.role = true ∧ HS.hasPublicKeyP s.rs = false
    · rw [if_pos c4] at k1 ⊢; cases k1; rfl
    rw [if_neg c4] at k1 ⊢
    by_cases c5 : s.reqs.psk = true ∧ s.psk.isEmpty = true
    · rw [if_pos c5] at k1
      rw [if_pos ⟨hpsk.mp c5.1, by simpa using c5.2⟩]; cases k1; rfl
    rw [if_neg c5] at k1
    rw [if_neg (fun h => c5 ⟨hpsk.mpr h.1, by simp [h.2]⟩)]
    simp only [Out.bind_eq_ok, Out.pure_eq, Out.ok.injEq, Prod.mk.injEq] at k1
    obtain ⟨_, _, _, _, h, _⟩ := k1
    exact h.symm
  · rw [if_pos c1] at k1 ⊢; cases k1; rfl

/-- C20 (the part that holds; the full claim also covers XXfallback+hfs, see `C20_fails_for_hfs`): a
HandshakeState created for XXfallback can never be started: after any history of calls whatever it is
still unstarted, and `start` returns NOT_APPLICABLE. -/
theorem C20_fallback_not_started_directly_partial (X : Setup) (s0 s : X.H) (hs : Created X s0)
    (hp : s0.sym.id.patternId = patternXXfallback) (ops : List (HOp X.D X.G))
    (os : List HObs) (ha : ∀ op ∈ ops, op.ArgsOk X) (hr : HOp.run X.S.CB s0 ops = .ok (os, s)) :
    s.action = .none ∧ s.start X.S.CB = .ok (.notApplicable, s) := by
  have key : ∀ (ops : List (HOp X.D X.G)) (s0 s : X.H) (os : List HObs), s0.Inv X →
      s0.action = .none → s0.sym.id.patternId = patternXXfallback → s0.reqs.fallbackPre = false →
      (∀ op ∈ ops, op.ArgsOk X) → HOp.run X.S.CB s0 ops = .ok (os, s) →
      s.action = .none ∧ s.start X.S.CB = .ok (.notApplicable, s) := by
    intro ops
    induction ops with
    | nil =>
      intro s0 s os _ h1 h2 h3 _ hr
      cases hr
      refine ⟨h1, ?_⟩
      unfold HS.start
      rw [if_neg (by simp [h1]), if_pos ⟨h2, h3⟩]
    | cons op ops ih =>
      intro s0 s os hi h1 h2 h3 ha hr
      simp only [HOp.run, Out.bind_eq_ok] at hr
      obtain ⟨⟨o, s1⟩, hstep, ⟨os1, s2⟩, hrun, hr⟩ := hr
      cases hr
      obtain ⟨o', s1', hs1, hi1, _⟩ := HOp.step_ok hi op (ha op (by simp))
      rw [hstep] at hs1; cases hs1
      have hl := lifecycle_step hi hstep
      rw [h1] at hl
      have hnf : isFallback (op, o) = false := by
        cases op with
        | fallbackTo p st =>
          simp [Lifecycle] at hl
          simp [isFallback, hl.1]
        | _ => rfl
      obtain ⟨k1, k2, k3⟩ := keep_step hi hstep hnf
      have hact : s1.action = .none := by
        cases op <;> simp only [Lifecycle] at hl <;> try simp at hl
        case start =>
          have : s0.start X.S.CB = .ok (.notApplicable, s0) := by
            unfold HS.start
            rw [if_neg (by simp [h1]), if_pos ⟨h2, h3⟩]
          simp [HOp.step, this] at hstep
          rw [← hstep.2]; exact h1
        case setPsk => exact hl
        case setPrologue => exact hl
        case localStatic => exact hl
        case remoteStatic => exact hl
        case getFixedE => exact hl
        case fixedE => exact hl
        case getFixedH => exact hl
        case fixedH => exact hl
        case fallbackTo => exact hl.2
        case write => exact hl.2
        case read =>
          rcases hl with h | h
          · exact h.2.2
          · exact h.2
        case split => exact hl.2
        case getHash => exact hl.1
      exact ih s1 s2 os1 hi1 hact (by rw [k3]; exact h2) (by rw [k1]; exact h3)
        (fun q hq => ha q (by simp [hq])) hrun
  have hfr : s0.action = .none ∧ s0.reqs.fallbackPre = false := by
    cases hs with
    | byId ctx0 stack id role _ h =>
      obtain ⟨r, h1, h2⟩ := HS.newById_ok (X := X) ctx0 stack id role
      rw [h1] at h
      obtain ⟨_, sym, t, fl, k1, k2, k3, k4⟩ := h2 s0 (Out.ok.inj h)
      exact ⟨k2.action, by rw [k2.reqs]; simp [HS.requirements]⟩
    | byName ctx0 name role _ h =>
      obtain ⟨r, h1, h2⟩ := HS.newByName_ok (X := X) ctx0 name role
      rw [h1] at h
      obtain ⟨_, sym, t, fl, k1, k2, k3, k4⟩ := h2 s0 (Out.ok.inj h)
      exact ⟨k2.action, by rw [k2.reqs]; simp [HS.requirements]⟩
  exact key ops s0 s os hs.inv hfr.1 hp hfr.2 ha hr

/-! ## Concrete cases -/

/-- The same small curve under the identifier of Curve448, for use as hybrid algorithm. -/
def toyCurve2 : CurveFns := { toyCurve with dhId := 0x4402 }

/-- A complete setup for the examples. -/
def toySetup : Setup where
  S := toySuite
  D := toyCurve.backend
  ID := toyCurve.Inv
  LD := _
  WD := curve_lawful toyCurve toyCurve_sized
  G := toyCurve2.backend
  IG := toyCurve2.Inv
  LG := _
  WG := curve_lawful toyCurve2 ⟨toyCurve_sized.eval_len, toyCurve_sized.clamp_len⟩

/-- Run a history from a name and list the codes returned and the actions after it. -/
def toyHistory (name : String) (role : Role) (ops : List (HOp toySetup.D toySetup.G)) :
    Out (List Err × List Action) :=
  match (HS.newByName toySetup.S.CB ([] : Bytes) (ascii name) role : Out (Except Err toySetup.H)) with
  | .ub => .ub
  | .ok (.error e) => .ok ([e], [])
  | .ok (.ok s) => do
    let (os, s') ← HOp.run toySetup.S.CB s ops
    .ok (os.map (·.err), [s'.action])

/-- `NOISE_PATTERN_XX_FALLBACK_HFS`, `include/noise/protocol/constants.h:92`. -/
def patternXXfallbackHfs : Int := 0x503c

/-- The calls made in `C20_fails_for_hfs`. -/
def c20Ops : List (HOp toySetup.D toySetup.G) :=
  [.localStatic (.setKeypairPrivate [3, 4]), .start,
   .write (fun _ i => UInt8.ofNat i) (fun _ _ => 0) (List.replicate 80 0) (some [1, 2])]

theorem c20_run : toyHistory "Noise_XXfallback+hfs_25519+448_ChaChaPoly_BLAKE2s" .initiator c20Ops =
    .ok ([.none, .none, .none], [.read]) := by decide +kernel

/-- C20 is false for XXfallback+hfs: an initiator created directly for it starts without complaint,
although the ephemeral pre-message does not exist, and goes on to send a message containing its static
key. -/
theorem C20_fails_for_hfs : ∃ (s0 s : toySetup.H) (os : List HObs), Created toySetup s0 ∧
    s0.sym.id.patternId = patternXXfallbackHfs ∧ (∀ op ∈ c20Ops, op.ArgsOk toySetup) ∧
    HOp.run toySetup.S.CB s0 c20Ops = .ok (os, s) ∧ os.map (·.err) = [.none, .none, .none] := by
  have h := c20_run
  have hid : (match (HS.newByName toySetup.S.CB ([] : Bytes)
      (ascii "Noise_XXfallback+hfs_25519+448_ChaChaPoly_BLAKE2s") .initiator :
        Out (Except Err toySetup.H)) with
    | .ok (.ok s) => decide (s.sym.id.patternId = patternXXfallbackHfs)
    | _ => false) = true := by decide +kernel
  unfold toyHistory at h
  revert h hid
  generalize hn : (HS.newByName toySetup.S.CB ([] : Bytes)
      (ascii "Noise_XXfallback+hfs_25519+448_ChaChaPoly_BLAKE2s") .initiator :
        Out (Except Err toySetup.H)) = r
  intro h hid
  match r, hn, h, hid with
  | .ok (.ok s0), hn, h, hid =>
    dsimp only at h
    rw [Out.bind_eq_ok] at h
    obtain ⟨⟨os, s⟩, h1, h2⟩ := h
    simp only [Out.ok.injEq, Prod.mk.injEq] at h2
    refine ⟨s0, s, os, .byName ([] : Bytes) _ .initiator s0 hn, by simpa using hid, ?_, h1, h2.1⟩
    intro op hop
    simp only [c20Ops, List.mem_cons, List.not_mem_nil, or_false] at hop
    rcases hop with rfl | rfl | rfl <;> trivial

/-- A history that meets the hypotheses of C11, C15, C16 and C22: start without and with the key, a
read in the wrong state, a message, and a bad message that fails the handshake. -/
example : toyHistory "Noise_XX_25519_ChaChaPoly_BLAKE2s" .initiator
    [.start, .localStatic (.setKeypairPrivate [3, 4]), .start, .read (fun _ _ => 0) ⟨[1], 1⟩ none,
     .write (fun _ i => UInt8.ofNat i) (fun _ _ => 0) (List.replicate 40 0) (some [1, 2]),
     .read (fun _ _ => 0) ⟨[1], 1⟩ none, .split true true true, .getHash 32] =
    .ok ([.localKeyRequired, .none, .none, .invalidState, .none, .invalidLength, .invalidState,
      .invalidState], [.failed]) := by decide +kernel

/-- A directly created XXfallback meets the hypothesis of `C20_fallback_not_started_directly_partial`. -/
example : toyHistory "Noise_XXfallback_25519_ChaChaPoly_BLAKE2s" .initiator
    [.localStatic (.setKeypairPrivate [3, 4]), .start] = .ok ([.none, .notApplicable], [.none]) := by
  decide +kernel

/-- A pre-shared key is asked for; a one-way handshake completes; the hash is available then, and a
second split is refused. -/
example : toyHistory "NoisePSK_N_25519_ChaChaPoly_BLAKE2s" .initiator
    [.start, .remoteStatic (.setPublicKey [3, 4]), .start, .setPsk (List.replicate 32 7), .start,
     .write (fun _ i => UInt8.ofNat i) (fun _ _ => 0) (List.replicate 40 0) (some [1, 2]),
     .getHash 5, .split true true true, .split true true true, .getHash 40, .start] =
    .ok ([.remoteKeyRequired, .none, .pskRequired, .none, .none, .none, .none, .none, .invalidState,
      .none, .invalidState], [.complete]) := by
  decide +kernel

end Noise
