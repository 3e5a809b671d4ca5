import Verif.EchoRun
import Verif.HandshakeProps
/-!
# The echo programs with any connection (C84)
-/

namespace Noise.Echo

variable {X : Setup}

theorem sendPacket_any (ks : List Snd) (msg : Bytes) (size : Nat) (h : size + 2 ≤ msg.length) :
    ∃ msg' ok sent, sendPacket ks msg size = .ok (msg', ok, sent) ∧ msg'.length = msg.length := by
  have hb : msg = msg.take 2 ++ ((msg.drop 2).take size ++ (msg.drop 2).drop size) := by
    rw [List.take_append_drop, List.take_append_drop]
  have hl : ((msg.drop 2).take size).length = size := by rw [List.length_take, List.length_drop]; omega
  have := sendPacket_eq ks (msg.take 2) ((msg.drop 2).take size) ((msg.drop 2).drop size) (by rw [List.length_take]; omega)
  rw [hl, ← hb] at this
  refine ⟨_, _, _, this, ?_⟩
  rw [List.length_append, frame_length, hl, List.length_drop, List.length_drop]
  omega

theorem handWrite_any {s : X.H} (h : s.Inv X) (t : HTurn) (segs : List Seg) (msg : Bytes) (hm : msg.length = 65537) :
    ∃ r, handWrite X.S.CB t segs msg s = .ok r ∧ r.s.Inv X ∧ r.msg.length = 65537 := by
  obtain ⟨e, s', b, k1, k2, k3, k4, _⟩ := HS.writeMessage_ok h t.rnd t.junk (msg.drop 2) none
  have hd : (msg.drop 2).length = 65535 := by rw [List.length_drop, hm]
  have hbl : (msg.take 2 ++ b.data).length = 65537 := by
    rw [List.length_append, List.length_take, hm]
    have : b.data.length = _ := k3
    omega
  unfold handWrite
  rw [k1, Out.bind_ok]
  dsimp only
  split
  · exact ⟨_, rfl, k2, hbl⟩
  · obtain ⟨m', ok, sent, e1, e2⟩ := sendPacket_any t.ks (msg.take 2 ++ b.data) b.size (by omega)
    rw [e1, Out.bind_ok]
    exact ⟨_, rfl, k2, by show m'.length = _; omega⟩

theorem handRead_any {s : X.H} (h : s.Inv X) (t : HTurn) (segs : List Seg) (msg : Bytes) (hm : msg.length = 65537) :
    ∃ r, handRead X.S.CB t segs msg s = .ok r ∧ r.s.Inv X ∧ r.msg.length = 65537 := by
  obtain ⟨n, m, sg, e1, e2, _, e4⟩ := C82_recv_safe segs msg msg.length (Nat.le_refl _)
  unfold handRead
  rw [e1, Out.bind_ok]
  dsimp only
  split
  · exact ⟨_, rfl, h, by show m.length = _; omega⟩
  · next hn =>
    obtain ⟨l1, body, l2⟩ := e4 hn
    have hn2 : 2 ≤ n := by
      have := congrArg List.length l2
      rw [List.length_take, frame_length] at this
      omega
    rw [load_ok (by omega), Out.bind_ok]
    obtain ⟨e, s', b, p, k1, k2, k3, _⟩ := HS.readMessage_ok h t.junk ⟨(m.drop 2).take (n - 2), n - 2⟩ none
    have hbl : b.data.length = n - 2 := by
      have : b.data.length = ((m.drop 2).take (n - 2)).length := k3
      rw [this, List.length_take, List.length_drop]
      omega
    rw [k1, Out.bind_ok]
    dsimp only
    rw [store_ok (by omega), Out.bind_ok]
    have hl : (m.take 2 ++ b.data ++ m.drop (2 + b.data.length)).length = 65537 := by
      simp only [List.length_append, List.length_take, List.length_drop]; omega
    split
    · exact ⟨_, rfl, k2, hl⟩
    · exact ⟨_, rfl, k2, hl⟩

theorem handLoop_any (ts : List HTurn) : ∀ {s : X.H}, s.Inv X → ∀ (segs : List Seg) (msg : Bytes), msg.length = 65537 →
    ∃ r, handLoop X.S.CB ts segs msg s = .ok r ∧ r.s.Inv X ∧ r.msg.length = 65537 := by
  induction ts with
  | nil => intro s h segs msg hm; exact ⟨_, rfl, h, hm⟩
  | cons t ts ih =>
    intro s h segs msg hm
    rw [handLoop]
    split
    · exact ⟨_, rfl, h, hm⟩
    · have : ∃ r, handTurn X.S.CB t segs msg s = .ok r ∧ r.s.Inv X ∧ r.msg.length = 65537 := by
        unfold handTurn
        split
        · exact handWrite_any h t segs msg hm
        · exact handRead_any h t segs msg hm
      obtain ⟨r, e, i, l⟩ := this
      rw [e, Out.bind_ok]
      split
      · obtain ⟨q, e2, i2, l2⟩ := ih i r.segs r.msg l
        rw [e2, Out.bind_ok]
        exact ⟨_, rfl, i2, l2⟩
      · exact ⟨r, rfl, i, l⟩

theorem handshake_any (ts : List HTurn) {s : X.H} (h : s.Inv X) (segs : List Seg) (msg : Bytes) (hm : msg.length = 65537) :
    ∃ r c, handshake X.S.CB ts segs msg s = .ok (r, c) ∧ r.msg.length = 65537 ∧
      (c = none → r.status ≠ .next) ∧
      ∀ a b, c = some (a, b) → r.s.action = .complete ∧ a.hasKey = true ∧ a.n = 0 ∧ b.hasKey = true ∧ b.n = 0 := by
  obtain ⟨r, e, i, l⟩ := handLoop_any ts h segs msg hm
  unfold handshake
  rw [e, Out.bind_ok]
  split
  · next hn => exact ⟨_, _, rfl, l, fun _ => hn, fun a b hc => by cases hc⟩
  split
  · exact ⟨_, _, rfl, l, fun _ => by simp, fun a b hc => by cases hc⟩
  obtain ⟨e', s', x, y, k1, k2, _, k3, k4, _⟩ := HS.split_ok i true true true
  rw [k1, Out.bind_ok]
  dsimp only
  split
  · next a b => exact ⟨_, _, rfl, l, fun hc => (by cases hc), fun a' b' hc => by
      cases hc; exact ⟨(k3 rfl).2, split_keyed X r.s s' a b k1⟩⟩
  · exact ⟨_, _, rfl, l, fun _ => by simp, fun a b hc => by cases hc⟩

/-- **C84**: with any protocol and keys, in any state that can be reached, and for any connection, whatever arrives on it and
whenever it fails, the server runs without undefined behaviour; it exits with 0 only if the handshake was completed. -/
theorem C84_server_safe (X : Setup) (s : X.H) (hs : Reached X s) (ts : List HTurn) (kss : List (List Snd)) (segs : List Seg)
    (msg : Bytes) (hm : msg.length = 65537) :
    ∃ ok sent, serverRun X.S.CB ts kss segs msg s = .ok (ok, sent) ∧
      (ok = some true → ∃ r a b, handshake X.S.CB ts segs msg s = .ok (r, some (a, b)) ∧ r.s.action = .complete) := by
  obtain ⟨r, c, e, l, h1, h2⟩ := handshake_any ts hs.inv segs msg hm
  unfold serverRun
  rw [e, Out.bind_ok]
  cases c with
  | none =>
    refine ⟨_, _, rfl, fun hok => ?_⟩
    cases hst : r.status <;> rw [hst] at hok <;> cases hok
  | some c =>
    obtain ⟨a, b⟩ := c
    obtain ⟨h3, h4, h5, h6, h7⟩ := h2 a b rfl
    obtain ⟨ok, sent, ps, e2, _⟩ := C83_server_safe X.S.CB X.S.cl kss r.segs r.msg b a h6 h4 l
    dsimp only
    rw [e2, Out.bind_ok]
    exact ⟨_, _, rfl, fun _ => ⟨r, a, b, rfl, h3⟩⟩

theorem handRead_rejects {s : X.H} (h : s.Inv X) (t : HTurn) (segs : List Seg) (msg : Bytes) (hm : msg.length = 65537)
    (body rest : Bytes) (hc : Clean segs) (hst : stream segs = frame body ++ rest) (h0 : 0 < body.length)
    (h1 : body.length ≤ 65535)
    (hrej : ∀ e s' b p, s.readMessage X.S.CB t.junk ⟨body, body.length⟩ none = .ok (e, s', b, p) → e ≠ .none) :
    ∃ segs' msg' s', handRead X.S.CB t segs msg s = .ok ⟨.failed, [], segs', msg', s'⟩ := by
  obtain ⟨s1, e1, c1, t1⟩ := C82_recv segs msg body rest msg.length hc hst h0 (by omega) (by omega) (Nat.le_refl _)
  have htl : (msg.drop (body.length + 2)).length = 65537 - (body.length + 2) := by rw [List.length_drop, hm]
  generalize msg.drop (body.length + 2) = tl at e1 htl
  unfold handRead
  rw [e1, Out.bind_ok]
  dsimp only
  rw [if_neg (by omega), show body.length + 2 - 2 = body.length by omega,
    load_ok (by rw [List.length_append, frame_length]; omega), Out.bind_ok]
  have hdrop : ((frame body ++ tl).drop 2).take body.length = body := by
    rw [frame, List.append_assoc, List.drop_left' (i := 2) rfl, List.take_left' rfl]
  obtain ⟨e, s', b, p, k1, k2, k3, _⟩ := HS.readMessage_ok h t.junk ⟨body, body.length⟩ none
  have hbl : b.data.length = body.length := k3
  rw [hdrop, k1, Out.bind_ok]
  dsimp only
  rw [store_ok (by rw [List.length_append, frame_length]; omega), Out.bind_ok, if_pos (hrej e s' b p k1)]
  exact ⟨_, _, _, rfl⟩

theorem handRead_ends {s : X.H} (t : HTurn) (segs : List Seg) (msg : Bytes) (hc : Clean segs) (hst : stream segs = []) :
    ∃ segs' msg' s', handRead X.S.CB t segs msg s = .ok ⟨.failed, [], segs', msg', s'⟩ := by
  obtain ⟨segs', e⟩ := recv_empty segs msg msg.length hc hst
  unfold handRead
  rw [e, Out.bind_ok]
  exact ⟨_, _, _, rfl⟩

theorem handshake_failed {s : X.H} {t : HTurn} {ts : List HTurn} {segs segs' : List Seg} {msg msg' sent : Bytes} {s' : X.H}
    (ha : s.action = .write ∨ s.action = .read)
    (h : handTurn X.S.CB t segs msg s =
      .ok ⟨.failed, sent, segs', msg', s'⟩) :
    handshake X.S.CB (t :: ts) segs msg s = .ok (⟨.failed, sent, segs', msg', s'⟩, none) := by
  unfold handshake
  rw [handLoop, if_neg (by rcases ha with ha | ha <;> rw [ha] <;> simp), h, Out.bind_ok]
  rfl

/-- **C84**: when a handshake message is rejected, or the connection ends instead of it, each program exits with 1; it sends
nothing more and the client writes nothing. -/
theorem C84_rejected (X : Setup) (s : X.H) (hs : Reached X s) (ha : s.action = .read) (t : HTurn) (ts : List HTurn)
    (kss : List (List Snd)) (segs : List Seg) (msg : Bytes) (hm : msg.length = 65537) (hc : Clean segs)
    (h : stream segs = [] ∨ ∃ body rest, stream segs = frame body ++ rest ∧ 0 < body.length ∧ body.length ≤ 65535 ∧
      ∀ e s' b p, s.readMessage X.S.CB t.junk ⟨body, body.length⟩ none = .ok (e, s', b, p) → e ≠ .none)
    (E : Nat → Bytes) (padding : Bool) (input : Bytes) :
    serverRun X.S.CB (t :: ts) kss segs msg s = .ok (some false, []) ∧
    clientRun X.S.CB E padding (t :: ts) kss segs msg s input = .ok (some false, [], []) := by
  have : ∃ segs' msg' s', handRead X.S.CB t segs msg s = .ok ⟨.failed, [], segs', msg', s'⟩ := by
    rcases h with h | ⟨body, rest, h1, h2, h3, h4⟩
    · exact handRead_ends t segs msg hc h
    · exact handRead_rejects hs.inv t segs msg hm body rest hc h1 h2 h3 h4
  obtain ⟨segs', msg', s', e⟩ := this
  have e' := handshake_failed (ts := ts) (t := t) (.inr ha) (by rw [handTurn, if_neg (by rw [ha]; simp)]; exact e)
  unfold serverRun clientRun
  rw [e', Out.bind_ok, Out.bind_ok]
  exact ⟨rfl, rfl⟩

/-- **C84**: when a handshake message cannot be sent, each program exits with 1. -/
theorem C84_send_fails (X : Setup) (s : X.H) (hs : Reached X s) (ha : s.action = .write) (t : HTurn) (ts : List HTurn)
    (kss : List (List Snd)) (segs : List Seg) (msg : Bytes) (hm : msg.length = 65537)
    (h : ∀ p : Bytes, (send t.ks p).1 = some false) (E : Nat → Bytes) (padding : Bool) (input : Bytes) :
    ∃ sent, serverRun X.S.CB (t :: ts) kss segs msg s = .ok (some false, sent) ∧
      clientRun X.S.CB E padding (t :: ts) kss segs msg s input = .ok (some false, sent, []) := by
  have : ∃ sent msg' s', handWrite X.S.CB t segs msg s = .ok ⟨.failed, sent, segs, msg', s'⟩ := by
    obtain ⟨e, s', b, k1, k2, k3, k4, _⟩ := HS.writeMessage_ok hs.inv t.rnd t.junk (msg.drop 2) none
    have hd : (msg.drop 2).length = 65535 := by rw [List.length_drop, hm]
    unfold handWrite
    rw [k1, Out.bind_ok]
    dsimp only
    split
    · exact ⟨_, _, _, rfl⟩
    · have hb : b.data = b.data.take b.size ++ b.data.drop b.size := (List.take_append_drop _ _).symm
      have hbl : b.data.length = 65535 := by have : b.data.length = _ := k3; omega
      have hl : (b.data.take b.size).length = b.size := by rw [List.length_take]; omega
      have e1 := sendPacket_eq t.ks (msg.take 2) (b.data.take b.size) (b.data.drop b.size) (by rw [List.length_take]; omega)
      rw [← hb, hl] at e1
      rw [e1, Out.bind_ok]
      dsimp only
      rw [h]
      exact ⟨_, _, _, rfl⟩
  obtain ⟨sent, msg', s', e⟩ := this
  have e' := handshake_failed (ts := ts) (t := t) (.inl ha) (by rw [handTurn, if_pos ha]; exact e)
  unfold serverRun clientRun
  rw [e', Out.bind_ok, Out.bind_ok]
  exact ⟨sent, rfl, rfl⟩

/-- **C84**: a handshake that is not under way or complete, for instance one that has failed, ends both programs with 1. -/
theorem C84_not_started (CB : CipherBackend) {HB : HashBackend} {D G : DHBackend} (s : HS HB D G)
    (ha : s.action ≠ .write ∧ s.action ≠ .read ∧ s.action ≠ .split) (ts : List HTurn)
    (kss : List (List Snd)) (segs : List Seg) (msg : Bytes) (E : Nat → Bytes) (padding : Bool) (input : Bytes) :
    serverRun CB ts kss segs msg s = .ok (some false, []) ∧
    clientRun CB E padding ts kss segs msg s input = .ok (some false, [], []) := by
  have e : handLoop CB ts segs msg s = .ok ⟨.next, [], segs, msg, s⟩ := by
    cases ts with
    | nil => simp [handLoop, ha.1, ha.2.1]
    | cons t ts => simp [handLoop, ha.1, ha.2.1]
  have e' : handshake CB ts segs msg s = .ok (⟨.failed, [], segs, msg, s⟩, none) := by
    unfold handshake
    rw [e, Out.bind_ok]
    simp [ha.2.2]
  unfold serverRun clientRun
  rw [e', Out.bind_ok, Out.bind_ok]
  exact ⟨rfl, rfl⟩

/-- **C84**: while a message of the handshake is due, and no turn has been taken, both programs wait and have sent nothing. -/
theorem C84_waits (CB : CipherBackend) {HB : HashBackend} {D G : DHBackend} (s : HS HB D G)
    (ha : s.action = .write ∨ s.action = .read)
    (kss : List (List Snd)) (segs : List Seg) (msg : Bytes) (E : Nat → Bytes) (padding : Bool) (input : Bytes) :
    serverRun CB [] kss segs msg s = .ok (none, []) ∧
    clientRun CB E padding [] kss segs msg s input = .ok (none, [], []) := by
  have e' : handshake CB [] segs msg s = .ok (⟨.waiting, [], segs, msg, s⟩, none) := by
    unfold handshake handLoop
    rw [if_pos ha]
    rfl
  unfold serverRun clientRun
  rw [e', Out.bind_ok, Out.bind_ok]
  exact ⟨rfl, rfl⟩

/-- A server that has started waits for the first message. -/
example : ∃ r : vecSetup.H, vecMake .responder = some r ∧ ∃ r1, r.start ChaChaPoly.backend = .ok (.none, r1) ∧
    serverRun ChaChaPoly.backend [] [] [] (List.replicate 4098 0) r1 = .ok (none, []) :=
  ⟨_, rfl, _, rfl, (C84_waits ChaChaPoly.backend _ (.inr rfl) [] [] _ (fun _ => []) false []).1⟩

/-- The hypotheses of `C84_rejected` can be met: a server that waits for its first message gets one that is too short. -/
example : ∃ s : vecSetup.H, Reached vecSetup s ∧ s.action = .read ∧ ∀ junk e s' b p,
    s.readMessage vecSetup.S.CB junk ⟨[1, 2, 3], [1, 2, 3].length⟩ none = .ok (e, s', b, p) → e ≠ .none := by
  refine ⟨_, ⟨_, [.start], _, .byName vecCtx (ascii "Noise_NN_25519_ChaChaPoly_SHA256") .responder _ rfl, fun op hop => ?_, rfl⟩, rfl, ?_⟩
  · cases List.mem_singleton.1 hop; trivial
  · intro junk e s' b p h
    cases h
    decide

/-- Those of `C84_send_fails`: a client that wants to write, and a connection that fails. -/
example : (∃ s : vecSetup.H, Reached vecSetup s ∧ s.action = .write) ∧ ∀ p : Bytes, (send [.again, .error] p).1 = some false := by
  refine ⟨⟨_, ⟨_, [.start], _, .byName vecCtx (ascii "Noise_NN_25519_ChaChaPoly_SHA256") .initiator _ rfl, fun op hop => ?_, rfl⟩, rfl⟩,
    fun p => rfl⟩
  cases List.mem_singleton.1 hop; trivial

end Noise.Echo
