import Verif.EchoRunSafe
/-!
# The echo client with any connection and any input (C84)
-/

namespace Noise.Echo

theorem upto_length (l : Bytes) : (upto l).length ≤ l.length := by
  induction l with
  | nil => exact Nat.le_refl _
  | cons c l ih =>
    show (if c = 10 then [10] else c :: upto l : Bytes).length ≤ _
    split
    · simp
    · simp only [List.length_cons]; omega

theorem takeWhile_length (p : UInt8 → Bool) (l : Bytes) : (l.takeWhile p).length ≤ l.length := by
  induction l with
  | nil => exact Nat.le_refl _
  | cons c l ih =>
    rw [List.takeWhile_cons]
    split
    · simp only [List.length_cons]; omega
    · simp

theorem clientFill_any (B : CipherBackend) (E : Nat → Bytes) (hE : ∀ k, (E k).length = 40) (msg : Bytes) (rand : Option Rand.State)
    (hr : RandOk E rand) (line : Bytes) (hl : line.length + 1 ≤ msg.length - 2 - B.macLen) :
    ∃ rand' m size, clientFill B E msg rand line = .ok (.none, rand', m, size) ∧ RandOk E rand' ∧ m.length = msg.length ∧
      size ≤ msg.length - 2 := by
  have hz := takeWhile_length (· ≠ 0) line
  unfold clientFill
  have hm1 : (msg.take 2 ++ (line ++ [(0 : UInt8)]) ++ msg.drop (2 + (line ++ [(0 : UInt8)]).length)).length = msg.length := by
    simp; omega
  rw [store_ok (by simp; omega), Out.bind_ok]
  generalize msg.take 2 ++ (line ++ [(0 : UInt8)]) ++ msg.drop (2 + (line ++ [(0 : UInt8)]).length) = m at hm1
  generalize (line.takeWhile (· ≠ 0)).length = k at hz
  cases rand with
  | none => exact ⟨none, m, k, rfl, hr, hm1, by omega⟩
  | some st =>
    obtain ⟨out, hi⟩ := hr st rfl
    obtain ⟨⟨st', o, e, l, _, _, i⟩, _⟩ := Rand.C39_pad hE hi (m.drop 2) k (msg.length - 2 - B.macLen)
      (by rw [List.length_drop]; omega) false
    dsimp only
    rw [e, Out.bind_ok]
    refine ⟨some st', _, _, rfl, ?_, ?_, by omega⟩
    · intro s hs
      cases hs
      exact ⟨_, i rfl⟩
    · simp only [Option.getD_some, List.length_append, List.length_take, List.length_drop]
      omega

theorem clientReceive_any {B : CipherBackend} (hB : B.Lawful) (padding : Bool) (sent : Bytes) (segs : List Seg) (msg : Bytes)
    (rc sc : CipherState) : ∃ t out, clientReceive B padding sent segs msg rc sc = .ok (t, out) ∧ t.msg.length = msg.length := by
  obtain ⟨n, m, s, e, ml, _, hn⟩ := C82_recv_safe segs msg msg.length (Nat.le_refl _)
  unfold clientReceive
  rw [e, Out.bind_ok]
  dsimp only
  split
  · exact ⟨_, _, rfl, ml⟩
  · next h0 =>
    obtain ⟨n1, body, n2⟩ := hn h0
    have hn2 : 2 ≤ n := by
      have := congrArg List.length n2
      rw [List.length_take, frame_length] at this
      omega
    have hbl : ((m.drop 2).take (n - 2)).length = n - 2 := by rw [List.length_take, List.length_drop]; omega
    rw [load_ok (by omega), Out.bind_ok]
    generalize (m.drop 2).take (n - 2) = body at hbl
    obtain ⟨r, e1, k1, k2, _⟩ := C06_decrypt_respects_capacity B hB rc [] ⟨body, n - 2⟩
    have h1 : r.buf.data.length = n - 2 := by
      have : r.buf.data.length = body.length := k1
      omega
    have h2 : r.buf.size ≤ r.buf.data.length := k2 (by show n - 2 ≤ body.length; omega)
    rw [e1, Out.bind_ok, store_ok (by omega), Out.bind_ok]
    have hl : (m.take 2 ++ r.buf.data ++ m.drop (2 + r.buf.data.length)).length = msg.length := by
      simp only [List.length_append, List.length_take, List.length_drop]; omega
    split
    · exact ⟨_, _, rfl, hl⟩
    · rw [load_ok (by omega), Out.bind_ok]
      exact ⟨_, _, rfl, hl⟩

theorem clientTurn_any {B : CipherBackend} (hB : B.Lawful) (E : Nat → Bytes) (hE : ∀ k, (E k).length = 40)
    (ks : List Snd) (segs : List Seg) (msg : Bytes) (rc sc : CipherState) (rand : Option Rand.State) (hm : 2 ≤ msg.length)
    (hr : RandOk E rand) (line : Bytes) (hl : line.length + 1 ≤ msg.length - 2 - B.macLen) :
    ∃ t rand' out, clientTurn B E ks segs msg rc sc rand line = .ok (t, rand', out) ∧ RandOk E rand' ∧
      t.msg.length = msg.length := by
  obtain ⟨rand', m, size, e1, hr', hml, hsz⟩ := clientFill_any B E hE msg rand hr line hl
  have hdl : (m.drop 2).length = m.length - 2 := List.length_drop
  obtain ⟨q, e2, k1, k2, _⟩ := C06_encrypt_respects_capacity B hB sc [] ⟨m.drop 2, size⟩
  have h1 : q.buf.data.length = m.length - 2 := by
    have : q.buf.data.length = (m.drop 2).length := k1
    omega
  have h2 : q.buf.size ≤ q.buf.data.length := k2 (by show size ≤ (m.drop 2).length; omega)
  have hl2 : (m.take 2 ++ q.buf.data).length = msg.length := by
    rw [List.length_append, List.length_take]; omega
  unfold clientTurn
  rw [e1, Out.bind_ok]
  dsimp only
  rw [if_neg (by simp), e2, Out.bind_ok]
  split
  · exact ⟨_, _, _, rfl, hr', hl2⟩
  · obtain ⟨m', ok, sent, e3, l3⟩ := sendPacket_any ks (m.take 2 ++ q.buf.data) q.buf.size (by omega)
    rw [e3, Out.bind_ok]
    dsimp only
    split
    · exact ⟨_, _, _, rfl, hr', by show m'.length = _; omega⟩
    · obtain ⟨t, out, e4, l4⟩ := clientReceive_any hB rand.isSome sent segs m' rc q.st
      rw [e4, Out.bind_ok]
      exact ⟨_, _, _, rfl, hr', by show t.msg.length = _; omega⟩

theorem clientLoop_any {B : CipherBackend} (hB : B.Lawful) (hmac : B.macLen < 65535) (E : Nat → Bytes)
    (hE : ∀ k, (E k).length = 40) (kss : List (List Snd)) : ∀ (segs : List Seg) (msg : Bytes) (rc sc : CipherState)
    (rand : Option Rand.State) (input : Bytes), msg.length = 65537 → RandOk E rand →
    ∃ ok sent outs, clientLoop B E kss segs msg rc sc rand input = .ok (ok, sent, outs) := by
  induction kss with
  | nil => intro segs msg rc sc rand input _ _; exact ⟨none, [], [], rfl⟩
  | cons ks kss ih =>
    intro segs msg rc sc rand input hm hr
    rw [clientLoop]
    cases hf : fgets (msg.length - 2 - B.macLen) input with
    | none => exact ⟨_, _, _, rfl⟩
    | some x =>
      obtain ⟨line, rest⟩ := x
      have hl : line.length + 1 ≤ msg.length - 2 - B.macLen := by
        unfold fgets at hf
        split at hf
        · cases hf
        · cases hf
          have := upto_length (input.take (msg.length - 2 - B.macLen - 1))
          rw [List.length_take] at this
          omega
      obtain ⟨t, rand', out, e, hr', l⟩ := clientTurn_any hB E hE ks segs msg rc sc rand (by omega) hr line hl
      dsimp only
      rw [e, Out.bind_ok]
      dsimp only
      cases t.status with
      | next =>
        obtain ⟨ok, sent, outs, e2⟩ := ih t.segs t.msg t.rc t.sc rand' rest (by omega) hr'
        dsimp only
        rw [e2, Out.bind_ok]
        exact ⟨_, _, _, rfl⟩
      | closed => exact ⟨_, _, _, rfl⟩
      | failed => exact ⟨_, _, _, rfl⟩
      | waiting => exact ⟨_, _, _, rfl⟩

/-- **C84**: with any protocol and keys, in any state that can be reached, for any connection and whatever is typed, complete
lines or not, the client runs without undefined behaviour. Unless the handshake is completed it exits with 1 or waits, and
writes no answer. -/
theorem C84_client_safe (X : Setup) (hmac : X.S.CB.macLen < 65535) (s : X.H) (hs : Reached X s) (E : Nat → Bytes)
    (hE : ∀ k, (E k).length = 40) (padding : Bool) (ts : List HTurn) (kss : List (List Snd)) (segs : List Seg)
    (msg : Bytes) (hm : msg.length = 65537) (input : Bytes) :
    ∃ ok sent outs, clientRun X.S.CB E padding ts kss segs msg s input = .ok (ok, sent, outs) ∧
      ((∃ r a b, handshake X.S.CB ts segs msg s = .ok (r, some (a, b)) ∧ r.s.action = .complete) ∨
        (ok ≠ some true ∧ outs = [])) := by
  obtain ⟨r, c, e, l, h1, h2⟩ := handshake_any ts hs.inv segs msg hm
  unfold clientRun
  rw [e, Out.bind_ok]
  cases c with
  | none =>
    refine ⟨_, _, _, rfl, .inr ⟨fun hok => ?_, rfl⟩⟩
    cases hst : r.status <;> rw [hst] at hok <;> cases hok
  | some c =>
    obtain ⟨a, b⟩ := c
    obtain ⟨ok, sent, outs, e2⟩ := clientLoop_any X.S.cl hmac E hE kss r.segs r.msg b a
      (if padding then some (Rand.new E) else none) input l
      (by
        intro st hst
        cases padding with
        | false => cases hst
        | true => cases hst; exact ⟨[], Rand.new_idle hE (by decide)⟩)
    dsimp only
    rw [e2, Out.bind_ok]
    exact ⟨_, _, _, rfl, .inl ⟨r, a, b, rfl, (h2 a b rfl).1⟩⟩

/-- The hypotheses can be met: a client of the test vector, and everything else is free. -/
example : vecSetup.S.CB.macLen < 65535 ∧ ∃ s : vecSetup.H, Reached vecSetup s ∧ s.action = .write := by
  refine ⟨by decide, _, ⟨_, [.start], _, .byName vecCtx (ascii "Noise_NN_25519_ChaChaPoly_SHA256") .initiator _ rfl, fun op hop => ?_,
    rfl⟩, rfl⟩
  cases List.mem_singleton.1 hop; trivial

end Noise.Echo
