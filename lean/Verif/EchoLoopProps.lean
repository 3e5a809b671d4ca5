import Verif.EchoLoopBase
import Verif.RandProps
/-!
# The echo server echoes, and the client prints what was typed (C83)
-/

namespace Noise.Echo

/-! ## The client -/

theorem upto_line (body rest : Bytes) (h : (10 : UInt8) ∉ body) : upto (body ++ [10] ++ rest) = body ++ [10] := by
  induction body with
  | nil => rfl
  | cons c body ih =>
    rw [List.mem_cons, not_or] at h
    show (if c = 10 then [10] else c :: upto (body ++ [10] ++ rest)) = _
    rw [if_neg (fun hc => h.1 hc.symm), ih h.2]
    rfl

/-- A line: no line feed and no zero before the line feed at the end. -/
def IsLine (l : Bytes) : Prop := ∃ body, l = body ++ [10] ∧ (10 : UInt8) ∉ body ∧ (0 : UInt8) ∉ body

theorem IsLine.upto {l : Bytes} (h : IsLine l) (rest : Bytes) : Echo.upto (l ++ rest) = l := by
  obtain ⟨body, rfl, h1, _⟩ := h
  exact upto_line body rest h1

theorem IsLine.no_zero {l : Bytes} (h : IsLine l) : (0 : UInt8) ∉ l := by
  obtain ⟨body, rfl, _, h2⟩ := h
  simp [h2]

theorem fgets_line {l : Bytes} (h : IsLine l) (n : Nat) (rest : Bytes) (hn : l.length + 1 ≤ n) :
    fgets n (l ++ rest) = some (l, rest) := by
  have hne : l ++ rest ≠ [] := by
    obtain ⟨body, rfl, _⟩ := h
    simp
  unfold fgets
  rw [if_neg hne, List.take_append, List.take_of_length_le (by omega), h.upto, List.drop_left' rfl]

theorem strlen_eq {l : Bytes} (h : (0 : UInt8) ∉ l) : (l.takeWhile (· ≠ 0)) = l := by
  induction l with
  | nil => rfl
  | cons c l ih =>
    rw [List.mem_cons, not_or] at h
    rw [List.takeWhile_cons, if_pos (by simpa using fun hc => h.1 hc.symm), ih h.2]

/-- The state of the random number generator, if there is one, is one which occurs between calls. -/
def RandOk (E : Nat → Bytes) (rand : Option Rand.State) : Prop := ∀ st, rand = some st → ∃ out, Rand.Idle E 1600064 st out

/-- What is sent for a line: the line, or with padding the line and more bytes, as many as fit. -/
def Sent (B : CipherBackend) (len : Nat) (padding : Bool) (line p : Bytes) : Prop :=
  (padding = false → p = line) ∧ (padding = true → line <+: p ∧ p.length = len - 2 - B.macLen)

theorem clientFill_ok (B : CipherBackend) (E : Nat → Bytes) (hE : ∀ k, (E k).length = 40) (msg : Bytes) (rand : Option Rand.State)
    (hr : RandOk E rand) (line : Bytes) (hz : (0 : UInt8) ∉ line) (hl : line.length + 1 ≤ msg.length - 2 - B.macLen) :
    ∃ p rand' m, clientFill B E msg rand line = .ok (.none, rand', m, p.length) ∧ rand'.isSome = rand.isSome ∧ RandOk E rand' ∧
      m.length = msg.length ∧ (m.drop 2).take p.length = p ∧ Sent B msg.length rand.isSome line p := by
  unfold clientFill
  have hm1 : (msg.take 2 ++ (line ++ [(0 : UInt8)]) ++ msg.drop (2 + (line ++ [(0 : UInt8)]).length)).length = msg.length := by
    simp; omega
  have hd1 : ((msg.take 2 ++ (line ++ [(0 : UInt8)]) ++ msg.drop (2 + (line ++ [(0 : UInt8)]).length)).drop 2).take line.length =
      line := by
    rw [List.append_assoc, List.drop_left' (by simp; omega), List.append_assoc, List.take_left' rfl]
  rw [store_ok (by simp; omega), Out.bind_ok, strlen_eq hz]
  generalize msg.take 2 ++ (line ++ [(0 : UInt8)]) ++ msg.drop (2 + (line ++ [(0 : UInt8)]).length) = m at hm1 hd1
  cases rand with
  | none => exact ⟨line, none, m, rfl, rfl, hr, hm1, hd1, fun _ => rfl, nofun⟩
  | some st =>
    obtain ⟨out, hi⟩ := hr st rfl
    obtain ⟨⟨st', o, e, l, _, _, i⟩, _⟩ := Rand.C39_pad hE hi (m.drop 2) line.length (msg.length - 2 - B.macLen)
      (by rw [List.length_drop]; omega) false
    dsimp only
    rw [e, Out.bind_ok, hd1]
    have hlen : (line ++ o).length = msg.length - 2 - B.macLen := by rw [List.length_append]; omega
    refine ⟨line ++ o, some st', m.take 2 ++ (line ++ o ++ (m.drop 2).drop (line.length + o.length)), ?_, rfl, ?_, ?_, ?_, ?_⟩
    · rw [hlen]; rfl
    · intro s hs
      cases hs
      exact ⟨_, i rfl⟩
    · simp only [List.length_append, List.length_take, List.length_drop] at hlen ⊢
      omega
    · rw [List.drop_left' (by simp; omega), List.take_left' rfl]
    · exact ⟨nofun, fun _ => ⟨List.prefix_append _ _, hlen⟩⟩

theorem clientReceive_ok {B : CipherBackend} (hB : B.Lawful) (hmac : 0 < B.macLen) (padding : Bool) (sent : Bytes)
    (msg : Bytes) (rc sc : CipherState) (p : Bytes) (hrk : rc.hasKey = true) (hrn : rc.n ≠ 0xFFFFFFFFFFFFFFFF)
    (h1 : p.length + B.macLen ≤ 65535) (h2 : p.length + B.macLen + 2 ≤ msg.length) :
    ∃ msg' : Bytes, msg'.length = msg.length ∧ ∀ segs rest, Clean segs →
      stream segs = frame (B.enc rc.key rc.n [] p).2 ++ rest →
      ∃ segs', clientReceive B padding sent segs msg rc sc =
          .ok (⟨.next, sent, segs', msg', { rc with n := rc.n + 1 }, sc⟩, some (if padding then upto p else p)) ∧
        Clean segs' ∧ stream segs' = rest := by
  have hel := hB.enc_length rc.key rc.n [] p
  have hfl := frame_length (B.enc rc.key rc.n [] p).2
  have htl : (msg.drop (p.length + B.macLen + 2)).length = msg.length - (p.length + B.macLen + 2) := List.length_drop
  obtain ⟨d, d1, d2, d3⟩ := dec_one hB hrk hrn p [] h1
  rw [List.append_nil, List.append_nil] at d3
  refine ⟨(frame (B.enc rc.key rc.n [] p).2 ++ msg.drop (p.length + B.macLen + 2)).take 2 ++ d ++
    (frame (B.enc rc.key rc.n [] p).2 ++ msg.drop (p.length + B.macLen + 2)).drop (2 + d.length), ?_, ?_⟩
  · simp only [List.length_append, List.length_take, List.length_drop] at htl ⊢
    omega
  intro segs rest hc hs
  obtain ⟨s1, e1, c1, t1⟩ := C82_recv segs msg (B.enc rc.key rc.n [] p).2 rest msg.length hc hs (by omega) (by omega) (by omega)
    (Nat.le_refl _)
  rw [hel] at e1
  generalize msg.drop (p.length + B.macLen + 2) = tl at e1 htl
  have hdrop : (frame (B.enc rc.key rc.n [] p).2 ++ tl).drop 2 = (B.enc rc.key rc.n [] p).2 ++ tl := by
    rw [frame, List.append_assoc, List.drop_left' (i := 2) rfl]
  unfold clientReceive
  rw [e1, Out.bind_ok]
  dsimp only
  rw [if_neg (by omega), load_ok (by rw [List.length_append]; omega), Out.bind_ok, hdrop,
    show p.length + B.macLen + 2 - 2 = p.length + B.macLen by omega, List.take_left' hel]
  rw [d3, Out.bind_ok]
  dsimp only
  rw [store_ok (by rw [List.length_append]; omega), Out.bind_ok, if_neg (by simp), load_ok (by omega), Out.bind_ok, List.drop_zero, d2]
  exact ⟨s1, rfl, c1, t1⟩

/-- The client up to the point where it waits for the answer. -/
theorem clientTurn_eq {B : CipherBackend} (hB : B.Lawful) (E : Nat → Bytes) (hE : ∀ k, (E k).length = 40)
    (ks : List Snd) (msg : Bytes) (hmsg : msg.length ≤ 65537) (rc sc : CipherState) (rand : Option Rand.State)
    (hr : RandOk E rand) (line : Bytes) (hz : (0 : UInt8) ∉ line) (hl : line.length + 1 ≤ msg.length - 2 - B.macLen)
    (hsk : sc.hasKey = true) (hsn : sc.n ≠ 0xFFFFFFFFFFFFFFFF)
    (hks : ∀ p : Bytes, p.length ≤ 65537 → (send ks p).1 = some true) :
    ∃ p rand', Sent B msg.length rand.isSome line p ∧ p.length + B.macLen + 2 ≤ msg.length ∧
      rand'.isSome = rand.isSome ∧ RandOk E rand' ∧
      ∃ m : Bytes, m.length = msg.length ∧ ∀ segs, clientTurn B E ks segs msg rc sc rand line = (do
        let (t, out) ← clientReceive B rand.isSome (frame (B.enc sc.key sc.n [] p).2) segs m rc { sc with n := sc.n + 1 }
        pure (t, rand', out)) := by
  obtain ⟨p, rand', m, e1, hi, hr', hml, hmp, hsent⟩ := clientFill_ok B E hE msg rand hr line hz hl
  have hpl : p.length + B.macLen + 2 ≤ msg.length := by
    cases hx : rand.isSome with
    | false => rw [hsent.1 hx]; omega
    | true => have := (hsent.2 hx).2; omega
  have hel := hB.enc_length sc.key sc.n [] p
  have htk : (m.take 2).length = 2 := by rw [List.length_take]; omega
  have htl : ((m.drop 2).drop (p.length + B.macLen)).length = m.length - 2 - (p.length + B.macLen) := by
    rw [List.length_drop, List.length_drop]
  have hk := hks (frame (B.enc sc.key sc.n [] p).2) (by rw [frame_length]; omega)
  have hl2 : (frame (B.enc sc.key sc.n [] p).2 ++ (m.drop 2).drop (p.length + B.macLen)).length = msg.length := by
    rw [List.length_append, frame_length]; omega
  refine ⟨p, rand', hsent, hpl, hi, hr', frame (B.enc sc.key sc.n [] p).2 ++ (m.drop 2).drop (p.length + B.macLen), hl2, ?_⟩
  intro segs
  unfold clientTurn
  rw [e1, Out.bind_ok]
  dsimp only
  rw [if_neg (by simp), enc_one hB hsk hsn _ (by dsimp only; omega) (by dsimp only; rw [List.length_drop]; omega), Out.bind_ok]
  dsimp only
  rw [if_neg (by simp), hmp]
  generalize (m.drop 2).drop (p.length + B.macLen) = tl
  rw [← hel, sendPacket_eq _ _ _ _ htk, Out.bind_ok]
  dsimp only
  rw [hk, (C82_send _ _).2 hk, if_neg (by simp)]

theorem clientTurn_ok {B : CipherBackend} (hB : B.Lawful) (hmac : 0 < B.macLen) (E : Nat → Bytes) (hE : ∀ k, (E k).length = 40)
    (ks : List Snd) (msg : Bytes) (hmsg : msg.length ≤ 65537) (rc sc : CipherState) (rand : Option Rand.State)
    (hr : RandOk E rand) (line : Bytes) (hz : (0 : UInt8) ∉ line) (hl : line.length + 1 ≤ msg.length - 2 - B.macLen)
    (hrk : rc.hasKey = true) (hsk : sc.hasKey = true) (hrn : rc.n ≠ 0xFFFFFFFFFFFFFFFF) (hsn : sc.n ≠ 0xFFFFFFFFFFFFFFFF)
    (hks : ∀ p : Bytes, p.length ≤ 65537 → (send ks p).1 = some true) :
    ∃ p rand', Sent B msg.length rand.isSome line p ∧ p.length + B.macLen + 2 ≤ msg.length ∧
      rand'.isSome = rand.isSome ∧ RandOk E rand' ∧
      ∃ msg' : Bytes, msg'.length = msg.length ∧ ∀ segs rest, Clean segs → stream segs = frame (B.enc rc.key rc.n [] p).2 ++ rest →
      ∃ segs', clientTurn B E ks segs msg rc sc rand line = .ok
          (⟨.next, frame (B.enc sc.key sc.n [] p).2, segs', msg', { rc with n := rc.n + 1 }, { sc with n := sc.n + 1 }⟩, rand',
            some (if rand.isSome then upto p else p)) ∧
        Clean segs' ∧ stream segs' = rest := by
  obtain ⟨p, rand', hsent, hpl, hi, hr', m, hm, ht⟩ := clientTurn_eq hB E hE ks msg hmsg rc sc rand hr line hz hl hsk hsn hks
  obtain ⟨m1, l2, hrec⟩ := clientReceive_ok hB hmac rand.isSome (frame (B.enc sc.key sc.n [] p).2) m rc { sc with n := sc.n + 1 } p
    hrk hrn (by omega) (by omega)
  refine ⟨p, rand', hsent, hpl, hi, hr', m1, by omega, ?_⟩
  intro segs rest hc hs
  obtain ⟨s1, e2, c2, t2⟩ := hrec segs rest hc hs
  exact ⟨s1, by rw [ht, e2, Out.bind_ok]; rfl, c2, t2⟩

/-- The client with any number of lines. What it sends is determined before anything arrives. -/
theorem clientLoop_ok {B : CipherBackend} (hB : B.Lawful) (hmac : 0 < B.macLen) (E : Nat → Bytes) (hE : ∀ k, (E k).length = 40)
    (ls : List Bytes) :
    ∀ (kss : List (List Snd)) (msg : Bytes) (rc sc : CipherState) (rand : Option Rand.State),
    msg.length ≤ 65537 → rc.hasKey = true → sc.hasKey = true → rc.n.toNat + ls.length < 2 ^ 64 → sc.n.toNat + ls.length < 2 ^ 64 →
    RandOk E rand → (∀ l ∈ ls, IsLine l ∧ l.length + 1 ≤ msg.length - 2 - B.macLen) →
    ls.length < kss.length → (∀ ks ∈ kss, ∀ p : Bytes, p.length ≤ 65537 → (send ks p).1 = some true) →
    ∃ ps, List.Forall₂ (Sent B msg.length rand.isSome) ls ps ∧
      (∀ p ∈ ps, p.length + B.macLen + 2 ≤ msg.length) ∧
      ∀ segs, Clean segs → stream segs = wire (seals B rc.key rc.n ps) →
        clientLoop B E kss segs msg rc sc rand ls.flatten = .ok (some true, wire (seals B sc.key sc.n ps), ls) := by
  induction ls with
  | nil =>
    intro kss msg rc sc rand _ _ _ _ _ _ _ hl _
    refine ⟨[], .nil, nofun, ?_⟩
    intro segs _ _
    match kss, hl with
    | ks :: kss, _ => rfl
  | cons l ls ih =>
    intro kss msg rc sc rand hmsg hrk hsk hrn hsn hr hls hl hks
    rw [List.length_cons] at hrn hsn hl
    have hr' := n_ne_max hrn
    have hs' := n_ne_max hsn
    obtain ⟨l1, l2⟩ := hls l List.mem_cons_self
    match kss, hl with
    | ks :: kss, hl =>
      rw [List.length_cons] at hl
      obtain ⟨p, rand', hsent, hpl, hi, hro, m1, ml, ht⟩ := clientTurn_ok hB hmac E hE ks msg hmsg rc sc rand hr l l1.no_zero l2
        hrk hsk hr' hs' (hks ks List.mem_cons_self)
      obtain ⟨ps, hf, hps, hloop⟩ := ih kss m1 { rc with n := rc.n + 1 } { sc with n := sc.n + 1 } rand' (by omega) hrk hsk
        (by dsimp only; rw [u64_succ hr']; omega) (by dsimp only; rw [u64_succ hs']; omega) hro
        (fun q hq => by rw [ml]; exact hls q (List.mem_cons_of_mem _ hq)) (by omega) (fun k hk => hks k (List.mem_cons_of_mem _ hk))
      rw [hi, ml] at hf
      rw [ml] at hps
      refine ⟨p :: ps, .cons hsent hf, ?_, ?_⟩
      · intro q hq
        rcases List.mem_cons.1 hq with rfl | hq
        · exact hpl
        · exact hps q hq
      intro segs hc hs
      obtain ⟨segs', e, c, t⟩ := ht segs (wire (seals B rc.key (rc.n + 1) ps)) hc hs
      have hout : (if rand.isSome then upto p else p) = l := by
        cases hx : rand.isSome with
        | false => rw [if_neg (by simp), hsent.1 hx]
        | true =>
          obtain ⟨o, rfl⟩ := (hsent.2 hx).1
          rw [if_pos rfl, l1.upto]
      rw [List.flatten_cons, clientLoop, fgets_line l1 _ _ l2]
      dsimp only
      rw [e, Out.bind_ok]
      dsimp only
      rw [hloop segs' c t, Out.bind_ok, hout]
      rfl

/-! ## The server with any input -/

theorem serverTurn_any {B : CipherBackend} (hB : B.Lawful) (ks : List Snd) (segs : List Seg) (msg : Bytes) (rc sc : CipherState)
    (hrk : rc.hasKey = true) (hsk : sc.hasKey = true) (hm : 2 ≤ msg.length) :
    ∃ t, serverTurn B ks segs msg rc sc = .ok t ∧ t.msg.length = msg.length ∧
      ((t.status ≠ .next ∧ t.sent = []) ∨
        ∃ c, B.macLen ≤ c.length ∧ (B.dec rc.key rc.n [] c).1 = .none ∧
          t.rc = { rc with n := rc.n + 1 } ∧ t.sc = { sc with n := sc.n + 1 } ∧
          t.sent <+: frame (B.enc sc.key sc.n [] ((B.dec rc.key rc.n [] c).2.take (c.length - B.macLen))).2 ∧
          (t.status = .next →
            t.sent = frame (B.enc sc.key sc.n [] ((B.dec rc.key rc.n [] c).2.take (c.length - B.macLen))).2)) := by
  obtain ⟨n, m, s, e, ml, _, hn⟩ := C82_recv_safe segs msg msg.length (Nat.le_refl _)
  unfold serverTurn
  rw [e, Out.bind_ok]
  dsimp only
  by_cases h0 : n = 0
  · rw [if_pos h0]
    exact ⟨_, rfl, ml, Or.inl ⟨nofun, rfl⟩⟩
  rw [if_neg h0]
  obtain ⟨n1, _⟩ := hn h0
  have hdl : (m.drop 2).length = m.length - 2 := List.length_drop
  have htk : (m.take 2).length = 2 := by rw [List.length_take]; omega
  -- decryption
  obtain ⟨r, e1, l1, h1⟩ : ∃ r, rc.decryptWithAd B [] ⟨m.drop 2, n - 2⟩ = .ok r ∧ r.buf.data.length = m.length - 2 ∧
      (r.err ≠ .none ∨ r.err = .none ∧ r.st = { rc with n := rc.n + 1 } ∧ r.buf.size ≤ m.length - 2 ∧ ∃ c : Bytes,
        B.macLen ≤ c.length ∧ (B.dec rc.key rc.n [] c).1 = .none ∧
        r.buf.data.take r.buf.size = (B.dec rc.key rc.n [] c).2.take (c.length - B.macLen)) := by
    unfold CipherState.decryptWithAd
    split
    · exact ⟨_, rfl, hdl, Or.inl nofun⟩
    rename_i hsz
    have hmx : (⟨m.drop 2, n - 2⟩ : Buf).maxSize = m.length - 2 := hdl
    dsimp only at hsz ⊢
    rw [if_neg (by simp [hrk])]
    split
    · exact ⟨_, rfl, hdl, Or.inl nofun⟩
    rename_i hmc
    split
    · exact ⟨_, rfl, hdl, Or.inl nofun⟩
    rw [load_ok (by omega), Out.bind_ok, List.drop_zero]
    have hcl : ((m.drop 2).take (n - 2)).length = n - 2 := by rw [List.length_take]; omega
    generalize (m.drop 2).take (n - 2) = c at hcl
    have hd := hB.dec_length rc.key rc.n [] c
    rw [store_ok (by omega), Out.bind_ok, List.take_zero, List.nil_append, Nat.zero_add]
    have hl2 : ((B.dec rc.key rc.n [] c).2 ++ (m.drop 2).drop (B.dec rc.key rc.n [] c).2.length).length = m.length - 2 := by
      rw [List.length_append, List.length_drop]; omega
    split
    · rename_i he
      exact ⟨_, rfl, hl2, Or.inl he⟩
    · rename_i he
      refine ⟨_, rfl, hl2, Or.inr ⟨rfl, rfl, by dsimp only; omega, c, by omega, Classical.not_not.1 he, ?_⟩⟩
      dsimp only
      rw [List.take_append_of_le_length (by omega), hcl]
  rw [e1, Out.bind_ok]
  rcases h1 with he | ⟨he, hst, hbs, c, hc1, hc2, hc3⟩
  · rw [if_pos he]
    refine ⟨_, rfl, ?_, Or.inl ⟨nofun, rfl⟩⟩
    rw [List.length_append]; omega
  rw [if_neg (by simp [he])]
  -- encryption
  obtain ⟨q, e2, hmax, hq1, hiff, _⟩ := C06_encrypt_respects_capacity B hB sc [] r.buf
  have hql : q.buf.data.length = m.length - 2 := by
    have h : q.buf.data.length = r.buf.data.length := hmax
    omega
  by_cases hqe : q.err = .none
  · obtain ⟨_, hcond⟩ := hiff.1 hqe
    obtain ⟨k1, k2, k3⟩ := hcond.1 hsk
    have hrm : r.buf.maxSize = r.buf.data.length := rfl
    rw [enc_one hB hsk k3 r.buf k2 (by omega), Out.bind_ok]
    dsimp only
    rw [if_neg (by simp), hc3]
    have hpl : ((B.dec rc.key rc.n [] c).2.take (c.length - B.macLen)).length = r.buf.size := by
      rw [← hc3, List.length_take]; omega
    have hel := hB.enc_length sc.key sc.n [] ((B.dec rc.key rc.n [] c).2.take (c.length - B.macLen))
    rw [hpl] at hel
    rw [← hel, sendPacket_eq _ _ _ _ htk, Out.bind_ok]
    refine ⟨_, rfl, ?_, Or.inr ⟨c, hc1, hc2, hst, rfl, (C82_send _ _).1, ?_⟩⟩
    · dsimp only
      rw [List.length_append, frame_length, List.length_drop]; omega
    · intro hx
      apply (C82_send _ _).2
      revert hx
      dsimp only
      generalize (send ks _).1 = o
      intro hx
      match o, hx with
      | some true, _ => rfl
  · rw [e2, Out.bind_ok, if_pos hqe]
    refine ⟨_, rfl, ?_, Or.inl ⟨nofun, rfl⟩⟩
    dsimp only
    rw [List.length_append]; omega

/-- Plaintexts of ciphertexts which are accepted with a key and successive nonces. -/
def Accepted (B : CipherBackend) (key : Bytes) : UInt64 → List Bytes → Prop
  | _, [] => True
  | n, p :: ps => (∃ c, B.macLen ≤ c.length ∧ (B.dec key n [] c).1 = .none ∧ p = (B.dec key n [] c).2.take (c.length - B.macLen)) ∧
      Accepted B key (n + 1) ps

/-! ## The properties -/

/-- **C83**: the server answers the packets of a client, however they arrive, with packets that hold the same plaintexts in the
same order, encrypted with its own key and successive nonces, and ends well when the client goes. -/
theorem C83_server (B : CipherBackend) (hB : B.Lawful) (hmac : 0 < B.macLen) (ps : List Bytes) (kss : List (List Snd))
    (segs : List Seg) (msg : Bytes) (rc sc : CipherState) (hc : Clean segs) (hs : stream segs = wire (seals B rc.key rc.n ps))
    (hrk : rc.hasKey = true) (hsk : sc.hasKey = true) (hrn : rc.n.toNat + ps.length < 2 ^ 64)
    (hsn : sc.n.toNat + ps.length < 2 ^ 64) (hmsg : msg.length = 65537) (hp : ∀ p ∈ ps, p.length + B.macLen ≤ 65535)
    (hl : ps.length < kss.length) (hks : ∀ ks ∈ kss, ∀ p : Bytes, p.length ≤ 65537 → (send ks p).1 = some true) :
    serverLoop B kss segs msg rc sc = .ok (some true, wire (seals B sc.key sc.n ps)) :=
  serverLoop_ok hB hmac ps kss segs msg rc sc hc hs hrk hsk hrn hsn
    (fun p h => ⟨hp p h, by have := hp p h; omega⟩) hl hks

/-- **C83**: whatever arrives, and whatever `send` does, the server stays inside its memory, and what it sends is a beginning of
packets with plaintexts which it has accepted, in order. -/
theorem C83_server_safe (B : CipherBackend) (hB : B.Lawful) (kss : List (List Snd)) :
    ∀ (segs : List Seg) (msg : Bytes) (rc sc : CipherState), rc.hasKey = true → sc.hasKey = true → msg.length = 65537 →
    ∃ ok sent ps, serverLoop B kss segs msg rc sc = .ok (ok, sent) ∧ Accepted B rc.key rc.n ps ∧
      sent <+: wire (seals B sc.key sc.n ps) := by
  induction kss with
  | nil => intro segs msg rc sc _ _ _; exact ⟨none, [], [], rfl, trivial, List.nil_prefix⟩
  | cons ks kss ih =>
    intro segs msg rc sc hrk hsk hm
    obtain ⟨t, e, l, h⟩ := serverTurn_any hB ks segs msg rc sc hrk hsk (by omega)
    rw [serverLoop, e, Out.bind_ok]
    rcases h with ⟨h1, h2⟩ | ⟨c, c1, c2, h1, h2, h3, h4⟩
    · rw [h2]
      cases hst : t.status with
      | next => exact absurd hst h1
      | closed => exact ⟨_, _, [], rfl, trivial, List.prefix_refl _⟩
      | failed => exact ⟨_, _, [], rfl, trivial, List.prefix_refl _⟩
      | waiting => exact ⟨_, _, [], rfl, trivial, List.prefix_refl _⟩
    · have one : t.sent <+: wire (seals B sc.key sc.n [(B.dec rc.key rc.n [] c).2.take (c.length - B.macLen)]) := by
        simpa [wire, seals] using h3
      have acc : Accepted B rc.key rc.n [(B.dec rc.key rc.n [] c).2.take (c.length - B.macLen)] := ⟨⟨c, c1, c2, rfl⟩, trivial⟩
      cases hst : t.status with
      | next =>
        obtain ⟨ok, sent, ps, e2, a2, p2⟩ := ih t.segs t.msg t.rc t.sc (by rw [h1]; exact hrk) (by rw [h2]; exact hsk) (by omega)
        dsimp only
        rw [e2, Out.bind_ok, h4 hst]
        rw [h1] at a2
        rw [h2] at p2
        refine ⟨_, _, (B.dec rc.key rc.n [] c).2.take (c.length - B.macLen) :: ps, rfl, ⟨⟨c, c1, c2, rfl⟩, a2⟩, ?_⟩
        exact (List.prefix_append_right_inj _).2 p2
      | closed => exact ⟨_, _, _, rfl, acc, one⟩
      | failed => exact ⟨_, _, _, rfl, acc, one⟩
      | waiting => exact ⟨_, _, _, rfl, acc, one⟩

/-- A body which is not accepted as a ciphertext in a state. -/
def Rejected (B : CipherBackend) (s : CipherState) (body : Bytes) : Prop :=
  body.length < B.macLen ∨ (B.dec s.key s.n [] body).1 ≠ .none

theorem dec_rejected {B : CipherBackend} (hB : B.Lawful) {s : CipherState} (hk : s.hasKey = true) (body rest : Bytes)
    (h : Rejected B s body) :
    ∃ r, s.decryptWithAd B [] ⟨body ++ rest, body.length⟩ = .ok r ∧ r.err ≠ .none ∧ r.buf.data.length = body.length + rest.length := by
  have hlen : (body ++ rest).length = body.length + rest.length := List.length_append
  unfold CipherState.decryptWithAd
  split
  · exact ⟨_, rfl, nofun, hlen⟩
  dsimp only
  rw [if_neg (by simp [hk])]
  split
  · exact ⟨_, rfl, nofun, hlen⟩
  rename_i hm
  split
  · exact ⟨_, rfl, nofun, hlen⟩
  rw [load_ok (by omega), Out.bind_ok, List.drop_zero, List.take_left' rfl]
  have hd := hB.dec_length s.key s.n [] body
  rw [store_ok (by omega), Out.bind_ok]
  have he : (B.dec s.key s.n [] body).1 ≠ .none := by
    rcases h with h | h
    · exact absurd h hm
    · exact h
  rw [if_pos he]
  refine ⟨_, rfl, he, ?_⟩
  dsimp only
  rw [List.take_zero, List.nil_append, List.length_append, List.length_drop]
  omega

/-- **C83**: a packet that is not accepted ends the server with a failure, and nothing is sent for it. -/
theorem C83_server_rejects (B : CipherBackend) (hB : B.Lawful) (ks : List Snd) (kss : List (List Snd)) (segs : List Seg)
    (msg : Bytes) (rc sc : CipherState) (body rest : Bytes) (hc : Clean segs) (hs : stream segs = frame body ++ rest)
    (hrk : rc.hasKey = true) (hmsg : msg.length = 65537) (h0 : 0 < body.length) (h1 : body.length < 65536)
    (hrej : Rejected B rc body) : serverLoop B (ks :: kss) segs msg rc sc = .ok (some false, []) := by
  obtain ⟨s1, e1, _, _⟩ := C82_recv segs msg body rest msg.length hc hs h0 h1 (by omega) (Nat.le_refl _)
  have hdrop : (frame body ++ msg.drop (body.length + 2)).drop 2 = body ++ msg.drop (body.length + 2) := by
    rw [frame, List.append_assoc, List.drop_left' (i := 2) rfl]
  obtain ⟨r, e2, he, _⟩ := dec_rejected hB hrk body (msg.drop (body.length + 2)) hrej
  rw [serverLoop, serverTurn, e1, Out.bind_ok]
  dsimp only
  rw [if_neg (by omega), hdrop, show body.length + 2 - 2 = body.length by omega, e2, Out.bind_ok, if_pos he]
  rfl

/-- **C83**: if the connection ends, or the answer is not accepted, the client prints nothing for the line and ends with a
failure. -/
theorem C83_client_rejects (B : CipherBackend) (hB : B.Lawful) (E : Nat → Bytes) (hE : ∀ k, (E k).length = 40)
    (ks : List Snd) (kss : List (List Snd)) (msg : Bytes) (rc sc : CipherState) (rand : Option Rand.State) (hr : RandOk E rand)
    (line input : Bytes) (hline : IsLine line) (hmsg : msg.length = 65537) (hl : line.length + 1 ≤ 65535 - B.macLen)
    (hrk : rc.hasKey = true) (hsk : sc.hasKey = true) (hsn : sc.n ≠ 0xFFFFFFFFFFFFFFFF)
    (hks : ∀ p : Bytes, p.length ≤ 65537 → (send ks p).1 = some true) :
    ∃ p, Sent B msg.length rand.isSome line p ∧ ∀ segs, Clean segs →
      (stream segs = [] ∨ ∃ body rest, stream segs = frame body ++ rest ∧ 0 < body.length ∧ body.length < 65536 ∧
        Rejected B rc body) →
      clientLoop B E (ks :: kss) segs msg rc sc rand (line ++ input) =
        .ok (some false, frame (B.enc sc.key sc.n [] p).2, []) := by
  obtain ⟨p, rand', hsent, _, _, _, m, hm, ht⟩ := clientTurn_eq hB E hE ks msg (by omega) rc sc rand hr line hline.no_zero
    (by omega) hsk hsn hks
  refine ⟨p, hsent, fun segs hc hs => ?_⟩
  rw [clientLoop, fgets_line hline _ _ (by omega)]
  dsimp only
  rw [ht, clientReceive]
  rcases hs with hs | ⟨body, rest, hs, h0, h1, hrej⟩
  · obtain ⟨s1, e1⟩ := recv_empty segs m m.length hc hs
    rw [e1]
    rfl
  · obtain ⟨s1, e1, _, _⟩ := C82_recv segs m body rest m.length hc hs h0 h1 (by omega) (Nat.le_refl _)
    have hdrop : (frame body ++ m.drop (body.length + 2)).drop 2 = body ++ m.drop (body.length + 2) := by
      rw [frame, List.append_assoc, List.drop_left' (i := 2) rfl]
    have hfl := frame_length body
    obtain ⟨r, e2, he, hl2⟩ := dec_rejected hB hrk body [] hrej
    rw [List.append_nil] at e2
    rw [List.length_nil, Nat.add_zero] at hl2
    rw [e1, Out.bind_ok]
    dsimp only
    rw [if_neg (by omega), load_ok (by rw [List.length_append]; omega), Out.bind_ok, hdrop,
      show body.length + 2 - 2 = body.length by omega, List.take_left' rfl, e2, Out.bind_ok,
      store_ok (by rw [List.length_append]; omega), Out.bind_ok, if_pos he]
    rfl

/-- A packet with a wrong tag. -/
example : serverLoop toyCipher [[.takes 9], [.takes 9]] [.data [0, 3, 104, 10, 5]] (List.replicate 20 0) ⟨true, [1], 0⟩ ⟨true, [2], 0⟩ =
    .ok (some false, []) := by decide +kernel

/-- **C83**: if the connection fails while the server sends its answer, the server ends with a failure. -/
theorem C83_server_send_fails (B : CipherBackend) (hB : B.Lawful) (hmac : 0 < B.macLen) (ks : List Snd) (kss : List (List Snd))
    (segs : List Seg) (msg : Bytes) (rc sc : CipherState) (p rest : Bytes) (hc : Clean segs)
    (hs : stream segs = frame (B.enc rc.key rc.n [] p).2 ++ rest)
    (hrk : rc.hasKey = true) (hsk : sc.hasKey = true) (hrn : rc.n ≠ 0xFFFFFFFFFFFFFFFF) (hsn : sc.n ≠ 0xFFFFFFFFFFFFFFFF)
    (h1 : p.length + B.macLen ≤ 65535) (hmsg : msg.length = 65537)
    (hks : (send ks (frame (B.enc sc.key sc.n [] p).2)).1 = some false) :
    serverLoop B (ks :: kss) segs msg rc sc = .ok (some false, (send ks (frame (B.enc sc.key sc.n [] p).2)).2) := by
  obtain ⟨segs', msg', e, _⟩ := serverTurn_sends hB hmac ks segs msg rc sc p rest hc hs hrk hsk hrn hsn h1 (by omega)
  rw [serverLoop, e, Out.bind_ok, hks]
  rfl

/-- **C83**: whatever lines are typed, with padding or without: if the server gets what the client sends and the client gets
what the server sends, both divided by the network in any way, the client prints exactly the lines. -/
theorem C83_echo (B : CipherBackend) (hB : B.Lawful) (hmac : 0 < B.macLen) (E : Nat → Bytes) (hE : ∀ k, (E k).length = 40)
    (ls : List Bytes) (hls : ∀ l ∈ ls, IsLine l ∧ l.length + 1 ≤ 65535 - B.macLen)
    -- the two ciphers of the two sides, after a handshake
    (up down : CipherState) (huk : up.hasKey = true) (hdk : down.hasKey = true)
    (hun : up.n.toNat + ls.length < 2 ^ 64) (hdn : down.n.toNat + ls.length < 2 ^ 64)
    (rand : Option Rand.State) (hr : RandOk E rand) (cmsg smsg : Bytes) (hcm : cmsg.length = 65537) (hsm : smsg.length = 65537)
    -- `send` works
    (ckss skss : List (List Snd)) (hcl : ls.length < ckss.length) (hsl : ls.length < skss.length)
    (hck : ∀ ks ∈ ckss, ∀ p : Bytes, p.length ≤ 65537 → (send ks p).1 = some true)
    (hsk : ∀ ks ∈ skss, ∀ p : Bytes, p.length ≤ 65537 → (send ks p).1 = some true) :
    ∃ toServer toClient : Bytes,
      (∀ segs, Clean segs → stream segs = toServer → serverLoop B skss segs smsg up down = .ok (some true, toClient)) ∧
      (∀ segs, Clean segs → stream segs = toClient →
        clientLoop B E ckss segs cmsg down up rand ls.flatten = .ok (some true, toServer, ls)) ∧
      -- with padding all packets have the same length
      (rand.isSome = true → ∃ bodies, toServer = wire bodies ∧ bodies.length = ls.length ∧ ∀ b ∈ bodies, b.length = 65535) := by
  obtain ⟨ps, hf, hps, hcl'⟩ := clientLoop_ok hB hmac E hE ls ckss cmsg down up rand (by omega) hdk huk hdn hun hr
    (fun l h => ⟨(hls l h).1, by have := (hls l h).2; omega⟩) hcl hck
  have hlen : ls.length = ps.length := by
    clear hls hun hdn hcl hsl hcl' hps
    induction hf with
    | nil => rfl
    | cons _ _ ih => rw [List.length_cons, List.length_cons, ih]
  refine ⟨wire (seals B up.key up.n ps), wire (seals B down.key down.n ps), ?_, hcl', ?_⟩
  · intro segs hc hs
    exact C83_server B hB hmac ps skss segs smsg up down hc hs huk hdk (by omega) (by omega) hsm
      (fun p h => by have := hps p h; omega) (by omega) hsk
  · intro hx
    refine ⟨_, rfl, ?_, ?_⟩
    · have : ∀ (ps : List Bytes) (n : UInt64), (seals B up.key n ps).length = ps.length := by
        intro ps
        induction ps with
        | nil => intro n; rfl
        | cons p ps ih => intro n; rw [seals, List.length_cons, ih, List.length_cons]
      rw [this, hlen]
    · have hm := hB.macLen_le
      have hmp : maxPayload = 65535 := rfl
      generalize up.n = n
      clear hls hun hdn hcl hsl hcl' hlen
      induction hf generalizing n with
      | nil => nofun
      | cons h _ ih =>
        intro b hb
        rw [seals] at hb
        rcases List.mem_cons.1 hb with rfl | hb
        · rw [hB.enc_length, (h.2 hx).2]; omega
        · exact ih (fun p hp => hps p (List.mem_cons_of_mem _ hp)) _ b hb

/-- Two lines, one packet arriving in pieces. -/
example : serverLoop toyCipher [[.takes 9], [.takes 1, .again, .takes 9], []] [.data [0], .data [3, 104, 10], .again, .data [0, 0, 2, 10, 0]]
    (List.replicate 20 0) ⟨true, [1], 0⟩ ⟨true, [2], 0⟩ = .ok (some true, [0, 3, 104, 10, 0, 0, 2, 10, 0]) := by decide +kernel

example : clientLoop toyCipher (fun _ => []) [[.takes 9], [.takes 9], []] [.data [0, 3, 104, 10, 0], .data [0, 2, 10, 0]]
    (List.replicate 20 0) ⟨true, [2], 0⟩ ⟨true, [1], 0⟩ none [104, 10, 10] =
      .ok (some true, [0, 3, 104, 10, 0, 0, 2, 10, 0], [[104, 10], [10]]) := by decide +kernel

/-- The hypotheses of `C83_echo` can be met, with padding. -/
example : ∃ toServer toClient : Bytes,
    (∀ segs, Clean segs → stream segs = toServer → serverLoop toyCipher (List.replicate 3 [.again, .takes 65537]) segs
      (List.replicate 65537 0) ⟨true, [1], 7⟩ ⟨true, [2], 0⟩ = .ok (some true, toClient)) ∧
    (∀ segs, Clean segs → stream segs = toClient → clientLoop toyCipher (fun _ => List.replicate 40 3)
      (List.replicate 3 [.takes 65537]) segs (List.replicate 65537 0) ⟨true, [2], 0⟩ ⟨true, [1], 7⟩
      (some (Rand.new fun _ => List.replicate 40 3)) [[104, 10], [10]].flatten = .ok (some true, toServer, [[104, 10], [10]])) ∧
    (∃ bodies, toServer = wire bodies ∧ bodies.length = 2 ∧ ∀ b ∈ bodies, b.length = 65535) := by
  have hE : ∀ k, ((fun _ : Nat => (List.replicate 40 3 : Bytes)) k).length = 40 := fun _ => List.length_replicate
  obtain ⟨a, b, h1, h2, h3⟩ := C83_echo toyCipher toyCipher_lawful (by decide) (fun _ => List.replicate 40 3) hE [[104, 10], [10]]
    (by
      intro l hl
      rcases List.mem_cons.1 hl with rfl | hl
      · exact ⟨⟨[104], rfl, by decide, by decide⟩, by decide⟩
      · rw [List.mem_singleton.1 hl]
        exact ⟨⟨[], rfl, by decide, by decide⟩, by decide⟩)
    ⟨true, [1], 7⟩ ⟨true, [2], 0⟩ rfl rfl (by decide) (by decide) (some (Rand.new fun _ => List.replicate 40 3))
    (by intro st hs; cases hs; exact ⟨[], Rand.new_idle hE (by decide)⟩) (List.replicate 65537 0) (List.replicate 65537 0)
    List.length_replicate List.length_replicate (List.replicate 3 [.takes 65537]) (List.replicate 3 [.again, .takes 65537])
    (by rw [List.length_replicate]; decide) (by rw [List.length_replicate]; decide)
    (by
      intro ks hk p hp
      rw [List.eq_of_mem_replicate hk, send, if_pos (by omega)])
    (by
      intro ks hk p hp
      rw [List.eq_of_mem_replicate hk, send, send, if_pos (by omega)])
  exact ⟨a, b, h1, h2, h3 rfl⟩

theorem upto_append (a b : Bytes) (h : (10 : UInt8) ∉ a) : upto (a ++ b) = a ++ upto b := by
  induction a with
  | nil => rfl
  | cons c a ih =>
    rw [List.mem_cons, not_or] at h
    show (if c = 10 then [10] else c :: upto (a ++ b)) = _
    rw [if_neg (fun hc => h.1 hc.symm), ih h.2]
    rfl

/-- **C83** fails for a line without line feed (the last line of the input, or a part of a very long one) when there is padding:
the client always prints some of the random padding behind it. -/
theorem C83_fails_unterminated (B : CipherBackend) (hB : B.Lawful) (hmac : 0 < B.macLen) (E : Nat → Bytes)
    (hE : ∀ k, (E k).length = 40) (ks : List Snd) (msg : Bytes) (hmsg : msg.length = 65537) (rc sc : CipherState)
    (st : Rand.State) (out : Bytes) (hi : Rand.Idle E 1600064 st out) (line : Bytes) (hz : (0 : UInt8) ∉ line)
    (hlf : (10 : UInt8) ∉ line) (hl : line.length + 1 ≤ 65535 - B.macLen) (hrk : rc.hasKey = true) (hsk : sc.hasKey = true)
    (hrn : rc.n ≠ 0xFFFFFFFFFFFFFFFF) (hsn : sc.n ≠ 0xFFFFFFFFFFFFFFFF)
    (hks : ∀ p : Bytes, p.length ≤ 65537 → (send ks p).1 = some true) :
    ∃ p, ∀ segs rest, Clean segs → stream segs = frame (B.enc rc.key rc.n [] p).2 ++ rest →
      ∃ t rand' extra, clientTurn B E ks segs msg rc sc (some st) line = .ok (t, rand', some (line ++ extra)) ∧
        t.sent = frame (B.enc sc.key sc.n [] p).2 ∧ extra ≠ [] := by
  obtain ⟨p, rand', hsent, _, _, _, m, _, h⟩ := clientTurn_ok hB hmac E hE ks msg (by omega) rc sc (some st)
    (fun s hs => by cases hs; exact ⟨out, hi⟩) line hz (by omega) hrk hsk hrn hsn hks
  obtain ⟨⟨o, rfl⟩, hlen⟩ := hsent.2 rfl
  refine ⟨line ++ o, fun segs rest hc hs => ?_⟩
  obtain ⟨segs', e, _⟩ := h segs rest hc hs
  rw [Option.isSome_some, if_pos rfl, upto_append _ _ hlf] at e
  refine ⟨_, _, upto o, e, rfl, ?_⟩
  · match o, hlen with
    | [], hlen => rw [List.append_nil] at hlen; omega
    | c :: o, _ => rw [upto]; split <;> simp

end Noise.Echo
