import Verif.EchoLoop
import Verif.EchoPackets
import Verif.CipherProps
/-!
# Helper lemmas about the loops of the echo server and the echo client
-/

namespace Noise.Echo

/-- The ciphertexts of a list of plaintexts under a key, with successive nonces and no associated data. -/
def seals (B : CipherBackend) (key : Bytes) : UInt64 → List Bytes → List Bytes
  | _, [] => []
  | n, p :: ps => (B.enc key n [] p).2 :: seals B key (n + 1) ps

/-- Packets one after the other. -/
def wire (bodies : List Bytes) : Bytes := (bodies.map frame).flatten

theorem frame_length (b : Bytes) : (frame b).length = b.length + 2 := by simp [frame]

theorem recvLoop_empty (segs : List Seg) (packet : Bytes) (off len r : Nat) (hc : Clean segs) (hs : stream segs = []) :
    recvLoop segs packet off (len + 1) r = .ok (0, packet, []) := by
  induction segs with
  | nil => rfl
  | cons s segs ih =>
    have hc' : Clean segs := fun x hx => hc x (List.mem_cons_of_mem _ hx)
    cases s with
    | error => exact absurd rfl (hc _ List.mem_cons_self).1
    | again => exact ih hc' hs
    | data b =>
      rw [stream, List.append_eq_nil_iff] at hs
      obtain ⟨rfl, _⟩ := hs
      exact absurd rfl (hc _ List.mem_cons_self).2

theorem recv_empty (segs : List Seg) (packet : Bytes) (maxLen : Nat) (hc : Clean segs) (hs : stream segs = []) :
    ∃ segs', recv segs packet maxLen = .ok (0, packet, segs') := by
  unfold recv
  split
  · exact ⟨_, rfl⟩
  · rw [recvLoop_empty segs packet 0 1 0 hc hs]
    exact ⟨[], rfl⟩

theorem enc_one {B : CipherBackend} (hB : B.Lawful) {s : CipherState} (hk : s.hasKey = true) (hn : s.n ≠ 0xFFFFFFFFFFFFFFFF)
    (b : Buf) (h1 : b.size + B.macLen ≤ 65535) (h2 : b.size + B.macLen ≤ b.data.length) :
    s.encryptWithAd B [] b = .ok ⟨.none, { s with n := s.n + 1 },
      ⟨(B.enc s.key s.n [] (b.data.take b.size)).2 ++ b.data.drop (b.size + B.macLen), b.size + B.macLen⟩,
      [.enc s.key s.n]⟩ := by
  have hm : b.maxSize = b.data.length := rfl
  have hp : maxPayload = 65535 := rfl
  unfold CipherState.encryptWithAd
  rw [if_neg (by omega), if_neg (by simp [hk]), if_neg (by omega), if_neg (by omega), if_neg hn, load_ok (by omega), Out.bind_ok]
  have hl : (B.enc s.key s.n [] ((b.data.drop 0).take b.size)).2.length = b.size + B.macLen := by
    rw [hB.enc_length, List.drop_zero, List.length_take]; omega
  dsimp only
  rw [store_ok (by omega), Out.bind_ok, hl, hB.enc_ok]
  simp only [List.drop_zero, List.take_zero, List.nil_append, Nat.zero_add]
  rfl

theorem dec_one {B : CipherBackend} (hB : B.Lawful) {s : CipherState} (hk : s.hasKey = true) (hn : s.n ≠ 0xFFFFFFFFFFFFFFFF)
    (p rest : Bytes) (h1 : p.length + B.macLen ≤ 65535) :
    ∃ d, d.length = p.length + B.macLen ∧ d.take p.length = p ∧
      s.decryptWithAd B [] ⟨(B.enc s.key s.n [] p).2 ++ rest, p.length + B.macLen⟩ =
        .ok ⟨.none, { s with n := s.n + 1 }, ⟨d ++ rest, p.length⟩, [.dec s.key s.n .none]⟩ := by
  have hel := hB.enc_length s.key s.n [] p
  obtain ⟨d1, d2⟩ := hB.dec_enc s.key s.n [] p
  have hdl := hB.dec_length s.key s.n [] (B.enc s.key s.n [] p).2
  refine ⟨(B.dec s.key s.n [] (B.enc s.key s.n [] p).2).2, by omega, d2, ?_⟩
  unfold CipherState.decryptWithAd
  have hm : (⟨(B.enc s.key s.n [] p).2 ++ rest, p.length + B.macLen⟩ : Buf).maxSize = p.length + B.macLen + rest.length := by
    rw [Buf.maxSize, List.length_append, hel]
  have hp : maxPayload = 65535 := rfl
  have hz : (⟨(B.enc s.key s.n [] p).2 ++ rest, p.length + B.macLen⟩ : Buf).size = p.length + B.macLen := rfl
  rw [hm]
  rw [if_neg (by omega), if_neg (by simp [hk]), if_neg (by omega), if_neg hn, load_ok (by rw [List.length_append]; omega),
    Out.bind_ok, List.drop_zero, List.take_left' hel]
  dsimp only
  rw [store_ok (by rw [List.length_append]; omega), Out.bind_ok, d1]
  rw [Nat.zero_add, hdl, List.drop_left' rfl, List.take_zero, List.nil_append, Nat.add_sub_cancel]
  rfl

theorem header_eq (size : Nat) : [UInt8.ofNat (size >>> 8), UInt8.ofNat size] =
    [UInt8.ofNat (size / 256), UInt8.ofNat (size % 256)] := by
  rw [Nat.shiftRight_eq_div_pow]
  congr 2
  apply UInt8.toNat_inj.1
  rw [UInt8.toNat_ofNat', UInt8.toNat_ofNat']
  omega

theorem sendPacket_eq (ks : List Snd) (h body rest : Bytes) (hh : h.length = 2) :
    sendPacket ks (h ++ (body ++ rest)) body.length =
      .ok (frame body ++ rest, (send ks (frame body)).1, (send ks (frame body)).2) := by
  unfold sendPacket
  have hs : store (h ++ (body ++ rest)) 0 [UInt8.ofNat (body.length >>> 8), UInt8.ofNat body.length] = .ok (frame body ++ rest) := by
    rw [store_ok (by simp; omega), header_eq, List.take_zero, List.nil_append, Nat.zero_add]
    rw [show [UInt8.ofNat (body.length / 256), UInt8.ofNat (body.length % 256)].length = h.length by rw [hh]; rfl,
      List.drop_left' rfl, frame, List.append_assoc]
  rw [hs, Out.bind_ok, load_ok (by rw [List.length_append, frame_length]; omega), Out.bind_ok, List.drop_zero,
    List.take_left' (frame_length body)]
  rfl

theorem n_ne_max {n : UInt64} {k : Nat} (h : n.toNat + (k + 1) < 2 ^ 64) : n ≠ 0xFFFFFFFFFFFFFFFF := by
  intro hc
  rw [hc, show (0xFFFFFFFFFFFFFFFF : UInt64).toNat = 18446744073709551615 from rfl] at h
  omega

/-- One turn of the server with a genuine packet. -/
theorem serverTurn_sends {B : CipherBackend} (hB : B.Lawful) (hmac : 0 < B.macLen) (ks : List Snd) (segs : List Seg) (msg : Bytes)
    (rc sc : CipherState) (p rest : Bytes) (hc : Clean segs)
    (hs : stream segs = frame (B.enc rc.key rc.n [] p).2 ++ rest)
    (hrk : rc.hasKey = true) (hsk : sc.hasKey = true) (hrn : rc.n ≠ 0xFFFFFFFFFFFFFFFF) (hsn : sc.n ≠ 0xFFFFFFFFFFFFFFFF)
    (h1 : p.length + B.macLen ≤ 65535) (h2 : p.length + B.macLen + 2 ≤ msg.length) :
    ∃ segs' msg', serverTurn B ks segs msg rc sc = .ok ⟨statusOf (send ks (frame (B.enc sc.key sc.n [] p).2)).1,
        (send ks (frame (B.enc sc.key sc.n [] p).2)).2, segs', msg', { rc with n := rc.n + 1 }, { sc with n := sc.n + 1 }⟩ ∧ msg'.length = msg.length ∧ Clean segs' ∧ stream segs' = rest := by
  have hel := hB.enc_length rc.key rc.n [] p
  have hel' := hB.enc_length sc.key sc.n [] p
  obtain ⟨s1, e1, c1, t1⟩ := C82_recv segs msg (B.enc rc.key rc.n [] p).2 rest msg.length hc hs (by omega) (by omega) (by omega)
    (Nat.le_refl _)
  have htl : (msg.drop (p.length + B.macLen + 2)).length = msg.length - (p.length + B.macLen + 2) := List.length_drop
  rw [hel] at e1
  generalize msg.drop (p.length + B.macLen + 2) = tl at e1 htl
  unfold serverTurn
  rw [e1, Out.bind_ok]
  dsimp only
  rw [if_neg (by omega)]
  have hdrop : (frame (B.enc rc.key rc.n [] p).2 ++ tl).drop 2 =
      (B.enc rc.key rc.n [] p).2 ++ tl := by
    rw [frame, List.append_assoc, List.drop_left' (i := 2) rfl]
  have htake : ((frame (B.enc rc.key rc.n [] p).2 ++ tl).take 2).length = 2 := by
    rw [List.length_take, List.length_append, frame_length]; omega
  obtain ⟨d, d1, d2, d3⟩ := dec_one hB hrk hrn p (tl) h1
  rw [hdrop, show p.length + B.macLen + 2 - 2 = p.length + B.macLen by omega, d3, Out.bind_ok]
  dsimp only
  rw [if_neg (by simp), enc_one hB hsk hsn _ h1 (by dsimp only; rw [List.length_append]; omega), Out.bind_ok]
  dsimp only
  have d4 : (d ++ tl).take p.length = p := by
    rw [List.take_append_of_le_length (by omega), d2]
  rw [if_neg (by simp), d4, List.drop_left' d1, ← hel', sendPacket_eq _ _ _ _ htake, Out.bind_ok]
  refine ⟨s1, _, rfl, ?_, c1, t1⟩
  rw [List.length_append, frame_length]
  omega

theorem serverTurn_ok {B : CipherBackend} (hB : B.Lawful) (hmac : 0 < B.macLen) (ks : List Snd) (segs : List Seg) (msg : Bytes)
    (rc sc : CipherState) (p rest : Bytes) (hc : Clean segs)
    (hs : stream segs = frame (B.enc rc.key rc.n [] p).2 ++ rest)
    (hrk : rc.hasKey = true) (hsk : sc.hasKey = true) (hrn : rc.n ≠ 0xFFFFFFFFFFFFFFFF) (hsn : sc.n ≠ 0xFFFFFFFFFFFFFFFF)
    (h1 : p.length + B.macLen ≤ 65535) (h2 : p.length + B.macLen + 2 ≤ msg.length)
    (hks : (send ks (frame (B.enc sc.key sc.n [] p).2)).1 = some true) :
    ∃ segs' msg', serverTurn B ks segs msg rc sc = .ok ⟨.next, frame (B.enc sc.key sc.n [] p).2, segs', msg',
        { rc with n := rc.n + 1 }, { sc with n := sc.n + 1 }⟩ ∧ msg'.length = msg.length ∧ Clean segs' ∧ stream segs' = rest := by
  obtain ⟨segs', msg', e, l, c, t⟩ := serverTurn_sends hB hmac ks segs msg rc sc p rest hc hs hrk hsk hrn hsn h1 h2
  rw [hks, (C82_send _ _).2 hks] at e
  exact ⟨segs', msg', e, l, c, t⟩

theorem serverLoop_ok {B : CipherBackend} (hB : B.Lawful) (hmac : 0 < B.macLen) (ps : List Bytes) :
    ∀ (kss : List (List Snd)) (segs : List Seg) (msg : Bytes) (rc sc : CipherState),
    Clean segs → stream segs = wire (seals B rc.key rc.n ps) → rc.hasKey = true → sc.hasKey = true →
    rc.n.toNat + ps.length < 2 ^ 64 → sc.n.toNat + ps.length < 2 ^ 64 →
    (∀ p ∈ ps, p.length + B.macLen ≤ 65535 ∧ p.length + B.macLen + 2 ≤ msg.length) →
    ps.length < kss.length → (∀ ks ∈ kss, ∀ p : Bytes, p.length ≤ 65537 → (send ks p).1 = some true) →
    serverLoop B kss segs msg rc sc = .ok (some true, wire (seals B sc.key sc.n ps)) := by
  induction ps with
  | nil =>
    intro kss segs msg rc sc hc hs _ _ _ _ _ hl _
    match kss, hl with
    | ks :: kss, _ =>
      obtain ⟨segs', e⟩ := recv_empty segs msg msg.length hc hs
      rw [serverLoop, serverTurn, e, Out.bind_ok]
      rfl
  | cons p ps ih =>
    intro kss segs msg rc sc hc hs hrk hsk hrn hsn hp hl hks
    rw [List.length_cons] at hrn hsn hl
    have hr := n_ne_max hrn
    have hs' := n_ne_max hsn
    obtain ⟨p1, p2⟩ := hp p List.mem_cons_self
    match kss, hl with
    | ks :: kss, hl =>
      rw [List.length_cons] at hl
      obtain ⟨segs', msg', e, l, c, t⟩ := serverTurn_ok hB hmac ks segs msg rc sc p (wire (seals B rc.key (rc.n + 1) ps)) hc hs hrk hsk
        hr hs' p1 p2 (hks ks List.mem_cons_self _ (by rw [frame_length, hB.enc_length]; omega))
      rw [serverLoop, e, Out.bind_ok]
      dsimp only
      rw [ih kss segs' msg' { rc with n := rc.n + 1 } { sc with n := sc.n + 1 } c t hrk hsk
        (by dsimp only; rw [u64_succ hr]; omega) (by dsimp only; rw [u64_succ hs']; omega)
        (fun q hq => by rw [l]; exact hp q (List.mem_cons_of_mem _ hq)) (by omega) (fun k hk => hks k (List.mem_cons_of_mem _ hk)),
        Out.bind_ok]
      rfl

end Noise.Echo
