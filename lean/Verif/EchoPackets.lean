import Verif.Echo
import Verif.Poly1305Props
/-!
# The echo example: packets arrive as they were sent (C82)
-/

namespace Noise.Echo

/-- A connection which delivers bytes, possibly with interruptions, but no errors. -/
def Clean (segs : List Seg) : Prop := ∀ s ∈ segs, s ≠ .error ∧ s ≠ .data []

/-- All the bytes which a connection delivers. -/
def stream : List Seg → Bytes
  | [] => []
  | .data b :: segs => b ++ stream segs
  | _ :: segs => stream segs

theorem recvLoop_zero (segs : List Seg) (packet : Bytes) (off r : Nat) : recvLoop segs packet off 0 r = .ok (r, packet, segs) := by
  unfold recvLoop; rfl

theorem recvLoop_clean (segs : List Seg) (packet : Bytes) (off len r : Nat) (hc : Clean segs)
    (hm : off + len ≤ packet.length) (hl : len ≤ (stream segs).length) :
    ∃ segs', recvLoop segs packet off len r =
        .ok (r + len, packet.take off ++ (stream segs).take len ++ packet.drop (off + len), segs') ∧
      Clean segs' ∧ stream segs' = (stream segs).drop len := by
  induction segs generalizing packet off len r with
  | nil =>
    have : len = 0 := by simpa [stream] using hl
    subst this
    exact ⟨[], by rw [recvLoop_zero]; simp, hc, rfl⟩
  | cons s segs ih =>
    have hc' : Clean segs := fun x hx => hc x (List.mem_cons_of_mem _ hx)
    cases len with
    | zero => exact ⟨s :: segs, by rw [recvLoop_zero]; simp, hc, rfl⟩
    | succ n =>
      cases s with
      | error => exact absurd rfl (hc _ List.mem_cons_self).1
      | again =>
        rw [recvLoop]
        exact ih packet off (n + 1) r hc' hm hl
      | data b =>
        have hb : b.length ≠ 0 := by
          intro h0
          have := List.eq_nil_of_length_eq_zero h0
          subst this
          exact (hc _ List.mem_cons_self).2 rfl
        rw [recvLoop, if_neg hb]
        simp only [stream, List.length_append] at hl ⊢
        by_cases hle : b.length ≤ n + 1
        · rw [if_pos hle, store_ok (by omega)]
          obtain ⟨segs', e, c, st⟩ := ih (packet.take off ++ b ++ packet.drop (off + b.length)) (off + b.length)
            (n + 1 - b.length) (r + b.length) hc' (by simp; omega) (by omega)
          refine ⟨segs', ?_, c, ?_⟩
          · rw [Out.bind_ok, e]
            have h1 : (packet.take off ++ b ++ packet.drop (off + b.length)).take (off + b.length) = packet.take off ++ b :=
              List.take_left' (by simp; omega)
            have h2 : (packet.take off ++ b ++ packet.drop (off + b.length)).drop (off + b.length + (n + 1 - b.length)) =
                packet.drop (off + (n + 1)) := by
              rw [← List.drop_drop, List.drop_left' (by simp; omega), List.drop_drop]
              congr 1; omega
            rw [h1, h2, List.take_append, List.take_of_length_le hle, show r + b.length + (n + 1 - b.length) = r + (n + 1) by omega]
            simp only [List.append_assoc]
          · rw [st, List.drop_append, List.drop_of_length_le hle, List.nil_append]
        · rw [if_neg hle, store_ok (by simp; omega), Out.bind_ok]
          refine ⟨.data (b.drop (n + 1)) :: segs, ?_, ?_, ?_⟩
          · have h1 : (b.take (n + 1)).length = n + 1 := by simp; omega
            rw [h1, List.take_append_of_le_length (by omega)]
            rfl
          · intro x hx
            rcases List.mem_cons.1 hx with rfl | hx
            · refine ⟨by simp, ?_⟩
              intro h0
              have h2 : (b.drop (n + 1)).length = 0 := by rw [Seg.data.inj h0]; rfl
              rw [List.length_drop] at h2
              omega
            · exact hc' x hx
          · rw [stream, List.drop_append_of_le_length (by omega)]

/-- Whatever the connection does, receiving stays inside the memory and gets all or nothing. -/
theorem recvLoop_any (segs : List Seg) (packet : Bytes) (off len r : Nat) (hm : off + len ≤ packet.length) :
    ∃ n m s, recvLoop segs packet off len r = .ok (n, m, s) ∧ m.length = packet.length ∧ m.take off = packet.take off ∧
      m.drop (off + len) = packet.drop (off + len) ∧ (n = 0 ∨ n = r + len) := by
  induction segs generalizing packet off len r with
  | nil =>
    cases len with
    | zero => exact ⟨r, packet, [], recvLoop_zero _ _ _ _, rfl, rfl, rfl, Or.inr rfl⟩
    | succ n => exact ⟨0, packet, [], rfl, rfl, rfl, rfl, Or.inl rfl⟩
  | cons s segs ih =>
    cases len with
    | zero => exact ⟨r, packet, s :: segs, recvLoop_zero _ _ _ _, rfl, rfl, rfl, Or.inr rfl⟩
    | succ n =>
      cases s with
      | error => exact ⟨0, packet, segs, rfl, rfl, rfl, rfl, Or.inl rfl⟩
      | again => exact ih packet off (n + 1) r hm
      | data b =>
        rw [recvLoop]
        by_cases hb : b.length = 0
        · rw [if_pos hb]; exact ⟨0, packet, segs, rfl, rfl, rfl, rfl, Or.inl rfl⟩
        rw [if_neg hb]
        by_cases hle : b.length ≤ n + 1
        · rw [if_pos hle, store_ok (by omega), Out.bind_ok]
          obtain ⟨k, m, s', e, l, t, d, z⟩ := ih (packet.take off ++ b ++ packet.drop (off + b.length)) (off + b.length)
            (n + 1 - b.length) (r + b.length) (by simp; omega)
          refine ⟨k, m, s', e, by rw [l]; simp; omega, ?_, ?_, by omega⟩
          · have := congrArg (List.take off) t
            rw [List.take_take, List.take_take, Nat.min_eq_left (by omega)] at this
            rw [this, List.append_assoc, List.take_left' (by simp; omega)]
          · rw [show off + b.length + (n + 1 - b.length) = off + b.length + (n + 1 - b.length) from rfl] at d
            rw [show off + (n + 1) = off + b.length + (n + 1 - b.length) by omega, d, ← List.drop_drop,
              List.drop_left' (by simp; omega), List.drop_drop]
        · rw [if_neg hle, store_ok (by simp; omega), Out.bind_ok]
          have h1 : (b.take (n + 1)).length = n + 1 := by simp; omega
          refine ⟨_, _, _, rfl, by simp; omega, ?_, ?_, Or.inr rfl⟩
          · rw [List.append_assoc, List.take_left' (by simp; omega)]
          · rw [h1, List.drop_left' (by simp; omega)]

theorem size_eq (hi lo : UInt8) : hi.toNat <<< 8 ||| lo.toNat = 256 * hi.toNat + lo.toNat := by
  rw [← Nat.shiftLeft_add_eq_or_of_lt (by exact lo.toNat_lt), Nat.shiftLeft_eq]; omega

/-- A packet: two bytes of length and the body. -/
def frame (body : Bytes) : Bytes := [UInt8.ofNat (body.length / 256), UInt8.ofNat (body.length % 256)] ++ body

/-- **C82**: however the network divides and delays the bytes, receiving gets the next packet, whole and as it was sent, and
leaves what follows it. -/
theorem C82_recv (segs : List Seg) (packet body rest : Bytes) (maxLen : Nat) (hc : Clean segs)
    (hs : stream segs = frame body ++ rest) (h0 : 0 < body.length) (h1 : body.length < 65536) (h2 : body.length + 2 ≤ maxLen)
    (hm : maxLen ≤ packet.length) :
    ∃ segs', recv segs packet maxLen = .ok (body.length + 2, frame body ++ packet.drop (body.length + 2), segs') ∧
      Clean segs' ∧ stream segs' = rest := by
  have hf : (frame body).length = body.length + 2 := by simp [frame]
  unfold recv
  rw [if_neg (by omega)]
  obtain ⟨s1, e1, c1, t1⟩ := recvLoop_clean segs packet 0 2 0 hc (by omega) (by rw [hs, List.length_append]; omega)
  have hh : (stream segs).take 2 = [UInt8.ofNat (body.length / 256), UInt8.ofNat (body.length % 256)] := by
    rw [hs, frame]; rfl
  have hd : (stream segs).drop 2 = body ++ rest := by rw [hs, frame]; rfl
  rw [hh] at e1
  rw [hd] at t1
  rw [e1, Out.bind_ok]
  simp only [Nat.zero_add, List.take_zero, List.nil_append]
  rw [if_neg (by omega), load_ok (by simp), Out.bind_ok]
  have hsz : ((([UInt8.ofNat (body.length / 256), UInt8.ofNat (body.length % 256)] ++ packet.drop 2).drop 0).take 2) =
      [UInt8.ofNat (body.length / 256), UInt8.ofNat (body.length % 256)] := rfl
  rw [hsz]
  simp only [List.getD_cons_zero, List.getD_cons_succ, size_eq]
  have hv : 256 * (UInt8.ofNat (body.length / 256)).toNat + (UInt8.ofNat (body.length % 256)).toNat = body.length := by
    rw [UInt8.toNat_ofNat', UInt8.toNat_ofNat']; omega
  rw [hv, if_neg (by omega)]
  obtain ⟨s2, e2, c2, t2⟩ := recvLoop_clean s1
    ([UInt8.ofNat (body.length / 256), UInt8.ofNat (body.length % 256)] ++ packet.drop 2) 2 body.length 0 c1
    (by simp; omega) (by rw [t1, List.length_append]; omega)
  rw [e2, Out.bind_ok]
  refine ⟨s2, ?_, c2, ?_⟩
  · simp only [Nat.zero_add]
    rw [if_pos (by omega), t1, List.take_left' rfl]
    have hdr : ([UInt8.ofNat (body.length / 256), UInt8.ofNat (body.length % 256)] ++ packet.drop 2).drop (2 + body.length) =
        packet.drop (body.length + 2) := by
      rw [← List.drop_drop, List.drop_left' (i := 2) rfl, List.drop_drop]
      congr 1; omega
    rw [hdr]
    rfl
  · rw [t2, t1, List.drop_left' rfl]

/-- **C82**: for any connection, with any errors, receiving stays inside the memory it was given; a result other than zero
means that a whole packet is at its start. -/
theorem C82_recv_safe (segs : List Seg) (packet : Bytes) (maxLen : Nat) (hm : maxLen ≤ packet.length) :
    ∃ n m s, recv segs packet maxLen = .ok (n, m, s) ∧ m.length = packet.length ∧ m.drop maxLen = packet.drop maxLen ∧
      (n ≠ 0 → n ≤ maxLen ∧ ∃ body, m.take n = frame body) := by
  unfold recv
  by_cases h : maxLen < 2
  · rw [if_pos h]; exact ⟨0, packet, segs, rfl, rfl, rfl, fun h => absurd rfl h⟩
  rw [if_neg h]
  have dd : ∀ (m m' : Bytes) (k j : Nat), k ≤ j → m.drop k = m'.drop k → m.drop j = m'.drop j := by
    intro m m' k j hkj e
    have := congrArg (List.drop (j - k)) e
    rwa [List.drop_drop, List.drop_drop, show k + (j - k) = j by omega] at this
  obtain ⟨n1, m1, s1, e1, l1, _, d1, _⟩ := recvLoop_any segs packet 0 2 0 (by omega)
  have d1' := dd _ _ _ maxLen (by omega) d1
  rw [e1, Out.bind_ok]
  dsimp only
  by_cases hn : n1 = 0
  · rw [if_pos hn]; exact ⟨0, m1, s1, rfl, l1, d1', fun h => absurd rfl h⟩
  rw [if_neg hn, load_ok (by omega), Out.bind_ok]
  have hlen : ((m1.drop 0).take 2).length = 2 := by simp; omega
  obtain ⟨hi, lo, hh⟩ : ∃ hi lo, (m1.drop 0).take 2 = [hi, lo] := by
    match hx : (m1.drop 0).take 2, hlen with
    | [a, b], _ => exact ⟨a, b, rfl⟩
  rw [hh]
  simp only [List.getD_cons_zero, List.getD_cons_succ, size_eq]
  by_cases hz : 256 * hi.toNat + lo.toNat > maxLen - 2
  · rw [if_pos hz]; exact ⟨0, m1, s1, rfl, l1, d1', fun h => absurd rfl h⟩
  rw [if_neg hz]
  obtain ⟨n2, m2, s2, e2, l2, t2, d2, z2⟩ := recvLoop_any s1 m1 2 (256 * hi.toNat + lo.toNat) 0 (by omega)
  rw [e2, Out.bind_ok]
  refine ⟨_, m2, s2, rfl, by omega, (dd _ _ _ maxLen (by omega) d2).trans d1', ?_⟩
  intro hne
  by_cases h2 : n2 = 0
  · rw [h2] at hne; exact absurd rfl hne
  rw [if_pos h2] at hne ⊢
  have hn2 : n2 = 256 * hi.toNat + lo.toNat := by omega
  refine ⟨by omega, (m2.drop 2).take n2, ?_⟩
  have hb : ((m2.drop 2).take n2).length = n2 := by rw [List.length_take, List.length_drop]; omega
  have hlo := lo.toNat_lt
  have e1 : UInt8.ofNat (n2 / 256) = hi := by
    rw [hn2, show (256 * hi.toNat + lo.toNat) / 256 = hi.toNat by omega]; simp
  have e2 : UInt8.ofNat (n2 % 256) = lo := by
    rw [hn2, show (256 * hi.toNat + lo.toNat) % 256 = lo.toNat by omega]; simp
  rw [frame, hb, e1, e2, ← hh, List.drop_zero, ← t2, Nat.add_comm, List.take_add]

/-- **C82**: what has been sent is always a beginning of the packet, and the whole of it if the call reports success. -/
theorem C82_send (ks : List Snd) (p : Bytes) : (send ks p).2 <+: p ∧ ((send ks p).1 = some true → (send ks p).2 = p) := by
  induction ks generalizing p with
  | nil => exact ⟨List.nil_prefix, nofun⟩
  | cons k ks ih =>
    cases k with
    | again => exact ih p
    | error => exact ⟨List.nil_prefix, nofun⟩
    | takes n =>
      rw [send]
      split
      · exact ⟨List.prefix_refl _, fun _ => rfl⟩
      · obtain ⟨h1, h2⟩ := ih (p.drop (min n p.length))
        constructor
        · obtain ⟨t, ht⟩ := h1
          refine ⟨t, ?_⟩
          dsimp only
          rw [List.append_assoc, ht, List.take_append_drop]
        · intro h
          dsimp only at h ⊢
          rw [h2 h, List.take_append_drop]

/-- The bytes which `send` offers to take, all together. -/
def room : List Snd → Nat
  | [] => 0
  | .takes n :: ks => n + room ks
  | _ :: ks => room ks

/-- **C82**: sending is successful if `send` has no errors and takes enough bytes in the end, in any portions; it fails only
if `send` does; and it is not successful before enough bytes are taken. -/
theorem C82_send_result (ks : List Snd) (p : Bytes) :
    (.error ∉ ks → 0 < p.length → p.length ≤ room ks → (send ks p).1 = some true) ∧
    ((send ks p).1 = some false → .error ∈ ks) ∧ ((send ks p).1 = some true → p.length ≤ room ks) := by
  induction ks generalizing p with
  | nil => exact ⟨fun _ h0 h => by simp only [room] at h; omega, nofun, nofun⟩
  | cons k ks ih =>
    cases k with
    | again =>
      obtain ⟨h1, h2, h3⟩ := ih p
      exact ⟨fun h => h1 fun hc => h (List.mem_cons_of_mem _ hc), fun h => List.mem_cons_of_mem _ (h2 h), h3⟩
    | error => exact ⟨fun h => absurd List.mem_cons_self h, fun _ => List.mem_cons_self, nofun⟩
    | takes n =>
      rw [send, room]
      split
      · exact ⟨fun _ _ _ => rfl, nofun, fun _ => by omega⟩
      · obtain ⟨h1, h2, h3⟩ := ih (p.drop (min n p.length))
        rw [List.length_drop] at h1 h3
        refine ⟨fun h h0 hr => h1 (fun hc => h (List.mem_cons_of_mem _ hc)) (by omega) (by omega),
          fun h => List.mem_cons_of_mem _ (h2 h), fun h => ?_⟩
        have := h3 h
        omega

/-- **C82**: reading a known number of bytes, such as the protocol identifier, gets exactly these bytes. -/
theorem C82_recv_exact (segs : List Seg) (packet : Bytes) (len : Nat) (hm : len ≤ packet.length) :
    (Clean segs → len ≤ (stream segs).length → ∃ segs', recvExact segs packet len =
      .ok (len, (stream segs).take len ++ packet.drop len, segs') ∧ Clean segs' ∧ stream segs' = (stream segs).drop len) ∧
    ∃ n m s, recvExact segs packet len = .ok (n, m, s) ∧ m.length = packet.length ∧ m.drop len = packet.drop len ∧
      (n = 0 ∨ n = len) := by
  constructor
  · intro hc hl
    obtain ⟨s, e, c, t⟩ := recvLoop_clean segs packet 0 len 0 hc (by omega) hl
    refine ⟨s, ?_, c, t⟩
    rw [recvExact, e]
    simp
  · obtain ⟨n, m, s, e, l, _, d, z⟩ := recvLoop_any segs packet 0 len 0 (by omega)
    simp only [Nat.zero_add] at d z
    exact ⟨n, m, s, e, l, d, z⟩

example : recvExact [.data [1, 2], .again, .data [3, 4, 5, 6]] (List.replicate 5 0) 5 = .ok (5, [1, 2, 3, 4, 5], [.data [6]]) := by
  decide +kernel

/-- Receiving a number of packets one after the other into the same memory. -/
def recvs (packet : Bytes) : Nat → List Seg → Out (List Bytes × List Seg)
  | 0, segs => .ok ([], segs)
  | n + 1, segs => do
    let (size, packet, segs) ← recv segs packet packet.length
    let (ps, segs) ← recvs packet n segs
    pure (packet.take size :: ps, segs)

/-- **C82**: the packets sent one after the other, each with success, are the packets received, in the same order, however the
network divides the bytes. -/
theorem C82_sequence (sends : List (List Snd × Bytes)) (packet : Bytes) (segs : List Seg)
    (hsent : ∀ x ∈ sends, (send x.1 (frame x.2)).1 = some true)
    (hsize : ∀ x ∈ sends, 0 < x.2.length ∧ x.2.length < 65536 ∧ x.2.length + 2 ≤ packet.length)
    (hc : Clean segs) (hnet : stream segs = (sends.map fun x => (send x.1 (frame x.2)).2).flatten) :
    ∃ segs', recvs packet sends.length segs = .ok (sends.map fun x => frame x.2, segs') ∧ stream segs' = [] := by
  induction sends generalizing packet segs with
  | nil => exact ⟨segs, rfl, hnet⟩
  | cons x sends ih =>
    rw [List.map_cons, List.flatten_cons, (C82_send _ _).2 (hsent x List.mem_cons_self)] at hnet
    obtain ⟨h0, h1, h2⟩ := hsize x List.mem_cons_self
    obtain ⟨s1, e1, c1, t1⟩ := C82_recv segs packet x.2 _ packet.length hc hnet h0 h1 h2 (Nat.le_refl _)
    have hf : (frame x.2).length = x.2.length + 2 := by simp [frame]
    have hl : (frame x.2 ++ packet.drop (x.2.length + 2)).length = packet.length := by
      rw [List.length_append, List.length_drop]; omega
    obtain ⟨s2, e2, t2⟩ := ih (frame x.2 ++ packet.drop (x.2.length + 2)) s1 (fun y hy => hsent y (List.mem_cons_of_mem _ hy))
      (fun y hy => by rw [hl]; exact hsize y (List.mem_cons_of_mem _ hy)) c1 t1
    refine ⟨s2, ?_, t2⟩
    rw [List.length_cons, recvs, e1, Out.bind_ok]
    dsimp only
    rw [e2, Out.bind_ok, List.take_left' hf]
    rfl

/-- Two packets which arrive in four pieces. -/
example : recvs (List.replicate 8 0xee) 2 [.data [0], .again, .data [3, 7], .data [8, 9, 0], .data [1, 5]] =
    .ok ([[0, 3, 7, 8, 9], [0, 1, 5]], []) := by decide +kernel

example : send [.takes 2, .again, .takes 1, .takes 9] (frame [7, 8, 9]) = (some true, [0, 3, 7, 8, 9]) := by decide +kernel

/-- **C82** fails for a packet without contents: it is read, but reported like a lost connection. -/
theorem C82_fails_empty (packet rest : Bytes) (h : 2 ≤ packet.length) (hr : rest ≠ []) :
    recv [.data (frame [] ++ rest)] packet packet.length = .ok (0, [0, 0] ++ packet.drop 2, [.data rest]) := by
  unfold recv
  rw [if_neg (by omega)]
  have hl : ¬(frame [] ++ rest).length = 0 := by simp [frame]
  have hle : ¬(frame [] ++ rest).length ≤ 1 + 1 := by
    have := List.length_pos_iff.2 hr
    simp [frame]; omega
  rw [recvLoop, if_neg hl, if_neg hle, store_ok (by simp [frame]; omega)]
  show (do
    let h ← load ([0, 0] ++ packet.drop 2) 0 2
    let size := (h.getD 0 0).toNat <<< 8 ||| (h.getD 1 0).toNat
    if size > packet.length - 2 then pure (0, [0, 0] ++ packet.drop 2, [.data rest])
    else do
      let (size, packet, segs) ← recvLoop [.data rest] ([0, 0] ++ packet.drop 2) 2 size 0
      pure (if size ≠ 0 then size + 2 else size, packet, segs) : Out (Nat × Bytes × List Seg)) = _
  rw [load_ok (by simp), Out.bind_ok]
  have hz : ((([0, 0] ++ packet.drop 2).drop 0).take 2).getD 0 0 = 0 ∧
      ((([0, 0] ++ packet.drop 2).drop 0).take 2).getD 1 0 = 0 := ⟨rfl, rfl⟩
  dsimp only
  rw [hz.1, hz.2, show (0 : UInt8).toNat <<< 8 ||| (0 : UInt8).toNat = 0 from rfl, if_neg (by omega), recvLoop_zero]
  rfl

end Noise.Echo
