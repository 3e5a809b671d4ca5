import Verif.EchoHandshake
import Verif.EchoLoopBase
import Verif.HandshakeTwo
/-!
# Helper lemmas about the handshake of the echo programs
-/

namespace Noise.Spec.HSt
variable {C : Crypto} {P Q : DH}

theorem encrypt_ge (hC : ∀ k n ad pt, (C.ENCRYPT k n ad pt).length = pt.length + C.macLen) {sym sym' : Sym}
    {pt ct : Bytes} (h : sym.encryptAndHash C pt = some (sym', ct)) : pt.length ≤ ct.length := by
  unfold Sym.encryptAndHash Cipher.encryptWithAd at h
  cases hk : sym.c.k with
  | none => simp [hk] at h; simp [← h.2]
  | some k =>
    simp only [hk] at h
    by_cases hn : sym.c.n = 2 ^ 64 - 1
    · simp [hn] at h
    · rw [if_neg hn] at h
      simp only [Option.some.injEq, Prod.mk.injEq] at h
      rw [← h.2]
      simp [hC]

/-- A message that begins with a public key is not empty. -/
theorem writeMessage_pos (hC : ∀ k n ad pt, (C.ENCRYPT k n ad pt).length = pt.length + C.macLen)
    (hP : ∀ k, (P.pub k).length = P.len false) (h0 : 0 < P.len false)
    {ge : Nat → Option Bytes → P.KP} {gf : Nat → Option Bytes → Q.KP} {st st' : HSt P Q} {m : List Tok}
    {ms : List (List Tok)} (hm : st.msgs = m :: ms) (hd : m.head? = some .e ∨ m.head? = some .s) {payload hdr ct : Bytes}
    (h : writeMessage C ge gf st payload = .ok (st', hdr, ct)) : 0 < hdr.length := by
  cases m with
  | nil => simp at hd
  | cons t m =>
  simp only [writeMessage, hm, writeToks] at h
  cases ht : writeTok C (ge m.length) (gf m.length) t st with
  | fail => rw [ht] at h; simp at h
  | stuck => rw [ht] at h; simp at h
  | ok x =>
    obtain ⟨s1, a⟩ := x
    rw [ht] at h
    have ha : 0 < a.length := by
      simp only [List.head?_cons, Option.some.injEq] at hd
      rcases hd with rfl | rfl
      · simp only [writeTok, Res.ok.injEq, Prod.mk.injEq] at ht
        rw [← ht.2, hP]; exact h0
      · simp only [writeTok] at ht
        split at ht
        · cases ht
        split at ht
        · cases ht
        next he =>
        simp only [Res.ok.injEq, Prod.mk.injEq] at ht
        have := encrypt_ge hC he
        rw [hP] at this
        rw [← ht.2]
        omega
    dsimp only at h
    cases hw : writeToks C ge gf m s1 with
    | fail => rw [hw] at h; simp at h
    | stuck => rw [hw] at h; simp at h
    | ok y =>
      obtain ⟨s2, b⟩ := y
      rw [hw] at h
      dsimp only at h
      split at h
      · cases h
      simp only [Res.ok.injEq, Prod.mk.injEq] at h
      rw [← h.2.1, List.length_append]
      omega

end Noise.Spec.HSt

namespace Noise.Echo

open Spec (Tok HSt Res)
open HS (Generates)

/-- The turn as in C12; only the random bytes matter to `Generates`. -/
def HTurn.turn (t : HTurn) : Noise.Turn := ⟨t.rnd, t.junk, t.junk, [], [], [], []⟩

variable {X : Setup} {P Q : Spec.DH}

theorem hand_step (R : Real X P Q) (hP : P.Good) (h0 : 0 < P.len false) {G : (Option Bytes → Q.KP) → Prop}
    (hQ : Q.GoodGen G) (t u : HTurn) {m : List Tok} {ms : List (List Tok)} {r : Role}
    {known : List Spec.Event} {B : Nat} {a b : X.H} {sa sb : HSt P Q} (fa : HS.Follows R a sa)
    (fb : HS.Follows R b sb) (haA : a.action = .write) (haB : b.action = .read)
    (hl : HSt.Link G r known B sa sb) (hm : sa.msgs = m :: ms) (hB : B + m.length + 1 ≤ 2 ^ 64 - 1)
    (hw : Spec.WellFrom known (m.map fun t => (r, t))) (hs : .s ∈ m → sa.s.isSome = true)
    (hd : m.head? = some .e ∨ m.head? = some .s)
    (hf : (m.map (HSt.tokMax X.S.crypto P Q)).sum + X.S.crypto.macLen ≤ 65535) (hg : Generates R G t.turn a)
    (msgA msgB : Bytes) (hmA : msgA.length = 65537) (hmB : msgB.length = 65537) :
    ∃ a' b' sa' sb' body msgA' msgB', body.length ≤ 65535 ∧ msgA'.length = 65537 ∧ msgB'.length = 65537 ∧
      HS.Follows R a' sa' ∧ HS.Follows R b' sb' ∧ a.Frame a' ∧ b.Frame b' ∧
      (ms ≠ [] → a'.action = .read ∧ b'.action = .write) ∧
      HSt.Link G r (known ++ m.map fun t => (r, t)) (B + m.length + 1) sa' sb' ∧ sa'.msgs = ms ∧
      sa'.s = sa.s ∧ sb'.s = sb.s ∧
      (∀ segs, (send t.ks (frame body)).1 = some true →
        handWrite X.S.CB t segs msgA a = .ok ⟨.next, frame body, segs, msgA', a'⟩) ∧
      (∀ segs rest, Clean segs → stream segs = frame body ++ rest →
        ∃ segs', handRead X.S.CB u segs msgB b = .ok ⟨.next, [], segs', msgB', b'⟩ ∧ Clean segs' ∧ stream segs' = rest) := by
  let ge : Nat → Option Bytes → P.KP := fun n => Classical.choose (hg (n + HS.later a sa)).1
  let gf : Nat → Option Bytes → Q.KP := fun n => Classical.choose (hg (n + HS.later a sa)).2
  have hge : ∀ n, GenOf R.RD a.fe (t.rnd (n + HS.later a sa)) (ge n) ∧ ∀ o, P.reject (P.pub (ge n o)) = false :=
    fun n => Classical.choose_spec (hg (n + HS.later a sa)).1
  have hgf : ∀ n, GenOf R.RG a.fh (t.rnd (n + HS.later a sa)) (gf n) ∧ G (gf n) :=
    fun n => Classical.choose_spec (hg (n + HS.later a sa)).2
  obtain ⟨sa', hdr, ct, sb', w1, w2, w3, w4, w5, w6, w7⟩ := HSt.message_agree X.S.crypto_lawful hP hQ ge gf
    (fun n => (hge n).2) (fun n => (hgf n).2) hl hm hB hw hs []
  have hmb : sb'.msgs = ms := by rw [w3.msgs, w6]
  obtain ⟨g1, g2⟩ := HSt.writeMessage_len (C := X.S.crypto) (P := P) (Q := Q) X.S.crypto_lawful.len
    (fun k => hP.len k false) (ge := ge) (gf := gf) (fun n o => hQ.len _ o (hgf n).2) hm w1
  have gpos := HSt.writeMessage_pos (C := X.S.crypto) (P := P) (Q := Q) X.S.crypto_lawful.len
    (fun k => hP.len k false) h0 (ge := ge) (gf := gf) hm hd w1
  rw [List.length_nil] at g2
  have kw := HS.C13_write R t.rnd t.junk a sa fa haA ge gf (fun n => (hge n).1) (fun n => (hgf n).1) (msgA.drop 2) none
  rw [Option.getD_none, w1] at kw
  have hml : (msgA.drop 2).length = 65535 := by rw [List.length_drop]; omega
  obtain ⟨a', k1, k2, k3, k4⟩ := kw.1 ⟨by omega, by omega⟩
  have hbl : (hdr ++ ct).length = hdr.length + ct.length := List.length_append
  have kr := HS.C13_read R u.junk b sb fb haB ⟨hdr ++ ct, (hdr ++ ct).length⟩ (by simp [Buf.maxSize]) none
  have hbytes : (⟨hdr ++ ct, (hdr ++ ct).length⟩ : Buf).bytes = hdr ++ ct := List.take_length
  rw [hbytes, w2] at kr
  obtain ⟨b', r1, r2, r3, r4⟩ := kr.1 ⟨by omega, by rintro p ⟨⟩⟩
  rw [← hbl] at k1
  generalize hbody : hdr ++ ct = body at *
  have hb1 : 0 < body.length := by omega
  have hb2 : body.length ≤ 65535 := by omega
  refine ⟨a', b', sa', sb', body, frame body ++ (msgA.drop 2).drop body.length,
    (frame body ++ msgB.drop (body.length + 2)).take 2 ++ List.replicate body.length 0 ++ (frame body ++ msgB.drop (body.length + 2)).drop (2 + body.length),
    hb2, ?_, ?_, k2, r2, k3, r3, fun hne => ⟨k4 (by rw [w6]; exact hne), r4 (by
    rw [hmb]; exact hne)⟩, w3, w6, w4, w5, ?_, ?_⟩
  · rw [List.length_append, frame_length, List.length_drop, hml]; omega
  · simp only [List.length_append, List.length_take, List.length_drop, frame_length, List.length_replicate]; omega
  · intro segs hk
    unfold handWrite
    rw [k1]
    simp only [Out.bind_ok, ne_eq, not_true_eq_false, if_false]
    rw [sendPacket_eq t.ks (msgA.take 2) body _ (by rw [List.length_take]; omega), Out.bind_ok]
    dsimp only
    rw [hk, (C82_send _ _).2 hk]
    rfl
  · intro segs rest hc hst
    obtain ⟨s1, e1, c1, t1⟩ := C82_recv segs msgB body rest msgB.length hc hst hb1 (by omega) (by omega) (Nat.le_refl _)
    refine ⟨s1, ?_, c1, t1⟩
    have htl : (msgB.drop (body.length + 2)).length = 65537 - (body.length + 2) := by rw [List.length_drop, hmB]
    generalize msgB.drop (body.length + 2) = tl at e1 htl ⊢
    unfold handRead
    rw [e1, Out.bind_ok]
    dsimp only
    rw [if_neg (by omega), show body.length + 2 - 2 = body.length by omega,
      load_ok (by rw [List.length_append, frame_length]; omega), Out.bind_ok]
    have hdrop : ((frame body ++ tl).drop 2).take body.length = body := by
      rw [frame, List.append_assoc, List.drop_left' (i := 2) rfl, List.take_left' rfl]
    rw [hdrop, r1]
    simp only [Out.bind_ok, ne_eq, not_true_eq_false, if_false, List.drop_length, List.append_nil]
    rw [store_ok (by rw [List.length_append, frame_length, List.length_replicate]; omega), Out.bind_ok, List.length_replicate]
    rfl

theorem handLoop_done (CB : CipherBackend) {HB : HashBackend} {D G : DHBackend} (ts : List HTurn) (segs : List Seg) (msg : Bytes)
    (s : HS HB D G) (h : s.action = .split) : handLoop CB ts segs msg s = .ok ⟨.next, [], segs, msg, s⟩ := by
  cases ts with
  | nil => simp [handLoop, h]
  | cons t ts => simp [handLoop, h]

/-- What `HS.exchange_agree` says, for the two programs with their connection. -/
theorem handLoop_agree (R : Real X P Q) (hP : P.Good) (h0 : 0 < P.len false) {G : (Option Bytes → Q.KP) → Prop}
    (hQ : Q.GoodGen G) : ∀ (ms : List (List Tok)) (tsA tsB : List HTurn) (r : Role)
    (known : List Spec.Event) (B : Nat) (a b : X.H) (sa sb : HSt P Q) (msgA msgB : Bytes), HS.Follows R a sa →
    HS.Follows R b sb → (ms ≠ [] → a.action = .write ∧ b.action = .read) → HSt.Link G r known B sa sb →
    sa.msgs = ms → B + (ms.map fun m => m.length + 1).sum ≤ 2 ^ 64 - 1 →
    Spec.WellFrom known (Spec.events r ms) →
    ((r, Tok.s) ∈ Spec.events r ms → sa.s.isSome = true) →
    ((r.flip, Tok.s) ∈ Spec.events r ms → sb.s.isSome = true) →
    (∀ m ∈ ms, (m.head? = some .e ∨ m.head? = some .s) ∧
      (m.map (HSt.tokMax X.S.crypto P Q)).sum + X.S.crypto.macLen ≤ 65535) →
    ms.length ≤ tsA.length → ms.length ≤ tsB.length →
    (∀ t ∈ tsA, Generates R G t.turn a ∧ ∀ p : Bytes, p.length ≤ 65537 → (send t.ks p).1 = some true) →
    (∀ t ∈ tsB, Generates R G t.turn b ∧ ∀ p : Bytes, p.length ≤ 65537 → (send t.ks p).1 = some true) →
    msgA.length = 65537 → msgB.length = 65537 →
    ∃ a' b' sa' sb' toA toB msgA' msgB', HS.Follows R a' sa' ∧ HS.Follows R b' sb' ∧ sa'.msgs = [] ∧ sb'.msgs = [] ∧
      sa'.sym = sb'.sym ∧ sa'.role = r ∧ sb'.role = r.flip ∧ msgA'.length = 65537 ∧ msgB'.length = 65537 ∧
      (∀ segs rest, Clean segs → stream segs = toA ++ rest →
        ∃ segs', handLoop X.S.CB tsA segs msgA a = .ok ⟨.next, toB, segs', msgA', a'⟩ ∧ Clean segs' ∧ stream segs' = rest) ∧
      (∀ segs rest, Clean segs → stream segs = toB ++ rest →
        ∃ segs', handLoop X.S.CB tsB segs msgB b = .ok ⟨.next, toA, segs', msgB', b'⟩ ∧ Clean segs' ∧ stream segs' = rest) := by
  intro ms
  induction ms with
  | nil =>
    intro tsA tsB r known B a b sa sb msgA msgB fa fb hact hl hm hB hw hs1 hs2 hms hlA hlB hgA hgB hmA hmB
    have hmb : sb.msgs = [] := by rw [hl.msgs, hm]
    refine ⟨a, b, sa, sb, [], [], msgA, msgB, fa, fb, hm, hmb, hl.sym.symm, hl.ra, hl.rb, hmA, hmB, ?_, ?_⟩
    · intro segs rest hc hst
      exact ⟨segs, handLoop_done _ _ _ _ _ (HS.C13_split R a sa fa hm).1, hc, hst⟩
    · intro segs rest hc hst
      exact ⟨segs, handLoop_done _ _ _ _ _ (HS.C13_split R b sb fb hmb).1, hc, hst⟩
  | cons m ms ih =>
    intro tsA tsB r known B a b sa sb msgA msgB fa fb hact hl hm hB hw hs1 hs2 hms hlA hlB hgA hgB hmA hmB
    obtain ⟨haA, haB⟩ := hact (by simp)
    rw [Spec.HSt.events_cons, Spec.wellFrom_append] at hw
    rw [Spec.HSt.events_cons] at hs1 hs2
    simp only [List.map_cons, List.sum_cons] at hB
    rw [List.length_cons] at hlA hlB
    match tsA, tsB, hlA, hlB with
    | t :: tsA, u :: tsB, hlA, hlB =>
    rw [List.length_cons] at hlA hlB
    obtain ⟨hd, hf⟩ := hms m List.mem_cons_self
    obtain ⟨a1, b1, sa1, sb1, body, mA1, mB1, d0, dA, dB, d2, d3, d4, d5, d6, d7, d8, d9, d10, d11, d12⟩ := hand_step R hP h0 hQ t u fa fb
      haA haB hl hm (by omega) hw.1 (fun hsm => hs1 (List.mem_append_left _ (by
        simp only [List.mem_map]; exact ⟨.s, hsm, rfl⟩))) hd hf (hgA t List.mem_cons_self).1 msgA msgB hmA hmB
    obtain ⟨b2, a2, sb2, sa2, toB, toA, mB2, mA2, e2, e3, e6, e7, e8, e9, e10, eB, eA, lB, lA⟩ := ih tsB tsA r.flip
      (known ++ m.map fun t => (r, t)) (B + m.length + 1) b1 a1 sb1 sa1 mB1 mA1 d3 d2
      (fun hne => ⟨(d6 hne).2, (d6 hne).1⟩) d7.symm (by rw [d7.msgs, d8]) (by omega) hw.2
      (fun hsm => by rw [d10]; exact hs2 (List.mem_append_right _ hsm))
      (fun hsm => by
        rw [Spec.Role.flip_flip] at hsm
        rw [d9]; exact hs1 (List.mem_append_right _ hsm))
      (fun x hx => hms x (List.mem_cons_of_mem _ hx)) (by omega) (by omega)
      (fun x hx => ⟨(hgB x (List.mem_cons_of_mem _ hx)).1.frame d5, (hgB x (List.mem_cons_of_mem _ hx)).2⟩)
      (fun x hx => ⟨(hgA x (List.mem_cons_of_mem _ hx)).1.frame d4, (hgA x (List.mem_cons_of_mem _ hx)).2⟩) dB dA
    refine ⟨a2, b2, sa2, sb2, toA, frame body ++ toB, mA2, mB2, e3, e2, e7, e6, e8.symm,
      by rw [e10, Spec.Role.flip_flip], e9, eA, eB, ?_, ?_⟩
    · intro segs rest hc hst
      obtain ⟨s2, q1, q2, q3⟩ := lA segs rest hc hst
      refine ⟨s2, ?_, q2, q3⟩
      have hk := (hgA t List.mem_cons_self).2 (frame body) (by rw [frame_length]; omega)
      rw [handLoop, if_neg (by rw [haA]; simp), handTurn, if_pos haA, d11 segs hk, Out.bind_ok]
      dsimp only
      rw [if_pos rfl, q1, Out.bind_ok]
      rfl
    · intro segs rest hc hst
      rw [List.append_assoc] at hst
      obtain ⟨s1, p1, p2, p3⟩ := d12 segs (toB ++ rest) hc hst
      obtain ⟨s2, q1, q2, q3⟩ := lB s1 rest p2 p3
      refine ⟨s2, ?_, q2, q3⟩
      rw [handLoop, if_neg (by rw [haB]; simp), handTurn, if_neg (by rw [haB]; simp), p1, Out.bind_ok]
      dsimp only
      rw [if_pos rfl, q1, Out.bind_ok]
      rfl

end Noise.Echo
