import Verif.HandshakeFollow
import Verif.HandshakeReal
/-!
# C13: handshake messages conform to the specification; C12: handshake agreement
-/

namespace Noise

open Spec (Tok HSt Res)

/-- An object that was created through the interface and set up by any calls, but not started (and
not put back by a fallback). -/
def SetUp (X : Setup) (s : X.H) : Prop :=
  ∃ s0 ops os, Created X s0 ∧ s0.sym.id.reserved.length = 4 ∧ (∀ op ∈ ops, op.ArgsReach X) ∧
    HOp.run X.S.CB s0 ops = .ok (os, s) ∧ (ops.zip os).any isFallback = false ∧ s.action = .none

theorem SetUp.idle {X : Setup} {s : X.H} (h : SetUp X s) : Idle X s := by
  obtain ⟨s0, ops, os, h1, h2, h3, h4, h5, h6⟩ := h
  exact Idle.run ops h1.inv (fun _ => Idle.created h1 h2) h3 h4 h5 h6

theorem decodeMsgs_head_len : ∀ (ts : Bytes) (ms : List (List Tok)), decodeMsgs ts = some ms →
    (ms.headD []).length ≤ ts.length := by
  intro ts
  induction ts with
  | nil => intro ms h; simp [decodeMsgs] at h
  | cons t ts ih =>
    intro ms h
    unfold decodeMsgs at h
    split at h
    · cases h; simp
    · split at h
      · cases hd : decodeMsgs ts with
        | none => rw [hd] at h; cases h
        | some ms' => rw [hd] at h; cases h; simp
      · split at h
        · next k m ms' _ hd =>
          cases h
          have := ih _ hd
          simpa using this
        · cases h

namespace HS
variable {X : Setup} {P Q : Spec.DH}

/-- How many tokens of the pattern remain after the current message: the token with `n` tokens of its
message after it draws its randomness from the stream `rnd (n + later s st)`. -/
def later (s : X.H) (st : HSt P Q) : Nat := s.tokens.length - (st.msgs.headD []).length

/-- C13: a successful `start` is the specification's Initialize with the caller's key pair, remote
public key, prologue and pre-shared key, for the protocol name the object was created for. -/
theorem C13_start (R : Real X P Q) (hK : KeysGenuine R) (s s' : X.H) (h : SetUp X s) (p : Spec.Pattern)
    (hp : specPattern s.sym.id.patternId = some p) (he : p.preKey .responder .e = false)
    (hs : s.start X.S.CB = .ok (.none, s')) :
    ∃ name own st', protocolNameToId name = (.none, s.sym.id) ∧ OwnKey R s own ∧
      HSt.initState X.S.crypto name p s.prologue
        (if s.sym.id.prefixId = prefixPsk then some s.psk else none) (startKeys (Q := Q) s own) = .ok st' ∧
      Follows R s' st' ∧ st'.msgs = p.msgs ∧
      s'.action = (match s.role with | .initiator => .write | .responder => .read) := by
  have hi := h.idle
  obtain ⟨name, n1, n2⟩ := hi.named
  obtain ⟨own, ho⟩ := hK.own hi
  obtain ⟨st', k1, k2, _, k3, _, k4, _⟩ := hi.follows n2 hp he ho hs
  exact ⟨name, own, st', n1, ho, k1, k2, k3, k4⟩

theorem Follows.write {R : Real X P Q} {s : X.H} {st : HSt P Q} (h : Follows R s st)
    (ha : s.action = .write) : st.msgs ≠ [] ∧ decodeMsgs s.tokens = some st.msgs ∧
      HS.ready s.pres s.role true s.tokens = true ∧ st.Live st.role := by
  have hne : st.msgs ≠ [] := fun h0 => by rw [h.split h0] at ha; cases ha
  obtain ⟨w, h1, h2, h3, h4⟩ := h.turn hne
  cases w with
  | false => rw [ha] at h1; cases h1
  | true => exact ⟨hne, h2, h3, h4⟩

theorem Follows.read {R : Real X P Q} {s : X.H} {st : HSt P Q} (h : Follows R s st)
    (ha : s.action = .read) : st.msgs ≠ [] ∧ decodeMsgs s.tokens = some st.msgs ∧
      HS.ready s.pres s.role false s.tokens = true ∧ st.Live st.role.flip := by
  have hne : st.msgs ≠ [] := fun h0 => by rw [h.split h0] at ha; cases ha
  obtain ⟨w, h1, h2, h3, h4⟩ := h.turn hne
  cases w with
  | true => rw [ha] at h1; cases h1
  | false => exact ⟨hne, h2, h3, h4⟩

theorem Done.follows {R : Real X P Q} {s s' : X.H} {st : HSt P Q} {w : Bool} (h : Done R s st w s')
    (hl : st.Live (if w then st.role else st.role.flip)) : Follows R s' st where
  rel := h.rel
  split := h.after.1
  turn := fun hne => ⟨w, (h.after.2 hne).1, (h.after.2 hne).2, h.ready hne, hl⟩

/-- C13: in every state reached by following the specification, `write_message` stores the bytes of the
specification's WriteMessage and moves to its state, if they fit; it fails exactly when the
specification fails, or they do not fit. The specification is never undefined there. -/
theorem C13_write (R : Real X P Q) (rnd junk : Nat → Nat → UInt8) (s : X.H) (st : HSt P Q)
    (h : Follows R s st) (ha : s.action = .write)
    (ge : Nat → Option Bytes → P.KP) (gf : Nat → Option Bytes → Q.KP)
    (hge : ∀ n, GenOf R.RD s.fe (rnd (n + later s st)) (ge n))
    (hgf : ∀ n, GenOf R.RG s.fh (rnd (n + later s st)) (gf n)) (mem : Bytes) (payload : Option Bytes) :
    match HSt.writeMessage X.S.crypto ge gf st (payload.getD []) with
    | .ok (st', hdr, ct) =>
      (hdr.length + ct.length ≤ mem.length ∧ ct.length ≤ 65535 → ∃ s',
        writeMessage X.S.CB rnd junk s mem payload = .ok (.none, s',
          ⟨hdr ++ ct ++ mem.drop (hdr.length + ct.length), hdr.length + ct.length⟩) ∧
        Follows R s' st' ∧ s.Frame s' ∧ (st'.msgs ≠ [] → s'.action = .read)) ∧
      (¬ (hdr.length + ct.length ≤ mem.length ∧ ct.length ≤ 65535) →
        WriteFails (writeMessage X.S.CB rnd junk s mem payload))
    | .fail => WriteFails (writeMessage X.S.CB rnd junk s mem payload)
    | .stuck => False := by
  obtain ⟨hne, h1, h2, h3⟩ := h.write ha
  have hc : s.tokens.length = (st.msgs.headD []).length + later s st := by
    have := decodeMsgs_head_len _ _ h1
    unfold later
    omega
  have key := writeMessage_rel (R := R) rnd junk (later s st) ge gf s st h.rel ha h1 h2 hc hge hgf mem payload
  obtain ⟨l1, l2⟩ := h3.write (C := X.S.crypto) hne ge gf (payload.getD [])
  cases hw : HSt.writeMessage X.S.crypto ge gf st (payload.getD []) with
  | stuck => exact absurd hw l1
  | fail => rw [hw] at key; exact key
  | ok x =>
    obtain ⟨st', hdr, ct⟩ := x
    rw [hw] at key
    refine ⟨fun hf => ?_, key.2⟩
    obtain ⟨s', k1, k2⟩ := key.1 hf
    obtain ⟨m1, m2, _, _, m3⟩ := l2 _ _ _ hw
    exact ⟨s', k1, k2.follows (by simpa [m2] using m1), k2.frame, fun hn => by
      simpa using (k2.after.2 hn).1⟩

/-- C13: in every state reached by following the specification, `read_message` accepts exactly the
messages the specification's ReadMessage accepts (and whose payload fits), delivers its payload and
moves to its state. -/
theorem C13_read (R : Real X P Q) (junk : Nat → Nat → UInt8) (s : X.H) (st : HSt P Q)
    (h : Follows R s st) (ha : s.action = .read) (msg : Buf) (hm : msg.size ≤ msg.maxSize)
    (payload : Option Bytes) :
    match HSt.readMessage X.S.crypto st msg.bytes with
    | .ok (st', ct, pl) =>
      (ct.length ≤ 65535 ∧ (∀ p, payload = some p → pl.length ≤ p.length) → ∃ s',
        readMessage X.S.CB junk s msg payload = .ok (.none, s',
          ⟨List.replicate msg.size 0 ++ msg.data.drop msg.size, msg.size⟩, payloadBuf payload pl) ∧
        Follows R s' st' ∧ s.Frame s' ∧ (st'.msgs ≠ [] → s'.action = .write)) ∧
      (¬ (ct.length ≤ 65535 ∧ (∀ p, payload = some p → pl.length ≤ p.length)) →
        ReadFails payload (readMessage X.S.CB junk s msg payload))
    | .fail => ReadFails payload (readMessage X.S.CB junk s msg payload)
    | .stuck => False := by
  obtain ⟨hne, h1, h2, h3⟩ := h.read ha
  have key := readMessage_rel (R := R) junk s st h.rel ha h1 h2 msg hm payload
  obtain ⟨l1, l2⟩ := h3.read (C := X.S.crypto) hne msg.bytes
  cases hw : HSt.readMessage X.S.crypto st msg.bytes with
  | stuck => exact absurd hw l1
  | fail => rw [hw] at key; exact key
  | ok x =>
    obtain ⟨st', ct, pl⟩ := x
    rw [hw] at key
    refine ⟨fun hf => ?_, key.2⟩
    obtain ⟨s', k1, k2⟩ := key.1 hf
    obtain ⟨m1, m2, _, _, m3⟩ := l2 _ _ _ hw
    exact ⟨s', k1, k2.follows (by simpa [m2] using m1), k2.frame, fun hn => by
      simpa using (k2.after.2 hn).1⟩

/-- C13: after the last message `split` gives the specification's two ciphers, the initiator's sending
cipher first; the handshake hash is the specification's. -/
theorem C13_split (R : Real X P Q) (s : X.H) (st : HSt P Q) (h : Follows R s st) (hm : st.msgs = []) :
    s.action = .split ∧ s.sym.h = st.sym.h ∧
    ∃ s' snd rcv, s.split X.S.CB true true true = .ok (.none, s', some snd, some rcv) ∧
      s'.action = .complete ∧
      (snd.abs, rcv.abs) = (match st.role with
        | .initiator => st.sym.split X.S.crypto
        | .responder => (st.sym.split X.S.crypto).swap) := by
  have ha := h.split hm
  obtain ⟨⟨c, hc, _⟩, _, hh⟩ := h.rel.sym
  obtain ⟨y, c1, c2, k1, k2, k3, k4, k5, k6⟩ := C08_split X.S s.sym st.sym h.rel.sym true true (.inl rfl)
  refine ⟨ha, by simpa using hh, ?_⟩
  rw [h.rel.role]
  unfold split
  simp only [if_true] at k1
  cases hr : s.role with
  | initiator =>
    refine ⟨{ s with sym := y, action := .complete }, c1, c2, ?_, rfl, by simp [k2, k3]⟩
    simp [ha, hc, k1, hr]
  | responder =>
    refine ⟨{ s with sym := y, action := .complete }, c2, c1, ?_, rfl, by
      simp [Prod.ext_iff, k2, k3]⟩
    simp [ha, hc, k1, hr]

end HS
end Noise
