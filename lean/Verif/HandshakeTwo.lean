import Verif.HandshakeConform
/-!
# C12: two parties reach agreement
-/

namespace Noise

open Spec (Tok HSt Res)

/-- One message: the randomness and uninitialised memory of the two calls, the payload, the sender's
buffer, what follows the message in the receiver's buffer, and the receiver's payload buffer. -/
structure Turn where
  rnd : Nat → Nat → UInt8
  junkW : Nat → Nat → UInt8
  junkR : Nat → Nat → UInt8
  payload : Bytes
  mem : Bytes
  slack : Bytes
  pmem : Bytes

namespace HS

/-- What a caller does: `a` writes a message, it is delivered unchanged, `b` reads it. `none` if either
call fails. Not a definition of the code base. -/
def deliver {HB : HashBackend} {D G : DHBackend} (CB : CipherBackend) (t : Turn) (a b : HS HB D G) :
    Out (Option (HS HB D G × HS HB D G × Bytes)) := do
  let (e, a', m) ← a.writeMessage CB t.rnd t.junkW t.mem (some t.payload)
  if e ≠ .none then pure none
  else do
    let (e', b', _, p) ← b.readMessage CB t.junkR ⟨m.bytes ++ t.slack, m.size⟩ (some t.pmem)
    if e' ≠ .none then pure none
    else pure (p.map fun p => (a', b', p.bytes))

/-- The parties take turns, `a` first; the payloads received. Not a definition of the code base. -/
def exchange {HB : HashBackend} {D G : DHBackend} (CB : CipherBackend) :
    List Turn → HS HB D G → HS HB D G → Out (Option (HS HB D G × HS HB D G × List Bytes))
  | [], a, b => .ok (some (a, b, []))
  | t :: ts, a, b => do
    match ← deliver CB t a b with
    | none => pure none
    | some (a', b', p) =>
      match ← exchange CB ts b' a' with
      | none => pure none
      | some (b'', a'', ps) => pure (some (a'', b'', p :: ps))

end HS

/-- The buffers are large enough for a message with the tokens `m`, and the payload is not too long for
a Noise message. -/
def Turn.Fits (C : Spec.Crypto) (P Q : Spec.DH) (t : Turn) (m : List Tok) : Prop :=
  (m.map (HSt.tokMax C P Q)).sum + t.payload.length + C.macLen ≤ t.mem.length ∧
  t.payload.length + C.macLen ≤ 65535 ∧ t.payload.length ≤ t.pmem.length

/-- There is one turn for every message, and it fits. -/
def FitAll (C : Spec.Crypto) (P Q : Spec.DH) : List Turn → List (List Tok) → Prop
  | [], [] => True
  | t :: ts, m :: ms => t.Fits C P Q m ∧ FitAll C P Q ts ms
  | _, _ => False

theorem Suite.crypto_lawful (S : Suite) : S.crypto.Lawful where
  len := fun k n ad pt => S.cl.enc_length _ _ _ _
  dec := fun k n ad pt _ => by
    simp only [Suite.crypto]
    have h1 := S.cl.enc_length k (UInt64.ofNat n) ad pt
    obtain ⟨h2, h3⟩ := S.cl.dec_enc k (UInt64.ofNat n) ad pt
    rw [if_neg (by omega), if_pos h2, h1, Nat.add_sub_cancel, h3]

theorem CipherState.abs_inj {c d : CipherState} (h : c.abs = d.abs) (hk : c.abs.k.isSome = true) :
    c = d := by
  obtain ⟨c1, c2, c3⟩ := c
  obtain ⟨d1, d2, d3⟩ := d
  simp only [CipherState.abs, Spec.Cipher.mk.injEq] at h hk
  obtain ⟨h1, h2⟩ := h
  have h2 := UInt64.toNat_inj.mp h2
  cases c1 <;> cases d1 <;> simp_all

namespace HS
variable {X : Setup} {P Q : Spec.DH}

/-- The object can generate its ephemeral keys, at random or by copying good fixed ones, and they are not among those that
every receiver rejects. -/
def Generates (R : Real X P Q) (G : (Option Bytes → Q.KP) → Prop) (t : Turn) (s : X.H) : Prop :=
  ∀ n, (∃ g, GenOf R.RD s.fe (t.rnd n) g ∧ ∀ o, P.reject (P.pub (g o)) = false) ∧ ∃ g, GenOf R.RG s.fh (t.rnd n) g ∧ G g

theorem Generates.frame {R : Real X P Q} {G : (Option Bytes → Q.KP) → Prop} {t : Turn} {s s' : X.H}
    (h : Generates R G t s) (f : s.Frame s') : Generates R G t s' := by
  intro n
  rw [f.fe, f.fh]
  exact h n

theorem deliver_agree (R : Real X P Q) (hP : P.Good) {G : (Option Bytes → Q.KP) → Prop}
    (hQ : Q.GoodGen G) {t : Turn} {m : List Tok} {ms : List (List Tok)} {r : Role}
    {known : List Spec.Event} {B : Nat} {a b : X.H} {sa sb : HSt P Q} (fa : Follows R a sa)
    (fb : Follows R b sb) (haA : a.action = .write) (haB : b.action = .read)
    (hl : HSt.Link G r known B sa sb) (hm : sa.msgs = m :: ms) (hB : B + m.length + 1 ≤ 2 ^ 64 - 1)
    (hw : Spec.WellFrom known (m.map fun t => (r, t))) (hs : .s ∈ m → sa.s.isSome = true)
    (hf : t.Fits X.S.crypto P Q m) (hg : Generates R G t a) :
    ∃ a' b' sa' sb', deliver X.S.CB t a b = .ok (some (a', b', t.payload)) ∧
      Follows R a' sa' ∧ Follows R b' sb' ∧ a.Frame a' ∧ b.Frame b' ∧
      (ms ≠ [] → a'.action = .read ∧ b'.action = .write) ∧
      HSt.Link G r (known ++ m.map fun t => (r, t)) (B + m.length + 1) sa' sb' ∧ sa'.msgs = ms ∧
      sa'.s = sa.s ∧ sb'.s = sb.s := by
  obtain ⟨f1, f2, f3⟩ := hf
  let ge : Nat → Option Bytes → P.KP := fun n => Classical.choose (hg (n + later a sa)).1
  let gf : Nat → Option Bytes → Q.KP := fun n => Classical.choose (hg (n + later a sa)).2
  have hge : ∀ n, GenOf R.RD a.fe (t.rnd (n + later a sa)) (ge n) ∧ ∀ o, P.reject (P.pub (ge n o)) = false :=
    fun n => Classical.choose_spec (hg (n + later a sa)).1
  have hgf : ∀ n, GenOf R.RG a.fh (t.rnd (n + later a sa)) (gf n) ∧ G (gf n) :=
    fun n => Classical.choose_spec (hg (n + later a sa)).2
  obtain ⟨sa', hdr, ct, sb', w1, w2, w3, w4, w5, w6, w7⟩ := HSt.message_agree X.S.crypto_lawful hP hQ ge gf
    (fun n => (hge n).2) (fun n => (hgf n).2) hl hm hB hw hs t.payload
  have hmb : sb'.msgs = ms := by rw [w3.msgs, w6]
  obtain ⟨g1, g2⟩ := HSt.writeMessage_len (C := X.S.crypto) (P := P) (Q := Q) X.S.crypto_lawful.len
    (fun k => hP.len k false) (ge := ge) (gf := gf) (fun n o => hQ.len _ o (hgf n).2) hm w1
  have kw := C13_write R t.rnd t.junkW a sa fa haA ge gf (fun n => (hge n).1) (fun n => (hgf n).1) t.mem (some t.payload)
  rw [Option.getD_some, w1] at kw
  obtain ⟨a', k1, k2, k3, k4⟩ := kw.1 ⟨by omega, by omega⟩
  have hbytes : (⟨hdr ++ ct ++ t.mem.drop (hdr.length + ct.length), hdr.length + ct.length⟩ : Buf).bytes =
      hdr ++ ct := by
    unfold Buf.bytes
    dsimp only
    rw [← List.length_append]
    exact List.take_left
  have hbytes2 : (⟨hdr ++ ct ++ t.slack, hdr.length + ct.length⟩ : Buf).bytes = hdr ++ ct := by
    unfold Buf.bytes
    dsimp only
    rw [← List.length_append]
    exact List.take_left
  have kr := C13_read R t.junkR b sb fb haB ⟨hdr ++ ct ++ t.slack, hdr.length + ct.length⟩
    (by simp [Buf.maxSize]) (some t.pmem)
  rw [hbytes2, w2] at kr
  obtain ⟨b', r1, r2, r3, r4⟩ := kr.1 ⟨by omega, by rintro p ⟨⟩; exact f3⟩
  refine ⟨a', b', sa', sb', ?_, k2, r2, k3, r3, fun hne => ⟨k4 (by rw [w6]; exact hne), r4 (by
    rw [hmb]; exact hne)⟩, w3, w6, w4, w5⟩
  unfold deliver
  rw [k1]
  simp only [Out.bind_ok, ne_eq, not_true_eq_false, if_false, hbytes]
  rw [r1]
  simp [payloadBuf, Buf.bytes]

/-- From any point of a handshake at which the parties are in step, the rest of the exchange succeeds. -/
theorem exchange_agree (R : Real X P Q) (hP : P.Good) {G : (Option Bytes → Q.KP) → Prop}
    (hQ : Q.GoodGen G) : ∀ (ts : List Turn) (ms : List (List Tok)) (r : Role)
    (known : List Spec.Event) (B : Nat) (a b : X.H) (sa sb : HSt P Q), Follows R a sa →
    Follows R b sb → (ms ≠ [] → a.action = .write ∧ b.action = .read) → HSt.Link G r known B sa sb →
    sa.msgs = ms → B + (ms.map fun m => m.length + 1).sum ≤ 2 ^ 64 - 1 →
    Spec.WellFrom known (Spec.events r ms) →
    ((r, Tok.s) ∈ Spec.events r ms → sa.s.isSome = true) →
    ((r.flip, Tok.s) ∈ Spec.events r ms → sb.s.isSome = true) →
    FitAll X.S.crypto P Q ts ms →
    (∀ t ∈ ts, Generates R G t a ∧ Generates R G t b) →
    ∃ a' b' sa' sb', exchange X.S.CB ts a b = .ok (some (a', b', ts.map (·.payload))) ∧
      Follows R a' sa' ∧ Follows R b' sb' ∧ a.Frame a' ∧ b.Frame b' ∧ sa'.msgs = [] ∧ sb'.msgs = [] ∧
      sa'.sym = sb'.sym ∧ sa'.role = r ∧ sb'.role = r.flip := by
  intro ts
  induction ts with
  | nil =>
    intro ms r known B a b sa sb fa fb hact hl hm hB hw hs1 hs2 hfit hg
    cases ms with
    | cons m ms => exact hfit.elim
    | nil =>
    exact ⟨a, b, sa, sb, rfl, fa, fb, .refl, .refl, hm, by rw [hl.msgs, hm], hl.sym.symm, hl.ra, hl.rb⟩
  | cons t ts ih =>
    intro ms r known B a b sa sb fa fb hact hl hm hB hw hs1 hs2 hfit hg
    cases ms with
    | nil => exact hfit.elim
    | cons m ms =>
    obtain ⟨hf, hfs⟩ := hfit
    obtain ⟨haA, haB⟩ := hact (by simp)
    rw [HSt.events_cons, Spec.wellFrom_append] at hw
    rw [HSt.events_cons] at hs1 hs2
    simp only [List.map_cons, List.sum_cons] at hB
    obtain ⟨a', b', sa', sb', d1, d2, d3, d4, d5, d6, d7, d8, d9, d10⟩ := deliver_agree R hP hQ (t := t) fa fb
      haA haB hl hm (by omega) hw.1 (fun hsm => hs1 (List.mem_append_left _ (by
        simp only [List.mem_map]; exact ⟨.s, hsm, rfl⟩))) hf (hg t (by simp)).1
    obtain ⟨b2, a2, sb2, sa2, e1, e2, e3, e4, e5, e6, e7, e8, e9, e10⟩ := ih ms r.flip
      (known ++ m.map fun t => (r, t)) (B + m.length + 1) b' a' sb' sa' d3 d2
      (fun hne => ⟨(d6 hne).2, (d6 hne).1⟩) d7.symm (by rw [d7.msgs, d8]) (by omega) hw.2
      (fun hsm => by rw [d10]; exact hs2 (List.mem_append_right _ hsm))
      (fun hsm => by
        rw [Spec.Role.flip_flip] at hsm
        rw [d9]; exact hs1 (List.mem_append_right _ hsm)) hfs
      (fun t' ht' => ⟨(hg t' (by simp [ht'])).2.frame d5, (hg t' (by simp [ht'])).1.frame d4⟩)
    refine ⟨a2, b2, sa2, sb2, ?_, e3, e2, d4.trans e5, d5.trans e4, e7, e6, e8.symm,
      by rw [e10, Spec.Role.flip_flip], e9⟩
    unfold exchange
    rw [d1]
    simp only [Out.bind_ok, e1]
    rfl

theorem mixPres_congr {C : Spec.Crypto} {a b : HSt P Q} (hp : a.psk = b.psk) (r : Role) :
    ∀ (ts : List Tok) (sym : Spec.Sym), (∀ t ∈ ts, a.preMsgKey r t = b.preMsgKey r t) →
      HSt.mixPres C a r ts sym = HSt.mixPres C b r ts sym := by
  intro ts
  induction ts with
  | nil => intros; rfl
  | cons t ts ih =>
    intro sym h
    simp only [HSt.mixPres, hp, h t (by simp)]
    split
    · exact ih _ (fun t' ht' => h t' (by simp [ht']))
    · rfl
    · rfl

theorem mixPres_nonce {C : Spec.Crypto} {a : HSt P Q} {r : Role} :
    ∀ (ts : List Tok) (sym sym' : Spec.Sym), HSt.mixPres C a r ts sym = .ok sym' → sym.c.n = 0 →
      sym'.c.n = 0 := by
  intro ts
  induction ts with
  | nil => intro sym sym' h h0; cases h; exact h0
  | cons t ts ih =>
    intro sym sym' h h0
    simp only [HSt.mixPres] at h
    split at h
    · next sy hsy =>
      refine ih _ _ h ?_
      unfold HSt.mixPre at hsy
      split at hsy
      · cases hsy
      · cases hsy
        split
        · unfold HSt.mixE; split <;> simp [Spec.Sym.mixKey, Spec.Sym.mixHash, h0]
        · simp [Spec.Sym.mixHash, h0]
    · cases h
    · cases h

theorem mixPres_sym {C : Spec.Crypto} {p : Spec.Pattern} {sym : Spec.Sym} (h0 : sym.c.n = 0)
    {a b a' b' : HSt P Q} (hp : a.psk = b.psk)
    (ha : (match HSt.mixPres C a .initiator p.preI sym with
      | .ok sym =>
        match HSt.mixPres C a .responder p.preR sym with
        | .ok sym => Res.ok { a with sym := sym }
        | .fail => .fail
        | .stuck => .stuck
      | .fail => .fail
      | .stuck => .stuck) = .ok a')
    (hb : (match HSt.mixPres C b .initiator p.preI sym with
      | .ok sym =>
        match HSt.mixPres C b .responder p.preR sym with
        | .ok sym => Res.ok { b with sym := sym }
        | .fail => .fail
        | .stuck => .stuck
      | .fail => .fail
      | .stuck => .stuck) = .ok b')
    (h1 : ∀ t ∈ p.preI, a.preMsgKey .initiator t = b.preMsgKey .initiator t)
    (h2 : ∀ t ∈ p.preR, a.preMsgKey .responder t = b.preMsgKey .responder t) :
    b'.sym = a'.sym ∧ b'.psk = a'.psk ∧ a'.sym.c.n = 0 := by
  rw [mixPres_congr hp .initiator p.preI sym h1] at ha
  split at ha
  · next s1 hs1 =>
    rw [hs1] at hb
    dsimp only at hb
    rw [mixPres_congr hp .responder p.preR s1 h2] at ha
    split at ha
    · next s2 hs2 =>
      rw [hs2] at hb
      cases ha; cases hb
      exact ⟨rfl, hp.symm, mixPres_nonce _ _ _ hs2 (mixPres_nonce _ _ _ hs1 h0)⟩
    · cases ha
    · cases ha
  · cases ha
  · cases ha

/-- Two parties with the same protocol name, prologue, pre-shared key and pre-message keys initialise to
the same symmetric state. -/
theorem initState_sym {C : Spec.Crypto} {name : Bytes} {p : Spec.Pattern} {prologue : Bytes}
    {psk : Option Bytes} {a b a' b' : HSt P Q} (ha : HSt.initState C name p prologue psk a = .ok a')
    (hb : HSt.initState C name p prologue psk b = .ok b')
    (h1 : ∀ t ∈ p.preI, a.preMsgKey .initiator t = b.preMsgKey .initiator t)
    (h2 : ∀ t ∈ p.preR, a.preMsgKey .responder t = b.preMsgKey .responder t) :
    b'.sym = a'.sym ∧ b'.psk = a'.psk ∧ a'.sym.c.n = 0 := by
  unfold HSt.initState at ha hb
  cases psk with
  | none => exact mixPres_sym (by rfl) (by rfl) ha hb h1 h2
  | some k => exact mixPres_sym (by rfl) (by rfl) ha hb h1 h2

theorem msgs_small {id : Int} {t : Bytes} {p : Spec.Pattern} (h : patternLookup id = some t)
    (hp : specPattern id = some p) : (p.msgs.map fun m => m.length + 1).sum ≤ 2 ^ 64 - 1 := by
  have key : ∀ e ∈ patternTable, (match specPattern e.1 with
      | some p => decide ((p.msgs.map fun m => m.length + 1).sum ≤ 100)
      | none => true) = true := by decide +kernel
  have := key _ (patternLookup_mem h)
  rw [hp] at this
  have := of_decide_eq_true this
  omega

theorem OwnKey.pubOf {R : Real X P Q} {s : X.H} (hs : s.Sound X) {own : Option P.KP} (h : OwnKey R s own)
    (hk : own.isSome = true) : pubOf s.ls = own.map P.pub := by
  cases own with
  | none => cases hk
  | some k =>
    obtain ⟨d, h1, h2⟩ := h
    simp only [Noise.pubOf, h1, R.RD.keypair d k h2, R.RD.pub d k (hs.ls d h1) h2]
    rfl

/-- Two parties as in C12 are in step after they have started. -/
theorem start_agree (R : Real X P Q) (hK : KeysGenuine R) (G : (Option Bytes → Q.KP) → Prop)
    (i r i1 r1 : X.H) (hi : SetUp X i)
    (hr : SetUp X r) (hri : i.role = .initiator) (hrr : r.role = .responder)
    (hid : i.sym.id = r.sym.id) (hpro : i.prologue = r.prologue) (hpsk : i.psk = r.psk)
    (p : Spec.Pattern) (hp : specPattern i.sym.id.patternId = some p)
    (hfb : p.preKey .responder .e = false)
    (hks : p.preKey .responder .s = true → pubOf i.rs = pubOf r.ls)
    (hkr : p.preKey .initiator .s = true → pubOf r.rs = pubOf i.ls)
    (si : i.start X.S.CB = .ok (.none, i1)) (sr : r.start X.S.CB = .ok (.none, r1)) :
    ∃ sa sb : HSt P Q, Follows R i1 sa ∧ Follows R r1 sb ∧ i.Frame i1 ∧ r.Frame r1 ∧ i1.action = .write ∧
      r1.action = .read ∧ HSt.Link G .initiator p.known 0 sa sb ∧ sa.msgs = p.msgs ∧
      0 + (p.msgs.map fun m => m.length + 1).sum ≤ 2 ^ 64 - 1 ∧
      Spec.WellFrom p.known (Spec.events .initiator p.msgs) ∧
      ((Role.initiator, Tok.s) ∈ Spec.events .initiator p.msgs → sa.s.isSome = true) ∧
      ((Role.responder, Tok.s) ∈ Spec.events .initiator p.msgs → sb.s.isSome = true) := by
  have hiI := hi.idle
  have hrI := hr.idle
  obtain ⟨name, n1, n2⟩ := hiI.named
  obtain ⟨name', n1', n2'⟩ := hrI.named
  have hname : name' = name := C28_names_unique _ _ _ (by rw [← hid] at n1'; exact n1') n1
  subst hname
  obtain ⟨oi, hoi⟩ := hK.own hiI
  obtain ⟨or, hor⟩ := hK.own hrI
  obtain ⟨sa, a1, a2, a3, a4, a5, a6, a7, a8, a9, a10, a11, a12, a13⟩ := hiI.follows n2 hp hfb hoi si
  obtain ⟨sb, b1, b2, b3, b4, b5, b6, b7, b8, b9, b10, b11, b12, b13⟩ :=
    hrI.follows n2' (by rw [← hid]; exact hp) hfb hor sr
  rw [← hid, ← hpro, ← hpsk] at b1
  rw [hri] at a5 a6
  rw [hrr] at b5 b6
  obtain ⟨t, fl, t1, t2, t3, t4⟩ := hiI.tokens
  have hshape := preShape_table t1 hp t2
  simp only [preShape, Bool.and_eq_true, decide_eq_true_eq] at hshape
  obtain ⟨⟨⟨sI, sR⟩, sF⟩, sE⟩ := hshape
  have hRf : p.preKey .responder .f = false := by
    cases hx : p.preKey .responder .f with
    | false => rfl
    | true => rw [hx, hfb] at sF; simp at sF
  rw [hfb, hRf] at sR
  -- only static keys are pre-messages
  have hknown : ∀ rl u, (rl, u) ∈ p.known → u = .s ∧ p.preKey rl .s = true := by
    intro rl u hm
    have hm' := hm
    simp only [Spec.Pattern.known, List.mem_append, List.mem_map] at hm'
    have : u = .s := by
      rcases hm' with ⟨x, hx, he⟩ | ⟨x, hx, he⟩
      · rw [sI] at hx
        split at hx
        · simp only [List.mem_singleton] at hx; cases he; exact hx
        · simp at hx
      · rw [sR] at hx
        cases hs : p.preKey .responder .s with
        | true => rw [hs] at hx; simp at hx; cases he; exact hx
        | false => rw [hs] at hx; simp at hx
    exact ⟨this, by rw [← mem_known, ← this]; exact hm⟩
  have hI : p.preKey .initiator .s = true → ∃ pk, oi.map P.pub = some pk ∧ pubOf r.rs = some pk := by
    intro hx
    have := a13.own .s rfl (by rw [a5, mem_known]; exact hx)
    simp only [HSt.ownPub, a7, Option.isSome_map] at this
    have hpub := hoi.pubOf hiI.inv.sound this
    rw [hkr hx, hpub]
    cases oi with
    | none => cases this
    | some k => exact ⟨_, rfl, rfl⟩
  have hR : p.preKey .responder .s = true → ∃ pk, or.map P.pub = some pk ∧ pubOf i.rs = some pk := by
    intro hx
    have := b13.own .s rfl (by rw [b5, mem_known]; exact hx)
    simp only [HSt.ownPub, b7, Option.isSome_map] at this
    have hpub := hor.pubOf hrI.inv.sound this
    rw [hks hx, hpub]
    cases or with
    | none => cases this
    | some k => exact ⟨_, rfl, rfl⟩
  obtain ⟨e1, e2, e3⟩ := initState_sym a1 b1
    (fun u hu => by
      obtain ⟨rfl, hx⟩ := hknown .initiator u (by simp [Spec.Pattern.known, hu])
      obtain ⟨pk, q1, q2⟩ := hI hx
      simp [HSt.preMsgKey, startKeys, hri, hrr, q1, q2])
    (fun u hu => by
      obtain ⟨rfl, hx⟩ := hknown .responder u (by simp [Spec.Pattern.known, hu])
      obtain ⟨pk, q1, q2⟩ := hR hx
      simp [HSt.preMsgKey, startKeys, hri, hrr, q1, q2])
  have hlink : HSt.Link G .initiator p.known 0 sa sb := {
    ra := a5
    rb := b5
    psk := e2
    sym := e1
    msgs := by rw [a4, b4]
    nonce := by omega
    ab := fun u _ hm => by
      obtain ⟨rfl, hx⟩ := hknown _ _ hm
      obtain ⟨pk, q1, q2⟩ := hI hx
      exact ⟨pk, by simp [HSt.ownPub, a7, q1], by simp [HSt.remPub, b10, q2]⟩
    ba := fun u _ hm => by
      obtain ⟨rfl, hx⟩ := hknown _ _ hm
      obtain ⟨pk, q1, q2⟩ := hR hx
      exact ⟨pk, by simp [HSt.ownPub, b7, q1], by simp [HSt.remPub, a10, q2]⟩
    fa := fun _ => ⟨a9, b12⟩
    fb := fun _ => ⟨b9, a12⟩
    ga := fun _ k hk => by rw [a9] at hk; cases hk
    gb := fun _ k hk => by rw [b9] at hk; cases hk
    gab := fun k _ hk => by rw [a9] at hk; cases hk }
  obtain ⟨_, _, _, la⟩ := a2.write a6
  obtain ⟨_, _, _, lb⟩ := b2.read b6
  have hsa := la.static
  have hsb := lb.static
  rw [a5, a4] at hsa
  rw [b5, b4] at hsb
  exact ⟨sa, sb, a2, b2, a3, b3, a6, b6, hlink, a4, by have := msgs_small t1 hp; omega,
    Spec.Pattern.wellFrom p (C17_no_key_sent_twice t1 hp) (C17_keys_available t1 hp), hsa, hsb⟩

/-- C12: for every protocol except those of the fallback patterns (C19): if both sides were created
for the same protocol with opposite roles, have the same prologue and pre-shared key, know each other's static
keys where the pattern says so beforehand, and both start, then the exchange of the messages with large
enough buffers succeeds whatever the keys, payloads and randomness; every payload arrives; both sides
are then at SPLIT with the same handshake hash, and the ciphers they split into match crosswise. -/
theorem C12_handshake_agreement (R : Real X P Q) (hK : KeysGenuine R) (hP : P.Good)
    (G : (Option Bytes → Q.KP) → Prop) (hQ : Q.GoodGen G) (i r i1 r1 : X.H) (hi : SetUp X i)
    (hr : SetUp X r) (hri : i.role = .initiator) (hrr : r.role = .responder)
    (hid : i.sym.id = r.sym.id) (hpro : i.prologue = r.prologue) (hpsk : i.psk = r.psk)
    (p : Spec.Pattern) (hp : specPattern i.sym.id.patternId = some p)
    (hfb : p.preKey .responder .e = false)
    (hks : p.preKey .responder .s = true → pubOf i.rs = pubOf r.ls)
    (hkr : p.preKey .initiator .s = true → pubOf r.rs = pubOf i.ls)
    (si : i.start X.S.CB = .ok (.none, i1)) (sr : r.start X.S.CB = .ok (.none, r1))
    (turns : List Turn) (hfit : FitAll X.S.crypto P Q turns p.msgs)
    (hgen : ∀ t ∈ turns, Generates R G t i ∧ Generates R G t r) :
    ∃ i2 r2, exchange X.S.CB turns i1 r1 = .ok (some (i2, r2, turns.map (·.payload))) ∧
      i2.action = .split ∧ r2.action = .split ∧ i2.sym.h = r2.sym.h ∧
      ∃ i3 r3 c1 c2, i2.split X.S.CB true true true = .ok (.none, i3, some c1, some c2) ∧
        r2.split X.S.CB true true true = .ok (.none, r3, some c2, some c1) ∧
        i3.action = .complete ∧ r3.action = .complete := by
  obtain ⟨sa, sb, a2, b2, a3, b3, a6, b6, hlink, a4, hsum, hwell, hsa, hsb⟩ := start_agree R hK G i r i1 r1 hi hr hri hrr hid hpro
    hpsk p hp hfb hks hkr si sr
  obtain ⟨i2, r2, sa', sb', x1, x2, x3, _, _, x4, x5, x6, x7, x8⟩ := exchange_agree R hP hQ turns p.msgs .initiator
    p.known 0 i1 r1 sa sb a2 b2 (fun _ => ⟨a6, b6⟩) hlink a4 hsum hwell hsa hsb hfit
    (fun t ht => ⟨(hgen t ht).1.frame a3, (hgen t ht).2.frame b3⟩)
  obtain ⟨y1, y2, i3, s1, v1, y3, y4, y5⟩ := C13_split R i2 sa' x2 x4
  obtain ⟨z1, z2, r3, s2, v2, z3, z4, z5⟩ := C13_split R r2 sb' x3 x5
  rw [x7] at y5
  rw [x8] at z5
  simp only [Role.flip, Prod.ext_iff, Prod.fst_swap, Prod.snd_swap] at y5 z5
  refine ⟨i2, r2, x1, y1, z1, by rw [y2, z2, x6], i3, r3, s1, v1, y3, ?_, y4, z4⟩
  have w1 : s1 = v2 := CipherState.abs_inj (by rw [y5.1, z5.2, x6]) (by rw [y5.1]; rfl)
  have w2 : v1 = s2 := CipherState.abs_inj (by rw [y5.2, z5.1, x6]) (by rw [y5.2]; rfl)
  rw [w1, w2]
  exact z3

end HS

/-! ## The hypotheses of C12 for the library's key exchanges -/

/-- Curves: key pairs agree if the scalar multiplication commutes. -/
theorem CurveFns.good (F : CurveFns) (Z : F.Sized) (hC : F.Commutes) : (F.specDH Z).Good where
  agree := fun a b => by
    have na := fun hz => List.eq_replicate_iff.2 ⟨Z.eval_len _ _, hC.null b.1 a.1 b.2 a.2 hz⟩
    have nb := fun hz => List.eq_replicate_iff.2 ⟨Z.eval_len _ _, hC.null a.1 b.1 a.2 b.2 hz⟩
    have ec := hC.comm a.1 b.1 a.2 b.2
    unfold Spec.DH.Agree
    simp only [CurveFns.specDH, hC.valid a.1 a.2, hC.valid b.1 b.2, if_true]
    by_cases za : AllZero (F.eval a.1 F.base) <;> by_cases zb : AllZero (F.eval b.1 F.base)
    · exact ⟨_, by rw [if_pos zb], by rw [if_pos za]⟩
    · exact ⟨_, by rw [if_neg zb, ec, na za], by rw [if_pos za]⟩
    · exact ⟨_, by rw [if_pos zb], by rw [if_neg za, ← ec, nb zb]⟩
    · exact ⟨_, by rw [if_neg zb, ec], by rw [if_neg za]⟩
  len := fun _ _ => Z.eval_len _ _

/-- Curves as hybrid algorithm: any generator that ignores the remote key and whose public key is not null. -/
theorem CurveFns.goodGen (F : CurveFns) (Z : F.Sized) (hC : F.Commutes) :
    (F.specDH Z).GoodGen (fun g => ∃ k, ¬ AllZero (F.eval k.1 F.base) ∧ g = fun _ => k) where
  len := fun _ _ _ => (F.good Z hC).len _ _
  accept := by
    rintro _ o ⟨k, hk, rfl⟩
    simp [CurveFns.specDH, hk]
  agree := fun _ _ _ _ => (F.good Z hC).agree _ _

/-- New Hope: the generators using randomness for which reconciliation succeeds (it fails with
negligible probability, so it is a hypothesis on the values). -/
theorem NewHopeFns.goodGen (F : NewHopeFns) (Z : F.Sized) (A : (Nat → UInt8) → Prop)
    (hrec : ∀ rndA rndB, A rndA → A rndB →
      F.shareda (F.keygen (randBytes rndA 64)).2
        (F.sharedb (F.keygen (randBytes rndA 64)).1 (randBytes rndB 32)).2 =
      (F.sharedb (F.keygen (randBytes rndA 64)).1 (randBytes rndB 32)).1) :
    F.specDH.GoodGen (fun g => ∃ rnd, A rnd ∧ g = fun o => F.specDH.gen o rnd) where
  len := by
    rintro _ o ⟨rnd, _, rfl⟩
    cases o with
    | none => exact Z.keygen_send _
    | some x => exact Z.sharedb_send _ _
  accept := fun _ _ _ => rfl
  agree := by
    rintro _ _ ⟨ra, ha, rfl⟩ ⟨rb, hb, rfl⟩
    exact ⟨_, rfl, congrArg some (hrec ra rb ha hb).symm⟩

/-- The setup with a curve, and another curve as hybrid algorithm. -/
def curveSetup (S : Suite) (F F2 : CurveFns) (Z : F.Sized) (Z2 : F2.Sized) : Setup where
  S := S
  D := F.backend
  ID := F.Inv
  LD := _
  WD := curve_lawful F Z
  G := F2.backend
  IG := F2.Inv
  LG := _
  WG := curve_lawful F2 Z2

/-- The curves implement the specification. -/
def curveReal (S : Suite) (F F2 : CurveFns) (Z : F.Sized) (Z2 : F2.Sized)
    (h : F.len + S.CB.macLen ≤ 65535) (h2 : F2.len + S.CB.macLen ≤ 65535) :
    Real (curveSetup S F F2 Z Z2) (F.specDH Z) (F2.specDH Z2) where
  RD := F.realizes Z
  anyG := true
  RG := F2.realizes Z2
  smallD := fun _ => h
  smallG := fun _ => h2

/-- The setup with a curve, and New Hope as hybrid algorithm. -/
def newHopeSetup (S : Suite) (F : CurveFns) (N : NewHopeFns) (Z : F.Sized) (ZN : N.Sized) : Setup where
  S := S
  D := F.backend
  ID := F.Inv
  LD := _
  WD := curve_lawful F Z
  G := N.backend
  IG := newHopeInv
  LG := _
  WG := newHope_lawful N ZN

/-- A curve with New Hope implements the specification. -/
def newHopeReal (S : Suite) (F : CurveFns) (N : NewHopeFns) (Z : F.Sized) (ZN : N.Sized)
    (h : F.len + S.CB.macLen ≤ 65535) (h2 : 2048 + S.CB.macLen ≤ 65535) :
    Real (newHopeSetup S F N Z ZN) (F.specDH Z) N.specDH where
  RD := F.realizes Z
  anyG := false
  RG := N.realizes ZN
  smallD := fun _ => h
  smallG := fun b => by
    show N.specDH.len b + S.CB.macLen ≤ 65535
    cases b <;> simp [NewHopeFns.specDH, sendABytes, sendBBytes] <;> omega

theorem curveReal_genuine (S : Suite) (F F2 : CurveFns) (Z : F.Sized) (Z2 : F2.Sized)
    (h : F.len + S.CB.macLen ≤ 65535) (h2 : F2.len + S.CB.macLen ≤ 65535) :
    HS.KeysGenuine (curveReal S F F2 Z Z2 h h2) :=
  fun d hd hk => F.holds_of_reach Z d hd hk

theorem newHopeReal_genuine (S : Suite) (F : CurveFns) (N : NewHopeFns) (Z : F.Sized) (ZN : N.Sized)
    (h : F.len + S.CB.macLen ≤ 65535) (h2 : 2048 + S.CB.macLen ≤ 65535) :
    HS.KeysGenuine (newHopeReal S F N Z ZN h h2) :=
  fun d hd hk => F.holds_of_reach Z d hd hk

/-! ## Concrete cases -/

/-- The curve setup used in the examples, with real meaning of `Commutes`. -/
def meetSetup : Setup := curveSetup toySuite toyCurve toyCurve2 toyCurve_sized
  ⟨toyCurve_sized.eval_len, toyCurve_sized.clamp_len⟩

/-- An object created by name and set up by some calls. -/
def meetMake (name : String) (role : Role) (ops : List (HOp meetSetup.D meetSetup.G)) :
    Option (meetSetup.H × List HObs × meetSetup.H) :=
  match (HS.newByName meetSetup.S.CB ([] : Bytes) (ascii name) role : Out (Except Err meetSetup.H)) with
  | .ok (.ok s0) =>
    match HOp.run meetSetup.S.CB s0 ops with
    | .ok (os, s) => some (s0, os, s)
    | .ub => none
  | _ => none

theorem meetMake_setUp {name : String} {role : Role} {ops : List (HOp meetSetup.D meetSetup.G)}
    {s0 s : meetSetup.H} {os : List HObs} (h : meetMake name role ops = some (s0, os, s))
    (ha : ∀ op ∈ ops, op.ArgsReach meetSetup) (hr : s0.sym.id.reserved.length = 4)
    (hf : (ops.zip os).any isFallback = false) (hn : s.action = .none) : SetUp meetSetup s := by
  unfold meetMake at h
  split at h
  · next s1 h1 =>
    split at h
    · next os1 s2 h2 => cases h; exact ⟨_, ops, os, .byName _ _ _ _ h1, hr, ha, h2, hf, hn⟩
    · cases h
  · cases h

/-- Some turns for the examples. -/
def meetTurns (n : Nat) : List Turn := (List.range n).map fun i =>
  { rnd := fun a b => UInt8.ofNat (i * 37 + a * 11 + b * 5 + 3)
    junkW := fun _ _ => 9
    junkR := fun _ _ => 8
    payload := [UInt8.ofNat i, 7]
    mem := List.replicate 60 1
    slack := [5, 5]
    pmem := List.replicate 9 2 }

/-- Everything C12 assumes about the two objects (apart from `SetUp`), and what it concludes, as a
check. -/
def meetCheck (name : String) (iops rops : List (HOp meetSetup.D meetSetup.G)) : Bool :=
  match meetMake name .initiator iops, meetMake name .responder rops with
  | some (i0, ios, i), some (r0, ros, r) =>
    match specPattern i.sym.id.patternId, i.start meetSetup.S.CB, r.start meetSetup.S.CB with
    | some p, .ok (.none, i1), .ok (.none, r1) =>
      decide (i0.sym.id.reserved.length = 4) && decide (r0.sym.id.reserved.length = 4) &&
      !(iops.zip ios).any isFallback && !(rops.zip ros).any isFallback &&
      decide (i.action = .none) && decide (r.action = .none) &&
      decide (i.sym.id = r.sym.id) && decide (i.prologue = r.prologue) && decide (i.psk = r.psk) &&
      !p.preKey .responder .e &&
      (!p.preKey .responder .s || decide (pubOf i.rs = pubOf r.ls)) &&
      (!p.preKey .initiator .s || decide (pubOf r.rs = pubOf i.ls)) &&
      decide (i.fe.isNone ∧ i.fh.isNone ∧ r.fe.isNone ∧ r.fh.isNone) &&
      match HS.exchange meetSetup.S.CB (meetTurns p.msgs.length) i1 r1 with
      | .ok (some (i2, r2, ps)) =>
        decide (i2.action = .split ∧ r2.action = .split ∧ i2.sym.h = r2.sym.h ∧
          ps = (meetTurns p.msgs.length).map (·.payload))
      | _ => false
    | _, _, _ => false
  | _, _ => false

/-- XX: both static keys are transmitted. -/
example : meetCheck "Noise_XX_25519_ChaChaPoly_BLAKE2s"
    [.localStatic (.setKeypairPrivate [3, 4]), .setPrologue [1, 2, 3]]
    [.setPrologue [1, 2, 3], .localStatic (.setKeypairPrivate [6, 9])] = true := by decide +kernel

/-- IK with a pre-shared key and the hybrid extension: the responder's static key (7, 9) is known. -/
example : meetCheck "NoisePSK_IKhfs_25519+448_ChaChaPoly_BLAKE2s"
    [.localStatic (.setKeypairPrivate [3, 4]), .remoteStatic (.setPublicKey [7, 9]),
     .setPsk (List.replicate 32 7)]
    [.setPsk (List.replicate 32 7), .localStatic (.setKeypairPrivate [6, 9])] = true := by
  decide +kernel

/-- The turns of the examples fit a message of three tokens with two keys. -/
example : Turn.Fits meetSetup.S.crypto (toyCurve.specDH toyCurve_sized) (toyCurve.specDH toyCurve_sized)
    ((meetTurns 3).getD 0 ⟨fun _ _ => 0, fun _ _ => 0, fun _ _ => 0, [], [], [], []⟩) [.e, .ee, .s] := by
  unfold Turn.Fits; decide

/-- The curve of the examples has the algebraic properties C12 asks for. -/
example : (toyCurve.specDH toyCurve_sized).Good := toyCurve.good toyCurve_sized toyCurve_commutes

/-- New Hope functions that always reconcile. -/
example : toyNewHope.specDH.GoodGen (fun g => ∃ rnd, True ∧ g = fun o => toyNewHope.specDH.gen o rnd) :=
  toyNewHope.goodGen toyNewHope_sized (fun _ => True) (fun _ _ _ _ => rfl)

/-- An object that generates its ephemeral keys at random meets `Generates`. -/
example (s : meetSetup.H) (t : Turn) (h1 : s.fe = none) (h2 : s.fh = none) :
    HS.Generates (curveReal toySuite toyCurve toyCurve2 toyCurve_sized
      ⟨toyCurve_sized.eval_len, toyCurve_sized.clamp_len⟩ (by decide) (by decide))
      (fun g => ∃ k, ¬ AllZero (toyCurve2.eval k.1 toyCurve2.base) ∧ g = fun _ => k) t s :=
  fun n => ⟨⟨_, by rw [h1]; rfl, fun _ => decide_eq_false (toyCurve_nonzero _)⟩, _, by rw [h2]; rfl, _,
    toyCurve_nonzero _, rfl⟩

end Noise
