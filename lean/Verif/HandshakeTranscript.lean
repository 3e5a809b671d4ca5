import Verif.HandshakeTwo
/-!
# C14: the handshake hash binds the transcript
-/

namespace Noise.Spec

/-! ## Hash chains -/

/-- MixHash repeated over a list of items. -/
def chain (C : Crypto) : Bytes → List Bytes → Bytes
  | h, [] => h
  | h, x :: xs => chain C (C.HASH (h ++ x)) xs

/-- The inputs given to the hash function by `chain`. -/
def chainInputs (C : Crypto) : Bytes → List Bytes → List Bytes
  | _, [] => []
  | h, x :: xs => (h ++ x) :: chainInputs C (C.HASH (h ++ x)) xs

/-- Two different byte strings, one from each list, with the same hash. -/
def Collide (C : Crypto) (A B : List Bytes) : Prop :=
  ∃ a ∈ A, ∃ b ∈ B, a ≠ b ∧ C.HASH a = C.HASH b

variable {C : Crypto}

theorem chain_append (h : Bytes) (xs ys : List Bytes) :
    chain C h (xs ++ ys) = chain C (chain C h xs) ys := by
  induction xs generalizing h with
  | nil => rfl
  | cons x xs ih => exact ih _

theorem chainInputs_append (h : Bytes) (xs ys : List Bytes) :
    chainInputs C h (xs ++ ys) = chainInputs C h xs ++ chainInputs C (chain C h xs) ys := by
  induction xs generalizing h with
  | nil => rfl
  | cons x xs ih => simp only [List.cons_append, chainInputs, ih, chain]

theorem chain_length (hC : ∀ x, (C.HASH x).length = C.hashLen) (h : Bytes) (hh : h.length = C.hashLen)
    (xs : List Bytes) : (chain C h xs).length = C.hashLen := by
  induction xs generalizing h with
  | nil => exact hh
  | cons x xs ih => exact ih _ (hC _)

theorem Collide.mono {A B A' B' : List Bytes} (h : Collide C A B) (ha : ∀ x ∈ A, x ∈ A')
    (hb : ∀ x ∈ B, x ∈ B') : Collide C A' B' := by
  obtain ⟨a, h1, b, h2, h3⟩ := h
  exact ⟨a, ha a h1, b, hb b h2, h3⟩

/-- Equal ends of two chains: the same items from the same beginning, or a collision, or one of the
chains passes through the beginning of the other. -/
theorem chain_inj (hC : ∀ x, (C.HASH x).length = C.hashLen) : ∀ (n : Nat) (xs ys : List Bytes) (h g : Bytes),
    xs.length = n → h.length = C.hashLen → g.length = C.hashLen → chain C h xs = chain C g ys →
    (h = g ∧ xs = ys) ∨ Collide C (chainInputs C h xs) (chainInputs C g ys) ∨
      (∃ a ∈ chainInputs C h xs, C.HASH a = g) ∨ (∃ b ∈ chainInputs C g ys, C.HASH b = h) := by
  intro n
  induction n with
  | zero =>
    intro xs ys h g hn _ _ he
    have : xs = [] := List.length_eq_zero_iff.mp hn
    subst this
    rcases List.eq_nil_or_concat ys with rfl | ⟨ys', y, rfl⟩
    · exact .inl ⟨he, rfl⟩
    · refine .inr (.inr (.inr ⟨chain C g ys' ++ y, ?_, ?_⟩))
      · rw [List.concat_eq_append, chainInputs_append]; simp [chainInputs]
      · rw [List.concat_eq_append, chain_append] at he
        exact he.symm
  | succ n ih =>
    intro xs ys h g hn hh hg he
    rcases List.eq_nil_or_concat xs with rfl | ⟨xs', x, rfl⟩
    · cases hn
    rw [List.concat_eq_append] at hn he ⊢
    rw [chain_append] at he
    rcases List.eq_nil_or_concat ys with rfl | ⟨ys', y, rfl⟩
    · refine .inr (.inr (.inl ⟨chain C h xs' ++ x, ?_, ?_⟩))
      · rw [chainInputs_append]; simp [chainInputs]
      · exact he
    rw [List.concat_eq_append, chain_append] at he
    rw [List.concat_eq_append]
    have he' : C.HASH (chain C h xs' ++ x) = C.HASH (chain C g ys' ++ y) := he
    by_cases hxy : chain C h xs' ++ x = chain C g ys' ++ y
    · have hl : (chain C h xs').length = (chain C g ys').length := by
        rw [chain_length hC h hh, chain_length hC g hg]
      obtain ⟨e1, e2⟩ := List.append_inj hxy hl
      rcases ih xs' ys' h g (by simpa using hn) hh hg e1 with ⟨k1, k2⟩ | k | ⟨a, k1, k2⟩ | ⟨b, k1, k2⟩
      · exact .inl ⟨k1, by rw [k2, e2]⟩
      · exact .inr (.inl (k.mono (fun x hx => by rw [chainInputs_append]; simp [hx])
          (fun x hx => by rw [chainInputs_append]; simp [hx])))
      · exact .inr (.inr (.inl ⟨a, by rw [chainInputs_append]; simp [k1], k2⟩))
      · exact .inr (.inr (.inr ⟨b, by rw [chainInputs_append]; simp [k1], k2⟩))
    · exact .inr (.inl ⟨_, by rw [chainInputs_append]; simp [chainInputs], _,
        by rw [chainInputs_append]; simp [chainInputs], hxy, he'⟩)

/-! ## What the specification hashes -/

theorem encryptAndHash_chain {sym sym' : Sym} {pt ct : Bytes}
    (h : sym.encryptAndHash C pt = some (sym', ct)) : sym'.h = chain C sym.h [ct] := by
  unfold Sym.encryptAndHash at h
  split at h
  · cases h
  · cases h; rfl

theorem decryptAndHash_chain {sym sym' : Sym} {pt ct : Bytes}
    (h : sym.decryptAndHash C ct = some (sym', pt)) : sym'.h = chain C sym.h [ct] := by
  unfold Sym.decryptAndHash at h
  split at h
  · cases h
  · cases h; rfl

/-- How many items a token adds to the transcript. -/
def Tok.items : Tok → Nat
  | .e => 1
  | .s => 1
  | .f => 1
  | _ => 0

namespace HSt
variable {P Q : DH}

theorem mixE_h (psk : Bool) (sym : Sym) (pk : Bytes) : (mixE C psk sym pk).h = chain C sym.h [pk] := by
  unfold mixE; split <;> rfl

theorem mixDH_h {D : DH} {sym sym' : Sym} {k : Option D.KP} {pb : Option Bytes}
    (h : mixDH C D sym k pb = .ok sym') : sym'.h = sym.h := by
  unfold mixDH at h
  split at h
  · split at h
    · cases h; rfl
    · cases h
  · cases h

theorem dhTok_h {t : Tok} {st st' : HSt P Q} (h : dhTok C t st = .ok st') :
    st'.sym.h = st.sym.h ∧ st'.msgs = st.msgs := by
  unfold dhTok at h
  split at h
  · next sym hs =>
    cases h
    refine ⟨?_, rfl⟩
    unfold dhSym at hs
    split at hs
    · exact mixDH_h hs
    · exact mixDH_h hs
    · exact mixDH_h hs
    · exact mixDH_h hs
    · exact mixDH_h hs
    · exact mixDH_h hs
    · exact mixDH_h hs
    · cases hs
  · cases h
  · cases h

theorem writeTok_chain {ge : Option Bytes → P.KP} {gf : Option Bytes → Q.KP} {t : Tok} {st st' : HSt P Q}
    {out : Bytes} (h : writeTok C ge gf t st = .ok (st', out)) :
    ∃ items : List Bytes, items.flatten = out ∧ items.length = t.items ∧
      st'.sym.h = chain C st.sym.h items := by
  have dh : t.items = 0 → (match dhTok C t st with
      | .ok st' => (.ok (st', []) : Res (HSt P Q × Bytes))
      | .fail => .fail
      | .stuck => .stuck) = .ok (st', out) → ∃ items : List Bytes, items.flatten = out ∧
        items.length = t.items ∧ st'.sym.h = chain C st.sym.h items := by
    intro h0 hx
    cases hd : dhTok C t st with
    | ok s1 =>
      rw [hd] at hx
      simp only [Res.ok.injEq, Prod.mk.injEq] at hx
      exact ⟨[], by simp [← hx.2], by simp [h0], by rw [← hx.1]; exact (dhTok_h hd).1⟩
    | fail => rw [hd] at hx; cases hx
    | stuck => rw [hd] at hx; cases hx
  cases t with
  | ee => exact dh rfl h
  | es => exact dh rfl h
  | se => exact dh rfl h
  | ss => exact dh rfl h
  | ff => exact dh rfl h
  | e =>
    simp only [writeTok, Res.ok.injEq, Prod.mk.injEq] at h
    exact ⟨[out], by simp, rfl, by rw [← h.1, ← h.2]; exact mixE_h _ _ _⟩
  | s =>
    simp only [writeTok] at h
    split at h
    · cases h
    split at h
    · cases h
    next he =>
    simp only [Res.ok.injEq, Prod.mk.injEq] at h
    exact ⟨[out], by simp, rfl, by rw [← h.1, ← h.2]; exact encryptAndHash_chain he⟩
  | f =>
    simp only [writeTok] at h
    split at h
    · cases h
    split at h
    · cases h
    next he =>
    simp only [Res.ok.injEq, Prod.mk.injEq] at h
    exact ⟨[out], by simp, rfl, by rw [← h.1, ← h.2]; exact encryptAndHash_chain he⟩

theorem readTok_chain {t : Tok} {st st' : HSt P Q} {msg rest : Bytes}
    (h : readTok C t st msg = .ok (st', rest)) :
    ∃ items : List Bytes, items.flatten ++ rest = msg ∧ items.length = t.items ∧
      st'.sym.h = chain C st.sym.h items := by
  have dh : t.items = 0 → (match dhTok C t st with
      | .ok st' => (.ok (st', msg) : Res (HSt P Q × Bytes))
      | .fail => .fail
      | .stuck => .stuck) = .ok (st', rest) → ∃ items : List Bytes, items.flatten ++ rest = msg ∧
        items.length = t.items ∧ st'.sym.h = chain C st.sym.h items := by
    intro h0 hx
    cases hd : dhTok C t st with
    | ok s1 =>
      rw [hd] at hx
      simp only [Res.ok.injEq, Prod.mk.injEq] at hx
      exact ⟨[], by simp [← hx.2], by simp [h0], by rw [← hx.1]; exact (dhTok_h hd).1⟩
    | fail => rw [hd] at hx; cases hx
    | stuck => rw [hd] at hx; cases hx
  cases t with
  | ee => exact dh rfl h
  | es => exact dh rfl h
  | se => exact dh rfl h
  | ss => exact dh rfl h
  | ff => exact dh rfl h
  | e =>
    simp only [readTok] at h
    split at h
    · cases h
    split at h
    · cases h
    simp only [Res.ok.injEq, Prod.mk.injEq] at h
    exact ⟨[msg.take (P.len st.e.isSome)], by rw [← h.2]; simp, rfl, by rw [← h.1]; exact mixE_h _ _ _⟩
  | s =>
    simp only [readTok] at h
    generalize P.len false + (if st.sym.c.k.isSome then C.macLen else 0) = n at h
    split at h
    · cases h
    split at h
    · cases h
    next he =>
    simp only [Res.ok.injEq, Prod.mk.injEq] at h
    exact ⟨[msg.take n], by rw [← h.2]; simp, rfl, by rw [← h.1]; exact decryptAndHash_chain he⟩
  | f =>
    simp only [readTok] at h
    generalize Q.len st.f.isSome + (if st.sym.c.k.isSome then C.macLen else 0) = n at h
    split at h
    · cases h
    split at h
    · cases h
    split at h
    · cases h
    next he =>
    split at h
    · cases h
    simp only [Res.ok.injEq, Prod.mk.injEq] at h
    exact ⟨[msg.take n], by rw [← h.2]; simp, rfl, by rw [← h.1]; exact decryptAndHash_chain he⟩

theorem writeToks_chain {ge : Nat → Option Bytes → P.KP} {gf : Nat → Option Bytes → Q.KP} :
    ∀ (m : List Tok) {st st' : HSt P Q} {out : Bytes}, writeToks C ge gf m st = .ok (st', out) →
    ∃ items : List Bytes, items.flatten = out ∧ items.length = (m.map Tok.items).sum ∧
      st'.sym.h = chain C st.sym.h items := by
  intro m
  induction m with
  | nil => intro st st' out h; cases h; exact ⟨[], rfl, rfl, rfl⟩
  | cons t ts ih =>
    intro st st' out h
    simp only [writeToks] at h
    split at h
    · next h1 =>
      split at h
      · next h2 =>
        simp only [Res.ok.injEq, Prod.mk.injEq] at h
        obtain ⟨i1, a1, a2, a3⟩ := writeTok_chain h1
        obtain ⟨i2, b1, b2, b3⟩ := ih h2
        refine ⟨i1 ++ i2, by simp [a1, b1, h.2], by simp [a2, b2], ?_⟩
        rw [← h.1, b3, a3, chain_append]
      · cases h
      · cases h
    · cases h
    · cases h

theorem readToks_chain : ∀ (m : List Tok) {st st' : HSt P Q} {msg rest : Bytes},
    readToks C m st msg = .ok (st', rest) →
    ∃ items : List Bytes, items.flatten ++ rest = msg ∧ items.length = (m.map Tok.items).sum ∧
      st'.sym.h = chain C st.sym.h items := by
  intro m
  induction m with
  | nil => intro st st' msg rest h; cases h; exact ⟨[], rfl, rfl, rfl⟩
  | cons t ts ih =>
    intro st st' msg rest h
    simp only [readToks] at h
    split at h
    · next h1 =>
      obtain ⟨i1, a1, a2, a3⟩ := readTok_chain h1
      obtain ⟨i2, b1, b2, b3⟩ := ih h
      refine ⟨i1 ++ i2, by simp [← a1, ← b1], by simp [a2, b2], ?_⟩
      rw [b3, a3, chain_append]
    · cases h
    · cases h

/-- How many items a message with these tokens adds: its public keys and its payload. -/
def msgItems (m : List Tok) : Nat := (m.map Tok.items).sum + 1

theorem writeMessage_chain {ge : Nat → Option Bytes → P.KP} {gf : Nat → Option Bytes → Q.KP}
    {st st' : HSt P Q} {pl hdr ct : Bytes} (h : writeMessage C ge gf st pl = .ok (st', hdr, ct)) :
    ∃ m items, st.msgs = m :: st'.msgs ∧ items.flatten = hdr ++ ct ∧ items.length = msgItems m ∧
      st'.sym.h = chain C st.sym.h items := by
  unfold writeMessage at h
  split at h
  · cases h
  next m ms hm =>
  split at h
  · next h1 =>
    split at h
    · cases h
    next he =>
    simp only [Res.ok.injEq, Prod.mk.injEq] at h
    obtain ⟨i1, a1, a2, a3⟩ := writeToks_chain _ h1
    refine ⟨m, i1 ++ [ct], by rw [hm, ← h.1], by simp [a1, h.2.1], by simp [a2, msgItems], ?_⟩
    rw [← h.1, chain_append, ← a3, ← h.2.2]
    exact encryptAndHash_chain he
  · cases h
  · cases h

theorem readMessage_chain {st st' : HSt P Q} {msg ct pl : Bytes}
    (h : readMessage C st msg = .ok (st', ct, pl)) :
    ∃ m items, st.msgs = m :: st'.msgs ∧ items.flatten = msg ∧ items.length = msgItems m ∧
      st'.sym.h = chain C st.sym.h items := by
  unfold readMessage at h
  split at h
  · cases h
  next m ms hm =>
  split at h
  · next h1 =>
    split at h
    · cases h
    next he =>
    simp only [Res.ok.injEq, Prod.mk.injEq] at h
    obtain ⟨i1, a1, a2, a3⟩ := readToks_chain _ h1
    refine ⟨m, i1 ++ [ct], by rw [hm, ← h.1], by simp [← h.2.1, a1], by simp [a2, msgItems], ?_⟩
    rw [← h.1, chain_append, ← a3, ← h.2.1]
    exact decryptAndHash_chain he
  · cases h
  · cases h

theorem mixPres_chain {st : HSt P Q} {r : Role} : ∀ (ts : List Tok) {sym sym' : Sym},
    mixPres C st r ts sym = .ok sym' →
    ∃ keys : List Bytes, ts.map (preMsgKey st r) = keys.map some ∧ sym'.h = chain C sym.h keys := by
  intro ts
  induction ts with
  | nil => intro sym sym' h; cases h; exact ⟨[], rfl, rfl⟩
  | cons t ts ih =>
    intro sym sym' h
    simp only [mixPres] at h
    split at h
    · next s1 h1 =>
      unfold mixPre at h1
      split at h1
      · cases h1
      next pk hpk =>
      cases h1
      obtain ⟨ks, a1, a2⟩ := ih h
      refine ⟨pk :: ks, by simp [hpk, a1], ?_⟩
      rw [a2]
      split
      · rw [mixE_h]; rfl
      · rfl
    · cases h
    · cases h

/-- The item mixed in for a pre-shared key. -/
def pskItem (C : Crypto) (name prologue : Bytes) (psk : Option Bytes) : List Bytes :=
  match psk with
  | none => []
  | some k => [(hkdf C ((initializeSymmetric C name).mixHash C prologue).ck k).2]

theorem initState_chain {name prologue : Bytes} {p : Pattern} {psk : Option Bytes} {st st' : HSt P Q}
    (h : initState C name p prologue psk st = .ok st') :
    ∃ ki kr : List Bytes, p.preI.map (preMsgKey st .initiator) = ki.map some ∧
      p.preR.map (preMsgKey st .responder) = kr.map some ∧ st'.msgs = p.msgs ∧
      st'.sym.h = chain C (initializeSymmetric C name).h
        (prologue :: (pskItem C name prologue psk ++ ki ++ kr)) := by
  unfold initState at h
  dsimp only at h
  split at h
  · next s1 h1 =>
    split at h
    · next s2 h2 =>
      cases h
      obtain ⟨ki, a1, a2⟩ := mixPres_chain _ h1
      obtain ⟨kr, b1, b2⟩ := mixPres_chain _ h2
      refine ⟨ki, kr, a1, b1, rfl, ?_⟩
      show s2.h = _
      rw [b2, a2]
      simp only [chain, chain_append]
      cases psk <;> rfl
    · cases h
    · cases h
  · cases h
  · cases h

end HSt
end Noise.Spec

namespace Noise

open Spec (Tok HSt Res chain chainInputs Collide)

/-! ## Sessions -/

/-- A message call. -/
inductive MsgCall
  | write (rnd junk : Nat → Nat → UInt8) (mem : Bytes) (payload : Option Bytes)
  | read (junk : Nat → Nat → UInt8) (msg : Buf) (payload : Option Bytes)

namespace HS

/-- One message call: the new state and the bytes of the message that went over the wire; `none` if the
call fails. Not a definition of the code base. -/
def message {HB : HashBackend} {D G : DHBackend} (CB : CipherBackend) (s : HS HB D G) :
    MsgCall → Out (Option (HS HB D G × Bytes))
  | .write rnd junk mem pl => do
    let (e, s', b) ← s.writeMessage CB rnd junk mem pl
    pure (if e = .none then some (s', b.bytes) else none)
  | .read junk msg pl => do
    let (e, s', _, _) ← s.readMessage CB junk msg pl
    pure (if e = .none then some (s', msg.bytes) else none)

/-- A sequence of successful message calls, with the messages as this party sees them. Not a
definition of the code base. -/
def session {HB : HashBackend} {D G : DHBackend} (CB : CipherBackend) :
    List MsgCall → HS HB D G → Out (Option (HS HB D G × List Bytes))
  | [], s => .ok (some (s, []))
  | c :: cs, s => do
    match ← s.message CB c with
    | none => pure none
    | some (s', w) =>
      match ← session CB cs s' with
      | none => pure none
      | some (s'', ws) => pure (some (s'', w :: ws))

variable {X : Setup} {P Q : Spec.DH}

/-- The object can generate its ephemeral keys: at random, or by copying genuine fixed ones. -/
def CanGenerate (R : Real X P Q) (s : X.H) : Prop :=
  ∀ rnd, (∃ g, GenOf R.RD s.fe rnd g) ∧ ∃ g, GenOf R.RG s.fh rnd g

theorem message_chain {R : Real X P Q} {s s' : X.H} {st : HSt P Q} (h : Follows R s st)
    (hg : CanGenerate R s) {c : MsgCall} {w : Bytes} (hm : s.message X.S.CB c = .ok (some (s', w))) :
    ∃ st' m items, Follows R s' st' ∧ CanGenerate R s' ∧ st.msgs = m :: st'.msgs ∧ items.flatten = w ∧
      items.length = HSt.msgItems m ∧ st'.sym.h = chain X.S.crypto st.sym.h items := by
  cases c with
  | write rnd junk mem pl =>
    simp only [message] at hm
    rw [Out.bind_eq_ok] at hm
    obtain ⟨⟨e, s1, b⟩, hw, hm⟩ := hm
    by_cases he : e = .none
    · subst he
      simp only [if_true, Out.pure_eq, Out.ok.injEq, Option.some.injEq, Prod.mk.injEq] at hm
      obtain ⟨rfl, rfl⟩ := hm
      have ha : s.action = .write := by
        by_cases ha : s.action = .write
        · exact ha
        · unfold writeMessage at hw
          rw [if_pos ha] at hw
          cases hw
      have key := C13_write R rnd junk s st h ha
        (fun n => Classical.choose (hg (rnd (n + later s st))).1)
        (fun n => Classical.choose (hg (rnd (n + later s st))).2)
        (fun n => Classical.choose_spec (hg (rnd (n + later s st))).1)
        (fun n => Classical.choose_spec (hg (rnd (n + later s st))).2) mem pl
      revert key
      cases hsp : HSt.writeMessage X.S.crypto (fun n => Classical.choose (hg (rnd (n + later s st))).1)
        (fun n => Classical.choose (hg (rnd (n + later s st))).2) st (pl.getD []) with
      | stuck => intro key; exact key.elim
      | fail =>
        rintro ⟨e, s1, b1, k1, k2, _⟩
        rw [hw] at k1; cases k1; exact absurd rfl k2
      | ok x =>
        obtain ⟨st', hdr, ct⟩ := x
        intro key
        by_cases hf : hdr.length + ct.length ≤ mem.length ∧ ct.length ≤ 65535
        · obtain ⟨s1, k1, k2, k3, _⟩ := key.1 hf
          rw [hw] at k1
          cases k1
          obtain ⟨m, items, i1, i2, i3, i4⟩ := HSt.writeMessage_chain hsp
          refine ⟨st', m, items, k2, fun rnd => ?_, i1, ?_, i3, i4⟩
          · rw [k3.fe, k3.fh]; exact hg rnd
          · rw [i2]; simp only [Buf.bytes]; rw [List.take_left' (by simp)]
        · obtain ⟨e, s1, b1, k1, k2, _⟩ := key.2 hf
          rw [hw] at k1; cases k1; exact absurd rfl k2
    · rw [if_neg he] at hm; cases hm
  | read junk msg pl =>
    simp only [message] at hm
    rw [Out.bind_eq_ok] at hm
    obtain ⟨⟨e, s1, b, p⟩, hw, hm⟩ := hm
    by_cases he : e = .none
    · subst he
      simp only [if_true, Out.pure_eq, Out.ok.injEq, Option.some.injEq, Prod.mk.injEq] at hm
      obtain ⟨rfl, rfl⟩ := hm
      have ha : msg.size ≤ msg.maxSize ∧ s.action = .read := by
        unfold readMessage at hw
        split at hw
        · cases hw
        split at hw
        · cases hw
        next h1 h2 => exact ⟨by omega, by simpa using h2⟩
      have key := C13_read R junk s st h ha.2 msg ha.1 pl
      revert key
      cases hsp : HSt.readMessage X.S.crypto st msg.bytes with
      | stuck => intro key; exact key.elim
      | fail =>
        rintro ⟨e, s1, b1, k1, k2, _⟩
        rw [hw] at k1; cases k1; exact absurd rfl k2
      | ok x =>
        obtain ⟨st', ct, pt⟩ := x
        intro key
        by_cases hf : ct.length ≤ 65535 ∧ (∀ p, pl = some p → pt.length ≤ p.length)
        · obtain ⟨s1, k1, k2, k3, _⟩ := key.1 hf
          rw [hw] at k1
          cases k1
          obtain ⟨m, items, i1, i2, i3, i4⟩ := HSt.readMessage_chain hsp
          refine ⟨st', m, items, k2, fun rnd => ?_, i1, i2, i3, i4⟩
          rw [k3.fe, k3.fh]; exact hg rnd
        · obtain ⟨e, s1, b1, k1, k2, _⟩ := key.2 hf
          rw [hw] at k1; cases k1; exact absurd rfl k2
    · rw [if_neg he] at hm; cases hm

theorem session_chain {R : Real X P Q} : ∀ (cs : List MsgCall) {s s' : X.H} {st : HSt P Q} {ws : List Bytes},
    Follows R s st → CanGenerate R s → session X.S.CB cs s = .ok (some (s', ws)) →
    ∃ (st' : HSt P Q) (chunks : List (List Bytes)), Follows R s' st' ∧ chunks.map List.flatten = ws ∧
      st'.sym.h = chain X.S.crypto st.sym.h chunks.flatten ∧
      ∃ done, st.msgs = done ++ st'.msgs ∧ chunks.map List.length = done.map HSt.msgItems := by
  intro cs
  induction cs with
  | nil => intro s s' st ws h _ hm; cases hm; exact ⟨st, [], h, rfl, rfl, [], rfl, rfl⟩
  | cons c cs ih =>
    intro s s' st ws h hg hm
    simp only [session] at hm
    rw [Out.bind_eq_ok] at hm
    obtain ⟨o, h1, hm⟩ := hm
    cases o with
    | none => cases hm
    | some x =>
      obtain ⟨s1, w⟩ := x
      dsimp only at hm
      rw [Out.bind_eq_ok] at hm
      obtain ⟨o, h2, hm⟩ := hm
      cases o with
      | none => cases hm
      | some y =>
        obtain ⟨s2, ws'⟩ := y
        simp only [Out.pure_eq, Out.ok.injEq, Option.some.injEq, Prod.mk.injEq] at hm
        obtain ⟨rfl, rfl⟩ := hm
        obtain ⟨st1, m, items, a1, a2, a3, a4, a5, a6⟩ := message_chain h hg h1
        obtain ⟨st2, chunks, b1, b2, b3, done, b4, b5⟩ := ih a1 a2 h2
        refine ⟨st2, items :: chunks, b1, by simp [a4, b2], ?_, m :: done, by rw [a3, b4]; rfl, by
          simp [a5, b5]⟩
        rw [b3, a6, List.flatten_cons, Spec.chain_append]

/-- The static public key of party `r` as the object knows it. -/
def staticOf (s : X.H) (r : Role) : Option Bytes := if r = s.role then pubOf s.ls else pubOf s.rs

end HS

/-- Lists of lists with the same lengths and the same concatenation are equal. -/
theorem flatten_inj {α : Type} : ∀ (xs ys : List (List α)), xs.map List.length = ys.map List.length →
    xs.flatten = ys.flatten → xs = ys := by
  intro xs
  induction xs with
  | nil => intro ys h _; cases ys with
    | nil => rfl
    | cons y ys => simp at h
  | cons x xs ih =>
    intro ys h hf
    cases ys with
    | nil => simp at h
    | cons y ys =>
      simp only [List.map_cons, List.cons.injEq] at h
      simp only [List.flatten_cons] at hf
      obtain ⟨e1, e2⟩ := List.append_inj hf h.1
      rw [e1, ih ys h.2 e2]

theorem name_no_nul {name : Bytes} {id : ProtocolId} (h : protocolNameToId name = (.none, id)) :
    ∀ x ∈ name, x ≠ 0 := by
  obtain ⟨m, _, h2⟩ := C28_name_to_id_to_name name (List.replicate (name.length + 1) 0) id h (by simp)
  intro x hx
  rw [← h2] at hx
  have key : ∀ l : Bytes, x ∈ l.takeWhile (· ≠ 0) → x ≠ 0 := by
    intro l
    induction l with
    | nil => intro h; cases h
    | cons y l ih =>
      intro h
      rw [List.takeWhile_cons] at h
      split at h
      · next hy =>
        rcases List.mem_cons.1 h with rfl | h
        · simpa using hy
        · exact ih h
      · cases h
  exact key m hx

theorem pad_inj : ∀ (a b : Bytes) (m n : Nat), (∀ x ∈ a, x ≠ 0) → (∀ x ∈ b, x ≠ 0) →
    a ++ List.replicate m 0 = b ++ List.replicate n 0 → a = b := by
  intro a
  induction a with
  | nil =>
    intro b m n _ hb h
    cases b with
    | nil => rfl
    | cons y b =>
      cases m with
      | zero => simp at h
      | succ m =>
        simp only [List.nil_append, List.replicate_succ, List.cons_append, List.cons.injEq] at h
        exact absurd h.1.symm (hb y (by simp))
  | cons x a ih =>
    intro b m n ha hb h
    cases b with
    | nil =>
      cases n with
      | zero => simp at h
      | succ n =>
        simp only [List.nil_append, List.replicate_succ, List.cons_append, List.cons.injEq] at h
        exact absurd h.1 (ha x (by simp))
    | cons y b =>
      simp only [List.cons_append, List.cons.injEq] at h
      rw [h.1, ih b m n (fun z hz => ha z (by simp [hz])) (fun z hz => hb z (by simp [hz])) h.2]

/-- All inputs a party gives to the hash function for the handshake hash: the protocol name if it is
long, and then every input of the chain. -/
def hashInputs (C : Spec.Crypto) (name : Bytes) (items : List Bytes) : List Bytes :=
  (if name.length ≤ C.hashLen then [] else [name]) ++
    chainInputs C (Spec.initializeSymmetric C name).h items

/-- A digest computed by the one party is the padded short name the other party starts from. -/
def HitsName (C : Spec.Crypto) (inputs : List Bytes) (name : Bytes) : Prop :=
  name.length ≤ C.hashLen ∧
    ∃ a ∈ inputs, C.HASH a = name ++ List.replicate (C.hashLen - name.length) 0

/-- A digest computed by the one party is the beginning of the other party's long name. -/
def HitsLongName (C : Spec.Crypto) (inputs : List Bytes) (name : Bytes) : Prop :=
  C.hashLen < name.length ∧ ∃ a ∈ inputs, C.HASH a = name.take C.hashLen

/-! ## Protocol names are not prefixes of each other -/

theorem idToName_no_sep {cat id : Int} {n : Bytes} (h : idToName cat id = some n) : (95 : UInt8) ∉ n :=
  fun hm => (idToName_clean h 95 hm).1 rfl

theorem split_at {c : UInt8} : ∀ (a b r t : Bytes), c ∉ a → c ∉ b → a ++ c :: r = b ++ c :: t →
    a = b ∧ r = t := by
  intro a
  induction a with
  | nil =>
    intro b r t _ hb h
    cases b with
    | nil => simpa using h
    | cons y b => simp at h; simp [h.1] at hb
  | cons x a ih =>
    intro b r t ha hb h
    cases b with
    | nil => simp at h; simp [h.1] at ha
    | cons y b =>
      simp only [List.cons_append, List.cons.injEq] at h
      obtain ⟨h1, h2⟩ := ih b r t (by simp at ha; exact ha.2) (by simp at hb; exact hb.2) h.2
      exact ⟨by rw [h.1, h1], h2⟩

/-- The five fields of a name. -/
theorem name_fields {name : Bytes} {id : ProtocolId} (h : protocolNameToId name = (.none, id)) :
    ∃ pre pat mid ci ha, (95 : UInt8) ∉ pre ∧ (95 : UInt8) ∉ pat ∧ (95 : UInt8) ∉ mid ∧ (95 : UInt8) ∉ ci ∧
      idToName catHash id.hashId = some ha ∧
      name = pre ++ 95 :: (pat ++ 95 :: (mid ++ 95 :: (ci ++ 95 :: ha))) := by
  obtain ⟨⟨pre, pat, dh, ci, ha, h1, h2, h3, h4, h5, h6⟩, _⟩ := isNameOf_of_parse h
  rcases h6 with ⟨_, h6⟩ | ⟨_, hy, h7, h6⟩
  · exact ⟨pre, pat, dh, ci, ha, idToName_no_sep h1, idToName_no_sep h2, idToName_no_sep h3,
      idToName_no_sep h4, h5, h6⟩
  · exact ⟨pre, pat, dh ++ 43 :: hy, ci, ha, idToName_no_sep h1, idToName_no_sep h2, by
      simp [idToName_no_sep h3, idToName_no_sep h7], idToName_no_sep h4, h5, by rw [h6]; simp⟩

/-- No protocol name is the beginning of another one. -/
theorem name_prefix {n1 n2 t : Bytes} {i1 i2 : ProtocolId} (h1 : protocolNameToId n1 = (.none, i1))
    (h2 : protocolNameToId n2 = (.none, i2)) (h : n2 = n1 ++ t) : n1 = n2 := by
  obtain ⟨a1, a2, a3, a4, a5, k1, k2, k3, k4, k5, k6⟩ := name_fields h1
  obtain ⟨b1, b2, b3, b4, b5, j1, j2, j3, j4, j5, j6⟩ := name_fields h2
  rw [k6, j6] at h
  simp only [List.append_assoc, List.cons_append] at h
  obtain ⟨e1, h⟩ := split_at _ _ _ _ j1 k1 h
  obtain ⟨e2, h⟩ := split_at _ _ _ _ j2 k2 h
  obtain ⟨e3, h⟩ := split_at _ _ _ _ j3 k3 h
  obtain ⟨e4, h⟩ := split_at _ _ _ _ j4 k4 h
  have key : ∀ x ∈ algorithmNames, ∀ y ∈ algorithmNames, x.inCategory catHash = true →
      y.inCategory catHash = true → x.name.isPrefixOf y.name = true → x.name = y.name := by
    decide +kernel
  have mem : ∀ {id : Int} {n : Bytes}, idToName catHash id = some n → ∃ m ∈ algorithmNames,
      m.inCategory catHash = true ∧ m.name = n := by
    intro id n hn
    unfold idToName at hn
    split at hn
    · cases hn
    · split at hn
      · next m hm =>
        cases hn
        have := List.find?_some hm
        simp only [Bool.and_eq_true] at this
        exact ⟨m, List.mem_of_find?_eq_some hm, this.1, rfl⟩
      · cases hn
  obtain ⟨m1, q1, q2, q3⟩ := mem k5
  obtain ⟨m2, r1, r2, r3⟩ := mem j5
  have := key m1 q1 m2 r1 q2 r2 (by rw [q3, r3, h]; simp)
  rw [k6, j6, e1, e2, e3, e4, ← q3, ← r3, this]

/-! ## C14 -/

theorem chainInputs_parts (C : Spec.Crypto) : ∀ (xs : List Bytes) (h a : Bytes), a ∈ chainInputs C h xs →
    ∃ g x, a = g ++ x ∧ (g = h ∨ ∃ b ∈ chainInputs C h xs, C.HASH b = g) := by
  intro xs
  induction xs with
  | nil => intro h a ha; cases ha
  | cons x xs ih =>
    intro h a ha
    simp only [chainInputs, List.mem_cons] at ha
    rcases ha with rfl | ha
    · exact ⟨h, x, rfl, .inl rfl⟩
    · obtain ⟨g, y, e, hg⟩ := ih _ _ ha
      refine ⟨g, y, e, .inr ?_⟩
      rcases hg with rfl | ⟨b, hb, hbg⟩
      · exact ⟨h ++ x, by simp [chainInputs], rfl⟩
      · exact ⟨b, by simp [chainInputs, hb], hbg⟩

/-- The events that break the binding. -/
def Broken (C : Spec.Crypto) (n1 n2 : Bytes) (items1 items2 : List Bytes) : Prop :=
  Collide C (hashInputs C n1 items1) (hashInputs C n2 items2) ∨
  HitsName C (hashInputs C n1 items1) n2 ∨ HitsName C (hashInputs C n2 items2) n1 ∨
  HitsLongName C (hashInputs C n1 items1) n2 ∨ HitsLongName C (hashInputs C n2 items2) n1

theorem Broken.symm {C : Spec.Crypto} {n1 n2 : Bytes} {items1 items2 : List Bytes}
    (h : Broken C n1 n2 items1 items2) : Broken C n2 n1 items2 items1 := by
  rcases h with ⟨a, ha, b, hb, h1, h2⟩ | h | h | h | h
  · exact .inl ⟨b, hb, a, ha, Ne.symm h1, h2.symm⟩
  · exact .inr (.inr (.inl h))
  · exact .inr (.inl h)
  · exact .inr (.inr (.inr (.inr h)))
  · exact .inr (.inr (.inr (.inl h)))

theorem start_hit {C : Spec.Crypto} (hC : ∀ x, (C.HASH x).length = C.hashLen) {n1 n2 : Bytes}
    {i1 i2 : ProtocolId} (h1 : protocolNameToId n1 = (.none, i1)) (h2 : protocolNameToId n2 = (.none, i2))
    (items1 items2 : List Bytes) {a : Bytes}
    (ha : a ∈ chainInputs C (Spec.initializeSymmetric C n1).h items1)
    (he : C.HASH a = (Spec.initializeSymmetric C n2).h) : Broken C n1 n2 items1 items2 := by
  have hmem : a ∈ hashInputs C n1 items1 := by simp [hashInputs, ha]
  by_cases hl2 : n2.length ≤ C.hashLen
  · refine .inr (.inl ⟨hl2, a, hmem, ?_⟩)
    rw [he]; simp [Spec.initializeSymmetric, hl2]
  have he' : C.HASH a = C.HASH n2 := by rw [he]; simp [Spec.initializeSymmetric, hl2]
  by_cases hne : a = n2
  · obtain ⟨g, x, e, hg⟩ := chainInputs_parts C _ _ _ ha
    have hlong : ∀ b ∈ hashInputs C n1 items1, C.HASH b = g → Broken C n1 n2 items1 items2 := by
      intro b hb hbg
      refine .inr (.inr (.inr (.inl ⟨by omega, b, hb, ?_⟩)))
      rw [hbg, ← hne, e, List.take_left' (by rw [← hbg]; exact hC _)]
    rcases hg with rfl | ⟨b, hb, hbg⟩
    · by_cases hl1 : n1.length ≤ C.hashLen
      · simp only [Spec.initializeSymmetric, hl1, if_true] at e
        have hz := name_no_nul h2
        have : C.hashLen - n1.length = 0 := by
          rcases Nat.eq_zero_or_pos (C.hashLen - n1.length) with h0 | h0
          · exact h0
          · exact absurd rfl (hz 0 (by
              rw [← hne, e]
              simp only [List.mem_append, List.mem_replicate]
              exact .inl (.inr ⟨by omega, trivial⟩)))
        rw [this] at e
        simp only [List.replicate_zero, List.append_nil] at e
        have := name_prefix h1 h2 (t := x) (by rw [← hne, e])
        rw [this] at hl1
        omega
      · exact hlong n1 (by simp [hashInputs, hl1]) (by simp [Spec.initializeSymmetric, hl1])
    · exact hlong b (by simp [hashInputs, hb]) hbg
  · exact .inl ⟨a, hmem, n2, by simp [hashInputs, hl2], hne, he'⟩

/-- Two hash chains from protocol names. -/
theorem names_chain {C : Spec.Crypto} (hC : ∀ x, (C.HASH x).length = C.hashLen) {n1 n2 : Bytes}
    {i1 i2 : ProtocolId} (h1 : protocolNameToId n1 = (.none, i1)) (h2 : protocolNameToId n2 = (.none, i2))
    {items1 items2 : List Bytes} (he : chain C (Spec.initializeSymmetric C n1).h items1 =
      chain C (Spec.initializeSymmetric C n2).h items2) :
    (n1 = n2 ∧ items1 = items2) ∨ Broken C n1 n2 items1 items2 := by
  have hlen : ∀ n : Bytes, (Spec.initializeSymmetric C n).h.length = C.hashLen := by
    intro n
    simp only [Spec.initializeSymmetric]
    split
    · simp; omega
    · exact hC _
  rcases Spec.chain_inj hC _ items1 items2 _ _ rfl (hlen n1) (hlen n2) he with
    ⟨k1, k2⟩ | k | ⟨a, k1, k2⟩ | ⟨b, k1, k2⟩
  · by_cases l1 : n1.length ≤ C.hashLen
    · by_cases l2 : n2.length ≤ C.hashLen
      · simp only [Spec.initializeSymmetric, l1, l2, if_true] at k1
        exact .inl ⟨pad_inj _ _ _ _ (name_no_nul h1) (name_no_nul h2) k1, k2⟩
      · refine .inr (.inr (.inr (.inl ⟨l1, n2, by simp [hashInputs, l2], ?_⟩)))
        simp only [Spec.initializeSymmetric, l1, l2, if_true, if_false] at k1
        exact k1.symm
    · by_cases l2 : n2.length ≤ C.hashLen
      · refine .inr (.inr (.inl ⟨l2, n1, by simp [hashInputs, l1], ?_⟩))
        simp only [Spec.initializeSymmetric, l1, l2, if_true, if_false] at k1
        exact k1
      · simp only [Spec.initializeSymmetric, l1, l2, if_false] at k1
        by_cases hn : n1 = n2
        · exact .inl ⟨hn, k2⟩
        · exact .inr (.inl ⟨n1, by simp [hashInputs, l1], n2, by simp [hashInputs, l2], hn, k1⟩)
  · exact .inr (.inl (k.mono (fun x hx => by simp [hashInputs, hx]) (fun x hx => by simp [hashInputs, hx])))
  · exact .inr (start_hit hC h1 h2 items1 items2 k1 k2)
  · exact .inr (start_hit hC h2 h1 items2 items1 k1 k2).symm

/-- The complete transcript of a session of the object `s`, as the items that were hashed: the prologue,
what is derived from the pre-shared key, the static keys known beforehand, and then for each message its
public keys and its payload as they appear on the wire. -/
structure Transcript (X : Setup) (s : X.H) (p : Spec.Pattern) (name : Bytes) (ws : List Bytes)
    (items : List Bytes) : Prop where
  parts : ∃ (ki kr : List Bytes) (chunks : List (List Bytes)),
    items = s.prologue :: (HSt.pskItem X.S.crypto name s.prologue
      (if s.sym.id.prefixId = prefixPsk then some s.psk else none) ++ ki ++ kr) ++ chunks.flatten ∧
    (p.preI = [] → ki = []) ∧ (p.preI ≠ [] → ki.map some = [s.staticOf .initiator]) ∧
    (p.preR = [] → kr = []) ∧ (p.preR ≠ [] → kr.map some = [s.staticOf .responder]) ∧
    chunks.map List.flatten = ws ∧ chunks.map List.length = p.msgs.map HSt.msgItems

namespace HS
variable {X : Setup} {P Q : Spec.DH}

/-- A completed session has a transcript, and the handshake hash is the chain of hashes over it,
beginning with the protocol name. -/
theorem session_transcript (R : Real X P Q) (hK : KeysGenuine R) (s s1 s2 : X.H) (h : SetUp X s)
    (p : Spec.Pattern) (hp : specPattern s.sym.id.patternId = some p) (he : p.preKey .responder .e = false)
    (hs : s.start X.S.CB = .ok (.none, s1)) (hg : CanGenerate R s) (cs : List MsgCall) (ws : List Bytes)
    (hr : session X.S.CB cs s1 = .ok (some (s2, ws))) (ha : s2.action = .split) :
    ∃ name items, protocolNameToId name = (.none, s.sym.id) ∧ Transcript X s p name ws items ∧
      s2.sym.h = chain X.S.crypto (Spec.initializeSymmetric X.S.crypto name).h items := by
  have hi := h.idle
  obtain ⟨name, n1, n2⟩ := hi.named
  obtain ⟨own, ho⟩ := hK.own hi
  obtain ⟨st, k1, k2, kf, k3, kr, k4, ks, _, _, _, _, _, kk⟩ := hi.follows n2 hp he ho hs
  obtain ⟨ki, kr', i1, i2, _, i4⟩ := HSt.initState_chain k1
  obtain ⟨st', chunks, c1, c2, c3, done, c4, c5⟩ := session_chain cs k2
    (fun rnd => by rw [kf.fe, kf.fh]; exact hg rnd) hr
  have hmsgs : st'.msgs = [] := by
    by_cases hm : st'.msgs = []
    · exact hm
    · obtain ⟨w, w1, _⟩ := c1.turn hm
      rw [ha] at w1
      cases w <;> cases w1
  rw [hmsgs, List.append_nil, k3] at c4
  -- only static keys are pre-messages
  obtain ⟨t, fl, t1, t2, t3, t4⟩ := hi.tokens
  have hshape := preShape_table t1 hp t2
  simp only [preShape, Bool.and_eq_true, decide_eq_true_eq] at hshape
  obtain ⟨⟨⟨sI, sR⟩, sF⟩, sE⟩ := hshape
  have hRf : p.preKey .responder .f = false := by
    cases hx : p.preKey .responder .f with
    | false => rfl
    | true => rw [hx, he] at sF; simp at sF
  rw [he, hRf] at sR
  have hstat : ∀ r, p.preKey r .s = true →
      HSt.preMsgKey (startKeys (P := P) (Q := Q) s own) r .s = s.staticOf r := by
    intro r hx
    simp only [HSt.preMsgKey, startKeys, staticOf]
    by_cases hrl : r = s.role
    · simp only [hrl, if_true]
      have := kk.own .s rfl (by rw [kr, mem_known, ← hrl]; exact hx)
      simp only [HSt.ownPub, ks, Option.isSome_map] at this
      exact (ho.pubOf hi.inv.sound this).symm
    · simp only [hrl, if_false]
  refine ⟨name, _, n1, ⟨ki, kr', chunks, rfl, ?_, ?_, ?_, ?_, c2, by rw [c5, c4]⟩, ?_⟩
  · intro h0; rw [h0] at i1; simpa using i1.symm
  · intro h0
    cases hx : p.preKey .initiator .s with
    | false => rw [hx] at sI; simp at sI; exact absurd sI h0
    | true =>
      rw [hx] at sI
      simp at sI
      rw [sI] at i1
      simp only [List.map_cons, List.map_nil] at i1
      rw [← i1, hstat .initiator hx]
  · intro h0; rw [h0] at i2; simpa using i2.symm
  · intro h0
    cases hx : p.preKey .responder .s with
    | false => rw [hx] at sR; simp at sR; exact absurd sR h0
    | true =>
      rw [hx] at sR
      simp at sR
      rw [sR] at i2
      simp only [List.map_cons, List.map_nil] at i2
      rw [← i2, hstat .responder hx]
  · have hh := c1.rel.sym.2.2
    rw [hh, c3, i4, Spec.chain_append]

/-- C14: two parties that complete a handshake (of any pattern except the fallback ones) with the same
handshake hash were created for the same protocol, had the same prologue, agree on the static keys known
beforehand and on whatever was derived from the pre-shared key, and saw exactly the same messages;
unless (`Broken`) two different inputs that they gave to the hash function collide, or a digest one of
them computed happens to be the text of a protocol name. -/
theorem C14_transcript_binding (R : Real X P Q) (hK : KeysGenuine R) (a b a1 b1 a2 b2 : X.H)
    (ha : SetUp X a) (hb : SetUp X b) (pa pb : Spec.Pattern)
    (hpa : specPattern a.sym.id.patternId = some pa) (hpb : specPattern b.sym.id.patternId = some pb)
    (hea : pa.preKey .responder .e = false) (heb : pb.preKey .responder .e = false)
    (hsa : a.start X.S.CB = .ok (.none, a1)) (hsb : b.start X.S.CB = .ok (.none, b1))
    (hga : CanGenerate R a) (hgb : CanGenerate R b) (csa csb : List MsgCall) (wa wb : List Bytes)
    (hra : session X.S.CB csa a1 = .ok (some (a2, wa))) (hrb : session X.S.CB csb b1 = .ok (some (b2, wb)))
    (hca : a2.action = .split) (hcb : b2.action = .split) (heq : a2.sym.h = b2.sym.h) :
    ∃ na nb ia ib, protocolNameToId na = (.none, a.sym.id) ∧ protocolNameToId nb = (.none, b.sym.id) ∧
      Transcript X a pa na wa ia ∧ Transcript X b pb nb wb ib ∧
      (Broken X.S.crypto na nb ia ib ∨
        (ia = ib ∧ a.sym.id = b.sym.id ∧ a.prologue = b.prologue ∧ wa = wb ∧
          (pa.preI ≠ [] → a.staticOf .initiator = b.staticOf .initiator) ∧
          (pa.preR ≠ [] → a.staticOf .responder = b.staticOf .responder) ∧
          HSt.pskItem X.S.crypto na a.prologue (if a.sym.id.prefixId = prefixPsk then some a.psk else none) =
          HSt.pskItem X.S.crypto nb b.prologue (if b.sym.id.prefixId = prefixPsk then some b.psk else none))) := by
  obtain ⟨na, ia, x1, x2, x3⟩ := session_transcript R hK a a1 a2 ha pa hpa hea hsa hga csa wa hra hca
  obtain ⟨nb, ib, y1, y2, y3⟩ := session_transcript R hK b b1 b2 hb pb hpb heb hsb hgb csb wb hrb hcb
  refine ⟨na, nb, ia, ib, x1, y1, x2, y2, ?_⟩
  rcases names_chain (C := X.S.crypto) (fun x => X.S.hl.length x) x1 y1 (by rw [← x3, ← y3, heq]) with
    ⟨k1, k2⟩ | k
  · right
    have hid : a.sym.id = b.sym.id := by
      rw [k1, y1] at x1
      exact (Prod.mk.inj x1).2.symm
    have hpp : pa = pb := by
      rw [hid, hpb] at hpa; cases hpa; rfl
    subst hpp
    obtain ⟨ki, kr, ch, e1, e2, e3, e4, e5, e6, e7⟩ := x2
    obtain ⟨ki', kr', ch', f1, f2, f3, f4, f5, f6, f7⟩ := y2
    have hkl : ki.length = ki'.length := by
      by_cases h0 : pa.preI = []
      · rw [e2 h0, f2 h0]
      · have a1 := congrArg List.length (e3 h0)
        have a2 := congrArg List.length (f3 h0)
        simp only [List.length_map] at a1 a2
        rw [a1, a2]; rfl
    have hkr : kr.length = kr'.length := by
      by_cases h0 : pa.preR = []
      · rw [e4 h0, f4 h0]
      · have a1 := congrArg List.length (e5 h0)
        have a2 := congrArg List.length (f5 h0)
        simp only [List.length_map] at a1 a2
        rw [a1, a2]; rfl
    have hpl : ∀ (n pr : Bytes) (o : Option Bytes), (HSt.pskItem X.S.crypto n pr o).length =
        o.isSome.toNat := by
      intro n pr o; cases o <;> rfl
    have hitems := k2
    rw [e1, f1] at k2
    simp only [List.cons_append, List.cons.injEq] at k2
    obtain ⟨p1, p2⟩ := k2
    rw [hid] at p2
    obtain ⟨q1, q2⟩ := List.append_inj p2 (by
      simp only [List.length_append, hpl, hkl, hkr]
      split <;> rfl)
    obtain ⟨q3, q4⟩ := List.append_inj' q1 hkr
    obtain ⟨q5, q6⟩ := List.append_inj' q3 hkl
    have q7 := flatten_inj ch ch' (by rw [e7, f7]) q2
    refine ⟨hitems, hid, p1, by rw [← e6, ← f6, q7], ?_, ?_, by rw [hid]; exact q5⟩
    · intro h0
      have a1 := e3 h0
      have a2 := f3 h0
      rw [q6, a2] at a1
      simpa using a1.symm
    · intro h0
      have a1 := e5 h0
      have a2 := f5 h0
      rw [q4, a2] at a1
      simpa using a1.symm
  · exact .inl k

end HS

/-- Everything C14 assumes about two XX sessions (apart from `SetUp`, see `meetMake_setUp`), and the
conclusion, as a check. -/
def bindCheck (iops rops : List (HOp meetSetup.D meetSetup.G)) : Bool :=
  let name := "Noise_XX_25519_ChaChaPoly_BLAKE2s"
  let rnd : Nat → Nat → Nat → UInt8 := fun i a b => UInt8.ofNat (i * 37 + a * 11 + b * 5 + 3)
  let wr (i : Nat) : MsgCall := .write (rnd i) (fun _ _ => 9) (List.replicate 60 1) (some [UInt8.ofNat i, 7])
  let rd (w : Bytes) : MsgCall := .read (fun _ _ => 8) ⟨w, w.length⟩ (some (List.replicate 9 2))
  match meetMake name .initiator iops, meetMake name .responder rops with
  | some (_, _, i), some (_, _, r) =>
    match i.start meetSetup.S.CB, r.start meetSetup.S.CB with
    | .ok (.none, i1), .ok (.none, r1) =>
      -- let the parties talk, to learn the messages
      match i1.message meetSetup.S.CB (wr 0) with
      | .ok (some (i2, w0)) =>
        match HS.session meetSetup.S.CB [rd w0, wr 1] r1 with
        | .ok (some (_, [_, w1])) =>
          match HS.session meetSetup.S.CB [rd w1, wr 2] i2 with
          | .ok (some (_, [_, w2])) =>
            -- the two complete sessions
            match HS.session meetSetup.S.CB [wr 0, rd w1, wr 2] i1,
              HS.session meetSetup.S.CB [rd w0, wr 1, rd w2] r1 with
            | .ok (some (i3, wi)), .ok (some (r3, wr)) =>
              decide (i3.action = .split ∧ r3.action = .split ∧ i3.sym.h = r3.sym.h ∧ wi = wr ∧
                wi = [w0, w1, w2] ∧ i.fe.isNone ∧ i.fh.isNone ∧ r.fe.isNone ∧ r.fh.isNone)
            | _, _ => false
          | _ => false
        | _ => false
      | _ => false
    | _, _ => false
  | _, _ => false

/-- Two sessions that meet the hypotheses of C14. -/
example : bindCheck [.localStatic (.setKeypairPrivate [3, 4]), .setPrologue [1, 2, 3]]
    [.setPrologue [1, 2, 3], .localStatic (.setKeypairPrivate [6, 9])] = true := by decide +kernel

/-- An object that generates its ephemeral keys at random meets `CanGenerate`. -/
example (s : meetSetup.H) (h1 : s.fe = none) (h2 : s.fh = none) :
    HS.CanGenerate (curveReal toySuite toyCurve toyCurve2 toyCurve_sized
      ⟨toyCurve_sized.eval_len, toyCurve_sized.clamp_len⟩ (by decide) (by decide)) s :=
  fun _ => ⟨⟨_, by rw [h1]; rfl⟩, _, by rw [h2]; rfl⟩

/-- No collision and no name hit: for a hash function that keeps its whole input apart, the second
alternative of C14 is the one that holds. Here two different items give different chains. -/
example : Spec.chain { toySuite.crypto with HASH := fun x => [UInt8.ofNat (x.foldl (fun a b => a * 7 + b.toNat) 1)] }
    [1] [[2], [3]] ≠ Spec.chain { toySuite.crypto with HASH := fun x => [UInt8.ofNat (x.foldl (fun a b => a * 7 + b.toNat) 1)] }
    [1] [[2, 3], []] := by decide

end Noise
