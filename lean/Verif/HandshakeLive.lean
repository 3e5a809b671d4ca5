import Verif.HandshakeAgree
/-!
# The specification's steps are defined

About the specification alone: along a pattern that obeys the pattern rules of C17, no step needs a key
variable that is empty, whatever the other party sends.
-/

namespace Noise.Spec.HSt

variable {P Q : DH} {C : Crypto}

/-- The party has the keys of the events `known`, and no hybrid key of its own or of the other party
that is not among them. -/
structure Knows (st : HSt P Q) (known : List Event) : Prop where
  own : ∀ t, t.isKey = true → (st.role, t) ∈ known → (st.ownPub t).isSome = true
  rem : ∀ t, t.isKey = true → (st.role.flip, t) ∈ known → (st.remPub t).isSome = true
  f : (st.role, Tok.f) ∉ known → st.f = none
  rf : (st.role.flip, Tok.f) ∉ known → st.rf = none

theorem Knows.congr {st st' : HSt P Q} {known : List Event} (h : st.Knows known) (h0 : st'.role = st.role)
    (h1 : st'.s = st.s) (h2 : st'.e = st.e) (h3 : st'.f = st.f) (h4 : st'.rs = st.rs) (h5 : st'.re = st.re)
    (h6 : st'.rf = st.rf) : st'.Knows known where
  own := fun t ht hm => by
    have := h.own t ht (h0 ▸ hm)
    cases t <;> simp_all [ownPub]
  rem := fun t ht hm => by
    have := h.rem t ht (h0 ▸ hm)
    cases t <;> simp_all [remPub]
  f := fun hm => by rw [h3]; exact h.f (by rw [← h0]; exact hm)
  rf := fun hm => by rw [h6]; exact h.rf (by rw [← h0]; exact hm)

theorem Knows.dhTok {st : HSt P Q} {known : List Event} (h : st.Knows known) (t : Tok) (hk : t.isKey = false)
    (hn : ∀ y ∈ needs t, y ∈ known) : HSt.dhTok C t st ≠ .stuck ∧
    ∀ st', HSt.dhTok C t st = .ok st' → ∃ sym, st' = { st with sym := sym } := by
  refine ⟨?_, ?_⟩
  · have main : ∀ (D : DH) (k : Option D.KP) (pb : Option Bytes), k.isSome = true → pb.isSome = true →
        mixDH C D st.sym k pb ≠ .stuck := by
      intro D k pb h1 h2
      obtain ⟨k, rfl⟩ := Option.isSome_iff_exists.mp h1
      obtain ⟨pb, rfl⟩ := Option.isSome_iff_exists.mp h2
      unfold mixDH
      dsimp only
      split <;> simp
    have hsym : dhSym C t st ≠ .stuck := by
      have key : ∀ (a b : Tok), a.isKey = true → b.isKey = true → (.initiator, a) ∈ known →
          (.responder, b) ∈ known →
          (st.role = .initiator ∧ (st.ownPub a).isSome = true ∧ (st.remPub b).isSome = true) ∨
          (st.role = .responder ∧ (st.ownPub b).isSome = true ∧ (st.remPub a).isSome = true) := by
        intro a b ha hb h1 h2
        cases hr : st.role with
        | initiator => exact .inl ⟨rfl, h.own a ha (hr ▸ h1), h.rem b hb (by rw [hr]; exact h2)⟩
        | responder => exact .inr ⟨rfl, h.own b hb (hr ▸ h2), h.rem a ha (by rw [hr]; exact h1)⟩
      cases t with
      | e => cases hk
      | s => cases hk
      | f => cases hk
      | ee =>
        have := key .e .e rfl rfl (hn _ (by simp [needs])) (hn _ (by simp [needs]))
        rcases this with ⟨hr, h1, h2⟩ | ⟨hr, h1, h2⟩ <;>
        · simp only [dhSym]
          exact main P _ _ (by simpa [ownPub] using h1) (by simpa [remPub] using h2)
      | es =>
        have := key .e .s rfl rfl (hn _ (by simp [needs])) (hn _ (by simp [needs]))
        rcases this with ⟨hr, h1, h2⟩ | ⟨hr, h1, h2⟩ <;>
        · simp only [dhSym, hr]
          exact main P _ _ (by simpa [ownPub] using h1) (by simpa [remPub] using h2)
      | se =>
        have := key .s .e rfl rfl (hn _ (by simp [needs])) (hn _ (by simp [needs]))
        rcases this with ⟨hr, h1, h2⟩ | ⟨hr, h1, h2⟩ <;>
        · simp only [dhSym, hr]
          exact main P _ _ (by simpa [ownPub] using h1) (by simpa [remPub] using h2)
      | ss =>
        have := key .s .s rfl rfl (hn _ (by simp [needs])) (hn _ (by simp [needs]))
        rcases this with ⟨hr, h1, h2⟩ | ⟨hr, h1, h2⟩ <;>
        · simp only [dhSym]
          exact main P _ _ (by simpa [ownPub] using h1) (by simpa [remPub] using h2)
      | ff =>
        have := key .f .f rfl rfl (hn _ (by simp [needs])) (hn _ (by simp [needs]))
        rcases this with ⟨hr, h1, h2⟩ | ⟨hr, h1, h2⟩ <;>
        · simp only [dhSym]
          exact main Q _ _ (by simpa [ownPub] using h1) (by simpa [remPub] using h2)
    unfold HSt.dhTok
    cases hd : dhSym C t st with
    | stuck => exact absurd hd hsym
    | ok _ => simp
    | fail => simp
  · intro st' h'
    unfold HSt.dhTok at h'
    cases hd : dhSym C t st with
    | ok sym => rw [hd] at h'; exact ⟨sym, by simpa using h'.symm⟩
    | fail => rw [hd] at h'; cases h'
    | stuck => rw [hd] at h'; cases h'

/-- What a message step leaves alone. -/
structure Kept (st st' : HSt P Q) : Prop where
  role : st'.role = st.role
  psk : st'.psk = st.psk
  s : st'.s = st.s
  msgs : st'.msgs = st.msgs

theorem Kept.refl (st : HSt P Q) : Kept st st := ⟨rfl, rfl, rfl, rfl⟩

theorem Kept.trans {a b c : HSt P Q} (h : Kept a b) (h' : Kept b c) : Kept a c :=
  ⟨h'.role.trans h.role, h'.psk.trans h.psk, h'.s.trans h.s, h'.msgs.trans h.msgs⟩

theorem Knows.writeTok {st : HSt P Q} {known : List Event} (h : st.Knows known)
    (ge : Option Bytes → P.KP) (gf : Option Bytes → Q.KP) (t : Tok)
    (hk : t.isKey = true → (st.role, t) ∉ known) (hn : ∀ y ∈ needs t, y ∈ known)
    (hs : t = .s → st.s.isSome = true) :
    HSt.writeTok C ge gf t st ≠ .stuck ∧ ∀ st' hdr, HSt.writeTok C ge gf t st = .ok (st', hdr) →
      st'.Knows (known ++ [(st.role, t)]) ∧ Kept st st' := by
  have hflip : st.role.flip ≠ st.role := Role.flip_ne _
  have dhcase : t.isKey = false → (∀ x, HSt.writeTok C ge gf t st = x → x = (match HSt.dhTok C t st with
      | .ok st' => .ok (st', [])
      | .fail => .fail
      | .stuck => .stuck)) → HSt.writeTok C ge gf t st ≠ .stuck ∧ ∀ st' hdr,
      HSt.writeTok C ge gf t st = .ok (st', hdr) →
      st'.Knows (known ++ [(st.role, t)]) ∧ Kept st st' := by
    intro hf he
    obtain ⟨d1, d2⟩ := h.dhTok (C := C) t hf hn
    rw [he _ rfl]
    cases hd : HSt.dhTok C t st with
    | stuck => exact absurd hd d1
    | fail => exact ⟨by simp, by simp⟩
    | ok st1 =>
      refine ⟨by simp, fun st' hdr hx => ?_⟩
      obtain ⟨sym, rfl⟩ := d2 _ hd
      simp only [Res.ok.injEq, Prod.mk.injEq] at hx
      obtain ⟨rfl, rfl⟩ := hx
      have key : ∀ (x : Role) (u : Tok), u.isKey = true →
          ((x, u) ∈ known ++ [(st.role, t)] ↔ (x, u) ∈ known) := by
        intro x u hu
        have : u ≠ t := by rintro rfl; rw [hf] at hu; cases hu
        simp [this]
      refine ⟨?_, rfl, rfl, rfl, rfl⟩
      have h' : ({ st with sym := sym } : HSt P Q).Knows known := h.congr rfl rfl rfl rfl rfl rfl rfl
      exact ⟨fun u hu hm => h'.own u hu ((key _ _ hu).mp hm), fun u hu hm => h'.rem u hu ((key _ _ hu).mp hm),
        fun hm => h'.f (fun hm' => hm ((key _ _ rfl).mpr hm')),
        fun hm => h'.rf (fun hm' => hm ((key _ _ rfl).mpr hm'))⟩
  have add : ∀ (st' : HSt P Q), st'.role = st.role → t.isKey = true → (st'.ownPub t).isSome = true →
      (∀ u, u ≠ t → st'.ownPub u = st.ownPub u) → (∀ u, st'.remPub u = st.remPub u) →
      (t ≠ .f → st'.f = st.f) → st'.rf = st.rf → st'.Knows (known ++ [(st.role, t)]) := by
    intro st' h0 _ h2 h3 h4 h5 h6
    refine ⟨fun u hu hm => ?_, fun u hu hm => ?_, fun hm => ?_, fun hm => ?_⟩
    · by_cases hut : u = t
      · rw [hut]; exact h2
      · rw [h3 u hut]
        exact h.own u hu (by simpa [h0, hut] using hm)
    · rw [h4 u]
      exact h.rem u hu (by simpa [h0, hflip] using hm)
    · have hm' : t ≠ .f := by rintro rfl; exact hm (by simp [h0])
      rw [h5 hm']
      exact h.f (fun hx => hm (by simp [h0, hx]))
    · rw [h6]
      exact h.rf (fun hx => hm (by simp [h0, hx]))
  cases t with
  | ee => exact dhcase rfl (fun x hx => hx.symm)
  | es => exact dhcase rfl (fun x hx => hx.symm)
  | se => exact dhcase rfl (fun x hx => hx.symm)
  | ss => exact dhcase rfl (fun x hx => hx.symm)
  | ff => exact dhcase rfl (fun x hx => hx.symm)
  | e =>
    refine ⟨by simp [HSt.writeTok], fun st' hdr hx => ?_⟩
    simp only [HSt.writeTok, Res.ok.injEq, Prod.mk.injEq] at hx
    obtain ⟨rfl, rfl⟩ := hx
    refine ⟨add _ rfl rfl rfl ?_ (fun u => by cases u <;> rfl) (fun _ => rfl) rfl, rfl, rfl, rfl, rfl⟩
    intro u hu
    cases u <;> first | rfl | exact absurd rfl hu
  | s =>
    obtain ⟨k, hsk⟩ := Option.isSome_iff_exists.mp (hs rfl)
    simp only [HSt.writeTok, hsk]
    cases he : st.sym.encryptAndHash C (P.pub k) with
    | none => exact ⟨by simp, by simp⟩
    | some r =>
      refine ⟨by simp, fun st' hdr hx => ?_⟩
      simp only [Res.ok.injEq, Prod.mk.injEq] at hx
      obtain ⟨rfl, rfl⟩ := hx
      refine ⟨add _ rfl rfl ?_ (fun u hu => by
          cases u <;> first | rfl | exact absurd rfl hu)
        (fun u => by cases u <;> rfl) (fun _ => rfl) rfl, rfl, rfl, hsk.symm, rfl⟩
      simp [ownPub]
  | f =>
    have hfn := h.f (hk rfl)
    simp only [HSt.writeTok, hfn, Option.isSome_none, Bool.false_eq_true, if_false]
    cases he : st.sym.encryptAndHash C (Q.pub (gf st.rf)) with
    | none => exact ⟨by simp, by simp⟩
    | some r =>
      refine ⟨by simp, fun st' hdr hx => ?_⟩
      simp only [Res.ok.injEq, Prod.mk.injEq] at hx
      obtain ⟨rfl, rfl⟩ := hx
      refine ⟨add _ rfl rfl rfl ?_ (fun u => by cases u <;> rfl) (fun hx => absurd rfl hx) rfl,
        rfl, rfl, rfl, rfl⟩
      intro u hu
      cases u <;> first | rfl | exact absurd rfl hu

theorem Knows.readTok {st : HSt P Q} {known : List Event} (h : st.Knows known) (t : Tok) (msg : Bytes)
    (hk : t.isKey = true → (st.role.flip, t) ∉ known) (hn : ∀ y ∈ needs t, y ∈ known) :
    HSt.readTok C t st msg ≠ .stuck ∧ ∀ st' rest, HSt.readTok C t st msg = .ok (st', rest) →
      st'.Knows (known ++ [(st.role.flip, t)]) ∧ Kept st st' := by
  have hflip : st.role ≠ st.role.flip := fun h => Role.flip_ne _ h.symm
  have dhcase : t.isKey = false → (∀ x, HSt.readTok C t st msg = x → x = (match HSt.dhTok C t st with
      | .ok st' => .ok (st', msg)
      | .fail => .fail
      | .stuck => .stuck)) → HSt.readTok C t st msg ≠ .stuck ∧ ∀ st' rest,
      HSt.readTok C t st msg = .ok (st', rest) →
      st'.Knows (known ++ [(st.role.flip, t)]) ∧ Kept st st' := by
    intro hf he
    obtain ⟨d1, d2⟩ := h.dhTok (C := C) t hf hn
    rw [he _ rfl]
    cases hd : HSt.dhTok C t st with
    | stuck => exact absurd hd d1
    | fail => exact ⟨by simp, by simp⟩
    | ok st1 =>
      refine ⟨by simp, fun st' hdr hx => ?_⟩
      obtain ⟨sym, rfl⟩ := d2 _ hd
      simp only [Res.ok.injEq, Prod.mk.injEq] at hx
      obtain ⟨rfl, rfl⟩ := hx
      have key : ∀ (x : Role) (u : Tok), u.isKey = true →
          ((x, u) ∈ known ++ [(st.role.flip, t)] ↔ (x, u) ∈ known) := by
        intro x u hu
        have : u ≠ t := by rintro rfl; rw [hf] at hu; cases hu
        simp [this]
      refine ⟨?_, rfl, rfl, rfl, rfl⟩
      have h' : ({ st with sym := sym } : HSt P Q).Knows known := h.congr rfl rfl rfl rfl rfl rfl rfl
      exact ⟨fun u hu hm => h'.own u hu ((key _ _ hu).mp hm), fun u hu hm => h'.rem u hu ((key _ _ hu).mp hm),
        fun hm => h'.f (fun hm' => hm ((key _ _ rfl).mpr hm')),
        fun hm => h'.rf (fun hm' => hm ((key _ _ rfl).mpr hm'))⟩
  have add : ∀ (st' : HSt P Q), st'.role = st.role → t.isKey = true → (st'.remPub t).isSome = true →
      (∀ u, u ≠ t → st'.remPub u = st.remPub u) → (∀ u, st'.ownPub u = st.ownPub u) →
      (t ≠ .f → st'.rf = st.rf) → st'.f = st.f → st'.Knows (known ++ [(st.role.flip, t)]) := by
    intro st' h0 _ h2 h3 h4 h5 h6
    refine ⟨fun u hu hm => ?_, fun u hu hm => ?_, fun hm => ?_, fun hm => ?_⟩
    · rw [h4 u]
      exact h.own u hu (by simpa [h0, hflip] using hm)
    · by_cases hut : u = t
      · rw [hut]; exact h2
      · rw [h3 u hut]
        exact h.rem u hu (by simpa [h0, hut] using hm)
    · rw [h6]
      exact h.f (fun hx => hm (by simp [h0, hx]))
    · have hm' : t ≠ .f := by rintro rfl; exact hm (by simp [h0])
      rw [h5 hm']
      exact h.rf (fun hx => hm (by simp [h0, hx]))
  cases t with
  | ee => exact dhcase rfl (fun x hx => hx.symm)
  | es => exact dhcase rfl (fun x hx => hx.symm)
  | se => exact dhcase rfl (fun x hx => hx.symm)
  | ss => exact dhcase rfl (fun x hx => hx.symm)
  | ff => exact dhcase rfl (fun x hx => hx.symm)
  | e =>
    simp only [HSt.readTok]
    split
    · exact ⟨by simp, by simp⟩
    split
    · exact ⟨by simp, by simp⟩
    refine ⟨by simp, fun st' hdr hx => ?_⟩
    simp only [Res.ok.injEq, Prod.mk.injEq] at hx
    obtain ⟨rfl, rfl⟩ := hx
    refine ⟨add _ rfl rfl rfl ?_ (fun u => by cases u <;> rfl) (fun _ => rfl) rfl, rfl, rfl, rfl, rfl⟩
    intro u hu
    cases u <;> first | rfl | exact absurd rfl hu
  | s =>
    simp only [HSt.readTok]
    generalize P.len false + (if st.sym.c.k.isSome = true then C.macLen else 0) = n
    split
    · exact ⟨by simp, by simp⟩
    split
    · exact ⟨by simp, by simp⟩
    refine ⟨by simp, fun st' hdr hx => ?_⟩
    simp only [Res.ok.injEq, Prod.mk.injEq] at hx
    obtain ⟨rfl, rfl⟩ := hx
    refine ⟨add _ rfl rfl rfl ?_ (fun u => by cases u <;> rfl) (fun _ => rfl) rfl, rfl, rfl, rfl, rfl⟩
    intro u hu
    cases u <;> first | rfl | exact absurd rfl hu
  | f =>
    have hfn := h.rf (hk rfl)
    simp only [HSt.readTok, hfn, Option.isSome_none, Bool.false_eq_true, if_false]
    generalize Q.len st.f.isSome + (if st.sym.c.k.isSome = true then C.macLen else 0) = n
    split
    · exact ⟨by simp, by simp⟩
    split
    · exact ⟨by simp, by simp⟩
    split
    · exact ⟨by simp, by simp⟩
    refine ⟨by simp, fun st' hdr hx => ?_⟩
    simp only [Res.ok.injEq, Prod.mk.injEq] at hx
    obtain ⟨rfl, rfl⟩ := hx
    refine ⟨add _ rfl rfl rfl ?_ (fun u => by cases u <;> rfl) (fun hx => absurd rfl hx) rfl,
      rfl, rfl, rfl, rfl⟩
    intro u hu
    cases u <;> first | rfl | exact absurd rfl hu

theorem Knows.writeToks (ge : Nat → Option Bytes → P.KP) (gf : Nat → Option Bytes → Q.KP) :
    ∀ (m : List Tok) {st : HSt P Q} {known : List Event}, st.Knows known →
      WellFrom known (m.map fun t => (st.role, t)) → (.s ∈ m → st.s.isSome = true) →
      HSt.writeToks C ge gf m st ≠ .stuck ∧ ∀ st' hdr, HSt.writeToks C ge gf m st = .ok (st', hdr) →
        st'.Knows (known ++ m.map fun t => (st.role, t)) ∧ Kept st st' := by
  intro m
  induction m with
  | nil =>
    intro st known h _ _
    refine ⟨by simp [HSt.writeToks], fun st' hdr hx => ?_⟩
    simp only [HSt.writeToks, Res.ok.injEq, Prod.mk.injEq] at hx
    obtain ⟨rfl, rfl⟩ := hx
    exact ⟨by simpa using h, .refl _⟩
  | cons t ts ih =>
    intro st known h hw hs
    simp only [List.map_cons, WellFrom] at hw
    obtain ⟨h1, h2⟩ := h.writeTok (C := C) (ge ts.length) (gf ts.length) t hw.1 hw.2.1
      (fun e => hs (by simp [e]))
    simp only [HSt.writeToks]
    cases hx : HSt.writeTok C (ge ts.length) (gf ts.length) t st with
    | stuck => exact absurd hx h1
    | fail => exact ⟨by simp, by simp⟩
    | ok r =>
      obtain ⟨st1, a⟩ := r
      obtain ⟨k1, k2⟩ := h2 _ _ hx
      obtain ⟨j1, j2⟩ := ih k1 (by rw [k2.role]; exact hw.2.2) (fun e => by rw [k2.s]; exact hs (by simp [e]))
      dsimp only
      cases hy : HSt.writeToks C ge gf ts st1 with
      | stuck => exact absurd hy j1
      | fail => exact ⟨by simp, by simp⟩
      | ok r2 =>
        obtain ⟨st2, b⟩ := r2
        refine ⟨by simp, fun st' hdr hz => ?_⟩
        simp only [Res.ok.injEq, Prod.mk.injEq] at hz
        obtain ⟨rfl, rfl⟩ := hz
        obtain ⟨i1, i2⟩ := j2 _ _ hy
        rw [k2.role] at i1
        exact ⟨by simpa using i1, k2.trans i2⟩

theorem Knows.readToks :
    ∀ (m : List Tok) {st : HSt P Q} {known : List Event} (msg : Bytes), st.Knows known →
      WellFrom known (m.map fun t => (st.role.flip, t)) →
      HSt.readToks C m st msg ≠ .stuck ∧ ∀ st' rest, HSt.readToks C m st msg = .ok (st', rest) →
        st'.Knows (known ++ m.map fun t => (st.role.flip, t)) ∧ Kept st st' := by
  intro m
  induction m with
  | nil =>
    intro st known msg h _
    refine ⟨by simp [HSt.readToks], fun st' hdr hx => ?_⟩
    simp only [HSt.readToks, Res.ok.injEq, Prod.mk.injEq] at hx
    obtain ⟨rfl, rfl⟩ := hx
    exact ⟨by simpa using h, .refl _⟩
  | cons t ts ih =>
    intro st known msg h hw
    simp only [List.map_cons, WellFrom] at hw
    obtain ⟨h1, h2⟩ := h.readTok (C := C) t msg hw.1 hw.2.1
    simp only [HSt.readToks]
    cases hx : HSt.readTok C t st msg with
    | stuck => exact absurd hx h1
    | fail => exact ⟨by simp, by simp⟩
    | ok r =>
      obtain ⟨st1, a⟩ := r
      obtain ⟨k1, k2⟩ := h2 _ _ hx
      obtain ⟨j1, j2⟩ := ih a k1 (by rw [k2.role]; exact hw.2.2)
      refine ⟨j1, fun st' rest hz => ?_⟩
      obtain ⟨i1, i2⟩ := j2 _ _ hz
      rw [k2.role] at i1
      exact ⟨by simpa using i1, k2.trans i2⟩

/-- The party can go on: the messages still to come (`r` sends the next one) obey the pattern rules from
here, and its static key pair is there if it has to send it. -/
structure Live (r : Role) (st : HSt P Q) : Prop where
  knows : ∃ known, st.Knows known ∧ WellFrom known (events r st.msgs)
  static : (st.role, Tok.s) ∈ events r st.msgs → st.s.isSome = true

theorem events_cons (r : Role) (m : List Tok) (ms : List (List Tok)) :
    events r (m :: ms) = m.map (fun t => (r, t)) ++ events r.flip ms := rfl

theorem Live.write {st : HSt P Q} (h : st.Live st.role) (hm : st.msgs ≠ [])
    (ge : Nat → Option Bytes → P.KP) (gf : Nat → Option Bytes → Q.KP) (payload : Bytes) :
    HSt.writeMessage C ge gf st payload ≠ .stuck ∧
    ∀ st' hdr ct, HSt.writeMessage C ge gf st payload = .ok (st', hdr, ct) →
      st'.Live st.role.flip ∧ st'.role = st.role ∧ st'.psk = st.psk ∧ st'.s = st.s ∧
      st'.msgs = st.msgs.tail := by
  cases hms : st.msgs with
  | nil => exact absurd hms hm
  | cons m ms =>
    obtain ⟨known, h1, h2⟩ := h.knows
    have h3 := h.static
    rw [hms, events_cons, wellFrom_append] at h2
    rw [hms, events_cons] at h3
    obtain ⟨k1, k2⟩ := h1.writeToks (C := C) ge gf m h2.1
      (fun hs => h3 (by simp only [List.mem_append, List.mem_map]; exact .inl ⟨.s, hs, rfl⟩))
    simp only [HSt.writeMessage, hms]
    cases hx : HSt.writeToks C ge gf m st with
    | stuck => exact absurd hx k1
    | fail => exact ⟨by simp, by simp⟩
    | ok r =>
      obtain ⟨st1, hdr1⟩ := r
      obtain ⟨j1, j2⟩ := k2 _ _ hx
      dsimp only
      split
      · exact ⟨by simp, by simp⟩
      refine ⟨by simp, fun st' hdr ct hz => ?_⟩
      simp only [Res.ok.injEq, Prod.mk.injEq] at hz
      obtain ⟨rfl, rfl, rfl⟩ := hz
      refine ⟨⟨⟨_, j1.congr rfl rfl rfl rfl rfl rfl rfl, h2.2⟩, fun hs => ?_⟩, j2.role, j2.psk, j2.s, rfl⟩
      show st1.s.isSome = true
      rw [j2.s]
      exact h3 (List.mem_append_right _ (by
        have hs' : (st1.role, Tok.s) ∈ events st.role.flip ms := hs
        rw [j2.role] at hs'
        exact hs'))

theorem Live.read {st : HSt P Q} (h : st.Live st.role.flip) (hm : st.msgs ≠ []) (msg : Bytes) :
    HSt.readMessage C st msg ≠ .stuck ∧
    ∀ st' ct pl, HSt.readMessage C st msg = .ok (st', ct, pl) →
      st'.Live st.role ∧ st'.role = st.role ∧ st'.psk = st.psk ∧ st'.s = st.s ∧
      st'.msgs = st.msgs.tail := by
  cases hms : st.msgs with
  | nil => exact absurd hms hm
  | cons m ms =>
    obtain ⟨known, h1, h2⟩ := h.knows
    have h3 := h.static
    rw [hms, events_cons, wellFrom_append, Role.flip_flip] at h2
    rw [hms, events_cons, Role.flip_flip] at h3
    obtain ⟨k1, k2⟩ := h1.readToks (C := C) m msg h2.1
    simp only [HSt.readMessage, hms]
    cases hx : HSt.readToks C m st msg with
    | stuck => exact absurd hx k1
    | fail => exact ⟨by simp, by simp⟩
    | ok r =>
      obtain ⟨st1, hdr1⟩ := r
      obtain ⟨j1, j2⟩ := k2 _ _ hx
      dsimp only
      split
      · exact ⟨by simp, by simp⟩
      refine ⟨by simp, fun st' hdr ct hz => ?_⟩
      simp only [Res.ok.injEq, Prod.mk.injEq] at hz
      obtain ⟨rfl, rfl, rfl⟩ := hz
      refine ⟨⟨⟨_, j1.congr rfl rfl rfl rfl rfl rfl rfl, h2.2⟩, fun hs => ?_⟩, j2.role, j2.psk, j2.s, rfl⟩
      show st1.s.isSome = true
      rw [j2.s]
      exact h3 (List.mem_append_right _ (by
        have hs' : (st1.role, Tok.s) ∈ events st.role ms := hs
        rw [j2.role] at hs'
        exact hs'))

/-! ## Message sizes -/

/-- The most a token can add to a message. -/
def tokMax (C : Crypto) (P Q : DH) : Tok → Nat
  | .e => P.len false
  | .s => P.len false + C.macLen
  | .f => max (Q.len false) (Q.len true) + C.macLen
  | _ => 0

theorem encrypt_len (hC : ∀ k n ad pt, (C.ENCRYPT k n ad pt).length = pt.length + C.macLen) {sym sym' : Sym}
    {pt ct : Bytes} (h : sym.encryptAndHash C pt = some (sym', ct)) :
    ct.length ≤ pt.length + C.macLen := by
  unfold Sym.encryptAndHash Cipher.encryptWithAd at h
  cases hk : sym.c.k with
  | none => simp [hk] at h; simp [← h.2]
  | some k =>
    simp only [hk] at h
    by_cases hn : sym.c.n = 2 ^ 64 - 1
    · simp [hn] at h
    · rw [if_neg hn] at h
      simp only [Option.some.injEq, Prod.mk.injEq] at h
      rw [← h.2]
      simp [hC]

theorem writeTok_len (hC : ∀ k n ad pt, (C.ENCRYPT k n ad pt).length = pt.length + C.macLen)
    (hP : ∀ k, (P.pub k).length = P.len false) {st st' : HSt P Q}
    {ge : Option Bytes → P.KP} {gf : Option Bytes → Q.KP}
    (hQ : ∀ o, (Q.pub (gf o)).length = Q.len o.isSome) {t : Tok} {hdr : Bytes}
    (h : writeTok C ge gf t st = .ok (st', hdr)) : hdr.length ≤ tokMax C P Q t := by
  have dh : (match dhTok C t st with
      | .ok st' => (.ok (st', []) : Res (HSt P Q × Bytes))
      | .fail => .fail
      | .stuck => .stuck) = .ok (st', hdr) → hdr.length ≤ tokMax C P Q t := by
    intro hx
    cases hd : dhTok C t st with
    | ok s1 =>
      rw [hd] at hx
      simp only [Res.ok.injEq, Prod.mk.injEq] at hx
      rw [← hx.2]; exact Nat.zero_le _
    | fail => rw [hd] at hx; cases hx
    | stuck => rw [hd] at hx; cases hx
  cases t with
  | ee => exact dh h
  | es => exact dh h
  | se => exact dh h
  | ss => exact dh h
  | ff => exact dh h
  | e =>
    simp only [writeTok, Res.ok.injEq, Prod.mk.injEq] at h
    rw [← h.2, hP]; exact Nat.le_refl _
  | s =>
    simp only [writeTok] at h
    split at h
    · cases h
    split at h
    · cases h
    next he =>
    simp only [Res.ok.injEq, Prod.mk.injEq] at h
    rw [← h.2]
    have := encrypt_len hC he
    rw [hP] at this
    exact this
  | f =>
    simp only [writeTok] at h
    split at h
    · cases h
    split at h
    · cases h
    next he =>
    simp only [Res.ok.injEq, Prod.mk.injEq] at h
    rw [← h.2]
    have := encrypt_len hC he
    rw [hQ] at this
    refine Nat.le_trans this (Nat.add_le_add_right ?_ _)
    cases st.rf.isSome
    · exact Nat.le_max_left _ _
    · exact Nat.le_max_right _ _

theorem writeToks_len (hC : ∀ k n ad pt, (C.ENCRYPT k n ad pt).length = pt.length + C.macLen)
    (hP : ∀ k, (P.pub k).length = P.len false)
    {ge : Nat → Option Bytes → P.KP} {gf : Nat → Option Bytes → Q.KP}
    (hQ : ∀ n o, (Q.pub (gf n o)).length = Q.len o.isSome) : ∀ (m : List Tok) {st st' : HSt P Q}
    {hdr : Bytes}, writeToks C ge gf m st = .ok (st', hdr) → hdr.length ≤ (m.map (tokMax C P Q)).sum := by
  intro m
  induction m with
  | nil => intro st st' hdr h; simp [writeToks] at h; simp [← h.2]
  | cons t ts ih =>
    intro st st' hdr h
    simp only [writeToks] at h
    split at h
    · next h1 =>
      split at h
      · next h2 =>
        simp only [Res.ok.injEq, Prod.mk.injEq] at h
        rw [← h.2, List.length_append, List.map_cons, List.sum_cons]
        exact Nat.add_le_add (writeTok_len hC hP (hQ _) h1) (ih h2)
      · cases h
      · cases h
    · cases h
    · cases h

/-- A message is at most the sum of its tokens, the payload and its authentication tag. -/
theorem writeMessage_len (hC : ∀ k n ad pt, (C.ENCRYPT k n ad pt).length = pt.length + C.macLen)
    (hP : ∀ k, (P.pub k).length = P.len false)
    {ge : Nat → Option Bytes → P.KP} {gf : Nat → Option Bytes → Q.KP}
    (hQ : ∀ n o, (Q.pub (gf n o)).length = Q.len o.isSome) {st st' : HSt P Q} {m : List Tok}
    {ms : List (List Tok)} (hm : st.msgs = m :: ms) {payload hdr ct : Bytes}
    (h : writeMessage C ge gf st payload = .ok (st', hdr, ct)) :
    hdr.length ≤ (m.map (tokMax C P Q)).sum ∧ ct.length ≤ payload.length + C.macLen := by
  simp only [writeMessage, hm] at h
  split at h
  · next h1 =>
    split at h
    · cases h
    next he =>
    simp only [Res.ok.injEq, Prod.mk.injEq] at h
    rw [← h.2.1, ← h.2.2]
    exact ⟨writeToks_len hC hP hQ m h1, encrypt_len hC he⟩
  · cases h
  · cases h

end Noise.Spec.HSt
