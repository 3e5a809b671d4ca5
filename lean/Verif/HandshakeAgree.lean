import Verif.HandshakeSpec
/-!
# Two parties following the specification agree

About the specification alone: a message written by one party is read by the other, and both end up
with the same symmetric state, whatever the pattern (as long as it obeys the pattern rules of C17).
-/

namespace Noise.Spec

theorem Role.flip_flip (r : Role) : r.flip.flip = r := by cases r <;> rfl
theorem Role.flip_ne (r : Role) : r.flip ≠ r := by cases r <;> decide

/-- The two key pairs give the same secret, without error, in both directions. -/
def DH.Agree (P : DH) (a b : P.KP) : Prop :=
  ∃ z, P.dh a (P.pub b) = some z ∧ P.dh b (P.pub a) = some z

/-- Every two key pairs agree, and public keys have the right length. -/
structure DH.Good (P : DH) : Prop where
  agree : ∀ a b, P.Agree a b
  len : ∀ k b, (P.pub k).length = P.len b

/-- The same for key pairs obtained from the generators in `G`, the second of the two generated with
knowledge of the first public key. -/
structure DH.GoodGen (P : DH) (G : (Option Bytes → P.KP) → Prop) : Prop where
  len : ∀ g o, G g → (P.pub (g o)).length = P.len o.isSome
  accept : ∀ g o, G g → P.reject (P.pub (g o)) = false
  agree : ∀ g g', G g → G g' → P.Agree (g none) (g' (some (P.pub (g none))))

/-- Decryption inverts encryption, and encryption adds `macLen` bytes. -/
structure Crypto.Lawful (C : Crypto) : Prop where
  dec : ∀ k n ad pt, n < 2 ^ 64 - 1 → C.DECRYPT k n ad (C.ENCRYPT k n ad pt) = some pt
  len : ∀ k n ad pt, (C.ENCRYPT k n ad pt).length = pt.length + C.macLen

/-- The events of a pattern, from some point on, obey the rules: no key is sent twice, and
Diffie-Hellman tokens use keys already known. -/
def WellFrom : List Event → List Event → Prop
  | _, [] => True
  | known, x :: xs =>
    (x.2.isKey = true → x ∉ known) ∧ (∀ y ∈ needs x.2, y ∈ known) ∧ WellFrom (known ++ [x]) xs

theorem wellFrom_append : ∀ (xs ys known : List Event),
    WellFrom known (xs ++ ys) ↔ WellFrom known xs ∧ WellFrom (known ++ xs) ys := by
  intro xs
  induction xs with
  | nil => intro ys known; simp [WellFrom]
  | cons x xs ih =>
    intro ys known
    simp only [List.cons_append, WellFrom, ih, List.append_assoc]
    constructor
    · rintro ⟨a, b, c, d⟩; exact ⟨⟨a, b, c⟩, d⟩
    · rintro ⟨⟨a, b, c⟩, d⟩; exact ⟨a, b, c, d⟩

/-- The pattern rules of C17 give `WellFrom`. -/
theorem Pattern.wellFrom (p : Pattern) (h1 : p.NoRepeat) (h2 : p.KeysAvailable) :
    WellFrom p.known (events .initiator p.msgs) := by
  have key : ∀ (rest done : List Event), events .initiator p.msgs = done ++ rest →
      WellFrom (p.known ++ done) rest := by
    intro rest
    induction rest with
    | nil => intros; trivial
    | cons x xs ih =>
      intro done hd
      refine ⟨fun hk hx => ?_, fun y hy => ?_, ?_⟩
      · have hc := h1 x (by rw [hd]; simp) hk
        rw [hd, ← List.append_assoc, List.count_append, List.count_cons_self] at hc
        have := List.count_pos_iff.mpr hx
        omega
      · have hi : done.length < (events .initiator p.msgs).length := by rw [hd]; simp
        have := h2 done.length hi y (by
          have : (events .initiator p.msgs)[done.length] = x := by simp [hd]
          rw [this]; exact hy)
        rw [hd] at this
        simpa using this
      · rw [List.append_assoc]
        exact ih _ (by rw [hd]; simp)
  simpa using key _ [] rfl

namespace HSt
variable {P Q : DH} {C : Crypto}

/-- The public keys of the party's own key pairs. -/
def ownPub (st : HSt P Q) : Tok → Option Bytes
  | .s => st.s.map P.pub
  | .e => st.e.map P.pub
  | .f => st.f.map Q.pub
  | _ => none

/-- The remote public keys the party knows. -/
def remPub (st : HSt P Q) : Tok → Option Bytes
  | .s => st.rs
  | .e => st.re
  | .f => st.rf
  | _ => none

/-- The two parties `a` (role `r`) and `b` are in step after the events `known`. `B` bounds the number
of encryptions done under the current key. -/
structure Link (G : (Option Bytes → Q.KP) → Prop) (r : Role) (known : List Event) (B : Nat)
    (a b : HSt P Q) : Prop where
  ra : a.role = r
  rb : b.role = r.flip
  psk : b.psk = a.psk
  sym : b.sym = a.sym
  msgs : b.msgs = a.msgs
  nonce : a.sym.c.n ≤ B
  ab : ∀ t, t.isKey = true → (r, t) ∈ known → ∃ pk, a.ownPub t = some pk ∧ b.remPub t = some pk
  ba : ∀ t, t.isKey = true → (r.flip, t) ∈ known → ∃ pk, b.ownPub t = some pk ∧ a.remPub t = some pk
  fa : (r, Tok.f) ∉ known → a.f = none ∧ b.rf = none
  fb : (r.flip, Tok.f) ∉ known → b.f = none ∧ a.rf = none
  ga : (r.flip, Tok.f) ∉ known → ∀ k, a.f = some k → ∃ g, G g ∧ k = g none
  gb : (r, Tok.f) ∉ known → ∀ k, b.f = some k → ∃ g, G g ∧ k = g none
  gab : ∀ k k', a.f = some k → b.f = some k' → Q.Agree k k'

theorem Link.symm {G : (Option Bytes → Q.KP) → Prop} {r : Role} {known : List Event} {B : Nat}
    {a b : HSt P Q} (h : Link G r known B a b) : Link G r.flip known B b a where
  ra := h.rb
  rb := by rw [Role.flip_flip]; exact h.ra
  psk := h.psk.symm
  sym := h.sym.symm
  msgs := h.msgs.symm
  nonce := by rw [h.sym]; exact h.nonce
  ab := h.ba
  ba := by rw [Role.flip_flip]; exact h.ab
  fa := h.fb
  fb := by rw [Role.flip_flip]; exact h.fa
  ga := by rw [Role.flip_flip]; exact h.gb
  gb := h.ga
  gab := fun k k' hk hk' => by
    obtain ⟨z, z1, z2⟩ := h.gab k' k hk' hk
    exact ⟨z, z2, z1⟩

/-- Encrypting then decrypting, from equal states. -/
theorem encrypt_decrypt (hC : C.Lawful) (sym : Sym) (pt : Bytes) (hn : sym.c.n < 2 ^ 64 - 1) :
    ∃ sym' ct, sym.encryptAndHash C pt = some (sym', ct) ∧ sym.decryptAndHash C ct = some (sym', pt) ∧
      ct.length = pt.length + (if sym.c.k.isSome then C.macLen else 0) ∧ sym'.c.n ≤ sym.c.n + 1 ∧
      (sym'.c.k.isSome = sym.c.k.isSome) := by
  unfold Sym.encryptAndHash Sym.decryptAndHash Cipher.encryptWithAd Cipher.decryptWithAd
  cases hk : sym.c.k with
  | none => exact ⟨_, _, rfl, rfl, by simp, by simp [Sym.mixHash], by simp [Sym.mixHash, hk]⟩
  | some k =>
    have hne : ¬ sym.c.n = 2 ^ 64 - 1 := by omega
    simp only [hne, if_false]
    exact ⟨_, _, rfl, by rw [hC.dec k sym.c.n sym.h pt hn], by simp [hC.len], by simp [Sym.mixHash],
      by simp [Sym.mixHash]⟩

/-- A Diffie-Hellman token with both public keys known leaves both parties with the same state. -/
theorem dh_agree {G : (Option Bytes → Q.KP) → Prop} (hP : P.Good) {r : Role} {known : List Event}
    {B : Nat} {a b : HSt P Q} (h : Link G r known B a b) (t : Tok) (hk : t.isKey = false)
    (hn : ∀ y ∈ needs t, y ∈ known) :
    ∃ z, dhSym C t a = .ok (a.sym.mixKey C z) ∧ dhSym C t b = .ok (a.sym.mixKey C z) := by
  have main : ∀ (t1 t2 : Tok), t1 = .e ∨ t1 = .s → t2 = .e ∨ t2 = .s → (r, t1) ∈ known →
      (r.flip, t2) ∈ known →
      ∀ (ka kb : Option P.KP) (pa pb : Option Bytes), ka.map P.pub = a.ownPub t1 →
        kb.map P.pub = b.ownPub t2 → pa = a.remPub t2 → pb = b.remPub t1 →
      ∃ z, mixDH C P a.sym ka pa = .ok (a.sym.mixKey C z) ∧
        mixDH C P b.sym kb pb = .ok (a.sym.mixKey C z) := by
    intro t1 t2 h1 h2 m1 m2 ka kb pa pb e1 e2 e3 e4
    obtain ⟨x, x1, x2⟩ := h.ab t1 (by rcases h1 with rfl | rfl <;> rfl) m1
    obtain ⟨y, y1, y2⟩ := h.ba t2 (by rcases h2 with rfl | rfl <;> rfl) m2
    rw [x1, Option.map_eq_some_iff] at e1
    rw [y1, Option.map_eq_some_iff] at e2
    obtain ⟨k, rfl, rfl⟩ := e1
    obtain ⟨k', rfl, rfl⟩ := e2
    rw [y2] at e3; rw [x2] at e4
    subst e3 e4
    obtain ⟨z, z1, z2⟩ := hP.agree k k'
    exact ⟨z, by simp [mixDH, z1], by simp [mixDH, z2, h.sym]⟩
  cases r with
  | initiator =>
    have ra := h.ra
    have rb : b.role = .responder := h.rb
    cases t with
    | e => cases hk
    | s => cases hk
    | f => cases hk
    | ee =>
      obtain ⟨z, z1, z2⟩ := main .e .e (.inl rfl) (.inl rfl) (hn _ (by simp [needs]))
        (hn _ (by simp [needs, Role.flip])) a.e b.e a.re b.re rfl rfl rfl rfl
      exact ⟨z, by simp [dhSym, z1], by simp [dhSym, z2]⟩
    | es =>
      obtain ⟨z, z1, z2⟩ := main .e .s (.inl rfl) (.inr rfl) (hn _ (by simp [needs]))
        (hn _ (by simp [needs, Role.flip])) a.e b.s a.rs b.re rfl rfl rfl rfl
      exact ⟨z, by simp [dhSym, ra, z1], by simp [dhSym, rb, z2]⟩
    | se =>
      obtain ⟨z, z1, z2⟩ := main .s .e (.inr rfl) (.inl rfl) (hn _ (by simp [needs]))
        (hn _ (by simp [needs, Role.flip])) a.s b.e a.re b.rs rfl rfl rfl rfl
      exact ⟨z, by simp [dhSym, ra, z1], by simp [dhSym, rb, z2]⟩
    | ss =>
      obtain ⟨z, z1, z2⟩ := main .s .s (.inr rfl) (.inr rfl) (hn _ (by simp [needs]))
        (hn _ (by simp [needs, Role.flip])) a.s b.s a.rs b.rs rfl rfl rfl rfl
      exact ⟨z, by simp [dhSym, z1], by simp [dhSym, z2]⟩
    | ff =>
      obtain ⟨x, x1, x2⟩ := h.ab .f rfl (hn _ (by simp [needs]))
      obtain ⟨y, y1, y2⟩ := h.ba .f rfl (hn _ (by simp [needs, Role.flip]))
      simp only [ownPub, Option.map_eq_some_iff] at x1 y1
      obtain ⟨k, k1, rfl⟩ := x1
      obtain ⟨k', k1', rfl⟩ := y1
      obtain ⟨z, z1, z2⟩ := h.gab k k' k1 k1'
      simp only [remPub] at x2 y2
      exact ⟨z, by simp [dhSym, mixDH, k1, y2, z1], by simp [dhSym, mixDH, k1', x2, z2, h.sym]⟩
  | responder =>
    have ra := h.ra
    have rb : b.role = .initiator := h.rb
    cases t with
    | e => cases hk
    | s => cases hk
    | f => cases hk
    | ee =>
      obtain ⟨z, z1, z2⟩ := main .e .e (.inl rfl) (.inl rfl) (hn _ (by simp [needs]))
        (hn _ (by simp [needs, Role.flip])) a.e b.e a.re b.re rfl rfl rfl rfl
      exact ⟨z, by simp [dhSym, z1], by simp [dhSym, z2]⟩
    | se =>
      obtain ⟨z, z1, z2⟩ := main .e .s (.inl rfl) (.inr rfl) (hn _ (by simp [needs]))
        (hn _ (by simp [needs, Role.flip])) a.e b.s a.rs b.re rfl rfl rfl rfl
      exact ⟨z, by simp [dhSym, ra, z1], by simp [dhSym, rb, z2]⟩
    | es =>
      obtain ⟨z, z1, z2⟩ := main .s .e (.inr rfl) (.inl rfl) (hn _ (by simp [needs]))
        (hn _ (by simp [needs, Role.flip])) a.s b.e a.re b.rs rfl rfl rfl rfl
      exact ⟨z, by simp [dhSym, ra, z1], by simp [dhSym, rb, z2]⟩
    | ss =>
      obtain ⟨z, z1, z2⟩ := main .s .s (.inr rfl) (.inr rfl) (hn _ (by simp [needs]))
        (hn _ (by simp [needs, Role.flip])) a.s b.s a.rs b.rs rfl rfl rfl rfl
      exact ⟨z, by simp [dhSym, z1], by simp [dhSym, z2]⟩
    | ff =>
      obtain ⟨x, x1, x2⟩ := h.ab .f rfl (hn _ (by simp [needs]))
      obtain ⟨y, y1, y2⟩ := h.ba .f rfl (hn _ (by simp [needs, Role.flip]))
      simp only [ownPub, Option.map_eq_some_iff] at x1 y1
      obtain ⟨k, k1, rfl⟩ := x1
      obtain ⟨k', k1', rfl⟩ := y1
      obtain ⟨z, z1, z2⟩ := h.gab k k' k1 k1'
      simp only [remPub] at x2 y2
      exact ⟨z, by simp [dhSym, mixDH, k1, y2, z1], by simp [dhSym, mixDH, k1', x2, z2, h.sym]⟩

/-- One token: what `a` writes, `b` reads, and they stay in step. -/
theorem tok_agree (hC : C.Lawful) {G : (Option Bytes → Q.KP) → Prop} (hP : P.Good) (hQ : Q.GoodGen G)
    {r : Role} {known : List Event} {B : Nat} {a b : HSt P Q} (h : Link G r known B a b)
    (hB : B < 2 ^ 64 - 1) (ge : Option Bytes → P.KP) (gf : Option Bytes → Q.KP)
    (hE : ∀ o, P.reject (P.pub (ge o)) = false) (hG : G gf) (t : Tok) (hk : t.isKey = true → (r, t) ∉ known) (hn : ∀ y ∈ needs t, y ∈ known)
    (hs : t = .s → a.s.isSome = true) (rest : Bytes) :
    ∃ a' hdr b', writeTok C ge gf t a = .ok (a', hdr) ∧ readTok C t b (hdr ++ rest) = .ok (b', rest) ∧
      Link G r (known ++ [(r, t)]) (B + 1) a' b' ∧ a'.s = a.s ∧ b'.s = b.s ∧ a'.msgs = a.msgs := by
  have hflip : r.flip ≠ r := Role.flip_ne r
  have hflip' : r ≠ r.flip := fun h => Role.flip_ne r h.symm
  have dhcase : t.isKey = false → ∃ a' hdr b', writeTok C ge gf t a = .ok (a', hdr) ∧
      readTok C t b (hdr ++ rest) = .ok (b', rest) ∧
      Link G r (known ++ [(r, t)]) (B + 1) a' b' ∧ a'.s = a.s ∧ b'.s = b.s ∧ a'.msgs = a.msgs := by
    intro hf
    obtain ⟨z, z1, z2⟩ := dh_agree (C := C) hP h t hf hn
    have key : ∀ (x : Role) (u : Tok), u.isKey = true →
        ((x, u) ∈ known ++ [(r, t)] ↔ (x, u) ∈ known) := by
      intro x u hu
      have : u ≠ t := by rintro rfl; rw [hf] at hu; cases hu
      simp [this]
    refine ⟨{ a with sym := a.sym.mixKey C z }, [], { b with sym := a.sym.mixKey C z }, ?_, ?_, ?_, rfl,
      rfl, rfl⟩
    · cases t <;> first | (exact absurd hf (by decide)) | simp [writeTok, dhTok, z1]
    · cases t <;> first | (exact absurd hf (by decide)) | simp [readTok, dhTok, z2]
    · refine ⟨h.ra, h.rb, h.psk, rfl, h.msgs, by simp [Sym.mixKey], ?_, ?_, ?_, ?_, ?_, ?_, h.gab⟩
      · intro u hu hm; exact h.ab u hu ((key _ _ hu).mp hm)
      · intro u hu hm; exact h.ba u hu ((key _ _ hu).mp hm)
      · intro hm; exact h.fa (fun hm' => hm ((key _ _ rfl).mpr hm'))
      · intro hm; exact h.fb (fun hm' => hm ((key _ _ rfl).mpr hm'))
      · intro hm; exact h.ga (fun hm' => hm ((key _ _ rfl).mpr hm'))
      · intro hm; exact h.gb (fun hm' => hm ((key _ _ rfl).mpr hm'))
  have nonce : a.sym.c.n < 2 ^ 64 - 1 := by have := h.nonce; omega
  cases t with
  | ee => exact dhcase rfl
  | es => exact dhcase rfl
  | se => exact dhcase rfl
  | ss => exact dhcase rfl
  | ff => exact dhcase rfl
  | e =>
    have hl := hP.len (ge a.re) b.e.isSome
    have ht : (P.pub (ge a.re) ++ rest).take (P.len b.e.isSome) = P.pub (ge a.re) := by
      rw [← hl]; simp
    have hd : (P.pub (ge a.re) ++ rest).drop (P.len b.e.isSome) = rest := by
      rw [← hl]; simp
    refine ⟨_, _, { b with re := some (P.pub (ge a.re)), sym := mixE C a.psk a.sym (P.pub (ge a.re)) },
      rfl, ?_, ?_, rfl, rfl, rfl⟩
    · simp only [readTok, ht, hd, hE, h.psk, h.sym]
      rw [if_neg (by simp [hl])]
      simp
    · refine ⟨h.ra, h.rb, h.psk, rfl, h.msgs, ?_, ?_, ?_, ?_, ?_, ?_, ?_, h.gab⟩
      · simp only [mixE]
        split
        · simp [Sym.mixKey]
        · have := h.nonce; simp only [Sym.mixHash]; omega
      · intro u hu hm
        by_cases hue : u = .e
        · subst hue; exact ⟨_, rfl, rfl⟩
        · have hm' : (r, u) ∈ known := by simpa [hue] using hm
          obtain ⟨pk, p1, p2⟩ := h.ab u hu hm'
          refine ⟨pk, ?_, ?_⟩
          · cases u <;> first | exact p1 | exact absurd rfl hue
          · cases u <;> first | exact p2 | exact absurd rfl hue
      · intro u hu hm
        have hm' : (r.flip, u) ∈ known := by simpa [hflip] using hm
        obtain ⟨pk, p1, p2⟩ := h.ba u hu hm'
        exact ⟨pk, by cases u <;> exact p1, by cases u <;> exact p2⟩
      · intro hm; exact h.fa (by simpa using hm)
      · intro hm; exact h.fb (by simpa using hm)
      · intro hm; exact h.ga (by simpa using hm)
      · intro hm; exact h.gb (by simpa using hm)
  | s =>
    obtain ⟨k, hsk⟩ := Option.isSome_iff_exists.mp (hs rfl)
    obtain ⟨sym', ct, c1, c2, c3, c4, c5⟩ := encrypt_decrypt hC a.sym (P.pub k) nonce
    have hl := hP.len k false
    refine ⟨{ a with sym := sym' }, ct, { b with rs := some (P.pub k), sym := sym' }, ?_, ?_, ?_, rfl, rfl, rfl⟩
    · simp [writeTok, hsk, c1]
    · have hn' : P.len false + (if b.sym.c.k.isSome then C.macLen else 0) = ct.length := by
        rw [c3, hl, h.sym]
      simp only [readTok, hn']
      rw [if_neg (by simp)]
      simp [h.sym, c2]
    · refine ⟨h.ra, h.rb, h.psk, rfl, h.msgs, by have := h.nonce; simp only; omega, ?_, ?_, ?_, ?_, ?_, ?_, h.gab⟩
      · intro u hu hm
        by_cases hue : u = .s
        · subst hue; exact ⟨P.pub k, by simp [ownPub, hsk], rfl⟩
        · have hm' : (r, u) ∈ known := by simpa [hue] using hm
          obtain ⟨pk, p1, p2⟩ := h.ab u hu hm'
          refine ⟨pk, ?_, ?_⟩
          · cases u <;> first | exact p1 | exact absurd rfl hue
          · cases u <;> first | exact p2 | exact absurd rfl hue
      · intro u hu hm
        have hm' : (r.flip, u) ∈ known := by simpa [hflip] using hm
        obtain ⟨pk, p1, p2⟩ := h.ba u hu hm'
        exact ⟨pk, by cases u <;> exact p1, by cases u <;> exact p2⟩
      · intro hm; exact h.fa (by simpa using hm)
      · intro hm; exact h.fb (by simpa using hm)
      · intro hm; exact h.ga (by simpa using hm)
      · intro hm; exact h.gb (by simpa using hm)
  | f =>
    have hnk := hk rfl
    obtain ⟨hfn, hrn⟩ := h.fa hnk
    have hrf : a.rf.isSome = b.f.isSome := by
      by_cases hm : (r.flip, Tok.f) ∈ known
      · obtain ⟨pk, p1, p2⟩ := h.ba .f rfl hm
        simp only [ownPub, Option.map_eq_some_iff] at p1
        obtain ⟨k, k1, _⟩ := p1
        simp only [remPub] at p2
        simp [k1, p2]
      · obtain ⟨p1, p2⟩ := h.fb hm
        simp [p1, p2]
    have hl := hQ.len gf a.rf hG
    obtain ⟨sym', ct, c1, c2, c3, c4, c5⟩ := encrypt_decrypt hC a.sym (Q.pub (gf a.rf)) nonce
    refine ⟨{ a with f := some (gf a.rf), sym := sym' }, ct,
      { b with rf := some (Q.pub (gf a.rf)), sym := sym' }, ?_, ?_, ?_, rfl, rfl, rfl⟩
    · simp [writeTok, hfn, c1]
    · have hn' : Q.len b.f.isSome + (if b.sym.c.k.isSome then C.macLen else 0) = ct.length := by
        rw [c3, hl, h.sym, hrf]
      simp only [readTok, hrn, hn']
      rw [if_neg (by simp), if_neg (by simp)]
      simp [h.sym, c2, hQ.accept gf _ hG]
    · have agree : ∀ k', b.f = some k' → Q.Agree (gf a.rf) k' := by
        intro k' hk'
        have hm : (r.flip, Tok.f) ∈ known := by
          by_cases hm : (r.flip, Tok.f) ∈ known
          · exact hm
          · rw [(h.fb hm).1] at hk'; cases hk'
        obtain ⟨pk, p1, p2⟩ := h.ba .f rfl hm
        simp only [ownPub, hk', Option.map_some, Option.some.injEq] at p1
        simp only [remPub] at p2
        obtain ⟨g, g1, g2⟩ := h.gb hnk k' hk'
        obtain ⟨z, z1, z2⟩ := hQ.agree g gf g1 hG
        subst g2 p1
        rw [p2]
        exact ⟨z, z2, z1⟩
      refine ⟨h.ra, h.rb, h.psk, rfl, h.msgs, by have := h.nonce; simp only; omega, ?_, ?_, ?_, ?_, ?_, ?_, ?_⟩
      · intro u hu hm
        by_cases hue : u = .f
        · subst hue; exact ⟨_, rfl, rfl⟩
        · have hm' : (r, u) ∈ known := by simpa [hue] using hm
          obtain ⟨pk, p1, p2⟩ := h.ab u hu hm'
          refine ⟨pk, ?_, ?_⟩
          · cases u <;> first | exact p1 | exact absurd rfl hue
          · cases u <;> first | exact p2 | exact absurd rfl hue
      · intro u hu hm
        have hm' : (r.flip, u) ∈ known := by simpa [hflip] using hm
        obtain ⟨pk, p1, p2⟩ := h.ba u hu hm'
        exact ⟨pk, by cases u <;> exact p1, by cases u <;> exact p2⟩
      · intro hm; exact absurd (by simp) hm
      · intro hm; exact h.fb (by simpa [hflip] using hm)
      · intro hm k hk'
        have hm' : (r.flip, Tok.f) ∉ known := by simpa [hflip] using hm
        obtain ⟨p1, p2⟩ := h.fb hm'
        cases hk'
        rw [p2]
        exact ⟨gf, hG, rfl⟩
      · intro hm; exact absurd (by simp) hm
      · intro k k' e1 e2
        cases e1
        exact agree k' e2

theorem toks_agree (hC : C.Lawful) {G : (Option Bytes → Q.KP) → Prop} (hP : P.Good) (hQ : Q.GoodGen G)
    {r : Role} (ge : Nat → Option Bytes → P.KP) (gf : Nat → Option Bytes → Q.KP)
    (hE : ∀ n o, P.reject (P.pub (ge n o)) = false) (hG : ∀ n, G (gf n)) :
    ∀ (m : List Tok) (known : List Event) (B : Nat) (a b : HSt P Q), Link G r known B a b →
      B + m.length ≤ 2 ^ 64 - 1 → WellFrom known (m.map fun t => (r, t)) →
      (.s ∈ m → a.s.isSome = true) → ∀ rest : Bytes,
      ∃ a' hdr b', writeToks C ge gf m a = .ok (a', hdr) ∧ readToks C m b (hdr ++ rest) = .ok (b', rest) ∧
        Link G r (known ++ m.map fun t => (r, t)) (B + m.length) a' b' ∧ a'.s = a.s ∧ b'.s = b.s ∧
        a'.msgs = a.msgs := by
  intro m
  induction m with
  | nil =>
    intro known B a b h _ _ _ rest
    exact ⟨a, [], b, rfl, rfl, by simpa using h, rfl, rfl, rfl⟩
  | cons t ts ih =>
    intro known B a b h hB hw hs rest
    simp only [List.map_cons, WellFrom] at hw
    simp only [List.length_cons] at hB
    -- the header of the later tokens is needed first
    obtain ⟨a0, hdr0, b0, w0, _, l0, s0, _, _⟩ := tok_agree hC hP hQ h (by omega) (ge ts.length)
      (gf ts.length) (hE _) (hG _) t hw.1 hw.2.1 (fun e => hs (by simp [e])) []
    obtain ⟨a1, hdr1, b1, w1, _⟩ := ih _ _ a0 b0 l0 (by omega) hw.2.2
      (fun e => by rw [s0]; exact hs (by simp [e])) rest
    obtain ⟨a2, hdr2, b2, w2, r2, l2, s2, s2', m2⟩ := tok_agree hC hP hQ h (by omega) (ge ts.length)
      (gf ts.length) (hE _) (hG _) t hw.1 hw.2.1 (fun e => hs (by simp [e])) (hdr1 ++ rest)
    cases w0.symm.trans w2
    obtain ⟨a3, hdr3, b3, w3, r3, l3, s3, s3', m3⟩ := ih _ _ a0 b2 l2 (by omega) hw.2.2
      (fun e => by rw [s0]; exact hs (by simp [e])) rest
    cases w1.symm.trans w3
    refine ⟨a1, hdr0 ++ hdr1, b3, by simp [writeToks, w0, w1], ?_, ?_, s3.trans s2, s3'.trans s2',
      m3.trans m2⟩
    · rw [List.append_assoc]
      simp only [readToks, r2, r3]
    · simp only [List.append_assoc, List.singleton_append, List.map_cons, List.length_cons] at l3 ⊢
      rw [show B + (ts.length + 1) = B + 1 + ts.length by omega]
      exact l3

/-- One message: what `a` writes, `b` reads, with the same payload, and they stay in step. -/
theorem message_agree (hC : C.Lawful) {G : (Option Bytes → Q.KP) → Prop} (hP : P.Good)
    (hQ : Q.GoodGen G) {r : Role} (ge : Nat → Option Bytes → P.KP) (gf : Nat → Option Bytes → Q.KP)
    (hE : ∀ n o, P.reject (P.pub (ge n o)) = false) (hG : ∀ n, G (gf n)) {m : List Tok} {ms : List (List Tok)} {known : List Event} {B : Nat}
    {a b : HSt P Q} (h : Link G r known B a b) (hm : a.msgs = m :: ms)
    (hB : B + m.length + 1 ≤ 2 ^ 64 - 1) (hw : WellFrom known (m.map fun t => (r, t)))
    (hs : .s ∈ m → a.s.isSome = true) (payload : Bytes) :
    ∃ a' hdr ct b', writeMessage C ge gf a payload = .ok (a', hdr, ct) ∧
      readMessage C b (hdr ++ ct) = .ok (b', ct, payload) ∧
      Link G r (known ++ m.map fun t => (r, t)) (B + m.length + 1) a' b' ∧ a'.s = a.s ∧ b'.s = b.s ∧
      a'.msgs = ms ∧ ct.length ≤ payload.length + C.macLen := by
  obtain ⟨a0, hdr0, b0, w0, _, l0, _⟩ := toks_agree hC hP hQ ge gf hE hG m known B a b h (by omega) hw hs []
  have n0 : a0.sym.c.n < 2 ^ 64 - 1 := by have := l0.nonce; omega
  obtain ⟨sym', ct, c1, c2, c3, c4, c5⟩ := encrypt_decrypt hC a0.sym payload n0
  obtain ⟨a1, hdr1, b1, w1, r1, l1, s1, s1', m1⟩ :=
    toks_agree hC hP hQ ge gf hE hG m known B a b h (by omega) hw hs ct
  cases w0.symm.trans w1
  refine ⟨{ a0 with sym := sym', msgs := ms }, hdr0, ct, { b1 with sym := sym', msgs := ms }, ?_, ?_, ?_,
    s1, s1', rfl, by rw [c3]; split <;> omega⟩
  · simp [writeMessage, hm, w0, c1]
  · have hmb : b.msgs = m :: ms := by rw [h.msgs, hm]
    simp [readMessage, hmb, r1, l1.sym, c2]
  · exact ⟨l1.ra, l1.rb, l1.psk, rfl, rfl, by have := l1.nonce; simp only; omega, l1.ab, l1.ba, l1.fa, l1.fb,
      l1.ga, l1.gb, l1.gab⟩

end HSt
end Noise.Spec
