import Verif.HandshakeTwo
import Verif.HandshakeProps
/-!
# Independence from uninitialised memory (C23)

Two runs of the same program that differ only in the contents of uninitialised memory are compared
step by step.
-/

namespace Noise

/-- Both outcomes are undefined, or both are defined and related. -/
def OutRel {α β : Type} (R : α → β → Prop) : Out α → Out β → Prop
  | .ok a, .ok b => R a b
  | .ub, .ub => True
  | _, _ => False

theorem OutRel.bind {α β γ δ : Type} {R : α → β → Prop} {Q : γ → δ → Prop} {x : Out α} {y : Out β}
    {f : α → Out γ} {g : β → Out δ} (h : OutRel R x y) (hf : ∀ a b, R a b → OutRel Q (f a) (g b)) :
    OutRel Q (x >>= f) (y >>= g) := by
  cases x with
  | ub => cases y with
    | ub => trivial
    | ok b => exact h.elim
  | ok a => cases y with
    | ub => exact h.elim
    | ok b => exact hf a b h

theorem OutRel.refl {α : Type} {R : α → α → Prop} (x : Out α) (h : ∀ a, x = .ok a → R a a) :
    OutRel R x x := by
  cases x with
  | ub => trivial
  | ok a => exact h a rfl

/-- The same computation followed by different ones. -/
theorem OutRel.same {α γ δ : Type} {Q : γ → δ → Prop} (x : Out α) {f : α → Out γ} {g : α → Out δ}
    (hf : ∀ a, x = .ok a → OutRel Q (f a) (g a)) : OutRel Q (x >>= f) (x >>= g) := by
  cases x with
  | ub => trivial
  | ok a => exact hf a rfl

theorem OutRel.mono {α β : Type} {R Q : α → β → Prop} {x : Out α} {y : Out β} (h : OutRel R x y)
    (hq : ∀ a b, R a b → Q a b) : OutRel Q x y := by
  cases x with
  | ub => cases y with
    | ub => trivial
    | ok b => exact h.elim
  | ok a => cases y with
    | ub => exact h.elim
    | ok b => exact hq a b h

theorem OutRel.eq {α : Type} {x y : Out α} (h : OutRel (· = ·) x y) : x = y := by
  cases x with
  | ub => cases y with
    | ub => rfl
    | ok b => exact h.elim
  | ok a => cases y with
    | ub => exact h.elim
    | ok b => exact congrArg Out.ok h

/-! ## Formatting a name -/

/-- Two formatting states that agree on what has been written. -/
structure FmtSim (f g : Fmt) : Prop where
  posn : f.posn = g.posn
  err : f.err = g.err
  len : f.mem.length = g.mem.length
  pre : f.mem.take f.posn = g.mem.take f.posn

theorem store_sim {m m' : Bytes} {k : Nat} (d : Bytes) (hl : m.length = m'.length)
    (h : m.take k = m'.take k) :
    OutRel (fun a b => a.length = b.length ∧ a.take (k + d.length) = b.take (k + d.length) ∧
      ∀ x ∈ d, x ∈ a.take (k + d.length)) (store m k d) (store m' k d) := by
  unfold store
  rw [hl]
  split
  · next hk =>
    have hlen : (m'.take k ++ d).length = k + d.length := by simp; omega
    have h1 : ∀ r, List.take (k + d.length) (m'.take k ++ d ++ r) = m'.take k ++ d := fun r => by
      rw [← hlen, List.take_left]
    refine ⟨by simp; omega, ?_, ?_⟩
    · rw [h, h1, h1]
    · rw [h, h1]
      intro x hx
      simp [hx]
  · trivial

theorem formatField_sim (cat id : Int) (last : Bool) {f g : Fmt} (h : FmtSim f g) :
    OutRel (fun f' g' => FmtSim f' g' ∧ (f'.err = .none → last = true →
      f'.mem.take (f'.posn + 1) = g'.mem.take (f'.posn + 1) ∧ (0 : UInt8) ∈ f'.mem.take (f'.posn + 1)))
      (formatField cat id last f) (formatField cat id last g) := by
  obtain ⟨fm, fp, fe⟩ := f
  obtain ⟨gm, gp, ge⟩ := g
  obtain ⟨h1, h2, h3, h4⟩ := h
  dsimp only at h1 h2 h3 h4
  subst h1
  subst h2
  unfold formatField
  dsimp only
  by_cases he : fe = .none
  · subst he
    simp only [ne_eq, not_true_eq_false, if_false, h3]
    cases hn : idToName cat id with
    | none => exact ⟨⟨rfl, rfl, h3, h4⟩, fun h => by cases h⟩
    | some alg =>
      dsimp only
      split
      · exact ⟨⟨rfl, rfl, h3, h4⟩, fun h => by cases h⟩
      · refine OutRel.bind (store_sim alg h3 h4) fun a b hab => ?_
        obtain ⟨k1, k2, _⟩ := hab
        cases last with
        | false =>
          refine OutRel.bind (store_sim [95] k1 k2) fun a b hab => ?_
          exact ⟨⟨rfl, rfl, hab.1, hab.2.1⟩, fun _ h => by cases h⟩
        | true =>
          refine OutRel.bind (store_sim [0] k1 k2) fun a b hab => ?_
          refine ⟨⟨rfl, rfl, hab.1, ?_⟩, fun _ _ => ⟨hab.2.1, hab.2.2 0 (by simp)⟩⟩
          have := congrArg (List.take (fp + alg.length)) hab.2.1
          simpa [List.take_take] using this
  · rw [if_pos he, if_pos he]
    exact ⟨⟨rfl, rfl, h3, h4⟩, fun h => absurd h he⟩

theorem formatPlus_sim {f g : Fmt} (h : FmtSim f g) : OutRel FmtSim (formatPlus f) (formatPlus g) := by
  obtain ⟨fm, fp, fe⟩ := f
  obtain ⟨gm, gp, ge⟩ := g
  obtain ⟨h1, h2, h3, h4⟩ := h
  dsimp only at h1 h2 h3 h4
  subst h1
  subst h2
  unfold formatPlus
  dsimp only
  rw [h3]
  split
  · split
    · refine OutRel.bind (store_sim [43] h3 h4) fun a b hab => ?_
      exact ⟨rfl, rfl, hab.1, hab.2.1⟩
    · exact ⟨rfl, rfl, h3, h4⟩
  · exact ⟨rfl, rfl, h3, h4⟩

theorem takeWhile_sim : ∀ (k : Nat) (a b : Bytes), a.take k = b.take k → (0 : UInt8) ∈ a.take k →
    a.takeWhile (· ≠ 0) = b.takeWhile (· ≠ 0) := by
  intro k
  induction k with
  | zero => intro a b _ h; simp at h
  | succ k ih =>
    intro a b h h0
    cases a with
    | nil => simp at h0
    | cons x a =>
      cases b with
      | nil => simp at h
      | cons y b =>
        simp only [List.take_succ_cons, List.cons.injEq] at h
        obtain ⟨rfl, h⟩ := h
        by_cases hx : x = 0
        · simp [hx]
        · rw [List.takeWhile_cons_of_pos (by simpa using hx), List.takeWhile_cons_of_pos (by simpa using hx),
            ih a b h (by
              rw [List.take_succ_cons, List.mem_cons] at h0
              rcases h0 with h0 | h0
              · exact absurd h0.symm hx
              · exact h0)]

/-- The code and, on success, the string do not depend on what was in the buffer. -/
theorem idToName_sim (m m' : Bytes) (hl : m.length = m'.length) (id : ProtocolId) :
    OutRel (fun a b => a.1 = b.1 ∧ (a.1 = .none → a.2.takeWhile (· ≠ 0) = b.2.takeWhile (· ≠ 0)))
      (protocolIdToName m id) (protocolIdToName m' id) := by
  unfold protocolIdToName
  rw [hl]
  split
  · exact ⟨rfl, fun h => by cases h⟩
  · have tail : ∀ f g, FmtSim f g → OutRel (fun a b : Err × Bytes =>
        a.1 = b.1 ∧ (a.1 = .none → a.2.takeWhile (· ≠ 0) = b.2.takeWhile (· ≠ 0)))
        (do
          let f ← formatField catCipher id.cipherId false f
          let f ← formatField catHash id.hashId true f
          let f := checkReserved f id.reserved
          if f.err ≠ .none then do
            let m ← store f.mem 0 [0]
            pure (f.err, m)
          else pure (.none, f.mem))
        (do
          let f ← formatField catCipher id.cipherId false g
          let f ← formatField catHash id.hashId true f
          let f := checkReserved f id.reserved
          if f.err ≠ .none then do
            let m ← store f.mem 0 [0]
            pure (f.err, m)
          else pure (.none, f.mem)) := by
      intro f g h3
      refine OutRel.bind (formatField_sim _ _ _ h3) fun f g h4 => ?_
      refine OutRel.bind (formatField_sim _ _ _ h4.1) fun f g h5 => ?_
      obtain ⟨h5, h6⟩ := h5
      have he : (checkReserved f id.reserved).err = (checkReserved g id.reserved).err := by
        unfold checkReserved
        rw [h5.err]
        split <;> simp [h5.err]
      have hm : ∀ f : Fmt, (checkReserved f id.reserved).mem = f.mem := fun f => by
        unfold checkReserved; split <;> rfl
      have hn : (checkReserved f id.reserved).err = .none → f.err = .none := by
        unfold checkReserved
        split
        · intro h; cases h
        · exact fun h => h
      dsimp only
      rw [← he]
      split
      · next hne =>
        rw [hm, hm]
        exact OutRel.bind (store_sim (k := 0) [0] h5.len (by simp)) fun a b hab => ⟨rfl, fun h => absurd h hne⟩
      · next hne =>
        rw [hm, hm]
        obtain ⟨k1, k2⟩ := h6 (hn (by simpa using hne)) rfl
        exact ⟨rfl, fun _ => takeWhile_sim _ _ _ k1 k2⟩
    have h0 : FmtSim ⟨m, 0, .none⟩ ⟨m', 0, .none⟩ := ⟨rfl, rfl, hl, by simp⟩
    refine OutRel.bind (formatField_sim _ _ _ h0) fun f g h1 => ?_
    refine OutRel.bind (formatField_sim _ _ _ h1.1) fun f g h2 => ?_
    dsimp only
    split
    · exact OutRel.bind (formatField_sim _ _ _ h2.1) fun f g h3 => tail f g h3.1
    · refine OutRel.bind (formatField_sim _ _ _ h2.1) fun f g h3 => ?_
      refine OutRel.bind (formatPlus_sim h3.1) fun f g h4 => ?_
      exact OutRel.bind (formatField_sim _ _ _ h4) fun f g h5 => tail f g h5.1

/-! ## Symmetric states -/

/-- Two cipher objects that cannot be told apart: a key that is not in use does not matter. -/
def CipherSim (c d : CipherState) : Prop :=
  c.hasKey = d.hasKey ∧ c.n = d.n ∧ (c.hasKey = true → c.key = d.key)

/-- Two symmetric states that cannot be told apart: the hash context does not matter. -/
def SymSim {HB : HashBackend} (s t : SymState HB) : Prop :=
  s.id = t.id ∧ s.ck = t.ck ∧ s.h = t.h ∧
    ((s.cipher = none ∧ t.cipher = none) ∨ ∃ c d, s.cipher = some c ∧ t.cipher = some d ∧ CipherSim c d)

/-- What two symmetric states have in common after a failure. -/
def SymWeak {HB : HashBackend} (s t : SymState HB) : Prop :=
  s.id = t.id ∧ s.cipher.isSome = t.cipher.isSome

theorem SymSim.weak {HB : HashBackend} {s t : SymState HB} (h : SymSim s t) : SymWeak s t := by
  obtain ⟨h1, _, _, h4⟩ := h
  refine ⟨h1, ?_⟩
  rcases h4 with ⟨a, b⟩ | ⟨c, d, a, b, _⟩ <;> simp [a, b]

/-- After a successful step everything agrees, after a failed one only the remains. -/
def SymRel {HB : HashBackend} (e : Err) (s t : SymState HB) : Prop :=
  SymWeak s t ∧ (e = .none → SymSim s t)

theorem SymSim.rel {HB : HashBackend} {s t : SymState HB} (e : Err) (h : SymSim s t) : SymRel e s t :=
  ⟨h.weak, fun _ => h⟩

section
variable {S : Suite}

theorem mixHash_sim {s t : SymState S.HB} (h : SymSim s t) (b : Bytes) :
    (s.mixHash b).1 = (t.mixHash b).1 ∧ SymSim (s.mixHash b).2 (t.mixHash b).2 := by
  obtain ⟨h1, h2, h3, h4⟩ := h
  unfold SymState.mixHash
  rcases h4 with ⟨a, b'⟩ | ⟨c, d, a, b', hc⟩
  · simp only [a, b']
    exact ⟨trivial, h1, h2, h3, .inl ⟨a, b'⟩⟩
  · simp only [a, b']
    refine ⟨trivial, h1, h2, ?_, .inr ⟨c, d, rfl, rfl, hc⟩⟩
    dsimp only
    rw [hashTwo_eq S.hl, hashTwo_eq S.hl, h3]

theorem hkdf_sim (x y : S.HB.Ctx) (key data : Bytes) (n m : Nat) :
    OutRel (fun a b => a.1 = b.1 ∧ a.2.2 = b.2.2) (S.HB.hkdf x key data n m) (S.HB.hkdf y key data n m) := by
  by_cases h : n ≤ S.HB.hashLen ∧ m ≤ S.HB.hashLen
  · obtain ⟨c, hc⟩ := (C31_hkdf S.hl x key data n m).1 h
    obtain ⟨d, hd⟩ := (C31_hkdf S.hl y key data n m).1 h
    rw [hc, hd]
    exact ⟨rfl, rfl⟩
  · rw [(C31_hkdf S.hl x key data n m).2 h, (C31_hkdf S.hl y key data n m).2 h]
    exact ⟨rfl, rfl⟩

theorem initKey_sim {c d : CipherState} (h : CipherSim c d) (k : Bytes) :
    CipherSim (c.initKey S.CB k).2 (d.initKey S.CB k).2 := by
  unfold CipherState.initKey
  split
  · exact h
  · exact ⟨rfl, rfl, fun _ => rfl⟩

theorem mixKey_sim {s t : SymState S.HB} (h : SymSim s t) (b : Bytes) :
    OutRel (fun x y => x.1 = y.1 ∧ SymSim x.2 y.2) (s.mixKey S.CB b) (t.mixKey S.CB b) := by
  obtain ⟨h1, h2, h3, h4⟩ := h
  unfold SymState.mixKey
  rcases h4 with ⟨a, b'⟩ | ⟨c, d, a, b', hc⟩
  · simp only [a, b']
    exact ⟨rfl, h1, h2, h3, .inl ⟨a, b'⟩⟩
  · simp only [a, b']
    rw [h2]
    refine OutRel.bind (hkdf_sim _ _ _ _ _ _) fun x y hxy => ?_
    obtain ⟨e, cx, k1, k2⟩ := x
    obtain ⟨e', cy, k1', k2'⟩ := y
    obtain ⟨rfl, hk⟩ := hxy
    cases hk
    dsimp only
    split
    · trivial
    · exact ⟨rfl, h1, rfl, h3, .inr ⟨_, _, rfl, rfl, initKey_sim hc _⟩⟩

/-- Mixing in different bytes: the code is the same, and so is what fallback relies on. -/
theorem mixKey_weak {s t : SymState S.HB} (h : SymSim s t) (b b' : Bytes) :
    OutRel (fun x y => x.1 = y.1 ∧ SymWeak x.2 y.2) (s.mixKey S.CB b) (t.mixKey S.CB b') := by
  obtain ⟨h1, h2, h3, h4⟩ := h
  unfold SymState.mixKey
  rcases h4 with ⟨a, b''⟩ | ⟨c, d, a, b'', hc⟩
  · simp only [a, b'']
    exact ⟨rfl, h1, by simp [a, b'']⟩
  · simp only [a, b'']
    have hlen : S.HB.hashLen ≤ S.HB.hashLen ∧ S.CB.keyLen ≤ S.HB.hashLen :=
      ⟨Nat.le_refl _, by rw [S.key32]; exact S.hash32⟩
    obtain ⟨_, e1⟩ := (C31_hkdf S.hl s.ctx s.ck b S.HB.hashLen S.CB.keyLen).1 hlen
    obtain ⟨_, e2⟩ := (C31_hkdf S.hl t.ctx t.ck b' S.HB.hashLen S.CB.keyLen).1 hlen
    rw [e1, e2]
    exact ⟨rfl, h1, rfl⟩

theorem encrypt_sim {c d : CipherState} (h : CipherSim c d) (ad : Bytes) (b : Buf) :
    OutRel (fun x y => x.err = y.err ∧ x.buf = y.buf ∧ CipherSim x.st y.st)
      (c.encryptWithAd S.CB ad b) (d.encryptWithAd S.CB ad b) := by
  obtain ⟨k, key, n⟩ := c
  obtain ⟨k', key', n'⟩ := d
  obtain ⟨h1, h2, h3⟩ := h
  dsimp only at h1 h2 h3
  subst h1
  subst h2
  unfold CipherState.encryptWithAd
  dsimp only
  split
  · exact ⟨rfl, rfl, rfl, rfl, h3⟩
  cases k with
  | false =>
    simp only [Bool.not_false, if_true]
    split
    · exact ⟨rfl, rfl, rfl, rfl, h3⟩
    · exact ⟨rfl, rfl, rfl, rfl, h3⟩
  | true =>
    have h3 := h3 rfl
    subst h3
    exact OutRel.refl _ fun a _ => ⟨rfl, rfl, rfl, rfl, fun _ => rfl⟩

theorem decrypt_sim {c d : CipherState} (h : CipherSim c d) (ad : Bytes) (b : Buf) :
    OutRel (fun x y => x.err = y.err ∧ x.buf = y.buf ∧ CipherSim x.st y.st)
      (c.decryptWithAd S.CB ad b) (d.decryptWithAd S.CB ad b) := by
  obtain ⟨k, key, n⟩ := c
  obtain ⟨k', key', n'⟩ := d
  obtain ⟨h1, h2, h3⟩ := h
  dsimp only at h1 h2 h3
  subst h1
  subst h2
  unfold CipherState.decryptWithAd
  dsimp only
  split
  · exact ⟨rfl, rfl, rfl, rfl, h3⟩
  cases k with
  | false => exact ⟨rfl, rfl, rfl, rfl, h3⟩
  | true =>
    have h3 := h3 rfl
    subst h3
    exact OutRel.refl _ fun a _ => ⟨rfl, rfl, rfl, rfl, fun _ => rfl⟩

theorem encryptAndHash_sim {s t : SymState S.HB} (h : SymSim s t) (b : Buf) :
    OutRel (fun x y => x.1 = y.1 ∧ SymSim x.2.1 y.2.1 ∧ x.2.2 = y.2.2) (s.encryptAndHash S.CB b)
      (t.encryptAndHash S.CB b) := by
  obtain ⟨h1, h2, h3, h4⟩ := h
  unfold SymState.encryptAndHash
  rcases h4 with ⟨a, b'⟩ | ⟨c, d, a, b', hc⟩
  · simp only [a, b']
    exact ⟨rfl, ⟨h1, h2, h3, .inl ⟨a, b'⟩⟩, rfl⟩
  · simp only [a, b']
    rw [h3]
    refine OutRel.bind (encrypt_sim hc _ _) fun x y hxy => ?_
    obtain ⟨e1, e2, e3⟩ := hxy
    have hs : SymSim { s with cipher := some x.st, h := t.h } { t with cipher := some y.st } :=
      ⟨h1, h2, rfl, .inr ⟨_, _, rfl, rfl, e3⟩⟩
    rw [← e1, ← e2]
    split
    · exact ⟨rfl, hs, rfl⟩
    · exact OutRel.same _ fun ct _ => ⟨rfl, (mixHash_sim hs ct).2, rfl⟩

theorem decryptAndHash_sim {s t : SymState S.HB} (h : SymSim s t) (b : Buf) :
    OutRel (fun x y => x.1 = y.1 ∧ SymSim x.2.1 y.2.1 ∧ x.2.2 = y.2.2) (s.decryptAndHash S.CB b)
      (t.decryptAndHash S.CB b) := by
  obtain ⟨h1, h2, h3, h4⟩ := h
  unfold SymState.decryptAndHash
  rcases h4 with ⟨a, b'⟩ | ⟨c, d, a, b', hc⟩
  · simp only [a, b']
    exact ⟨rfl, ⟨h1, h2, h3, .inl ⟨a, b'⟩⟩, rfl⟩
  · simp only [a, b']
    rw [← hc.1]
    split
    · exact ⟨rfl, ⟨h1, h2, h3, .inr ⟨_, _, a, b', hc⟩⟩, rfl⟩
    split
    · exact ⟨rfl, ⟨h1, h2, h3, .inr ⟨_, _, a, b', hc⟩⟩, rfl⟩
    refine OutRel.same _ fun ct _ => ?_
    rw [h3]
    refine OutRel.bind (decrypt_sim hc _ _) fun x y hxy => ?_
    obtain ⟨e1, e2, e3⟩ := hxy
    rw [← e1, ← e2, hashTwo_eq S.hl, hashTwo_eq S.hl]
    split
    · exact ⟨rfl, ⟨h1, h2, rfl, .inr ⟨_, _, rfl, rfl, e3⟩⟩, rfl⟩
    · exact ⟨rfl, ⟨h1, h2, rfl, .inr ⟨_, _, rfl, rfl, e3⟩⟩, rfl⟩

theorem getMacLength_sim {s t : SymState S.HB} (h : SymSim s t) :
    s.getMacLength S.CB = t.getMacLength S.CB := by
  obtain ⟨h1, h2, h3, h4⟩ := h
  unfold SymState.getMacLength
  rcases h4 with ⟨a, b'⟩ | ⟨c, d, a, b', hc⟩
  · rw [a, b']
  · rw [a, b']
    simp [hc.1]

theorem split_sim {s t : SymState S.HB} (h : SymSim s t) (w1 w2 al : Bool) :
    OutRel (fun x y => x.1 = y.1 ∧ SymSim x.2.1 y.2.1 ∧ x.2.2 = y.2.2) (s.split S.CB w1 w2 al)
      (t.split S.CB w1 w2 al) := by
  obtain ⟨h1, h2, h3, h4⟩ := h
  have h : SymSim s t := ⟨h1, h2, h3, h4⟩
  unfold SymState.split
  split
  · exact ⟨rfl, h, rfl⟩
  rcases h4 with ⟨a, b'⟩ | ⟨c, d, a, b', hc⟩
  · simp only [a, b']
    exact ⟨rfl, h, rfl⟩
  · simp only [a, b']
    have hlen : S.CB.keyLen ≤ S.HB.hashLen ∧ S.CB.keyLen ≤ S.HB.hashLen := by
      rw [S.key32]; exact ⟨S.hash32, S.hash32⟩
    obtain ⟨x, e1⟩ := (C31_hkdf S.hl s.ctx s.ck [] S.CB.keyLen S.CB.keyLen).1 hlen
    obtain ⟨y, e2⟩ := (C31_hkdf S.hl t.ctx t.ck [] S.CB.keyLen S.CB.keyLen).1 hlen
    rw [e1, e2, h2]
    simp only [Out.bind_ok, ne_eq, not_true_eq_false, if_false]
    have hl : ∀ k : Bytes, k.length = S.CB.keyLen → (c.initKey S.CB k).2 = (d.initKey S.CB k).2 := by
      intro k hk
      simp [CipherState.initKey, hk]
    have l1 : ((specHkdf S.H S.HB.blockLen t.ck []).1.take S.CB.keyLen).length = S.CB.keyLen := by
      have : (specHkdf S.H S.HB.blockLen t.ck []).1.length = S.HB.hashLen := by
        simp [specHkdf, specHmac_length S.hl]
      rw [List.length_take, this]
      omega
    have l2 : ((specHkdf S.H S.HB.blockLen t.ck []).2.take S.CB.keyLen).length = S.CB.keyLen := by
      have : (specHkdf S.H S.HB.blockLen t.ck []).2.length = S.HB.hashLen := by
        simp [specHkdf, specHmac_length S.hl]
      rw [List.length_take, this]
      omega
    rw [hl _ l1, hl _ l2]
    split
    · exact ⟨rfl, ⟨h1, rfl, h3, .inl ⟨rfl, rfl⟩⟩, rfl⟩
    split
    · split
      · exact ⟨rfl, ⟨h1, rfl, h3, .inr ⟨c, d, rfl, rfl, hc⟩⟩, rfl⟩
      · exact ⟨rfl, ⟨h1, rfl, h3, .inl ⟨rfl, rfl⟩⟩, rfl⟩
    · exact ⟨rfl, ⟨h1, rfl, h3, .inl ⟨rfl, rfl⟩⟩, rfl⟩

end

namespace HS
variable {X : Setup}

/-! ## Handshake states -/

/-- The first object is the second with another symmetric state. -/
def JRel (e : Err) (s t : X.H) : Prop := s = { t with sym := s.sym } ∧ SymRel e s.sym t.sym

theorem calculateApi_sim {D : DHBackend} (p q : DHState D.Ext) (j j' : Bytes) (hl : j.length = j'.length) :
    OutRel (fun x y => x.1 = y.1 ∧ x.2.2 = y.2.2 ∧ (x.1 = .none → x.2.1 = y.2.1))
      (D.calculateApi p (.same q) j) (D.calculateApi p (.same q) j') := by
  unfold DHBackend.calculateApi
  dsimp only
  rw [hl]
  split
  · exact ⟨rfl, rfl, fun h => by cases h⟩
  split
  · exact ⟨rfl, rfl, fun h => by cases h⟩
  exact OutRel.refl _ fun _ _ => ⟨rfl, rfl, fun _ => rfl⟩

theorem mixDh_sim {D : DHBackend} {y z : X.Sy} (h : SymSim y z) (p q : Option (DHState D.Ext))
    (j j' : Nat → UInt8) :
    OutRel (fun a b => a.1 = b.1 ∧ SymRel a.1 a.2.1 b.2.1 ∧ a.2.2 = b.2.2)
      (mixDh X.S.CB D y p q j) (mixDh X.S.CB D z p q j') := by
  unfold mixDh
  cases p with
  | none => trivial
  | some p =>
    cases q with
    | none =>
      refine OutRel.bind (mixKey_weak h _ _) fun a b hab => ?_
      exact ⟨rfl, ⟨hab.2, fun h => by cases h⟩, rfl⟩
    | some q =>
      refine OutRel.bind (calculateApi_sim p q _ _ (by simp [randBytes])) fun a b hab => ?_
      obtain ⟨e, sh, p'⟩ := a
      obtain ⟨e', sh', p''⟩ := b
      obtain ⟨h1, h2, h3⟩ := hab
      dsimp only at h1 h2 h3
      subst h1
      subst h2
      by_cases he : e = .none
      · have h3 := h3 he
        subst h3
        exact OutRel.bind (mixKey_sim h _) fun a b hab => ⟨rfl, hab.2.rel _, rfl⟩
      · exact OutRel.bind (mixKey_weak h _ _) fun a b hab => ⟨rfl, ⟨hab.2, fun h => absurd h he⟩, rfl⟩

variable {t : X.H} {y : X.Sy}

theorem dhToken_sim (h : SymSim y t.sym) (tok : UInt8) (j j' : Nat → UInt8) :
    OutRel (fun a b => a.1 = b.1 ∧ JRel a.1 a.2 b.2) (dhToken X.S.CB j tok { t with sym := y })
      (dhToken X.S.CB j' tok t) := by
  have ee : OutRel (fun a b => a.1 = b.1 ∧ JRel a.1 a.2 b.2) (dhEE X.S.CB j { t with sym := y })
      (dhEE X.S.CB j' t) :=
    OutRel.bind (mixDh_sim h _ _ j j') fun a b hab => ⟨hab.1, by rw [hab.2.2], hab.2.1⟩
  have lers : OutRel (fun a b => a.1 = b.1 ∧ JRel a.1 a.2 b.2) (dhLeRs X.S.CB j { t with sym := y })
      (dhLeRs X.S.CB j' t) :=
    OutRel.bind (mixDh_sim h _ _ j j') fun a b hab => ⟨hab.1, by rw [hab.2.2], hab.2.1⟩
  have lsre : OutRel (fun a b => a.1 = b.1 ∧ JRel a.1 a.2 b.2) (dhLsRe X.S.CB j { t with sym := y })
      (dhLsRe X.S.CB j' t) :=
    OutRel.bind (mixDh_sim h _ _ j j') fun a b hab => ⟨hab.1, by rw [hab.2.2], hab.2.1⟩
  have ss : OutRel (fun a b => a.1 = b.1 ∧ JRel a.1 a.2 b.2) (dhSS X.S.CB j { t with sym := y })
      (dhSS X.S.CB j' t) :=
    OutRel.bind (mixDh_sim h _ _ j j') fun a b hab => ⟨hab.1, by rw [hab.2.2], hab.2.1⟩
  have ff : OutRel (fun a b => a.1 = b.1 ∧ JRel a.1 a.2 b.2) (dhFF X.S.CB j { t with sym := y })
      (dhFF X.S.CB j' t) :=
    OutRel.bind (mixDh_sim h _ _ j j') fun a b hab => ⟨hab.1, by rw [hab.2.2], hab.2.1⟩
  unfold dhToken
  dsimp only
  split
  · exact ee
  split
  · split <;> assumption
  split
  · split <;> assumption
  split
  · exact ss
  split
  · exact ff
  · exact ⟨rfl, rfl, h.weak, fun h => by cases h⟩

/-- The results of a token when writing agree. -/
def WRel (a b : WTok X.S.HB X.D X.G) : Prop := a.1 = b.1 ∧ JRel a.1 a.2.1 b.2.1 ∧ a.2.2 = b.2.2

theorem pskMixKey_sim {y z : X.Sy} (h : SymSim y z) (pk : Bytes) :
    OutRel (fun a b => a.1 = b.1 ∧ SymSim a.2 b.2) (pskMixKey X.S.CB y pk) (pskMixKey X.S.CB z pk) := by
  unfold pskMixKey
  rw [h.1]
  split
  · exact mixKey_sim h pk
  · exact ⟨rfl, h⟩

theorem writeEKey_sim (h : SymSim y t.sym) (l : DHState X.D.Ext) (rest : Bytes) :
    OutRel WRel (writeEKey X.S.CB { t with sym := y } l rest) (writeEKey X.S.CB t l rest) := by
  unfold writeEKey
  split
  · exact ⟨rfl, ⟨rfl, h.rel _⟩, rfl⟩
  · refine OutRel.same _ fun pk _ => OutRel.same _ fun rest' _ => ?_
    exact OutRel.bind (pskMixKey_sim (mixHash_sim h pk).2 pk) fun a b hab =>
      ⟨hab.1, ⟨rfl, hab.2.rel _⟩, rfl⟩

theorem writeE_sim (h : SymSim y t.sym) (rnd : Nat → UInt8) (rest : Bytes) :
    OutRel WRel (writeE X.S.CB rnd { t with sym := y } rest) (writeE X.S.CB rnd t rest) := by
  obtain ⟨role, reqs, action, tokens, sym, ls, le, lh, rs, re, rh, fe, fh, psk, prologue⟩ := t
  dsimp only at h
  unfold writeE
  dsimp only
  cases le with
  | none => exact ⟨rfl, ⟨rfl, h.rel _⟩, rfl⟩
  | some l =>
    refine OutRel.same _ fun a _ => ?_
    split
    · exact ⟨rfl, ⟨rfl, h.rel _⟩, rfl⟩
    · exact writeEKey_sim (t := ⟨role, reqs, action, tokens, sym, ls, some a.2, lh, rs, re, rh, fe, fh, psk,
        prologue⟩) h a.2 rest

theorem writeEncrypted_sim {Y : Type} (h : SymSim y t.sym) (l : DHState Y) (rest : Bytes) :
    OutRel WRel (writeEncrypted X.S.CB { t with sym := y } l rest) (writeEncrypted X.S.CB t l rest) := by
  unfold writeEncrypted
  dsimp only
  rw [getMacLength_sim h]
  split
  · exact ⟨rfl, ⟨rfl, h.rel _⟩, rfl⟩
  · refine OutRel.same _ fun pk _ => OutRel.same _ fun rest' _ => ?_
    exact OutRel.bind (encryptAndHash_sim h _) fun a b hab =>
      ⟨hab.1, ⟨rfl, hab.2.1.rel _⟩, by rw [hab.2.2]⟩

theorem writeS_sim (h : SymSim y t.sym) (rest : Bytes) :
    OutRel WRel (writeS X.S.CB { t with sym := y } rest) (writeS X.S.CB t rest) := by
  obtain ⟨role, reqs, action, tokens, sym, ls, le, lh, rs, re, rh, fe, fh, psk, prologue⟩ := t
  dsimp only at h
  unfold writeS
  dsimp only
  cases ls with
  | none => exact ⟨rfl, ⟨rfl, h.rel _⟩, rfl⟩
  | some l =>
    exact writeEncrypted_sim (t := ⟨role, reqs, action, tokens, sym, some l, le, lh, rs, re, rh, fe, fh, psk,
      prologue⟩) h l rest

theorem writeF_sim (h : SymSim y t.sym) (rnd : Nat → UInt8) (rest : Bytes) :
    OutRel WRel (writeF X.S.CB rnd { t with sym := y } rest) (writeF X.S.CB rnd t rest) := by
  obtain ⟨role, reqs, action, tokens, sym, ls, le, lh, rs, re, rh, fe, fh, psk, prologue⟩ := t
  dsimp only at h
  unfold writeF
  dsimp only
  cases lh with
  | none => exact ⟨rfl, ⟨rfl, h.rel _⟩, rfl⟩
  | some l =>
    cases rh with
    | none => exact ⟨rfl, ⟨rfl, h.rel _⟩, rfl⟩
    | some r =>
      refine OutRel.same _ fun a _ => ?_
      split
      · exact ⟨rfl, ⟨rfl, h.rel _⟩, rfl⟩
      · exact writeEncrypted_sim (t := ⟨role, reqs, action, tokens, sym, ls, le, some a.2, rs, re, some r, fe,
          fh, psk, prologue⟩) h a.2 rest

theorem writeToken_sim (h : SymSim y t.sym) (rnd j j' : Nat → UInt8) (tok : UInt8) (rest : Bytes) :
    OutRel WRel (writeToken X.S.CB rnd j tok { t with sym := y } rest)
      (writeToken X.S.CB rnd j' tok t rest) := by
  unfold writeToken
  split
  · exact writeE_sim h rnd rest
  split
  · exact writeS_sim h rest
  split
  · exact writeF_sim h rnd rest
  · exact OutRel.bind (dhToken_sim h tok j j') fun a b hab => ⟨hab.1, hab.2, rfl⟩

theorem writeLoop_sim (rnd j j' : Nat → Nat → UInt8) : ∀ (ts : Bytes) {t : X.H} {y : X.Sy}, SymSim y t.sym →
    ∀ (mem : Bytes) (n : Nat), OutRel WRel (writeLoop X.S.CB rnd j ts { t with sym := y } mem n)
      (writeLoop X.S.CB rnd j' ts t mem n) := by
  intro ts
  induction ts with
  | nil => intros; trivial
  | cons tok ts ih =>
    intro t y h mem n
    simp only [writeLoop]
    split
    · exact ⟨rfl, ⟨rfl, h.rel _⟩, rfl⟩
    split
    · exact ⟨rfl, ⟨rfl, h.rel _⟩, rfl⟩
    · refine OutRel.bind (writeToken_sim h _ _ _ _ _) fun a b hab => ?_
      obtain ⟨e, s', r, k⟩ := a
      obtain ⟨e', t', r', k'⟩ := b
      obtain ⟨h1, ⟨h2, h3⟩, h4⟩ := hab
      dsimp only at h1 h2 h3 h4
      subst h1
      cases h4
      dsimp only
      split
      · exact ⟨rfl, ⟨h2, h3⟩, rfl⟩
      · next he =>
        have := ih (t := { t' with tokens := ts }) (y := s'.sym) (h3.2 (by simpa using he))
          (mem.take n ++ r) (n + k)
        rw [h2]
        exact this

theorem writePayload_sim (h : SymSim y t.sym) (pl : Option Bytes) (mem : Bytes) (n : Nat) :
    OutRel WRel (writePayload X.S.CB pl { t with sym := y } mem n) (writePayload X.S.CB pl t mem n) := by
  unfold writePayload
  dsimp only
  rw [getMacLength_sim h]
  split
  · exact ⟨rfl, ⟨rfl, h.rel _⟩, rfl⟩
  split
  · exact ⟨rfl, ⟨rfl, h.rel _⟩, rfl⟩
  · refine OutRel.same _ fun rest _ => ?_
    refine OutRel.bind (encryptAndHash_sim h _) fun a b hab => ?_
    obtain ⟨e, s', r⟩ := a
    obtain ⟨e', t', r'⟩ := b
    obtain ⟨h1, h2, h3⟩ := hab
    dsimp only at h1 h2 h3
    subst h1
    subst h3
    dsimp only
    split
    · exact ⟨rfl, ⟨rfl, h2.rel _⟩, rfl⟩
    · exact ⟨rfl, ⟨rfl, h2.rel _⟩, rfl⟩

/-- The two objects cannot be told apart: the symmetric states agree unless the handshake failed. -/
def Sim (s t : X.H) : Prop :=
  s = { t with sym := s.sym } ∧ SymWeak s.sym t.sym ∧ (t.action ≠ .failed → SymSim s.sym t.sym)

theorem writeMessage_sim {s t : X.H} (h : Sim s t) (rnd j j' : Nat → Nat → UInt8) (mem : Bytes)
    (pl : Option Bytes) :
    OutRel (fun a b => a.1 = b.1 ∧ Sim a.2.1 b.2.1 ∧ a.2.2 = b.2.2) (s.writeMessage X.S.CB rnd j mem pl)
      (t.writeMessage X.S.CB rnd j' mem pl) := by
  obtain ⟨h1, h2, h3⟩ := h
  generalize s.sym = y at h1 h2 h3
  subst h1
  unfold writeMessage
  dsimp only
  split
  · exact ⟨rfl, ⟨rfl, h2, h3⟩, rfl⟩
  · next ha =>
    have ha : t.action = .write := by simpa using ha
    have hs := h3 (by rw [ha]; decide)
    refine OutRel.bind (R := WRel) ?_ fun a b hab => ?_
    · unfold write
      refine OutRel.bind (writeLoop_sim rnd j j' _ hs mem 0) fun a b hab => ?_
      obtain ⟨e, s', r, k⟩ := a
      obtain ⟨e', t', r', k'⟩ := b
      obtain ⟨h1, ⟨h2, h3⟩, h4⟩ := hab
      dsimp only at h1 h2 h3 h4
      subst h1
      cases h4
      dsimp only
      split
      · exact ⟨rfl, ⟨h2, h3⟩, rfl⟩
      · next he =>
        rw [h2]
        exact writePayload_sim (h3.2 (by simpa using he)) pl r k
    · obtain ⟨e, s', r, k⟩ := a
      obtain ⟨e', t', r', k'⟩ := b
      obtain ⟨h1, ⟨h2, h3⟩, h4⟩ := hab
      dsimp only at h1 h2 h3 h4
      subst h1
      cases h4
      dsimp only
      split
      · exact ⟨rfl, ⟨by rw [h2], h3.1, fun h => absurd rfl h⟩, rfl⟩
      · next he => exact ⟨rfl, ⟨h2, h3.1, fun _ => h3.2 (by simpa using he)⟩, rfl⟩

/-- The results of a token when reading agree. -/
def RRel (a b : RTok X.S.HB X.D X.G) : Prop := a.1 = b.1 ∧ JRel a.1 a.2.1 b.2.1 ∧ a.2.2 = b.2.2

theorem readEKey_sim (h : SymSim y t.sym) (r : DHState X.D.Ext) (msg : Buf) (n : Nat) :
    OutRel RRel (readEKey X.S.CB { t with sym := y } r msg n) (readEKey X.S.CB t r msg n) := by
  unfold readEKey
  refine OutRel.same _ fun nl _ => ?_
  split
  · exact ⟨rfl, ⟨rfl, h.rel _⟩, rfl⟩
  · refine OutRel.same _ fun pk _ => ?_
    exact OutRel.bind (pskMixKey_sim h pk) fun a b hab => ⟨hab.1, ⟨rfl, hab.2.rel _⟩, rfl⟩

theorem readE_sim (h : SymSim y t.sym) (msg : Buf) :
    OutRel RRel (readE X.S.CB { t with sym := y } msg) (readE X.S.CB t msg) := by
  obtain ⟨role, reqs, action, tokens, sym, ls, le, lh, rs, re, rh, fe, fh, psk, prologue⟩ := t
  dsimp only at h
  unfold readE
  dsimp only
  cases re with
  | none => exact ⟨rfl, ⟨rfl, h.rel _⟩, rfl⟩
  | some r =>
    dsimp only
    split
    · exact ⟨rfl, ⟨rfl, h.rel _⟩, rfl⟩
    · refine OutRel.same _ fun b _ => ?_
      obtain ⟨k1, k2⟩ := mixHash_sim h b
      rw [k1]
      split
      · exact ⟨rfl, ⟨rfl, k2.rel _⟩, rfl⟩
      · refine OutRel.same _ fun a _ => ?_
        split
        · exact ⟨rfl, ⟨rfl, k2.rel _⟩, rfl⟩
        · exact readEKey_sim (t := ⟨role, reqs, action, tokens, (sym.mixHash b).2, ls, le, lh, rs, some a.2, rh, fe,
            fh, psk, prologue⟩) k2 a.2 msg r.pubLen

theorem readEncrypted_sim {D : DHBackend} {y z : X.Sy} (h : SymSim y z) (r : DHState D.Ext) (msg : Buf) :
    OutRel (fun a b => a.1 = b.1 ∧ SymSim a.2.1 b.2.1 ∧ a.2.2 = b.2.2)
      (readEncrypted X.S.CB D y r msg) (readEncrypted X.S.CB D z r msg) := by
  unfold readEncrypted
  rw [getMacLength_sim h]
  dsimp only
  split
  · exact ⟨rfl, h, rfl⟩
  · refine OutRel.same _ fun d _ => ?_
    refine OutRel.bind (decryptAndHash_sim h _) fun a b hab => ?_
    obtain ⟨e, s', m⟩ := a
    obtain ⟨e', t', m'⟩ := b
    obtain ⟨h1, h2, h3⟩ := hab
    dsimp only at h1 h2 h3
    subst h1
    subst h3
    dsimp only
    split
    · exact ⟨rfl, h2, rfl⟩
    · exact OutRel.same _ fun pk _ => OutRel.same _ fun a _ => ⟨rfl, h2, rfl⟩

theorem readS_sim (h : SymSim y t.sym) (msg : Buf) :
    OutRel RRel (readS X.S.CB { t with sym := y } msg) (readS X.S.CB t msg) := by
  obtain ⟨role, reqs, action, tokens, sym, ls, le, lh, rs, re, rh, fe, fh, psk, prologue⟩ := t
  dsimp only at h
  unfold readS
  dsimp only
  cases rs with
  | none => exact ⟨rfl, ⟨rfl, h.rel _⟩, rfl⟩
  | some r =>
    refine OutRel.bind (readEncrypted_sim h r msg) fun a b hab => ?_
    obtain ⟨e, s', r', n⟩ := a
    obtain ⟨e', t', r'', n'⟩ := b
    obtain ⟨h1, h2, h3⟩ := hab
    dsimp only at h1 h2 h3
    subst h1
    cases h3
    dsimp only
    split
    · exact ⟨rfl, ⟨rfl, h2.rel _⟩, rfl⟩
    · exact ⟨rfl, ⟨rfl, h2.rel _⟩, rfl⟩

theorem readF_sim (h : SymSim y t.sym) (msg : Buf) :
    OutRel RRel (readF X.S.CB { t with sym := y } msg) (readF X.S.CB t msg) := by
  obtain ⟨role, reqs, action, tokens, sym, ls, le, lh, rs, re, rh, fe, fh, psk, prologue⟩ := t
  dsimp only at h
  unfold readF
  dsimp only
  cases lh with
  | none => exact ⟨rfl, ⟨rfl, h.rel _⟩, rfl⟩
  | some l =>
    cases rh with
    | none => exact ⟨rfl, ⟨rfl, h.rel _⟩, rfl⟩
    | some r =>
      refine OutRel.bind (readEncrypted_sim h _ msg) fun a b hab => ?_
      obtain ⟨e, s', r', n⟩ := a
      obtain ⟨e', t', r'', n'⟩ := b
      obtain ⟨h1, h2, h3⟩ := hab
      dsimp only at h1 h2 h3
      subst h1
      cases h3
      dsimp only
      split
      · exact ⟨rfl, ⟨rfl, h2.rel _⟩, rfl⟩
      · exact OutRel.same _ fun nl _ => ⟨rfl, ⟨rfl, h2.rel _⟩, rfl⟩

theorem readToken_sim (h : SymSim y t.sym) (j j' : Nat → UInt8) (tok : UInt8) (msg : Buf) :
    OutRel RRel (readToken X.S.CB j tok { t with sym := y } msg) (readToken X.S.CB j' tok t msg) := by
  unfold readToken
  split
  · exact readE_sim h msg
  split
  · exact readS_sim h msg
  split
  · exact readF_sim h msg
  · exact OutRel.bind (dhToken_sim h tok j j') fun a b hab => ⟨hab.1, hab.2, rfl⟩

theorem readLoop_sim (j j' : Nat → Nat → UInt8) : ∀ (ts : Bytes) {t : X.H} {y : X.Sy}, SymSim y t.sym →
    ∀ (msg : Buf), OutRel RRel (readLoop X.S.CB j ts { t with sym := y } msg)
      (readLoop X.S.CB j' ts t msg) := by
  intro ts
  induction ts with
  | nil => intros; trivial
  | cons tok ts ih =>
    intro t y h msg
    simp only [readLoop]
    split
    · exact ⟨rfl, ⟨rfl, h.rel _⟩, rfl⟩
    split
    · exact ⟨rfl, ⟨rfl, h.rel _⟩, rfl⟩
    · refine OutRel.bind (readToken_sim h _ _ _ _) fun a b hab => ?_
      obtain ⟨e, s', m⟩ := a
      obtain ⟨e', t', m'⟩ := b
      obtain ⟨h1, ⟨h2, h3⟩, h4⟩ := hab
      dsimp only at h1 h2 h3 h4
      subst h1
      cases h4
      dsimp only
      split
      · exact ⟨rfl, ⟨h2, h3⟩, rfl⟩
      · next he =>
        have := ih (t := { t' with tokens := ts }) (y := s'.sym) (h3.2 (by simpa using he)) m
        rw [h2]
        exact this

theorem readPayload_sim (h : SymSim y t.sym) (pl : Option Bytes) (msg : Buf) :
    OutRel (fun a b => a.1 = b.1 ∧ JRel a.1 a.2.1 b.2.1 ∧ a.2.2 = b.2.2)
      (readPayload X.S.CB pl { t with sym := y } msg) (readPayload X.S.CB pl t msg) := by
  unfold readPayload
  refine OutRel.bind (decryptAndHash_sim h _) fun a b hab => ?_
  obtain ⟨e, s', m⟩ := a
  obtain ⟨e', t', m'⟩ := b
  obtain ⟨h1, h2, h3⟩ := hab
  dsimp only at h1 h2 h3
  subst h1
  subst h3
  dsimp only
  split
  · exact ⟨rfl, ⟨rfl, h2.rel _⟩, rfl⟩
  · cases pl with
    | none => exact ⟨rfl, ⟨rfl, h2.rel _⟩, rfl⟩
    | some p =>
      dsimp only
      split
      · exact ⟨rfl, ⟨rfl, h2.rel _⟩, rfl⟩
      · exact OutRel.same _ fun d _ => OutRel.same _ fun p' _ => ⟨rfl, ⟨rfl, h2.rel _⟩, rfl⟩

theorem readMessage_sim {s t : X.H} (h : Sim s t) (j j' : Nat → Nat → UInt8) (msg : Buf) (pl : Option Bytes) :
    OutRel (fun a b => a.1 = b.1 ∧ Sim a.2.1 b.2.1 ∧ a.2.2 = b.2.2) (s.readMessage X.S.CB j msg pl)
      (t.readMessage X.S.CB j' msg pl) := by
  obtain ⟨h1, h2, h3⟩ := h
  generalize s.sym = y at h1 h2 h3
  subst h1
  unfold readMessage
  dsimp only
  split
  · exact ⟨rfl, ⟨rfl, h2, h3⟩, rfl⟩
  split
  · exact ⟨rfl, ⟨rfl, h2, h3⟩, rfl⟩
  · next ha =>
    have ha : t.action = .read := by simpa using ha
    have hs := h3 (by rw [ha]; decide)
    refine OutRel.bind (R := fun a b => a.1 = b.1 ∧ JRel a.1 a.2.1 b.2.1 ∧ a.2.2 = b.2.2) ?_ fun a b hab => ?_
    · unfold read
      refine OutRel.bind (readLoop_sim j j' _ hs msg) fun a b hab => ?_
      obtain ⟨e, s', m⟩ := a
      obtain ⟨e', t', m'⟩ := b
      obtain ⟨h1, ⟨h2, h3⟩, h4⟩ := hab
      dsimp only at h1 h2 h3 h4
      subst h1
      cases h4
      dsimp only
      split
      · exact ⟨rfl, ⟨h2, h3⟩, rfl⟩
      · next he =>
        rw [h2]
        exact readPayload_sim (h3.2 (by simpa using he)) pl m
    · refine OutRel.same _ fun data _ => ?_
      obtain ⟨e, s', m⟩ := a
      obtain ⟨e', t', m'⟩ := b
      obtain ⟨h1, ⟨h2, h3⟩, h4⟩ := hab
      dsimp only at h1 h2 h3 h4
      subst h1
      cases h4
      dsimp only
      split
      · exact ⟨rfl, ⟨by rw [h2], h3.1, fun h => absurd rfl h⟩, rfl⟩
      · next he => exact ⟨rfl, ⟨h2, h3.1, fun _ => h3.2 (by simpa using he)⟩, rfl⟩

/-! ## The other entry points -/

theorem mixPublicKey_sim {Y : Type} {y z : X.Sy} (h : SymSim y z) (dh : Option (DHState Y)) :
    OutRel SymSim (mixPublicKey y dh) (mixPublicKey z dh) := by
  unfold mixPublicKey
  cases dh with
  | none => exact h
  | some d =>
    dsimp only
    split
    · exact OutRel.same _ fun b _ => (mixHash_sim h b).2
    · exact h

theorem mixChainingKey_sim {Y : Type} {y z : X.Sy} (h : SymSim y z) (dh : Option (DHState Y)) :
    OutRel SymSim (mixChainingKey X.S.CB y dh) (mixChainingKey X.S.CB z dh) := by
  unfold mixChainingKey
  cases dh with
  | none => exact h
  | some d =>
    dsimp only
    split
    · exact OutRel.same _ fun b _ => OutRel.bind (mixKey_sim h b) fun a b hab => hab.2
    · exact h

theorem mixPsk_sim {y z : X.Sy} (h : SymSim y z) (psk : Bytes) :
    OutRel SymSim (mixPsk y psk) (mixPsk z psk) := by
  unfold mixPsk
  split
  · exact h
  · obtain ⟨h1, h2, h3, h4⟩ := h
    rw [h2]
    refine OutRel.bind (hkdf_sim _ _ _ _ _ _) fun a b hab => ?_
    obtain ⟨e, cx, k1, k2⟩ := a
    obtain ⟨e', cy, k1', k2'⟩ := b
    obtain ⟨rfl, hk⟩ := hab
    cases hk
    dsimp only
    split
    · trivial
    · refine (mixHash_sim ?_ _).2
      exact ⟨h1, rfl, h3, h4⟩

theorem mixStatic_sim {Y : Type} (c : Bool) {y z : X.Sy} (h : SymSim y z) (dh : Option (DHState Y)) :
    OutRel SymSim (mixStatic c y dh) (mixStatic c z dh) := by
  unfold mixStatic
  split
  · exact mixPublicKey_sim h dh
  · exact h

theorem mixFallback_sim (w : X.Sy) (e : Option (DHState X.D.Ext)) (g : Option (DHState X.G.Ext)) {y z : X.Sy}
    (h : SymSim y z) :
    OutRel SymSim (mixFallback X.S.CB { t with sym := w } e g y) (mixFallback X.S.CB t e g z) := by
  unfold mixFallback
  dsimp only
  split
  · refine OutRel.bind (mixPublicKey_sim h e) fun a b h => ?_
    refine OutRel.bind (mixPublicKey_sim h g) fun a b h => ?_
    split
    · exact mixChainingKey_sim h e
    · exact h
  · exact h

theorem mixPreMessages_sim (w : X.Sy) {y z : X.Sy} (h : SymSim y z) :
    OutRel SymSim (mixPreMessages X.S.CB { t with sym := w } y) (mixPreMessages X.S.CB t z) := by
  unfold mixPreMessages
  dsimp only
  split
  · refine OutRel.bind (mixStatic_sim _ h _) fun a b h => ?_
    refine OutRel.bind (mixFallback_sim _ _ _ h) fun a b h => ?_
    exact mixStatic_sim _ h _
  · refine OutRel.bind (mixStatic_sim _ h _) fun a b h => ?_
    refine OutRel.bind (mixFallback_sim _ _ _ h) fun a b h => ?_
    exact mixStatic_sim _ h _

theorem start_sim {s t : X.H} (h : Sim s t) :
    OutRel (fun a b => a.1 = b.1 ∧ Sim a.2 b.2) (s.start X.S.CB) (t.start X.S.CB) := by
  obtain ⟨h1, h2, h3⟩ := h
  generalize s.sym = y at h1 h2 h3
  subst h1
  have hh : Sim { t with sym := y } t := ⟨rfl, h2, h3⟩
  unfold start
  dsimp only
  rw [h2.1]
  split
  · exact ⟨rfl, hh⟩
  next ha =>
  have hs := h3 (by rw [show t.action = .none by simpa using ha]; decide)
  split
  · exact ⟨rfl, hh⟩
  split
  · exact ⟨rfl, hh⟩
  split
  · exact ⟨rfl, hh⟩
  split
  · exact ⟨rfl, hh⟩
  refine OutRel.bind (mixPsk_sim (mixHash_sim hs _).2 _) fun a b h => ?_
  refine OutRel.bind (mixPreMessages_sim y h) fun a b h => ?_
  exact ⟨rfl, rfl, h.weak, fun _ => h⟩

theorem fallbackSym_sim {y z : X.Sy} (h : SymWeak y z) (pid : Int) (name : Bytes) :
    OutRel SymSim (fallbackSym y pid name) (fallbackSym z pid name) := by
  obtain ⟨h1, h2⟩ := h
  unfold fallbackSym
  cases hy : y.cipher with
  | none =>
    cases hz : z.cipher with
    | none => trivial
    | some d => simp [hy, hz] at h2
  | some c =>
    cases hz : z.cipher with
    | none => simp [hy, hz] at h2
    | some d =>
      dsimp only
      rw [h1]
      split
      · exact ⟨rfl, rfl, rfl, .inr ⟨_, _, rfl, rfl, rfl, rfl, fun h => by cases h⟩⟩
      · refine ⟨rfl, ?_, ?_, .inr ⟨_, _, rfl, rfl, rfl, rfl, fun h => by cases h⟩⟩
        · dsimp only
          rw [hashOne_eq X.S.hl, hashOne_eq X.S.hl]
        · dsimp only
          rw [hashOne_eq X.S.hl, hashOne_eq X.S.hl]

theorem fallbackKeys_sim (w : X.Sy) (fl : PatFlags) :
    OutRel (fun a b : X.H => a = { b with sym := w }) (fallbackKeys { t with sym := w } fl) (fallbackKeys t fl) := by
  unfold fallbackKeys
  dsimp only
  split
  · exact OutRel.same _ fun a _ => OutRel.same _ fun b _ => OutRel.same _ fun c _ => rfl
  · refine OutRel.same _ fun a _ => OutRel.same _ fun b _ => ?_
    split
    · exact rfl
    · exact OutRel.same _ fun c _ => rfl

theorem fallbackTo_sim {s t : X.H} (h : Sim s t) (pid : Int) (st st' : Bytes) (hl : st.length = st'.length) :
    OutRel (fun a b => a.1 = b.1 ∧ Sim a.2 b.2) (s.fallbackTo pid st) (t.fallbackTo pid st') := by
  obtain ⟨h1, h2, h3⟩ := h
  generalize s.sym = y at h1 h2 h3
  subst h1
  have hh : Sim { t with sym := y } t := ⟨rfl, h2, h3⟩
  have hal : fallbackAllowed { t with sym := y } = t.fallbackAllowed := rfl
  unfold fallbackTo
  rw [hal]
  dsimp only
  rw [h2.1]
  split
  · exact ⟨rfl, hh⟩
  split
  · exact ⟨rfl, hh⟩
  refine OutRel.same _ fun fl _ => ?_
  split
  · exact ⟨rfl, hh⟩
  split
  · exact ⟨rfl, hh⟩
  refine OutRel.bind (idToName_sim st st' hl _) fun a b hab => ?_
  obtain ⟨e, m⟩ := a
  obtain ⟨e', m'⟩ := b
  obtain ⟨k1, k2⟩ := hab
  dsimp only at k1 k2
  subst k1
  dsimp only
  split
  · exact ⟨rfl, hh⟩
  next he =>
  rw [k2 (by simpa using he)]
  refine OutRel.bind (fallbackKeys_sim y fl) fun a b hab => ?_
  refine OutRel.bind (fallbackSym_sim h2 pid _) fun c d hcd => ?_
  rw [hab]
  exact ⟨rfl, rfl, hcd.weak, fun _ => hcd⟩

theorem splitHS_sim {s t : X.H} (h : Sim s t) (a b c : Bool) :
    OutRel (fun p q => p.1 = q.1 ∧ Sim p.2.1 q.2.1 ∧ p.2.2 = q.2.2) (s.split X.S.CB a b c)
      (t.split X.S.CB a b c) := by
  obtain ⟨h1, h2, h3⟩ := h
  generalize s.sym = y at h1 h2 h3
  subst h1
  have hh : Sim { t with sym := y } t := ⟨rfl, h2, h3⟩
  obtain ⟨role, reqs, action, tokens, sym, ls, le, lh, rs, re, rh, fe, fh, psk, prologue⟩ := t
  dsimp only at h2 h3
  unfold split
  dsimp only
  split
  · exact ⟨rfl, hh, rfl⟩
  split
  · exact ⟨rfl, hh, rfl⟩
  next ha =>
  have ha : action = .split := by simpa using ha
  subst ha
  have hs := h3 (by decide)
  have hn : y.cipher.isNone = sym.cipher.isNone := by
    rcases hs.2.2.2 with ⟨a, b⟩ | ⟨c, d, a, b, _⟩ <;> simp [a, b]
  rw [hn]
  split
  · exact ⟨rfl, hh, rfl⟩
  cases role with
  | initiator =>
    refine OutRel.bind (split_sim hs _ _ _) fun p q hpq => ?_
    obtain ⟨k1, k2, k3⟩ := hpq
    exact ⟨k1, ⟨by rw [k1], k2.weak, fun _ => k2⟩, congrArg (fun w => (w.1, w.2)) k3⟩
  | responder =>
    refine OutRel.bind (split_sim hs _ _ _) fun p q hpq => ?_
    obtain ⟨k1, k2, k3⟩ := hpq
    exact ⟨k1, ⟨by rw [k1], k2.weak, fun _ => k2⟩, congrArg (fun w => (w.2, w.1)) k3⟩

theorem getHash_sim {s t : X.H} (h : Sim s t) (n : Nat) : s.getHandshakeHash n = t.getHandshakeHash n := by
  obtain ⟨h1, h2, h3⟩ := h
  generalize s.sym = y at h1 h2 h3
  subst h1
  unfold getHandshakeHash
  dsimp only
  split
  · rfl
  · next ha =>
    have hs := h3 (by
      intro hf
      rw [hf] at ha
      exact ha (by decide))
    rw [hs.2.2.1]

/-- Two results of creating an object: the same error code, or related objects. -/
def NewRel {α : Type} (R : α → α → Prop) (a b : Except Err α) : Prop :=
  match a, b with
  | .ok s, .ok t => R s t
  | .error e, .error e' => e = e'
  | _, _ => False

theorem new_sim {y z : X.Sy} (h : SymSim y z) (role : Role) :
    OutRel (NewRel Sim) (new y role) (new z role) := by
  unfold new
  rw [h.1]
  split
  · exact rfl
  · refine OutRel.same _ fun fl _ => ?_
    dsimp only
    repeat' split
    all_goals first | exact rfl | exact ⟨rfl, h.weak, fun _ => h⟩

theorem symNew_sim (S : Suite) (c c' : S.HB.Ctx) (name : Bytes) (id : ProtocolId) :
    NewRel SymSim (SymState.new S.CB S.HB c name id) (SymState.new S.CB S.HB c' name id) := by
  unfold SymState.new
  split
  · exact rfl
  split
  · exact rfl
  split
  · exact ⟨rfl, rfl, rfl, .inr ⟨_, _, rfl, rfl, rfl, rfl, fun _ => rfl⟩⟩
  · refine ⟨rfl, ?_, ?_, .inr ⟨_, _, rfl, rfl, rfl, rfl, fun _ => rfl⟩⟩
    · exact (hashOne_eq S.hl c name).trans (hashOne_eq S.hl c' name).symm
    · exact (hashOne_eq S.hl c name).trans (hashOne_eq S.hl c' name).symm

theorem newById_sim (c c' : X.S.HB.Ctx) (st st' : Bytes) (hl : st.length = st'.length) (id : ProtocolId)
    (role : Role) :
    OutRel (NewRel Sim) (newById X.S.CB c st id role) (newById X.S.CB c' st' id role) := by
  unfold newById
  refine OutRel.bind (R := NewRel SymSim) ?_ fun a b hab => ?_
  · unfold SymState.newById
    refine OutRel.bind (idToName_sim st st' hl id) fun a b hab => ?_
    obtain ⟨e, m⟩ := a
    obtain ⟨e', m'⟩ := b
    obtain ⟨k1, k2⟩ := hab
    dsimp only at k1 k2
    subst k1
    dsimp only
    split
    · exact rfl
    · next he =>
      rw [k2 (by simpa using he)]
      exact symNew_sim X.S c c' _ id
  · cases a with
    | error e =>
      cases b with
      | error e' => exact hab
      | ok z => exact hab.elim
    | ok y =>
      cases b with
      | error e' => exact hab.elim
      | ok z => exact new_sim hab role

theorem newByName_sim (c c' : X.S.HB.Ctx) (name : Bytes) (role : Role) :
    OutRel (NewRel Sim) (newByName X.S.CB c name role) (newByName X.S.CB c' name role) := by
  unfold newByName SymState.newByName
  dsimp only
  by_cases he : (protocolNameToId name).1 = .none
  · rw [if_neg (by simp [he]), if_neg (by simp [he])]
    have h := symNew_sim X.S c c' name (protocolNameToId name).2
    revert h
    cases SymState.new X.S.CB X.S.HB c name (protocolNameToId name).2 with
    | error e =>
      cases SymState.new X.S.CB X.S.HB c' name (protocolNameToId name).2 with
      | error e' => exact fun h => h
      | ok z => exact fun h => h.elim
    | ok y =>
      cases SymState.new X.S.CB X.S.HB c' name (protocolNameToId name).2 with
      | error e' => exact fun h => h.elim
      | ok z => exact fun h => new_sim h role
  · rw [if_pos he, if_pos he]
    exact rfl

end HS

/-! ## C23 -/

namespace HOp
variable {X : Setup}

/-- The same call, made while the uninitialised memory has other contents: the blocks that the
Diffie-Hellman results go to, and the buffer for the protocol name. -/
inductive SameCall {D G : DHBackend} : HOp D G → HOp D G → Prop
  | same (op : HOp D G) : SameCall op op
  | write (rnd j j' : Nat → Nat → UInt8) (mem : Bytes) (pl : Option Bytes) :
      SameCall (.write rnd j mem pl) (.write rnd j' mem pl)
  | read (j j' : Nat → Nat → UInt8) (msg : Buf) (pl : Option Bytes) :
      SameCall (.read j msg pl) (.read j' msg pl)
  | fallbackTo (p : Int) (st st' : Bytes) (h : st.length = st'.length) :
      SameCall (.fallbackTo p st) (.fallbackTo p st')

theorem step_sim {s t : X.H} (h : HS.Sim s t) {a b : HOp X.D X.G} (hab : SameCall a b) :
    OutRel (fun p q => p.1 = q.1 ∧ HS.Sim p.2 q.2) (a.step X.S.CB s) (b.step X.S.CB t) := by
  cases hab with
  | write rnd j j' mem pl =>
    refine OutRel.bind (HS.writeMessage_sim h rnd j j' mem pl) fun p q hpq => ?_
    exact ⟨by rw [hpq.1, hpq.2.2], hpq.2.1⟩
  | read j j' msg pl =>
    refine OutRel.bind (HS.readMessage_sim h j j' msg pl) fun p q hpq => ?_
    obtain ⟨e, u, v⟩ := p
    obtain ⟨e', u', v'⟩ := q
    obtain ⟨k1, k2, k3⟩ := hpq
    dsimp only at k1 k2 k3
    subst k1 k3
    exact ⟨rfl, k2⟩
  | fallbackTo pid st st' hl =>
    refine OutRel.bind (HS.fallbackTo_sim h pid st st' hl) fun p q hpq => ?_
    exact ⟨by rw [hpq.1], hpq.2⟩
  | same =>
    cases a with
    | write rnd j mem pl =>
      refine OutRel.bind (HS.writeMessage_sim h rnd j j mem pl) fun p q hpq => ?_
      exact ⟨by rw [hpq.1, hpq.2.2], hpq.2.1⟩
    | read j msg pl =>
      refine OutRel.bind (HS.readMessage_sim h j j msg pl) fun p q hpq => ?_
      obtain ⟨e, u, v⟩ := p
      obtain ⟨e', u', v'⟩ := q
      obtain ⟨k1, k2, k3⟩ := hpq
      dsimp only at k1 k2 k3
      subst k1 k3
      exact ⟨rfl, k2⟩
    | fallbackTo pid st =>
      refine OutRel.bind (HS.fallbackTo_sim h pid st st rfl) fun p q hpq => ?_
      exact ⟨by rw [hpq.1], hpq.2⟩
    | start =>
      refine OutRel.bind (HS.start_sim h) fun p q hpq => ?_
      exact ⟨by rw [hpq.1], hpq.2⟩
    | split x y z =>
      refine OutRel.bind (HS.splitHS_sim h x y z) fun p q hpq => ?_
      obtain ⟨e, u, v⟩ := p
      obtain ⟨e', u', v'⟩ := q
      obtain ⟨k1, k2, k3⟩ := hpq
      dsimp only at k1 k2 k3
      subst k1 k3
      exact ⟨rfl, k2⟩
    | getHash n =>
      simp only [step, HS.getHash_sim h n]
      exact OutRel.same _ fun p _ => ⟨rfl, h⟩
    | setPsk k =>
      obtain ⟨h1, h2, h3⟩ := h
      generalize s.sym = y at h1 h2 h3
      subst h1
      simp only [step, HS.setPsk, h2.1]
      split
      · exact ⟨rfl, rfl, h2, h3⟩
      split
      · exact ⟨rfl, rfl, h2, h3⟩
      split
      · exact ⟨rfl, rfl, h2, h3⟩
      · exact ⟨rfl, rfl, h2, h3⟩
    | setPrologue k =>
      obtain ⟨h1, h2, h3⟩ := h
      generalize s.sym = y at h1 h2 h3
      subst h1
      simp only [step, HS.setPrologue]
      split
      · exact ⟨rfl, rfl, h2, h3⟩
      · exact ⟨rfl, rfl, h2, h3⟩
    | localStatic op =>
      obtain ⟨h1, h2, h3⟩ := h
      generalize s.sym = y at h1 h2 h3
      subst h1
      exact OutRel.same _ fun p _ => ⟨rfl, rfl, h2, h3⟩
    | remoteStatic op =>
      obtain ⟨h1, h2, h3⟩ := h
      generalize s.sym = y at h1 h2 h3
      subst h1
      exact OutRel.same _ fun p _ => ⟨rfl, rfl, h2, h3⟩
    | fixedE op =>
      obtain ⟨h1, h2, h3⟩ := h
      generalize s.sym = y at h1 h2 h3
      subst h1
      exact OutRel.same _ fun p _ => ⟨rfl, rfl, h2, h3⟩
    | fixedH op =>
      obtain ⟨h1, h2, h3⟩ := h
      generalize s.sym = y at h1 h2 h3
      subst h1
      exact OutRel.same _ fun p _ => ⟨rfl, rfl, h2, h3⟩
    | getFixedE =>
      obtain ⟨h1, h2, h3⟩ := h
      generalize s.sym = y at h1 h2 h3
      subst h1
      refine ⟨rfl, ?_⟩
      unfold HS.getFixedE
      dsimp only
      rw [h2.1]
      split
      · exact ⟨rfl, h2, h3⟩
      split
      · exact ⟨rfl, h2, h3⟩
      split
      · exact ⟨rfl, h2, h3⟩
      · exact ⟨rfl, h2, h3⟩
    | getFixedH =>
      obtain ⟨h1, h2, h3⟩ := h
      generalize s.sym = y at h1 h2 h3
      subst h1
      refine ⟨rfl, ?_⟩
      unfold HS.getFixedH
      dsimp only
      rw [h2.1]
      split
      · exact ⟨rfl, h2, h3⟩
      split
      · exact ⟨rfl, h2, h3⟩
      split
      · exact ⟨rfl, h2, h3⟩
      · exact ⟨rfl, h2, h3⟩

theorem run_sim : ∀ (ops ops' : List (HOp X.D X.G)), ops.length = ops'.length →
    (∀ p ∈ ops.zip ops', SameCall p.1 p.2) → ∀ {s t : X.H}, HS.Sim s t →
    OutRel (fun p q => p.1 = q.1 ∧ HS.Sim p.2 q.2) (run X.S.CB s ops) (run X.S.CB t ops') := by
  intro ops
  induction ops with
  | nil =>
    intro ops' hl _ s t h
    cases ops' with
    | nil => exact ⟨rfl, h⟩
    | cons => simp at hl
  | cons a ops ih =>
    intro ops' hl hs s t h
    cases ops' with
    | nil => simp at hl
    | cons b ops' =>
      refine OutRel.bind (step_sim h (hs (a, b) (by simp))) fun p q hpq => ?_
      refine OutRel.bind (ih ops' (by simpa using hl) (fun r hr => hs r (by simp [hr])) hpq.2) fun u v huv => ?_
      exact ⟨by rw [hpq.1, huv.1], huv.2⟩

end HOp

/-- What a program sees that creates a HandshakeState by `create` and then makes the calls `ops`: the
error code, or the observations of all the calls together with everything in the final object
but the symmetric state (role, action, requirements, all key objects, pre-shared key, prologue). -/
def HOp.program {X : Setup} (create : Out (Except Err X.H)) (ops : List (HOp X.D X.G)) (blank : X.Sy) :
    Out (Except Err (List HObs × X.H)) := do
  match (← create) with
  | .error e => pure (.error e)
  | .ok s => do
    let (os, s') ← HOp.run X.S.CB s ops
    pure (.ok (os, { s' with sym := blank }))

/-- C23: what a program sees does not depend on uninitialised memory: not on the bytes that the
Diffie-Hellman results are written to, which are used even if nothing was written; not on the
buffers for the protocol names; not on what is in a fresh hash context. -/
theorem C23_uninitialised_memory (X : Setup) (c c' : X.S.HB.Ctx) (st st' : Bytes)
    (hst : st.length = st'.length) (id : ProtocolId) (name : Bytes) (role : Role)
    (ops ops' : List (HOp X.D X.G)) (hl : ops.length = ops'.length)
    (hs : ∀ p ∈ ops.zip ops', p.1.SameCall p.2) (blank : X.Sy) :
    HOp.program (HS.newById X.S.CB c st id role) ops blank =
      HOp.program (HS.newById X.S.CB c' st' id role) ops' blank ∧
    HOp.program (HS.newByName X.S.CB c name role) ops blank =
      HOp.program (HS.newByName X.S.CB c' name role) ops' blank := by
  have key : ∀ x y : Out (Except Err X.H), OutRel (HS.NewRel HS.Sim) x y → HOp.program x ops blank = HOp.program y ops' blank := by
    intro x y h
    refine OutRel.eq (OutRel.bind h fun a b hab => ?_)
    cases a with
    | error e =>
      cases b with
      | error e' => exact congrArg Except.error hab
      | ok z => exact hab.elim
    | ok s =>
      cases b with
      | error e' => exact hab.elim
      | ok t =>
        refine OutRel.bind (HOp.run_sim ops ops' hl hs hab) fun p q hpq => ?_
        obtain ⟨os, u⟩ := p
        obtain ⟨os', v⟩ := q
        obtain ⟨h1, h2, _⟩ := hpq
        dsimp only at h1 h2
        generalize u.sym = y at h2
        subst h1
        subst h2
        exact rfl
  exact ⟨key _ _ (HS.newById_sim c c' st st' hst id role), key _ _ (HS.newByName_sim c c' name role)⟩

/-! ## A concrete case -/

/-- A history in which memory that nothing was written to does reach the chaining key: the local
static private key is erased after the start, so the second Diffie-Hellman function of the K
pattern fails. -/
def junkOps (j : UInt8) : List (HOp meetSetup.D meetSetup.G) :=
  [.localStatic (.setKeypairPrivate [3, 4]), .remoteStatic (.setPublicKey [7, 9]), .start,
   .localStatic .clearKey, .write (fun a b => UInt8.ofNat (a * 11 + b * 5 + 3)) (fun _ _ => j)
    (List.replicate 60 1) (some [1, 2]), .start, .getHash 4, .split true true true]

/-- The codes, and the chaining key that is left. -/
def junkCheck (j : UInt8) : Option (List Err × Bytes) :=
  match meetMake "Noise_K_25519_ChaChaPoly_BLAKE2s" .initiator (junkOps j) with
  | some (_, os, s) => some (os.map (·.err), s.sym.ck)
  | none => none

/-- The two histories differ in uninitialised memory only. -/
example : ∀ p ∈ (junkOps 9).zip (junkOps 8), p.1.SameCall p.2 := by
  intro p hp
  simp only [junkOps, List.zip_cons_cons, List.zip_nil_right, List.mem_cons, List.not_mem_nil, or_false] at hp
  rcases hp with rfl | rfl | rfl | rfl | rfl | rfl | rfl | rfl
  all_goals first | exact .same _ | exact .write _ _ _ _ _

/-- The codes are the same, but not the chaining keys. -/
example : (junkCheck 9).map (·.1) = some [.none, .none, .none, .none, .invalidPrivateKey, .invalidState,
      .invalidState, .invalidState] ∧
    (junkCheck 8).map (·.1) = (junkCheck 9).map (·.1) ∧ junkCheck 8 ≠ junkCheck 9 := by decide +kernel

end Noise
