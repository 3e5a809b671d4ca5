import Verif.HandshakeRefine
/-!
# The curve and New Hope back ends implement the specification's Diffie-Hellman functions
-/

namespace Noise

/-- If the back end's calculation leaves the private key object alone, so does
`noise_dhstate_calculate`. -/
theorem DHBackend.calculateApi_same (D : DHBackend) {p q p' : DHState D.Ext} {shared sh : Bytes} {e : Err}
    (hc : ∀ r, D.calculate p q = .ok r → r.2.2 = p)
    (h : D.calculateApi p (.same q) shared = .ok (e, sh, p')) : p' = p := by
  unfold DHBackend.calculateApi at h
  dsimp only at h
  split at h
  · cases h; rfl
  split at h
  · cases h; rfl
  simp only [Out.bind_eq_ok] at h
  obtain ⟨n, _, r, h1, h2⟩ := h
  cases h2
  exact hc r h1

/-- Curve25519 / Curve448 in the terms of the specification: key pairs are private keys, an all-zero
public key gives the all-zero secret, and a receiver refuses an all-zero ephemeral key. Not a
definition of the code base. -/
def CurveFns.specDH (F : CurveFns) (Z : F.Sized) : Spec.DH where
  KP := { k : Bytes // k.length = F.len }
  pub k := F.eval k.1 F.base
  len _ := F.len
  gen _ rnd := ⟨F.clamp (randBytes rnd F.len), Z.clamp_len _ (by simp)⟩
  dh k pb := if AllZero pb then some (List.replicate F.len 0)
    else if F.valid pb then some (F.eval k.1 pb) else none
  reject pb := decide (AllZero pb)

/-- The object holds the key pair with private key `k`. -/
def CurveFns.Holds (F : CurveFns) (Z : F.Sized) (s : DHState Unit) (k : (F.specDH Z).KP) : Prop :=
  s.keyType = .keypair ∧ s.priv = k.1 ∧ s.pub = F.eval k.1 F.base

theorem CurveFns.pubKey_eq {F : CurveFns} {s : DHState Unit} (h : F.Inv s) : s.pubKey = s.pub :=
  List.take_of_length_le (by have := h.2.1; have := h.2.2.2; omega)

theorem CurveFns.calc_match (F : CurveFns) (Z : F.Sized) (p q : DHState Unit) (k : (F.specDH Z).KP)
    (hq : F.Inv q) (hk : F.Holds Z p k) :
    match (F.specDH Z).dh k q.pubKey with
    | some z =>
      (if AllZero q.pub then Err.none else if F.valid q.pub then .none else .invalidPublicKey) = .none ∧
        (if AllZero q.pub then List.replicate F.len 0 else F.eval p.priv q.pub) = z
    | none =>
      (if AllZero q.pub then Err.none else if F.valid q.pub then .none else .invalidPublicKey)
        ≠ .none := by
  rw [CurveFns.pubKey_eq hq]
  simp only [CurveFns.specDH]
  by_cases hz : AllZero q.pub
  · simp [hz]
  · by_cases hv : F.valid q.pub = true
    · simp [hz, hv, hk.2.1]
    · simp [hz, hv]

/-- The curve back ends implement the specification's Diffie-Hellman functions, whatever the roles. -/
def CurveFns.realizes (F : CurveFns) (Z : F.Sized) :
    Realizes F.backend F.Inv (fun _ => F.len) true (F.specDH Z) where
  KPof := F.Holds Z
  FixedOf f g := ∃ k, F.Holds Z f k ∧ g = fun _ => k
  keypair := fun s k h => h.1
  pub := fun s k hi h => (CurveFns.pubKey_eq hi).trans h.2.2
  len := fun _ => rfl
  anyLen := fun _ _ _ => rfl
  validate := fun _ _ => rfl
  reject := fun pb => by simp [CurveFns.specDH, CurveFns.backend]
  anyGen := fun _ _ _ _ => rfl
  anyFixed := by rintro _ f g o o' ⟨k, _, rfl⟩; rfl
  gen := by
    intro rnd l remote hl hr _
    have key : ∀ o, DHBackend.generateDependent.finish F.backend (F.generate rnd l o) =
        .ok (.none, { l with
          keyType := .keypair
          priv := F.clamp (randBytes rnd F.len)
          pub := F.eval (F.clamp (randBytes rnd F.len)) F.base }) := by
      intro o
      rw [curve_generate F Z rnd l hl o]
      rfl
    cases remote with
    | none => exact ⟨_, key none, rfl, rfl, rfl⟩
    | some r => exact ⟨_, key (some r), rfl, rfl, rfl⟩
  fixed := by
    rintro f g l remote hl hf hr ⟨k, hk, rfl⟩ _
    exact ⟨_, curve_copy F { l with keyType := f.keyType } f hl hf remote, hk.1, hk.2.1, hk.2.2⟩
  calcSpec := by
    intro p k q shared hp hk hq _ hl _
    exact ⟨_, _, _, curve_calculateApi F Z p q hp hq hk.1 shared hl, hk,
      F.calc_match Z p q k hq hk⟩
  calcSame := by
    intro p q shared e sh p' _ h
    suffices key : ∀ r : Err × Bytes × DHState Unit, F.calculate p q = .ok r → r.2.2 = p from
      DHBackend.calculateApi_same F.backend key h
    clear h
    intro r h
    unfold CurveFns.calculate at h
    simp only [Out.bind_eq_ok] at h
    obtain ⟨_, _, _, _, h⟩ := h
    cases h; rfl

/-- A curve object that reports a key pair holds one, provided every key pair it was given came
through the interface (C24). -/
theorem CurveFns.holds_of_reach (F : CurveFns) (Z : F.Sized) (s : DHState Unit)
    (h : DHReach F.backend s) (hk : s.hasKeypair = true) : ∃ k, F.Holds Z s k := by
  have hi : F.Inv s := dhreach_inv (curve_lawful F Z) s h
  exact ⟨⟨s.priv, hi.2.2.1⟩, by simpa [DHState.hasKeypair] using hk, rfl,
    C24_keypair_consistent F Z s h hk⟩

/-- New Hope in the terms of the specification: the first key pair comes from `keygen`, the second
from `sharedb` with the first public key, and already fixes the shared secret. Not a definition of the
code base. -/
inductive NewHopeKP
  | first (r : Bytes)
  | second (received r : Bytes)

/-- See `NewHopeKP`. -/
def NewHopeFns.specDH (F : NewHopeFns) : Spec.DH where
  KP := NewHopeKP
  pub
    | .first r => (F.keygen r).1
    | .second o r => (F.sharedb o r).2
  len second := if second then sendBBytes else sendABytes
  gen
    | none, rnd => .first (randBytes rnd 64)
    | some o, rnd => .second o (randBytes rnd 32)
  dh
    | .first r, pb => some (F.shareda (F.keygen r).2 pb)
    | .second o r, _ => some (F.sharedb o r).1
  reject _ := false

/-- The object holds the key pair `k`. -/
def NewHopeFns.Holds (F : NewHopeFns) (s : DHState NewHopeExt) : NewHopeKP → Prop
  | .first r => s.keyType = .keypair ∧ s.role ≠ some .responder ∧
      s.pub.take sendABytes = (F.keygen r).1 ∧ s.ext.poly = (F.keygen r).2
  | .second o r => s.keyType = .keypair ∧ s.role = some .responder ∧
      s.pub = (F.sharedb o r).2 ∧ s.ext.generated = true ∧ s.ext.poly.take 32 = (F.sharedb o r).1

theorem NewHopeFns.calc_holds (F : NewHopeFns) (_Z : F.Sized) (p q : DHState NewHopeExt)
    (k : NewHopeKP) (shared : Bytes) (hp : newHopeInv p) (hk : F.Holds p k) (hq : newHopeInv q)
    (hl : shared.length = 32)
    (hrole : ∃ b, p.role = some (genRole b) ∧ q.role = some (genRole (!b))) :
    ∃ e sh p', F.backend.calculateApi p (.same q) shared = .ok (e, sh, p') ∧ F.Holds p' k ∧
      (match F.specDH.dh k q.pubKey with
       | some z => e = .none ∧ sh = z
       | none => e ≠ .none) := by
  obtain ⟨b, hb, hb'⟩ := hrole
  cases k with
  | first r =>
    obtain ⟨k1, k2, k3, k4⟩ := hk
    have hc : F.calculate p q = .ok (.none, F.shareda (F.keygen r).2 q.pub, p) := by
      unfold NewHopeFns.calculate
      rw [if_neg k2, load_full _ _ (by rw [hq.2.1]; rfl), k4]
      rfl
    refine ⟨_, _, _, newHope_calculateApi F p q p _ shared hq k1 hl hc, ⟨k1, k2, k3, k4⟩, ?_⟩
    have : b = false := by cases b <;> simp_all [genRole]
    subst this
    have hq' : q.pubKey = q.pub := by
      simp only [DHState.pubKey, (hq.2.2.2.1 hb').2]
      exact List.take_of_length_le (by rw [hq.2.1]; simp [sendBBytes])
    simp [NewHopeFns.specDH, hq']
  | second o r =>
    obtain ⟨k1, k2, k3, k4, k5⟩ := hk
    have hc : F.calculate p q = .ok (.none, (F.sharedb o r).1, p) := by
      unfold NewHopeFns.calculate
      rw [if_pos k2, if_pos k4, load_ok (by rw [hp.2.2.1]; simp), List.drop_zero, k5]
      rfl
    exact ⟨_, _, _, newHope_calculateApi F p q p _ shared hq k1 hl hc, ⟨k1, k2, k3, k4, k5⟩,
      by simp [NewHopeFns.specDH]⟩

theorem NewHopeFns.gen_holds (F : NewHopeFns) (Z : F.Sized) (rnd : Nat → UInt8)
    (l : DHState NewHopeExt) (remote : Option (DHState NewHopeExt)) (hl : newHopeInv l)
    (hr : ∀ r, remote = some r → newHopeInv r)
    (hrole : l.role = some (genRole (pubOf remote).isSome))
    (hrem : ∀ r, remote = some r → r.keyType ≠ .noKey → r.role = some .initiator) :
    ∃ l', F.backend.generateDependent rnd l (remote.map (DHArg.same (D := F.backend))) = .ok (.none, l') ∧
      F.Holds l' (F.specDH.gen (pubOf remote) rnd) := by
  cases hp : pubOf remote with
  | none =>
    rw [hp] at hrole
    have hnr : l.role ≠ some .responder := by rw [hrole]; simp [genRole]
    have pa : l.privLen = 64 := (hl.2.2.2.2 hnr).1
    have key : ∀ o, F.generate rnd l o = .ok (.none, { l with
        priv := randBytes rnd 64,
        pub := (F.keygen (randBytes rnd 64)).1 ++ l.pub.drop sendABytes,
        ext := (⟨true, (F.keygen (randBytes rnd 64)).2⟩ : NewHopeExt) }) := by
      intro o
      rw [← newHope_generate_initiator F Z rnd l hl hnr]
      unfold NewHopeFns.generate
      rw [if_neg hnr, if_neg hnr]
    have hh : ∀ o, DHBackend.generateDependent.finish F.backend (F.generate rnd l o) =
        .ok (.none, { l with
          keyType := .keypair
          priv := randBytes rnd 64,
          pub := (F.keygen (randBytes rnd 64)).1 ++ l.pub.drop sendABytes,
          ext := (⟨true, (F.keygen (randBytes rnd 64)).2⟩ : NewHopeExt) }) := by
      intro o; rw [key o]; rfl
    have fin : F.Holds { l with
          keyType := .keypair
          priv := randBytes rnd 64,
          pub := (F.keygen (randBytes rnd 64)).1 ++ l.pub.drop sendABytes,
          ext := (⟨true, (F.keygen (randBytes rnd 64)).2⟩ : NewHopeExt) }
        (.first (randBytes rnd 64)) := by
      refine ⟨rfl, hnr, ?_, rfl⟩
      dsimp only
      rw [List.take_append_of_le_length (Nat.le_of_eq (Z.keygen_send _).symm),
        List.take_of_length_le (Nat.le_of_eq (Z.keygen_send _))]
    cases remote with
    | none => exact ⟨_, hh none, fin⟩
    | some r => exact ⟨_, hh (some r), fin⟩
  | some pb =>
    cases remote with
    | none => cases hp
    | some r =>
      have hk : r.keyType ≠ .noKey := by
        intro h; simp [pubOf, h] at hp
      have hpb : r.pub.take sendABytes = pb := by
        have h1 := hrem r rfl hk
        have h2 := (hr r rfl).2.2.2.2 (by rw [h1]; simp)
        simp only [pubOf, if_neg hk, Option.some.injEq, DHState.pubKey, h2.2] at hp
        exact hp
      rw [hp] at hrole
      have hrr : l.role = some .responder := hrole
      have pa : l.privLen = 32 := (hl.2.2.2.1 hrr).1
      have hI : newHopeInv { l with priv := randBytes rnd 32 ++ l.priv.drop 32 } :=
        ⟨by simp [hl.1], hl.2.1, hl.2.2.1, hl.2.2.2.1, hl.2.2.2.2⟩
      have hg : F.generate rnd l (some r) = .ok (.none, { l with
          priv := randBytes rnd 32 ++ l.priv.drop 32
          pub := (F.sharedb pb (randBytes rnd 32)).2
          ext := { generated := true,
                   poly := (F.sharedb pb (randBytes rnd 32)).1 ++ l.ext.poly.drop 32 } }) := by
        unfold NewHopeFns.generate
        rw [if_pos hrr]
        dsimp only
        rw [if_neg hk, store_at_zero _ _ (by simp [pa, hl.1])]
        simp only [Out.bind_ok, randBytes_length]
        rw [show randBytes rnd l.privLen = randBytes rnd 32 by rw [pa],
          show l.priv.drop l.privLen = l.priv.drop 32 by rw [pa]]
        rw [runSharedB_eq F Z _ r hI (hr r rfl), hpb]
        have : (randBytes rnd 32 ++ l.priv.drop 32).take 32 = randBytes rnd 32 := by
          rw [List.take_append_of_le_length (by simp), List.take_of_length_le (by simp)]
        dsimp only
        rw [this]
        rfl
      refine ⟨{ l with
          keyType := .keypair
          priv := randBytes rnd 32 ++ l.priv.drop 32
          pub := (F.sharedb pb (randBytes rnd 32)).2
          ext := { generated := true,
                   poly := (F.sharedb pb (randBytes rnd 32)).1 ++ l.ext.poly.drop 32 } }, ?_, ?_⟩
      · show DHBackend.generateDependent.finish F.backend (F.generate rnd l (some r)) = _
        rw [hg]; rfl
      · refine ⟨rfl, hrr, rfl, rfl, ?_⟩
        dsimp only
        rw [List.take_append_of_le_length (Nat.le_of_eq (Z.sharedb_key _ _).symm),
          List.take_of_length_le (Nat.le_of_eq (Z.sharedb_key _ _))]

/-- The New Hope back end implements the specification's functions, given the roles the handshake layer
sets. Fixed key pairs (a test vector feature) are left out. -/
def NewHopeFns.realizes (F : NewHopeFns) (Z : F.Sized) :
    Realizes F.backend newHopeInv (fun r => if r = some .responder then sendBBytes else sendABytes)
      false F.specDH where
  KPof := F.Holds
  FixedOf _ _ := False
  keypair := fun s k h => by cases k <;> exact h.1
  pub := by
    intro s k hi h
    cases k with
    | first r => simp only [DHState.pubKey, (hi.2.2.2.2 h.2.1).2]; exact h.2.2.1
    | second o r =>
      simp only [DHState.pubKey, (hi.2.2.2.1 h.2.1).2, h.2.2.1]
      exact List.take_of_length_le (by rw [Z.sharedb_send]; exact Nat.le_refl _)
  len := by intro b; cases b <;> rfl
  anyLen := by simp
  validate := fun _ _ => rfl
  reject := fun pb => (decide_eq_false (by rintro ⟨h, _⟩; cases h)).symm
  anyGen := by simp
  anyFixed := by simp
  gen := by
    intro rnd l remote hl hr hrole
    simp only [Bool.false_eq_true, false_or] at hrole
    exact F.gen_holds Z rnd l remote hl hr hrole.1 hrole.2
  fixed := by rintro _ _ _ _ _ _ _ ⟨⟩
  calcSpec := by
    intro p k q shared hp hk hq hqk hl hrole
    simp only [Bool.false_eq_true, false_or] at hrole
    exact F.calc_holds Z p q k shared hp hk hq hl hrole
  calcSame := by
    intro p q shared e sh p' hr h
    simp only [Bool.false_eq_true, false_or] at hr
    suffices key : ∀ r : Err × Bytes × DHState NewHopeExt, F.calculate p q = .ok r → r.2.2 = p from
      DHBackend.calculateApi_same F.backend key h
    clear h
    intro r h
    unfold NewHopeFns.calculate at h
    rw [if_neg (by simp [hr])] at h
    simp only [Out.bind_eq_ok] at h
    obtain ⟨_, _, h⟩ := h
    cases h; rfl

end Noise
