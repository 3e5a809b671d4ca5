import Verif.NewHopeReal
import Verif.NewHopeDH
/-!
# What a shared key depends on, and what is left of a key after it is cleared (C73, C74)
-/

namespace Noise

/-- An object after it has generated a key pair as the initiator. -/
def newHopeInitiated (F : NewHopeFns) (rnd : Nat → UInt8) (a : DHState NewHopeExt) : DHState NewHopeExt :=
  { a with
    priv := randBytes rnd 64, pub := (F.keygen (randBytes rnd 64)).1 ++ a.pub.drop sendABytes,
    ext := ⟨true, (F.keygen (randBytes rnd 64)).2⟩, keyType := .keypair }

theorem newHopeInitiated_eq (F : NewHopeFns) (Z : F.Sized) (rnd : Nat → UInt8) (a : DHState NewHopeExt) (ha : newHopeInv a)
    (hr : a.role = some .initiator) : F.backend.generateDependent rnd a none = .ok (.none, newHopeInitiated F rnd a) := by
  have hg := newHope_generate_initiator F Z rnd a ha (by rw [hr]; decide)
  unfold DHBackend.generateDependent
  dsimp only
  unfold DHBackend.generateDependent.finish
  rw [show F.backend.generate rnd a none = _ from hg]
  rfl

/-- The same with the role changed to responder. -/
theorem newHopeInitiated_role (F : NewHopeFns) (rnd : Nat → UInt8) (a : DHState NewHopeExt) :
    F.backend.setRole (newHopeInitiated F rnd a) (some .responder) =
      { newHopeInitiated F rnd a with role := some .responder, privLen := 32, pubLen := sendBBytes } := rfl

theorem clear_state (D : DHBackend) (s : DHState D.Ext) (h1 : s.pubLen ≤ s.pub.length) (h2 : s.privLen ≤ s.priv.length) :
    D.clearKey s = .ok { s with
      pub := List.replicate s.pubLen 0 ++ s.pub.drop s.pubLen, priv := List.replicate s.privLen 0 ++ s.priv.drop s.privLen,
      keyType := .noKey } := by
  unfold DHBackend.clearKey
  rw [store_zero_len _ _ h1, store_zero_len _ _ h2]
  rfl

/-! ## C73 -/

/-- **C73** for curves: the shared key is the function of the curve at the private key and the public key, or zeros for
the null public key; neither object is changed. -/
theorem C73_curve_partial (F : CurveFns) (Z : F.Sized) (p q : DHState Unit) (hp : F.Inv p) (hq : F.Inv q)
    (hk : p.hasKeypair = true) (shared : Bytes) (hl : shared.length = F.len) :
    F.backend.calculateApi p (.same q) shared =
      if AllZero q.pub then .ok (.none, List.replicate F.len 0, p)
      else .ok (if F.valid q.pub then .none else .invalidPublicKey, F.eval p.priv q.pub, p) := by
  obtain ⟨-, -, p3, -⟩ := hp
  obtain ⟨-, q2, -, q4⟩ := hq
  unfold DHBackend.calculateApi
  dsimp only
  have hk' : p.keyType = .keypair := by simpa [DHState.hasKeypair] using hk
  have hc : F.backend.calculate p q = .ok (if F.valid q.pub then .none else .invalidPublicKey, F.eval p.priv q.pub, p) := by
    show F.calculate p q = _
    unfold CurveFns.calculate
    rw [load_full _ _ p3.symm, load_full _ _ q4.symm]
    rfl
  have ht : q.pub.take q.pubLen = q.pub := List.take_of_length_le (by omega)
  rw [if_neg (show ¬ shared.length ≠ F.backend.sharedLen by show ¬ shared.length ≠ F.len; omega), if_neg (by simp [hk']),
    nullKey_eq _ _ (by omega), hc, ht]
  have hn : F.backend.nullsAllowed = true := rfl
  by_cases hz : AllZero q.pub
  · rw [if_pos hz, if_pos ⟨hn, hz⟩]
    simp only [Out.bind_ok, Out.pure_eq, if_pos]
    have : DHBackend.cmoveZero (F.eval p.priv q.pub) 1 = List.replicate F.len 0 := by
      unfold DHBackend.cmoveZero
      refine List.eq_replicate_iff.2 ⟨by rw [List.length_map]; exact Z.eval_len _ _, fun x hx => ?_⟩
      obtain ⟨y, -, rfl⟩ := List.mem_map.1 hx
      show y &&& 0 = 0
      exact UInt8.and_zero
    rw [this]
  · rw [if_neg hz, if_neg (fun h => hz h.2)]
    simp only [Out.bind_ok, Out.pure_eq, cmoveZero_zero]
    rfl

theorem responder_calculate (F : NewHopeFns) (p q : DHState NewHopeExt) (hr : p.role = some .responder)
    (hg : p.ext.generated = true) (hl : p.ext.poly.length = 2048) :
    F.calculate p q = .ok (.none, p.ext.poly.take 32, p) := by
  unfold NewHopeFns.calculate
  rw [if_pos hr, if_pos hg, load_ok (by omega)]
  rfl

/-- **C73 fails** for New Hope: once a responder has generated its key pair, `noise_dhstate_calculate` returns the same shared
key whatever public key is passed to it. -/
theorem C73_fails_peer_ignored (F : NewHopeFns) (p q q' : DHState NewHopeExt) (hp : newHopeInv p) (hq : newHopeInv q)
    (hq' : newHopeInv q') (hr : p.role = some .responder) (hg : p.ext.generated = true) (hk : p.keyType = .keypair)
    (shared : Bytes) (hl : shared.length = 32) :
    F.backend.calculateApi p (.same q) shared = .ok (.none, p.ext.poly.take 32, p) ∧
      F.backend.calculateApi p (.same q') shared = F.backend.calculateApi p (.same q) shared := by
  have hc := fun x => responder_calculate F p x hr hg hp.2.2.1
  have a := newHope_calculateApi F p q p _ shared hq hk hl (hc q)
  exact ⟨a, (newHope_calculateApi F p q' p _ shared hq' hk hl (hc q')).trans a.symm⟩

/-- **C73 fails** for New Hope: if the role of an object that has generated a key pair as the initiator is changed to
responder, `noise_dhstate_calculate` returns the first 32 bytes of the secret polynomial as the shared key. -/
theorem C73_fails_role (F : NewHopeFns) (Z : F.Sized) (rnd : Nat → UInt8) (a q : DHState NewHopeExt) (ha : newHopeInv a)
    (hr : a.role = some .initiator) (hq : newHopeInv q) (shared : Bytes) (hl : shared.length = 32) :
    ∃ a1, F.backend.generateDependent rnd a none = .ok (.none, a1) ∧
      F.backend.calculateApi (F.backend.setRole a1 (some .responder)) (.same q) shared =
        .ok (.none, (F.keygen (randBytes rnd 64)).2.take 32, F.backend.setRole a1 (some .responder)) := by
  refine ⟨_, newHopeInitiated_eq F Z rnd a ha hr, ?_⟩
  refine newHope_calculateApi F _ q _ _ shared hq rfl hl ?_
  exact responder_calculate F _ q rfl rfl (by show (F.keygen _).2.length = _; exact Z.keygen_sk _)

/-- **C73 fails** for New Hope: with a private key that was set, `noise_dhstate_calculate` of the responder writes the
public key of the object it takes as `const`. -/
theorem C73_fails_object_changed (F : NewHopeFns) (Z : F.Sized) (p q : DHState NewHopeExt) (hp : newHopeInv p) (hq : newHopeInv q)
    (hr : p.role = some .responder) (hg : p.ext.generated = false) (hk : p.keyType = .keypair)
    (shared : Bytes) (hl : shared.length = 32) :
    F.backend.calculateApi p (.same q) shared = .ok (.none, (F.sharedb (q.pub.take sendABytes) (p.priv.take 32)).1,
      { p with pub := (F.sharedb (q.pub.take sendABytes) (p.priv.take 32)).2 }) := by
  refine newHope_calculateApi F p q _ _ shared hq hk hl ?_
  unfold NewHopeFns.calculate
  rw [if_pos hr, if_neg (by rw [hg]; decide), load_ok (by rw [hp.1]; omega), load_ok (by rw [hq.2.1]; decide)]
  simp only [Out.bind_ok, List.drop_zero]
  rw [store_full _ _ (by rw [Z.sharedb_send, hp.2.1]; rfl)]
  rfl

/-! ## C74 -/

/-- **C74** for curves: `noise_dhstate_clear_key` leaves nothing of the keys. -/
theorem C74_curve_partial (F : CurveFns) (s : DHState Unit) (h : F.Inv s) :
    F.backend.clearKey s = .ok { s with pub := List.replicate F.len 0, priv := List.replicate F.len 0, keyType := .noKey } := by
  obtain ⟨h1, h2, h3, h4⟩ := h
  unfold DHBackend.clearKey
  rw [h1, h2, store_full _ _ (by simp [h4]), store_full _ _ (by simp [h3])]
  rfl

/-- **C74 fails** for New Hope: after `noise_dhstate_clear_key` the object still contains the secret polynomial, from
which the shared key can be computed. -/
theorem C74_fails (F : NewHopeFns) (Z : F.Sized) (rnd : Nat → UInt8) (a : DHState NewHopeExt) (ha : newHopeInv a)
    (hr : a.role = some .initiator) :
    ∃ a1 a2, F.backend.generateDependent rnd a none = .ok (.none, a1) ∧ F.backend.clearKey a1 = .ok a2 ∧
      a2.ext.poly = (F.keygen (randBytes rnd 64)).2 := by
  have pl := ha.2.2.2.2 (by rw [hr]; decide)
  refine ⟨_, _, newHopeInitiated_eq F Z rnd a ha hr, clear_state _ _ ?_ ?_, rfl⟩
  · unfold newHopeInitiated
    dsimp only
    rw [pl.2, List.length_append, Z.keygen_send]
    omega
  · unfold newHopeInitiated
    dsimp only
    rw [pl.1, randBytes_length]

/-- **C74 fails** for New Hope also for the random seed, if the role was changed from initiator to responder before: its
second half, from which the secret polynomial is computed, is not cleared. -/
theorem C74_fails_seed (F : NewHopeFns) (Z : F.Sized) (rnd : Nat → UInt8) (a : DHState NewHopeExt) (ha : newHopeInv a)
    (hr : a.role = some .initiator) :
    ∃ a1 a2, F.backend.generateDependent rnd a none = .ok (.none, a1) ∧
      F.backend.clearKey (F.backend.setRole a1 (some .responder)) = .ok a2 ∧
      a2.priv = List.replicate 32 0 ++ (randBytes rnd 64).drop 32 := by
  refine ⟨_, _, newHopeInitiated_eq F Z rnd a ha hr, clear_state _ _ ?_ ?_, rfl⟩
  · rw [newHopeInitiated_role]
    unfold newHopeInitiated
    dsimp only
    rw [List.length_append, Z.keygen_send, List.length_drop, ha.2.1]
    decide
  · rw [newHopeInitiated_role]
    unfold newHopeInitiated
    dsimp only
    rw [randBytes_length]
    decide

/-- An object that meets the hypotheses: a new one with the role set. -/
example (F : NewHopeFns) : newHopeInv (F.backend.setRole F.backend.init (some .initiator)) ∧
    (F.backend.setRole F.backend.init (some .initiator)).role = some .initiator :=
  ⟨⟨List.length_replicate, List.length_replicate, List.length_replicate, ⟨fun h => (by cases h), fun _ => ⟨rfl, rfl⟩⟩⟩, rfl⟩

end Noise
