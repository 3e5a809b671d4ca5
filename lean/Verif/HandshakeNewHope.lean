import Verif.HandshakeCurves
import Verif.NewHopeDH
import Verif.NewHopeExample
/-!
# Handshakes with New Hope as the hybrid algorithm
-/

namespace Noise

/-- New Hope with the functions of the code; `n` bounds the iterations of `poly_uniform`. -/
def refNewHope (n : Nat) : NewHopeFns := NewHope.fns (NewHope.hashes n)

theorem refNewHope_sized (n : Nat) : (refNewHope n).Sized := NewHope.fns_sized _ Keccak.C70_sha3_length

/-- The library for handshakes with the curve `d` and New Hope as the hybrid algorithm. -/
def hybridSetup (c : RefCipher) (h : RefHash) (d : RefCurve) (n : Nat) : Setup :=
  newHopeSetup (refSuite c h) d.fns (refNewHope n) d.sized (refNewHope_sized n)

/-- The room that the messages of a handshake need (`FitAll` of C12). -/
def HybridFit (c : RefCipher) (h : RefHash) (d : RefCurve) (n : Nat) (turns : List Turn) (p : Spec.Pattern) : Prop :=
  FitAll (refSuite c h).crypto (d.fns.specDH d.sized) (refNewHope n).specDH turns p.msgs

/-- The noise that comes from the random bytes is small enough for every pair of turns. -/
def HybridNoise (turns : List Turn) : Prop :=
  ∀ t ∈ turns, ∀ t' ∈ turns, ∀ k k', NewHope.SmallNoise (((randBytes (t.rnd k) 64).drop 32).take 32) ((randBytes (t'.rnd k') 32).take 32)

/-- **C12** for the reference back ends with New Hope as the hybrid algorithm: any two handshake objects for the same
protocol, set up consistently, complete the handshake and agree, provided that no generated Curve448 key has the null
public key and that the noise of the New Hope keys is small enough. -/
theorem C12_newhope_agreement (c : RefCipher) (h : RefHash) (d : RefCurve) (n : Nat) (i r i1 r1 : (hybridSetup c h d n).H)
    (hi : SetUp (hybridSetup c h d n) i) (hr : SetUp (hybridSetup c h d n) r) (hri : i.role = .initiator)
    (hrr : r.role = .responder) (hid : i.sym.id = r.sym.id) (hpro : i.prologue = r.prologue)
    (hpsk : i.psk = r.psk) (p : Spec.Pattern) (hp : specPattern i.sym.id.patternId = some p)
    (hfb : p.preKey .responder .e = false)
    (hks : p.preKey .responder .s = true → pubOf i.rs = pubOf r.ls)
    (hkr : p.preKey .initiator .s = true → pubOf r.rs = pubOf i.ls)
    (hfix : i.fe = none ∧ i.fh = none ∧ r.fe = none ∧ r.fh = none)
    (si : i.start c.backend = .ok (.none, i1)) (sr : r.start c.backend = .ok (.none, r1))
    (turns : List Turn) (hfit : HybridFit c h d n turns p)
    (hnn : ∀ t ∈ turns, ∀ k, d.NotNull (t.rnd k)) (hsm : HybridNoise turns) :
    ∃ i2 r2, HS.exchange c.backend turns i1 r1 = .ok (some (i2, r2, turns.map (·.payload))) ∧
      i2.action = .split ∧ r2.action = .split ∧ i2.sym.h = r2.sym.h ∧
      ∃ i3 r3 c1 c2, i2.split c.backend true true true = .ok (.none, i3, some c1, some c2) ∧
        r2.split c.backend true true true = .ok (.none, r3, some c2, some c1) ∧
        i3.action = .complete ∧ r3.action = .complete := by
  have h16 : d.fns.len + (refSuite c h).CB.macLen ≤ 65535 := by
    have := c.mac16
    have := d.len_le
    show _ + c.backend.macLen ≤ 65535
    omega
  have h16' : 2048 + (refSuite c h).CB.macLen ≤ 65535 := by
    have := c.mac16
    show _ + c.backend.macLen ≤ 65535
    omega
  have gg := (refNewHope n).goodGen (refNewHope_sized n) (fun f => ∃ t ∈ turns, ∃ k, f = t.rnd k) (by
    rintro _ _ ⟨t, ht, k, rfl⟩ ⟨t', ht', k', rfl⟩
    exact NewHope.fns_agree _ Keccak.C70_sha3_length _ _ (hsm t ht t' ht' k k'))
  have gen : ∀ (s : (hybridSetup c h d n).H) (t : Turn), t ∈ turns → s.fe = none → s.fh = none →
      HS.Generates (newHopeReal (refSuite c h) d.fns (refNewHope n) d.sized (refNewHope_sized n) h16 h16')
        (fun g => ∃ rnd, (∃ t ∈ turns, ∃ k, rnd = t.rnd k) ∧ g = fun o => (refNewHope n).specDH.gen o rnd) t s :=
    fun s t ht h1 h2 k => ⟨⟨fun _ => (d.fns.specDH d.sized).gen none (t.rnd k), by rw [h1]; rfl,
      fun _ => decide_eq_false (RefCurve.notNull (hnn t ht k))⟩,
      fun o => (refNewHope n).specDH.gen o (t.rnd k), by rw [h2]; rfl, t.rnd k, ⟨t, ht, k, rfl⟩, rfl⟩
  exact HS.C12_handshake_agreement
    (newHopeReal (refSuite c h) d.fns (refNewHope n) d.sized (refNewHope_sized n) h16 h16')
    (newHopeReal_genuine _ _ _ _ _ h16 h16') (d.fns.good d.sized d.commutes) _
    gg i r i1 r1 hi hr hri hrr hid hpro hpsk p hp hfb hks hkr
    si sr turns hfit fun t ht => ⟨gen i t ht hfix.1 hfix.2.1, gen r t ht hfix.2.2.1 hfix.2.2.2⟩

/-! ## Example -/

/-- The library for `Noise_NNhfs_25519+NewHope_ChaChaPoly_SHA256`. -/
def vecNewHopeSetup : Setup := hybridSetup .chachapoly .sha256 .c25519 3

/-- A party of `Noise_NNhfs_25519+NewHope_ChaChaPoly_SHA256`, before it starts. -/
def vecNewHopeMake (role : Role) : Option vecNewHopeSetup.H :=
  match (HS.newByName ChaChaPoly.backend vecCtx (ascii "Noise_NNhfs_25519+NewHope_ChaChaPoly_SHA256") role :
      Out (Except Err vecNewHopeSetup.H)) with
  | .ok (.ok s0) => some s0
  | _ => none

/-- Two turns; the random bytes are `a`, `a + 1`, …, `a + 31`, and again. -/
def vecNewHopeTurns : List Turn :=
  [0, 32].map fun a => { vecTurn [] [1, 2, 3] with mem := List.replicate 2200 1, rnd := fun _ i => a + UInt8.ofNat (i % 32) }

theorem vecNewHopeMake_setUp {role : Role} {s : vecNewHopeSetup.H} (h : vecNewHopeMake role = some s) (hn : s.action = .none)
    (hr : s.sym.id.reserved.length = 4) : SetUp vecNewHopeSetup s := by
  unfold vecNewHopeMake at h
  split at h
  · next s1 h1 =>
    cases h
    exact ⟨_, [], [], .byName _ _ _ _ h1, hr, fun op hop => absurd hop (by simp), rfl, rfl, hn⟩
  · cases h

theorem vecNewHope_noise : HybridNoise vecNewHopeTurns := by
  have ha : ∀ a : UInt8, ∀ r : Nat → UInt8, r = (fun i => a + UInt8.ofNat (i % 32)) →
      ((randBytes r 64).drop 32).take 32 = NewHope.seedFrom a ∧ (randBytes r 32).take 32 = NewHope.seedFrom a := by
    rintro a _ rfl
    exact ⟨rfl, rfl⟩
  intro t ht t' ht' k k'
  rcases List.mem_pair.1 ht with rfl | rfl <;> rcases List.mem_pair.1 ht' with rfl | rfl
  · rw [(ha 0 _ rfl).1, (ha 0 _ rfl).2]; exact NewHope.seeds_small.2.2.1
  · rw [(ha 0 _ rfl).1, (ha 32 _ rfl).2]; exact NewHope.seeds_small.1
  · rw [(ha 32 _ rfl).1, (ha 0 _ rfl).2]; exact NewHope.seeds_small.2.1
  · rw [(ha 32 _ rfl).1, (ha 32 _ rfl).2]; exact NewHope.seeds_small.2.2.2

/-- Two parties and turns that meet the hypotheses of `C12_newhope_agreement`. -/
example : ∃ i r i1 r1 p, vecNewHopeMake .initiator = some i ∧ vecNewHopeMake .responder = some r ∧ SetUp vecNewHopeSetup i ∧
    SetUp vecNewHopeSetup r ∧ i.role = .initiator ∧ r.role = .responder ∧ i.sym.id = r.sym.id ∧ i.prologue = r.prologue ∧
    i.psk = r.psk ∧ specPattern i.sym.id.patternId = some p ∧ p.preKey .responder .e = false ∧
    p.preKey .responder .s = false ∧ p.preKey .initiator .s = false ∧
    (i.fe = none ∧ i.fh = none ∧ r.fe = none ∧ r.fh = none) ∧
    i.start ChaChaPoly.backend = .ok (.none, i1) ∧ r.start ChaChaPoly.backend = .ok (.none, r1) ∧
    HybridFit .chachapoly .sha256 .c25519 3 vecNewHopeTurns p ∧
    (∀ t ∈ vecNewHopeTurns, ∀ n, RefCurve.c25519.NotNull (t.rnd n)) ∧ HybridNoise vecNewHopeTurns :=
  ⟨_, _, _, _, _, rfl, rfl, @vecNewHopeMake_setUp .initiator _ rfl rfl rfl,
    @vecNewHopeMake_setUp .responder _ rfl rfl rfl, rfl, rfl, rfl, rfl, rfl, rfl, rfl,
    rfl, rfl, ⟨rfl, rfl, rfl, rfl⟩, rfl, rfl,
    ⟨by unfold Turn.Fits; decide +kernel, by unfold Turn.Fits; decide +kernel, trivial⟩, fun _ _ _ => trivial, vecNewHope_noise⟩

end Noise
