import Verif.HandshakeCurve25519
import Verif.Curve448Base
/-!
# Handshakes with Curve25519 and Curve448, with or without hybrid forward secrecy
-/

namespace Noise

/-- The curves of the reference back end, as built for 64-bit machines. -/
inductive RefCurve
  | c25519
  | c448
  deriving DecidableEq, Repr

namespace RefCurve

/-- `src/backend/ref/dh-curve25519.c` and `src/backend/ref/dh-curve448.c`. -/
def fns : RefCurve → CurveFns
  | c25519 => donna25519
  | c448 => ref448

theorem sized : ∀ c : RefCurve, c.fns.Sized
  | c25519 => donna25519_sized
  | c448 => ref448_sized

theorem commutes : ∀ c : RefCurve, c.fns.Commutes
  | c25519 => donna25519_commutes
  | c448 => ref448_commutes

theorem len_le : ∀ c : RefCurve, c.fns.len ≤ 56
  | c25519 => by decide
  | c448 => by decide

/-- The key generated from the random bytes does not have the null public key. Always so for Curve25519
(`C61_public_key_nonzero`), for Curve448 stated with the function X448 of RFC 7748. -/
def NotNull (rnd : Nat → UInt8) : RefCurve → Prop
  | c25519 => True
  | c448 => X448.x448 (clamp448 (randBytes rnd 56)) (5 :: List.replicate 55 0) ≠ List.replicate 56 0

theorem notNull {rnd : Nat → UInt8} : ∀ {c : RefCurve}, c.NotNull rnd →
    ¬ AllZero (c.fns.eval (c.fns.clamp (randBytes rnd c.fns.len)) c.fns.base)
  | c25519, _ => donna25519_nonzero _ (donna25519_sized.clamp_len _ (by simp [fns, donna25519, curve25519]))
  | c448, h => by
    intro hz
    refine h ((ref448_eval _ ref448.base ?_ rfl).symm.trans ((allZero_replicate (ref448_sized.eval_len _ _)).1 hz))
    exact ref448_sized.clamp_len (randBytes rnd 56) (by simp [ref448, curve448])

end RefCurve

/-- The library for handshakes with the curve `d`, and with the curve `g` as the hybrid algorithm if there is one. -/
def curvesSetup (c : RefCipher) (h : RefHash) (d g : RefCurve) : Setup :=
  curveSetup (refSuite c h) d.fns g.fns d.sized g.sized

/-- The room that the messages of a handshake need (`FitAll` of C12). -/
def CurvesFit (c : RefCipher) (h : RefHash) (d g : RefCurve) (turns : List Turn) (p : Spec.Pattern) : Prop :=
  FitAll (refSuite c h).crypto (d.fns.specDH d.sized) (g.fns.specDH g.sized) turns p.msgs

/-- **C12** for the reference back ends: any two handshake objects for the same protocol with Curve25519 or Curve448, and
possibly one of them again as the hybrid algorithm, set up consistently, complete the handshake and agree, provided that
no generated Curve448 key has the null public key. No other hypothesis concerns a cryptographic function. -/
theorem C12_curves_agreement (c : RefCipher) (h : RefHash) (d g : RefCurve) (i r i1 r1 : (curvesSetup c h d g).H)
    (hi : SetUp (curvesSetup c h d g) i) (hr : SetUp (curvesSetup c h d g) r) (hri : i.role = .initiator)
    (hrr : r.role = .responder) (hid : i.sym.id = r.sym.id) (hpro : i.prologue = r.prologue)
    (hpsk : i.psk = r.psk) (p : Spec.Pattern) (hp : specPattern i.sym.id.patternId = some p)
    (hfb : p.preKey .responder .e = false)
    (hks : p.preKey .responder .s = true → pubOf i.rs = pubOf r.ls)
    (hkr : p.preKey .initiator .s = true → pubOf r.rs = pubOf i.ls)
    (hfix : i.fe = none ∧ i.fh = none ∧ r.fe = none ∧ r.fh = none)
    (si : i.start c.backend = .ok (.none, i1)) (sr : r.start c.backend = .ok (.none, r1))
    (turns : List Turn) (hfit : CurvesFit c h d g turns p)
    (hnn : ∀ t ∈ turns, ∀ n, d.NotNull (t.rnd n) ∧ g.NotNull (t.rnd n)) :
    ∃ i2 r2, HS.exchange c.backend turns i1 r1 = .ok (some (i2, r2, turns.map (·.payload))) ∧
      i2.action = .split ∧ r2.action = .split ∧ i2.sym.h = r2.sym.h ∧
      ∃ i3 r3 c1 c2, i2.split c.backend true true true = .ok (.none, i3, some c1, some c2) ∧
        r2.split c.backend true true true = .ok (.none, r3, some c2, some c1) ∧
        i3.action = .complete ∧ r3.action = .complete := by
  have h16 : ∀ e : RefCurve, e.fns.len + (refSuite c h).CB.macLen ≤ 65535 := by
    intro e
    have := c.mac16
    have := e.len_le
    show _ + c.backend.macLen ≤ 65535
    omega
  have gen : ∀ (s : (curvesSetup c h d g).H) (t : Turn), t ∈ turns → s.fe = none → s.fh = none →
      HS.Generates (curveReal (refSuite c h) d.fns g.fns d.sized g.sized (h16 d) (h16 g))
        (fun f => ∃ k, ¬ AllZero (g.fns.eval k.1 g.fns.base) ∧ f = fun _ => k) t s :=
    fun s t ht h1 h2 n => ⟨⟨fun _ => (d.fns.specDH d.sized).gen none (t.rnd n), by rw [h1]; rfl,
      fun _ => decide_eq_false (RefCurve.notNull (hnn t ht n).1)⟩,
      fun _ => (g.fns.specDH g.sized).gen none (t.rnd n), by rw [h2]; rfl, _, RefCurve.notNull (hnn t ht n).2, rfl⟩
  exact HS.C12_handshake_agreement
    (curveReal (refSuite c h) d.fns g.fns d.sized g.sized (h16 d) (h16 g))
    (curveReal_genuine _ _ _ _ _ (h16 d) (h16 g)) (d.fns.good d.sized d.commutes) _
    (g.fns.goodGen g.sized g.commutes) i r i1 r1 hi hr hri hrr hid hpro hpsk p hp hfb hks hkr
    si sr turns hfit fun t ht => ⟨gen i t ht hfix.1 hfix.2.1, gen r t ht hfix.2.2.1 hfix.2.2.2⟩

/-! ## Examples -/

open Curve448 in
/-- A way to see that a public key is not null without an inversion. -/
theorem x448_ne_null {k : Bytes} (h : (nloop (X448.decodeScalar448 k) 5 448 ⟨1, 0, 5, 1⟩).x2 *
    (nloop (X448.decodeScalar448 k) 5 448 ⟨1, 0, 5, 1⟩).z2 % X448.P ≠ 0) :
    X448.x448 k (5 :: List.replicate 55 0) ≠ List.replicate 56 0 := by
  intro h0
  have e := congrArg X448.decodeUCoordinate h0
  have e2 : Rfc7539.leNat (5 :: List.replicate 55 0) = 5 := by decide
  have h5 : ((5 : Nat) : X448.F) = 5 := by norm_num
  rw [X448.x448, decode_encode, decode_zero, X448.decodeUCoordinate, e2, h5, Ladder.ladder_eager, inv_pow] at e
  generalize X448.decodeScalar448 k = n at h e
  have c := cast_loop n 5 448 ⟨1, 0, 5, 1⟩
  have e1 : (NVars.cast ⟨1, 0, 5, 1⟩ : Ladder.Vars X448.F) = ⟨1, 0, 5, 1, false⟩ := by simp [NVars.cast]
  rw [e1, h5] at c
  rw [← c] at e
  apply h
  rw [← Nat.dvd_iff_mod_eq_zero, ← ZMod.natCast_eq_zero_iff, Nat.cast_mul]
  rcases mul_eq_zero.1 e with h | h
  · exact mul_eq_zero_of_left h _
  · exact mul_eq_zero_of_right _ (inv_eq_zero.1 h)

/-- The library for `Noise_NN_448_ChaChaPoly_SHA256`. -/
def vec448Setup : Setup := curvesSetup .chachapoly .sha256 .c448 .c25519

/-- A party of `Noise_NN_448_ChaChaPoly_SHA256`, before it starts. -/
def vec448Make (role : Role) : Option vec448Setup.H :=
  match (HS.newByName ChaChaPoly.backend vecCtx (ascii "Noise_NN_448_ChaChaPoly_SHA256") role : Out (Except Err vec448Setup.H)) with
  | .ok (.ok s0) => some s0
  | _ => none

/-- Two turns with some private keys. -/
def vec448Turns : List Turn :=
  [{ vecTurn (Rfc7539.leBytes 56 0x6b9872a0f33b6d1b64632d2c9fa7b7826d06a75efc15dc2b1eed2efec5b0a2949d2b07ea3aa2adec2f5ae47c5b0a2f25d7d8a3e6ef8f49a) [1, 2, 3] with
     mem := List.replicate 80 1 },
   { vecTurn (Rfc7539.leBytes 56 0x1c306a7ac2a0e2e0990b294470cba339e6453772b075811d8fad0d1d6927c120bb5ee8972b0d3e21374c9c921b09d1b0366f10b65173992d) [] with
     mem := List.replicate 80 1 }]

theorem vec448_notNull : ∀ t ∈ vec448Turns, ∀ n, RefCurve.c448.NotNull (t.rnd n) := by
  have h1 := x448_ne_null (k := clamp448 (randBytes ((vec448Turns.getD 0 (vecTurn [] [])).rnd 0) 56)) (by decide +kernel)
  have h2 := x448_ne_null (k := clamp448 (randBytes ((vec448Turns.getD 1 (vecTurn [] [])).rnd 0) 56)) (by decide +kernel)
  intro t ht n
  rcases List.mem_pair.1 ht with rfl | rfl
  · exact h1
  · exact h2

theorem vec448Make_setUp {role : Role} {s : vec448Setup.H} (h : vec448Make role = some s) (hn : s.action = .none)
    (hr : s.sym.id.reserved.length = 4) : SetUp vec448Setup s := by
  unfold vec448Make at h
  split at h
  · next s1 h1 =>
    cases h
    exact ⟨_, [], [], .byName _ _ _ _ h1, hr, fun op hop => absurd hop (by simp), rfl, rfl, hn⟩
  · cases h

/-- Two parties and turns that meet the hypotheses of `C12_curves_agreement` for Curve448. -/
example : ∃ i r i1 r1 p, vec448Make .initiator = some i ∧ vec448Make .responder = some r ∧ SetUp vec448Setup i ∧
    SetUp vec448Setup r ∧ i.role = .initiator ∧ r.role = .responder ∧ i.sym.id = r.sym.id ∧ i.prologue = r.prologue ∧
    i.psk = r.psk ∧ specPattern i.sym.id.patternId = some p ∧ p.preKey .responder .e = false ∧
    p.preKey .responder .s = false ∧ p.preKey .initiator .s = false ∧
    (i.fe = none ∧ i.fh = none ∧ r.fe = none ∧ r.fh = none) ∧
    i.start ChaChaPoly.backend = .ok (.none, i1) ∧ r.start ChaChaPoly.backend = .ok (.none, r1) ∧
    CurvesFit .chachapoly .sha256 .c448 .c25519 vec448Turns p ∧
    ∀ t ∈ vec448Turns, ∀ n, RefCurve.c448.NotNull (t.rnd n) ∧ RefCurve.c25519.NotNull (t.rnd n) :=
  ⟨_, _, _, _, _, rfl, rfl, @vec448Make_setUp .initiator _ rfl rfl rfl,
    @vec448Make_setUp .responder _ rfl rfl rfl, rfl, rfl, rfl, rfl, rfl, rfl, rfl,
    rfl, rfl, ⟨rfl, rfl, rfl, rfl⟩, rfl, rfl,
    ⟨by unfold Turn.Fits; decide, by unfold Turn.Fits; decide, trivial⟩, fun t ht n => ⟨vec448_notNull t ht n, trivial⟩⟩

end Noise
