import Verif.Curve25519Group
import Verif.DHProps
/-!
# The base point of Curve25519 and agreement of the Curve25519 back end
-/

namespace Noise.Curve25519

open WeierstrassCurve WeierstrassCurve.Affine
open Rfc7748 (P F Vars)
open Rfc7539 (leNat leBytes)

/-- The order of the base point, RFC 7748, section 4.1. -/
def L : Nat := 2 ^ 252 + 27742317777372353535851937790883648493

/-! ## The loop on numbers -/

/-- The variables as numbers. -/
structure NVars where
  (x2 z2 x3 z3 : Nat)

def nsub (a b : Nat) : Nat := (a + P - b % P) % P

def NVars.arith (x1 : Nat) (v : NVars) : NVars :=
  let A := (v.x2 + v.z2) % P
  let AA := A * A % P
  let B := nsub v.x2 v.z2
  let BB := B * B % P
  let E := nsub AA BB
  let C := (v.x3 + v.z3) % P
  let D := nsub v.x3 v.z3
  let DA := D * A % P
  let CB := C * B % P
  let s := (DA + CB) % P
  let t := nsub DA CB
  ⟨AA * BB % P, E * ((AA + 121665 * E) % P) % P, s * s % P, x1 * (t * t % P) % P⟩

def NVars.swap (v : NVars) : Bool → NVars
  | false => v
  | true => ⟨v.x3, v.z3, v.x2, v.z2⟩

def nloop (k x1 : Nat) : Nat → NVars → NVars
  | 0, v => v
  | t + 1, v => nloop k x1 t (((v.swap (k.testBit t)).arith x1).swap (k.testBit t))

def NVars.cast (v : NVars) : Vars := ⟨v.x2, v.z2, v.x3, v.z3, false⟩

theorem cast_nsub (a b : Nat) : ((nsub a b : Nat) : F) = a - b := by
  unfold nsub
  have h : b % P < P := Nat.mod_lt _ (by decide +kernel)
  rw [ZMod.natCast_mod, Nat.cast_sub (by omega), Nat.cast_add, ZMod.natCast_mod, ZMod.natCast_self, add_zero]

theorem cast_arith (x1 : Nat) (v : NVars) : (v.arith x1).cast = Vars.arith x1 v.cast := by
  unfold NVars.arith NVars.cast Vars.arith Rfc7748.a24
  dsimp only
  simp only [ZMod.natCast_mod, Nat.cast_mul, Nat.cast_add, cast_nsub, Nat.cast_ofNat]
  congr 1 <;> ring

theorem cast_swap (v : NVars) (b : Bool) : (v.swap b).cast = v.cast.cswap b := by cases b <;> rfl

theorem cast_loop (k x1 : Nat) : ∀ t v, (nloop k x1 t v).cast = eagerLoop k x1 t v.cast
  | 0, v => rfl
  | t + 1, v => by
    rw [nloop, cast_loop k x1 t, eagerLoop_succ, cast_swap, cast_arith, cast_swap]
    rfl

theorem order_loop : (nloop L 9 255 ⟨1, 0, 9, 1⟩).z2 = 0 := by decide +kernel

theorem ladder_order : Rfc7748.ladder L 9 = 0 := by
  have hp : P - 2 ≠ 0 := by have := P_gt; omega
  have h := congrArg Vars.z2 (cast_loop L 9 255 ⟨1, 0, 9, 1⟩)
  have e : (NVars.cast ⟨1, 0, 9, 1⟩ : Vars) = ⟨1, 0, 9, 1, false⟩ := by simp [NVars.cast]
  rw [e] at h
  have h9 : ((9 : Nat) : F) = 9 := by norm_num
  rw [h9] at h
  have h0 : (NVars.cast (nloop L 9 255 ⟨1, 0, 9, 1⟩)).z2 = 0 := by
    show (((nloop L 9 255 ⟨1, 0, 9, 1⟩).z2 : Nat) : F) = 0
    rw [order_loop, Nat.cast_zero]
  rw [ladder_eager, ← h, h0, zero_pow hp, mul_zero]

/-! ## The base point -/

/-- The second coordinate of the base point, RFC 7748, section 4.1. -/
def baseY : F := 14781619447589544791020593568409986887264606134616475288964881837755586237401

theorem base_on : (E F).Nonsingular (algebraMap F F 9) baseY :=
  Montgomery.nonsingular two_ne A_sq_ne (by decide +kernel)

/-- A point whose u-coordinate is reported as 0 is killed by doubling. -/
theorem two_smul_of_ucoord {Q : (E F).Point} (h : ucoord Q = 0) : 2 • Q = 0 := by
  cases Q with
  | zero => exact nsmul_zero 2
  | some x y hq => exact two_smul_zero hq h

theorem two_base_ne : 2 • (Point.some _ baseY base_on : (E F).Point) ≠ 0 := by
  rw [two_nsmul, Point.add_self_of_Y_ne (by rw [Montgomery.negY_eq]; decide +kernel)]
  exact Point.some_ne_zero _

theorem nine_ne : (9 : F) ≠ 0 := by decide +kernel

theorem two_mul_base {k : Nat} (hk : k < 2 ^ 255) (h : Rfc7748.ladder k 9 = 0) :
    addOrderOf (Point.some _ baseY base_on : (E F).Point) ∣ k * 2 := by
  have e1 := ladder_smul nine_ne base_on k hk
  rw [h, map_zero] at e1
  have d1 := two_smul_of_ucoord e1.symm
  rw [← mul_nsmul] at d1
  exact addOrderOf_dvd_of_nsmul_eq_zero d1

theorem base_ne_zero_aux {l k : Nat} (hl : l < 2 ^ 255) (hl' : 2 ^ 252 ≤ l) (hp : l.Prime) (h : Rfc7748.ladder l 9 = 0)
    (hk : k < 2 ^ 255) (h8 : 8 ∣ k) (h0 : k ≠ 0) : Rfc7748.ladder k 9 ≠ 0 := by
  intro h'
  have o1 := two_mul_base hk h'
  have o2 := two_mul_base hl h
  have hc : Nat.Coprime l k := by
    refine (Nat.Prime.coprime_iff_not_dvd hp).2 ?_
    obtain ⟨m, rfl⟩ := h8
    intro hd
    rcases (Nat.Prime.dvd_mul hp).1 hd with h | h
    · have := Nat.le_of_dvd (by decide) h
      omega
    · have := Nat.le_of_dvd (by omega) h
      omega
  have o3 := Nat.dvd_gcd o1 o2
  rw [Nat.gcd_mul_right, Nat.gcd_comm, hc, one_mul] at o3
  exact two_base_ne (addOrderOf_dvd_iff_nsmul_eq_zero.1 o3)

theorem ladder_base_ne_zero (k : Nat) (hk : k < 2 ^ 255) (h8 : 8 ∣ k) (h0 : k ≠ 0) : Rfc7748.ladder k 9 ≠ 0 :=
  base_ne_zero_aux (l := L) (by decide +kernel) (by decide +kernel) prime_order25519 ladder_order hk h8 h0

theorem donna_length (a b : Bytes) : (curve25519Donna a b).length = 32 := by
  simp [curve25519Donna, fcontract, storeLimb]

theorem scalar_ne_zero (k : Bytes) (h : k.length = 32) : Rfc7748.decodeScalar25519 k ≠ 0 := by
  intro h0
  have hb : (Rfc7748.decodeScalar25519 k).testBit 254 = true := by
    unfold Rfc7748.decodeScalar25519
    rw [show 254 = 8 * 31 + 6 from rfl, leNat_testBit _ _ _ (by omega)]
    have : ((k.set 0 (k.getD 0 0 &&& 248)).set 31 ((k.getD 31 0 &&& 127) ||| 64)).getD 31 0 = (k.getD 31 0 &&& 127) ||| 64 := by
      simp [List.getD, h]
    rw [this]
    exact all_bytes (p := fun b => ((b &&& 127) ||| 64).toNat.testBit 6 = true) (by decide +kernel) _
  rw [h0] at hb
  simp at hb

/-- **C61**: no private key has the all-zero public key. -/
theorem C61_public_key_nonzero (secret : Bytes) (hs : secret.length = 32) :
    curve25519Donna secret (9 :: List.replicate 31 0) ≠ List.replicate 32 0 := by
  rw [C60_donna_is_x25519 secret _ hs (by decide)]
  have e9 : Rfc7748.decodeUCoordinate (9 :: List.replicate 31 0) = 9 := by decide +kernel
  unfold Rfc7748.x25519
  rw [e9]
  intro h
  have h0 := congrArg Rfc7748.decodeUCoordinate h
  rw [decode_encode] at h0
  have ez : Rfc7748.decodeUCoordinate (List.replicate 32 0) = 0 := by decide +kernel
  rw [ez] at h0
  exact ladder_base_ne_zero _ (scalar_lt secret hs) (scalar_dvd secret hs) (scalar_ne_zero secret hs) h0

end Noise.Curve25519

namespace Noise

/-- The Curve25519 back end of `src/backend/ref/dh-curve25519.c` with the scalar multiplication of
`src/crypto/donna/curve25519-donna-c64.c`. -/
def donna25519 : CurveFns := curve25519 Curve25519.curve25519Donna

theorem donna25519_sized : donna25519.Sized where
  eval_len := Curve25519.donna_length
  clamp_len k h := by
    simpa [donna25519, curve25519, clamp25519] using h

theorem donna25519_nonzero (a : Bytes) (ha : a.length = 32) : ¬ AllZero (donna25519.eval a donna25519.base) := by
  intro hz
  refine Curve25519.C61_public_key_nonzero a ha (List.eq_replicate_iff.2 ⟨Curve25519.donna_length _ _, ?_⟩)
  intro b hb
  exact hz b hb

theorem donna25519_commutes : donna25519.Commutes where
  comm a b ha hb := Curve25519.C61_donna_commutes a b _ ha hb (by decide)
  valid _ _ := rfl
  null _ a _ ha hz := absurd hz (donna25519_nonzero a ha)

/-- **C25**: two Curve25519 objects with key pairs compute the same shared secret. -/
theorem C25_curve25519_agreement (a b : DHState Unit) (ha : DHReach donna25519.backend a) (hb : DHReach donna25519.backend b)
    (hka : a.hasKeypair = true) (hkb : b.hasKeypair = true) (sh1 sh2 : Bytes) (h1 : sh1.length = 32) (h2 : sh2.length = 32) :
    ∃ secret, donna25519.backend.calculateApi a (.same b) sh1 = .ok (.none, secret, a) ∧
      donna25519.backend.calculateApi b (.same a) sh2 = .ok (.none, secret, b) :=
  C25_curve_agreement donna25519 donna25519_sized donna25519_commutes a b ha hb hka hkb sh1 sh2 h1 h2

theorem CurveFns.setPrivate_reach (F : CurveFns) (Z : F.Sized) (k : Bytes) (h : k.length = F.len) :
    ∃ s, DHReach F.backend s ∧ s.hasKeypair = true ∧ s.priv = k := by
  have e1 : F.backend.init.privLen = F.len := rfl
  have e2 : load k 0 F.len = .ok k := by simp [load, ← h]
  have h1 : F.backend.setKeypairPrivateApi F.backend.init k =
      .ok (.none, { F.backend.init with keyType := .keypair, priv := k, pub := F.eval k F.base }) := by
    simp [DHBackend.setKeypairPrivateApi, h, CurveFns.backend, DHBackend.finishSet, CurveFns.setKeypairPrivate, store,
      Z.eval_len, e2]
  exact ⟨_, .setKeypairPrivate k _ _ _ .init h1, rfl, rfl⟩

/-- The objects of C25 exist: a 32-byte private key can be set on a new object. -/
example (k : Bytes) (h : k.length = 32) : ∃ s, DHReach donna25519.backend s ∧ s.hasKeypair = true ∧ s.priv = k :=
  donna25519.setPrivate_reach donna25519_sized k h

end Noise
