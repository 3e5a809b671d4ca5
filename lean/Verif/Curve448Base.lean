import Verif.Curve448Group
import Verif.DHProps
/-!
# Curve448: the code multiplies points, the key with the null public key, and agreement of the back end
-/

namespace Noise.Curve448

set_option exponentiation.threshold 500

open WeierstrassCurve WeierstrassCurve.Affine
open X448 (P F)
open Rfc7539 (leNat leBytes)
open Ladder (E ucoord Vars eagerLoop)
open Curve25519 (leBytes_length)

/-- **C63**: the code multiplies points of Curve448. For every field that contains GF(2^448-2^224-1) and every point of the
curve over that field whose u-coordinate is given by the public key, the result is the u-coordinate of the multiple of
the point by the clamped private key, and 0 if the multiple is the point at infinity. -/
theorem C63_multiplies {K : Type*} [Field K] [Algebra F K] [DecidableEq K] (secret pub : Bytes)
    (hs : secret.length = 56) (hp : pub.length = 56) (y : K)
    (hq : (E (156326 : F) K).Nonsingular (algebraMap F K (X448.decodeUCoordinate pub)) y) :
    ∃ out ok, x64.eval secret pub = .ok (out, ok) ∧ ref64.eval secret pub = .ok (out, ok) ∧
      algebraMap F K (X448.decodeUCoordinate out) =
        ucoord (X448.decodeScalar448 secret • (Point.some _ y hq : (E (156326 : F) K).Point)) :=
  ⟨_, _, C62_x86_64_is_x448 secret pub hs hp, C62_ref64_is_x448 secret pub hs hp, x448_multiplies secret pub hs y hq⟩

/-- **C63**: both parties get the same shared secret, whatever the private keys and whatever point is used as the base;
and the flag for the second multiplication is always success. -/
theorem C63_commutes (a b u : Bytes) (ha : a.length = 56) (hb : b.length = 56) (hu : u.length = 56) :
    ∃ pa pb z ok, x64.eval a u = .ok (pa, ok) ∧ x64.eval b u = .ok (pb, ok) ∧
      x64.eval a pb = .ok (z, true) ∧ x64.eval b pa = .ok (z, true) := by
  refine ⟨_, _, X448.x448 a (X448.x448 b u), _, C62_x86_64_is_x448 a u ha hu, C62_x86_64_is_x448 b u hb hu, ?_, ?_⟩
  · rw [C62_x86_64_is_x448 a _ ha (x448_length _ _), decide_eq_true (x448_lt b u)]
  · rw [C62_x86_64_is_x448 b _ hb (x448_length _ _), decide_eq_true (x448_lt a u), x448_commutes a b u ha hb]

/-- The base point of RFC 7748, section 4.2. -/
example : (E (156326 : F) F).Nonsingular (algebraMap F F (X448.decodeUCoordinate (5 :: List.replicate 55 0)))
    355293926785568175264127502063783334808976399387714271831880898435169088786967410002932673765864550910142774147268105838985595290606362 :=
  Montgomery.nonsingular (params.two' F) (params.sq' F) (by decide +kernel)

/-! ## The private key whose public key is null -/

/-- The order of the base point, RFC 7748, section 4.2. -/
def L : Nat := 2 ^ 446 - 0x8335dc163bb124b65129c96fde933d8d723a70aadc873d6d54a7bb0d

/-- The variables as numbers. -/
structure NVars where
  (x2 z2 x3 z3 : Nat)

def nsub (a b : Nat) : Nat := (a + P - b % P) % P

def NVars.arith (x1 : Nat) (v : NVars) : NVars :=
  let A := (v.x2 + v.z2) % P
  let AA := A * A % P
  let B := nsub v.x2 v.z2
  let BB := B * B % P
  let E := nsub AA BB
  let C := (v.x3 + v.z3) % P
  let D := nsub v.x3 v.z3
  let DA := D * A % P
  let CB := C * B % P
  let s := (DA + CB) % P
  let t := nsub DA CB
  ⟨AA * BB % P, E * ((AA + 39081 * E) % P) % P, s * s % P, x1 * (t * t % P) % P⟩

def NVars.swap (v : NVars) : Bool → NVars
  | false => v
  | true => ⟨v.x3, v.z3, v.x2, v.z2⟩

def nloop (k x1 : Nat) : Nat → NVars → NVars
  | 0, v => v
  | t + 1, v => nloop k x1 t (((v.swap (k.testBit t)).arith x1).swap (k.testBit t))

def NVars.cast (v : NVars) : Vars F := ⟨v.x2, v.z2, v.x3, v.z3, false⟩

theorem cast_nsub (a b : Nat) : ((nsub a b : Nat) : F) = a - b := by
  unfold nsub
  have h : b % P < P := Nat.mod_lt _ (by rw [P_eq]; decide)
  rw [ZMod.natCast_mod, Nat.cast_sub (by omega), Nat.cast_add, ZMod.natCast_mod, ZMod.natCast_self, add_zero]

theorem cast_arith (x1 : Nat) (v : NVars) : (v.arith x1).cast = Vars.arith X448.a24 x1 v.cast := by
  unfold NVars.arith NVars.cast Vars.arith X448.a24
  dsimp only
  simp only [ZMod.natCast_mod, Nat.cast_mul, Nat.cast_add, cast_nsub, Nat.cast_ofNat]
  congr 1 <;> ring

theorem cast_swap (v : NVars) (b : Bool) : (v.swap b).cast = v.cast.cswap b := by cases b <;> rfl

theorem cast_loop (k x1 : Nat) : ∀ t v, (nloop k x1 t v).cast = eagerLoop X448.a24 k x1 t v.cast
  | 0, v => rfl
  | t + 1, v => by
    rw [nloop, cast_loop k x1 t, eagerLoop, cast_swap, cast_arith, cast_swap]
    rfl

theorem order_loop : (nloop (4 * L) 5 448 ⟨1, 0, 5, 1⟩).z2 = 0 := by decide +kernel

theorem ladder_order : Ladder.ladder X448.a24 P 448 (4 * L) 5 = 0 := by
  have h := congrArg Vars.z2 (cast_loop (4 * L) 5 448 ⟨1, 0, 5, 1⟩)
  have e : (NVars.cast ⟨1, 0, 5, 1⟩ : Vars F) = ⟨1, 0, 5, 1, false⟩ := by simp [NVars.cast]
  rw [e] at h
  have h5 : ((5 : Nat) : F) = 5 := by norm_num
  rw [h5] at h
  have h0 : (NVars.cast (nloop (4 * L) 5 448 ⟨1, 0, 5, 1⟩)).z2 = 0 := by
    show (((nloop (4 * L) 5 448 ⟨1, 0, 5, 1⟩).z2 : Nat) : F) = 0
    rw [order_loop, Nat.cast_zero]
  rw [Ladder.ladder_eager, ← h, h0, inv_pow, inv_zero, mul_zero]

/-- The private key with the clamped scalar `4 L`. -/
def nullKey : Bytes := leBytes 56 (4 * L)

theorem nullKey_public : X448.x448 nullKey (5 :: List.replicate 55 0) = List.replicate 56 0 := by
  have e1 : X448.decodeScalar448 nullKey = 4 * L := by decide +kernel
  have e2 : leNat (5 :: List.replicate 55 0) = 5 := by decide
  have e3 : ((5 : Nat) : F) = 5 := by norm_num
  rw [X448.x448, e1, X448.decodeUCoordinate, e2, e3, ladder_order, encode_zero]

/-- **C63** (no analogue of the last part of C61): there is a private key, already clamped, whose public key is null. The
code neither notices this when it generates the key nor when it is set. -/
theorem C63_null_public_key : clamp448 nullKey = nullKey ∧
    x64.eval nullKey (5 :: List.replicate 55 0) = .ok (List.replicate 56 0, true) := by
  refine ⟨by decide +kernel, ?_⟩
  rw [C62_x86_64_is_x448 nullKey _ (leBytes_length _ _) (by decide), nullKey_public]
  decide

end Noise.Curve448

namespace Noise

open Rfc7539 (leNat)

def Curve448.bytesOf : Out (Bytes × Bool) → Bytes
  | .ok r => r.1
  | .ub => List.replicate 56 0

def Curve448.flagOf : Out (Bytes × Bool) → Bool
  | .ok r => r.2
  | .ub => false

theorem Curve448.bytesOf_ok (x : Bytes) (y : Bool) : bytesOf (.ok (x, y)) = x := rfl
theorem Curve448.flagOf_ok (x : Bytes) (y : Bool) : flagOf (.ok (x, y)) = y := rfl

theorem Curve448.bytesOf_length {o : Out (Bytes × Bool)} (h : ∀ out ok, o = .ok (out, ok) → out.length = 56) :
    (bytesOf o).length = 56 := by
  cases o with
  | ok r => exact h r.1 r.2 rfl
  | ub => rfl

/-- The bytes that `curve448_eval` of `src/crypto/curve448/curve448.c` writes, for a 64-bit machine. -/
def Curve448.evalBytes (secret pub : Bytes) : Bytes := bytesOf (x64.eval secret pub)

/-- Whether it returns 1. -/
def Curve448.evalFlag (pub : Bytes) : Bool := flagOf (x64.eval (List.replicate 56 0) pub)

/-- The Curve448 back end of `src/backend/ref/dh-curve448.c` with this function. -/
def ref448 : CurveFns := curve448 Curve448.evalBytes Curve448.evalFlag

theorem Curve448.evalBytes_eq (secret pub : Bytes) (hs : secret.length = 56) (hp : pub.length = 56) :
    evalBytes secret pub = X448.x448 secret pub := by
  rw [evalBytes, C62_x86_64_is_x448 secret pub hs hp, bytesOf_ok]

theorem Curve448.evalFlag_eq (pub : Bytes) (hp : pub.length = 56) :
    evalFlag pub = decide (leNat pub < 2 ^ 448 - 2 ^ 224 - 1) := by
  rw [evalFlag, C62_x86_64_is_x448 _ pub (by decide) hp, flagOf_ok]

/-- For arguments that have the length of a key, this is the code: it is defined, and the success flag does not depend on
the private key. -/
theorem Curve448.eval_is_code (secret pub : Bytes) (hs : secret.length = 56) (hp : pub.length = 56) :
    x64.eval secret pub = .ok (evalBytes secret pub, evalFlag pub) := by
  rw [C62_x86_64_is_x448 secret pub hs hp, evalBytes_eq secret pub hs hp, evalFlag_eq pub hp]

theorem ref448_eval (secret pub : Bytes) (hs : secret.length = 56) (hp : pub.length = 56) :
    ref448.eval secret pub = X448.x448 secret pub := Curve448.evalBytes_eq secret pub hs hp

theorem ref448_valid (pub : Bytes) (hp : pub.length = 56) :
    ref448.valid pub = decide (leNat pub < 2 ^ 448 - 2 ^ 224 - 1) := Curve448.evalFlag_eq pub hp

theorem Curve448.serializeLimb_length {x : UInt64} {l : Bytes} (h : Curve448.serializeLimb x = .ok l) : l.length = 7 := by
  unfold serializeLimb at h
  dsimp only at h
  split at h
  · cases h; simp [limbBytes]
  · cases h

theorem Curve448.x64_length {a b out : Bytes} {ok : Bool} (h : Curve448.x64.eval a b = .ok (out, ok)) : out.length = 56 := by
  unfold Curve448.Arith.eval at h
  dsimp only at h
  simp only [Out.bind_eq_ok] at h
  obtain ⟨l, h1, h2⟩ := h
  cases h2
  change Curve448.serialize _ = _ at h1
  unfold Curve448.serialize at h1
  simp only [Out.bind_eq_ok] at h1
  obtain ⟨_, _, l0, e0, l1, e1, l2, e2, l3, e3, l4, e4, l5, e5, l6, e6, l7, e7, h⟩ := h1
  cases h
  simp [serializeLimb_length e0, serializeLimb_length e1, serializeLimb_length e2, serializeLimb_length e3,
    serializeLimb_length e4, serializeLimb_length e5, serializeLimb_length e6, serializeLimb_length e7]

theorem Curve448.evalBytes_length (a b : Bytes) : (evalBytes a b).length = 56 := by
  rw [evalBytes]
  exact bytesOf_length fun _ _ h => x64_length h

theorem ref448_sized : ref448.Sized where
  eval_len a b := Curve448.evalBytes_length a b
  clamp_len k h := by
    simpa [ref448, curve448, clamp448] using h

theorem allZero_replicate {b : Bytes} {n : Nat} (h : b.length = n) : AllZero b ↔ b = List.replicate n 0 := by
  rw [List.eq_replicate_iff]
  exact ⟨fun hz => ⟨h, hz⟩, fun hz => hz.2⟩

theorem ref448_commutes : ref448.Commutes where
  comm a b ha hb := by
    rw [ref448_eval b ref448.base hb rfl, ref448_eval a ref448.base ha rfl, ref448_eval a _ ha (Curve448.x448_length _ _),
      ref448_eval b _ hb (Curve448.x448_length _ _)]
    exact Curve448.x448_commutes a b ref448.base ha hb
  valid a ha := by
    rw [ref448_eval a ref448.base ha rfl, ref448_valid _ (Curve448.x448_length _ _)]
    exact decide_eq_true (Curve448.x448_lt _ _)
  null a b ha hb hz := by
    rw [allZero_replicate (ref448_sized.eval_len _ _)] at hz ⊢
    rw [hz]
    exact (ref448_eval a _ ha (by decide)).trans (Curve448.x448_zero a)

/-- **C25**: two Curve448 objects with key pairs compute the same shared secret. -/
theorem C25_curve448_agreement (a b : DHState Unit) (ha : DHReach ref448.backend a) (hb : DHReach ref448.backend b)
    (hka : a.hasKeypair = true) (hkb : b.hasKeypair = true) (sh1 sh2 : Bytes) (h1 : sh1.length = 56) (h2 : sh2.length = 56) :
    ∃ secret, ref448.backend.calculateApi a (.same b) sh1 = .ok (.none, secret, a) ∧
      ref448.backend.calculateApi b (.same a) sh2 = .ok (.none, secret, b) :=
  C25_curve_agreement ref448 ref448_sized ref448_commutes a b ha hb hka hkb sh1 sh2 h1 h2

end Noise
