import Verif.Curve25519Props
import Verif.Montgomery
import Mathlib.FieldTheory.IsAlgClosed.AlgebraicClosure
/-!
# X25519 is scalar multiplication in the group of an elliptic curve
-/

namespace Noise.Curve25519

open WeierstrassCurve WeierstrassCurve.Affine
open Rfc7748 (P F Vars)
open Rfc7539 (leNat leBytes)
open Montgomery (curve Rep)

section
variable {K : Type*} [Field K] [Algebra F K] [DecidableEq K]

/-- "curve25519 ... A 486662", RFC 7748, section 4.1, over a field that contains GF(p). -/
abbrev E (K : Type*) [Field K] [Algebra F K] : WeierstrassCurve.Affine K := curve (algebraMap F K 486662)

/-- The u-coordinate of a point, and 0 for the point at infinity. -/
def ucoord (Q : (E K).Point) : K := match Q with
  | .zero => 0
  | .some x _ _ => x

theorem natCast_ne (n : Nat) (h0 : n ≠ 0) (h : n < P) : ((n : Nat) : F) ≠ 0 := by
  rw [Ne, ZMod.natCast_eq_zero_iff]
  intro hd
  have := Nat.le_of_dvd (by omega) hd
  omega

omit [DecidableEq K] in
theorem two_ne : (2 : K) ≠ 0 := by
  have h : ((2 : Nat) : F) ≠ 0 := natCast_ne 2 (by omega) P_gt
  have := (map_ne_zero (algebraMap F K)).2 h
  rw [map_natCast] at this
  exact_mod_cast this

omit [DecidableEq K] in
theorem A_sq_ne : (algebraMap F K 486662) ^ 2 ≠ 4 := by
  have h : ((486662 ^ 2 - 4 : Nat) : F) ≠ 0 := natCast_ne _ (by decide) (by decide +kernel)
  have := (map_ne_zero (algebraMap F K)).2 h
  intro h4
  apply this
  have e : algebraMap F K 486662 = ((486662 : Nat) : K) := map_natCast (algebraMap F K) 486662
  rw [map_natCast, Nat.cast_sub (by decide), Nat.cast_pow, ← e, h4]
  norm_num

omit [DecidableEq K] in
theorem a24_eq : 4 * algebraMap F K Rfc7748.a24 + 2 = algebraMap F K 486662 := by
  have : (4 * Rfc7748.a24 + 2 : F) = 486662 := by unfold Rfc7748.a24; norm_num
  rw [← this, map_add, map_mul]
  have e4 : algebraMap F K 4 = ((4 : Nat) : K) := map_natCast (algebraMap F K) 4
  have e2 : algebraMap F K 2 = ((2 : Nat) : K) := map_natCast (algebraMap F K) 2
  rw [e4, e2]
  norm_num

/-- The variables represent `m` times and `m + 1` times the point. -/
def Inv (Q : (E K).Point) (m : Nat) (v : Vars) : Prop :=
  Rep (m • Q) (algebraMap F K v.x2) (algebraMap F K v.z2) ∧ Rep ((m + 1) • Q) (algebraMap F K v.x3) (algebraMap F K v.z3)

theorem Inv.step {u : F} (hu : u ≠ 0) {y : K} {hq : (E K).Nonsingular (algebraMap F K u) y} {m : Nat} {v : Vars}
    (h : Inv (.some _ y hq) m v) (b : Bool) : Inv (.some _ y hq) (2 * m + b.toNat) (eager u v b) := by
  obtain ⟨h2, h3⟩ := h
  have hu' : algebraMap F K u ≠ 0 := (map_ne_zero _).2 hu
  generalize hQ : (Point.some (algebraMap F K u) y hq : (E K).Point) = Q at *
  cases b with
  | false =>
    have hd : (m + 1) • Q - m • Q = .some _ y hq := by rw [succ_nsmul, add_sub_cancel_left, hQ]
    have d := Rep.double (K := K) two_ne A_sq_ne a24_eq h2
    have a := Rep.diffAdd two_ne hu' hd h2 h3
    have e1 : (2 * m + false.toNat) • Q = m • Q + m • Q := by
      rw [← add_nsmul]; congr 1; simp; omega
    have e2 : (2 * m + false.toNat + 1) • Q = m • Q + (m + 1) • Q := by
      rw [← add_nsmul]; congr 1; simp; omega
    refine ⟨?_, ?_⟩
    · rw [e1]
      convert d using 1 <;> simp [eager, Vars.arith, Vars.cswap, Rfc7748.cswap]
    · rw [e2]
      convert a using 1 <;> simp [eager, Vars.arith, Vars.cswap, Rfc7748.cswap]
  | true =>
    have hd : m • Q - (m + 1) • Q = .some _ ((E K).negY _ y) ((nonsingular_neg ..).2 hq) := by
      rw [succ_nsmul, ← Point.neg_some hq, hQ]; abel
    have d := Rep.double (K := K) two_ne A_sq_ne a24_eq h3
    have a := Rep.diffAdd two_ne hu' hd h3 h2
    have e1 : (2 * m + true.toNat) • Q = (m + 1) • Q + m • Q := by
      rw [← add_nsmul]; congr 1; simp; omega
    have e2 : (2 * m + true.toNat + 1) • Q = (m + 1) • Q + (m + 1) • Q := by
      rw [← add_nsmul]; congr 1; simp; omega
    refine ⟨?_, ?_⟩
    · rw [e1]
      convert a using 1 <;> simp [eager, Vars.arith, Vars.cswap, Rfc7748.cswap]
    · rw [e2]
      convert d using 1 <;> simp [eager, Vars.arith, Vars.cswap, Rfc7748.cswap]

theorem Inv.loop {u : F} (hu : u ≠ 0) {y : K} {hq : (E K).Nonsingular (algebraMap F K u) y} (k : Nat) :
    ∀ (t : Nat) {m : Nat} {v : Vars}, Inv (.some _ y hq) m v →
      Inv (.some _ y hq) (m * 2 ^ t + k % 2 ^ t) (eagerLoop k u t v)
  | 0, m, v, h => by
    rw [pow_zero, Nat.mod_one, mul_one, add_zero]
    exact h
  | t + 1, m, v, h => by
    rw [eagerLoop_succ]
    have := Inv.loop hu k t (h.step hu (k.testBit t))
    have e : (2 * m + (k.testBit t).toNat) * 2 ^ t + k % 2 ^ t = m * 2 ^ (t + 1) + k % 2 ^ (t + 1) := by
      have h1 : k % 2 ^ (t + 1) = k % 2 ^ t + 2 ^ t * (k.testBit t).toNat := by
        rw [Nat.mod_pow_succ, Nat.testBit_eq_decide_div_mod_eq]
        rcases Nat.mod_two_eq_zero_or_one (k / 2 ^ t) with h | h <;> simp [h]
      rw [h1, pow_succ]; ring
    rw [← e]
    exact this

omit [DecidableEq K] in
theorem mapped_inv (z : F) : algebraMap F K (z ^ (P - 2)) = (algebraMap F K z)⁻¹ := by
  by_cases hz : z = 0
  · have hp : P - 2 ≠ 0 := by have := P_gt; omega
    rw [hz, zero_pow hp, map_zero, inv_zero]
  · rw [inv_pow hz, map_inv₀]

theorem ladder_zero (k : Nat) : Rfc7748.ladder k 0 = 0 := by
  have hp : P - 2 ≠ 0 := by have := P_gt; omega
  rw [ladder_eager, loop_zero k 254 _ (by simp) (by simp), zero_pow hp, mul_zero]

/-- The procedure of the RFC computes the u-coordinate of a multiple of every point with the given non-zero
u-coordinate. -/
theorem ladder_smul {u : F} (hu : u ≠ 0) {y : K} (hq : (E K).Nonsingular (algebraMap F K u) y) (k : Nat) (hk : k < 2 ^ 255) :
    algebraMap F K (Rfc7748.ladder k u) = ucoord (k • (.some _ y hq : (E K).Point)) := by
  have h0 : Inv (.some _ y hq : (E K).Point) 0 ⟨1, 0, u, 1, false⟩ := by
    refine ⟨?_, ?_⟩
    · rw [zero_nsmul]
      exact ⟨by simp, by simp⟩
    · rw [zero_add, one_nsmul]
      exact ⟨by simp, by simp⟩
  have h := (h0.loop hu k 255).1
  rw [zero_mul, zero_add, Nat.mod_eq_of_lt hk] at h
  rw [ladder_eager, map_mul, mapped_inv]
  generalize (eagerLoop k u 255 ⟨1, 0, u, 1, false⟩).x2 = x at *
  generalize (eagerLoop k u 255 ⟨1, 0, u, 1, false⟩).z2 = z at *
  generalize k • (.some _ y hq : (E K).Point) = R at *
  cases R with
  | zero =>
    obtain ⟨-, h⟩ := h
    rw [h, inv_zero, mul_zero]; rfl
  | some q s hs =>
    obtain ⟨h1, h2⟩ := h
    rw [h2]
    show q * _ * _ = q
    field_simp

/-- The point (0, 0) has order two. -/
theorem two_smul_zero {x y : K} (hq : (E K).Nonsingular x y) (h0 : x = 0) : 2 • (.some x y hq : (E K).Point) = 0 := by
  subst h0
  have e := Montgomery.point_eq hq
  have hy : y = 0 := by
    have : y ^ 2 = 0 := by rw [e]; ring
    exact pow_eq_zero_iff (by decide) |>.1 this
  subst hy
  rw [two_nsmul]
  exact Point.add_self_of_Y_eq (by rw [Montgomery.negY_eq]; simp)

/-- The same for every u-coordinate, if the scalar is even. -/
theorem ladder_smul_even {u : F} {y : K} (hq : (E K).Nonsingular (algebraMap F K u) y) (k : Nat) (hk : k < 2 ^ 255)
    (he : 2 ∣ k) : algebraMap F K (Rfc7748.ladder k u) = ucoord (k • (.some _ y hq : (E K).Point)) := by
  by_cases hu : u = 0
  · obtain ⟨j, rfl⟩ := he
    have : (2 * j) • (.some _ y hq : (E K).Point) = 0 := by
      rw [mul_comm, mul_nsmul', two_smul_zero hq (by rw [hu, map_zero]), nsmul_zero]
    rw [this, hu, ladder_zero, map_zero]
    rfl
  · exact ladder_smul hu hq k hk

end

/-- Multiplications commute. -/
theorem ladder_comm (u : F) (a b : Nat) (ha : a < 2 ^ 255) (hb : b < 2 ^ 255) (ea : 2 ∣ a) (eb : 2 ∣ b) :
    Rfc7748.ladder a (Rfc7748.ladder b u) = Rfc7748.ladder b (Rfc7748.ladder a u) := by
  classical
  let K := AlgebraicClosure F
  obtain ⟨y, hy⟩ := IsAlgClosed.exists_pow_nat_eq ((algebraMap F K u) ^ 3 + algebraMap F K 486662 * (algebraMap F K u) ^ 2 +
    algebraMap F K u) (n := 2) (by decide)
  have hq : (E K).Nonsingular (algebraMap F K u) y := Montgomery.nonsingular two_ne A_sq_ne hy
  have key : ∀ a b : Nat, a < 2 ^ 255 → b < 2 ^ 255 → 2 ∣ a → 2 ∣ b →
      algebraMap F K (Rfc7748.ladder a (Rfc7748.ladder b u)) = ucoord ((a * b) • (.some _ y hq : (E K).Point)) := by
    intro a b ha hb ea eb
    have h := ladder_smul_even hq b hb eb
    rw [mul_comm, mul_nsmul]
    generalize b • (.some _ y hq : (E K).Point) = R at h
    cases R with
    | zero =>
      have h0 : Rfc7748.ladder b u = 0 := (map_eq_zero (algebraMap F K)).1 h
      rw [h0, ladder_zero, map_zero]
      change _ = ucoord (a • (0 : (E K).Point))
      rw [nsmul_zero]; rfl
    | some q s hs =>
      change _ = q at h
      subst h
      exact ladder_smul_even hs a ha ea
  apply (algebraMap F K).injective
  rw [key a b ha hb ea eb, key b a hb ha eb ea, mul_comm]

/-! ## Encodings -/

theorem leNat_leBytes : ∀ (n x : Nat), x < 256 ^ n → leNat (leBytes n x) = x
  | 0, x, h => by
    have : x = 0 := by simpa using h
    subst this; rfl
  | n + 1, x, h => by
    have ih := leNat_leBytes n (x / 256) (by rw [pow_succ] at h; exact Nat.div_lt_of_lt_mul (by rw [mul_comm]; exact h))
    simp only [leBytes, leNat, ih, UInt8.toNat_ofNat']
    omega

theorem leBytes_length : ∀ (n x : Nat), (leBytes n x).length = n
  | 0, x => rfl
  | n + 1, x => by simp [leBytes, leBytes_length]

theorem decode_encode (x : F) : Rfc7748.decodeUCoordinate (Rfc7748.encodeUCoordinate x) = x := by
  have hx : x.val < P := ZMod.val_lt x
  have h255 : P < 2 ^ 255 := by decide +kernel
  have hlt : x.val < 256 ^ 32 := by
    have : (2 : Nat) ^ 255 < 256 ^ 32 := by decide +kernel
    omega
  unfold Rfc7748.decodeUCoordinate Rfc7748.encodeUCoordinate
  rw [leNat_mask _ (leBytes_length _ _), leNat_leBytes _ _ hlt, Nat.mod_eq_of_lt (by omega)]
  exact ZMod.natCast_zmod_val x

theorem scalar_lt (k : Bytes) (h : k.length = 32) : Rfc7748.decodeScalar25519 k < 2 ^ 255 := by
  have hb := scalar_bit k h
  have hl : Rfc7748.decodeScalar25519 k < 2 ^ 256 := by
    unfold Rfc7748.decodeScalar25519
    refine lt_of_lt_of_eq (leNat_lt _) ?_
    rw [List.length_set, List.length_set, h]
    norm_num
  rw [Nat.testBit_eq_decide_div_mod_eq] at hb
  have := of_decide_eq_false hb
  omega

theorem scalar_dvd (k : Bytes) (h : k.length = 32) : 8 ∣ Rfc7748.decodeScalar25519 k := by
  unfold Rfc7748.decodeScalar25519
  match k, h with
  | b :: l, h =>
    have hl : l.length = 31 := by simpa using h
    simp only [List.getD_cons_zero, List.set_cons_zero, List.set_cons_succ, leNat]
    have : (b &&& 248).toNat % 8 = 0 :=
      all_bytes (p := fun b => (b &&& 248).toNat % 8 = 0) (by decide +kernel) b
    omega

/-! ## The code -/

/-- **C61**: the code multiplies points of Curve25519. For every field that contains GF(2^255-19) and every point of the
curve over that field whose u-coordinate is given by the public key, the result is the u-coordinate of the multiple of
the point by the clamped private key, and 0 if the multiple is the point at infinity. -/
theorem C61_donna_multiplies {K : Type*} [Field K] [Algebra F K] [DecidableEq K] (secret pub : Bytes)
    (hs : secret.length = 32) (hp : pub.length = 32) (y : K)
    (hq : (E K).Nonsingular (algebraMap F K (Rfc7748.decodeUCoordinate pub)) y) :
    algebraMap F K (Rfc7748.decodeUCoordinate (curve25519Donna secret pub)) =
      ucoord (Rfc7748.decodeScalar25519 secret • (Point.some _ y hq : (E K).Point)) := by
  rw [C60_donna_is_x25519 secret pub hs hp, Rfc7748.x25519, decode_encode]
  exact ladder_smul_even hq _ (scalar_lt secret hs) (Dvd.dvd.trans (by decide) (scalar_dvd secret hs))

/-- **C61**: both parties get the same shared secret, whatever the private keys and whatever point is used as the base. -/
theorem C61_donna_commutes (a b u : Bytes) (ha : a.length = 32) (hb : b.length = 32) (hu : u.length = 32) :
    curve25519Donna a (curve25519Donna b u) = curve25519Donna b (curve25519Donna a u) := by
  have hl : ∀ k, (Rfc7748.x25519 k u).length = 32 := fun k => leBytes_length _ _
  rw [C60_donna_is_x25519 b u hb hu, C60_donna_is_x25519 a u ha hu, C60_donna_is_x25519 _ _ ha (hl b),
    C60_donna_is_x25519 _ _ hb (hl a)]
  unfold Rfc7748.x25519
  rw [decode_encode, decode_encode]
  exact congrArg _ (ladder_comm _ _ _ (scalar_lt a ha) (scalar_lt b hb) (Dvd.dvd.trans (by decide) (scalar_dvd a ha))
    (Dvd.dvd.trans (by decide) (scalar_dvd b hb)))

/-- The base point of RFC 7748, section 4.1. -/
example : (E F).Nonsingular (algebraMap F F (Rfc7748.decodeUCoordinate (9 :: List.replicate 31 0)))
    14781619447589544791020593568409986887264606134616475288964881837755586237401 :=
  Montgomery.nonsingular two_ne A_sq_ne (by decide +kernel)

/-- The exchange of RFC 7748, section 6.1. -/
example :
    let alice := leBytes 32 0x2a2cb91da5fb77b12a99c0eb872f4cdf4566b25172c1163c7da518730a6d0777
    let bob := leBytes 32 0xebe088ff278b2f1cfdb6182629b13b6fe60e80838b7fe1794b8a4a627e08ab5d
    let base := 9 :: List.replicate 31 0
    curve25519Donna alice (curve25519Donna bob base) =
      leBytes 32 0x4217161e3c9bf076339ed147c9217ee0250f3580f43b8e72e12dcea45b9d5d4a := by
  decide +kernel

end Noise.Curve25519
