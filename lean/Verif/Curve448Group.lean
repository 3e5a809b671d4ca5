import Verif.Curve448Props
import Verif.Pratt448
import Verif.LadderGroup
import Verif.Curve25519Group
/-!
# X448 is scalar multiplication in the group of an elliptic curve
-/

namespace Noise.Curve448

set_option exponentiation.threshold 500

open WeierstrassCurve WeierstrassCurve.Affine
open X448 (P F)
open Rfc7539 (leNat leBytes)
open Ladder (E ucoord)
open Curve25519 (all_bytes leNat_lt leBytes_length leNat_testBit)

instance : Fact P.Prime := ⟨P_eq ▸ prime_p448⟩

theorem natCast_ne (n : Nat) (h0 : n ≠ 0) (h : n < 2 ^ 64) : ((n : Nat) : F) ≠ 0 := by
  rw [Ne, ZMod.natCast_eq_zero_iff]
  intro hd
  have := Nat.le_of_dvd (by omega) hd
  rw [P_eq] at this
  omega

theorem inv_pow (z : F) : z ^ (P - 2) = z⁻¹ := by
  have hp : P ≠ 0 ∧ 2 < P := by rw [P_eq]; decide
  by_cases hz : z = 0
  · rw [hz, inv_zero, zero_pow (by omega)]
  · refine eq_inv_of_mul_eq_one_left ?_
    rw [← pow_succ, show P - 2 + 1 = P - 1 by omega]
    exact ZMod.pow_card_sub_one_eq_one hz

/-- "curve448 ... A 156326", RFC 7748, section 4.2. -/
theorem params : Ladder.Params (156326 : F) X448.a24 P where
  two := by
    have h : ((2 : Nat) : F) ≠ 0 := natCast_ne 2 (by omega) (by omega)
    exact_mod_cast h
  sq := by
    have h : ((156326 ^ 2 - 4 : Nat) : F) ≠ 0 := natCast_ne _ (by decide) (by decide)
    intro h4
    apply h
    rw [Nat.cast_sub (by decide), Nat.cast_pow]
    have e : ((156326 : Nat) : F) = 156326 := by norm_cast
    rw [e, h4]
    norm_num
  a24 := by unfold X448.a24; norm_num
  inv := inv_pow

/-! ## Encodings -/

theorem decode_encode (x : F) : X448.decodeUCoordinate (X448.encodeUCoordinate x) = x := by
  have hx : x.val < P := ZMod.val_lt x
  have hlt : x.val < 256 ^ 56 := by
    exact lt_trans (lt_of_lt_of_eq hx P_eq) (by decide)
  unfold X448.decodeUCoordinate X448.encodeUCoordinate
  rw [Curve25519.leNat_leBytes _ _ hlt]
  exact ZMod.natCast_zmod_val x

theorem encode_lt (x : F) : leNat (X448.encodeUCoordinate x) < 2 ^ 448 - 2 ^ 224 - 1 := by
  have hx : x.val < P := ZMod.val_lt x
  have hx := lt_of_lt_of_eq hx P_eq
  unfold X448.encodeUCoordinate
  rw [Curve25519.leNat_leBytes _ _ (lt_trans hx (by decide))]
  exact hx

theorem scalar_lt (k : Bytes) (h : k.length = 56) : X448.decodeScalar448 k < 2 ^ (447 + 1) := by
  unfold X448.decodeScalar448
  refine lt_of_lt_of_eq (leNat_lt _) ?_
  rw [List.length_set, List.length_set, h]
  norm_num

theorem scalar_dvd (k : Bytes) (h : k.length = 56) : 4 ∣ X448.decodeScalar448 k := by
  unfold X448.decodeScalar448
  match k, h with
  | b :: l, h =>
    have hl : l.length = 55 := by simpa using h
    simp only [List.getD_cons_zero, List.set_cons_zero, List.set_cons_succ, leNat]
    have : (b &&& 252).toNat % 4 = 0 :=
      all_bytes (p := fun b => (b &&& 252).toNat % 4 = 0) (by decide +kernel) b
    omega

theorem x448_length (k u : Bytes) : (X448.x448 k u).length = 56 := leBytes_length _ _

theorem x448_lt (k u : Bytes) : leNat (X448.x448 k u) < 2 ^ 448 - 2 ^ 224 - 1 := encode_lt _

/-! ## The function X448 -/

/-- X448 multiplies points of Curve448. -/
theorem x448_multiplies {K : Type*} [Field K] [Algebra F K] [DecidableEq K] (secret pub : Bytes)
    (hs : secret.length = 56) (y : K)
    (hq : (E (156326 : F) K).Nonsingular (algebraMap F K (X448.decodeUCoordinate pub)) y) :
    algebraMap F K (X448.decodeUCoordinate (X448.x448 secret pub)) =
      ucoord (X448.decodeScalar448 secret • (Point.some _ y hq : (E (156326 : F) K).Point)) := by
  rw [X448.x448, decode_encode]
  exact Ladder.ladder_smul_even params hq _ (scalar_lt secret hs) (Dvd.dvd.trans (by decide) (scalar_dvd secret hs))

theorem x448_commutes (a b u : Bytes) (ha : a.length = 56) (hb : b.length = 56) :
    X448.x448 a (X448.x448 b u) = X448.x448 b (X448.x448 a u) := by
  unfold X448.x448
  rw [decode_encode, decode_encode]
  exact congrArg _ (Ladder.ladder_comm params _ _ _ (scalar_lt a ha) (scalar_lt b hb)
    (Dvd.dvd.trans (by decide) (scalar_dvd a ha)) (Dvd.dvd.trans (by decide) (scalar_dvd b hb)))

theorem decode_zero : X448.decodeUCoordinate (List.replicate 56 0) = 0 := by
  have : leNat (List.replicate 56 0) = 0 := by decide
  rw [X448.decodeUCoordinate, this, Nat.cast_zero]

theorem encode_zero : X448.encodeUCoordinate 0 = List.replicate 56 0 := by
  rw [X448.encodeUCoordinate, ZMod.val_zero]
  decide

theorem x448_zero (k : Bytes) : X448.x448 k (List.replicate 56 0) = List.replicate 56 0 := by
  rw [X448.x448, decode_zero, Ladder.ladder_zero params 447, encode_zero]

end Noise.Curve448
