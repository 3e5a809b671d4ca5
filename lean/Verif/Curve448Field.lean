import Verif.Curve448
import Verif.Rfc7748X448
import Mathlib.Data.BitVec
import Mathlib.Tactic.Ring
import Mathlib.Tactic.LinearCombination
import Mathlib.Tactic.GCongr
/-!
# The field of `src/crypto/goldilocks/src/p448` with 64-bit limbs

Numbers modulo `2^448 - 2^224 - 1` in eight limbs: no overflow, and the values are those of the field.
-/

namespace Noise.Curve448

open X448 (P F)

set_option exponentiation.threshold 500

theorem P_eq : P = 2 ^ 448 - 2 ^ 224 - 1 := by unfold P; rfl

/-- The number represented by the limbs. -/
def Fe.val (a : Fe) : Nat :=
  a.l0.toNat + 2 ^ 56 * a.l1.toNat + 2 ^ 112 * a.l2.toNat + 2 ^ 168 * a.l3.toNat + 2 ^ 224 * a.l4.toNat +
    2 ^ 280 * a.l5.toNat + 2 ^ 336 * a.l6.toNat + 2 ^ 392 * a.l7.toNat

/-- Its class modulo `2^448 - 2^224 - 1`. -/
def Fe.ev (a : Fe) : F := (a.val : F)

/-- All limbs are at most `B`. -/
structure Fe.Le (a : Fe) (B : Nat) : Prop where
  h0 : a.l0.toNat ≤ B
  h1 : a.l1.toNat ≤ B
  h2 : a.l2.toNat ≤ B
  h3 : a.l3.toNat ≤ B
  h4 : a.l4.toNat ≤ B
  h5 : a.l5.toNat ≤ B
  h6 : a.l6.toNat ≤ B
  h7 : a.l7.toNat ≤ B

/-- The bound for all limbs between operations. -/
def M : Nat := 2 ^ 56 + 2 ^ 10

/-- The radix. -/
@[irreducible] def T : Nat := 2 ^ 56

theorem T_eq : T = 2 ^ 56 := by unfold T; rfl

theorem T_pow : (T : F) ^ 8 = (T : F) ^ 4 + 1 := by
  have e : T ^ 8 = T ^ 4 + 1 + P := by rw [P_eq, T_eq]; omega
  have h := congrArg (Nat.cast : Nat → F) e
  rw [Nat.cast_add _ P, ZMod.natCast_self, add_zero] at h
  exact_mod_cast h

theorem Fe.ev_eq (a : Fe) : a.ev = (a.l0.toNat : F) + T * a.l1.toNat + T ^ 2 * a.l2.toNat + T ^ 3 * a.l3.toNat +
    T ^ 4 * a.l4.toNat + T ^ 5 * a.l5.toNat + T ^ 6 * a.l6.toNat + T ^ 7 * a.l7.toNat := by
  have h : a.val = a.l0.toNat + T * a.l1.toNat + T ^ 2 * a.l2.toNat + T ^ 3 * a.l3.toNat + T ^ 4 * a.l4.toNat +
      T ^ 5 * a.l5.toNat + T ^ 6 * a.l6.toNat + T ^ 7 * a.l7.toNat := by
    rw [T_eq]; unfold Fe.val; ring
  unfold Fe.ev
  rw [h]
  push_cast
  rfl

theorem wide_eq (x : UInt64) : wide x = ((x.toNat : Nat) : U128) := rfl

theorem widemul_eq (x y : UInt64) : widemul x y = (x.toNat : U128) * (y.toNat : U128) := rfl

theorem cast_toNat {n : Nat} (h : n < 2 ^ 128) : ((n : Nat) : U128).toNat = n := by
  show (BitVec.ofNat 128 n).toNat = n
  rw [BitVec.toNat_ofNat, Nat.mod_eq_of_lt h]

theorem and56 (x : UInt64) : (x &&& mask).toNat = x.toNat % 2 ^ 56 := by
  rw [UInt64.toNat_and]; exact Nat.and_two_pow_sub_one_eq_mod _ 56

theorem shr56 (x : UInt64) : (x >>> 56).toNat = x.toNat / 2 ^ 56 := by
  rw [UInt64.toNat_shiftRight, Nat.shiftRight_eq_div_pow]; rfl

theorem narrow_eq {n : Nat} (h : n < 2 ^ 64) : (narrow ((n : Nat) : U128)).toNat = n := by
  rw [narrow, cast_toNat (by omega), UInt64.toNat_ofNat', Nat.mod_eq_of_lt h]

theorem low_eq {n : Nat} (h : n < 2 ^ 128) : (low ((n : Nat) : U128)).toNat = n % 2 ^ 56 := by
  rw [low, and56, narrow, cast_toNat h, UInt64.toNat_ofNat']; omega

theorem shift_eq {n : Nat} (h : n < 2 ^ 128) (k : Nat) : ((n : Nat) : U128) >>> k = ((n / 2 ^ k : Nat) : U128) := by
  apply BitVec.eq_of_toNat_eq
  have : n / 2 ^ k ≤ n := Nat.div_le_self _ _
  rw [BitVec.toNat_ushiftRight, cast_toNat h, cast_toNat (by omega), Nat.shiftRight_eq_div_pow]

/-- The low part and the rest of an accumulator. -/
theorem split {x : U128} {n : Nat} (h : x = ((n : Nat) : U128)) (hn : n < 2 ^ 120) :
    ∃ q r, n = T * q + r ∧ q < 2 ^ 64 ∧ r < 2 ^ 56 ∧ (low x).toNat = r ∧ x >>> 56 = ((q : Nat) : U128) := by
  refine ⟨n / 2 ^ 56, n % 2 ^ 56, ?_, by omega, by omega, ?_, ?_⟩
  · rw [T_eq]; omega
  · rw [h, low_eq (by omega)]
  · rw [h]; exact shift_eq (by omega) 56

/-- The same for half the number. -/
theorem split2 {x : U128} {n : Nat} (h : x = ((n : Nat) : U128)) (hn : n < 2 ^ 118) :
    ∃ q r, 2 * n = T * q + r ∧ q < 2 ^ 63 ∧ r < 2 ^ 56 ∧ ((narrow x <<< 1) &&& mask).toNat = r ∧ x >>> 55 = ((q : Nat) : U128) := by
  refine ⟨n / 2 ^ 55, 2 * n % 2 ^ 56, ?_, by omega, by omega, ?_, ?_⟩
  · rw [T_eq]; omega
  · rw [and56, UInt64.toNat_shiftLeft, narrow, h, cast_toNat (by omega), UInt64.toNat_ofNat', Nat.shiftLeft_eq]
    simp only [UInt64.toNat_ofNat, Nat.reducePow, Nat.reduceMod]
    omega
  · rw [h]; exact shift_eq (by omega) 55

/-! ## Sums and differences -/

theorem weakReduce_ok {a : Fe} (h : a.Le (2 ^ 63)) : (weakReduce a).Le (2 ^ 56 + 2 ^ 8) ∧ (weakReduce a).ev = a.ev := by
  obtain ⟨h0, h1, h2, h3, h4, h5, h6, h7⟩ := h
  have e4 : (a.l4 + a.l7 >>> 56).toNat = a.l4.toNat + a.l7.toNat / 2 ^ 56 := by
    rw [UInt64.toNat_add, shr56, Nat.mod_eq_of_lt (by omega)]
  have key : ∀ x y : UInt64, y.toNat ≤ 2 ^ 63 + 2 ^ 8 → ((x &&& mask) + y >>> 56).toNat = x.toNat % 2 ^ 56 + y.toNat / 2 ^ 56 := by
    intro x y hy
    rw [UInt64.toNat_add, and56, shr56, Nat.mod_eq_of_lt (by omega)]
  have k0 := key a.l0 a.l7 (by omega)
  have k1 := key a.l1 a.l0 (by omega)
  have k2 := key a.l2 a.l1 (by omega)
  have k3 := key a.l3 a.l2 (by omega)
  have k4 := key (a.l4 + a.l7 >>> 56) a.l3 (by omega)
  have k5 := key a.l5 (a.l4 + a.l7 >>> 56) (by omega)
  have k6 := key a.l6 a.l5 (by omega)
  have k7 := key a.l7 a.l6 (by omega)
  rw [e4] at k4 k5
  refine ⟨⟨?_, ?_, ?_, ?_, ?_, ?_, ?_, ?_⟩, ?_⟩
  · simp only [weakReduce, k0]; omega
  · simp only [weakReduce, k1]; omega
  · simp only [weakReduce, k2]; omega
  · simp only [weakReduce, k3]; omega
  · simp only [weakReduce, k4]; omega
  · simp only [weakReduce, k5]; omega
  · simp only [weakReduce, k6]; omega
  · simp only [weakReduce, k7]; omega
  · have hv : (weakReduce a).val + (a.l7.toNat / 2 ^ 56) * P = a.val := by
      simp only [Fe.val, weakReduce, k0, k1, k2, k3, k4, k5, k6, k7, P_eq]
      omega
    unfold Fe.ev
    rw [← hv]
    push_cast
    rw [show (P : F) = 0 from ZMod.natCast_self P, mul_zero, add_zero]

theorem addLimbs_ok {a b : Fe} (ha : a.Le M) (hb : b.Le M) : (addLimbs a b).Le (2 ^ 63) ∧ (addLimbs a b).ev = a.ev + b.ev := by
  have hM : M = 2 ^ 56 + 2 ^ 10 := rfl
  have key : ∀ x y : UInt64, x.toNat ≤ M → y.toNat ≤ M → (x + y).toNat = x.toNat + y.toNat := by
    intro x y hx hy
    rw [UInt64.toNat_add, Nat.mod_eq_of_lt (by omega)]
  obtain ⟨a0, a1, a2, a3, a4, a5, a6, a7⟩ := ha
  obtain ⟨b0, b1, b2, b3, b4, b5, b6, b7⟩ := hb
  have e0 := key _ _ a0 b0
  have e1 := key _ _ a1 b1
  have e2 := key _ _ a2 b2
  have e3 := key _ _ a3 b3
  have e4 := key _ _ a4 b4
  have e5 := key _ _ a5 b5
  have e6 := key _ _ a6 b6
  have e7 := key _ _ a7 b7
  refine ⟨⟨?_, ?_, ?_, ?_, ?_, ?_, ?_, ?_⟩, ?_⟩
  · simp only [addLimbs, e0]; omega
  · simp only [addLimbs, e1]; omega
  · simp only [addLimbs, e2]; omega
  · simp only [addLimbs, e3]; omega
  · simp only [addLimbs, e4]; omega
  · simp only [addLimbs, e5]; omega
  · simp only [addLimbs, e6]; omega
  · simp only [addLimbs, e7]; omega
  · simp only [Fe.ev_eq, addLimbs, e0, e1, e2, e3, e4, e5, e6, e7]
    push_cast
    ring

theorem subLimbs_ok {a b : Fe} (ha : a.Le M) (hb : b.Le M) : (subLimbs a b).Le (2 ^ 63) ∧ (subLimbs a b).ev = a.ev - b.ev := by
  have hM : M = 2 ^ 56 + 2 ^ 10 := rfl
  have key : ∀ (k : Nat) (x y : UInt64), k ≤ 4 → x.toNat ≤ M → y.toNat ≤ M → ∀ m : UInt64, m.toNat = 2 ^ 57 - k →
      (x - y + m).toNat = x.toNat + (2 ^ 57 - k) - y.toNat := by
    intro k x y hk hx hy m hm
    rw [UInt64.toNat_add, UInt64.toNat_sub, hm]
    omega
  obtain ⟨a0, a1, a2, a3, a4, a5, a6, a7⟩ := ha
  obtain ⟨b0, b1, b2, b3, b4, b5, b6, b7⟩ := hb
  have m1 : co1.toNat = 2 ^ 57 - 2 := by decide
  have m2 : co2.toNat = 2 ^ 57 - 4 := by decide
  have e0 := key 2 _ _ (by omega) a0 b0 _ m1
  have e1 := key 2 _ _ (by omega) a1 b1 _ m1
  have e2 := key 2 _ _ (by omega) a2 b2 _ m1
  have e3 := key 2 _ _ (by omega) a3 b3 _ m1
  have e4 := key 4 _ _ (by omega) a4 b4 _ m2
  have e5 := key 2 _ _ (by omega) a5 b5 _ m1
  have e6 := key 2 _ _ (by omega) a6 b6 _ m1
  have e7 := key 2 _ _ (by omega) a7 b7 _ m1
  refine ⟨⟨?_, ?_, ?_, ?_, ?_, ?_, ?_, ?_⟩, ?_⟩
  · simp only [subLimbs, e0]; omega
  · simp only [subLimbs, e1]; omega
  · simp only [subLimbs, e2]; omega
  · simp only [subLimbs, e3]; omega
  · simp only [subLimbs, e4]; omega
  · simp only [subLimbs, e5]; omega
  · simp only [subLimbs, e6]; omega
  · simp only [subLimbs, e7]; omega
  · rw [eq_sub_iff_add_eq]
    have hv : (subLimbs a b).val + b.val = a.val + 2 * P := by
      simp only [Fe.val, subLimbs, e0, e1, e2, e3, e4, e5, e6, e7, P_eq]
      omega
    have hv := congrArg (Nat.cast : Nat → F) hv
    push_cast at hv
    have hP : (P : F) = 0 := ZMod.natCast_self P
    rw [hP, mul_zero, add_zero] at hv
    exact hv

theorem Fe.Le.mono {a : Fe} {B C : Nat} (h : a.Le B) (hc : B ≤ C) : a.Le C :=
  ⟨h.h0.trans hc, h.h1.trans hc, h.h2.trans hc, h.h3.trans hc, h.h4.trans hc, h.h5.trans hc, h.h6.trans hc, h.h7.trans hc⟩

theorem x64Add_ok {a b : Fe} (ha : a.Le M) (hb : b.Le M) : (x64Add a b).Le M ∧ (x64Add a b).ev = a.ev + b.ev := by
  have h := addLimbs_ok ha hb
  have k := weakReduce_ok h.1
  exact ⟨k.1.mono (by decide), k.2.trans h.2⟩

theorem x64Sub_ok {a b : Fe} (ha : a.Le M) (hb : b.Le M) : (x64Sub a b).Le M ∧ (x64Sub a b).ev = a.ev - b.ev := by
  have h := subLimbs_ok ha hb
  have k := weakReduce_ok h.1
  exact ⟨k.1.mono (by decide), k.2.trans h.2⟩

theorem refAdd_ok {a b : Fe} (ha : a.Le M) (hb : b.Le M) : (refAdd a b).Le M ∧ (refAdd a b).ev = a.ev + b.ev := by
  have h := addLimbs_ok ha hb
  have k := weakReduce_ok h.1
  have k' := weakReduce_ok (k.1.mono (by decide))
  exact ⟨k'.1.mono (by decide), (k'.2.trans k.2).trans h.2⟩

theorem refSub_ok {a b : Fe} (ha : a.Le M) (hb : b.Le M) : (refSub a b).Le M ∧ (refSub a b).ev = a.ev - b.ev := by
  have h := subLimbs_ok ha hb
  have k := weakReduce_ok h.1
  have k' := weakReduce_ok (k.1.mono (by decide))
  exact ⟨k'.1.mono (by decide), (k'.2.trans k.2).trans h.2⟩

end Noise.Curve448
