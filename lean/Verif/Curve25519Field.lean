import Verif.Curve25519
import Verif.Rfc7748
import Mathlib.Tactic.Ring
import Mathlib.Tactic.LinearCombination
/-!
# Field arithmetic in `curve25519-donna-c64.c`

Numbers modulo `2^255 - 19` in five limbs: no overflow, and the values are those of the field.
-/

namespace Noise.Curve25519

open Rfc7748 (P F)

/-- The number represented by the limbs. -/
def Fe.val (a : Fe) : Nat :=
  a.l0.toNat + 2 ^ 51 * a.l1.toNat + 2 ^ 102 * a.l2.toNat + 2 ^ 153 * a.l3.toNat + 2 ^ 204 * a.l4.toNat

/-- Its class modulo `2^255 - 19`. -/
def Fe.ev (a : Fe) : F := (a.val : F)

/-- All limbs are at most `B`. -/
structure Fe.Le (a : Fe) (B : Nat) : Prop where
  h0 : a.l0.toNat ≤ B
  h1 : a.l1.toNat ≤ B
  h2 : a.l2.toNat ≤ B
  h3 : a.l3.toNat ≤ B
  h4 : a.l4.toNat ≤ B

theorem Fe.Le.mono {a : Fe} {B C : Nat} (h : a.Le B) (hc : B ≤ C) : a.Le C :=
  ⟨h.h0.trans hc, h.h1.trans hc, h.h2.trans hc, h.h3.trans hc, h.h4.trans hc⟩

theorem two255 : (2 : F) ^ 255 = 19 := by
  have h : ((2 ^ 255 : Nat) : F) = ((19 : Nat) : F) := by
    rw [ZMod.natCast_eq_natCast_iff, Nat.ModEq]
    decide +kernel
  exact_mod_cast h

theorem Fe.ev_eq (a : Fe) : a.ev = (a.l0.toNat : F) + 2 ^ 51 * a.l1.toNat + 2 ^ 102 * a.l2.toNat + 2 ^ 153 * a.l3.toNat +
    2 ^ 204 * a.l4.toNat := by
  unfold Fe.ev Fe.val
  push_cast
  rfl

theorem mul_eq (x y : UInt64) : mul x y = x.toNat * y.toNat := by
  unfold mul
  have := x.toNat_lt
  have := y.toNat_lt
  apply Nat.mod_eq_of_lt
  calc x.toNat * y.toNat ≤ (2 ^ 64 - 1) * (2 ^ 64 - 1) := Nat.mul_le_mul (by omega) (by omega)
    _ < 2 ^ 128 := by omega

theorem add_eq {x y : Nat} (h : x + y < 2 ^ 128) : add x y = x + y := Nat.mod_eq_of_lt h

theorem shr51_toNat {x : Nat} (h : x / 2 ^ 51 < 2 ^ 64) : (shr51 x).toNat = x / 2 ^ 51 := by
  rw [shr51, UInt64.toNat_ofNat', Nat.mod_eq_of_lt h]

theorem and51 (x : UInt64) : (x &&& 0x7ffffffffffff).toNat = x.toNat % 2 ^ 51 := by
  rw [UInt64.toNat_and]; exact Nat.and_two_pow_sub_one_eq_mod _ 51

theorem low51_toNat (x : Nat) : (low51 x).toNat = x % 2 ^ 51 := by
  rw [low51, and51, UInt64.toNat_ofNat']; omega

theorem shru51 (x : UInt64) : (x >>> 51).toNat = x.toNat / 2 ^ 51 := by
  rw [UInt64.toNat_shiftRight, Nat.shiftRight_eq_div_pow]; rfl

/-! ## Sums and differences -/

theorem fsum_ok {a b : Fe} {A B : Nat} (ha : a.Le A) (hb : b.Le B) (h : A + B < 2 ^ 64) :
    (fsum a b).Le (A + B) ∧ (fsum a b).ev = a.ev + b.ev := by
  have key : ∀ x y : UInt64, x.toNat ≤ A → y.toNat ≤ B → (x + y).toNat = x.toNat + y.toNat := by
    intro x y hx hy
    rw [UInt64.toNat_add, Nat.mod_eq_of_lt (by omega)]
  obtain ⟨a0, a1, a2, a3, a4⟩ := ha
  obtain ⟨b0, b1, b2, b3, b4⟩ := hb
  have e0 := key _ _ a0 b0
  have e1 := key _ _ a1 b1
  have e2 := key _ _ a2 b2
  have e3 := key _ _ a3 b3
  have e4 := key _ _ a4 b4
  refine ⟨⟨?_, ?_, ?_, ?_, ?_⟩, ?_⟩
  · simp only [fsum, e0]; omega
  · simp only [fsum, e1]; omega
  · simp only [fsum, e2]; omega
  · simp only [fsum, e3]; omega
  · simp only [fsum, e4]; omega
  · simp only [Fe.ev_eq, fsum, e0, e1, e2, e3, e4]
    push_cast
    ring

theorem fdifferenceBackwards_ok {out a : Fe} {A : Nat} (ho : out.Le (2 ^ 52)) (ha : a.Le A) (h : A ≤ 2 ^ 60) :
    (fdifferenceBackwards out a).Le (2 ^ 54 + A) ∧ (fdifferenceBackwards out a).ev = a.ev - out.ev := by
  have key : ∀ (k : Nat) (x y : UInt64), k ≤ 152 → x.toNat ≤ A → y.toNat ≤ 2 ^ 52 → ∀ m : UInt64, m.toNat = 2 ^ 54 - k →
      (x + m - y).toNat = x.toNat + (2 ^ 54 - k) - y.toNat := by
    intro k x y hk hx hy m hm
    have hs : (x + m).toNat = x.toNat + (2 ^ 54 - k) := by
      rw [UInt64.toNat_add, hm, Nat.mod_eq_of_lt (by omega)]
    rw [UInt64.toNat_sub_of_le _ _ (by rw [UInt64.le_iff_toNat_le, hs]; omega), hs]
  obtain ⟨a0, a1, a2, a3, a4⟩ := ha
  obtain ⟨b0, b1, b2, b3, b4⟩ := ho
  have m1 : two54m152.toNat = 2 ^ 54 - 152 := by decide
  have m2 : two54m8.toNat = 2 ^ 54 - 8 := by decide
  have e0 := key 152 _ _ (by omega) a0 b0 _ m1
  have e1 := key 8 _ _ (by omega) a1 b1 _ m2
  have e2 := key 8 _ _ (by omega) a2 b2 _ m2
  have e3 := key 8 _ _ (by omega) a3 b3 _ m2
  have e4 := key 8 _ _ (by omega) a4 b4 _ m2
  refine ⟨⟨?_, ?_, ?_, ?_, ?_⟩, ?_⟩
  · simp only [fdifferenceBackwards, e0]; omega
  · simp only [fdifferenceBackwards, e1]; omega
  · simp only [fdifferenceBackwards, e2]; omega
  · simp only [fdifferenceBackwards, e3]; omega
  · simp only [fdifferenceBackwards, e4]; omega
  · rw [eq_sub_iff_add_eq]
    have hv : (fdifferenceBackwards out a).val + out.val = a.val + 8 * P := by
      have hP : P = 2 ^ 255 - 19 := rfl
      simp only [Fe.val, fdifferenceBackwards, e0, e1, e2, e3, e4, hP]
      omega
    have hv := congrArg (Nat.cast : Nat → F) hv
    push_cast at hv
    have hP : (P : F) = 0 := ZMod.natCast_self P
    rw [hP, mul_zero, add_zero] at hv
    exact hv

/-! ## Reduction -/

theorem reduce_ok {t0 t1 t2 t3 t4 : Nat} (h0 : t0 ≤ 98 * 2 ^ 108) (h1 : t1 ≤ 98 * 2 ^ 108) (h2 : t2 ≤ 98 * 2 ^ 108)
    (h3 : t3 ≤ 98 * 2 ^ 108) (h4 : t4 ≤ 51 * 2 ^ 105) :
    (reduce t0 t1 t2 t3 t4).Le (2 ^ 51) ∧
      (reduce t0 t1 t2 t3 t4).ev = (t0 : F) + 2 ^ 51 * t1 + 2 ^ 102 * t2 + 2 ^ 153 * t3 + 2 ^ 204 * t4 := by
  obtain ⟨u1, hu1⟩ : ∃ u, t1 + t0 / 2 ^ 51 = u := ⟨_, rfl⟩
  obtain ⟨u2, hu2⟩ : ∃ u, t2 + u1 / 2 ^ 51 = u := ⟨_, rfl⟩
  obtain ⟨u3, hu3⟩ : ∃ u, t3 + u2 / 2 ^ 51 = u := ⟨_, rfl⟩
  obtain ⟨u4, hu4⟩ : ∃ u, t4 + u3 / 2 ^ 51 = u := ⟨_, rfl⟩
  have hb1 : u1 ≤ 98 * 2 ^ 108 + 2 ^ 64 := by omega
  have hb2 : u2 ≤ 98 * 2 ^ 108 + 2 ^ 64 := by omega
  have hb3 : u3 ≤ 98 * 2 ^ 108 + 2 ^ 64 := by omega
  have hb4 : u4 ≤ 51 * 2 ^ 105 + 2 ^ 64 := by omega
  have c4 := shr51_toNat (x := u4) (by omega)
  have s1 : add t1 (shr51 t0).toNat = u1 := by rw [shr51_toNat (by omega), add_eq (by omega), hu1]
  have s2 : add t2 (shr51 u1).toNat = u2 := by rw [shr51_toNat (by omega), add_eq (by omega), hu2]
  have s3 : add t3 (shr51 u2).toNat = u3 := by rw [shr51_toNat (by omega), add_eq (by omega), hu3]
  have s4 : add t4 (shr51 u3).toNat = u4 := by rw [shr51_toNat (by omega), add_eq (by omega), hu4]
  have e0 : (low51 t0 + shr51 u4 * 19).toNat = t0 % 2 ^ 51 + 19 * (u4 / 2 ^ 51) := by
    rw [UInt64.toNat_add, UInt64.toNat_mul, low51_toNat, c4, show (19 : UInt64).toNat = 19 from rfl]
    omega
  have e1 : (low51 u1 + (low51 t0 + shr51 u4 * 19) >>> 51).toNat = u1 % 2 ^ 51 +
      (t0 % 2 ^ 51 + 19 * (u4 / 2 ^ 51)) / 2 ^ 51 := by
    rw [UInt64.toNat_add, shru51, e0, low51_toNat]
    omega
  have e2 : (low51 u2 + (low51 u1 + (low51 t0 + shr51 u4 * 19) >>> 51) >>> 51).toNat = u2 % 2 ^ 51 +
      (u1 % 2 ^ 51 + (t0 % 2 ^ 51 + 19 * (u4 / 2 ^ 51)) / 2 ^ 51) / 2 ^ 51 := by
    rw [UInt64.toNat_add, shru51, e1, low51_toNat]
    omega
  have hw : reduce t0 t1 t2 t3 t4 = ⟨(low51 t0 + shr51 u4 * 19) &&& 0x7ffffffffffff,
      (low51 u1 + (low51 t0 + shr51 u4 * 19) >>> 51) &&& 0x7ffffffffffff,
      low51 u2 + (low51 u1 + (low51 t0 + shr51 u4 * 19) >>> 51) >>> 51, low51 u3, low51 u4⟩ := by
    unfold reduce
    simp only [s1, s2, s3, s4]
  rw [hw]
  refine ⟨⟨?_, ?_, ?_, ?_, ?_⟩, ?_⟩
  · simp only [and51]; omega
  · simp only [and51]; omega
  · simp only [e2]; omega
  · simp only [low51_toNat]; omega
  · simp only [low51_toNat]; omega
  · rw [← hw]
    have hv : (reduce t0 t1 t2 t3 t4).val + P * (u4 / 2 ^ 51) =
        t0 + 2 ^ 51 * t1 + 2 ^ 102 * t2 + 2 ^ 153 * t3 + 2 ^ 204 * t4 := by
      have hP : P = 2 ^ 255 - 19 := rfl
      rw [hw]
      simp only [Fe.val, and51, e0, e1, e2, low51_toNat, hP]
      clear e0 e1 e2 hw s1 s2 s3 s4 c4
      omega
    have hv := congrArg (Nat.cast : Nat → F) hv
    push_cast at hv
    have hP : (P : F) = 0 := ZMod.natCast_self P
    rw [hP, zero_mul, add_zero] at hv
    exact hv

/-! ## Products -/

theorem times19 {x : UInt64} (h : x.toNat ≤ 2 ^ 58) : (x * 19).toNat = 19 * x.toNat := by
  rw [UInt64.toNat_mul, show (19 : UInt64).toNat = 19 from rfl]; omega

/-- The bound on the limbs of the arguments of `fmul` and `fsquare_times`. -/
def M : Nat := 2 ^ 54 + 2 ^ 51

theorem fmul_ok {a b : Fe} (ha : a.Le M) (hb : b.Le M) : (fmul a b).Le (2 ^ 51) ∧ (fmul a b).ev = a.ev * b.ev := by
  obtain ⟨a0, a1, a2, a3, a4⟩ := ha
  obtain ⟨b0, b1, b2, b3, b4⟩ := hb
  have hM : M = 2 ^ 54 + 2 ^ 51 := rfl
  have t1 := times19 (x := b.l1) (by omega)
  have t2 := times19 (x := b.l2) (by omega)
  have t3 := times19 (x := b.l3) (by omega)
  have t4 := times19 (x := b.l4) (by omega)
  rw [Fe.ev_eq a, Fe.ev_eq b]
  unfold fmul
  simp only [mul_eq, t1, t2, t3, t4]
  generalize a.l0.toNat = s0 at *
  generalize a.l1.toNat = s1 at *
  generalize a.l2.toNat = s2 at *
  generalize a.l3.toNat = s3 at *
  generalize a.l4.toNat = s4 at *
  generalize b.l0.toNat = r0 at *
  generalize b.l1.toNat = r1 at *
  generalize b.l2.toNat = r2 at *
  generalize b.l3.toNat = r3 at *
  generalize b.l4.toNat = r4 at *
  clear t1 t2 t3 t4
  have p : ∀ {r s : Nat}, r ≤ M → s ≤ M → r * s ≤ 81 * 2 ^ 102 := fun hr hs =>
    (Nat.mul_le_mul hr hs).trans (by decide)
  have q : ∀ {r s : Nat}, r ≤ M → s ≤ M → 19 * r * s ≤ 19 * 81 * 2 ^ 102 := fun hr hs => by
    rw [Nat.mul_assoc, Nat.mul_assoc]; exact Nat.mul_le_mul_left _ (p hr hs)
  have p00 := p b0 a0
  have p01 := p b0 a1
  have p02 := p b0 a2
  have p03 := p b0 a3
  have p04 := p b0 a4
  have p10 := p b1 a0
  have p11 := p b1 a1
  have p12 := p b1 a2
  have p13 := p b1 a3
  have p14 := q b1 a4
  have p20 := p b2 a0
  have p21 := p b2 a1
  have p22 := p b2 a2
  have p23 := q b2 a3
  have p24 := q b2 a4
  have p30 := p b3 a0
  have p31 := p b3 a1
  have p32 := q b3 a2
  have p33 := q b3 a3
  have p34 := q b3 a4
  have p40 := p b4 a0
  have p41 := q b4 a1
  have p42 := q b4 a2
  have p43 := q b4 a3
  have p44 := q b4 a4
  have e0 : add (r0 * s0) (add (add (add (19 * r4 * s1) (19 * r1 * s4)) (19 * r2 * s3)) (19 * r3 * s2)) =
      r0 * s0 + 19 * r4 * s1 + 19 * r1 * s4 + 19 * r2 * s3 + 19 * r3 * s2 := by
    rw [add_eq (x := 19 * r4 * s1) (by omega), add_eq (y := 19 * r2 * s3) (by omega), add_eq (y := 19 * r3 * s2) (by omega),
      add_eq (by omega)]
    omega
  have e1 : add (add (r0 * s1) (r1 * s0)) (add (add (19 * r4 * s2) (19 * r2 * s4)) (19 * r3 * s3)) =
      r0 * s1 + r1 * s0 + 19 * r4 * s2 + 19 * r2 * s4 + 19 * r3 * s3 := by
    rw [add_eq (x := r0 * s1) (by omega), add_eq (x := 19 * r4 * s2) (by omega), add_eq (y := 19 * r3 * s3) (by omega),
      add_eq (by omega)]
    omega
  have e2 : add (add (add (r0 * s2) (r2 * s0)) (r1 * s1)) (add (19 * r4 * s3) (19 * r3 * s4)) =
      r0 * s2 + r2 * s0 + r1 * s1 + 19 * r4 * s3 + 19 * r3 * s4 := by
    rw [add_eq (x := r0 * s2) (by omega), add_eq (y := r1 * s1) (by omega), add_eq (x := 19 * r4 * s3) (by omega),
      add_eq (by omega)]
    omega
  have e3 : add (add (add (add (r0 * s3) (r3 * s0)) (r1 * s2)) (r2 * s1)) (19 * r4 * s4) =
      r0 * s3 + r3 * s0 + r1 * s2 + r2 * s1 + 19 * r4 * s4 := by
    rw [add_eq (x := r0 * s3) (by omega), add_eq (y := r1 * s2) (by omega), add_eq (y := r2 * s1) (by omega),
      add_eq (by omega)]
  have e4 : add (add (add (add (r0 * s4) (r4 * s0)) (r3 * s1)) (r1 * s3)) (r2 * s2) =
      r0 * s4 + r4 * s0 + r3 * s1 + r1 * s3 + r2 * s2 := by
    rw [add_eq (x := r0 * s4) (by omega), add_eq (y := r3 * s1) (by omega), add_eq (y := r1 * s3) (by omega),
      add_eq (by omega)]
  rw [e0, e1, e2, e3, e4]
  obtain ⟨h1, h2⟩ := reduce_ok
    (t0 := r0 * s0 + 19 * r4 * s1 + 19 * r1 * s4 + 19 * r2 * s3 + 19 * r3 * s2)
    (t1 := r0 * s1 + r1 * s0 + 19 * r4 * s2 + 19 * r2 * s4 + 19 * r3 * s3)
    (t2 := r0 * s2 + r2 * s0 + r1 * s1 + 19 * r4 * s3 + 19 * r3 * s4)
    (t3 := r0 * s3 + r3 * s0 + r1 * s2 + r2 * s1 + 19 * r4 * s4)
    (t4 := r0 * s4 + r4 * s0 + r3 * s1 + r1 * s3 + r2 * s2) (by omega) (by omega) (by omega) (by omega) (by omega)
  refine ⟨h1, ?_⟩
  rw [h2]
  push_cast
  linear_combination (-((r4 * s1 + r1 * s4 + r2 * s3 + r3 * s2 : F) + 2 ^ 51 * (r4 * s2 + r2 * s4 + r3 * s3) +
    2 ^ 102 * (r4 * s3 + r3 * s4) + 2 ^ 153 * (r4 * s4))) * two255

theorem fsquare_ok {a : Fe} (ha : a.Le M) : (fsquare a).Le (2 ^ 51) ∧ (fsquare a).ev = a.ev ^ 2 := by
  obtain ⟨a0, a1, a2, a3, a4⟩ := ha
  have hM : M = 2 ^ 54 + 2 ^ 51 := rfl
  have k2 : ∀ x : UInt64, x.toNat ≤ 2 ^ 62 → (x * 2).toNat = 2 * x.toNat := fun x h => by
    rw [UInt64.toNat_mul, show (2 : UInt64).toNat = 2 from rfl]; omega
  have d0 := k2 a.l0 (by omega)
  have d1 := k2 a.l1 (by omega)
  have d2 : (a.l2 * 2 * 19).toNat = 38 * a.l2.toNat := by
    rw [times19 (by rw [k2 _ (by omega)]; omega), k2 _ (by omega)]; omega
  have d3 := times19 (x := a.l3) (by omega)
  have d419 := times19 (x := a.l4) (by omega)
  have d4 : (a.l4 * 19 * 2).toNat = 38 * a.l4.toNat := by
    rw [k2 _ (by omega), d419]; omega
  rw [Fe.ev_eq a]
  unfold fsquare
  simp only [mul_eq, d0, d1, d2, d3, d419, d4]
  generalize a.l0.toNat = r0 at *
  generalize a.l1.toNat = r1 at *
  generalize a.l2.toNat = r2 at *
  generalize a.l3.toNat = r3 at *
  generalize a.l4.toNat = r4 at *
  clear d0 d1 d2 d3 d4 d419 k2
  have p : ∀ {r s : Nat} (k : Nat), r ≤ M → s ≤ M → k * r * s ≤ k * (81 * 2 ^ 102) := fun k hr hs => by
    rw [Nat.mul_assoc]
    exact Nat.mul_le_mul_left _ ((Nat.mul_le_mul hr hs).trans (by decide))
  have p00 := p 1 a0 a0
  have p41 := p 38 a4 a1
  have p23 := p 38 a2 a3
  have p01 := p 2 a0 a1
  have p42 := p 38 a4 a2
  have p33 := p 19 a3 a3
  have p02 := p 2 a0 a2
  have p11 := p 1 a1 a1
  have p43 := p 38 a4 a3
  have p03 := p 2 a0 a3
  have p12 := p 2 a1 a2
  have p44 := p 19 a4 a4
  have p04 := p 2 a0 a4
  have p13 := p 2 a1 a3
  have p22 := p 1 a2 a2
  rw [Nat.one_mul] at p00 p11 p22
  rw [show r3 * (19 * r3) = 19 * r3 * r3 by ring, show r4 * (19 * r4) = 19 * r4 * r4 by ring]
  rw [add_eq (y := 38 * r4 * r1) (by omega), add_eq (y := 38 * r2 * r3) (by omega), add_eq (y := 38 * r4 * r2) (by omega),
    add_eq (y := 19 * r3 * r3) (by omega), add_eq (y := r1 * r1) (by omega), add_eq (y := 38 * r4 * r3) (by omega),
    add_eq (y := 2 * r1 * r2) (by omega), add_eq (y := 19 * r4 * r4) (by omega), add_eq (y := 2 * r1 * r3) (by omega),
    add_eq (y := r2 * r2) (by omega)]
  obtain ⟨h1, h2⟩ := reduce_ok
    (t0 := r0 * r0 + 38 * r4 * r1 + 38 * r2 * r3) (t1 := 2 * r0 * r1 + 38 * r4 * r2 + 19 * r3 * r3)
    (t2 := 2 * r0 * r2 + r1 * r1 + 38 * r4 * r3) (t3 := 2 * r0 * r3 + 2 * r1 * r2 + 19 * r4 * r4)
    (t4 := 2 * r0 * r4 + 2 * r1 * r3 + r2 * r2) (by omega) (by omega) (by omega) (by omega) (by omega)
  refine ⟨h1, ?_⟩
  rw [h2]
  push_cast
  linear_combination (-((2 * r4 * r1 + 2 * r2 * r3 : F) + 2 ^ 51 * (2 * r4 * r2 + r3 * r3) +
    2 ^ 102 * (2 * r4 * r3) + 2 ^ 153 * (r4 * r4))) * two255

theorem fsquareTimes_ok {a : Fe} (ha : a.Le M) : ∀ n, (fsquareTimes a (n + 1)).Le (2 ^ 51) ∧
    (fsquareTimes a (n + 1)).ev = a.ev ^ 2 ^ (n + 1)
  | 0 => by
    have := fsquare_ok ha
    simpa [fsquareTimes] using this
  | n + 1 => by
    have h := fsquare_ok ha
    have h2 := fsquareTimes_ok (h.1.mono (by decide)) n
    rw [fsquareTimes]
    refine ⟨h2.1, h2.2.trans ?_⟩
    rw [h.2, ← pow_mul]
    congr 1
    ring

theorem fscalarProduct_ok {a : Fe} (ha : a.Le M) {k : UInt64} (hk : k.toNat < 2 ^ 17) :
    (fscalarProduct a k).Le (2 ^ 52) ∧ (fscalarProduct a k).ev = a.ev * (k.toNat : F) := by
  obtain ⟨a0, a1, a2, a3, a4⟩ := ha
  have hM : M = 2 ^ 54 + 2 ^ 51 := rfl
  rw [Fe.ev_eq a]
  have p : ∀ {r : Nat}, r ≤ M → r * k.toNat ≤ 2 ^ 72 := fun hr =>
    (Nat.mul_le_mul hr (Nat.le_of_lt_succ (Nat.lt_succ_of_lt hk))).trans (by decide)
  have p0 := p a0
  have p1 := p a1
  have p2 := p a2
  have p3 := p a3
  have p4 := p a4
  obtain ⟨v0, hv0⟩ : ∃ u, a.l0.toNat * k.toNat = u := ⟨_, rfl⟩
  obtain ⟨v1, hv1⟩ : ∃ u, a.l1.toNat * k.toNat = u := ⟨_, rfl⟩
  obtain ⟨v2, hv2⟩ : ∃ u, a.l2.toNat * k.toNat = u := ⟨_, rfl⟩
  obtain ⟨v3, hv3⟩ : ∃ u, a.l3.toNat * k.toNat = u := ⟨_, rfl⟩
  obtain ⟨v4, hv4⟩ : ∃ u, a.l4.toNat * k.toNat = u := ⟨_, rfl⟩
  obtain ⟨u1, hu1⟩ : ∃ u, v1 + v0 / 2 ^ 51 = u := ⟨_, rfl⟩
  obtain ⟨u2, hu2⟩ : ∃ u, v2 + u1 / 2 ^ 51 = u := ⟨_, rfl⟩
  obtain ⟨u3, hu3⟩ : ∃ u, v3 + u2 / 2 ^ 51 = u := ⟨_, rfl⟩
  obtain ⟨u4, hu4⟩ : ∃ u, v4 + u3 / 2 ^ 51 = u := ⟨_, rfl⟩
  rw [hv0] at p0
  rw [hv1] at p1
  rw [hv2] at p2
  rw [hv3] at p3
  rw [hv4] at p4
  have hb1 : u1 ≤ 2 ^ 73 := by omega
  have hb2 : u2 ≤ 2 ^ 73 := by omega
  have hb3 : u3 ≤ 2 ^ 73 := by omega
  have hb4 : u4 ≤ 2 ^ 73 := by omega
  have s1 : add v1 (shr51 v0).toNat = u1 := by rw [shr51_toNat (by omega), add_eq (by omega), hu1]
  have s2 : add v2 (shr51 u1).toNat = u2 := by rw [shr51_toNat (by omega), add_eq (by omega), hu2]
  have s3 : add v3 (shr51 u2).toNat = u3 := by rw [shr51_toNat (by omega), add_eq (by omega), hu3]
  have s4 : add v4 (shr51 u3).toNat = u4 := by rw [shr51_toNat (by omega), add_eq (by omega), hu4]
  have e0 : (low51 v0 + UInt64.ofNat (u4 / 2 ^ 51 * 19 % 2 ^ 128)).toNat = v0 % 2 ^ 51 + 19 * (u4 / 2 ^ 51) := by
    rw [UInt64.toNat_add, low51_toNat, UInt64.toNat_ofNat']
    omega
  have hw : fscalarProduct a k = ⟨low51 v0 + UInt64.ofNat (u4 / 2 ^ 51 * 19 % 2 ^ 128), low51 u1, low51 u2, low51 u3,
      low51 u4⟩ := by
    unfold fscalarProduct
    simp only [mul_eq, hv0, hv1, hv2, hv3, hv4, s1, s2, s3, s4]
  refine ⟨?_, ?_⟩
  · rw [hw]
    refine ⟨?_, ?_, ?_, ?_, ?_⟩
    · simp only [e0]; omega
    · simp only [low51_toNat]; omega
    · simp only [low51_toNat]; omega
    · simp only [low51_toNat]; omega
    · simp only [low51_toNat]; omega
  · have hv : (fscalarProduct a k).val + P * (u4 / 2 ^ 51) =
        v0 + 2 ^ 51 * v1 + 2 ^ 102 * v2 + 2 ^ 153 * v3 + 2 ^ 204 * v4 := by
      have hP : P = 2 ^ 255 - 19 := rfl
      rw [hw]
      simp only [Fe.val, e0, low51_toNat, hP]
      clear e0 hw s1 s2 s3 s4
      omega
    have hv := congrArg (Nat.cast : Nat → F) hv
    rw [← hv0, ← hv1, ← hv2, ← hv3, ← hv4] at hv
    push_cast at hv
    have hP : (P : F) = 0 := ZMod.natCast_self P
    rw [hP, zero_mul, add_zero] at hv
    rw [Fe.ev, hv]
    ring

end Noise.Curve25519
