import Verif.Ed25519
import Verif.Curve25519Props
/-!
# Field arithmetic in `src/crypto/ed25519`

Numbers modulo `2^255 - 19` in five limbs: no overflow, and the values are those of the field.
-/

namespace Noise.Ed25519

open Rfc7748 (P F)
open Rfc7539 (leNat leBytes)
open Curve25519 (Fe mul add low51 shr51 loadLimb storeLimb M times19 mul_eq add_eq shr51_toNat low51_toNat and51 shru51
  two255)
open Curve25519.Fe (ev ev_eq val)

/-- The bound on the limbs of reduced numbers. -/
def R : Nat := 2 ^ 51 + 2 ^ 18

theorem R_eq : R = 2 ^ 51 + 2 ^ 18 := rfl
theorem M_eq : M = 2 ^ 54 + 2 ^ 51 := rfl

/-- The bounds on sums of products. -/
structure _root_.Noise.Curve25519.Wide.Bound (t : Curve25519.Wide) : Prop where
  h0 : t.t0 ≤ 98 * 2 ^ 108
  h1 : t.t1 ≤ 98 * 2 ^ 108
  h2 : t.t2 ≤ 98 * 2 ^ 108
  h3 : t.t3 ≤ 98 * 2 ^ 108
  h4 : t.t4 ≤ 51 * 2 ^ 105

theorem cast_mod {a b n : Nat} (h : a + P * n = b) : (a : F) = (b : F) := by
  rw [← h]
  push_cast
  rw [show (P : F) = 0 from ZMod.natCast_self P, zero_mul, add_zero]

/-! ## Sums and differences -/

theorem fadd_ok {a b : Fe} {A B : Nat} (ha : a.Le A) (hb : b.Le B) (h : A + B < 2 ^ 64) :
    (fadd a b).Le (A + B) ∧ (fadd a b).ev = a.ev + b.ev := Curve25519.fsum_ok ha hb h

theorem faddAfterBasic_ok {a b : Fe} {A B : Nat} (ha : a.Le A) (hb : b.Le B) (h : A + B < 2 ^ 64) :
    (faddAfterBasic a b).Le (A + B) ∧ (faddAfterBasic a b).ev = a.ev + b.ev := Curve25519.fsum_ok ha hb h

theorem sub_limb {A k : Nat} {x y m : UInt64} (hx : x.toNat ≤ A) (hm : m.toNat = k) (hy : y.toNat ≤ k)
    (h : A + k < 2 ^ 64) : (x + m - y).toNat = x.toNat + k - y.toNat := by
  have hs : (x + m).toNat = x.toNat + k := by
    rw [UInt64.toNat_add, hm, Nat.mod_eq_of_lt (by omega)]
  rw [UInt64.toNat_sub_of_le _ _ (by rw [UInt64.le_iff_toNat_le, hs]; omega), hs]

theorem fsub_ok {a b : Fe} {A : Nat} (ha : a.Le A) (hb : b.Le (2 ^ 52 - 38)) (h : A < 2 ^ 63) :
    (fsub a b).Le (A + 2 ^ 52) ∧ (fsub a b).ev = a.ev - b.ev := by
  obtain ⟨a0, a1, a2, a3, a4⟩ := ha
  obtain ⟨b0, b1, b2, b3, b4⟩ := hb
  have m1 : twoP0.toNat = 2 ^ 52 - 38 := by decide
  have m2 : twoP1234.toNat = 2 ^ 52 - 2 := by decide
  have e0 := sub_limb a0 m1 b0 (by omega)
  have e1 := sub_limb a1 m2 (b1.trans (by omega)) (by omega)
  have e2 := sub_limb a2 m2 (b2.trans (by omega)) (by omega)
  have e3 := sub_limb a3 m2 (b3.trans (by omega)) (by omega)
  have e4 := sub_limb a4 m2 (b4.trans (by omega)) (by omega)
  refine ⟨⟨?_, ?_, ?_, ?_, ?_⟩, ?_⟩
  · simp only [fsub, e0]; omega
  · simp only [fsub, e1]; omega
  · simp only [fsub, e2]; omega
  · simp only [fsub, e3]; omega
  · simp only [fsub, e4]; omega
  · rw [eq_sub_iff_add_eq]
    have hv : a.val + P * 2 = (fsub a b).val + b.val := by
      have hP : P = 2 ^ 255 - 19 := rfl
      simp only [val, fsub, e0, e1, e2, e3, e4, hP]
      omega
    have hv := cast_mod hv
    push_cast at hv
    exact hv.symm

theorem fsubAfterBasic_ok {a b : Fe} {A : Nat} (ha : a.Le A) (hb : b.Le (2 ^ 53 - 76)) (h : A < 2 ^ 63) :
    (fsubAfterBasic a b).Le (A + 2 ^ 53) ∧ (fsubAfterBasic a b).ev = a.ev - b.ev := by
  obtain ⟨a0, a1, a2, a3, a4⟩ := ha
  obtain ⟨b0, b1, b2, b3, b4⟩ := hb
  have m1 : fourP0.toNat = 2 ^ 53 - 76 := by decide
  have m2 : fourP1234.toNat = 2 ^ 53 - 4 := by decide
  have e0 := sub_limb a0 m1 b0 (by omega)
  have e1 := sub_limb a1 m2 (b1.trans (by omega)) (by omega)
  have e2 := sub_limb a2 m2 (b2.trans (by omega)) (by omega)
  have e3 := sub_limb a3 m2 (b3.trans (by omega)) (by omega)
  have e4 := sub_limb a4 m2 (b4.trans (by omega)) (by omega)
  refine ⟨⟨?_, ?_, ?_, ?_, ?_⟩, ?_⟩
  · simp only [fsubAfterBasic, e0]; omega
  · simp only [fsubAfterBasic, e1]; omega
  · simp only [fsubAfterBasic, e2]; omega
  · simp only [fsubAfterBasic, e3]; omega
  · simp only [fsubAfterBasic, e4]; omega
  · rw [eq_sub_iff_add_eq]
    have hv : a.val + P * 4 = (fsubAfterBasic a b).val + b.val := by
      have hP : P = 2 ^ 255 - 19 := rfl
      simp only [val, fsubAfterBasic, e0, e1, e2, e3, e4, hP]
      omega
    have hv := cast_mod hv
    push_cast at hv
    exact hv.symm

theorem carryReduce_ok {s : Fe} (hs : s.Le (970 * 2 ^ 54)) : (carryReduce s).Le R ∧ (carryReduce s).ev = s.ev := by
  obtain ⟨b0, b1, b2, b3, b4⟩ := hs
  have hR := R_eq
  obtain ⟨u1, hu1⟩ : ∃ u, s.l1 + s.l0 >>> 51 = u := ⟨_, rfl⟩
  obtain ⟨u2, hu2⟩ : ∃ u, s.l2 + u1 >>> 51 = u := ⟨_, rfl⟩
  obtain ⟨u3, hu3⟩ : ∃ u, s.l3 + u2 >>> 51 = u := ⟨_, rfl⟩
  obtain ⟨u4, hu4⟩ : ∃ u, s.l4 + u3 >>> 51 = u := ⟨_, rfl⟩
  have hw : carryReduce s = ⟨(s.l0 &&& (0x7ffffffffffff : UInt64)) + (u4 >>> 51) * 19, u1 &&& 0x7ffffffffffff,
      u2 &&& 0x7ffffffffffff, u3 &&& 0x7ffffffffffff, u4 &&& 0x7ffffffffffff⟩ := by
    unfold carryReduce
    simp only [hu1, hu2, hu3, hu4]
  have e1 : u1.toNat = s.l1.toNat + s.l0.toNat / 2 ^ 51 := by
    rw [← hu1, UInt64.toNat_add, shru51]; omega
  have e2 : u2.toNat = s.l2.toNat + u1.toNat / 2 ^ 51 := by
    rw [← hu2, UInt64.toNat_add, shru51]; omega
  have e3 : u3.toNat = s.l3.toNat + u2.toNat / 2 ^ 51 := by
    rw [← hu3, UInt64.toNat_add, shru51]; omega
  have e4 : u4.toNat = s.l4.toNat + u3.toNat / 2 ^ 51 := by
    rw [← hu4, UInt64.toNat_add, shru51]; omega
  have e0 : ((s.l0 &&& (0x7ffffffffffff : UInt64)) + (u4 >>> 51) * 19).toNat = s.l0.toNat % 2 ^ 51 + 19 * (u4.toNat / 2 ^ 51) := by
    rw [UInt64.toNat_add, UInt64.toNat_mul, and51, shru51, show (19 : UInt64).toNat = 19 from rfl]; omega
  rw [hw]
  refine ⟨⟨?_, ?_, ?_, ?_, ?_⟩, ?_⟩
  · simp only [e0]; omega
  · simp only [and51]; omega
  · simp only [and51]; omega
  · simp only [and51]; omega
  · simp only [and51]; omega
  · apply cast_mod (n := u4.toNat / 2 ^ 51)
    have hP : P = 2 ^ 255 - 19 := rfl
    simp only [val, e0, and51, hP]
    clear e0 hw hu1 hu2 hu3 hu4
    omega

theorem faddReduce_ok {a b : Fe} (ha : a.Le (2 ^ 54)) (hb : b.Le (2 ^ 54)) :
    (faddReduce a b).Le R ∧ (faddReduce a b).ev = a.ev + b.ev := by
  have h := fadd_ok ha hb (by omega)
  have h' := carryReduce_ok (h.1.mono (by omega))
  exact ⟨h'.1, h'.2.trans h.2⟩

theorem fsubReduce_ok {a b : Fe} (ha : a.Le (2 ^ 54)) (hb : b.Le (2 ^ 53 - 76)) :
    (fsubReduce a b).Le R ∧ (fsubReduce a b).ev = a.ev - b.ev := by
  have h := fsubAfterBasic_ok ha hb (by omega)
  have h' := carryReduce_ok (h.1.mono (by omega))
  exact ⟨h'.1, h'.2.trans h.2⟩

theorem fneg_ok {a : Fe} (ha : a.Le (2 ^ 52 - 38)) : (fneg a).Le R ∧ (fneg a).ev = -a.ev := by
  have h := fsub_ok (a := ⟨0, 0, 0, 0, 0⟩) (A := 0) ⟨by decide, by decide, by decide, by decide, by decide⟩ ha (by omega)
  have h' := carryReduce_ok (h.1.mono (by omega))
  have e : fneg a = carryReduce (fsub ⟨0, 0, 0, 0, 0⟩ a) := by
    unfold fneg fsub
    simp only [UInt64.zero_add]
  rw [e]
  refine ⟨h'.1, h'.2.trans (h.2.trans ?_)⟩
  rw [Curve25519.zero_ok.2, zero_sub]

/-! ## Reduction -/

theorem reduce_ok {t0 t1 t2 t3 t4 : Nat} (h0 : t0 ≤ 98 * 2 ^ 108) (h1 : t1 ≤ 98 * 2 ^ 108) (h2 : t2 ≤ 98 * 2 ^ 108)
    (h3 : t3 ≤ 98 * 2 ^ 108) (h4 : t4 ≤ 51 * 2 ^ 105) :
    (reduce t0 t1 t2 t3 t4).Le R ∧
      (reduce t0 t1 t2 t3 t4).ev = (t0 : F) + 2 ^ 51 * t1 + 2 ^ 102 * t2 + 2 ^ 153 * t3 + 2 ^ 204 * t4 := by
  obtain ⟨u1, hu1⟩ : ∃ u, t1 + t0 / 2 ^ 51 = u := ⟨_, rfl⟩
  obtain ⟨u2, hu2⟩ : ∃ u, t2 + u1 / 2 ^ 51 = u := ⟨_, rfl⟩
  obtain ⟨u3, hu3⟩ : ∃ u, t3 + u2 / 2 ^ 51 = u := ⟨_, rfl⟩
  obtain ⟨u4, hu4⟩ : ∃ u, t4 + u3 / 2 ^ 51 = u := ⟨_, rfl⟩
  have hb1 : u1 ≤ 98 * 2 ^ 108 + 2 ^ 64 := by omega
  have hb2 : u2 ≤ 98 * 2 ^ 108 + 2 ^ 64 := by omega
  have hb3 : u3 ≤ 98 * 2 ^ 108 + 2 ^ 64 := by omega
  have hb4 : u4 ≤ 51 * 2 ^ 105 + 2 ^ 64 := by omega
  have c4 := shr51_toNat (x := u4) (by omega)
  have s1 : add t1 (shr51 t0).toNat = u1 := by rw [shr51_toNat (by omega), add_eq (by omega), hu1]
  have s2 : add t2 (shr51 u1).toNat = u2 := by rw [shr51_toNat (by omega), add_eq (by omega), hu2]
  have s3 : add t3 (shr51 u2).toNat = u3 := by rw [shr51_toNat (by omega), add_eq (by omega), hu3]
  have s4 : add t4 (shr51 u3).toNat = u4 := by rw [shr51_toNat (by omega), add_eq (by omega), hu4]
  have e0 : (low51 t0 + shr51 u4 * 19).toNat = t0 % 2 ^ 51 + 19 * (u4 / 2 ^ 51) := by
    rw [UInt64.toNat_add, UInt64.toNat_mul, low51_toNat, c4, show (19 : UInt64).toNat = 19 from rfl]
    omega
  have e1 : (low51 u1 + (low51 t0 + shr51 u4 * 19) >>> 51).toNat = u1 % 2 ^ 51 +
      (t0 % 2 ^ 51 + 19 * (u4 / 2 ^ 51)) / 2 ^ 51 := by
    rw [UInt64.toNat_add, shru51, e0, low51_toNat]
    omega
  have hR := R_eq
  have hw : reduce t0 t1 t2 t3 t4 = ⟨(low51 t0 + shr51 u4 * 19) &&& 0x7ffffffffffff,
      low51 u1 + (low51 t0 + shr51 u4 * 19) >>> 51, low51 u2, low51 u3, low51 u4⟩ := by
    unfold reduce
    simp only [s1, s2, s3, s4]
  rw [hw]
  refine ⟨⟨?_, ?_, ?_, ?_, ?_⟩, ?_⟩
  · simp only [and51]; omega
  · simp only [e1]; omega
  · simp only [low51_toNat]; omega
  · simp only [low51_toNat]; omega
  · simp only [low51_toNat]; omega
  · have hv : val ⟨(low51 t0 + shr51 u4 * 19) &&& 0x7ffffffffffff,
        low51 u1 + (low51 t0 + shr51 u4 * 19) >>> 51, low51 u2, low51 u3, low51 u4⟩ + P * (u4 / 2 ^ 51) =
        t0 + 2 ^ 51 * t1 + 2 ^ 102 * t2 + 2 ^ 153 * t3 + 2 ^ 204 * t4 := by
      have hP : P = 2 ^ 255 - 19 := rfl
      simp only [val, and51, e0, e1, low51_toNat, hP]
      clear e0 e1 hw s1 s2 s3 s4 c4
      omega
    have hv := cast_mod hv
    push_cast at hv
    exact hv

/-! ## Products -/

theorem fmul_ok {a b : Fe} (ha : a.Le M) (hb : b.Le M) : (fmul a b).Le R ∧ (fmul a b).ev = a.ev * b.ev := by
  obtain ⟨a0, a1, a2, a3, a4⟩ := ha
  obtain ⟨b0, b1, b2, b3, b4⟩ := hb
  have hM : M = 2 ^ 54 + 2 ^ 51 := rfl
  have t1 := times19 (x := b.l1) (by omega)
  have t2 := times19 (x := b.l2) (by omega)
  have t3 := times19 (x := b.l3) (by omega)
  have t4 := times19 (x := b.l4) (by omega)
  rw [Fe.ev_eq a, Fe.ev_eq b]
  unfold fmul
  simp only [mul_eq, t1, t2, t3, t4]
  generalize a.l0.toNat = s0 at *
  generalize a.l1.toNat = s1 at *
  generalize a.l2.toNat = s2 at *
  generalize a.l3.toNat = s3 at *
  generalize a.l4.toNat = s4 at *
  generalize b.l0.toNat = r0 at *
  generalize b.l1.toNat = r1 at *
  generalize b.l2.toNat = r2 at *
  generalize b.l3.toNat = r3 at *
  generalize b.l4.toNat = r4 at *
  clear t1 t2 t3 t4
  have p : ∀ {r s : Nat}, r ≤ M → s ≤ M → r * s ≤ 81 * 2 ^ 102 := fun hr hs =>
    (Nat.mul_le_mul hr hs).trans (by decide)
  have q : ∀ {r s : Nat}, r ≤ M → s ≤ M → 19 * r * s ≤ 19 * 81 * 2 ^ 102 := fun hr hs => by
    rw [Nat.mul_assoc, Nat.mul_assoc]; exact Nat.mul_le_mul_left _ (p hr hs)
  have p00 := p b0 a0
  have p01 := p b0 a1
  have p02 := p b0 a2
  have p03 := p b0 a3
  have p04 := p b0 a4
  have p10 := p b1 a0
  have p11 := p b1 a1
  have p12 := p b1 a2
  have p13 := p b1 a3
  have p14 := q b1 a4
  have p20 := p b2 a0
  have p21 := p b2 a1
  have p22 := p b2 a2
  have p23 := q b2 a3
  have p24 := q b2 a4
  have p30 := p b3 a0
  have p31 := p b3 a1
  have p32 := q b3 a2
  have p33 := q b3 a3
  have p34 := q b3 a4
  have p40 := p b4 a0
  have p41 := q b4 a1
  have p42 := q b4 a2
  have p43 := q b4 a3
  have p44 := q b4 a4
  have e0 : add (r0 * s0) (add (add (add (19 * r4 * s1) (19 * r1 * s4)) (19 * r2 * s3)) (19 * r3 * s2)) =
      r0 * s0 + 19 * r4 * s1 + 19 * r1 * s4 + 19 * r2 * s3 + 19 * r3 * s2 := by
    rw [add_eq (x := 19 * r4 * s1) (by omega), add_eq (y := 19 * r2 * s3) (by omega), add_eq (y := 19 * r3 * s2) (by omega),
      add_eq (by omega)]
    omega
  have e1 : add (add (r0 * s1) (r1 * s0)) (add (add (19 * r4 * s2) (19 * r2 * s4)) (19 * r3 * s3)) =
      r0 * s1 + r1 * s0 + 19 * r4 * s2 + 19 * r2 * s4 + 19 * r3 * s3 := by
    rw [add_eq (x := r0 * s1) (by omega), add_eq (x := 19 * r4 * s2) (by omega), add_eq (y := 19 * r3 * s3) (by omega),
      add_eq (by omega)]
    omega
  have e2 : add (add (add (r0 * s2) (r2 * s0)) (r1 * s1)) (add (19 * r4 * s3) (19 * r3 * s4)) =
      r0 * s2 + r2 * s0 + r1 * s1 + 19 * r4 * s3 + 19 * r3 * s4 := by
    rw [add_eq (x := r0 * s2) (by omega), add_eq (y := r1 * s1) (by omega), add_eq (x := 19 * r4 * s3) (by omega),
      add_eq (by omega)]
    omega
  have e3 : add (add (add (add (r0 * s3) (r3 * s0)) (r1 * s2)) (r2 * s1)) (19 * r4 * s4) =
      r0 * s3 + r3 * s0 + r1 * s2 + r2 * s1 + 19 * r4 * s4 := by
    rw [add_eq (x := r0 * s3) (by omega), add_eq (y := r1 * s2) (by omega), add_eq (y := r2 * s1) (by omega),
      add_eq (by omega)]
  have e4 : add (add (add (add (r0 * s4) (r4 * s0)) (r3 * s1)) (r1 * s3)) (r2 * s2) =
      r0 * s4 + r4 * s0 + r3 * s1 + r1 * s3 + r2 * s2 := by
    rw [add_eq (x := r0 * s4) (by omega), add_eq (y := r3 * s1) (by omega), add_eq (y := r1 * s3) (by omega),
      add_eq (by omega)]
  rw [e0, e1, e2, e3, e4]
  obtain ⟨h1, h2⟩ := reduce_ok
    (t0 := r0 * s0 + 19 * r4 * s1 + 19 * r1 * s4 + 19 * r2 * s3 + 19 * r3 * s2)
    (t1 := r0 * s1 + r1 * s0 + 19 * r4 * s2 + 19 * r2 * s4 + 19 * r3 * s3)
    (t2 := r0 * s2 + r2 * s0 + r1 * s1 + 19 * r4 * s3 + 19 * r3 * s4)
    (t3 := r0 * s3 + r3 * s0 + r1 * s2 + r2 * s1 + 19 * r4 * s4)
    (t4 := r0 * s4 + r4 * s0 + r3 * s1 + r1 * s3 + r2 * s2) (by omega) (by omega) (by omega) (by omega) (by omega)
  refine ⟨h1, ?_⟩
  rw [h2]
  push_cast
  linear_combination (-((r4 * s1 + r1 * s4 + r2 * s3 + r3 * s2 : F) + 2 ^ 51 * (r4 * s2 + r2 * s4 + r3 * s3) +
    2 ^ 102 * (r4 * s3 + r3 * s4) + 2 ^ 153 * (r4 * s4))) * two255

theorem squareColumns_ok {a : Fe} (ha : a.Le M) : (squareColumns a).Bound ∧
    ((squareColumns a).t0 : F) + 2 ^ 51 * (squareColumns a).t1 + 2 ^ 102 * (squareColumns a).t2 +
      2 ^ 153 * (squareColumns a).t3 + 2 ^ 204 * (squareColumns a).t4 = a.ev ^ 2 := by
  obtain ⟨a0, a1, a2, a3, a4⟩ := ha
  have hM : M = 2 ^ 54 + 2 ^ 51 := rfl
  have k2 : ∀ x : UInt64, x.toNat ≤ 2 ^ 62 → (x * 2).toNat = 2 * x.toNat := fun x h => by
    rw [UInt64.toNat_mul, show (2 : UInt64).toNat = 2 from rfl]; omega
  have d0 := k2 a.l0 (by omega)
  have d1 := k2 a.l1 (by omega)
  have d2 : (a.l2 * 2 * 19).toNat = 38 * a.l2.toNat := by
    rw [times19 (by rw [k2 _ (by omega)]; omega), k2 _ (by omega)]; omega
  have d3 := times19 (x := a.l3) (by omega)
  have d419 := times19 (x := a.l4) (by omega)
  have d4 : (a.l4 * 19 * 2).toNat = 38 * a.l4.toNat := by
    rw [k2 _ (by omega), d419]; omega
  rw [Fe.ev_eq a]
  unfold squareColumns
  simp only [mul_eq, d0, d1, d2, d3, d419, d4]
  generalize a.l0.toNat = r0 at *
  generalize a.l1.toNat = r1 at *
  generalize a.l2.toNat = r2 at *
  generalize a.l3.toNat = r3 at *
  generalize a.l4.toNat = r4 at *
  clear d0 d1 d2 d3 d4 d419 k2
  have p : ∀ {r s : Nat} (k : Nat), r ≤ M → s ≤ M → k * r * s ≤ k * (81 * 2 ^ 102) := fun k hr hs => by
    rw [Nat.mul_assoc]
    exact Nat.mul_le_mul_left _ ((Nat.mul_le_mul hr hs).trans (by decide))
  have p00 := p 1 a0 a0
  have p41 := p 38 a4 a1
  have p23 := p 38 a2 a3
  have p01 := p 2 a0 a1
  have p42 := p 38 a4 a2
  have p33 := p 19 a3 a3
  have p02 := p 2 a0 a2
  have p11 := p 1 a1 a1
  have p43 := p 38 a4 a3
  have p03 := p 2 a0 a3
  have p12 := p 2 a1 a2
  have p44 := p 19 a4 a4
  have p04 := p 2 a0 a4
  have p13 := p 2 a1 a3
  have p22 := p 1 a2 a2
  rw [Nat.one_mul] at p00 p11 p22
  rw [show r3 * (19 * r3) = 19 * r3 * r3 by ring, show r4 * (19 * r4) = 19 * r4 * r4 by ring]
  rw [add_eq (y := 38 * r4 * r1) (by omega), add_eq (y := 38 * r2 * r3) (by omega), add_eq (y := 38 * r4 * r2) (by omega),
    add_eq (y := 19 * r3 * r3) (by omega), add_eq (y := r1 * r1) (by omega), add_eq (y := 38 * r4 * r3) (by omega),
    add_eq (y := 2 * r1 * r2) (by omega), add_eq (y := 19 * r4 * r4) (by omega), add_eq (y := 2 * r1 * r3) (by omega),
    add_eq (y := r2 * r2) (by omega)]
  refine ⟨⟨?_, ?_, ?_, ?_, ?_⟩, ?_⟩
  · simp only; omega
  · simp only; omega
  · simp only; omega
  · simp only; omega
  · simp only; omega
  push_cast
  linear_combination (-((2 * r4 * r1 + 2 * r2 * r3 : F) + 2 ^ 51 * (2 * r4 * r2 + r3 * r3) +
    2 ^ 102 * (2 * r4 * r3) + 2 ^ 153 * (r4 * r4))) * two255

theorem fsquare_ok {a : Fe} (ha : a.Le M) : (fsquare a).Le R ∧ (fsquare a).ev = a.ev ^ 2 := by
  obtain ⟨⟨h0, h1, h2, h3, h4⟩, hc⟩ := squareColumns_ok ha
  have h := reduce_ok h0 h1 h2 h3 h4
  exact ⟨h.1, h.2.trans hc⟩

theorem squareRound_ok {a : Fe} (ha : a.Le M) : (squareRound a).Le R ∧ (squareRound a).ev = a.ev ^ 2 := by
  obtain ⟨⟨h0, h1, h2, h3, h4⟩, hc⟩ := squareColumns_ok ha
  have hR := R_eq
  have key : ∀ x : Nat, x ≤ 98 * 2 ^ 108 → (shl13 x).toNat = x / 2 ^ 51 := by
    intro x hx
    rw [shl13, UInt64.toNat_ofNat']
    omega
  have k0 := key _ h0
  have k1 := key _ h1
  have k2 := key _ h2
  have k3 := key _ h3
  have k4 := key _ (h4.trans (by omega))
  rw [← hc]
  unfold squareRound
  generalize squareColumns a = t at *
  have e0 : (low51 t.t0 + shl13 t.t4 * 19).toNat = t.t0 % 2 ^ 51 + 19 * (t.t4 / 2 ^ 51) := by
    rw [UInt64.toNat_add, UInt64.toNat_mul, low51_toNat, k4, show (19 : UInt64).toNat = 19 from rfl]
    omega
  have e1 : (low51 t.t1 + shl13 t.t0).toNat = t.t1 % 2 ^ 51 + t.t0 / 2 ^ 51 := by
    rw [UInt64.toNat_add, low51_toNat, k0]; omega
  have e2 : (low51 t.t2 + shl13 t.t1).toNat = t.t2 % 2 ^ 51 + t.t1 / 2 ^ 51 := by
    rw [UInt64.toNat_add, low51_toNat, k1]; omega
  have e3 : (low51 t.t3 + shl13 t.t2).toNat = t.t3 % 2 ^ 51 + t.t2 / 2 ^ 51 := by
    rw [UInt64.toNat_add, low51_toNat, k2]; omega
  have e4 : (low51 t.t4 + shl13 t.t3).toNat = t.t4 % 2 ^ 51 + t.t3 / 2 ^ 51 := by
    rw [UInt64.toNat_add, low51_toNat, k3]; omega
  have h := carryReduce_ok (s := ⟨low51 t.t0 + shl13 t.t4 * 19, low51 t.t1 + shl13 t.t0, low51 t.t2 + shl13 t.t1,
    low51 t.t3 + shl13 t.t2, low51 t.t4 + shl13 t.t3⟩) ⟨by simp only [e0]; omega, by simp only [e1]; omega,
      by simp only [e2]; omega, by simp only [e3]; omega, by simp only [e4]; omega⟩
  refine ⟨h.1, h.2.trans ?_⟩
  have hv : val ⟨low51 t.t0 + shl13 t.t4 * 19, low51 t.t1 + shl13 t.t0, low51 t.t2 + shl13 t.t1,
      low51 t.t3 + shl13 t.t2, low51 t.t4 + shl13 t.t3⟩ + P * (t.t4 / 2 ^ 51) =
      t.t0 + 2 ^ 51 * t.t1 + 2 ^ 102 * t.t2 + 2 ^ 153 * t.t3 + 2 ^ 204 * t.t4 := by
    have hP : P = 2 ^ 255 - 19 := rfl
    simp only [val, e0, e1, e2, e3, e4, hP]
    omega
  have hv := cast_mod hv
  push_cast at hv
  exact hv

theorem R_le_M : R ≤ M := by decide

theorem squareTimes_ok {a : Fe} (ha : a.Le M) : ∀ n, (squareTimes a (n + 1)).Le R ∧
    (squareTimes a (n + 1)).ev = a.ev ^ 2 ^ (n + 1)
  | 0 => by
    have := squareRound_ok ha
    simpa [squareTimes] using this
  | n + 1 => by
    have h := squareRound_ok ha
    have h2 := squareTimes_ok (h.1.mono R_le_M) n
    rw [squareTimes]
    refine ⟨h2.1, h2.2.trans ?_⟩
    rw [h.2, ← pow_mul]
    congr 1
    ring

/-! ## Powers -/

/-- `a` represents `z ^ n`. -/
def Pw (z : F) (a : Fe) (n : Nat) : Prop := a.Le M ∧ a.ev = z ^ n

theorem Pw.mul {z : F} {a b : Fe} {n m : Nat} (h : Pw z a n) (h' : Pw z b m) : Pw z (fmul a b) (n + m) := by
  have e := fmul_ok h.1 h'.1
  exact ⟨e.1.mono R_le_M, by rw [e.2, h.2, h'.2, pow_add]⟩

theorem Pw.sq {z : F} {a : Fe} {n : Nat} (h : Pw z a n) (k : Nat) : Pw z (squareTimes a (k + 1)) (n * 2 ^ (k + 1)) := by
  have e := squareTimes_ok h.1 k
  exact ⟨e.1.mono R_le_M, by rw [e.2, h.2, pow_mul]⟩

theorem Pw.cast {z : F} {a : Fe} {n m : Nat} (h : Pw z a n) (e : n = m) : Pw z a m := e ▸ h

theorem powTwo250_ok {z : F} {b : Fe} {n : Nat} (h : Pw z b n) (k : Nat)
    (hk : n * (((2 ^ 5 + 1) * (2 ^ 10 + 1) * (2 ^ 20 + 1) * 2 ^ 10 + (2 ^ 5 + 1)) * (2 ^ 50 + 1) * (2 ^ 100 + 1) * 2 ^ 50 +
      ((2 ^ 5 + 1) * (2 ^ 10 + 1) * (2 ^ 20 + 1) * 2 ^ 10 + (2 ^ 5 + 1))) = k) : Pw z (powTwo250 b) k := by
  have b1 := (h.sq 4).mul h
  have c1 := (b1.sq 9).mul b1
  have t1 := (c1.sq 19).mul c1
  have b2 := (t1.sq 9).mul b1
  have c2 := (b2.sq 49).mul b2
  have t2 := (c2.sq 99).mul c2
  have b3 := (t2.sq 49).mul b2
  refine b3.cast ?_
  rw [← hk]
  ring

theorem recip_ok {z : Fe} (hz : z.Le M) : (recip z).Le R ∧ (recip z).ev = z.ev ^ (P - 2) := by
  have h0 : Pw z.ev z 1 := ⟨hz, (pow_one _).symm⟩
  have a := h0.sq 0
  have b := (a.sq 1).mul h0
  have a2 := b.mul a
  have b2 := (a2.sq 0).mul b
  have b3 := (powTwo250_ok (b2.cast (by norm_num : _ = 31)) _ rfl).sq 4
  have out := b3.mul a2
  have hn : ∀ n, n = P - 2 → z.ev ^ n = z.ev ^ (P - 2) := fun n h => by rw [h]
  exact ⟨(fmul_ok b3.1 a2.1).1, out.2.trans (hn _ (by decide +kernel))⟩

theorem powTwo252m3_ok {z : Fe} (hz : z.Le M) : (powTwo252m3 z).Le R ∧ (powTwo252m3 z).ev = z.ev ^ (2 ^ 252 - 3) := by
  have h0 : Pw z.ev z 1 := ⟨hz, (pow_one _).symm⟩
  have c := h0.sq 0
  have b := (c.sq 1).mul h0
  have c2 := b.mul c
  have b2 := (c2.sq 0).mul b
  have b3 := (powTwo250_ok (b2.cast (by norm_num : _ = 31)) _ rfl).sq 1
  have out := b3.mul h0
  have hn : ∀ n, n = 2 ^ 252 - 3 → z.ev ^ n = z.ev ^ (2 ^ 252 - 3) := fun n h => by rw [h]
  exact ⟨(fmul_ok b3.1 h0.1).1, out.2.trans (hn _ (by decide +kernel))⟩

/-! ## Bytes -/

theorem shls (x : UInt64) (k : Nat) (hk : k < 64) (s : UInt64) (hs : s.toNat = k) :
    (x <<< s).toNat = x.toNat * 2 ^ k % 2 ^ 64 := by
  rw [UInt64.toNat_shiftLeft, hs, Nat.mod_eq_of_lt hk, Nat.shiftLeft_eq]

theorem expandWords_ok (x0 x1 x2 x3 : UInt64) : (expandWords x0 x1 x2 x3).Le (2 ^ 51 - 1) ∧
    (expandWords x0 x1 x2 x3).val = (x0.toNat + 2 ^ 64 * x1.toNat + 2 ^ 128 * x2.toNat + 2 ^ 192 * x3.toNat) % 2 ^ 255 := by
  have h0 := x0.toNat_lt
  have h1 := x1.toNat_lt
  have h2 := x2.toNat_lt
  have h3 := x3.toNat_lt
  have key : ∀ (x y : UInt64) (a c : UInt64) (n m : Nat), a.toNat = n → c.toNat = m → n < 64 → m < 64 → n + m = 64 →
      ((x >>> a) ||| (y <<< c)).toNat = x.toNat / 2 ^ n + 2 ^ m * y.toNat % 2 ^ 64 := by
    intro x y a c n m ha hc hn hm hnm
    have hx := x.toNat_lt
    rw [UInt64.toNat_or, Curve25519.shrs _ n hn _ ha, shls _ m hm _ hc]
    have hp : 2 ^ 64 = 2 ^ n * 2 ^ m := by rw [← pow_add, hnm]
    rw [Poly1305.or_eq_add m, Nat.mul_comm y.toNat]
    · rw [Nat.div_lt_iff_lt_mul (by simp), Nat.mul_comm, ← hp]; exact hx
    · rw [hp, Nat.mul_comm y.toNat, Nat.mul_comm (2 ^ n), Nat.mul_mod_mul_left]; exact Nat.mul_mod_right _ _
  have e1 := key x0 x1 51 13 51 13 rfl rfl (by omega) (by omega) (by omega)
  have e2 := key x1 x2 38 26 38 26 rfl rfl (by omega) (by omega) (by omega)
  have e3 := key x2 x3 25 39 25 39 rfl rfl (by omega) (by omega) (by omega)
  have e4 := Curve25519.shrs x3 12 (by omega) 12 rfl
  refine ⟨⟨?_, ?_, ?_, ?_, ?_⟩, ?_⟩
  · simp only [expandWords, and51]; omega
  · simp only [expandWords, and51]; omega
  · simp only [expandWords, and51]; omega
  · simp only [expandWords, and51]; omega
  · simp only [expandWords, and51]; omega
  · simp only [expandWords, val, and51, e1, e2, e3, e4]
    omega

theorem expand_ok (b : Bytes) : (expand b).Le (2 ^ 51 - 1) ∧ (expand b).val = leNat b % 2 ^ 255 := by
  have e := expandWords_ok (loadLimb b 0) (loadLimb b 8) (loadLimb b 16) (loadLimb b 24)
  refine ⟨e.1, e.2.trans ?_⟩
  simp only [Curve25519.loadLimb_toNat, Curve25519.leNat_take, Curve25519.leNat_drop]
  omega

/-- Limbs below a bound. -/
theorem contractCarry_ok {t : Fe} (h : t.Le (2 ^ 62)) : (contractCarry t).val = t.val ∧
    (contractCarry t).l0.toNat < 2 ^ 51 ∧ (contractCarry t).l1.toNat < 2 ^ 51 ∧ (contractCarry t).l2.toNat < 2 ^ 51 ∧
    (contractCarry t).l3.toNat < 2 ^ 51 ∧ (contractCarry t).l4.toNat < 2 ^ 63 := by
  obtain ⟨h0, h1, h2, h3, h4⟩ := h
  obtain ⟨u1, hu1⟩ : ∃ u, t.l1 + t.l0 >>> 51 = u := ⟨_, rfl⟩
  obtain ⟨u2, hu2⟩ : ∃ u, t.l2 + u1 >>> 51 = u := ⟨_, rfl⟩
  obtain ⟨u3, hu3⟩ : ∃ u, t.l3 + u2 >>> 51 = u := ⟨_, rfl⟩
  obtain ⟨u4, hu4⟩ : ∃ u, t.l4 + u3 >>> 51 = u := ⟨_, rfl⟩
  have e1 : u1.toNat = t.l1.toNat + t.l0.toNat / 2 ^ 51 := by
    rw [← hu1, UInt64.toNat_add, shru51]; omega
  have e2 : u2.toNat = t.l2.toNat + u1.toNat / 2 ^ 51 := by
    rw [← hu2, UInt64.toNat_add, shru51]; omega
  have e3 : u3.toNat = t.l3.toNat + u2.toNat / 2 ^ 51 := by
    rw [← hu3, UInt64.toNat_add, shru51]; omega
  have e4 : u4.toNat = t.l4.toNat + u3.toNat / 2 ^ 51 := by
    rw [← hu4, UInt64.toNat_add, shru51]; omega
  have hw : contractCarry t = ⟨t.l0 &&& 0x7ffffffffffff, u1 &&& 0x7ffffffffffff, u2 &&& 0x7ffffffffffff,
      u3 &&& 0x7ffffffffffff, u4⟩ := by
    unfold contractCarry
    simp only [hu1, hu2, hu3, hu4]
  rw [hw]
  simp only [val, and51]
  clear hw hu1 hu2 hu3 hu4
  omega

theorem contractCarryFull_ok {t : Fe} (h : t.Le (2 ^ 62)) : ∃ q, (contractCarryFull t).val + P * q = t.val ∧
    q = t.val / 2 ^ 255 ∧ (contractCarryFull t).l0.toNat < 2 ^ 51 + 19 * q ∧ (contractCarryFull t).l1.toNat < 2 ^ 51 ∧
      (contractCarryFull t).l2.toNat < 2 ^ 51 ∧ (contractCarryFull t).l3.toNat < 2 ^ 51 ∧
      (contractCarryFull t).l4.toNat < 2 ^ 51 := by
  obtain ⟨hv, b0, b1, b2, b3, b4⟩ := contractCarry_ok h
  have hP : P = 2 ^ 255 - 19 := rfl
  refine ⟨(contractCarry t).l4.toNat / 2 ^ 51, ?_⟩
  unfold contractCarryFull
  generalize contractCarry t = u at *
  rw [← hv]
  have e0 : (u.l0 + (19 : UInt64) * (u.l4 >>> 51)).toNat = u.l0.toNat + 19 * (u.l4.toNat / 2 ^ 51) := by
    rw [UInt64.toNat_add, UInt64.toNat_mul, shru51, show (19 : UInt64).toNat = 19 from rfl]; omega
  simp only [val, and51, e0, hP]
  omega

theorem contractDigits_ok {a : Fe} (ha : a.Le (2 ^ 55)) : (contractDigits a).Le (2 ^ 51 - 1) ∧
    (contractDigits a).val = a.val % P := by
  have hP : P = 2 ^ 255 - 19 := rfl
  unfold contractDigits
  dsimp only
  obtain ⟨q1, v1, hq1, b0, b1, b2, b3, b4⟩ := contractCarryFull_ok (ha.mono (by omega))
  obtain ⟨a0, a1, a2, a3, a4⟩ := ha
  have ha : a.val < 2 ^ 260 := by unfold val; omega
  generalize contractCarryFull a = t at *
  obtain ⟨q2, v2, hq2, c0, c1, c2, c3, c4⟩ := contractCarryFull_ok (t := t) ⟨by omega, by omega, by omega, by omega, by omega⟩
  generalize contractCarryFull t = u at *
  have hu0 : u.l0.toNat < 2 ^ 51 := by
    unfold val at *
    rw [hP] at *
    omega
  have hu : u.val < 2 ^ 255 := by unfold val; omega
  have hua : u.val % P = a.val % P := by
    rw [← v1, ← v2, Nat.add_mul_mod_self_left, Nat.add_mul_mod_self_left]
  rw [← hua]
  clear v1 v2 hq1 hq2 c0 b0 b1 b2 b3 b4 ha hua a0 a1 a2 a3 a4
  have e19 : (u.l0 + 19).toNat = u.l0.toNat + 19 := by
    rw [UInt64.toNat_add, show (19 : UInt64).toNat = 19 from rfl]; omega
  obtain ⟨q3, v3, hq3, d0, d1, d2, d3, d4⟩ := contractCarryFull_ok (t := ⟨u.l0 + 19, u.l1, u.l2, u.l3, u.l4⟩)
    ⟨by simp only [e19]; omega, by dsimp; omega, by dsimp; omega, by dsimp; omega, by dsimp; omega⟩
  have hv19 : val ⟨u.l0 + 19, u.l1, u.l2, u.l3, u.l4⟩ = u.val + 19 := by unfold val; simp only [e19]; omega
  rw [hv19] at v3 hq3
  generalize contractCarryFull ⟨u.l0 + 19, u.l1, u.l2, u.l3, u.l4⟩ = w at *
  have hw : w.val = u.val % P + 19 := by
    rw [hP] at *
    omega
  have hq : q3 ≤ 1 := by omega
  clear v3 hq3
  have f : ∀ x k : UInt64, x.toNat < 2 ^ 52 → k.toNat < 2 ^ 52 → (x + k).toNat = x.toNat + k.toNat := by
    intro x k hx hk
    rw [UInt64.toNat_add]; omega
  have k19 : (0x8000000000000 - 19 : UInt64).toNat = 2 ^ 51 - 19 := by decide
  have k1 : (0x8000000000000 - 1 : UInt64).toNat = 2 ^ 51 - 1 := by decide
  have w0 := f w.l0 (0x8000000000000 - 19) (by omega) (by omega)
  have w1 := f w.l1 (0x8000000000000 - 1) (by omega) (by omega)
  have w2 := f w.l2 (0x8000000000000 - 1) (by omega) (by omega)
  have w3 := f w.l3 (0x8000000000000 - 1) (by omega) (by omega)
  have w4 := f w.l4 (0x8000000000000 - 1) (by omega) (by omega)
  rw [k19] at w0
  rw [k1] at w1 w2 w3 w4
  obtain ⟨v4, f0, f1, f2, f3, -⟩ := contractCarry_ok (t := ⟨w.l0 + (0x8000000000000 - 19), w.l1 + (0x8000000000000 - 1),
    w.l2 + (0x8000000000000 - 1), w.l3 + (0x8000000000000 - 1), w.l4 + (0x8000000000000 - 1)⟩)
    ⟨by simp only [w0]; omega, by simp only [w1]; omega, by simp only [w2]; omega, by simp only [w3]; omega,
      by simp only [w4]; omega⟩
  have h5 : val ⟨w.l0 + (0x8000000000000 - 19), w.l1 + (0x8000000000000 - 1),
    w.l2 + (0x8000000000000 - 1), w.l3 + (0x8000000000000 - 1), w.l4 + (0x8000000000000 - 1)⟩ = w.val + (2 ^ 255 - 19) := by
    unfold val; simp only [w0, w1, w2, w3, w4]; omega
  rw [h5, hw] at v4
  unfold contractCarryFinal
  generalize contractCarry ⟨w.l0 + (0x8000000000000 - 19), w.l1 + (0x8000000000000 - 1),
    w.l2 + (0x8000000000000 - 1), w.l3 + (0x8000000000000 - 1), w.l4 + (0x8000000000000 - 1)⟩ = x at *
  refine ⟨⟨by dsimp; omega, by dsimp; omega, by dsimp; omega, by dsimp; omega, by simp only [and51]; omega⟩, ?_⟩
  have hm : u.val % P < P := Nat.mod_lt _ (by rw [hP]; omega)
  generalize u.val % P = m at *
  unfold val at v4 ⊢
  simp only [and51]
  rw [hP] at hm
  omega

theorem contract_ok {a : Fe} (ha : a.Le (2 ^ 55)) : contract a = leBytes 32 (a.val % P) := by
  obtain ⟨⟨h0, h1, h2, h3, h4⟩, hv⟩ := contractDigits_ok ha
  unfold contract
  rw [← hv]
  generalize contractDigits a = t at *
  have key : ∀ (x y : UInt64) (k : Nat) (s : UInt64), s.toNat = k → x.toNat < 2 ^ k → k < 64 →
      (x ||| (y <<< s)).toNat = x.toNat + 2 ^ k * y.toNat % 2 ^ 64 := by
    intro x y k s hs hx hk
    rw [UInt64.toNat_or, shls _ k hk _ hs, Poly1305.or_eq_add k hx, Nat.mul_comm y.toNat]
    have hp : 2 ^ 64 = 2 ^ k * 2 ^ (64 - k) := by rw [← pow_add]; congr 1; omega
    rw [hp, Nat.mul_comm y.toNat, Nat.mul_mod_mul_left]; exact Nat.mul_mod_right _ _
  have s1 := Curve25519.shrs t.l1 13 (by omega) 13 rfl
  have s2 := Curve25519.shrs t.l2 26 (by omega) 26 rfl
  have s3 := Curve25519.shrs t.l3 39 (by omega) 39 rfl
  have e0 := key t.l0 t.l1 51 51 rfl (by omega) (by omega)
  have e1 := key (t.l1 >>> 13) t.l2 38 38 rfl (by omega) (by omega)
  have e2 := key (t.l2 >>> 26) t.l3 25 25 rfl (by omega) (by omega)
  have e3 := key (t.l3 >>> 39) t.l4 12 12 rfl (by omega) (by omega)
  dsimp only
  rw [Curve25519.storeLimb_eq, Curve25519.storeLimb_eq, Curve25519.storeLimb_eq, Curve25519.storeLimb_eq, e0, e1, e2, e3,
    s1, s2, s3]
  rw [show 32 = 8 + 8 + 8 + 8 from rfl, Noise.leBytes_append, Noise.leBytes_append, Noise.leBytes_append]
  have e8 : ∀ a c, a % 2 ^ 64 = c % 2 ^ 64 → leBytes 8 a = leBytes 8 c := by
    intro a c h
    rw [← Noise.leBytes_mod 8 a, ← Noise.leBytes_mod 8 c, show 256 ^ 8 = 2 ^ 64 from rfl, h]
  congr 1
  · congr 1
    · congr 1
      · apply e8; unfold val; omega
      · apply e8; unfold val; omega
    · apply e8; unfold val; omega
  · apply e8; unfold val; omega

theorem ev_val (a : Fe) : (a.ev).val = a.val % P := ZMod.val_natCast P _

end Noise.Ed25519
