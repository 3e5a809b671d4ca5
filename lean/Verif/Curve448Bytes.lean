import Verif.Curve448Field
import Verif.Curve25519Props
/-!
# Reading and writing numbers modulo `2^448 - 2^224 - 1`
-/

namespace Noise.Curve448

open X448 (P F)
open Rfc7539 (leNat leBytes)

set_option exponentiation.threshold 500

/-! ## Full reduction -/

theorem subStep_ok (s : Int) (limb m : UInt64) :
    ((subStep s limb m).1.toNat : Int) + 2 ^ 56 * (subStep s limb m).2 = s + limb.toNat - m.toNat ∧
      (subStep s limb m).1.toNat < 2 ^ 56 := by
  unfold subStep
  dsimp only
  generalize s + limb.toNat - m.toNat = t
  have h : (UInt64.ofNat (t % 2 ^ 56).toNat).toNat = (t % 2 ^ 56).toNat := by
    rw [UInt64.toNat_ofNat']; omega
  rw [h]
  omega

theorem addStep_ok (c : U128) (limb m : UInt64) (hc : c.toNat ≤ 2 ^ 64) :
    (addStep c limb m).1.toNat + 2 ^ 56 * (addStep c limb m).2.toNat = c.toNat + limb.toNat + m.toNat ∧
      (addStep c limb m).1.toNat < 2 ^ 56 ∧ (addStep c limb m).2.toNat ≤ 2 ^ 64 := by
  unfold addStep
  dsimp only
  have h1 := limb.toNat_lt
  have h2 := m.toNat_lt
  have e : (c + wide limb + wide m).toNat = c.toNat + limb.toNat + m.toNat := by
    unfold wide
    simp only [BitVec.toNat_add, BitVec.toNat_ofNat]
    omega
  generalize c + wide limb + wide m = t at *
  have hl : (low t).toNat = t.toNat % 2 ^ 56 := by
    rw [low, UInt64.toNat_and, show mask.toNat = 2 ^ 56 - 1 from rfl, Nat.and_two_pow_sub_one_eq_mod, narrow,
      UInt64.toNat_ofNat']
    omega
  have hr : (t >>> 56).toNat = t.toNat / 2 ^ 56 := by
    rw [BitVec.toNat_ushiftRight, Nat.shiftRight_eq_div_pow]
  rw [hl, hr]
  omega

theorem isZero_eq_zero (x : UInt64) : isZero x = 0 ↔ x ≠ 0 := by
  unfold isZero
  by_cases h : x = 0 <;> simp [h]

theorem mask_toNat : mask.toNat = 2 ^ 56 - 1 := rfl

theorem strongReduce_ok {a : Fe} (h : a.Le M) :
    ∃ r, strongReduce a = .ok r ∧ r.Le (2 ^ 56 - 1) ∧ r.val = a.val % P := by
  obtain ⟨h0, h1, h2, h3, h4, h5, h6, h7⟩ := h
  unfold M at *
  have e7 : (a.l7 >>> 56).toNat = a.l7.toNat / 2 ^ 56 := shr56 _
  have m7 : (a.l7 &&& mask).toNat = a.l7.toNat % 2 ^ 56 := and56 _
  have q4 : (a.l4 + (a.l7 >>> 56)).toNat = a.l4.toNat + a.l7.toNat / 2 ^ 56 := by
    rw [UInt64.toNat_add, e7]; omega
  have q0 : (a.l0 + (a.l7 >>> 56)).toNat = a.l0.toNat + a.l7.toNat / 2 ^ 56 := by
    rw [UInt64.toNat_add, e7]; omega
  unfold strongReduce
  dsimp only
  have mm : (mask - 1).toNat = 2 ^ 56 - 2 := rfl
  have s0 := subStep_ok 0 (a.l0 + (a.l7 >>> 56)) mask
  generalize subStep 0 (a.l0 + (a.l7 >>> 56)) mask = d0 at *
  have s1 := subStep_ok d0.2 a.l1 mask
  generalize subStep d0.2 a.l1 mask = d1 at *
  have s2 := subStep_ok d1.2 a.l2 mask
  generalize subStep d1.2 a.l2 mask = d2 at *
  have s3 := subStep_ok d2.2 a.l3 mask
  generalize subStep d2.2 a.l3 mask = d3 at *
  have s4 := subStep_ok d3.2 (a.l4 + (a.l7 >>> 56)) (mask - 1)
  generalize subStep d3.2 (a.l4 + (a.l7 >>> 56)) (mask - 1) = d4 at *
  have s5 := subStep_ok d4.2 a.l5 mask
  generalize subStep d4.2 a.l5 mask = d5 at *
  have s6 := subStep_ok d5.2 a.l6 mask
  generalize subStep d5.2 a.l6 mask = d6 at *
  have s7 := subStep_ok d6.2 (a.l7 &&& mask) mask
  generalize subStep d6.2 (a.l7 &&& mask) mask = d7 at *
  rw [q0, mask_toNat] at s0
  rw [mask_toNat] at s1 s2 s3 s5 s6
  rw [q4, mm] at s4
  rw [m7, mask_toNat] at s7
  have hv : (a.val : Int) = a.l0.toNat + 2 ^ 56 * a.l1.toNat + 2 ^ 112 * a.l2.toNat + 2 ^ 168 * a.l3.toNat +
      2 ^ 224 * a.l4.toNat + 2 ^ 280 * a.l5.toNat + 2 ^ 336 * a.l6.toNat + 2 ^ 392 * a.l7.toNat := by
    unfold Fe.val; push_cast; rfl
  have hP : (P : Int) = 2 ^ 448 - 2 ^ 224 - 1 := by rw [P_eq]; norm_num
  generalize a.l0.toNat = n0 at *
  generalize a.l1.toNat = n1 at *
  generalize a.l2.toNat = n2 at *
  generalize a.l3.toNat = n3 at *
  generalize a.l4.toNat = n4 at *
  generalize a.l5.toNat = n5 at *
  generalize a.l6.toNat = n6 at *
  generalize a.l7.toNat = n7 at *
  generalize hq : n7 / 2 ^ 56 = q at *
  generalize hr : n7 % 2 ^ 56 = r at *
  have hn7 : n7 = 2 ^ 56 * q + r := by omega
  clear hq
  obtain ⟨D, hD⟩ : ∃ D : Int, D = d0.1.toNat + 2 ^ 56 * d1.1.toNat + 2 ^ 112 * d2.1.toNat + 2 ^ 168 * d3.1.toNat +
      2 ^ 224 * d4.1.toNat + 2 ^ 280 * d5.1.toNat + 2 ^ 336 * d6.1.toNat + 2 ^ 392 * d7.1.toNat := ⟨_, rfl⟩
  obtain ⟨X, hX⟩ : ∃ X : Int, X = (n0 + q) + 2 ^ 56 * n1 + 2 ^ 112 * n2 + 2 ^ 168 * n3 + 2 ^ 224 * (n4 + q) +
      2 ^ 280 * n5 + 2 ^ 336 * n6 + 2 ^ 392 * r := ⟨_, rfl⟩
  have hXv : (a.val : Int) = X + q * P := by
    rw [hv, hX, hn7, hP]; push_cast; ring
  have hDX : D + 2 ^ 448 * d7.2 = X - P := by
    rw [hD, hX, hP]
    push_cast at s0 s1 s2 s3 s4 s5 s6 s7
    linear_combination s0.1 + 2 ^ 56 * s1.1 + 2 ^ 112 * s2.1 + 2 ^ 168 * s3.1 + 2 ^ 224 * s4.1 + 2 ^ 280 * s5.1 +
      2 ^ 336 * s6.1 + 2 ^ 392 * s7.1
  have hD0 : 0 ≤ D ∧ D < 2 ^ 448 := by
    have t0 := s0.2
    have t1 := s1.2
    have t2 := s2.2
    have t3 := s3.2
    have t4 := s4.2
    have t5 := s5.2
    have t6 := s6.2
    have t7 := s7.2
    clear s0 s1 s2 s3 s4 s5 s6 s7 hX hv hDX
    omega
  have hX0 : 0 ≤ X ∧ X < 2 * P := by
    clear s0 s1 s2 s3 s4 s5 s6 s7 hD hv hDX
    omega
  have hs : d7.2 = 0 ∨ d7.2 = -1 := by
    clear s0 s1 s2 s3 s4 s5 s6 s7 hD hv hX
    omega
  have b0 := s0.2
  have b1 := s1.2
  have b2 := s2.2
  have b3 := s3.2
  have b4 := s4.2
  have b5 := s5.2
  have b6 := s6.2
  have b7 := s7.2
  clear s0 s1 s2 s3 s4 s5 s6 s7 hX hv hn7 hr q0 q4 m7 e7
  have hz : (0 : U128).toNat = 0 := rfl
  have fin : ∀ sm sm' : UInt64, (sm.toNat = 0 ∧ sm'.toNat = 0 ∧ d7.2 = 0 ∨ sm.toNat = 2 ^ 56 - 1 ∧
      sm'.toNat = 2 ^ 56 - 2 ∧ d7.2 = -1) → ∃ r : Fe,
      (if isZero (narrow ((addStep (addStep (addStep (addStep (addStep (addStep (addStep (addStep 0 d0.1 sm).2 d1.1 sm).2 d2.1 sm).2
        d3.1 sm).2 d4.1 sm').2 d5.1 sm).2 d6.1 sm).2 d7.1 sm).2 + BitVec.ofInt 128 d7.2)) = 0 then .ub
      else .ok ⟨(addStep 0 d0.1 sm).1, (addStep (addStep 0 d0.1 sm).2 d1.1 sm).1,
        (addStep (addStep (addStep 0 d0.1 sm).2 d1.1 sm).2 d2.1 sm).1,
        (addStep (addStep (addStep (addStep 0 d0.1 sm).2 d1.1 sm).2 d2.1 sm).2 d3.1 sm).1,
        (addStep (addStep (addStep (addStep (addStep 0 d0.1 sm).2 d1.1 sm).2 d2.1 sm).2 d3.1 sm).2 d4.1 sm').1,
        (addStep (addStep (addStep (addStep (addStep (addStep 0 d0.1 sm).2 d1.1 sm).2 d2.1 sm).2 d3.1 sm).2 d4.1 sm').2
          d5.1 sm).1,
        (addStep (addStep (addStep (addStep (addStep (addStep (addStep 0 d0.1 sm).2 d1.1 sm).2 d2.1 sm).2 d3.1 sm).2
          d4.1 sm').2 d5.1 sm).2 d6.1 sm).1,
        (addStep (addStep (addStep (addStep (addStep (addStep (addStep (addStep 0 d0.1 sm).2 d1.1 sm).2 d2.1 sm).2
          d3.1 sm).2 d4.1 sm').2 d5.1 sm).2 d6.1 sm).2 d7.1 sm).1⟩ : Out Fe) = .ok r ∧ r.Le (2 ^ 56 - 1) ∧
      r.val = a.val % P := by
    intro sm sm' hsm
    have s0 := addStep_ok 0 d0.1 sm (by rw [hz]; omega)
    generalize addStep 0 d0.1 sm = c0 at *
    have s1 := addStep_ok c0.2 d1.1 sm s0.2.2
    generalize addStep c0.2 d1.1 sm = c1 at *
    have s2 := addStep_ok c1.2 d2.1 sm s1.2.2
    generalize addStep c1.2 d2.1 sm = c2 at *
    have s3 := addStep_ok c2.2 d3.1 sm s2.2.2
    generalize addStep c2.2 d3.1 sm = c3 at *
    have s4 := addStep_ok c3.2 d4.1 sm' s3.2.2
    generalize addStep c3.2 d4.1 sm' = c4 at *
    have s5 := addStep_ok c4.2 d5.1 sm s4.2.2
    generalize addStep c4.2 d5.1 sm = c5 at *
    have s6 := addStep_ok c5.2 d6.1 sm s5.2.2
    generalize addStep c5.2 d6.1 sm = c6 at *
    have s7 := addStep_ok c6.2 d7.1 sm s6.2.2
    generalize addStep c6.2 d7.1 sm = c7 at *
    rw [hz] at s0
    have k0 := s0.2.1
    have k1 := s1.2.1
    have k2 := s2.2.1
    have k3 := s3.2.1
    have k4 := s4.2.1
    have k5 := s5.2.1
    have k6 := s6.2.1
    have k7 := s7.2.1
    obtain ⟨V, hV⟩ : ∃ V : Nat, V = c0.1.toNat + 2 ^ 56 * c1.1.toNat + 2 ^ 112 * c2.1.toNat + 2 ^ 168 * c3.1.toNat +
      2 ^ 224 * c4.1.toNat + 2 ^ 280 * c5.1.toNat + 2 ^ 336 * c6.1.toNat + 2 ^ 392 * c7.1.toNat := ⟨_, rfl⟩
    have hV0 : V < 2 ^ 448 := by
      clear s0 s1 s2 s3 s4 s5 s6 s7 hD hDX
      omega
    have hVD : (V : Int) + 2 ^ 448 * c7.2.toNat = D + (sm.toNat + 2 ^ 56 * sm.toNat + 2 ^ 112 * sm.toNat +
        2 ^ 168 * sm.toNat + 2 ^ 224 * sm'.toNat + 2 ^ 280 * sm.toNat + 2 ^ 336 * sm.toNat + 2 ^ 392 * sm.toNat) := by
      rw [hV, hD]
      have z0 := congrArg (Nat.cast : Nat → Int) s0.1
      have z1 := congrArg (Nat.cast : Nat → Int) s1.1
      have z2 := congrArg (Nat.cast : Nat → Int) s2.1
      have z3 := congrArg (Nat.cast : Nat → Int) s3.1
      have z4 := congrArg (Nat.cast : Nat → Int) s4.1
      have z5 := congrArg (Nat.cast : Nat → Int) s5.1
      have z6 := congrArg (Nat.cast : Nat → Int) s6.1
      have z7 := congrArg (Nat.cast : Nat → Int) s7.1
      push_cast at z0 z1 z2 z3 z4 z5 z6 z7 ⊢
      linear_combination z0 + 2 ^ 56 * z1 + 2 ^ 112 * z2 + 2 ^ 168 * z3 + 2 ^ 224 * z4 + 2 ^ 280 * z5 +
        2 ^ 336 * z6 + 2 ^ 392 * z7
    clear s0 s1 s2 s3 s4 s5 s6 s7 hD
    have hmod : X < P → 0 ≤ X → (a.val : Int) % P = X := by
      intro h1 h2
      rw [hXv, Int.add_mul_emod_self_right, Int.emod_eq_of_lt h2 h1]
    have hmod' : P ≤ X → X < 2 * P → (a.val : Int) % P = X - P := by
      intro h1 h2
      rw [hXv, show X + q * P = (X - P) + (q + 1) * P by ring, Int.add_mul_emod_self_right,
        Int.emod_eq_of_lt (by omega) (by omega)]
    have key : narrow (c7.2 + BitVec.ofInt 128 d7.2) = 0 ∧ (V : Int) = (a.val : Int) % P := by
      rcases hsm with ⟨m1, m2, m3⟩ | ⟨m1, m2, m3⟩
      · rw [m1, m2] at hVD
        rw [m3] at hDX ⊢
        have hc : c7.2 = 0 := by
          apply BitVec.eq_of_toNat_eq; rw [hz]; omega
        rw [hc]
        refine ⟨by decide, ?_⟩
        rw [hmod' (by omega) hX0.2]
        rw [hc, hz] at hVD
        omega
      · rw [m1, m2] at hVD
        rw [m3] at hDX ⊢
        have hXP : X < P := by omega
        have hc : c7.2 = 1 := by
          apply BitVec.eq_of_toNat_eq; rw [show (1 : U128).toNat = 1 from rfl]; omega
        rw [hc]
        refine ⟨by decide, ?_⟩
        rw [hmod hXP hX0.1]
        rw [hc, show (1 : U128).toNat = 1 from rfl] at hVD
        omega
    refine ⟨⟨c0.1, c1.1, c2.1, c3.1, c4.1, c5.1, c6.1, c7.1⟩, ?_, ?_, ?_⟩
    · rw [if_neg]
      rw [isZero_eq_zero, key.1]
      simp
    · constructor <;> dsimp only <;> omega
    · have e : Fe.val ⟨c0.1, c1.1, c2.1, c3.1, c4.1, c5.1, c6.1, c7.1⟩ = V := hV.symm
      rw [e]
      exact_mod_cast key.2
  rcases hs with hs | hs
  · rw [if_neg (by rw [hs]; decide)]
    exact fin _ _ (.inl ⟨by rw [hs]; rfl, by rw [hs]; rfl, hs⟩)
  · rw [if_neg (by rw [hs]; decide)]
    exact fin _ _ (.inr ⟨by rw [hs]; rfl, by rw [hs]; rfl, hs⟩)

/-! ## Bytes -/

theorem limbBytes_ok : ∀ (n : Nat) (x : UInt64), (limbBytes n x).1 = leBytes n x.toNat ∧
    (limbBytes n x).2.toNat = x.toNat / 256 ^ n
  | 0, x => ⟨rfl, by simp [limbBytes]⟩
  | n + 1, x => by
    obtain ⟨h1, h2⟩ := limbBytes_ok n (x >>> 8)
    have e : (x >>> 8).toNat = x.toNat / 256 := by
      rw [UInt64.toNat_shiftRight, Nat.shiftRight_eq_div_pow]; rfl
    rw [e] at h1 h2
    refine ⟨?_, ?_⟩
    · rw [limbBytes, leBytes, ← h1]
      dsimp only
      congr 1
      apply UInt8.toNat_inj.1
      simp
    · rw [limbBytes, Nat.pow_succ, Nat.mul_comm, ← Nat.div_div_eq_div_mul, ← h2]

theorem serializeLimb_ok {x : UInt64} (h : x.toNat ≤ 2 ^ 56 - 1) : serializeLimb x = .ok (leBytes 7 x.toNat) := by
  obtain ⟨h1, h2⟩ := limbBytes_ok 7 x
  unfold serializeLimb
  have e : (limbBytes 7 x).2 = 0 := by
    apply UInt64.toNat_inj.1
    rw [h2, UInt64.toNat_zero]
    omega
  dsimp only
  rw [if_pos e, h1]

theorem serialize_ok {a : Fe} (h : a.Le M) : serialize a = .ok (leBytes 56 a.ev.val) := by
  obtain ⟨r, e, ⟨h0, h1, h2, h3, h4, h5, h6, h7⟩, hv⟩ := strongReduce_ok h
  unfold serialize
  rw [e]
  simp only [Out.bind_ok, serializeLimb_ok h0, serializeLimb_ok h1, serializeLimb_ok h2, serializeLimb_ok h3,
    serializeLimb_ok h4, serializeLimb_ok h5, serializeLimb_ok h6, serializeLimb_ok h7, Out.pure_eq]
  have hz : a.ev.val = a.val % P := by unfold Fe.ev; exact ZMod.val_natCast _ _
  rw [hz, ← hv, show 56 = 7 + 7 + 7 + 7 + 7 + 7 + 7 + 7 from rfl]
  simp only [Noise.leBytes_append]
  have e8 : ∀ x c, x = c % 2 ^ 56 → leBytes 7 x = leBytes 7 c := by
    intro x c h
    rw [h, show (2 : Nat) ^ 56 = 256 ^ 7 from rfl, Noise.leBytes_mod]
  have k0 := e8 r.l0.toNat (r.val) (by unfold Fe.val; omega)
  have k1 := e8 r.l1.toNat (r.val / 256 ^ (7)) (by unfold Fe.val; omega)
  have k2 := e8 r.l2.toNat (r.val / 256 ^ (7 + 7)) (by unfold Fe.val; omega)
  have k3 := e8 r.l3.toNat (r.val / 256 ^ (7 + 7 + 7)) (by unfold Fe.val; omega)
  have k4 := e8 r.l4.toNat (r.val / 256 ^ (7 + 7 + 7 + 7)) (by unfold Fe.val; omega)
  have k5 := e8 r.l5.toNat (r.val / 256 ^ (7 + 7 + 7 + 7 + 7)) (by unfold Fe.val; omega)
  have k6 := e8 r.l6.toNat (r.val / 256 ^ (7 + 7 + 7 + 7 + 7 + 7)) (by unfold Fe.val; omega)
  have k7 := e8 r.l7.toNat (r.val / 256 ^ (7 + 7 + 7 + 7 + 7 + 7 + 7)) (by unfold Fe.val; omega)
  rw [k0, k1, k2, k3, k4, k5, k6, k7]

theorem loadLimb_toNat (s : Bytes) (i : Nat) : (loadLimb s i).toNat = leNat s / 256 ^ i % 2 ^ 56 := by
  have e : loadLimb s i = Poly1305.u8to64 ((s.drop i).take 7) 0 := by
    unfold loadLimb Poly1305.u8to64
    simp [List.getD]
  rw [e, Poly1305.u8to64_toNat, List.drop_zero, List.take_of_length_le (i := 8) (by simp), Curve25519.leNat_take,
    Curve25519.leNat_drop, show (256 : Nat) ^ 7 = 2 ^ 56 from rfl]

theorem and_eq_mask {x y : UInt64} (h : y.toNat ≤ 2 ^ 56 - 1) : x &&& y = mask ↔ x &&& mask = mask ∧ y = mask := by
  constructor
  · intro e
    have h1 : (x &&& y).toNat ≤ y.toNat := by rw [UInt64.toNat_and]; exact Nat.and_le_right
    have : y = mask := by
      apply UInt64.toNat_inj.1
      rw [e] at h1
      rw [mask_toNat] at *
      omega
    exact ⟨by rw [this] at e; exact e, this⟩
  · rintro ⟨h1, rfl⟩
    exact h1

theorem and_mask_of_le {x : UInt64} (h : x.toNat ≤ 2 ^ 56 - 1) : x &&& mask = x := by
  apply UInt64.toNat_inj.1
  rw [and56]; omega

theorem ge_ok {l0 l1 l2 l3 l4 l5 l6 l7 : UInt64} (h0 : l0.toNat ≤ 2 ^ 56 - 1) (h1 : l1.toNat ≤ 2 ^ 56 - 1)
    (h2 : l2.toNat ≤ 2 ^ 56 - 1) (h3 : l3.toNat ≤ 2 ^ 56 - 1) (h4 : l4.toNat ≤ 2 ^ 56 - 1) (h5 : l5.toNat ≤ 2 ^ 56 - 1)
    (h6 : l6.toNat ≤ 2 ^ 56 - 1) (h7 : l7.toNat ≤ 2 ^ 56 - 1) :
    ((((0xffffffffffffffff &&& l0 &&& l1 &&& l2 &&& l3) &&& (l4 + 1)) ||| isZero (l4 ^^^ mask)) &&& l5 &&& l6 &&& l7 =
      mask) ↔ l5 = mask ∧ l6 = mask ∧ l7 = mask ∧
        (l4 = mask ∨ l4 + 1 = mask ∧ l0 = mask ∧ l1 = mask ∧ l2 = mask ∧ l3 = mask) := by
  have hm : ∀ x y : UInt64, x = mask → (x = y ↔ y = mask) := by
    rintro x y rfl; exact ⟨fun h => h.symm, fun h => h.symm⟩
  rw [and_eq_mask h7]
  by_cases e7 : l7 = mask
  swap
  · simp [e7]
  by_cases e6 : l6 = mask
  swap
  · rw [UInt64.and_assoc _ _ mask, and_mask_of_le h6, and_eq_mask h6]; simp [e6]
  by_cases e5 : l5 = mask
  swap
  · rw [UInt64.and_assoc _ _ mask, and_mask_of_le h6, and_eq_mask h6, UInt64.and_assoc _ _ mask, and_mask_of_le h5,
      and_eq_mask h5]
    simp [e5]
  rw [UInt64.and_assoc _ _ mask, and_mask_of_le h6, and_eq_mask h6, UInt64.and_assoc _ _ mask, and_mask_of_le h5,
      and_eq_mask h5]
  simp only [e5, e6, e7, true_and, and_true]
  by_cases e4 : l4 = mask
  · subst e4
    have : isZero (mask ^^^ mask) = 0xffffffffffffffff := by decide
    rw [this]
    simp only [true_or, iff_true]
    apply UInt64.toNat_inj.1
    rw [and56, mask_toNat, UInt64.toNat_or, Nat.or_comm]
    have hx : ∀ x < 2 ^ 64, (2 ^ 64 - 1) ||| x = 2 ^ 64 - 1 := by
      intro x hx
      have a : 2 ^ 64 - 1 ≤ (2 ^ 64 - 1) ||| x := Nat.left_le_or
      have b : (2 ^ 64 - 1) ||| x < 2 ^ 64 := Nat.or_lt_two_pow (by omega) hx
      omega
    rw [show (0xffffffffffffffff : UInt64).toNat = 2 ^ 64 - 1 from rfl, hx _ (UInt64.toNat_lt _)]
    omega
  · have hz : isZero (l4 ^^^ mask) = 0 := by
      rw [isZero_eq_zero]
      intro h
      exact e4 (by rwa [UInt64.xor_eq_zero_iff] at h)
    have h4' : (l4 + 1).toNat ≤ 2 ^ 56 - 1 := by
      have : l4.toNat ≠ mask.toNat := fun h => e4 (UInt64.toNat_inj.1 h)
      rw [mask_toNat] at this
      rw [UInt64.toNat_add, UInt64.toNat_one]
      omega
    rw [hz, UInt64.or_zero, UInt64.and_assoc _ _ mask, and_mask_of_le h4', and_eq_mask h4']
    simp only [e4, false_or]
    rw [UInt64.and_assoc _ _ mask, and_mask_of_le h3, and_eq_mask h3, UInt64.and_assoc _ _ mask, and_mask_of_le h2,
      and_eq_mask h2, UInt64.and_assoc _ _ mask, and_mask_of_le h1, and_eq_mask h1, UInt64.and_assoc _ _ mask,
      and_mask_of_le h0, and_eq_mask h0]
    have : (0xffffffffffffffff : UInt64) &&& mask = mask := by decide
    simp only [this, true_and]
    tauto

theorem deserialize_ok {b : Bytes} (h : b.length = 56) : (deserialize b).1.Le M ∧ (deserialize b).1.ev = (leNat b : F) ∧
    (deserialize b).2 = decide (leNat b < P) := by
  have hb := Curve25519.leNat_lt b
  rw [h] at hb
  have e0 := loadLimb_toNat b 0
  have e1 := loadLimb_toNat b 7
  have e2 := loadLimb_toNat b 14
  have e3 := loadLimb_toNat b 21
  have e4 := loadLimb_toNat b 28
  have e5 := loadLimb_toNat b 35
  have e6 := loadLimb_toNat b 42
  have e7 := loadLimb_toNat b 49
  have hv : (deserialize b).1.val = leNat b := by
    unfold Fe.val deserialize
    dsimp only
    rw [e0, e1, e2, e3, e4, e5, e6, e7]
    omega
  refine ⟨?_, ?_, ?_⟩
  · unfold deserialize M
    constructor <;> dsimp only <;> omega
  · unfold Fe.ev
    rw [hv]
  · unfold Fe.val at hv
    unfold deserialize at hv ⊢
    dsimp only at hv ⊢
    have hg := ge_ok (l0 := loadLimb b 0) (l1 := loadLimb b 7) (l2 := loadLimb b 14) (l3 := loadLimb b 21)
      (l4 := loadLimb b 28) (l5 := loadLimb b 35) (l6 := loadLimb b 42) (l7 := loadLimb b 49) (by omega) (by omega)
      (by omega) (by omega) (by omega) (by omega) (by omega) (by omega)
    have b0 : (loadLimb b 0).toNat < 2 ^ 56 := by omega
    have b1 : (loadLimb b 7).toNat < 2 ^ 56 := by omega
    have b2 : (loadLimb b 14).toNat < 2 ^ 56 := by omega
    have b3 : (loadLimb b 21).toNat < 2 ^ 56 := by omega
    have b4 : (loadLimb b 28).toNat < 2 ^ 56 := by omega
    have b5 : (loadLimb b 35).toNat < 2 ^ 56 := by omega
    have b6 : (loadLimb b 42).toNat < 2 ^ 56 := by omega
    have b7 : (loadLimb b 49).toNat < 2 ^ 56 := by omega
    clear e0 e1 e2 e3 e4 e5 e6 e7
    rw [← hv, P_eq]
    simp only [← UInt64.toNat_inj (b := mask)] at hg
    rw [show (loadLimb b 28 + 1).toNat = (loadLimb b 28).toNat + 1 by
      rw [UInt64.toNat_add, UInt64.toNat_one]; omega, mask_toNat, ← mask_toNat, UInt64.toNat_inj] at hg
    generalize (0xffffffffffffffff &&& loadLimb b 0 &&& loadLimb b 7 &&& loadLimb b 14 &&& loadLimb b 21) &&&
      (loadLimb b 28 + 1) ||| isZero (loadLimb b 28 ^^^ mask) = w at *
    rw [mask_toNat] at hg
    by_cases hc : w &&& loadLimb b 35 &&& loadLimb b 42 &&& loadLimb b 49 = mask
    · have hg' := hg.1 hc
      rw [hc, decide_eq_decide]
      refine iff_of_false (by decide) ?_
      omega
    · have hg' := fun h => hc (hg.2 h)
      have hz : isZero ((w &&& loadLimb b 35 &&& loadLimb b 42 &&& loadLimb b 49) ^^^ mask) = 0 := by
        rw [isZero_eq_zero]
        intro h
        exact hc (by rwa [UInt64.xor_eq_zero_iff] at h)
      rw [hz, decide_eq_decide]
      refine iff_of_true (by decide) ?_
      by_contra hn
      apply hg'
      omega

/-! ## Swapping -/

theorem swapLimb0 (x y : UInt64) : swapLimb 0 x y = (x, y) := by simp [swapLimb]

theorem swapLimb1 (x y : UInt64) : swapLimb (0 - 1) x y = (y, x) := by
  have h : (0 - 1 : UInt64) &&& (x ^^^ y) = x ^^^ y := by
    rw [show (0 - 1 : UInt64) = -1 from by decide, UInt64.neg_one_and]
  rw [swapLimb, h, ← UInt64.xor_assoc, UInt64.xor_self, UInt64.zero_xor, UInt64.xor_comm x y, ← UInt64.xor_assoc,
    UInt64.xor_self, UInt64.zero_xor]

theorem cswap0 (x y : Fe) : cswap 0 x y = (x, y) := by
  unfold cswap
  simp only [show (0 - (0 : UInt8).toUInt64) = 0 by decide, swapLimb0]

theorem cswap1 (x y : Fe) : cswap 1 x y = (y, x) := by
  unfold cswap
  simp only [show (0 - (1 : UInt8).toUInt64) = 0 - 1 by decide, swapLimb1]

end Noise.Curve448
