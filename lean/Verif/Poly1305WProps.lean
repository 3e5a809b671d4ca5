import Verif.Poly1305W
import Verif.Poly1305Props
/-!
# The 32-bit version of Poly1305 computes the same (C79)
-/

namespace Noise.Poly1305W

open Rfc7539
open Poly1305 (or_eq_add mul_bound)

/-! ## Words of 32 bits -/

theorem u8to32_eq (p : Bytes) (i : Nat) : u8to32 p i = fromLittle p i := rfl

theorem u8to32_toNat (p : Bytes) (i : Nat) : (u8to32 p i).toNat = leNat ((p.drop i).take 4) := by
  rw [u8to32_eq, fromLittle_toNat, leNat_take4]
  simp only [getD_drop, Nat.add_zero]

theorem leNat_drop (p : Bytes) (i : Nat) (h : i ≤ p.length) : leNat (p.drop i) = leNat p / 256 ^ i := by
  have e : leNat p = leNat (p.take i) + 256 ^ i * leNat (p.drop i) := by
    conv_lhs => rw [← List.take_append_drop i p, leNat_append, List.length_take_of_le h]
  have l := leNat_lt (p.take i)
  rw [List.length_take_of_le h] at l
  rw [e, Nat.add_mul_div_left _ _ (Nat.pow_pos (by omega)), Nat.div_eq_of_lt l, Nat.zero_add]

theorem leNat_take (p : Bytes) (i : Nat) (h : i ≤ p.length) : leNat (p.take i) = leNat p % 256 ^ i := by
  have e : leNat p = leNat (p.take i) + 256 ^ i * leNat (p.drop i) := by
    conv_lhs => rw [← List.take_append_drop i p, leNat_append, List.length_take_of_le h]
  have l := leNat_lt (p.take i)
  rw [List.length_take_of_le h] at l
  rw [e, Nat.add_mul_mod_self_left, Nat.mod_eq_of_lt l]

/-- Four bytes out of sixteen. -/
theorem slice (p : Bytes) (j i : Nat) (hi : i ≤ 12) (hp : j + 16 ≤ p.length) :
    (u8to32 p (j + i)).toNat = leNat ((p.drop j).take 16) / 2 ^ (8 * i) % 2 ^ 32 := by
  have e : ((p.drop (j + i)).take 4) = (((p.drop j).take 16).drop i).take 4 := by
    rw [List.drop_take, List.take_take, List.drop_drop, Nat.min_eq_left (by omega)]
  rw [u8to32_toNat, e, leNat_take _ _ (by simp; omega), leNat_drop _ _ (by simp; omega), Nat.pow_mul]
  rfl

theorem and26 (x : UInt32) : (x &&& 0x3ffffff).toNat = x.toNat % 2 ^ 26 := by
  rw [UInt32.toNat_and]; exact Nat.and_two_pow_sub_one_eq_mod x.toNat 26

theorem and32 (x : UInt32) : x &&& 0xffffffff = x := by
  apply UInt32.toNat_inj.1
  rw [UInt32.toNat_and]
  exact (Nat.and_two_pow_sub_one_eq_mod x.toNat 32).trans (Nat.mod_eq_of_lt x.toNat_lt)

theorem shr (x : UInt32) (k : Nat) (hk : k < 32) : (x >>> UInt32.ofNat k).toNat = x.toNat / 2 ^ k := by
  rw [UInt32.toNat_shiftRight, UInt32.toNat_ofNat', Nat.mod_eq_of_lt (a := k) (by omega), Nat.mod_eq_of_lt (a := k) (by omega),
    Nat.shiftRight_eq_div_pow]

theorem shl (x : UInt32) (k : Nat) (hk : k < 32) : (x <<< UInt32.ofNat k).toNat = x.toNat * 2 ^ k % 2 ^ 32 := by
  rw [UInt32.toNat_shiftLeft, UInt32.toNat_ofNat', Nat.mod_eq_of_lt (a := k) (by omega), Nat.mod_eq_of_lt (a := k) (by omega),
    Nat.shiftLeft_eq]

theorem shr26 (x : UInt32) : (x >>> 26).toNat = x.toNat / 2 ^ 26 := shr x 26 (by omega)

/-! ## Values -/

/-- The number represented by five limbs. -/
def Acc.val (h : Acc) : Nat :=
  h.h0.toNat + 2 ^ 26 * h.h1.toNat + 2 ^ 52 * h.h2.toNat + 2 ^ 78 * h.h3.toNat + 2 ^ 104 * h.h4.toNat

/-- The sizes of the limbs between two blocks. -/
structure Acc.Small (h : Acc) : Prop where
  b0 : h.h0.toNat < 2 ^ 26
  b1 : h.h1.toNat < 2 ^ 26 + 2 ^ 6
  b2 : h.h2.toNat < 2 ^ 26
  b3 : h.h3.toNat < 2 ^ 26
  b4 : h.h4.toNat < 2 ^ 26

/-- The sizes of the limbs after adding a block. -/
structure Acc.Mid (h : Acc) : Prop where
  b0 : h.h0.toNat < 2 ^ 27
  b1 : h.h1.toNat < 2 ^ 27 + 2 ^ 6
  b2 : h.h2.toNat < 2 ^ 27
  b3 : h.h3.toNat < 2 ^ 27
  b4 : h.h4.toNat < 2 ^ 27

theorem limbs (N : Nat) : N = N % 2 ^ 26 + 2 ^ 26 * (N / 2 ^ 26 % 2 ^ 26) + 2 ^ 52 * (N / 2 ^ 52 % 2 ^ 26) +
    2 ^ 78 * (N / 2 ^ 78 % 2 ^ 26) + 2 ^ 104 * (N / 2 ^ 104) := by
  have h1 := Nat.mod_add_div N (2 ^ 26)
  have h2 := Nat.mod_add_div (N / 2 ^ 26) (2 ^ 26)
  have h3 := Nat.mod_add_div (N / 2 ^ 52) (2 ^ 26)
  have h4 := Nat.mod_add_div (N / 2 ^ 78) (2 ^ 26)
  rw [Nat.div_div_eq_div_mul, ← Nat.pow_add] at h2 h3 h4
  rw [show 26 + 26 = 52 from rfl] at h2
  rw [show 52 + 26 = 78 from rfl] at h3
  rw [show 78 + 26 = 104 from rfl] at h4
  generalize N % 2 ^ 26 = n0 at *
  generalize N / 2 ^ 26 % 2 ^ 26 = n1 at *
  generalize N / 2 ^ 52 % 2 ^ 26 = n2 at *
  generalize N / 2 ^ 78 % 2 ^ 26 = n3 at *
  generalize N / 2 ^ 104 = n4 at *
  rw [← h1, ← h2, ← h3, ← h4]
  ring

theorem add_limbs (a0 a1 a2 a3 a4 n0 n1 n2 n3 n4 N b : Nat)
    (h : N = n0 + 2 ^ 26 * n1 + 2 ^ 52 * n2 + 2 ^ 78 * n3 + 2 ^ 104 * n4) :
    a0 + n0 + 2 ^ 26 * (a1 + n1) + 2 ^ 52 * (a2 + n2) + 2 ^ 78 * (a3 + n3) + 2 ^ 104 * (a4 + (n4 + b)) =
      a0 + 2 ^ 26 * a1 + 2 ^ 52 * a2 + 2 ^ 78 * a3 + 2 ^ 104 * a4 + N + 2 ^ 104 * b := by
  rw [h]; ring

theorem addBlock_val (hibit : UInt32) (h : Acc) (m : Bytes) (hm : 16 ≤ m.length) (hs : h.Small)
    (hh : hibit.toNat = 0 ∨ hibit.toNat = 2 ^ 24) :
    (addBlock hibit h m).Mid ∧
      (addBlock hibit h m).val = h.val + leNat (m.take 16) + 2 ^ 104 * hibit.toNat := by
  obtain ⟨b0, b1, b2, b3, b4⟩ := hs
  have e0 := slice m 0 0 (by omega) (by omega)
  have e1 := slice m 0 3 (by omega) (by omega)
  have e2 := slice m 0 6 (by omega) (by omega)
  have e3 := slice m 0 9 (by omega) (by omega)
  have e4 := slice m 0 12 (by omega) (by omega)
  have hN : leNat (m.take 16) < 2 ^ 128 := by
    have := leNat_lt (m.take 16)
    rwa [List.length_take_of_le hm] at this
  simp only [Nat.zero_add, List.drop_zero, Nat.reduceMul, Nat.pow_zero, Nat.div_one] at e0 e1 e2 e3 e4
  unfold Acc.val addBlock
  generalize leNat (m.take 16) = N at *
  have m0 := and26 (u8to32 m 0)
  have m1 := and26 (u8to32 m 3 >>> 2)
  have m2 := and26 (u8to32 m 6 >>> 4)
  have m3 := and26 (u8to32 m 9 >>> 6)
  rw [e0] at m0
  rw [show (u8to32 m 3 >>> 2).toNat = _ from shr _ 2 (by omega), e1] at m1
  rw [show (u8to32 m 6 >>> 4).toNat = _ from shr _ 4 (by omega), e2] at m2
  rw [show (u8to32 m 9 >>> 6).toNat = _ from shr _ 6 (by omega), e3] at m3
  have m4 : ((u8to32 m 12 >>> 8) ||| hibit).toNat = N / 2 ^ 104 + hibit.toNat := by
    rw [UInt32.toNat_or, show (u8to32 m 12 >>> 8).toNat = _ from shr _ 8 (by omega), e4]
    have : N / 2 ^ 96 % 2 ^ 32 / 2 ^ 8 = N / 2 ^ 104 := by omega
    rw [this]
    rcases hh with hh | hh
    · rw [hh]; simp
    · exact or_eq_add 24 (by omega) (by omega)
  have a0 : (h.h0 + (u8to32 m 0 &&& 0x3ffffff)).toNat = h.h0.toNat + N % 2 ^ 26 := by
    rw [UInt32.toNat_add, m0]; omega
  have a1 : (h.h1 + ((u8to32 m 3 >>> 2) &&& 0x3ffffff)).toNat = h.h1.toNat + N / 2 ^ 26 % 2 ^ 26 := by
    rw [UInt32.toNat_add, m1]; omega
  have a2 : (h.h2 + ((u8to32 m 6 >>> 4) &&& 0x3ffffff)).toNat = h.h2.toNat + N / 2 ^ 52 % 2 ^ 26 := by
    rw [UInt32.toNat_add, m2]; omega
  have a3 : (h.h3 + ((u8to32 m 9 >>> 6) &&& 0x3ffffff)).toNat = h.h3.toNat + N / 2 ^ 78 % 2 ^ 26 := by
    rw [UInt32.toNat_add, m3]; omega
  have a4 : (h.h4 + ((u8to32 m 12 >>> 8) ||| hibit)).toNat = h.h4.toNat + (N / 2 ^ 104 + hibit.toNat) := by
    rw [UInt32.toNat_add, m4]; omega
  have n4 : N / 2 ^ 104 < 2 ^ 24 := by clear e0 e1 e2 e3 e4 m0 m1 m2 m3 m4 a0 a1 a2 a3 a4; omega
  clear e0 e1 e2 e3 e4 m0 m1 m2 m3 m4
  refine ⟨⟨?_, ?_, ?_, ?_, ?_⟩, ?_⟩
  · simp only [a0]; clear a0 a1 a2 a3 a4; omega
  · simp only [a1]; clear a0 a1 a2 a3 a4; omega
  · simp only [a2]; clear a0 a1 a2 a3 a4; omega
  · simp only [a3]; clear a0 a1 a2 a3 a4; omega
  · simp only [a4]; clear a0 a1 a2 a3 a4 hN; generalize N / 2 ^ 104 = q at *; omega
  · simp only [a0, a1, a2, a3, a4]
    exact add_limbs _ _ _ _ _ _ _ _ _ _ _ _ (limbs N)

/-- The number represented by the limbs of `r`. -/
def Ctx.rVal (st : Ctx) : Nat :=
  st.r0.toNat + 2 ^ 26 * st.r1.toNat + 2 ^ 52 * st.r2.toNat + 2 ^ 78 * st.r3.toNat + 2 ^ 104 * st.r4.toNat

/-- The sizes of the limbs of `r`. -/
structure Ctx.RSmall (st : Ctx) : Prop where
  b0 : st.r0.toNat < 2 ^ 26
  b1 : st.r1.toNat < 2 ^ 26
  b2 : st.r2.toNat < 2 ^ 26
  b3 : st.r3.toNat < 2 ^ 26
  b4 : st.r4.toNat < 2 ^ 20

theorem mul_toNat (x y : UInt32) : (mul x y).toNat = x.toNat * y.toNat := by
  unfold mul
  have := x.toNat_lt
  have := y.toNat_lt
  rw [UInt64.toNat_mul, UInt32.toNat_toUInt64, UInt32.toNat_toUInt64]
  apply Nat.mod_eq_of_lt
  calc x.toNat * y.toNat ≤ (2 ^ 32 - 1) * (2 ^ 32 - 1) := Nat.mul_le_mul (by omega) (by omega)
    _ < 2 ^ 64 := by omega

theorem times5 (x : UInt32) (h : x.toNat < 2 ^ 26) : (x * 5).toNat = 5 * x.toNat := by
  rw [UInt32.toNat_mul, show (5 : UInt32).toNat = 5 from rfl]; omega

theorem lo26 (d : UInt64) : (d.toUInt32 &&& 0x3ffffff).toNat = d.toNat % 2 ^ 26 := by
  rw [and26, UInt64.toNat_toUInt32]; omega

theorem hi26 (d : UInt64) (h : d.toNat < 2 ^ 58) : (d >>> 26).toUInt32.toNat = d.toNat / 2 ^ 26 := by
  have : (d >>> 26).toNat = d.toNat / 2 ^ 26 := by
    rw [UInt64.toNat_shiftRight, ← Nat.shiftRight_eq_div_pow]; rfl
  rw [UInt64.toNat_toUInt32, this]; omega

/-- One step of the carry chain. -/
theorem carry_step (d : UInt64) (c : UInt32) (x y : Nat) (hd : d.toNat = x) (hc : c.toNat = y) (h : x + y < 2 ^ 58) :
    (d + c.toUInt64).toNat = x + y := by
  rw [UInt64.toNat_add, UInt32.toNat_toUInt64, hd, hc]; omega

theorem reduce_val (d0 d1 d2 d3 d4 : UInt64) (h0 : d0.toNat < 22 * 2 ^ 53) (h1 : d1.toNat < 22 * 2 ^ 53)
    (h2 : d2.toNat < 22 * 2 ^ 53) (h3 : d3.toNat < 22 * 2 ^ 53) (h4 : d4.toNat < 5 * 2 ^ 53 + 2 ^ 40) :
    (reduce d0 d1 d2 d3 d4).Small ∧ (reduce d0 d1 d2 d3 d4).val % prime =
      (d0.toNat + 2 ^ 26 * d1.toNat + 2 ^ 52 * d2.toNat + 2 ^ 78 * d3.toNat + 2 ^ 104 * d4.toNat) % prime := by
  have c0 := hi26 d0 (by omega)
  have l0 := lo26 d0
  have e1 := carry_step d1 _ _ _ rfl c0 (by omega)
  unfold reduce Acc.val
  dsimp only
  generalize (d0 >>> 26).toUInt32 = k0 at *
  generalize d1 + k0.toUInt64 = D1 at *
  have c1 := hi26 D1 (by omega)
  have l1 := lo26 D1
  have e2 := carry_step d2 _ _ _ rfl c1 (by omega)
  generalize (D1 >>> 26).toUInt32 = k1 at *
  generalize d2 + k1.toUInt64 = D2 at *
  have c2 := hi26 D2 (by omega)
  have l2 := lo26 D2
  have e3 := carry_step d3 _ _ _ rfl c2 (by omega)
  generalize (D2 >>> 26).toUInt32 = k2 at *
  generalize d3 + k2.toUInt64 = D3 at *
  have c3 := hi26 D3 (by omega)
  have l3 := lo26 D3
  have e4 := carry_step d4 _ _ _ rfl c3 (by omega)
  generalize (D3 >>> 26).toUInt32 = k3 at *
  generalize d4 + k3.toUInt64 = D4 at *
  have c4 := hi26 D4 (by omega)
  have l4 := lo26 D4
  generalize (D4 >>> 26).toUInt32 = k4 at *
  generalize d0.toUInt32 &&& 0x3ffffff = y0 at *
  generalize D1.toUInt32 &&& 0x3ffffff = y1 at *
  generalize D2.toUInt32 &&& 0x3ffffff = y2 at *
  generalize D3.toUInt32 &&& 0x3ffffff = y3 at *
  generalize D4.toUInt32 &&& 0x3ffffff = y4 at *
  have hk4 : k4.toNat < 6 * 2 ^ 27 := by omega
  have z0 : (y0 + k4 * 5).toNat = y0.toNat + 5 * k4.toNat := by
    rw [UInt32.toNat_add, UInt32.toNat_mul, show (5 : UInt32).toNat = 5 from rfl]; omega
  generalize y0 + k4 * 5 = z at *
  have z1 : (y1 + z >>> 26).toNat = y1.toNat + z.toNat / 2 ^ 26 := by
    rw [UInt32.toNat_add, shr26]; omega
  refine ⟨⟨?_, ?_, ?_, ?_, ?_⟩, ?_⟩
  · simp only [and26]; omega
  · simp only [z1]; omega
  · dsimp only; omega
  · dsimp only; omega
  · dsimp only; omega
  · simp only [and26, z1]
    have hx : d0.toNat + 2 ^ 26 * d1.toNat + 2 ^ 52 * d2.toNat + 2 ^ 78 * d3.toNat + 2 ^ 104 * d4.toNat =
        (z.toNat % 2 ^ 26 + 2 ^ 26 * (y1.toNat + z.toNat / 2 ^ 26) + 2 ^ 52 * y2.toNat + 2 ^ 78 * y3.toNat +
          2 ^ 104 * y4.toNat) + prime * k4.toNat := by
      rw [show prime = 2 ^ 130 - 5 from rfl]
      omega
    rw [hx, Nat.add_mul_mod_self_left]

/-- A sum of five products. -/
theorem sum5 (a b c d e : UInt64) (x : Nat) (hx : a.toNat + b.toNat + c.toNat + d.toNat + e.toNat = x) (h : x < 2 ^ 64) :
    (a + b + c + d + e).toNat = x := by
  rw [UInt64.toNat_add, UInt64.toNat_add, UInt64.toNat_add, UInt64.toNat_add]; omega

theorem mulReduce_val (st : Ctx) (h : Acc) (hr : st.RSmall) (hh : h.Mid) :
    (mulReduce st h).Small ∧ (mulReduce st h).val % prime = h.val * st.rVal % prime := by
  obtain ⟨rb0, rb1, rb2, rb3, rb4⟩ := hr
  obtain ⟨b0, b1, b2, b3, b4⟩ := hh
  have s1 := times5 st.r1 rb1
  have s2 := times5 st.r2 rb2
  have s3 := times5 st.r3 rb3
  have s4 := times5 st.r4 (by omega)
  have t1 : (st.r1 * 5).toNat < 5 * 2 ^ 26 := by omega
  have t2 : (st.r2 * 5).toNat < 5 * 2 ^ 26 := by omega
  have t3 : (st.r3 * 5).toNat < 5 * 2 ^ 26 := by omega
  have t4 : (st.r4 * 5).toNat < 5 * 2 ^ 20 := by omega
  unfold mulReduce
  dsimp only
  have p00 := mul_bound b0 rb0
  have p01 := mul_bound b0 rb1
  have p02 := mul_bound b0 rb2
  have p03 := mul_bound b0 rb3
  have p04 := mul_bound b0 rb4
  have p10 := mul_bound b1 rb0
  have p11 := mul_bound b1 rb1
  have p12 := mul_bound b1 rb2
  have p13 := mul_bound b1 rb3
  have p14 := mul_bound b1 t4
  have p20 := mul_bound b2 rb0
  have p21 := mul_bound b2 rb1
  have p22 := mul_bound b2 rb2
  have p23 := mul_bound b2 t3
  have p24 := mul_bound b2 t4
  have p30 := mul_bound b3 rb0
  have p31 := mul_bound b3 rb1
  have p32 := mul_bound b3 t2
  have p33 := mul_bound b3 t3
  have p34 := mul_bound b3 t4
  have p40 := mul_bound b4 rb0
  have p41 := mul_bound b4 t1
  have p42 := mul_bound b4 t2
  have p43 := mul_bound b4 t3
  have p44 := mul_bound b4 t4
  simp only [← mul_toNat] at p00 p01 p02 p03 p04 p10 p11 p12 p13 p14 p20 p21 p22 p23 p24 p30 p31 p32 p33 p34 p40 p41 p42 p43 p44
  have q0 := sum5 (mul h.h0 st.r0) (mul h.h1 (st.r4 * 5)) (mul h.h2 (st.r3 * 5)) (mul h.h3 (st.r2 * 5)) (mul h.h4 (st.r1 * 5)) _ rfl (by omega)
  have q1 := sum5 (mul h.h0 st.r1) (mul h.h1 st.r0) (mul h.h2 (st.r4 * 5)) (mul h.h3 (st.r3 * 5)) (mul h.h4 (st.r2 * 5)) _ rfl (by omega)
  have q2 := sum5 (mul h.h0 st.r2) (mul h.h1 st.r1) (mul h.h2 st.r0) (mul h.h3 (st.r4 * 5)) (mul h.h4 (st.r3 * 5)) _ rfl (by omega)
  have q3 := sum5 (mul h.h0 st.r3) (mul h.h1 st.r2) (mul h.h2 st.r1) (mul h.h3 st.r0) (mul h.h4 (st.r4 * 5)) _ rfl (by omega)
  have q4 := sum5 (mul h.h0 st.r4) (mul h.h1 st.r3) (mul h.h2 st.r2) (mul h.h3 st.r1) (mul h.h4 st.r0) _ rfl (by omega)
  obtain ⟨r1, r2⟩ := reduce_val _ _ _ _ _ (q0.trans_lt (by omega)) (q1.trans_lt (by omega)) (q2.trans_lt (by omega))
    (q3.trans_lt (by omega)) (q4.trans_lt (by omega))
  refine ⟨r1, ?_⟩
  rw [r2, q0, q1, q2, q3, q4]
  simp only [mul_toNat, s1, s2, s3, s4]
  unfold Acc.val Ctx.rVal
  generalize h.h0.toNat = x0
  generalize h.h1.toNat = x1
  generalize h.h2.toNat = x2
  generalize h.h3.toNat = x3
  generalize h.h4.toNat = x4
  generalize st.r0.toNat = r0
  generalize st.r1.toNat = r1
  generalize st.r2.toNat = r2
  generalize st.r3.toNat = r3
  generalize st.r4.toNat = r4
  have key : (x0 + 2 ^ 26 * x1 + 2 ^ 52 * x2 + 2 ^ 78 * x3 + 2 ^ 104 * x4) *
      (r0 + 2 ^ 26 * r1 + 2 ^ 52 * r2 + 2 ^ 78 * r3 + 2 ^ 104 * r4) =
      (x0 * r0 + x1 * (5 * r4) + x2 * (5 * r3) + x3 * (5 * r2) + x4 * (5 * r1)) +
      2 ^ 26 * (x0 * r1 + x1 * r0 + x2 * (5 * r4) + x3 * (5 * r3) + x4 * (5 * r2)) +
      2 ^ 52 * (x0 * r2 + x1 * r1 + x2 * r0 + x3 * (5 * r4) + x4 * (5 * r3)) +
      2 ^ 78 * (x0 * r3 + x1 * r2 + x2 * r1 + x3 * r0 + x4 * (5 * r4)) +
      2 ^ 104 * (x0 * r4 + x1 * r3 + x2 * r2 + x3 * r1 + x4 * r0) +
      prime * ((x1 * r4 + x2 * r3 + x3 * r2 + x4 * r1) + 2 ^ 26 * (x2 * r4 + x3 * r3 + x4 * r2) +
        2 ^ 52 * (x3 * r4 + x4 * r3) + 2 ^ 78 * (x4 * r4)) := by
    rw [show prime = 2 ^ 130 - 5 from rfl]
    norm_num
    ring
  rw [key, Nat.add_mul_mod_self_left]

end Noise.Poly1305W
