import Verif.Poly1305
import Verif.ChaChaProps
import Verif.Chunks
import Mathlib.Tactic.Ring
/-!
# The C code computes Poly1305
-/

namespace Noise

open Rfc7539

/-! ## Words of 64 bits -/

theorem or_shl_toNat (x : UInt64) (b : UInt8) (k : Nat) (hk : k ≤ 56) (hx : x.toNat < 2 ^ k) :
    (x ||| b.toUInt64 <<< UInt64.ofNat k).toNat = x.toNat + b.toNat * 2 ^ k := by
  have hb := b.toNat_lt
  have hp : (2 : Nat) ^ k ≤ 2 ^ 56 := Nat.pow_le_pow_right (by omega) hk
  have hm : b.toNat * 2 ^ k < 2 ^ 64 := by
    calc b.toNat * 2 ^ k ≤ 255 * 2 ^ 56 := Nat.mul_le_mul (by omega) hp
      _ < 2 ^ 64 := by omega
  rw [UInt64.toNat_or, UInt64.toNat_shiftLeft, UInt64.toNat_ofNat', Nat.mod_eq_of_lt (a := k) (by omega),
    Nat.mod_eq_of_lt (a := k) (by omega), UInt8.toNat_toUInt64, Nat.shiftLeft_eq, Nat.mod_eq_of_lt hm, Nat.or_comm,
    Nat.mul_comm, ← Nat.two_pow_add_eq_or_of_lt hx, Nat.add_comm]

theorem leNat_take8 (p : Bytes) : leNat (p.take 8) = (p.getD 0 0).toNat + 2 ^ 8 * (p.getD 1 0).toNat +
    2 ^ 16 * (p.getD 2 0).toNat + 2 ^ 24 * (p.getD 3 0).toNat + 2 ^ 32 * (p.getD 4 0).toNat +
    2 ^ 40 * (p.getD 5 0).toNat + 2 ^ 48 * (p.getD 6 0).toNat + 2 ^ 56 * (p.getD 7 0).toNat := by
  rcases p with _ | ⟨a, _ | ⟨b, _ | ⟨c, _ | ⟨d, _ | ⟨e, _ | ⟨f, _ | ⟨g, _ | ⟨i, p⟩⟩⟩⟩⟩⟩⟩⟩ <;>
    simp [leNat] <;> omega

theorem Poly1305.u8to64_toNat (p : Bytes) (i : Nat) :
    (Poly1305.u8to64 p i).toNat = leNat ((p.drop i).take 8) := by
  rw [leNat_take8]
  simp only [getD_drop, Nat.add_zero]
  unfold Poly1305.u8to64
  generalize p.getD i 0 = a
  generalize p.getD (i + 1) 0 = b
  generalize p.getD (i + 2) 0 = c
  generalize p.getD (i + 3) 0 = d
  generalize p.getD (i + 4) 0 = e
  generalize p.getD (i + 5) 0 = f
  generalize p.getD (i + 6) 0 = g
  generalize p.getD (i + 7) 0 = h
  have ha := a.toNat_lt
  have hb := b.toNat_lt
  have hc := c.toNat_lt
  have hd := d.toNat_lt
  have he := e.toNat_lt
  have hf := f.toNat_lt
  have hg := g.toNat_lt
  have e0 : a.toUInt64.toNat = a.toNat := UInt8.toNat_toUInt64 a
  generalize a.toUInt64 = w0 at e0 ⊢
  have e1 := or_shl_toNat w0 b 8 (by omega) (by omega)
  rw [show UInt64.ofNat 8 = 8 from rfl] at e1
  generalize w0 ||| b.toUInt64 <<< 8 = w1 at e1 ⊢
  have e2 := or_shl_toNat w1 c 16 (by omega) (by omega)
  rw [show UInt64.ofNat 16 = 16 from rfl] at e2
  generalize w1 ||| c.toUInt64 <<< 16 = w2 at e2 ⊢
  have e3 := or_shl_toNat w2 d 24 (by omega) (by omega)
  rw [show UInt64.ofNat 24 = 24 from rfl] at e3
  generalize w2 ||| d.toUInt64 <<< 24 = w3 at e3 ⊢
  have e4 := or_shl_toNat w3 e 32 (by omega) (by omega)
  rw [show UInt64.ofNat 32 = 32 from rfl] at e4
  generalize w3 ||| e.toUInt64 <<< 32 = w4 at e4 ⊢
  have e5 := or_shl_toNat w4 f 40 (by omega) (by omega)
  rw [show UInt64.ofNat 40 = 40 from rfl] at e5
  generalize w4 ||| f.toUInt64 <<< 40 = w5 at e5 ⊢
  have e6 := or_shl_toNat w5 g 48 (by omega) (by omega)
  rw [show UInt64.ofNat 48 = 48 from rfl] at e6
  generalize w5 ||| g.toUInt64 <<< 48 = w6 at e6 ⊢
  have e7 := or_shl_toNat w6 h 56 (by omega) (by omega)
  rw [show UInt64.ofNat 56 = 56 from rfl] at e7
  rw [e7]
  omega

theorem Poly1305.u64to8_eq (w : UInt64) : Poly1305.u64to8 w = leBytes 8 w.toNat := by
  have h : ∀ k : Nat, k < 64 → (w >>> UInt64.ofNat k).toUInt8 = UInt8.ofNat (w.toNat / 2 ^ k % 256) := by
    intro k hk
    apply UInt8.toNat_inj.1
    simp only [UInt64.toNat_toUInt8, UInt64.toNat_shiftRight, UInt64.toNat_ofNat', UInt8.toNat_ofNat']
    rw [Nat.mod_eq_of_lt (a := k) (by omega), Nat.mod_eq_of_lt (a := k) (by omega), Nat.shiftRight_eq_div_pow]
    simp
  simp only [Poly1305.u64to8, leBytes]
  rw [show (8 : UInt64) = UInt64.ofNat 8 from rfl, show (16 : UInt64) = UInt64.ofNat 16 from rfl,
    show (24 : UInt64) = UInt64.ofNat 24 from rfl, show (32 : UInt64) = UInt64.ofNat 32 from rfl,
    show (40 : UInt64) = UInt64.ofNat 40 from rfl, show (48 : UInt64) = UInt64.ofNat 48 from rfl,
    show (56 : UInt64) = UInt64.ofNat 56 from rfl, h 8 (by omega), h 16 (by omega), h 24 (by omega),
    h 32 (by omega), h 40 (by omega), h 48 (by omega), h 56 (by omega)]
  simp only [Nat.div_div_eq_div_mul]
  congr 1
  apply UInt8.toNat_inj.1
  simp

theorem leNat_append (a b : Bytes) : leNat (a ++ b) = leNat a + 256 ^ a.length * leNat b := by
  induction a with
  | nil => simp [leNat]
  | cons x a ih =>
    simp only [List.cons_append, leNat, ih, List.length_cons, Nat.pow_succ]
    ring

theorem leNat_replicate (n : Nat) : leNat (List.replicate n 0) = 0 := by
  induction n with
  | zero => rfl
  | succ n ih => simp [List.replicate_succ, leNat, ih]

theorem leNat_take16 (p : Bytes) (h : 8 ≤ p.length) :
    leNat (p.take 16) = leNat (p.take 8) + 2 ^ 64 * leNat ((p.drop 8).take 8) := by
  rw [show p.take 16 = p.take 8 ++ (p.drop 8).take 8 by rw [← List.take_add], leNat_append]
  rw [List.length_take_of_le h, show (256 : Nat) ^ 8 = 2 ^ 64 from rfl]

theorem leBytes_append (n k v : Nat) : leBytes (n + k) v = leBytes n v ++ leBytes k (v / 256 ^ n) := by
  induction n generalizing v with
  | zero => simp [leBytes]
  | succ n ih =>
    rw [show n + 1 + k = (n + k) + 1 by omega, leBytes, leBytes, ih, List.cons_append, Nat.div_div_eq_div_mul,
      Nat.pow_succ, Nat.mul_comm (256 ^ n)]

theorem leBytes_mod (n v : Nat) : leBytes n (v % 256 ^ n) = leBytes n v := by
  have h := leBytes_leNat (leBytes n v)
  rw [leBytes_length, leNat_leBytes] at h
  exact h

namespace Poly1305

/-! ## Masks and shifts -/

theorem and44 (x : UInt64) : (x &&& 0xfffffffffff).toNat = x.toNat % 2 ^ 44 := by
  rw [UInt64.toNat_and]; exact Nat.and_two_pow_sub_one_eq_mod x.toNat 44

theorem and42 (x : UInt64) : (x &&& 0x3ffffffffff).toNat = x.toNat % 2 ^ 42 := by
  rw [UInt64.toNat_and]; exact Nat.and_two_pow_sub_one_eq_mod x.toNat 42

theorem shr44 (x : UInt64) : (x >>> 44).toNat = x.toNat / 2 ^ 44 := by
  rw [UInt64.toNat_shiftRight, ← Nat.shiftRight_eq_div_pow]; rfl

theorem shr42 (x : UInt64) : (x >>> 42).toNat = x.toNat / 2 ^ 42 := by
  rw [UInt64.toNat_shiftRight, ← Nat.shiftRight_eq_div_pow]; rfl

theorem shr24 (x : UInt64) : (x >>> 24).toNat = x.toNat / 2 ^ 24 := by
  rw [UInt64.toNat_shiftRight, ← Nat.shiftRight_eq_div_pow]; rfl

theorem shr20 (x : UInt64) : (x >>> 20).toNat = x.toNat / 2 ^ 20 := by
  rw [UInt64.toNat_shiftRight, ← Nat.shiftRight_eq_div_pow]; rfl

theorem shl20 (x : UInt64) : (x <<< 20).toNat = x.toNat * 2 ^ 20 % 2 ^ 64 := by
  rw [UInt64.toNat_shiftLeft, ← Nat.shiftLeft_eq]; rfl

theorem shl24 (x : UInt64) : (x <<< 24).toNat = x.toNat * 2 ^ 24 % 2 ^ 64 := by
  rw [UInt64.toNat_shiftLeft, ← Nat.shiftLeft_eq]; rfl

theorem shl44 (x : UInt64) : (x <<< 44).toNat = x.toNat * 2 ^ 44 % 2 ^ 64 := by
  rw [UInt64.toNat_shiftLeft, ← Nat.shiftLeft_eq]; rfl

theorem or_eq_add {a b : Nat} (k : Nat) (ha : a < 2 ^ k) (hb : b % 2 ^ k = 0) : a ||| b = a + b := by
  have h := Nat.two_pow_add_eq_or_of_lt ha (b / 2 ^ k)
  have h2 : 2 ^ k * (b / 2 ^ k) = b := by have := Nat.div_add_mod b (2 ^ k); omega
  rw [h2] at h
  rw [Nat.or_comm, ← h, Nat.add_comm]

/-- The middle limb of a number of 128 bits. -/
theorem mid (t0 t1 : UInt64) :
    ((t0 >>> 44) ||| (t1 <<< 20)).toNat = (t0.toNat + 2 ^ 64 * t1.toNat) / 2 ^ 44 % 2 ^ 64 := by
  have h0 := t0.toNat_lt
  have h1 := t1.toNat_lt
  rw [UInt64.toNat_or, shr44, shl20, or_eq_add 20 (by omega) (by omega)]
  omega

/-! ## Values -/

/-- The number represented by three limbs. -/
def Acc.val (h : Acc) : Nat := h.h0.toNat + 2 ^ 44 * h.h1.toNat + 2 ^ 88 * h.h2.toNat

/-- The sizes of the limbs between two blocks. -/
structure Acc.Small (h : Acc) : Prop where
  b0 : h.h0.toNat < 2 ^ 44
  b1 : h.h1.toNat < 2 ^ 44 + 2 ^ 12
  b2 : h.h2.toNat < 2 ^ 42

/-- The sizes of the limbs after adding a block. -/
structure Acc.Mid (h : Acc) : Prop where
  b0 : h.h0.toNat < 2 ^ 45
  b1 : h.h1.toNat < 2 ^ 46
  b2 : h.h2.toNat < 2 ^ 43

theorem addBlock_val (hibit : UInt64) (h : Acc) (m : Bytes) (hm : 16 ≤ m.length) (hs : h.Small)
    (hh : hibit.toNat = 0 ∨ hibit.toNat = 2 ^ 40) :
    (addBlock hibit h m).Mid ∧
      (addBlock hibit h m).val = h.val + leNat (m.take 16) + 2 ^ 88 * hibit.toNat := by
  obtain ⟨b0, b1, b2⟩ := hs
  have e0 := u8to64_toNat m 0
  have e1 := u8to64_toNat m 8
  have e := leNat_take16 m (by omega)
  rw [List.drop_zero] at e0
  rw [← e0, ← e1] at e
  have l0 := (u8to64 m 0).toNat_lt
  have l1 := (u8to64 m 8).toNat_lt
  unfold Acc.val addBlock
  generalize u8to64 m 0 = t0 at *
  generalize u8to64 m 8 = t1 at *
  have m0 := and44 t0
  have m1 := and44 ((t0 >>> 44) ||| (t1 <<< 20))
  rw [mid] at m1
  have m2 : (((t1 >>> 24) &&& 0x3ffffffffff) ||| hibit).toNat = t1.toNat / 2 ^ 24 + hibit.toNat := by
    have hx : t1.toNat / 2 ^ 24 % 2 ^ 42 = t1.toNat / 2 ^ 24 := Nat.mod_eq_of_lt (by omega)
    rw [UInt64.toNat_or, and42, shr24, hx]
    rcases hh with hh | hh
    · rw [hh]; simp
    · exact or_eq_add 40 (by omega) (by omega)
  have a0 : (h.h0 + (t0 &&& 0xfffffffffff)).toNat = h.h0.toNat + t0.toNat % 2 ^ 44 := by
    rw [UInt64.toNat_add, m0]; omega
  have a1 : (h.h1 + (((t0 >>> 44) ||| (t1 <<< 20)) &&& 0xfffffffffff)).toNat =
      h.h1.toNat + (t0.toNat + 2 ^ 64 * t1.toNat) / 2 ^ 44 % 2 ^ 64 % 2 ^ 44 := by
    rw [UInt64.toNat_add, m1]; omega
  have a2 : (h.h2 + (((t1 >>> 24) &&& 0x3ffffffffff) ||| hibit)).toNat =
      h.h2.toNat + (t1.toNat / 2 ^ 24 + hibit.toNat) := by
    rw [UInt64.toNat_add, m2]; omega
  refine ⟨⟨?_, ?_, ?_⟩, ?_⟩
  · simp only [a0]; omega
  · simp only [a1]; omega
  · simp only [a2]; omega
  · simp only [a0, a1, a2, e]; omega

/-- The number represented by the limbs of `r`. -/
def Ctx.rVal (st : Ctx) : Nat := st.r0.toNat + 2 ^ 44 * st.r1.toNat + 2 ^ 88 * st.r2.toNat

/-- The sizes of the limbs of `r`. -/
structure Ctx.RSmall (st : Ctx) : Prop where
  b0 : st.r0.toNat < 2 ^ 44
  b1 : st.r1.toNat < 2 ^ 44
  b2 : st.r2.toNat < 2 ^ 36

theorem mul_eq (x y : UInt64) : mul x y = x.toNat * y.toNat := by
  unfold mul
  have := x.toNat_lt
  have := y.toNat_lt
  apply Nat.mod_eq_of_lt
  calc x.toNat * y.toNat ≤ (2 ^ 64 - 1) * (2 ^ 64 - 1) := Nat.mul_le_mul (by omega) (by omega)
    _ < 2 ^ 128 := by omega

theorem add_eq {x y : Nat} (h : x + y < 2 ^ 128) : add x y = x + y := Nat.mod_eq_of_lt h

theorem times20 (x : UInt64) (h : x.toNat < 2 ^ 44) : (x * ((5 : UInt64) <<< 2)).toNat = 20 * x.toNat := by
  rw [UInt64.toNat_mul, show ((5 : UInt64) <<< 2).toNat = 20 from rfl]; omega

theorem shr_toNat (x k : Nat) (h : x / 2 ^ k < 2 ^ 64) : (shr x k).toNat = x / 2 ^ k := by
  rw [shr, UInt64.toNat_ofNat', Nat.mod_eq_of_lt h]

theorem lo44 (x : Nat) : (lo x &&& 0xfffffffffff).toNat = x % 2 ^ 44 := by
  rw [and44, lo, UInt64.toNat_ofNat']; omega

theorem lo42 (x : Nat) : (lo x &&& 0x3ffffffffff).toNat = x % 2 ^ 42 := by
  rw [and42, lo, UInt64.toNat_ofNat']; omega

theorem mul_bound {a b x y : Nat} (ha : a < x) (hb : b < y) : a * b < x * y :=
  Nat.mul_lt_mul'' ha hb

theorem mulReduce_val (st : Ctx) (h : Acc) (hr : st.RSmall) (hh : h.Mid) :
    (mulReduce st h).Small ∧ (mulReduce st h).val % prime = h.val * st.rVal % prime := by
  obtain ⟨rb0, rb1, rb2⟩ := hr
  obtain ⟨b0, b1, b2⟩ := hh
  have s1 := times20 st.r1 rb1
  have s2 := times20 st.r2 (by omega)
  unfold Acc.val Ctx.rVal mulReduce
  simp only [mul_eq, s1, s2]
  generalize h.h0.toNat = x0 at *
  generalize h.h1.toNat = x1 at *
  generalize h.h2.toNat = x2 at *
  generalize st.r0.toNat = r0 at *
  generalize st.r1.toNat = r1 at *
  generalize st.r2.toNat = r2 at *
  have p00 := mul_bound b0 rb0
  have p12 := mul_bound b1 (show 20 * r2 < 20 * 2 ^ 36 by omega)
  have p21 := mul_bound b2 (show 20 * r1 < 20 * 2 ^ 44 by omega)
  have p01 := mul_bound b0 rb1
  have p10 := mul_bound b1 rb0
  have p22 := mul_bound b2 (show 20 * r2 < 20 * 2 ^ 36 by omega)
  have p02 := mul_bound b0 rb2
  have p11 := mul_bound b1 rb1
  have p20 := mul_bound b2 rb0
  have key : (x0 + 2 ^ 44 * x1 + 2 ^ 88 * x2) * (r0 + 2 ^ 44 * r1 + 2 ^ 88 * r2) =
      (x0 * r0 + x1 * (20 * r2) + x2 * (20 * r1)) + 2 ^ 44 * (x0 * r1 + x1 * r0 + x2 * (20 * r2)) +
        2 ^ 88 * (x0 * r2 + x1 * r1 + x2 * r0) + prime * (4 * (x1 * r2 + x2 * r1) + 4 * 2 ^ 44 * (x2 * r2)) := by
    rw [show prime = 2 ^ 130 - 5 from rfl]
    norm_num
    ring
  rw [key, Nat.add_mul_mod_self_left]
  clear key
  generalize x0 * r0 = a0 at *
  generalize x1 * (20 * r2) = a1 at *
  generalize x2 * (20 * r1) = a2 at *
  generalize x0 * r1 = a3 at *
  generalize x1 * r0 = a4 at *
  generalize x2 * (20 * r2) = a5 at *
  generalize x0 * r2 = a6 at *
  generalize x1 * r1 = a7 at *
  generalize x2 * r0 = a8 at *
  rw [add_eq (x := a0) (by omega), add_eq (x := a0 + a1) (by omega), add_eq (x := a3) (by omega),
    add_eq (x := a3 + a4) (by omega), add_eq (x := a6) (by omega), add_eq (x := a6 + a7) (by omega)]
  have hd0 : a0 + a1 + a2 < 2 ^ 94 := by omega
  have hd1 : a3 + a4 + a5 < 2 ^ 94 := by omega
  have hd2 : a6 + a7 + a8 < 2 ^ 94 := by omega
  clear p00 p12 p21 p01 p10 p22 p02 p11 p20 s1 s2
  generalize a0 + a1 + a2 = d0 at *
  generalize a3 + a4 + a5 = d1 at *
  generalize a6 + a7 + a8 = d2 at *
  rw [shr_toNat d0 44 (by omega), add_eq (x := d1) (by omega)]
  have hd1' : d1 + d0 / 2 ^ 44 < 2 ^ 95 := by omega
  rw [shr_toNat (d1 + d0 / 2 ^ 44) 44 (by omega), add_eq (x := d2) (by omega)]
  have hq : (lo d0 &&& 0xfffffffffff).toNat = d0 % 2 ^ 44 := lo44 d0
  have hq1 : (lo (d1 + d0 / 2 ^ 44) &&& 0xfffffffffff).toNat = (d1 + d0 / 2 ^ 44) % 2 ^ 44 := lo44 _
  have hq2 : (lo (d2 + (d1 + d0 / 2 ^ 44) / 2 ^ 44) &&& 0x3ffffffffff).toNat =
      (d2 + (d1 + d0 / 2 ^ 44) / 2 ^ 44) % 2 ^ 42 := lo42 _
  have hc := shr_toNat (d2 + (d1 + d0 / 2 ^ 44) / 2 ^ 44) 42 (by omega)
  generalize lo d0 &&& 0xfffffffffff = q0 at *
  generalize lo (d1 + d0 / 2 ^ 44) &&& 0xfffffffffff = q1 at *
  generalize lo (d2 + (d1 + d0 / 2 ^ 44) / 2 ^ 44) &&& 0x3ffffffffff = q2 at *
  generalize shr (d2 + (d1 + d0 / 2 ^ 44) / 2 ^ 44) 42 = c at *
  have e0 : (q0 + c * 5).toNat = d0 % 2 ^ 44 + 5 * ((d2 + (d1 + d0 / 2 ^ 44) / 2 ^ 44) / 2 ^ 42) := by
    rw [UInt64.toNat_add, UInt64.toNat_mul, hq, hc, show (5 : UInt64).toNat = 5 from rfl]
    omega
  have e1 : (q1 + (q0 + c * 5) >>> 44).toNat = (d1 + d0 / 2 ^ 44) % 2 ^ 44 +
      (d0 % 2 ^ 44 + 5 * ((d2 + (d1 + d0 / 2 ^ 44) / 2 ^ 44) / 2 ^ 42)) / 2 ^ 44 := by
    rw [UInt64.toNat_add, shr44, hq1, e0]
    omega
  refine ⟨⟨?_, ?_, ?_⟩, ?_⟩
  · simp only [and44]; omega
  · simp only [e1]; omega
  · simp only [hq2]; omega
  · simp only [and44, e0, e1, hq2]
    have hx : d0 + 2 ^ 44 * d1 + 2 ^ 88 * d2 =
        ((d0 % 2 ^ 44 + 5 * ((d2 + (d1 + d0 / 2 ^ 44) / 2 ^ 44) / 2 ^ 42)) % 2 ^ 44 +
        2 ^ 44 * ((d1 + d0 / 2 ^ 44) % 2 ^ 44 +
          (d0 % 2 ^ 44 + 5 * ((d2 + (d1 + d0 / 2 ^ 44) / 2 ^ 44) / 2 ^ 42)) / 2 ^ 44) +
        2 ^ 88 * ((d2 + (d1 + d0 / 2 ^ 44) / 2 ^ 44) % 2 ^ 42)) +
        prime * ((d2 + (d1 + d0 / 2 ^ 44) / 2 ^ 44) / 2 ^ 42) := by
      rw [show prime = 2 ^ 130 - 5 from rfl]
      omega
    rw [hx, Nat.add_mul_mod_self_left]

/-! ## Setting up -/

theorem and_masks (r : Nat) : clamp r =
    (r % 2 ^ 44 &&& 0xffc0fffffff) + 2 ^ 44 * (r / 2 ^ 44 % 2 ^ 44 &&& 0xfffffc0ffff) +
      2 ^ 88 * (r / 2 ^ 88 &&& 0x00ffffffc0f) := by
  unfold clamp
  generalize hx : (r &&& 0x0ffffffc0ffffffc0ffffffc0fffffff) = x
  have h0 : x % 2 ^ 44 = r % 2 ^ 44 &&& 0xffc0fffffff := by rw [← hx, Nat.and_mod_two_pow]
  have h1 : x / 2 ^ 44 % 2 ^ 44 = r / 2 ^ 44 % 2 ^ 44 &&& 0xfffffc0ffff := by
    rw [← hx, Nat.and_div_two_pow, Nat.and_mod_two_pow]
  have h2 : x / 2 ^ 88 = r / 2 ^ 88 &&& 0x00ffffffc0f := by rw [← hx, Nat.and_div_two_pow]
  rw [← h0, ← h1, ← h2]
  omega

/-- The pad of the key, as a number. -/
def Ctx.padVal (st : Ctx) : Nat := st.pad0.toNat + 2 ^ 64 * st.pad1.toNat

theorem init_r (st : Ctx) (key : Bytes) (hk : 32 ≤ key.length) :
    (init st key).RSmall ∧ (init st key).rVal = clamp (leNat (key.take 16)) ∧
      (init st key).padVal = leNat ((key.drop 16).take 16) := by
  have e0 := u8to64_toNat key 0
  have e1 := u8to64_toNat key 8
  have e2 := u8to64_toNat key 16
  have e3 := u8to64_toNat key 24
  have e := leNat_take16 key (by omega)
  have f := leNat_take16 (key.drop 16) (by simp; omega)
  rw [List.drop_drop] at f
  rw [List.drop_zero] at e0
  rw [← e0, ← e1] at e
  rw [← e2, ← e3] at f
  have l0 := (u8to64 key 0).toNat_lt
  have l1 := (u8to64 key 8).toNat_lt
  rw [e, f, and_masks]
  unfold Ctx.rVal Ctx.padVal init
  generalize u8to64 key 0 = t0 at *
  generalize u8to64 key 8 = t1 at *
  have m0 : (t0 &&& 0xffc0fffffff).toNat = (t0.toNat + 2 ^ 64 * t1.toNat) % 2 ^ 44 &&& 0xffc0fffffff := by
    rw [UInt64.toNat_and, show (t0.toNat + 2 ^ 64 * t1.toNat) % 2 ^ 44 = t0.toNat % 2 ^ 44 by omega]
    rw [← Nat.and_two_pow_sub_one_eq_mod, Nat.and_assoc]; rfl
  have m1 : (((t0 >>> 44) ||| (t1 <<< 20)) &&& 0xfffffc0ffff).toNat =
      (t0.toNat + 2 ^ 64 * t1.toNat) / 2 ^ 44 % 2 ^ 44 &&& 0xfffffc0ffff := by
    rw [UInt64.toNat_and, mid]
    generalize (t0.toNat + 2 ^ 64 * t1.toNat) / 2 ^ 44 = q
    rw [← Nat.and_two_pow_sub_one_eq_mod, ← Nat.and_two_pow_sub_one_eq_mod, Nat.and_assoc, Nat.and_assoc]; rfl
  have m2 : ((t1 >>> 24) &&& 0x00ffffffc0f).toNat = (t0.toNat + 2 ^ 64 * t1.toNat) / 2 ^ 88 &&& 0x00ffffffc0f := by
    rw [UInt64.toNat_and, shr24]
    rw [show (t0.toNat + 2 ^ 64 * t1.toNat) / 2 ^ 88 = t1.toNat / 2 ^ 24 by omega]; rfl
  refine ⟨⟨?_, ?_, ?_⟩, ?_, rfl⟩
  · simp only [m0]
    exact Nat.lt_of_le_of_lt Nat.and_le_right (by omega)
  · simp only [m1]
    exact Nat.lt_of_le_of_lt Nat.and_le_right (by omega)
  · simp only [m2]
    exact Nat.lt_of_le_of_lt Nat.and_le_right (by omega)
  · simp only [m0, m1, m2]

/-! ## Blocks -/

theorem block_step (st : Ctx) (h : Acc) (m : Bytes) (hm : 16 ≤ m.length) (hs : h.Small) (hr : st.RSmall)
    (hibit : UInt64) (hh : hibit.toNat = 0 ∨ hibit.toNat = 2 ^ 40) :
    (mulReduce st (addBlock hibit h m)).Small ∧
      (mulReduce st (addBlock hibit h m)).val % prime =
        (h.val % prime + (leNat (m.take 16) + 2 ^ 88 * hibit.toNat)) * st.rVal % prime := by
  obtain ⟨h1, h2⟩ := addBlock_val hibit h m hm hs hh
  obtain ⟨h3, h4⟩ := mulReduce_val st _ hr h1
  refine ⟨h3, ?_⟩
  rw [h4, h2, Nat.add_assoc, Nat.mul_mod, ← Nat.mod_add_mod, ← Nat.mul_mod]

theorem blocksLoop_eq (st : Ctx) (hr : st.RSmall) (n : Nat) (h : Acc) (m : Bytes) (hm : 16 * n ≤ m.length)
    (hs : h.Small) (hibit : UInt64) (hh : hibit.toNat = 2 ^ 40) :
    (blocksLoop st hibit n h m).Small ∧
      (blocksLoop st hibit n h m).val % prime = (chunks 16 n m).foldl (absorb st.rVal) (h.val % prime) := by
  induction n generalizing h m with
  | zero => exact ⟨hs, rfl⟩
  | succ n ih =>
    obtain ⟨h1, h2⟩ := block_step st h m (by omega) hs hr hibit (Or.inr hh)
    obtain ⟨h3, h4⟩ := ih _ (m.drop 16) (by simp; omega) h1
    refine ⟨h3, ?_⟩
    rw [blocksLoop, h4, h2, chunks_succ, List.foldl_cons]
    congr 1
    rw [absorb, leNat_append, List.length_take_of_le (by omega), hh,
      show 256 ^ 16 * leNat [1] = 2 ^ 88 * 2 ^ 40 from rfl]

theorem blocks_leftover (st : Ctx) (a b : Nat) (m : Bytes) :
    { blocks { st with leftover := a } m with leftover := b } = blocks { st with leftover := b } m := by
  have h : ∀ (hibit : UInt64) (n : Nat) (h : Acc) (m : Bytes),
      blocksLoop { st with leftover := a } hibit n h m = blocksLoop { st with leftover := b } hibit n h m := by
    intro hibit n
    induction n with
    | zero => intro h m; rfl
    | succ n ih => intro h m; exact ih _ _
  unfold blocks
  simp only [h]

/-! ## The state after some input -/

/-- The limbs of the accumulator of a context. -/
def Ctx.acc (st : Ctx) : Acc := ⟨st.h0, st.h1, st.h2⟩

/-- The context after `m` has been absorbed under `key`. -/
structure Absorbed (key m : Bytes) (st : Ctx) : Prop where
  rsmall : st.RSmall
  rval : st.rVal = clamp (leNat (key.take 16))
  pad : st.padVal = leNat ((key.drop 16).take 16)
  notFinal : st.final = false
  bufLen : st.buffer.length = 16
  small : st.acc.Small
  left : st.leftover = m.length % 16
  buf : st.buffer.take st.leftover = m.drop (16 * (m.length / 16))
  acc : st.acc.val % prime =
    (chunks 16 (m.length / 16) m).foldl (absorb (clamp (leNat (key.take 16)))) 0

theorem init_absorbed (st : Ctx) (key : Bytes) (hk : 32 ≤ key.length) (hb : st.buffer.length = 16) :
    Absorbed key [] (init st key) := by
  obtain ⟨h1, h2, h3⟩ := init_r st key hk
  exact ⟨h1, h2, h3, rfl, hb, ⟨by show 0 < _; decide, by show 0 < _; decide, by show 0 < _; decide⟩,
    rfl, rfl, rfl⟩

/-- Whole blocks processed when nothing is left over. -/
theorem blocks_absorbed {key m : Bytes} {st : Ctx} (h : Absorbed key m st) (hl : m.length % 16 = 0) (d : Bytes)
    (hd : d.length % 16 = 0) : Absorbed key (m ++ d) (blocks st d) := by
  obtain ⟨h1, h2, h3, h4, h5, h6, h7, h8, h9⟩ := h
  have hlen : (m ++ d).length = m.length + d.length := List.length_append
  have hq : (m ++ d).length / 16 = m.length / 16 + d.length / 16 := by omega
  have hb := blocksLoop_eq st h1 (d.length / 16) st.acc d (by omega) h6 ((1 : UInt64) <<< 40) rfl
  have hbl : (blocks st d).acc = blocksLoop st ((1 : UInt64) <<< 40) (d.length / 16) st.acc d := by
    unfold blocks Ctx.acc
    rw [h4]; rfl
  refine ⟨⟨h1.1, h1.2, h1.3⟩, h2, h3, h4, h5, ?_, ?_, ?_, ?_⟩
  · rw [hbl]; exact hb.1
  · show st.leftover = _; omega
  · show st.buffer.take st.leftover = _
    rw [show st.leftover = 0 by omega, List.take_zero, List.drop_of_length_le (by omega)]
  · rw [hbl, hb.2, h9, h2, hq, chunks_append 16 _ _ m d (by omega), List.foldl_append]

theorem updateRest_absorbed {key m : Bytes} {st : Ctx} (h : Absorbed key m st) (hl : m.length % 16 = 0) (d : Bytes) :
    ∃ st', updateRest st d = .ok st' ∧ Absorbed key (m ++ d) st' := by
  -- The bytes that make up less than a block.
  have tail : ∀ (st : Ctx) (m d : Bytes), Absorbed key m st → m.length % 16 = 0 → d.length < 16 →
      ∃ st', (if d.length ≠ 0 then
        (do let b ← store st.buffer st.leftover d
            pure { st with buffer := b, leftover := st.leftover + d.length } : Out Ctx)
        else pure st) = .ok st' ∧ Absorbed key (m ++ d) st' := by
    intro st m d h hl hd
    have hq : (m ++ d).length / 16 = m.length / 16 := by rw [List.length_append]; omega
    have hlo : st.leftover = 0 := by rw [h.left]; exact hl
    by_cases h0 : d.length = 0
    · rw [if_neg (by simpa using h0)]
      have : d = [] := List.eq_nil_of_length_eq_zero h0
      subst this
      exact ⟨st, rfl, by simpa using h⟩
    · rw [if_pos h0, hlo]
      have hb := h.bufLen
      rw [store_ok (by omega)]
      refine ⟨_, rfl, ⟨h.rsmall.1, h.rsmall.2, h.rsmall.3⟩, h.rval, h.pad, h.notFinal, ?_, h.small, ?_, ?_, ?_⟩
      · simp only [List.take_zero, List.nil_append, List.length_append, List.length_drop]; omega
      · show 0 + d.length = _
        rw [List.length_append]; omega
      · show List.take (0 + d.length) (List.take 0 st.buffer ++ d ++ _) = _
        rw [List.take_zero, List.nil_append, Nat.zero_add, List.take_left', hq,
          show 16 * (m.length / 16) = m.length by omega, List.drop_left']
        · rfl
        · rfl
      · rw [hq, chunks_prefix 16 _ m d (by omega)]
        exact h.acc
  unfold updateRest
  by_cases hd : d.length ≥ 16
  · simp only [if_pos hd]
    have h1 := blocks_absorbed h hl (d.take (d.length - d.length % 16)) (by simp; omega)
    have h2 := tail _ _ (d.drop (d.length - d.length % 16)) h1 (by simp; omega) (by simp; omega)
    rw [List.append_assoc, List.take_append_drop] at h2
    exact h2
  · simp only [if_neg hd]
    exact tail st m d h hl (by omega)

/-- Absorbing more input never touches memory outside the buffer and appends to what has been absorbed. -/
theorem update_absorbed {key m : Bytes} {st : Ctx} (h : Absorbed key m st) (d : Bytes) :
    ∃ st', update st d = .ok st' ∧ Absorbed key (m ++ d) st' := by
  have hb := h.bufLen
  have hle := h.left
  by_cases hl : st.leftover = 0
  · have : update st d = updateRest st d := by
      unfold update; rw [if_neg (by simpa using hl)]
    rw [this]
    exact updateRest_absorbed h (by omega) d
  · unfold update
    rw [if_pos hl]
    have hw : (if 16 - st.leftover > d.length then d.length else 16 - st.leftover) =
        min (16 - st.leftover) d.length := by
      split <;> omega
    simp only [hw]
    generalize hwant : min (16 - st.leftover) d.length = want
    have hwl : (d.take want).length = want := by rw [List.length_take]; omega
    rw [store_ok (by omega)]
    show ∃ st', (if st.leftover + want < 16 then _ else _) = _ ∧ _
    have hbuf : (st.buffer.take st.leftover ++ d.take want).length = st.leftover + want := by
      rw [List.length_append, hwl, List.length_take]; omega
    by_cases hf : st.leftover + want < 16
    · rw [if_pos hf]
      have hd : d.take want = d := List.take_of_length_le (by omega)
      have hdl : want = d.length := by omega
      rw [hd] at hbuf
      simp only [hd]
      have hq : (m ++ d).length / 16 = m.length / 16 := by rw [List.length_append]; omega
      refine ⟨_, rfl, ⟨h.rsmall.1, h.rsmall.2, h.rsmall.3⟩, h.rval, h.pad, h.notFinal, ?_, h.small, ?_, ?_, ?_⟩
      · simp only [List.length_append, List.length_drop, List.length_take]; omega
      · show st.leftover + want = _
        rw [List.length_append]; omega
      · show List.take (st.leftover + want) (_ ++ d ++ _) = _
        rw [List.take_left' hbuf, h.buf, hq, List.drop_append_of_le_length (by omega)]
      · rw [hq, chunks_prefix 16 _ m d (by omega)]
        exact h.acc
    · rw [if_neg hf]
      have hfull : st.leftover + want = 16 := by omega
      have hdrop : st.buffer.drop (st.leftover + (d.take want).length) = [] :=
        List.drop_of_length_le (by omega)
      simp only [hdrop, List.append_nil, hfull]
      generalize hbb : st.buffer.take st.leftover ++ d.take want = bb at *
      -- The blocks before the partial one.
      have hm0 : m = m.take (16 * (m.length / 16)) ++ m.drop (16 * (m.length / 16)) := by
        rw [List.take_append_drop]
      have hmt : (m.take (16 * (m.length / 16))).length = 16 * (m.length / 16) := by
        rw [List.length_take]; omega
      have h0 : Absorbed key (m.take (16 * (m.length / 16))) { st with buffer := bb, leftover := 0 } := by
        refine ⟨⟨h.rsmall.1, h.rsmall.2, h.rsmall.3⟩, h.rval, h.pad, h.notFinal, by simp only; omega, h.small, ?_, ?_, ?_⟩
        · simp only [hmt]; omega
        · simp only [List.take_zero]
          rw [List.drop_of_length_le (by omega)]
        · rw [hmt, show 16 * (m.length / 16) / 16 = m.length / 16 by omega]
          have := h.acc
          rw [hm0, chunks_prefix 16 _ _ _ (by rw [← hm0]; omega)] at this
          rw [← hm0] at this
          exact this
      have h1 := blocks_absorbed h0 (by omega) bb (by omega)
      have hmb : m.take (16 * (m.length / 16)) ++ bb = m ++ d.take want := by
        rw [← hbb, h.buf, ← List.append_assoc, List.take_append_drop]
      rw [hmb] at h1
      have h2 := updateRest_absorbed h1 (by rw [List.length_append, hwl]; omega) (d.drop want)
      rw [List.append_assoc, List.take_append_drop] at h2
      rw [← blocks_leftover { st with buffer := bb } 16 0 bb] at h2
      exact h2

/-! ## The result -/

theorem carry_val (h : Acc) (hs : h.Small) :
    (carry h).val % prime = h.val % prime ∧ (carry h).h0.toNat < 2 ^ 44 ∧ (carry h).h1.toNat ≤ 2 ^ 44 ∧
      (carry h).h2.toNat < 2 ^ 42 := by
  obtain ⟨b0, b1, b2⟩ := hs
  -- One pass over the limbs from the second one on.
  have pass : ∀ (x0 x1 x2 : UInt64), x0.toNat < 2 ^ 44 → x1.toNat < 2 ^ 45 → x2.toNat < 2 ^ 43 →
      ∃ y0 y1 y2 : Nat,
        ((x0 + (x2 + x1 >>> (44 : UInt64)) >>> (42 : UInt64) * 5) &&& 0xfffffffffff).toNat = y0 ∧
        ((x1 &&& 0xfffffffffff) + (x0 + (x2 + x1 >>> (44 : UInt64)) >>> (42 : UInt64) * 5) >>> (44 : UInt64)).toNat = y1 ∧
        ((x2 + x1 >>> (44 : UInt64)) &&& 0x3ffffffffff).toNat = y2 ∧
        y0 < 2 ^ 44 ∧ y1 ≤ 2 ^ 44 ∧ y2 < 2 ^ 42 ∧
        (y0 + 2 ^ 44 * y1 + 2 ^ 88 * y2) % prime =
          (x0.toNat + 2 ^ 44 * x1.toNat + 2 ^ 88 * x2.toNat) % prime := by
    intro x0 x1 x2 h0 h1 h2
    have e2 : (x2 + x1 >>> (44 : UInt64)).toNat = x2.toNat + x1.toNat / 2 ^ 44 := by
      rw [UInt64.toNat_add, shr44]; omega
    have e0 : (x0 + (x2 + x1 >>> (44 : UInt64)) >>> (42 : UInt64) * 5).toNat =
        x0.toNat + 5 * ((x2.toNat + x1.toNat / 2 ^ 44) / 2 ^ 42) := by
      rw [UInt64.toNat_add, UInt64.toNat_mul, shr42, e2, show (5 : UInt64).toNat = 5 from rfl]; omega
    have e1 : ((x1 &&& 0xfffffffffff) + (x0 + (x2 + x1 >>> (44 : UInt64)) >>> (42 : UInt64) * 5) >>> (44 : UInt64)).toNat =
        x1.toNat % 2 ^ 44 + (x0.toNat + 5 * ((x2.toNat + x1.toNat / 2 ^ 44) / 2 ^ 42)) / 2 ^ 44 := by
      rw [UInt64.toNat_add, shr44, and44, e0]; omega
    refine ⟨_, _, _, rfl, rfl, rfl, ?_⟩
    rw [and44, and42, e0, e1, e2]
    refine ⟨by omega, by omega, by omega, ?_⟩
    have hx : x0.toNat + 2 ^ 44 * x1.toNat + 2 ^ 88 * x2.toNat =
        ((x0.toNat + 5 * ((x2.toNat + x1.toNat / 2 ^ 44) / 2 ^ 42)) % 2 ^ 44 +
        2 ^ 44 * (x1.toNat % 2 ^ 44 + (x0.toNat + 5 * ((x2.toNat + x1.toNat / 2 ^ 44) / 2 ^ 42)) / 2 ^ 44) +
        2 ^ 88 * ((x2.toNat + x1.toNat / 2 ^ 44) % 2 ^ 42)) +
        prime * ((x2.toNat + x1.toNat / 2 ^ 44) / 2 ^ 42) := by
      rw [show prime = 2 ^ 130 - 5 from rfl]; omega
    rw [hx, Nat.add_mul_mod_self_left]
  obtain ⟨y0, y1, y2, e0, e1, e2, l0, l1, l2, hv⟩ := pass h.h0 h.h1 h.h2 b0 (by omega) (by omega)
  obtain ⟨z0, z1, z2, f0, f1, f2, m0, m1, m2, hw⟩ := pass _ _ _ (Nat.lt_of_le_of_lt (Nat.le_of_eq e0) l0)
    (Nat.lt_of_le_of_lt (Nat.le_of_eq e1) (by omega)) (Nat.lt_of_le_of_lt (Nat.le_of_eq e2) (by omega))
  rw [e0, e1, e2, hv] at hw
  refine ⟨?_, ?_, ?_, ?_⟩
  · refine Eq.trans ?_ hw
    rw [← f0, ← f1, ← f2]; rfl
  · exact Nat.lt_of_le_of_lt (Nat.le_of_eq f0) m0
  · exact Nat.le_trans (Nat.le_of_eq f1) m1
  · exact Nat.lt_of_le_of_lt (Nat.le_of_eq f2) m2

theorem select_val (h : Acc) (b0 : h.h0.toNat < 2 ^ 44) (b1 : h.h1.toNat ≤ 2 ^ 44) (b2 : h.h2.toNat < 2 ^ 42) :
    (select h).val = h.val % prime ∧ (select h).h0.toNat < 2 ^ 44 ∧ (select h).h1.toNat ≤ 2 ^ 44 ∧
      (select h).h2.toNat < 2 ^ 42 := by
  have e0 : (h.h0 + 5).toNat = h.h0.toNat + 5 := by
    rw [UInt64.toNat_add, show (5 : UInt64).toNat = 5 from rfl]; omega
  have e1 : (h.h1 + (h.h0 + 5) >>> (44 : UInt64)).toNat = h.h1.toNat + (h.h0.toNat + 5) / 2 ^ 44 := by
    rw [UInt64.toNat_add, shr44, e0]; omega
  have e2 : (h.h2 + (h.h1 + (h.h0 + 5) >>> (44 : UInt64)) >>> (44 : UInt64)).toNat =
      h.h2.toNat + (h.h1.toNat + (h.h0.toNat + 5) / 2 ^ 44) / 2 ^ 44 := by
    rw [UInt64.toNat_add, shr44, e1]; omega
  have hg : (h.h2 + (h.h1 + (h.h0 + 5) >>> (44 : UInt64)) >>> (44 : UInt64) - ((1 : UInt64) <<< (42 : UInt64))).toNat =
      (2 ^ 64 - 2 ^ 42 + (h.h2.toNat + (h.h1.toNat + (h.h0.toNat + 5) / 2 ^ 44) / 2 ^ 44)) % 2 ^ 64 := by
    rw [UInt64.toNat_sub, e2]; rfl
  unfold select
  simp only
  generalize h.h2 + (h.h1 + (h.h0 + 5) >>> (44 : UInt64)) >>> (44 : UInt64) - ((1 : UInt64) <<< (42 : UInt64)) = g2 at *
  generalize h.h1 + (h.h0 + 5) >>> (44 : UInt64) = g1 at *
  generalize h.h0 + 5 = g0 at *
  unfold Acc.val
  have s63 : (g2 >>> (63 : UInt64)).toNat = g2.toNat / 2 ^ 63 := by
    rw [UInt64.toNat_shiftRight, ← Nat.shiftRight_eq_div_pow]; rfl
  by_cases hc : h.h2.toNat + (h.h1.toNat + (h.h0.toNat + 5) / 2 ^ 44) / 2 ^ 44 < 2 ^ 42
  · -- `h` is less than the prime
    have hs : g2 >>> (63 : UInt64) = 1 := by apply UInt64.toNat_inj.1; rw [s63, hg]; show _ = 1; omega
    rw [hs, show ((1 : UInt64) - 1) = 0 from rfl, show ~~~(0 : UInt64) = 0xffffffffffffffff from rfl]
    have hall : ∀ x y : UInt64, (x &&& 0xffffffffffffffff ||| y &&& 0) = x := by
      intro x y
      apply UInt64.toNat_inj.1
      rw [UInt64.toNat_or, UInt64.toNat_and, UInt64.toNat_and]
      rw [show (0 : UInt64).toNat = 0 from rfl, Nat.and_zero, Nat.or_zero,
        show (0xffffffffffffffff : UInt64).toNat = 2 ^ 64 - 1 from rfl, Nat.and_two_pow_sub_one_eq_mod]
      exact Nat.mod_eq_of_lt x.toNat_lt
    simp only [hall]
    refine ⟨?_, b0, b1, b2⟩
    rw [Nat.mod_eq_of_lt]
    rw [show prime = 2 ^ 130 - 5 from rfl]; omega
  · have hs : g2 >>> (63 : UInt64) = 0 := by apply UInt64.toNat_inj.1; rw [s63, hg]; show _ = 0; omega
    rw [hs, show ((0 : UInt64) - 1) = 0xffffffffffffffff from rfl, show ~~~(0xffffffffffffffff : UInt64) = 0 from rfl]
    have hall : ∀ x y : UInt64, (x &&& 0 ||| y &&& 0xffffffffffffffff) = y := by
      intro x y
      apply UInt64.toNat_inj.1
      rw [UInt64.toNat_or, UInt64.toNat_and, UInt64.toNat_and]
      rw [show (0 : UInt64).toNat = 0 from rfl, Nat.and_zero, Nat.zero_or,
        show (0xffffffffffffffff : UInt64).toNat = 2 ^ 64 - 1 from rfl, Nat.and_two_pow_sub_one_eq_mod]
      exact Nat.mod_eq_of_lt y.toNat_lt
    simp only [hall, and44, e0, e1, hg]
    refine ⟨?_, by omega, by omega, by omega⟩
    have hx : h.h0.toNat + 2 ^ 44 * h.h1.toNat + 2 ^ 88 * h.h2.toNat =
        ((h.h0.toNat + 5) % 2 ^ 44 + 2 ^ 44 * ((h.h1.toNat + (h.h0.toNat + 5) / 2 ^ 44) % 2 ^ 44) +
        2 ^ 88 * ((2 ^ 64 - 2 ^ 42 + (h.h2.toNat + (h.h1.toNat + (h.h0.toNat + 5) / 2 ^ 44) / 2 ^ 44)) % 2 ^ 64)) +
        prime := by
      rw [show prime = 2 ^ 130 - 5 from rfl]; omega
    rw [hx, Nat.add_mod_right, Nat.mod_eq_of_lt (b := prime)]
    rw [show prime = 2 ^ 130 - 5 from rfl]; omega

theorem addPad_eq (st : Ctx) (h : Acc) (b0 : h.h0.toNat < 2 ^ 44) (b1 : h.h1.toNat ≤ 2 ^ 44)
    (b2 : h.h2.toNat < 2 ^ 42) : addPad st h = leBytes 16 (h.val + st.padVal) := by
  unfold addPad Ctx.padVal Acc.val
  have l0 := st.pad0.toNat_lt
  have l1 := st.pad1.toNat_lt
  generalize st.pad0 = t0 at *
  generalize st.pad1 = t1 at *
  simp only
  have e0 : (h.h0 + (t0 &&& 0xfffffffffff)).toNat = h.h0.toNat + t0.toNat % 2 ^ 44 := by
    rw [UInt64.toNat_add, and44]; omega
  generalize h.h0 + (t0 &&& 0xfffffffffff) = x0 at *
  have e1 : (h.h1 + ((((t0 >>> (44 : UInt64)) ||| (t1 <<< (20 : UInt64))) &&& 0xfffffffffff) + x0 >>> (44 : UInt64))).toNat =
      h.h1.toNat + ((t0.toNat + 2 ^ 64 * t1.toNat) / 2 ^ 44 % 2 ^ 44 + (h.h0.toNat + t0.toNat % 2 ^ 44) / 2 ^ 44) := by
    rw [UInt64.toNat_add, UInt64.toNat_add, and44, mid, shr44, e0]; omega
  generalize h.h1 + ((((t0 >>> (44 : UInt64)) ||| (t1 <<< (20 : UInt64))) &&& 0xfffffffffff) + x0 >>> (44 : UInt64)) = x1 at *
  have e2 : (h.h2 + (((t1 >>> (24 : UInt64)) &&& 0x3ffffffffff) + x1 >>> (44 : UInt64))).toNat =
      h.h2.toNat + (t1.toNat / 2 ^ 24 + x1.toNat / 2 ^ 44) := by
    rw [UInt64.toNat_add, UInt64.toNat_add, and42, shr24, shr44, e1]; omega
  generalize h.h2 + (((t1 >>> (24 : UInt64)) &&& 0x3ffffffffff) + x1 >>> (44 : UInt64)) = x2 at *
  have o0 : ((x0 &&& 0xfffffffffff) ||| ((x1 &&& 0xfffffffffff) <<< (44 : UInt64))).toNat =
      x0.toNat % 2 ^ 44 + x1.toNat % 2 ^ 44 * 2 ^ 44 % 2 ^ 64 := by
    rw [UInt64.toNat_or, shl44, and44, and44, or_eq_add 44 (by omega) (by omega)]
  have o1 : (((x1 &&& 0xfffffffffff) >>> (20 : UInt64)) ||| ((x2 &&& 0x3ffffffffff) <<< (24 : UInt64))).toNat =
      x1.toNat % 2 ^ 44 / 2 ^ 20 + x2.toNat % 2 ^ 42 * 2 ^ 24 % 2 ^ 64 := by
    rw [UInt64.toNat_or, shl24, shr20, and44, and42, or_eq_add 24 (by omega) (by omega)]
  rw [u64to8_eq, u64to8_eq, o0, o1, leBytes_append 8 8, ← leBytes_mod 8 (_ + _ + _ + _),
    ← leBytes_mod 8 ((_ + _ + _ + _) / _), show (256 : Nat) ^ 8 = 2 ^ 64 from rfl]
  have hV : h.h0.toNat + 2 ^ 44 * h.h1.toNat + 2 ^ 88 * h.h2.toNat + (t0.toNat + 2 ^ 64 * t1.toNat) =
      x0.toNat % 2 ^ 44 + 2 ^ 44 * (x1.toNat % 2 ^ 44) + 2 ^ 88 * x2.toNat := by omega
  rw [hV]
  clear hV o0 o1 e0 e1 e2
  have w0 : x0.toNat % 2 ^ 44 < 2 ^ 44 := Nat.mod_lt _ (by omega)
  have w1 : x1.toNat % 2 ^ 44 < 2 ^ 44 := Nat.mod_lt _ (by omega)
  generalize x0.toNat % 2 ^ 44 = v0 at *
  generalize x1.toNat % 2 ^ 44 = v1 at *
  generalize x2.toNat = v2 at *
  congr 2
  · omega
  · omega

theorem finish_eq {key m : Bytes} {st : Ctx} (h : Absorbed key m st) :
    ∃ st', finish st = .ok (st', poly1305 key m) ∧ st'.buffer.length = 16 := by
  -- The state after the last block.
  have last : ∃ st1 : Ctx, lastBlock st = .ok st1 ∧ st1.buffer.length = 16 ∧ st1.acc.Small ∧
      st1.padVal = leNat ((key.drop 16).take 16) ∧
      st1.acc.val % prime = (Rfc7539.blocks m).foldl (absorb (clamp (leNat (key.take 16)))) 0 := by
    have hb := h.bufLen
    have hl := h.left
    unfold lastBlock
    by_cases h0 : st.leftover = 0
    · rw [if_neg (by simpa using h0)]
      refine ⟨st, rfl, hb, h.small, h.pad, ?_⟩
      rw [h.acc]
      unfold Rfc7539.blocks
      rw [show (m.length + 15) / 16 = m.length / 16 by omega]; rfl
    · rw [if_pos h0, store_ok (by simp; omega)]
      rw [Out.bind_ok, store_ok (by simp; omega)]
      have hlen : (st.buffer.take st.leftover).length = st.leftover := by rw [List.length_take]; omega
      have hbuf : List.take (st.leftover + 1)
            (st.buffer.take st.leftover ++ [1] ++ st.buffer.drop (st.leftover + ([1] : Bytes).length)) ++
          List.replicate (16 - (st.leftover + 1)) 0 ++
          List.drop (st.leftover + 1 + (List.replicate (16 - (st.leftover + 1)) (0 : UInt8)).length)
            (st.buffer.take st.leftover ++ [1] ++ st.buffer.drop (st.leftover + ([1] : Bytes).length)) =
          (m.drop (16 * (m.length / 16)) ++ [1]) ++ List.replicate (16 - (st.leftover + 1)) 0 := by
        rw [List.take_left' (by simp; omega), List.drop_of_length_le (by simp; omega), List.append_nil, h.buf]
      rw [Out.bind_ok, hbuf]
      refine ⟨_, rfl, ?_⟩
      generalize hbb : (m.drop (16 * (m.length / 16)) ++ [1]) ++
        List.replicate (16 - (st.leftover + 1)) (0 : UInt8) = bb
      have hbbl : bb.length = 16 := by rw [← hbb]; simp; omega
      have hstep := block_step { st with buffer := bb, final := true } st.acc bb (by omega) h.small
        ⟨h.rsmall.1, h.rsmall.2, h.rsmall.3⟩ 0 (Or.inl rfl)
      have hacc : (blocks { st with buffer := bb, final := true } bb).acc =
          mulReduce { st with buffer := bb, final := true } (addBlock 0 st.acc bb) := by
        unfold blocks Ctx.acc
        rw [hbbl]; rfl
      refine ⟨hbbl, ?_, h.pad, ?_⟩
      · rw [hacc]; exact hstep.1
      · rw [hacc, hstep.2]
        rw [h.acc, show Ctx.rVal { st with buffer := bb, final := true } = st.rVal from rfl, h.rval]
        have hq : (m.length + 15) / 16 = m.length / 16 + 1 := by omega
        have hblocks : Rfc7539.blocks m = chunks 16 (m.length / 16) m ++ [m.drop (16 * (m.length / 16))] := by
          show chunks 16 ((m.length + 15) / 16) m = _
          rw [hq, chunks_snoc, List.take_of_length_le (by rw [List.length_drop]; omega)]
        rw [hblocks, List.foldl_append, List.foldl_cons, List.foldl_nil, absorb]
        congr 3
        rw [List.take_of_length_le (by omega), ← hbb, leNat_append, leNat_replicate]
        simp
  obtain ⟨st1, e, hlen, hs, hp, hv⟩ := last
  unfold finish
  rw [e, Out.bind_ok]
  refine ⟨{ st1 with h0 := 0, h1 := 0, h2 := 0, r0 := 0, r1 := 0, r2 := 0, pad0 := 0, pad1 := 0 }, ?_, hlen⟩
  obtain ⟨c1, c2, c3, c4⟩ := carry_val st1.acc hs
  obtain ⟨d1, d2, d3, d4⟩ := select_val _ c2 c3 c4
  rw [poly1305, ← hv, ← c1, ← d1, ← hp, ← addPad_eq st1 _ d2 d3 d4]
  rfl

/-- Any number of calls of `poly1305_update`. -/
def updates (st : Ctx) : List Bytes → Out Ctx
  | [] => .ok st
  | d :: ds => do let st ← update st d; updates st ds

theorem updates_absorbed {key m : Bytes} {st : Ctx} (h : Absorbed key m st) (ds : List Bytes) :
    ∃ st', updates st ds = .ok st' ∧ Absorbed key (m ++ ds.flatten) st' := by
  induction ds generalizing st m with
  | nil => exact ⟨st, rfl, by simpa using h⟩
  | cons d ds ih =>
    obtain ⟨st1, e1, h1⟩ := update_absorbed h d
    obtain ⟨st2, e2, h2⟩ := ih h1
    refine ⟨st2, ?_, ?_⟩
    · rw [updates, e1]; exact e2
    · rw [List.flatten_cons, ← List.append_assoc]; exact h2

/-- **C34**: for every key, every message and every way of passing it in pieces, the code stays inside its
buffer and computes the Poly1305 of RFC 7539, whatever the memory of the context holds at first. -/
theorem C34_poly1305 (st : Ctx) (hb : st.buffer.length = 16) (key : Bytes) (hk : key.length = 32)
    (ds : List Bytes) :
    ∃ st1 st2, updates (init st key) ds = .ok st1 ∧ finish st1 = .ok (st2, poly1305 key ds.flatten) := by
  obtain ⟨st1, e1, h1⟩ := updates_absorbed (init_absorbed st key (by omega) hb) ds
  obtain ⟨st2, e2, _⟩ := finish_eq h1
  exact ⟨st1, st2, e1, e2⟩

/-- **C34**, the one-shot function. -/
theorem C34_auth (st : Ctx) (hb : st.buffer.length = 16) (key m : Bytes) (hk : key.length = 32) :
    auth st m key = .ok (poly1305 key m) := by
  obtain ⟨st1, e1, h1⟩ := update_absorbed (init_absorbed st key (by omega) hb) m
  obtain ⟨st2, e2, _⟩ := finish_eq h1
  unfold auth
  rw [e1, Out.bind_ok, e2, Out.bind_ok]
  rfl

/-- **C34**: the value is the one of the definition, as arithmetic: the blocks, each with a 1 byte appended,
are the coefficients of a polynomial evaluated at the clamped `r` modulo `2^130 - 5`, to which `s` is added
modulo `2^128`. -/
theorem C34_value (st : Ctx) (hb : st.buffer.length = 16) (key m : Bytes) (hk : key.length = 32) :
    ∃ mac, auth st m key = .ok mac ∧ mac.length = 16 ∧
      leNat mac =
        (((Rfc7539.blocks m).foldl (fun a b => (a + leNat b + 256 ^ b.length) *
            (leNat (key.take 16) &&& 0x0ffffffc0ffffffc0ffffffc0fffffff) % (2 ^ 130 - 5)) 0) +
          leNat ((key.drop 16).take 16)) % 2 ^ 128 := by
  refine ⟨_, C34_auth st hb key m hk, leBytes_length _ _, ?_⟩
  rw [poly1305, leNat_leBytes, show (256 : Nat) ^ 16 = 2 ^ 128 from rfl]
  have h : absorb (clamp (leNat (key.take 16))) = fun a b => (a + leNat b + 256 ^ b.length) *
      (leNat (key.take 16) &&& 0x0ffffffc0ffffffc0ffffffc0fffffff) % (2 ^ 130 - 5) := by
    funext a b
    rw [absorb, leNat_append, clamp, ← Nat.add_assoc, show leNat [1] = 1 from rfl, Nat.mul_one, prime]
  rw [h]

example : zero.buffer.length = 16 := rfl

/-- The message of RFC 7539 section 2.5.2 in three pieces. -/
example : (do
    let st ← updates (init zero
      [0x85, 0xd6, 0xbe, 0x78, 0x57, 0x55, 0x6d, 0x33, 0x7f, 0x44, 0x52, 0xfe, 0x42, 0xd5, 0x06, 0xa8,
       0x01, 0x03, 0x80, 0x8a, 0xfb, 0x0d, 0xb2, 0xfd, 0x4a, 0xbf, 0xf6, 0xaf, 0x41, 0x49, 0xf5, 0x1b])
      [[0x43, 0x72, 0x79, 0x70, 0x74], [0x6f, 0x67, 0x72, 0x61, 0x70, 0x68, 0x69, 0x63, 0x20, 0x46, 0x6f,
       0x72, 0x75, 0x6d, 0x20, 0x52, 0x65, 0x73, 0x65, 0x61, 0x72, 0x63, 0x68, 0x20, 0x47], [], [0x72, 0x6f,
       0x75, 0x70]]
    let r ← finish st
    pure r.2 : Out Bytes) =
    .ok [0xa8, 0x06, 0x1d, 0xc1, 0x30, 0x51, 0x36, 0xc6, 0xc2, 0x2b, 0x8b, 0xaf, 0x0c, 0x01, 0x27, 0xa9] := by
  decide +kernel

/-- All limbs at their largest. -/
example : auth zero (List.replicate 40 0xff) (List.replicate 32 0xff) =
    .ok (poly1305 (List.replicate 32 0xff) (List.replicate 40 0xff)) := by decide +kernel

end Poly1305
end Noise
