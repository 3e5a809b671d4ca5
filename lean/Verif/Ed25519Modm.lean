import Verif.Ed25519Base
/-!
# Numbers modulo the order of the base point, `src/crypto/ed25519/modm-donna-64bit.h`
-/

namespace Noise.Ed25519

open Rfc7539 (leNat leBytes)
open Curve25519 (mul add L)

/-- The limbs are digits, and the last one is below a bound. -/
structure Modm.Lt (s : Modm) (n : Nat) : Prop extends s.Digits where
  h4 : s.l4.toNat < n

theorem L_eq : L = 7237005577332262213973186563042994240857116359379907606001950938285454250989 := by decide

theorem modmM_val : modmM.val = L := by decide
theorem modmMu_val : modmMu.val = 2 ^ 512 / L := by decide +kernel

/-! ## Subtraction -/

theorem ltModm_toNat {a b : UInt64} (ha : a.toNat < 2 ^ 63) (hb : b.toNat < 2 ^ 63) :
    (ltModm a b).toNat = if a.toNat < b.toNat then 1 else 0 := by
  rw [ltModm, Curve25519.shrs _ 63 (by omega) 63 rfl, UInt64.toNat_sub]
  by_cases h : a.toNat < b.toNat
  · rw [if_pos h]; omega
  · rw [if_neg h]; omega

theorem ltModm_cases {a b : UInt64} (ha : a.toNat < 2 ^ 63) (hb : b.toNat < 2 ^ 63) :
    (a.toNat < b.toNat ∧ ltModm a b = 1) ∨ (b.toNat ≤ a.toNat ∧ ltModm a b = 0) := by
  have h := ltModm_toNat ha hb
  by_cases hl : a.toNat < b.toNat
  · rw [if_pos hl] at h
    exact Or.inl ⟨hl, UInt64.toNat_inj.1 h⟩
  · rw [if_neg hl] at h
    exact Or.inr ⟨by omega, UInt64.toNat_inj.1 h⟩

/-- One column of the subtraction: `x - y + (b << k)` for the borrow `b`. -/
theorem sub_col {x y : UInt64} {k : UInt64} {n : Nat} (hk : k.toNat = n) (hn : n < 64) (hx : x.toNat < 2 ^ n)
    (hy : y.toNat ≤ 2 ^ n) (hn' : n ≤ 62) : (x - y + (ltModm x y <<< k)).toNat + y.toNat = x.toNat + 2 ^ n * (ltModm x y).toNat ∧
    (x - y + (ltModm x y <<< k)).toNat < 2 ^ n ∧ (ltModm x y).toNat ≤ 1 := by
  have hp : 2 ^ n ≤ 2 ^ 62 := Nat.pow_le_pow_right (by omega) hn'
  have hk' : ∀ b : UInt64, b.toNat ≤ 1 → (b <<< k).toNat = 2 ^ n * b.toNat := by
    intro b hb
    rw [shls _ n hn _ hk, Nat.mul_comm, Nat.mod_eq_of_lt]
    calc 2 ^ n * b.toNat ≤ 2 ^ n * 1 := Nat.mul_le_mul_left _ hb
      _ < 2 ^ 64 := by omega
  rcases ltModm_cases (a := x) (b := y) (by omega) (by omega) with ⟨h, e⟩ | ⟨h, e⟩
  · rw [e, UInt64.toNat_add, UInt64.toNat_sub, hk' 1 (by decide)]
    have : (1 : UInt64).toNat = 1 := rfl
    rw [this]
    omega
  · rw [e, UInt64.toNat_add, UInt64.toNat_sub, hk' 0 (by decide)]
    have : (0 : UInt64).toNat = 0 := rfl
    rw [this]
    omega

theorem subModm_ok {r m : Modm} {top : UInt64} {n : Nat} (hn : top.toNat = n) (h1 : n ≤ 62) (hr : r.Lt (2 ^ n))
    (hm : m.Lt (2 ^ n)) : (subModm r m top).1.Lt (2 ^ n) ∧
    (subModm r m top).1.val + m.val = r.val + 2 ^ (224 + n) * (subModm r m top).2.toNat ∧ (subModm r m top).2.toNat ≤ 1 := by
  have hb : ∀ {b y : UInt64} {N : Nat}, b.toNat ≤ 1 → y.toNat < N → N ≤ 2 ^ 62 → (b + y).toNat = b.toNat + y.toNat := by
    intro b y N h1 h2 h3
    rw [UInt64.toNat_add]; omega
  have hN : 2 ^ n ≤ 2 ^ 62 := Nat.pow_le_pow_right (by omega) h1
  obtain ⟨⟨r0, r1, r2, r3⟩, r4⟩ := hr
  obtain ⟨⟨m0, m1, m2, m3⟩, m4⟩ := hm
  unfold subModm
  dsimp only
  have c0 := sub_col (x := r.l0) (y := m.l0) (k := 56) (n := 56) rfl (by omega) r0 (by omega) (by omega)
  generalize ltModm r.l0 m.l0 = b0 at *
  have y1 := hb c0.2.2 m1 (by omega)
  have c1 := sub_col (x := r.l1) (y := b0 + m.l1) (k := 56) (n := 56) rfl (by omega) r1 (by omega) (by omega)
  generalize ltModm r.l1 (b0 + m.l1) = b1 at *
  have y2 := hb c1.2.2 m2 (by omega)
  have c2 := sub_col (x := r.l2) (y := b1 + m.l2) (k := 56) (n := 56) rfl (by omega) r2 (by omega) (by omega)
  generalize ltModm r.l2 (b1 + m.l2) = b2 at *
  have y3 := hb c2.2.2 m3 (by omega)
  have c3 := sub_col (x := r.l3) (y := b2 + m.l3) (k := 56) (n := 56) rfl (by omega) r3 (by omega) (by omega)
  generalize ltModm r.l3 (b2 + m.l3) = b3 at *
  have y4 := hb c3.2.2 m4 (by omega)
  have c4 := sub_col (x := r.l4) (y := b3 + m.l4) (k := top) hn (by omega) r4 (by omega) (by omega)
  generalize ltModm r.l4 (b3 + m.l4) = b4 at *
  refine ⟨⟨⟨c0.2.1, c1.2.1, c2.2.1, c3.2.1⟩, c4.2.1⟩, ?_, c4.2.2⟩
  simp only [Modm.val]
  rw [pow_add, Nat.mul_assoc]
  generalize 2 ^ n * b4.toNat = z at *
  omega

/-- A selection with a mask of zeros or ones. -/
theorem select (x y : UInt64) : x ^^^ ((0 : UInt64) &&& (x ^^^ y)) = x ∧ x ^^^ ((0 - 1 : UInt64) &&& (x ^^^ y)) = y := by
  constructor
  · rw [UInt64.zero_and, UInt64.xor_zero]
  · rw [show (0 - 1 : UInt64) = -1 by decide, UInt64.neg_one_and, ← UInt64.xor_assoc, UInt64.xor_self, UInt64.zero_xor]

theorem reduce256_ok {r : Modm} (hr : r.Lt (2 ^ 32)) : (reduce256 r).Lt (2 ^ 32) ∧
    (reduce256 r).val = if r.val < L then r.val else r.val - L := by
  have s := subModm_ok (top := 32) (n := 32) rfl (by omega) hr (m := modmM)
    ⟨⟨by decide, by decide, by decide, by decide⟩, by decide⟩
  rw [modmM_val] at s
  unfold reduce256
  generalize subModm r modmM 32 = w at *
  obtain ⟨t, b⟩ := w
  dsimp only at *
  have hrv : r.val < 2 ^ 256 := by
    have := hr.h0; have := hr.h1; have := hr.h2; have := hr.h3; have := hr.h4
    unfold Modm.val; omega
  have htv : t.val < 2 ^ 256 := by
    have := s.1.h0; have := s.1.h1; have := s.1.h2; have := s.1.h3; have := s.1.h4
    unfold Modm.val; omega
  have hL := L_eq
  have hb : b = 0 ∨ b = 1 := by
    rcases Nat.lt_or_ge b.toNat 1 with h | h
    · exact Or.inl (UInt64.toNat_inj.1 (show b.toNat = 0 by omega))
    · exact Or.inr (UInt64.toNat_inj.1 (show b.toNat = 1 by have := s.2.2; omega))
  rcases hb with rfl | rfl
  · simp only [(select _ _).2]
    refine ⟨s.1, ?_⟩
    have e := s.2.1
    rw [show (0 : UInt64).toNat = 0 from rfl] at e
    have hv : Modm.val ⟨t.l0, t.l1, t.l2, t.l3, t.l4⟩ = t.val := rfl
    rw [hv]
    by_cases h : r.val < L
    · omega
    · rw [if_neg h]; omega
  · simp only [show (1 : UInt64) - 1 = 0 by decide, (select _ _).1]
    refine ⟨hr, ?_⟩
    have e := s.2.1
    rw [show (1 : UInt64).toNat = 1 from rfl] at e
    have hv : Modm.val ⟨r.l0, r.l1, r.l2, r.l3, r.l4⟩ = r.val := rfl
    rw [hv, if_pos]
    omega

/-! ## Products -/

theorem mul_small {x y : UInt64} : mul x y = x.toNat * y.toNat := by
  have hx := x.toNat_lt
  have hy := y.toNat_lt
  rw [mul, Nat.mod_eq_of_lt]
  calc x.toNat * y.toNat < 2 ^ 64 * 2 ^ 64 := Nat.mul_lt_mul'' hx hy
    _ = 2 ^ 128 := by norm_num

theorem add_small {x y : Nat} (h : x + y < 2 ^ 128) : add x y = x + y := Nat.mod_eq_of_lt h

theorem shr56_toNat {c : Nat} (h : c < 2 ^ 120) : (shr56 c).toNat = c / 2 ^ 56 := by
  rw [shr56, UInt64.toNat_ofNat']; omega

theorem lo_toNat (c : Nat) : (lo c).toNat = c % 2 ^ 64 := UInt64.toNat_ofNat'

/-- The bits that are kept and the ones that go to the next number. -/
theorem lo_hi (c : Nat) : ((lo c >>> 40) &&& 0xffff).toNat = c / 2 ^ 40 % 2 ^ 16 := by
  rw [UInt64.toNat_and, Curve25519.shrs _ 40 (by omega) 40 rfl, lo_toNat]
  rw [show (0xffff : UInt64).toNat = 2 ^ 16 - 1 from rfl, Nat.and_two_pow_sub_one_eq_mod]
  omega

theorem lo_hi24 (c : Nat) : ((lo c >>> 24) &&& 0xffffffff).toNat = c / 2 ^ 24 % 2 ^ 32 := by
  rw [UInt64.toNat_and, Curve25519.shrs _ 24 (by omega) 24 rfl, lo_toNat]
  rw [show (0xffffffff : UInt64).toNat = 2 ^ 32 - 1 from rfl, Nat.and_two_pow_sub_one_eq_mod]
  omega

theorem lo56 (c : Nat) : (lo c &&& 0xffffffffffffff).toNat = c % 2 ^ 56 := by
  rw [and56, lo_toNat]; omega

theorem lo40 (c : Nat) : (lo c &&& 0x0000ffffffffff).toNat = c % 2 ^ 40 := by
  rw [and40, lo_toNat]; omega

theorem join16 {q : UInt64} (hq : q.toNat < 2 ^ 16) (c : Nat) :
    (q ||| ((lo c <<< 16) &&& 0xffffffffffffff)).toNat = q.toNat + 2 ^ 16 * (c % 2 ^ 40) := by
  have e : ((lo c <<< 16) &&& 0xffffffffffffff).toNat = 2 ^ 16 * (c % 2 ^ 40) := by
    rw [and56, shls _ 16 (by omega) 16 rfl, lo_toNat]; omega
  rw [UInt64.toNat_or, e, Poly1305.or_eq_add 16 hq (by omega)]

theorem join32 {q : UInt64} (hq : q.toNat < 2 ^ 32) (c : Nat) :
    (q ||| ((lo c <<< 32) &&& 0xffffffffffffff)).toNat = q.toNat + 2 ^ 32 * (c % 2 ^ 24) := by
  have e : ((lo c <<< 32) &&& 0xffffffffffffff).toNat = 2 ^ 32 * (c % 2 ^ 24) := by
    rw [and56, shls _ 32 (by omega) 32 rfl, lo_toNat]; omega
  rw [UInt64.toNat_or, e, Poly1305.or_eq_add 32 hq (by omega)]

theorem joinTop {q f k : UInt64} {n : Nat} (hk : k.toNat = n) (hn : n ≤ 32) (hq : q.toNat < 2 ^ n) (hf : f.toNat < 2 ^ 32) :
    (q ||| (f <<< k)).toNat = q.toNat + 2 ^ n * f.toNat := by
  have e : (f <<< k).toNat = 2 ^ n * f.toNat := by
    rw [shls _ n (by omega) _ hk, Nat.mul_comm, Nat.mod_eq_of_lt]
    calc 2 ^ n * f.toNat < 2 ^ n * 2 ^ 32 := Nat.mul_lt_mul_of_pos_left hf (by simp)
      _ ≤ 2 ^ 32 * 2 ^ 32 := Nat.mul_le_mul_right _ (Nat.pow_le_pow_right (by omega) hn)
      _ = 2 ^ 64 := by norm_num
  rw [UInt64.toNat_or, e, Poly1305.or_eq_add n hq (Nat.mul_mod_right _ _)]

/-- The columns of a product. -/
def col0 (x y : Modm) : Nat := x.l0.toNat * y.l0.toNat
def col1 (x y : Modm) : Nat := x.l0.toNat * y.l1.toNat + x.l1.toNat * y.l0.toNat
def col2 (x y : Modm) : Nat := x.l0.toNat * y.l2.toNat + x.l2.toNat * y.l0.toNat + x.l1.toNat * y.l1.toNat
def col3 (x y : Modm) : Nat :=
  x.l0.toNat * y.l3.toNat + x.l3.toNat * y.l0.toNat + x.l1.toNat * y.l2.toNat + x.l2.toNat * y.l1.toNat
def col4 (x y : Modm) : Nat :=
  x.l0.toNat * y.l4.toNat + x.l4.toNat * y.l0.toNat + x.l3.toNat * y.l1.toNat + x.l1.toNat * y.l3.toNat +
    x.l2.toNat * y.l2.toNat
def col5 (x y : Modm) : Nat :=
  x.l4.toNat * y.l1.toNat + x.l1.toNat * y.l4.toNat + x.l2.toNat * y.l3.toNat + x.l3.toNat * y.l2.toNat
def col6 (x y : Modm) : Nat := x.l4.toNat * y.l2.toNat + x.l2.toNat * y.l4.toNat + x.l3.toNat * y.l3.toNat
def col7 (x y : Modm) : Nat := x.l4.toNat * y.l3.toNat + x.l3.toNat * y.l4.toNat
def col8 (x y : Modm) : Nat := x.l4.toNat * y.l4.toNat

theorem val_mul (x y : Modm) : x.val * y.val = col0 x y + 2 ^ 56 * col1 x y + 2 ^ 112 * col2 x y + 2 ^ 168 * col3 x y +
    2 ^ 224 * (col4 x y + 2 ^ 56 * col5 x y + 2 ^ 112 * col6 x y + 2 ^ 168 * col7 x y + 2 ^ 224 * col8 x y) := by
  unfold Modm.val col0 col1 col2 col3 col4 col5 col6 col7 col8
  ring

theorem col_lt {x y : Modm} (hx : x.Lt (2 ^ 56)) (hy : y.Lt (2 ^ 56)) : col0 x y < 2 ^ 112 ∧ col1 x y < 2 * 2 ^ 112 ∧
    col2 x y < 3 * 2 ^ 112 ∧ col3 x y < 4 * 2 ^ 112 ∧ col4 x y < 5 * 2 ^ 112 ∧ col5 x y < 4 * 2 ^ 112 ∧
    col6 x y < 3 * 2 ^ 112 ∧ col7 x y < 2 * 2 ^ 112 := by
  obtain ⟨⟨x0, x1, x2, x3⟩, x4⟩ := hx
  obtain ⟨⟨y0, y1, y2, y3⟩, y4⟩ := hy
  have p : ∀ {a b : Nat}, a < 2 ^ 56 → b < 2 ^ 56 → a * b < 2 ^ 112 := fun ha hb =>
    lt_of_lt_of_eq (Nat.mul_lt_mul'' ha hb) (by norm_num)
  have p00 := p x0 y0
  have p01 := p x0 y1
  have p02 := p x0 y2
  have p03 := p x0 y3
  have p04 := p x0 y4
  have p10 := p x1 y0
  have p11 := p x1 y1
  have p12 := p x1 y2
  have p13 := p x1 y3
  have p14 := p x1 y4
  have p20 := p x2 y0
  have p21 := p x2 y1
  have p22 := p x2 y2
  have p23 := p x2 y3
  have p24 := p x2 y4
  have p30 := p x3 y0
  have p31 := p x3 y1
  have p32 := p x3 y2
  have p33 := p x3 y3
  have p34 := p x3 y4
  have p40 := p x4 y0
  have p41 := p x4 y1
  have p42 := p x4 y2
  have p43 := p x4 y3
  unfold col0 col1 col2 col3 col4 col5 col6 col7
  clear x0 x1 x2 x3 x4 y0 y1 y2 y3 y4
  refine ⟨?_, ?_, ?_, ?_, ?_, ?_, ?_, ?_⟩ <;> linarith

theorem sums (x y : Modm) (f : Nat) :
    (col1 x y + f < 2 ^ 128 → add (add (mul x.l0 y.l1) f) (mul x.l1 y.l0) = col1 x y + f) ∧
    (col2 x y + f < 2 ^ 128 → add (add (add (mul x.l0 y.l2) f) (mul x.l2 y.l0)) (mul x.l1 y.l1) = col2 x y + f) ∧
    (col3 x y + f < 2 ^ 128 →
      add (add (add (add (mul x.l0 y.l3) f) (mul x.l3 y.l0)) (mul x.l1 y.l2)) (mul x.l2 y.l1) = col3 x y + f) ∧
    (col4 x y + f < 2 ^ 128 →
      add (add (add (add (add (mul x.l0 y.l4) f) (mul x.l4 y.l0)) (mul x.l3 y.l1)) (mul x.l1 y.l3)) (mul x.l2 y.l2) =
        col4 x y + f) ∧
    (col5 x y + f < 2 ^ 128 →
      add (add (add (add (mul x.l4 y.l1) f) (mul x.l1 y.l4)) (mul x.l2 y.l3)) (mul x.l3 y.l2) = col5 x y + f) ∧
    (col6 x y + f < 2 ^ 128 → add (add (add (mul x.l4 y.l2) f) (mul x.l2 y.l4)) (mul x.l3 y.l3) = col6 x y + f) ∧
    (col7 x y + f < 2 ^ 128 → add (add (mul x.l4 y.l3) f) (mul x.l3 y.l4) = col7 x y + f) ∧
    (col8 x y + f < 2 ^ 128 → add (mul x.l4 y.l4) f = col8 x y + f) := by
  have s3 : ∀ {a b c : Nat}, a + c + b < 2 ^ 128 → add (add a b) c = a + c + b := by
    intro a b c h
    rw [add_small (x := a) (by omega), add_small (by omega)]; omega
  have s4 : ∀ {a b c d : Nat}, a + c + d + b < 2 ^ 128 → add (add (add a b) c) d = a + c + d + b := by
    intro a b c d h
    rw [s3 (a := a) (by omega), add_small (by omega)]; omega
  have s5 : ∀ {a b c d e : Nat}, a + c + d + e + b < 2 ^ 128 → add (add (add (add a b) c) d) e = a + c + d + e + b := by
    intro a b c d e h
    rw [s4 (a := a) (by omega), add_small (by omega)]; omega
  have s6 : ∀ {a b c d e g : Nat}, a + c + d + e + g + b < 2 ^ 128 →
      add (add (add (add (add a b) c) d) e) g = a + c + d + e + g + b := by
    intro a b c d e g h
    rw [s5 (a := a) (by omega), add_small (by omega)]; omega
  simp only [mul_small]
  exact ⟨s3, s4, s5, s6, s5, s4, s3, add_small⟩

theorem sum_col3 (x y : Modm) (h : col3 x y < 2 ^ 128) :
    add (add (add (mul x.l0 y.l3) (mul x.l3 y.l0)) (mul x.l1 y.l2)) (mul x.l2 y.l1) = col3 x y := by
  unfold col3 at *
  simp only [mul_small]
  rw [add_small (x := x.l0.toNat * y.l3.toNat) (by omega), add_small (y := x.l1.toNat * y.l2.toNat) (by omega),
    add_small h]

theorem mul_col0 (x y : Modm) : mul x.l0 y.l0 = col0 x y := mul_small

theorem barrettQ_ok {q : Modm} (hq : q.Lt (2 ^ 40)) : (barrettQ q).Lt (2 ^ 56) ∧
    (barrettQ q).val = (col3 modmMu q / 2 ^ 56 + col4 modmMu q + 2 ^ 56 * col5 modmMu q + 2 ^ 112 * col6 modmMu q +
      2 ^ 168 * col7 modmMu q + 2 ^ 224 * col8 modmMu q) / 2 ^ 40 := by
  obtain ⟨b0, b1, b2, b3, b4, b5, b6, b7⟩ := col_lt (x := modmMu) (y := q)
    ⟨⟨by decide, by decide, by decide, by decide⟩, by decide⟩ ⟨hq.toDigits, lt_trans hq.h4 (by norm_num)⟩
  have b8 : col8 modmMu q < 2 ^ 76 := by
    have := hq.h4
    have e : modmMu.l4.toNat = 2 ^ 36 - 1 := by decide
    unfold col8
    rw [e]
    omega
  unfold barrettQ
  dsimp only
  rw [sum_col3 _ _ (by omega)]
  have f3 := shr56_toNat (c := col3 modmMu q) (by omega)
  rw [f3, (sums _ _ _).2.2.2.1 (by omega)]
  obtain ⟨c4, h4⟩ : ∃ c, col4 modmMu q + col3 modmMu q / 2 ^ 56 = c := ⟨_, rfl⟩
  rw [h4]
  have f4 := shr56_toNat (c := c4) (by omega)
  rw [f4, (sums _ _ _).2.2.2.2.1 (by omega)]
  obtain ⟨c5, h5⟩ : ∃ c, col5 modmMu q + c4 / 2 ^ 56 = c := ⟨_, rfl⟩
  rw [h5]
  have f5 := shr56_toNat (c := c5) (by omega)
  rw [f5, (sums _ _ _).2.2.2.2.2.1 (by omega)]
  obtain ⟨c6, h6⟩ : ∃ c, col6 modmMu q + c5 / 2 ^ 56 = c := ⟨_, rfl⟩
  rw [h6]
  have f6 := shr56_toNat (c := c6) (by omega)
  rw [f6, (sums _ _ _).2.2.2.2.2.2.1 (by omega)]
  obtain ⟨c7, h7⟩ : ∃ c, col7 modmMu q + c6 / 2 ^ 56 = c := ⟨_, rfl⟩
  rw [h7]
  have f7 := shr56_toNat (c := c7) (by omega)
  rw [f7, (sums _ _ _).2.2.2.2.2.2.2 (by omega)]
  obtain ⟨c8, h8⟩ : ∃ c, col8 modmMu q + c7 / 2 ^ 56 = c := ⟨_, rfl⟩
  rw [h8]
  have f8 := shr56_toNat (c := c8) (by omega)
  have j4 := lo_hi c4
  have j5 := lo_hi c5
  have j6 := lo_hi c6
  have j7 := lo_hi c7
  have j8 := lo_hi c8
  have q0 := join16 (q := (lo c4 >>> 40) &&& 0xffff) (by omega) c5
  have q1 := join16 (q := (lo c5 >>> 40) &&& 0xffff) (by omega) c6
  have q2 := join16 (q := (lo c6 >>> 40) &&& 0xffff) (by omega) c7
  have q3 := join16 (q := (lo c7 >>> 40) &&& 0xffff) (by omega) c8
  have q4 := joinTop (q := (lo c8 >>> 40) &&& 0xffff) (f := shr56 c8) (k := 16) (n := 16) rfl (by omega) (by omega)
    (by omega)
  rw [j4] at q0
  rw [j5] at q1
  rw [j6] at q2
  rw [j7] at q3
  rw [j8, f8] at q4
  clear f3 f4 f5 f6 f7 f8 j4 j5 j6 j7 j8
  refine ⟨⟨⟨?_, ?_, ?_, ?_⟩, ?_⟩, ?_⟩
  · rw [q0]; omega
  · rw [q1]; omega
  · rw [q2]; omega
  · rw [q3]; omega
  · rw [q4]; omega
  · simp only [Modm.val, q0, q1, q2, q3, q4]
    clear q0 q1 q2 q3 q4
    omega

theorem barrettR_ok {q : Modm} (hq : q.Lt (2 ^ 56)) : (barrettR q).Lt (2 ^ 40) ∧
    (barrettR q).val = (col0 modmM q + 2 ^ 56 * col1 modmM q + 2 ^ 112 * col2 modmM q + 2 ^ 168 * col3 modmM q +
      2 ^ 224 * col4 modmM q) % (2 ^ 224 * 2 ^ 40) := by
  obtain ⟨b0, b1, b2, b3, b4, -, -, -⟩ := col_lt (x := modmM) (y := q)
    ⟨⟨by decide, by decide, by decide, by decide⟩, by decide⟩ hq
  unfold barrettR
  dsimp only
  rw [mul_col0]
  have f0 := shr56_toNat (c := col0 modmM q) (by omega)
  rw [f0, (sums _ _ _).1 (by omega)]
  obtain ⟨c1, h1⟩ : ∃ c, col1 modmM q + col0 modmM q / 2 ^ 56 = c := ⟨_, rfl⟩
  rw [h1]
  have f1 := shr56_toNat (c := c1) (by omega)
  rw [f1, (sums _ _ _).2.1 (by omega)]
  obtain ⟨c2, h2⟩ : ∃ c, col2 modmM q + c1 / 2 ^ 56 = c := ⟨_, rfl⟩
  rw [h2]
  have f2 := shr56_toNat (c := c2) (by omega)
  rw [f2, (sums _ _ _).2.2.1 (by omega)]
  obtain ⟨c3, h3⟩ : ∃ c, col3 modmM q + c2 / 2 ^ 56 = c := ⟨_, rfl⟩
  rw [h3]
  have f3 := shr56_toNat (c := c3) (by omega)
  rw [f3, (sums _ _ _).2.2.2.1 (by omega)]
  obtain ⟨c4, h4⟩ : ∃ c, col4 modmM q + c3 / 2 ^ 56 = c := ⟨_, rfl⟩
  rw [h4]
  clear f0 f1 f2 f3
  refine ⟨⟨⟨?_, ?_, ?_, ?_⟩, ?_⟩, ?_⟩
  · rw [and56]; omega
  · rw [and56]; omega
  · rw [and56]; omega
  · rw [and56]; omega
  · rw [and40]; omega
  · simp only [Modm.val, lo56, lo40]
    have e : col0 modmM q + 2 ^ 56 * col1 modmM q + 2 ^ 112 * col2 modmM q + 2 ^ 168 * col3 modmM q +
        2 ^ 224 * col4 modmM q = col0 modmM q % 2 ^ 56 + 2 ^ 56 * (c1 % 2 ^ 56) + 2 ^ 112 * (c2 % 2 ^ 56) +
        2 ^ 168 * (c3 % 2 ^ 56) + 2 ^ 224 * (c4 % 2 ^ 40) + (2 ^ 224 * 2 ^ 40) * (c4 / 2 ^ 40) := by omega
    rw [e, Nat.add_mul_mod_self_left]
    exact (Nat.mod_eq_of_lt (by omega)).symm

theorem Modm.Lt.val_lt {s : Modm} {n : Nat} (h : s.Lt n) : s.val < 2 ^ 224 * n := by
  obtain ⟨⟨h0, h1, h2, h3⟩, h4⟩ := h
  unfold Modm.val
  omega

/-- The quotient that `barrettQ` computes is at most the true one and at most 2.07 less. -/
theorem quotient_ok {x q1 Q c r : Nat} (hx : x < 2 ^ 248 * 2 ^ 264) (hq : q1 = x / 2 ^ 248)
    (hc : 2 ^ 512 / L * q1 = c + 2 ^ 224 * 2 ^ 40 * Q + r) (h0 : c < 2 ^ 226) (h1 : r < 2 ^ 224 * 2 ^ 40) :
    Q * L ≤ x ∧ x < Q * L + 3 * L := by
  rw [L_eq] at *
  set_option exponentiation.threshold 600 in
  norm_num at *
  omega

theorem barrettQ_bounds {q1 : Modm} {x : Nat} (hx : x < 2 ^ 248 * 2 ^ 264) (h1 : q1.Lt (2 ^ 40)) (hq : q1.val = x / 2 ^ 248) :
    (barrettQ q1).val * L ≤ x ∧ x < (barrettQ q1).val * L + 3 * L := by
  obtain ⟨-, a2⟩ := barrettQ_ok h1
  have v1 := val_mul modmMu q1
  rw [modmMu_val] at v1
  obtain ⟨k0, k1, k2, -, -, -, -, -⟩ := col_lt (x := modmMu) (y := q1)
    ⟨⟨by decide, by decide, by decide, by decide⟩, by decide⟩ ⟨h1.toDigits, lt_trans h1.h4 (by norm_num)⟩
  generalize (barrettQ q1).val = Q at *
  generalize q1.val = q at *
  generalize col0 modmMu q1 = c0 at *
  generalize col1 modmMu q1 = c1 at *
  generalize col2 modmMu q1 = c2 at *
  generalize col3 modmMu q1 = c3 at *
  have a3 : Q = (c3 / 2 ^ 56 + (col4 modmMu q1 + 2 ^ 56 * col5 modmMu q1 + 2 ^ 112 * col6 modmMu q1 +
      2 ^ 168 * col7 modmMu q1 + 2 ^ 224 * col8 modmMu q1)) / 2 ^ 40 := by
    rw [a2]; congr 1; ring
  clear a2
  generalize col4 modmMu q1 + 2 ^ 56 * col5 modmMu q1 + 2 ^ 112 * col6 modmMu q1 + 2 ^ 168 * col7 modmMu q1 +
    2 ^ 224 * col8 modmMu q1 = c4 at *
  clear h1
  refine quotient_ok (q1 := q) (c := c0 + 2 ^ 56 * c1 + 2 ^ 112 * c2) (r := 2 ^ 168 * c3 + 2 ^ 224 * c4 - 2 ^ 224 * 2 ^ 40 * Q)
    hx hq ?_ ?_ ?_
  · rw [v1]
    omega
  · omega
  · omega

theorem barrettR_mod {q : Modm} (hq : q.Lt (2 ^ 56)) : (barrettR q).val = q.val * L % (2 ^ 224 * 2 ^ 40) := by
  rw [(barrettR_ok hq).2, Nat.mul_comm q.val L, ← modmM_val, val_mul]
  omega

/-- Two conditional subtractions reduce numbers below three times the modulus. -/
theorem reduce_twice (d : Nat) (hd : d < 3 * L) : (if (if d < L then d else d - L) < L then (if d < L then d else d - L)
      else (if d < L then d else d - L) - L) = d % L := by
  by_cases h : d < L
  · rw [if_pos h, if_pos h, Nat.mod_eq_of_lt h]
  · rw [if_neg h]
    by_cases h' : d - L < L
    · rw [if_pos h', Nat.mod_eq_sub_mod (by omega), Nat.mod_eq_of_lt h']
    · rw [if_neg h', Nat.mod_eq_sub_mod (by omega), Nat.mod_eq_sub_mod (by omega), Nat.mod_eq_of_lt (by omega)]

/-- A difference from remainders. -/
theorem diff_mod {x y t r m b N : Nat} (hy : y ≤ x) (hx : x < y + N) (hr : r = x % N) (hm : m = y % N) (ht : t < N)
    (h : t + m = r + N * b) : t = x - y := by
  have e : t ≡ x - y [MOD N] := by
    have h1 : t + y ≡ x [MOD N] := by
      have h2 : t + y ≡ t + m [MOD N] := Nat.ModEq.add_left t (by rw [hm]; exact (Nat.mod_modEq _ _).symm)
      refine h2.trans ?_
      rw [h, hr]
      have h3 : x % N + N * b ≡ x % N [MOD N] := by
        unfold Nat.ModEq
        rw [Nat.add_mul_mod_self_left]
      exact h3.trans (Nat.mod_modEq _ _)
    have h4 : t + y ≡ x - y + y [MOD N] := by rw [Nat.sub_add_cancel hy]; exact h1
    exact Nat.ModEq.add_right_cancel' y h4
  exact Nat.ModEq.eq_of_lt_of_lt e ht (by omega)

theorem barrettReduce_ok {q1 r1 : Modm} {x : Nat} (hx : x < 2 ^ 248 * 2 ^ 264) (h1 : q1.Lt (2 ^ 40)) (hq : q1.val = x / 2 ^ 248)
    (h2 : r1.Lt (2 ^ 40)) (hr : r1.val = x % (2 ^ 224 * 2 ^ 40)) :
    (barrettReduce q1 r1).Lt (2 ^ 32) ∧ (barrettReduce q1 r1).val = x % L := by
  have hL := L_eq
  have hQ := barrettQ_bounds hx h1 hq
  have hR := barrettR_mod (barrettQ_ok h1).1
  have b1 := (barrettR_ok (barrettQ_ok h1).1).1
  have hy : ∃ k, (barrettQ q1).val * L = k * L := ⟨_, rfl⟩
  unfold barrettReduce
  generalize barrettR (barrettQ q1) = r at *
  generalize (barrettQ q1).val * L = y at *
  obtain ⟨s1, s2, s3⟩ := subModm_ok (top := 40) (n := 40) rfl (by omega) h2 b1
  have hs := s1.val_lt
  rw [show (2 : Nat) ^ (224 + 40) = 2 ^ 224 * 2 ^ 40 from pow_add _ _ _] at s2
  have hv := diff_mod hQ.1 (lt_trans hQ.2 (by rw [hL]; omega)) hr hR hs s2
  generalize (subModm r1 r 40).1 = t at *
  have ht : t.Lt (2 ^ 32) := by
    refine ⟨s1.toDigits, ?_⟩
    have h5 : 2 ^ 224 * t.l4.toNat ≤ t.val := by unfold Modm.val; omega
    have h6 : t.val < 3 * L := by rw [hv]; omega
    rw [hL] at h6
    omega
  obtain ⟨u1, u2⟩ := reduce256_ok ht
  obtain ⟨w1, w2⟩ := reduce256_ok u1
  refine ⟨w1, ?_⟩
  have hd : x - y < 3 * L := by omega
  rw [w2, u2, hv, reduce_twice _ hd]
  obtain ⟨k, rfl⟩ := hy
  rw [← Nat.add_mul_mod_self_right (x - k * L) k L, Nat.sub_add_cancel hQ.1]

/-! ## Expanding, multiplying and adding -/

theorem leNat_append (a b : Bytes) : leNat (a ++ b) = leNat a + 256 ^ a.length * leNat b := by
  induction a with
  | nil => simp [leNat]
  | cons x a ih => simp only [List.cons_append, leNat, ih, List.length_cons, pow_succ]; ring

theorem leNat_zeros (n : Nat) : leNat (List.replicate n 0) = 0 := by
  induction n with
  | zero => rfl
  | succ n ih => rw [List.replicate_succ, leNat, ih]; rfl

theorem expand256_ok (b : Bytes) (h : b.length ≤ 64) : (expand256 b).Lt (2 ^ 32) ∧ (expand256 b).val = leNat b % L := by
  unfold expand256
  dsimp only
  have hw : leNat (b ++ List.replicate (64 - b.length) 0) = leNat b := by
    rw [leNat_append, leNat_zeros, mul_zero, add_zero]
  have hlt : leNat b < 2 ^ 248 * 2 ^ 264 := by
    refine lt_of_lt_of_le (Curve25519.leNat_lt b) ?_
    refine (Nat.pow_le_pow_right (by omega) h).trans ?_
    decide +kernel
  rw [← hw] at hlt ⊢
  generalize b ++ List.replicate (64 - b.length) 0 = c at *
  clear hw h b
  have w0 := word_toNat c 0
  have w1 := word_toNat c 1
  have w2 := word_toNat c 2
  have w3 := word_toNat c 3
  have w4 := word_toNat c 4
  have w5 := word_toNat c 5
  have w6 := word_toNat c 6
  have w7 := word_toNat c 7
  generalize leNat c = x at *
  have e1 := or_shift (word c 0) (word c 1) 56 8 56 8 rfl rfl (by omega) (by omega) (by omega)
  have e2 := or_shift (word c 1) (word c 2) 48 16 48 16 rfl rfl (by omega) (by omega) (by omega)
  have e3 := or_shift (word c 2) (word c 3) 40 24 40 24 rfl rfl (by omega) (by omega) (by omega)
  have e4 := or_shift (word c 3) (word c 4) 32 32 32 32 rfl rfl (by omega) (by omega) (by omega)
  have g0 := or_shift (word c 3) (word c 4) 56 8 56 8 rfl rfl (by omega) (by omega) (by omega)
  have g1 := or_shift (word c 4) (word c 5) 48 16 48 16 rfl rfl (by omega) (by omega) (by omega)
  have g2 := or_shift (word c 5) (word c 6) 40 24 40 24 rfl rfl (by omega) (by omega) (by omega)
  have g3 := or_shift (word c 6) (word c 7) 32 32 32 32 rfl rfl (by omega) (by omega) (by omega)
  have g4 := Curve25519.shrs (word c 7) 24 (by omega) 24 rfl
  have k0 := (word c 0).toNat_lt
  have k1 := (word c 1).toNat_lt
  have k2 := (word c 2).toNat_lt
  have k3 := (word c 3).toNat_lt
  have k4 := (word c 4).toNat_lt
  have k5 := (word c 5).toNat_lt
  have k6 := (word c 6).toNat_lt
  have k7 := (word c 7).toNat_lt
  have hx : x = (word c 0).toNat + 2 ^ 64 * (word c 1).toNat + 2 ^ 128 * (word c 2).toNat + 2 ^ 192 * ((word c 3).toNat +
      2 ^ 64 * (word c 4).toNat + 2 ^ 128 * (word c 5).toNat + 2 ^ 192 * ((word c 6).toNat + 2 ^ 64 * (word c 7).toNat)) := by
    set_option exponentiation.threshold 600 in
    norm_num only at w0 w1 w2 w3 w4 w5 w6 w7 hlt
    omega
  clear w0 w1 w2 w3 w4 w5 w6 w7
  refine barrettReduce_ok hlt ⟨⟨?_, ?_, ?_, ?_⟩, ?_⟩ ?_ ⟨⟨?_, ?_, ?_, ?_⟩, ?_⟩ ?_
  · rw [and56]; omega
  · rw [and56]; omega
  · rw [and56]; omega
  · rw [and56]; omega
  · rw [g4]; omega
  · simp only [Modm.val, and56, g0, g1, g2, g3, g4]
    omega
  · rw [and56]; omega
  · rw [and56]; omega
  · rw [and56]; omega
  · rw [and56]; omega
  · rw [and40]; omega
  · simp only [Modm.val, and56, and40, e1, e2, e3, e4]
    omega

theorem Modm.Lt.of_val {x : Modm} {n : Nat} (hx : x.Lt n) (h : x.val < L) : x.Lt (2 ^ 29) := by
  refine ⟨hx.toDigits, ?_⟩
  have hL := L_eq
  have : 2 ^ 224 * x.l4.toNat ≤ x.val := by unfold Modm.val; omega
  omega

theorem mul256Split_ok {x y : Modm} (hx : x.Lt (2 ^ 29)) (hy : y.Lt (2 ^ 29)) : (mul256Split x y).1.Lt (2 ^ 40) ∧
    (mul256Split x y).1.val = x.val * y.val / 2 ^ 248 ∧ (mul256Split x y).2.Lt (2 ^ 40) ∧
    (mul256Split x y).2.val = x.val * y.val % (2 ^ 224 * 2 ^ 40) := by
  obtain ⟨b0, b1, b2, b3, b4, b5, b6, b7⟩ := col_lt (x := x) (y := y)
    ⟨hx.toDigits, lt_trans hx.h4 (by norm_num)⟩ ⟨hy.toDigits, lt_trans hy.h4 (by norm_num)⟩
  have b8 : col8 x y < 2 ^ 58 := lt_of_lt_of_eq (Nat.mul_lt_mul'' hx.h4 hy.h4) (by norm_num)
  rw [val_mul]
  unfold mul256Split
  dsimp only
  rw [mul_col0, shr56_toNat (c := col0 x y) (by omega), (sums _ _ _).1 (by omega)]
  obtain ⟨c1, h1⟩ : ∃ c, col1 x y + col0 x y / 2 ^ 56 = c := ⟨_, rfl⟩
  rw [h1, shr56_toNat (c := c1) (by omega), (sums _ _ _).2.1 (by omega)]
  obtain ⟨c2, h2⟩ : ∃ c, col2 x y + c1 / 2 ^ 56 = c := ⟨_, rfl⟩
  rw [h2, shr56_toNat (c := c2) (by omega), (sums _ _ _).2.2.1 (by omega)]
  obtain ⟨c3, h3⟩ : ∃ c, col3 x y + c2 / 2 ^ 56 = c := ⟨_, rfl⟩
  rw [h3, shr56_toNat (c := c3) (by omega), (sums _ _ _).2.2.2.1 (by omega)]
  obtain ⟨c4, h4⟩ : ∃ c, col4 x y + c3 / 2 ^ 56 = c := ⟨_, rfl⟩
  rw [h4, shr56_toNat (c := c4) (by omega), (sums _ _ _).2.2.2.2.1 (by omega)]
  obtain ⟨c5, h5⟩ : ∃ c, col5 x y + c4 / 2 ^ 56 = c := ⟨_, rfl⟩
  rw [h5, shr56_toNat (c := c5) (by omega), (sums _ _ _).2.2.2.2.2.1 (by omega)]
  obtain ⟨c6, h6⟩ : ∃ c, col6 x y + c5 / 2 ^ 56 = c := ⟨_, rfl⟩
  rw [h6, shr56_toNat (c := c6) (by omega), (sums _ _ _).2.2.2.2.2.2.1 (by omega)]
  obtain ⟨c7, h7⟩ : ∃ c, col7 x y + c6 / 2 ^ 56 = c := ⟨_, rfl⟩
  rw [h7, shr56_toNat (c := c7) (by omega), (sums _ _ _).2.2.2.2.2.2.2 (by omega)]
  obtain ⟨c8, h8⟩ : ∃ c, col8 x y + c7 / 2 ^ 56 = c := ⟨_, rfl⟩
  rw [h8]
  have f8 := shr56_toNat (c := c8) (by omega)
  have j4 := lo_hi24 c4
  have j5 := lo_hi24 c5
  have j6 := lo_hi24 c6
  have j7 := lo_hi24 c7
  have j8 := lo_hi24 c8
  have q0 := join32 (q := (lo c4 >>> 24) &&& 0xffffffff) (by omega) c5
  have q1 := join32 (q := (lo c5 >>> 24) &&& 0xffffffff) (by omega) c6
  have q2 := join32 (q := (lo c6 >>> 24) &&& 0xffffffff) (by omega) c7
  have q3 := join32 (q := (lo c7 >>> 24) &&& 0xffffffff) (by omega) c8
  have q4 := joinTop (q := (lo c8 >>> 24) &&& 0xffffffff) (f := shr56 c8) (k := 32) (n := 32) rfl (by omega) (by omega)
    (by omega)
  rw [j4] at q0
  rw [j5] at q1
  rw [j6] at q2
  rw [j7] at q3
  rw [j8, f8] at q4
  clear f8 j4 j5 j6 j7 j8
  refine ⟨⟨⟨?_, ?_, ?_, ?_⟩, ?_⟩, ?_, ⟨⟨?_, ?_, ?_, ?_⟩, ?_⟩, ?_⟩
  · rw [q0]; omega
  · rw [q1]; omega
  · rw [q2]; omega
  · rw [q3]; omega
  · rw [q4]; omega
  · simp only [Modm.val, q0, q1, q2, q3, q4]
    clear q0 q1 q2 q3 q4
    have e : col0 x y + 2 ^ 56 * col1 x y + 2 ^ 112 * col2 x y + 2 ^ 168 * col3 x y = col0 x y % 2 ^ 56 +
      2 ^ 56 * (c1 % 2 ^ 56) + 2 ^ 112 * (c2 % 2 ^ 56) + 2 ^ 168 * (c3 % 2 ^ 56) + 2 ^ 224 * (c3 / 2 ^ 56) := by omega
    rw [e]
    omega
  · rw [lo56]; omega
  · rw [lo56]; omega
  · rw [lo56]; omega
  · rw [lo56]; omega
  · rw [lo40]; omega
  · simp only [Modm.val, lo56, lo40]
    clear q0 q1 q2 q3 q4
    have e : col0 x y + 2 ^ 56 * col1 x y + 2 ^ 112 * col2 x y + 2 ^ 168 * col3 x y + 2 ^ 224 * (col4 x y + 2 ^ 56 * col5 x y +
        2 ^ 112 * col6 x y + 2 ^ 168 * col7 x y + 2 ^ 224 * col8 x y) = col0 x y % 2 ^ 56 +
        2 ^ 56 * (c1 % 2 ^ 56) + 2 ^ 112 * (c2 % 2 ^ 56) + 2 ^ 168 * (c3 % 2 ^ 56) + 2 ^ 224 * (c4 % 2 ^ 40) +
        (2 ^ 224 * 2 ^ 40) * (c4 / 2 ^ 40 + 2 ^ 16 * (col5 x y + 2 ^ 56 * col6 x y + 2 ^ 112 * col7 x y + 2 ^ 168 * col8 x y))
        := by omega
    rw [e, Nat.add_mul_mod_self_left]
    exact (Nat.mod_eq_of_lt (by omega)).symm

theorem mul256_ok {x y : Modm} (hx : x.Lt (2 ^ 32)) (hy : y.Lt (2 ^ 32)) (hx' : x.val < L) (hy' : y.val < L) : (mul256 x y).Lt (2 ^ 32) ∧
    (mul256 x y).val = x.val * y.val % L := by
  obtain ⟨h1, h2, h3, h4⟩ := mul256Split_ok (hx.of_val hx') (hy.of_val hy')
  have hlt : x.val * y.val < 2 ^ 248 * 2 ^ 264 :=
    lt_of_lt_of_eq (Nat.mul_lt_mul'' hx.val_lt hy.val_lt) (by decide +kernel)
  exact barrettReduce_ok hlt h1 h2 h3 h4

theorem add256_ok {x y : Modm} (hx : x.Lt (2 ^ 32)) (hy : y.Lt (2 ^ 32)) (hx' : x.val < L) (hy' : y.val < L) :
    (add256 x y).Lt (2 ^ 32) ∧ (add256 x y).val = (x.val + y.val) % L := by
  obtain ⟨⟨x0, x1, x2, x3⟩, x4⟩ := hx
  obtain ⟨⟨y0, y1, y2, y3⟩, y4⟩ := hy
  have s : ∀ {a b : UInt64}, a.toNat < 2 ^ 60 → b.toNat < 2 ^ 60 → (a + b).toNat = a.toNat + b.toNat := by
    intro a b ha hb
    rw [UInt64.toNat_add]; omega
  have sh : ∀ a : UInt64, (a >>> 56).toNat = a.toNat / 2 ^ 56 := fun a => Curve25519.shrs a 56 (by omega) 56 rfl
  unfold add256
  dsimp only
  have e0 := s (a := x.l0) (b := y.l0) (by omega) (by omega)
  generalize x.l0 + y.l0 = u0 at *
  have e1 := s (a := x.l1) (b := y.l1) (by omega) (by omega)
  have e1' := s (a := u0 >>> 56) (b := x.l1 + y.l1) (by rw [sh]; omega) (by omega)
  rw [sh] at e1'
  generalize u0 >>> 56 + (x.l1 + y.l1) = u1 at *
  have e2 := s (a := x.l2) (b := y.l2) (by omega) (by omega)
  have e2' := s (a := u1 >>> 56) (b := x.l2 + y.l2) (by rw [sh]; omega) (by omega)
  rw [sh] at e2'
  generalize u1 >>> 56 + (x.l2 + y.l2) = u2 at *
  have e3 := s (a := x.l3) (b := y.l3) (by omega) (by omega)
  have e3' := s (a := u2 >>> 56) (b := x.l3 + y.l3) (by rw [sh]; omega) (by omega)
  rw [sh] at e3'
  generalize u2 >>> 56 + (x.l3 + y.l3) = u3 at *
  have e4 := s (a := x.l4) (b := y.l4) (by omega) (by omega)
  have e4' := s (a := u3 >>> 56) (b := x.l4 + y.l4) (by rw [sh]; omega) (by omega)
  rw [sh] at e4'
  generalize u3 >>> 56 + (x.l4 + y.l4) = u4 at *
  have hv : Modm.val ⟨u0 &&& 0xffffffffffffff, u1 &&& 0xffffffffffffff, u2 &&& 0xffffffffffffff, u3 &&& 0xffffffffffffff,
      u4⟩ = x.val + y.val := by
    simp only [Modm.val, and56]
    omega
  have hL := L_eq
  have hlt : Modm.Lt ⟨u0 &&& 0xffffffffffffff, u1 &&& 0xffffffffffffff, u2 &&& 0xffffffffffffff, u3 &&& 0xffffffffffffff,
      u4⟩ (2 ^ 32) := by
    refine ⟨⟨by simp only [and56]; omega, by simp only [and56]; omega, by simp only [and56]; omega,
      by simp only [and56]; omega⟩, ?_⟩
    have : 2 ^ 224 * u4.toNat ≤ x.val + y.val := by rw [← hv]; unfold Modm.val; dsimp only; omega
    show u4.toNat < 2 ^ 32
    omega
  obtain ⟨r1, r2⟩ := reduce256_ok hlt
  refine ⟨r1, ?_⟩
  rw [r2, hv]
  by_cases h : x.val + y.val < L
  · rw [if_pos h, Nat.mod_eq_of_lt h]
  · rw [if_neg h, Nat.mod_eq_sub_mod (by omega), Nat.mod_eq_of_lt (by omega)]

theorem contract256_ok {x : Modm} (hx : x.Lt (2 ^ 32)) : contract256 x = leBytes 32 x.val := by
  obtain ⟨⟨x0, x1, x2, x3⟩, x4⟩ := hx
  have e0 : (x.l0 ||| (x.l1 <<< 56)).toNat = x.l0.toNat + 2 ^ 56 * (x.l1.toNat % 2 ^ 8) := by
    rw [UInt64.toNat_or, shls _ 56 (by omega) 56 rfl, Poly1305.or_eq_add 56 x0 (by omega)]
    omega
  have key : ∀ (a b k m : UInt64) (n j : Nat), k.toNat = n → m.toNat = j → n + j = 56 → a.toNat < 2 ^ 56 →
      ((a >>> k) ||| (b <<< m)).toNat = a.toNat / 2 ^ n + 2 ^ j * b.toNat % 2 ^ 64 := by
    intro a b k m n j hk hm hn ha
    rw [UInt64.toNat_or, Curve25519.shrs _ n (by omega) _ hk, shls _ j (by omega) _ hm, Poly1305.or_eq_add j]
    · rw [Nat.mul_comm]
    · rw [Nat.div_lt_iff_lt_mul (by simp), ← pow_add, Nat.add_comm, hn]; exact ha
    · have : 2 ^ 64 = 2 ^ j * 2 ^ (64 - j) := by rw [← pow_add]; congr 1; omega
      rw [this, Nat.mul_comm, Nat.mul_mod_mul_left]; exact Nat.mul_mod_right _ _
  have e1 := key x.l1 x.l2 8 48 8 48 rfl rfl (by omega) x1
  have e2 := key x.l2 x.l3 16 40 16 40 rfl rfl (by omega) x2
  have e3 := key x.l3 x.l4 24 32 24 32 rfl rfl (by omega) x3
  unfold contract256
  rw [Curve25519.storeLimb_eq, Curve25519.storeLimb_eq, Curve25519.storeLimb_eq, Curve25519.storeLimb_eq, e0, e1, e2, e3]
  rw [show 32 = 8 + 8 + 8 + 8 from rfl, Noise.leBytes_append, Noise.leBytes_append, Noise.leBytes_append]
  have e8 : ∀ a c, a % 2 ^ 64 = c % 2 ^ 64 → leBytes 8 a = leBytes 8 c := by
    intro a c h
    rw [← Noise.leBytes_mod 8 a, ← Noise.leBytes_mod 8 c, show 256 ^ 8 = 2 ^ 64 from rfl, h]
  congr 1
  · congr 1
    · congr 1
      · apply e8; unfold Modm.val; omega
      · apply e8; unfold Modm.val; omega
    · apply e8; unfold Modm.val; omega
  · apply e8; unfold Modm.val; omega

end Noise.Ed25519
