import Verif.Ed25519Double
/-!
# Ed25519: decoding of points
-/

namespace Noise.Ed25519

open Rfc7539 (leNat leBytes)
open Rfc7748 (P F)
open Curve25519 (L Fe M)
open Curve25519.Fe (ev)

/-! ## Square roots -/

theorem sqrtneg1_ok : sqrtneg1.Le R ∧ sqrtneg1.ev = I :=
  ⟨⟨by decide, by decide, by decide, by decide, by decide⟩, by decide +kernel⟩

theorem I_sq : I ^ 2 = -1 := params.minus

theorem two_pow_I : (2 : F) ^ ((P - 1) / 4) = I := by
  have := pow_eq_nat 2 19681161376707505956807079304988542015446066515923890162744021073123829784752
    (e := (P - 1) / 4) (by decide +kernel) (by decide +kernel)
  rw [Nat.cast_ofNat] at this
  rw [this]
  decide +kernel

theorem squareRoot_sound {u v x : F} (h : Rfc8032.squareRoot u v = some x) : v * x ^ 2 = u := by
  unfold Rfc8032.squareRoot at h
  dsimp only at h
  generalize u * v ^ 3 * (u * v ^ 7) ^ ((P - 5) / 8) = w at h
  by_cases h1 : v * w ^ 2 = u
  · rw [if_pos h1] at h
    obtain rfl := Option.some.inj h
    exact h1
  · rw [if_neg h1] at h
    by_cases h2 : v * w ^ 2 = -u
    · rw [if_pos h2, two_pow_I] at h
      obtain rfl := Option.some.inj h
      linear_combination (v * w ^ 2) * I_sq - h2
    · rw [if_neg h2] at h
      cases h

theorem squareRoot_complete {u v x : F} (h : v * x ^ 2 = u) : ∃ x', Rfc8032.squareRoot u v = some x' := by
  have key : ∀ q : Nat, (x * v ^ 4) ^ (4 * q + 2) = 1 ∨ (x * v ^ 4) ^ (4 * q + 2) = -1 ∨ u = 0 →
      v * (u * v ^ 3 * (u * v ^ 7) ^ q) ^ 2 = u ∨ v * (u * v ^ 3 * (u * v ^ 7) ^ q) ^ 2 = -u := by
    intro q hq
    have e : v * (u * v ^ 3 * (u * v ^ 7) ^ q) ^ 2 = u * (x * v ^ 4) ^ (4 * q + 2) := by
      have h1 : u * v ^ 7 = (x * v ^ 4) ^ 2 := by rw [← h]; ring
      have h2 : v * (u * v ^ 3 * (u * v ^ 7) ^ q) ^ 2 = u * (u * v ^ 7) * ((u * v ^ 7) ^ q) ^ 2 := by ring
      rw [h2, h1, ← pow_mul, ← pow_mul, show 4 * q + 2 = 2 + 2 * q * 2 by ring, pow_add]
      ring
    rw [e]
    rcases hq with h | h | h
    · left; rw [h, mul_one]
    · right; rw [h, mul_neg, mul_one]
    · left; rw [h, zero_mul]
  have hq : (x * v ^ 4) ^ (4 * ((P - 5) / 8) + 2) = 1 ∨ (x * v ^ 4) ^ (4 * ((P - 5) / 8) + 2) = -1 ∨ u = 0 := by
    by_cases h0 : x * v ^ 4 = 0
    · right; right
      rcases mul_eq_zero.1 h0 with h1 | h1
      · rw [← h, h1]; ring
      · rw [← h, (pow_eq_zero_iff (by norm_num)).1 h1]; ring
    · have h2 : ((x * v ^ 4) ^ (4 * ((P - 5) / 8) + 2)) ^ 2 = 1 := by
        rw [← pow_mul, show (4 * ((P - 5) / 8) + 2) * 2 = P - 1 by decide +kernel]
        exact ZMod.pow_card_sub_one_eq_one h0
      rcases sq_eq_sq_iff_eq_or_eq_neg.1 (h2.trans (one_pow 2).symm) with h3 | h3
      · exact Or.inl h3
      · exact Or.inr (Or.inl h3)
  unfold Rfc8032.squareRoot
  dsimp only
  rcases key _ hq with h1 | h1
  · rw [if_pos h1]; exact ⟨_, rfl⟩
  · by_cases h2 : v * (u * v ^ 3 * (u * v ^ 7) ^ ((P - 5) / 8)) ^ 2 = u
    · rw [if_pos h2]; exact ⟨_, rfl⟩
    · rw [if_neg h2, if_pos h1]; exact ⟨_, rfl⟩

theorem den_ne (y : F) : D * y ^ 2 + 1 ≠ 0 := by
  intro e
  have hy : y ≠ 0 := by
    rintro rfl
    simp at e
  apply D_nonsq (I * y⁻¹)
  have h1 : y * y⁻¹ = 1 := mul_inv_cancel₀ hy
  have h2 := I_sq
  have : D * (y * y⁻¹) ^ 2 = -(y⁻¹) ^ 2 := by linear_combination (y⁻¹) ^ 2 * e
  rw [h1] at this
  linear_combination (y⁻¹) ^ 2 * h2 - this

theorem on_iff (x y : F) : Edwards.On D x y ↔ (D * y ^ 2 + 1) * x ^ 2 = y ^ 2 - 1 := by
  unfold Edwards.On
  constructor
  · intro h; linear_combination -h
  · intro h; linear_combination -h

theorem onCurve_iff (p : F × F) : Rfc8032.OnCurve p ↔ Edwards.On D p.1 p.2 := by
  unfold Rfc8032.OnCurve Edwards.On
  rw [d_eq]

/-! ## Decoding -/

/-- What the code accepts as the encoding of a point: as in RFC 8032, section 5.1.3, but neither is a `y` of at least `P`
refused nor the sign bit 1 with `x = 0`. -/
def recoverLoose (y x0 : Nat) : Option (F × F) :=
  (Rfc8032.squareRoot ((y : F) ^ 2 - 1) (Rfc8032.d * (y : F) ^ 2 + 1)).map fun x =>
    (if x.val % 2 = x0 then x else -x, (y : F))

/-- The same for the bytes. -/
def decodeLoose (b : Bytes) : Option (F × F) := recoverLoose (leNat b % 2 ^ 255) (leNat b / 2 ^ 255 % 2)

theorem recoverLoose_iff (yn x0 : Nat) (p : F × F) : recoverLoose yn x0 = some p ↔ ∃ x,
    Rfc8032.squareRoot ((yn : F) ^ 2 - 1) (D * (yn : F) ^ 2 + 1) = some x ∧
    p = (if x.val % 2 = x0 then x else -x, (yn : F)) := by
  unfold recoverLoose
  rw [d_eq]
  generalize Rfc8032.squareRoot ((yn : F) ^ 2 - 1) (D * (yn : F) ^ 2 + 1) = o
  cases o with
  | none =>
    constructor
    · intro h; cases h
    · rintro ⟨x, h, -⟩; cases h
  | some x =>
    constructor
    · intro h
      exact ⟨x, rfl, (Option.some.inj h).symm⟩
    · rintro ⟨x', h, rfl⟩
      obtain rfl := Option.some.inj h
      rfl

theorem recover_iff (yn x0 : Nat) (p : F × F) : Rfc8032.recover yn x0 = some p ↔ ∃ x,
    Rfc8032.squareRoot ((yn : F) ^ 2 - 1) (D * (yn : F) ^ 2 + 1) = some x ∧
    p = (if x.val % 2 = x0 then x else -x, (yn : F)) ∧ yn < P ∧ (x = 0 → x0 ≠ 1) := by
  unfold Rfc8032.recover
  rw [d_eq]
  generalize Rfc8032.squareRoot ((yn : F) ^ 2 - 1) (D * (yn : F) ^ 2 + 1) = o
  by_cases hy : yn ≥ P
  · rw [if_pos hy]
    constructor
    · intro h; cases h
    · rintro ⟨x, -, -, h, -⟩
      exact absurd h (Nat.not_lt.2 hy)
  rw [if_neg hy]
  cases o with
  | none =>
    constructor
    · intro h; cases h
    · rintro ⟨x, h, -⟩; cases h
  | some x =>
    rw [Option.bind_some]
    by_cases c0 : x = 0 ∧ x0 = 1
    · rw [if_pos c0]
      constructor
      · intro h; cases h
      · rintro ⟨x', h, -, -, h'⟩
        obtain rfl := Option.some.inj h
        exact absurd c0.2 (h' c0.1)
    · rw [if_neg c0]
      by_cases c : x.val % 2 = x0
      · rw [if_pos c]
        constructor
        · intro h
          refine ⟨x, rfl, ?_, Nat.lt_of_not_le hy, fun e e' => c0 ⟨e, e'⟩⟩
          rw [if_pos c]
          exact (Option.some.inj h).symm
        · rintro ⟨x', h, rfl, -⟩
          obtain rfl := Option.some.inj h
          rw [if_pos c]
      · rw [if_neg c]
        constructor
        · intro h
          refine ⟨x, rfl, ?_, Nat.lt_of_not_le hy, fun e e' => c0 ⟨e, e'⟩⟩
          rw [if_neg c]
          exact (Option.some.inj h).symm
        · rintro ⟨x', h, rfl, -⟩
          obtain rfl := Option.some.inj h
          rw [if_neg c]

theorem decodeLoose_on {b : Bytes} {p : F × F} (h : decodeLoose b = some p) : Edwards.On D p.1 p.2 := by
  unfold decodeLoose at h
  generalize leNat b / 2 ^ 255 % 2 = x0 at h
  obtain ⟨x, hs, rfl⟩ := (recoverLoose_iff _ _ p).1 h
  have := squareRoot_sound hs
  rw [on_iff]
  dsimp only
  by_cases c : x.val % 2 = x0
  · rw [if_pos c]; exact this
  · rw [if_neg c, neg_sq]; exact this

theorem decode_loose {b : Bytes} {p : F × F} (h : Rfc8032.decode b = some p) : decodeLoose b = some p := by
  obtain ⟨x, h3, h4, -⟩ := (recover_iff _ _ p).1 h
  exact (recoverLoose_iff _ _ p).2 ⟨x, h3, h4⟩

theorem neg_val_parity {x : F} (hx : x ≠ 0) : (-x).val % 2 ≠ x.val % 2 := by
  rw [ZMod.neg_val, if_neg hx]
  have := ZMod.val_lt x
  have hP : P % 2 = 1 := by decide +kernel
  have h0 : x.val ≠ 0 := by rwa [Ne, ZMod.val_eq_zero]
  omega

theorem encode_of_decode {b : Bytes} {p : F × F} (hb : b.length = 32) (h : Rfc8032.decode b = some p) :
    Rfc8032.encode p = b := by
  unfold Rfc8032.decode at h
  obtain ⟨yn, h1⟩ : ∃ yn, leNat b % 2 ^ 255 = yn := ⟨_, rfl⟩
  obtain ⟨x0, h2⟩ : ∃ x0, leNat b / 2 ^ 255 % 2 = x0 := ⟨_, rfl⟩
  rw [h1, h2] at h
  obtain ⟨x, -, rfl, hy, h3⟩ := (recover_iff _ _ p).1 h
  have hx2 : x0 < 2 := by rw [← h2]; exact Nat.mod_lt _ (by decide)
  have hp : (if x.val % 2 = x0 then x else -x).val % 2 = x0 := by
    by_cases c : x.val % 2 = x0
    · rw [if_pos c]; exact c
    · rw [if_neg c]
      have hx : x ≠ 0 := by
        rintro rfl
        have := h3 rfl
        rw [ZMod.val_zero] at c
        omega
      have := neg_val_parity hx
      omega
  unfold Rfc8032.encode
  dsimp only
  rw [hp, ZMod.val_natCast, Nat.mod_eq_of_lt hy]
  have hl := Curve25519.leNat_lt b
  have e := leBytes_leNat b
  rw [hb] at hl e
  rw [← e]
  congr 1
  omega

theorem leNat_encode (p : F × F) : leNat (Rfc8032.encode p) = p.2.val + 2 ^ 255 * (p.1.val % 2) := by
  unfold Rfc8032.encode
  have := ZMod.val_lt p.2
  have hP : P < 2 ^ 255 := by decide +kernel
  rw [leNat_leBytes]
  exact Nat.mod_eq_of_lt (by omega)

theorem decode_encode {p : F × F} (h : Edwards.On D p.1 p.2) : Rfc8032.decode (Rfc8032.encode p) = some p := by
  have hy := ZMod.val_lt p.2
  have hP : P < 2 ^ 255 := by decide +kernel
  rw [on_iff] at h
  obtain ⟨x, hx⟩ := squareRoot_complete h
  have hs := squareRoot_sound hx
  have hpm : x = p.1 ∨ x = -p.1 := by
    apply sq_eq_sq_iff_eq_or_eq_neg.1
    exact mul_left_cancel₀ (den_ne p.2) (hs.trans h.symm)
  have hx0 : x = 0 → p.1 = 0 := by
    intro e
    rcases hpm with h | h
    · rw [← h, e]
    · rw [e] at h; simpa using h.symm
  unfold Rfc8032.decode
  rw [leNat_encode, show (p.2.val + 2 ^ 255 * (p.1.val % 2)) % 2 ^ 255 = p.2.val by omega,
    show (p.2.val + 2 ^ 255 * (p.1.val % 2)) / 2 ^ 255 % 2 = p.1.val % 2 by omega]
  refine (recover_iff _ _ _).2 ⟨x, ?_, ?_, hy, ?_⟩
  · rw [ZMod.natCast_zmod_val]; exact hx
  · rw [ZMod.natCast_zmod_val]
    have key : (if x.val % 2 = p.1.val % 2 then x else -x) = p.1 := by
      by_cases c : x.val % 2 = p.1.val % 2
      · rw [if_pos c]
        rcases hpm with h | h
        · exact h
        · by_cases h0 : p.1 = 0
          · rw [h, h0, neg_zero]
          · rw [h] at c
            exact absurd c (neg_val_parity h0)
      · rw [if_neg c]
        rcases hpm with h | h
        · rw [h] at c
          exact absurd rfl c
        · rw [h, neg_neg]
    rw [key]
  · intro e
    rw [hx0 e, ZMod.val_zero]
    decide

end Noise.Ed25519
