import Verif.NewHopeNtt
/-!
# New Hope: products of polynomials modulo `X^1024 + 1`
-/

namespace Noise.NewHope

open Finset (sum_congr)

/-- Coefficient `j` of the product of two polynomials modulo `X^n + 1`. -/
def nega {R : Type} [CommRing R] (n : Nat) (x y : Nat → R) (j : Nat) : R :=
  ∑ i ∈ Finset.range n, if i ≤ j then x i * y (j - i) else -(x i * y (n + j - i))

theorem nega_map {R S : Type} [CommRing R] [CommRing S] (φ : R →+* S) (n : Nat) (x y : Nat → R) (j : Nat) :
    φ (nega n x y j) = nega n (fun i => φ (x i)) (fun i => φ (y i)) j := by
  unfold nega
  rw [map_sum]
  refine sum_congr rfl fun i _ => ?_
  split
  · rw [map_mul]
  · rw [map_neg, map_mul]

/-- At a root of `X^n + 1`, the value of the product is the product of the values. -/
theorem nega_value {R : Type} [CommRing R] {n : Nat} {z : R} (hz : z ^ n = -1) (x y : Nat → R) :
    ∑ j ∈ Finset.range n, nega n x y j * z ^ j =
      (∑ i ∈ Finset.range n, x i * z ^ i) * ∑ m ∈ Finset.range n, y m * z ^ m := by
  unfold nega
  rw [Finset.sum_congr rfl fun j _ => Finset.sum_mul _ _ _, Finset.sum_comm, Finset.sum_mul]
  refine sum_congr rfl fun i hi => ?_
  have hi := Finset.mem_range.1 hi
  rw [Finset.mul_sum]
  refine Finset.sum_nbij' (fun j => if i ≤ j then j - i else n + j - i) (fun m => if i + m < n then i + m else i + m - n)
    ?_ ?_ ?_ ?_ ?_
  · intro j hj
    have hj := Finset.mem_range.1 hj
    refine Finset.mem_range.2 ?_
    split <;> omega
  · intro m hm
    have hm := Finset.mem_range.1 hm
    refine Finset.mem_range.2 ?_
    split <;> omega
  · intro j hj
    have hj := Finset.mem_range.1 hj
    by_cases c : i ≤ j
    · rw [if_pos c, if_pos (by omega)]; omega
    · rw [if_neg c, if_neg (by omega)]; omega
  · intro m hm
    have hm := Finset.mem_range.1 hm
    by_cases c : i + m < n
    · rw [if_pos c, if_pos (by omega)]; omega
    · rw [if_neg c, if_neg (by omega)]; omega
  · intro j hj
    have hj := Finset.mem_range.1 hj
    by_cases c : i ≤ j
    · rw [if_pos c, if_pos c]
      conv_lhs => rw [show j = i + (j - i) by omega, pow_add]
      rw [show i + (j - i) - i = j - i by omega]
      ring
    · rw [if_neg c, if_neg c]
      have : z ^ i * z ^ (n + j - i) = -z ^ j := by
        rw [← pow_add, show i + (n + j - i) = n + j by omega, pow_add, hz, neg_one_mul]
      calc -(x i * y (n + j - i)) * z ^ j = x i * y (n + j - i) * -z ^ j := by ring
        _ = x i * z ^ i * (y (n + j - i) * z ^ (n + j - i)) := by rw [← this]; ring

theorem ev_nega (x y : Nat → Z) (s : Nat) : ev (nega 1024 x y) s = ev x s * ev y s := by
  unfold ev
  refine nega_value ?_ x y
  rw [← pow_mul, mul_comm, pow_mul, psi_pow, pow_add, pow_mul, neg_one_sq, one_pow, one_mul, pow_one]

theorem ev_add (x y : Nat → Z) (s : Nat) : ev (fun i => x i + y i) s = ev x s + ev y s := by
  unfold ev
  rw [← Finset.sum_add_distrib]
  exact sum_congr rfl fun i _ => add_mul _ _ _

theorem ev_sub (x y : Nat → Z) (s : Nat) : ev (fun i => x i - y i) s = ev x s - ev y s := by
  unfold ev
  rw [← Finset.sum_sub_distrib]
  exact sum_congr rfl fun i _ => sub_mul _ _ _

/-! ## The inverse transform -/

/-- What `poly_invntt` computes. -/
def inv (p : Nat → Z) (j : Nat) : Z := 12277 * 8778 ^ j * ∑ k ∈ Finset.range 1024, p k * 1254 ^ (j * k)

theorem inv_sub (p q : Nat → Z) (j : Nat) : inv (fun i => p i - q i) j = inv p j - inv q j := by
  unfold inv
  rw [← mul_sub, ← Finset.sum_sub_distrib]
  exact congrArg _ (sum_congr rfl fun i _ => sub_mul _ _ _)

theorem inv_congr {p q : Nat → Z} (h : ∀ i < 1024, p i = q i) (j : Nat) : inv p j = inv q j := by
  unfold inv
  exact congrArg _ (sum_congr rfl fun i hi => by rw [h i (Finset.mem_range.1 hi)])

theorem order_nat : ∀ d < 1024, 0 < d → 49 ^ d % 12289 ≠ 1 := by decide +kernel

theorem order {d : Nat} (h : d < 1024) (h0 : 0 < d) : (49 : Z) ^ d ≠ 1 := by
  intro e
  have : ((49 ^ d : Nat) : Z) = ((1 : Nat) : Z) := by push_cast; exact e
  rw [ZMod.natCast_eq_natCast_iff'] at this
  exact order_nat d h h0 this

theorem w_winv : (49 : Z) * 1254 = 1 := by decide
theorem psi_psiinv : (7 : Z) * 8778 = 1 := by decide

theorem ratio_ne {k j : Nat} (hk : k < 1024) (hj : j < 1024) (h : k ≠ j) : (49 : Z) ^ k * 1254 ^ j ≠ 1 := by
  intro e
  have e1 : (49 : Z) ^ k = 49 ^ j := by
    calc (49 : Z) ^ k = 49 ^ k * (1254 ^ j * 49 ^ j) := by rw [← mul_pow, mul_comm 1254, w_winv, one_pow, mul_one]
      _ = 49 ^ j := by rw [← mul_assoc, e, one_mul]
  have hn : ∀ i, (49 : Z) ^ i ≠ 0 := fun i => pow_ne_zero _ (by decide)
  rcases Nat.lt_or_gt_of_ne h with h | h
  · refine order (d := j - k) (by omega) (by omega) (mul_left_cancel₀ (hn k) ?_)
    rw [← pow_add, Nat.add_sub_cancel' h.le, e1, mul_one]
  · refine order (d := k - j) (by omega) (by omega) (mul_left_cancel₀ (hn j) ?_)
    rw [← pow_add, Nat.add_sub_cancel' h.le, e1, mul_one]

theorem geom {r : Z} {n : Nat} (h : r ^ n = 1) (h1 : r ≠ 1) : ∑ s ∈ Finset.range n, r ^ s = 0 := by
  have := geom_sum_mul r n
  rw [h, sub_self] at this
  rcases mul_eq_zero.1 this with h | h
  · exact h
  · exact absurd (sub_eq_zero.1 h) h1

/-- The inverse transform of the values gives the coefficients back. -/
theorem inv_ev (x : Nat → Z) {j : Nat} (hj : j < 1024) : inv (ev x) j = x j := by
  unfold inv ev
  have e : ∀ s, (∑ k ∈ Finset.range 1024, x k * ((7 : Z) ^ (2 * s + 1)) ^ k) * 1254 ^ (j * s) =
      ∑ k ∈ Finset.range 1024, x k * 7 ^ k * (49 ^ k * 1254 ^ j) ^ s := by
    intro s
    rw [Finset.sum_mul]
    refine sum_congr rfl fun k _ => ?_
    rw [mul_pow, show (49 : Z) = 7 ^ 2 by norm_num, ← pow_mul, ← pow_mul, ← pow_mul, ← pow_mul,
      show (2 * s + 1) * k = k + 2 * k * s by ring, pow_add]
    ring
  rw [sum_congr rfl fun s _ => e s, Finset.sum_comm, Finset.mul_sum]
  rw [Finset.sum_eq_single j]
  · rw [← Finset.mul_sum, ← mul_pow, w_winv, one_pow, sum_congr rfl fun s _ => one_pow s, Finset.sum_const,
      Finset.card_range, nsmul_one]
    calc (12277 : Z) * 8778 ^ j * (x j * 7 ^ j * ((1024 : Nat) : Z)) =
        (12277 * 1024) * (7 * 8778) ^ j * x j := by rw [mul_pow]; push_cast; ring
      _ = x j := by rw [psi_psiinv, one_pow, show (12277 * 1024 : Z) = 1 by decide, one_mul, one_mul]
  · intro k hk hkj
    rw [← Finset.mul_sum, geom ?_ (ratio_ne (Finset.mem_range.1 hk) hj hkj), mul_zero, mul_zero]
    rw [mul_pow, ← pow_mul, ← pow_mul, mul_comm k, mul_comm j, pow_mul, pow_mul, pow_mod w_pow 1024, pow_mod winv_pow 1024,
      Nat.mod_self, pow_zero, pow_zero, one_pow, one_pow, one_mul]
  · intro h
    exact absurd (Finset.mem_range.2 hj) h

end Noise.NewHope
