import Verif.NewHopeReal
import Verif.Curve25519Props
-- Only for the order of the build: each of these computations takes several gigabytes.
import Verif.Ed25519Vector
/-!
# New Hope: noise that is small enough

Concrete noise seeds with `SmallNoise`. The products of polynomials are computed with numbers of 1024 digits to the base
`2^24`, modulo `2^24576 + 1`. Nothing here is a definition of the code base.
-/

namespace Noise.NewHope

open Rfc7539 (leNat)
open Finset (sum_congr)

/-- Evaluate the number first. -/
def force {α : Type} (n : Nat) (f : Nat → α) : α := Nat.rec (f 0) (fun k _ => f (k + 1)) n

theorem force_eq {α : Type} (n : Nat) (f : Nat → α) : force n f = f n := by cases n <;> rfl

/-- The digits `f i`, `f (i + 1)`, …, `n` of them. -/
def packed (B : Nat) (f : Nat → Nat) : Nat → Nat → Nat
  | 0, _ => 0
  | n + 1, i => f i + B * packed B f n (i + 1)

theorem packed_eq (B : Nat) (f : Nat → Nat) : ∀ n i, packed B f n i = ∑ k ∈ Finset.range n, f (i + k) * B ^ k
  | 0, i => rfl
  | n + 1, i => by
    rw [Finset.sum_range_succ', packed, packed_eq B f n (i + 1), Finset.mul_sum, Nat.add_comm, Nat.add_zero, pow_zero, mul_one]
    refine congrArg (· + f i) (sum_congr rfl fun k _ => ?_)
    rw [show i + (k + 1) = i + 1 + k by omega, pow_succ]
    ring

/-- Noise plus 16, from the number that has the stream as its bytes. -/
def noiseOf (T i : Nat) : Nat :=
  force (T / 2 ^ (32 * i) % 2 ^ 32) fun t => 16 + (ones t 0 + ones t 8) - (ones t 16 + ones t 24)

theorem word_leNat (p : Bytes) (i : Nat) : (fromLittle p (4 * i)).toNat = leNat p / 2 ^ (32 * i) % 2 ^ 32 := by
  rw [pow_mul, show (2 : Nat) ^ 32 = 256 ^ 4 by norm_num, ← pow_mul, ← Curve25519.leNat_drop, ← Curve25519.leNat_take,
    leNat_take4, fromLittle_toNat]
  simp only [List.getD_eq_getElem?_getD, List.getElem?_drop]
  rfl

theorem noiseOf_eq (seed : Bytes) (nonce : UInt8) (i : Nat) :
    (noiseOf (leNat (chachaStream 4096 (nonce :: List.replicate 7 0) seed)) i : Int) = noise seed nonce i + 16 := by
  unfold noiseOf
  rw [force_eq]
  unfold noise
  dsimp only
  rw [word_leNat]
  generalize leNat _ / 2 ^ (32 * i) % 2 ^ 32 = t
  have b : ∀ t k, ones t k ≤ 8 := fun t k => by unfold ones; omega
  have := b t 0; have := b t 8; have := b t 16; have := b t 24
  omega

/-! ## Numbers with small digits -/

theorem sum_bound {B : Int} (hB : 1 ≤ B) (d : Nat → Int) : ∀ n, (∀ i < n, 2 * |d i| ≤ B - 1) →
    2 * |∑ i ∈ Finset.range n, d i * B ^ i| ≤ B ^ n - 1
  | 0, _ => by simp
  | n + 1, h => by
    have ih := sum_bound hB d n fun i hi => h i (by omega)
    have hn := h n (by omega)
    have hp : (0 : Int) < B ^ n := pow_pos (by omega) n
    rw [Finset.sum_range_succ]
    have t := abs_add_le (∑ i ∈ Finset.range n, d i * B ^ i) (d n * B ^ n)
    rw [abs_mul, abs_of_pos hp] at t
    have := mul_le_mul_of_nonneg_right hn hp.le
    rw [pow_succ]
    nlinarith

theorem digits_zero {B : Int} (hB : 1 ≤ B) (d : Nat → Int) : ∀ n, (∀ i < n, 2 * |d i| ≤ B - 1) →
    ∑ i ∈ Finset.range n, d i * B ^ i = 0 → ∀ i < n, d i = 0
  | 0, _, _ => fun i hi => by omega
  | n + 1, h, h0 => by
    have ih := sum_bound hB d n fun i hi => h i (by omega)
    have hp : (0 : Int) < B ^ n := pow_pos (by omega) n
    rw [Finset.sum_range_succ] at h0
    have hd : d n = 0 := by
      by_contra hne
      have h1 : 1 ≤ |d n| := Int.one_le_abs hne
      have e : ∑ i ∈ Finset.range n, d i * B ^ i = -(d n * B ^ n) := by linarith
      rw [e, abs_neg, abs_mul, abs_of_pos hp] at ih
      nlinarith
    rw [hd, zero_mul, add_zero] at h0
    intro i hi
    rcases Nat.lt_succ_iff_lt_or_eq.1 hi with hi | rfl
    · exact digits_zero hB d n (fun i hi => h i (by omega)) h0 i hi
    · exact hd

/-- Small digits are determined by the number modulo `B^n + 1`. -/
theorem digits_eq {B : Int} (hB : 1 ≤ B) {n : Nat} (c g : Nat → Int) (hc : ∀ i < n, 4 * |c i| ≤ B - 1)
    (hg : ∀ i < n, 4 * |g i| ≤ B - 1)
    (h : (B ^ n + 1) ∣ (∑ i ∈ Finset.range n, c i * B ^ i) - ∑ i ∈ Finset.range n, g i * B ^ i) : ∀ i < n, c i = g i := by
  have hd : ∀ i < n, 2 * |c i - g i| ≤ B - 1 := fun i hi => by
    have := abs_sub (c i) (g i); have := hc i hi; have := hg i hi
    omega
  have b := sum_bound hB (fun i => c i - g i) n hd
  have z := digits_zero hB (fun i => c i - g i) n hd
  simp only [sub_mul, Finset.sum_sub_distrib] at b z
  intro i hi
  refine sub_eq_zero.1 (z ?_ i hi)
  refine Int.eq_zero_of_abs_lt_dvd h ?_
  have hp : (0 : Int) < B ^ n := pow_pos (by omega) n
  omega

theorem nega_abs (x y : Nat → Int) (n : Nat) (hx : ∀ i, |x i| ≤ 16) (hy : ∀ i, |y i| ≤ 16) (j : Nat) :
    |nega n x y j| ≤ n * 256 := by
  unfold nega
  refine (Finset.abs_sum_le_sum_abs _ _).trans ?_
  refine (Finset.sum_le_card_nsmul _ _ 256 fun i _ => ?_).trans (by simp)
  have m : ∀ a b, |x a * y b| ≤ 256 := fun a b => by
    rw [abs_mul]
    exact (mul_le_mul (hx a) (hy b) (abs_nonneg _) (by norm_num)).trans (by norm_num)
  split
  · exact m _ _
  · rw [abs_neg]; exact m _ _

/-! ## The check -/

/-- Digit `j` of `W`. -/
def digit (B W j : Nat) : Nat := W / B ^ j % B

theorem digits_sum (B W : Nat) (_hB : 0 < B) : ∀ n, ∑ j ∈ Finset.range n, digit B W j * B ^ j = W % B ^ n
  | 0 => by simp [Nat.mod_one]
  | n + 1 => by
    rw [Finset.sum_range_succ, digits_sum B W _hB n, pow_succ, Nat.mod_mul, digit, mul_comm (B ^ n)]

/-- The distance of two numbers. -/
def dist (a b : Nat) : Nat := (a - b) + (b - a)

theorem dist_eq (a b : Nat) : dist a b = ((a : Int) - b).natAbs := by unfold dist; omega

/-- The sums of the distances of four digits each from `c` are at most 9214. -/
def digitsSmall (B W c : Nat) : Nat → Bool
  | 0 => true
  | i + 1 => Nat.ble (dist (digit B W i) c + dist (digit B W (256 + i)) c + dist (digit B W (512 + i)) c +
      dist (digit B W (768 + i)) c) 9214 && digitsSmall B W c i

theorem digitsSmall_ok (B W c : Nat) : ∀ n, digitsSmall B W c n = true → ∀ i < n,
    dist (digit B W i) c + dist (digit B W (256 + i)) c + dist (digit B W (512 + i)) c + dist (digit B W (768 + i)) c ≤ 9214
  | 0, _, i, hi => by omega
  | n + 1, h, i, hi => by
    rw [digitsSmall, Bool.and_eq_true] at h
    rcases Nat.lt_succ_iff_lt_or_eq.1 hi with hi | rfl
    · exact digitsSmall_ok B W c n h.2 i hi
    · exact Nat.le_of_ble_eq_true h.1

/-- `e s' - s e' + e''` modulo `M`, plus `off`. -/
def combine (M off s e s' e' e'' : Nat) : Nat := (off + e * s' + (M - s * e' % M) + e'') % M

theorem combine_cast (M off s e s' e' e'' : Nat) (hM : 0 < M) :
    (combine M off s e s' e' e'' : ZMod M) = off + e * s' - s * e' + e'' := by
  unfold combine
  rw [ZMod.natCast_mod]
  push_cast
  rw [Nat.cast_sub (Nat.mod_lt _ hM).le, ZMod.natCast_self, ZMod.natCast_mod]
  push_cast
  ring

theorem small_of_check {B M : Nat} (hB : 4000000 < B) (hM : M = B ^ 1024 + 1) (s e s' e' e'' : Nat → Int)
    (h1 : ∀ i, |s i| ≤ 16) (h2 : ∀ i, |e i| ≤ 16) (h3 : ∀ i, |s' i| ≤ 16) (h4 : ∀ i, |e' i| ≤ 16)
    (h5 : ∀ i, |e'' i| ≤ 16) (S E S' E' E'' J c : Nat)
    (hS : (S : ZMod M) = ∑ k ∈ Finset.range 1024, ((s (rev k) : Int) : ZMod M) * (B : ZMod M) ^ k)
    (hE : (E : ZMod M) = ∑ k ∈ Finset.range 1024, ((e (rev k) : Int) : ZMod M) * (B : ZMod M) ^ k)
    (hS' : (S' : ZMod M) = ∑ k ∈ Finset.range 1024, ((s' (rev k) : Int) : ZMod M) * (B : ZMod M) ^ k)
    (hE' : (E' : ZMod M) = ∑ k ∈ Finset.range 1024, ((e' (rev k) : Int) : ZMod M) * (B : ZMod M) ^ k)
    (hE'' : (E'' : ZMod M) = ∑ k ∈ Finset.range 1024, ((e'' k : Int) : ZMod M) * (B : ZMod M) ^ k)
    (hJ : (J : ZMod M) = ∑ k ∈ Finset.range 1024, (B : ZMod M) ^ k)
    (W : Nat) (hW : W = combine M (c * J) S E S' E' E'') (hWB : W < B ^ 1024) (hd : digitsSmall B W c 256 = true) :
    ∀ i < 256, (diff s e s' e' e'' i).natAbs + (diff s e s' e' e'' (256 + i)).natAbs +
      (diff s e s' e' e'' (512 + i)).natAbs + (diff s e s' e' e'' (768 + i)).natAbs ≤ 9214 := by
  have hMp : 0 < M := by omega
  have z : (B : ZMod M) ^ 1024 = -1 := by
    have : ((B ^ 1024 + 1 : Nat) : ZMod M) = 0 := by rw [← hM, ZMod.natCast_self]
    push_cast at this
    exact eq_neg_of_add_eq_zero_left this
  have dig := digitsSmall_ok B W c 256 hd
  have key : ∀ j < 1024, (digit B W j : Int) - c = diff s e s' e' e'' j := by
    refine digits_eq (B := (B : Int)) (by omega) _ _ (fun i hi => ?_) (fun i hi => ?_) ?_
    · have b : dist (digit B W i) c ≤ 9214 := by
        have := dig (i % 256) (by omega)
        rcases (by omega : i = i % 256 ∨ i = 256 + i % 256 ∨ i = 512 + i % 256 ∨ i = 768 + i % 256) with h | h | h | h <;>
          · rw [h]; omega
      rw [dist_eq] at b
      rw [Int.abs_eq_natAbs]
      omega
    · unfold diff
      have n1 := nega_abs (fun k => e (rev k)) (fun k => s' (rev k)) 1024 (fun _ => h2 _) (fun _ => h3 _) i
      have n2 := nega_abs (fun k => s (rev k)) (fun k => e' (rev k)) 1024 (fun _ => h1 _) (fun _ => h4 _) i
      have n3 := h5 i
      rw [abs_le] at n1 n2 n3
      have : |nega 1024 (fun k => e (rev k)) (fun k => s' (rev k)) i - nega 1024 (fun k => s (rev k)) (fun k => e' (rev k)) i +
          e'' i| ≤ 600000 := abs_le.2 ⟨by push_cast at n1 n2; omega, by push_cast at n1 n2; omega⟩
      omega
    · have eM : ((B : Int) ^ 1024 + 1) = (M : Int) := by rw [hM]; push_cast; rfl
      rw [eM, ← ZMod.intCast_zmod_eq_zero_iff_dvd]
      push_cast
      rw [sub_eq_zero]
      simp only [sub_mul, Finset.sum_sub_distrib]
      have w := congrArg (Nat.cast (R := ZMod M)) (digits_sum B W (by omega) 1024)
      rw [Nat.mod_eq_of_lt hWB] at w
      push_cast at w
      rw [w, hW, combine_cast _ _ _ _ _ _ _ hMp, hS, hE, hS', hE', hE'', ← Finset.mul_sum, ← hJ]
      push_cast
      unfold diff
      push_cast
      have nm : ∀ x y : Nat → Int, ∀ j, ((nega 1024 x y j : Int) : ZMod M) =
          nega 1024 (fun i => ((x i : Int) : ZMod M)) (fun i => ((y i : Int) : ZMod M)) j :=
        fun x y j => nega_map (Int.castRingHom (ZMod M)) 1024 x y j
      simp only [nm, add_mul, sub_mul, Finset.sum_add_distrib, Finset.sum_sub_distrib, nega_value z]
      ring
  intro i hi
  have d := dig i hi
  rw [dist_eq, dist_eq, dist_eq, dist_eq, key _ (by omega), key _ (by omega), key _ (by omega), key _ (by omega)] at d
  exact d

/-- The polynomial with the coefficients `f k - 16` as a number. -/
def polyNumber (B n M J : Nat) (f : Nat → Nat) : Nat := packed B f n 0 + (M - 16 * J)

/-- See `small_of_check`; the arguments are the streams for the noise, as numbers. -/
def smallCheck (B n c s e s' e' e'' : Nat) : Bool :=
  force (packed B (fun _ => 1) n 0) fun J =>
  force (B ^ n + 1) fun M =>
  force (combine M (c * J) (polyNumber B n M J fun k => noiseOf s (rev k)) (polyNumber B n M J fun k => noiseOf e (rev k))
    (polyNumber B n M J fun k => noiseOf s' (rev k)) (polyNumber B n M J fun k => noiseOf e' (rev k))
    (polyNumber B n M J fun k => noiseOf e'' k)) fun W =>
  Nat.blt W (B ^ n) && digitsSmall B W c 256

/-- The stream for the noise. -/
def streamNumber (seed : Bytes) (nonce : UInt8) : Nat := leNat (chachaStream 4096 (nonce :: List.replicate 7 0) seed)

theorem polyNumber_eq {B n M J : Nat} (hJ : J = ∑ k ∈ Finset.range n, B ^ k) (hM : 16 * J ≤ M) (f : Nat → Nat) (x : Nat → Int)
    (h : ∀ k, (f k : Int) = x k + 16) :
    (polyNumber B n M J f : ZMod M) = ∑ k ∈ Finset.range n, ((x k : Int) : ZMod M) * (B : ZMod M) ^ k := by
  have e : ∀ k, (f k : ZMod M) = ((x k : Int) : ZMod M) + 16 := fun k => by
    have := congrArg (Int.cast (R := ZMod M)) (h k)
    push_cast at this
    exact this
  unfold polyNumber
  rw [packed_eq]
  push_cast
  rw [Nat.cast_sub hM, ZMod.natCast_self, hJ]
  push_cast
  simp only [Nat.zero_add, e, add_mul, Finset.sum_add_distrib, ← Finset.mul_sum]
  ring

theorem sixteen_ones {B : Nat} (hB : 17 ≤ B) : ∀ n, 16 * ∑ k ∈ Finset.range n, B ^ k ≤ B ^ n
  | 0 => by simp
  | n + 1 => by
    rw [Finset.sum_range_succ, mul_add, pow_succ]
    have := sixteen_ones hB n
    have p : 0 < B ^ n := Nat.pow_pos (by omega)
    nlinarith

theorem smallNoise_of_check {B n c : Nat} {a b : Bytes} (hB : 4000000 < B) (hn : n = 1024) (h : smallCheck B n c (streamNumber a 0) (streamNumber a 1) (streamNumber b 0)
    (streamNumber b 1) (streamNumber b 2) = true) : SmallNoise a b := by
  have n16 : ∀ (s : Bytes) (n : UInt8) (i : Nat), |noise s n i| ≤ 16 := fun s n i => by
    have := noise_le s n i
    exact abs_le.2 ⟨by omega, by omega⟩
  obtain ⟨J, hJ⟩ : ∃ J, J = packed B (fun _ => 1) n 0 := ⟨_, rfl⟩
  obtain ⟨M, hM⟩ : ∃ M : Nat, M = B ^ n + 1 := ⟨_, rfl⟩
  unfold smallCheck at h
  rw [force_eq, force_eq, force_eq, ← hJ, ← hM, Bool.and_eq_true] at h
  rw [packed_eq] at hJ
  simp only [one_mul] at hJ
  have hJM : 16 * J ≤ M := by
    rw [hJ, hM]
    exact (sixteen_ones (by omega) n).trans (Nat.le_succ _)
  have pe : ∀ (s : Bytes) (n : UInt8) (r : Nat → Nat), _ := fun s n r =>
    polyNumber_eq hJ hJM (fun k => noiseOf (streamNumber s n) (r k)) (fun k => noise s n (r k)) fun k => noiseOf_eq s n (r k)
  subst hn
  exact small_of_check hB hM _ _ _ _ _ (n16 a 0) (n16 a 1) (n16 b 0) (n16 b 1) (n16 b 2) _ _ _ _ _ J c
    (pe a 0 rev) (pe a 1 rev) (pe b 0 rev) (pe b 1 rev) (pe b 2 fun k => k) (by rw [hJ]; push_cast; rfl) _ rfl
    (by simpa [Nat.blt_eq] using h.1) h.2

/-- The bytes from `n` on. -/
def seedFrom (n : UInt8) : Bytes := (List.range 32).map fun i => n + UInt8.ofNat i

set_option maxRecDepth 100000 in
theorem seeds_check : (force (streamNumber (seedFrom 0) 0) fun a0 => force (streamNumber (seedFrom 0) 1) fun a1 =>
    force (streamNumber (seedFrom 0) 2) fun a2 => force (streamNumber (seedFrom 32) 0) fun b0 =>
    force (streamNumber (seedFrom 32) 1) fun b1 => force (streamNumber (seedFrom 32) 2) fun b2 =>
    smallCheck (2 ^ 24) 1024 (2 ^ 22) a0 a1 b0 b1 b2 && smallCheck (2 ^ 24) 1024 (2 ^ 22) b0 b1 a0 a1 a2 &&
    smallCheck (2 ^ 24) 1024 (2 ^ 22) a0 a1 a0 a1 a2 && smallCheck (2 ^ 24) 1024 (2 ^ 22) b0 b1 b0 b1 b2) = true := by decide +kernel

/-- Noise seeds that meet the hypothesis of **C69**, in any combination. -/
theorem seeds_small : SmallNoise (seedFrom 0) (seedFrom 32) ∧ SmallNoise (seedFrom 32) (seedFrom 0) ∧
    SmallNoise (seedFrom 0) (seedFrom 0) ∧ SmallNoise (seedFrom 32) (seedFrom 32) := by
  have h := seeds_check
  simp only [force_eq, Bool.and_eq_true] at h
  have hB : 4000000 < 2 ^ 24 := by norm_num
  exact ⟨smallNoise_of_check hB rfl h.1.1.1, smallNoise_of_check hB rfl h.1.1.2, smallNoise_of_check hB rfl h.1.2,
    smallNoise_of_check hB rfl h.2⟩

/-- **C69** for these seeds: the parties agree, whatever the seed for the uniform polynomial. -/
example (H : Hashes) (hH : ∀ m, (H.sha3 m).length = 32) (seed : Bytes) (hl : seed.length = 32) :
    shareda H (keygen H (seed ++ seedFrom 0)).2 (sharedb H (keygen H (seed ++ seedFrom 0)).1 (seedFrom 32)).2 =
      (sharedb H (keygen H (seed ++ seedFrom 0)).1 (seedFrom 32)).1 := by
  refine C69_agreement H hH _ _ ?_
  rw [List.drop_left' hl]
  exact seeds_small.1

end Noise.NewHope
