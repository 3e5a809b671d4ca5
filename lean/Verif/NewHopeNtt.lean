import Verif.NewHopeLevel
import Mathlib.Algebra.BigOperators.Intervals
import Mathlib.Algebra.BigOperators.Ring.Finset
import Mathlib.Algebra.Field.GeomSum
/-!
# New Hope: the number-theoretic transform
-/

namespace Noise.NewHope

open Finset (sum_congr)

/-- The number whose ten binary digits are those of `n` in the opposite order. -/
def rev (n : Nat) : Nat :=
  n % 2 * 512 + n / 2 % 2 * 256 + n / 4 % 2 * 128 + n / 8 % 2 * 64 + n / 16 % 2 * 32 + n / 32 % 2 * 16 + n / 64 % 2 * 8 +
    n / 128 % 2 * 4 + n / 256 % 2 * 2 + n / 512 % 2

/-! ## The tables -/

theorem bitrev_table : bitrev = (List.range 1024).map rev := by decide +kernel

theorem omegas_table : omegas = (List.range 512).map fun k => 2 ^ 18 * 49 ^ (rev k / 2) % 12289 := by decide +kernel

theorem omegasInv_table : omegasInv = (List.range 512).map fun k => 2 ^ 18 * 1254 ^ (rev k / 2) % 12289 := by
  decide +kernel

theorem psisBitrev_table : psisBitrev = (List.range 1024).map fun k => 2 ^ 18 * 7 ^ rev k % 12289 := by decide +kernel

theorem psisInv_table : psisInv = (List.range 1024).map fun k => 2 ^ 18 * (12277 * 8778 ^ k) % 12289 := by
  decide +kernel

theorem rev_level : ∀ l < 10, ∀ i < 1024, 2 ^ l * rev i % 1024 =
    (rev (i / 2 ^ (l + 1)) / 2 + if i % 2 ^ (l + 1) < 2 ^ l then 0 else 512) % 1024 := by decide +kernel

theorem rev_rev : ∀ i < 1024, rev (rev i) = i := by decide +kernel

theorem rev_lt (i : Nat) : rev i < 1024 := by unfold rev; omega

theorem val_entry {t : List Nat} {n : Nat} {g : Nat → Nat} (h : t = (List.range n).map fun k => g k % 12289) {k : Nat}
    (hk : k < n) : val (entry t k) = (g k : Z) := by
  unfold val entry
  rw [UInt16.toNat_ofNat', h, List.getD_eq_getElem?_getD, List.getElem?_map, List.getElem?_range hk]
  show ((g k % 12289 % 65536 : Nat) : Z) = _
  rw [Nat.mod_eq_of_lt (by omega)]
  exact (ZMod.natCast_eq_natCast_iff' _ _ _).2 (Nat.mod_mod _ _)

/-! ## The levels -/

/-- After `l` levels, each block of `2^l` coefficients holds a transform of the same coefficients of `a`. -/
def Done (w : Z) (a A : Poly) (l : Nat) : Prop :=
  ∀ b s, b * 2 ^ l < 1024 → s < 2 ^ l →
    A.v (s + 2 ^ l * b) = ∑ t ∈ Finset.range (2 ^ l), a.v (t + 2 ^ l * b) * w ^ (s * rev (t + 2 ^ l * b))

theorem pow_mod {w : Z} (hw : w ^ 512 = -1) (n : Nat) : w ^ n = w ^ (n % 1024) := by
  conv_lhs => rw [← Nat.div_add_mod n 1024, pow_add, pow_mul, show (1024 : Nat) = 512 * 2 from rfl, pow_mul, hw]
  rw [neg_one_sq, one_pow, one_mul]

theorem level_done {red : UInt16 → UInt16} {omega : List Nat} {w : Z} {l B : Nat} (hl : l < 10)
    (ho : ∀ x ∈ omega, x < 12289) (hr : ∀ x, val (red x) = val x) (hw : w ^ 512 = -1)
    (ht : ∀ k < 512, val (entry omega k) = 2 ^ 18 * w ^ (rev k / 2)) {a A : Poly} (ha : A.length = 1024)
    (hb : ∀ i, (A.at i).toNat < 2 ^ 15) (hB : 2 ^ 14 ≤ B) (hR : ∀ i j, (red (A.at i + A.at j)).toNat < B)
    (h : Done w a A l) :
    (level red omega (2 ^ l) A).length = 1024 ∧ (∀ i, ((level red omega (2 ^ l) A).at i).toNat < B) ∧
      Done w a (level red omega (2 ^ l) A) (l + 1) := by
  have hd : 0 < 2 ^ l := Nat.two_pow_pos l
  have hdm : 2 ^ l * 2 ^ (9 - l) = 512 := by rw [← pow_add, show l + (9 - l) = 9 by omega]; rfl
  have hm : 512 / 2 ^ l = 2 ^ (9 - l) := by rw [← hdm, Nat.mul_div_cancel_left _ hd]
  obtain ⟨h1, h2, h3⟩ := level_ok hd hm hdm ho hr ha hb hB hR
  refine ⟨h1, h2, fun b s hb' hs => ?_⟩
  have hp : 2 ^ (l + 1) = 2 * 2 ^ l := by rw [pow_succ, mul_comm]
  have hlev := rev_level l hl
  rw [hp] at hb' hs hlev ⊢
  have hk : b < 2 ^ (9 - l) := by
    by_contra hc
    have : 2 ^ (9 - l) * (2 * 2 ^ l) ≤ b * (2 * 2 ^ l) := Nat.mul_le_mul_right _ (by omega)
    have e : 2 ^ (9 - l) * (2 * 2 ^ l) = 2 * (2 ^ l * 2 ^ (9 - l)) := by ring
    rw [e, hdm] at this
    omega
  have hk' : b < 512 := lt_of_lt_of_le hk (by
    calc 2 ^ (9 - l) ≤ 2 ^ 9 := Nat.pow_le_pow_right (by decide) (by omega)
      _ = 512 := rfl)
  have hD : 2 ^ l * (2 * b + 2) ≤ 1024 := by
    calc 2 ^ l * (2 * b + 2) = 2 * (2 ^ l * (b + 1)) := by ring
      _ ≤ 2 * (2 ^ l * 2 ^ (9 - l)) := Nat.mul_le_mul_left _ (Nat.mul_le_mul_left _ hk)
      _ = 1024 := by rw [hdm]
  unfold Done at h
  generalize 2 ^ l = D at *
  have e0 : ∀ x, x + D * (2 * b) = x + 2 * D * b := fun x => by ring
  have e1 : ∀ x, x + D * (2 * b + 1) = x + 2 * D * b + D := fun x => by ring
  have eD : D * (2 * b + 2) = 2 * D * b + 2 * D := by ring
  have i0 : ∀ s < D, A.v (s + 2 * D * b) = ∑ t ∈ Finset.range D, a.v (t + 2 * D * b) * w ^ (s * rev (t + 2 * D * b)) := by
    intro s hs
    have := h (2 * b) s (by rw [show 2 * b * D = 2 * D * b by ring]; omega) hs
    simpa only [e0] using this
  have i1 : ∀ s < D, A.v (s + 2 * D * b + D) =
      ∑ t ∈ Finset.range D, a.v (t + 2 * D * b + D) * w ^ (s * rev (t + 2 * D * b + D)) := by
    intro s hs
    have := h (2 * b + 1) s (by rw [show (2 * b + 1) * D = 2 * D * b + D by ring]; omega) hs
    simpa only [e1] using this
  have t0 : ∀ t < D, w ^ (D * rev (t + 2 * D * b)) = w ^ (rev b / 2) := by
    intro t htD
    rw [pow_mod hw, hlev _ (by omega), Nat.add_mul_div_left _ _ (by omega), Nat.div_eq_of_lt (show t < 2 * D by omega), zero_add,
      Nat.add_mul_mod_self_left, Nat.mod_eq_of_lt (show t < 2 * D by omega), if_pos htD, ← pow_mod hw, add_zero]
  have t1 : ∀ t < D, w ^ (D * rev (t + 2 * D * b + D)) = -w ^ (rev b / 2) := by
    intro t htD
    rw [pow_mod hw, hlev _ (by omega), Nat.add_right_comm, Nat.add_mul_div_left _ _ (by omega),
      Nat.div_eq_of_lt (show t + D < 2 * D by omega), zero_add, Nat.add_mul_mod_self_left, Nat.mod_eq_of_lt (show t + D < 2 * D by omega),
      if_neg (by omega), ← pow_mod hw, pow_add, hw, mul_neg_one]
  rw [two_mul, Finset.sum_range_add, ← two_mul]
  by_cases c : s < D
  · rw [(h3 b hk s c).1, i0 s c, i1 s c]
    refine congrArg (_ + ·) ?_
    exact sum_congr rfl fun t _ => by rw [show D + t + 2 * D * b = t + 2 * D * b + D by ring]
  · obtain ⟨s, rfl⟩ : ∃ s', s = D + s' := ⟨s - D, by omega⟩
    have c : s < D := by omega
    rw [show D + s + 2 * D * b = s + 2 * D * b + D by ring]
    have h4 := (h3 b hk s c).2
    rw [ht b hk', mul_comm, mul_assoc (2 ^ 18)] at h4
    rw [mul_left_cancel₀ two_pow_ne h4, i0 s c, i1 s c, mul_sub, Finset.mul_sum, Finset.mul_sum, sub_eq_add_neg,
      ← Finset.sum_neg_distrib]
    refine congrArg₂ (· + ·) ?_ ?_
    · refine sum_congr rfl fun t h => ?_
      rw [add_mul, pow_add, t0 t (Finset.mem_range.1 h)]
      ring
    · refine sum_congr rfl fun t h => ?_
      rw [show D + t + 2 * D * b = t + 2 * D * b + D by ring, add_mul, pow_add, t1 t (Finset.mem_range.1 h)]
      ring

theorem done_last {w : Z} {a A : Poly} {l n : Nat} (hn : 2 ^ l = n) (h : Done w a A l) (s : Nat) (hs : s < n) :
    A.v s = ∑ t ∈ Finset.range n, a.v t * w ^ (s * rev t) := by
  unfold Done at h
  rw [hn] at h
  have := h 0 s (by omega) hs
  simpa only [Nat.mul_zero, Nat.add_zero] using this

theorem two_levels {omega : List Nat} {w : Z} (ho : ∀ x ∈ omega, x < 12289) (hw : w ^ 512 = -1)
    (ht : ∀ k < 512, val (entry omega k) = 2 ^ 18 * w ^ (rev k / 2)) {a A : Poly} {l : Nat} (hl : l < 9) (hA : Small A)
    (hD : Done w a A l) :
    Small (nttStep omega A l) ∧ Done w a (nttStep omega A l) (l + 2) := by
  unfold nttStep
  obtain ⟨h1, h2, h3⟩ := level_done (red := id) (B := 2 ^ 15) (l := l) (by omega) ho (fun _ => rfl) hw ht hA.1
    (fun i => by have := hA.2 i; omega) (by decide) (fun i j => by
      have := hA.2 i; have := hA.2 j
      show (A.at i + A.at j).toNat < _
      rw [UInt16.toNat_add]; omega) hD
  obtain ⟨h4, h5, h6⟩ := level_done (red := barrettReduce) (B := 2 ^ 14) (l := l + 1) (by omega) ho
    (fun _ => (barrett_ok _).2) hw ht h1 h2 le_rfl (fun i j => (barrett_ok _).1) h3
  exact ⟨⟨h4, h5⟩, h6⟩

theorem done_zero (w : Z) (a : Poly) : Done w a a 0 := by
  intro b s _ hs
  have : s = 0 := by omega
  subst this
  simp

theorem foldl_five {α β : Type} (g : α → β → α) (a : α) (x0 x1 x2 x3 x4 : β) :
    [x0, x1, x2, x3, x4].foldl g a = g (g (g (g (g a x0) x1) x2) x3) x4 := rfl

/-- The transform. -/
theorem ntt_ok {omega : List Nat} {w : Z} (ho : ∀ x ∈ omega, x < 12289) (hw : w ^ 512 = -1)
    (ht : ∀ k < 512, val (entry omega k) = 2 ^ 18 * w ^ (rev k / 2)) {a : Poly} (ha : Small a) :
    Small (ntt a omega) ∧ ∀ s < 1024, (ntt a omega).v s = ∑ t ∈ Finset.range 1024, a.v t * w ^ (s * rev t) := by
  obtain ⟨s2, d2⟩ := two_levels ho hw ht (by decide) ha (done_zero w a)
  obtain ⟨s4, d4⟩ := two_levels ho hw ht (l := 2) (by decide) s2 d2
  obtain ⟨s6, d6⟩ := two_levels ho hw ht (l := 4) (by decide) s4 d4
  obtain ⟨s8, d8⟩ := two_levels ho hw ht (l := 6) (by decide) s6 d6
  obtain ⟨s10, d10⟩ := two_levels ho hw ht (l := 8) (by decide) s8 d8
  unfold ntt
  rw [foldl_five]
  exact ⟨s10, done_last (by norm_num) d10⟩

theorem sum_rev (f : Nat → Z) : ∑ t ∈ Finset.range 1024, f (rev t) = ∑ k ∈ Finset.range 1024, f k :=
  Finset.sum_nbij' rev rev (fun t _ => Finset.mem_range.2 (rev_lt t)) (fun t _ => Finset.mem_range.2 (rev_lt t))
    (fun t h => rev_rev t (Finset.mem_range.1 h)) (fun t h => rev_rev t (Finset.mem_range.1 h)) fun _ _ => rfl

/-! ## `bitrev_vector` -/

theorem bitrev_getD {i : Nat} (h : i < 1024) : bitrev.getD i 0 = rev i := by
  rw [bitrev_table, List.getD_eq_getElem?_getD, List.getElem?_map, List.getElem?_range h]
  rfl

theorem bitrevVector_ok {p : Poly} (hp : p.length = 1024) :
    (bitrevVector p).length = 1024 ∧ ∀ i < 1024, (bitrevVector p).at i = p.at (rev i) := by
  have key : ∀ n ≤ 1024, ((List.range n).foldl bitrevStep p).length = 1024 ∧ ∀ i < 1024,
      ((List.range n).foldl bitrevStep p).at i = if i < n ∨ rev i < n then p.at (rev i) else p.at i := by
    intro n
    induction n with
    | zero => exact fun _ => ⟨hp, fun i _ => by rw [if_neg (by omega)]; rfl⟩
    | succ n ih =>
      intro hn
      obtain ⟨h1, h2⟩ := ih (by omega)
      rw [List.range_succ, List.foldl_append]
      generalize (List.range n).foldl bitrevStep p = r at *
      show (bitrevStep r n).length = 1024 ∧ ∀ i < 1024, (bitrevStep r n).at i = _
      have hr := rev_lt n
      have hrr := rev_rev n (by omega)
      unfold bitrevStep
      dsimp only
      rw [bitrev_getD (by omega)]
      by_cases c : n < rev n
      · rw [if_pos c]
        refine ⟨by rw [List.length_set, List.length_set, h1], fun i hi => ?_⟩
        rw [at_set _ _ _ _ (by rw [List.length_set]; omega), at_set _ _ _ _ (by omega), h2 n (by omega),
          h2 (rev n) hr, h2 i hi, hrr]
        by_cases c1 : i = rev n
        · subst c1
          rw [if_pos rfl, if_neg (by omega), if_pos (by omega), hrr]
        · rw [if_neg c1]
          by_cases c2 : i = n
          · subst c2
            rw [if_pos rfl, if_neg (by omega), if_pos (by omega)]
          · rw [if_neg c2]
            have c3 : rev i ≠ n := fun h => c1 (by rw [← h, rev_rev i hi])
            by_cases c4 : i < n ∨ rev i < n
            · rw [if_pos c4, if_pos (by omega)]
            · rw [if_neg c4, if_neg (by omega)]
      · rw [if_neg c]
        refine ⟨h1, fun i hi => ?_⟩
        rw [h2 i hi]
        by_cases c4 : i < n ∨ rev i < n
        · rw [if_pos c4, if_pos (by omega)]
        · rw [if_neg c4]
          by_cases c5 : i = n
          · subst c5
            rw [if_pos (by omega), show rev i = i by omega]
          · by_cases c6 : rev i = n
            · have : rev n = i := by rw [← c6, rev_rev i hi]
              omega
            · rw [if_neg (by omega)]
  obtain ⟨h1, h2⟩ := key 1024 le_rfl
  exact ⟨h1, fun i hi => (h2 i hi).trans (if_pos (Or.inl hi))⟩

theorem bitrevVector_small {p : Poly} (hp : Small p) : Small (bitrevVector p) := by
  obtain ⟨h1, h2⟩ := bitrevVector_ok hp.1
  refine ⟨h1, fun i => ?_⟩
  by_cases hi : i < 1024
  · rw [h2 i hi]; exact hp.2 _
  · unfold Poly.at
    rw [List.getD_eq_getElem?_getD, List.getElem?_eq_none (by omega)]
    decide

/-! ## `poly_ntt` and `poly_invntt` -/

theorem natPow (a n c : Nat) (h : a ^ n % 12289 = c) : ((a : Z)) ^ n = (c : Z) := by
  rw [← Nat.cast_pow]
  refine (ZMod.natCast_eq_natCast_iff' _ _ _).2 ?_
  subst h
  exact (Nat.mod_mod _ _).symm

theorem w_pow : (49 : Z) ^ 512 = -1 := natPow 49 512 12288 (by decide +kernel)
theorem winv_pow : (1254 : Z) ^ 512 = -1 := natPow 1254 512 12288 (by decide +kernel)
theorem psi_pow : (7 : Z) ^ 1024 = -1 := natPow 7 1024 12288 (by decide +kernel)

/-- The value of the polynomial with the coefficients `x` at the odd power `2 s + 1` of 7. -/
def ev (x : Nat → Z) (s : Nat) : Z := ∑ k ∈ Finset.range 1024, x k * (7 ^ (2 * s + 1)) ^ k

/-- `poly_ntt` evaluates at the odd powers of 7, where the coefficients are in bit-reversed order. -/
theorem polyNtt_ok (a : Poly) :
    Small (polyNtt a) ∧ ∀ s < 1024, (polyNtt a).v s = ev (fun k => a.v (rev k)) s := by
  obtain ⟨m1, m2⟩ := mulCoefficients_ok (p := a) psisBitrev_lt
  obtain ⟨h1, h2⟩ := ntt_ok (w := 49) omegas_lt w_pow (fun k hk => by
    rw [val_entry omegas_table hk]; push_cast; rfl) m1
  refine ⟨h1, fun s hs => (h2 s hs).trans ?_⟩
  have : ∀ t ∈ Finset.range 1024, (mulCoefficients a psisBitrev).v t * 49 ^ (s * rev t) =
      (fun k => a.v (rev k) * (7 ^ (2 * s + 1)) ^ k) (rev t) := by
    intro t ht
    have ht := Finset.mem_range.1 ht
    have h := m2 t ht
    rw [val_entry psisBitrev_table ht] at h
    push_cast at h
    have h' : (mulCoefficients a psisBitrev).v t * 2 ^ 18 = a.v t * 7 ^ rev t * 2 ^ 18 := by
      rw [h]; ring_nf
    dsimp only
    rw [mul_right_cancel₀ two_pow_ne h', rev_rev t ht, show (49 : Z) = 7 ^ 2 by norm_num, ← pow_mul, ← pow_mul, mul_assoc,
      ← pow_add]
    congr 2
    ring
  rw [sum_congr rfl this]
  exact sum_rev fun k => a.v (rev k) * (7 ^ (2 * s + 1)) ^ k

theorem polyInvntt_ok {p : Poly} (hp : Small p) : Small (polyInvntt p) ∧
    ∀ j < 1024, (polyInvntt p).v j = 12277 * 8778 ^ j * ∑ k ∈ Finset.range 1024, p.v k * 1254 ^ (j * k) := by
  obtain ⟨b1, b2⟩ := bitrevVector_ok hp.1
  obtain ⟨h1, h2⟩ := ntt_ok (w := 1254) omegasInv_lt winv_pow (fun k hk => by
    rw [val_entry omegasInv_table hk]; push_cast; rfl) (bitrevVector_small hp)
  obtain ⟨m1, m2⟩ := mulCoefficients_ok (p := ntt (bitrevVector p) omegasInv) psisInv_lt
  refine ⟨m1, fun j hj => ?_⟩
  have h := m2 j hj
  rw [val_entry psisInv_table hj, h2 j hj] at h
  have e : ∑ t ∈ Finset.range 1024, (bitrevVector p).v t * 1254 ^ (j * rev t) =
      ∑ k ∈ Finset.range 1024, p.v k * (1254 : Z) ^ (j * k) := by
    rw [← sum_rev fun k => p.v k * (1254 : Z) ^ (j * k)]
    refine sum_congr rfl fun t ht => ?_
    unfold Poly.v
    rw [b2 t (Finset.mem_range.1 ht)]
  rw [e] at h
  push_cast at h
  refine mul_right_cancel₀ two_pow_ne (h.trans ?_)
  ring_nf

end Noise.NewHope
