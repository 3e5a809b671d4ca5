import Verif.GhashProps
import Mathlib.Algebra.Polynomial.Div
import Mathlib.Algebra.Field.ZMod
import Mathlib.Tactic.ComputeDegree
import Mathlib.Tactic.LinearCombination
/-!
# The product of SP 800-38D is multiplication modulo x^128 + x^7 + x^2 + x + 1 over GF(2)

So GHASH is the evaluation of a polynomial at the hash key.
-/

namespace Noise.GhashField

open Polynomial Sp80038D

noncomputable section

/-- A bit as an element of the field with two elements. -/
def bit (b : Bool) : ZMod 2 := if b then 1 else 0

/-- A bit string as a polynomial: the leftmost bit is the constant term (SP 800-38D, section 6.3). -/
def poly : List Bool → (ZMod 2)[X]
  | [] => 0
  | b :: l => C (bit b) + X * poly l

/-- The polynomial that defines the field. -/
def g : (ZMod 2)[X] := X ^ 128 + X ^ 7 + X ^ 2 + X + 1

theorem two : (2 : (ZMod 2)[X]) = 0 := by
  have : (2 : ZMod 2) = 0 := by decide
  rw [show (2 : (ZMod 2)[X]) = C 2 from rfl, this, C_0]

theorem bit_xor (a b : Bool) : bit (xor a b) = bit a + bit b := by
  revert a b; decide

theorem poly_xor (a b : List Bool) (h : a.length = b.length) : poly (xorBits a b) = poly a + poly b := by
  induction a generalizing b with
  | nil => cases b with
    | nil => simp [xorBits, poly]
    | cons _ _ => simp at h
  | cons x a ih =>
    cases b with
    | nil => simp at h
    | cons y b =>
      have := ih b (by simpa using h)
      simp only [xorBits, List.zipWith_cons_cons, poly] at this ⊢
      rw [this, bit_xor, C_add]
      ring

theorem poly_append (a b : List Bool) : poly (a ++ b) = poly a + X ^ a.length * poly b := by
  induction a with
  | nil => simp [poly]
  | cons x a ih =>
    rw [List.cons_append, poly, poly, ih, List.length_cons]
    ring

theorem poly_zeros (n : Nat) : poly (List.replicate n false) = 0 := by
  induction n with
  | zero => rfl
  | succ n ih => simp [List.replicate_succ, poly, ih, bit]

theorem poly_R : poly R = 1 + X + X ^ 2 + X ^ 7 := by
  rw [R, poly_append, poly_zeros]
  simp only [poly, bit, if_true, Bool.false_eq_true, if_false, C_1, C_0]
  ring

/-- Multiplication by x, modulo `g`. -/
theorem poly_shift (V : List Bool) (h : V.length = 128) : g ∣ poly (shift V) - X * poly V := by
  have hne : V ≠ [] := by intro e; simp [e] at h
  have hs : V = V.dropLast ++ [V.getLast hne] := (List.dropLast_append_getLast hne).symm
  have hl : V.dropLast.length = 127 := by simp [h]
  have hp : poly V = poly V.dropLast + X ^ 127 * C (bit (V.getLast hne)) := by
    conv_lhs => rw [hs]
    rw [poly_append, hl]
    simp [poly]
  rw [Ghash.shift_eq V (V.getLast hne) (List.getLast?_eq_some_getLast hne), hp]
  have hf : poly (false :: V.dropLast) = X * poly V.dropLast := by simp [poly, bit]
  by_cases hb : V.getLast hne = true
  · have hR : R.length = 128 := rfl
    have hlen : (false :: V.dropLast).length = R.length := by rw [List.length_cons, hl, hR]
    rw [if_pos hb, poly_xor _ _ hlen, poly_R, hf, hb]
    have e : C (bit true) = (1 : (ZMod 2)[X]) := by simp [bit]
    rw [e]
    refine Dvd.intro (-1) ?_
    unfold g
    linear_combination (-(1 + X + X ^ 2 + X ^ 7)) * two
  · rw [if_neg hb, hf]
    have : V.getLast hne = false := by simpa using hb
    rw [this]
    refine ⟨0, ?_⟩
    simp [bit]

theorem shift_length (V : List Bool) (h : V.length = 128) : (shift V).length = 128 :=
  (Ghash.mulStep_length (V, V) false h h).2

theorem fold_mul (X' : List Bool) (Z V : List Bool) (hZ : Z.length = 128) (hV : V.length = 128) :
    g ∣ poly (X'.foldl mulStep (Z, V)).1 - (poly Z + poly X' * poly V) := by
  induction X' generalizing Z V with
  | nil => simp [poly]
  | cons x X' ih =>
    have hl := Ghash.mulStep_length (Z, V) x hZ hV
    have h1 := ih _ _ hl.1 hl.2
    have h2 := poly_shift V hV
    rw [List.foldl_cons, poly]
    have hz : poly (mulStep (Z, V) x).1 = poly Z + C (bit x) * poly V := by
      simp only [mulStep]
      cases x with
      | true => rw [if_pos rfl, poly_xor _ _ (by rw [hZ, hV])]; simp [bit]
      | false => simp [bit]
    have hv : (mulStep (Z, V) x).2 = shift V := rfl
    rw [hz, hv] at h1
    obtain ⟨a, ha⟩ := h1
    obtain ⟨b, hb⟩ := h2
    refine ⟨a + poly X' * b, ?_⟩
    have e : mulStep (Z, V) x = ((mulStep (Z, V) x).1, shift V) := rfl
    rw [← e] at ha
    linear_combination ha + poly X' * hb

theorem poly_degree (l : List Bool) : (poly l).degree < l.length := by
  induction l with
  | nil => simp [poly]
  | cons b l ih =>
    rw [poly, List.length_cons]
    refine lt_of_le_of_lt (degree_add_le _ _) (max_lt ?_ ?_)
    · refine lt_of_le_of_lt degree_C_le ?_
      exact_mod_cast Nat.succ_pos _
    · by_cases h0 : poly l = 0
      · rw [h0, mul_zero, degree_zero]; exact WithBot.bot_lt_coe _
      · rw [degree_mul, degree_X, degree_eq_natDegree h0] at *
        have : (poly l).natDegree < l.length := by exact_mod_cast ih
        exact_mod_cast (by omega : 1 + (poly l).natDegree < l.length + 1)

theorem g_eq : g = X ^ 128 + (X ^ 7 + X ^ 2 + X + 1) := by unfold g; ring

theorem g_low : ((X : (ZMod 2)[X]) ^ 7 + X ^ 2 + X + 1).degree < ((128 : Nat) : WithBot Nat) := by
  have : (X ^ 7 + X ^ 2 + X + 1 : (ZMod 2)[X]).natDegree ≤ 7 := by compute_degree
  refine lt_of_le_of_lt degree_le_natDegree ?_
  exact_mod_cast (by omega : (X ^ 7 + X ^ 2 + X + 1 : (ZMod 2)[X]).natDegree < 128)

theorem g_monic : g.Monic := by
  rw [g_eq]
  exact monic_X_pow_add g_low

theorem g_degree : g.degree = ((128 : Nat) : WithBot Nat) := by
  rw [g_eq, degree_add_eq_left_of_degree_lt, degree_X_pow]
  rw [degree_X_pow]
  exact g_low

attribute [local irreducible] g

/-- The product of two blocks is the remainder of the product of the polynomials. -/
theorem poly_mulBits (X' Y : List Bool) (hY : Y.length = 128) : poly (mulBits X' Y) = (poly X' * poly Y) %ₘ g := by
  have h := fold_mul X' (List.replicate 128 false) Y (by simp) hY
  rw [poly_zeros, zero_add] at h
  have hd : (poly (mulBits X' Y)).degree < g.degree := by
    have := poly_degree (mulBits X' Y)
    rw [Ghash.mulBits_length _ _ hY] at this
    rw [g_degree]
    exact this
  have h1 := (modByMonic_eq_self_iff g_monic).mpr hd
  have h2 := modByMonic_eq_of_dvd_sub g_monic h
  rw [← h1, ← h2]
  rfl

/-- A block determines and is determined by its polynomial. -/
theorem poly_inj (a b : List Bool) (h : a.length = b.length) (e : poly a = poly b) : a = b := by
  induction a generalizing b with
  | nil => cases b with
    | nil => rfl
    | cons _ _ => simp at h
  | cons x a ih =>
    cases b with
    | nil => simp at h
    | cons y b =>
      rw [poly, poly] at e
      have h0 := congrArg (fun p => coeff p 0) e
      simp only [coeff_add, coeff_C_zero, mul_coeff_zero, coeff_X_zero, zero_mul, add_zero] at h0
      have hxy : x = y := by revert h0; cases x <;> cases y <;> simp [bit]
      subst hxy
      rw [add_left_cancel_iff] at e
      rw [ih b (by simpa using h) (mul_left_cancel₀ X_ne_zero e)]

theorem bitsNat_lt (l : List Bool) : bitsNat l < 2 ^ l.length := by
  induction l using List.reverseRecOn with
  | nil => decide
  | append_singleton l b ih =>
    rw [Ghash.bitsNat_append, List.length_append, List.length_singleton, Nat.pow_succ]
    have : b.toNat ≤ 1 := by cases b <;> decide
    omega

/-- A bit string is determined by its length and its number. -/
theorem poly_inj_bits (a b : List Bool) (h : a.length = b.length) (e : bitsNat a = bitsNat b) : a = b := by
  induction a using List.reverseRecOn generalizing b with
  | nil => exact (List.eq_nil_of_length_eq_zero h.symm).symm
  | append_singleton a x ih =>
    have hne : b ≠ [] := by intro hb; simp [hb] at h
    obtain ⟨b', y, rfl⟩ : ∃ b' y, b = b' ++ [y] := ⟨_, _, (List.dropLast_append_getLast hne).symm⟩
    rw [Ghash.bitsNat_append, Ghash.bitsNat_append] at e
    have hx : x.toNat ≤ 1 := by cases x <;> decide
    have hy : y.toNat ≤ 1 := by cases y <;> decide
    have h1 : x.toNat = y.toNat := by omega
    have h2 : x = y := by revert h1; cases x <;> cases y <;> simp
    rw [ih b' (by simpa using h) (by omega), h2]

/-- The element of the ring GF(2)[x]/(g) for a block of bytes. -/
def el (b : Bytes) : (ZMod 2)[X] := poly (bits b)

/-- The sum X_1 H^n + X_2 H^(n-1) + ... + X_n H for the blocks X_1, ..., X_n. -/
def evalAt (H : (ZMod 2)[X]) : List Bytes → (ZMod 2)[X]
  | [] => 0
  | b :: bs => el b * H ^ (bs.length + 1) + evalAt H bs

theorem el_xor (a b : Bytes) (h : a.length = b.length) : el (xorBytes a b) = el a + el b := by
  have hx : bits (xorBytes a b) = xorBits (bits a) (bits b) := by
    induction a generalizing b with
    | nil => cases b with
      | nil => rfl
      | cons _ _ => simp at h
    | cons x a ih =>
      cases b with
      | nil => simp at h
      | cons y b =>
        have := ih b (by simpa using h)
        have e1 : xorBytes (x :: a) (y :: b) = (x ^^^ y) :: xorBytes a b := rfl
        have e2 : ∀ (z : UInt8) (l : Bytes), bits (z :: l) = byteBits z ++ bits l := fun _ _ => rfl
        rw [e1, e2, e2, e2, this, Ghash.xorBits_append _ _ _ _ (by simp [byteBits]), Ghash.byteBits_eq, Ghash.byteBits_eq,
          Ghash.byteBits_eq, UInt8.toNat_xor, Ghash.wbits_xor]
  rw [el, el, el, hx, poly_xor _ _ (by rw [Ghash.bits_length, Ghash.bits_length, h])]

theorem el_mul (a b : Bytes) (h : b.length = 16) : el (mul a b) = (el a * el b) %ₘ g := by
  have hl := Ghash.mulBits_length (bits a) (bits b) (by rw [Ghash.bits_length, h])
  have hb : bits (mul a b) = mulBits (bits a) (bits b) := by
    rw [mul, unbits, Ghash.bits_beBytes, hl]
    apply poly_inj_bits
    · rw [Ghash.wbits_length, hl]
    · rw [Ghash.bitsNat_wbits]
      have := bitsNat_lt (mulBits (bits a) (bits b))
      rw [hl] at this
      exact Nat.mod_eq_of_lt this
  rw [el, hb, poly_mulBits _ _ (by rw [Ghash.bits_length, h])]
  rfl

theorem el_zero : el (List.replicate 16 0) = 0 := by
  have : bits (List.replicate 16 0) = List.replicate 128 false := by decide +kernel
  rw [el, this, poly_zeros]

theorem fold_eval (H : Bytes) (hH : H.length = 16) (bs : List Bytes) (hbs : ∀ b ∈ bs, b.length = 16) (Y : Bytes)
    (hY : Y.length = 16) : g ∣ el (bs.foldl (fun Y B => mul (xorBytes Y B) H) Y) -
      (el Y * el H ^ bs.length + evalAt (el H) bs) := by
  induction bs generalizing Y with
  | nil => simp [evalAt]
  | cons b bs ih =>
    have hb := hbs b (List.mem_cons_self ..)
    obtain ⟨c, hc⟩ := ih (fun b hb => hbs b (List.mem_cons_of_mem _ hb)) (mul (xorBytes Y b) H)
      (Ghash.mul_length _ _ hH)
    have h1 : g ∣ el (mul (xorBytes Y b) H) - (el Y + el b) * el H := by
      rw [el_mul _ _ hH, el_xor _ _ (by rw [hY, hb])]
      have := modByMonic_add_div ((el Y + el b) * el H) g
      exact ⟨-((el Y + el b) * el H /ₘ g), by linear_combination this⟩
    obtain ⟨d, hd⟩ := h1
    rw [List.foldl_cons, evalAt, List.length_cons]
    refine ⟨c + d * el H ^ bs.length, ?_⟩
    linear_combination hc + el H ^ bs.length * hd

theorem blocks_length (m : Bytes) : ∀ b ∈ blocks m, b.length = 16 := by
  intro b hb
  exact mem_chunks (k := m.length / 16) (by omega) hb

/-- GHASH of SP 800-38D is the value at the hash key of the polynomial whose coefficients are the blocks. -/
theorem ghash_eval (H m : Bytes) (hH : H.length = 16) : el (ghash H m) = evalAt (el H) (blocks m) %ₘ g := by
  have h := fold_eval H hH (blocks m) (blocks_length m) (List.replicate 16 0) (by simp)
  rw [el_zero, zero_mul, zero_add] at h
  have hd : (el (ghash H m)).degree < g.degree := by
    have := poly_degree (bits (ghash H m))
    rw [Ghash.bits_length, Ghash.ghash_length _ _ hH] at this
    rw [g_degree]
    exact this
  have h1 := (modByMonic_eq_self_iff g_monic).mpr hd
  have h2 := modByMonic_eq_of_dvd_sub g_monic h
  rw [← h1, ← h2]
  rfl

/-- **C36**: the value computed by the code is the evaluation at the hash key, in GF(2)[x]/(g), of the polynomial
whose coefficients are the blocks of the padded data. A block of 16 bytes is determined by its polynomial
(`poly_inj`), so this says which bytes come out. -/
theorem C36_evaluation {I : Ghash.Impl} (hI : I.Correct) (st : Ghash.State I) (key : Bytes) (hk : key.length = 16)
    (ds : List Bytes) :
    ∃ st1 st2 t, Ghash.updates (Ghash.reset st (some key)) ds = .ok st1 ∧ Ghash.finalize st1 16 = .ok (st2, t) ∧
      t.length = 16 ∧ el t = evalAt (el key) (blocks (ds.flatten ++ pad ds.flatten)) %ₘ g := by
  obtain ⟨st1, st2, h1, h2⟩ := Ghash.C36_ghash_of hI st key hk ds 16
  have hl := Ghash.ghash_length key (ds.flatten ++ pad ds.flatten) hk
  rw [List.take_of_length_le (by omega)] at h2
  exact ⟨st1, st2, _, h1, h2, hl, ghash_eval key _ hk⟩

end

/-- Both word sizes and both byte orders meet the hypothesis. -/
example : (Ghash.word64 false).Correct ∧ (Ghash.word64 true).Correct ∧ (Ghash.word32 false).Correct ∧
    (Ghash.word32 true).Correct :=
  ⟨Ghash.word64_correct _, Ghash.word64_correct _, Ghash.word32_correct _, Ghash.word32_correct _⟩

end Noise.GhashField
