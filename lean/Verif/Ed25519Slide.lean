import Verif.Ed25519Sign
/-!
# Sliding windows, `src/crypto/ed25519/modm-donna-64bit.h:240-280`

The digits represent the number, and the carry never runs off the end of the array.
-/

namespace Noise.Ed25519

/-- The number with the given digits, the least significant one first. -/
def lval : List Int → Int
  | [] => 0
  | a :: l => a + 2 * lval l

theorem lval_append (l l' : List Int) : lval (l ++ l') = lval l + 2 ^ l.length * lval l' := by
  induction l with
  | nil => simp [lval]
  | cons a l ih => simp only [List.cons_append, lval, ih, List.length_cons, pow_succ]; ring

theorem lval_zeros (n : Nat) : lval (List.replicate n 0) = 0 := by
  induction n with
  | zero => rfl
  | succ n ih => rw [List.replicate_succ, lval, ih]; rfl

def IsBits (l : List Int) : Prop := ∀ t ∈ l, t = 0 ∨ t = 1

theorem IsBits.nonneg {l : List Int} (h : IsBits l) : 0 ≤ lval l := by
  induction l with
  | nil => exact le_refl _
  | cons a l ih =>
    have := ih fun t ht => h t (List.mem_cons_of_mem _ ht)
    have ha := h a List.mem_cons_self
    rw [lval]
    omega

/-- Adding one. -/
def inc : List Int → List Int
  | [] => []
  | a :: l => if a = 0 then 1 :: l else 0 :: inc l

theorem inc_length (l : List Int) : (inc l).length = l.length := by
  induction l with
  | nil => rfl
  | cons a l ih =>
    rw [inc]
    by_cases h : a = 0
    · rw [if_pos h]; rfl
    · rw [if_neg h, List.length_cons, ih, List.length_cons]

theorem inc_bits {l : List Int} (h : IsBits l) : IsBits (inc l) := by
  induction l with
  | nil => exact h
  | cons a l ih =>
    have hl : IsBits l := fun t ht => h t (List.mem_cons_of_mem _ ht)
    rw [inc]
    by_cases h0 : a = 0
    · rw [if_pos h0]
      intro t ht
      rcases List.mem_cons.1 ht with rfl | ht
      · exact Or.inr rfl
      · exact hl t ht
    · rw [if_neg h0]
      intro t ht
      rcases List.mem_cons.1 ht with rfl | ht
      · exact Or.inl rfl
      · exact ih hl t ht

theorem inc_val {l : List Int} (h : IsBits l) (hl : lval l + 1 < 2 ^ l.length) : lval (inc l) = lval l + 1 := by
  induction l with
  | nil => simp [lval] at hl
  | cons a l ih =>
    have hb : IsBits l := fun t ht => h t (List.mem_cons_of_mem _ ht)
    rw [inc]
    by_cases h0 : a = 0
    · rw [if_pos h0, lval, lval, h0]; omega
    · have h1 : a = 1 := (h a List.mem_cons_self).resolve_left h0
      rw [lval, List.length_cons, pow_succ, h1] at hl
      rw [if_neg h0, lval, lval, ih hb (by omega), h1]
      omega

theorem getD_mid (p : List Int) (a : Int) (l : List Int) : (p ++ a :: l).getD p.length 0 = a := by
  simp [List.getD_eq_getElem?_getD]

theorem set_mid (p : List Int) (a v : Int) (l : List Int) : (p ++ a :: l).set p.length v = p ++ v :: l := by
  rw [List.set_append_right _ _ (le_refl _), Nat.sub_self, List.set_cons_zero]

theorem slideCarry_eq (p l : List Int) : slideCarry (p ++ l) p.length l.length = p ++ inc l := by
  induction l generalizing p with
  | nil => rfl
  | cons a l ih =>
    rw [List.length_cons, slideCarry, getD_mid, set_mid, set_mid, inc]
    by_cases h : a = 0
    · rw [if_pos h, if_pos h]
    · rw [if_neg h, if_neg h]
      have := ih (p ++ [0])
      rw [List.append_assoc, List.length_append, List.length_singleton, List.append_assoc] at this
      exact this

/-- The loop on `b`. -/
theorem slideDigit_ok {m : Int} (hm0 : 0 ≤ m) (hm : m ≤ 127) (lo : List Int) : ∀ (n c : Nat) (x : Int) (u : List Int), n + c ≤ 6 → IsBits u →
    lo.length + (c + 1) + u.length = 256 → x % 2 = 1 → -m ≤ x → x ≤ m →
    2 ^ (lo.length + (c + 1)) * lval u ≤ 2 ^ 253 → x * 2 ^ lo.length + 2 ^ (lo.length + (c + 1)) * lval u ≤ 2 ^ 253 →
    ∃ x' u', slideDigit m lo.length (lo ++ x :: (List.replicate c 0 ++ u)) n (c + 1) = lo ++ x' :: u' ∧ IsBits u' ∧
      u'.length = c + u.length ∧ x' % 2 = 1 ∧ -m ≤ x' ∧ x' ≤ m ∧ x' + 2 * lval u' = x + 2 ^ (c + 1) * lval u ∧
      2 ^ (lo.length + 1) * lval u' ≤ 2 ^ 253 := by
  have zeros : ∀ (c : Nat) (u : List Int), IsBits u → IsBits (List.replicate c 0 ++ u) := by
    intro c u hu t ht
    rcases List.mem_append.1 ht with ht | ht
    · exact Or.inl (List.eq_of_mem_replicate ht)
    · exact hu t ht
  have stop : ∀ (c : Nat) (x : Int) (u : List Int), IsBits u → x % 2 = 1 → -m ≤ x → x ≤ m →
      2 ^ (lo.length + (c + 1)) * lval u ≤ 2 ^ 253 →
      ∃ x' u', lo ++ x :: (List.replicate c 0 ++ u) = lo ++ x' :: u' ∧ IsBits u' ∧
      u'.length = c + u.length ∧ x' % 2 = 1 ∧ -m ≤ x' ∧ x' ≤ m ∧ x' + 2 * lval u' = x + 2 ^ (c + 1) * lval u ∧
      2 ^ (lo.length + 1) * lval u' ≤ 2 ^ 253 := by
    intro c x u hu h1 h2 h3 h4
    refine ⟨x, _, rfl, zeros c u hu, by simp, h1, h2, h3, ?_, ?_⟩
    · rw [lval_append, lval_zeros, List.length_replicate, pow_succ]; ring
    · rw [lval_append, lval_zeros, List.length_replicate]
      refine le_trans (le_of_eq ?_) h4
      rw [← Nat.add_assoc, pow_succ, pow_add, pow_succ]; ring
  intro n
  induction n with
  | zero => intro c x u _ hu _ h1 h2 h3 h4 _; exact stop c x u hu h1 h2 h3 h4
  | succ n ih =>
    intro c x u hn hu hl h1 h2 h3 h4 h5
    rw [slideDigit]
    match u, hl with
    | [], hl =>
      rw [if_neg (by simp only [List.length_nil] at hl; omega)]
      exact stop c x [] hu h1 h2 h3 h4
    | t :: u, hl =>
      rw [List.length_cons] at hl
      rw [if_pos (by omega)]
      have hub : IsBits u := fun t ht => hu t (List.mem_cons_of_mem _ ht)
      have hu0 := hub.nonneg
      have ht := hu t List.mem_cons_self
      have eq1 : lo ++ x :: (List.replicate c 0 ++ t :: u) = (lo ++ x :: List.replicate c 0) ++ t :: u := by simp
      have len1 : (lo ++ x :: List.replicate c 0).length = lo.length + (c + 1) := by simp
      have gx : (lo ++ x :: (List.replicate c 0 ++ t :: u)).getD lo.length 0 = x := getD_mid _ _ _
      have gt : (lo ++ x :: (List.replicate c 0 ++ t :: u)).getD (lo.length + (c + 1)) 0 = t := by
        rw [eq1, ← len1]; exact getD_mid _ _ _
      dsimp only
      rw [gx, gt]
      have hB : (2 : Int) ^ (c + 1) = 2 * 2 ^ c := by rw [pow_succ]; ring
      have hpc : (0 : Int) < 2 ^ c := by positivity
      have rep : ∀ (v : Int), lo ++ v :: (List.replicate c 0 ++ 0 :: u) = lo ++ v :: (List.replicate (c + 1) 0 ++ u) := by
        intro v
        rw [List.replicate_succ', List.append_assoc]
        rfl
      have hpj : (0 : Int) < 2 ^ lo.length := by positivity
      have hJ : (2 : Int) ^ (lo.length + (c + 1)) = 2 ^ lo.length * (2 * 2 ^ c) := by rw [pow_add, hB]
      have hJ2 : (2 : Int) ^ (lo.length + (c + 1 + 1)) = 2 ^ lo.length * (4 * 2 ^ c) := by
        rw [pow_add, pow_succ, hB]; ring
      have hB2 : (2 : Int) ^ (c + 1 + 1) = 4 * 2 ^ c := by rw [pow_succ, hB]; ring
      simp only [lval, hJ, hB] at h4 h5 ⊢
      by_cases c1 : x + t * (2 * 2 ^ c) ≤ m
      · rw [if_pos c1]
        have hty : 0 ≤ t * (2 * 2 ^ c) := by
          rcases ht with rfl | rfl
          · simp
          · omega
        rw [schar_of (by omega) (by omega), set_mid]
        have e2 : (lo ++ (x + t * (2 * 2 ^ c)) :: (List.replicate c 0 ++ t :: u)).set (lo.length + (c + 1)) 0 =
            lo ++ (x + t * (2 * 2 ^ c)) :: (List.replicate (c + 1) 0 ++ u) := by
          rw [← rep]
          have e3 := set_mid (lo ++ (x + t * (2 * 2 ^ c)) :: List.replicate c 0) t 0 u
          rw [show (lo ++ (x + t * (2 * 2 ^ c)) :: List.replicate c 0).length = lo.length + (c + 1) by simp] at e3
          simpa only [List.append_assoc, List.cons_append] using e3
        rw [e2]
        have hodd : (x + t * (2 * 2 ^ c)) % 2 = 1 := by
          rw [show x + t * (2 * 2 ^ c) = x + 2 * (t * 2 ^ c) by ring]; omega
        have hle : 2 ^ lo.length * (4 * 2 ^ c) * lval u ≤ 2 ^ lo.length * (2 * 2 ^ c) * (t + 2 * lval u) := by
          have : 0 ≤ 2 ^ lo.length * (2 * 2 ^ c) * t := by
            rcases ht with rfl | rfl
            · simp
            · positivity
          linarith
        obtain ⟨x', u', r1, r2, r3, r4, r5, r6, r7, r8⟩ := ih (c + 1) (x + t * (2 * 2 ^ c)) u (by omega) hub (by omega) hodd
          (by omega) c1 (by rw [hJ2]; linarith) (by rw [hJ2]; linarith)
        refine ⟨x', u', r1, r2, by rw [r3, List.length_cons]; omega, r4, r5, r6, ?_, r8⟩
        rw [r7, hB2]; ring
      · rw [if_neg c1]
        by_cases c2 : x - t * (2 * 2 ^ c) ≥ -m
        · rw [if_pos c2]
          have t1 : t = 1 := by
            rcases ht with rfl | rfl
            · exact absurd (by simpa using h3) c1
            · rfl
          subst t1
          have hx1 : 1 ≤ x := by omega
          rw [schar_of (by omega) (by omega), set_mid]
          -- the carry does not run off the end
          have hroom : 2 ^ lo.length * (4 * 2 ^ c) * (lval u + 1) ≤ (2 : Int) ^ 253 := by
            have hp : 2 ^ lo.length * (2 * 2 ^ c) * (1 + 2 * lval u) < (2 : Int) ^ 253 := by
              have : 1 * 2 ^ lo.length ≤ x * 2 ^ lo.length := mul_le_mul_of_nonneg_right hx1 hpj.le
              linarith
            by_cases hk : lo.length + (c + 1) + 1 ≤ 253
            · obtain ⟨q, hq⟩ := Nat.exists_eq_add_of_le hk
              have e : (2 : Int) ^ 253 = 2 ^ lo.length * (2 * 2 ^ c) * (2 * 2 ^ q) := by
                rw [hq, pow_add, pow_succ, hJ]; ring
              rw [e] at hp ⊢
              have hp' := lt_of_mul_lt_mul_left hp (by positivity)
              have : lval u + 1 ≤ 2 ^ q := by omega
              calc 2 ^ lo.length * (4 * 2 ^ c) * (lval u + 1) ≤ 2 ^ lo.length * (4 * 2 ^ c) * 2 ^ q :=
                    mul_le_mul_of_nonneg_left this (by positivity)
                _ = _ := by ring
            · exfalso
              have h6 : (2 : Int) ^ 253 ≤ 2 ^ (lo.length + (c + 1)) := pow_le_pow_right₀ (by norm_num) (by omega)
              rw [hJ] at h6
              have : 2 ^ lo.length * (2 * 2 ^ c) * 1 ≤ 2 ^ lo.length * (2 * 2 ^ c) * (1 + 2 * lval u) :=
                mul_le_mul_of_nonneg_left (by omega) (by positivity)
              linarith
          have hfit : lval u + 1 < 2 ^ u.length := by
            have h7 : (2 : Int) ^ 256 = 2 ^ lo.length * (2 * 2 ^ c) * (2 * 2 ^ u.length) := by
              rw [← hl, ← Nat.add_assoc, pow_succ, pow_add, hJ]; ring
            have h8 : (2 : Int) ^ 253 < 2 ^ 256 := by norm_num
            have h9 : 2 ^ lo.length * (4 * 2 ^ c) * (lval u + 1) < 2 ^ lo.length * (4 * 2 ^ c) * 2 ^ u.length := by
              calc _ ≤ (2 : Int) ^ 253 := hroom
                _ < 2 ^ 256 := h8
                _ = _ := by rw [h7]; ring
            exact lt_of_mul_lt_mul_left h9 (by positivity)
          have e2 : slideCarry (lo ++ (x - 1 * (2 * 2 ^ c)) :: (List.replicate c 0 ++ 1 :: u)) (lo.length + (c + 1))
              (256 - (lo.length + (c + 1))) = lo ++ (x - 1 * (2 * 2 ^ c)) :: (List.replicate (c + 1) 0 ++ inc u) := by
            have e3 := slideCarry_eq (lo ++ (x - 1 * (2 * 2 ^ c)) :: List.replicate c 0) (1 :: u)
            rw [show (lo ++ (x - 1 * (2 * 2 ^ c)) :: List.replicate c 0).length = lo.length + (c + 1) by simp,
              List.length_cons, show u.length + 1 = 256 - (lo.length + (c + 1)) by omega, inc, if_neg (by decide)] at e3
            rw [List.replicate_succ', List.append_assoc]
            simpa using e3
          rw [e2]
          have hv := inc_val hub hfit
          have hodd : (x - 1 * (2 * 2 ^ c)) % 2 = 1 := by
            rw [show x - 1 * (2 * 2 ^ c) = x - 2 * 2 ^ c by ring]; omega
          obtain ⟨x', u', r1, r2, r3, r4, r5, r6, r7, r8⟩ := ih (c + 1) (x - 1 * (2 * 2 ^ c)) (inc u) (by omega) (inc_bits hub)
            (by rw [inc_length]; omega) hodd (by omega) (by omega) (by rw [hJ2, hv]; exact hroom)
            (by rw [hJ2, hv]; linarith)
          refine ⟨x', u', r1, r2, by rw [r3, inc_length, List.length_cons]; omega, r4, r5, r6, ?_, r8⟩
          rw [r7, hB2, hv]; ring
        · rw [if_neg c2]
          have t1 : t = 1 := by
            rcases ht with rfl | rfl
            · exact absurd (by simpa using h3) c1
            · rfl
          subst t1
          rw [if_pos (by decide)]
          obtain ⟨x', u', r⟩ := stop c x (1 :: u) hu h1 h2 h3 (by rw [hJ, lval]; exact h4)
          rw [hB, lval] at r
          exact ⟨x', u', r⟩

/-- The digits of a sliding window. -/
def IsSlide (m : Int) (l : List Int) : Prop := ∀ t ∈ l, t = 0 ∨ t % 2 = 1 ∧ -m ≤ t ∧ t ≤ m

theorem slideAll_ok {m : Int} (hm0 : 1 ≤ m) (hm : m ≤ 127) : ∀ (n : Nat) (lo u : List Int), lo.length + u.length = 256 →
    u.length = n → IsBits u → IsSlide m lo → 2 ^ lo.length * lval u ≤ 2 ^ 253 →
    ∃ l, slideAll m (lo ++ u) lo.length n = l ∧ l.length = 256 ∧ IsSlide m l ∧ lval l = lval (lo ++ u) := by
  intro n
  induction n with
  | zero =>
    intro lo u hl hn _ hs _
    obtain rfl := List.length_eq_zero_iff.1 hn
    refine ⟨_, rfl, ?_, ?_, rfl⟩
    · rw [slideAll]; simpa using hl
    · rw [slideAll]; simpa using hs
  | succ n ih =>
    intro lo u hl hn hu hs hb
    match u, hn with
    | t :: u, hn =>
      rw [List.length_cons] at hn hl
      have hub : IsBits u := fun t ht => hu t (List.mem_cons_of_mem _ ht)
      have hu0 := hub.nonneg
      rw [slideAll, getD_mid]
      have hpj : (0 : Int) < 2 ^ lo.length := by positivity
      rw [lval] at hb
      by_cases h0 : t = 0
      · rw [if_pos h0]
        subst h0
        obtain ⟨l, e, r⟩ := ih (lo ++ [0]) u (by simp; omega) (by omega) hub
          (by
            intro t ht
            rcases List.mem_append.1 ht with ht | ht
            · exact hs t ht
            · exact Or.inl (List.mem_singleton.1 ht))
          (by rw [List.length_append, List.length_singleton, pow_succ]; linarith)
        rw [List.append_assoc, List.length_append] at e
        rw [List.append_assoc] at r
        exact ⟨l, e, r⟩
      · rw [if_neg h0]
        have t1 : t = 1 := (hu t List.mem_cons_self).resolve_left h0
        subst t1
        obtain ⟨x', u', r1, r2, r3, r4, r5, r6, r7, r8⟩ := slideDigit_ok (by omega) hm lo 6 0 1 u (by omega) hub (by omega)
          (by decide) (by omega) (by omega) (by rw [pow_add, zero_add, pow_one]; linarith) (by rw [pow_add, zero_add, pow_one]; linarith)
        rw [List.replicate_zero, List.nil_append] at r1
        rw [r1]
        obtain ⟨l, e, f1, f2, f3⟩ := ih (lo ++ [x']) u' (by simp; omega) (by omega) r2
          (by
            intro t ht
            rcases List.mem_append.1 ht with ht | ht
            · exact hs t ht
            · obtain rfl := List.mem_singleton.1 ht
              exact Or.inr ⟨r4, r5, r6⟩)
          (by rw [List.length_append, List.length_singleton]; exact r8)
        rw [List.append_assoc, List.length_append] at e
        refine ⟨l, e, f1, f2, ?_⟩
        rw [f3, List.append_assoc, List.singleton_append, lval_append, lval_append, lval, lval, r7, zero_add, pow_one]

theorem bits_ok (m : Nat) (v : UInt64) : IsBits (bits m v) ∧ (bits m v).length = m ∧
    (m ≤ 63 → lval (bits m v) = (v.toNat % 2 ^ m : Nat)) := by
  induction m generalizing v with
  | zero => exact ⟨fun t ht => by simp [bits] at ht, rfl, fun _ => by simp [bits, lval, Nat.mod_one]⟩
  | succ m ih =>
    obtain ⟨h1, h2, h3⟩ := ih (v >>> 1)
    have e : (v &&& 1).toNat = v.toNat % 2 := by
      rw [UInt64.toNat_and]
      exact Nat.and_one_is_mod _
    refine ⟨?_, ?_, ?_⟩
    · intro t ht
      rw [bits] at ht
      rcases List.mem_cons.1 ht with rfl | ht
      · rw [e]; omega
      · exact h1 t ht
    · rw [bits, List.length_cons, h2]
    · intro hm
      rw [bits, lval, h3 (by omega), e, Curve25519.shrs _ 1 (by omega) 1 rfl, pow_one]
      have := Nat.mod_mul (a := 2) (b := 2 ^ m) (x := v.toNat)
      rw [pow_succ, mul_comm (2 ^ m) 2, this]
      push_cast
      ring

theorem slidingWindow_ok {s : Modm} (h : s.Lt (2 ^ 32)) (hv : s.val < 2 ^ 253) {w : Nat} (hw : 2 ≤ w) (hw8 : w ≤ 8) :
    (slidingWindow s w).length = 256 ∧ IsSlide (2 ^ (w - 1) - 1) (slidingWindow s w) ∧ lval (slidingWindow s w) = s.val := by
  obtain ⟨⟨d0, d1, d2, d3⟩, d4⟩ := h
  obtain ⟨a0, b0, c0⟩ := bits_ok 56 s.l0
  obtain ⟨a1, b1, c1⟩ := bits_ok 56 s.l1
  obtain ⟨a2, b2, c2⟩ := bits_ok 56 s.l2
  obtain ⟨a3, b3, c3⟩ := bits_ok 56 s.l3
  obtain ⟨a4, b4, c4⟩ := bits_ok 32 s.l4
  have hlen : (bits 56 s.l0 ++ bits 56 s.l1 ++ bits 56 s.l2 ++ bits 56 s.l3 ++ bits 32 s.l4).length = 256 := by
    simp only [List.length_append]; omega
  have hbits : IsBits (bits 56 s.l0 ++ bits 56 s.l1 ++ bits 56 s.l2 ++ bits 56 s.l3 ++ bits 32 s.l4) := by
    intro t ht
    simp only [List.mem_append] at ht
    rcases ht with (((ht | ht) | ht) | ht) | ht
    · exact a0 t ht
    · exact a1 t ht
    · exact a2 t ht
    · exact a3 t ht
    · exact a4 t ht
  have hval : lval (bits 56 s.l0 ++ bits 56 s.l1 ++ bits 56 s.l2 ++ bits 56 s.l3 ++ bits 32 s.l4) = s.val := by
    simp only [lval_append, List.length_append, b0, b1, b2, b3]
    rw [c0 (by omega), c1 (by omega), c2 (by omega), c3 (by omega), c4 (by omega), Nat.mod_eq_of_lt d0,
      Nat.mod_eq_of_lt d1, Nat.mod_eq_of_lt d2, Nat.mod_eq_of_lt d3, Nat.mod_eq_of_lt d4]
    unfold Modm.val
    push_cast
    ring
  have hm1 : (1 : Int) ≤ 2 ^ (w - 1) - 1 := by
    have : (2 : Int) ^ 1 ≤ 2 ^ (w - 1) := pow_le_pow_right₀ (by norm_num) (by omega)
    omega
  have hm2 : (2 : Int) ^ (w - 1) - 1 ≤ 127 := by
    have : (2 : Int) ^ (w - 1) ≤ 2 ^ 7 := pow_le_pow_right₀ (by norm_num) (by omega)
    omega
  obtain ⟨l, e, r1, r2, r3⟩ := slideAll_ok hm1 hm2 256 [] _ (by rw [hlen]; rfl) hlen hbits
    (fun t ht => by simp at ht) (by rw [hval, List.length_nil, pow_zero, one_mul]; exact_mod_cast hv.le)
  rw [List.nil_append, hval] at r3
  rw [List.nil_append, List.length_nil] at e
  unfold slidingWindow
  rw [e]
  exact ⟨r1, r2, r3⟩

end Noise.Ed25519
