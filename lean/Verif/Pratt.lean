import Mathlib.NumberTheory.LucasPrimality
import Mathlib.Tactic.NormNum.Prime
/-!
# Proofs of primality by Pratt certificates

The primes `2^255 - 19` and `2^252 + 27742317777372353535851937790883648493`.
-/

namespace Noise

/-- `acc * b ^ e` modulo `m` by repeated squaring; the first argument bounds the length of `e` in bits. -/
def powMod (m : Nat) : Nat → Nat → Nat → Nat → Nat
  | 0, _, _, acc => acc
  | f + 1, b, e, acc => powMod m f (b * b % m) (e / 2) (if e % 2 = 1 then acc * b % m else acc)

theorem powMod_eq (m : Nat) : ∀ f b e acc, e < 2 ^ f → (powMod m f b e acc : ZMod m) = acc * b ^ e
  | 0, b, e, acc, h => by
    have : e = 0 := by simpa using h
    simp [powMod, this]
  | f + 1, b, e, acc, h => by
    rw [powMod, powMod_eq m f _ _ _ (by rw [Nat.pow_succ] at h; omega)]
    have he : e = 2 * (e / 2) + e % 2 := by omega
    rw [ZMod.natCast_mod, Nat.cast_mul]
    conv_rhs => rw [he, pow_add, pow_mul]
    split
    · rename_i h1
      rw [h1, ZMod.natCast_mod, Nat.cast_mul]; ring
    · have h0 : e % 2 = 0 := by omega
      rw [h0]; ring

/-- A number is prime if the prime factors of its predecessor and a primitive root are given. -/
theorem pratt (n a f : Nat) (fs : List Nat) (hn : 1 < n) (hp : ∀ q ∈ fs, q.Prime) (hprod : fs.prod = n - 1) (hf : n < 2 ^ f)
    (h1 : powMod n f a (n - 1) 1 % n = 1) (h2 : ∀ q ∈ fs, powMod n f a ((n - 1) / q) 1 % n ≠ 1) : n.Prime := by
  have key : ∀ e, e ≤ n - 1 → ((a : ZMod n) ^ e = 1 ↔ powMod n f a e 1 % n = 1) := by
    intro e he
    have h := powMod_eq n f a e 1 (by omega)
    rw [Nat.cast_one, one_mul] at h
    rw [← h, show (1 : ZMod n) = ((1 : Nat) : ZMod n) by simp, ZMod.natCast_eq_natCast_iff, Nat.ModEq,
      Nat.mod_eq_of_lt hn]
  refine lucas_primality n a ((key _ (Nat.le_refl _)).2 h1) fun q hq hd => ?_
  rw [← hprod] at hd
  obtain ⟨r, hr, hqr⟩ := (Prime.dvd_prod_iff hq.prime).1 hd
  have : q = r := (Nat.prime_dvd_prime_iff_eq hq (hp r hr)).1 hqr
  subst this
  rw [Ne, key _ (Nat.div_le_self _ _)]
  exact h2 q hr

theorem prime_2773320623 : Nat.Prime 2773320623 :=
  pratt _ 5 32 [2, 2437, 569003] (by decide) (by
    simp only [List.forall_mem_cons, List.not_mem_nil, false_imp_iff, implies_true, and_true]; norm_num)
    (by decide +kernel) (by decide +kernel) (by decide +kernel) (by decide +kernel)

theorem prime_72106336199 : Nat.Prime 72106336199 :=
  pratt _ 7 37 [2, 13, 2773320623] (by decide) (by
    simp only [List.forall_mem_cons, List.not_mem_nil, false_imp_iff, implies_true, and_true]
    exact ⟨by norm_num, by norm_num, prime_2773320623⟩)
    (by decide +kernel) (by decide +kernel) (by decide +kernel) (by decide +kernel)

theorem prime_1919519569386763 : Nat.Prime 1919519569386763 :=
  pratt _ 2 51 [2, 7, 3, 19, 47, 47, 127, 8574133] (by decide) (by
    simp only [List.forall_mem_cons, List.not_mem_nil, false_imp_iff, implies_true, and_true]; norm_num)
    (by decide +kernel) (by decide +kernel) (by decide +kernel) (by decide +kernel)

theorem prime_31757755568855353 : Nat.Prime 31757755568855353 :=
  pratt _ 10 55 [2, 2, 2, 3, 31, 223, 107, 4153, 430751] (by decide) (by
    simp only [List.forall_mem_cons, List.not_mem_nil, false_imp_iff, implies_true, and_true]; norm_num)
    (by decide +kernel) (by decide +kernel) (by decide +kernel) (by decide +kernel)

theorem prime_75445702479781427272750846543864801 : Nat.Prime 75445702479781427272750846543864801 :=
  pratt _ 7 116 [2, 2, 2, 2, 2, 5, 5, 3, 3, 75707, 72106336199, 1919519569386763] (by decide) (by
    simp only [List.forall_mem_cons, List.not_mem_nil, false_imp_iff, implies_true, and_true]
    refine ⟨?_, ?_, ?_, ?_, ?_, ?_, ?_, ?_, ?_, ?_, prime_72106336199, prime_1919519569386763⟩ <;> norm_num)
    (by decide +kernel) (by decide +kernel) (by decide +kernel) (by decide +kernel)

theorem prime_big :
    Nat.Prime 74058212732561358302231226437062788676166966415465897661863160754340907 :=
  pratt _ 2 236 [2, 3, 353, 57467, 132049, 1923133, 31757755568855353, 75445702479781427272750846543864801] (by decide) (by
    simp only [List.forall_mem_cons, List.not_mem_nil, false_imp_iff, implies_true, and_true]
    refine ⟨?_, ?_, ?_, ?_, ?_, ?_, prime_31757755568855353, prime_75445702479781427272750846543864801⟩ <;> norm_num)
    (by decide +kernel) (by decide +kernel) (by decide +kernel) (by decide +kernel)

theorem prime_25519 : Nat.Prime (2 ^ 255 - 19) :=
  pratt _ 2 255 [2, 2, 3, 65147, 74058212732561358302231226437062788676166966415465897661863160754340907]
    (by decide +kernel) (by
      simp only [List.forall_mem_cons, List.not_mem_nil, false_imp_iff, implies_true, and_true]
      refine ⟨?_, ?_, ?_, ?_, prime_big⟩ <;> norm_num)
    (by decide +kernel) (by decide +kernel) (by decide +kernel) (by decide +kernel)

theorem prime_1257559732178653 : Nat.Prime 1257559732178653 :=
  pratt _ 2 51 [2, 2, 3, 7, 23, 531581, 1224481] (by decide +kernel) (by
    simp only [List.forall_mem_cons, List.not_mem_nil, false_imp_iff, implies_true, and_true]
    exact ⟨by norm_num, by norm_num, by norm_num, by norm_num, by norm_num, by norm_num, by norm_num⟩)
    (by decide +kernel) (by decide +kernel) (by decide +kernel) (by decide +kernel)

theorem prime_4434155615661930479 : Nat.Prime 4434155615661930479 :=
  pratt _ 17 62 [2, 41, 43, 1257559732178653] (by decide +kernel) (by
    simp only [List.forall_mem_cons, List.not_mem_nil, false_imp_iff, implies_true, and_true]
    exact ⟨by norm_num, by norm_num, by norm_num, prime_1257559732178653⟩)
    (by decide +kernel) (by decide +kernel) (by decide +kernel) (by decide +kernel)

theorem prime_172054593956031949258510691 : Nat.Prime 172054593956031949258510691 :=
  pratt _ 2 88 [2, 5, 1361, 2851, 4434155615661930479] (by decide +kernel) (by
    simp only [List.forall_mem_cons, List.not_mem_nil, false_imp_iff, implies_true, and_true]
    exact ⟨by norm_num, by norm_num, by norm_num, by norm_num, prime_4434155615661930479⟩)
    (by decide +kernel) (by decide +kernel) (by decide +kernel) (by decide +kernel)

theorem prime_292386187 : Nat.Prime 292386187 :=
  pratt _ 2 29 [2, 3, 3, 3, 3, 307, 5879] (by decide +kernel) (by
    simp only [List.forall_mem_cons, List.not_mem_nil, false_imp_iff, implies_true, and_true]
    exact ⟨by norm_num, by norm_num, by norm_num, by norm_num, by norm_num, by norm_num, by norm_num⟩)
    (by decide +kernel) (by decide +kernel) (by decide +kernel) (by decide +kernel)

theorem prime_213441916511 : Nat.Prime 213441916511 :=
  pratt _ 13 38 [2, 5, 73, 292386187] (by decide +kernel) (by
    simp only [List.forall_mem_cons, List.not_mem_nil, false_imp_iff, implies_true, and_true]
    exact ⟨by norm_num, by norm_num, by norm_num, prime_292386187⟩)
    (by decide +kernel) (by decide +kernel) (by decide +kernel) (by decide +kernel)

theorem prime_19757330305831588566944191468367130476339 : Nat.Prime 19757330305831588566944191468367130476339 :=
  pratt _ 2 134 [2, 269, 213441916511, 172054593956031949258510691] (by decide +kernel) (by
    simp only [List.forall_mem_cons, List.not_mem_nil, false_imp_iff, implies_true, and_true]
    exact ⟨by norm_num, by norm_num, prime_213441916511, prime_172054593956031949258510691⟩)
    (by decide +kernel) (by decide +kernel) (by decide +kernel) (by decide +kernel)

theorem prime_276602624281642239937218680557139826668747 : Nat.Prime 276602624281642239937218680557139826668747 :=
  pratt _ 2 138 [2, 7, 19757330305831588566944191468367130476339] (by decide +kernel) (by
    simp only [List.forall_mem_cons, List.not_mem_nil, false_imp_iff, implies_true, and_true]
    exact ⟨by norm_num, by norm_num, prime_19757330305831588566944191468367130476339⟩)
    (by decide +kernel) (by decide +kernel) (by decide +kernel) (by decide +kernel)

theorem prime_58964693 : Nat.Prime 58964693 :=
  pratt _ 2 26 [2, 2, 14741173] (by decide +kernel) (by
    simp only [List.forall_mem_cons, List.not_mem_nil, false_imp_iff, implies_true, and_true]
    exact ⟨by norm_num, by norm_num, by norm_num⟩)
    (by decide +kernel) (by decide +kernel) (by decide +kernel) (by decide +kernel)

theorem prime_3044861653679985063343 : Nat.Prime 3044861653679985063343 :=
  pratt _ 5 72 [2, 3, 11, 30703, 82163, 132667, 137849] (by decide +kernel) (by
    simp only [List.forall_mem_cons, List.not_mem_nil, false_imp_iff, implies_true, and_true]
    exact ⟨by norm_num, by norm_num, by norm_num, by norm_num, by norm_num, by norm_num, by norm_num⟩)
    (by decide +kernel) (by decide +kernel) (by decide +kernel) (by decide +kernel)

theorem prime_198211423230930754013084525763697 : Nat.Prime 198211423230930754013084525763697 :=
  pratt _ 5 108 [2, 2, 2, 2, 3, 23, 58964693, 3044861653679985063343] (by decide +kernel) (by
    simp only [List.forall_mem_cons, List.not_mem_nil, false_imp_iff, implies_true, and_true]
    exact ⟨by norm_num, by norm_num, by norm_num, by norm_num, by norm_num, by norm_num, prime_58964693, prime_3044861653679985063343⟩)
    (by decide +kernel) (by decide +kernel) (by decide +kernel) (by decide +kernel)

theorem prime_order25519 : Nat.Prime (2 ^ 252 + 27742317777372353535851937790883648493) :=
  pratt _ 2 253 [2, 2, 3, 11, 198211423230930754013084525763697, 276602624281642239937218680557139826668747]
    (by decide +kernel) (by
    simp only [List.forall_mem_cons, List.not_mem_nil, false_imp_iff, implies_true, and_true]
    exact ⟨by norm_num, by norm_num, by norm_num, by norm_num, prime_198211423230930754013084525763697, prime_276602624281642239937218680557139826668747⟩)
    (by decide +kernel) (by decide +kernel) (by decide +kernel) (by decide +kernel)

end Noise
