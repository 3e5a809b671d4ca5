import Verif.Pratt
/-!
# `2^448 - 2^224 - 1` is prime
-/

namespace Noise

theorem prime_3402277943 : Nat.Prime 3402277943 :=
  pratt _ 5 32 [2, 7, 151, 1609403] (by decide +kernel) (by
    simp only [List.forall_mem_cons, List.not_mem_nil, false_imp_iff, implies_true, and_true]
    exact ⟨by norm_num, by norm_num, by norm_num, by norm_num⟩)
    (by decide +kernel) (by decide +kernel) (by decide +kernel) (by decide +kernel)

theorem prime_1469495262398780123809 : Nat.Prime 1469495262398780123809 :=
  pratt _ 17 71 [2, 2, 2, 2, 2, 3, 7, 7, 223, 411743, 3402277943] (by decide +kernel) (by
    simp only [List.forall_mem_cons, List.not_mem_nil, false_imp_iff, implies_true, and_true]
    exact ⟨by norm_num, by norm_num, by norm_num, by norm_num, by norm_num, by norm_num, by norm_num, by norm_num, by
      norm_num, by norm_num, prime_3402277943⟩)
    (by decide +kernel) (by decide +kernel) (by decide +kernel) (by decide +kernel)

theorem prime_97859369123353 : Nat.Prime 97859369123353 :=
  pratt _ 5 47 [2, 2, 2, 3, 3, 67, 197, 271, 379979] (by decide +kernel) (by
    simp only [List.forall_mem_cons, List.not_mem_nil, false_imp_iff, implies_true, and_true]
    exact ⟨by norm_num, by norm_num, by norm_num, by norm_num, by norm_num, by norm_num, by norm_num, by norm_num, by norm_num⟩)
    (by decide +kernel) (by decide +kernel) (by decide +kernel) (by decide +kernel)

theorem prime_167773885276849215533569 : Nat.Prime 167773885276849215533569 :=
  pratt _ 17 78 [2, 2, 2, 2, 2, 2, 2, 2, 2, 3, 3, 3, 7, 7, 2531, 97859369123353] (by decide +kernel) (by
    simp only [List.forall_mem_cons, List.not_mem_nil, false_imp_iff, implies_true, and_true]
    exact ⟨by norm_num, by norm_num, by norm_num, by norm_num, by norm_num, by norm_num, by norm_num, by norm_num, by
      norm_num, by norm_num, by norm_num, by norm_num, by norm_num, by norm_num, by norm_num, prime_97859369123353⟩)
    (by decide +kernel) (by decide +kernel) (by decide +kernel) (by decide +kernel)

theorem prime_1764234391 : Nat.Prime 1764234391 :=
  pratt _ 3 31 [2, 3, 5, 271, 217003] (by decide +kernel) (by
    simp only [List.forall_mem_cons, List.not_mem_nil, false_imp_iff, implies_true, and_true]
    exact ⟨by norm_num, by norm_num, by norm_num, by norm_num, by norm_num⟩)
    (by decide +kernel) (by decide +kernel) (by decide +kernel) (by decide +kernel)

theorem prime_34741861125639557 : Nat.Prime 34741861125639557 :=
  pratt _ 13 55 [2, 2, 7, 7, 7, 31, 463, 1764234391] (by decide +kernel) (by
    simp only [List.forall_mem_cons, List.not_mem_nil, false_imp_iff, implies_true, and_true]
    exact ⟨by norm_num, by norm_num, by norm_num, by norm_num, by norm_num, by norm_num, by norm_num, prime_1764234391⟩)
    (by decide +kernel) (by decide +kernel) (by decide +kernel) (by decide +kernel)

theorem prime_36131535570665139281 : Nat.Prime 36131535570665139281 :=
  pratt _ 3 65 [2, 2, 2, 2, 5, 13, 34741861125639557] (by decide +kernel) (by
    simp only [List.forall_mem_cons, List.not_mem_nil, false_imp_iff, implies_true, and_true]
    exact ⟨by norm_num, by norm_num, by norm_num, by norm_num, by norm_num, by norm_num, prime_34741861125639557⟩)
    (by decide +kernel) (by decide +kernel) (by decide +kernel) (by decide +kernel)

theorem prime_596242599987116128415063 : Nat.Prime 596242599987116128415063 :=
  pratt _ 5 79 [2, 37, 223, 36131535570665139281] (by decide +kernel) (by
    simp only [List.forall_mem_cons, List.not_mem_nil, false_imp_iff, implies_true, and_true]
    exact ⟨by norm_num, by norm_num, by norm_num, prime_36131535570665139281⟩)
    (by decide +kernel) (by decide +kernel) (by decide +kernel) (by decide +kernel)

theorem prime_36753053 : Nat.Prime 36753053 :=
  pratt _ 2 26 [2, 2, 7, 443, 2963] (by decide +kernel) (by
    simp only [List.forall_mem_cons, List.not_mem_nil, false_imp_iff, implies_true, and_true]
    exact ⟨by norm_num, by norm_num, by norm_num, by norm_num, by norm_num⟩)
    (by decide +kernel) (by decide +kernel) (by decide +kernel) (by decide +kernel)

theorem prime_1255525949 : Nat.Prime 1255525949 :=
  pratt _ 2 31 [2, 2, 2683, 116989] (by decide +kernel) (by
    simp only [List.forall_mem_cons, List.not_mem_nil, false_imp_iff, implies_true, and_true]
    exact ⟨by norm_num, by norm_num, by norm_num, by norm_num⟩)
    (by decide +kernel) (by decide +kernel) (by decide +kernel) (by decide +kernel)

theorem prime_1335912079 : Nat.Prime 1335912079 :=
  pratt _ 6 31 [2, 3, 19, 31, 61, 6197] (by decide +kernel) (by
    simp only [List.forall_mem_cons, List.not_mem_nil, false_imp_iff, implies_true, and_true]
    exact ⟨by norm_num, by norm_num, by norm_num, by norm_num, by norm_num, by norm_num⟩)
    (by decide +kernel) (by decide +kernel) (by decide +kernel) (by decide +kernel)

theorem prime_32061889897 : Nat.Prime 32061889897 :=
  pratt _ 10 35 [2, 2, 2, 3, 1335912079] (by decide +kernel) (by
    simp only [List.forall_mem_cons, List.not_mem_nil, false_imp_iff, implies_true, and_true]
    exact ⟨by norm_num, by norm_num, by norm_num, by norm_num, prime_1335912079⟩)
    (by decide +kernel) (by decide +kernel) (by decide +kernel) (by decide +kernel)

theorem prime_25136521679249 : Nat.Prime 25136521679249 :=
  pratt _ 3 45 [2, 2, 2, 2, 7, 7, 32061889897] (by decide +kernel) (by
    simp only [List.forall_mem_cons, List.not_mem_nil, false_imp_iff, implies_true, and_true]
    exact ⟨by norm_num, by norm_num, by norm_num, by norm_num, by norm_num, by norm_num, prime_32061889897⟩)
    (by decide +kernel) (by decide +kernel) (by decide +kernel) (by decide +kernel)

theorem prime_37414057161322375957408148834323969 : Nat.Prime 37414057161322375957408148834323969 :=
  pratt _ 23 115 [2, 2, 2, 2, 2, 2, 2, 2, 2, 3, 3, 7, 36753053, 1255525949, 25136521679249] (by decide +kernel) (by
    simp only [List.forall_mem_cons, List.not_mem_nil, false_imp_iff, implies_true, and_true]
    exact ⟨by norm_num, by norm_num, by norm_num, by norm_num, by norm_num, by norm_num, by norm_num, by norm_num, by
      norm_num, by norm_num, by norm_num, by norm_num, prime_36753053, prime_1255525949, prime_25136521679249⟩)
    (by decide +kernel) (by decide +kernel) (by decide +kernel) (by decide +kernel)

theorem
  prime_726838724295606890549323807888004534353641360687318060281490199180612328166730772686396383698676545930088884461843637361053498018365439
  : Nat.Prime
  726838724295606890549323807888004534353641360687318060281490199180612328166730772686396383698676545930088884461843637361053498018365439
  :=
  pratt _ 7 448 [2, 641, 18287, 196687, 1466449, 2916841, 6700417, 1469495262398780123809, 596242599987116128415063,
    167773885276849215533569, 37414057161322375957408148834323969] (by decide +kernel) (by
    simp only [List.forall_mem_cons, List.not_mem_nil, false_imp_iff, implies_true, and_true]
    exact ⟨by norm_num, by norm_num, by norm_num, by norm_num, by norm_num, by norm_num, by norm_num,
      prime_1469495262398780123809, prime_596242599987116128415063, prime_167773885276849215533569,
      prime_37414057161322375957408148834323969⟩)
    (by decide +kernel) (by decide +kernel) (by decide +kernel) (by decide +kernel)


set_option exponentiation.threshold 500

theorem prime_p448 : Nat.Prime (2 ^ 448 - 2 ^ 224 - 1) := by
  have h : 2 ^ 448 - 2 ^ 224 - 1 =
    726838724295606890549323807888004534353641360687318060281490199180612328166730772686396383698676545930088884461843637361053498018365439
    := by decide +kernel
  rw [h]
  exact
    prime_726838724295606890549323807888004534353641360687318060281490199180612328166730772686396383698676545930088884461843637361053498018365439

end Noise
