import Verif.NewHopeUniformProps
import Verif.NewHopeExample
/-!
# New Hope: a seed for which `poly_uniform` returns in the first iteration

Nothing here is a definition of the code base.
-/

namespace Noise.NewHope

open Rfc7539 (leNat)
open Keccak (shake128Absorb)

theorem word_leNat16 (p : Bytes) (i : Nat) : word p i = leNat p / 2 ^ (16 * i) % 2 ^ 16 := by
  rw [pow_mul, show (2 : Nat) ^ 16 = 256 ^ 2 by norm_num, ← pow_mul, ← Curve25519.leNat_drop, ← Curve25519.leNat_take,
    leNat_cons_getD, leNat_cons_getD (List.drop 1 _)]
  unfold word
  simp only [List.getD_eq_getElem?_getD, List.getElem?_drop, List.getElem?_take]
  have : leNat (List.drop 1 (List.drop 1 (List.take 2 (List.drop (2 * i) p)))) = 0 := by
    rw [List.drop_drop, List.drop_take]; rfl
  rw [this]
  simp

/-- The number of words below 5 q among the first `n` of column `o`. -/
def countGood (T o : Nat) : Nat → Nat
  | 0 => 0
  | n + 1 => (if T / 2 ^ (16 * (16 * n + o)) % 2 ^ 16 < 61445 then 1 else 0) + countGood T o n

/-- The first `n` columns have enough words below 5 q. -/
def enoughCheck (T : Nat) : Nat → Bool
  | 0 => true
  | n + 1 => Nat.ble 64 (countGood T n 84) && enoughCheck T n

theorem countGood_eq (buf : Bytes) (o : Nat) : ∀ n, countGood (leNat buf) o n =
    ∑ k ∈ Finset.range n, if word buf (16 * k + o) < 61445 then 1 else 0
  | 0 => rfl
  | n + 1 => by rw [Finset.sum_range_succ, countGood, countGood_eq buf o n, word_leNat16, Nat.add_comm]

theorem enough_of_check {buf : Bytes} (h : enoughCheck (leNat buf) 16 = true) : Enough buf := by
  have g : ∀ n, enoughCheck (leNat buf) n = true → ∀ o < n, 64 ≤ countGood (leNat buf) o 84 := by
    intro n
    induction n with
    | zero => intro _ o ho; omega
    | succ n ih =>
      intro h o ho
      rw [enoughCheck, Bool.and_eq_true] at h
      rcases Nat.lt_succ_iff_lt_or_eq.1 ho with ho | rfl
      · exact ih h.2 o ho
      · exact Nat.le_of_ble_eq_true h.1
  intro o ho
  have := g 16 h o ho
  rw [countGood_eq, ← Fin.sum_univ_eq_sum_range (fun k => if word buf (16 * k + o) < 61445 then 1 else 0)] at this
  rwa [Finset.card_filter]

set_option maxRecDepth 100000 in
theorem seed_check : (force (leNat (chunk (shake128Absorb (seedFrom 0)) 0)) fun T => enoughCheck T 16) = true := by decide +kernel

/-- `poly_uniform` returns for this seed, so that the hypotheses of both parts of **C71** are met. -/
theorem seed_returns : ∃ buf, IsChunk (seedFrom 0) 0 buf ∧ Enough buf ∧ ∃ a, polyUniform 1 (seedFrom 0) = some a := by
  have h := seed_check
  rw [force_eq] at h
  have e := enough_of_check h
  exact ⟨_, chunk_ok _ 0, e, C71_returns 1 (seedFrom 0) rfl 0 (by decide) _ (chunk_ok _ 0) e⟩

end Noise.NewHope
