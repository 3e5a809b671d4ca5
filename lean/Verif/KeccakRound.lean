import Verif.Keccak
import Verif.Fips202
/-!
# A round of `KeccakF1600_StatePermute` is `Rnd` of FIPS 202
-/

namespace Noise.Keccak
open Noise.Fips202

/-! ## The permutation -/

/-- Bit `z` of a word. -/
def bit (a : UInt64) (z : Nat) : Bool := a.toNat.testBit z

theorem bit_xor (a b : UInt64) (z : Nat) : bit (a ^^^ b) z = xor (bit a z) (bit b z) := by
  unfold bit; rw [UInt64.toNat_xor, Nat.testBit_xor]

theorem bit_and (a b : UInt64) (z : Nat) : bit (a &&& b) z = (bit a z && bit b z) := by
  unfold bit; rw [UInt64.toNat_and, Nat.testBit_and]

theorem bit_not (a : UInt64) (z : Nat) (hz : z < 64) : bit (~~~a) z = xor (bit a z) true := by
  unfold bit
  rw [UInt64.toNat_not, Nat.sub_right_comm]
  have : UInt64.size - a.toNat - 1 = 2 ^ 64 - (a.toNat + 1) := by have := a.toNat_lt; unfold UInt64.size; omega
  rw [this, Nat.testBit_two_pow_sub_succ a.toNat_lt]
  simp [hz]

theorem bit_rol (a k : UInt64) (z : Nat) (hz : z < 64) (h0 : 0 < k.toNat) (hk : k.toNat < 64) :
    bit (rol a k) z = bit a ((z + 64 - k.toNat) % 64) := by
  have hs : (64 - k).toNat = 64 - k.toNat := by
    rw [UInt64.toNat_sub_of_le _ _ (by rw [UInt64.le_iff_toNat_le]; exact Nat.le_of_lt hk)]; rfl
  unfold rol
  rw [bit_xor]
  unfold bit
  rw [UInt64.toNat_shiftLeft, UInt64.toNat_shiftRight, hs, Nat.mod_eq_of_lt hk, Nat.mod_eq_of_lt (by omega : 64 - k.toNat < 64),
    Nat.testBit_mod_two_pow, Nat.testBit_shiftLeft, Nat.testBit_shiftRight]
  simp only [hz, decide_true, Bool.true_and]
  by_cases h : k.toNat ≤ z
  · have e : (z + 64 - k.toNat) % 64 = z - k.toNat := by omega
    have : a.toNat.testBit (64 - k.toNat + z) = false :=
      Nat.testBit_lt_two_pow (Nat.lt_of_lt_of_le a.toNat_lt (Nat.pow_le_pow_right (by decide) (by omega)))
    rw [e, this]; simp [h]
  · have e : (z + 64 - k.toNat) % 64 = 64 - k.toNat + z := by omega
    rw [e]; simp [h]

/-- Lane `(x, y)` of the local variables. -/
def Lanes.lane (s : Lanes) (x y : Nat) : UInt64 := (toState s).getD (5 * y + x) 0

/-- The local variables hold a state array. -/
def Holds (s : Lanes) (a : StateArray) : Prop := ∀ x < 5, ∀ y < 5, ∀ z < 64, bit (s.lane x y) z = a x y z

theorem rho00 : rhoOffset 0 0 = 0 := by decide
theorem rho10 : rhoOffset 1 0 = 1 := by decide
theorem rho20 : rhoOffset 2 0 = 62 := by decide
theorem rho30 : rhoOffset 3 0 = 28 := by decide
theorem rho40 : rhoOffset 4 0 = 27 := by decide
theorem rho01 : rhoOffset 0 1 = 36 := by decide
theorem rho11 : rhoOffset 1 1 = 44 := by decide
theorem rho21 : rhoOffset 2 1 = 6 := by decide
theorem rho31 : rhoOffset 3 1 = 55 := by decide
theorem rho41 : rhoOffset 4 1 = 20 := by decide
theorem rho02 : rhoOffset 0 2 = 3 := by decide
theorem rho12 : rhoOffset 1 2 = 10 := by decide
theorem rho22 : rhoOffset 2 2 = 43 := by decide
theorem rho32 : rhoOffset 3 2 = 25 := by decide
theorem rho42 : rhoOffset 4 2 = 39 := by decide
theorem rho03 : rhoOffset 0 3 = 41 := by decide
theorem rho13 : rhoOffset 1 3 = 45 := by decide
theorem rho23 : rhoOffset 2 3 = 15 := by decide
theorem rho33 : rhoOffset 3 3 = 21 := by decide
theorem rho43 : rhoOffset 4 3 = 8 := by decide
theorem rho04 : rhoOffset 0 4 = 18 := by decide
theorem rho14 : rhoOffset 1 4 = 2 := by decide
theorem rho24 : rhoOffset 2 4 = 61 := by decide
theorem rho34 : rhoOffset 3 4 = 56 := by decide
theorem rho44 : rhoOffset 4 4 = 14 := by decide

theorem roundE_eq (s : Lanes) (rc : UInt64) : roundE s rc = roundA s rc := rfl

set_option hygiene false in
local macro "tac" : tactic =>
  `(tactic| (
    simp (disch := first | assumption | exact Nat.mod_lt _ (by decide) | decide) only [Lanes.lane, toState, roundA,
      Nat.reduceMul, Nat.reduceAdd, Nat.reduceMod, List.getD_cons_zero, List.getD_cons_succ, bit_xor, bit_and, bit_not, bit_rol]
    simp (disch := first | assumption | exact Nat.mod_lt _ (by decide) | decide) only [rho00, rho10, rho20, rho30, rho40, rho01, rho11, rho21, rho31, rho41, rho02, rho12, rho22, rho32, rho42, rho03, rho13, rho23, rho33, rho43, rho04, rho14, rho24, rho34, rho44,
      hba, hbe, hbi, hbo, hbu, hga, hge, hgi, hgo, hgu, hka, hke, hki, hko, hku, hma, hme, hmi, hmo, hmu, hsa, hse, hsi, hso, hsu, Nat.reduceMul, Nat.reduceAdd, Nat.reduceMod, Nat.zero_add, Nat.mul_zero]
    simp only [UInt64.reduceToNat, e63, ez, hc z hz, and_self, if_true, reduceIte, reduceCtorEq, Nat.reduceEqDiff, and_true,
      true_and, and_false, false_and, Nat.succ_ne_zero]))

set_option maxHeartbeats 2000000 in
theorem roundA_ok {s : Lanes} {a : StateArray} {rc : UInt64} {i : Nat} (h : Holds s a)
    (hc : ∀ z < 64, bit rc z = roundConstant i z) : Holds (roundA s rc) (rnd a i) := by
  have hm : ∀ z, z % 64 < 64 := fun z => Nat.mod_lt _ (by decide)
  have hba : ∀ z < 64, a 0 0 z = bit s.ba z := fun z hz => (h 0 (by decide) 0 (by decide) z hz).symm
  have hbe : ∀ z < 64, a 1 0 z = bit s.be z := fun z hz => (h 1 (by decide) 0 (by decide) z hz).symm
  have hbi : ∀ z < 64, a 2 0 z = bit s.bi z := fun z hz => (h 2 (by decide) 0 (by decide) z hz).symm
  have hbo : ∀ z < 64, a 3 0 z = bit s.bo z := fun z hz => (h 3 (by decide) 0 (by decide) z hz).symm
  have hbu : ∀ z < 64, a 4 0 z = bit s.bu z := fun z hz => (h 4 (by decide) 0 (by decide) z hz).symm
  have hga : ∀ z < 64, a 0 1 z = bit s.ga z := fun z hz => (h 0 (by decide) 1 (by decide) z hz).symm
  have hge : ∀ z < 64, a 1 1 z = bit s.ge z := fun z hz => (h 1 (by decide) 1 (by decide) z hz).symm
  have hgi : ∀ z < 64, a 2 1 z = bit s.gi z := fun z hz => (h 2 (by decide) 1 (by decide) z hz).symm
  have hgo : ∀ z < 64, a 3 1 z = bit s.go z := fun z hz => (h 3 (by decide) 1 (by decide) z hz).symm
  have hgu : ∀ z < 64, a 4 1 z = bit s.gu z := fun z hz => (h 4 (by decide) 1 (by decide) z hz).symm
  have hka : ∀ z < 64, a 0 2 z = bit s.ka z := fun z hz => (h 0 (by decide) 2 (by decide) z hz).symm
  have hke : ∀ z < 64, a 1 2 z = bit s.ke z := fun z hz => (h 1 (by decide) 2 (by decide) z hz).symm
  have hki : ∀ z < 64, a 2 2 z = bit s.ki z := fun z hz => (h 2 (by decide) 2 (by decide) z hz).symm
  have hko : ∀ z < 64, a 3 2 z = bit s.ko z := fun z hz => (h 3 (by decide) 2 (by decide) z hz).symm
  have hku : ∀ z < 64, a 4 2 z = bit s.ku z := fun z hz => (h 4 (by decide) 2 (by decide) z hz).symm
  have hma : ∀ z < 64, a 0 3 z = bit s.ma z := fun z hz => (h 0 (by decide) 3 (by decide) z hz).symm
  have hme : ∀ z < 64, a 1 3 z = bit s.me z := fun z hz => (h 1 (by decide) 3 (by decide) z hz).symm
  have hmi : ∀ z < 64, a 2 3 z = bit s.mi z := fun z hz => (h 2 (by decide) 3 (by decide) z hz).symm
  have hmo : ∀ z < 64, a 3 3 z = bit s.mo z := fun z hz => (h 3 (by decide) 3 (by decide) z hz).symm
  have hmu : ∀ z < 64, a 4 3 z = bit s.mu z := fun z hz => (h 4 (by decide) 3 (by decide) z hz).symm
  have hsa : ∀ z < 64, a 0 4 z = bit s.sa z := fun z hz => (h 0 (by decide) 4 (by decide) z hz).symm
  have hse : ∀ z < 64, a 1 4 z = bit s.se z := fun z hz => (h 1 (by decide) 4 (by decide) z hz).symm
  have hsi : ∀ z < 64, a 2 4 z = bit s.si z := fun z hz => (h 2 (by decide) 4 (by decide) z hz).symm
  have hso : ∀ z < 64, a 3 4 z = bit s.so z := fun z hz => (h 3 (by decide) 4 (by decide) z hz).symm
  have hsu : ∀ z < 64, a 4 4 z = bit s.su z := fun z hz => (h 4 (by decide) 4 (by decide) z hz).symm
  intro x hx y hy z hz
  have e63 : ∀ n, n + 64 - 1 = n + 63 := fun _ => rfl
  have ez : (z + 64 - 0) % 64 = z := by omega
  unfold rnd iota chi pi rho theta
  dsimp only
  match x, y, hx, hy with
  | 0, 0, _, _ => tac
  | 1, 0, _, _ => tac
  | 2, 0, _, _ => tac
  | 3, 0, _, _ => tac
  | 4, 0, _, _ => tac
  | 0, 1, _, _ => tac
  | 1, 1, _, _ => tac
  | 2, 1, _, _ => tac
  | 3, 1, _, _ => tac
  | 4, 1, _, _ => tac
  | 0, 2, _, _ => tac
  | 1, 2, _, _ => tac
  | 2, 2, _, _ => tac
  | 3, 2, _, _ => tac
  | 4, 2, _, _ => tac
  | 0, 3, _, _ => tac
  | 1, 3, _, _ => tac
  | 2, 3, _, _ => tac
  | 3, 3, _, _ => tac
  | 4, 3, _, _ => tac
  | 0, 4, _, _ => tac
  | 1, 4, _, _ => tac
  | 2, 4, _, _ => tac
  | 3, 4, _, _ => tac
  | 4, 4, _, _ => tac

end Noise.Keccak
