import Verif.KeccakRound
/-!
# `fips202.c` computes SHA3-256 and SHAKE128 of FIPS 202
-/

namespace Noise.Keccak
open Noise.Fips202

theorem roundConstants_ok : ∀ i < 24, ∀ z < 64, bit (roundConstants.getD i 0) z = roundConstant i z := by decide +kernel

theorem rounds_ok (n k : Nat) (hn : k + 2 * n ≤ 24) {s : Lanes} {a : StateArray} (h : Holds s a) :
    Holds (rounds n k s) ((List.range' k (2 * n)).foldl rnd a) := by
  induction n generalizing k s a with
  | zero => exact h
  | succ n ih =>
    have e : List.range' k (2 * (n + 1)) = k :: (k + 1) :: List.range' (k + 2) (2 * n) := by
      rw [show 2 * (n + 1) = 2 * n + 1 + 1 by omega, List.range'_succ, List.range'_succ]
    rw [e]
    unfold rounds
    rw [roundE_eq]
    exact ih (k + 2) (by omega) (roundA_ok (roundA_ok h (roundConstants_ok k (by omega))) (roundConstants_ok (k + 1) (by omega)))

/-- The string of a state: the words one after the other. -/
def wbits (s : List UInt64) : List Bool := s.flatMap fun w => (List.range 64).map (bit w)

theorem flatMap_get {α β : Type} (f : α → List β) (n : Nat) (b : β) (a : α) (h : ∀ i, (f i).length = n) (l : List α) (i j : Nat)
    (hi : i < l.length) (hj : j < n) : (l.flatMap f).getD (n * i + j) b = (f (l.getD i a)).getD j b := by
  induction l generalizing i with
  | nil => simp at hi
  | cons x l ih =>
    rw [List.flatMap_cons]
    cases i with
    | zero =>
      rw [Nat.mul_zero, Nat.zero_add, List.getD_eq_getElem?_getD, List.getElem?_append_left (by rw [h]; exact hj),
        ← List.getD_eq_getElem?_getD, List.getD_cons_zero]
    | succ i =>
      have e : n * (i + 1) + j = n + (n * i + j) := by rw [Nat.mul_succ]; omega
      rw [e, List.getD_eq_getElem?_getD, List.getElem?_append_right (by rw [h]; omega), h, Nat.add_sub_cancel_left,
        ← List.getD_eq_getElem?_getD, ih i (by simpa using hi), List.getD_cons_succ]

theorem flatMap_len {α β : Type} (f : α → List β) (n : Nat) (h : ∀ i, (f i).length = n) (l : List α) :
    (l.flatMap f).length = n * l.length := by
  induction l with
  | nil => rfl
  | cons x l ih => rw [List.flatMap_cons, List.length_append, h, ih, List.length_cons, Nat.mul_succ]; omega

theorem wbits_get (s : List UInt64) (i z : Nat) (hi : i < s.length) (hz : z < 64) :
    (wbits s).getD (64 * i + z) false = bit (s.getD i 0) z := by
  unfold wbits
  rw [flatMap_get (fun w => (List.range 64).map (bit w)) 64 false 0 (fun w => by rw [List.length_map, List.length_range]) s i z hi hz]
  rw [List.getD_eq_getElem?_getD, List.getElem?_map, List.getElem?_range hz]
  rfl

theorem wbits_len (s : List UInt64) : (wbits s).length = 64 * s.length :=
  flatMap_len _ 64 (fun w => by rw [List.length_map, List.length_range]) s

theorem list_ext_getD {β : Type} (b : β) {l m : List β} (hl : l.length = m.length) (h : ∀ i < l.length, l.getD i b = m.getD i b) :
    l = m := by
  refine List.ext_getElem hl fun i h1 h2 => ?_
  have := h i h1
  rwa [List.getD_eq_getElem?_getD, List.getD_eq_getElem?_getD, List.getElem?_eq_getElem h1, List.getElem?_eq_getElem h2] at this

theorem toString_get (a : StateArray) (x y z : Nat) (hx : x < 5) (hy : y < 5) (hz : z < 64) :
    (toString a).getD (64 * (5 * y + x) + z) false = a x y z := by
  have l1 : ∀ x y, ((List.range 64).map fun z => a x y z).length = 64 := fun x y => by rw [List.length_map, List.length_range]
  have l2 : ∀ y, ((List.range 5).flatMap fun x => (List.range 64).map fun z => a x y z).length = 320 := fun y => by
    rw [flatMap_len _ 64 (fun x => l1 x y), List.length_range]
  have r5 : ∀ k < 5, (List.range 5).getD k 0 = k := fun k hk => by
    rw [List.getD_eq_getElem?_getD, List.getElem?_range hk]; rfl
  unfold Fips202.toString
  have e : 64 * (5 * y + x) + z = 320 * y + (64 * x + z) := by omega
  rw [e, flatMap_get _ 320 false 0 l2 _ y _ (by rw [List.length_range]; exact hy) (by omega), r5 y hy,
    flatMap_get _ 64 false 0 (fun x => l1 x y) _ x z (by rw [List.length_range]; exact hx) hz, r5 x hx,
    List.getD_eq_getElem?_getD, List.getElem?_map, List.getElem?_range hz]
  rfl

theorem toString_len (a : StateArray) : (toString a).length = 1600 := by
  unfold Fips202.toString
  have l1 : ∀ x y, ((List.range 64).map fun z => a x y z).length = 64 := fun x y => by rw [List.length_map, List.length_range]
  have l2 : ∀ y, ((List.range 5).flatMap fun x => (List.range 64).map fun z => a x y z).length = 320 := fun y => by
    rw [flatMap_len _ 64 (fun x => l1 x y), List.length_range]
  rw [flatMap_len _ 320 l2, List.length_range]

theorem toState_len (s : Lanes) : (toState s).length = 25 := rfl

theorem permute_len (s : List UInt64) : (permute s).length = 25 := rfl

theorem toState_ofState (s : List UInt64) (k : Nat) (hk : k < 25) : (toState (ofState s)).getD k 0 = s.getD k 0 := by
  match k, hk with
  | 0, _ | 1, _ | 2, _ | 3, _ | 4, _ | 5, _ | 6, _ | 7, _ | 8, _ | 9, _ | 10, _ | 11, _ | 12, _ | 13, _ | 14, _ | 15, _
  | 16, _ | 17, _ | 18, _ | 19, _ | 20, _ | 21, _ | 22, _ | 23, _ | 24, _ => rfl
  | k + 25, h => exact absurd h (by omega)

/-- The permutation of the code is KECCAK-f[1600]. -/
theorem permute_ok (s : List UInt64) (hs : s.length = 25) : wbits (permute s) = keccakF (wbits s) := by
  have h0 : Holds (ofState s) (ofString (wbits s)) := by
    intro x hx y hy z hz
    unfold Lanes.lane ofString
    rw [toState_ofState s _ (by omega), wbits_get s _ z (by omega) hz]
  have h1 := rounds_ok 12 0 (by decide) h0
  rw [← List.range_eq_range'] at h1
  unfold keccakF
  refine list_ext_getD false (by rw [wbits_len, permute_len, toString_len]) fun k hk => ?_
  rw [wbits_len, permute_len] at hk
  have e : k = 64 * (5 * (k / 64 / 5) + k / 64 % 5) + k % 64 := by omega
  rw [e, toString_get _ _ _ _ (by omega) (by omega) (by omega), wbits_get _ _ _ (by rw [permute_len]; omega) (by omega)]
  exact h1 _ (by omega) _ (by omega) _ (by omega)

end Noise.Keccak
