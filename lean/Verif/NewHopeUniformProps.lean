import Verif.NewHopeBatcher
import Verif.NewHopeArith
import Verif.KeccakSponge
import Mathlib.Logic.Equiv.Basic
import Mathlib.Data.Fintype.Card
import Mathlib.Data.Fintype.EquivFin
/-!
# The uniform polynomial of New Hope
-/

namespace Noise.NewHope
open Noise.Keccak (shake128SqueezeBlocks shake128Absorb squeezeBlocks)

/-! ## Columns -/

/-- Word `k` of column `o`. -/
def col (o : Nat) (x : List UInt16) (k : Nat) : UInt16 := x.getD (16 * k + o) 0

/-- The words that the code moves to the end. -/
def bad (w : UInt16) : Bool := decide (61445 ≤ w.toNat)

theorem mask_ok (w t : UInt16) :
    t &&& UInt16.ofBitVec (BitVec.ofInt 16 (((61445 : Int) - 1 - (w.toNat : Int)) / 2 ^ 31)) = if bad w then t else 0 := by
  have hw := w.toNat_lt
  unfold bad
  by_cases h : 61445 ≤ w.toNat
  · have e : ((61445 : Int) - 1 - (w.toNat : Int)) / 2 ^ 31 = -1 := by omega
    rw [e, decide_eq_true h, if_pos rfl]
    have : UInt16.ofBitVec (BitVec.ofInt 16 (-1)) = 0xffff := by decide
    rw [this]
    apply UInt16.toNat_inj.1
    rw [UInt16.toNat_and]
    show t.toNat &&& (2 ^ 16 - 1) = _
    rw [Nat.and_two_pow_sub_one_eq_mod, Nat.mod_eq_of_lt t.toNat_lt]
  · have e : ((61445 : Int) - 1 - (w.toNat : Int)) / 2 ^ 31 = 0 := by omega
    rw [e, decide_eq_false h, if_neg (by decide)]
    have : UInt16.ofBitVec (BitVec.ofInt 16 0) = 0 := by decide
    rw [this]
    apply UInt16.toNat_inj.1
    rw [UInt16.toNat_and]
    show t.toNat &&& 0 = 0
    exact Nat.and_zero _

theorem getD_set (x : List UInt16) (i k : Nat) (v : UInt16) (hi : i < x.length) :
    (x.set i v).getD k 0 = if k = i then v else x.getD k 0 := by
  rw [List.getD_eq_getElem?_getD, List.getElem?_set, List.getD_eq_getElem?_getD]
  by_cases h : i = k
  · subst h; simp [hi]
  · rw [if_neg h, if_neg (Ne.symm h)]

theorem cas_length (o : Nat) (x : List UInt16) (p : Nat × Nat) : (compareAndSwap o x p).length = x.length := by
  unfold compareAndSwap; simp only [List.length_set]

theorem xor_self_left (a b : UInt16) : a ^^^ (a ^^^ b) = b := by
  rw [← UInt16.xor_assoc, UInt16.xor_self, UInt16.zero_xor]

theorem cas_get (o : Nat) (x : List UInt16) (hx : x.length = 1344) (i j : Nat) (hij : i < j) (hj : j < 84) (ho : o < 16) (m : Nat) :
    (compareAndSwap o x (i, j)).getD m 0 =
      if bad (col o x i) then (if m = 16 * i + o then col o x j else if m = 16 * j + o then col o x i else x.getD m 0)
      else x.getD m 0 := by
  unfold compareAndSwap
  dsimp only
  rw [mask_ok]
  have h1 : 16 * i + o < x.length := by omega
  have h2 : 16 * j + o < (x.set (16 * i + o) (x.getD (16 * i + o) 0 ^^^
      if bad (x.getD (16 * i + o) 0) then x.getD (16 * i + o) 0 ^^^ x.getD (16 * j + o) 0 else 0)).length := by
    rw [List.length_set]; omega
  rw [getD_set _ _ _ _ h2, getD_set _ _ _ _ h1, getD_set _ _ _ _ h1, if_neg (by omega : ¬ 16 * j + o = 16 * i + o)]
  unfold col
  cases hb : bad (x.getD (16 * i + o) 0)
  · simp only [Bool.false_eq_true, if_false, UInt16.xor_zero]
    split
    · next h => rw [h]
    · split
      · next h => rw [h]
      · rfl
  · simp only [if_true]
    by_cases e1 : m = 16 * i + o
    · rw [if_neg (by omega), if_pos e1, if_pos e1, xor_self_left]
    · rw [if_neg e1, if_neg e1]
      split
      · rw [UInt16.xor_comm (x.getD (16 * i + o) 0), xor_self_left]
      · rfl

theorem cas_other (o o' : Nat) (x : List UInt16) (hx : x.length = 1344) (i j : Nat) (hij : i < j) (hj : j < 84) (ho : o < 16)
    (ho' : o' < 16) (hne : o' ≠ o) (k : Nat) : col o' (compareAndSwap o x (i, j)) k = col o' x k := by
  unfold col
  rw [cas_get o x hx i j hij hj ho]
  rw [if_neg (by omega : ¬ 16 * k + o' = 16 * i + o), if_neg (by omega : ¬ 16 * k + o' = 16 * j + o)]
  split <;> rfl

theorem cas_col (o : Nat) (x : List UInt16) (hx : x.length = 1344) (i j : Nat) (hij : i < j) (hj : j < 84) (ho : o < 16) (k : Nat) :
    col o (compareAndSwap o x (i, j)) k =
      if bad (col o x i) then (if k = i then col o x j else if k = j then col o x i else col o x k) else col o x k := by
  have e := cas_get o x hx i j hij hj ho (16 * k + o)
  have e1 : (16 * k + o = 16 * i + o) = (k = i) := by simp only [eq_iff_iff]; omega
  have e2 : (16 * k + o = 16 * j + o) = (k = j) := by simp only [eq_iff_iff]; omega
  simp only [e1, e2] at e
  exact e

theorem cas_bad (o : Nat) (x : List UInt16) (hx : x.length = 1344) (i j : Nat) (hij : i < j) (hj : j < 84) (ho : o < 16) :
    (fun k => bad (col o (compareAndSwap o x (i, j)) k)) = bstep (fun k => bad (col o x k)) (i, j) := by
  funext k
  rw [cas_col o x hx i j hij hj ho k]
  unfold bstep
  dsimp only
  by_cases h : bad (col o x i)
  · rw [if_pos h, h]
    by_cases h1 : k = i
    · simp [h1]
    · by_cases h2 : k = j
      · subst h2; simp [h1, h]
      · simp [h1, h2]
  · rw [if_neg h]
    have h' : bad (col o x i) = false := by simpa using h
    rw [h']
    by_cases h1 : k = i
    · subst h1; simp [h']
    · by_cases h2 : k = j
      · subst h2; simp [h1]
      · simp [h1, h2]

theorem cas_perm (o : Nat) (x : List UInt16) (hx : x.length = 1344) (i j : Nat) (hij : i < j) (hj : j < 84) (ho : o < 16) :
    ∃ σ : Equiv.Perm (Fin 84), ∀ k : Fin 84, col o (compareAndSwap o x (i, j)) k = col o x (σ k) := by
  by_cases h : bad (col o x i)
  · refine ⟨Equiv.swap ⟨i, by omega⟩ ⟨j, hj⟩, fun k => ?_⟩
    rw [cas_col o x hx i j hij hj ho k, if_pos h, Equiv.swap_apply_def]
    by_cases h1 : k.1 = i
    · rw [if_pos h1, if_pos (Fin.ext h1)]
    · rw [if_neg h1, if_neg (fun e => h1 (congrArg Fin.val e))]
      by_cases h2 : k.1 = j
      · rw [if_pos h2, if_pos (Fin.ext h2)]
      · rw [if_neg h2, if_neg (fun e => h2 (congrArg Fin.val e))]
  · exact ⟨1, fun k => by rw [cas_col o x hx i j hij hj ho k, if_neg h]; rfl⟩

theorem batcherPairs_inside : inside 0 84 batcherPairs = true := by decide +kernel

/-- The effect of a list of comparisons on column `o`. -/
theorem cas_fold (o : Nat) (ho : o < 16) (pairs : List (Nat × Nat)) (hp : ∀ p ∈ pairs, p.1 < p.2 ∧ p.2 < 84) (x : List UInt16)
    (hx : x.length = 1344) :
    (pairs.foldl (compareAndSwap o) x).length = 1344 ∧
    (∀ o' < 16, o' ≠ o → ∀ k, col o' (pairs.foldl (compareAndSwap o) x) k = col o' x k) ∧
    (∃ σ : Equiv.Perm (Fin 84), ∀ k : Fin 84, col o (pairs.foldl (compareAndSwap o) x) k = col o x (σ k)) ∧
    (fun k => bad (col o (pairs.foldl (compareAndSwap o) x) k)) = pairs.foldl bstep fun k => bad (col o x k) := by
  induction pairs generalizing x with
  | nil => exact ⟨hx, fun _ _ _ _ => rfl, ⟨1, fun _ => rfl⟩, rfl⟩
  | cons p pairs ih =>
    obtain ⟨i, j⟩ := p
    obtain ⟨h1, h2⟩ := hp (i, j) List.mem_cons_self
    obtain ⟨a, b, ⟨σ, c⟩, d⟩ := ih (fun q hq => hp q (List.mem_cons_of_mem _ hq)) (compareAndSwap o x (i, j))
      ((cas_length _ _ _).trans hx)
    obtain ⟨τ, t⟩ := cas_perm o x hx i j h1 h2 ho
    rw [List.foldl_cons, List.foldl_cons]
    refine ⟨a, fun o' l n k => (b o' l n k).trans (cas_other o o' x hx i j h1 h2 ho l n k), ⟨τ * σ, fun k => ?_⟩, ?_⟩
    · rw [c k, t (σ k)]; rfl
    · rw [d, cas_bad o x hx i j h1 h2 ho]

theorem batcher84_ok (o : Nat) (ho : o < 16) (x : List UInt16) (hx : x.length = 1344) :
    (batcher84 o x).length = 1344 ∧
    (∀ o' < 16, o' ≠ o → ∀ k, col o' (batcher84 o x) k = col o' x k) ∧
    (∃ σ : Equiv.Perm (Fin 84), ∀ k : Fin 84, col o (batcher84 o x) k = col o x (σ k)) ∧
    Sorted (fun k => bad (col o (batcher84 o x) k)) 0 84 := by
  obtain ⟨a, b, c, d⟩ := cas_fold o ho batcherPairs (fun p hp => (inside_ok batcherPairs_inside p hp).2) x hx
  refine ⟨a, b, c, ?_⟩
  show Sorted (fun k => bad (col o (batcherPairs.foldl (compareAndSwap o) x) k)) 0 84
  rw [d]
  exact batcher_sorts _

theorem columns_ok (x : List UInt16) (hx : x.length = 1344) (n : Nat) (hn : n ≤ 16) :
    ((List.range n).foldl (fun x o => batcher84 o x) x).length = 1344 ∧
    (∀ o, n ≤ o → o < 16 → ∀ k, col o ((List.range n).foldl (fun x o => batcher84 o x) x) k = col o x k) ∧
    ∀ o < n, (∃ σ : Equiv.Perm (Fin 84), ∀ k : Fin 84,
        col o ((List.range n).foldl (fun x o => batcher84 o x) x) k = col o x (σ k)) ∧
      Sorted (fun k => bad (col o ((List.range n).foldl (fun x o => batcher84 o x) x) k)) 0 84 := by
  induction n with
  | zero => exact ⟨hx, fun _ _ _ _ => rfl, fun o ho => absurd ho (Nat.not_lt_zero _)⟩
  | succ n ih =>
    obtain ⟨a, b, c⟩ := ih (by omega)
    rw [List.range_succ, List.foldl_append, List.foldl_cons, List.foldl_nil]
    generalize (List.range n).foldl (fun x o => batcher84 o x) x = y at *
    obtain ⟨a', b', ⟨σ, c'⟩, d'⟩ := batcher84_ok n (by omega) y a
    refine ⟨a', fun o h1 h2 k => (b' o h2 (by omega) k).trans (b o (by omega) h2 k), fun o ho => ?_⟩
    by_cases h : o = n
    · subst h
      exact ⟨⟨σ, fun k => (c' k).trans (b o (Nat.le_refl _) (by omega) _)⟩, d'⟩
    · obtain ⟨⟨τ, t⟩, s⟩ := c o (by omega)
      refine ⟨⟨τ, fun k => (b' o (by omega) h k).trans (t k)⟩, ?_⟩
      have e : (fun k => bad (col o (batcher84 n y) k)) = fun k => bad (col o y k) := by
        funext k; rw [b' o (by omega) h k]
      rw [e]
      exact s

/-! ## `discardtopoly` -/

/-- The 16-bit number at word `i` of a string of bytes, low byte first. -/
def word (buf : Bytes) (i : Nat) : Nat := (buf.getD (2 * i) 0).toNat + 256 * (buf.getD (2 * i + 1) 0).toNat

/-- The words that `discardtopoly` reads. -/
def words (buf : Bytes) : List UInt16 :=
  (List.range 1344).map fun i => (buf.getD (2 * i) 0).toUInt16 ||| (buf.getD (2 * i + 1) 0).toUInt16 <<< 8

theorem words_length (buf : Bytes) : (words buf).length = 1344 := by
  unfold words; rw [List.length_map, List.length_range]

theorem le_word (a b : UInt8) : (a.toUInt16 ||| b.toUInt16 <<< 8).toNat = a.toNat + 256 * b.toNat := by
  have ha := a.toNat_lt
  have hb := b.toNat_lt
  rw [UInt16.toNat_or, UInt16.toNat_shiftLeft]
  show a.toUInt16.toNat ||| (b.toUInt16.toNat <<< 8 % 2 ^ 16) = _
  rw [UInt8.toNat_toUInt16, UInt8.toNat_toUInt16, Nat.shiftLeft_eq, Nat.mod_eq_of_lt (by omega), Nat.or_comm,
    show b.toNat * 2 ^ 8 = 2 ^ 8 * b.toNat by omega, ← Nat.two_pow_add_eq_or_of_lt (by omega : a.toNat < 2 ^ 8)]
  omega

theorem col_words (buf : Bytes) (o k : Nat) (ho : o < 16) (hk : k < 84) : (col o (words buf) k).toNat = word buf (16 * k + o) := by
  unfold col words
  rw [List.getD_eq_getElem?_getD, List.getElem?_map, List.getElem?_range (by omega)]
  exact le_word _ _

/-- Column `o` of a string of bytes (words `o`, `o + 16`, ... of 84 words) has at least 64 words below 5 q. -/
def Enough (buf : Bytes) : Prop :=
  ∀ o < 16, 64 ≤ (Finset.univ.filter fun k : Fin 84 => word buf (16 * k + o) < 61445).card

/-- The polynomial `a` consists of words of `buf` below 5 q: those of places `o`, `o + 16`, ... are taken from the same places
modulo 16, each at most once. -/
def Selected (buf : Bytes) (a : Poly) : Prop :=
  a.length = 1024 ∧ ∀ o < 16, ∃ σ : Equiv.Perm (Fin 84), ∀ k : Fin 84, k.1 < 64 →
    (a.at (16 * k + o)).toNat = word buf (16 * σ k + o) ∧ (a.at (16 * k + o)).toNat < 61445

theorem bad_iff (w : UInt16) : bad w = true ↔ 61445 ≤ w.toNat := by unfold bad; exact decide_eq_true_iff

theorem good_card (buf : Bytes) (o : Nat) (ho : o < 16) (y : List UInt16) (σ : Equiv.Perm (Fin 84))
    (h : ∀ k : Fin 84, col o y k = col o (words buf) (σ k)) :
    (Finset.univ.filter fun k : Fin 84 => word buf (16 * k + o) < 61445).card =
      (Finset.univ.filter fun k : Fin 84 => (col o y k).toNat < 61445).card := by
  refine (Finset.card_equiv σ fun k => ?_).symm
  simp only [Finset.mem_filter, Finset.mem_univ, true_and]
  rw [h k, col_words buf o _ ho (σ k).2]

theorem sorted_card {f : Nat → UInt16} (hs : Sorted (fun k => bad (f k)) 0 84) :
    64 ≤ (Finset.univ.filter fun k : Fin 84 => (f k).toNat < 61445).card ↔ (f 63).toNat < 61445 := by
  constructor
  · intro h
    by_contra hn
    have hb : bad (f 63) = true := (bad_iff _).2 (by omega)
    have sub : (Finset.univ.filter fun k : Fin 84 => (f k).toNat < 61445) ⊆ Finset.univ.filter fun k : Fin 84 => k.1 < 63 := by
      intro k hk
      simp only [Finset.mem_filter, Finset.mem_univ, true_and] at hk ⊢
      by_contra hk'
      have := (bad_iff _).1 (hs 63 k.1 (by omega) (by omega) k.2 hb)
      omega
    have := Finset.card_le_card sub
    have c : (Finset.univ.filter fun k : Fin 84 => k.1 < 63).card = 63 := by decide +kernel
    omega
  · intro h
    have sub : (Finset.univ.filter fun k : Fin 84 => k.1 < 64) ⊆ Finset.univ.filter fun k : Fin 84 => (f k).toNat < 61445 := by
      intro k hk
      simp only [Finset.mem_filter, Finset.mem_univ, true_and] at hk ⊢
      by_contra hk'
      have := (bad_iff _).1 (hs k.1 63 (by omega) (by omega) (by omega) ((bad_iff _).2 (by omega)))
      omega
    have := Finset.card_le_card sub
    have c : (Finset.univ.filter fun k : Fin 84 => k.1 < 64).card = 64 := by decide +kernel
    omega

theorem discard_eq (buf : Bytes) : discardToPoly buf =
    if (List.range 16).any fun i =>
      decide ((61444 : Int) - (((List.range 16).foldl (fun x o => batcher84 o x) (words buf)).getD (1008 + i) 0).toNat < 0)
    then none else some (((List.range 16).foldl (fun x o => batcher84 o x) (words buf)).take N) := rfl

/-- `discardtopoly` succeeds exactly if each of the 16 columns has 64 words below 5 q, and then selects such words. -/
theorem discard_ok (buf : Bytes) :
    (Enough buf → ∃ a, discardToPoly buf = some a) ∧ ∀ a, discardToPoly buf = some a → Enough buf ∧ Selected buf a := by
  rw [discard_eq]
  obtain ⟨len, -, cols⟩ := columns_ok (words buf) (words_length buf) 16 (Nat.le_refl _)
  generalize (List.range 16).foldl (fun x o => batcher84 o x) (words buf) = y at *
  have en : Enough buf ↔ ∀ o < 16, (col o y 63).toNat < 61445 := by
    unfold Enough
    refine forall_congr' fun o => forall_congr' fun ho => ?_
    obtain ⟨⟨σ, h⟩, s⟩ := cols o ho
    rw [good_card buf o ho y σ h]
    exact sorted_card s
  have an : ((List.range 16).any fun i => decide ((61444 : Int) - (y.getD (1008 + i) 0).toNat < 0)) = true ↔ ¬ Enough buf := by
    rw [en, List.any_eq_true]
    constructor
    · rintro ⟨i, hi, h⟩ H
      have := H i (List.mem_range.1 hi)
      have h := of_decide_eq_true h
      change (y.getD (1008 + i) 0).toNat < 61445 at this
      omega
    · intro h
      simp only [not_forall] at h
      obtain ⟨o, ho, h⟩ := h
      change ¬ (y.getD (1008 + o) 0).toNat < 61445 at h
      exact ⟨o, List.mem_range.2 ho, decide_eq_true (by omega)⟩
  constructor
  · intro h
    rw [if_neg (fun c => an.1 c h)]
    exact ⟨_, rfl⟩
  · intro a ha
    by_cases h : Enough buf
    · rw [if_neg (fun c => an.1 c h)] at ha
      have ha : y.take N = a := Option.some.inj ha
      subst ha
      refine ⟨h, ?_, fun o ho => ?_⟩
      · rw [List.length_take, len]; rfl
      · obtain ⟨⟨σ, t⟩, s⟩ := cols o ho
        refine ⟨σ, fun k hk => ?_⟩
        have e : Poly.at (y.take N) (16 * k + o) = col o y k := by
          unfold Poly.at col
          rw [List.getD_eq_getElem?_getD, List.getElem?_take_of_lt (by unfold N; omega), List.getD_eq_getElem?_getD]
        rw [e]
        refine ⟨by rw [t k, col_words buf o _ ho (σ k).2], ?_⟩
        by_contra hn
        have b := (bad_iff _).1 (s k.1 63 (by omega) (by omega) (by omega) ((bad_iff _).2 (by omega)))
        have := en.1 h o ho
        omega
    · rw [if_pos (an.2 h)] at ha
      cases ha

/-! ## `poly_uniform` -/

/-- The string that iteration `j` of the loop gets. -/
def chunk (s : List UInt64) (j : Nat) : Bytes := (squeezeBlocks 168 16 (squeezeBlocks 168 (16 * j) s).2).1

theorem chunk_succ (s : List UInt64) (j : Nat) : chunk s (j + 1) = chunk (squeezeBlocks 168 16 s).2 j := by
  unfold chunk
  rw [show 16 * (j + 1) = 16 + 16 * j by omega, Keccak.squeezeBlocks_add]

theorem squeezeBlocks_zero (r : Nat) (s : List UInt64) : squeezeBlocks r 0 s = ([], s) := rfl

theorem chunk_zero (s : List UInt64) : chunk s 0 = (squeezeBlocks 168 16 s).1 := by
  unfold chunk
  rw [Nat.mul_zero, squeezeBlocks_zero]

/-- The string that iteration `j` of a loop gets. -/
def part {S : Type} (next : S → Bytes × S) : Nat → S → Bytes
  | 0, s => (next s).1
  | j + 1, s => part next j (next s).2

theorem untilAccepted_iff {S : Type} (next : S → Bytes × S) (accept : Bytes → Option Poly) (n : Nat) (s : S) (a : Poly) :
    untilAccepted next accept n s = some a ↔
      ∃ k < n, (∀ j < k, accept (part next j s) = none) ∧ accept (part next k s) = some a := by
  induction n generalizing s with
  | zero =>
    constructor
    · intro h; cases h
    · rintro ⟨k, h, _⟩; exact absurd h (Nat.not_lt_zero _)
  | succ n ih =>
    unfold untilAccepted
    cases hd : accept (next s).1 with
    | some b =>
      constructor
      · intro h
        exact ⟨0, Nat.succ_pos _, fun j hj => absurd hj (Nat.not_lt_zero _), hd.trans h⟩
      · rintro ⟨k, _, h1, h2⟩
        cases k with
        | zero => exact hd.symm.trans h2
        | succ k => have := hd.symm.trans (h1 0 (Nat.succ_pos _)); cases this
    | none =>
      dsimp only
      rw [ih]
      constructor
      · rintro ⟨k, hk, h1, h2⟩
        refine ⟨k + 1, by omega, fun j hj => ?_, h2⟩
        cases j with
        | zero => exact hd
        | succ j => exact h1 j (by omega)
      · rintro ⟨k, hk, h1, h2⟩
        cases k with
        | zero => have := hd.symm.trans h2; cases this
        | succ k => exact ⟨k, by omega, fun j hj => h1 (j + 1) (by omega), h2⟩

theorem part_eq (j : Nat) (s : List UInt64) : part (shake128SqueezeBlocks 16) j s = chunk s j := by
  induction j generalizing s with
  | zero => rw [chunk_zero, part, shake128SqueezeBlocks]
  | succ j ih => rw [chunk_succ, part, ih, shake128SqueezeBlocks]

theorem uniformLoop_iff (n : Nat) (s : List UInt64) (a : Poly) :
    uniformLoop n s = some a ↔ ∃ k < n, (∀ j < k, discardToPoly (chunk s j) = none) ∧ discardToPoly (chunk s k) = some a := by
  unfold uniformLoop
  rw [untilAccepted_iff]
  simp only [part_eq]

/-- Bytes `2688 j` to `2688 j + 2687` of the SHAKE128 output for a seed: the part that iteration `j` of the loop reads. -/
def IsChunk (seed : Bytes) (j : Nat) (buf : Bytes) : Prop :=
  Fips202.bits buf = (Fips202.shake128 (Fips202.bits seed) (21504 * (j + 1))).drop (21504 * j)

theorem chunk_ok (seed : Bytes) (j : Nat) : IsChunk seed j (chunk (shake128Absorb seed) j) := by
  have h := Keccak.C70_shake seed (16 * j + 16)
  unfold shake128SqueezeBlocks at h
  rw [Keccak.squeezeBlocks_add] at h
  unfold IsChunk
  rw [show 21504 * (j + 1) = 1344 * (16 * j + 16) by omega, ← h, Keccak.bits_append]
  have l : 21504 * j = (Fips202.bits (squeezeBlocks 168 (16 * j) (shake128Absorb seed)).1).length := by
    rw [Keccak.bits_len, Keccak.squeezeBlocks_len 168 (by decide)]; omega
  rw [l, List.drop_left]
  rfl

theorem bits_injective {a b : Bytes} (h : Fips202.bits a = Fips202.bits b) : a = b := by
  have l : a.length = b.length := by
    have := congrArg List.length h
    rw [Keccak.bits_len, Keccak.bits_len] at this; omega
  refine Keccak.list_ext_getD 0 l fun i hi => ?_
  apply UInt8.toNat_inj.1
  apply Nat.eq_of_testBit_eq
  intro j
  by_cases hj : j < 8
  · rw [← Keccak.bits_get a i j hi hj, ← Keccak.bits_get b i j (by omega) hj, h]
  · rw [Nat.testBit_lt_two_pow (Nat.lt_of_lt_of_le (UInt8.toNat_lt _) (Nat.pow_le_pow_right (by decide) (by omega : 8 ≤ j))),
      Nat.testBit_lt_two_pow (Nat.lt_of_lt_of_le (UInt8.toNat_lt _) (Nat.pow_le_pow_right (by decide) (by omega : 8 ≤ j)))]

/-- **C71.** If `poly_uniform` returns the polynomial `a`, there is an iteration `k` such that the parts of the SHAKE128
output before `k` had a column with fewer than 64 words below 5 q, and `a` consists of words below 5 q of part `k`. -/
theorem C71_uniform (n : Nat) (seed : Bytes) (hl : seed.length = 32) (a : Poly) (h : polyUniform n seed = some a) :
    ∃ k < n, ∃ buf, IsChunk seed k buf ∧ Enough buf ∧ Selected buf a ∧
      ∀ j < k, ∀ buf', IsChunk seed j buf' → ¬ Enough buf' := by
  unfold polyUniform at h
  rw [List.take_of_length_le (by omega)] at h
  obtain ⟨k, hk, h1, h2⟩ := (uniformLoop_iff _ _ _).1 h
  obtain ⟨e, s⟩ := (discard_ok _).2 a h2
  refine ⟨k, hk, _, chunk_ok seed k, e, s, fun j hj buf' hb he => ?_⟩
  have : buf' = chunk (shake128Absorb seed) j := bits_injective (Eq.trans hb (Eq.symm (chunk_ok seed j)))
  subst this
  obtain ⟨b, hb⟩ := (discard_ok _).1 he
  rw [h1 j hj] at hb
  cases hb

/-- **C71.** `poly_uniform` returns as soon as all 16 columns of a part of the SHAKE128 output have 64 words below 5 q. -/
theorem C71_returns (n : Nat) (seed : Bytes) (hl : seed.length = 32) (k : Nat) (hk : k < n) (buf : Bytes)
    (hb : IsChunk seed k buf) (he : Enough buf) : ∃ a, polyUniform n seed = some a := by
  have : buf = chunk (shake128Absorb seed) k := bits_injective (Eq.trans hb (Eq.symm (chunk_ok seed k)))
  subst this
  unfold polyUniform
  rw [List.take_of_length_le (by omega)]
  obtain ⟨b, hb⟩ := (discard_ok _).1 he
  induction n with
  | zero => exact absurd hk (Nat.not_lt_zero _)
  | succ n ih =>
    by_cases h : ∀ j < k, discardToPoly (chunk (shake128Absorb seed) j) = none
    · exact ⟨b, (uniformLoop_iff _ _ _).2 ⟨k, hk, h, hb⟩⟩
    · clear ih
      simp only [not_forall] at h
      have : ∃ j, j < k ∧ discardToPoly (chunk (shake128Absorb seed) j) ≠ none := by
        obtain ⟨j, h1, h2⟩ := h; exact ⟨j, h1, h2⟩
      have hf := Nat.find_spec this
      obtain ⟨c, hc⟩ := Option.ne_none_iff_exists'.1 hf.2
      refine ⟨c, (uniformLoop_iff _ _ _).2 ⟨Nat.find this, by omega, fun j hj => ?_, hc⟩⟩
      by_contra hn
      exact Nat.find_min this hj ⟨by omega, hn⟩

end Noise.NewHope
