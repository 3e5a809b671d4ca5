import Verif.NewHopeUniform
/-!
# `batcher84` sorts

The words that are at least 5 q end up behind the others. A comparison only looks at whether a word is one of those, so
it acts on vectors of bits. The network consists of 83 parts that each merge two neighbouring sorted blocks, and sorted
blocks of bits are determined by their numbers of ones: each part is checked for all pairs of numbers.
-/

namespace Noise.NewHope

/-! ## Networks on bits -/

/-- A comparison on a vector of bits: `false` goes to the first place. -/
def bstep (b : Nat → Bool) (p : Nat × Nat) : Nat → Bool :=
  fun k => if k = p.1 then b p.1 && b p.2 else if k = p.2 then b p.1 || b p.2 else b k

/-- The same for the bits of a number. -/
def mstep (m : Nat) (p : Nat × Nat) : Nat :=
  match Nat.land (Nat.shiftRight m p.1) 1 with
  | 0 => m
  | _ + 1 =>
    match Nat.land (Nat.shiftRight m p.2) 1 with
    | 0 => Nat.xor m (Nat.lor (Nat.shiftLeft 1 p.1) (Nat.shiftLeft 1 p.2))
    | _ + 1 => m

theorem land_one (m i : Nat) : Nat.land (Nat.shiftRight m i) 1 = if m.testBit i then 1 else 0 := by
  show (m >>> i) &&& 1 = _
  rw [Nat.and_comm, Nat.one_and_eq_mod_two, Nat.testBit, Nat.one_and_eq_mod_two]
  rcases Nat.mod_two_eq_zero_or_one (m >>> i) with h | h <;> simp [h]

theorem mstep_testBit (m : Nat) (p : Nat × Nat) (hp : p.1 ≠ p.2) (k : Nat) :
    (mstep m p).testBit k = bstep (fun k => m.testBit k) p k := by
  obtain ⟨i, j⟩ := p
  unfold mstep bstep
  dsimp only at *
  rw [land_one, land_one]
  cases hi : m.testBit i
  · simp only [Bool.false_eq_true, if_false, Bool.false_and, Bool.false_or]
    split
    · subst k; exact hi
    · split
      · subst k; rfl
      · rfl
  · cases hj : m.testBit j
    · simp only [Bool.false_eq_true, if_false, if_true, Bool.true_and, Bool.true_or]
      show (m ^^^ (1 <<< i ||| 1 <<< j)).testBit k = _
      rw [Nat.testBit_xor, Nat.testBit_or, Nat.one_shiftLeft, Nat.one_shiftLeft, Nat.testBit_two_pow, Nat.testBit_two_pow]
      split
      · subst k; simp [hi]
      · split
        · subst k; simp [hj]
        · have a : decide (i = k) = false := decide_eq_false (by omega)
          have b : decide (j = k) = false := decide_eq_false (by omega)
          simp [a, b]
    · simp only [if_true, Bool.true_and, Bool.true_or]
      split
      · subst k; exact hi
      · split
        · subst k; exact hj
        · rfl

theorem fold_testBit (seg : List (Nat × Nat)) (h : ∀ p ∈ seg, p.1 ≠ p.2) (m : Nat) (b : Nat → Bool)
    (e : ∀ k, m.testBit k = b k) (k : Nat) : (seg.foldl mstep m).testBit k = seg.foldl bstep b k := by
  induction seg generalizing m b with
  | nil => exact e k
  | cons p seg ih =>
    refine ih (fun q hq => h q (List.mem_cons_of_mem _ hq)) _ _ fun k => ?_
    rw [mstep_testBit m p (h p List.mem_cons_self)]
    unfold bstep
    simp only [e]

/-- Inside an interval that contains all comparisons, only the bits of the interval matter. -/
theorem fold_local (seg : List (Nat × Nat)) (lo hi : Nat) (h : ∀ p ∈ seg, lo ≤ p.1 ∧ p.1 < p.2 ∧ p.2 < hi)
    (b c : Nat → Bool) (e : ∀ k, lo ≤ k → k < hi → b k = c k) (k : Nat) (h1 : lo ≤ k) (h2 : k < hi) :
    seg.foldl bstep b k = seg.foldl bstep c k := by
  induction seg generalizing b c with
  | nil => exact e k h1 h2
  | cons p seg ih =>
    obtain ⟨p1, p2, p3⟩ := h p List.mem_cons_self
    refine ih (fun q hq => h q (List.mem_cons_of_mem _ hq)) _ _ fun k h1 h2 => ?_
    unfold bstep
    rw [e p.1 (by omega) (by omega), e p.2 (by omega) (by omega), e k h1 h2]

/-- Outside of it nothing changes. -/
theorem fold_outside (seg : List (Nat × Nat)) (lo hi : Nat) (h : ∀ p ∈ seg, lo ≤ p.1 ∧ p.1 < p.2 ∧ p.2 < hi)
    (b : Nat → Bool) (k : Nat) (hk : k < lo ∨ hi ≤ k) : seg.foldl bstep b k = b k := by
  induction seg generalizing b with
  | nil => rfl
  | cons p seg ih =>
    obtain ⟨p1, p2, p3⟩ := h p List.mem_cons_self
    rw [List.foldl_cons, ih (fun q hq => h q (List.mem_cons_of_mem _ hq))]
    unfold bstep
    rw [if_neg (by omega), if_neg (by omega)]

/-- From `lo` to `hi`, ones come last. -/
def Sorted (b : Nat → Bool) (lo hi : Nat) : Prop := ∀ i j, lo ≤ i → i ≤ j → j < hi → b i = true → b j = true

theorem sorted_count {b : Nat → Bool} {lo hi : Nat} (hl : lo ≤ hi) (h : Sorted b lo hi) :
    ∃ a ≤ hi - lo, ∀ k, lo ≤ k → k < hi → (b k = decide (hi - a ≤ k)) := by
  obtain ⟨n, rfl⟩ : ∃ n, hi = lo + n := ⟨hi - lo, by omega⟩
  clear hl
  induction n with
  | zero => exact ⟨0, Nat.zero_le _, fun k _ _ => by omega⟩
  | succ n ih =>
    obtain ⟨a, ha, hk⟩ := ih fun i j h1 h2 h3 => h i j h1 h2 (by omega)
    cases hb : b (lo + n)
    · -- then there are no ones at all
      refine ⟨0, Nat.zero_le _, fun k h1 h2 => ?_⟩
      have : b k = false := by
        cases hb' : b k
        · rfl
        · have := h k (lo + n) h1 (by omega) (by omega) hb'
          rw [hb] at this; exact this.symm
      rw [this]; symm; simp; omega
    · refine ⟨a + 1, by omega, fun k h1 h2 => ?_⟩
      by_cases e : k = lo + n
      · subst e; rw [hb]; symm; simp; omega
      · rw [hk k h1 (by omega)]
        congr 1
        simp only [eq_iff_iff]
        omega

/-- `a` ones below `hi`, as the bits of a number. -/
def onesBelow (a hi : Nat) : Nat := Nat.shiftLeft (Nat.sub (Nat.pow 2 a) 1) (Nat.sub hi a)

theorem onesBelow_testBit (a hi k : Nat) (ha : a ≤ hi) : (onesBelow a hi).testBit k = (decide (hi - a ≤ k) && decide (k < hi)) := by
  show ((2 ^ a - 1) <<< (hi - a)).testBit k = _
  rw [Nat.testBit_shiftLeft, Nat.testBit_two_pow_sub_one]
  by_cases h : hi - a ≤ k
  · simp [h]; omega
  · simp [h]

/-- A part of the network merges the blocks from `lo` to `mid` and from `mid` to `hi`, for all numbers of ones. -/
def mergesAll (lo mid hi : Nat) (seg : List (Nat × Nat)) : Bool :=
  (List.range (mid - lo + 1)).all fun a => (List.range (hi - mid + 1)).all fun c =>
    Nat.beq (seg.foldl mstep (Nat.lor (onesBelow a mid) (onesBelow c hi))) (onesBelow (a + c) hi)

/-- The comparisons of a part stay between `lo` and `hi`. -/
def inside (lo hi : Nat) (seg : List (Nat × Nat)) : Bool :=
  seg.all fun p => Nat.ble lo p.1 && Nat.blt p.1 p.2 && Nat.blt p.2 hi

theorem inside_ok {lo hi : Nat} {seg : List (Nat × Nat)} (h : inside lo hi seg = true) :
    ∀ p ∈ seg, lo ≤ p.1 ∧ p.1 < p.2 ∧ p.2 < hi := by
  intro p hp
  have := List.all_eq_true.1 h p hp
  simp only [Bool.and_eq_true, Nat.ble_eq, Nat.blt_eq] at this
  exact ⟨this.1.1, this.1.2, this.2⟩

theorem merge_sorted {lo mid hi : Nat} {seg : List (Nat × Nat)} (h1 : lo ≤ mid) (h2 : mid ≤ hi) (hin : inside lo hi seg = true)
    (hm : mergesAll lo mid hi seg = true) (b : Nat → Bool) (s1 : Sorted b lo mid) (s2 : Sorted b mid hi) :
    Sorted (seg.foldl bstep b) lo hi := by
  obtain ⟨a, ha, hak⟩ := sorted_count h1 s1
  obtain ⟨c, hc, hck⟩ := sorted_count h2 s2
  have I := inside_ok hin
  have e := List.all_eq_true.1 (List.all_eq_true.1 hm a (List.mem_range.2 (by omega))) c (List.mem_range.2 (by omega))
  rw [Nat.beq_eq] at e
  have key : ∀ k, lo ≤ k → k < hi → seg.foldl bstep b k = decide (hi - (a + c) ≤ k) := by
    intro k k1 k2
    rw [fold_local seg lo hi I b (fun k => (Nat.lor (onesBelow a mid) (onesBelow c hi)).testBit k) ?_ k k1 k2,
      ← fold_testBit seg (fun p hp => by have := I p hp; omega) _ _ (fun _ => rfl) k, e, onesBelow_testBit _ _ _ (by omega)]
    · simp [k2]
    · intro k k1 k2
      show _ = (onesBelow a mid ||| onesBelow c hi).testBit k
      rw [Nat.testBit_or, onesBelow_testBit _ _ _ (by omega), onesBelow_testBit _ _ _ (by omega)]
      by_cases hk : k < mid
      · rw [hak k k1 hk]
        have : decide (hi - c ≤ k) = false := decide_eq_false (by omega)
        rw [this, decide_eq_true hk, Bool.and_true, Bool.false_and, Bool.or_false]
      · rw [hck k (by omega) k2]
        simp [hk, k2]
  intro i j i1 i2 i3 hb
  rw [key i i1 (by omega)] at hb
  rw [key j (by omega) i3]
  have := of_decide_eq_true hb
  exact decide_eq_true (by omega)

/-! ## The network of `batcher84` -/

/-- The parts of the network: the blocks from the first to the second and from the second to the third number are merged
by as many comparisons as the fourth says. -/
def batcherParts : List (Nat × Nat × Nat × Nat) :=
  [(0, 1, 2, 1), (2, 3, 4, 1), (0, 2, 4, 3), (4, 5, 6, 1), (6, 7, 8, 1), (4, 6, 8, 3), (0, 4, 8, 9),
   (8, 9, 10, 1), (10, 11, 12, 1), (8, 10, 12, 3), (12, 13, 14, 1), (14, 15, 16, 1), (12, 14, 16, 3), (8, 12, 16, 9),
   (0, 8, 16, 25), (16, 17, 18, 1), (18, 19, 20, 1), (16, 18, 20, 3), (20, 21, 22, 1), (22, 23, 24, 1), (20, 22, 24, 3),
   (16, 20, 24, 9), (24, 25, 26, 1), (26, 27, 28, 1), (24, 26, 28, 3), (28, 29, 30, 1), (30, 31, 32, 1), (28, 30, 32, 3),
   (24, 28, 32, 9), (16, 24, 32, 25), (0, 16, 32, 65), (32, 33, 34, 1), (34, 35, 36, 1), (32, 34, 36, 3), (36, 37, 38, 1),
   (38, 39, 40, 1), (36, 38, 40, 3), (32, 36, 40, 9), (40, 41, 42, 1), (42, 43, 44, 1), (40, 42, 44, 3), (44, 45, 46, 1),
   (46, 47, 48, 1), (44, 46, 48, 3), (40, 44, 48, 9), (32, 40, 48, 25), (48, 49, 50, 1), (50, 51, 52, 1), (48, 50, 52, 3),
   (52, 53, 54, 1), (54, 55, 56, 1), (52, 54, 56, 3), (48, 52, 56, 9), (56, 57, 58, 1), (58, 59, 60, 1), (56, 58, 60, 3),
   (60, 61, 62, 1), (62, 63, 64, 1), (60, 62, 64, 3), (56, 60, 64, 9), (48, 56, 64, 25), (32, 48, 64, 65), (0, 32, 64, 161),
   (64, 65, 66, 1), (66, 67, 68, 1), (64, 66, 68, 3), (68, 69, 70, 1), (70, 71, 72, 1), (68, 70, 72, 3), (64, 68, 72, 9),
   (72, 73, 74, 1), (74, 75, 76, 1), (72, 74, 76, 3), (76, 77, 78, 1), (78, 79, 80, 1), (76, 78, 80, 3), (72, 76, 80, 9),
   (64, 72, 80, 25), (80, 81, 82, 1), (82, 83, 84, 1), (80, 82, 84, 3), (64, 80, 84, 64), (0, 64, 84, 229)]

/-- Each part merges two of the blocks that are known to be sorted. -/
def sortsParts : List (Nat × Nat × Nat × Nat) → List (Nat × Nat) → List (Nat × Nat) → Bool
  | [], pairs, blocks => pairs.isEmpty && blocks.contains (0, 84)
  | (lo, mid, hi, n) :: parts, pairs, blocks =>
    let seg := pairs.take n
    Nat.ble lo mid && Nat.ble mid hi && blocks.contains (lo, mid) && blocks.contains (mid, hi) && inside lo hi seg &&
      mergesAll lo mid hi seg &&
      sortsParts parts (pairs.drop n) ((lo, hi) :: blocks.filter fun b => Nat.ble b.2 lo || Nat.ble hi b.1)

theorem sortsParts_ok (parts : List (Nat × Nat × Nat × Nat)) (pairs blocks : List (Nat × Nat))
    (h : sortsParts parts pairs blocks = true) (b : Nat → Bool) (hb : ∀ p ∈ blocks, Sorted b p.1 p.2) :
    Sorted (pairs.foldl bstep b) 0 84 := by
  induction parts generalizing pairs blocks b with
  | nil =>
    unfold sortsParts at h
    simp only [Bool.and_eq_true, List.isEmpty_iff, List.contains_iff_mem] at h
    rw [h.1]
    exact hb _ h.2
  | cons q parts ih =>
    obtain ⟨lo, mid, hi, n⟩ := q
    unfold sortsParts at h
    simp only [Bool.and_eq_true, Nat.ble_eq, List.contains_iff_mem] at h
    obtain ⟨⟨⟨⟨⟨⟨h1, h2⟩, h3⟩, h4⟩, h5⟩, h6⟩, h7⟩ := h
    have e : pairs = pairs.take n ++ pairs.drop n := (List.take_append_drop n pairs).symm
    rw [e, List.foldl_append]
    refine ih _ _ h7 _ fun p hp => ?_
    rcases List.mem_cons.1 hp with hp | hp
    · subst hp
      exact merge_sorted h1 h2 h5 h6 b (hb _ h3) (hb _ h4)
    · obtain ⟨hp, ho⟩ := List.mem_filter.1 hp
      simp only [Bool.or_eq_true, Nat.ble_eq] at ho
      intro i j i1 i2 i3 hi'
      rw [fold_outside _ lo hi (inside_ok h5) b _ (by omega)] at hi' ⊢
      exact hb p hp i j i1 i2 i3 hi'

theorem batcher_sorts_check : sortsParts batcherParts batcherPairs ((List.range 84).map fun k => (k, k + 1)) = true := by
  decide +kernel

/-- The network of `batcher84` sorts every vector of 84 bits. -/
theorem batcher_sorts (b : Nat → Bool) : Sorted (batcherPairs.foldl bstep b) 0 84 := by
  refine sortsParts_ok _ _ _ batcher_sorts_check b fun p hp => ?_
  obtain ⟨k, _, rfl⟩ := List.mem_map.1 hp
  intro i j i1 i2 i3 h
  have : i = j := by dsimp only at i1 i3; omega
  rwa [← this]

end Noise.NewHope
