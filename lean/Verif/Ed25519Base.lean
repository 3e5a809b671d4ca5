import Verif.Ed25519Multiples
/-!
# Multiples of the base point in `src/crypto/ed25519`
-/

namespace Noise.Ed25519

open Rfc7748 (P F)
open Rfc7539 (leNat leBytes)
open Curve25519 (Fe M E baseY base_on)
open Curve25519.Fe (ev ev_eq val)

/-! ## Choosing from the table -/

theorem move_zero : ∀ out input : List UInt64, out.length = input.length → moveConditional out input 0 = out := by
  intro out
  induction out with
  | nil => intro input _; simp [moveConditional]
  | cons a out ih =>
    intro input h
    cases input with
    | nil => simp at h
    | cons b input =>
      have := ih input (by simpa using h)
      simp only [moveConditional, List.zipWith_cons_cons, List.cons.injEq] at this ⊢
      refine ⟨?_, this⟩
      rw [show (0 : UInt64) - 1 = -1 by decide, UInt64.and_neg_one, UInt64.not_neg_one, UInt64.and_zero, UInt64.or_zero]

theorem move_one : ∀ out input : List UInt64, out.length = input.length → moveConditional out input 1 = input := by
  intro out
  induction out with
  | nil => intro input h; cases input with
    | nil => rfl
    | cons => simp at h
  | cons a out ih =>
    intro input h
    cases input with
    | nil => simp at h
    | cons b input =>
      have := ih input (by simpa using h)
      simp only [moveConditional, List.zipWith_cons_cons, List.cons.injEq] at this ⊢
      refine ⟨?_, this⟩
      rw [show (1 : UInt64) - 1 = 0 by decide, UInt64.not_zero, UInt64.and_zero, UInt64.and_neg_one, UInt64.zero_or]

theorem entryWords_length (e : Nat × Nat × Nat) : (entryWords e).length = 12 := rfl

/-- The words that represent zero. -/
def neutralWords : List UInt64 := [1, 0, 0, 0, 1, 0, 0, 0, 0, 0, 0, 0]

theorem flag_zero : ∀ i < 8, (windowbEqual 0 (UInt32.ofNat i + 1)).toUInt64 = 0 := by decide

theorem fold_stay (w : Nat → List UInt64) (hw : ∀ i, (w i).length = 12) :
    ∀ (l : List Nat) (acc : List UInt64), acc.length = 12 → (∀ i ∈ l, i < 8) →
      l.foldl (fun packed i => moveConditional packed (w i) (windowbEqual 0 (UInt32.ofNat i + 1)).toUInt64) acc = acc
  | [], acc, ha, hl => rfl
  | i :: l, acc, ha, hl => by
    rw [List.foldl_cons, flag_zero i (hl i (by simp)), move_zero _ _ (by rw [ha, hw])]
    exact fold_stay w hw l acc ha (fun k hk => hl k (by simp [hk]))

theorem choosePacked_zero (pos : Nat) : choosePacked pos 0 = neutralWords := by
  unfold choosePacked
  exact fold_stay _ (fun i => entryWords_length _) _ _ rfl (fun i hi => List.mem_range.1 hi)

theorem flag_eq : ∀ j < 8, ∀ i < 8, (windowbEqual (UInt32.ofNat (j + 1)) (UInt32.ofNat i + 1)).toUInt64 =
    if i = j then 1 else 0 := by decide

theorem fold_move (j : Nat) (hj : j < 8) (w : Nat → List UInt64) (hw : ∀ i, (w i).length = 12) :
    ∀ (l : List Nat) (acc : List UInt64), acc.length = 12 → (∀ i ∈ l, i < 8) →
      l.foldl (fun packed i => moveConditional packed (w i)
        (windowbEqual (UInt32.ofNat (j + 1)) (UInt32.ofNat i + 1)).toUInt64) acc = if j ∈ l then w j else acc
  | [], acc, ha, hl => by simp
  | i :: l, acc, ha, hl => by
    rw [List.foldl_cons, flag_eq j hj i (hl i (by simp))]
    by_cases e : i = j
    · subst e
      rw [if_pos rfl, move_one _ _ (by rw [ha, hw]), fold_move i hj w hw l _ (hw i) (fun k hk => hl k (by simp [hk])),
        if_pos (show i ∈ i :: l by simp)]
      by_cases h : i ∈ l
      · rw [if_pos h]
      · rw [if_neg h]
    · rw [if_neg e, move_zero _ _ (by rw [ha, hw]), fold_move j hj w hw l _ ha (fun k hk => hl k (by simp [hk]))]
      have : j ∈ i :: l ↔ j ∈ l := by simp [Ne.symm e]
      by_cases h : j ∈ l
      · rw [if_pos h, if_pos (this.2 h)]
      · rw [if_neg h, if_neg (fun hh => h (this.1 hh))]

theorem choosePacked_succ (pos : Nat) {j : Nat} (hj : j < 8) :
    choosePacked pos (UInt32.ofNat (j + 1)) = entryWords (entry (8 * pos + j)) := by
  unfold choosePacked
  rw [fold_move j hj _ (fun i => entryWords_length _) _ _ rfl (fun i hi => List.mem_range.1 hi),
    if_pos (List.mem_range.2 hj), entry, Nat.mul_comm]

/-- The three numbers in the words. -/
def unpackWords (w : List UInt64) : Niels :=
  let x := fun i => w.getD i 0
  ⟨expandWords (x 0) (x 1) (x 2) (x 3), expandWords (x 4) (x 5) (x 6) (x 7), expandWords (x 8) (x 9) (x 10) (x 11)⟩

theorem small_le {a : Fe} (h : a.Le (2 ^ 51 - 1)) : a.Le R := h.mono (by rw [R_eq]; omega)

theorem unpack_entry {pos : Nat} (hpos : pos < 32) {j : Nat} (hj : j < 8) :
    (unpackWords (entryWords (entry (8 * pos + j)))).Is (factor pos) ((j + 1) • Bpos pos) ∧
    (unpackWords (entryWords (entry (8 * pos + j)))).t2d.Le (2 ^ 51 - 1) := by
  have h := entry_ok hpos hj
  obtain ⟨l1, l2, l3⟩ := entry_lt hpos hj
  generalize entry (8 * pos + j) = e at *
  have hP : P = 2 ^ 255 - 19 := rfl
  have key : ∀ n, n < P → (expandWords (UInt64.ofNat n) (UInt64.ofNat (n / 2 ^ 64)) (UInt64.ofNat (n / 2 ^ 128))
      (UInt64.ofNat (n / 2 ^ 192))).Le (2 ^ 51 - 1) ∧ (expandWords (UInt64.ofNat n) (UInt64.ofNat (n / 2 ^ 64))
      (UInt64.ofNat (n / 2 ^ 128)) (UInt64.ofNat (n / 2 ^ 192))).ev = (n : F) := by
    intro n hn
    have := expandWords_ok (UInt64.ofNat n) (UInt64.ofNat (n / 2 ^ 64)) (UInt64.ofNat (n / 2 ^ 128))
      (UInt64.ofNat (n / 2 ^ 192))
    refine ⟨this.1, ?_⟩
    unfold ev
    rw [this.2]
    simp only [UInt64.toNat_ofNat']
    congr 1
    omega
  have k1 := key _ l1
  have k2 := key _ l2
  have k3 := key _ l3
  refine ⟨⟨small_le k1.1, small_le k2.1, small_le k3.1, ?_⟩, k3.1⟩
  have e1 : (unpackWords (entryWords e)).ysubx.ev = (e.1 : F) := k1.2
  have e2 : (unpackWords (entryWords e)).xaddy.ev = (e.2.1 : F) := k2.2
  have e3 : (unpackWords (entryWords e)).t2d.ev = (e.2.2 : F) := k3.2
  rw [e1, e2, e3]
  exact h

theorem unpack_neutral (k : F) : (unpackWords neutralWords).Is k 0 ∧ (unpackWords neutralWords).t2d.Le (2 ^ 51 - 1) := by
  refine ⟨⟨⟨by decide, by decide, by decide, by decide, by decide⟩, ⟨by decide, by decide, by decide, by decide, by decide⟩,
    ⟨by decide, by decide, by decide, by decide, by decide⟩, ?_⟩, ⟨by decide, by decide, by decide, by decide, by decide⟩⟩
  have e1 : (unpackWords neutralWords).ysubx.ev = 1 := by decide +kernel
  have e2 : (unpackWords neutralWords).xaddy.ev = 1 := by decide +kernel
  have e3 : (unpackWords neutralWords).t2d.ev = 0 := by decide +kernel
  rw [e1, e2, e3]
  exact Tab.zero k

theorem swap_eq (a b : Fe) : swapConditional a b 0 = (a, b) ∧ swapConditional a b 1 = (b, a) := by
  constructor
  · simp only [swapConditional, Curve25519.swapConditional, (Curve25519.swapLimb_eq _ _).1]
  · simp only [swapConditional, Curve25519.swapConditional, (Curve25519.swapLimb_eq _ _).2]

theorem chooseNiels_eq (pos : Nat) (b : Int) (s u : UInt32) (hs : UInt32.ofNat ((b % 256).toNat / 2 ^ 7) = s)
    (hu : (UInt32.ofInt b + ~~~(s - 1)) ^^^ ~~~(s - 1) = u) :
    chooseNiels pos b = ⟨(swapConditional (unpackWords (choosePacked pos u)).ysubx
        (unpackWords (choosePacked pos u)).xaddy s.toUInt64).1,
      (swapConditional (unpackWords (choosePacked pos u)).ysubx (unpackWords (choosePacked pos u)).xaddy s.toUInt64).2,
      (swapConditional (unpackWords (choosePacked pos u)).t2d (fneg (unpackWords (choosePacked pos u)).t2d)
        s.toUInt64).1⟩ := by
  unfold chooseNiels unpackWords
  simp only [hs, hu]

theorem Niels.Is.neg {n : Niels} {k : F} {Q : Pt} (h : n.Is k Q) (ht : n.t2d.Le (2 ^ 51 - 1)) :
    Niels.Is ⟨n.xaddy, n.ysubx, fneg n.t2d⟩ k (-Q) := by
  have f := fneg_ok (ht.mono (by omega))
  refine ⟨h.ha, h.hs, f.1, ?_⟩
  rw [f.2]
  exact h.tab.neg

/-- The digit of each sign. -/
theorem signs : ∀ j < 8, UInt32.ofNat (((((j + 1 : Nat) : Int)) % 256).toNat / 2 ^ 7) = 0 ∧
    (UInt32.ofInt ((j + 1 : Nat) : Int) + ~~~((0 : UInt32) - 1)) ^^^ ~~~((0 : UInt32) - 1) = UInt32.ofNat (j + 1) ∧
    UInt32.ofNat (((-((j + 1 : Nat) : Int)) % 256).toNat / 2 ^ 7) = 1 ∧
    (UInt32.ofInt (-((j + 1 : Nat) : Int)) + ~~~((1 : UInt32) - 1)) ^^^ ~~~((1 : UInt32) - 1) = UInt32.ofNat (j + 1) := by
  decide

theorem chooseNiels_ok {pos : Nat} (hpos : pos < 32) {b : Int} (h1 : -8 ≤ b) (h2 : b ≤ 8) :
    (chooseNiels pos b).Is (factor pos) (b • Bpos pos) := by
  rcases lt_trichotomy b 0 with hb | hb | hb
  · obtain ⟨j, hj⟩ : ∃ j : Nat, b = -((j + 1 : Nat) : Int) := ⟨(-b).toNat - 1, by omega⟩
    subst hj
    have hj : j < 8 := by omega
    obtain ⟨-, -, hs, hu⟩ := signs j hj
    rw [chooseNiels_eq pos _ _ _ hs hu, choosePacked_succ pos hj, show (1 : UInt32).toUInt64 = 1 from rfl, (swap_eq _ _).2,
      (swap_eq _ _).2]
    obtain ⟨e, et⟩ := unpack_entry hpos hj
    have := e.neg et
    rw [neg_zsmul, natCast_zsmul]
    exact this
  · subst hb
    rw [chooseNiels_eq pos 0 0 0 (by decide) (by decide), choosePacked_zero, show (0 : UInt32).toUInt64 = 0 from rfl,
      (swap_eq _ _).1, (swap_eq _ _).1, zero_zsmul]
    exact (unpack_neutral _).1
  · obtain ⟨j, hj⟩ : ∃ j : Nat, b = ((j + 1 : Nat) : Int) := ⟨b.toNat - 1, by omega⟩
    subst hj
    have hj : j < 8 := by omega
    obtain ⟨hs, hu, -, -⟩ := signs j hj
    rw [chooseNiels_eq pos _ _ _ hs hu, choosePacked_succ pos hj, show (0 : UInt32).toUInt64 = 0 from rfl, (swap_eq _ _).1,
      (swap_eq _ _).1]
    obtain ⟨e, et⟩ := unpack_entry hpos hj
    rw [natCast_zsmul]
    exact e

/-! ## The digits -/

/-- The number with the given digits. -/
def digitsVal (base : Int) : List Int → Int
  | [] => 0
  | d :: ds => d + base * digitsVal base ds

theorem digitsVal_append (base : Int) : ∀ l l' : List Int, digitsVal base (l ++ l') =
    digitsVal base l + base ^ l.length * digitsVal base l'
  | [], l' => by simp [digitsVal]
  | d :: l, l' => by
    simp only [List.cons_append, digitsVal, digitsVal_append base l l', List.length_cons, pow_succ]
    ring

theorem quads_ok : ∀ (n : Nat) (v : UInt64), (quads n v).length = n ∧ (∀ d ∈ quads n v, 0 ≤ d ∧ d ≤ 15) ∧
    (v.toNat < 16 ^ n → digitsVal 16 (quads n v) = v.toNat)
  | 0, v => by
    refine ⟨rfl, by simp [quads], ?_⟩
    intro h
    have : v.toNat = 0 := by simpa using h
    simp [quads, digitsVal, this]
  | n + 1, v => by
    obtain ⟨l, m, e⟩ := quads_ok n (v >>> 4)
    have ha : (v &&& 15).toNat = v.toNat % 16 := by
      rw [UInt64.toNat_and]; exact Nat.and_two_pow_sub_one_eq_mod _ 4
    have hs : (v >>> 4).toNat = v.toNat / 16 := Curve25519.shrs v 4 (by omega) 4 rfl
    refine ⟨by simp [quads, l], ?_, ?_⟩
    · intro d hd
      rw [quads, List.mem_cons] at hd
      rcases hd with rfl | hd
      · rw [ha]; omega
      · exact m d hd
    · intro h
      rw [quads, digitsVal, e (by rw [hs]; rw [pow_succ] at h; omega), ha, hs]
      omega

theorem schar_of {x : Int} (h1 : -128 ≤ x) (h2 : x < 128) : schar x = x := by
  unfold schar
  rw [Int.bmod_def]
  by_cases h : x % (256 : Nat) < ((256 : Nat) + 1) / 2
  · rw [if_pos (by exact_mod_cast h)]; omega
  · rw [if_neg (by exact_mod_cast h)]; omega

theorem makeSigned_ok : ∀ (rest : List Int) (carry a : Int), 0 ≤ a → 0 ≤ carry → a + carry ≤ 16 →
    (∀ d ∈ rest, 0 ≤ d ∧ d ≤ 15) → (rest = [] → a + carry ≤ 8) → (∀ d ∈ rest.getLast?, d ≤ 7) →
    (makeSigned carry a rest).length = rest.length + 1 ∧ (∀ d ∈ makeSigned carry a rest, -8 ≤ d ∧ d ≤ 8) ∧
      digitsVal 16 (makeSigned carry a rest) = a + carry + 16 * digitsVal 16 rest
  | [], carry, a, ha, hc, hs, hr, he, hl => by
    have := he rfl
    rw [makeSigned, schar_of (by omega) (by omega)]
    refine ⟨rfl, ?_, ?_⟩
    · intro d hd
      rw [List.mem_singleton] at hd
      exact ⟨by omega, by omega⟩
    · simp only [digitsVal]
  | b :: rest, carry, a, ha, hc, hs, hr, he, hl => by
    have hb := hr b (by simp)
    have e1 : schar (a + carry) = a + carry := schar_of (by omega) (by omega)
    have e2 : schar (b + (a + carry) / 16) = b + (a + carry) / 16 := schar_of (by omega) (by omega)
    have e3 : schar ((a + carry) % 16 - (a + carry) % 16 / 8 * 16) = (a + carry) % 16 - (a + carry) % 16 / 8 * 16 :=
      schar_of (by omega) (by omega)
    rw [makeSigned]
    simp only [e1, e2, e3]
    obtain ⟨i1, i2, i3⟩ := makeSigned_ok rest ((a + carry) % 16 / 8) (b + (a + carry) / 16) (by omega) (by omega) (by omega)
      (fun d hd => hr d (by simp [hd]))
      (by
        rintro rfl
        have := hl b (by simp)
        omega)
      (by
        intro d hd
        apply hl d
        cases rest with
        | nil => simp at hd
        | cons c rest => rw [List.getLast?_cons_cons]; exact hd)
    refine ⟨by simp [i1], ?_, ?_⟩
    · intro d hd
      rw [List.mem_cons] at hd
      rcases hd with rfl | hd
      · omega
      · exact i2 d hd
    · rw [digitsVal, i3, digitsVal]
      omega

/-- The number in five limbs of 56 bits. -/
def Modm.val (s : Modm) : Nat :=
  s.l0.toNat + 2 ^ 56 * s.l1.toNat + 2 ^ 112 * s.l2.toNat + 2 ^ 168 * s.l3.toNat + 2 ^ 224 * s.l4.toNat

/-- The limbs are digits. -/
structure Modm.Digits (s : Modm) : Prop where
  h0 : s.l0.toNat < 2 ^ 56
  h1 : s.l1.toNat < 2 ^ 56
  h2 : s.l2.toNat < 2 ^ 56
  h3 : s.l3.toNat < 2 ^ 56

theorem quads_append (n : Nat) (v : UInt64) (l : List Int) (hv : v.toNat < 16 ^ n) :
    digitsVal 16 (quads n v ++ l) = v.toNat + 16 ^ n * digitsVal 16 l := by
  obtain ⟨h1, -, h3⟩ := quads_ok n v
  rw [digitsVal_append, h3 hv, h1]

/-- The digits that `contractWindow4` computes. -/
theorem contractWindow4_ok {s : Modm} (h : s.Digits) (h4 : s.l4.toNat < 2 ^ 31) :
    (contractWindow4 s).length = 64 ∧ (∀ d ∈ contractWindow4 s, -8 ≤ d ∧ d ≤ 8) ∧
      digitsVal 16 (contractWindow4 s) = s.val := by
  have e14 : (16 : Nat) ^ 14 = 2 ^ 56 := by norm_num
  have e8 : (16 : Nat) ^ 8 = 2 ^ 32 := by norm_num
  obtain ⟨a1, a2, a3⟩ := quads_ok 14 s.l0
  obtain ⟨b1, b2, b3⟩ := quads_ok 14 s.l1
  obtain ⟨c1, c2, c3⟩ := quads_ok 14 s.l2
  obtain ⟨d1, d2, d3⟩ := quads_ok 14 s.l3
  obtain ⟨f1, f2, f3⟩ := quads_ok 8 s.l4
  have g := h.h0
  have g1 := h.h1
  have g2 := h.h2
  have g3 := h.h3
  generalize hr : quads 14 s.l0 ++ quads 14 s.l1 ++ quads 14 s.l2 ++ quads 14 s.l3 ++ quads 8 s.l4 = r
  have hlen : r.length = 64 := by
    rw [← hr]; simp only [List.length_append, a1, b1, c1, d1, f1]
  have hmem : ∀ d ∈ r, 0 ≤ d ∧ d ≤ 15 := by
    intro d hd
    rw [← hr] at hd
    simp only [List.mem_append] at hd
    rcases hd with (((hd | hd) | hd) | hd) | hd
    · exact a2 d hd
    · exact b2 d hd
    · exact c2 d hd
    · exact d2 d hd
    · exact f2 d hd
  have hval : digitsVal 16 r = s.val := by
    rw [← hr]
    simp only [digitsVal_append, List.length_append, a1, b1, c1, d1]
    rw [a3 (by omega), b3 (by omega), c3 (by omega), d3 (by omega), f3 (by omega), Modm.val]
    push_cast
    ring
  have hlast : ∀ d ∈ r.getLast?, d ≤ 7 := by
    have h8 : s.l4.toNat < 16 ^ 8 := by omega
    obtain ⟨i, hi⟩ : ∃ i d, quads 8 s.l4 = i ++ [d] := by
      have := List.dropLast_append_getLast (l := quads 8 s.l4) (by intro h; rw [h] at f1; simp at f1)
      exact ⟨_, _, this.symm⟩
    obtain ⟨d, hi⟩ := hi
    have hl : i.length = 7 := by
      have := congrArg List.length hi
      rw [f1] at this; simp at this; omega
    have hv := f3 h8
    rw [hi, digitsVal_append, hl] at hv
    have hnn : ∀ l : List Int, (∀ d ∈ l, 0 ≤ d ∧ d ≤ 15) → 0 ≤ digitsVal 16 l := by
      intro l
      induction l with
      | nil => intro _; exact le_refl _
      | cons a l ih =>
        intro hh
        have := ih (fun d hd => hh d (by simp [hd]))
        have := hh a (by simp)
        rw [digitsVal]; omega
    have hi0 := hnn i (fun d hd => f2 d (by rw [hi]; simp [hd]))
    simp only [digitsVal] at hv
    intro d' hd'
    rw [← hr, hi, ← List.append_assoc, List.getLast?_concat] at hd'
    have : d' = d := by simpa using hd'.symm
    subst this
    norm_num at hv
    omega
  unfold contractWindow4
  simp only [hr]
  obtain ⟨a, rest, rfl⟩ : ∃ a rest, r = a :: rest := by
    cases r with
    | nil => simp at hlen
    | cons a rest => exact ⟨a, rest, rfl⟩
  have ha := hmem a (by simp)
  have hne : rest ≠ [] := by
    rintro rfl
    simp at hlen
  have := makeSigned_ok rest 0 a ha.1 (le_refl _) (by omega) (fun d hd => hmem d (by simp [hd])) (fun hh => absurd hh hne)
    (by
      intro d hd
      apply hlast d
      cases rest with
      | nil => exact absurd rfl hne
      | cons c rest => rw [List.getLast?_cons_cons]; exact hd)
  simp only [List.getD_cons_zero, List.drop_one, List.tail_cons]
  refine ⟨by rw [this.1]; simpa using hlen, this.2.1, ?_⟩
  rw [this.2.2, ← hval, digitsVal]
  ring

theorem evens_odds : ∀ l : List Int, digitsVal 16 l = digitsVal 256 (evens l) + 16 * digitsVal 256 (odds l)
  | [] => rfl
  | [a] => by simp [digitsVal, evens, odds]
  | a :: b :: rest => by
    simp only [digitsVal, evens, odds, evens_odds rest]
    ring

theorem evens_odds_length : ∀ l : List Int, (evens l).length = (l.length + 1) / 2 ∧ (odds l).length = l.length / 2
  | [] => by simp [evens, odds]
  | [a] => by simp [evens, odds]
  | a :: b :: rest => by
    obtain ⟨h1, h2⟩ := evens_odds_length rest
    simp only [evens, odds, List.length_cons, h1, h2]
    omega

theorem evens_odds_mem : ∀ (l : List Int) (d : Int), (d ∈ evens l → d ∈ l) ∧ (d ∈ odds l → d ∈ l)
  | [], d => by simp [evens, odds]
  | [a], d => by simp [evens, odds]
  | a :: b :: rest, d => by
    obtain ⟨h1, h2⟩ := evens_odds_mem rest d
    simp only [evens, odds, List.mem_cons]
    constructor
    · rintro (h | h)
      · exact Or.inl h
      · exact Or.inr (Or.inr (h1 h))
    · rintro (h | h)
      · exact Or.inr (Or.inl h)
      · exact Or.inr (Or.inr (h2 h))

/-! ## The multiple -/

theorem addDigits_ok : ∀ (ds : List Int) (pos : Nat) {r : Ge} {Q : Pt}, r.Is Q → 0 < pos → pos + ds.length ≤ 32 →
    (∀ d ∈ ds, -8 ≤ d ∧ d ≤ 8) → (addDigits r ds pos).Is (Q + digitsVal 256 ds • Bpos pos)
  | [], pos, r, Q, h, hp, hl, hd => by
    rw [addDigits, digitsVal, zero_zsmul, add_zero]
    exact h
  | d :: ds, pos, r, Q, h, hp, hl, hd => by
    simp only [List.length_cons] at hl
    have hd0 := hd d (by simp)
    have c := chooseNiels_ok (pos := pos) (by omega) hd0.1 hd0.2
    rw [factor, if_neg (by omega)] at c
    have := addDigits_ok ds (pos + 1) (nielsadd2_ok h c) (by omega) (by omega) (fun d hh => hd d (by simp [hh]))
    rw [addDigits]
    convert this using 1
    rw [digitsVal, add_zsmul, add_assoc, mul_comm, mul_zsmul, Bpos]
    congr 2

theorem digit_split (l : List Int) (h : 0 < l.length) : digitsVal 256 l = l.getD 0 0 + 256 * digitsVal 256 (l.drop 1) := by
  cases l with
  | nil => simp at h
  | cons a l => simp [digitsVal]

theorem add_Bpos (a b : Int) : a • Bpos 0 + b • Bpos 1 = (a + 256 * b) • B := by
  rw [Bpos, Bpos, add_zsmul, mul_comm, mul_zsmul, Bpos, show (256 : Int) = ((256 : Nat) : Int) by norm_num, natCast_zsmul]

/-- The multiplication of the base point. -/
theorem scalarmultBase_ok {s : Modm} (h : s.Digits) (h4 : s.l4.toNat < 2 ^ 31) : (scalarmultBase s).Is (s.val • B) := by
  obtain ⟨w1, w2, w3⟩ := contractWindow4_ok h h4
  unfold scalarmultBase
  simp only []
  generalize contractWindow4 s = b at *
  obtain ⟨l1, l2⟩ := evens_odds_length b
  have m := evens_odds_mem b
  rw [evens_odds] at w3
  generalize evens b = ev at *
  generalize odds b = od at *
  rw [w1] at l1 l2
  have ho : ∀ d ∈ od, -8 ≤ d ∧ d ≤ 8 := fun d hd => w2 d ((m d).2 hd)
  have he : ∀ d ∈ ev, -8 ≤ d ∧ d ≤ 8 := fun d hd => w2 d ((m d).1 hd)
  have ho0 : -8 ≤ od.getD 0 0 ∧ od.getD 0 0 ≤ 8 := by
    cases od with
    | nil => simp at l2
    | cons a l => exact ho a (by simp)
  have he0 : -8 ≤ ev.getD 0 0 ∧ ev.getD 0 0 ≤ 8 := by
    cases ev with
    | nil => simp at l1
    | cons a l => exact he a (by simp)
  have c := chooseNiels_ok (pos := 0) (by omega) ho0.1 ho0.2
  have c' := chooseNiels_ok (pos := 0) (by omega) he0.1 he0.2
  rw [factor, if_pos rfl] at c c'
  generalize chooseNiels 0 (od.getD 0 0) = t at *
  generalize chooseNiels 0 (ev.getD 0 0) = t' at *
  have hR := R_eq
  have hM := M_eq
  have f1 := fsubReduce_ok (c.ha.mono (by omega)) (c.hs.mono (by omega))
  have f2 := faddReduce_ok (c.ha.mono (by omega)) (c.hs.mono (by omega))
  have twoLe : Curve25519.Fe.Le ⟨2, 0, 0, 0, 0⟩ R := ⟨by decide, by decide, by decide, by decide, by decide⟩
  have two : Curve25519.Fe.ev ⟨2, 0, 0, 0, 0⟩ = 2 := by decide +kernel
  have start : Ge.Is ⟨fsubReduce t.xaddy t.ysubx, faddReduce t.xaddy t.ysubx, ⟨2, 0, 0, 0, 0⟩, t.t2d⟩
      (od.getD 0 0 • Bpos 0) := by
    refine ⟨f1.1, f2.1, twoLe, c.ht, ?_⟩
    rw [f1.2, f2.2, two]
    exact c.tab.toExt
  have a1 := addDigits_ok (od.drop 1) 1 start (by omega) (by simp; omega) (fun d hd => ho d (List.mem_of_mem_drop hd))
  rw [add_Bpos, ← digit_split od (by omega)] at a1
  have d1 := geDouble_ok (doublePartial_ok (doublePartial_ok (doublePartial_ok a1.isPartial)))
  have fm := fmul_ok (c'.ht.mono R_le_M) (ecd_ok.1.mono R_le_M)
  have t2 : Niels.Is { t' with t2d := fmul t'.t2d ecd } (2 * D) (ev.getD 0 0 • Bpos 0) := by
    refine ⟨c'.hs, c'.ha, fm.1, ?_⟩
    rw [fm.2, ecd_ok.2]
    exact c'.tab.scale D
  have n := nielsadd2_ok d1 t2
  have a2 := addDigits_ok (ev.drop 1) 1 n (by omega) (by simp; omega) (fun d hd => he d (List.mem_of_mem_drop hd))
  rw [add_assoc, add_Bpos, ← digit_split ev (by omega)] at a2
  convert a2 using 1
  rw [← natCast_zsmul, ← w3]
  simp only [← add_zsmul]
  congr 1
  ring

/-! ## Scalars of 255 bits -/

theorem or_shift (x y : UInt64) (a c : UInt64) (n m : Nat) (ha : a.toNat = n) (hc : c.toNat = m) (hn : n < 64) (hm : m < 64)
    (hnm : n + m = 64) : ((x >>> a) ||| (y <<< c)).toNat = x.toNat / 2 ^ n + 2 ^ m * y.toNat % 2 ^ 64 := by
  have hx := x.toNat_lt
  rw [UInt64.toNat_or, Curve25519.shrs _ n hn _ ha, shls _ m hm _ hc]
  have hp : 2 ^ 64 = 2 ^ n * 2 ^ m := by rw [← pow_add, hnm]
  rw [Poly1305.or_eq_add m, Nat.mul_comm y.toNat]
  · rw [Nat.div_lt_iff_lt_mul (by simp), Nat.mul_comm, ← hp]; exact hx
  · rw [hp, Nat.mul_comm y.toNat, Nat.mul_comm (2 ^ n), Nat.mul_mod_mul_left]; exact Nat.mul_mod_right _ _

theorem and56 (x : UInt64) : (x &&& 0xffffffffffffff).toNat = x.toNat % 2 ^ 56 := by
  rw [UInt64.toNat_and]; exact Nat.and_two_pow_sub_one_eq_mod _ 56

theorem and40 (x : UInt64) : (x &&& 0x0000ffffffffff).toNat = x.toNat % 2 ^ 40 := by
  rw [UInt64.toNat_and]; exact Nat.and_two_pow_sub_one_eq_mod _ 40

theorem and32 (x : UInt64) : (x &&& 0x000000ffffffff).toNat = x.toNat % 2 ^ 32 := by
  rw [UInt64.toNat_and]; exact Nat.and_two_pow_sub_one_eq_mod _ 32

theorem word_toNat (b : Bytes) (i : Nat) : (word b i).toNat = leNat b / 2 ^ (64 * i) % 2 ^ 64 := by
  rw [word, Curve25519.loadLimb_toNat, Curve25519.leNat_take, Curve25519.leNat_drop, show (256 : Nat) = 2 ^ 8 by norm_num,
    ← pow_mul, ← pow_mul]
  congr 2
  congr 1
  ring

theorem expandRaw256_ok (b : Bytes) : (expandRaw256 b).Digits ∧ (expandRaw256 b).val = leNat b % 2 ^ 256 ∧
    (expandRaw256 b).l4.toNat = leNat b / 2 ^ 224 % 2 ^ 32 := by
  have w0 := word_toNat b 0
  have w1 := word_toNat b 1
  have w2 := word_toNat b 2
  have w3 := word_toNat b 3
  have e1 := or_shift (word b 0) (word b 1) 56 8 56 8 rfl rfl (by omega) (by omega) (by omega)
  have e2 := or_shift (word b 1) (word b 2) 48 16 48 16 rfl rfl (by omega) (by omega) (by omega)
  have e3 := or_shift (word b 2) (word b 3) 40 24 40 24 rfl rfl (by omega) (by omega) (by omega)
  have e4 := Curve25519.shrs (word b 3) 32 (by omega) 32 rfl
  norm_num only at w0 w1 w2 w3
  refine ⟨⟨?_, ?_, ?_, ?_⟩, ?_, ?_⟩
  · simp only [expandRaw256, and56]; omega
  · simp only [expandRaw256, and56]; omega
  · simp only [expandRaw256, and56]; omega
  · simp only [expandRaw256, and56]; omega
  · simp only [expandRaw256, Modm.val, and56, and32, e1, e2, e3, e4]
    omega
  · simp only [expandRaw256, and32, e4]
    omega

/-! ## Public keys of Curve25519 -/

/-- The u-coordinate of a point, from its Edwards coordinates. -/
theorem ucoord_of_proj {Q : Pt} {X Y Z : F} (h : Proj Q X Y Z) : (Y + Z) * (Z - Y) ^ (P - 2) = Curve25519.ucoord Q := by
  obtain ⟨x, y, hm, hz, -, rfl⟩ := h
  cases Q with
  | zero =>
    obtain ⟨-, rfl⟩ := hm
    have : Z - 1 * Z = 0 := by ring
    rw [this, zero_pow (by decide), mul_zero]
    rfl
  | some u v hn =>
    obtain ⟨-, hu, -⟩ := hm
    have hy : 1 - y ≠ 0 := by
      intro h0
      rw [h0, mul_zero] at hu
      have h1 : y = 1 := by linear_combination -h0
      rw [h1] at hu
      exact Curve25519.two_ne (by linear_combination -hu)
    have hd : Z - y * Z ≠ 0 := by
      have : Z - y * Z = (1 - y) * Z := by ring
      rw [this]
      exact mul_ne_zero hy hz
    have hf : (Z - y * Z) ^ (P - 1) = 1 := ZMod.pow_card_sub_one_eq_one hd
    have hs : (Z - y * Z) ^ (P - 1) = (Z - y * Z) ^ (P - 2) * (Z - y * Z) := by
      rw [← pow_succ]; rfl
    rw [hs] at hf
    show (y * Z + Z) * (Z - y * Z) ^ (P - 2) = u
    generalize (Z - y * Z) ^ (P - 2) = w at *
    linear_combination u * hf - w * Z * hu

/-- **C64**: the function that computes public keys of Curve25519, in `src/crypto/ed25519`, computes X25519 of the private
key and the base point. -/
theorem C64_basepoint_is_x25519 (e : Bytes) (h : e.length = 32) :
    scalarmultBasepoint e = Rfc7748.x25519 e (9 :: List.replicate 31 0) := by
  have hk := Curve25519.scalar_ok e h
  unfold scalarmultBasepoint
  dsimp only at hk ⊢
  generalize ((e.set 0 (e.getD 0 0 &&& 248)).set 31 ((e.set 0 (e.getD 0 0 &&& 248)).getD 31 0 &&& 127)).set 31
    (((e.set 0 (e.getD 0 0 &&& 248)).set 31 ((e.set 0 (e.getD 0 0 &&& 248)).getD 31 0 &&& 127)).getD 31 0 ||| 64) = ec at *
  have hlt := Curve25519.scalar_lt e h
  obtain ⟨hd, hv, h4⟩ := expandRaw256_ok ec
  rw [hk] at hv h4
  unfold Rfc7748.x25519 Rfc7748.encodeUCoordinate
  generalize Rfc7748.decodeScalar25519 e = k at *
  have hq := scalarmultBase_ok hd (by rw [h4]; omega)
  rw [hv, Nat.mod_eq_of_lt (by omega)] at hq
  generalize scalarmultBase (expandRaw256 ec) = p at *
  have hR := R_eq
  have hM := M_eq
  have a := fadd_ok hq.hy hq.hz (by omega)
  have b := fsub_ok hq.hz (hq.hy.mono (by omega)) (by omega)
  have c := recip_ok (b.1.mono (by omega))
  have d := fmul_ok (a.1.mono (by omega)) (c.1.mono R_le_M)
  rw [contract_ok (d.1.mono (by omega)), ← ev_val, d.2, c.2, a.2, b.2, ucoord_of_proj hq.isPartial.proj]
  have e9 : Rfc7748.decodeUCoordinate (9 :: List.replicate 31 0) = 9 := by decide +kernel
  rw [e9]
  have := Curve25519.ladder_smul Curve25519.nine_ne base_on k hlt
  rw [show algebraMap F F (Rfc7748.ladder k 9) = Rfc7748.ladder k 9 from rfl] at this
  rw [this, B]

/-- Both functions in the library compute the same public key. -/
theorem C64_basepoint_is_donna (e : Bytes) (h : e.length = 32) :
    scalarmultBasepoint e = Curve25519.curve25519Donna e (9 :: List.replicate 31 0) := by
  rw [C64_basepoint_is_x25519 e h, Curve25519.C60_donna_is_x25519 e _ h (by decide)]

example : (List.replicate 32 (7 : UInt8)).length = 32 := by decide

end Noise.Ed25519
