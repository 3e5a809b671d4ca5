import Verif.Ed25519Slide
/-!
# Two multiples at once, `src/crypto/ed25519/ed25519-donna-impl-base.h:251-292`
-/

namespace Noise.Ed25519

open Rfc7748 (P F)
open Curve25519 (Fe M)
open Curve25519.Fe (ev)

/-! ## The odd multiples of the base point -/

/-- An entry of `ge25519_niels_sliding_multiples`. -/
def sl (k : Nat) : Niels := slidingMultiples.getD k ⟨⟨0, 0, 0, 0, 0⟩, ⟨0, 0, 0, 0, 0⟩, ⟨0, 0, 0, 0, 0⟩⟩

def sv (k : Nat) : Nat × Nat × Nat := ((sl k).ysubx.val, (sl k).xaddy.val, (sl k).t2d.val)

def okLimbs (a : Fe) : Bool := decide (a.l0.toNat ≤ R) && decide (a.l1.toNat ≤ R) && decide (a.l2.toNat ≤ R) &&
  decide (a.l3.toNat ≤ R) && decide (a.l4.toNat ≤ R)

theorem okLimbs_ok {a : Fe} (h : okLimbs a = true) : a.Le R := by
  simp only [okLimbs, Bool.and_eq_true, decide_eq_true_eq] at h
  exact ⟨h.1.1.1.1, h.1.1.1.2, h.1.1.2, h.1.2, h.2⟩

theorem sl_limbs : ∀ k < 32, (okLimbs (sl k).ysubx && okLimbs (sl k).xaddy && okLimbs (sl k).t2d &&
    decide ((sv k).1 < P)) = true := by decide +kernel

theorem sl_sums : ∀ k < 31, okSum (sv k) (entry 1) (sv (k + 1)) = true := by decide +kernel

theorem sl_ts : ∀ k < 32, (2 * (sv k).2.2 % P == dN * (dx (sv k) * dy (sv k) % P) % P) = true := by decide +kernel

theorem sl_first : IsPt (sv 0) B := ⟨_, _, B_maps, by decide +kernel, by decide +kernel⟩

theorem sl_point : ∀ k < 32, IsPt (sv k) ((2 * k + 1) • B)
  | 0, _ => by rw [mul_zero, zero_add, one_nsmul]; exact sl_first
  | k + 1, h => by
    have two := row_ok (pos := 0) (by omega) first_ok 1 (by omega)
    have := okSum_ok (sl_sums k (by omega)) (sl_point k (by omega)) two
    rw [← add_nsmul] at this
    exact this

theorem sl_ok {k : Nat} (hk : k < 32) : (sl k).Is (2 * D) ((2 * k + 1) • B) := by
  have hl := sl_limbs k hk
  simp only [Bool.and_eq_true, decide_eq_true_eq] at hl
  obtain ⟨⟨⟨l1, l2⟩, l3⟩, l4⟩ := hl
  obtain ⟨x, y, h1, ex, ey⟩ := sl_point k hk
  have ht := cast_of_mod (sl_ts k hk)
  rw [Nat.cast_mul, Nat.cast_mul, ZMod.natCast_mod, Nat.cast_mul, ex, ey, dN_cast] at ht
  unfold dx at ex
  unfold dy at ey
  rw [cast_sub_mod l4] at ex
  rw [ZMod.natCast_mod, Nat.cast_add] at ey
  have e2 : (2 : F) ≠ 0 := Curve25519.two_ne
  have s1 : (((sv k).1 : Nat) : F) = (sl k).ysubx.ev := rfl
  have s2 : (((sv k).2.1 : Nat) : F) = (sl k).xaddy.ev := rfl
  have s3 : (((sv k).2.2 : Nat) : F) = (sl k).t2d.ev := rfl
  rw [s1, s2] at ex ey
  rw [s3, Nat.cast_ofNat] at ht
  refine ⟨okLimbs_ok l1, okLimbs_ok l2, okLimbs_ok l3, x, y, h1, one_ne_zero, ?_, ?_, ?_⟩
  · apply mul_left_cancel₀ e2
    linear_combination ey - ex
  · apply mul_left_cancel₀ e2
    linear_combination ey + ex
  · apply mul_left_cancel₀ e2
    rw [ht]; ring

/-! ## The odd multiples of the other point -/

theorem preTable_ok {d1 : Ge} {Q : Pt} (hd : d1.Is (Q + Q)) : ∀ (n k : Nat) (q : Pniels), q.Is ((2 * k + 1) • Q) →
    ∀ i ≤ n, ((preTable d1 q n).getD i ⟨⟨0, 0, 0, 0, 0⟩, ⟨0, 0, 0, 0, 0⟩, ⟨0, 0, 0, 0, 0⟩, ⟨0, 0, 0, 0, 0⟩⟩).Is
      ((2 * (k + i) + 1) • Q)
  | 0, k, q, h, i, hi => by
    obtain rfl : i = 0 := by omega
    exact h
  | n + 1, k, q, h, 0, _ => h
  | n + 1, k, q, h, i + 1, hi => by
    have h2 := pnielsadd_ok hd h
    rw [← two_nsmul, ← add_nsmul, show 2 + (2 * k + 1) = 2 * (k + 1) + 1 by omega] at h2
    have := preTable_ok hd n (k + 1) _ h2 i (by omega)
    rw [show k + 1 + i = k + (i + 1) by omega] at this
    rw [preTable, List.getD_cons_succ]
    exact this

/-! ## The loop -/

theorem natAbs_zsmul (s : Int) (Q : Pt) : (if (decide (s < 0)) = true then -(s.natAbs • Q) else s.natAbs • Q) = s • Q := by
  by_cases h : s < 0
  · rw [if_pos (decide_eq_true h), ← natCast_zsmul, ← neg_zsmul]
    congr 1
    omega
  · rw [if_neg (by simpa using h), ← natCast_zsmul]
    congr 1
    omega

theorem toFull_partial {r : Ge} {t : P1p1} {Q : Pt} (h : t.Is Q) : (toPartial r t).IsPartial Q := toPartial_ok r h

theorem doubleStep_ok {pre1 : List Pniels} {Q X : Pt} {r : Ge} {s1 s2 : Int}
    (hp : ∀ i ≤ 7, (pre1.getD i ⟨⟨0, 0, 0, 0, 0⟩, ⟨0, 0, 0, 0, 0⟩, ⟨0, 0, 0, 0, 0⟩, ⟨0, 0, 0, 0, 0⟩⟩).Is ((2 * i + 1) • Q))
    (hr : r.IsPartial X) (h1 : s1 = 0 ∨ s1 % 2 = 1 ∧ -15 ≤ s1 ∧ s1 ≤ 15) (h2 : s2 = 0 ∨ s2 % 2 = 1 ∧ -63 ≤ s2 ∧ s2 ≤ 63) :
    (doubleStep pre1 r s1 s2).IsPartial (X + X + s1 • Q + s2 • B) := by
  have ht := doubleP1p1_ok hr
  have a : ∃ r' t', (if s1 ≠ 0 then
      let r := toFull (doubleP1p1 r)
      (r, pnielsaddP1p1 r (pre1.getD (s1.natAbs / 2) ⟨⟨0, 0, 0, 0, 0⟩, ⟨0, 0, 0, 0, 0⟩, ⟨0, 0, 0, 0, 0⟩, ⟨0, 0, 0, 0, 0⟩⟩)
        (s1 < 0))
    else (r, doubleP1p1 r)) = (r', t') ∧ t'.Is (X + X + s1 • Q) := by
    by_cases hs : s1 = 0
    · rw [if_neg (by simpa using hs), hs, zero_zsmul, add_zero]
      exact ⟨_, _, rfl, ht⟩
    · rw [if_pos hs]
      refine ⟨_, _, rfl, ?_⟩
      have ho := h1.resolve_left hs
      have := pnielsaddP1p1_ok (toFull_ok ht) (hp (s1.natAbs / 2) (by omega)) (s1 < 0)
      rw [show 2 * (s1.natAbs / 2) + 1 = s1.natAbs by omega, natAbs_zsmul] at this
      exact this
  obtain ⟨r', t', e, ht'⟩ := a
  unfold doubleStep
  dsimp only at e ⊢
  rw [e]
  dsimp only
  by_cases hs : s2 = 0
  · rw [if_neg (by simpa using hs), hs, zero_zsmul, add_zero]
    exact toPartial_ok _ ht'
  · rw [if_pos hs]
    have ho := h2.resolve_left hs
    have := nielsadd2P1p1_ok (toFull_ok ht') (sl_ok (k := s2.natAbs / 2) (by omega)) (s2 < 0)
    rw [show 2 * (s2.natAbs / 2) + 1 = s2.natAbs by omega, natAbs_zsmul] at this
    exact toPartial_ok _ this

/-- The value of digits, the most significant ones first, after a start. -/
def horner (a : Int) : List Int → Int
  | [] => a
  | d :: l => horner (2 * a + d) l

theorem horner_append (a : Int) (l l' : List Int) : horner a (l ++ l') = horner (horner a l) l' := by
  induction l generalizing a with
  | nil => rfl
  | cons d l ih => exact ih _

theorem horner_reverse (l : List Int) : horner 0 l.reverse = lval l := by
  induction l with
  | nil => rfl
  | cons d l ih => rw [List.reverse_cons, horner_append, ih, horner, horner, lval]; ring

theorem doubleLoop_ok {pre1 : List Pniels} {Q : Pt}
    (hp : ∀ i ≤ 7, (pre1.getD i ⟨⟨0, 0, 0, 0, 0⟩, ⟨0, 0, 0, 0, 0⟩, ⟨0, 0, 0, 0, 0⟩, ⟨0, 0, 0, 0, 0⟩⟩).Is ((2 * i + 1) • Q)) :
    ∀ (l : List (Int × Int)) (started : Bool) (r : Ge) (a b : Int),
    (∀ t ∈ l, (t.1 = 0 ∨ t.1 % 2 = 1 ∧ -15 ≤ t.1 ∧ t.1 ≤ 15) ∧ (t.2 = 0 ∨ t.2 % 2 = 1 ∧ -63 ≤ t.2 ∧ t.2 ≤ 63)) →
    (started = false → a = 0 ∧ b = 0) → r.IsPartial (a • Q + b • B) →
    (doubleLoop pre1 started r l).IsPartial (horner a (l.map Prod.fst) • Q + horner b (l.map Prod.snd) • B)
  | [], _, r, a, b, _, _, hr => hr
  | (s1, s2) :: l, started, r, a, b, hl, h0, hr => by
    rw [doubleLoop, List.map_cons, List.map_cons, horner, horner]
    obtain ⟨h1, h2⟩ := hl _ List.mem_cons_self
    have hl' := fun t ht => hl t (List.mem_cons_of_mem _ ht)
    by_cases c : (!started && decide (s1 = 0) && decide (s2 = 0)) = true
    · rw [if_pos c]
      simp only [Bool.and_eq_true, Bool.not_eq_true', decide_eq_true_eq] at c
      obtain ⟨⟨c0, c1⟩, c2⟩ := c
      obtain ⟨rfl, rfl⟩ := h0 c0
      dsimp only
      rw [c1, c2]
      exact doubleLoop_ok hp l false r _ _ hl' (fun _ => ⟨rfl, rfl⟩) hr
    · rw [if_neg c]
      apply doubleLoop_ok hp l true _ _ _ hl' (fun h => by cases h)
      have := doubleStep_ok hp hr h1 h2
      convert this using 1
      dsimp only
      rw [add_zsmul, add_zsmul, two_mul, two_mul, add_zsmul, add_zsmul]
      abel

theorem map_fst_zip (a b : List Int) (h : a.length = b.length) : (List.zip a b).reverse.map Prod.fst = a.reverse := by
  rw [List.map_reverse, List.map_fst_zip (by omega)]

theorem map_snd_zip (a b : List Int) (h : a.length = b.length) : (List.zip a b).reverse.map Prod.snd = b.reverse := by
  rw [List.map_reverse, List.map_snd_zip (by omega)]

theorem doubleScalarmult_ok {p : Ge} {Q : Pt} {s1 s2 : Modm} (hp : p.Is Q) (h1 : s1.Lt (2 ^ 32)) (h2 : s2.Lt (2 ^ 32))
    (v1 : s1.val < 2 ^ 253) (v2 : s2.val < 2 ^ 253) :
    (doubleScalarmult p s1 s2).IsPartial (s1.val • Q + s2.val • B) := by
  obtain ⟨l1, d1, e1⟩ := slidingWindow_ok h1 v1 (w := 5) (by omega) (by omega)
  obtain ⟨l2, d2, e2⟩ := slidingWindow_ok h2 v2 (w := 7) (by omega) (by omega)
  unfold doubleScalarmult
  dsimp only
  have hq : (fullToPniels p).Is ((2 * 0 + 1) • Q) := by
    rw [mul_zero, zero_add, one_nsmul]; exact fullToPniels_ok hp
  have ht := fun i hi => preTable_ok (geDouble_ok hp.isPartial) 7 0 _ hq i hi
  simp only [zero_add] at ht
  have hz : (⟨⟨0, 0, 0, 0, 0⟩, ⟨1, 0, 0, 0, 0⟩, ⟨1, 0, 0, 0, 0⟩, ⟨0, 0, 0, 0, 0⟩⟩ : Ge).IsPartial
      ((0 : Int) • Q + (0 : Int) • B) := by
    rw [zero_zsmul, zero_zsmul, add_zero]
    have hR := R_eq
    exact ⟨Curve25519.zero_ok.1.mono (by omega), Curve25519.one_ok.1.mono (by omega), Curve25519.one_ok.1.mono (by omega),
      0, 1, maps_zero, by rw [Curve25519.one_ok.2]; exact one_ne_zero,
      by rw [Curve25519.zero_ok.2, zero_mul], by rw [Curve25519.one_ok.2, one_mul]⟩
  have := doubleLoop_ok ht (List.zip (slidingWindow s1 5) (slidingWindow s2 7)).reverse false _ 0 0
    (by
      intro t ht
      rw [List.mem_reverse] at ht
      have := List.of_mem_zip ht
      exact ⟨d1 _ this.1, d2 _ this.2⟩)
    (fun _ => ⟨rfl, rfl⟩) hz
  rw [map_fst_zip _ _ (by omega), map_snd_zip _ _ (by omega), horner_reverse, horner_reverse, e1, e2, natCast_zsmul,
    natCast_zsmul] at this
  exact this

end Noise.Ed25519
