import Verif.NewHopeArith
/-!
# New Hope: what one level of the transform does to each coefficient
-/

namespace Noise.NewHope

/-- Coefficient `i` after a level: the sum in the lower half of a block of `2 d`, the difference times the factor of
the block in the upper half. -/
def target (red : UInt16 → UInt16) (omega : List Nat) (d : Nat) (a : Poly) (i : Nat) : UInt16 :=
  if i % (2 * d) < d then red (a.at i + a.at (i + d))
  else montgomeryReduce ((entry omega (i / (2 * d))).toUInt32 *
    ((a.at (i - d)).toUInt32 + 36867 - (a.at i).toUInt32))

theorem at_set (p : Poly) (i j : Nat) (x : UInt16) (h : i < p.length) :
    Poly.at (p.set i x) j = if j = i then x else p.at j := by
  unfold Poly.at
  rw [List.getD_eq_getElem?_getD, List.getElem?_set, List.getD_eq_getElem?_getD]
  by_cases e : i = j
  · subst e; rw [if_pos rfl, if_pos rfl, if_pos h]; rfl
  · rw [if_neg e, if_neg fun h => e h.symm]

theorem butterfly_at {red : UInt16 → UInt16} {omega : List Nat} {d : Nat} {a : Poly} {j k : Nat}
    (h : j + d < a.length) (i : Nat) :
    (butterfly red omega d a j k).at i =
      if i = j + d then montgomeryReduce ((entry omega k).toUInt32 * ((a.at j).toUInt32 + 36867 - (a.at (j + d)).toUInt32))
      else if i = j then red (a.at j + a.at (j + d)) else a.at i := by
  unfold butterfly
  dsimp only
  rw [at_set _ _ _ _ (by rw [List.length_set]; exact h), at_set _ _ _ _ (by omega)]

theorem butterfly_length (red : UInt16 → UInt16) (omega : List Nat) (d : Nat) (a : Poly) (j k : Nat) :
    (butterfly red omega d a j k).length = a.length := by
  unfold butterfly
  dsimp only
  rw [List.length_set, List.length_set]

/-- Which coefficients a butterfly changes. -/
theorem touched {d s : Nat} (hs : s < d) (i k : Nat) :
    (i % d = s ∧ i / (2 * d) = k) ↔ (i = s + 2 * d * k ∨ i = s + 2 * d * k + d) := by
  have hd : 0 < 2 * d := by omega
  constructor
  · rintro ⟨h1, h2⟩
    have h3 := Nat.div_add_mod i (2 * d)
    have h4 := Nat.mod_lt i hd
    rw [h2] at h3
    have h5 : i % (2 * d) % d = s := by rw [Nat.mod_mod_of_dvd _ ⟨2, by ring⟩, h1]
    generalize i % (2 * d) = r at *
    by_cases hr : r < d
    · rw [Nat.mod_eq_of_lt hr] at h5; omega
    · rw [Nat.mod_eq_sub_mod (by omega), Nat.mod_eq_of_lt (by omega)] at h5; omega
  · have e : 2 * d * k = d * (2 * k) := by ring
    rintro (h | h) <;> subst h
    · refine ⟨by rw [e, Nat.add_mul_mod_self_left, Nat.mod_eq_of_lt hs], ?_⟩
      rw [Nat.add_mul_div_left _ _ hd, Nat.div_eq_of_lt (by omega), zero_add]
    · refine ⟨by rw [e, Nat.add_mod_right, Nat.add_mul_mod_self_left, Nat.mod_eq_of_lt hs], ?_⟩
      rw [Nat.add_right_comm, Nat.add_mul_div_left _ _ hd, Nat.div_eq_of_lt (by omega), zero_add]

theorem target_low {red : UInt16 → UInt16} {omega : List Nat} {d s : Nat} (hs : s < d) (a : Poly) (k : Nat) :
    target red omega d a (s + 2 * d * k) = red (a.at (s + 2 * d * k) + a.at (s + 2 * d * k + d)) := by
  unfold target
  rw [if_pos]
  rw [Nat.add_mul_mod_self_left, Nat.mod_eq_of_lt (by omega)]
  exact hs

theorem target_high {red : UInt16 → UInt16} {omega : List Nat} {d s : Nat} (hs : s < d) (a : Poly) (k : Nat) :
    target red omega d a (s + 2 * d * k + d) = montgomeryReduce ((entry omega k).toUInt32 *
      ((a.at (s + 2 * d * k)).toUInt32 + 36867 - (a.at (s + 2 * d * k + d)).toUInt32)) := by
  unfold target
  rw [if_neg, ((touched hs _ k).2 (Or.inr rfl)).2, Nat.add_sub_cancel]
  rw [Nat.add_right_comm, Nat.add_mul_mod_self_left, Nat.mod_eq_of_lt (by omega)]
  omega

theorem inner_ok {red : UInt16 → UInt16} {omega : List Nat} {d s m : Nat} (hs : s < d) (a : Poly)
    (hm : 2 * d * m ≤ a.length) :
    let r := (List.range m).foldl (fun a k => butterfly red omega d a (s + 2 * d * k) k) a
    r.length = a.length ∧ ∀ i, r.at i = if i % d = s ∧ i / (2 * d) < m then target red omega d a i else a.at i := by
  induction m with
  | zero => exact ⟨rfl, fun i => by rw [if_neg fun h => Nat.not_lt_zero _ h.2]; rfl⟩
  | succ m ih =>
    have e : 2 * d * (m + 1) = 2 * d * m + 2 * d := by ring
    obtain ⟨h1, h2⟩ := ih (by omega)
    dsimp only at h1 h2 ⊢
    rw [List.range_succ, List.foldl_append]
    generalize (List.range m).foldl (fun a k => butterfly red omega d a (s + 2 * d * k) k) a = r at *
    refine ⟨(butterfly_length _ _ _ _ _ _).trans h1, fun i => ?_⟩
    show (butterfly red omega d r (s + 2 * d * m) m).at i = _
    rw [butterfly_at (by omega)]
    have hj := (touched hs _ m).2 (Or.inl rfl)
    have hjd := (touched hs _ m).2 (Or.inr rfl)
    have hj' : r.at (s + 2 * d * m) = a.at (s + 2 * d * m) := (h2 _).trans (if_neg fun h => by
      rw [hj.2] at h; exact Nat.lt_irrefl _ h.2)
    have hjd' : r.at (s + 2 * d * m + d) = a.at (s + 2 * d * m + d) := (h2 _).trans (if_neg fun h => by
      rw [hjd.2] at h; exact Nat.lt_irrefl _ h.2)
    rw [hj', hjd', h2 i]
    by_cases c1 : i = s + 2 * d * m + d
    · rw [if_pos c1, if_pos (by rw [c1, hjd.1, hjd.2]; exact ⟨rfl, Nat.lt_succ_self m⟩), c1, target_high hs]
    · rw [if_neg c1]
      by_cases c2 : i = s + 2 * d * m
      · rw [if_pos c2, if_pos (by rw [c2, hj.1, hj.2]; exact ⟨rfl, Nat.lt_succ_self m⟩), c2, target_low hs]
      · rw [if_neg c2]
        have := fun h => (touched hs i m).1 h
        by_cases c3 : i % d = s ∧ i / (2 * d) < m
        · rw [if_pos c3, if_pos ⟨c3.1, by omega⟩]
        · rw [if_neg c3, if_neg]
          rintro ⟨h, h'⟩
          by_cases c4 : i / (2 * d) = m
          · rcases this ⟨h, c4⟩ with h | h
            · exact c2 h
            · exact c1 h
          · exact c3 ⟨h, by omega⟩

/-- A level, coefficient by coefficient. -/
theorem level_at {red : UInt16 → UInt16} {omega : List Nat} {d m : Nat} (hd : 0 < d) (hm : 512 / d = m) (hdm : d * m = 512)
    (a : Poly) (ha : a.length = 1024) :
    (level red omega d a).length = 1024 ∧ ∀ i < 1024, (level red omega d a).at i = target red omega d a i := by
  have key : ∀ S ≤ d, let r := (List.range S).foldl (fun a start =>
      (List.range (512 / d)).foldl (fun a k => butterfly red omega d a (start + 2 * d * k) k) a) a
      r.length = 1024 ∧ ∀ i < 1024, r.at i = if i % d < S then target red omega d a i else a.at i := by
    intro S
    induction S with
    | zero => exact fun _ => ⟨ha, fun i _ => by rw [if_neg (by omega)]; rfl⟩
    | succ S ih =>
      intro hS
      obtain ⟨h1, h2⟩ := ih (by omega)
      dsimp only at h1 h2 ⊢
      rw [List.range_succ, List.foldl_append]
      generalize (List.range S).foldl (fun a start =>
        (List.range (512 / d)).foldl (fun a k => butterfly red omega d a (start + 2 * d * k) k) a) a = r at *
      have e : 2 * d * m = 1024 := by rw [mul_assoc, hdm]; rfl
      obtain ⟨h3, h4⟩ := inner_ok (red := red) (omega := omega) (m := m) (show S < d by omega) r (by rw [h1, e])
      rw [hm]
      refine ⟨h3.trans h1, fun i hi => (h4 i).trans ?_⟩
      have hi' : i / (2 * d) < m := by
        rw [Nat.div_lt_iff_lt_mul (by omega), mul_comm m, e]; exact hi
      by_cases c : i % d = S
      · rw [if_pos ⟨c, hi'⟩, if_pos (by omega)]
        by_cases c' : i % (2 * d) < d
        · unfold target
          rw [if_pos c', if_pos c', h2 i hi, if_neg (by omega), h2 (i + d) ?_, if_neg (by rw [Nat.add_mod_right]; omega)]
          rw [← e]
          have := Nat.div_add_mod i (2 * d)
          have h5 : 2 * d * (i / (2 * d) + 1) ≤ 2 * d * m := Nat.mul_le_mul_left _ hi'
          rw [Nat.mul_add, Nat.mul_one] at h5
          omega
        · have hid : d ≤ i := le_trans (by omega) (Nat.mod_le i (2 * d))
          unfold target
          rw [if_neg c', if_neg c', h2 i hi, if_neg (by omega), h2 (i - d) (by omega),
            if_neg (by rw [← Nat.mod_eq_sub_mod hid]; omega)]
      · rw [if_neg fun h => c h.1, h2 i hi]
        by_cases c' : i % d < S
        · rw [if_pos c', if_pos (by omega)]
        · rw [if_neg c', if_neg (by omega)]
  obtain ⟨h1, h2⟩ := key d le_rfl
  refine ⟨h1, fun i hi => (h2 i hi).trans ?_⟩
  rw [if_pos (Nat.mod_lt _ hd)]

/-- A level in the field. -/
theorem level_ok {red : UInt16 → UInt16} {omega : List Nat} {d m B : Nat} (hd : 0 < d) (hm : 512 / d = m)
    (hdm : d * m = 512) (ho : ∀ x ∈ omega, x < 12289) (hr : ∀ x, val (red x) = val x) {a : Poly} (ha : a.length = 1024)
    (hb : ∀ i, (a.at i).toNat < 2 ^ 15) (hB : 2 ^ 14 ≤ B)
    (hR : ∀ i j, (red (a.at i + a.at j)).toNat < B) :
    (level red omega d a).length = 1024 ∧ (∀ i, ((level red omega d a).at i).toNat < B) ∧
      ∀ k < m, ∀ s < d,
        (level red omega d a).v (s + 2 * d * k) = a.v (s + 2 * d * k) + a.v (s + 2 * d * k + d) ∧
        (level red omega d a).v (s + 2 * d * k + d) * 2 ^ 18 =
          val (entry omega k) * (a.v (s + 2 * d * k) - a.v (s + 2 * d * k + d)) := by
  obtain ⟨h1, h2⟩ := level_at (red := red) (omega := omega) hd hm hdm a ha
  have key : ∀ k i j, (montgomeryReduce ((entry omega k).toUInt32 * ((a.at i).toUInt32 + 36867 - (a.at j).toUInt32))).toNat
      < 2 ^ 14 ∧ val (montgomeryReduce ((entry omega k).toUInt32 * ((a.at i).toUInt32 + 36867 - (a.at j).toUInt32))) *
        2 ^ 18 = val (entry omega k) * (a.v i - a.v j) := by
    intro k i j
    have he := entry_lt ho k
    have hi := hb i
    have hj := hb j
    have e1 : ((a.at i).toUInt32 + 36867 - (a.at j).toUInt32).toNat = (a.at i).toNat + 36867 - (a.at j).toNat := by
      rw [UInt32.toNat_sub, UInt32.toNat_add, UInt16.toNat_toUInt32, UInt16.toNat_toUInt32]
      show (_ + (_ + 36867) % _) % _ = _
      omega
    have hm : (entry omega k).toNat * ((a.at i).toNat + 36867 - (a.at j).toNat) ≤ 12288 * 69634 :=
      Nat.mul_le_mul (by omega) (by omega)
    have e2 : ((entry omega k).toUInt32 * ((a.at i).toUInt32 + 36867 - (a.at j).toUInt32)).toNat =
        (entry omega k).toNat * ((a.at i).toNat + 36867 - (a.at j).toNat) := by
      rw [UInt32.toNat_mul, e1, UInt16.toNat_toUInt32]
      omega
    obtain ⟨g1, g2⟩ := mont_ok (a := (entry omega k).toUInt32 * ((a.at i).toUInt32 + 36867 - (a.at j).toUInt32))
      (by omega)
    refine ⟨by omega, ?_⟩
    rw [g2, e2, Nat.cast_mul, Nat.cast_sub (by omega), Nat.cast_add, show ((36867 : Nat) : Z) = 0 from by decide, add_zero]
    rfl
  have e : 2 * d * m = 1024 := by rw [mul_assoc, hdm]; rfl
  refine ⟨h1, fun i => ?_, fun k hk s hs => ?_⟩
  · by_cases hi : i < 1024
    · rw [h2 i hi]
      unfold target
      split
      · exact hR _ _
      · exact lt_of_lt_of_le (key _ _ _).1 hB
    · unfold Poly.at
      rw [List.getD_eq_getElem?_getD, List.getElem?_eq_none (by omega)]
      exact lt_of_lt_of_le (by decide) hB
  · have h5 : 2 * d * (k + 1) ≤ 2 * d * m := Nat.mul_le_mul_left _ hk
    rw [Nat.mul_add, Nat.mul_one] at h5
    unfold Poly.v
    rw [h2 _ (by omega), h2 _ (by omega), target_low hs, target_high hs]
    refine ⟨?_, (key _ _ _).2⟩
    have hi := hb (s + 2 * d * k)
    have hj := hb (s + 2 * d * k + d)
    rw [hr]
    unfold val
    rw [UInt16.toNat_add, Nat.mod_eq_of_lt (by omega), Nat.cast_add]

end Noise.NewHope
