import Verif.NewHope
/-!
# New Hope: the reconciliation

`q = 12289`. The party that sends the hint and the party that receives it find the same bit when their four
coefficients differ by at most 9214 in total.
-/

namespace Noise.NewHope

theorem f_div {x : Int} (h0 : 0 ≤ x) (h1 : x < 131076) :
    x * 2730 / 2 ^ 25 - (12288 - (x - x * 2730 / 2 ^ 25 * 12289)) / 2 ^ 31 = x / 12289 := by
  obtain h | h | h | h | h | h | h | h | h | h | h : x / 12289 = 0 ∨ x / 12289 = 1 ∨ x / 12289 = 2 ∨ x / 12289 = 3 ∨
    x / 12289 = 4 ∨ x / 12289 = 5 ∨ x / 12289 = 6 ∨ x / 12289 = 7 ∨ x / 12289 = 8 ∨ x / 12289 = 9 ∨ x / 12289 = 10 := by
    omega
  all_goals
    have hb : x * 2730 / 2 ^ 25 = x / 12289 ∨ x * 2730 / 2 ^ 25 = x / 12289 - 1 := by omega
    rcases hb with hb | hb <;> rw [hb, h] <;> omega

theorem f_ok {x : Int} (h0 : 0 ≤ x) (h1 : x < 131076) :
    f x = ((x / 12289 + 1) / 2, x / 12289 / 2, ((x - (x / 12289 + 1) / 2 * 2 * 12289).natAbs : Int)) := by
  have e := f_div h0 h1
  unfold f
  dsimp only
  rw [e]
  generalize x / 12289 = t
  have e1 : t / 2 + t % 2 = (t + 1) / 2 := by omega
  have e2 : (t - 1) / 2 + (t - 1) % 2 = t / 2 := by omega
  rw [e1, e2]

theorem g_div {x : Int} (h0 : 0 ≤ x) (h1 : x < 327700) :
    x * 2730 / 2 ^ 27 - (49155 - (x - x * 2730 / 2 ^ 27 * 49156)) / 2 ^ 31 = x / 49156 := by
  obtain h | h | h | h | h | h | h : x / 49156 = 0 ∨ x / 49156 = 1 ∨ x / 49156 = 2 ∨ x / 49156 = 3 ∨
    x / 49156 = 4 ∨ x / 49156 = 5 ∨ x / 49156 = 6 := by omega
  all_goals
    have hb : x * 2730 / 2 ^ 27 = x / 49156 ∨ x * 2730 / 2 ^ 27 = x / 49156 - 1 := by omega
    rcases hb with hb | hb <;> rw [hb, h] <;> omega

/-- `g` is the distance to the nearest multiple of `8 q`. -/
theorem g_ok {x : Int} (h0 : 0 ≤ x) (h1 : x < 327700) :
    ∃ m : Int, g x = (x - 98312 * m).natAbs ∧ -49156 ≤ x - 98312 * m ∧ x - 98312 * m ≤ 49156 := by
  refine ⟨(x / 49156 + 1) / 2, ?_, by omega, by omega⟩
  have e := g_div h0 h1
  unfold g
  dsimp only
  rw [e]
  have e1 : x / 49156 / 2 + x / 49156 % 2 = (x / 49156 + 1) / 2 := by omega
  rw [e1]
  generalize (x / 49156 + 1) / 2 = m
  omega

theorem g_le {x y d r k : Int} (h0 : 0 ≤ x) (h1 : x < 327700) (hr : r = 0 ∨ r = 1)
    (h : x = y - 4 * r + 8 * d + 98312 * k) : g x ≤ y.natAbs + 4 + 8 * d.natAbs := by
  obtain ⟨m, h2, h3, h4⟩ := g_ok h0 h1
  rw [h2]
  omega

theorem g_ge {x y d r k : Int} (h0 : 0 ≤ x) (h1 : x < 327700) (hr : r = 0 ∨ r = 1)
    (h : x = y - 4 * r + 8 * d + 49156 + 98312 * k) : 49156 - (y.natAbs + 4 + 8 * d.natAbs) ≤ g x ∧ g x ≤ 49156 := by
  obtain ⟨m, h2, h3, h4⟩ := g_ok h0 h1
  rw [h2]
  omega

theorem g_range (x : Int) : 0 ≤ g x := by unfold g; dsimp only; omega

theorem ldDecode_ok {x0 x1 x2 x3 : Int} (h : g x0 + g x1 + g x2 + g x3 < 2 ^ 30) :
    ldDecode x0 x1 x2 x3 = if g x0 + g x1 + g x2 + g x3 < 98312 then 1 else 0 := by
  have := g_range x0; have := g_range x1; have := g_range x2; have := g_range x3
  unfold ldDecode
  dsimp only
  split <;> omega

/-! ## The hint -/

/-- The four quotients `t` and the flag `k` that `helprec` chooses: in total the values `8 v + 4 r` are at most `2 q`
away from `q (2 t + k)`. -/
theorem helprec_ok {v : Fin 4 → Int} {r : Int} (hr : r = 0 ∨ r = 1) (hv : ∀ j, 0 ≤ v j ∧ v j < 16384) :
    ∃ (t : Fin 4 → Int) (k : Int), (k = 0 ∨ k = 1) ∧
      (∀ j, helprecStep v r j = if j = 3 then (k + 2 * t 3) % 4 else (t j - t 3) % 4) ∧
      (8 * v 0 + 4 * r - 12289 * (2 * t 0 + k)).natAbs + (8 * v 1 + 4 * r - 12289 * (2 * t 1 + k)).natAbs +
        (8 * v 2 + 4 * r - 12289 * (2 * t 2 + k)).natAbs + (8 * v 3 + 4 * r - 12289 * (2 * t 3 + k)).natAbs ≤ 24578 := by
  have hx : ∀ j, 0 ≤ 8 * v j + 4 * r ∧ 8 * v j + 4 * r < 131076 := fun j => by have := hv j; omega
  have hf := fun j => f_ok (hx j).1 (hx j).2
  have ha : ∀ x : Int, ((x - (x / 12289 + 1) / 2 * 2 * 12289).natAbs : Int) ≤ 12289 ∧
      (x - 12289 * (2 * (x / 12289 / 2) + 1)).natAbs =
        12289 - ((x - (x / 12289 + 1) / 2 * 2 * 12289).natAbs : Int) := by
    intro x
    obtain h | h : x / 12289 % 2 = 0 ∨ x / 12289 % 2 = 1 := by omega
    all_goals omega
  by_cases c : ((f (8 * v 0 + 4 * r)).2.2 + (f (8 * v 1 + 4 * r)).2.2 + (f (8 * v 2 + 4 * r)).2.2 +
      (f (8 * v 3 + 4 * r)).2.2) ≤ 24577
  · refine ⟨fun j => ((8 * v j + 4 * r) / 12289 + 1) / 2, 0, Or.inl rfl, fun j => ?_, ?_⟩
    · unfold helprecStep
      dsimp only
      have e : (2 * 12289 - 1 - ((f (8 * v 0 + 4 * r)).2.2 + (f (8 * v 1 + 4 * r)).2.2 + (f (8 * v 2 + 4 * r)).2.2 +
          (f (8 * v 3 + 4 * r)).2.2)) / 2 ^ 31 = 0 := by
        simp only [hf] at c ⊢
        omega
      rw [e]
      simp only [if_true, hf, Int.neg_zero]
    · simp only [hf] at c
      have e : ∀ x : Int, 12289 * (2 * ((x / 12289 + 1) / 2) + 0) = (x / 12289 + 1) / 2 * 2 * 12289 := fun x => by omega
      dsimp only
      rw [e, e, e, e]
      omega
  · refine ⟨fun j => (8 * v j + 4 * r) / 12289 / 2, 1, Or.inr rfl, fun j => ?_, ?_⟩
    · unfold helprecStep
      dsimp only
      have e : (2 * 12289 - 1 - ((f (8 * v 0 + 4 * r)).2.2 + (f (8 * v 1 + 4 * r)).2.2 + (f (8 * v 2 + 4 * r)).2.2 +
          (f (8 * v 3 + 4 * r)).2.2)) / 2 ^ 31 = -1 := by
        simp only [hf] at c ⊢
        have h0 := (ha (8 * v 0 + 4 * r)).1
        have h1 := (ha (8 * v 1 + 4 * r)).1
        have h2 := (ha (8 * v 2 + 4 * r)).1
        have h3 := (ha (8 * v 3 + 4 * r)).1
        omega
      rw [e]
      simp only [hf, show ¬((-1 : Int) = 0) from by decide, if_false, Int.neg_neg]
    · simp only [hf] at c
      have h0 := (ha (8 * v 0 + 4 * r)).2
      have h1 := (ha (8 * v 1 + 4 * r)).2
      have h2 := (ha (8 * v 2 + 4 * r)).2
      have h3 := (ha (8 * v 3 + 4 * r)).2
      dsimp only
      generalize (8 * v 0 + 4 * r - 12289 * (2 * ((8 * v 0 + 4 * r) / 12289 / 2) + 1)).natAbs = a0 at *
      generalize (8 * v 1 + 4 * r - 12289 * (2 * ((8 * v 1 + 4 * r) / 12289 / 2) + 1)).natAbs = a1 at *
      generalize (8 * v 2 + 4 * r - 12289 * (2 * ((8 * v 2 + 4 * r) / 12289 / 2) + 1)).natAbs = a2 at *
      generalize (8 * v 3 + 4 * r - 12289 * (2 * ((8 * v 3 + 4 * r) / 12289 / 2) + 1)).natAbs = a3 at *
      clear hf ha hx hv
      omega

/-! ## The bit -/

/-- With the hint for `v`, the bit is the same for all coefficients that are close to `v` modulo `q`. -/
theorem recBit_ok {v : Fin 4 → Int} {r : Int} (hr : r = 0 ∨ r = 1) (hv : ∀ j, 0 ≤ v j ∧ v j < 16384) :
    ∃ b : Int, (b = 0 ∨ b = 1) ∧ ∀ v' d n : Fin 4 → Int, (∀ j, 0 ≤ v' j ∧ v' j < 16384) →
      (∀ j, v' j = v j + d j + 12289 * n j) →
      (d 0).natAbs + (d 1).natAbs + (d 2).natAbs + (d 3).natAbs ≤ 9214 → recBit v' (helprecStep v r) = b := by
  obtain ⟨t, k, hk, hc, hb⟩ := helprec_ok hr hv
  refine ⟨1 - (k + 2 * t 3) / 4 % 2, by omega, fun v' d n hv' hd hs => ?_⟩
  unfold recBit
  have c0 : helprecStep v r 0 = (t 0 - t 3) % 4 := hc 0
  have c1 : helprecStep v r 1 = (t 1 - t 3) % 4 := hc 1
  have c2 : helprecStep v r 2 = (t 2 - t 3) % 4 := hc 2
  have c3 : helprecStep v r 3 = (k + 2 * t 3) % 4 := hc 3
  rw [c0, c1, c2, c3]
  generalize hy : (fun j => 8 * v j + 4 * r - 12289 * (2 * t j + k)) = y
  have hy' : ∀ j, 8 * v j + 4 * r - 12289 * (2 * t j + k) = y j := fun j => congrFun hy j
  rw [hy', hy', hy', hy'] at hb
  have e3 : (k + 2 * t 3) % 4 = k + 2 * t 3 - 4 * ((k + 2 * t 3) / 4) := by omega
  obtain hp | hp : (k + 2 * t 3) / 4 % 2 = 0 ∨ (k + 2 * t 3) / 4 % 2 = 1 := by omega
  · have gj : ∀ j, g (16 * 12289 + 8 * v' j - 12289 * (2 * ((t j - t 3) % 4) + (k + 2 * t 3) % 4)) ≤
        (y j).natAbs + 4 + 8 * (d j).natAbs := by
      intro j
      have := hv' j; have := hd j; have := hy' j
      exact g_le (k := 2 + n j + (t j - t 3) / 4 + (k + 2 * t 3) / 4 / 2) (by omega) (by omega) hr (by omega)
    have g3 : g (16 * 12289 + 8 * v' 3 - 12289 * ((k + 2 * t 3) % 4)) ≤ (y 3).natAbs + 4 + 8 * (d 3).natAbs := by
      have := hv' 3; have := hd 3; have := hy' 3
      exact g_le (k := 2 + n 3 + (k + 2 * t 3) / 4 / 2) (by omega) (by omega) hr (by omega)
    have g0 := gj 0; have g1 := gj 1; have g2 := gj 2
    clear gj hd hv' hv hc hy hy'
    rw [hp, ldDecode_ok (by omega), if_pos (by omega)]
    rfl
  · have gj : ∀ j, 49156 - ((y j).natAbs + 4 + 8 * (d j).natAbs) ≤
        g (16 * 12289 + 8 * v' j - 12289 * (2 * ((t j - t 3) % 4) + (k + 2 * t 3) % 4)) ∧
        g (16 * 12289 + 8 * v' j - 12289 * (2 * ((t j - t 3) % 4) + (k + 2 * t 3) % 4)) ≤ 49156 := by
      intro j
      have := hv' j; have := hd j; have := hy' j
      exact g_ge (k := 2 + n j + (t j - t 3) / 4 + (k + 2 * t 3) / 4 / 2) (by omega) (by omega) hr (by omega)
    have g3 : 49156 - ((y 3).natAbs + 4 + 8 * (d 3).natAbs) ≤ g (16 * 12289 + 8 * v' 3 - 12289 * ((k + 2 * t 3) % 4)) ∧
        g (16 * 12289 + 8 * v' 3 - 12289 * ((k + 2 * t 3) % 4)) ≤ 49156 := by
      have := hv' 3; have := hd 3; have := hy' 3
      exact g_ge (k := 2 + n 3 + (k + 2 * t 3) / 4 / 2) (by omega) (by omega) hr (by omega)
    have g0 := gj 0; have g1 := gj 1; have g2 := gj 2
    clear gj hd hv' hv hc hy hy'
    rw [hp, ldDecode_ok (by omega), if_neg (by omega)]
    rfl

end Noise.NewHope
