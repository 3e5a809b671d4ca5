import Mathlib.AlgebraicGeometry.EllipticCurve.Affine.Point
import Mathlib.Tactic.LinearCombination
import Mathlib.Tactic.FieldSimp
/-!
# The group law of a Montgomery curve on first coordinates

`y^2 = x^3 + A*x^2 + x` over a field in which `2 ≠ 0` and `A^2 ≠ 4`. A point is represented by a pair `(x, z)` with
`x/z` its first coordinate, or by `(x, 0)` with `x ≠ 0` if it is the point at infinity.
-/

namespace Noise.Montgomery

open WeierstrassCurve WeierstrassCurve.Affine

variable {K : Type*} [Field K]

/-- "v^2 = u^3 + A*u^2 + u", RFC 7748, section 4.1. -/
def curve (A : K) : WeierstrassCurve.Affine K := ⟨0, A, 0, 1, 0⟩

theorem equation_iff {A x y : K} : (curve A).Equation x y ↔ y ^ 2 = x ^ 3 + A * x ^ 2 + x := by
  rw [WeierstrassCurve.Affine.equation_iff]
  simp [curve]

theorem nonsingular {A x y : K} (h2 : (2 : K) ≠ 0) (hA : A ^ 2 ≠ 4) (h : y ^ 2 = x ^ 3 + A * x ^ 2 + x) :
    (curve A).Nonsingular x y := by
  rw [WeierstrassCurve.Affine.nonsingular_iff]
  refine ⟨equation_iff.2 h, ?_⟩
  by_contra hc
  simp only [curve, not_or, not_not] at hc
  obtain ⟨h3, h4⟩ := hc
  have hy : y = 0 := by
    have : 2 * y = 0 := by linear_combination h4
    exact (mul_eq_zero.1 this).resolve_left h2
  subst hy
  have e1 : 3 * x ^ 2 + 2 * A * x + 1 = 0 := by linear_combination -h3
  have e2 : x * (x ^ 2 + A * x + 1) = 0 := by linear_combination -h
  have hx : x ≠ 0 := by rintro rfl; simp at e1
  have e3 : x ^ 2 + A * x + 1 = 0 := (mul_eq_zero.1 e2).resolve_left hx
  have e4 : x * (2 * x + A) = 0 := by linear_combination e1 - e3
  have e5 : 2 * x + A = 0 := (mul_eq_zero.1 e4).resolve_left hx
  exact hA (by linear_combination (-4) * e3 + (2 * x + A) * e5)

/-- `(x, z)` represents the point. -/
def Rep {A : K} : (curve A).Point → K → K → Prop
  | .zero, x, z => x ≠ 0 ∧ z = 0
  | .some q _ _, x, z => z ≠ 0 ∧ x = q * z

theorem Rep.neg {A : K} {Q : (curve A).Point} {x z : K} (h : Rep Q x z) : Rep (-Q) x z := by
  cases Q with
  | zero => exact h
  | some q y hq => exact h

theorem point_eq {A x y : K} (h : (curve A).Nonsingular x y) : y ^ 2 = x ^ 3 + A * x ^ 2 + x := equation_iff.1 h.1

theorem negY_eq {A x y : K} : (curve A).negY x y = -y := by simp [negY, curve]

theorem addX_eq {A x₁ x₂ l : K} : (curve A).addX x₁ x₂ l = l ^ 2 - A - x₁ - x₂ := by simp [addX, curve]

/-- The product of the first coordinates of sum and difference. -/
theorem sum_mul_diff {A q r y s : K} (hy : y ^ 2 = q ^ 3 + A * q ^ 2 + q) (hs : s ^ 2 = r ^ 3 + A * r ^ 2 + r) :
    ((s - y) ^ 2 - (A + q + r) * (r - q) ^ 2) * ((s + y) ^ 2 - (A + q + r) * (r - q) ^ 2) =
      (q * r - 1) ^ 2 * (r - q) ^ 2 := by
  have h : ((s - y) ^ 2 - (A + q + r) * (r - q) ^ 2) * ((s + y) ^ 2 - (A + q + r) * (r - q) ^ 2) =
      (s ^ 2 - y ^ 2) ^ 2 - 2 * (s ^ 2 + y ^ 2) * ((A + q + r) * (r - q) ^ 2) + ((A + q + r) * (r - q) ^ 2) ^ 2 := by
    ring
  rw [h, hy, hs]
  ring

variable [DecidableEq K]

/-- Doubling on first coordinates. -/
theorem Rep.double {A a24 : K} (h2 : (2 : K) ≠ 0) (hA : A ^ 2 ≠ 4) (ha : 4 * a24 + 2 = A) {Q : (curve A).Point} {x z : K}
    (h : Rep Q x z) :
    Rep (Q + Q) ((x + z) ^ 2 * (x - z) ^ 2)
      (((x + z) ^ 2 - (x - z) ^ 2) * ((x + z) ^ 2 + a24 * ((x + z) ^ 2 - (x - z) ^ 2))) := by
  cases Q with
  | zero =>
    obtain ⟨hx, rfl⟩ := h
    change Rep (0 + 0 : (curve A).Point) _ _
    rw [add_zero]
    refine ⟨?_, by ring⟩
    simp [hx]
  | some q y hq =>
    obtain ⟨hz, rfl⟩ := h
    have e := point_eq hq
    have hz4 : ((q * z + z) ^ 2 - (q * z - z) ^ 2) * ((q * z + z) ^ 2 + a24 * ((q * z + z) ^ 2 - (q * z - z) ^ 2)) =
        (2 * y) ^ 2 * z ^ 4 := by
      linear_combination (-4 * z ^ 4) * e + 4 * q ^ 2 * z ^ 4 * ha
    have hx4 : (q * z + z) ^ 2 * (q * z - z) ^ 2 = (q ^ 2 - 1) ^ 2 * z ^ 4 := by ring
    rw [hz4, hx4]
    by_cases hy : y = 0
    · subst hy
      rw [Point.add_self_of_Y_eq (by rw [negY_eq]; simp)]
      refine ⟨?_, by simp⟩
      have : q ^ 2 - 1 ≠ 0 := by
        intro h1
        have e2 : q * (q * A + 2) = 0 := by linear_combination -e - q * h1
        have hq0 : q ≠ 0 := by rintro rfl; simp at h1
        have e3 := (mul_eq_zero.1 e2).resolve_left hq0
        exact hA (by linear_combination (q * A - 2) * e3 - A ^ 2 * h1)
      exact mul_ne_zero (pow_ne_zero _ this) (pow_ne_zero _ hz)
    · have hny : y ≠ (curve A).negY q y := by
        rw [negY_eq]
        intro h
        have : 2 * y = 0 := by linear_combination h
        exact (mul_eq_zero.1 this).elim h2 hy
      rw [Point.add_self_of_Y_ne hny]
      have h2y : 2 * y ≠ 0 := mul_ne_zero h2 hy
      refine ⟨mul_ne_zero (pow_ne_zero _ h2y) (pow_ne_zero _ hz), ?_⟩
      rw [addX_eq, slope_of_Y_ne rfl hny, negY_eq]
      have : (3 * q ^ 2 + 2 * (curve A).a₂ * q + (curve A).a₄ - (curve A).a₁ * y) / (y - -y) =
          (3 * q ^ 2 + 2 * A * q + 1) / (2 * y) := by
        simp [curve]; ring
      rw [this]
      field_simp
      linear_combination (4 * (A + 2 * q)) * e

/-- Differential addition on first coordinates: `R - Q` is a point with first coordinate `u`. -/
theorem Rep.diffAdd {A : K} (h2 : (2 : K) ≠ 0) {Q R : (curve A).Point} {x2 z2 x3 z3 u v : K} {hu : (curve A).Nonsingular u v}
    (h0 : u ≠ 0) (hD : R - Q = .some u v hu) (hQ : Rep Q x2 z2) (hR : Rep R x3 z3) :
    Rep (Q + R) (((x3 - z3) * (x2 + z2) + (x3 + z3) * (x2 - z2)) ^ 2)
      (u * ((x3 - z3) * (x2 + z2) - (x3 + z3) * (x2 - z2)) ^ 2) := by
  have ex : (x3 - z3) * (x2 + z2) + (x3 + z3) * (x2 - z2) = 2 * (x2 * x3 - z2 * z3) := by ring
  have ez : (x3 - z3) * (x2 + z2) - (x3 + z3) * (x2 - z2) = 2 * (x3 * z2 - x2 * z3) := by ring
  rw [ex, ez]
  cases Q with
  | zero =>
    change R - 0 = _ at hD
    rw [sub_zero] at hD
    subst hD
    change Rep (0 + _ : (curve A).Point) _ _
    rw [zero_add]
    obtain ⟨hx2, rfl⟩ := hQ
    obtain ⟨hz3, rfl⟩ := hR
    refine ⟨?_, by ring⟩
    simp [h0, h2, hx2, hz3]
  | some q y hq =>
    cases R with
    | zero =>
      change 0 - _ = _ at hD
      rw [zero_sub, Point.neg_some, Point.some.injEq] at hD
      change Rep (_ + 0 : (curve A).Point) _ _
      rw [add_zero]
      obtain ⟨hz2, rfl⟩ := hQ
      obtain ⟨hx3, rfl⟩ := hR
      obtain ⟨rfl, -⟩ := hD
      refine ⟨?_, by ring⟩
      simp [h0, h2, hz2, hx3]
    | some r s hr =>
      obtain ⟨hz2, rfl⟩ := hQ
      obtain ⟨hz3, rfl⟩ := hR
      have eq := point_eq hq
      have er := point_eq hr
      by_cases hqr : q = r
      · subst hqr
        rcases Point.X_eq_iff (h₁ := hq) (h₂ := hr) |>.1 rfl with h | h
        · rw [h, sub_self] at hD
          exact absurd hD.symm (Point.some_ne_zero hu)
        · have h' : (Point.some q s hr : (curve A).Point) = -Point.some q y hq := by rw [h, neg_neg]
          rw [h, neg_add_cancel]
          refine ⟨?_, by ring⟩
          have hne : q ^ 2 - 1 ≠ 0 := by
            intro h1
            rw [h', sub_eq_add_neg] at hD
            have hd := congrArg Neg.neg hD
            rw [neg_add, neg_neg, Point.neg_some] at hd
            by_cases hy : y = (curve A).negY q y
            · rw [Point.add_self_of_Y_eq hy] at hd
              exact Point.some_ne_zero _ hd.symm
            · rw [Point.add_self_of_Y_ne hy, Point.some.injEq, addX_eq, slope_of_Y_ne rfl hy, negY_eq] at hd
              have h2y : 2 * y ≠ 0 := by
                intro h
                rw [negY_eq] at hy
                exact hy (by linear_combination h)
              have : (3 * q ^ 2 + 2 * (curve A).a₂ * q + (curve A).a₄ - (curve A).a₁ * y) / (y - -y) =
                  (3 * q ^ 2 + 2 * A * q + 1) / (2 * y) := by
                simp [curve]; ring
              rw [this] at hd
              have hd := hd.1
              have key : (2 * y) ^ 2 * u = (q ^ 2 - 1) ^ 2 := by
                rw [← hd]
                have : (2 * y) ^ 2 * (((3 * q ^ 2 + 2 * A * q + 1) / (2 * y)) ^ 2 - A - q - q) =
                    (3 * q ^ 2 + 2 * A * q + 1) ^ 2 - (2 * y) ^ 2 * (A + 2 * q) := by
                  have hy0 : y ≠ 0 := fun h => h2y (by rw [h, mul_zero])
                  field_simp
                  ring
                rw [this]
                linear_combination (-4 * (A + 2 * q)) * eq
              rw [h1] at key
              have := mul_eq_zero.1 (key.trans (by ring))
              exact this.elim (pow_ne_zero _ h2y) h0
          have : 2 * (q * z2 * (q * z3) - z2 * z3) = 2 * (q ^ 2 - 1) * (z2 * z3) := by ring
          rw [this]
          simp [h2, hne, hz2, hz3]
      · have hrq : r - q ≠ 0 := sub_ne_zero.2 (Ne.symm hqr)
        rw [sub_eq_add_neg, Point.neg_some, Point.add_of_X_ne (Ne.symm hqr), Point.some.injEq, addX_eq,
          slope_of_X_ne (Ne.symm hqr), negY_eq] at hD
        rw [Point.add_of_X_ne hqr]
        refine ⟨?_, ?_⟩
        · have : 2 * (r * z3 * z2 - q * z2 * z3) = 2 * (r - q) * (z2 * z3) := by ring
          rw [this]
          simp [h0, h2, hrq, hz2, hz3]
        · rw [addX_eq, slope_of_X_ne hqr, ← hD.1]
          have hqr' : q - r ≠ 0 := sub_ne_zero.2 hqr
          have e1 : ((s - -y) / (r - q)) ^ 2 - A - r - q = ((s + y) ^ 2 - (A + q + r) * (r - q) ^ 2) / (r - q) ^ 2 := by
            field_simp; ring
          have e2 : ((y - s) / (q - r)) ^ 2 - A - q - r = ((s - y) ^ 2 - (A + q + r) * (r - q) ^ 2) / (r - q) ^ 2 := by
            have : (q - r) ^ 2 = (r - q) ^ 2 := by ring
            rw [div_pow, this]
            field_simp; ring
          rw [e1, e2]
          field_simp
          linear_combination -sum_mul_diff eq er

end Noise.Montgomery
