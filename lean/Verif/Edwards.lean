import Verif.Montgomery
/-!
# The group law of a twisted Edwards curve

`-x^2 + y^2 = 1 + d*x^2*y^2` over a field in which `-1` is a square and `d` is not, and its map to the Montgomery curve
`v^2 = u^3 + A*u^2 + u`.
-/

namespace Noise.Edwards

open WeierstrassCurve WeierstrassCurve.Affine Montgomery

variable {K : Type*} [Field K]

/-- "-x^2 + y^2 = 1 + d x^2 y^2", RFC 8032, section 5.1. -/
def On (d x y : K) : Prop := -x ^ 2 + y ^ 2 = 1 + d * x ^ 2 * y ^ 2

/-- What is needed of the constants. -/
structure Params (A d c i : K) : Prop where
  two : (2 : K) ≠ 0
  disc : A ^ 2 ≠ 4
  scale : c ^ 2 = -(A + 2)
  hd : d * (A + 2) = -(A - 2)
  minus : i ^ 2 = -1
  nonsq : ∀ r : K, r ^ 2 ≠ d

variable {A d c i : K}

theorem Params.A2 (h : Params A d c i) : A + 2 ≠ 0 := fun e => h.disc (by linear_combination (A - 2) * e)

theorem Params.c0 (h : Params A d c i) : c ≠ 0 := by
  intro e
  exact h.A2 (by linear_combination h.scale - c * e)

theorem Params.d1 (h : Params A d c i) : 1 + d ≠ 0 := by
  intro e
  have : (2 : K) ^ 2 = 0 := by linear_combination (A + 2) * e - h.hd
  exact h.two (pow_eq_zero_iff (by norm_num) |>.1 this)

/-- The denominators of the addition formulas do not vanish. -/
theorem Params.complete (h : Params A d c i) {x1 y1 x2 y2 e : K} (h1 : On d x1 y1) (h2 : On d x2 y2)
    (he : e = d * x1 * x2 * y1 * y2) : e ^ 2 ≠ 1 := by
  intro h0
  have hi := h.minus
  have i0 : i ≠ 0 := by rintro rfl; simp at hi
  have n1 : x1 ≠ 0 := by rintro rfl; simp [he] at h0
  have n2 : y1 ≠ 0 := by rintro rfl; simp [he] at h0
  unfold On at h1 h2
  have key : ∀ s : K, s ^ 2 = 1 → (i * x1 + s * e * y1) ^ 2 = d * (x1 * y1 * (i * x2 + s * y2)) ^ 2 := by
    intro s hs
    have hd0 : (d * x1 * x2 * y1 * y2) ^ 2 = 1 := by rw [← he, h0]
    linear_combination (s ^ 2 * y1 ^ 2) * h0 + (x1 ^ 2 - d * x1 ^ 2 * y1 ^ 2 * x2 ^ 2) * hi + h1 - hd0 -
      (d * x1 ^ 2 * y1 ^ 2) * h2 + (y1 ^ 2 - d * x1 ^ 2 * y1 ^ 2 * y2 ^ 2) * hs + (2 * i * s * x1 * y1) * he
  have hz : ∀ s : K, s ^ 2 = 1 → i * x2 + s * y2 = 0 := by
    intro s hs
    by_contra hne
    have hden : x1 * y1 * (i * x2 + s * y2) ≠ 0 := mul_ne_zero (mul_ne_zero n1 n2) hne
    refine h.nonsq ((i * x1 + s * e * y1) / (x1 * y1 * (i * x2 + s * y2))) ?_
    rw [div_pow, key s hs]
    field_simp
  have z1 := hz 1 (by ring)
  have z2 := hz (-1) (by ring)
  have hx : x2 = 0 := by
    have : 2 * (i * x2) = 0 := by linear_combination z1 + z2
    exact (mul_eq_zero.1 ((mul_eq_zero.1 this).resolve_left h.two)).resolve_left i0
  rw [he, hx] at h0
  simp at h0

/-- "x3 = (x1 y2 + x2 y1)/(1 + d x1 x2 y1 y2), y3 = (y1 y2 + x1 x2)/(1 - d x1 x2 y1 y2)". -/
structure Sum (d x1 y1 x2 y2 x3 y3 : K) : Prop where
  hx : x3 * (1 + d * x1 * x2 * y1 * y2) = x1 * y2 + x2 * y1
  hy : y3 * (1 - d * x1 * x2 * y1 * y2) = y1 * y2 + x1 * x2

theorem Params.den (h : Params A d c i) {x1 y1 x2 y2 : K} (h1 : On d x1 y1) (h2 : On d x2 y2) :
    1 + d * x1 * x2 * y1 * y2 ≠ 0 ∧ 1 - d * x1 * x2 * y1 * y2 ≠ 0 := by
  have := h.complete h1 h2 rfl
  constructor
  · intro e
    exact this (by linear_combination (d * x1 * x2 * y1 * y2 - 1) * e)
  · intro e
    exact this (by linear_combination (-d * x1 * x2 * y1 * y2 - 1) * e)

/-- The sum of two points is on the curve. -/
theorem Params.sum_on (h : Params A d c i) {x1 y1 x2 y2 x3 y3 : K} (h1 : On d x1 y1) (h2 : On d x2 y2)
    (hs : Sum d x1 y1 x2 y2 x3 y3) : On d x3 y3 := by
  obtain ⟨p, m⟩ := h.den h1 h2
  have hx := hs.hx
  have hy := hs.hy
  unfold On at *
  have key : -((x1 * y2 + x2 * y1) * (1 - d * x1 * x2 * y1 * y2)) ^ 2 +
      ((y1 * y2 + x1 * x2) * (1 + d * x1 * x2 * y1 * y2)) ^ 2 =
    ((1 - d * x1 * x2 * y1 * y2) * (1 + d * x1 * x2 * y1 * y2)) ^ 2 +
      d * (x1 * y2 + x2 * y1) ^ 2 * (y1 * y2 + x1 * x2) ^ 2 := by
    clear hx hy p m hs h
    grind
  rw [← hx, ← hy] at key
  have hd : ((1 - d * x1 * x2 * y1 * y2) * (1 + d * x1 * x2 * y1 * y2)) ^ 2 ≠ 0 := pow_ne_zero _ (mul_ne_zero m p)
  apply mul_left_cancel₀ hd
  linear_combination key

/-- The points of the two curves that correspond: "u = (1+y)/(1-y), v = sqrt(-486664)*u/x", RFC 7748, section 4.1. -/
def Maps (d c : K) : (curve A).Point → K → K → Prop
  | .zero, x, y => x = 0 ∧ y = 1
  | .some u v _, x, y => On d x y ∧ u * (1 - y) = 1 + y ∧ v * x = c * u

theorem Maps.on {P : (curve A).Point} {x y : K} (h : Maps d c P x y) : On d x y := by
  cases P with
  | zero => obtain ⟨rfl, rfl⟩ := h; simp [On]
  | some u v hq => exact h.1

theorem Params.x_of_u (h : Params A d c i) {x y u : K} (ho : On d x y) (hu : u * (1 - y) = 1 + y) (h0 : u = 0) :
    x = 0 ∧ y = -1 := by
  subst h0
  have hy : y = -1 := by linear_combination -hu
  subst hy
  unfold On at ho
  have : (1 + d) * x ^ 2 = 0 := by linear_combination -ho
  exact ⟨(pow_eq_zero_iff (by norm_num)).1 ((mul_eq_zero.1 this).resolve_left h.d1), rfl⟩

theorem Params.u_of_x (h : Params A d c i) {x y u : K} (ho : On d x y) (hu : u * (1 - y) = 1 + y) (h0 : x = 0) :
    u = 0 ∧ y = -1 := by
  subst h0
  unfold On at ho
  have h2 := h.two
  have hy : (y - 1) * (y + 1) = 0 := by linear_combination ho
  rcases mul_eq_zero.1 hy with e | e
  · exact absurd (by linear_combination -hu - (u + 1) * e) h2
  · have hy : y = -1 := by linear_combination e
    subst hy
    have : 2 * u = 0 := by linear_combination hu
    exact ⟨(mul_eq_zero.1 this).resolve_left h2, rfl⟩

theorem Params.y_ne (h : Params A d c i) {y u : K} (hu : u * (1 - y) = 1 + y) : 1 - y ≠ 0 := by
  intro e
  exact h.two (by linear_combination (u + 1) * e - hu)

theorem chord_u {d x1 y1 x2 y2 : K} (r1 : x1 ^ 2 * (1 + d * y1 ^ 2) = y1 ^ 2 - 1)
    (r2 : x2 ^ 2 * (1 + d * y2 ^ 2) = y2 ^ 2 - 1) :
    (1 + d * y1 ^ 2) * (1 + d * y2 ^ 2) * (x2 - x1) ^ 2 * (1 - d * x1 * x2 * y1 * y2 - (y1 * y2 + x1 * x2)) +
      (1 + d) * (y1 - y2) ^ 2 * (1 - d * x1 * x2 * y1 * y2 + (y1 * y2 + x1 * x2)) = 0 := by
  grind

theorem chord_v {d x1 y1 x2 y2 : K} (r1 : x1 ^ 2 * (1 + d * y1 ^ 2) = y1 ^ 2 - 1)
    (r2 : x2 ^ 2 * (1 + d * y2 ^ 2) = y2 ^ 2 - 1) :
    (x1 * y2 + x2 * y1) * ((1 + d * y1 ^ 2) * (1 + d * y2 ^ 2) * (x2 - x1) *
      ((1 + y1) * (1 - y2) * x2 - (1 + y2) * (1 - y1) * x1) + (1 + d) * (y1 - y2) ^ 2 * ((1 + y1) * (1 + y2))) =
      2 * ((1 + d * y1 ^ 2) * (1 + d * y2 ^ 2)) * (x2 - x1) * (y2 - y1) * (x1 * x2) * (1 + d * x1 * x2 * y1 * y2) := by
  grind

/-- The chord through two points. -/
theorem Params.chord (h : Params A d c i) {x1 y1 x2 y2 x3 y3 u1 v1 u2 v2 l : K} (h1 : On d x1 y1) (h2 : On d x2 y2)
    (hs : Sum d x1 y1 x2 y2 x3 y3) (hu1 : u1 * (1 - y1) = 1 + y1) (hu2 : u2 * (1 - y2) = 1 + y2) (hv1 : v1 * x1 = c * u1)
    (hv2 : v2 * x2 = c * u2) (e1 : v1 ^ 2 = u1 ^ 3 + A * u1 ^ 2 + u1) (e2 : v2 ^ 2 = u2 ^ 3 + A * u2 ^ 2 + u2)
    (n1 : u1 ≠ 0) (n2 : u2 ≠ 0) (hne : u1 ≠ u2) (hl : l * (u1 - u2) = v1 - v2) :
    (l ^ 2 - A - u1 - u2) * (1 - y3) = 1 + y3 ∧
      -(l * (l ^ 2 - A - u1 - u2 - u1) + v1) * x3 = c * (l ^ 2 - A - u1 - u2) := by
  have x1n : x1 ≠ 0 := fun e => n1 (h.u_of_x h1 hu1 e).1
  have x2n : x2 ≠ 0 := fun e => n2 (h.u_of_x h2 hu2 e).1
  have t1 := h.y_ne hu1
  have t2 := h.y_ne hu2
  have un : u1 - u2 ≠ 0 := sub_ne_zero.2 hne
  obtain ⟨dp, dm⟩ := h.den h1 h2
  have f2 := h.two
  have f4 : (4 : K) ≠ 0 := by
    have : (4 : K) = 2 * 2 := by norm_num
    rw [this]
    exact mul_ne_zero f2 f2
  have hud : (u1 - u2) * ((1 - y1) * (1 - y2)) = 2 * (y1 - y2) := by
    linear_combination (1 - y2) * hu1 - (1 - y1) * hu2
  have yn : y1 - y2 ≠ 0 := by
    intro e
    rw [e, mul_zero] at hud
    exact (mul_ne_zero un (mul_ne_zero t1 t2)) hud
  have hc4 : c ^ 2 * (1 + d) = -4 := by linear_combination (1 + d) * h.scale - h.hd
  unfold On at h1 h2
  have r1 : x1 ^ 2 * (1 + d * y1 ^ 2) = y1 ^ 2 - 1 := by linear_combination -h1
  have r2 : x2 ^ 2 * (1 + d * y2 ^ 2) = y2 ^ 2 - 1 := by linear_combination -h2
  generalize hu3 : l ^ 2 - A - u1 - u2 = u3
  have a1 : u3 * (u1 * u2 * (u1 - u2) ^ 2) = (v1 * u2 - v2 * u1) ^ 2 := by
    have : u3 * (u1 - u2) ^ 2 = (v1 - v2) ^ 2 - (A + u1 + u2) * (u1 - u2) ^ 2 := by
      rw [← hu3, ← hl]; ring
    linear_combination (u1 * u2) * this + (u1 * u2 - u2 ^ 2) * e1 + (u1 * u2 - u1 ^ 2) * e2
  have a2 : u3 * (u1 - u2) ^ 2 * (x1 * x2) ^ 2 = c ^ 2 * (u1 * u2) * (x2 - x1) ^ 2 := by
    apply mul_left_cancel₀ (mul_ne_zero n1 n2)
    have : x1 * x2 * (v1 * u2 - v2 * u1) = c * (u1 * u2) * (x2 - x1) := by
      linear_combination (x2 * u2) * hv1 - (x1 * u1) * hv2
    linear_combination (x1 * x2) ^ 2 * a1 + (x1 * x2 * (v1 * u2 - v2 * u1) + c * (u1 * u2) * (x2 - x1)) * this
  have a3 : u3 * (4 * (y1 - y2) ^ 2) = c ^ 2 * ((1 + d * y1 ^ 2) * (1 + d * y2 ^ 2)) * (x2 - x1) ^ 2 := by
    apply mul_left_cancel₀ (pow_ne_zero 2 (mul_ne_zero x1n x2n))
    have s1 : (x1 * x2) ^ 2 * ((1 + d * y1 ^ 2) * (1 + d * y2 ^ 2)) = (1 - y1 ^ 2) * (1 - y2 ^ 2) := by
      linear_combination (x2 ^ 2 * (1 + d * y2 ^ 2)) * r1 + (y1 ^ 2 - 1) * r2
    have s2 : u1 * u2 * ((1 - y1) * (1 - y2)) ^ 2 = (1 - y1 ^ 2) * (1 - y2 ^ 2) := by
      linear_combination (u2 * (1 - y1) * (1 - y2) ^ 2) * hu1 + ((1 + y1) * (1 - y1) * (1 - y2)) * hu2
    linear_combination ((1 - y1) * (1 - y2)) ^ 2 * a2 - (u3 * (x1 * x2) ^ 2 *
      ((u1 - u2) * ((1 - y1) * (1 - y2)) + 2 * (y1 - y2))) * hud - c ^ 2 * (x2 - x1) ^ 2 * s1 + c ^ 2 * (x2 - x1) ^ 2 * s2
  have i1 := chord_u r1 r2
  have hy := hs.hy
  have hx := hs.hx
  have c1 : u3 * (1 - y3) = 1 + y3 := by
    apply mul_left_cancel₀ dm
    apply mul_left_cancel₀ (mul_ne_zero f4 (pow_ne_zero 2 yn))
    linear_combination (1 - d * x1 * x2 * y1 * y2 - (y1 * y2 + x1 * x2)) * a3 + c ^ 2 * i1 -
      (y1 - y2) ^ 2 * (1 - d * x1 * x2 * y1 * y2 + (y1 * y2 + x1 * x2)) * hc4 - 4 * (y1 - y2) ^ 2 * (u3 + 1) * hy
  refine ⟨c1, ?_⟩
  have i2 := chord_v r1 r2
  have b1 : -(l * (u3 - u1) + v1) * (u1 - u2) * (x1 * x2) =
      -(c * (u3 * (u1 * x2 - u2 * x1) - u1 * u2 * (x2 - x1))) := by
    linear_combination (-(u3 - u1) * x1 * x2) * hl - (u3 - u2) * x2 * hv1 + (u3 - u1) * x1 * hv2
  have b2 : x3 * (u3 * ((1 + y1) * (1 - y2) * x2 - (1 + y2) * (1 - y1) * x1) - (1 + y1) * (1 + y2) * (x2 - x1)) =
      u3 * (2 * (y2 - y1)) * (x1 * x2) := by
    apply mul_left_cancel₀ dp
    apply mul_left_cancel₀ (mul_ne_zero f4 (pow_ne_zero 2 yn))
    linear_combination 4 * (y1 - y2) ^ 2 * (u3 * ((1 + y1) * (1 - y2) * x2 - (1 + y2) * (1 - y1) * x1) -
      (1 + y1) * (1 + y2) * (x2 - x1)) * hx + ((x1 * y2 + x2 * y1) * ((1 + y1) * (1 - y2) * x2 - (1 + y2) * (1 - y1) * x1) -
      (1 + d * x1 * x2 * y1 * y2) * 2 * (y2 - y1) * (x1 * x2)) * a3 + c ^ 2 * (x2 - x1) * i2 -
      (y1 - y2) ^ 2 * ((1 + y1) * (1 + y2)) * (x2 - x1) * (x1 * y2 + x2 * y1) * hc4
  apply mul_left_cancel₀ (mul_ne_zero (mul_ne_zero x1n x2n) (mul_ne_zero t1 t2))
  apply mul_left_cancel₀ un
  linear_combination x3 * ((1 - y1) * (1 - y2)) * b1 - c * b2 - c * u3 * (x1 * x2) * hud -
    c * x3 * (u3 * x2 * (1 - y2) - (x2 - x1) * (u2 * (1 - y2))) * hu1 +
    c * x3 * (u3 * x1 * (1 - y1) + (x2 - x1) * (1 + y1)) * hu2

/-- The tangent at a point. -/
theorem Params.tangent (h : Params A d c i) {x y x3 y3 u v l : K} (h1 : On d x y) (hs : Sum d x y x y x3 y3)
    (hu : u * (1 - y) = 1 + y) (hv : v * x = c * u) (e1 : v ^ 2 = u ^ 3 + A * u ^ 2 + u) (n1 : u ≠ 0)
    (hl : l * (2 * v) = 3 * u ^ 2 + 2 * A * u + 1) :
    (l ^ 2 - A - u - u) * (1 - y3) = 1 + y3 ∧ -(l * (l ^ 2 - A - u - u - u) + v) * x3 = c * (l ^ 2 - A - u - u) := by
  have xn : x ≠ 0 := fun e => n1 (h.u_of_x h1 hu e).1
  have t1 := h.y_ne hu
  obtain ⟨dp, dm⟩ := h.den h1 h1
  have f2 := h.two
  have cn := h.c0
  have vn : v ≠ 0 := by
    rintro rfl
    rw [zero_mul] at hv
    exact mul_ne_zero cn n1 hv.symm
  have hc4 : c ^ 2 * (1 + d) = -4 := by linear_combination (1 + d) * h.scale - h.hd
  unfold On at h1
  have r1 : x ^ 2 * (1 + d * y ^ 2) = y ^ 2 - 1 := by linear_combination -h1
  have yp : 1 + y ≠ 0 := by rw [← hu]; exact mul_ne_zero n1 t1
  have y2n : 1 - y ^ 2 ≠ 0 := by
    have : 1 - y ^ 2 = (1 - y) * (1 + y) := by ring
    rw [this]
    exact mul_ne_zero t1 yp
  have s1 : (u ^ 2 - 1) * (1 - y) ^ 2 = 4 * y := by
    linear_combination (u * (1 - y) + 1 + y) * hu
  generalize hu3 : l ^ 2 - A - u - u = u3
  have a1 : u3 * (4 * v ^ 2) = (u ^ 2 - 1) ^ 2 := by
    rw [← hu3]
    linear_combination (l * (2 * v) + (3 * u ^ 2 + 2 * A * u + 1)) * hl - 4 * (A + 2 * u) * e1
  have a2 : u3 * c ^ 2 * (1 - y ^ 2) ^ 2 = 4 * x ^ 2 * y ^ 2 := by
    have f4 : (4 : K) ≠ 0 := by
      have : (4 : K) = 2 * 2 := by norm_num
      rw [this]
      exact mul_ne_zero f2 f2
    apply mul_left_cancel₀ f4
    have s2 : v * x * (1 - y) ^ 2 = c * (1 - y ^ 2) := by
      linear_combination (1 - y) ^ 2 * hv + c * (1 - y) * hu
    linear_combination x ^ 2 * (1 - y) ^ 4 * a1 + x ^ 2 * ((u ^ 2 - 1) * (1 - y) ^ 2 + 4 * y) * s1 -
      4 * u3 * (v * x * (1 - y) ^ 2 + c * (1 - y ^ 2)) * s2
  have a3 : u3 * (1 - y ^ 2) = 1 + x ^ 2 := by
    apply mul_left_cancel₀ (mul_ne_zero (pow_ne_zero 2 cn) y2n)
    linear_combination a2 + (x ^ 2 * y ^ 2) * hc4 - c ^ 2 * r1
  have hy := hs.hy
  have hx := hs.hx
  have c1 : u3 * (1 - y3) = 1 + y3 := by
    apply mul_left_cancel₀ dm
    linear_combination 2 * a3 - (u3 + 1) * hy + (u3 - 1) * h1
  refine ⟨c1, ?_⟩
  have b1 : c * (1 - y ^ 2) ^ 2 * -(l * (u3 - u) + v) = 2 * x * y * (y ^ 2 - x ^ 2) := by
    generalize hV : -(l * (u3 - u) + v) = V
    have q1 : 2 * u * v * V = -((u * (u ^ 2 - 1) + 2 * v ^ 2) * u3 - u ^ 2 * (u ^ 2 - 1)) := by
      rw [← hV]
      linear_combination (-u * (u3 - u)) * hl + 2 * (u3 - u) * e1
    have q2 : 2 * u * c * V * x = -(((u ^ 2 - 1) * x ^ 2 + 2 * c ^ 2 * u) * u3 - u * (u ^ 2 - 1) * x ^ 2) := by
      apply mul_left_cancel₀ n1
      linear_combination x ^ 2 * q1 - (2 * u * V * x) * hv - 2 * u3 * (v * x + c * u) * hv
    have q3 : 2 * c * (1 - y ^ 2) * V * x = -((4 * y * x ^ 2 + 2 * c ^ 2 * (1 - y ^ 2)) * u3 - 4 * y * u * x ^ 2) := by
      linear_combination (1 - y) ^ 2 * q2 - 2 * c * V * x * (1 - y) * hu - (x ^ 2 * u3 - u * x ^ 2) * s1 -
        2 * c ^ 2 * u3 * (1 - y) * hu
    have a4 : c ^ 2 * (1 - y ^ 2) * (1 + x ^ 2) = 4 * x ^ 2 * y ^ 2 := by
      linear_combination a2 - c ^ 2 * (1 - y ^ 2) * a3
    apply mul_left_cancel₀ (mul_ne_zero f2 xn)
    linear_combination (1 - y ^ 2) * q3 - (4 * y * x ^ 2 + 2 * c ^ 2 * (1 - y ^ 2)) * a3 + 4 * y * x ^ 2 * (1 + y) * hu -
      2 * a4
  apply mul_left_cancel₀ (mul_ne_zero dp (mul_ne_zero cn (pow_ne_zero 2 y2n)))
  linear_combination c * (1 - y ^ 2) ^ 2 * -(l * (u3 - u) + v) * hx + 2 * x * y * b1 -
    (y ^ 2 - x ^ 2) * a2 + (u3 * c ^ 2 * (1 - y ^ 2) ^ 2) * h1

/-- Addition of a point and the point of order two. -/
theorem order_two {d c : K} {x y x3 y3 u v l : K} (hs : Sum d 0 (-1) x y x3 y3)
    (hu : u * (1 - y) = 1 + y) (hv : v * x = c * u) (e1 : v ^ 2 = u ^ 3 + A * u ^ 2 + u) (n1 : u ≠ 0)
    (hl : l * u = v) :
    (l ^ 2 - A - u) * (1 - y3) = 1 + y3 ∧ -(l * (l ^ 2 - A - u)) * x3 = c * (l ^ 2 - A - u) ∧
      -(l * (l ^ 2 - A - u - u) + v) = -(l * (l ^ 2 - A - u)) := by
  have hx : x3 = -x := by linear_combination hs.hx
  have hy : y3 = -y := by linear_combination hs.hy
  have hu3 : (l ^ 2 - A - u) * u = 1 := by
    apply mul_left_cancel₀ n1
    linear_combination (l * u + v) * hl + e1
  generalize l ^ 2 - A - u = u3 at *
  subst hx hy
  refine ⟨?_, ?_, by linear_combination hl⟩
  · apply mul_left_cancel₀ n1
    linear_combination (1 + y) * hu3 - hu
  · apply mul_left_cancel₀ n1
    linear_combination (u3 * x) * hl + u3 * hv

theorem negAddY_eq {A x₁ x₂ y₁ l : K} : (curve A).addY x₁ x₂ y₁ l =
    -(l * (l ^ 2 - A - x₁ - x₂ - x₁) + y₁) := by
  simp [addY, negAddY, negY, addX, curve]

variable [DecidableEq K]

/-- The map is a homomorphism. -/
theorem Maps.add (h : Params A d c i) {P Q : (curve A).Point} {x1 y1 x2 y2 x3 y3 : K} (h1 : Maps d c P x1 y1)
    (h2 : Maps d c Q x2 y2) (hs : Sum d x1 y1 x2 y2 x3 y3) : Maps d c (P + Q) x3 y3 := by
  have ho := h.sum_on h1.on h2.on hs
  cases P with
  | zero =>
    obtain ⟨rfl, rfl⟩ := h1
    change Maps d c (0 + Q) _ _
    rw [zero_add]
    have hx : x3 = x2 := by linear_combination hs.hx
    have hy : y3 = y2 := by linear_combination hs.hy
    rwa [hx, hy]
  | some u1 v1 g1 =>
    cases Q with
    | zero =>
      obtain ⟨rfl, rfl⟩ := h2
      change Maps d c (_ + 0) _ _
      rw [add_zero]
      have hx : x3 = x1 := by linear_combination hs.hx
      have hy : y3 = y1 := by linear_combination hs.hy
      rwa [hx, hy]
    | some u2 v2 g2 =>
      obtain ⟨o1, p1, q1⟩ := h1
      obtain ⟨o2, p2, q2⟩ := h2
      have e1 := point_eq g1
      have e2 := point_eq g2
      have t1 := h.y_ne p1
      have t2 := h.y_ne p2
      by_cases hu : u1 = u2
      · subst hu
        have hy12 : y1 = y2 := by
          have hy : (u1 + 1) * (y1 - y2) = 0 := by linear_combination p2 - p1
          rcases mul_eq_zero.1 hy with e | e
          · exact absurd (by linear_combination (1 - y1) * e - p1) h.two
          · linear_combination e
        subst hy12
        by_cases hv : v1 = -v2
        · rw [Point.add_of_Y_eq rfl (by rw [negY_eq]; exact hv)]
          have hx : x2 = -x1 := by
            by_cases hz : u1 = 0
            · rw [(h.x_of_u o1 p1 hz).1, (h.x_of_u o2 p2 hz).1, neg_zero]
            · have v0 : v1 ≠ 0 := by
                rintro rfl
                rw [zero_mul] at q1
                exact mul_ne_zero h.c0 hz q1.symm
              apply mul_left_cancel₀ v0
              linear_combination x2 * hv - q2 + q1
          subst hx
          have d1 := (h.den o1 o2)
          constructor
          · apply mul_left_cancel₀ d1.1
            linear_combination hs.hx
          · apply mul_left_cancel₀ d1.2
            unfold On at o1
            linear_combination hs.hy + o1
        · have hvv : v2 = v1 := by
            have : (v1 - v2) * (v1 + v2) = 0 := by linear_combination e1 - e2
            rcases mul_eq_zero.1 this with e | e
            · linear_combination -e
            · exact absurd (by linear_combination e) hv
          subst hvv
          have v0 : v2 ≠ 0 := by
            rintro rfl
            exact hv (by simp)
          have u0 : u1 ≠ 0 := by
            rintro rfl
            exact v0 ((pow_eq_zero_iff (by norm_num : 2 ≠ 0)).1 (by rw [e2]; ring))
          have hx : x2 = x1 := by
            apply mul_left_cancel₀ v0
            linear_combination q2 - q1
          subst hx
          have hny : v2 ≠ (curve A).negY u1 v2 := by rw [negY_eq]; exact hv
          rw [Point.add_self_of_Y_ne hny]
          have hl : (curve A).slope u1 u1 v2 v2 * (2 * v2) = 3 * u1 ^ 2 + 2 * A * u1 + 1 := by
            rw [slope_of_Y_ne rfl hny, negY_eq]
            have : v2 - -v2 = 2 * v2 := by ring
            rw [this, div_mul_cancel₀ _ (mul_ne_zero h.two v0)]
            simp [curve]
          obtain ⟨k1, k2⟩ := h.tangent o1 hs p1 q1 e1 u0 hl
          refine ⟨ho, ?_, ?_⟩
          · rw [addX_eq]; exact k1
          · rw [addX_eq, negAddY_eq]; exact k2
      · rw [Point.add_of_X_ne hu]
        have hl : (curve A).slope u1 u2 v1 v2 * (u1 - u2) = v1 - v2 := by
          rw [slope_of_X_ne hu, div_mul_cancel₀ _ (sub_ne_zero.2 hu)]
        refine ⟨ho, ?_⟩
        rw [addX_eq, negAddY_eq]
        generalize (curve A).slope u1 u2 v1 v2 = l at hl ⊢
        by_cases z1 : u1 = 0
        · obtain ⟨rfl, rfl⟩ := h.x_of_u o1 p1 z1
          subst z1
          have v0 : v1 = 0 := (pow_eq_zero_iff (by norm_num : 2 ≠ 0)).1 (by rw [e1]; ring)
          subst v0
          obtain ⟨k1, k2, -⟩ := order_two hs p2 q2 e2 (Ne.symm hu) (l := l) (by linear_combination -hl)
          refine ⟨by linear_combination k1, by linear_combination k2⟩
        · by_cases z2 : u2 = 0
          · obtain ⟨rfl, rfl⟩ := h.x_of_u o2 p2 z2
            subst z2
            have v0 : v2 = 0 := (pow_eq_zero_iff (by norm_num : 2 ≠ 0)).1 (by rw [e2]; ring)
            subst v0
            have hs' : Sum d 0 (-1) x1 y1 x3 y3 :=
              ⟨by linear_combination hs.hx, by linear_combination hs.hy⟩
            obtain ⟨k1, k2, k3⟩ := order_two hs' p1 q1 e1 hu (l := l) (by linear_combination hl)
            refine ⟨by linear_combination k1, ?_⟩
            rw [sub_zero, k3]
            exact k2
          · exact h.chord o1 o2 hs p1 p2 q1 q2 e1 e2 z1 z2 hu hl

omit [DecidableEq K] in
/-- The opposite of a point. -/
theorem Maps.neg {P : (curve A).Point} {x y : K} (h : Maps d c P x y) : Maps d c (-P) (-x) y := by
  cases P with
  | zero =>
    obtain ⟨rfl, rfl⟩ := h
    exact ⟨neg_zero, rfl⟩
  | some u v g =>
    obtain ⟨o, p, q⟩ := h
    rw [Point.neg_some]
    refine ⟨by unfold On at *; linear_combination o, p, ?_⟩
    rw [negY_eq]
    linear_combination q

omit [DecidableEq K] in
/-- A point of the Montgomery curve corresponds to one pair of coordinates. -/
theorem Maps.unique (h : Params A d c i) {P : (curve A).Point} {x y x' y' : K} (h1 : Maps d c P x y)
    (h2 : Maps d c P x' y') : x = x' ∧ y = y' := by
  cases P with
  | zero => exact ⟨h1.1.trans h2.1.symm, h1.2.trans h2.2.symm⟩
  | some u v g =>
    obtain ⟨o1, p1, q1⟩ := h1
    obtain ⟨o2, p2, q2⟩ := h2
    have hy : y = y' := by
      have hy : (u + 1) * (y - y') = 0 := by linear_combination p2 - p1
      rcases mul_eq_zero.1 hy with e | e
      · exact absurd (by linear_combination (1 - y) * e - p1) h.two
      · linear_combination e
    refine ⟨?_, hy⟩
    by_cases hz : u = 0
    · rw [(h.x_of_u o1 p1 hz).1, (h.x_of_u o2 p2 hz).1]
    · have v0 : v ≠ 0 := by
        rintro rfl
        rw [zero_mul] at q1
        exact mul_ne_zero h.c0 hz q1.symm
      apply mul_left_cancel₀ v0
      linear_combination q1 - q2

omit [DecidableEq K] in
/-- A pair of coordinates on the Edwards curve corresponds to one point. -/
theorem Maps.inj (h : Params A d c i) {P Q : (curve A).Point} {x y : K} (h1 : Maps d c P x y)
    (h2 : Maps d c Q x y) : P = Q := by
  cases P with
  | zero =>
    obtain ⟨rfl, rfl⟩ := h1
    cases Q with
    | zero => rfl
    | some u v g => exact absurd (by simp) (h.y_ne h2.2.1)
  | some u v g =>
    cases Q with
    | zero =>
      obtain ⟨rfl, rfl⟩ := h2
      exact absurd (by simp) (h.y_ne h1.2.1)
    | some u' v' g' =>
      obtain ⟨o1, p1, q1⟩ := h1
      obtain ⟨o2, p2, q2⟩ := h2
      have hu : u = u' := by
        apply mul_right_cancel₀ (h.y_ne p1)
        linear_combination p1 - p2
      subst hu
      have hv : v = v' := by
        by_cases hz : x = 0
        · have := (h.u_of_x o1 p1 hz).1
          subst this
          have e1 := point_eq g
          have e2 := point_eq g'
          rw [(pow_eq_zero_iff (by norm_num : 2 ≠ 0)).1 (e1.trans (by ring)),
            (pow_eq_zero_iff (by norm_num : 2 ≠ 0)).1 (e2.trans (by ring))]
        · apply mul_right_cancel₀ hz
          linear_combination q1 - q2
      subst hv
      rfl

omit [DecidableEq K] in
/-- Every pair of coordinates on the Edwards curve corresponds to a point. -/
theorem Params.exists_maps (h : Params A d c i) {x y : K} (ho : On d x y) : ∃ P : (curve A).Point, Maps d c P x y := by
  by_cases hy : y = 1
  · subst hy
    refine ⟨.zero, ?_, rfl⟩
    unfold On at ho
    have : (1 + d) * x ^ 2 = 0 := by linear_combination -ho
    exact (pow_eq_zero_iff (by norm_num)).1 ((mul_eq_zero.1 this).resolve_left h.d1)
  · have hy1 : 1 - y ≠ 0 := fun e => hy (by linear_combination -e)
    by_cases hx : x = 0
    · subst hx
      refine ⟨.some 0 0 (nonsingular h.two h.disc (by ring)), ho, ?_, by ring⟩
      unfold On at ho
      have : (y - 1) * (y + 1) = 0 := by linear_combination ho
      rcases mul_eq_zero.1 this with e | e
      · exact absurd (by linear_combination -e) hy1
      · linear_combination -e
    · have hu : (1 + y) / (1 - y) * (1 - y) = 1 + y := div_mul_cancel₀ _ hy1
      generalize (1 + y) / (1 - y) = u at hu
      have hv : c * u / x * x = c * u := div_mul_cancel₀ _ hx
      generalize c * u / x = v at hv
      refine ⟨.some u v (nonsingular h.two h.disc ?_), ho, hu, hv⟩
      apply mul_left_cancel₀ (pow_ne_zero 2 hx)
      apply mul_left_cancel₀ (pow_ne_zero 2 hy1)
      unfold On at ho
      linear_combination (1 - y) ^ 2 * (v * x + c * u) * hv + u ^ 2 * (1 - y) ^ 2 * h.scale -
        (A + 2) * u * (1 - y) * hu - x ^ 2 * u * (u * (1 - y) + (1 + y) + A * (1 - y)) * hu + x ^ 2 * u * y ^ 2 * h.hd +
        u * (A + 2) * ho

end Noise.Edwards
