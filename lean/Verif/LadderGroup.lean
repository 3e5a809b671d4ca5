import Verif.Rfc7748X448
import Verif.Montgomery
import Mathlib.FieldTheory.IsAlgClosed.AlgebraicClosure
/-!
# The Montgomery ladder of RFC 7748 multiplies points of an elliptic curve
-/

namespace Noise.Ladder

open WeierstrassCurve WeierstrassCurve.Affine
open Montgomery (curve Rep)

variable {F : Type*} [Field F]

/-! ## The loop -/

/-- A round of the loop that swaps back at once. -/
def eager (a24 u : F) (v : Vars F) (bit : Bool) : Vars F := (Vars.arith a24 u (v.cswap bit)).cswap bit

/-- The loop over the bits `t - 1` to 0 of `k`. -/
def eagerLoop (a24 : F) (k : Nat) (u : F) : Nat → Vars F → Vars F
  | 0, v => v
  | t + 1, v => eagerLoop a24 k u t (eager a24 u v (k.testBit t))

def noflag (v : Vars F) : Vars F := { v with swap := false }

theorem body_eager (a24 u : F) (v : Vars F) (b : Bool) :
    noflag ((v.body a24 u b).cswap (v.body a24 u b).swap) = eager a24 u (noflag (v.cswap v.swap)) b := by
  obtain ⟨x2, z2, x3, z3, s⟩ := v
  cases s <;> cases b <;> rfl

theorem loop_eager (a24 : F) (k : Nat) (u : F) : ∀ t v, noflag ((loop a24 k u t v).cswap (loop a24 k u t v).swap) =
    eagerLoop a24 k u t (noflag (v.cswap v.swap))
  | 0, v => rfl
  | t + 1, v => by rw [loop, eagerLoop, loop_eager a24 k u t, body_eager]

theorem ladder_eager (a24 : F) (p bits k : Nat) (u : F) : ladder a24 p bits k u =
    (eagerLoop a24 k u bits ⟨1, 0, u, 1, false⟩).x2 * (eagerLoop a24 k u bits ⟨1, 0, u, 1, false⟩).z2 ^ (p - 2) := by
  have h := loop_eager a24 k u bits ⟨1, 0, u, 1, false⟩
  have e : noflag (Vars.cswap ⟨1, 0, u, 1, false⟩ false) = ⟨1, 0, u, 1, false⟩ := rfl
  have h : noflag ((loop a24 k u bits ⟨1, 0, u, 1, false⟩).cswap (loop a24 k u bits ⟨1, 0, u, 1, false⟩).swap) =
    eagerLoop a24 k u bits ⟨1, 0, u, 1, false⟩ := by rw [h]; exact congrArg _ e
  rw [← h]
  rfl

theorem eager_zero {a24 : F} {v : Vars F} (h2 : v.x2 * v.z2 = 0) (h3 : v.x3 * v.z3 = 0) (b : Bool) :
    (eager a24 0 v b).z2 = 0 ∧ (eager a24 0 v b).z3 = 0 := by
  have key : ∀ x z : F, x * z = 0 → ∀ w : F, ((x + z) ^ 2 - (x - z) ^ 2) * w = 0 := by
    intro x z h w
    linear_combination 4 * w * h
  cases b with
  | false => exact ⟨key _ _ h2 _, zero_mul _⟩
  | true => exact ⟨zero_mul _, key _ _ h3 _⟩

theorem loop_zero (a24 : F) (k : Nat) : ∀ (t : Nat) (v : Vars F), v.x2 * v.z2 = 0 → v.x3 * v.z3 = 0 →
    (eagerLoop a24 k 0 (t + 1) v).z2 = 0
  | 0, v, h2, h3 => (eager_zero h2 h3 _).1
  | t + 1, v, h2, h3 => by
    rw [eagerLoop]
    obtain ⟨e2, e3⟩ := eager_zero (a24 := a24) h2 h3 (k.testBit (t + 1))
    exact loop_zero a24 k t _ (by rw [e2, mul_zero]) (by rw [e3, mul_zero])

/-! ## Points -/

/-- What the curve must satisfy. -/
structure Params (A a24 : F) (p : Nat) : Prop where
  two : (2 : F) ≠ 0
  sq : A ^ 2 ≠ 4
  a24 : 4 * a24 + 2 = A
  inv : ∀ z : F, z ^ (p - 2) = z⁻¹

section
variable {K : Type*} [Field K] [Algebra F K] {A a24 : F} {p : Nat}

/-- The curve over a field that contains `F`. -/
abbrev E (A : F) (K : Type*) [Field K] [Algebra F K] : WeierstrassCurve.Affine K := curve (algebraMap F K A)

/-- The u-coordinate of a point, and 0 for the point at infinity. -/
def ucoord (Q : (E A K).Point) : K := match Q with
  | .zero => 0
  | .some x _ _ => x

theorem Params.two' (h : Params A a24 p) (K : Type*) [Field K] [Algebra F K] : (2 : K) ≠ 0 := by
  have := (map_ne_zero (algebraMap F K)).2 h.two
  rwa [map_ofNat] at this

theorem Params.sq' (h : Params A a24 p) (K : Type*) [Field K] [Algebra F K] : (algebraMap F K A) ^ 2 ≠ 4 := by
  intro h4
  apply h.sq
  apply (algebraMap F K).injective
  rw [map_pow, h4, map_ofNat]

theorem Params.a24' (h : Params A a24 p) (K : Type*) [Field K] [Algebra F K] :
    4 * algebraMap F K a24 + 2 = algebraMap F K A := by
  rw [← h.a24, map_add, map_mul, map_ofNat, map_ofNat]

variable [DecidableEq K]

/-- The variables represent `m` times and `m + 1` times the point. -/
def Inv (Q : (E A K).Point) (m : Nat) (v : Vars F) : Prop :=
  Rep (m • Q) (algebraMap F K v.x2) (algebraMap F K v.z2) ∧ Rep ((m + 1) • Q) (algebraMap F K v.x3) (algebraMap F K v.z3)

theorem Inv.step (H : Params A a24 p) {u : F} (hu : u ≠ 0) {y : K} {hq : (E A K).Nonsingular (algebraMap F K u) y} {m : Nat}
    {v : Vars F} (h : Inv (.some _ y hq) m v) (b : Bool) : Inv (.some _ y hq) (2 * m + b.toNat) (eager a24 u v b) := by
  obtain ⟨h2, h3⟩ := h
  have hu' : algebraMap F K u ≠ 0 := (map_ne_zero _).2 hu
  generalize hQ : (Point.some (algebraMap F K u) y hq : (E A K).Point) = Q at *
  cases b with
  | false =>
    have hd : (m + 1) • Q - m • Q = .some _ y hq := by rw [succ_nsmul, add_sub_cancel_left, hQ]
    have d := Rep.double (K := K) (H.two' K) (H.sq' K) (H.a24' K) h2
    have a := Rep.diffAdd (H.two' K) hu' hd h2 h3
    have e1 : (2 * m + false.toNat) • Q = m • Q + m • Q := by
      rw [← add_nsmul]; congr 1; simp; omega
    have e2 : (2 * m + false.toNat + 1) • Q = m • Q + (m + 1) • Q := by
      rw [← add_nsmul]; congr 1; simp; omega
    refine ⟨?_, ?_⟩
    · rw [e1]
      convert d using 1 <;> simp [eager, Vars.arith, Vars.cswap, Ladder.cswap]
    · rw [e2]
      convert a using 1 <;> simp [eager, Vars.arith, Vars.cswap, Ladder.cswap]
  | true =>
    have hd : m • Q - (m + 1) • Q = .some _ ((E A K).negY _ y) ((nonsingular_neg ..).2 hq) := by
      rw [succ_nsmul, ← Point.neg_some hq, hQ]; abel
    have d := Rep.double (K := K) (H.two' K) (H.sq' K) (H.a24' K) h3
    have a := Rep.diffAdd (H.two' K) hu' hd h3 h2
    have e1 : (2 * m + true.toNat) • Q = (m + 1) • Q + m • Q := by
      rw [← add_nsmul]; congr 1; simp; omega
    have e2 : (2 * m + true.toNat + 1) • Q = (m + 1) • Q + (m + 1) • Q := by
      rw [← add_nsmul]; congr 1; simp; omega
    refine ⟨?_, ?_⟩
    · rw [e1]
      convert a using 1 <;> simp [eager, Vars.arith, Vars.cswap, Ladder.cswap]
    · rw [e2]
      convert d using 1 <;> simp [eager, Vars.arith, Vars.cswap, Ladder.cswap]

theorem Inv.loop (H : Params A a24 p) {u : F} (hu : u ≠ 0) {y : K} {hq : (E A K).Nonsingular (algebraMap F K u) y} (k : Nat) :
    ∀ (t : Nat) {m : Nat} {v : Vars F}, Inv (.some _ y hq) m v →
      Inv (.some _ y hq) (m * 2 ^ t + k % 2 ^ t) (eagerLoop a24 k u t v)
  | 0, m, v, h => by
    rw [pow_zero, Nat.mod_one, mul_one, add_zero]
    exact h
  | t + 1, m, v, h => by
    rw [eagerLoop]
    have := Inv.loop H hu k t (h.step H hu (k.testBit t))
    have e : (2 * m + (k.testBit t).toNat) * 2 ^ t + k % 2 ^ t = m * 2 ^ (t + 1) + k % 2 ^ (t + 1) := by
      have h1 : k % 2 ^ (t + 1) = k % 2 ^ t + 2 ^ t * (k.testBit t).toNat := by
        rw [Nat.mod_pow_succ, Nat.testBit_eq_decide_div_mod_eq]
        rcases Nat.mod_two_eq_zero_or_one (k / 2 ^ t) with h | h <;> simp [h]
      rw [h1, pow_succ]; ring
    rw [← e]
    exact this

omit [DecidableEq K] in
theorem ladder_zero (H : Params A a24 p) (bits k : Nat) : ladder a24 p (bits + 1) k (0 : F) = 0 := by
  rw [ladder_eager, H.inv, loop_zero a24 k bits _ (by simp) (by simp), inv_zero, mul_zero]

/-- The procedure of the RFC computes the u-coordinate of a multiple of every point with the given non-zero
u-coordinate. -/
theorem ladder_smul (H : Params A a24 p) {bits : Nat} {u : F} (hu : u ≠ 0) {y : K}
    (hq : (E A K).Nonsingular (algebraMap F K u) y) (k : Nat) (hk : k < 2 ^ bits) :
    algebraMap F K (ladder a24 p bits k u) = ucoord (k • (.some _ y hq : (E A K).Point)) := by
  have h0 : Inv (.some _ y hq : (E A K).Point) 0 ⟨1, 0, u, 1, false⟩ := by
    refine ⟨?_, ?_⟩
    · rw [zero_nsmul]
      exact ⟨by simp, by simp⟩
    · rw [zero_add, one_nsmul]
      exact ⟨by simp, by simp⟩
  have h := (h0.loop H hu k bits).1
  rw [zero_mul, zero_add, Nat.mod_eq_of_lt hk] at h
  rw [ladder_eager, map_mul, H.inv, map_inv₀]
  generalize (eagerLoop a24 k u bits ⟨1, 0, u, 1, false⟩).x2 = x at *
  generalize (eagerLoop a24 k u bits ⟨1, 0, u, 1, false⟩).z2 = z at *
  generalize k • (.some _ y hq : (E A K).Point) = R at *
  cases R with
  | zero =>
    obtain ⟨-, h⟩ := h
    rw [h, inv_zero, mul_zero]; rfl
  | some q s hs =>
    obtain ⟨h1, h2⟩ := h
    rw [h2]
    show q * _ * _ = q
    field_simp

/-- The point (0, 0) has order two. -/
theorem two_smul_zero {x y : K} (hq : (E A K).Nonsingular x y) (h0 : x = 0) : 2 • (.some x y hq : (E A K).Point) = 0 := by
  subst h0
  have e := Montgomery.point_eq hq
  have hy : y = 0 := by
    have : y ^ 2 = 0 := by rw [e]; ring
    exact pow_eq_zero_iff (by decide) |>.1 this
  subst hy
  rw [two_nsmul]
  exact Point.add_self_of_Y_eq (by rw [Montgomery.negY_eq]; simp)

/-- A point whose u-coordinate is reported as 0 is killed by doubling. -/
theorem two_smul_of_ucoord {Q : (E A K).Point} (h : ucoord Q = 0) : 2 • Q = 0 := by
  cases Q with
  | zero => exact nsmul_zero 2
  | some x y hq => exact two_smul_zero hq h

/-- The same for every u-coordinate, if the scalar is even. -/
theorem ladder_smul_even (H : Params A a24 p) {bits : Nat} {u : F} {y : K}
    (hq : (E A K).Nonsingular (algebraMap F K u) y) (k : Nat) (hk : k < 2 ^ (bits + 1)) (he : 2 ∣ k) :
    algebraMap F K (ladder a24 p (bits + 1) k u) = ucoord (k • (.some _ y hq : (E A K).Point)) := by
  by_cases hu : u = 0
  · obtain ⟨j, rfl⟩ := he
    have : (2 * j) • (.some _ y hq : (E A K).Point) = 0 := by
      rw [mul_comm, mul_nsmul', two_smul_zero hq (by rw [hu, map_zero]), nsmul_zero]
    rw [this, hu, ladder_zero H, map_zero]
    rfl
  · exact ladder_smul H hu hq k hk

end

/-- Multiplications commute. -/
theorem ladder_comm {A a24 : F} {p bits : Nat} (H : Params A a24 p) (u : F) (a b : Nat) (ha : a < 2 ^ (bits + 1))
    (hb : b < 2 ^ (bits + 1)) (ea : 2 ∣ a) (eb : 2 ∣ b) :
    ladder a24 p (bits + 1) a (ladder a24 p (bits + 1) b u) = ladder a24 p (bits + 1) b (ladder a24 p (bits + 1) a u) := by
  classical
  let K := AlgebraicClosure F
  obtain ⟨y, hy⟩ := IsAlgClosed.exists_pow_nat_eq ((algebraMap F K u) ^ 3 + algebraMap F K A * (algebraMap F K u) ^ 2 +
    algebraMap F K u) (n := 2) (by decide)
  have hq : (E A K).Nonsingular (algebraMap F K u) y := Montgomery.nonsingular (H.two' K) (H.sq' K) hy
  have key : ∀ a b : Nat, a < 2 ^ (bits + 1) → b < 2 ^ (bits + 1) → 2 ∣ a → 2 ∣ b →
      algebraMap F K (ladder a24 p (bits + 1) a (ladder a24 p (bits + 1) b u)) =
        ucoord ((a * b) • (.some _ y hq : (E A K).Point)) := by
    intro a b ha hb ea eb
    have h := ladder_smul_even H hq b hb eb
    rw [mul_comm, mul_nsmul]
    generalize b • (.some _ y hq : (E A K).Point) = R at h
    cases R with
    | zero =>
      have h0 : ladder a24 p (bits + 1) b u = 0 := (map_eq_zero (algebraMap F K)).1 h
      rw [h0, ladder_zero H, map_zero]
      change _ = ucoord (a • (0 : (E A K).Point))
      rw [nsmul_zero]; rfl
    | some q s hs =>
      change _ = q at h
      subst h
      exact ladder_smul_even H hs a ha ea
  apply (algebraMap F K).injective
  rw [key a b ha hb ea eb, key b a hb ha eb ea, mul_comm]

end Noise.Ladder
