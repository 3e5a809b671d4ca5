import Verif.Ed25519Point
/-!
# The tables of multiples of the base point in `src/crypto/ed25519`
-/

namespace Noise.Ed25519

open Rfc7748 (P F)
open Curve25519 (Fe M E baseY base_on)
open Curve25519.Fe (ev ev_eq val)

/-- The base point of Curve25519, RFC 7748, section 4.1. -/
def B : Pt := .some _ baseY base_on

/-- `X(P)` and `Y(P)` of edwards25519, RFC 7748, section 4.1. -/
theorem B_maps : Maps B 15112221349535400772501151409588531511454012693041857206046113283949847762202
    46316835694926478169428394003475163141307993866256225615783033603165251855960 := by
  refine ⟨?_, ?_, ?_⟩
  · unfold Edwards.On; decide +kernel
  · decide +kernel
  · decide +kernel

/-! ## Checks on numbers -/

/-- Twice the coordinates of an entry. -/
def dx (e : Nat × Nat × Nat) : Nat := (e.2.1 + P - e.1) % P
def dy (e : Nat × Nat × Nat) : Nat := (e.2.1 + e.1) % P

def dN : Nat := 37095705934669439343138083508754565189542113879843219016388785533085940283555

/-- The third point is the sum of the others. -/
def okSum (a b c : Nat × Nat × Nat) : Bool :=
  let k := dN * (dx a * dx b % P) % P * (dy a * dy b % P) % P
  (dx c * (16 + k) % P == 8 * (dx a * dy b + dx b * dy a) % P) &&
    (dy c * (16 + P - k) % P == 8 * (dy a * dy b + dx a * dx b) % P)

/-- Doubling of projective coordinates. -/
def ndouble (p : Nat × Nat × Nat) : Nat × Nat × Nat :=
  let a := p.1 * p.1 % P
  let b := p.2.1 * p.2.1 % P
  let c := p.2.2 * p.2.2 % P
  let h := (a + b) % P
  let g := (b + P - a) % P
  let e := 2 * (p.1 * p.2.1) % P
  let f := (2 * c + P - g) % P
  (e * f % P, h * g % P, g * f % P)

/-- Projective coordinates for an affine point. -/
def okProj (p e : Nat × Nat × Nat) : Bool :=
  (2 * p.1 % P == dx e * p.2.2 % P) && (2 * p.2.1 % P == dy e * p.2.2 % P)

/-- The entry at an index. -/
def entry (i : Nat) : Nat × Nat × Nat := baseMultiples.getD i (0, 0, 0)

def okRow (pos : Nat) : Bool :=
  (List.range 7).all fun j => okSum (entry (8 * pos + j)) (entry (8 * pos)) (entry (8 * pos + j + 1))

def okNext (pos : Nat) : Bool :=
  okProj (ndouble (ndouble (ndouble (ndouble (ndouble (dx (entry (8 * pos + 7)), dy (entry (8 * pos + 7)), 2))))))
    (entry (8 * (pos + 1)))

def okT (pos : Nat) : Bool :=
  (List.range 8).all fun j => 2 * (entry (8 * pos + j)).2.2 % P ==
    (if pos = 0 then 1 else dN) * (dx (entry (8 * pos + j)) * dy (entry (8 * pos + j)) % P) % P

def okRange (pos : Nat) : Bool :=
  (List.range 8).all fun j => decide ((entry (8 * pos + j)).1 < P) && decide ((entry (8 * pos + j)).2.1 < P) &&
    decide ((entry (8 * pos + j)).2.2 < P)

theorem rows : ∀ pos < 32, okRow pos = true := by decide +kernel
theorem nexts : ∀ pos < 31, okNext pos = true := by decide +kernel
theorem ts : ∀ pos < 32, okT pos = true := by decide +kernel
theorem ranges : ∀ pos < 32, okRange pos = true := by decide +kernel

/-! ## What they mean -/

theorem cast_of_mod {a b : Nat} (h : (a % P == b % P) = true) : (a : F) = (b : F) := by
  rw [ZMod.natCast_eq_natCast_iff']
  exact eq_of_beq h

theorem cast_sub_mod {a b : Nat} (h : b < P) : (((a + P - b) % P : Nat) : F) = a - b := by
  rw [ZMod.natCast_mod, Nat.cast_sub (by omega), Nat.cast_add, ZMod.natCast_self, add_zero]

theorem P_pos : 0 < P := by decide +kernel

theorem dN_cast : (dN : F) = D := by decide +kernel

/-- The entry is the point. -/
def IsPt (e : Nat × Nat × Nat) (Q : Pt) : Prop := ∃ x y, Maps Q x y ∧ (dx e : F) = 2 * x ∧ (dy e : F) = 2 * y

theorem okSum_ok {a b c : Nat × Nat × Nat} {Q Q' : Pt} (h : okSum a b c = true) (ha : IsPt a Q) (hb : IsPt b Q') :
    IsPt c (Q + Q') := by
  obtain ⟨x1, y1, h1, ex1, ey1⟩ := ha
  obtain ⟨x2, y2, h2, ex2, ey2⟩ := hb
  obtain ⟨x3, y3, h3, hs, hp, hm⟩ := exists_sum h1 h2
  refine ⟨x3, y3, h3, ?_⟩
  unfold okSum at h
  dsimp only at h
  rw [Bool.and_eq_true] at h
  obtain ⟨e1, e2⟩ := h
  have hk : ((dN * (dx a * dx b % P) % P * (dy a * dy b % P) % P : Nat) : F) = 16 * (D * x1 * x2 * y1 * y2) := by
    simp only [ZMod.natCast_mod, Nat.cast_mul, dN_cast, ex1, ex2, ey1, ey2]
    ring
  have hlt : dN * (dx a * dx b % P) % P * (dy a * dy b % P) % P < P := Nat.mod_lt _ P_pos
  generalize dN * (dx a * dx b % P) % P * (dy a * dy b % P) % P = k at *
  have f1 := cast_of_mod e1
  have f2 := cast_of_mod e2
  rw [Nat.cast_mul, Nat.cast_sub (by omega)] at f2
  push_cast at f1 f2
  rw [ZMod.natCast_self] at f2
  rw [hk, ex1, ex2, ey1, ey2] at f1 f2
  have h16 : (16 : F) ≠ 0 := by decide +kernel
  have hx := hs.hx
  have hy := hs.hy
  constructor
  · apply mul_right_cancel₀ (mul_ne_zero h16 hp)
    linear_combination f1 - 32 * hx
  · apply mul_right_cancel₀ (mul_ne_zero h16 hm)
    linear_combination f2 - 32 * hy

/-- Coordinates modulo `P`. -/
def NProj (p : Nat × Nat × Nat) (Q : Pt) : Prop := Proj Q p.1 p.2.1 p.2.2

theorem ndouble_ok {p : Nat × Nat × Nat} {Q : Pt} (h : NProj p Q) : NProj (ndouble p) (Q + Q) := by
  have := h.double.proj
  unfold NProj ndouble
  dsimp only
  have la : p.1 * p.1 % P < P := Nat.mod_lt _ P_pos
  have lg : (p.2.1 * p.2.1 % P + P - p.1 * p.1 % P) % P < P := Nat.mod_lt _ P_pos
  simp only [ZMod.natCast_mod, Nat.cast_mul, Nat.cast_add, cast_sub_mod la, cast_sub_mod lg, Nat.cast_ofNat]
  convert this using 1 <;> ring

theorem okProj_ok {p e : Nat × Nat × Nat} {Q : Pt} (h : okProj p e = true) (hp : NProj p Q) : IsPt e Q := by
  obtain ⟨x, y, h1, hz, ex, ey⟩ := hp
  unfold okProj at h
  rw [Bool.and_eq_true] at h
  have f1 := cast_of_mod h.1
  have f2 := cast_of_mod h.2
  push_cast at f1 f2
  refine ⟨x, y, h1, ?_, ?_⟩
  · apply mul_right_cancel₀ hz
    linear_combination 2 * ex - f1
  · apply mul_right_cancel₀ hz
    linear_combination 2 * ey - f2

theorem IsPt.proj {e : Nat × Nat × Nat} {Q : Pt} (h : IsPt e Q) : NProj (dx e, dy e, 2) Q := by
  obtain ⟨x, y, h1, ex, ey⟩ := h
  exact ⟨x, y, h1, Curve25519.two_ne, by dsimp only; rw [ex]; push_cast; ring, by dsimp only; rw [ey]; push_cast; ring⟩

/-- `256^pos` times the base point. -/
def Bpos : Nat → Pt
  | 0 => B
  | n + 1 => 256 • Bpos n

theorem row_ok {pos : Nat} (hpos : pos < 32) {Q : Pt} (h : IsPt (entry (8 * pos)) Q) :
    ∀ j < 8, IsPt (entry (8 * pos + j)) ((j + 1) • Q)
  | 0, _ => by rw [zero_add, one_nsmul]; exact h
  | j + 1, hj => by
    have ih := row_ok hpos h j (by omega)
    have hr := rows pos hpos
    unfold okRow at hr
    rw [List.all_eq_true] at hr
    have := okSum_ok (hr j (List.mem_range.2 (by omega))) ih h
    rw [← succ_nsmul] at this
    exact this

theorem double5 (Q : Pt) : 256 • Q = ((((8 • Q + 8 • Q) + (8 • Q + 8 • Q)) + ((8 • Q + 8 • Q) + (8 • Q + 8 • Q))) +
    (((8 • Q + 8 • Q) + (8 • Q + 8 • Q)) + ((8 • Q + 8 • Q) + (8 • Q + 8 • Q)))) +
    ((((8 • Q + 8 • Q) + (8 • Q + 8 • Q)) + ((8 • Q + 8 • Q) + (8 • Q + 8 • Q))) +
    (((8 • Q + 8 • Q) + (8 • Q + 8 • Q)) + ((8 • Q + 8 • Q) + (8 • Q + 8 • Q)))) := by
  simp only [← add_nsmul]

theorem first_ok : IsPt (entry 0) B := ⟨_, _, B_maps, by decide +kernel, by decide +kernel⟩

theorem start_ok : ∀ pos < 32, IsPt (entry (8 * pos)) (Bpos pos)
  | 0, _ => first_ok
  | pos + 1, h => by
    have ih := start_ok pos (by omega)
    have h8 := row_ok (by omega) ih 7 (by omega)
    have hn := nexts pos (by omega)
    have := okProj_ok hn (ndouble_ok (ndouble_ok (ndouble_ok (ndouble_ok (ndouble_ok h8.proj)))))
    rw [Bpos, double5]
    exact this

/-- The factor in the last number of the entries. -/
def factor (pos : Nat) : F := if pos = 0 then 2 else 2 * D

theorem entry_lt {pos : Nat} (hpos : pos < 32) {j : Nat} (hj : j < 8) : (entry (8 * pos + j)).1 < P ∧
    (entry (8 * pos + j)).2.1 < P ∧ (entry (8 * pos + j)).2.2 < P := by
  have := ranges pos hpos
  unfold okRange at this
  rw [List.all_eq_true] at this
  have := this j (List.mem_range.2 hj)
  simp only [Bool.and_eq_true, decide_eq_true_eq] at this
  exact ⟨this.1.1, this.1.2, this.2⟩

theorem entry_ok {pos : Nat} (hpos : pos < 32) {j : Nat} (hj : j < 8) :
    Tab (factor pos) ((j + 1) • Bpos pos) (entry (8 * pos + j)).1 (entry (8 * pos + j)).2.1 1 (entry (8 * pos + j)).2.2 := by
  obtain ⟨x, y, h1, ex, ey⟩ := row_ok hpos (start_ok pos hpos) j hj
  obtain ⟨l1, -, -⟩ := entry_lt hpos hj
  have ht := ts pos hpos
  unfold okT at ht
  rw [List.all_eq_true] at ht
  have ht := cast_of_mod (ht j (List.mem_range.2 hj))
  rw [Nat.cast_mul, Nat.cast_mul, ZMod.natCast_mod, Nat.cast_mul] at ht
  rw [ex, ey] at ht
  unfold dx at ex
  unfold dy at ey
  rw [cast_sub_mod l1] at ex
  rw [ZMod.natCast_mod, Nat.cast_add] at ey
  have e2 : (2 : F) ≠ 0 := Curve25519.two_ne
  refine ⟨x, y, h1, one_ne_zero, ?_, ?_, ?_⟩
  · apply mul_left_cancel₀ e2
    linear_combination ey - ex
  · apply mul_left_cancel₀ e2
    linear_combination ey + ex
  · apply mul_left_cancel₀ e2
    rw [show ((2 : Nat) : F) = 2 from Nat.cast_ofNat] at ht
    rw [ht]
    unfold factor
    by_cases h0 : pos = 0
    · rw [if_pos h0, if_pos h0]; push_cast; ring
    · rw [if_neg h0, if_neg h0, dN_cast]; ring

end Noise.Ed25519
