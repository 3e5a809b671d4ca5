import Verif.Ed25519Field
import Verif.Edwards
import Verif.Curve25519Base
/-!
# Points in `src/crypto/ed25519`

The operations on points compute in the group of points of Curve25519, which the map of RFC 7748, section 4.1, identifies
with the points of edwards25519.
-/

namespace Noise.Ed25519

open Rfc7748 (P F)
open Rfc7539 (leNat leBytes)
open Curve25519 (Fe M E baseY base_on)
open Curve25519.Fe (ev ev_eq val)

/-- "d -121665/121666", RFC 7748, section 4.1. -/
def D : F := 37095705934669439343138083508754565189542113879843219016388785533085940283555

/-- The square root of -486664 in the map of RFC 7748, section 4.1. -/
def C : F := 51042569399160536130206135233146329284152202253034631822681833788666877215207

/-- A square root of -1. -/
def I : F := 19681161376707505956807079304988542015446066515923890162744021073123829784752

theorem D_eq : D * 121666 = -121665 := by decide +kernel

theorem pow_eq_nat {e : Nat} (a n : Nat) (he : e < 2 ^ 255) (h : powMod P 255 a e 1 = n) : (a : F) ^ e = (n : F) := by
  have := powMod_eq P 255 a e 1 he
  rw [Nat.cast_one, one_mul, h] at this
  exact this.symm

theorem D_nonsq : ∀ r : F, r ^ 2 ≠ D := by
  intro r hr
  have h1 : (r ^ 2) ^ ((P - 1) / 2) = 1 := by
    rw [← pow_mul, show 2 * ((P - 1) / 2) = P - 1 by decide +kernel]
    refine ZMod.pow_card_sub_one_eq_one ?_
    rintro rfl
    exact absurd hr (by decide +kernel)
  have h2 : (r ^ 2) ^ ((P - 1) / 2) = ((P - 1 : Nat) : F) := by
    rw [hr]
    exact pow_eq_nat 37095705934669439343138083508754565189542113879843219016388785533085940283555 _ (by decide +kernel)
      (by decide +kernel)
  rw [h1] at h2
  exact absurd h2 (by decide +kernel)

theorem params : Edwards.Params (algebraMap F F 486662) D C I where
  two := Curve25519.two_ne
  disc := Curve25519.A_sq_ne
  scale := by decide +kernel
  hd := by decide +kernel
  minus := by decide +kernel
  nonsq := D_nonsq

/-- Points. -/
abbrev Pt := (E F).Point

/-- The point of Curve25519 that corresponds to a point of edwards25519. -/
def Maps (Q : Pt) (x y : F) : Prop := Edwards.Maps D C Q x y

theorem Maps.add {Q Q' : Pt} {x1 y1 x2 y2 x3 y3 : F} (h1 : Maps Q x1 y1) (h2 : Maps Q' x2 y2)
    (hs : Edwards.Sum D x1 y1 x2 y2 x3 y3) : Maps (Q + Q') x3 y3 := Edwards.Maps.add params h1 h2 hs

/-- Coordinates `(X : Y : Z)`. -/
def Proj (Q : Pt) (X Y Z : F) : Prop := ∃ x y, Maps Q x y ∧ Z ≠ 0 ∧ X = x * Z ∧ Y = y * Z

/-- Extended coordinates. -/
def Ext (Q : Pt) (X Y Z T : F) : Prop := ∃ x y, Maps Q x y ∧ Z ≠ 0 ∧ X = x * Z ∧ Y = y * Z ∧ T = x * y * Z

/-- Completed coordinates. -/
def Comp (Q : Pt) (X Y Z T : F) : Prop := ∃ x y, Maps Q x y ∧ Z ≠ 0 ∧ T ≠ 0 ∧ X = x * Z ∧ Y = y * T

/-- The form of points in tables; the factor in the last number is `k`. -/
def Tab (k : F) (Q : Pt) (S A W T : F) : Prop :=
  ∃ x y, Maps Q x y ∧ W ≠ 0 ∧ S = (y - x) * W ∧ A = (y + x) * W ∧ T = k * x * y * W

theorem Ext.proj {Q : Pt} {X Y Z T : F} (h : Ext Q X Y Z T) : Proj Q X Y Z := by
  obtain ⟨x, y, h1, h2, h3, h4, -⟩ := h
  exact ⟨x, y, h1, h2, h3, h4⟩

theorem Comp.proj {Q : Pt} {X Y Z T : F} (h : Comp Q X Y Z T) : Proj Q (X * T) (Y * Z) (Z * T) := by
  obtain ⟨x, y, h1, h2, h3, rfl, rfl⟩ := h
  exact ⟨x, y, h1, mul_ne_zero h2 h3, by ring, by ring⟩

theorem Comp.ext {Q : Pt} {X Y Z T : F} (h : Comp Q X Y Z T) : Ext Q (X * T) (Y * Z) (Z * T) (X * Y) := by
  obtain ⟨x, y, h1, h2, h3, rfl, rfl⟩ := h
  exact ⟨x, y, h1, mul_ne_zero h2 h3, by ring, by ring, by ring⟩

/-- Sums exist. -/
theorem exists_sum {Q Q' : Pt} {x1 y1 x2 y2 : F} (h1 : Maps Q x1 y1) (h2 : Maps Q' x2 y2) :
    ∃ x3 y3, Maps (Q + Q') x3 y3 ∧ Edwards.Sum D x1 y1 x2 y2 x3 y3 ∧ 1 + D * x1 * x2 * y1 * y2 ≠ 0 ∧
      1 - D * x1 * x2 * y1 * y2 ≠ 0 := by
  obtain ⟨hp, hm⟩ := params.den (Edwards.Maps.on h1) (Edwards.Maps.on h2)
  have hs : Edwards.Sum D x1 y1 x2 y2 ((x1 * y2 + x2 * y1) / (1 + D * x1 * x2 * y1 * y2))
      ((y1 * y2 + x1 * x2) / (1 - D * x1 * x2 * y1 * y2)) := ⟨div_mul_cancel₀ _ hp, div_mul_cancel₀ _ hm⟩
  exact ⟨_, _, h1.add h2 hs, hs, hp, hm⟩

theorem Proj.double {Q : Pt} {X Y Z : F} (h : Proj Q X Y Z) :
    Comp (Q + Q) ((X + Y) ^ 2 - (Y ^ 2 + X ^ 2)) (Y ^ 2 + X ^ 2) (Y ^ 2 - X ^ 2) (Z ^ 2 + Z ^ 2 - (Y ^ 2 - X ^ 2)) := by
  obtain ⟨x, y, h1, h2, rfl, rfl⟩ := h
  obtain ⟨x3, y3, h3, hs, hp, hm⟩ := exists_sum h1 h1
  have ho : -x ^ 2 + y ^ 2 = 1 + D * x ^ 2 * y ^ 2 := Edwards.Maps.on h1
  have e1 : y ^ 2 - x ^ 2 = 1 + D * x * x * y * y := by linear_combination ho
  have hx := hs.hx
  have hy := hs.hy
  refine ⟨x3, y3, h3, ?_, ?_, ?_, ?_⟩
  · rw [show (y * Z) ^ 2 - (x * Z) ^ 2 = Z ^ 2 * (1 + D * x * x * y * y) by linear_combination Z ^ 2 * e1]
    exact mul_ne_zero (pow_ne_zero 2 h2) hp
  · rw [show Z ^ 2 + Z ^ 2 - ((y * Z) ^ 2 - (x * Z) ^ 2) = Z ^ 2 * (1 - D * x * x * y * y) by
      linear_combination -Z ^ 2 * e1]
    exact mul_ne_zero (pow_ne_zero 2 h2) hm
  · linear_combination (-Z ^ 2) * hx - Z ^ 2 * x3 * e1
  · linear_combination (-Z ^ 2) * hy + Z ^ 2 * y3 * e1

theorem Ext.add_tab {Q Q' : Pt} {X Y Z T S A W U : F} (h : Ext Q X Y Z T) (h' : Tab (2 * D) Q' S A W U) :
    Comp (Q + Q') ((Y + X) * A - (Y - X) * S) ((Y + X) * A + (Y - X) * S) (Z * W + Z * W + T * U)
      (Z * W + Z * W - T * U) := by
  obtain ⟨x1, y1, h1, hz, rfl, rfl, rfl⟩ := h
  obtain ⟨x2, y2, h2, hw, rfl, rfl, rfl⟩ := h'
  obtain ⟨x3, y3, h3, hs, hp, hm⟩ := exists_sum h1 h2
  have hx := hs.hx
  have hy := hs.hy
  have e2 : (2 : F) ≠ 0 := Curve25519.two_ne
  refine ⟨x3, y3, h3, ?_, ?_, ?_, ?_⟩
  · rw [show Z * W + Z * W + x1 * y1 * Z * (2 * D * x2 * y2 * W) = 2 * (Z * W) * (1 + D * x1 * x2 * y1 * y2) by ring]
    exact mul_ne_zero (mul_ne_zero e2 (mul_ne_zero hz hw)) hp
  · rw [show Z * W + Z * W - x1 * y1 * Z * (2 * D * x2 * y2 * W) = 2 * (Z * W) * (1 - D * x1 * x2 * y1 * y2) by ring]
    exact mul_ne_zero (mul_ne_zero e2 (mul_ne_zero hz hw)) hm
  · linear_combination (-2 * (Z * W)) * hx
  · linear_combination (-2 * (Z * W)) * hy

theorem Tab.neg {k : F} {Q : Pt} {S A W T : F} (h : Tab k Q S A W T) : Tab k (-Q) A S W (-T) := by
  obtain ⟨x, y, h1, hw, rfl, rfl, rfl⟩ := h
  exact ⟨-x, y, Edwards.Maps.neg h1, hw, by ring, by ring, by ring⟩

theorem Tab.zero (k : F) : Tab k 0 1 1 1 0 := ⟨0, 1, ⟨rfl, rfl⟩, one_ne_zero, by ring, by ring, by ring⟩

theorem Tab.scale {k : F} {Q : Pt} {S A W T : F} (h : Tab k Q S A W T) (m : F) : Tab (k * m) Q S A W (T * m) := by
  obtain ⟨x, y, h1, hw, rfl, rfl, rfl⟩ := h
  exact ⟨x, y, h1, hw, rfl, rfl, by ring⟩

theorem Tab.toExt {Q : Pt} {S A T : F} (h : Tab 2 Q S A 1 T) : Ext Q (A - S) (A + S) 2 T := by
  obtain ⟨x, y, h1, hw, rfl, rfl, rfl⟩ := h
  exact ⟨x, y, h1, Curve25519.two_ne, by ring, by ring, by ring⟩

theorem Ext.toTab {Q : Pt} {X Y Z T : F} (h : Ext Q X Y Z T) : Tab (2 * D) Q (Y - X) (Y + X) Z (T * (2 * D)) := by
  obtain ⟨x, y, h1, hw, rfl, rfl, rfl⟩ := h
  exact ⟨x, y, h1, hw, by ring, by ring, by ring⟩

/-! ## The operations of the code -/

/-- An extended point with reduced numbers. -/
structure Ge.Is (g : Ge) (Q : Pt) : Prop where
  hx : g.x.Le R
  hy : g.y.Le R
  hz : g.z.Le R
  ht : g.t.Le R
  ext : Ext Q g.x.ev g.y.ev g.z.ev g.t.ev

/-- A point with reduced numbers, without a meaning of `t`. -/
structure Ge.IsPartial (g : Ge) (Q : Pt) : Prop where
  hx : g.x.Le R
  hy : g.y.Le R
  hz : g.z.Le R
  proj : Proj Q g.x.ev g.y.ev g.z.ev

/-- A completed point with small numbers. -/
structure P1p1.Is (g : P1p1) (Q : Pt) : Prop where
  hx : g.x.Le (2 ^ 54)
  hy : g.y.Le (2 ^ 54)
  hz : g.z.Le (2 ^ 54)
  ht : g.t.Le (2 ^ 54)
  comp : Comp Q g.x.ev g.y.ev g.z.ev g.t.ev

/-- An entry of a table. -/
structure Niels.Is (n : Niels) (k : F) (Q : Pt) : Prop where
  hs : n.ysubx.Le R
  ha : n.xaddy.Le R
  ht : n.t2d.Le R
  tab : Tab k Q n.ysubx.ev n.xaddy.ev 1 n.t2d.ev

/-- An entry of a table computed at run time. -/
structure Pniels.Is (n : Pniels) (Q : Pt) : Prop where
  hs : n.ysubx.Le (2 ^ 53)
  ha : n.xaddy.Le (2 ^ 53)
  hz : n.z.Le R
  ht : n.t2d.Le R
  tab : Tab (2 * D) Q n.ysubx.ev n.xaddy.ev n.z.ev n.t2d.ev

theorem Ge.Is.isPartial {g : Ge} {Q : Pt} (h : g.Is Q) : g.IsPartial Q := ⟨h.hx, h.hy, h.hz, h.ext.proj⟩

theorem toFull_ok {p : P1p1} {Q : Pt} (h : p.Is Q) : (toFull p).Is Q := by
  have hM : (2 : Nat) ^ 54 ≤ M := by decide
  have x := fmul_ok (h.hx.mono hM) (h.ht.mono hM)
  have y := fmul_ok (h.hy.mono hM) (h.hz.mono hM)
  have z := fmul_ok (h.hz.mono hM) (h.ht.mono hM)
  have t := fmul_ok (h.hx.mono hM) (h.hy.mono hM)
  refine ⟨x.1, y.1, z.1, t.1, ?_⟩
  simp only [toFull, x.2, y.2, z.2, t.2]
  exact h.comp.ext

theorem toPartial_ok (r : Ge) {p : P1p1} {Q : Pt} (h : p.Is Q) : (toPartial r p).IsPartial Q := by
  have hM : (2 : Nat) ^ 54 ≤ M := by decide
  have x := fmul_ok (h.hx.mono hM) (h.ht.mono hM)
  have y := fmul_ok (h.hy.mono hM) (h.hz.mono hM)
  have z := fmul_ok (h.hz.mono hM) (h.ht.mono hM)
  refine ⟨x.1, y.1, z.1, ?_⟩
  simp only [toPartial, x.2, y.2, z.2]
  exact h.comp.proj

theorem doubleP1p1_ok {p : Ge} {Q : Pt} (h : p.IsPartial Q) : (doubleP1p1 p).Is (Q + Q) := by
  have hR := R_eq
  have hM := M_eq
  have a := fsquare_ok (h.hx.mono R_le_M)
  have b := fsquare_ok (h.hy.mono R_le_M)
  have c := fsquare_ok (h.hz.mono R_le_M)
  have c2 := faddReduce_ok (c.1.mono (by omega)) (c.1.mono (by omega))
  have s := fadd_ok h.hx h.hy (by omega)
  have s2 := fsquare_ok (s.1.mono (by omega))
  have ry := fadd_ok b.1 a.1 (by omega)
  have rz := fsub_ok b.1 (a.1.mono (by omega)) (by omega)
  have rx := fsubAfterBasic_ok s2.1 (ry.1.mono (by omega)) (by omega)
  have rt := fsubAfterBasic_ok c2.1 (rz.1.mono (by omega)) (by omega)
  refine ⟨rx.1.mono (by omega), ry.1.mono (by omega), rz.1.mono (by omega), rt.1.mono (by omega), ?_⟩
  simp only [doubleP1p1, rx.2, ry.2, rz.2, rt.2, s2.2, s.2, c2.2, c.2, b.2, a.2]
  exact h.proj.double

theorem doublePartial_ok {p : Ge} {Q : Pt} (h : p.IsPartial Q) : (doublePartial p).IsPartial (Q + Q) :=
  toPartial_ok p (doubleP1p1_ok h)

theorem geDouble_ok {p : Ge} {Q : Pt} (h : p.IsPartial Q) : (geDouble p).Is (Q + Q) := toFull_ok (doubleP1p1_ok h)

theorem nielsadd2_ok {r : Ge} {q : Niels} {Q Q' : Pt} (h : r.Is Q) (h' : q.Is (2 * D) Q') : (nielsadd2 r q).Is (Q + Q') := by
  have hR := R_eq
  have hM := M_eq
  have a := fsub_ok h.hy (h.hx.mono (by omega)) (by omega)
  have b := fadd_ok h.hy h.hx (by omega)
  have a2 := fmul_ok (a.1.mono (by omega)) (h'.hs.mono R_le_M)
  have e := fmul_ok (b.1.mono (by omega)) (h'.ha.mono R_le_M)
  have hh := fadd_ok e.1 a2.1 (by omega)
  have e2 := fsub_ok e.1 (a2.1.mono (by omega)) (by omega)
  have c := fmul_ok (h.ht.mono R_le_M) (h'.ht.mono R_le_M)
  have f := fadd_ok h.hz h.hz (by omega)
  have g := faddAfterBasic_ok f.1 c.1 (by omega)
  have f2 := fsubAfterBasic_ok f.1 (c.1.mono (by omega)) (by omega)
  have x := fmul_ok (e2.1.mono (by omega)) (f2.1.mono (by omega))
  have y := fmul_ok (hh.1.mono (by omega)) (g.1.mono (by omega))
  have z := fmul_ok (g.1.mono (by omega)) (f2.1.mono (by omega))
  have t := fmul_ok (e2.1.mono (by omega)) (hh.1.mono (by omega))
  refine ⟨x.1, y.1, z.1, t.1, ?_⟩
  simp only [nielsadd2, x.2, y.2, z.2, t.2, e2.2, f2.2, hh.2, g.2, f.2, c.2, e.2, a2.2, b.2, a.2]
  have := (h.ext.add_tab h'.tab).ext
  simp only [mul_one] at this
  exact this

theorem ec2d_ok : ec2d.Le R ∧ ec2d.ev = 2 * D :=
  ⟨⟨by decide, by decide, by decide, by decide, by decide⟩, by decide +kernel⟩

theorem ecd_ok : ecd.Le R ∧ ecd.ev = D :=
  ⟨⟨by decide, by decide, by decide, by decide, by decide⟩, by decide +kernel⟩

theorem fullToPniels_ok {r : Ge} {Q : Pt} (h : r.Is Q) : (fullToPniels r).Is Q := by
  have hR := R_eq
  have hM := M_eq
  have a := fsub_ok h.hy (h.hx.mono (by omega)) (by omega)
  have b := fadd_ok h.hy h.hx (by omega)
  have t := fmul_ok (h.ht.mono R_le_M) (ec2d_ok.1.mono R_le_M)
  refine ⟨a.1.mono (by omega), b.1.mono (by omega), h.hz, t.1, ?_⟩
  simp only [fullToPniels, a.2, b.2, t.2, ec2d_ok.2]
  exact h.ext.toTab

theorem pnielsadd_ok {p : Ge} {q : Pniels} {Q Q' : Pt} (h : p.Is Q) (h' : q.Is Q') : (pnielsadd p q).Is (Q + Q') := by
  have hR := R_eq
  have hM := M_eq
  have a := fsub_ok h.hy (h.hx.mono (by omega)) (by omega)
  have b := fadd_ok h.hy h.hx (by omega)
  have a2 := fmul_ok (a.1.mono (by omega)) (h'.hs.mono (by omega))
  have x := fmul_ok (b.1.mono (by omega)) (h'.ha.mono (by omega))
  have y := fadd_ok x.1 a2.1 (by omega)
  have x2 := fsub_ok x.1 (a2.1.mono (by omega)) (by omega)
  have c := fmul_ok (h.ht.mono R_le_M) (h'.ht.mono R_le_M)
  have t := fmul_ok (h.hz.mono R_le_M) (h'.hz.mono R_le_M)
  have t2 := fadd_ok t.1 t.1 (by omega)
  have z := faddAfterBasic_ok t2.1 c.1 (by omega)
  have t3 := fsubAfterBasic_ok t2.1 (c.1.mono (by omega)) (by omega)
  have xa := fmul_ok (x2.1.mono (by omega)) (t3.1.mono (by omega))
  have ys := fmul_ok (y.1.mono (by omega)) (z.1.mono (by omega))
  have rz := fmul_ok (z.1.mono (by omega)) (t3.1.mono (by omega))
  have td := fmul_ok (x2.1.mono (by omega)) (y.1.mono (by omega))
  have s := fsub_ok ys.1 (xa.1.mono (by omega)) (by omega)
  have s2 := fadd_ok xa.1 ys.1 (by omega)
  have u := fmul_ok (td.1.mono (by omega)) (ec2d_ok.1.mono R_le_M)
  refine ⟨s.1.mono (by omega), s2.1.mono (by omega), rz.1, u.1, ?_⟩
  simp only [pnielsadd, s.2, s2.2, u.2, ec2d_ok.2, td.2, rz.2, ys.2, xa.2, t3.2, z.2, t2.2, t.2, c.2, x2.2, y.2, x.2, a2.2,
    b.2, a.2]
  have := (h.ext.add_tab h'.tab).ext.toTab
  rw [add_comm (((p.y.ev + p.x.ev) * q.xaddy.ev - (p.y.ev - p.x.ev) * q.ysubx.ev) * _)]
  exact this

theorem nielsadd2P1p1_ok {p : Ge} {q : Niels} {Q Q' : Pt} (h : p.Is Q) (h' : q.Is (2 * D) Q') (b : Bool) :
    (nielsadd2P1p1 p q b).Is (Q + if b then -Q' else Q') := by
  have hR := R_eq
  have hM := M_eq
  have a := fsub_ok h.hy (h.hx.mono (by omega)) (by omega)
  have s := fadd_ok h.hy h.hx (by omega)
  have c := fmul_ok (h.ht.mono R_le_M) (h'.ht.mono R_le_M)
  have rt := faddReduce_ok (h.hz.mono (by omega)) (h.hz.mono (by omega))
  have zp := fadd_ok rt.1 c.1 (by omega)
  have zm := fsub_ok rt.1 (c.1.mono (by omega)) (by omega)
  cases b with
  | false =>
    have a2 := fmul_ok (a.1.mono (by omega)) (h'.hs.mono R_le_M)
    have x := fmul_ok (s.1.mono (by omega)) (h'.ha.mono R_le_M)
    have y := fadd_ok x.1 a2.1 (by omega)
    have x2 := fsub_ok x.1 (a2.1.mono (by omega)) (by omega)
    refine ⟨x2.1.mono (by omega), y.1.mono (by omega), zp.1.mono (by omega), zm.1.mono (by omega), ?_⟩
    simp only [nielsadd2P1p1, Bool.false_eq_true, if_false, x2.2, y.2, zp.2, zm.2, x.2, a2.2, rt.2, c.2, s.2, a.2]
    have := h.ext.add_tab h'.tab
    simp only [mul_one] at this
    exact this
  | true =>
    have a2 := fmul_ok (a.1.mono (by omega)) (h'.ha.mono R_le_M)
    have x := fmul_ok (s.1.mono (by omega)) (h'.hs.mono R_le_M)
    have y := fadd_ok x.1 a2.1 (by omega)
    have x2 := fsub_ok x.1 (a2.1.mono (by omega)) (by omega)
    refine ⟨x2.1.mono (by omega), y.1.mono (by omega), zm.1.mono (by omega), zp.1.mono (by omega), ?_⟩
    simp only [nielsadd2P1p1, if_true, x2.2, y.2, zp.2, zm.2, x.2, a2.2, rt.2, c.2, s.2, a.2]
    have := h.ext.add_tab h'.tab.neg
    simp only [mul_one, mul_neg, sub_neg_eq_add, ← sub_eq_add_neg] at this
    exact this

theorem pnielsaddP1p1_ok {p : Ge} {q : Pniels} {Q Q' : Pt} (h : p.Is Q) (h' : q.Is Q') (b : Bool) :
    (pnielsaddP1p1 p q b).Is (Q + if b then -Q' else Q') := by
  have hR := R_eq
  have hM := M_eq
  have a := fsub_ok h.hy (h.hx.mono (by omega)) (by omega)
  have s := fadd_ok h.hy h.hx (by omega)
  have c := fmul_ok (h.ht.mono R_le_M) (h'.ht.mono R_le_M)
  have r := fmul_ok (h.hz.mono R_le_M) (h'.hz.mono R_le_M)
  have rt := faddReduce_ok (r.1.mono (by omega)) (r.1.mono (by omega))
  have zp := fadd_ok rt.1 c.1 (by omega)
  have zm := fsub_ok rt.1 (c.1.mono (by omega)) (by omega)
  cases b with
  | false =>
    have a2 := fmul_ok (a.1.mono (by omega)) (h'.hs.mono (by omega))
    have x := fmul_ok (s.1.mono (by omega)) (h'.ha.mono (by omega))
    have y := fadd_ok x.1 a2.1 (by omega)
    have x2 := fsub_ok x.1 (a2.1.mono (by omega)) (by omega)
    refine ⟨x2.1.mono (by omega), y.1.mono (by omega), zp.1.mono (by omega), zm.1.mono (by omega), ?_⟩
    simp only [pnielsaddP1p1, Bool.false_eq_true, if_false, x2.2, y.2, zp.2, zm.2, x.2, a2.2, rt.2, r.2, c.2, s.2, a.2]
    exact h.ext.add_tab h'.tab
  | true =>
    have a2 := fmul_ok (a.1.mono (by omega)) (h'.ha.mono (by omega))
    have x := fmul_ok (s.1.mono (by omega)) (h'.hs.mono (by omega))
    have y := fadd_ok x.1 a2.1 (by omega)
    have x2 := fsub_ok x.1 (a2.1.mono (by omega)) (by omega)
    refine ⟨x2.1.mono (by omega), y.1.mono (by omega), zm.1.mono (by omega), zp.1.mono (by omega), ?_⟩
    simp only [pnielsaddP1p1, if_true, x2.2, y.2, zp.2, zm.2, x.2, a2.2, rt.2, r.2, c.2, s.2, a.2]
    have := h.ext.add_tab h'.tab.neg
    simp only [mul_neg, sub_neg_eq_add, ← sub_eq_add_neg] at this
    exact this

end Noise.Ed25519
