import Verif.Curve25519Field
import Verif.Poly1305Props
import Verif.Pratt
import Mathlib.FieldTheory.Finite.Basic
/-!
# `curve25519_donna` is X25519
-/

namespace Noise.Curve25519

open Rfc7748 (P F Vars)
open Rfc7539 (leNat leBytes)

instance : Fact (Nat.Prime P) := ⟨prime_25519⟩

/-! ## Montgomery step -/

theorem M_eq : M = 2 ^ 54 + 2 ^ 51 := rfl

/-- A point with small limbs. -/
def Pt.Ok (a : Pt) : Prop := a.x.Le (2 ^ 51) ∧ a.z.Le (2 ^ 51)

/-- The values of two points as the variables of the RFC. -/
def vars (s : Pt × Pt) : Vars := ⟨s.1.x.ev, s.1.z.ev, s.2.x.ev, s.2.z.ev, false⟩

theorem fmonty_ok {q q' : Pt} {d : Fe} (h : q.Ok) (h' : q'.Ok) (hd : d.Le (2 ^ 51)) :
    (fmonty q q' d).1.Ok ∧ (fmonty q q' d).2.Ok ∧ vars (fmonty q q' d) = Vars.arith d.ev (vars (q, q')) := by
  have hM := M_eq
  have x := fsum_ok h.1 h.2 (by decide)
  have z := fdifferenceBackwards_ok (h.2.mono (by decide)) h.1 (by decide)
  have x' := fsum_ok h'.1 h'.2 (by decide)
  have z' := fdifferenceBackwards_ok (h'.2.mono (by decide)) h'.1 (by decide)
  have xx' := fmul_ok (x'.1.mono (by decide)) (z.1.mono (by decide))
  have zz' := fmul_ok (x.1.mono (by decide)) (z'.1.mono (by decide))
  have sx' := fsum_ok xx'.1 zz'.1 (by decide)
  have sz' := fdifferenceBackwards_ok (zz'.1.mono (by decide)) xx'.1 (by decide)
  have x3 := fsquareTimes_ok (sx'.1.mono (by decide)) 0
  have zzz' := fsquareTimes_ok (sz'.1.mono (by decide)) 0
  have z3 := fmul_ok (zzz'.1.mono (by decide)) (hd.mono (by decide))
  have xx := fsquareTimes_ok (x.1.mono (by decide)) 0
  have zz := fsquareTimes_ok (z.1.mono (by decide)) 0
  have x2 := fmul_ok (xx.1.mono (by decide)) (zz.1.mono (by decide))
  have e := fdifferenceBackwards_ok (zz.1.mono (by decide)) xx.1 (by decide)
  have sc := fscalarProduct_ok (k := 121665) (e.1.mono (by decide)) (by decide)
  have su := fsum_ok sc.1 xx.1 (by decide)
  have z2 := fmul_ok (e.1.mono (by decide)) (su.1.mono (by decide))
  refine ⟨⟨x2.1, z2.1⟩, ⟨x3.1, z3.1⟩, ?_⟩
  simp only [zero_add, pow_one] at x3 zzz' xx zz
  have hk : ((121665 : UInt64).toNat : F) = Rfc7748.a24 := by
    rw [show (121665 : UInt64).toNat = 121665 from rfl]; rfl
  have r1 : (fmonty q q' d).1.x.ev = (q.x.ev + q.z.ev) ^ 2 * (q.x.ev - q.z.ev) ^ 2 := by
    refine x2.2.trans ?_
    rw [xx.2, zz.2, x.2, z.2]
  have r2 : (fmonty q q' d).1.z.ev = ((q.x.ev + q.z.ev) ^ 2 - (q.x.ev - q.z.ev) ^ 2) *
      ((q.x.ev + q.z.ev) ^ 2 + Rfc7748.a24 * ((q.x.ev + q.z.ev) ^ 2 - (q.x.ev - q.z.ev) ^ 2)) := by
    refine z2.2.trans ?_
    rw [e.2, su.2, sc.2, e.2, hk, xx.2, zz.2, x.2, z.2]
    ring
  have r3 : (fmonty q q' d).2.x.ev =
      ((q'.x.ev - q'.z.ev) * (q.x.ev + q.z.ev) + (q'.x.ev + q'.z.ev) * (q.x.ev - q.z.ev)) ^ 2 := by
    refine x3.2.trans ?_
    rw [sx'.2, xx'.2, zz'.2, x.2, z.2, x'.2, z'.2]
    ring
  have r4 : (fmonty q q' d).2.z.ev = d.ev *
      ((q'.x.ev - q'.z.ev) * (q.x.ev + q.z.ev) - (q'.x.ev + q'.z.ev) * (q.x.ev - q.z.ev)) ^ 2 := by
    refine z3.2.trans ?_
    rw [zzz'.2, sz'.2, xx'.2, zz'.2, x.2, z.2, x'.2, z'.2]
    ring
  unfold vars Vars.arith
  rw [r1, r2, r3, r4]

/-! ## Swapping -/

theorem swapLimb_eq (a b : UInt64) : swapLimb 0 a b = (a, b) ∧ swapLimb 1 a b = (b, a) := by
  have h1 : (0 : UInt64) - 1 = -1 := by decide
  have h0 : (0 : UInt64) - 0 = 0 := by decide
  constructor
  · simp [swapLimb]
  · have : (-1 : UInt64) &&& (a ^^^ b) = a ^^^ b := by simp
    simp only [swapLimb, h1, this]
    rw [← UInt64.xor_assoc, UInt64.xor_self, UInt64.zero_xor, UInt64.xor_comm a b, ← UInt64.xor_assoc, UInt64.xor_self,
      UInt64.zero_xor]

theorem swapPts_eq (a b : Pt) : swapPts a b 0 = (a, b) ∧ swapPts a b 1 = (b, a) := by
  constructor
  · simp only [swapPts, swapConditional, (swapLimb_eq _ _).1]
  · simp only [swapPts, swapConditional, (swapLimb_eq _ _).2]

/-! ## The loop -/

/-- A round of the loop that swaps back at once. -/
def eager (u : F) (v : Vars) (bit : Bool) : Vars := (Vars.arith u (v.cswap bit)).cswap bit

theorem cmultBit_ok {q : Fe} {s : Pt × Pt} (hq : q.Le (2 ^ 51)) (h1 : s.1.Ok) (h2 : s.2.Ok) {bit : UInt64} (b : Bool)
    (hb : bit = if b then 1 else 0) :
    (cmultBit q s bit).1.Ok ∧ (cmultBit q s bit).2.Ok ∧ vars (cmultBit q s bit) = eager q.ev (vars s) b := by
  subst hb
  cases b with
  | false =>
    simp only [cmultBit, Bool.false_eq_true, if_false, (swapPts_eq _ _).1]
    obtain ⟨k1, k2, k3⟩ := fmonty_ok h1 h2 hq
    refine ⟨k1, k2, k3.trans ?_⟩
    rfl
  | true =>
    simp only [cmultBit, if_true, (swapPts_eq _ _).2]
    obtain ⟨k1, k2, k3⟩ := fmonty_ok h2 h1 hq
    refine ⟨k2, k1, ?_⟩
    have e : vars (s.2, s.1) = (vars s).cswap true := rfl
    rw [e] at k3
    have e' : vars ((fmonty s.2 s.1 q).2, (fmonty s.2 s.1 q).1) = (vars (fmonty s.2 s.1 q)).cswap true := rfl
    rw [e', k3]
    rfl

/-- The loop over the bits `t - 1` to 0 of `k`. -/
def eagerLoop (k : Nat) (u : F) : Nat → Vars → Vars
  | 0, v => v
  | t + 1, v => eagerLoop k u t (eager u v (k.testBit t))

theorem eagerLoop_succ (k : Nat) (u : F) (t : Nat) (v : Vars) :
    eagerLoop k u (t + 1) v = eagerLoop k u t (eager u v (k.testBit t)) := rfl

/-- The rounds for the `n` bits from `from + n - 1` to `from`. -/
def eagerBits (k : Nat) (u : F) (start : Nat) : Nat → Vars → Vars
  | 0, v => v
  | n + 1, v => eagerBits k u start n (eager u v (k.testBit (start + n)))

theorem eagerLoop_add (k : Nat) (u : F) (i : Nat) : ∀ n v, eagerLoop k u (i + n) v = eagerLoop k u i (eagerBits k u i n v)
  | 0, v => rfl
  | n + 1, v => by
    show eagerLoop k u (i + n + 1) v = _
    rw [eagerLoop, eagerLoop_add k u i n]
    rfl

theorem all_bytes {p : UInt8 → Prop} (h : ∀ n < 256, p (UInt8.ofNat n)) (b : UInt8) : p b := by
  have := h b.toNat b.toNat_lt
  rwa [UInt8.ofNat_toNat] at this

theorem shl_testBit (b : UInt8) : (b >>> 7).toUInt64 = (if b.toNat.testBit 7 then 1 else 0) :=
  all_bytes (p := fun b => (b >>> 7).toUInt64 = (if b.toNat.testBit 7 then 1 else 0)) (by decide +kernel) b

theorem shl_bit (b : UInt8) : ∀ j < 7, (b <<< 1).toNat.testBit (j + 1) = b.toNat.testBit j :=
  all_bytes (p := fun b => ∀ j < 7, (b <<< 1).toNat.testBit (j + 1) = b.toNat.testBit j) (by decide +kernel) b

theorem cmultByte_succ (q : Fe) (n : Nat) (b : UInt8) (s : Pt × Pt) :
    cmultByte q (n + 1) b s = cmultByte q n (b <<< 1) (cmultBit q s (b >>> 7).toUInt64) := by
  delta cmultByte
  rfl

theorem cmultByte_ok {q : Fe} (hq : q.Le (2 ^ 51)) (k : Nat) (i : Nat) (n : Nat) : ∀ (b : UInt8) (s : Pt × Pt), n ≤ 8 →
    s.1.Ok → s.2.Ok → (∀ j < n, k.testBit (i + j) = b.toNat.testBit (8 - n + j)) →
    (cmultByte q n b s).1.Ok ∧ (cmultByte q n b s).2.Ok ∧ vars (cmultByte q n b s) = eagerBits k q.ev i n (vars s) := by
  induction n with
  | zero => exact fun b s _ h1 h2 _ => ⟨h1, h2, rfl⟩
  | succ n ih =>
    intro b s hn h1 h2 hb
    have e : (b >>> 7).toUInt64 = if k.testBit (i + n) then 1 else 0 := by
      rw [shl_testBit, hb n (by omega), show 8 - (n + 1) + n = 7 by omega]
    obtain ⟨k1, k2, k3⟩ := cmultBit_ok hq h1 h2 (k.testBit (i + n)) e
    have hb' : ∀ j < n, k.testBit (i + j) = (b <<< 1).toNat.testBit (8 - n + j) := by
      intro j hj
      rw [hb j (by omega), show 8 - n + j = (8 - (n + 1) + j) + 1 by omega, shl_bit _ _ (by omega)]
    obtain ⟨m1, m2, m3⟩ := ih (b <<< 1) (cmultBit q s (b >>> 7).toUInt64) (by omega) k1 k2 hb'
    have u2 : eagerBits k q.ev i (n + 1) (vars s) =
      eagerBits k q.ev i n (eager q.ev (vars s) (k.testBit (i + n))) := rfl
    rw [cmultByte_succ, u2, ← k3]
    exact ⟨m1, m2, m3⟩

theorem leNat_testBit : ∀ (n : Bytes) (i j : Nat), j < 8 → (leNat n).testBit (8 * i + j) = (n.getD i 0).toNat.testBit j
  | [], i, j, _ => by simp [leNat]
  | b :: n, 0, j, hj => by
    simp only [leNat, List.getD_cons_zero, Nat.mul_zero, Nat.zero_add]
    rw [Nat.add_comm, show (256 : Nat) = 2 ^ 8 from rfl, Nat.testBit_two_pow_mul_add _ b.toNat_lt]
    simp [hj]
  | b :: n, i + 1, j, hj => by
    simp only [leNat, List.getD_cons_succ]
    rw [Nat.add_comm b.toNat, show (256 : Nat) = 2 ^ 8 from rfl, Nat.testBit_two_pow_mul_add _ b.toNat_lt]
    rw [if_neg (by omega), show 8 * (i + 1) + j - 8 = 8 * i + j by omega]
    exact leNat_testBit n i j hj

theorem cmultLoop_succ (n : Bytes) (q : Fe) (i : Nat) (s : Pt × Pt) :
    cmultLoop n q (i + 1) s = cmultLoop n q i (cmultByte q 8 (n.getD i 0) s) := by
  delta cmultLoop
  rfl

theorem cmultLoop_ok {q : Fe} (hq : q.Le (2 ^ 51)) (n : Bytes) : ∀ (i : Nat) (s : Pt × Pt), s.1.Ok → s.2.Ok →
    (cmultLoop n q i s).1.Ok ∧ (cmultLoop n q i s).2.Ok ∧
      vars (cmultLoop n q i s) = eagerLoop (leNat n) q.ev (8 * i) (vars s)
  | 0, s, h1, h2 => ⟨h1, h2, rfl⟩
  | i + 1, s, h1, h2 => by
    obtain ⟨k1, k2, k3⟩ := cmultByte_ok hq (leNat n) (8 * i) 8 (n.getD i 0) s (Nat.le_refl _) h1 h2 (fun j hj => by
      rw [leNat_testBit n i j hj]; congr 1; omega)
    obtain ⟨m1, m2, m3⟩ := cmultLoop_ok hq n i _ k1 k2
    rw [cmultLoop_succ]
    refine ⟨m1, m2, ?_⟩
    rw [m3, k3, show 8 * (i + 1) = 8 * i + 8 by omega, eagerLoop_add]

theorem one_ok : Fe.Le ⟨1, 0, 0, 0, 0⟩ (2 ^ 51) ∧ Fe.ev ⟨1, 0, 0, 0, 0⟩ = 1 :=
  ⟨⟨by decide, by decide, by decide, by decide, by decide⟩, by simp [Fe.ev_eq]⟩

theorem zero_ok : Fe.Le ⟨0, 0, 0, 0, 0⟩ (2 ^ 51) ∧ Fe.ev ⟨0, 0, 0, 0, 0⟩ = 0 :=
  ⟨⟨by decide, by decide, by decide, by decide, by decide⟩, by simp [Fe.ev_eq]⟩

theorem cmult_ok {q : Fe} (hq : q.Le (2 ^ 51)) (n : Bytes) : (cmult n q).Ok ∧
    (cmult n q).x.ev = (eagerLoop (leNat n) q.ev 256 ⟨1, 0, q.ev, 1, false⟩).x2 ∧
    (cmult n q).z.ev = (eagerLoop (leNat n) q.ev 256 ⟨1, 0, q.ev, 1, false⟩).z2 := by
  obtain ⟨k1, -, k3⟩ := cmultLoop_ok hq n 32 (⟨⟨1, 0, 0, 0, 0⟩, ⟨0, 0, 0, 0, 0⟩⟩, ⟨q, ⟨1, 0, 0, 0, 0⟩⟩)
    ⟨one_ok.1, zero_ok.1⟩ ⟨hq, one_ok.1⟩
  have e : vars (⟨⟨1, 0, 0, 0, 0⟩, ⟨0, 0, 0, 0, 0⟩⟩, ⟨q, ⟨1, 0, 0, 0, 0⟩⟩) = ⟨1, 0, q.ev, 1, false⟩ := by
    simp only [vars, one_ok.2, zero_ok.2]
  rw [e] at k3
  rw [show 8 * 32 = 256 from rfl] at k3
  unfold cmult
  generalize cmultLoop n q 32 (⟨⟨1, 0, 0, 0, 0⟩, ⟨0, 0, 0, 0, 0⟩⟩, ⟨q, ⟨1, 0, 0, 0, 0⟩⟩) = r at *
  generalize eagerLoop (leNat n) q.ev 256 ⟨1, 0, q.ev, 1, false⟩ = w at *
  subst k3
  exact ⟨k1, rfl, rfl⟩

/-! ## The RFC's loop swaps lazily -/

theorem cswap_cswap (v : Vars) (a b : Bool) : (v.cswap a).cswap b = v.cswap (a ^^ b) := by
  cases a <;> cases b <;> rfl

/-- Forgetting the flag. -/
def noflag (v : Vars) : Vars := { v with swap := false }

theorem body_eager (u : F) (v : Vars) (b : Bool) :
    noflag ((v.body u b).cswap (v.body u b).swap) = eager u (noflag (v.cswap v.swap)) b := by
  have h : (v.body u b).swap = b := rfl
  rw [h]
  unfold eager
  have : (noflag (v.cswap v.swap)).cswap b = noflag (v.cswap (v.swap ^^ b)) := by
    rw [← cswap_cswap]; rfl
  rw [this]
  rfl

theorem loop_eager (k : Nat) (u : F) : ∀ t v, noflag ((Rfc7748.loop k u t v).cswap (Rfc7748.loop k u t v).swap) =
    eagerLoop k u t (noflag (v.cswap v.swap))
  | 0, v => rfl
  | t + 1, v => by
    rw [Rfc7748.loop, eagerLoop, loop_eager k u t, body_eager]

theorem ladder_eager (k : Nat) (u : F) : Rfc7748.ladder k u =
    (eagerLoop k u 255 ⟨1, 0, u, 1, false⟩).x2 * (eagerLoop k u 255 ⟨1, 0, u, 1, false⟩).z2 ^ (P - 2) := by
  have h := loop_eager k u 255 ⟨1, 0, u, 1, false⟩
  have e : noflag (Vars.cswap ⟨1, 0, u, 1, false⟩ false) = ⟨1, 0, u, 1, false⟩ := rfl
  have h : noflag ((Rfc7748.loop k u 255 ⟨1, 0, u, 1, false⟩).cswap (Rfc7748.loop k u 255 ⟨1, 0, u, 1, false⟩).swap) =
    eagerLoop k u 255 ⟨1, 0, u, 1, false⟩ := by rw [h]; exact congrArg _ e
  rw [← h]
  rfl

/-! ## Projective coordinates -/

/-- The same points in projective coordinates. -/
structure Same (v w : Vars) : Prop where
  h2 : ∃ a, a ≠ 0 ∧ v.x2 = a * w.x2 ∧ v.z2 = a * w.z2
  h3 : ∃ a, a ≠ 0 ∧ v.x3 = a * w.x3 ∧ v.z3 = a * w.z3

theorem Same.cswap {v w : Vars} (h : Same v w) (b : Bool) : Same (v.cswap b) (w.cswap b) := by
  cases b with
  | false => exact ⟨h.h2, h.h3⟩
  | true => exact ⟨h.h3, h.h2⟩

theorem Same.arith {v w : Vars} (h : Same v w) (u : F) : Same (Vars.arith u v) (Vars.arith u w) := by
  obtain ⟨⟨a, ha, a1, a2⟩, ⟨b, hb, b1, b2⟩⟩ := h
  refine ⟨⟨a ^ 4, pow_ne_zero _ ha, ?_, ?_⟩, ⟨(a * b) ^ 2, pow_ne_zero _ (mul_ne_zero ha hb), ?_, ?_⟩⟩
  all_goals
    simp only [Vars.arith, a1, a2, b1, b2]
    ring

theorem Same.loop {u : F} (k : Nat) : ∀ (t : Nat) {v w : Vars}, Same v w → Same (eagerLoop k u t v) (eagerLoop k u t w)
  | 0, _, _, h => h
  | t + 1, _, _, h => Same.loop k t (((h.cswap _).arith u).cswap _)

theorem eager_zero {v : Vars} (h2 : v.x2 * v.z2 = 0) (h3 : v.x3 * v.z3 = 0) (b : Bool) :
    (eager 0 v b).z2 = 0 ∧ (eager 0 v b).z3 = 0 := by
  have key : ∀ x z : F, x * z = 0 → ∀ y : F, ((x + z) ^ 2 - (x - z) ^ 2) * y = 0 := by
    intro x z h y
    have : (x + z) ^ 2 - (x - z) ^ 2 = 4 * (x * z) := by ring
    rw [this, h]; ring
  cases b with
  | false => exact ⟨key _ _ h2 _, zero_mul _⟩
  | true => exact ⟨zero_mul _, key _ _ h3 _⟩

theorem loop_zero (k : Nat) : ∀ (t : Nat) (v : Vars), v.x2 * v.z2 = 0 → v.x3 * v.z3 = 0 →
    (eagerLoop k 0 (t + 1) v).z2 = 0
  | 0, v, h2, h3 => (eager_zero h2 h3 _).1
  | t + 1, v, h2, h3 => by
    rw [eagerLoop]
    obtain ⟨e2, e3⟩ := eager_zero h2 h3 (k.testBit (t + 1))
    exact loop_zero k t _ (by rw [e2, mul_zero]) (by rw [e3, mul_zero])

theorem P_gt : 2 < P := by decide +kernel

theorem inv_pow {a : F} (h : a ≠ 0) : a ^ (P - 2) = a⁻¹ := by
  have h1 := ZMod.pow_card_sub_one_eq_one h
  have h2 : a ^ (P - 1) = a ^ (P - 2) * a := by
    rw [← pow_succ, show P - 1 = P - 2 + 1 by have := P_gt; omega]
  rw [h2] at h1
  exact eq_inv_of_mul_eq_one_left h1

/-- The additional round for bit 255, which is 0, makes no difference. -/
theorem extra_round (k : Nat) (hk : k.testBit 255 = false) (u : F) :
    (eagerLoop k u 256 ⟨1, 0, u, 1, false⟩).x2 * (eagerLoop k u 256 ⟨1, 0, u, 1, false⟩).z2 ^ (P - 2) =
      (eagerLoop k u 255 ⟨1, 0, u, 1, false⟩).x2 * (eagerLoop k u 255 ⟨1, 0, u, 1, false⟩).z2 ^ (P - 2) := by
  have hp : P - 2 ≠ 0 := by have := P_gt; omega
  by_cases hu : u = 0
  · subst hu
    rw [loop_zero k 255 _ (by simp) (by simp), loop_zero k 254 _ (by simp) (by simp)]
    rw [zero_pow hp, mul_zero, mul_zero]
  have h4 : (4 : F) ≠ 0 := by
    have : ((4 : Nat) : F) ≠ 0 := by
      rw [Ne, ZMod.natCast_eq_zero_iff]
      intro h
      have := Nat.le_of_dvd (by omega) h
      have h2 : 4 < P := by decide +kernel
      omega
    exact_mod_cast this
  have hs : Same (eager u ⟨1, 0, u, 1, false⟩ false) ⟨1, 0, u, 1, false⟩ := by
    refine ⟨⟨1, one_ne_zero, ?_, ?_⟩, ⟨4 * u, mul_ne_zero h4 hu, ?_, ?_⟩⟩
    · show (1 + 0 : F) ^ 2 * (1 - 0) ^ 2 = _
      ring
    · show ((1 + 0 : F) ^ 2 - (1 - 0) ^ 2) * _ = _
      ring
    · show ((u - 1) * (1 + 0) + (u + 1) * (1 - 0)) ^ 2 = _
      ring
    · show u * ((u - 1) * (1 + 0) - (u + 1) * (1 - 0)) ^ 2 = _
      ring
  have e : eagerLoop k u 256 ⟨1, 0, u, 1, false⟩ = eagerLoop k u 255 (eager u ⟨1, 0, u, 1, false⟩ false) := by
    rw [← hk]; exact eagerLoop_succ k u 255 _
  obtain ⟨⟨a, ha, h1, h2⟩, -⟩ := hs.loop k 255
  rw [e, h1, h2]
  generalize (eagerLoop k u 255 ⟨1, 0, u, 1, false⟩).x2 = x
  generalize (eagerLoop k u 255 ⟨1, 0, u, 1, false⟩).z2 = z
  rw [mul_pow, inv_pow ha]
  field_simp

/-! ## Inversion -/

/-- `a` is small and its value is the `n`-th power of `z`. -/
def Pw (z : F) (a : Fe) (n : Nat) : Prop := a.Le (2 ^ 51) ∧ a.ev = z ^ n

theorem Pw.mul {z : F} {a b : Fe} {n m : Nat} (h : Pw z a n) (h' : Pw z b m) : Pw z (fmul a b) (n + m) := by
  have k := fmul_ok (h.1.mono (by decide)) (h'.1.mono (by decide))
  exact ⟨k.1, by rw [k.2, h.2, h'.2, pow_add]⟩

theorem Pw.sq {z : F} {a : Fe} {n : Nat} (h : Pw z a n) (k : Nat) : Pw z (fsquareTimes a (k + 1)) (n * 2 ^ (k + 1)) := by
  have m := fsquareTimes_ok (h.1.mono (by decide)) k
  exact ⟨m.1, by rw [m.2, h.2, pow_mul]⟩

theorem crecip_ok {z : Fe} (hz : z.Le (2 ^ 51)) : (crecip z).Le (2 ^ 51) ∧ (crecip z).ev = z.ev ^ (P - 2) := by
  have h : Pw z.ev z 1 := ⟨hz, by rw [pow_one]⟩
  have a := h.sq 0
  have t0 := a.sq 1
  have b := t0.mul h
  have a' := b.mul a
  have t0 := a'.sq 0
  have b := t0.mul b
  have t0 := b.sq 4
  have b := t0.mul b
  have t0 := b.sq 9
  have c := t0.mul b
  have t0 := c.sq 19
  have t0 := t0.mul c
  have t0 := t0.sq 9
  have b := t0.mul b
  have t0 := b.sq 49
  have c := t0.mul b
  have t0 := c.sq 99
  have t0 := t0.mul c
  have t0 := t0.sq 49
  have t0 := t0.mul b
  have t0 := t0.sq 4
  have out := t0.mul a'
  have hn : ∀ n, n = P - 2 → z.ev ^ n = z.ev ^ (P - 2) := fun n h => by rw [h]
  exact ⟨out.1, out.2.trans (hn _ (by decide +kernel))⟩

/-! ## Bytes -/

theorem loadLimb_toNat (p : Bytes) (i : Nat) : (loadLimb p i).toNat = leNat ((p.drop i).take 8) :=
  Poly1305.u8to64_toNat p i

theorem leNat_lt : ∀ b : Bytes, leNat b < 256 ^ b.length
  | [] => by simp [leNat]
  | x :: b => by
    have := leNat_lt b
    have := x.toNat_lt
    simp only [leNat, List.length_cons, Nat.pow_succ]
    omega

theorem leNat_drop (b : Bytes) (i : Nat) : leNat (b.drop i) = leNat b / 256 ^ i := by
  induction i generalizing b with
  | zero => simp
  | succ i ih =>
    cases b with
    | nil => simp [leNat]
    | cons x b =>
      have := x.toNat_lt
      rw [List.drop_succ_cons, ih, leNat, Nat.pow_succ, Nat.mul_comm (256 ^ i), ← Nat.div_div_eq_div_mul]
      congr 1
      omega

theorem leNat_take (b : Bytes) (i : Nat) : leNat (b.take i) = leNat b % 256 ^ i := by
  induction i generalizing b with
  | zero => simp [leNat, Nat.mod_one]
  | succ i ih =>
    cases b with
    | nil => simp [leNat]
    | cons x b =>
      have := x.toNat_lt
      rw [List.take_succ_cons, leNat, ih, leNat, Nat.pow_succ, Nat.mul_comm (256 ^ i), Nat.mod_mul]
      congr 1
      · omega
      · congr 2
        omega

theorem leNat_set (b : Bytes) (i : Nat) (h : i < b.length) (x : UInt8) :
    leNat (b.set i x) + 256 ^ i * (b.getD i 0).toNat = leNat b + 256 ^ i * x.toNat := by
  induction i generalizing b with
  | zero =>
    cases b with
    | nil => simp at h
    | cons y b => simp only [List.set_cons_zero, leNat, List.getD_cons_zero, Nat.pow_zero, Nat.one_mul]; omega
  | succ i ih =>
    cases b with
    | nil => simp at h
    | cons y b =>
      have := ih b (by simpa using h)
      simp only [List.set_cons_succ, leNat, List.getD_cons_succ, Nat.pow_succ]
      rw [Nat.mul_comm (256 ^ i) 256, Nat.mul_assoc, Nat.mul_assoc]
      omega

/-- The number that `fexpand` and the RFC read: all bits but the last. -/
theorem leNat_mask (b : Bytes) (h : b.length = 32) : leNat (b.set 31 (b.getD 31 0 &&& 0x7F)) = leNat b % 2 ^ 255 := by
  have h1 := leNat_set b 31 (by omega) (b.getD 31 0 &&& 0x7F)
  have h2 : (b.getD 31 0 &&& 0x7F).toNat = (b.getD 31 0).toNat % 2 ^ 7 := by
    rw [UInt8.toNat_and]; exact Nat.and_two_pow_sub_one_eq_mod _ 7
  have h3 : (b.getD 31 0).toNat = leNat b / 256 ^ 31 := by
    rw [← leNat_drop]
    have : b.drop 31 = [b.getD 31 0] := by
      rw [List.drop_eq_getElem_cons (by omega), List.drop_of_length_le (by omega)]
      simp [List.getD, List.getElem?_eq_getElem (show 31 < b.length by omega)]
    rw [this]
    simp [leNat]
  have h4 := leNat_lt b
  rw [h] at h4
  rw [h2, h3] at h1
  omega

theorem shrs (x : UInt64) (k : Nat) (hk : k < 64) (s : UInt64) (hs : s.toNat = k) : (x >>> s).toNat = x.toNat / 2 ^ k := by
  rw [UInt64.toNat_shiftRight, hs, Nat.mod_eq_of_lt hk, Nat.shiftRight_eq_div_pow]

theorem fexpand_ok (b : Bytes) (h : b.length = 32) : (fexpand b).Le (2 ^ 51) ∧
    (fexpand b).ev = Rfc7748.decodeUCoordinate b := by
  have e0 : (loadLimb b 0 &&& 0x7ffffffffffff).toNat = leNat b % 2 ^ 51 := by
    rw [and51, loadLimb_toNat, leNat_take, leNat_drop]; omega
  have e1 : ((loadLimb b 6 >>> 3) &&& 0x7ffffffffffff).toNat = leNat b / 2 ^ 51 % 2 ^ 51 := by
    rw [and51, shrs _ 3 (by omega) _ rfl, loadLimb_toNat, leNat_take, leNat_drop]; omega
  have e2 : ((loadLimb b 12 >>> 6) &&& 0x7ffffffffffff).toNat = leNat b / 2 ^ 102 % 2 ^ 51 := by
    rw [and51, shrs _ 6 (by omega) _ rfl, loadLimb_toNat, leNat_take, leNat_drop]; omega
  have e3 : ((loadLimb b 19 >>> 1) &&& 0x7ffffffffffff).toNat = leNat b / 2 ^ 153 % 2 ^ 51 := by
    rw [and51, shrs _ 1 (by omega) _ rfl, loadLimb_toNat, leNat_take, leNat_drop]; omega
  have e4 : ((loadLimb b 24 >>> 12) &&& 0x7ffffffffffff).toNat = leNat b / 2 ^ 204 % 2 ^ 51 := by
    rw [and51, shrs _ 12 (by omega) _ rfl, loadLimb_toNat, leNat_take, leNat_drop]; omega
  refine ⟨⟨?_, ?_, ?_, ?_, ?_⟩, ?_⟩
  · simp only [fexpand, e0]; omega
  · simp only [fexpand, e1]; omega
  · simp only [fexpand, e2]; omega
  · simp only [fexpand, e3]; omega
  · simp only [fexpand, e4]; omega
  · unfold Rfc7748.decodeUCoordinate Fe.ev
    rw [leNat_mask b h]
    congr 1
    simp only [Fe.val, fexpand, e0, e1, e2, e3, e4]
    omega

theorem storeLimb_eq (w : UInt64) : storeLimb w = leBytes 8 w.toNat := by
  rw [← Poly1305.u64to8_eq]
  have h : ∀ v : UInt64, (v &&& 0xff).toUInt8 = v.toUInt8 := by
    intro v
    apply UInt8.toNat_inj.1
    rw [UInt64.toNat_toUInt8, UInt64.toNat_toUInt8, UInt64.toNat_and,
      show (0xff : UInt64).toNat = 2 ^ 8 - 1 from rfl, Nat.and_two_pow_sub_one_eq_mod]
    omega
  simp only [storeLimb, h, Poly1305.u64to8]

/-- The number in five wide limbs. -/
def Wide.val (t : Wide) : Nat := t.t0 + 2 ^ 51 * t.t1 + 2 ^ 102 * t.t2 + 2 ^ 153 * t.t3 + 2 ^ 204 * t.t4

theorem nand51 (x : Nat) : x &&& 0x7ffffffffffff = x % 2 ^ 51 := Nat.and_two_pow_sub_one_eq_mod x 51

theorem carryUp_ok (t : Wide) (h0 : t.t0 < 2 ^ 100) (h1 : t.t1 < 2 ^ 100) (h2 : t.t2 < 2 ^ 100) (h3 : t.t3 < 2 ^ 100)
    (h4 : t.t4 < 2 ^ 100) : (carryUp t).val = t.val ∧ (carryUp t).t0 < 2 ^ 51 ∧ (carryUp t).t1 < 2 ^ 51 ∧
      (carryUp t).t2 < 2 ^ 51 ∧ (carryUp t).t3 < 2 ^ 51 ∧ (carryUp t).t4 < 2 ^ 101 := by
  unfold carryUp Wide.val
  simp only [nand51]
  rw [add_eq (x := t.t1) (by omega), add_eq (x := t.t2) (by omega), add_eq (x := t.t3) (by omega),
    add_eq (x := t.t4) (by omega)]
  omega

theorem carryAround_ok (t : Wide) (h0 : t.t0 < 2 ^ 100) (h1 : t.t1 < 2 ^ 100) (h2 : t.t2 < 2 ^ 100) (h3 : t.t3 < 2 ^ 100)
    (h4 : t.t4 < 2 ^ 100) : ∃ q, (carryAround t).val + P * q = t.val ∧ q = t.val / 2 ^ 255 ∧
      (carryAround t).t0 < 2 ^ 51 + 19 * q ∧ (carryAround t).t1 < 2 ^ 51 ∧
      (carryAround t).t2 < 2 ^ 51 ∧ (carryAround t).t3 < 2 ^ 51 ∧ (carryAround t).t4 < 2 ^ 51 := by
  obtain ⟨hv, b0, b1, b2, b3, b4⟩ := carryUp_ok t h0 h1 h2 h3 h4
  have hP : P = 2 ^ 255 - 19 := rfl
  refine ⟨(carryUp t).t4 / 2 ^ 51, ?_⟩
  unfold carryAround
  generalize carryUp t = u at *
  rw [← hv]
  simp only [nand51, Wide.val, hP]
  rw [Nat.mod_eq_of_lt (show 19 * (u.t4 / 2 ^ 51) < 2 ^ 128 by omega), add_eq (by omega)]
  omega

/-- The last part of `fcontract`. -/
theorem pack_ok (t : Wide) (b0 : t.t0 < 2 ^ 51) (b1 : t.t1 < 2 ^ 51) (b2 : t.t2 < 2 ^ 51) (b3 : t.t3 < 2 ^ 51)
    (b4 : t.t4 < 2 ^ 51) :
    storeLimb (UInt64.ofNat (t.t0 ||| (t.t1 <<< 51 % 2 ^ 128))) ++
      storeLimb (UInt64.ofNat ((t.t1 >>> 13) ||| (t.t2 <<< 38 % 2 ^ 128))) ++
      storeLimb (UInt64.ofNat ((t.t2 >>> 26) ||| (t.t3 <<< 25 % 2 ^ 128))) ++
      storeLimb (UInt64.ofNat ((t.t3 >>> 39) ||| (t.t4 <<< 12 % 2 ^ 128))) = leBytes 32 t.val := by
  have key : ∀ a c k, a < 2 ^ k → c < 2 ^ 51 → k ≤ 51 → a ||| (c <<< k % 2 ^ 128) = a + 2 ^ k * c := by
    intro a c k ha hc hk
    have : c * 2 ^ k < 2 ^ 128 := by
      calc c * 2 ^ k < 2 ^ 51 * 2 ^ k := Nat.mul_lt_mul_of_pos_right hc (Nat.pos_of_ne_zero (by simp))
        _ ≤ 2 ^ 51 * 2 ^ 51 := Nat.mul_le_mul_left _ (Nat.pow_le_pow_right (by omega) hk)
        _ < 2 ^ 128 := by decide
    rw [Nat.shiftLeft_eq, Nat.mod_eq_of_lt this, Poly1305.or_eq_add k ha (by simp), Nat.mul_comm]
  rw [Nat.shiftRight_eq_div_pow, Nat.shiftRight_eq_div_pow, Nat.shiftRight_eq_div_pow]
  rw [key _ _ 51 b0 b1 (by omega), key _ _ 38 (by omega) b2 (by omega), key _ _ 25 (by omega) b3 (by omega),
    key _ _ 12 (by omega) b4 (by omega)]
  simp only [storeLimb_eq, UInt64.toNat_ofNat']
  rw [show 32 = 8 + 8 + 8 + 8 from rfl, Noise.leBytes_append, Noise.leBytes_append, Noise.leBytes_append]
  have e8 : ∀ a c, a % 2 ^ 64 = c % 2 ^ 64 → leBytes 8 (a % 2 ^ 64) = leBytes 8 c := by
    intro a c h
    rw [h, show (2 : Nat) ^ 64 = 256 ^ 8 from rfl, Noise.leBytes_mod]
  congr 1
  · congr 1
    · congr 1
      · apply e8; unfold Wide.val; omega
      · apply e8; unfold Wide.val; omega
    · apply e8; unfold Wide.val; omega
  · apply e8; unfold Wide.val; omega

theorem fcontract_ok {a : Fe} (ha : a.Le (2 ^ 51)) : fcontract a = leBytes 32 (a.val % P) := by
  obtain ⟨a0, a1, a2, a3, a4⟩ := ha
  have hP : P = 2 ^ 255 - 19 := rfl
  unfold fcontract
  dsimp only
  obtain ⟨q1, v1, hq1, b0, b1, b2, b3, b4⟩ := carryAround_ok
    ⟨a.l0.toNat, a.l1.toNat, a.l2.toNat, a.l3.toNat, a.l4.toNat⟩ (by dsimp; omega) (by dsimp; omega) (by dsimp; omega)
    (by dsimp; omega) (by dsimp; omega)
  have hval : Wide.val ⟨a.l0.toNat, a.l1.toNat, a.l2.toNat, a.l3.toNat, a.l4.toNat⟩ = a.val := rfl
  rw [hval] at v1 hq1
  have ha : a.val < 2 ^ 256 := by unfold Fe.val; omega
  generalize carryAround ⟨a.l0.toNat, a.l1.toNat, a.l2.toNat, a.l3.toNat, a.l4.toNat⟩ = t at *
  obtain ⟨q2, v2, hq2, c0, c1, c2, c3, c4⟩ := carryAround_ok t (by omega) (by omega) (by omega) (by omega) (by omega)
  generalize carryAround t = u at *
  have hu0 : u.t0 < 2 ^ 51 := by
    unfold Wide.val at *
    rw [hP] at *
    omega
  have hu : u.val < 2 ^ 255 := by unfold Wide.val; omega
  have hua : u.val % P = a.val % P := by
    rw [← v1, ← v2, Nat.add_mul_mod_self_left, Nat.add_mul_mod_self_left]
  rw [← hua]
  clear v1 v2 hq1 hq2 c0 b0 b1 b2 b3 b4 hval ha hua a0 a1 a2 a3 a4
  rw [add_eq (x := u.t0) (by omega)]
  obtain ⟨q3, v3, hq3, d0, d1, d2, d3, d4⟩ := carryAround_ok { u with t0 := u.t0 + 19 } (by dsimp; omega) (by dsimp; omega)
    (by dsimp; omega) (by dsimp; omega) (by dsimp; omega)
  have hv19 : Wide.val { u with t0 := u.t0 + 19 } = u.val + 19 := by unfold Wide.val; dsimp; omega
  rw [hv19] at v3 hq3
  generalize carryAround { u with t0 := u.t0 + 19 } = w at *
  have hw : w.val = u.val % P + 19 := by
    rw [hP] at *
    omega
  have hq : q3 ≤ 1 := by omega
  clear v3 hq3
  rw [add_eq (x := w.t0) (by omega), add_eq (x := w.t1) (by omega), add_eq (x := w.t2) (by omega),
    add_eq (x := w.t3) (by omega), add_eq (x := w.t4) (by omega)]
  obtain ⟨v4, f0, f1, f2, f3, -⟩ := carryUp_ok ⟨w.t0 + (0x8000000000000 - 19), w.t1 + (0x8000000000000 - 1),
    w.t2 + (0x8000000000000 - 1), w.t3 + (0x8000000000000 - 1), w.t4 + (0x8000000000000 - 1)⟩ (by dsimp; omega)
    (by dsimp; omega) (by dsimp; omega) (by dsimp; omega) (by dsimp; omega)
  have h5 : Wide.val ⟨w.t0 + (0x8000000000000 - 19), w.t1 + (0x8000000000000 - 1),
    w.t2 + (0x8000000000000 - 1), w.t3 + (0x8000000000000 - 1), w.t4 + (0x8000000000000 - 1)⟩ = w.val + (2 ^ 255 - 19) := by
    unfold Wide.val; dsimp; omega
  rw [h5, hw] at v4
  generalize carryUp ⟨w.t0 + (0x8000000000000 - 19), w.t1 + (0x8000000000000 - 1),
    w.t2 + (0x8000000000000 - 1), w.t3 + (0x8000000000000 - 1), w.t4 + (0x8000000000000 - 1)⟩ = x at *
  have hpk := pack_ok { x with t4 := x.t4 &&& 0x7ffffffffffff } f0 f1 f2 f3 (by dsimp; rw [nand51]; omega)
  refine hpk.trans ?_
  congr 1
  have hm : u.val % P < P := Nat.mod_lt _ (by rw [hP]; omega)
  generalize u.val % P = m at *
  unfold Wide.val at v4 ⊢
  simp only [nand51]
  rw [hP] at hm
  omega

/-! ## The whole function -/

theorem scalar_ok (k : Bytes) (h : k.length = 32) :
    let e := k.set 0 (k.getD 0 0 &&& 248)
    let e := e.set 31 (e.getD 31 0 &&& 127)
    let e := e.set 31 (e.getD 31 0 ||| 64)
    leNat e = Rfc7748.decodeScalar25519 k := by
  intro e1 e2 e3
  have g1 : e1.getD 31 0 = k.getD 31 0 := by
    simp only [e1, List.getD, List.getElem?_set]
    simp
  have g2 : e2.getD 31 0 = k.getD 31 0 &&& 127 := by
    simp only [e2, g1]
    simp [List.getD, e1, h]
  unfold Rfc7748.decodeScalar25519
  show leNat (e2.set 31 (e2.getD 31 0 ||| 64)) = _
  rw [g2]
  show leNat ((e1.set 31 _).set 31 _) = _
  rw [List.set_set]

theorem scalar_bit (k : Bytes) (h : k.length = 32) : (Rfc7748.decodeScalar25519 k).testBit 255 = false := by
  unfold Rfc7748.decodeScalar25519
  rw [show 255 = 8 * 31 + 7 from rfl, leNat_testBit _ _ _ (by omega)]
  have : ((k.set 0 (k.getD 0 0 &&& 248)).set 31 ((k.getD 31 0 &&& 127) ||| 64)).getD 31 0 = (k.getD 31 0 &&& 127) ||| 64 := by
    simp [List.getD, h]
  rw [this]
  exact all_bytes (p := fun b => ((b &&& 127) ||| 64).toNat.testBit 7 = false) (by decide +kernel) _

/-- **C60**: for every private key and every public key of 32 bytes, `curve25519_donna` computes the X25519 function of
RFC 7748. -/
theorem C60_donna_is_x25519 (secret basepoint : Bytes) (hs : secret.length = 32) (hb : basepoint.length = 32) :
    curve25519Donna secret basepoint = Rfc7748.x25519 secret basepoint := by
  obtain ⟨hq, hu⟩ := fexpand_ok basepoint hb
  have hk := scalar_ok secret hs
  unfold curve25519Donna
  dsimp only at hk ⊢
  generalize ((secret.set 0 (secret.getD 0 0 &&& 248)).set 31 ((secret.set 0 (secret.getD 0 0 &&& 248)).getD 31 0 &&& 127)).set 31
    (((secret.set 0 (secret.getD 0 0 &&& 248)).set 31 ((secret.set 0 (secret.getD 0 0 &&& 248)).getD 31 0 &&& 127)).getD 31 0 |||
      64) = e at *
  obtain ⟨⟨hx, hz⟩, ex, ez⟩ := cmult_ok hq e
  have r := crecip_ok hz
  have m := fmul_ok (hx.mono (by decide)) (r.1.mono (by decide))
  rw [fcontract_ok m.1]
  unfold Rfc7748.x25519 Rfc7748.encodeUCoordinate
  refine congrArg (leBytes 32) ?_
  have hv : ((fmul (cmult e (fexpand basepoint)).x (crecip (cmult e (fexpand basepoint)).z)).val : F).val = _ % P :=
    ZMod.val_natCast P _
  rw [← hv]
  refine congrArg ZMod.val ?_
  refine m.2.trans ?_
  rw [r.2, ex, ez, hk, hu, ladder_eager]
  exact extra_round _ (scalar_bit secret hs) _

/-- The first test vector of RFC 7748, section 5.2, evaluated with the model of the code. -/
example : curve25519Donna
    (leBytes 32 0xc49a44ba44226a50185afcc10a4c1462dd5e46824b15163b9d7c52f06be346a5)
    (leBytes 32 0x4c1cabd0a603a9103b35b326ec2466727c5fb124a4c19435db3030586768dbe6) =
    leBytes 32 0x5285a2775507b454f7711c4903cfec324f088df24dea948e90c6e99d3755dac3 := by decide +kernel

end Noise.Curve25519
