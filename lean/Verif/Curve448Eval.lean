import Verif.Curve448Field
import Verif.Curve25519Props
/-!
# `curve448_eval` is X448 for every correct version of the field
-/

namespace Noise.Curve448

open X448 (P F)
open Rfc7539 (leNat leBytes)
open Curve25519 (all_bytes leNat_testBit)

set_option exponentiation.threshold 500

/-- The operations compute in the field. -/
structure Arith.Correct (A : Arith) where
  /-- Representations that may occur. -/
  Ok : A.T → Prop
  /-- The number represented. -/
  ev : A.T → F
  setUi : ∀ x : UInt64, x.toNat ≤ 1 → Ok (A.setUi x) ∧ ev (A.setUi x) = (x.toNat : F)
  mul : ∀ {a b}, Ok a → Ok b → Ok (A.mul a b) ∧ ev (A.mul a b) = ev a * ev b
  sqr : ∀ {a}, Ok a → Ok (A.sqr a) ∧ ev (A.sqr a) = ev a ^ 2
  mulw : ∀ {a}, Ok a → Ok (A.mulw a 39081) ∧ ev (A.mulw a 39081) = ev a * (39081 : Nat)
  add : ∀ {a b}, Ok a → Ok b → Ok (A.add a b) ∧ ev (A.add a b) = ev a + ev b
  sub : ∀ {a b}, Ok a → Ok b → Ok (A.sub a b) ∧ ev (A.sub a b) = ev a - ev b
  serialize : ∀ {a}, Ok a → A.serialize a = .ok (leBytes 56 (ev a).val)
  deserialize : ∀ {b : Bytes}, b.length = 56 → Ok (A.deserialize b).1 ∧ ev (A.deserialize b).1 = (leNat b : F) ∧
    (A.deserialize b).2 = decide (leNat b < P)
  cswap0 : ∀ a b, A.cswap 0 a b = (a, b)
  cswap1 : ∀ a b, A.cswap 1 a b = (b, a)

namespace Arith.Correct
variable {A : Arith} (C : A.Correct)

/-- All variables are representations, and the flag is 0 or 1. -/
structure VOk (v : A.Vars) (b : Bool) : Prop where
  x2 : C.Ok v.x2
  z2 : C.Ok v.z2
  x3 : C.Ok v.x3
  z3 : C.Ok v.z3
  swap : v.swap = if b then 1 else 0

/-- The variables as those of the RFC. -/
def V (v : A.Vars) (b : Bool) : Ladder.Vars F := ⟨C.ev v.x2, C.ev v.z2, C.ev v.x3, C.ev v.z3, b⟩

theorem swapBoth_ok {v : A.Vars} {b : Bool} (h : C.VOk v b) (c : Bool) :
    C.VOk (A.swapBoth v (if c then 1 else 0)) b ∧ C.V (A.swapBoth v (if c then 1 else 0)) b = (C.V v b).cswap c := by
  obtain ⟨h1, h2, h3, h4, h5⟩ := h
  cases c with
  | false =>
    refine ⟨⟨?_, ?_, ?_, ?_, h5⟩, ?_⟩ <;>
      simp [swapBoth, C.cswap0, V, Ladder.Vars.cswap, Ladder.cswap, h1, h2, h3, h4]
  | true =>
    refine ⟨⟨?_, ?_, ?_, ?_, h5⟩, ?_⟩ <;>
      simp [swapBoth, C.cswap1, V, Ladder.Vars.cswap, Ladder.cswap, h1, h2, h3, h4]

theorem doubleAdd_ok {x1 : A.T} {v : A.Vars} {b : Bool} (hx : C.Ok x1) (h : C.VOk v b) :
    C.VOk (A.doubleAdd x1 v) b ∧ C.V (A.doubleAdd x1 v) b = (C.V v b).arith X448.a24 (C.ev x1) := by
  obtain ⟨h1, h2, h3, h4, h5⟩ := h
  have a := C.add h1 h2
  have aa := C.sqr a.1
  have b := C.sub h1 h2
  have bb := C.sqr b.1
  have e := C.sub aa.1 bb.1
  have c := C.add h3 h4
  have d := C.sub h3 h4
  have da := C.mul d.1 a.1
  have cb := C.mul c.1 b.1
  have s := C.add da.1 cb.1
  have x3 := C.sqr s.1
  have t := C.sub da.1 cb.1
  have t2 := C.sqr t.1
  have z3 := C.mul hx t2.1
  have x2 := C.mul aa.1 bb.1
  have w := C.mulw e.1
  have a' := C.add aa.1 w.1
  have z2 := C.mul e.1 a'.1
  refine ⟨⟨x2.1, z2.1, x3.1, z3.1, h5⟩, ?_⟩
  have hk : ((39081 : Nat) : F) = X448.a24 := by unfold X448.a24; norm_num
  unfold V Ladder.Vars.arith
  dsimp only [doubleAdd]
  rw [x2.2, z2.2, x3.2, z3.2, a'.2, w.2, t2.2, t.2, s.2, cb.2, da.2, d.2, c.2, e.2, bb.2, b.2, aa.2, a.2, hk]
  congr 1
  ring

theorem round_ok {x1 : A.T} {v : A.Vars} {b : Bool} (hx : C.Ok x1) (h : C.VOk v b) (kt : Bool) :
    C.VOk (A.round x1 v (if kt then 1 else 0)) kt ∧
      C.V (A.round x1 v (if kt then 1 else 0)) kt = (C.V v b).body X448.a24 (C.ev x1) kt := by
  have hs : (v.swap ^^^ (if kt then 1 else 0) : UInt8) = if (b ^^ kt) then 1 else 0 := by
    rw [h.swap]; cases b <;> cases kt <;> rfl
  have k := C.swapBoth_ok h (b ^^ kt)
  have e : A.round x1 v (if kt then 1 else 0) = A.doubleAdd x1 { A.swapBoth v (if (b ^^ kt) then 1 else 0) with
      swap := if kt then 1 else 0 } := by
    unfold round
    rw [hs]
  rw [e]
  generalize A.swapBoth v (if (b ^^ kt) then 1 else 0) = w at *
  obtain ⟨⟨k1, k2, k3, k4, -⟩, k6⟩ := k
  have d := C.doubleAdd_ok (x1 := x1) (v := { w with swap := if kt then 1 else 0 }) (b := kt) hx ⟨k1, k2, k3, k4, rfl⟩
  refine ⟨d.1, d.2.trans ?_⟩
  unfold Ladder.Vars.body
  dsimp only
  have e : (C.V v b).swap = b := rfl
  rw [e, ← k6]
  rfl

theorem bit_eq (b : UInt8) : ∀ j < 8, ((b >>> j.toUInt8) &&& 1) = if b.toNat.testBit j then 1 else 0 :=
  all_bytes (p := fun b => ∀ j < 8, ((b >>> j.toUInt8) &&& 1) = if b.toNat.testBit j then 1 else 0) (by decide +kernel) b

theorem rounds_ok {x1 : A.T} (hx : C.Ok x1) (k posn : Nat) (byte : UInt8)
    (hb : ∀ j < 8, k.testBit (posn + j) = byte.toNat.testBit j) : ∀ (n : Nat), n ≤ 8 → ∀ {v : A.Vars} {b : Bool}, C.VOk v b →
    ∃ b', C.VOk (A.rounds x1 byte n v) b' ∧
      Ladder.loop X448.a24 k (C.ev x1) posn (C.V (A.rounds x1 byte n v) b') =
        Ladder.loop X448.a24 k (C.ev x1) (posn + n) (C.V v b)
  | 0, _, v, b, h => ⟨b, h, rfl⟩
  | n + 1, hn, v, b, h => by
    have r := C.round_ok hx h (byte.toNat.testBit n)
    obtain ⟨b', h1, h2⟩ := rounds_ok hx k posn byte hb n (by omega) r.1
    refine ⟨b', ?_, ?_⟩
    · rw [rounds, bit_eq byte n (by omega)]; exact h1
    · rw [rounds, bit_eq byte n (by omega), h2, r.2, ← hb n (by omega), ← add_assoc, Ladder.loop]

theorem loop_ok {x1 : A.T} (hx : C.Ok x1) (k : Nat) (secret : Bytes)
    (hb : ∀ i < 56, ∀ j < 8, k.testBit (8 * i + j) = (byteVal secret i).toNat.testBit j) :
    ∀ (n : Nat), n ≤ 56 → ∀ {v : A.Vars} {b : Bool}, C.VOk v b → ∃ b', C.VOk (A.loop secret x1 n v) b' ∧
      C.V (A.loop secret x1 n v) b' = Ladder.loop X448.a24 k (C.ev x1) (8 * n) (C.V v b)
  | 0, _, v, b, h => ⟨b, h, rfl⟩
  | n + 1, hn, v, b, h => by
    obtain ⟨b', h1, h2⟩ := C.rounds_ok hx k (8 * n) (byteVal secret n) (hb n (by omega)) 8 (by omega) h
    obtain ⟨b'', h3, h4⟩ := loop_ok hx k secret hb n (by omega) h1
    exact ⟨b'', h3, h4.trans h2⟩

/-! ## Inversion -/

/-- `a` is a representation of the `n`-th power of `z`. -/
def Pw (z : F) (a : A.T) (n : Nat) : Prop := C.Ok a ∧ C.ev a = z ^ n

variable {C}

theorem Pw.mul {z : F} {a b : A.T} {n m : Nat} (h : C.Pw z a n) (h' : C.Pw z b m) : C.Pw z (A.mul a b) (n + m) := by
  have k := C.mul h.1 h'.1
  exact ⟨k.1, by rw [k.2, h.2, h'.2, pow_add]⟩

theorem Pw.sqr {z : F} {a : A.T} {n : Nat} (h : C.Pw z a n) : C.Pw z (A.sqr a) (n * 2) := by
  have k := C.sqr h.1
  exact ⟨k.1, by rw [k.2, h.2, pow_mul]⟩

theorem Pw.pairs {z : F} : ∀ (k : Nat) {a : A.T} {n : Nat}, C.Pw z a n → C.Pw z (A.sqrPairs k a) (n * 4 ^ k)
  | 0, a, n, h => by simpa [sqrPairs] using h
  | k + 1, a, n, h => by
    have := Pw.pairs k h.sqr.sqr
    rw [sqrPairs, pow_succ', ← mul_assoc, show n * 4 = n * 2 * 2 by ring]
    exact this

variable (C)

theorem invert_ok {z : A.T} (hz : C.Ok z) : C.Ok (A.invert z) ∧ C.ev (A.invert z) = C.ev z ^ (P - 2) := by
  have h : C.Pw (C.ev z) z 1 := ⟨hz, by rw [pow_one]⟩
  have a := h.sqr.mul h
  have a := a.sqr.mul h
  have a := a.sqr.mul h
  have c := a.sqr.mul h
  have c := c.sqr.mul h
  have a := c.sqr.mul h
  have a := a.sqr.mul h
  have e := (a.pairs 4).mul a
  have aa := (e.pairs 8).mul e
  have bb := (aa.pairs 16).mul aa
  have da := (bb.pairs 32).mul bb
  have cb := (da.pairs 32).mul bb
  have da := (cb.pairs 8).mul e
  have cb := (da.pairs 4).mul a
  have da := (cb.pairs 3).mul c
  have b := da.sqr.mul h
  have cb := b.sqr
  have bb := (cb.pairs 111).mul da
  have out := bb.sqr.sqr.mul h
  have hn : ∀ n, n = P - 2 → C.ev z ^ n = C.ev z ^ (P - 2) := fun n h => by rw [h]
  exact ⟨out.1, out.2.trans (hn _ (by rw [P_eq]; decide +kernel))⟩

/-! ## The whole function -/

theorem byteVal_eq (secret : Bytes) (h : secret.length = 56) (i : Nat) (hi : i < 56) : byteVal secret i =
    ((secret.set 0 (secret.getD 0 0 &&& 252)).set 55 (secret.getD 55 0 ||| 128)).getD i 0 := by
  unfold byteVal
  by_cases h1 : i = 55
  · subst h1
    simp [List.getD, h]
  · by_cases h2 : i = 0
    · subst h2
      simp [List.getD, h]
    · rw [if_neg h1, if_neg h2]
      simp [List.getD, Ne.symm h1, Ne.symm h2]

include C in
/-- The code computes X448 and reports whether the public key was reduced. -/
theorem eval_ok (secret basepoint : Bytes) (hs : secret.length = 56) (hb : basepoint.length = 56) :
    A.eval secret basepoint = .ok (X448.x448 secret basepoint, decide (leNat basepoint < P)) := by
  obtain ⟨hx, hu, hf⟩ := C.deserialize hb
  unfold Arith.eval
  generalize A.deserialize basepoint = d at *
  obtain ⟨x1, success⟩ := d
  dsimp only at hx hu hf ⊢
  have z := C.setUi 0 (by decide)
  have o := C.setUi 1 (by decide)
  have h0 : C.VOk ⟨A.setUi 1, A.setUi 0, x1, A.setUi 1, 0⟩ false := ⟨o.1, z.1, hx, o.1, rfl⟩
  obtain ⟨b, h1, h2⟩ := C.loop_ok hx (X448.decodeScalar448 secret) secret (by
    intro i hi j hj
    rw [byteVal_eq secret hs i hi]
    exact leNat_testBit _ i j hj) 56 (by omega) h0
  generalize A.loop secret x1 56 ⟨A.setUi 1, A.setUi 0, x1, A.setUi 1, 0⟩ = v at *
  have s := C.swapBoth_ok h1 b
  rw [← h1.swap] at s
  have i := C.invert_ok s.1.z2
  have m := C.mul s.1.x2 i.1
  rw [C.serialize m.1, hf]
  simp only [Out.bind_ok, Out.pure_eq]
  have key : C.ev (A.mul (A.swapBoth v v.swap).x2 (A.invert (A.swapBoth v v.swap).z2)) =
      Ladder.ladder X448.a24 P 448 (X448.decodeScalar448 secret) (X448.decodeUCoordinate basepoint) := by
    rw [m.2, i.2]
    unfold Ladder.ladder X448.decodeUCoordinate
    dsimp only
    rw [← hu]
    have e0 : C.V ⟨A.setUi 1, A.setUi 0, x1, A.setUi 1, 0⟩ false = ⟨1, 0, C.ev x1, 1, false⟩ := by
      unfold V
      rw [z.2, o.2]
      simp
    rw [e0] at h2
    rw [← h2]
    have e1 : (C.V v b).swap = b := rfl
    rw [e1, ← s.2]
    rfl
  rw [key]
  rfl

end Arith.Correct

end Noise.Curve448
