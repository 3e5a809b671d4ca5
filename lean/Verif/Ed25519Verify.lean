import Verif.Ed25519Decode
import Verif.SignProps
/-!
# Ed25519: which signatures are accepted
-/

namespace Noise
namespace Ed25519

open Rfc7539 (leNat leBytes)
open Rfc7748 (P F)
open Curve25519 (L Fe M)
open Curve25519.Fe (ev)

/-! ## Comparison -/

theorem toUInt64_toNat (v : UInt8) : v.toUInt64.toNat = v.toNat := UInt8.toNat_toUInt64 v

theorem xor_eq_zero (a b : UInt8) : (a ^^^ b).toNat = 0 ↔ a = b := by
  rw [UInt8.toNat_xor, ← UInt8.toNat_inj]
  constructor
  · intro h
    have := congrArg (· ^^^ b.toNat) h
    simpa [Nat.xor_assoc] using this
  · intro h
    rw [h, Nat.xor_self]

theorem verify_fold : ∀ (x y : Bytes) (d : UInt64), x.length = y.length → d.toNat < 256 →
    ((List.zipWith (fun a b => a ^^^ b) x y).foldl (fun d v => d ||| v.toUInt64) d).toNat < 256 ∧
    (((List.zipWith (fun a b => a ^^^ b) x y).foldl (fun d v => d ||| v.toUInt64) d).toNat = 0 ↔ d.toNat = 0 ∧ x = y)
  | [], [], d, _, hd => ⟨hd, by simp⟩
  | a :: x, b :: y, d, hl, hd => by
    rw [List.zipWith_cons_cons, List.foldl_cons]
    have e : (d ||| (a ^^^ b).toUInt64).toNat = d.toNat ||| (a ^^^ b).toNat := by
      rw [UInt64.toNat_or, toUInt64_toNat]
    have hlt : (d ||| (a ^^^ b).toUInt64).toNat < 256 := by
      rw [e]
      exact Nat.or_lt_two_pow (n := 8) hd (a ^^^ b).toNat_lt
    obtain ⟨h1, h2⟩ := verify_fold x y (d ||| (a ^^^ b).toUInt64) (by simpa using hl) hlt
    refine ⟨h1, h2.trans ?_⟩
    rw [e, Nat.or_eq_zero_iff, xor_eq_zero, List.cons.injEq, and_assoc]

theorem verify_ok {x y : Bytes} (h : x.length = y.length) : verify x y = true ↔ x = y := by
  obtain ⟨h1, h2⟩ := verify_fold x y 0 h (by decide)
  unfold verify
  dsimp only
  generalize List.foldl (fun (d : UInt64) (v : UInt8) => d ||| v.toUInt64) 0 (List.zipWith (fun a b => a ^^^ b) x y) = d at *
  rw [bne_iff_ne, Ne, ← UInt64.toNat_inj, UInt64.toNat_and, Curve25519.shrs _ 8 (by omega) 8 rfl, Nat.and_comm]
  rw [show (1 : UInt64).toNat = 1 from rfl, Nat.and_one_is_mod, UInt64.toNat_sub, show (1 : UInt64).toNat = 1 from rfl,
    show (0 : UInt64).toNat = 0 from rfl]
  by_cases c : x = y
  · have : d.toNat = 0 := h2.2 ⟨rfl, c⟩
    rw [this]
    simp [c]
  · have : d.toNat ≠ 0 := fun e => c (h2.1 e).2
    constructor
    · intro hh
      exfalso
      apply hh
      omega
    · intro e; exact absurd e c

/-! ## Decoding by the code -/

theorem leBytes_zero (n : Nat) : leBytes n 0 = List.replicate n 0 := by
  induction n with
  | zero => rfl
  | succ n ih => rw [leBytes, Nat.zero_mod, Nat.zero_div, ih]; rfl

theorem contract_zero {a : Fe} (ha : a.Le (2 ^ 55)) : verify (contract a) (List.replicate 32 0) = true ↔ a.ev = 0 := by
  rw [contract_ok ha, ← ev_val, verify_ok (by rw [leBytes_length, List.length_replicate]), ← leBytes_zero]
  constructor
  · intro h
    have := congrArg leNat h
    rw [leNat_leBytes, leNat_leBytes, Nat.zero_mod] at this
    have hlt := ZMod.val_lt a.ev
    have hP : P < 256 ^ 32 := by decide +kernel
    rw [Nat.mod_eq_of_lt (by omega)] at this
    exact (ZMod.val_eq_zero _).1 this
  · intro h
    rw [h, ZMod.val_zero]

theorem contract_parity {a : Fe} (ha : a.Le (2 ^ 55)) : ((contract a).getD 0 0 &&& 1).toNat = a.ev.val % 2 := by
  rw [contract_ok ha, ← ev_val, UInt8.toNat_and, leBytes_getD0, show (1 : UInt8).toNat = 1 from rfl, Nat.and_one_is_mod]
  omega

theorem leNat_top {b : Bytes} (hb : b.length = 32) : (b.getD 31 0).toNat = leNat b / 256 ^ 31 := by
  rw [← Curve25519.leNat_drop]
  have : b.drop 31 = [b.getD 31 0] := by
    rw [List.drop_eq_getElem_cons (by omega), List.drop_of_length_le (by omega)]
    simp [List.getD_eq_getElem?_getD, hb]
  rw [this]
  simp [leNat]

theorem sign_bit {b : Bytes} (hb : b.length = 32) : (b.getD 31 0 >>> 7).toNat = leNat b / 2 ^ 255 % 2 := by
  have h := leNat_top hb
  have hl := Curve25519.leNat_lt b
  rw [hb] at hl
  generalize b.getD 31 0 = v at *
  rw [UInt8.toNat_shiftRight]
  rw [show ((7 : UInt8).toNat % 8) = 7 from rfl, Nat.shiftRight_eq_div_pow, h]
  omega

theorem rootCode_ok {y : Fe} (hy : y.Le (2 ^ 51)) :
    (∃ x, unpackRoot y = some x ∧ x.Le R ∧ Rfc8032.squareRoot (y.ev ^ 2 - 1) (D * y.ev ^ 2 + 1) = some x.ev) ∨
    (unpackRoot y = none ∧ Rfc8032.squareRoot (y.ev ^ 2 - 1) (D * y.ev ^ 2 + 1) = none) := by
  have hR := R_eq
  have hM := M_eq
  have one := Curve25519.one_ok
  have sq := fsquare_ok (hy.mono (by omega))
  have num := fsubReduce_ok (sq.1.mono (by omega)) (one.1.mono (by omega))
  have dy := fmul_ok (sq.1.mono (by omega)) (ecd_ok.1.mono (by omega))
  have den := fadd_ok dy.1 one.1 (by omega)
  have dsq := fsquare_ok (den.1.mono (by omega))
  have d3 := fmul_ok (dsq.1.mono (by omega)) (den.1.mono (by omega))
  have d6 := fsquare_ok (d3.1.mono (by omega))
  have d7 := fmul_ok (d6.1.mono (by omega)) (den.1.mono (by omega))
  have w := fmul_ok (d7.1.mono (by omega)) (num.1.mono (by omega))
  have pw := powTwo252m3_ok (w.1.mono (by omega))
  have x1 := fmul_ok (pw.1.mono (by omega)) (d3.1.mono (by omega))
  have x := fmul_ok (x1.1.mono (by omega)) (num.1.mono (by omega))
  have xs := fsquare_ok (x.1.mono (by omega))
  have t := fmul_ok (xs.1.mono (by omega)) (den.1.mono (by omega))
  have c1 := fsubReduce_ok (t.1.mono (by omega)) (num.1.mono (by omega))
  have c2 := faddReduce_ok (t.1.mono (by omega)) (num.1.mono (by omega))
  have xi := fmul_ok (x.1.mono (by omega)) (sqrtneg1_ok.1.mono (by omega))
  have z1 := contract_zero (c1.1.mono (by omega))
  have z2 := contract_zero (c2.1.mono (by omega))
  have en : (fsubReduce (fsquare y) ⟨1, 0, 0, 0, 0⟩).ev = y.ev ^ 2 - 1 := by rw [num.2, sq.2, one.2]
  have ed : (fadd (fmul (fsquare y) ecd) ⟨1, 0, 0, 0, 0⟩).ev = D * y.ev ^ 2 + 1 := by
    rw [den.2, dy.2, sq.2, ecd_ok.2, one.2]; ring
  unfold unpackRoot
  dsimp only
  generalize fsubReduce (fsquare y) ⟨1, 0, 0, 0, 0⟩ = nu at *
  generalize fadd (fmul (fsquare y) ecd) ⟨1, 0, 0, 0, 0⟩ = de at *
  rw [← en, ← ed]
  have ex : (fmul (fmul (powTwo252m3 (fmul (fmul (fsquare (fmul (fsquare de) de)) de) nu)) (fmul (fsquare de) de)) nu).ev =
      nu.ev * de.ev ^ 3 * (nu.ev * de.ev ^ 7) ^ ((P - 5) / 8) := by
    rw [x.2, x1.2, pw.2, w.2, d7.2, d6.2, d3.2, dsq.2, show (P - 5) / 8 = 2 ^ 252 - 3 by decide +kernel,
      show ((de.ev ^ 2 * de.ev) ^ 2 * de.ev * nu.ev) = nu.ev * de.ev ^ 7 by ring]
    ring
  generalize fmul (fmul (powTwo252m3 (fmul (fmul (fsquare (fmul (fsquare de) de)) de) nu)) (fmul (fsquare de) de)) nu = xx at *
  unfold Rfc8032.squareRoot
  dsimp only
  rw [← ex]
  have f1 : verify (contract (fsubReduce (fmul (fsquare xx) de) nu)) (List.replicate 32 0) = true ↔
      de.ev * xx.ev ^ 2 = nu.ev := by
    rw [z1, c1.2, t.2, xs.2, sub_eq_zero, mul_comm]
  have f2 : verify (contract (faddReduce (fmul (fsquare xx) de) nu)) (List.replicate 32 0) = true ↔
      de.ev * xx.ev ^ 2 = -nu.ev := by
    rw [z2, c2.2, t.2, xs.2, add_eq_zero_iff_eq_neg, mul_comm]
  by_cases g1 : de.ev * xx.ev ^ 2 = nu.ev
  · rw [if_pos g1, f1.2 g1]
    exact Or.inl ⟨xx, rfl, x.1, rfl⟩
  · rw [if_neg g1, if_pos (by rw [Bool.not_eq_true']; exact Bool.eq_false_iff.2 fun e => g1 (f1.1 e))]
    by_cases g2 : de.ev * xx.ev ^ 2 = -nu.ev
    · rw [if_pos g2, f2.2 g2]
      exact Or.inl ⟨_, rfl, xi.1, by rw [xi.2, sqrtneg1_ok.2, two_pow_I]⟩
    · rw [if_neg g2, if_pos (by rw [Bool.not_eq_true']; exact Bool.eq_false_iff.2 fun e => g2 (f2.1 e))]
      exact Or.inr ⟨rfl, rfl⟩

theorem unpackNegative_ok {p : Bytes} (hp : p.length = 32) :
    (∃ A g Q, decodeLoose p = some A ∧ Maps Q A.1 A.2 ∧ unpackNegative p = some g ∧ g.Is (-Q)) ∨
    (decodeLoose p = none ∧ unpackNegative p = none) := by
  obtain ⟨hy, hv⟩ := expand_ok p
  have hR := R_eq
  have hM := M_eq
  have ey : (expand p).ev = ((leNat p % 2 ^ 255 : Nat) : F) := by
    rw [← hv]; rfl
  have hb := sign_bit hp
  rcases rootCode_ok (hy.mono (by omega)) with ⟨x, h1, h2, h3⟩ | ⟨h1, h2⟩
  · left
    rw [ey] at h3
    have hd := (recoverLoose_iff (leNat p % 2 ^ 255) (leNat p / 2 ^ 255 % 2) _).2 ⟨_, h3, rfl⟩
    have hon := decodeLoose_on hd
    obtain ⟨Q, hQ⟩ := params.exists_maps hon
    refine ⟨_, _, Q, hd, hQ, by unfold unpackNegative; dsimp only; rw [h1]; rfl, ?_⟩
    have hpar := contract_parity (h2.mono (by omega))
    have hc : (contract x).getD 0 0 &&& (1 : UInt8) = p.getD 31 0 >>> (7 : UInt8) ↔ x.ev.val % 2 = leNat p / 2 ^ 255 % 2 := by
      rw [← UInt8.toNat_inj, hpar, hb]
    have hneg := Edwards.Maps.neg hQ
    have key : ∀ x' : Fe, x'.Le R → x'.ev = -(if x.ev.val % 2 = leNat p / 2 ^ 255 % 2 then x.ev else -x.ev) →
        (⟨x', expand p, ⟨1, 0, 0, 0, 0⟩, fmul x' (expand p)⟩ : Ge).Is (-Q) := by
      intro x' l1 l2
      have ft := fmul_ok (l1.mono (by omega)) (hy.mono (by omega))
      refine ⟨l1, hy.mono (by omega), Curve25519.one_ok.1.mono (by omega), ft.1, _, _, hneg, ?_, ?_, ?_, ?_⟩
      · rw [Curve25519.one_ok.2]; exact one_ne_zero
      · rw [Curve25519.one_ok.2, mul_one]; exact l2
      · rw [Curve25519.one_ok.2, mul_one]; exact ey
      · rw [Curve25519.one_ok.2, mul_one, ft.2, l2, ey]
    dsimp only
    by_cases c : x.ev.val % 2 = leNat p / 2 ^ 255 % 2
    · rw [if_pos (hc.2 c)]
      have fn := fneg_ok (h2.mono (by omega))
      exact key _ fn.1 (by rw [fn.2, if_pos c])
    · rw [if_neg (fun e => c (hc.1 e))]
      exact key _ h2 (by rw [if_neg c, neg_neg])
  · right
    rw [ey] at h2
    refine ⟨?_, by unfold unpackNegative; dsimp only; rw [h1]; rfl⟩
    unfold decodeLoose
    cases hr : recoverLoose (leNat p % 2 ^ 255) (leNat p / 2 ^ 255 % 2) with
    | none => rfl
    | some q =>
      obtain ⟨x, h, -⟩ := (recoverLoose_iff _ _ _).1 hr
      rw [h2] at h
      cases h

/-! ## Which signatures are accepted -/

/-- The negative of a point. -/
def neg (p : F × F) : F × F := (-p.1, p.2)

theorem neg_nsmul_eq (n : Nat) (Q : Pt) : -(n • Q) = n • -Q := (neg_nsmul Q n).symm

/-- What `ed25519_sign_open` accepts for a public key `A`, a message and a signature of 64 bytes. -/
def Accepts (H : Bytes → Bytes) (A m sig : Bytes) : Prop :=
  leNat (sig.drop 32) < 2 ^ 253 ∧ ∃ A', decodeLoose A = some A' ∧
    sig.take 32 = Rfc8032.encode (Rfc8032.add (Rfc8032.smul (leNat (sig.drop 32)) Rfc8032.B)
      (neg (Rfc8032.smul (leNat (H (sig.take 32 ++ A ++ m)) % Rfc8032.L) A')))

theorem maps_eq {Q : Pt} {p q : F × F} (h : Maps Q p.1 p.2) (h' : Maps Q q.1 q.2) : p = q := by
  obtain ⟨h1, h2⟩ := Edwards.Maps.unique params h h'
  exact Prod.ext h1 h2

theorem maps_pt {Q Q' : Pt} {p : F × F} (h : Maps Q p.1 p.2) (h' : Maps Q' p.1 p.2) : Q = Q' := maps_inj h h'

theorem maps_zero' : Maps 0 Rfc8032.zero.1 Rfc8032.zero.2 := maps_zero

theorem maps_neg {Q : Pt} {p : F × F} (h : Maps Q p.1 p.2) : Maps (-Q) (neg p).1 (neg p).2 := Edwards.Maps.neg h

theorem top_bits {rs : Bytes} (hl : rs.length = 64) : rs.getD 63 0 &&& 224 = 0 ↔ leNat (rs.drop 32) < 2 ^ 253 := by
  have h1 : (rs.drop 32).length = 32 := by simp [hl]
  have h2 := leNat_top h1
  rw [show (rs.drop 32).getD 31 0 = rs.getD 63 0 by simp [List.getD_eq_getElem?_getD]] at h2
  generalize rs.getD 63 0 = v at *
  have key : ∀ n < 256, (UInt8.ofNat n &&& 224 = 0 ↔ n < 32) := by decide +kernel
  have := key v.toNat v.toNat_lt
  rw [UInt8.ofNat_toNat] at this
  rw [this, h2]
  omega

theorem signOpen_ok {stack : Sha512.Ctx} (hb : stack.m.length = 128) (m : Bytes) {pk rs : Bytes} (hp : pk.length = 32)
    (hl : rs.length = 64) : ∃ b, signOpen stack m pk rs = .ok b ∧ (b = true ↔ Accepts Sha512.hash64 pk m rs) := by
  unfold signOpen
  have ht := top_bits hl
  by_cases c : rs.getD 63 0 &&& 224 = 0
  · rw [if_neg (by simpa using c)]
    rcases unpackNegative_ok hp with ⟨A, g, Q, h1, h2, h3, h4⟩ | ⟨h1, h2⟩
    · rw [h3]
      dsimp only
      unfold hram
      rw [hash_ok hb, Out.bind_ok]
      simp only [List.flatten_cons, List.flatten_nil, List.append_nil]
      refine ⟨_, rfl, ?_⟩
      rw [← List.append_assoc]
      unfold Accepts
      have hlen := Sha512.hash64_length (rs.take 32 ++ pk ++ m)
      generalize Sha512.hash64 (rs.take 32 ++ pk ++ m) = h at *
      obtain ⟨k1, k2⟩ := expand256_ok h (by omega)
      obtain ⟨s1, s2⟩ := expand256_ok (rs.drop 32) (by simp [hl])
      have hL : L < 2 ^ 253 := by decide
      have hL0 : 0 < L := by decide
      have hk : leNat h % L < L := Nat.mod_lt _ hL0
      have hs : leNat (rs.drop 32) % L < L := Nat.mod_lt _ hL0
      have hd := doubleScalarmult_ok h4 k1 s1 (by rw [k2]; omega) (by rw [s2]; omega)
      rw [k2, s2, mod_smul_B, add_comm, ← neg_nsmul_eq] at hd
      have hm := maps_add (maps_smul maps_B (leNat (rs.drop 32))) (maps_neg (maps_smul h2 (leNat h % L)))
      have hpk := pack_ok hd hm
      rw [hpk, verify_ok (by rw [Prod.mk.eta, encode_length]; simp [hl]), Prod.mk.eta, rfc_L]
      constructor
      · intro e
        exact ⟨ht.1 c, A, h1, e⟩
      · rintro ⟨-, A', e1, e2⟩
        rw [h1] at e1
        obtain rfl := Option.some.inj e1
        exact e2
    · rw [h2]
      refine ⟨_, rfl, ?_⟩
      constructor
      · intro h; cases h
      · rintro ⟨-, A', e1, -⟩
        rw [h1] at e1
        cases e1
  · rw [if_pos c]
    refine ⟨_, rfl, ?_⟩
    constructor
    · intro h; cases h
    · rintro ⟨h, -⟩
      exact absurd (ht.2 h) c

theorem accepts_hash {A m sig : Bytes} (hA : A.length = 32) (hm : m.length < 2 ^ 60) :
    Accepts Sha512.hash64 A m sig ↔ Accepts Rfc8032.sha512 A m sig := by
  unfold Accepts Rfc8032.sha512
  have : (sig.take 32).length ≤ 32 := by simp
  rw [Sha512.hash64_eq _ (by simp only [List.length_append]; omega)]

/-- **C67**: `ed25519_sign_open` is defined for all inputs, and accepts exactly the signatures described by `Accepts`. -/
theorem C67_accepts {stack : Sha512.Ctx} (hb : stack.m.length = 128) (m : Bytes) {pk sig : Bytes} (hp : pk.length = 32)
    (hl : sig.length = 64) (hm : m.length < 2 ^ 60) :
    ∃ b, signOpen stack m pk sig = .ok b ∧ (b = true ↔ Accepts Rfc8032.sha512 pk m sig) := by
  obtain ⟨b, h1, h2⟩ := signOpen_ok hb m hp hl
  exact ⟨b, h1, h2.trans (accepts_hash hp hm)⟩

example := C67_accepts (stack := rfcStack) rfl [0x72] (pk := rfcPublic) (sig := rfcSignature) rfl rfl (by decide)

/-! The order of the base point is kept a variable where multiples are taken: the elaborator would otherwise evaluate
them. -/

theorem order_of_smul {Q : Pt} {A : F × F} {l : Nat} (h : Maps Q A.1 A.2) (hz : Rfc8032.smul l A = Rfc8032.zero) :
    l • Q = 0 := by
  have := maps_smul h l
  rw [hz] at this
  exact maps_pt this maps_zero'

theorem smul_of_order {Q : Pt} {A : F × F} {l : Nat} (h : Maps Q A.1 A.2) (hl : l • Q = 0) :
    Rfc8032.smul l A = Rfc8032.zero := by
  have := maps_smul h l
  rw [hl] at this
  exact maps_eq this maps_zero'

theorem smul_add_order {Q : Pt} {A : F × F} {l : Nat} (h : Maps Q A.1 A.2) (hl : l • Q = 0) (n : Nat) :
    Rfc8032.smul (n + l) A = Rfc8032.smul n A := by
  have := maps_smul h (n + l)
  rw [add_nsmul, hl, add_zero] at this
  exact maps_eq this (maps_smul h n)

theorem accepts_iff_verifies {H : Bytes → Bytes} {pk m sig : Bytes} (hl : sig.length = 64) {A : F × F}
    (hA : Rfc8032.decode pk = some A) (hord : Rfc8032.smul Rfc8032.L A = Rfc8032.zero)
    (hS : leNat (sig.drop 32) < Rfc8032.L) : Accepts H pk m sig ↔ Rfc8032.Verifies H pk m sig := by
  have hloose := decode_loose hA
  obtain ⟨Q, hQ⟩ := params.exists_maps (decodeLoose_on hloose)
  have hQ : Maps Q A.1 A.2 := hQ
  rw [rfc_L] at hord
  have hLQ := order_of_smul hQ hord
  have hkQ := nsmul_mod hLQ (leNat (H (sig.take 32 ++ pk ++ m)))
  have hL : L < 2 ^ 253 := by decide
  unfold Accepts Rfc8032.Verifies
  rw [rfc_L] at hS ⊢
  generalize leNat (H (sig.take 32 ++ pk ++ m)) = k at *
  generalize leNat (sig.drop 32) = S at *
  have hSB := maps_smul maps_B S
  have hkA := maps_smul hQ k
  have hR := maps_add hSB (maps_neg (maps_smul hQ (k % L)))
  rw [hkQ] at hR
  constructor
  · rintro ⟨-, A', e1, e2⟩
    rw [hloose] at e1
    obtain rfl := Option.some.inj e1
    refine ⟨_, A, by rw [e2]; exact decode_encode (Edwards.Maps.on hR), hA, hS, ?_⟩
    have := maps_add hR hkA
    rw [neg_add_cancel_right] at this
    exact maps_eq hSB this
  · rintro ⟨R, A', e1, e2, -, e4⟩
    rw [hA] at e2
    obtain rfl := Option.some.inj e2
    refine ⟨by omega, A, hloose, ?_⟩
    obtain ⟨QR, hQR⟩ := params.exists_maps (decodeLoose_on (decode_loose e1))
    have hQR : Maps QR R.1 R.2 := hQR
    have h5 := maps_add hQR hkA
    rw [← e4] at h5
    have h6 := maps_pt hSB h5
    rw [h6, add_neg_cancel_right] at hR
    rw [← encode_of_decode (by simp [hl]) e1]
    exact congrArg Rfc8032.encode (maps_eq hQR hR)

theorem open_iff {stack : Sha512.Ctx} (hb : stack.m.length = 128) {m pk sig : Bytes} (hp : pk.length = 32)
    (hl : sig.length = 64) (hm : m.length < 2 ^ 60) {A : F × F} (hA : Rfc8032.decode pk = some A)
    (hord : Rfc8032.smul Rfc8032.L A = Rfc8032.zero) (hS : leNat (sig.drop 32) < Rfc8032.L) :
    signOpen stack m pk sig = .ok true ↔ Rfc8032.Verifies Rfc8032.sha512 pk m sig := by
  obtain ⟨b, h1, h2⟩ := C67_accepts hb m hp hl hm
  rw [h1, ← accepts_iff_verifies hl hA hord hS, ← h2]
  exact ⟨fun h => Out.ok.inj h, fun h => by rw [h]⟩

/-- **C67**: every signature that RFC 8032 accepts for the key of a point of the group of the base point is accepted. -/
theorem C67_rfc {stack : Sha512.Ctx} (hb : stack.m.length = 128) {m pk sig : Bytes} (hp : pk.length = 32)
    (hl : sig.length = 64) (hm : m.length < 2 ^ 60) {A : F × F} (hA : Rfc8032.decode pk = some A)
    (hord : Rfc8032.smul Rfc8032.L A = Rfc8032.zero) (h : Rfc8032.Verifies Rfc8032.sha512 pk m sig) :
    signOpen stack m pk sig = .ok true := by
  have hS : leNat (sig.drop 32) < Rfc8032.L := by
    obtain ⟨_, _, -, -, h, -⟩ := h
    exact h
  exact (open_iff hb hp hl hm hA hord hS).2 h

/-- **C68** (partial): for the key of a point of the group of the base point, an accepted signature with `S` below the
group order is one that RFC 8032 accepts. Missing: larger `S` (`C68_fails_malleable`), keys that are not encodings
(`C68_fails_noncanonical`), and points outside of the group, for which the code uses the hash modulo the group order. -/
theorem C68_rfc_partial {stack : Sha512.Ctx} (hb : stack.m.length = 128) {m pk sig : Bytes} (hp : pk.length = 32)
    (hl : sig.length = 64) (hm : m.length < 2 ^ 60) {A : F × F} (hA : Rfc8032.decode pk = some A)
    (hord : Rfc8032.smul Rfc8032.L A = Rfc8032.zero) (hS : leNat (sig.drop 32) < Rfc8032.L)
    (h : signOpen stack m pk sig = .ok true) : Rfc8032.Verifies Rfc8032.sha512 pk m sig :=
  (open_iff hb hp hl hm hA hord hS).1 h

/-! ## The signatures that the code makes -/

theorem publicKey_decode (H : Bytes → Bytes) (k : Bytes) :
    Rfc8032.decode (Rfc8032.publicKey H k) = some (Rfc8032.smul (Rfc8032.scalar H k) Rfc8032.B) :=
  decode_encode (Edwards.Maps.on (maps_smul maps_B _))

theorem nsmul_comm_zero {G : Type*} [AddCommMonoid G] {b : G} {l : Nat} (h : l • b = 0) (n : Nat) : l • n • b = 0 := by
  rw [smul_comm, h, nsmul_zero]

theorem order_multiple (n : Nat) : L • n • B = 0 := nsmul_comm_zero order_B n

theorem publicKey_order (n : Nat) : Rfc8032.smul Rfc8032.L (Rfc8032.smul n Rfc8032.B) = Rfc8032.zero := by
  rw [rfc_L]
  exact smul_of_order (maps_smul maps_B n) (order_multiple n)

theorem sign_length (H : Bytes → Bytes) (k A m : Bytes) : (Rfc8032.sign H k A m).length = 64 := by
  unfold Rfc8032.sign
  dsimp only
  rw [List.length_append, encode_length, leBytes_length]

/-- Any two parts, whatever the hash gives. -/
theorem own_accepts (H : Bytes → Bytes) (k m : Bytes) : Accepts H (Rfc8032.publicKey H k) m
    (Rfc8032.sign H k (Rfc8032.publicKey H k) m) := by
  have hd := decode_loose (publicKey_decode H k)
  unfold Accepts Rfc8032.sign
  dsimp only
  generalize Rfc8032.publicKey H k = A at *
  generalize leNat (H ((H k).drop 32 ++ m)) = r
  generalize Rfc8032.scalar H k = s at *
  rw [List.take_left' (encode_length _), List.drop_left' (encode_length _)]
  generalize leNat (H (Rfc8032.encode (Rfc8032.smul r Rfc8032.B) ++ A ++ m)) = h
  have hL : L < 2 ^ 253 := by decide
  have hlt : (r + h * s) % L < L := Nat.mod_lt _ (by decide)
  rw [rfc_L, leNat_leBytes, Nat.mod_eq_of_lt (a := (r + h * s) % L) (by omega)]
  refine ⟨by omega, _, hd, ?_⟩
  have h1 := maps_smul maps_B r
  have h2 := maps_add (maps_smul maps_B ((r + h * s) % L)) (maps_neg (maps_smul (maps_smul maps_B s) (h % L)))
  have e : ((r + h * s) % L) • B + -((h % L) • s • B) = r • B := by
    have hsB := order_multiple s
    rw [mod_smul_B, nsmul_mod hsB, add_nsmul, mul_comm h s, mul_nsmul, add_neg_cancel_right]
  rw [e] at h2
  exact congrArg Rfc8032.encode (maps_eq h1 h2)

/-- **C67**: signatures made by the code are accepted by the code, for every private key and every message. -/
theorem C67_own {stack stack' stack'' : Sha512.Ctx} (hb : stack.m.length = 128) (hb' : stack'.m.length = 128)
    (hb'' : stack''.m.length = 128) (m sk : Bytes) :
    (do let pk ← publickey stack sk
        let sig ← sign stack' m sk pk
        signOpen stack'' m pk sig) = .ok true := by
  rw [publickey_ok hb, Out.bind_ok, sign_ok hb', Out.bind_ok]
  have hpl : (Rfc8032.publicKey Sha512.hash64 sk).length = 32 := encode_length _
  obtain ⟨b, h1, h2⟩ := signOpen_ok hb'' m hpl
    (sign_length Sha512.hash64 sk (Rfc8032.publicKey Sha512.hash64 sk) m)
  rw [h1, h2.2 (own_accepts _ _ _)]

example := C67_own (stack := rfcStack) (stack' := rfcStack) (stack'' := rfcStack) rfl rfl rfl [0x72] rfcSecret

/-! ## Signatures and keys that RFC 8032 does not accept -/

theorem malleable {H : Bytes → Bytes} {pk m sig : Bytes} (hl : sig.length = 64)
    (hS : leNat (sig.drop 32) + Rfc8032.L < 2 ^ 253) (h : Accepts H pk m sig) :
    Accepts H pk m (sig.take 32 ++ leBytes 32 (leNat (sig.drop 32) + Rfc8032.L)) := by
  obtain ⟨-, A, h2, h3⟩ := h
  have ht : (sig.take 32).length = 32 := by simp [hl]
  unfold Accepts
  rw [List.take_left' ht, List.drop_left' ht, leNat_leBytes, Nat.mod_eq_of_lt (by omega)]
  refine ⟨hS, A, h2, ?_⟩
  rw [rfc_L] at h3 ⊢
  rw [smul_add_order maps_B order_B]
  exact h3

/-- **C68** fails: a second signature for the same message can be made from a signature without the private key; RFC 8032 does
not accept it. -/
theorem C68_fails_malleable {stack : Sha512.Ctx} (hb : stack.m.length = 128) {m pk sig : Bytes} (hp : pk.length = 32)
    (hl : sig.length = 64) (hm : m.length < 2 ^ 60) (hS : leNat (sig.drop 32) + Rfc8032.L < 2 ^ 253)
    (h : signOpen stack m pk sig = .ok true) :
    signOpen stack m pk (sig.take 32 ++ leBytes 32 (leNat (sig.drop 32) + Rfc8032.L)) = .ok true ∧
    sig.take 32 ++ leBytes 32 (leNat (sig.drop 32) + Rfc8032.L) ≠ sig ∧
    ¬Rfc8032.Verifies Rfc8032.sha512 pk m (sig.take 32 ++ leBytes 32 (leNat (sig.drop 32) + Rfc8032.L)) := by
  have ht : (sig.take 32).length = 32 := by simp [hl]
  have hn : leNat ((sig.take 32 ++ leBytes 32 (leNat (sig.drop 32) + Rfc8032.L)).drop 32) =
      leNat (sig.drop 32) + Rfc8032.L := by
    rw [List.drop_left' ht, leNat_leBytes]
    exact Nat.mod_eq_of_lt (by omega)
  refine ⟨?_, ?_, ?_⟩
  · obtain ⟨b, h1, h2⟩ := C67_accepts hb m hp hl hm
    obtain ⟨b', h1', h2'⟩ := C67_accepts hb m hp
      (sig := sig.take 32 ++ leBytes 32 (leNat (sig.drop 32) + Rfc8032.L))
      (by rw [List.length_append, ht, leBytes_length]) hm
    rw [h1] at h
    rw [h1', h2'.2 (malleable hl hS (h2.1 (Out.ok.inj h)))]
  · intro e
    rw [e] at hn
    have : 0 < Rfc8032.L := by decide
    omega
  · rintro ⟨R, A, -, -, h3, -⟩
    rw [hn] at h3
    omega

/-- Public keys that the code takes for the neutral element: any message has a signature. -/
theorem accepts_neutral {H : Bytes → Bytes} {pk m : Bytes} (h : decodeLoose pk = some Rfc8032.zero) :
    Accepts H pk m (Rfc8032.encode Rfc8032.zero ++ leBytes 32 0) := by
  unfold Accepts
  rw [List.take_left' (encode_length _), List.drop_left' (encode_length _), leNat_leBytes, Nat.zero_mod]
  refine ⟨by decide, _, h, ?_⟩
  generalize leNat (H _) % _ = k
  have hz := maps_zero'
  have h1 := maps_add (maps_smul maps_B 0) (maps_neg (maps_smul hz k))
  rw [zero_nsmul, nsmul_zero, neg_zero, add_zero] at h1
  exact congrArg Rfc8032.encode (maps_eq hz h1)

theorem recoverLoose_one {yn x0 : Nat} (h : (yn : F) = 1) : recoverLoose yn x0 = some Rfc8032.zero := by
  have hv := den_ne (1 : F)
  obtain ⟨x, hx⟩ := squareRoot_complete (u := (1 : F) ^ 2 - 1) (v := D * (1 : F) ^ 2 + 1) (x := 0) (by ring)
  have hs := squareRoot_sound hx
  have hx0 : x = 0 := by
    have : (D * (1 : F) ^ 2 + 1) * x ^ 2 = 0 := by rw [hs]; ring
    rcases mul_eq_zero.1 this with h | h
    · exact absurd h hv
    · exact (pow_eq_zero_iff (by norm_num)).1 h
  refine (recoverLoose_iff _ _ _).2 ⟨x, by rw [h]; exact hx, ?_⟩
  rw [hx0, h, neg_zero, ite_self]
  rfl

/-- **C68** fails: public keys that RFC 8032 does not decode are used: with a `y` of at least the prime (first key), and with
the sign bit 1 for `x = 0` (second key). -/
theorem C68_fails_noncanonical {stack : Sha512.Ctx} (hb : stack.m.length = 128) (m : Bytes) (hm : m.length < 2 ^ 60) :
    ∀ pk ∈ [leBytes 32 (P + 1), leBytes 32 (2 ^ 255 + 1)], Rfc8032.decode pk = none ∧
      signOpen stack m pk (Rfc8032.encode Rfc8032.zero ++ leBytes 32 0) = .ok true := by
  have main : ∀ pk : Bytes, pk.length = 32 → decodeLoose pk = some Rfc8032.zero →
      signOpen stack m pk (Rfc8032.encode Rfc8032.zero ++ leBytes 32 0) = .ok true := by
    intro pk hp hd
    obtain ⟨b, h1, h2⟩ := C67_accepts hb m hp (sig := Rfc8032.encode Rfc8032.zero ++ leBytes 32 0)
      (by rw [List.length_append, encode_length, leBytes_length]) hm
    rw [h1, h2.2 (accepts_neutral hd)]
  intro pk hpk
  rcases List.mem_cons.1 hpk with rfl | hpk
  · have e1 : leNat (leBytes 32 (P + 1)) % 2 ^ 255 = P + 1 := by decide +kernel
    constructor
    · unfold Rfc8032.decode
      rw [e1]
      unfold Rfc8032.recover
      rw [if_pos (Nat.le_succ P)]
    · apply main _ (leBytes_length _ _)
      unfold decodeLoose
      rw [e1]
      apply recoverLoose_one
      rw [Nat.cast_add, ZMod.natCast_self, zero_add, Nat.cast_one]
  · obtain rfl := List.mem_singleton.1 hpk
    have e1 : leNat (leBytes 32 (2 ^ 255 + 1)) % 2 ^ 255 = 1 := by decide +kernel
    have e2 : leNat (leBytes 32 (2 ^ 255 + 1)) / 2 ^ 255 % 2 = 1 := by decide +kernel
    constructor
    · unfold Rfc8032.decode
      rw [e1, e2]
      cases hr : Rfc8032.recover 1 1 with
      | none => rfl
      | some p =>
        obtain ⟨x, h1, h2, h3, h4⟩ := (recover_iff _ _ _).1 hr
        have h5 := (recoverLoose_iff 1 1 p).2 ⟨x, h1, h2⟩
        have hs := squareRoot_sound h1
        have hx : x = 0 := by
          rw [Nat.cast_one] at hs
          have : (D * (1 : F) ^ 2 + 1) * x ^ 2 = 0 := by rw [hs]; ring
          rcases mul_eq_zero.1 this with h | h
          · exact absurd h (den_ne 1)
          · exact (pow_eq_zero_iff (by norm_num)).1 h
        exact absurd rfl (h4 hx)
    · apply main _ (leBytes_length _ _)
      unfold decodeLoose
      rw [e1]
      exact recoverLoose_one Nat.cast_one

example := C68_fails_noncanonical (stack := rfcStack) rfl [0x72] (by decide)

/-! ## Signature objects -/

/-- The functions of `crypto/ed25519` as used by `src/backend/ref/sign-ed25519.c`, with any contents of the stack. An
undefined outcome is represented by an empty result; C65, C66 and C67 show that there is none. -/
def fns (stack : Sha512.Ctx) : EdFns where
  pub priv := match publickey stack priv with
    | .ok b => b
    | .ub => []
  sign m priv pub := match sign stack m priv pub with
    | .ok b => b
    | .ub => []
  openOk m pub sig := match signOpen stack m pub sig with
    | .ok b => b
    | .ub => false

theorem C67_lawful {stack : Sha512.Ctx} (hb : stack.m.length = 128) : (fns stack).Lawful where
  pub_len k := by
    unfold fns
    dsimp only
    rw [publickey_ok hb]
    exact encode_length _
  sign_len m k p := by
    unfold fns
    dsimp only
    rw [sign_ok hb]
    exact sign_length _ _ _ _
  correct m k _ := by
    have := C67_own hb hb hb m k
    unfold fns
    dsimp only
    rw [publickey_ok hb, Out.bind_ok, sign_ok hb, Out.bind_ok] at this
    rw [publickey_ok hb]
    dsimp only
    rw [sign_ok hb]
    dsimp only
    rw [this]

end Ed25519

/-- **C26** with the Ed25519 code: signatures made with a key pair are accepted under its public key. -/
theorem C26_ed25519 {stack : Sha512.Ctx} (hst : stack.m.length = 128) (s v : SignState)
    (hs : SignReach (Ed25519.fns stack) s) (hv : SignReach (Ed25519.fns stack) v) (hk : s.hasKeypair = true)
    (hp : v.hasPublicKey = true) (hpub : s.getPublicKey 32 = v.getPublicKey 32) (msg buf : Bytes)
    (hb : buf.length = 64) :
    ∃ sig, s.signMsg (Ed25519.fns stack) msg buf = .ok (.none, sig) ∧
      v.verifyMsg (Ed25519.fns stack) msg sig = .ok .none :=
  C26_sign_verify _ (Ed25519.C67_lawful hst) s v hs hv hk hp hpub msg buf hb

/-- **C26** with the Ed25519 code: `noise_signstate_verify` accepts exactly the signatures described by `Accepts`. -/
theorem C26_ed25519_verify {stack : Sha512.Ctx} (hst : stack.m.length = 128) (v : SignState)
    (hv : SignReach (Ed25519.fns stack) v) (hp : v.hasPublicKey = true) (msg sig : Bytes) (hl : sig.length = 64)
    (hm : msg.length < 2 ^ 60) :
    ∃ e, v.verifyMsg (Ed25519.fns stack) msg sig = .ok e ∧ (e = .none ∨ e = .invalidSignature) ∧
      (e = .none ↔ Ed25519.Accepts Rfc8032.sha512 v.pub msg sig) := by
  have hpl := (signReach_good _ (Ed25519.C67_lawful hst) v hv).2.1
  obtain ⟨b, h1, h2⟩ := Ed25519.C67_accepts hst msg hpl hl hm
  have ho : (Ed25519.fns stack).openOk msg v.pub sig = b := by
    unfold Ed25519.fns
    dsimp only
    rw [h1]
  refine ⟨_, C26_verify_exact _ (Ed25519.C67_lawful hst) v hv hp msg sig hl, ?_⟩
  rw [← h2, ho]
  cases b <;> simp

example := C26_ed25519_verify (stack := Ed25519.rfcStack) rfl

end Noise
