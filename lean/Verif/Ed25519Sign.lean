import Verif.Rfc8032
import Verif.Ed25519Modm
import Verif.Sha512Props
/-!
# Ed25519: public keys and signatures are those of RFC 8032
-/

namespace Noise.Ed25519

open Rfc7539 (leNat leBytes)
open Rfc7748 (P F)
open Curve25519 (L Fe M)
open Curve25519.Fe (ev)

/-! ## Affine coordinates -/

theorem d_eq : Rfc8032.d = D := by
  unfold Rfc8032.d
  rw [← D_eq]
  exact mul_inv_cancel_right₀ (by decide +kernel) _

theorem rfc_L : Rfc8032.L = L := by decide

theorem maps_B : Maps B Rfc8032.B.1 Rfc8032.B.2 := B_maps

theorem maps_add {Q Q' : Pt} {p q : F × F} (h : Maps Q p.1 p.2) (h' : Maps Q' q.1 q.2) :
    Maps (Q + Q') (Rfc8032.add p q).1 (Rfc8032.add p q).2 := by
  obtain ⟨hp, hm⟩ := params.den (Edwards.Maps.on h) (Edwards.Maps.on h')
  refine h.add h' ⟨?_, ?_⟩
  · unfold Rfc8032.add
    rw [d_eq]
    exact inv_mul_cancel_right₀ hp _
  · unfold Rfc8032.add
    rw [d_eq]
    exact inv_mul_cancel_right₀ hm _

theorem maps_zero : Maps 0 0 1 := ⟨rfl, rfl⟩

theorem maps_smul {Q : Pt} {p : F × F} (h : Maps Q p.1 p.2) : ∀ n : Nat,
    Maps (n • Q) (Rfc8032.smul n p).1 (Rfc8032.smul n p).2
  | 0 => by rw [zero_nsmul]; exact maps_zero
  | n + 1 => by rw [succ_nsmul]; exact maps_add (maps_smul h n) h

theorem maps_unique {Q : Pt} {x y x' y' : F} (h : Maps Q x y) (h' : Maps Q x' y') : (x, y) = (x', y') := by
  obtain ⟨h1, h2⟩ := Edwards.Maps.unique params h h'
  rw [h1, h2]

theorem maps_inj {Q Q' : Pt} {x y : F} (h : Maps Q x y) (h' : Maps Q' x y) : Q = Q' := Edwards.Maps.inj params h h'

/-! ## The order of the base point -/

/-- Addition of projective coordinates. -/
def nadd (p q : Nat × Nat × Nat) : Nat × Nat × Nat :=
  let a := p.2.2 * q.2.2 % P
  let b := a * a % P
  let c := p.1 * q.1 % P
  let e := p.2.1 * q.2.1 % P
  let k := dN * (c * e % P) % P
  let f := (b + P - k) % P
  let g := (b + k) % P
  (a * f % P * (p.1 * q.2.1 + q.1 * p.2.1) % P, a * g % P * (e + c) % P, f * g % P)

theorem nadd_ok {p q : Nat × Nat × Nat} {Q Q' : Pt} (h : NProj p Q) (h' : NProj q Q') : NProj (nadd p q) (Q + Q') := by
  obtain ⟨x1, y1, h1, hz1, ex1, ey1⟩ := h
  obtain ⟨x2, y2, h2, hz2, ex2, ey2⟩ := h'
  obtain ⟨x3, y3, h3, hs, hp, hm⟩ := exists_sum h1 h2
  have hx := hs.hx
  have hy := hs.hy
  refine ⟨x3, y3, h3, ?_⟩
  have lk : dN * (p.1 * q.1 % P * (p.2.1 * q.2.1 % P) % P) % P < P := Nat.mod_lt _ P_pos
  unfold nadd
  dsimp only
  simp only [ZMod.natCast_mod, Nat.cast_mul, Nat.cast_add, cast_sub_mod lk, dN_cast, ex1, ex2, ey1, ey2]
  refine ⟨?_, ?_, ?_⟩
  · have : (((p.2.2 : F) * q.2.2) ^ 4 * ((1 - D * x1 * x2 * y1 * y2) * (1 + D * x1 * x2 * y1 * y2))) ≠ 0 :=
      mul_ne_zero (pow_ne_zero _ (mul_ne_zero hz1 hz2)) (mul_ne_zero hm hp)
    intro e
    apply this
    linear_combination e
  · linear_combination (-((p.2.2 : F) * q.2.2) ^ 4 * (1 - D * x1 * x2 * y1 * y2)) * hx
  · linear_combination (-((p.2.2 : F) * q.2.2) ^ 4 * (1 + D * x1 * x2 * y1 * y2)) * hy

/-- Multiples of the base point. -/
def nmul : Nat → Nat → Nat × Nat × Nat
  | 0, _ => (0, 1, 1)
  | f + 1, n =>
    if n % 2 = 1 then nadd (ndouble (nmul f (n / 2))) (Rfc8032.B.1.val, Rfc8032.B.2.val, 1) else ndouble (nmul f (n / 2))

theorem B_proj : NProj (Rfc8032.B.1.val, Rfc8032.B.2.val, 1) B :=
  ⟨_, _, maps_B, by rw [Nat.cast_one]; exact one_ne_zero, by rw [ZMod.natCast_zmod_val]; simp,
    by rw [ZMod.natCast_zmod_val]; simp⟩

theorem nmul_ok : ∀ (f n : Nat), n < 2 ^ f → NProj (nmul f n) (n • B)
  | 0, n, h => by
    obtain rfl : n = 0 := by omega
    rw [zero_nsmul]
    exact ⟨0, 1, maps_zero, by simp [nmul], by simp [nmul], by simp [nmul]⟩
  | f + 1, n, h => by
    have ih := ndouble_ok (nmul_ok f (n / 2) (by omega))
    rw [← add_nsmul] at ih
    rw [nmul]
    by_cases h2 : n % 2 = 1
    · rw [if_pos h2]
      have := nadd_ok ih B_proj
      rw [← succ_nsmul] at this
      rwa [show n / 2 + n / 2 + 1 = n by omega] at this
    · rw [if_neg h2]
      rwa [show n / 2 + n / 2 = n by omega] at ih

theorem nmul_L : (nmul 253 L).1 % P = 0 ∧ (nmul 253 L).2.1 % P = (nmul 253 L).2.2 % P := by decide +kernel

theorem zero_of_proj {p : Nat × Nat × Nat} {Q : Pt} (h : NProj p Q) (e1 : p.1 % P = 0) (e2 : p.2.1 % P = p.2.2 % P) :
    Q = 0 := by
  obtain ⟨x, y, h, hz, hx, hy⟩ := h
  have f1 : (p.1 : F) = 0 := by rw [← ZMod.natCast_mod, e1, Nat.cast_zero]
  have f2 : (p.2.1 : F) = p.2.2 := by rw [← ZMod.natCast_mod, e2, ZMod.natCast_mod]
  rw [f1] at hx
  rw [f2] at hy
  have x0 : x = 0 := by
    rcases mul_eq_zero.1 hx.symm with h | h
    · exact h
    · exact absurd h hz
  have y1 : y = 1 := by
    apply mul_right_cancel₀ hz
    rw [← hy, one_mul]
  rw [x0, y1] at h
  exact maps_inj h maps_zero

theorem order_B : L • B = 0 := zero_of_proj (nmul_ok 253 L (by decide)) nmul_L.1 nmul_L.2

theorem nsmul_mod {G : Type*} [AddMonoid G] {b : G} {l : Nat} (h : l • b = 0) (n : Nat) : (n % l) • b = n • b := by
  conv => rhs; rw [← Nat.div_add_mod n l, add_nsmul, mul_nsmul, h, nsmul_zero, zero_add]

theorem mod_smul_B (n : Nat) : (n % L) • B = n • B := nsmul_mod order_B n

/-! ## Encoding of points -/

theorem set_top {y b : Nat} (hy : y < 2 ^ 255) (hb : b < 2) (v : UInt8) (hv : v.toNat = y / 256 ^ 31 + 128 * b) :
    (leBytes 32 y).set 31 v = leBytes 32 (y + 2 ^ 255 * b) := by
  have e : leBytes 31 (y + 2 ^ 255 * b) = leBytes 31 y := by
    rw [← leBytes_mod, ← leBytes_mod 31 y]
    congr 1
    omega
  rw [leBytes_append 31 1, leBytes_append 31 1 (y + _), e]
  have hs := List.set_append_right 31 v (s := leBytes 31 y) (t := leBytes 1 (y / 256 ^ 31)) (by rw [leBytes_length])
  rw [leBytes_length] at hs
  refine hs.trans ?_
  congr 1
  simp only [leBytes, Nat.sub_self, List.set_cons_zero]
  congr 1
  apply UInt8.toNat_inj.1
  rw [hv, UInt8.toNat_ofNat']
  omega

theorem leBytes_getD31 {y : Nat} : ((leBytes 32 y).getD 31 0).toNat = y / 256 ^ 31 % 256 := by
  rw [leBytes_append 31 1, List.getD_eq_getElem?_getD, List.getElem?_append_right (by rw [leBytes_length]), leBytes_length]
  simp [leBytes]

theorem leBytes_getD0 {y : Nat} : ((leBytes 32 y).getD 0 0).toNat = y % 256 := by
  simp [leBytes]

theorem pack_ok {g : Ge} {Q : Pt} {x y : F} (h : g.IsPartial Q) (hm : Maps Q x y) : pack g = Rfc8032.encode (x, y) := by
  obtain ⟨x', y', hm', hz, hx, hy⟩ := h.proj
  obtain ⟨rfl, rfl⟩ := Prod.mk.inj (maps_unique hm' hm)
  have r := recip_ok (h.hz.mono R_le_M)
  have tx := fmul_ok (h.hx.mono R_le_M) (r.1.mono R_le_M)
  have ty := fmul_ok (h.hy.mono R_le_M) (r.1.mono R_le_M)
  have hzi : g.z.ev * g.z.ev ^ (P - 2) = 1 := by
    rw [← pow_succ', show P - 2 + 1 = P - 1 by decide +kernel]
    exact ZMod.pow_card_sub_one_eq_one hz
  have ex : (fmul g.x (recip g.z)).ev = x' := by
    rw [tx.2, r.2, hx, mul_assoc, hzi, mul_one]
  have ey : (fmul g.y (recip g.z)).ev = y' := by
    rw [ty.2, r.2, hy, mul_assoc, hzi, mul_one]
  have hR := R_eq
  unfold pack
  dsimp only
  rw [contract_ok (ty.1.mono (by omega)), contract_ok (tx.1.mono (by omega)), ← ev_val, ← ev_val, ex, ey]
  unfold Rfc8032.encode
  have lx := ZMod.val_lt x'
  have ly := ZMod.val_lt y'
  have hP : P < 2 ^ 255 := by decide
  generalize x'.val = a at *
  generalize y'.val = b at *
  apply set_top (by omega) (Nat.mod_lt _ (by omega))
  have h0 : ((leBytes 32 a).getD 0 0 &&& 1) <<< 7 = UInt8.ofNat (128 * (a % 2)) := by
    have hv := leBytes_getD0 (y := a)
    generalize (leBytes 32 a).getD 0 0 = v at *
    have key : ∀ n < 256, (UInt8.ofNat n &&& 1) <<< 7 = UInt8.ofNat (128 * (n % 2)) := by decide +kernel
    have := key v.toNat v.toNat_lt
    rw [UInt8.ofNat_toNat] at this
    rw [this, hv, Nat.mod_mod_of_dvd _ (by decide)]
  have h31 := leBytes_getD31 (y := b)
  rw [h0]
  generalize (leBytes 32 b).getD 31 0 = w at *
  have hw : w.toNat < 128 := by omega
  have key : ∀ n < 128, ∀ c < 2, (UInt8.ofNat n ^^^ UInt8.ofNat (128 * c)).toNat = n + 128 * c := by decide +kernel
  have := key w.toNat hw (a % 2) (Nat.mod_lt _ (by omega))
  rw [UInt8.ofNat_toNat] at this
  rw [this, h31]
  omega

/-! ## Hashing -/

theorem hash_ok {stack : Sha512.Ctx} (hb : stack.m.length = 128) (parts : List Bytes) :
    hash stack parts = .ok (Sha512.hash64 parts.flatten) := by
  have key : ∀ (ds : List Bytes) (m : Bytes) (c : Sha512.Ctx), Sha512.Absorbed m c →
      ∃ c', ds.foldlM Sha512.update c = .ok c' ∧ Sha512.Absorbed (m ++ ds.flatten) c' := by
    intro ds
    induction ds with
    | nil => intro m c h; exact ⟨c, rfl, by simpa using h⟩
    | cons d ds ih =>
      intro m c h
      obtain ⟨c1, e1, a1⟩ := Sha512.update_absorbed h d
      obtain ⟨c2, e2, a2⟩ := ih _ _ a1
      refine ⟨c2, ?_, by rwa [List.append_assoc] at a2⟩
      rw [List.foldlM_cons, e1]
      exact e2
  obtain ⟨c, e, a⟩ := key parts [] (Sha512.reset stack) (Sha512.reset_absorbed stack hb)
  obtain ⟨c', e', _⟩ := Sha512.finish_eq a
  rw [List.nil_append] at e'
  unfold hash
  change (parts.foldlM Sha512.update (Sha512.reset stack) >>= _) = _
  rw [e, Out.bind_ok, e', Out.bind_ok]
  rfl

theorem extsk_ok {stack : Sha512.Ctx} (hb : stack.m.length = 128) (sk : Bytes) :
    ∃ e, extsk stack sk = .ok e ∧ leNat (e.take 32) = Rfc8032.scalar Sha512.hash64 sk ∧ (e.take 32).length = 32 ∧
      e.drop 32 = (Sha512.hash64 sk).drop 32 := by
  unfold extsk
  rw [hash_ok hb, Out.bind_ok, List.flatten_singleton]
  have hl := Sha512.hash64_length sk
  refine ⟨_, rfl, ?_, ?_, ?_⟩
  · unfold Rfc8032.scalar
    generalize Sha512.hash64 sk = h at *
    dsimp only
    congr 1
    have e1 : ∀ i < 32, (h.take 32).getD i 0 = h.getD i 0 := by
      intro i hi
      simp [List.getD_eq_getElem?_getD, hi]
    rw [List.take_set, List.take_set, List.take_set, List.set_set, e1 _ (by omega), e1 _ (by omega)]
    congr 1
    simp [List.getD_eq_getElem?_getD, hl]
  · simp [hl]
  · simp [List.drop_set]

/-! ## Public keys -/

theorem base_ok (b : Bytes) (h : b.length ≤ 64) :
    pack (scalarmultBase (expand256 b)) = Rfc8032.encode (Rfc8032.smul (leNat b) Rfc8032.B) := by
  obtain ⟨h1, h2⟩ := expand256_ok b h
  have hlt : (expand256 b).val < L := by rw [h2]; exact Nat.mod_lt _ (by decide)
  have h3 := h1.of_val hlt
  have h4 := scalarmultBase_ok h1.toDigits (h3.h4.trans (by decide))
  rw [h2, mod_smul_B] at h4
  exact pack_ok h4.isPartial (maps_smul maps_B _)

theorem publickey_ok {stack : Sha512.Ctx} (hb : stack.m.length = 128) (sk : Bytes) :
    publickey stack sk = .ok (Rfc8032.publicKey Sha512.hash64 sk) := by
  obtain ⟨e, he, hs, hl, -⟩ := extsk_ok hb sk
  unfold publickey
  rw [he, Out.bind_ok]
  dsimp only
  rw [base_ok _ (by omega), hs]
  rfl

/-! ## The second vector of RFC 8032, section 7.1 -/

def rfcSecret : Bytes := [0x4c, 0xcd, 0x08, 0x9b, 0x28, 0xff, 0x96, 0xda, 0x9d, 0xb6, 0xc3, 0x46, 0xec, 0x11, 0x4e, 0x0f, 0x5b, 0x8a, 0x31, 0x9f, 0x35, 0xab, 0xa6, 0x24, 0xda, 0x8c, 0xf6, 0xed, 0x4f, 0xb8, 0xa6, 0xfb]

def rfcPublic : Bytes := [0x3d, 0x40, 0x17, 0xc3, 0xe8, 0x43, 0x89, 0x5a, 0x92, 0xb7, 0x0a, 0xa7, 0x4d, 0x1b, 0x7e, 0xbc, 0x9c, 0x98, 0x2c, 0xcf, 0x2e, 0xc4, 0x96, 0x8c, 0xc0, 0xcd, 0x55, 0xf1, 0x2a, 0xf4, 0x66, 0x0c]

def rfcSignature : Bytes := [0x92, 0xa0, 0x09, 0xa9, 0xf0, 0xd4, 0xca, 0xb8, 0x72, 0x0e, 0x82, 0x0b, 0x5f, 0x64, 0x25, 0x40, 0xa2, 0xb2, 0x7b, 0x54, 0x16, 0x50, 0x3f, 0x8f, 0xb3, 0x76, 0x22, 0x23, 0xeb, 0xdb, 0x69, 0xda, 0x08, 0x5a, 0xc1, 0xe4, 0x3e, 0x15, 0x99, 0x6e, 0x45, 0x8f, 0x36, 0x13, 0xd0, 0xf1, 0x1d, 0x8c, 0x38, 0x7b, 0x2e, 0xae, 0xb4, 0x30, 0x2a, 0xee, 0xb0, 0x0d, 0x29, 0x16, 0x12, 0xbb, 0x0c, 0x00]

def rfcStack : Sha512.Ctx := ⟨[], List.replicate 128 7, 3, 9⟩

/-- **C65**: whatever the stack contains, `ed25519_publickey` gives the public key of RFC 8032. -/
theorem C65_publickey {stack : Sha512.Ctx} (hb : stack.m.length = 128) (sk : Bytes) (hk : sk.length = 32) :
    publickey stack sk = .ok (Rfc8032.publicKey Rfc8032.sha512 sk) := by
  rw [publickey_ok hb]
  unfold Rfc8032.publicKey Rfc8032.scalar Rfc8032.sha512
  rw [Sha512.hash64_eq _ (by omega)]

example := C65_publickey (stack := rfcStack) rfl rfcSecret rfl

theorem encode_length (p : F × F) : (Rfc8032.encode p).length = 32 := leBytes_length _ _

/-! ## Signatures -/

theorem sign_ok {stack : Sha512.Ctx} (hb : stack.m.length = 128) (m sk pk : Bytes) :
    sign stack m sk pk = .ok (Rfc8032.sign Sha512.hash64 sk pk m) := by
  obtain ⟨e, he, hs, hl, hd⟩ := extsk_ok hb sk
  unfold sign
  rw [he, Out.bind_ok, hash_ok hb, Out.bind_ok]
  simp only [List.flatten_cons, List.flatten_nil, List.append_nil, hd]
  unfold Rfc8032.sign
  have lr := Sha512.hash64_length ((Sha512.hash64 sk).drop 32 ++ m)
  generalize Sha512.hash64 ((Sha512.hash64 sk).drop 32 ++ m) = hr at *
  dsimp only
  rw [base_ok hr (by omega)]
  generalize hR : Rfc8032.encode (Rfc8032.smul (leNat hr) Rfc8032.B) = R
  have hRl : R.length = 32 := by rw [← hR]; exact encode_length _
  unfold hram
  rw [hash_ok hb, Out.bind_ok]
  simp only [List.flatten_cons, List.flatten_nil, List.append_nil]
  rw [List.take_of_length_le (by omega), ← List.append_assoc]
  have lh := Sha512.hash64_length (R ++ pk ++ m)
  generalize Sha512.hash64 (R ++ pk ++ m) = h at *
  rw [← hs]
  generalize e.take 32 = a at *
  have hL : 0 < L := by decide
  obtain ⟨r1, r2⟩ := expand256_ok hr (by omega)
  obtain ⟨h1, h2⟩ := expand256_ok h (by omega)
  obtain ⟨a1, a2⟩ := expand256_ok a (by omega)
  obtain ⟨p1, p2⟩ := mul256_ok h1 a1 (by rw [h2]; exact Nat.mod_lt _ hL) (by rw [a2]; exact Nat.mod_lt _ hL)
  obtain ⟨s1, s2⟩ := add256_ok p1 r1 (by rw [p2]; exact Nat.mod_lt _ hL) (by rw [r2]; exact Nat.mod_lt _ hL)
  rw [contract256_ok s1, s2, p2, h2, a2, r2, rfc_L, Out.pure_eq, ← Nat.mul_mod, ← Nat.add_mod, Nat.add_comm]

/-- **C66**: whatever the stack contains, `ed25519_sign` gives the signature of RFC 8032. -/
theorem C66_sign {stack : Sha512.Ctx} (hb : stack.m.length = 128) (m sk pk : Bytes) (hk : sk.length = 32)
    (hp : pk.length = 32) (hm : m.length < 2 ^ 60) :
    sign stack m sk pk = .ok (Rfc8032.sign Rfc8032.sha512 sk pk m) := by
  rw [sign_ok hb]
  unfold Rfc8032.sign Rfc8032.scalar Rfc8032.sha512
  have h1 := Sha512.hash64_eq sk (by omega)
  have l1 := Sha512.hash64_length sk
  rw [h1] at l1
  rw [h1, Sha512.hash64_eq ((Fips180.Sha512.hash sk).drop 32 ++ m) (by simp; omega)]
  dsimp only
  rw [Sha512.hash64_eq (_ ++ pk ++ m) (by simp [encode_length]; omega)]

example := C66_sign (stack := rfcStack) rfl [0x72] rfcSecret rfcPublic rfl rfl (by decide)

end Noise.Ed25519
