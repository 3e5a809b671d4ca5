import Verif.Fips180
import Verif.Poly1305Props
/-!
# Big endian numbers

Facts about the conversions between bytes and words, shared by the SHA-2 and GHASH proofs.
-/

namespace Noise.BigEndian

open Fips180 (beNat beBytes)

theorem take4 (m : Bytes) (i : Nat) (h : i + 4 ≤ m.length) : (m.drop i).take 4 =
    [m.getD i 0, m.getD (i + 1) 0, m.getD (i + 2) 0, m.getD (i + 3) 0] := by
  apply List.ext_getElem
  · simp; omega
  · intro j h1 h2
    have hj : j < 4 := by simpa using h2
    have hd : ∀ t (ht : t < 4), m.getD (i + t) 0 = m[i + t]'(by omega) := by
      intro t ht
      rw [List.getD_eq_getElem?_getD, List.getElem?_eq_getElem (by omega)]; rfl
    rw [List.getElem_take, List.getElem_drop, ← hd j hj]
    clear h1 hd
    match j, hj with
    | 0, _ => rfl
    | 1, _ => rfl
    | 2, _ => rfl
    | 3, _ => rfl

theorem take8 (m : Bytes) (i : Nat) (h : i + 8 ≤ m.length) : (m.drop i).take 8 =
    [m.getD i 0, m.getD (i + 1) 0, m.getD (i + 2) 0, m.getD (i + 3) 0, m.getD (i + 4) 0, m.getD (i + 5) 0,
      m.getD (i + 6) 0, m.getD (i + 7) 0] := by
  have e : (m.drop i).take 8 = (m.drop i).take 4 ++ (m.drop (i + 4)).take 4 := by
    rw [show 8 = 4 + 4 from rfl, List.take_add, List.drop_drop]
  rw [e, take4 m i (by omega), take4 m (i + 4) (by omega)]
  rfl

theorem beNat4 (a b c d : UInt8) : beNat [a, b, c, d] =
    a.toNat * 2 ^ 24 + b.toNat * 2 ^ 16 + c.toNat * 2 ^ 8 + d.toNat := by
  simp only [beNat, List.foldl_cons, List.foldl_nil]; omega

theorem beNat8 (a b c d e f g h : UInt8) : beNat [a, b, c, d, e, f, g, h] =
    a.toNat * 2 ^ 56 + b.toNat * 2 ^ 48 + c.toNat * 2 ^ 40 + d.toNat * 2 ^ 32 +
      e.toNat * 2 ^ 24 + f.toNat * 2 ^ 16 + g.toNat * 2 ^ 8 + h.toNat := by
  simp only [beNat, List.foldl_cons, List.foldl_nil]; omega

theorem or_add (k a b : Nat) (ha : a % 2 ^ k = 0) (hb : b < 2 ^ k) : a ||| b = a + b := by
  rw [Nat.or_comm, Poly1305.or_eq_add k hb ha, Nat.add_comm]

theorem read32 (a b c d : UInt8) :
    (a.toUInt32 <<< 24 ||| b.toUInt32 <<< 16 ||| c.toUInt32 <<< 8 ||| d.toUInt32) =
      UInt32.ofNat (a.toNat * 2 ^ 24 + b.toNat * 2 ^ 16 + c.toNat * 2 ^ 8 + d.toNat) := by
  apply UInt32.toNat_inj.mp
  have ha := a.toNat_lt
  have hb := b.toNat_lt
  have hc := c.toNat_lt
  have hd := d.toNat_lt
  have ea : (a.toUInt32 <<< 24).toNat = a.toNat * 2 ^ 24 := by
    rw [UInt32.toNat_shiftLeft, UInt8.toNat_toUInt32, show (24 : UInt32).toNat % 32 = 24 from rfl, Nat.shiftLeft_eq]
    omega
  have eb : (b.toUInt32 <<< 16).toNat = b.toNat * 2 ^ 16 := by
    rw [UInt32.toNat_shiftLeft, UInt8.toNat_toUInt32, show (16 : UInt32).toNat % 32 = 16 from rfl, Nat.shiftLeft_eq]
    omega
  have ec : (c.toUInt32 <<< 8).toNat = c.toNat * 2 ^ 8 := by
    rw [UInt32.toNat_shiftLeft, UInt8.toNat_toUInt32, show (8 : UInt32).toNat % 32 = 8 from rfl, Nat.shiftLeft_eq]
    omega
  rw [UInt32.toNat_or, UInt32.toNat_or, UInt32.toNat_or, ea, eb, ec, UInt8.toNat_toUInt32, UInt32.toNat_ofNat',
    or_add 24 (a.toNat * 2 ^ 24) _ (by omega) (by omega), or_add 16 (a.toNat * 2 ^ 24 + _) _ (by omega) (by omega),
    or_add 8 (a.toNat * 2 ^ 24 + _ + _) _ (by omega) (by omega)]
  omega

theorem shl64 (a : UInt8) (k : Nat) (hk : k ≤ 56) : (a.toUInt64 <<< UInt64.ofNat k).toNat = a.toNat * 2 ^ k := by
  have ha := a.toNat_lt
  rw [UInt64.toNat_shiftLeft, UInt8.toNat_toUInt64, UInt64.toNat_ofNat', Nat.shiftLeft_eq]
  rw [show k % 2 ^ 64 % 64 = k by omega]
  apply Nat.mod_eq_of_lt
  calc a.toNat * 2 ^ k < 2 ^ 8 * 2 ^ k := Nat.mul_lt_mul_of_pos_right ha (Nat.pow_pos (by omega))
    _ ≤ 2 ^ 8 * 2 ^ 56 := Nat.mul_le_mul_left _ (Nat.pow_le_pow_right (by omega) hk)
    _ = 2 ^ 64 := rfl

theorem read64 (a b c d e f g h : UInt8) :
    (a.toUInt64 <<< 56 ||| b.toUInt64 <<< 48 ||| c.toUInt64 <<< 40 ||| d.toUInt64 <<< 32 ||| e.toUInt64 <<< 24 |||
      f.toUInt64 <<< 16 ||| g.toUInt64 <<< 8 ||| h.toUInt64) =
      UInt64.ofNat (a.toNat * 2 ^ 56 + b.toNat * 2 ^ 48 + c.toNat * 2 ^ 40 + d.toNat * 2 ^ 32 +
      e.toNat * 2 ^ 24 + f.toNat * 2 ^ 16 + g.toNat * 2 ^ 8 + h.toNat) := by
  apply UInt64.toNat_inj.mp
  have ha := a.toNat_lt
  have hb := b.toNat_lt
  have hc := c.toNat_lt
  have hd := d.toNat_lt
  have he := e.toNat_lt
  have hf := f.toNat_lt
  have hg := g.toNat_lt
  have hh := h.toNat_lt
  have ea : (a.toUInt64 <<< 56).toNat = a.toNat * 2 ^ 56 := shl64 a 56 (by omega)
  have eb : (b.toUInt64 <<< 48).toNat = b.toNat * 2 ^ 48 := shl64 b 48 (by omega)
  have ec : (c.toUInt64 <<< 40).toNat = c.toNat * 2 ^ 40 := shl64 c 40 (by omega)
  have ed : (d.toUInt64 <<< 32).toNat = d.toNat * 2 ^ 32 := shl64 d 32 (by omega)
  have ee : (e.toUInt64 <<< 24).toNat = e.toNat * 2 ^ 24 := shl64 e 24 (by omega)
  have ef : (f.toUInt64 <<< 16).toNat = f.toNat * 2 ^ 16 := shl64 f 16 (by omega)
  have eg : (g.toUInt64 <<< 8).toNat = g.toNat * 2 ^ 8 := shl64 g 8 (by omega)
  simp only [UInt64.toNat_or]
  rw [ea, eb, ec, ed, ee, ef, eg, UInt8.toNat_toUInt64, UInt64.toNat_ofNat',
    or_add 56 (a.toNat * 2 ^ 56) _ (by omega) (by omega), or_add 48 (a.toNat * 2 ^ 56 + _) _ (by omega) (by omega),
    or_add 40 (a.toNat * 2 ^ 56 + _ + _) _ (by omega) (by omega),
    or_add 32 (a.toNat * 2 ^ 56 + _ + _ + _) _ (by omega) (by omega),
    or_add 24 (a.toNat * 2 ^ 56 + _ + _ + _ + _) _ (by omega) (by omega),
    or_add 16 (a.toNat * 2 ^ 56 + _ + _ + _ + _ + _) _ (by omega) (by omega),
    or_add 8 (a.toNat * 2 ^ 56 + _ + _ + _ + _ + _ + _) _ (by omega) (by omega)]
  omega

theorem byte32 (v k : UInt32) (n : Nat) (h : v.toNat >>> (k.toNat % 32) = n) :
    (v >>> k).toUInt8 = UInt8.ofNat (n % 256) := by
  apply UInt8.toNat_inj.mp
  rw [UInt32.toNat_toUInt8, UInt32.toNat_shiftRight, h, UInt8.toNat_ofNat']
  omega

theorem byte64 (v k : UInt64) (n : Nat) (h : v.toNat >>> (k.toNat % 64) = n) :
    (v >>> k).toUInt8 = UInt8.ofNat (n % 256) := by
  apply UInt8.toNat_inj.mp
  rw [UInt64.toNat_toUInt8, UInt64.toNat_shiftRight, h, UInt8.toNat_ofNat']
  omega

theorem write32 (v : UInt32) : [(v >>> 24).toUInt8, (v >>> 16).toUInt8, (v >>> 8).toUInt8, v.toUInt8] =
    beBytes 4 v.toNat := by
  rw [byte32 v 24 _ rfl, byte32 v 16 _ rfl, byte32 v 8 _ rfl]
  have e : v.toUInt8 = UInt8.ofNat (v.toNat % 256) := by
    apply UInt8.toNat_inj.mp
    rw [UInt32.toNat_toUInt8, UInt8.toNat_ofNat']; omega
  rw [e]
  simp only [beBytes, List.nil_append, List.cons_append, Nat.div_div_eq_div_mul, Nat.shiftRight_eq_div_pow]
  rfl

theorem write64 (v : UInt64) : [(v >>> 56).toUInt8, (v >>> 48).toUInt8, (v >>> 40).toUInt8, (v >>> 32).toUInt8,
    (v >>> 24).toUInt8, (v >>> 16).toUInt8, (v >>> 8).toUInt8, v.toUInt8] = beBytes 8 v.toNat := by
  rw [byte64 v 56 _ rfl, byte64 v 48 _ rfl, byte64 v 40 _ rfl, byte64 v 32 _ rfl, byte64 v 24 _ rfl, byte64 v 16 _ rfl,
    byte64 v 8 _ rfl]
  have e : v.toUInt8 = UInt8.ofNat (v.toNat % 256) := by
    apply UInt8.toNat_inj.mp
    rw [UInt64.toNat_toUInt8, UInt8.toNat_ofNat']; omega
  rw [e]
  simp only [beBytes, List.nil_append, List.cons_append, Nat.div_div_eq_div_mul, Nat.shiftRight_eq_div_pow]
  rfl

theorem beBytes_length (n v : Nat) : (beBytes n v).length = n := by
  induction n generalizing v with
  | zero => rfl
  | succ n ih => rw [beBytes, List.length_append, ih]; rfl

theorem beBytes_append (n k v : Nat) : beBytes (n + k) v = beBytes n (v / 256 ^ k) ++ beBytes k v := by
  induction k generalizing v with
  | zero => simp [beBytes]
  | succ k ih =>
    rw [show n + (k + 1) = n + k + 1 from rfl, beBytes, ih, beBytes, List.append_assoc, Nat.div_div_eq_div_mul,
      Nat.pow_succ', ]

theorem beBytes_mod (n v : Nat) : beBytes n (v % 256 ^ n) = beBytes n v := by
  induction n generalizing v with
  | zero => rfl
  | succ n ih =>
    rw [beBytes, beBytes, Nat.pow_succ', Nat.mod_mul_right_div_self, ih, Nat.mod_mul_right_mod]

end Noise.BigEndian
