import Verif.Aes
import Verif.Fips197

/-!
The tables of the AES code against FIPS 197, and words against their bytes.
-/

namespace Noise.Aes

open Fips197

/-! ## Tables -/

/-- An entry of the table with the plain S-box. -/
def sb (i : Nat) : UInt8 := (te4.getD i 0).toUInt8

theorem sbox_eq : ∀ i : Fin 256, sbox (UInt8.ofNat i.val) = sb i.val := by decide +kernel

theorem te0_eq : ∀ i : Fin 256, putU32 (te0.getD i.val 0) = [mul (sb i) 2, sb i, sb i, mul (sb i) 3] := by
  decide +kernel

theorem te1_eq : ∀ i : Fin 256, putU32 (te1.getD i.val 0) = [mul (sb i) 3, mul (sb i) 2, sb i, sb i] := by
  decide +kernel

theorem te2_eq : ∀ i : Fin 256, putU32 (te2.getD i.val 0) = [sb i, mul (sb i) 3, mul (sb i) 2, sb i] := by
  decide +kernel

theorem te3_eq : ∀ i : Fin 256, putU32 (te3.getD i.val 0) = [sb i, sb i, mul (sb i) 3, mul (sb i) 2] := by
  decide +kernel

theorem te4_eq : ∀ i : Fin 256, putU32 (te4.getD i.val 0) = [sb i, sb i, sb i, sb i] := by decide +kernel

theorem rcon_eq : ∀ i : Fin 10, putU32 (rd rcon i.val) = Fips197.rcon (i.val + 1) := by decide +kernel

theorem sbox_sb (b : UInt8) : sbox b = sb b.toNat := by
  have := sbox_eq ⟨b.toNat, b.toNat_lt⟩
  rwa [UInt8.ofNat_toNat] at this

theorem tab0 {w : UInt32} {b : UInt8} (h : w.toNat = b.toNat) :
    putU32 (tab te0 w) = [mul (sbox b) 2, sbox b, sbox b, mul (sbox b) 3] := by
  rw [tab, h, sbox_sb]; exact te0_eq ⟨b.toNat, b.toNat_lt⟩

theorem tab1 {w : UInt32} {b : UInt8} (h : w.toNat = b.toNat) :
    putU32 (tab te1 w) = [mul (sbox b) 3, mul (sbox b) 2, sbox b, sbox b] := by
  rw [tab, h, sbox_sb]; exact te1_eq ⟨b.toNat, b.toNat_lt⟩

theorem tab2 {w : UInt32} {b : UInt8} (h : w.toNat = b.toNat) :
    putU32 (tab te2 w) = [sbox b, mul (sbox b) 3, mul (sbox b) 2, sbox b] := by
  rw [tab, h, sbox_sb]; exact te2_eq ⟨b.toNat, b.toNat_lt⟩

theorem tab3 {w : UInt32} {b : UInt8} (h : w.toNat = b.toNat) :
    putU32 (tab te3 w) = [sbox b, sbox b, mul (sbox b) 3, mul (sbox b) 2] := by
  rw [tab, h, sbox_sb]; exact te3_eq ⟨b.toNat, b.toNat_lt⟩

theorem tab4 {w : UInt32} {b : UInt8} (h : w.toNat = b.toNat) :
    putU32 (tab te4 w) = [sbox b, sbox b, sbox b, sbox b] := by
  rw [tab, h, sbox_sb]; exact te4_eq ⟨b.toNat, b.toNat_lt⟩

/-! ## Words and bytes -/

theorem ix3 (x : UInt32) : (x >>> 24).toNat = (x >>> 24).toUInt8.toNat := by
  have := x.toNat_lt
  simp [Nat.shiftRight_eq_div_pow]; omega

theorem ix2 (x : UInt32) : ((x >>> 16) &&& (0xff : UInt32)).toNat = (x >>> 16).toUInt8.toNat := by
  have : (0xff : UInt32).toNat = 2 ^ 8 - 1 := rfl
  rw [UInt32.toNat_and, this, Nat.and_two_pow_sub_one_eq_mod]; simp

theorem ix1 (x : UInt32) : ((x >>> 8) &&& (0xff : UInt32)).toNat = (x >>> 8).toUInt8.toNat := by
  have : (0xff : UInt32).toNat = 2 ^ 8 - 1 := rfl
  rw [UInt32.toNat_and, this, Nat.and_two_pow_sub_one_eq_mod]; simp

theorem ix0 (x : UInt32) : (x &&& (0xff : UInt32)).toNat = x.toUInt8.toNat := by
  have : (0xff : UInt32).toNat = 2 ^ 8 - 1 := rfl
  rw [UInt32.toNat_and, this, Nat.and_two_pow_sub_one_eq_mod]; simp

theorem putU32_xor (x y : UInt32) : putU32 (x ^^^ y) = List.zipWith (· ^^^ ·) (putU32 x) (putU32 y) := by
  simp [putU32, UInt32.shiftRight_xor, UInt32.toUInt8_xor]

theorem putU32_and (x y : UInt32) : putU32 (x &&& y) = List.zipWith (· &&& ·) (putU32 x) (putU32 y) := by
  simp [putU32, UInt32.shiftRight_and, UInt32.toUInt8_and]

theorem mask3 : putU32 0xff000000 = [255, 0, 0, 0] := by decide
theorem mask2 : putU32 0x00ff0000 = [0, 255, 0, 0] := by decide
theorem mask1 : putU32 0x0000ff00 = [0, 0, 255, 0] := by decide
theorem mask0 : putU32 0x000000ff = [0, 0, 0, 255] := by decide

theorem and_255 (b : UInt8) : b &&& 255 = b := by
  have : (255 : UInt8) = -1 := rfl
  rw [this, UInt8.and_neg_one]

theorem shl3 : ∀ i : Fin 256, putU32 ((UInt8.ofNat i.val).toUInt32 <<< 24) = [UInt8.ofNat i.val, 0, 0, 0] := by
  decide +kernel
theorem shl2 : ∀ i : Fin 256, putU32 ((UInt8.ofNat i.val).toUInt32 <<< 16) = [0, UInt8.ofNat i.val, 0, 0] := by
  decide +kernel
theorem shl1 : ∀ i : Fin 256, putU32 ((UInt8.ofNat i.val).toUInt32 <<< 8) = [0, 0, UInt8.ofNat i.val, 0] := by
  decide +kernel
theorem shl0 : ∀ i : Fin 256, putU32 (UInt8.ofNat i.val).toUInt32 = [0, 0, 0, UInt8.ofNat i.val] := by
  decide +kernel

theorem putU32_getU32 (p : Bytes) (i : Nat) :
    putU32 (getU32 p i) = [p.getD i 0, p.getD (i + 1) 0, p.getD (i + 2) 0, p.getD (i + 3) 0] := by
  rw [getU32, putU32_xor, putU32_xor, putU32_xor]
  generalize p.getD i 0 = a
  generalize p.getD (i + 1) 0 = b
  generalize p.getD (i + 2) 0 = c
  generalize p.getD (i + 3) 0 = d
  have h3 := shl3 ⟨a.toNat, a.toNat_lt⟩
  have h2 := shl2 ⟨b.toNat, b.toNat_lt⟩
  have h1 := shl1 ⟨c.toNat, c.toNat_lt⟩
  have h0 := shl0 ⟨d.toNat, d.toNat_lt⟩
  simp only [UInt8.ofNat_toNat] at h0 h1 h2 h3
  rw [h0, h1, h2, h3]
  simp

end Noise.Aes
