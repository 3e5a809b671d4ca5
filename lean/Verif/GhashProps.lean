import Verif.Ghash
import Verif.Sp80038D
import Verif.BigEndian
import Verif.Chunks
import Mathlib.Data.List.Induction
import Mathlib.Tactic.IntervalCases
/-!
# GHASH: the code computes the function of SP 800-38D

For both word sizes and both byte orders, and however the data is cut into pieces.
-/

namespace Noise.Ghash

open Fips180 (beNat beBytes)
open Sp80038D (byteBits bits bitsNat unbits xorBits xorBytes mulBits mulStep shift ghash)

/-! ## Bit strings and numbers -/

/-- The low `n` bits of a number, the most significant first. -/
def wbits (n v : Nat) : List Bool := (List.range n).map fun i => v.testBit (n - 1 - i)

theorem wbits_length (n v : Nat) : (wbits n v).length = n := by simp [wbits]

theorem byteBits_eq (b : UInt8) : byteBits b = wbits 8 b.toNat := rfl

theorem wbits_get (n v i : Nat) (h : i < (wbits n v).length) : (wbits n v)[i] = v.testBit (n - 1 - i) := by
  simp [wbits]

theorem wbits_append (n k v : Nat) : wbits (n + k) v = wbits n (v / 2 ^ k) ++ wbits k v := by
  apply List.ext_getElem
  · simp [wbits_length]
  · intro i h1 h2
    rw [wbits_length] at h1
    rw [List.getElem_append, wbits_get]
    split
    · rename_i h
      rw [wbits_length] at h
      rw [wbits_get, Nat.testBit_div_two_pow]
      congr 1; omega
    · rename_i h
      rw [wbits_length] at h
      rw [wbits_get, wbits_length]
      congr 1; omega

theorem wbits_mod (n v : Nat) : wbits n (v % 2 ^ n) = wbits n v := by
  apply List.map_congr_left
  intro i hi
  rw [List.mem_range] at hi
  rw [Nat.testBit_mod_two_pow]
  simp; omega

theorem bits_beBytes (n v : Nat) : bits (beBytes n v) = wbits (8 * n) v := by
  induction n generalizing v with
  | zero => rfl
  | succ n ih =>
    rw [beBytes, bits, List.flatMap_append]
    change bits _ ++ _ = _
    rw [ih, Nat.mul_succ, wbits_append]
    congr 1
    rw [List.flatMap_singleton, byteBits_eq, UInt8.toNat_ofNat', Nat.mod_eq_of_lt (b := 2 ^ 8) (by omega),
      show 256 = 2 ^ 8 from rfl, wbits_mod]

theorem bitsNat_append (x : List Bool) (b : Bool) : bitsNat (x ++ [b]) = 2 * bitsNat x + b.toNat := by
  simp [bitsNat]

theorem bitsNat_wbits (n v : Nat) : bitsNat (wbits n v) = v % 2 ^ n := by
  induction n generalizing v with
  | zero => rw [Nat.pow_zero, Nat.mod_one]; rfl
  | succ n ih =>
    rw [wbits_append n 1, show wbits 1 v = [v.testBit 0] from rfl, bitsNat_append, ih, Nat.testBit_zero]
    have h := Nat.mod_mul (a := 2) (b := 2 ^ n) (x := v)
    rw [Nat.pow_succ' (n := n), h, Nat.pow_one]
    rcases Nat.mod_two_eq_zero_or_one v with h | h
    · simp [h]
    · simp [h]; omega

theorem unbits_wbits (n v : Nat) : unbits (wbits (8 * n) v) = beBytes n v := by
  rw [unbits, wbits_length, bitsNat_wbits, Nat.mul_div_cancel_left n (by omega), Nat.pow_mul]
  exact BigEndian.beBytes_mod n v

theorem beNat_snoc (m : Bytes) (b : UInt8) : beNat (m ++ [b]) = 256 * beNat m + b.toNat := by simp [beNat]

theorem beNat_lt (m : Bytes) : beNat m < 256 ^ m.length := by
  induction m using List.reverseRecOn with
  | nil => decide
  | append_singleton m b ih =>
    rw [beNat_snoc, List.length_append, List.length_singleton, Nat.pow_succ]
    have := b.toNat_lt
    omega

theorem beBytes_beNat (m : Bytes) : beBytes m.length (beNat m) = m := by
  induction m using List.reverseRecOn with
  | nil => rfl
  | append_singleton m b ih =>
    have hb := b.toNat_lt
    rw [List.length_append, List.length_singleton, beBytes, beNat_snoc,
      show (256 * beNat m + b.toNat) / 256 = beNat m by omega,
      show (256 * beNat m + b.toNat) % 256 = b.toNat by omega, ih, UInt8.ofNat_toNat]

theorem beNat_beBytes (n v : Nat) : beNat (beBytes n v) = v % 256 ^ n := by
  induction n generalizing v with
  | zero => rw [Nat.pow_zero, Nat.mod_one]; rfl
  | succ n ih =>
    rw [beBytes, beNat_snoc, ih, UInt8.toNat_ofNat', Nat.pow_succ' (n := n), Nat.mod_mul (a := 256)]
    omega

theorem bits_eq (m : Bytes) : bits m = wbits (8 * m.length) (beNat m) := by
  conv_lhs => rw [← beBytes_beNat m]
  exact bits_beBytes _ _

theorem unbits_bits (m : Bytes) : unbits (bits m) = m := by rw [bits_eq, unbits_wbits, beBytes_beNat]

theorem bits_length (m : Bytes) : (bits m).length = 8 * m.length := by rw [bits_eq, wbits_length]

theorem wbits_xor (n a b : Nat) : wbits n (a ^^^ b) = xorBits (wbits n a) (wbits n b) := by
  apply List.ext_getElem
  · simp [wbits_length, xorBits]
  · intro i h1 h2
    simp only [xorBits, List.getElem_zipWith, wbits_get, Nat.testBit_xor]

theorem wbits_zero (n : Nat) : wbits n 0 = List.replicate n false := by
  apply List.ext_getElem
  · simp [wbits_length]
  · intro i h1 h2
    simp [wbits_get]

/-! ## Shifting -/

theorem xorBits_append (a b c d : List Bool) (h : a.length = c.length) :
    xorBits (a ++ b) (c ++ d) = xorBits a c ++ xorBits b d := List.zipWith_append h

theorem xorBits_zeros (x : List Bool) (n : Nat) (h : x.length = n) : xorBits x (List.replicate n false) = x := by
  subst h
  apply List.ext_getElem <;> simp [xorBits]

/-- A word shifted right, with the bit `p` coming in. -/
theorem wbits_shr (n v p : Nat) (hp : p < 2) :
    wbits (n + 1) ((v / 2) % 2 ^ n + p * 2 ^ n) = decide (p = 1) :: (wbits (n + 1) v).dropLast := by
  rw [show wbits (n + 1) v = wbits n (v / 2 ^ 1) ++ wbits 1 v from wbits_append n 1 v,
    show wbits 1 v = [v.testBit 0] from rfl, List.dropLast_concat, show n + 1 = 1 + n from Nat.add_comm _ _, wbits_append]
  have h2 : 0 < 2 ^ n := Nat.pow_pos (by omega)
  have h3 := Nat.mod_lt (v / 2) h2
  have h1 : (v / 2 % 2 ^ n + p * 2 ^ n) / 2 ^ n = p := by
    rw [Nat.add_mul_div_right _ _ h2, Nat.div_eq_of_lt h3, Nat.zero_add]
  rw [h1, Nat.pow_one, ← wbits_mod n (_ + _), Nat.add_mul_mod_self_right, Nat.mod_mod, wbits_mod]
  have : p = 0 ∨ p = 1 := by omega
  rcases this with rfl | rfl <;> rfl

theorem wbits_last (n v : Nat) : (wbits (n + 1) v).getLast? = some (v.testBit 0) := by
  rw [wbits_append n 1, show wbits 1 v = [v.testBit 0] from rfl, List.getLast?_concat]

theorem wbits_ne (n v : Nat) : wbits (n + 1) v ≠ [] := by
  intro h
  have := wbits_length (n + 1) v
  rw [h] at this
  simp at this

theorem shift_eq (V : List Bool) (b : Bool) (h : V.getLast? = some b) :
    shift V = if b = true then xorBits (false :: V.dropLast) Sp80038D.R else false :: V.dropLast := by
  unfold shift
  simp only [h, Option.some.injEq]

/-! ## The loops -/

/-- The two values of algorithm 1 that the variables of the code stand for. -/
theorem inner_eq {S : Type} (step : S → UInt8 → S) (zv : S → List Bool × List Bool)
    (hstep : ∀ s v, zv (step s v) = mulStep (zv s) (v.toNat.testBit 7))
    (inner : Nat → S → UInt8 → S) (h0 : ∀ s v, inner 0 s v = s)
    (h1 : ∀ n s v, inner (n + 1) s v = inner n (step s v) (v <<< 1)) (n : Nat) (hn : n ≤ 8) (s : S) (v : UInt8) :
    zv (inner n s v) = ((List.range n).map fun i => v.toNat.testBit (7 - i)).foldl mulStep (zv s) := by
  induction n generalizing s v with
  | zero => rw [h0]; rfl
  | succ n ih =>
    rw [h1, ih (by omega), hstep, List.range_succ_eq_map, List.map_cons, List.foldl_cons, List.map_map]
    congr 1
    apply List.map_congr_left
    intro i hi
    rw [List.mem_range] at hi
    rw [UInt8.toNat_shiftLeft, show (1 : UInt8).toNat % 8 = 1 from rfl, Nat.testBit_mod_two_pow, Nat.testBit_shiftLeft]
    simp only [Function.comp, Nat.succ_eq_add_one]
    rw [show 7 - i - 1 = 7 - (i + 1) by omega]
    have h3 : 7 - i < 8 := by omega
    have h4 : 7 - i ≥ 1 := by omega
    simp [h3, h4]

theorem outer_eq {S : Type} (inner : S → UInt8 → S) (zv : S → List Bool × List Bool)
    (hi : ∀ s v, zv (inner s v) = (byteBits v).foldl mulStep (zv s)) (Y : Bytes) (s : S) :
    zv (Y.foldl inner s) = (bits Y).foldl mulStep (zv s) := by
  induction Y generalizing s with
  | nil => rfl
  | cons y Y ih =>
    have e : bits (y :: Y) = byteBits y ++ bits Y := rfl
    rw [List.foldl_cons, ih, hi, e, List.foldl_append]

theorem fold_range {S : Type} (f : S → UInt8 → S) (Y : Bytes) (s : S) (h : Y.length = 16) :
    (List.range 16).foldl (fun s posn => f s (Y.getD posn 0)) s = Y.foldl f s := by
  have : Y = (List.range 16).map fun i => Y.getD i 0 := by
    apply List.ext_getElem
    · simp [h]
    · intro i h1 h2
      simp [h1]
  conv_rhs => rw [this, List.foldl_map]

theorem mask8 (v : UInt8) : (v >>> 7) = if v.toNat.testBit 7 then 1 else 0 := by
  apply UInt8.toNat_inj.mp
  have h := v.toNat_lt
  rw [UInt8.toNat_shiftRight, show (7 : UInt8).toNat % 8 = 7 from rfl, Nat.shiftRight_eq_div_pow]
  rw [Nat.testBit_eq_decide_div_mod_eq]
  by_cases h1 : v.toNat / 2 ^ 7 % 2 = 1
  · simp only [h1, decide_true, if_true]
    rw [show (1 : UInt8).toNat = 1 from rfl]; omega
  · simp only [h1, decide_false]
    simp; omega

/-! ## 64-bit words -/

namespace W64

theorem swap_bit (x : UInt64) (i : Nat) (h : i < 64) :
    (swapEndian false x).toNat.testBit i = x.toNat.testBit (56 - 8 * (i / 8) + i % 8) := by
  have hx := x.toNat_lt
  simp only [swapEndian, Bool.false_eq_true, if_false, UInt64.toNat_or, UInt64.toNat_and, UInt64.toNat_shiftLeft,
    UInt64.toNat_shiftRight, Nat.testBit_or, Nat.testBit_and, Nat.testBit_shiftRight, Nat.testBit_mod_two_pow,
    Nat.testBit_shiftLeft]
  interval_cases i <;> simp [Nat.testBit_eq_decide_div_mod_eq]

theorem swap_byte (x k l : UInt64) (j : Nat) (hj : j < 8) (hk : k.toNat = 8 * j) (hl : l.toNat = 56 - 8 * j) :
    (swapEndian false x >>> k).toUInt8 = (x >>> l).toUInt8 := by
  apply UInt8.toNat_inj.mp
  rw [UInt64.toNat_toUInt8, UInt64.toNat_toUInt8, UInt64.toNat_shiftRight, UInt64.toNat_shiftRight, hk, hl,
    Nat.mod_eq_of_lt (a := 8 * j) (by omega), Nat.mod_eq_of_lt (a := 56 - 8 * j) (by omega)]
  apply Nat.eq_of_testBit_eq
  intro i
  rw [Nat.testBit_mod_two_pow, Nat.testBit_mod_two_pow, Nat.testBit_shiftRight, Nat.testBit_shiftRight]
  by_cases hi : i < 8
  · rw [swap_bit _ _ (by omega), show 56 - 8 * ((8 * j + i) / 8) + (8 * j + i) % 8 = 56 - 8 * j + i by omega]
  · simp [hi]

theorem shr_zero (x : UInt64) : x >>> 0 = x := by
  apply UInt64.toNat_inj.mp
  rw [UInt64.toNat_shiftRight]
  rfl

/-- The bytes of a swapped word in memory are in big endian order. -/
theorem put_swap (big : Bool) (x : UInt64) : put big (swapEndian big x) = beBytes 8 x.toNat := by
  rw [← BigEndian.write64]
  cases big with
  | true => rfl
  | false =>
    have h0 := swap_byte x 0 56 0 (by omega) rfl rfl
    have h7 := swap_byte x 56 0 7 (by omega) rfl rfl
    rw [shr_zero] at h0 h7
    simp only [put, Bool.false_eq_true, if_false]
    rw [h0, h7, swap_byte x 8 48 1 (by omega) rfl rfl, swap_byte x 16 40 2 (by omega) rfl rfl,
      swap_byte x 24 32 3 (by omega) rfl rfl, swap_byte x 32 24 4 (by omega) rfl rfl,
      swap_byte x 40 16 5 (by omega) rfl rfl, swap_byte x 48 8 6 (by omega) rfl rfl]

theorem get_true (m : Bytes) (i : Nat) (h : i + 8 ≤ m.length) :
    get true m i = UInt64.ofNat (beNat ((m.drop i).take 8)) := by
  rw [BigEndian.take8 m i h, BigEndian.beNat8]
  exact BigEndian.read64 _ _ _ _ _ _ _ _

theorem get_false (m : Bytes) (i : Nat) (h : i + 8 ≤ m.length) :
    get false m i = UInt64.ofNat (beNat ((m.drop i).take 8).reverse) := by
  rw [BigEndian.take8 m i h]
  simp only [List.reverse_cons, List.reverse_nil, List.nil_append, List.cons_append]
  rw [BigEndian.beNat8]
  exact BigEndian.read64 _ _ _ _ _ _ _ _

theorem put_false (x : UInt64) : (put false x).reverse = beBytes 8 x.toNat := by
  rw [← BigEndian.write64]; rfl

theorem toNat_ofNat_beNat (m : Bytes) (h : m.length = 8) : (UInt64.ofNat (beNat m)).toNat = beNat m := by
  have h1 : beNat m < 2 ^ 64 := by
    have := beNat_lt m
    rwa [h, show 256 ^ 8 = 2 ^ 64 by decide] at this
  rw [UInt64.toNat_ofNat', Nat.mod_eq_of_lt h1]

theorem swap_true (x : UInt64) : swapEndian true x = x := by rw [swapEndian, if_pos rfl]

/-- A word read from memory and swapped is in big endian order. -/
theorem swap_get (big : Bool) (m : Bytes) (i : Nat) (h : i + 8 ≤ m.length) :
    swapEndian big (get big m i) = UInt64.ofNat (beNat ((m.drop i).take 8)) := by
  cases big with
  | true => rw [swap_true, get_true m i h]
  | false =>
    have hl : ((m.drop i).take 8).length = 8 := by simp; omega
    have h1 := put_swap false (get false m i)
    have h2 := put_false (swapEndian false (get false m i))
    rw [h1, get_false m i h, toNat_ofNat_beNat _ (by rw [List.length_reverse, hl])] at h2
    have h3 := beBytes_beNat ((m.drop i).take 8).reverse
    rw [List.length_reverse, hl] at h3
    rw [h3, List.reverse_reverse] at h2
    rw [get_false m i h]
    generalize swapEndian false (UInt64.ofNat (beNat ((m.drop i).take 8).reverse)) = y at h2 ⊢
    apply UInt64.toNat_inj.mp
    rw [toNat_ofNat_beNat _ hl, h2, beNat_beBytes]
    exact (Nat.mod_eq_of_lt (UInt64.toNat_lt _)).symm

/-- The values of algorithm 1. -/
def zv (s : Vars) : List Bool × List Bool :=
  (wbits 64 s.Z0.toNat ++ wbits 64 s.Z1.toNat, wbits 64 s.V0.toNat ++ wbits 64 s.V1.toNat)

theorem mask_eq (v : UInt8) : ~~~((v >>> 7).toUInt64) + 1 =
    if v.toNat.testBit 7 then 0xFFFFFFFFFFFFFFFF else 0 := by
  rw [mask8]
  split <;> rfl

theorem and_ones (x : UInt64) : x &&& 0xFFFFFFFFFFFFFFFF = x := UInt64.and_neg_one

theorem low_eq (x : UInt64) : (~~~(x &&& 0x01) + 1) = if x.toNat.testBit 0 then 0xFFFFFFFFFFFFFFFF else 0 := by
  have h : x &&& 0x01 = if x.toNat.testBit 0 then 1 else 0 := by
    apply UInt64.toNat_inj.mp
    rw [UInt64.toNat_and, show (0x01 : UInt64).toNat = 1 from rfl, Nat.and_one_is_mod, Nat.testBit_zero]
    rcases Nat.mod_two_eq_zero_or_one x.toNat with h | h <;> simp [h]
  rw [h]
  split <;> rfl

theorem shr_nat (x : UInt64) : (x >>> 1).toNat = x.toNat / 2 := by
  rw [UInt64.toNat_shiftRight, show (1 : UInt64).toNat % 64 = 1 from rfl, Nat.shiftRight_eq_div_pow, Nat.pow_one]

theorem shr_carry (x p : UInt64) : ((x >>> 1) ||| (p <<< 63)).toNat = (x.toNat / 2) % 2 ^ 63 + p.toNat % 2 * 2 ^ 63 := by
  have hx := x.toNat_lt
  rw [UInt64.toNat_or, shr_nat, UInt64.toNat_shiftLeft, show (63 : UInt64).toNat % 64 = 63 from rfl, Nat.shiftLeft_eq,
    Nat.or_comm]
  have : p.toNat * 2 ^ 63 % 2 ^ 64 = p.toNat % 2 * 2 ^ 63 := by omega
  have h2 : x.toNat / 2 < 2 ^ 63 := by omega
  rw [this, BigEndian.or_add 63 _ _ (Nat.mul_mod_left _ _) h2, Nat.mod_eq_of_lt h2, Nat.add_comm]

theorem decide_mod (p : Nat) : decide (p % 2 = 1) = p.testBit 0 := by rw [Nat.testBit_zero]

theorem wbits_shr64 (x p : UInt64) : wbits 64 ((x >>> 1) ||| (p <<< 63)).toNat =
    p.toNat.testBit 0 :: (wbits 64 x.toNat).dropLast := by
  rw [shr_carry, wbits_shr 63 _ _ (by omega), decide_mod]

theorem wbits_shr64_zero (x : UInt64) : wbits 64 (x >>> 1).toNat = false :: (wbits 64 x.toNat).dropLast := by
  have hx := x.toNat_lt
  have := wbits_shr 63 x.toNat 0 (by omega)
  have e : x.toNat / 2 % 2 ^ 63 + 0 * 2 ^ 63 = x.toNat / 2 := by
    rw [Nat.zero_mul, Nat.mod_eq_of_lt (by omega)]; rfl
  rw [e] at this
  rw [shr_nat]
  exact this

theorem split_last (l : List Bool) (b : Bool) (h : l.getLast? = some b) : l = l.dropLast ++ [b] := by
  rw [List.getLast?_eq_some_iff] at h
  obtain ⟨ys, rfl⟩ := h
  simp

theorem R_eq : Sp80038D.R = wbits 64 0xE100000000000000 ++ wbits 64 0 := by decide +kernel

theorem step_eq (s : Vars) (v : UInt8) : zv (step s v) = mulStep (zv s) (v.toNat.testBit 7) := by
  have hl : ∀ x, (wbits 64 x).length = 64 := wbits_length 64
  refine Prod.ext ?_ ?_
  · simp only [zv, step, mulStep]
    rw [mask_eq]
    split
    · rw [and_ones, and_ones, UInt64.toNat_xor, UInt64.toNat_xor, wbits_xor, wbits_xor,
        xorBits_append _ _ _ _ (by rw [hl, hl])]
    · rw [UInt64.and_zero, UInt64.and_zero, UInt64.xor_zero, UInt64.xor_zero]
  · simp only [zv, step, mulStep]
    rw [low_eq, shift_eq _ _ (by rw [List.getLast?_append, wbits_last 63, Option.some_or])]
    have hd : (wbits 64 s.V0.toNat ++ wbits 64 s.V1.toNat).dropLast =
        (wbits 64 s.V0.toNat).dropLast ++ s.V0.toNat.testBit 0 :: (wbits 64 s.V1.toNat).dropLast := by
      rw [List.dropLast_append_of_ne_nil (wbits_ne 63 _)]
      conv_lhs => rw [split_last _ _ (wbits_last 63 s.V0.toNat), List.append_assoc]
      rfl
    rw [wbits_shr64, hd]
    by_cases hb : s.V1.toNat.testBit 0 = true
    · rw [if_pos hb, if_pos hb, UInt64.and_comm, and_ones, UInt64.toNat_xor, wbits_xor, wbits_shr64_zero, R_eq,
        ← List.cons_append, xorBits_append]
      · congr 1
        rw [wbits_zero, xorBits_zeros]
        simp [hl]
      · simp [hl]
    · rw [if_neg hb, if_neg hb, UInt64.zero_and, UInt64.xor_zero, wbits_shr64_zero]
      rfl

theorem mul_eq (big : Bool) (Y key : Bytes) (hY : Y.length = 16) (hk : key.length = 16) :
    mul big Y (mulInit big key) = Sp80038D.mul Y key := by
  have hin : ∀ s v, zv (inner 8 s v) = (byteBits v).foldl mulStep (zv s) := fun s v =>
    inner_eq step zv step_eq inner (fun _ _ => rfl) (fun _ _ _ => rfl) 8 (by omega) s v
  have hl8 : ((key.drop 8).take 8).length = 8 := by simp; omega
  have hl0 : ((key.drop 0).take 8).length = 8 := by simp; omega
  simp only [mul, mulInit]
  rw [fold_range (fun s v => inner 8 s v) Y _ hY, put_swap, put_swap, swap_get _ _ _ (by omega), swap_get _ _ _ (by omega)]
  generalize hs : (⟨0, 0, UInt64.ofNat (beNat ((key.drop 0).take 8)), UInt64.ofNat (beNat ((key.drop 8).take 8))⟩ : Vars) = s
  have hz : zv s = (List.replicate 128 false, bits key) := by
    rw [← hs]
    refine Prod.ext ?_ ?_
    · simp only [zv]
      rw [show (0 : UInt64).toNat = 0 from rfl, wbits_zero]
      rfl
    · simp only [zv]
      rw [toNat_ofNat_beNat _ hl0, toNat_ofNat_beNat _ hl8]
      have h0 := bits_eq ((key.drop 0).take 8)
      have h8 := bits_eq ((key.drop 8).take 8)
      rw [hl0] at h0
      rw [hl8] at h8
      rw [← h0, ← h8, bits, bits, ← List.flatMap_append, List.drop_zero, List.take_of_length_le (l := key.drop 8) (by simp; omega),
        List.take_append_drop]
      rfl
  have h := outer_eq (fun s v => inner 8 s v) zv hin Y s
  rw [hz] at h
  have h1 := congrArg Prod.fst h
  simp only [zv] at h1
  rw [Sp80038D.mul, mulBits, ← h1]
  generalize List.foldl (fun s v => inner 8 s v) s Y = t
  rw [← unbits_bits (beBytes 8 t.Z0.toNat ++ beBytes 8 t.Z1.toNat), bits, List.flatMap_append]
  change unbits (bits _ ++ bits _) = _
  rw [bits_beBytes, bits_beBytes]

end W64

/-! ## 32-bit words -/

namespace W32

open W64 (split_last decide_mod)

theorem swap_bit (x : UInt32) (i : Nat) (h : i < 32) :
    (swapEndian false x).toNat.testBit i = x.toNat.testBit (24 - 8 * (i / 8) + i % 8) := by
  have hx := x.toNat_lt
  simp only [swapEndian, Bool.false_eq_true, if_false, UInt32.toNat_or, UInt32.toNat_and, UInt32.toNat_shiftLeft,
    UInt32.toNat_shiftRight, Nat.testBit_or, Nat.testBit_and, Nat.testBit_shiftRight, Nat.testBit_mod_two_pow,
    Nat.testBit_shiftLeft]
  interval_cases i <;> simp [Nat.testBit_eq_decide_div_mod_eq]

theorem swap_byte (x k l : UInt32) (j : Nat) (hj : j < 4) (hk : k.toNat = 8 * j) (hl : l.toNat = 24 - 8 * j) :
    (swapEndian false x >>> k).toUInt8 = (x >>> l).toUInt8 := by
  apply UInt8.toNat_inj.mp
  rw [UInt32.toNat_toUInt8, UInt32.toNat_toUInt8, UInt32.toNat_shiftRight, UInt32.toNat_shiftRight, hk, hl,
    Nat.mod_eq_of_lt (a := 8 * j) (by omega), Nat.mod_eq_of_lt (a := 24 - 8 * j) (by omega)]
  apply Nat.eq_of_testBit_eq
  intro i
  rw [Nat.testBit_mod_two_pow, Nat.testBit_mod_two_pow, Nat.testBit_shiftRight, Nat.testBit_shiftRight]
  by_cases hi : i < 8
  · rw [swap_bit _ _ (by omega), show 24 - 8 * ((8 * j + i) / 8) + (8 * j + i) % 8 = 24 - 8 * j + i by omega]
  · simp [hi]

theorem shr_zero (x : UInt32) : x >>> 0 = x := by
  apply UInt32.toNat_inj.mp
  rw [UInt32.toNat_shiftRight]
  rfl

/-- The bytes of a swapped word in memory are in big endian order. -/
theorem put_swap (big : Bool) (x : UInt32) : put big (swapEndian big x) = beBytes 4 x.toNat := by
  rw [← BigEndian.write32]
  cases big with
  | true => rfl
  | false =>
    have h0 := swap_byte x 0 24 0 (by omega) rfl rfl
    have h3 := swap_byte x 24 0 3 (by omega) rfl rfl
    rw [shr_zero] at h0 h3
    simp only [put, Bool.false_eq_true, if_false]
    rw [h0, h3, swap_byte x 8 16 1 (by omega) rfl rfl, swap_byte x 16 8 2 (by omega) rfl rfl]

theorem get_true (m : Bytes) (i : Nat) (h : i + 4 ≤ m.length) :
    get true m i = UInt32.ofNat (beNat ((m.drop i).take 4)) := by
  rw [BigEndian.take4 m i h, BigEndian.beNat4]
  exact BigEndian.read32 _ _ _ _

theorem get_false (m : Bytes) (i : Nat) (h : i + 4 ≤ m.length) :
    get false m i = UInt32.ofNat (beNat ((m.drop i).take 4).reverse) := by
  rw [BigEndian.take4 m i h]
  simp only [List.reverse_cons, List.reverse_nil, List.nil_append, List.cons_append]
  rw [BigEndian.beNat4]
  exact BigEndian.read32 _ _ _ _

theorem put_false (x : UInt32) : (put false x).reverse = beBytes 4 x.toNat := by
  rw [← BigEndian.write32]; rfl

theorem toNat_ofNat_beNat (m : Bytes) (h : m.length = 4) : (UInt32.ofNat (beNat m)).toNat = beNat m := by
  have h1 : beNat m < 2 ^ 32 := by
    have := beNat_lt m
    rwa [h, show 256 ^ 4 = 2 ^ 32 by decide] at this
  rw [UInt32.toNat_ofNat', Nat.mod_eq_of_lt h1]

theorem swap_true (x : UInt32) : swapEndian true x = x := by rw [swapEndian, if_pos rfl]

/-- A word read from memory and swapped is in big endian order. -/
theorem swap_get (big : Bool) (m : Bytes) (i : Nat) (h : i + 4 ≤ m.length) :
    swapEndian big (get big m i) = UInt32.ofNat (beNat ((m.drop i).take 4)) := by
  cases big with
  | true => rw [swap_true, get_true m i h]
  | false =>
    have hl : ((m.drop i).take 4).length = 4 := by simp; omega
    have h1 := put_swap false (get false m i)
    have h2 := put_false (swapEndian false (get false m i))
    rw [h1, get_false m i h, toNat_ofNat_beNat _ (by rw [List.length_reverse, hl])] at h2
    have h3 := beBytes_beNat ((m.drop i).take 4).reverse
    rw [List.length_reverse, hl] at h3
    rw [h3, List.reverse_reverse] at h2
    rw [get_false m i h]
    generalize swapEndian false (UInt32.ofNat (beNat ((m.drop i).take 4).reverse)) = y at h2 ⊢
    apply UInt32.toNat_inj.mp
    rw [toNat_ofNat_beNat _ hl, h2, beNat_beBytes]
    exact (Nat.mod_eq_of_lt (UInt32.toNat_lt _)).symm

/-- Four words as a bit string. -/
def join (a b c d : UInt32) : List Bool :=
  wbits 32 a.toNat ++ (wbits 32 b.toNat ++ (wbits 32 c.toNat ++ wbits 32 d.toNat))

/-- The values of algorithm 1. -/
def zv (s : Vars) : List Bool × List Bool := (join s.Z0 s.Z1 s.Z2 s.Z3, join s.V0 s.V1 s.V2 s.V3)

theorem mask_eq (v : UInt8) : ~~~((v >>> 7).toUInt32) + 1 = if v.toNat.testBit 7 then 0xFFFFFFFF else 0 := by
  rw [mask8]
  split <;> rfl

theorem and_ones (x : UInt32) : x &&& 0xFFFFFFFF = x := UInt32.and_neg_one

theorem low_eq (x : UInt32) : (~~~(x &&& 0x01) + 1) = if x.toNat.testBit 0 then 0xFFFFFFFF else 0 := by
  have h : x &&& 0x01 = if x.toNat.testBit 0 then 1 else 0 := by
    apply UInt32.toNat_inj.mp
    rw [UInt32.toNat_and, show (0x01 : UInt32).toNat = 1 from rfl, Nat.and_one_is_mod, Nat.testBit_zero]
    rcases Nat.mod_two_eq_zero_or_one x.toNat with h | h <;> simp [h]
  rw [h]
  split <;> rfl

theorem shr_nat (x : UInt32) : (x >>> 1).toNat = x.toNat / 2 := by
  rw [UInt32.toNat_shiftRight, show (1 : UInt32).toNat % 32 = 1 from rfl, Nat.shiftRight_eq_div_pow, Nat.pow_one]

theorem shr_carry (x p : UInt32) : ((x >>> 1) ||| (p <<< 31)).toNat = (x.toNat / 2) % 2 ^ 31 + p.toNat % 2 * 2 ^ 31 := by
  have hx := x.toNat_lt
  rw [UInt32.toNat_or, shr_nat, UInt32.toNat_shiftLeft, show (31 : UInt32).toNat % 32 = 31 from rfl, Nat.shiftLeft_eq,
    Nat.or_comm]
  have : p.toNat * 2 ^ 31 % 2 ^ 32 = p.toNat % 2 * 2 ^ 31 := by omega
  have h2 : x.toNat / 2 < 2 ^ 31 := by omega
  rw [this, BigEndian.or_add 31 _ _ (Nat.mul_mod_left _ _) h2, Nat.mod_eq_of_lt h2, Nat.add_comm]

theorem wbits_shr32 (x p : UInt32) : wbits 32 ((x >>> 1) ||| (p <<< 31)).toNat =
    p.toNat.testBit 0 :: (wbits 32 x.toNat).dropLast := by
  rw [shr_carry, wbits_shr 31 _ _ (by omega), decide_mod]

theorem wbits_shr32_zero (x : UInt32) : wbits 32 (x >>> 1).toNat = false :: (wbits 32 x.toNat).dropLast := by
  have hx := x.toNat_lt
  have := wbits_shr 31 x.toNat 0 (by omega)
  have e : x.toNat / 2 % 2 ^ 31 + 0 * 2 ^ 31 = x.toNat / 2 := by
    rw [Nat.zero_mul, Nat.mod_eq_of_lt (by omega)]; rfl
  rw [e] at this
  rw [shr_nat]
  exact this

theorem R_eq : Sp80038D.R = join 0xE1000000 0 0 0 := by decide +kernel

theorem join_xor (a b c d a' b' c' d' : UInt32) :
    join (a ^^^ a') (b ^^^ b') (c ^^^ c') (d ^^^ d') = xorBits (join a b c d) (join a' b' c' d') := by
  have hl : ∀ x, (wbits 32 x).length = 32 := wbits_length 32
  unfold join
  simp only [UInt32.toNat_xor, wbits_xor]
  rw [xorBits_append _ _ _ _ (by rw [hl, hl]), xorBits_append _ _ _ _ (by rw [hl, hl]),
    xorBits_append _ _ _ _ (by rw [hl, hl])]

theorem join_last (a b c d : UInt32) : (join a b c d).getLast? = some (d.toNat.testBit 0) := by
  unfold join
  rw [List.getLast?_append, List.getLast?_append, List.getLast?_append, wbits_last 31]
  rfl

theorem dropLast_step (x : UInt32) (l : List Bool) (h : l ≠ []) : (wbits 32 x.toNat ++ l).dropLast =
    (wbits 32 x.toNat).dropLast ++ x.toNat.testBit 0 :: l.dropLast := by
  rw [List.dropLast_append_of_ne_nil h]
  conv_lhs => rw [split_last _ _ (wbits_last 31 x.toNat), List.append_assoc]
  rfl

theorem join_shr (a b c d : UInt32) : join (a >>> 1) ((b >>> 1) ||| (a <<< 31)) ((c >>> 1) ||| (b <<< 31))
    ((d >>> 1) ||| (c <<< 31)) = false :: (join a b c d).dropLast := by
  have hn := wbits_ne 31
  unfold join
  rw [dropLast_step, dropLast_step, dropLast_step, wbits_shr32, wbits_shr32, wbits_shr32, wbits_shr32_zero]
  · simp only [List.cons_append]
  · exact hn _
  · exact fun h => hn _ (List.append_eq_nil_iff.mp h).2
  · exact fun h => hn _ (List.append_eq_nil_iff.mp (List.append_eq_nil_iff.mp h).2).2

theorem step_eq (s : Vars) (v : UInt8) : zv (step s v) = mulStep (zv s) (v.toNat.testBit 7) := by
  refine Prod.ext ?_ ?_
  · simp only [zv, step, mulStep]
    rw [mask_eq]
    split
    · rw [and_ones, and_ones, and_ones, and_ones, join_xor]
    · simp only [UInt32.and_zero, UInt32.xor_zero]
  · simp only [zv, step, mulStep]
    rw [low_eq, shift_eq _ _ (join_last ..), ← join_shr]
    by_cases hb : s.V3.toNat.testBit 0 = true
    · rw [if_pos hb, if_pos hb, UInt32.and_comm, and_ones, R_eq, ← join_xor]
      simp only [UInt32.xor_zero]
    · rw [if_neg hb, if_neg hb, UInt32.zero_and, UInt32.xor_zero]

theorem four (m : Bytes) (i : Nat) (h : i + 4 ≤ m.length) :
    wbits 32 (UInt32.ofNat (beNat ((m.drop i).take 4))).toNat = bits ((m.drop i).take 4) := by
  have hl : ((m.drop i).take 4).length = 4 := by simp; omega
  have h0 := bits_eq ((m.drop i).take 4)
  rw [hl] at h0
  rw [toNat_ofNat_beNat _ hl, h0]

theorem bits_append (a b : Bytes) : bits (a ++ b) = bits a ++ bits b := List.flatMap_append

theorem mul_eq (big : Bool) (Y key : Bytes) (hY : Y.length = 16) (hk : key.length = 16) :
    mul big Y (mulInit big key) = Sp80038D.mul Y key := by
  have hin : ∀ s v, zv (inner 8 s v) = (byteBits v).foldl mulStep (zv s) := fun s v =>
    inner_eq step zv step_eq inner (fun _ _ => rfl) (fun _ _ _ => rfl) 8 (by omega) s v
  simp only [mul, mulInit]
  rw [fold_range (fun s v => inner 8 s v) Y _ hY, put_swap, put_swap, put_swap, put_swap, swap_get _ _ _ (by omega),
    swap_get _ _ _ (by omega), swap_get _ _ _ (by omega), swap_get _ _ _ (by omega)]
  generalize hs : (⟨0, 0, 0, 0, UInt32.ofNat (beNat ((key.drop 0).take 4)), UInt32.ofNat (beNat ((key.drop 4).take 4)),
    UInt32.ofNat (beNat ((key.drop 8).take 4)), UInt32.ofNat (beNat ((key.drop 12).take 4))⟩ : Vars) = s
  have hz : zv s = (List.replicate 128 false, bits key) := by
    rw [← hs]
    refine Prod.ext ?_ ?_
    · simp only [zv, join]
      rw [show (0 : UInt32).toNat = 0 from rfl, wbits_zero]
      rfl
    · simp only [zv, join]
      rw [four _ _ (by omega), four _ _ (by omega), four _ _ (by omega), four _ _ (by omega), ← bits_append, ← bits_append,
        ← bits_append]
      congr 1
      have e : ∀ k, key.drop k = (key.drop k).take 4 ++ key.drop (k + 4) := fun k => by
        rw [← List.drop_drop, List.take_append_drop]
      have h1 := e 0
      have h2 := e 4
      have h3 := e 8
      have h4 := e 12
      simp only [Nat.zero_add, Nat.reduceAdd] at h1 h2 h3 h4
      rw [List.drop_of_length_le (i := 16) (by omega), List.append_nil] at h4
      rw [← h4, ← h3, ← h2, ← h1, List.drop_zero]
  have h := outer_eq (fun s v => inner 8 s v) zv hin Y s
  rw [hz] at h
  have h1 := congrArg Prod.fst h
  simp only [zv, join] at h1
  rw [Sp80038D.mul, mulBits, ← h1]
  generalize List.foldl (fun s v => inner 8 s v) s Y = t
  conv_lhs => rw [← unbits_bits (_ ++ _)]
  simp only [bits_append, bits_beBytes, List.append_assoc]

end W32

/-! ## Buffering -/

/-- What is needed of the field arithmetic: the product of SP 800-38D. -/
def Impl.Correct (I : Impl) : Prop :=
  ∀ Y key : Bytes, Y.length = 16 → key.length = 16 → I.mul Y (I.mulInit key) = Sp80038D.mul Y key

/-- The arithmetic on 64-bit words is multiplication of blocks, on both kinds of machine. -/
theorem word64_correct (big : Bool) : (word64 big).Correct := fun Y key hY hk => W64.mul_eq big Y key hY hk

/-- The arithmetic on 32-bit words is multiplication of blocks, on both kinds of machine. -/
theorem word32_correct (big : Bool) : (word32 big).Correct := fun Y key hY hk => W32.mul_eq big Y key hY hk

/-- GHASH of a list of blocks. -/
def acc (key : Bytes) (bs : List Bytes) : Bytes :=
  bs.foldl (fun Y B => Sp80038D.mul (xorBytes Y B) key) (List.replicate 16 0)

theorem ghash_eq (key m : Bytes) : ghash key m = acc key (chunks 16 (m.length / 16) m) := rfl

theorem mulStep_length (ZV : List Bool × List Bool) (x : Bool) (h1 : ZV.1.length = 128) (h2 : ZV.2.length = 128) :
    (mulStep ZV x).1.length = 128 ∧ (mulStep ZV x).2.length = 128 := by
  constructor
  · simp only [mulStep]
    split
    · simp [xorBits, h1, h2]
    · exact h1
  · simp only [mulStep, shift]
    have hR : Sp80038D.R.length = 128 := rfl
    split
    · simp [xorBits, h2, hR]
    · simp [h2]

theorem mulBits_length (X Y : List Bool) (h : Y.length = 128) : (mulBits X Y).length = 128 := by
  have : ∀ (X : List Bool) (ZV : List Bool × List Bool), ZV.1.length = 128 → ZV.2.length = 128 →
      (X.foldl mulStep ZV).1.length = 128 := by
    intro X
    induction X with
    | nil => intro ZV h1 _; exact h1
    | cons x X ih =>
      intro ZV h1 h2
      have := mulStep_length ZV x h1 h2
      exact ih _ this.1 this.2
  exact this X _ (by simp) h

theorem mul_length (X Y : Bytes) (h : Y.length = 16) : (Sp80038D.mul X Y).length = 16 := by
  rw [Sp80038D.mul, unbits, BigEndian.beBytes_length, mulBits_length _ _ (by rw [bits_length, h])]

theorem acc_length (key : Bytes) (bs : List Bytes) (h : key.length = 16) : (acc key bs).length = 16 := by
  have : ∀ (bs : List Bytes) (Y : Bytes), Y.length = 16 →
      (bs.foldl (fun Y B => Sp80038D.mul (xorBytes Y B) key) Y).length = 16 := by
    intro bs
    induction bs with
    | nil => intro Y hY; exact hY
    | cons b bs ih => intro Y _; exact ih _ (mul_length _ _ h)
  exact this bs _ (by simp)

theorem ghash_length (key m : Bytes) (h : key.length = 16) : (ghash key m).length = 16 := acc_length _ _ h

theorem acc_snoc (key : Bytes) (bs : List Bytes) (b : Bytes) :
    acc key (bs ++ [b]) = Sp80038D.mul (xorBytes (acc key bs) b) key := by
  simp [acc]

/-- A partial block and zeros up to 16 bytes. -/
def fill (t : Bytes) : Bytes := t ++ List.replicate (16 - t.length) 0

theorem fill_length (t : Bytes) (h : t.length ≤ 16) : (fill t).length = 16 := by simp [fill]; omega

theorem xor_into (A t d : Bytes) (hA : A.length = 16) (h : t.length + d.length ≤ 16) :
    load (xorBytes A (fill t)) t.length d.length =
      .ok (((xorBytes A (fill t)).drop t.length).take d.length) ∧
    store (xorBytes A (fill t)) t.length
      (List.zipWith (· ^^^ ·) (((xorBytes A (fill t)).drop t.length).take d.length) d) =
      .ok (xorBytes A (fill (t ++ d))) := by
  have hf : (xorBytes A (fill t)).length = 16 := by simp [xorBytes, fill_length t (by omega), hA]
  constructor
  · rw [load_ok (by omega)]
  have hz : (List.zipWith (· ^^^ ·) (((xorBytes A (fill t)).drop t.length).take d.length) d).length = d.length := by
    simp [hf]; omega
  rw [store_ok (by rw [hz]; omega), hz]
  refine congrArg Out.ok ?_
  apply List.ext_getElem
  · simp only [List.length_append, List.length_take, List.length_drop, hf, hz]
    simp only [xorBytes, List.length_zipWith, hA, fill_length (t ++ d) (by simpa using h)]
    omega
  · intro i h1 h2
    have hi : i < 16 := by
      simp only [xorBytes, List.length_zipWith, hA, fill_length (t ++ d) (by simpa using h)] at h2; omega
    simp only [List.getElem_append, List.length_append, List.length_take, hf, hz]
    by_cases c1 : i < t.length
    · rw [dif_pos (by omega), dif_pos (by omega)]
      simp only [List.getElem_take, xorBytes, List.getElem_zipWith, fill, List.getElem_append]
      rw [dif_pos c1, dif_pos (by simp; omega), dif_pos c1]
    · by_cases c2 : i < t.length + d.length
      · rw [dif_pos (by omega), dif_neg (by omega)]
        simp only [List.getElem_zipWith, List.getElem_take, List.getElem_drop, xorBytes, fill, List.getElem_append]
        rw [dif_neg (by omega), dif_pos (by simp; omega), dif_neg (by omega), List.getElem_replicate, UInt8.xor_zero]
        congr 2 <;> omega
      · rw [dif_neg (by omega)]
        simp only [List.getElem_drop, xorBytes, List.getElem_zipWith, fill, List.getElem_append]
        rw [dif_neg (by omega), dif_neg (by simp; omega), List.getElem_replicate, List.getElem_replicate]
        congr 2
        omega

/-- The last, incomplete block of `m`. -/
def tail (m : Bytes) : Bytes := m.drop (16 * (m.length / 16))

theorem tail_length (m : Bytes) : (tail m).length = m.length % 16 := by simp [tail]; omega

/-- The state after the data `m` under the hash key `key`. -/
structure Absorbed {I : Impl} (key m : Bytes) (st : State I) : Prop where
  H : st.H = I.mulInit key
  posn : st.posn = m.length % 16
  Y : st.Y = xorBytes (acc key (chunks 16 (m.length / 16) m)) (fill (tail m))

theorem xor_zeros (A : Bytes) (h : A.length = 16) : xorBytes A (List.replicate 16 0) = A := by
  apply List.ext_getElem
  · simp [xorBytes, h]
  · intro i h1 h2
    simp only [xorBytes, List.getElem_zipWith, List.getElem_replicate, UInt8.xor_zero]

theorem Absorbed.aligned {I : Impl} {key m : Bytes} {st : State I} (h : Absorbed key m st) (hk : key.length = 16)
    (hm : m.length % 16 = 0) : st.Y = ghash key m := by
  have ht : tail m = [] := List.eq_nil_of_length_eq_zero (by rw [tail_length, hm])
  rw [h.Y, ht]
  exact xor_zeros _ (acc_length _ _ hk)

theorem reset_absorbed {I : Impl} (st : State I) (key : Bytes) : Absorbed key [] (reset st (some key)) :=
  ⟨rfl, rfl, (xor_zeros (List.replicate 16 0) rfl).symm⟩

theorem reset_none_absorbed {I : Impl} {key : Bytes} {st : State I} (h : st.H = I.mulInit key) :
    Absorbed key [] (reset st none) := ⟨h, rfl, (xor_zeros (List.replicate 16 0) rfl).symm⟩

theorem tail_append (m d : Bytes) (h : m.length % 16 + d.length < 16) : tail (m ++ d) = tail m ++ d := by
  have e : (m ++ d).length / 16 = m.length / 16 := by rw [List.length_append]; omega
  rw [tail, e, List.drop_append_of_le_length (by omega)]
  rfl

theorem chunks_step (m d : Bytes) (h : m.length % 16 + d.length = 16) :
    chunks 16 ((m ++ d).length / 16) (m ++ d) = chunks 16 (m.length / 16) m ++ [tail m ++ d] := by
  have e : (m ++ d).length / 16 = m.length / 16 + 1 := by rw [List.length_append]; omega
  rw [e, chunks_snoc, chunks_prefix _ _ _ _ (by omega), List.drop_append_of_le_length (by omega)]
  change _ ++ [(tail m ++ d).take 16] = _
  rw [List.take_of_length_le (by rw [List.length_append, tail_length]; omega)]

theorem fill_full (t : Bytes) (h : t.length = 16) : fill t = t := by simp [fill, h]

theorem updateStep_absorbed {I : Impl} (hI : I.Correct) {key m : Bytes} {st : State I} (h : Absorbed key m st)
    (hk : key.length = 16) (d : Bytes) (hd : d ≠ []) :
    ∃ st' k, updateStep st d = .ok (st', d.drop k) ∧ 1 ≤ k ∧ k ≤ d.length ∧ Absorbed key (m ++ d.take k) st' := by
  have hd0 : 0 < d.length := List.length_pos_iff.mpr hd
  have hA := acc_length key (chunks 16 (m.length / 16) m) hk
  have hp := h.posn
  obtain ⟨k, hkd⟩ : ∃ k, k = if 16 - st.posn > d.length then d.length else 16 - st.posn := ⟨_, rfl⟩
  have hk1 : 1 ≤ k ∧ k ≤ d.length ∧ m.length % 16 + k ≤ 16 := by split at hkd <;> omega
  have hdt : (d.take k).length = k := by rw [List.length_take]; omega
  have hx := xor_into _ (tail m) (d.take k) hA (by rw [tail_length, hdt]; omega)
  rw [tail_length, hdt, ← hp, ← h.Y] at hx
  have e : updateStep st d = .ok (flush { st with
      Y := xorBytes (acc key (chunks 16 (m.length / 16) m)) (fill (tail m ++ d.take k)), posn := st.posn + k },
      d.drop k) := by
    unfold updateStep
    simp only [← hkd]
    rw [hx.1, Out.bind_ok, hx.2, Out.bind_ok]
    rfl
  refine ⟨_, k, e, hk1.1, hk1.2.1, ?_⟩
  · unfold flush
    simp only
    by_cases hf : st.posn + k = 16
    · rw [if_pos hf]
      have hstep := chunks_step m (d.take k) (by omega)
      have hml : (m ++ d.take k).length % 16 = 0 := by rw [List.length_append, hdt]; omega
      refine ⟨h.H, hml.symm, ?_⟩
      have ht : tail (m ++ d.take k) = [] := List.eq_nil_of_length_eq_zero (by rw [tail_length, hml])
      have hfl : (tail m ++ d.take k).length = 16 := by rw [List.length_append, tail_length, hdt]; omega
      rw [ht, hstep, acc_snoc, fill_full _ hfl]
      simp only [h.H]
      rw [hI _ _ (by simp [xorBytes, hA]; rw [List.length_append, List.length_take] at hfl; omega) hk]
      exact (xor_zeros _ (mul_length _ _ hk)).symm
    · rw [if_neg hf]
      refine ⟨h.H, by simp only [List.length_append, hdt]; omega, ?_⟩
      have e : (m ++ d.take k).length / 16 = m.length / 16 := by rw [List.length_append, hdt]; omega
      rw [tail_append _ _ (by omega), e, chunks_prefix _ _ _ _ (by omega)]

theorem updateLoop_absorbed {I : Impl} (hI : I.Correct) (n : Nat) {key m : Bytes} {st : State I}
    (h : Absorbed key m st) (hk : key.length = 16) (d : Bytes) (hn : d.length ≤ n) :
    ∃ st', updateLoop n st d = .ok st' ∧ Absorbed key (m ++ d) st' := by
  induction n generalizing m st d with
  | zero =>
    have : d = [] := List.eq_nil_of_length_eq_zero (by omega)
    subst this
    exact ⟨st, rfl, by simpa using h⟩
  | succ n ih =>
    cases d with
    | nil => exact ⟨st, rfl, by simpa using h⟩
    | cons x d =>
      obtain ⟨st', k, e, h1, h2, h3⟩ := updateStep_absorbed hI h hk (x :: d) (by simp)
      rw [updateLoop, e, Out.bind_ok]
      obtain ⟨st'', e', h'⟩ := ih h3 ((x :: d).drop k) (by rw [List.length_drop]; omega)
      rw [List.append_assoc, List.take_append_drop] at h'
      exact ⟨st'', e', h'⟩

theorem update_absorbed {I : Impl} (hI : I.Correct) {key m : Bytes} {st : State I} (h : Absorbed key m st)
    (hk : key.length = 16) (d : Bytes) : ∃ st', update st d = .ok st' ∧ Absorbed key (m ++ d) st' :=
  updateLoop_absorbed hI d.length h hk d (Nat.le_refl _)

theorem pad_absorbed {I : Impl} (hI : I.Correct) {key m : Bytes} {st : State I} (h : Absorbed key m st)
    (hk : key.length = 16) : Absorbed key (m ++ Sp80038D.pad m) (pad st) := by
  have hp := h.posn
  unfold pad Sp80038D.pad
  by_cases hm : m.length % 16 = 0
  · rw [if_neg (by omega), hm]
    simpa using h
  · rw [if_pos (by omega)]
    have hA := acc_length key (chunks 16 (m.length / 16) m) hk
    have hz : (List.replicate ((16 - m.length % 16) % 16) (0 : UInt8)).length = 16 - m.length % 16 := by
      rw [List.length_replicate]; omega
    have hstep := chunks_step m (List.replicate ((16 - m.length % 16) % 16) 0) (by omega)
    have hml : (m ++ List.replicate ((16 - m.length % 16) % 16) 0).length % 16 = 0 := by
      rw [List.length_append, hz]; omega
    refine ⟨h.H, hml.symm, ?_⟩
    have ht : tail (m ++ List.replicate ((16 - m.length % 16) % 16) 0) = [] :=
      List.eq_nil_of_length_eq_zero (by rw [tail_length, hml])
    have hfl : tail m ++ List.replicate ((16 - m.length % 16) % 16) 0 = fill (tail m) := by
      rw [fill, tail_length]
      congr 2; omega
    rw [ht, hstep, acc_snoc, hfl]
    simp only [h.H]
    rw [h.Y, hI _ _ (by simp [xorBytes, hA, fill_length _ (show (tail m).length ≤ 16 by rw [tail_length]; omega)]) hk]
    exact (xor_zeros _ (mul_length _ _ hk)).symm

theorem pad_aligned (m : Bytes) : (m ++ Sp80038D.pad m).length % 16 = 0 := by
  simp [Sp80038D.pad]; omega

/-- Calls of `ghash_update` one after the other. Not a definition of the code base. -/
def updates {I : Impl} (st : State I) : List Bytes → Out (State I)
  | [] => .ok st
  | d :: ds => do
    let st ← update st d
    updates st ds

theorem updates_absorbed {I : Impl} (hI : I.Correct) {key m : Bytes} {st : State I} (h : Absorbed key m st)
    (hk : key.length = 16) (ds : List Bytes) : ∃ st', updates st ds = .ok st' ∧ Absorbed key (m ++ ds.flatten) st' := by
  induction ds generalizing m st with
  | nil => exact ⟨st, rfl, by simpa using h⟩
  | cons d ds ih =>
    obtain ⟨st', e, h'⟩ := update_absorbed hI h hk d
    obtain ⟨st'', e', h''⟩ := ih h'
    rw [updates, e, Out.bind_ok]
    rw [List.append_assoc] at h''
    exact ⟨st'', e', h''⟩

/-- **C36**: for every key and every way of cutting the data into pieces, and whatever the state was used for
before, the code computes GHASH of SP 800-38D of the data padded with zeros. `I` is the arithmetic with 64-bit
or 32-bit words on a little or big endian machine (`word64_correct`, `word32_correct`). -/
theorem C36_ghash_of {I : Impl} (hI : I.Correct) (st : State I) (key : Bytes) (hk : key.length = 16) (ds : List Bytes) (len : Nat) :
    ∃ st1 st2, updates (reset st (some key)) ds = .ok st1 ∧
      finalize st1 len = .ok (st2, (ghash key (ds.flatten ++ Sp80038D.pad ds.flatten)).take len) := by
  obtain ⟨st1, e, h⟩ := updates_absorbed hI (reset_absorbed st key) hk ds
  rw [List.nil_append] at h
  refine ⟨st1, pad st1, e, ?_⟩
  have hp := (pad_absorbed hI h hk).aligned hk (pad_aligned _)
  have hl := ghash_length key (ds.flatten ++ Sp80038D.pad ds.flatten) hk
  unfold finalize
  simp only
  rw [hp]
  by_cases hc : len > 16
  · rw [if_pos hc, load_ok (by omega), Out.bind_ok, List.drop_zero, List.take_of_length_le (by omega),
      List.take_of_length_le (by omega)]
    rfl
  · rw [if_neg hc, load_ok (by omega), Out.bind_ok]
    rfl

/-- **C36** for the arithmetic with 64-bit words. -/
theorem C36_ghash64 (big : Bool) (st : State (word64 big)) (key : Bytes) (hk : key.length = 16) (ds : List Bytes) (len : Nat) :
    ∃ st1 st2, updates (reset st (some key)) ds = .ok st1 ∧
      finalize st1 len = .ok (st2, (ghash key (ds.flatten ++ Sp80038D.pad ds.flatten)).take len) :=
  C36_ghash_of (word64_correct big) st key hk ds len

/-- **C36** for the arithmetic with 32-bit words. -/
theorem C36_ghash32 (big : Bool) (st : State (word32 big)) (key : Bytes) (hk : key.length = 16) (ds : List Bytes) (len : Nat) :
    ∃ st1 st2, updates (reset st (some key)) ds = .ok st1 ∧
      finalize st1 len = .ok (st2, (ghash key (ds.flatten ++ Sp80038D.pad ds.flatten)).take len) :=
  C36_ghash_of (word32_correct big) st key hk ds len

/-- The reuse of a state without giving the key again (`ghash_reset` with a null key): the key set before is used. -/
theorem C36_reset_keeps_key {I : Impl} (hI : I.Correct) {key m : Bytes} {st : State I} (h : Absorbed key m st)
    (hk : key.length = 16) (ds : List Bytes) :
    ∃ st1, updates (reset st none) ds = .ok st1 ∧
      (pad st1).Y = ghash key (ds.flatten ++ Sp80038D.pad ds.flatten) := by
  obtain ⟨st1, e, h⟩ := updates_absorbed hI (reset_none_absorbed h.H) hk ds
  rw [List.nil_append] at h
  exact ⟨st1, e, (pad_absorbed hI h hk).aligned hk (pad_aligned _)⟩

/-- Test case 2 of the GCM submission through the code, in pieces of 5, 20 and 7 bytes. -/
example : (do
    let st ← updates (reset (zero (word64 false)) (some
      [0x66, 0xe9, 0x4b, 0xd4, 0xef, 0x8a, 0x2c, 0x3b, 0x88, 0x4c, 0xfa, 0x59, 0xca, 0x34, 0x2b, 0x2e]))
      [[0x03, 0x88, 0xda, 0xce, 0x60],
       [0xb6, 0xa3, 0x92, 0xf3, 0x28, 0xc2, 0xb9, 0x71, 0xb2, 0xfe, 0x78, 0, 0, 0, 0, 0, 0, 0, 0, 0],
       [0, 0, 0, 0, 0, 0, 0x80]]
    let r ← finalize st 16
    pure r.2) =
    .ok [0xf3, 0x8c, 0xbb, 0x1a, 0xd6, 0x92, 0x23, 0xdc, 0xc3, 0x45, 0x7a, 0xe5, 0xb6, 0xb0, 0xf8, 0x85] := by
  decide +kernel

end Noise.Ghash
