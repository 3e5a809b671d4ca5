import Verif.KeccakProps
/-!
# `fips202.c`: the sponge
-/

namespace Noise.Keccak
open Noise.Fips202

/-! ## Bits of byte strings -/

theorem bits_get (m : Bytes) (i j : Nat) (hi : i < m.length) (hj : j < 8) :
    (bits m).getD (8 * i + j) false = (m.getD i 0).toNat.testBit j := by
  unfold bits
  rw [flatMap_get (fun b : UInt8 => (List.range 8).map fun i => b.toNat.testBit i) 8 false 0
    (fun w => by rw [List.length_map, List.length_range]) m i j hi hj,
    List.getD_eq_getElem?_getD, List.getElem?_map, List.getElem?_range hj]
  rfl

theorem bits_len (m : Bytes) : (bits m).length = 8 * m.length :=
  flatMap_len _ 8 (fun w => by rw [List.length_map, List.length_range]) m

theorem bits_append (a b : Bytes) : bits (a ++ b) = bits a ++ bits b := by
  unfold bits; rw [List.flatMap_append]

theorem bits_take (m : Bytes) (n : Nat) : bits (m.take n) = (bits m).take (8 * n) := by
  by_cases h : n ≤ m.length
  · have e := bits_append (m.take n) (m.drop n)
    rw [List.take_append_drop] at e
    have l : 8 * n = (bits (m.take n)).length := by rw [bits_len, List.length_take]; omega
    rw [e, l, List.take_left]
  · rw [List.take_of_length_le (by omega), List.take_of_length_le (by rw [bits_len]; omega)]

theorem bits_drop (m : Bytes) (n : Nat) : bits (m.drop n) = (bits m).drop (8 * n) := by
  by_cases h : n ≤ m.length
  · have e := bits_append (m.take n) (m.drop n)
    rw [List.take_append_drop] at e
    have l : 8 * n = (bits (m.take n)).length := by rw [bits_len, List.length_take]; omega
    rw [e, l, List.drop_left]
  · rw [List.drop_of_length_le (by omega), List.drop_of_length_le (by rw [bits_len]; omega)]; rfl

theorem bits_replicate (n : Nat) : bits (List.replicate n 0) = List.replicate (8 * n) false := by
  induction n with
  | zero => rfl
  | succ n ih =>
    rw [Nat.mul_succ, Nat.add_comm (8 * n) 8, ← List.replicate_append_replicate (m := 8 * n), List.replicate_succ (n := n)]
    show bits ([0] ++ List.replicate n 0) = _
    rw [bits_append, ih]
    rfl

/-! ## Words and bytes -/

theorem bit_byte (u : UInt64) (j : Nat) (hj : j < 8) : u.toUInt8.toNat.testBit j = bit u j := by
  unfold bit
  rw [UInt64.toNat_toUInt8, Nat.testBit_mod_two_pow]
  simp [hj]

theorem bit_shr8 (u : UInt64) (z : Nat) : bit (u >>> 8) z = bit u (8 + z) := by
  unfold bit
  rw [UInt64.toNat_shiftRight]
  exact Nat.testBit_shiftRight _

theorem store64From_bits (n : Nat) (u : UInt64) : bits (store64From n u) = (List.range (8 * n)).map (bit u) := by
  induction n generalizing u with
  | zero => rfl
  | succ n ih =>
    unfold store64From
    show bits ([u.toUInt8] ++ store64From n (u >>> 8)) = _
    rw [bits_append, ih, Nat.mul_succ, Nat.add_comm (8 * n) 8, List.range_add, List.map_append, List.map_map]
    congr 1
    · show List.flatMap _ [u.toUInt8] = _
      rw [List.flatMap_cons, List.flatMap_nil, List.append_nil]
      exact List.map_congr_left fun j hj => bit_byte u j (List.mem_range.1 hj)
    · exact List.map_congr_left fun j _ => bit_shr8 u j

theorem store64_bits (u : UInt64) : bits (store64 u) = (List.range 64).map (bit u) := store64From_bits 8 u

theorem bit_or (a b : UInt64) (z : Nat) : bit (a ||| b) z = (bit a z || bit b z) := by
  unfold bit; rw [UInt64.toNat_or, Nat.testBit_or]

theorem bit_shl_byte (v : UInt8) (i : Nat) (hi : i < 8) (z : Nat) (hz : z < 64) :
    bit (v.toUInt64 <<< (8 * i).toUInt64) z = (decide (z / 8 = i) && v.toNat.testBit (z % 8)) := by
  have e : ((8 * i).toUInt64).toNat = 8 * i := UInt64.toNat_ofNat_of_lt' (by unfold UInt64.size; omega)
  unfold bit
  rw [UInt64.toNat_shiftLeft, e, Nat.mod_eq_of_lt (by omega : 8 * i < 64), Nat.testBit_mod_two_pow, Nat.testBit_shiftLeft,
    UInt8.toNat_toUInt64]
  by_cases h : z / 8 = i
  · have e : z - 8 * i = z % 8 := by omega
    rw [e]; simp [h, hz]; omega
  · by_cases h8 : 8 * i ≤ z
    · rw [Nat.testBit_lt_two_pow (Nat.lt_of_lt_of_le v.toNat_lt (Nat.pow_le_pow_right (by decide) (by omega : 8 ≤ z - 8 * i)))]
      simp [h]
    · simp [h, h8]

theorem load64_bit (x : Bytes) (o z : Nat) (hz : z < 64) :
    bit (load64 x o) z = (x.getD (o + z / 8) 0).toNat.testBit (z % 8) := by
  unfold load64
  have e : List.range 8 = [0, 1, 2, 3, 4, 5, 6, 7] := rfl
  have z0 : bit 0 z = false := by unfold bit; exact Nat.zero_testBit z
  rw [e]
  simp only [List.foldl_cons, List.foldl_nil, bit_or, z0, Bool.false_or]
  rw [bit_shl_byte _ 0 (by decide) z hz, bit_shl_byte _ 1 (by decide) z hz, bit_shl_byte _ 2 (by decide) z hz,
    bit_shl_byte _ 3 (by decide) z hz, bit_shl_byte _ 4 (by decide) z hz, bit_shl_byte _ 5 (by decide) z hz,
    bit_shl_byte _ 6 (by decide) z hz, bit_shl_byte _ 7 (by decide) z hz]
  have : z / 8 = 0 ∨ z / 8 = 1 ∨ z / 8 = 2 ∨ z / 8 = 3 ∨ z / 8 = 4 ∨ z / 8 = 5 ∨ z / 8 = 6 ∨ z / 8 = 7 := by omega
  rcases this with h | h | h | h | h | h | h | h <;> simp [h]

/-! ## A block -/

theorem xorBlock_len (s : List UInt64) (r : Nat) (m : Bytes) : (xorBlock s r m).length = 25 := by
  unfold xorBlock; rw [List.length_map, List.length_range]

theorem xorBlock_ok (s : List UInt64) (hs : s.length = 25) (r : Nat) (hr : r ≤ 200) (h8 : r % 8 = 0) (m : Bytes)
    (hm : r ≤ m.length) :
    wbits (xorBlock s r m) =
      List.zipWith xor (wbits s) (bits (m.take r) ++ List.replicate (1600 - 8 * r) false) := by
  have l1 : (bits (m.take r)).length = 8 * r := by rw [bits_len, List.length_take]; omega
  have l2 : (bits (m.take r) ++ List.replicate (1600 - 8 * r) false).length = 1600 := by
    rw [List.length_append, l1, List.length_replicate]; omega
  refine list_ext_getD false (by rw [List.length_zipWith, l2, wbits_len, wbits_len, xorBlock_len, hs]; rfl) fun k hk => ?_
  rw [wbits_len, xorBlock_len] at hk
  have hk' : k < 1600 := hk
  have ez : (List.zipWith xor (wbits s) (bits (m.take r) ++ List.replicate (1600 - 8 * r) false)).getD k false =
      xor ((wbits s).getD k false) ((bits (m.take r) ++ List.replicate (1600 - 8 * r) false).getD k false) := by
    have w1 : k < (wbits s).length := by rw [wbits_len, hs]; exact hk
    simp only [List.getD_eq_getElem?_getD]
    rw [List.getElem?_zipWith, List.getElem?_eq_getElem w1, List.getElem?_eq_getElem (by rw [l2]; exact hk')]
    rfl
  rw [ez]
  have e : k = 64 * (k / 64) + k % 64 := by omega
  have g : (wbits s).getD k false = bit (s.getD (k / 64) 0) (k % 64) := by
    have := wbits_get s (k / 64) (k % 64) (by omega) (by omega)
    rwa [← e] at this
  have g' : (wbits (xorBlock s r m)).getD k false = bit ((xorBlock s r m).getD (k / 64) 0) (k % 64) := by
    have := wbits_get (xorBlock s r m) (k / 64) (k % 64) (by rw [xorBlock_len]; omega) (by omega)
    rwa [← e] at this
  have gx : (xorBlock s r m).getD (k / 64) 0 =
      if k / 64 < r / 8 then s.getD (k / 64) 0 ^^^ load64 m (8 * (k / 64)) else s.getD (k / 64) 0 := by
    unfold xorBlock
    rw [List.getD_eq_getElem?_getD, List.getElem?_map, List.getElem?_range (by omega)]
    rfl
  rw [g', g, gx]
  by_cases h : k / 64 < r / 8
  · have hb : k < 8 * r := by omega
    rw [if_pos h, bit_xor, load64_bit _ _ _ (by omega), List.getD_eq_getElem?_getD (l := bits _ ++ _),
      List.getElem?_append_left (by rw [l1]; exact hb), ← List.getD_eq_getElem?_getD]
    have e8 : k = 8 * (8 * (k / 64) + k % 64 / 8) + k % 64 % 8 := by omega
    have b := bits_get (m.take r) (8 * (k / 64) + k % 64 / 8) (k % 64 % 8) (by rw [List.length_take]; omega) (by omega)
    rw [← e8] at b
    rw [b]
    simp only [List.getD_eq_getElem?_getD]
    rw [List.getElem?_take_of_lt (by omega)]
  · rw [if_neg h, List.getD_eq_getElem?_getD (l := bits _ ++ _), List.getElem?_append_right (by rw [l1]; omega),
      List.getElem?_replicate, if_pos (by rw [l1]; omega)]
    simp

/-! ## Absorbing -/

/-- The padded message of the code: `m`, the suffix and the padding of FIPS 202 for a rate of `r` bytes. -/
def padded (r : Nat) (sfx : List Bool) (m : Bytes) : List Bool :=
  (bits m ++ sfx) ++ pad101 (8 * r) (bits m ++ sfx).length

/-- The byte `p` of the code with the suffix that it stands for. -/
structure Suffix (sfx : List Bool) (p : UInt8) : Prop where
  short : sfx.length ≤ 6
  bits : sfx ++ true :: List.replicate (7 - sfx.length) false = Fips202.bits [p]
  bits' : sfx ++ true :: List.replicate (6 - sfx.length) false ++ [true] = Fips202.bits [p ||| 128]

theorem suffix_sha3 : Suffix [false, true] 0x06 := ⟨by decide, by decide, by decide⟩
theorem suffix_shake : Suffix [true, true, true, true] 0x1f := ⟨by decide, by decide, by decide⟩

theorem lastBlock_len (r : Nat) (m : Bytes) (p : UInt8) (hm : m.length < r) : (lastBlock r m p).length = r := by
  unfold lastBlock
  simp only [List.length_set, List.length_append, List.length_replicate, List.length_cons, List.length_nil]
  omega

theorem lastBlock_ok {sfx : List Bool} {p : UInt8} (S : Suffix sfx p) (r : Nat) (m : Bytes) (hm : m.length < r) :
    bits (lastBlock r m p) = padded r sfx m := by
  have s6 := S.short
  unfold padded pad101
  rw [List.length_append, bits_len]
  by_cases h : m.length = r - 1
  · have e : lastBlock r m p = m ++ [p ||| 128] := by
      unfold lastBlock
      have e0 : r - m.length - 1 = 0 := by omega
      rw [e0, List.replicate_zero, List.append_nil, ← h]
      simp
    have ez : (8 * r - (8 * m.length + sfx.length + 2) % (8 * r)) % (8 * r) = 6 - sfx.length := by
      by_cases h6 : sfx.length = 6
      · rw [h6, show 8 * m.length + 6 + 2 = 8 * r by omega, Nat.mod_self]; simp
      · rw [Nat.mod_eq_of_lt (by omega : 8 * m.length + sfx.length + 2 < 8 * r), Nat.mod_eq_of_lt (by omega)]; omega
    rw [e, ez, bits_append, ← S.bits']
    simp
  · have hd : ∃ d, r = m.length + 2 + d := ⟨r - (m.length + 2), by omega⟩
    obtain ⟨d, rfl⟩ := hd
    have e : lastBlock (m.length + 2 + d) m p = m ++ ([p] ++ (List.replicate d 0 ++ [128])) := by
      unfold lastBlock
      have e0 : m.length + 2 + d - m.length - 1 = d + 1 := by omega
      have e1 : m.length + 2 + d - 1 = (m ++ [p] ++ List.replicate d 0).length := by
        simp only [List.length_append, List.length_replicate, List.length_cons, List.length_nil]; omega
      rw [e0, List.replicate_succ', ← List.append_assoc, e1]
      simp
    have ez : (8 * (m.length + 2 + d) - (8 * m.length + sfx.length + 2) % (8 * (m.length + 2 + d))) % (8 * (m.length + 2 + d)) =
        7 - sfx.length + (8 * d + 7) := by
      rw [Nat.mod_eq_of_lt (by omega : 8 * m.length + sfx.length + 2 < _), Nat.mod_eq_of_lt (by omega)]; omega
    have e128 : bits [128] = List.replicate 7 false ++ [true] := by decide
    rw [e, ez, bits_append, bits_append, bits_append, ← S.bits, bits_replicate, e128, ← List.replicate_append_replicate,
      ← List.replicate_append_replicate]
    simp only [List.append_assoc, List.cons_append]

theorem padded_len (r : Nat) (hr : 0 < r) (sfx : List Bool) (m : Bytes) : ∃ k, (padded r sfx m).length = 8 * r * k ∧ 0 < k := by
  unfold padded pad101
  simp only [List.length_append, List.length_cons, List.length_replicate, List.length_nil]
  generalize (bits m).length + sfx.length = L
  have hpos : 0 < 8 * r := by omega
  generalize 8 * r = x at *
  have := Nat.div_add_mod (L + 2) x
  have hlt := Nat.mod_lt (L + 2) hpos
  by_cases h : (L + 2) % x = 0
  · refine ⟨(L + 2) / x, ?_, ?_⟩
    · rw [h, Nat.sub_zero, Nat.mod_self]; omega
    · rcases Nat.eq_zero_or_pos ((L + 2) / x) with h0 | h0
      · rw [h0] at this; omega
      · exact h0
  · refine ⟨(L + 2) / x + 1, ?_, Nat.succ_pos _⟩
    rw [Nat.mod_eq_of_lt (by omega : x - (L + 2) % x < x), Nat.mul_succ]
    omega

theorem padded_cons (r : Nat) (sfx : List Bool) (m : Bytes) (hm : r ≤ m.length) :
    padded r sfx m = bits (m.take r) ++ padded r sfx (m.drop r) := by
  unfold padded pad101
  have e : (bits m ++ sfx).length = (bits (m.drop r) ++ sfx).length + 8 * r := by
    simp only [List.length_append, bits_len, List.length_drop]; omega
  have em : ((bits (m.drop r) ++ sfx).length + 8 * r + 2) % (8 * r) = ((bits (m.drop r) ++ sfx).length + 2) % (8 * r) := by
    rw [Nat.add_right_comm, Nat.add_mod_right]
  rw [e, em]
  have eb := bits_append (m.take r) (m.drop r)
  rw [List.take_append_drop] at eb
  rw [eb]
  simp only [List.append_assoc]

theorem absorbLoop_len (r n : Nat) (s : List UInt64) (hs : s.length = 25) (m : Bytes) :
    (absorbLoop r n s m).1.length = 25 := by
  induction n generalizing s m with
  | zero => exact hs
  | succ n ih =>
    unfold absorbLoop
    split
    · exact ih _ (permute_len _) _
    · exact hs

theorem absorb_succ (r n : Nat) (s p : List Bool) : Fips202.absorb r (n + 1) s p =
    Fips202.absorb r n (keccakF (List.zipWith xor s (p.take r ++ List.replicate (1600 - r) false))) (p.drop r) := rfl

theorem absorbLoop_ok {sfx : List Bool} {p : UInt8} (S : Suffix sfx p) (r : Nat) (h0 : 0 < r) (hr : r ≤ 200) (h8 : r % 8 = 0)
    (n : Nat) (s : List UInt64) (hs : s.length = 25) (m : Bytes) (hn : m.length ≤ n) :
    Fips202.absorb (8 * r) ((padded r sfx m).length / (8 * r)) (wbits s) (padded r sfx m) =
      wbits (permute (xorBlock (absorbLoop r n s m).1 r (lastBlock r (absorbLoop r n s m).2 p))) := by
  have base : ∀ (s : List UInt64) (m : Bytes), s.length = 25 → m.length < r →
      Fips202.absorb (8 * r) ((padded r sfx m).length / (8 * r)) (wbits s) (padded r sfx m) =
        wbits (permute (xorBlock s r (lastBlock r m p))) := by
    intro s m hs hm
    have L := lastBlock_len r m p hm
    rw [← lastBlock_ok S r m hm, bits_len, L, Nat.div_self (by omega), absorb_succ]
    show keccakF _ = _
    rw [permute_ok _ (xorBlock_len _ _ _), xorBlock_ok s hs r hr h8 _ (by omega), bits_take]
  induction n generalizing s m with
  | zero => exact base s m hs (by omega)
  | succ n ih =>
    unfold absorbLoop
    by_cases h : r ≤ m.length
    · rw [if_pos h, ← ih (permute (xorBlock s r m)) (permute_len _) (m.drop r) (by rw [List.length_drop]; omega)]
      have L : (bits (m.take r)).length = 8 * r := by rw [bits_len, List.length_take]; omega
      have d : (padded r sfx m).length / (8 * r) = (padded r sfx (m.drop r)).length / (8 * r) + 1 := by
        rw [padded_cons r sfx m h, List.length_append, L, Nat.add_div_left _ (by omega)]
      rw [d, absorb_succ, padded_cons r sfx m h, ← L, List.take_left, List.drop_left, L, permute_ok _ (xorBlock_len _ _ _),
        xorBlock_ok s hs r hr h8 m h]
    · rw [if_neg h]
      exact base s m hs (by omega)

theorem absorb_ok {sfx : List Bool} {p : UInt8} (S : Suffix sfx p) (r : Nat) (h0 : 0 < r) (hr : r ≤ 200) (h8 : r % 8 = 0)
    (m : Bytes) :
    Fips202.absorb (8 * r) ((padded r sfx m).length / (8 * r)) (List.replicate 1600 false) (padded r sfx m) =
      wbits (permute (absorb r m p)) := by
  have e : List.replicate 1600 false = wbits (List.replicate 25 0) := by decide +kernel
  rw [e, absorbLoop_ok S r h0 hr h8 m.length _ (List.length_replicate ..) m (Nat.le_refl _)]
  rfl

/-! ## Squeezing -/

theorem wbits_take (s : List UInt64) (n : Nat) (hn : n ≤ s.length) :
    bits ((List.range n).flatMap fun i => store64 (s.getD i 0)) = (wbits s).take (64 * n) := by
  have len : ∀ i, (store64 (s.getD i 0)).length = 8 := fun _ => rfl
  have l1 : (bits ((List.range n).flatMap fun i => store64 (s.getD i 0))).length = 64 * n := by
    rw [bits_len, flatMap_len _ 8 len, List.length_range]; omega
  refine list_ext_getD false (by rw [l1, List.length_take, wbits_len]; omega) fun k hk => ?_
  rw [l1] at hk
  have e : k = 64 * (k / 64) + k % 64 := by omega
  rw [List.getD_eq_getElem?_getD (l := List.take _ _), List.getElem?_take_of_lt hk, ← List.getD_eq_getElem?_getD]
  have g : (wbits s).getD k false = bit (s.getD (k / 64) 0) (k % 64) := by
    have := wbits_get s (k / 64) (k % 64) (by omega) (by omega)
    rwa [← e] at this
  have e8 : k = 8 * (8 * (k / 64) + k % 64 / 8) + k % 8 := by omega
  have b := bits_get ((List.range n).flatMap fun i => store64 (s.getD i 0)) (8 * (k / 64) + k % 64 / 8) (k % 8)
    (by rw [flatMap_len _ 8 len, List.length_range]; omega) (by omega)
  rw [← e8] at b
  have r : (List.range n).getD (k / 64) 0 = k / 64 := by
    rw [List.getD_eq_getElem?_getD, List.getElem?_range (by omega)]; rfl
  rw [b, g, flatMap_get _ 8 0 0 len _ _ _ (by rw [List.length_range]; omega) (by omega), r]
  have b2 := bits_get (store64 (s.getD (k / 64) 0)) (k % 64 / 8) (k % 8) (by rw [len]; omega) (by omega)
  rw [← b2, store64_bits, show 8 * (k % 64 / 8) + k % 8 = k % 64 by omega, List.getD_eq_getElem?_getD, List.getElem?_map,
    List.getElem?_range (by omega)]
  rfl

theorem squeezeBlocks_ok (r : Nat) (hr : r ≤ 200) (h8 : r % 8 = 0) (n : Nat) (s : List UInt64) (hs : s.length = 25) :
    bits (squeezeBlocks r n s).1 = squeeze (8 * r) n (wbits (permute s)) := by
  induction n generalizing s with
  | zero => rfl
  | succ n ih =>
    show bits ((List.range (r / 8)).flatMap (fun i => store64 ((permute s).getD i 0)) ++ (squeezeBlocks r n (permute s)).1) = _
    rw [bits_append, ih _ (permute_len _), wbits_take _ _ (by rw [permute_len]; omega), show 64 * (r / 8) = 8 * r by omega,
      permute_ok (permute s) (permute_len _)]
    rfl

theorem squeezeBlocks_len (r : Nat) (h8 : r % 8 = 0) (n : Nat) (s : List UInt64) : (squeezeBlocks r n s).1.length = r * n := by
  induction n generalizing s with
  | zero => rfl
  | succ n ih =>
    show ((List.range (r / 8)).flatMap (fun i => store64 ((permute s).getD i 0)) ++ (squeezeBlocks r n (permute s)).1).length = _
    rw [List.length_append, ih, flatMap_len _ 8 (fun _ => rfl), List.length_range, Nat.mul_succ]
    omega

theorem absorb_len (r : Nat) (m : Bytes) (p : UInt8) : (absorb r m p).length = 25 := xorBlock_len _ _ _

/-! ## The functions of `fips202.h` -/

/-- **C70.** `sha3256` computes SHA3-256 of FIPS 202 for every message. -/
theorem C70_sha3 (m : Bytes) : bits (sha3256 m) = sha3_256 (bits m) := by
  unfold sha3256 sha3_256 keccak sponge
  rw [bits_take, squeezeBlocks_ok 136 (by decide) (by decide) 1 _ (absorb_len _ _ _),
    ← absorb_ok suffix_sha3 136 (by decide) (by decide) (by decide) m]
  rfl

/-- **C70.** `shake128_absorb` and `shake128_squeezeblocks` give the first `n` blocks of SHAKE128 of FIPS 202. -/
theorem C70_shake (m : Bytes) (n : Nat) :
    bits (shake128SqueezeBlocks n (shake128Absorb m)).1 = shake128 (bits m) (1344 * n) := by
  unfold shake128SqueezeBlocks shake128Absorb shake128 keccak sponge
  have l := bits_len (squeezeBlocks 168 n (absorb 168 m 0x1f)).1
  rw [squeezeBlocks_len 168 (by decide)] at l
  have e : (1344 * n + (1600 - 256) - 1) / (1600 - 256) = n := by omega
  have b := squeezeBlocks_ok 168 (by decide) (by decide) n _ (absorb_len 168 m 0x1f)
  rw [b] at l
  rw [b, ← absorb_ok suffix_shake 168 (by decide) (by decide) (by decide) m] at *
  dsimp only
  rw [e]
  exact (List.take_of_length_le (by show List.length (squeeze (8 * 168) n _) ≤ _; rw [l]; omega)).symm

/-- The value for the empty message in the test vectors of NIST. -/
example : sha3256 [] =
    [0xa7, 0xff, 0xc6, 0xf8, 0xbf, 0x1e, 0xd7, 0x66, 0x51, 0xc1, 0x47, 0x56, 0xa0, 0x61, 0xd6, 0x62,
     0xf5, 0x80, 0xff, 0x4d, 0xe4, 0x3b, 0x49, 0xfa, 0x82, 0xd8, 0x0a, 0x4b, 0x80, 0xf8, 0x43, 0x4a] := by decide +kernel

theorem C70_sha3_length (m : Bytes) : (sha3256 m).length = 32 := by
  unfold sha3256
  rw [List.length_take, squeezeBlocks_len 136 (by decide)]
  rfl

theorem squeezeBlocks_add (r a b : Nat) (s : List UInt64) :
    squeezeBlocks r (a + b) s =
      ((squeezeBlocks r a s).1 ++ (squeezeBlocks r b (squeezeBlocks r a s).2).1, (squeezeBlocks r b (squeezeBlocks r a s).2).2) := by
  induction a generalizing s with
  | zero => rw [Nat.zero_add]; rfl
  | succ a ih =>
    rw [Nat.add_right_comm]
    show (_ ++ (squeezeBlocks r (a + b) (permute s)).1, (squeezeBlocks r (a + b) (permute s)).2) = _
    rw [ih]
    show (_ ++ (_ ++ _), _) = ((_ ++ _) ++ _, _)
    rw [List.append_assoc]
    rfl

end Noise.Keccak
