import Verif.NewHopeArith
/-!
# New Hope: the encodings of polynomials and hints
-/

namespace Noise.NewHope

theorem toBytesCoeff_ok (x : UInt16) : (toBytesCoeff x).toNat = x.toNat % 12289 := by
  obtain ⟨h1, h2⟩ := barrett_nat x
  unfold toBytesCoeff
  dsimp only
  generalize hb : barrettReduce x = t at *
  have e : x.toNat % 12289 = t.toNat % 12289 := by omega
  rw [e]
  have hm : (t - 12289).toNat = (65536 - 12289 + t.toNat) % 65536 := UInt16.toNat_sub ..
  by_cases c : t.toNat < 12289
  · rw [if_pos (by rw [ge_iff_le, UInt16.le_iff_toNat_le, hm]; show 32768 ≤ _; omega), Nat.mod_eq_of_lt c]
    have : ∀ m : UInt16, m ^^^ (t ^^^ m) &&& 0xFFFF = t := by
      intro m
      rw [show (t ^^^ m) &&& 0xFFFF = t ^^^ m from UInt16.and_neg_one, UInt16.xor_comm t, ← UInt16.xor_assoc,
        UInt16.xor_self, UInt16.zero_xor]
    rw [this]
  · rw [if_neg (by rw [ge_iff_le, UInt16.le_iff_toNat_le, hm]; show ¬ 32768 ≤ _; omega), UInt16.and_zero,
      UInt16.xor_zero, hm]
    omega

theorem getD_left {α : Type} {l m : List α} {z : α} {i : Nat} (h : i < l.length) : (l ++ m).getD i z = l.getD i z := by
  rw [List.getD_eq_getElem?_getD, List.getElem?_append_left h, List.getD_eq_getElem?_getD]

theorem getD_right {α : Type} {l m : List α} {z : α} {i : Nat} (h : l.length ≤ i) :
    (l ++ m).getD i z = m.getD (i - l.length) z := by
  rw [List.getD_eq_getElem?_getD, List.getElem?_append_right h, List.getD_eq_getElem?_getD]

theorem flatMap_getD {α : Type} (g : Nat → List α) (c : Nat) (z : α) (hg : ∀ i, (g i).length = c) (n i j : Nat) (hi : i < n)
    (hj : j < c) : ((List.range n).flatMap g).getD (c * i + j) z = (g i).getD j z := by
  induction n with
  | zero => omega
  | succ n ih =>
    have hl : ((List.range n).flatMap g).length = c * n := by
      rw [List.length_flatMap]
      simp only [hg, List.map_const', List.sum_replicate, List.length_range, smul_eq_mul]
      exact Nat.mul_comm _ _
    rw [List.range_succ, List.flatMap_append]
    by_cases h : i < n
    · have : c * (i + 1) ≤ c * n := Nat.mul_le_mul_left _ h
      rw [Nat.mul_add, Nat.mul_one] at this
      rw [getD_left (by omega)]
      exact ih h
    · have : i = n := by omega
      subst this
      rw [getD_right (by omega), hl, Nat.add_sub_cancel_left]
      simp only [List.flatMap_cons, List.flatMap_nil, List.append_nil]

theorem or_shl {a b k : Nat} (h : a < 2 ^ k) : a ||| b * 2 ^ k = a + b * 2 ^ k := by
  rw [← Nat.shiftLeft_eq, Nat.or_comm, ← Nat.shiftLeft_add_eq_or_of_lt h, Nat.add_comm]

theorem u16_shl (a : UInt16) (k : Nat) (hk : k < 16) : (a <<< UInt16.ofNat k).toNat = a.toNat * 2 ^ k % 65536 := by
  rw [UInt16.toNat_shiftLeft, UInt16.toNat_ofNat', Nat.mod_eq_of_lt (by omega : k < 2 ^ 16), Nat.mod_eq_of_lt hk,
    Nat.shiftLeft_eq]

theorem u16_shr (a : UInt16) (k : Nat) (hk : k < 16) : (a >>> UInt16.ofNat k).toNat = a.toNat / 2 ^ k := by
  rw [UInt16.toNat_shiftRight, UInt16.toNat_ofNat', Nat.mod_eq_of_lt (by omega : k < 2 ^ 16), Nat.mod_eq_of_lt hk,
    Nat.shiftRight_eq_div_pow]

theorem u8_shr (a : UInt8) (k : Nat) (hk : k < 8) : (a >>> UInt8.ofNat k).toNat = a.toNat / 2 ^ k := by
  rw [UInt8.toNat_shiftRight, UInt8.toNat_ofNat', Nat.mod_eq_of_lt (by omega : k < 2 ^ 8), Nat.mod_eq_of_lt hk,
    Nat.shiftRight_eq_div_pow]

theorem u16_and (a : UInt16) (k : Nat) (hk : k ≤ 16) : (a &&& UInt16.ofNat (2 ^ k - 1)).toNat = a.toNat % 2 ^ k := by
  rw [UInt16.toNat_and, UInt16.toNat_ofNat', Nat.mod_eq_of_lt, Nat.and_two_pow_sub_one_eq_mod]
  have : 2 ^ k ≤ 2 ^ 16 := Nat.pow_le_pow_right (by decide) hk
  have := Nat.two_pow_pos k
  omega

/-- The low part of one coefficient and the next one in a byte. -/
theorem byte_or {a b : UInt16} {r l : UInt16} {i j : Nat} (hr : r = UInt16.ofNat i) (hl : l = UInt16.ofNat j) (hi : i < 16)
    (hj : j < 16) (h : a.toNat / 2 ^ i < 2 ^ j) :
    ((a >>> r ||| b <<< l).toUInt8).toNat = (a.toNat / 2 ^ i + b.toNat * 2 ^ j) % 256 := by
  subst hr hl
  have e : b.toNat * 2 ^ j % 65536 = b.toNat % 2 ^ (16 - j) * 2 ^ j := by
    rw [show 65536 = 2 ^ (16 - j) * 2 ^ j by rw [← pow_add, Nat.sub_add_cancel hj.le]; rfl, Nat.mul_mod_mul_right]
  rw [UInt16.toNat_toUInt8, UInt16.toNat_or, u16_shr _ _ hi, u16_shl _ _ hj, e, or_shl h, ← e, Nat.add_mod,
    Nat.mod_mod_of_dvd _ (by decide : 2 ^ 8 ∣ 65536), ← Nat.add_mod]

theorem byte_shr {a r : UInt16} {i : Nat} (hr : r = UInt16.ofNat i) (hi : i < 16) :
    ((a >>> r).toUInt8).toNat = a.toNat / 2 ^ i % 256 := by
  subst hr
  rw [UInt16.toNat_toUInt8, u16_shr _ _ hi]

theorem byte_and (a : UInt16) : ((a &&& 0xff).toUInt8).toNat = a.toNat % 256 := by
  have e : (a &&& 0xff).toNat = a.toNat % 2 ^ 8 := u16_and a 8 (by decide)
  rw [UInt16.toNat_toUInt8, e]
  omega

/-- A higher part of a coefficient that is put next to the lower part. -/
theorem word_or {x y l : UInt16} {j : Nat} (hl : l = UInt16.ofNat j) (hj : j < 16) (hx : x.toNat < 2 ^ j)
    (hy : y.toNat < 2 ^ (16 - j)) : (x ||| y <<< l).toNat = x.toNat + y.toNat * 2 ^ j := by
  subst hl
  have : y.toNat * 2 ^ j < 65536 := by
    calc y.toNat * 2 ^ j < 2 ^ (16 - j) * 2 ^ j := Nat.mul_lt_mul_of_pos_right hy (Nat.two_pow_pos j)
      _ = 65536 := by rw [← pow_add, Nat.sub_add_cancel hj.le]; rfl
  rw [UInt16.toNat_or, u16_shl _ _ hj, Nat.mod_eq_of_lt this, or_shl hx]

theorem byte_high (x : UInt8) {r : UInt8} {i : Nat} (hr : r = UInt8.ofNat i) (hi : i < 8) :
    ((x >>> r).toUInt16).toNat = x.toNat / 2 ^ i := by
  subst hr
  rw [UInt8.toNat_toUInt16, u8_shr _ _ hi]

theorem byte_low (x : UInt8) {m : UInt16} {k : Nat} (hm : m = UInt16.ofNat (2 ^ k - 1)) (hk : k ≤ 16) :
    (x.toUInt16 &&& m).toNat = x.toNat % 2 ^ k := by
  subst hm
  rw [u16_and _ _ hk, UInt8.toNat_toUInt16]

/-- The seven bytes give the four coefficients back. -/
theorem group_ok (t : Nat → UInt16) (ht : ∀ i, (t i).toNat < 2 ^ 14) (a : Bytes) (i : Nat)
    (ha : ∀ j < 7, a.getD (7 * i + j) 0 = (toBytesGroup (t 0) (t 1) (t 2) (t 3)).getD j 0) (j : Nat) (hj : j < 4) :
    fromBytesAt a i j = t j := by
  have h0 := ht 0; have h1 := ht 1; have h2 := ht 2; have h3 := ht 3
  have b0 := (congrArg UInt8.toNat (ha 0 (by decide))).trans (byte_and (t 0))
  have b1 := (congrArg UInt8.toNat (ha 1 (by decide))).trans (byte_or (a := t 0) (b := t 1) (i := 8) (j := 6) rfl rfl
    (by decide) (by decide) (by omega))
  have b2 := (congrArg UInt8.toNat (ha 2 (by decide))).trans (byte_shr (a := t 1) (i := 2) rfl (by decide))
  have b3 := (congrArg UInt8.toNat (ha 3 (by decide))).trans (byte_or (a := t 1) (b := t 2) (i := 10) (j := 4) rfl rfl
    (by decide) (by decide) (by omega))
  have b4 := (congrArg UInt8.toNat (ha 4 (by decide))).trans (byte_shr (a := t 2) (i := 4) rfl (by decide))
  have b5 := (congrArg UInt8.toNat (ha 5 (by decide))).trans (byte_or (a := t 2) (b := t 3) (i := 12) (j := 2) rfl rfl
    (by decide) (by decide) (by omega))
  have b6 := (congrArg UInt8.toNat (ha 6 (by decide))).trans (byte_shr (a := t 3) (i := 6) rfl (by decide))
  rw [Nat.add_zero] at b0
  clear ha ht
  apply UInt16.toNat_inj.1
  obtain rfl | rfl | rfl | rfl : j = 0 ∨ j = 1 ∨ j = 2 ∨ j = 3 := by omega
  · have e := byte_low (a.getD (7 * i + 1) 0) (m := 0x3f) (k := 6) rfl (by decide)
    have u := UInt8.toNat_lt (a.getD (7 * i) 0)
    have f := word_or (x := (a.getD (7 * i) 0).toUInt16) (y := (a.getD (7 * i + 1) 0).toUInt16 &&& 0x3f) (l := 8) (j := 8)
      rfl (by decide) (by rw [UInt8.toNat_toUInt16]; omega) (by rw [e]; omega)
    refine f.trans ?_
    rw [e, UInt8.toNat_toUInt16, b0, b1]
    omega
  · have e := byte_low (a.getD (7 * i + 3) 0) (m := 0x0f) (k := 4) rfl (by decide)
    have e' := byte_high (a.getD (7 * i + 1) 0) (r := 6) (i := 6) rfl (by decide)
    have u := UInt8.toNat_lt (a.getD (7 * i + 2) 0)
    have u' := UInt8.toNat_lt (a.getD (7 * i + 1) 0)
    have f := word_or (x := ((a.getD (7 * i + 1) 0) >>> 6).toUInt16) (y := (a.getD (7 * i + 2) 0).toUInt16) (l := 2)
      (j := 2) rfl (by decide) (by rw [e']; omega) (by rw [UInt8.toNat_toUInt16]; omega)
    rw [e', UInt8.toNat_toUInt16] at f
    have f' := word_or (x := ((a.getD (7 * i + 1) 0) >>> 6).toUInt16 ||| (a.getD (7 * i + 2) 0).toUInt16 <<< 2)
      (y := (a.getD (7 * i + 3) 0).toUInt16 &&& 0x0f) (l := 10) (j := 10) rfl (by decide) (by rw [f]; omega)
      (by rw [e]; omega)
    refine f'.trans ?_
    rw [e, f, b1, b2, b3]
    omega
  · have e := byte_low (a.getD (7 * i + 5) 0) (m := 0x03) (k := 2) rfl (by decide)
    have e' := byte_high (a.getD (7 * i + 3) 0) (r := 4) (i := 4) rfl (by decide)
    have u := UInt8.toNat_lt (a.getD (7 * i + 4) 0)
    have u' := UInt8.toNat_lt (a.getD (7 * i + 3) 0)
    have f := word_or (x := ((a.getD (7 * i + 3) 0) >>> 4).toUInt16) (y := (a.getD (7 * i + 4) 0).toUInt16) (l := 4)
      (j := 4) rfl (by decide) (by rw [e']; omega) (by rw [UInt8.toNat_toUInt16]; omega)
    rw [e', UInt8.toNat_toUInt16] at f
    have f' := word_or (x := ((a.getD (7 * i + 3) 0) >>> 4).toUInt16 ||| (a.getD (7 * i + 4) 0).toUInt16 <<< 4)
      (y := (a.getD (7 * i + 5) 0).toUInt16 &&& 0x03) (l := 12) (j := 12) rfl (by decide) (by rw [f]; omega)
      (by rw [e]; omega)
    refine f'.trans ?_
    rw [e, f, b3, b4, b5]
    omega
  · have e' := byte_high (a.getD (7 * i + 5) 0) (r := 2) (i := 2) rfl (by decide)
    have u := UInt8.toNat_lt (a.getD (7 * i + 6) 0)
    have u' := UInt8.toNat_lt (a.getD (7 * i + 5) 0)
    have f := word_or (x := ((a.getD (7 * i + 5) 0) >>> 2).toUInt16) (y := (a.getD (7 * i + 6) 0).toUInt16) (l := 6)
      (j := 6) rfl (by decide) (by rw [e']; omega) (by rw [UInt8.toNat_toUInt16]; omega)
    refine f.trans ?_
    rw [e', UInt8.toNat_toUInt16, b5, b6]
    omega

theorem toBytesGroup_length (a b c d : UInt16) : (toBytesGroup a b c d).length = 7 := rfl

theorem polyToBytes_length (p : Poly) : (polyToBytes p).length = 1792 := by
  unfold polyToBytes
  rw [List.length_flatMap]
  simp only [toBytesGroup_length, List.map_const', List.sum_replicate, List.length_range, smul_eq_mul]

/-- The encoding of a polynomial gives the coefficients back, reduced. -/
theorem poly_round (p : Poly) (rest : Bytes) : polyFromBytes (polyToBytes p ++ rest) =
    (List.range N).map fun i => toBytesCoeff (p.at i) := by
  unfold polyFromBytes
  refine List.map_congr_left fun n hn => ?_
  have hn : n < 1024 := List.mem_range.1 hn
  have h := group_ok (fun j => toBytesCoeff (p.at (4 * (n / 4) + j)))
    (fun j => by rw [toBytesCoeff_ok]; omega) (polyToBytes p ++ rest) (n / 4) (fun j hj => by
      rw [getD_left (by rw [polyToBytes_length]; omega)]
      exact flatMap_getD _ 7 0 (fun _ => rfl) 256 (n / 4) j (by omega) hj) (n % 4) (by omega)
  rw [h, show 4 * (n / 4) + n % 4 = n by omega]

theorem poly_round_ok (p : Poly) (rest : Bytes) : Small (polyFromBytes (polyToBytes p ++ rest)) ∧
    ∀ i < 1024, (polyFromBytes (polyToBytes p ++ rest)).v i = p.v i := by
  rw [poly_round]
  refine ⟨small_map fun i _ => by rw [toBytesCoeff_ok]; omega, fun i hi => ?_⟩
  unfold Poly.v
  rw [at_map, if_pos hi]
  unfold val
  rw [toBytesCoeff_ok]
  exact (ZMod.natCast_eq_natCast_iff' _ _ _).2 (Nat.mod_mod _ _)

theorem decodeA_encodeA (pk : Poly) (seed : Bytes) (hs : seed.length = 32) :
    (decodeA (encodeA pk seed)).2 = seed := by
  unfold decodeA encodeA
  dsimp only
  rw [List.drop_append_of_le_length (by rw [polyToBytes_length]), List.drop_eq_nil_of_le (by rw [polyToBytes_length]),
    List.nil_append, List.take_of_length_le (by omega)]

theorem hint_nat : ∀ a < 4, ∀ b < 4, ∀ c < 4, ∀ d < 4,
    let x := (UInt16.ofNat a ||| UInt16.ofNat b <<< 2 ||| UInt16.ofNat c <<< 4 ||| UInt16.ofNat d <<< 6).toUInt8
    decodeBAt x 0 = UInt16.ofNat a ∧ decodeBAt x 1 = UInt16.ofNat b ∧ decodeBAt x 2 = UInt16.ofNat c ∧
      decodeBAt x 3 = UInt16.ofNat d := by decide +kernel

/-- The hint comes back from the second message. -/
theorem decodeB_hint (b c : Poly) (hc : ∀ i, (c.at i).toNat < 4) (i : Nat) (hi : i < 1024) :
    (decodeB (encodeB b c)).2.at i = c.at i := by
  unfold decodeB
  dsimp only
  rw [at_map, if_pos hi]
  unfold encodeB
  rw [getD_right (by rw [polyToBytes_length]; omega), polyToBytes_length, Nat.add_sub_cancel_left,
    List.getD_eq_getElem?_getD, List.getElem?_map, List.getElem?_range (by omega : i / 4 < 256)]
  have e : ∀ k, c.at k = UInt16.ofNat (c.at k).toNat := fun k => (UInt16.ofNat_toNat).symm
  have h := hint_nat _ (hc (4 * (i / 4))) _ (hc (4 * (i / 4) + 1)) _ (hc (4 * (i / 4) + 2)) _ (hc (4 * (i / 4) + 3))
  simp only [← e] at h
  show decodeBAt _ _ = _
  obtain ⟨h0, h1, h2, h3⟩ := h
  obtain hj | hj | hj | hj : i % 4 = 0 ∨ i % 4 = 1 ∨ i % 4 = 2 ∨ i % 4 = 3 := by omega
  · rw [hj, show i = 4 * (i / 4) by omega]
    simpa using h0
  · rw [hj]
    exact h1.trans (by rw [show 4 * (i / 4) + 1 = i by omega])
  · rw [hj]
    exact h2.trans (by rw [show 4 * (i / 4) + 2 = i by omega])
  · rw [hj]
    exact h3.trans (by rw [show 4 * (i / 4) + 3 = i by omega])

end Noise.NewHope
