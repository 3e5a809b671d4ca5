import Verif.Curve448Field
/-!
# Multiplication in the field of `src/crypto/goldilocks/src/p448` with 64-bit limbs
-/

namespace Noise.Curve448

open X448 (P F)

set_option linter.unusedSimpArgs false

theorem zero_acc (x : U128) : (0 : U128) + x = x := BitVec.zero_add x

set_option maxHeartbeats 2000000 in
theorem refMul_ok {a b : Fe} (ha : a.Le M) (hb : b.Le M) :
    (refMul a b).Le M ∧ (refMul a b).ev = a.ev * b.ev := by
  have hM : M = 2 ^ 56 + 2 ^ 10 := rfl
  obtain ⟨a0, a1, a2, a3, a4, a5, a6, a7⟩ := ha
  obtain ⟨b0, b1, b2, b3, b4, b5, b6, b7⟩ := hb
  obtain ⟨res, hres⟩ : ∃ res, refMul a b = res := ⟨_, rfl⟩
  rw [hres]
  unfold refMul at hres
  extract_lets -merge +onlyGivenNames aa0 bb0 aa1 bb1 bbb1 aa2 bb2 bbb2 aa3 at hres
  extract_lets -merge +onlyGivenNames bb3 bbb3 accum0_1 accum1_1 accum2_1 accum1_2 accum0_2 accum2_2 accum1_3 at hres
  extract_lets -merge +onlyGivenNames accum0_3 accum2_3 accum1_4 accum0_4 accum2_4 accum1_5 accum0_5 accum1_6 accum0_6
      at hres
  extract_lets -merge +onlyGivenNames c0_1 c4_1 accum0_7 accum1_7 accum2_5 accum1_8 accum0_8 accum2_6 accum1_9 at hres
  extract_lets -merge +onlyGivenNames accum0_9 accum2_7 accum1_10 accum0_10 accum2_8 accum1_11 accum0_11 accum1_12
      accum0_12 at hres
  extract_lets -merge +onlyGivenNames c1_1 c5_1 accum0_13 accum1_13 accum2_9 accum1_14 accum0_14 accum2_10 accum1_15 at hres
  extract_lets -merge +onlyGivenNames accum0_15 accum2_11 accum1_16 accum0_16 accum2_12 accum1_17 accum0_17 accum1_18
      accum0_18 at hres
  extract_lets -merge +onlyGivenNames c2_1 c6_1 accum0_19 accum1_19 accum2_13 accum1_20 accum0_20 accum2_14 accum1_21 at hres
  extract_lets -merge +onlyGivenNames accum0_21 accum2_15 accum1_22 accum0_22 accum2_16 accum1_23 accum0_23 accum1_24
      accum0_24 at hres
  extract_lets -merge +onlyGivenNames c3_1 c7_1 accum0_25 accum1_25 accum0_26 accum0_27 accum1_26 c4_2 c0_2 at hres
  extract_lets -merge +onlyGivenNames accum0_28 accum1_27 c5_2 c1_2 at hres
  have haa0 : aa0.toNat = a.l0.toNat + a.l4.toNat := by
    simp only [aa0, UInt64.toNat_add]; omega
  have hbb0 : bb0.toNat = b.l0.toNat + b.l4.toNat := by
    simp only [bb0, UInt64.toNat_add]; omega
  have haa1 : aa1.toNat = a.l1.toNat + a.l5.toNat := by
    simp only [aa1, UInt64.toNat_add]; omega
  have hbb1 : bb1.toNat = b.l1.toNat + b.l5.toNat := by
    simp only [bb1, UInt64.toNat_add]; omega
  have hbbb1 : bbb1.toNat = b.l1.toNat + b.l5.toNat + b.l5.toNat := by
    simp only [bbb1, UInt64.toNat_add, hbb1]; omega
  have haa2 : aa2.toNat = a.l2.toNat + a.l6.toNat := by
    simp only [aa2, UInt64.toNat_add]; omega
  have hbb2 : bb2.toNat = b.l2.toNat + b.l6.toNat := by
    simp only [bb2, UInt64.toNat_add]; omega
  have hbbb2 : bbb2.toNat = b.l2.toNat + b.l6.toNat + b.l6.toNat := by
    simp only [bbb2, UInt64.toNat_add, hbb2]; omega
  have haa3 : aa3.toNat = a.l3.toNat + a.l7.toNat := by
    simp only [aa3, UInt64.toNat_add]; omega
  have hbb3 : bb3.toNat = b.l3.toNat + b.l7.toNat := by
    simp only [bb3, UInt64.toNat_add]; omega
  have hbbb3 : bbb3.toNat = b.l3.toNat + b.l7.toNat + b.l7.toNat := by
    simp only [bbb3, UInt64.toNat_add, hbb3]; omega
  have hn1 : accum0_6 = ((a.l4.toNat * b.l4.toNat + a.l5.toNat * b.l3.toNat + a.l5.toNat * b.l7.toNat + a.l6.toNat *
      b.l2.toNat + a.l6.toNat * b.l6.toNat + a.l7.toNat * b.l1.toNat + a.l7.toNat * b.l5.toNat + a.l0.toNat * b.l0.toNat
      + a.l1.toNat * b.l7.toNat + a.l2.toNat * b.l6.toNat + a.l3.toNat * b.l5.toNat : Nat) : U128) := by
    simp only [accum0_6, accum0_5, accum0_4, accum0_3, accum0_2, accum0_1, accum2_4, accum2_3, accum2_2, accum2_1,
        widemul_eq, wide_eq, zero_acc, haa0, hbb0, haa1, hbb1, hbbb1, haa2, hbb2, hbbb2, haa3, hbb3, hbbb3]
    push_cast; ring
  have hb1 : a.l4.toNat * b.l4.toNat + a.l5.toNat * b.l3.toNat + a.l5.toNat * b.l7.toNat + a.l6.toNat * b.l2.toNat +
      a.l6.toNat * b.l6.toNat + a.l7.toNat * b.l1.toNat + a.l7.toNat * b.l5.toNat + a.l0.toNat * b.l0.toNat + a.l1.toNat
      * b.l7.toNat + a.l2.toNat * b.l6.toNat + a.l3.toNat * b.l5.toNat < 2 ^ 120 := by
    refine lt_of_le_of_lt (b := M * M + M * M + M * M + M * M + M * M + M * M + M * M + M * M + M * M + M * M + M * M)
        (by gcongr) (by norm_num [hM])
  obtain ⟨q1, r1, he1, hqq1, hr1, hl1, hsq1⟩ := split hn1 hb1
  have hqq1' : q1 ≤ 2 ^ 64 := by omega
  have hr1' : r1 ≤ 2 ^ 56 := by omega
  clear hb1 hn1
  have hl_c0_1 : c0_1.toNat = r1 := hl1
  have hn2 : accum1_6 = ((a.l0.toNat * b.l4.toNat + a.l4.toNat * b.l0.toNat + a.l4.toNat * b.l4.toNat + a.l1.toNat *
      b.l3.toNat + a.l1.toNat * b.l7.toNat + a.l5.toNat * b.l3.toNat + a.l5.toNat * b.l7.toNat + a.l5.toNat * b.l7.toNat
      + a.l2.toNat * b.l2.toNat + a.l2.toNat * b.l6.toNat + a.l6.toNat * b.l2.toNat + a.l6.toNat * b.l6.toNat +
      a.l6.toNat * b.l6.toNat + a.l3.toNat * b.l1.toNat + a.l3.toNat * b.l5.toNat + a.l7.toNat * b.l1.toNat + a.l7.toNat
      * b.l5.toNat + a.l7.toNat * b.l5.toNat : Nat) : U128) := by
    simp only [accum1_6, accum1_5, accum1_4, accum1_3, accum1_2, accum1_1, accum2_4, accum2_3, accum2_2, accum2_1,
        widemul_eq, wide_eq, zero_acc, haa0, hbb0, haa1, hbb1, hbbb1, haa2, hbb2, hbbb2, haa3, hbb3, hbbb3, hl_c0_1]
    push_cast; ring
  have hb2 : a.l0.toNat * b.l4.toNat + a.l4.toNat * b.l0.toNat + a.l4.toNat * b.l4.toNat + a.l1.toNat * b.l3.toNat +
      a.l1.toNat * b.l7.toNat + a.l5.toNat * b.l3.toNat + a.l5.toNat * b.l7.toNat + a.l5.toNat * b.l7.toNat + a.l2.toNat
      * b.l2.toNat + a.l2.toNat * b.l6.toNat + a.l6.toNat * b.l2.toNat + a.l6.toNat * b.l6.toNat + a.l6.toNat *
      b.l6.toNat + a.l3.toNat * b.l1.toNat + a.l3.toNat * b.l5.toNat + a.l7.toNat * b.l1.toNat + a.l7.toNat * b.l5.toNat
      + a.l7.toNat * b.l5.toNat < 2 ^ 120 := by
    refine lt_of_le_of_lt (b := M * M + M * M + M * M + M * M + M * M + M * M + M * M + M * M + M * M + M * M + M * M +
        M * M + M * M + M * M + M * M + M * M + M * M + M * M) (by gcongr) (by norm_num [hM])
  obtain ⟨q2, r2, he2, hqq2, hr2, hl2, hsq2⟩ := split hn2 hb2
  have hqq2' : q2 ≤ 2 ^ 64 := by omega
  have hr2' : r2 ≤ 2 ^ 56 := by omega
  clear hb2 hn2
  have hl_c4_1 : c4_1.toNat = r2 := hl2
  have hs_accum0_7 : accum0_7 = ((q1 : Nat) : U128) := hsq1
  have hs_accum1_7 : accum1_7 = ((q2 : Nat) : U128) := hsq2
  have hn3 : accum0_12 = ((q1 + a.l4.toNat * b.l5.toNat + a.l5.toNat * b.l4.toNat + a.l6.toNat * b.l3.toNat + a.l6.toNat
      * b.l7.toNat + a.l7.toNat * b.l2.toNat + a.l7.toNat * b.l6.toNat + a.l0.toNat * b.l1.toNat + a.l1.toNat *
      b.l0.toNat + a.l2.toNat * b.l7.toNat + a.l3.toNat * b.l6.toNat : Nat) : U128) := by
    simp only [accum0_12, accum0_11, accum0_10, accum0_9, accum0_8, accum2_8, accum2_7, accum2_6, accum2_5, widemul_eq,
        wide_eq, zero_acc, haa0, hbb0, haa1, hbb1, hbbb1, haa2, hbb2, hbbb2, haa3, hbb3, hbbb3, hl_c0_1, hl_c4_1,
        hs_accum0_7, hs_accum1_7]
    push_cast; ring
  have hb3 : q1 + a.l4.toNat * b.l5.toNat + a.l5.toNat * b.l4.toNat + a.l6.toNat * b.l3.toNat + a.l6.toNat * b.l7.toNat
      + a.l7.toNat * b.l2.toNat + a.l7.toNat * b.l6.toNat + a.l0.toNat * b.l1.toNat + a.l1.toNat * b.l0.toNat +
      a.l2.toNat * b.l7.toNat + a.l3.toNat * b.l6.toNat < 2 ^ 120 := by
    refine lt_of_le_of_lt (b := 2 ^ 64 + M * M + M * M + M * M + M * M + M * M + M * M + M * M + M * M + M * M + M * M)
        (by gcongr) (by norm_num [hM])
  obtain ⟨q3, r3, he3, hqq3, hr3, hl3, hsq3⟩ := split hn3 hb3
  have hqq3' : q3 ≤ 2 ^ 64 := by omega
  have hr3' : r3 ≤ 2 ^ 56 := by omega
  clear hb3 hn3
  have hl_c1_1 : c1_1.toNat = r3 := hl3
  have hn4 : accum1_12 = ((q2 + a.l0.toNat * b.l5.toNat + a.l4.toNat * b.l1.toNat + a.l4.toNat * b.l5.toNat + a.l1.toNat
      * b.l4.toNat + a.l5.toNat * b.l0.toNat + a.l5.toNat * b.l4.toNat + a.l2.toNat * b.l3.toNat + a.l2.toNat *
      b.l7.toNat + a.l6.toNat * b.l3.toNat + a.l6.toNat * b.l7.toNat + a.l6.toNat * b.l7.toNat + a.l3.toNat * b.l2.toNat
      + a.l3.toNat * b.l6.toNat + a.l7.toNat * b.l2.toNat + a.l7.toNat * b.l6.toNat + a.l7.toNat * b.l6.toNat : Nat) :
      U128) := by
    simp only [accum1_12, accum1_11, accum1_10, accum1_9, accum1_8, accum2_8, accum2_7, accum2_6, accum2_5, widemul_eq,
        wide_eq, zero_acc, haa0, hbb0, haa1, hbb1, hbbb1, haa2, hbb2, hbbb2, haa3, hbb3, hbbb3, hl_c0_1, hl_c4_1,
        hs_accum0_7, hs_accum1_7, hl_c1_1]
    push_cast; ring
  have hb4 : q2 + a.l0.toNat * b.l5.toNat + a.l4.toNat * b.l1.toNat + a.l4.toNat * b.l5.toNat + a.l1.toNat * b.l4.toNat
      + a.l5.toNat * b.l0.toNat + a.l5.toNat * b.l4.toNat + a.l2.toNat * b.l3.toNat + a.l2.toNat * b.l7.toNat +
      a.l6.toNat * b.l3.toNat + a.l6.toNat * b.l7.toNat + a.l6.toNat * b.l7.toNat + a.l3.toNat * b.l2.toNat + a.l3.toNat
      * b.l6.toNat + a.l7.toNat * b.l2.toNat + a.l7.toNat * b.l6.toNat + a.l7.toNat * b.l6.toNat < 2 ^ 120 := by
    refine lt_of_le_of_lt (b := 2 ^ 64 + M * M + M * M + M * M + M * M + M * M + M * M + M * M + M * M + M * M + M * M +
        M * M + M * M + M * M + M * M + M * M + M * M) (by gcongr) (by norm_num [hM])
  obtain ⟨q4, r4, he4, hqq4, hr4, hl4, hsq4⟩ := split hn4 hb4
  have hqq4' : q4 ≤ 2 ^ 64 := by omega
  have hr4' : r4 ≤ 2 ^ 56 := by omega
  clear hb4 hn4
  have hl_c5_1 : c5_1.toNat = r4 := hl4
  have hs_accum0_13 : accum0_13 = ((q3 : Nat) : U128) := hsq3
  have hs_accum1_13 : accum1_13 = ((q4 : Nat) : U128) := hsq4
  have hn5 : accum0_18 = ((q3 + a.l4.toNat * b.l6.toNat + a.l5.toNat * b.l5.toNat + a.l6.toNat * b.l4.toNat + a.l7.toNat
      * b.l3.toNat + a.l7.toNat * b.l7.toNat + a.l0.toNat * b.l2.toNat + a.l1.toNat * b.l1.toNat + a.l2.toNat *
      b.l0.toNat + a.l3.toNat * b.l7.toNat : Nat) : U128) := by
    simp only [accum0_18, accum0_17, accum0_16, accum0_15, accum0_14, accum2_12, accum2_11, accum2_10, accum2_9,
        widemul_eq, wide_eq, zero_acc, haa0, hbb0, haa1, hbb1, hbbb1, haa2, hbb2, hbbb2, haa3, hbb3, hbbb3, hl_c0_1,
        hl_c4_1, hs_accum0_7, hs_accum1_7, hl_c1_1, hl_c5_1, hs_accum0_13, hs_accum1_13]
    push_cast; ring
  have hb5 : q3 + a.l4.toNat * b.l6.toNat + a.l5.toNat * b.l5.toNat + a.l6.toNat * b.l4.toNat + a.l7.toNat * b.l3.toNat
      + a.l7.toNat * b.l7.toNat + a.l0.toNat * b.l2.toNat + a.l1.toNat * b.l1.toNat + a.l2.toNat * b.l0.toNat +
      a.l3.toNat * b.l7.toNat < 2 ^ 120 := by
    refine lt_of_le_of_lt (b := 2 ^ 64 + M * M + M * M + M * M + M * M + M * M + M * M + M * M + M * M + M * M) (by
        gcongr) (by norm_num [hM])
  obtain ⟨q5, r5, he5, hqq5, hr5, hl5, hsq5⟩ := split hn5 hb5
  have hqq5' : q5 ≤ 2 ^ 64 := by omega
  have hr5' : r5 ≤ 2 ^ 56 := by omega
  clear hb5 hn5
  have hl_c2_1 : c2_1.toNat = r5 := hl5
  have hn6 : accum1_18 = ((q4 + a.l0.toNat * b.l6.toNat + a.l4.toNat * b.l2.toNat + a.l4.toNat * b.l6.toNat + a.l1.toNat
      * b.l5.toNat + a.l5.toNat * b.l1.toNat + a.l5.toNat * b.l5.toNat + a.l2.toNat * b.l4.toNat + a.l6.toNat *
      b.l0.toNat + a.l6.toNat * b.l4.toNat + a.l3.toNat * b.l3.toNat + a.l3.toNat * b.l7.toNat + a.l7.toNat * b.l3.toNat
      + a.l7.toNat * b.l7.toNat + a.l7.toNat * b.l7.toNat : Nat) : U128) := by
    simp only [accum1_18, accum1_17, accum1_16, accum1_15, accum1_14, accum2_12, accum2_11, accum2_10, accum2_9,
        widemul_eq, wide_eq, zero_acc, haa0, hbb0, haa1, hbb1, hbbb1, haa2, hbb2, hbbb2, haa3, hbb3, hbbb3, hl_c0_1,
        hl_c4_1, hs_accum0_7, hs_accum1_7, hl_c1_1, hl_c5_1, hs_accum0_13, hs_accum1_13, hl_c2_1]
    push_cast; ring
  have hb6 : q4 + a.l0.toNat * b.l6.toNat + a.l4.toNat * b.l2.toNat + a.l4.toNat * b.l6.toNat + a.l1.toNat * b.l5.toNat
      + a.l5.toNat * b.l1.toNat + a.l5.toNat * b.l5.toNat + a.l2.toNat * b.l4.toNat + a.l6.toNat * b.l0.toNat +
      a.l6.toNat * b.l4.toNat + a.l3.toNat * b.l3.toNat + a.l3.toNat * b.l7.toNat + a.l7.toNat * b.l3.toNat + a.l7.toNat
      * b.l7.toNat + a.l7.toNat * b.l7.toNat < 2 ^ 120 := by
    refine lt_of_le_of_lt (b := 2 ^ 64 + M * M + M * M + M * M + M * M + M * M + M * M + M * M + M * M + M * M + M * M +
        M * M + M * M + M * M + M * M) (by gcongr) (by norm_num [hM])
  obtain ⟨q6, r6, he6, hqq6, hr6, hl6, hsq6⟩ := split hn6 hb6
  have hqq6' : q6 ≤ 2 ^ 64 := by omega
  have hr6' : r6 ≤ 2 ^ 56 := by omega
  clear hb6 hn6
  have hl_c6_1 : c6_1.toNat = r6 := hl6
  have hs_accum0_19 : accum0_19 = ((q5 : Nat) : U128) := hsq5
  have hs_accum1_19 : accum1_19 = ((q6 : Nat) : U128) := hsq6
  have hn7 : accum0_24 = ((q5 + a.l4.toNat * b.l7.toNat + a.l5.toNat * b.l6.toNat + a.l6.toNat * b.l5.toNat + a.l7.toNat
      * b.l4.toNat + a.l0.toNat * b.l3.toNat + a.l1.toNat * b.l2.toNat + a.l2.toNat * b.l1.toNat + a.l3.toNat *
      b.l0.toNat : Nat) : U128) := by
    simp only [accum0_24, accum0_23, accum0_22, accum0_21, accum0_20, accum2_16, accum2_15, accum2_14, accum2_13,
        widemul_eq, wide_eq, zero_acc, haa0, hbb0, haa1, hbb1, hbbb1, haa2, hbb2, hbbb2, haa3, hbb3, hbbb3, hl_c0_1,
        hl_c4_1, hs_accum0_7, hs_accum1_7, hl_c1_1, hl_c5_1, hs_accum0_13, hs_accum1_13, hl_c2_1, hl_c6_1, hs_accum0_19,
        hs_accum1_19]
    push_cast; ring
  have hb7 : q5 + a.l4.toNat * b.l7.toNat + a.l5.toNat * b.l6.toNat + a.l6.toNat * b.l5.toNat + a.l7.toNat * b.l4.toNat
      + a.l0.toNat * b.l3.toNat + a.l1.toNat * b.l2.toNat + a.l2.toNat * b.l1.toNat + a.l3.toNat * b.l0.toNat < 2 ^ 120
      := by
    refine lt_of_le_of_lt (b := 2 ^ 64 + M * M + M * M + M * M + M * M + M * M + M * M + M * M + M * M) (by gcongr) (by
        norm_num [hM])
  obtain ⟨q7, r7, he7, hqq7, hr7, hl7, hsq7⟩ := split hn7 hb7
  have hqq7' : q7 ≤ 2 ^ 64 := by omega
  have hr7' : r7 ≤ 2 ^ 56 := by omega
  clear hb7 hn7
  have hl_c3_1 : c3_1.toNat = r7 := hl7
  have hn8 : accum1_24 = ((q6 + a.l0.toNat * b.l7.toNat + a.l4.toNat * b.l3.toNat + a.l4.toNat * b.l7.toNat + a.l1.toNat
      * b.l6.toNat + a.l5.toNat * b.l2.toNat + a.l5.toNat * b.l6.toNat + a.l2.toNat * b.l5.toNat + a.l6.toNat *
      b.l1.toNat + a.l6.toNat * b.l5.toNat + a.l3.toNat * b.l4.toNat + a.l7.toNat * b.l0.toNat + a.l7.toNat * b.l4.toNat
      : Nat) : U128) := by
    simp only [accum1_24, accum1_23, accum1_22, accum1_21, accum1_20, accum2_16, accum2_15, accum2_14, accum2_13,
        widemul_eq, wide_eq, zero_acc, haa0, hbb0, haa1, hbb1, hbbb1, haa2, hbb2, hbbb2, haa3, hbb3, hbbb3, hl_c0_1,
        hl_c4_1, hs_accum0_7, hs_accum1_7, hl_c1_1, hl_c5_1, hs_accum0_13, hs_accum1_13, hl_c2_1, hl_c6_1, hs_accum0_19,
        hs_accum1_19, hl_c3_1]
    push_cast; ring
  have hb8 : q6 + a.l0.toNat * b.l7.toNat + a.l4.toNat * b.l3.toNat + a.l4.toNat * b.l7.toNat + a.l1.toNat * b.l6.toNat
      + a.l5.toNat * b.l2.toNat + a.l5.toNat * b.l6.toNat + a.l2.toNat * b.l5.toNat + a.l6.toNat * b.l1.toNat +
      a.l6.toNat * b.l5.toNat + a.l3.toNat * b.l4.toNat + a.l7.toNat * b.l0.toNat + a.l7.toNat * b.l4.toNat < 2 ^ 120 :=
      by
    refine lt_of_le_of_lt (b := 2 ^ 64 + M * M + M * M + M * M + M * M + M * M + M * M + M * M + M * M + M * M + M * M +
        M * M + M * M) (by gcongr) (by norm_num [hM])
  obtain ⟨q8, r8, he8, hqq8, hr8, hl8, hsq8⟩ := split hn8 hb8
  have hqq8' : q8 ≤ 2 ^ 64 := by omega
  have hr8' : r8 ≤ 2 ^ 56 := by omega
  clear hb8 hn8
  have hl_c7_1 : c7_1.toNat = r8 := hl8
  have hs_accum0_25 : accum0_25 = ((q7 : Nat) : U128) := hsq7
  have hs_accum1_25 : accum1_25 = ((q8 : Nat) : U128) := hsq8
  have hn9 : accum0_27 = ((q7 + q8 + r2 : Nat) : U128) := by
    simp only [accum0_27, accum0_26, widemul_eq, wide_eq, zero_acc, haa0, hbb0, haa1, hbb1, hbbb1, haa2, hbb2, hbbb2,
        haa3, hbb3, hbbb3, hl_c0_1, hl_c4_1, hs_accum0_7, hs_accum1_7, hl_c1_1, hl_c5_1, hs_accum0_13, hs_accum1_13,
        hl_c2_1, hl_c6_1, hs_accum0_19, hs_accum1_19, hl_c3_1, hl_c7_1, hs_accum0_25, hs_accum1_25]
    push_cast; ring
  have hb9 : q7 + q8 + r2 < 2 ^ 120 := by
    refine lt_of_le_of_lt (b := 2 ^ 64 + 2 ^ 64 + 2 ^ 56) (by gcongr) (by norm_num [hM])
  obtain ⟨q9, r9, he9, hqq9, hr9, hl9, hsq9⟩ := split hn9 hb9
  have hqq9' : q9 ≤ 2 ^ 64 := by omega
  have hr9' : r9 ≤ 2 ^ 56 := by omega
  have hf9 : q9 ≤ 2 ^ 9 := by rw [T_eq] at he9; omega
  clear hb9 hn9
  have hl_c4_2 : c4_2.toNat = r9 := hl9
  have hn10 : accum1_26 = ((q8 + r1 : Nat) : U128) := by
    simp only [accum1_26, widemul_eq, wide_eq, zero_acc, haa0, hbb0, haa1, hbb1, hbbb1, haa2, hbb2, hbbb2, haa3, hbb3,
        hbbb3, hl_c0_1, hl_c4_1, hs_accum0_7, hs_accum1_7, hl_c1_1, hl_c5_1, hs_accum0_13, hs_accum1_13, hl_c2_1,
        hl_c6_1, hs_accum0_19, hs_accum1_19, hl_c3_1, hl_c7_1, hs_accum0_25, hs_accum1_25, hl_c4_2]
    push_cast; ring
  have hb10 : q8 + r1 < 2 ^ 120 := by
    refine lt_of_le_of_lt (b := 2 ^ 64 + 2 ^ 56) (by gcongr) (by norm_num [hM])
  obtain ⟨q10, r10, he10, hqq10, hr10, hl10, hsq10⟩ := split hn10 hb10
  have hqq10' : q10 ≤ 2 ^ 64 := by omega
  have hr10' : r10 ≤ 2 ^ 56 := by omega
  have hf10 : q10 ≤ 2 ^ 9 := by rw [T_eq] at he10; omega
  clear hb10 hn10
  have hl_c0_2 : c0_2.toNat = r10 := hl10
  have hs_accum0_28 : accum0_28 = ((q9 : Nat) : U128) := hsq9
  have hs_accum1_27 : accum1_27 = ((q10 : Nat) : U128) := hsq10
  have hc_c5_2 : c5_2.toNat = r4 + q9 := by
    simp only [c5_2, UInt64.toNat_add, hs_accum0_28, narrow_eq (show q9 < 2 ^ 64 by omega), hl_c5_1]; omega
  have hc_c1_2 : c1_2.toNat = r3 + q10 := by
    simp only [c1_2, UInt64.toNat_add, hs_accum1_27, narrow_eq (show q10 < 2 ^ 64 by omega), hl_c1_1]; omega
  subst hres
  refine ⟨⟨?_, ?_, ?_, ?_, ?_, ?_, ?_, ?_⟩, ?_⟩
  · rw [hl_c0_2]; omega
  · rw [hc_c1_2]; omega
  · rw [hl_c2_1]; omega
  · rw [hl_c3_1]; omega
  · rw [hl_c4_2]; omega
  · rw [hc_c5_2]; omega
  · rw [hl_c6_1]; omega
  · rw [hl_c7_1]; omega
  · simp only [Fe.ev_eq, hl_c0_2, hc_c1_2, hl_c2_1, hl_c3_1, hl_c4_2, hc_c5_2, hl_c6_1, hl_c7_1]
    have E1 := congrArg (Nat.cast : Nat → F) he1
    have E2 := congrArg (Nat.cast : Nat → F) he2
    have E3 := congrArg (Nat.cast : Nat → F) he3
    have E4 := congrArg (Nat.cast : Nat → F) he4
    have E5 := congrArg (Nat.cast : Nat → F) he5
    have E6 := congrArg (Nat.cast : Nat → F) he6
    have E7 := congrArg (Nat.cast : Nat → F) he7
    have E8 := congrArg (Nat.cast : Nat → F) he8
    have E9 := congrArg (Nat.cast : Nat → F) he9
    have E10 := congrArg (Nat.cast : Nat → F) he10
    push_cast at E1 E2 E3 E4 E5 E6 E7 E8 E9 E10 ⊢
    linear_combination (-(1)) * E1 + (-((T : F) ^ 4)) * E2 + (-((T : F))) * E3 + (-((T : F) ^ 5)) * E4 + (-((T : F) ^
        2)) * E5 + (-((T : F) ^ 6)) * E6 + (-((T : F) ^ 3)) * E7 + (-((T : F) ^ 7)) * E8 + (-((T : F) ^ 4)) * E9 +
        (-(1)) * E10 + (-((q8 : F) + ((a.l1.toNat : F) * b.l7.toNat + (a.l2.toNat : F) * b.l6.toNat + (a.l3.toNat : F) *
        b.l5.toNat + (a.l4.toNat : F) * b.l4.toNat + (a.l5.toNat : F) * b.l3.toNat + (a.l6.toNat : F) * b.l2.toNat +
        (a.l7.toNat : F) * b.l1.toNat) * 1 + ((a.l2.toNat : F) * b.l7.toNat + (a.l3.toNat : F) * b.l6.toNat +
        (a.l4.toNat : F) * b.l5.toNat + (a.l5.toNat : F) * b.l4.toNat + (a.l6.toNat : F) * b.l3.toNat + (a.l7.toNat : F)
        * b.l2.toNat) * (T : F) + ((a.l3.toNat : F) * b.l7.toNat + (a.l4.toNat : F) * b.l6.toNat + (a.l5.toNat : F) *
        b.l5.toNat + (a.l6.toNat : F) * b.l4.toNat + (a.l7.toNat : F) * b.l3.toNat) * (T : F) ^ 2 + ((a.l4.toNat : F) *
        b.l7.toNat + (a.l5.toNat : F) * b.l6.toNat + (a.l6.toNat : F) * b.l5.toNat + (a.l7.toNat : F) * b.l4.toNat) * (T
        : F) ^ 3 + ((a.l5.toNat : F) * b.l7.toNat + (a.l6.toNat : F) * b.l6.toNat + (a.l7.toNat : F) * b.l5.toNat) * ((T
        : F) ^ 4 + 1) + ((a.l6.toNat : F) * b.l7.toNat + (a.l7.toNat : F) * b.l6.toNat) * ((T : F) ^ 5 + (T : F)) +
        ((a.l7.toNat : F) * b.l7.toNat) * ((T : F) ^ 6 + (T : F) ^ 2))) * T_pow

set_option maxHeartbeats 2000000 in
theorem x64Mul_ok {a b : Fe} (ha : a.Le M) (hb : b.Le M) :
    (x64Mul a b).Le M ∧ (x64Mul a b).ev = a.ev * b.ev := by
  have hM : M = 2 ^ 56 + 2 ^ 10 := rfl
  obtain ⟨a0, a1, a2, a3, a4, a5, a6, a7⟩ := ha
  obtain ⟨b0, b1, b2, b3, b4, b5, b6, b7⟩ := hb
  obtain ⟨res, hres⟩ : ∃ res, x64Mul a b = res := ⟨_, rfl⟩
  rw [hres]
  unfold x64Mul at hres
  extract_lets -merge +onlyGivenNames aa0 bb0 aa1 bb1 aa2 bb2 bbb2 aa3 bb3 at hres
  extract_lets -merge +onlyGivenNames bbb3 accum2_1 accum0_1 accum1_1 accum2_2 accum0_2 accum1_2 accum2_3 accum0_3 at hres
  extract_lets -merge +onlyGivenNames accum1_3 accum2_4 accum0_4 accum1_4 accum0_5 accum1_5 c3_1 c7_1 accum0_6 at hres
  extract_lets -merge +onlyGivenNames accum1_6 accum0_7 accum1_7 accum0_8 accum1_8 accum0_9 accum1_9 accum2_5 accum1_10
      at hres
  extract_lets -merge +onlyGivenNames accum0_10 accum0_11 accum0_12 accum1_11 accum0_13 accum1_12 accum0_14 c0_1 c4_1 at hres
  extract_lets -merge +onlyGivenNames accum0_15 accum1_13 accum2_6 accum0_16 accum1_14 accum2_7 accum0_17 accum1_15
      accum2_8 at hres
  extract_lets -merge +onlyGivenNames accum1_16 accum0_18 accum2_9 accum1_17 accum0_19 accum1_18 accum0_20 c1_1 c5_1 at hres
  extract_lets -merge +onlyGivenNames accum0_21 accum1_19 accum2_10 accum0_22 accum1_20 accum2_11 accum1_21 accum0_23
      accum2_12 at hres
  extract_lets -merge +onlyGivenNames accum1_22 accum0_24 accum2_13 accum1_23 accum0_25 accum1_24 accum0_26 c2_1 c6_1 at hres
  extract_lets -merge +onlyGivenNames accum0_27 accum1_25 accum0_28 accum1_26 c3_2 c7_2 accum0_29 accum1_27 c4_2 at hres
  extract_lets -merge +onlyGivenNames c0_2 at hres
  have haa0 : aa0.toNat = a.l0.toNat + a.l4.toNat := by
    simp only [aa0, UInt64.toNat_add]; omega
  have hbb0 : bb0.toNat = b.l0.toNat + b.l4.toNat := by
    simp only [bb0, UInt64.toNat_add]; omega
  have haa1 : aa1.toNat = a.l1.toNat + a.l5.toNat := by
    simp only [aa1, UInt64.toNat_add]; omega
  have hbb1 : bb1.toNat = b.l1.toNat + b.l5.toNat := by
    simp only [bb1, UInt64.toNat_add]; omega
  have haa2 : aa2.toNat = a.l2.toNat + a.l6.toNat := by
    simp only [aa2, UInt64.toNat_add]; omega
  have hbb2 : bb2.toNat = b.l2.toNat + b.l6.toNat := by
    simp only [bb2, UInt64.toNat_add]; omega
  have hbbb2 : bbb2.toNat = b.l2.toNat + b.l6.toNat + b.l6.toNat := by
    simp only [bbb2, UInt64.toNat_add, hbb2]; omega
  have haa3 : aa3.toNat = a.l3.toNat + a.l7.toNat := by
    simp only [aa3, UInt64.toNat_add]; omega
  have hbb3 : bb3.toNat = b.l3.toNat + b.l7.toNat := by
    simp only [bb3, UInt64.toNat_add]; omega
  have hbbb3 : bbb3.toNat = b.l3.toNat + b.l7.toNat + b.l7.toNat := by
    simp only [bbb3, UInt64.toNat_add, hbb3]; omega
  have hn1 : accum1_5 = ((a.l4.toNat * b.l7.toNat + a.l5.toNat * b.l6.toNat + a.l6.toNat * b.l5.toNat + a.l7.toNat *
      b.l4.toNat + a.l0.toNat * b.l3.toNat + a.l1.toNat * b.l2.toNat + a.l2.toNat * b.l1.toNat + a.l3.toNat * b.l0.toNat
      : Nat) : U128) := by
    simp only [accum1_5, accum1_4, accum1_3, accum1_2, accum1_1, accum2_4, accum2_3, accum2_2, accum2_1, widemul_eq,
        wide_eq, zero_acc, haa0, hbb0, haa1, hbb1, haa2, hbb2, hbbb2, haa3, hbb3, hbbb3]
    push_cast; ring
  have hb1 : a.l4.toNat * b.l7.toNat + a.l5.toNat * b.l6.toNat + a.l6.toNat * b.l5.toNat + a.l7.toNat * b.l4.toNat +
      a.l0.toNat * b.l3.toNat + a.l1.toNat * b.l2.toNat + a.l2.toNat * b.l1.toNat + a.l3.toNat * b.l0.toNat < 2 ^ 120 :=
      by
    refine lt_of_le_of_lt (b := M * M + M * M + M * M + M * M + M * M + M * M + M * M + M * M) (by gcongr) (by norm_num [hM])
  obtain ⟨q1, r1, he1, hqq1, hr1, hl1, hsq1⟩ := split hn1 hb1
  have hqq1' : q1 ≤ 2 ^ 64 := by omega
  have hr1' : r1 ≤ 2 ^ 56 := by omega
  clear hb1 hn1
  have hl_c3_1 : c3_1.toNat = r1 := hl1
  have hn2 : accum0_5 = ((a.l0.toNat * b.l7.toNat + a.l4.toNat * b.l3.toNat + a.l4.toNat * b.l7.toNat + a.l1.toNat *
      b.l6.toNat + a.l5.toNat * b.l2.toNat + a.l5.toNat * b.l6.toNat + a.l2.toNat * b.l5.toNat + a.l6.toNat * b.l1.toNat
      + a.l6.toNat * b.l5.toNat + a.l3.toNat * b.l4.toNat + a.l7.toNat * b.l0.toNat + a.l7.toNat * b.l4.toNat : Nat) :
      U128) := by
    simp only [accum0_5, accum0_4, accum0_3, accum0_2, accum0_1, accum2_4, accum2_3, accum2_2, accum2_1, widemul_eq,
        wide_eq, zero_acc, haa0, hbb0, haa1, hbb1, haa2, hbb2, hbbb2, haa3, hbb3, hbbb3, hl_c3_1]
    push_cast; ring
  have hb2 : a.l0.toNat * b.l7.toNat + a.l4.toNat * b.l3.toNat + a.l4.toNat * b.l7.toNat + a.l1.toNat * b.l6.toNat +
      a.l5.toNat * b.l2.toNat + a.l5.toNat * b.l6.toNat + a.l2.toNat * b.l5.toNat + a.l6.toNat * b.l1.toNat + a.l6.toNat
      * b.l5.toNat + a.l3.toNat * b.l4.toNat + a.l7.toNat * b.l0.toNat + a.l7.toNat * b.l4.toNat < 2 ^ 120 := by
    refine lt_of_le_of_lt (b := M * M + M * M + M * M + M * M + M * M + M * M + M * M + M * M + M * M + M * M + M * M +
        M * M) (by gcongr) (by norm_num [hM])
  obtain ⟨q2, r2, he2, hqq2, hr2, hl2, hsq2⟩ := split hn2 hb2
  have hqq2' : q2 ≤ 2 ^ 64 := by omega
  have hr2' : r2 ≤ 2 ^ 56 := by omega
  clear hb2 hn2
  have hl_c7_1 : c7_1.toNat = r2 := hl2
  have hs_accum0_6 : accum0_6 = ((q2 : Nat) : U128) := hsq2
  have hs_accum1_6 : accum1_6 = ((q1 : Nat) : U128) := hsq1
  have hn3 : accum0_14 = ((q2 + a.l1.toNat * b.l7.toNat + a.l5.toNat * b.l3.toNat + a.l5.toNat * b.l7.toNat + a.l2.toNat
      * b.l6.toNat + a.l6.toNat * b.l2.toNat + a.l6.toNat * b.l6.toNat + a.l3.toNat * b.l5.toNat + a.l7.toNat *
      b.l1.toNat + a.l7.toNat * b.l5.toNat + a.l0.toNat * b.l0.toNat + a.l4.toNat * b.l4.toNat : Nat) : U128) := by
    simp only [accum0_14, accum0_13, accum0_12, accum0_11, accum0_10, accum0_9, accum0_8, accum0_7, accum2_5,
        widemul_eq, wide_eq, zero_acc, haa0, hbb0, haa1, hbb1, haa2, hbb2, hbbb2, haa3, hbb3, hbbb3, hl_c3_1, hl_c7_1,
        hs_accum0_6, hs_accum1_6]
    push_cast; ring
  have hb3 : q2 + a.l1.toNat * b.l7.toNat + a.l5.toNat * b.l3.toNat + a.l5.toNat * b.l7.toNat + a.l2.toNat * b.l6.toNat
      + a.l6.toNat * b.l2.toNat + a.l6.toNat * b.l6.toNat + a.l3.toNat * b.l5.toNat + a.l7.toNat * b.l1.toNat +
      a.l7.toNat * b.l5.toNat + a.l0.toNat * b.l0.toNat + a.l4.toNat * b.l4.toNat < 2 ^ 120 := by
    refine lt_of_le_of_lt (b := 2 ^ 64 + M * M + M * M + M * M + M * M + M * M + M * M + M * M + M * M + M * M + M * M +
        M * M) (by gcongr) (by norm_num [hM])
  obtain ⟨q3, r3, he3, hqq3, hr3, hl3, hsq3⟩ := split hn3 hb3
  have hqq3' : q3 ≤ 2 ^ 64 := by omega
  have hr3' : r3 ≤ 2 ^ 56 := by omega
  clear hb3 hn3
  have hl_c0_1 : c0_1.toNat = r3 := hl3
  have hn4 : accum1_12 = ((q1 + a.l5.toNat * b.l7.toNat + a.l5.toNat * b.l7.toNat + a.l6.toNat * b.l6.toNat + a.l6.toNat
      * b.l6.toNat + q2 + a.l1.toNat * b.l3.toNat + a.l1.toNat * b.l7.toNat + a.l5.toNat * b.l3.toNat + a.l2.toNat *
      b.l2.toNat + a.l2.toNat * b.l6.toNat + a.l6.toNat * b.l2.toNat + a.l3.toNat * b.l1.toNat + a.l3.toNat * b.l5.toNat
      + a.l7.toNat * b.l1.toNat + a.l7.toNat * b.l5.toNat + a.l7.toNat * b.l5.toNat + a.l0.toNat * b.l4.toNat +
      a.l4.toNat * b.l0.toNat + a.l4.toNat * b.l4.toNat : Nat) : U128) := by
    simp only [accum1_12, accum1_11, accum1_10, accum1_9, accum1_8, accum1_7, accum0_9, accum0_8, accum0_7, accum2_5,
        widemul_eq, wide_eq, zero_acc, haa0, hbb0, haa1, hbb1, haa2, hbb2, hbbb2, haa3, hbb3, hbbb3, hl_c3_1, hl_c7_1,
        hs_accum0_6, hs_accum1_6, hl_c0_1]
    push_cast; ring
  have hb4 : q1 + a.l5.toNat * b.l7.toNat + a.l5.toNat * b.l7.toNat + a.l6.toNat * b.l6.toNat + a.l6.toNat * b.l6.toNat
      + q2 + a.l1.toNat * b.l3.toNat + a.l1.toNat * b.l7.toNat + a.l5.toNat * b.l3.toNat + a.l2.toNat * b.l2.toNat +
      a.l2.toNat * b.l6.toNat + a.l6.toNat * b.l2.toNat + a.l3.toNat * b.l1.toNat + a.l3.toNat * b.l5.toNat + a.l7.toNat
      * b.l1.toNat + a.l7.toNat * b.l5.toNat + a.l7.toNat * b.l5.toNat + a.l0.toNat * b.l4.toNat + a.l4.toNat *
      b.l0.toNat + a.l4.toNat * b.l4.toNat < 2 ^ 120 := by
    refine lt_of_le_of_lt (b := 2 ^ 64 + M * M + M * M + M * M + M * M + 2 ^ 64 + M * M + M * M + M * M + M * M + M * M
        + M * M + M * M + M * M + M * M + M * M + M * M + M * M + M * M + M * M) (by gcongr) (by norm_num [hM])
  obtain ⟨q4, r4, he4, hqq4, hr4, hl4, hsq4⟩ := split hn4 hb4
  have hqq4' : q4 ≤ 2 ^ 64 := by omega
  have hr4' : r4 ≤ 2 ^ 56 := by omega
  clear hb4 hn4
  have hl_c4_1 : c4_1.toNat = r4 := hl4
  have hs_accum0_15 : accum0_15 = ((q3 : Nat) : U128) := hsq3
  have hs_accum1_13 : accum1_13 = ((q4 : Nat) : U128) := hsq4
  have hn5 : accum0_20 = ((q3 + a.l6.toNat * b.l3.toNat + a.l6.toNat * b.l7.toNat + a.l7.toNat * b.l2.toNat + a.l7.toNat
      * b.l6.toNat + a.l4.toNat * b.l5.toNat + a.l5.toNat * b.l4.toNat + a.l2.toNat * b.l7.toNat + a.l3.toNat *
      b.l6.toNat + a.l0.toNat * b.l1.toNat + a.l1.toNat * b.l0.toNat : Nat) : U128) := by
    simp only [accum0_20, accum0_19, accum0_18, accum0_17, accum0_16, accum2_9, accum2_8, accum2_7, accum2_6,
        widemul_eq, wide_eq, zero_acc, haa0, hbb0, haa1, hbb1, haa2, hbb2, hbbb2, haa3, hbb3, hbbb3, hl_c3_1, hl_c7_1,
        hs_accum0_6, hs_accum1_6, hl_c0_1, hl_c4_1, hs_accum0_15, hs_accum1_13]
    push_cast; ring
  have hb5 : q3 + a.l6.toNat * b.l3.toNat + a.l6.toNat * b.l7.toNat + a.l7.toNat * b.l2.toNat + a.l7.toNat * b.l6.toNat
      + a.l4.toNat * b.l5.toNat + a.l5.toNat * b.l4.toNat + a.l2.toNat * b.l7.toNat + a.l3.toNat * b.l6.toNat +
      a.l0.toNat * b.l1.toNat + a.l1.toNat * b.l0.toNat < 2 ^ 120 := by
    refine lt_of_le_of_lt (b := 2 ^ 64 + M * M + M * M + M * M + M * M + M * M + M * M + M * M + M * M + M * M + M * M)
        (by gcongr) (by norm_num [hM])
  obtain ⟨q5, r5, he5, hqq5, hr5, hl5, hsq5⟩ := split hn5 hb5
  have hqq5' : q5 ≤ 2 ^ 64 := by omega
  have hr5' : r5 ≤ 2 ^ 56 := by omega
  clear hb5 hn5
  have hl_c1_1 : c1_1.toNat = r5 := hl5
  have hn6 : accum1_18 = ((q4 + a.l2.toNat * b.l3.toNat + a.l2.toNat * b.l7.toNat + a.l6.toNat * b.l3.toNat + a.l6.toNat
      * b.l7.toNat + a.l6.toNat * b.l7.toNat + a.l3.toNat * b.l2.toNat + a.l3.toNat * b.l6.toNat + a.l7.toNat *
      b.l2.toNat + a.l7.toNat * b.l6.toNat + a.l7.toNat * b.l6.toNat + a.l0.toNat * b.l5.toNat + a.l4.toNat * b.l1.toNat
      + a.l4.toNat * b.l5.toNat + a.l1.toNat * b.l4.toNat + a.l5.toNat * b.l0.toNat + a.l5.toNat * b.l4.toNat : Nat) :
      U128) := by
    simp only [accum1_18, accum1_17, accum1_16, accum1_15, accum1_14, accum2_9, accum2_8, accum2_7, accum2_6,
        widemul_eq, wide_eq, zero_acc, haa0, hbb0, haa1, hbb1, haa2, hbb2, hbbb2, haa3, hbb3, hbbb3, hl_c3_1, hl_c7_1,
        hs_accum0_6, hs_accum1_6, hl_c0_1, hl_c4_1, hs_accum0_15, hs_accum1_13, hl_c1_1]
    push_cast; ring
  have hb6 : q4 + a.l2.toNat * b.l3.toNat + a.l2.toNat * b.l7.toNat + a.l6.toNat * b.l3.toNat + a.l6.toNat * b.l7.toNat
      + a.l6.toNat * b.l7.toNat + a.l3.toNat * b.l2.toNat + a.l3.toNat * b.l6.toNat + a.l7.toNat * b.l2.toNat +
      a.l7.toNat * b.l6.toNat + a.l7.toNat * b.l6.toNat + a.l0.toNat * b.l5.toNat + a.l4.toNat * b.l1.toNat + a.l4.toNat
      * b.l5.toNat + a.l1.toNat * b.l4.toNat + a.l5.toNat * b.l0.toNat + a.l5.toNat * b.l4.toNat < 2 ^ 120 := by
    refine lt_of_le_of_lt (b := 2 ^ 64 + M * M + M * M + M * M + M * M + M * M + M * M + M * M + M * M + M * M + M * M +
        M * M + M * M + M * M + M * M + M * M + M * M) (by gcongr) (by norm_num [hM])
  obtain ⟨q6, r6, he6, hqq6, hr6, hl6, hsq6⟩ := split hn6 hb6
  have hqq6' : q6 ≤ 2 ^ 64 := by omega
  have hr6' : r6 ≤ 2 ^ 56 := by omega
  clear hb6 hn6
  have hl_c5_1 : c5_1.toNat = r6 := hl6
  have hs_accum0_21 : accum0_21 = ((q5 : Nat) : U128) := hsq5
  have hs_accum1_19 : accum1_19 = ((q6 : Nat) : U128) := hsq6
  have hn7 : accum0_26 = ((q5 + a.l7.toNat * b.l3.toNat + a.l7.toNat * b.l7.toNat + a.l4.toNat * b.l6.toNat + a.l5.toNat
      * b.l5.toNat + a.l6.toNat * b.l4.toNat + a.l3.toNat * b.l7.toNat + a.l0.toNat * b.l2.toNat + a.l1.toNat *
      b.l1.toNat + a.l2.toNat * b.l0.toNat : Nat) : U128) := by
    simp only [accum0_26, accum0_25, accum0_24, accum0_23, accum0_22, accum2_13, accum2_12, accum2_11, accum2_10,
        widemul_eq, wide_eq, zero_acc, haa0, hbb0, haa1, hbb1, haa2, hbb2, hbbb2, haa3, hbb3, hbbb3, hl_c3_1, hl_c7_1,
        hs_accum0_6, hs_accum1_6, hl_c0_1, hl_c4_1, hs_accum0_15, hs_accum1_13, hl_c1_1, hl_c5_1, hs_accum0_21,
        hs_accum1_19]
    push_cast; ring
  have hb7 : q5 + a.l7.toNat * b.l3.toNat + a.l7.toNat * b.l7.toNat + a.l4.toNat * b.l6.toNat + a.l5.toNat * b.l5.toNat
      + a.l6.toNat * b.l4.toNat + a.l3.toNat * b.l7.toNat + a.l0.toNat * b.l2.toNat + a.l1.toNat * b.l1.toNat +
      a.l2.toNat * b.l0.toNat < 2 ^ 120 := by
    refine lt_of_le_of_lt (b := 2 ^ 64 + M * M + M * M + M * M + M * M + M * M + M * M + M * M + M * M + M * M) (by
        gcongr) (by norm_num [hM])
  obtain ⟨q7, r7, he7, hqq7, hr7, hl7, hsq7⟩ := split hn7 hb7
  have hqq7' : q7 ≤ 2 ^ 64 := by omega
  have hr7' : r7 ≤ 2 ^ 56 := by omega
  clear hb7 hn7
  have hl_c2_1 : c2_1.toNat = r7 := hl7
  have hn8 : accum1_24 = ((q6 + a.l3.toNat * b.l3.toNat + a.l3.toNat * b.l7.toNat + a.l7.toNat * b.l3.toNat + a.l7.toNat
      * b.l7.toNat + a.l7.toNat * b.l7.toNat + a.l0.toNat * b.l6.toNat + a.l4.toNat * b.l2.toNat + a.l4.toNat *
      b.l6.toNat + a.l1.toNat * b.l5.toNat + a.l5.toNat * b.l1.toNat + a.l5.toNat * b.l5.toNat + a.l2.toNat * b.l4.toNat
      + a.l6.toNat * b.l0.toNat + a.l6.toNat * b.l4.toNat : Nat) : U128) := by
    simp only [accum1_24, accum1_23, accum1_22, accum1_21, accum1_20, accum2_13, accum2_12, accum2_11, accum2_10,
        widemul_eq, wide_eq, zero_acc, haa0, hbb0, haa1, hbb1, haa2, hbb2, hbbb2, haa3, hbb3, hbbb3, hl_c3_1, hl_c7_1,
        hs_accum0_6, hs_accum1_6, hl_c0_1, hl_c4_1, hs_accum0_15, hs_accum1_13, hl_c1_1, hl_c5_1, hs_accum0_21,
        hs_accum1_19, hl_c2_1]
    push_cast; ring
  have hb8 : q6 + a.l3.toNat * b.l3.toNat + a.l3.toNat * b.l7.toNat + a.l7.toNat * b.l3.toNat + a.l7.toNat * b.l7.toNat
      + a.l7.toNat * b.l7.toNat + a.l0.toNat * b.l6.toNat + a.l4.toNat * b.l2.toNat + a.l4.toNat * b.l6.toNat +
      a.l1.toNat * b.l5.toNat + a.l5.toNat * b.l1.toNat + a.l5.toNat * b.l5.toNat + a.l2.toNat * b.l4.toNat + a.l6.toNat
      * b.l0.toNat + a.l6.toNat * b.l4.toNat < 2 ^ 120 := by
    refine lt_of_le_of_lt (b := 2 ^ 64 + M * M + M * M + M * M + M * M + M * M + M * M + M * M + M * M + M * M + M * M +
        M * M + M * M + M * M + M * M) (by gcongr) (by norm_num [hM])
  obtain ⟨q8, r8, he8, hqq8, hr8, hl8, hsq8⟩ := split hn8 hb8
  have hqq8' : q8 ≤ 2 ^ 64 := by omega
  have hr8' : r8 ≤ 2 ^ 56 := by omega
  clear hb8 hn8
  have hl_c6_1 : c6_1.toNat = r8 := hl8
  have hs_accum0_27 : accum0_27 = ((q7 : Nat) : U128) := hsq7
  have hs_accum1_25 : accum1_25 = ((q8 : Nat) : U128) := hsq8
  have hn9 : accum0_28 = ((q7 + r1 : Nat) : U128) := by
    simp only [accum0_28, widemul_eq, wide_eq, zero_acc, haa0, hbb0, haa1, hbb1, haa2, hbb2, hbbb2, haa3, hbb3, hbbb3,
        hl_c3_1, hl_c7_1, hs_accum0_6, hs_accum1_6, hl_c0_1, hl_c4_1, hs_accum0_15, hs_accum1_13, hl_c1_1, hl_c5_1,
        hs_accum0_21, hs_accum1_19, hl_c2_1, hl_c6_1, hs_accum0_27, hs_accum1_25]
    push_cast; ring
  have hb9 : q7 + r1 < 2 ^ 120 := by
    refine lt_of_le_of_lt (b := 2 ^ 64 + 2 ^ 56) (by gcongr) (by norm_num [hM])
  obtain ⟨q9, r9, he9, hqq9, hr9, hl9, hsq9⟩ := split hn9 hb9
  have hqq9' : q9 ≤ 2 ^ 64 := by omega
  have hr9' : r9 ≤ 2 ^ 56 := by omega
  have hf9 : q9 ≤ 2 ^ 9 := by rw [T_eq] at he9; omega
  clear hb9 hn9
  have hl_c3_2 : c3_2.toNat = r9 := hl9
  have hn10 : accum1_26 = ((q8 + r2 : Nat) : U128) := by
    simp only [accum1_26, widemul_eq, wide_eq, zero_acc, haa0, hbb0, haa1, hbb1, haa2, hbb2, hbbb2, haa3, hbb3, hbbb3,
        hl_c3_1, hl_c7_1, hs_accum0_6, hs_accum1_6, hl_c0_1, hl_c4_1, hs_accum0_15, hs_accum1_13, hl_c1_1, hl_c5_1,
        hs_accum0_21, hs_accum1_19, hl_c2_1, hl_c6_1, hs_accum0_27, hs_accum1_25, hl_c3_2]
    push_cast; ring
  have hb10 : q8 + r2 < 2 ^ 120 := by
    refine lt_of_le_of_lt (b := 2 ^ 64 + 2 ^ 56) (by gcongr) (by norm_num [hM])
  obtain ⟨q10, r10, he10, hqq10, hr10, hl10, hsq10⟩ := split hn10 hb10
  have hqq10' : q10 ≤ 2 ^ 64 := by omega
  have hr10' : r10 ≤ 2 ^ 56 := by omega
  have hf10 : q10 ≤ 2 ^ 9 := by rw [T_eq] at he10; omega
  clear hb10 hn10
  have hl_c7_2 : c7_2.toNat = r10 := hl10
  have hs_accum0_29 : accum0_29 = ((q9 : Nat) : U128) := hsq9
  have hs_accum1_27 : accum1_27 = ((q10 : Nat) : U128) := hsq10
  have hc_c4_2 : c4_2.toNat = r4 + (q9 + q10) := by
    simp only [c4_2, UInt64.toNat_add, hs_accum0_29, hs_accum1_27, narrow_eq (show q9 < 2 ^ 64 by omega), narrow_eq
        (show q10 < 2 ^ 64 by omega), hl_c4_1]; omega
  have hc_c0_2 : c0_2.toNat = r3 + q10 := by
    simp only [c0_2, UInt64.toNat_add, hs_accum1_27, narrow_eq (show q10 < 2 ^ 64 by omega), hl_c0_1]; omega
  subst hres
  refine ⟨⟨?_, ?_, ?_, ?_, ?_, ?_, ?_, ?_⟩, ?_⟩
  · rw [hc_c0_2]; omega
  · rw [hl_c1_1]; omega
  · rw [hl_c2_1]; omega
  · rw [hl_c3_2]; omega
  · rw [hc_c4_2]; omega
  · rw [hl_c5_1]; omega
  · rw [hl_c6_1]; omega
  · rw [hl_c7_2]; omega
  · simp only [Fe.ev_eq, hc_c0_2, hl_c1_1, hl_c2_1, hl_c3_2, hc_c4_2, hl_c5_1, hl_c6_1, hl_c7_2]
    have E1 := congrArg (Nat.cast : Nat → F) he1
    have E2 := congrArg (Nat.cast : Nat → F) he2
    have E3 := congrArg (Nat.cast : Nat → F) he3
    have E4 := congrArg (Nat.cast : Nat → F) he4
    have E5 := congrArg (Nat.cast : Nat → F) he5
    have E6 := congrArg (Nat.cast : Nat → F) he6
    have E7 := congrArg (Nat.cast : Nat → F) he7
    have E8 := congrArg (Nat.cast : Nat → F) he8
    have E9 := congrArg (Nat.cast : Nat → F) he9
    have E10 := congrArg (Nat.cast : Nat → F) he10
    push_cast at E1 E2 E3 E4 E5 E6 E7 E8 E9 E10 ⊢
    linear_combination (-((T : F) ^ 3)) * E1 + (-((T : F) ^ 7)) * E2 + (-(1)) * E3 + (-((T : F) ^ 4)) * E4 + (-((T :
        F))) * E5 + (-((T : F) ^ 5)) * E6 + (-((T : F) ^ 2)) * E7 + (-((T : F) ^ 6)) * E8 + (-((T : F) ^ 3)) * E9 +
        (-((T : F) ^ 7)) * E10 + (-((q2 : F) + (q10 : F) + ((a.l1.toNat : F) * b.l7.toNat + (a.l2.toNat : F) *
        b.l6.toNat + (a.l3.toNat : F) * b.l5.toNat + (a.l4.toNat : F) * b.l4.toNat + (a.l5.toNat : F) * b.l3.toNat +
        (a.l6.toNat : F) * b.l2.toNat + (a.l7.toNat : F) * b.l1.toNat) * 1 + ((a.l2.toNat : F) * b.l7.toNat +
        (a.l3.toNat : F) * b.l6.toNat + (a.l4.toNat : F) * b.l5.toNat + (a.l5.toNat : F) * b.l4.toNat + (a.l6.toNat : F)
        * b.l3.toNat + (a.l7.toNat : F) * b.l2.toNat) * (T : F) + ((a.l3.toNat : F) * b.l7.toNat + (a.l4.toNat : F) *
        b.l6.toNat + (a.l5.toNat : F) * b.l5.toNat + (a.l6.toNat : F) * b.l4.toNat + (a.l7.toNat : F) * b.l3.toNat) * (T
        : F) ^ 2 + ((a.l4.toNat : F) * b.l7.toNat + (a.l5.toNat : F) * b.l6.toNat + (a.l6.toNat : F) * b.l5.toNat +
        (a.l7.toNat : F) * b.l4.toNat) * (T : F) ^ 3 + ((a.l5.toNat : F) * b.l7.toNat + (a.l6.toNat : F) * b.l6.toNat +
        (a.l7.toNat : F) * b.l5.toNat) * ((T : F) ^ 4 + 1) + ((a.l6.toNat : F) * b.l7.toNat + (a.l7.toNat : F) *
        b.l6.toNat) * ((T : F) ^ 5 + (T : F)) + ((a.l7.toNat : F) * b.l7.toNat) * ((T : F) ^ 6 + (T : F) ^ 2))) * T_pow

set_option maxHeartbeats 2000000 in
theorem sqr_ok {a : Fe} (ha : a.Le M) :
    (sqr a).Le M ∧ (sqr a).ev = a.ev ^ 2 := by
  have hM : M = 2 ^ 56 + 2 ^ 10 := rfl
  obtain ⟨a0, a1, a2, a3, a4, a5, a6, a7⟩ := ha
  obtain ⟨res, hres⟩ : ∃ res, sqr a = res := ⟨_, rfl⟩
  rw [hres]
  unfold sqr at hres
  extract_lets -merge +onlyGivenNames aa0 aa1 aa2 aa3 accum2_1 accum0_1 accum1_1 accum2_2 accum0_2 at hres
  extract_lets -merge +onlyGivenNames accum1_2 accum0_3 accum1_3 c3_1 c7_1 accum0_4 accum1_4 accum0_5 accum1_5 at hres
  extract_lets -merge +onlyGivenNames accum0_6 accum1_6 accum0_7 accum1_7 accum2_3 accum1_8 accum0_8 accum0_9 accum1_9
      at hres
  extract_lets -merge +onlyGivenNames accum0_10 c0_1 c4_1 accum0_11 accum1_10 accum2_4 accum0_12 accum1_11 accum1_12 at hres
  extract_lets -merge +onlyGivenNames accum0_13 accum2_5 accum1_13 accum0_14 accum1_14 accum0_15 c1_1 c5_1 accum0_16 at hres
  extract_lets -merge +onlyGivenNames accum1_15 accum2_6 accum0_17 accum1_16 accum1_17 accum0_18 accum2_7 accum1_18
      accum0_19 at hres
  extract_lets -merge +onlyGivenNames accum2_8 accum1_19 accum0_20 accum1_20 accum0_21 c2_1 c6_1 accum0_22 accum1_21 at hres
  extract_lets -merge +onlyGivenNames accum0_23 accum1_22 c3_2 c7_2 accum0_24 accum1_23 c4_2 c0_2 at hres
  have haa0 : aa0.toNat = a.l0.toNat + a.l4.toNat := by
    simp only [aa0, UInt64.toNat_add]; omega
  have haa1 : aa1.toNat = a.l1.toNat + a.l5.toNat := by
    simp only [aa1, UInt64.toNat_add]; omega
  have haa2 : aa2.toNat = a.l2.toNat + a.l6.toNat := by
    simp only [aa2, UInt64.toNat_add]; omega
  have haa3 : aa3.toNat = a.l3.toNat + a.l7.toNat := by
    simp only [aa3, UInt64.toNat_add]; omega
  have hd0 : (a.l0 + a.l0).toNat = (a.l0.toNat) + (a.l0.toNat) := by
    simp only [UInt64.toNat_add]; omega
  have hd1 : (a.l1 + a.l1).toNat = (a.l1.toNat) + (a.l1.toNat) := by
    simp only [UInt64.toNat_add]; omega
  have hd2 : (a.l2 + a.l2).toNat = (a.l2.toNat) + (a.l2.toNat) := by
    simp only [UInt64.toNat_add]; omega
  have hd3 : (a.l4 + a.l4).toNat = (a.l4.toNat) + (a.l4.toNat) := by
    simp only [UInt64.toNat_add]; omega
  have hd4 : (a.l5 + a.l5).toNat = (a.l5.toNat) + (a.l5.toNat) := by
    simp only [UInt64.toNat_add]; omega
  have hd5 : (a.l6 + a.l6).toNat = (a.l6.toNat) + (a.l6.toNat) := by
    simp only [UInt64.toNat_add]; omega
  have hd6 : (aa0 + aa0).toNat = (a.l0.toNat + a.l4.toNat) + (a.l0.toNat + a.l4.toNat) := by
    simp only [UInt64.toNat_add, haa0]; omega
  have hd7 : (aa1 + aa1).toNat = (a.l1.toNat + a.l5.toNat) + (a.l1.toNat + a.l5.toNat) := by
    simp only [UInt64.toNat_add, haa1]; omega
  have hd8 : (aa2 + aa2).toNat = (a.l2.toNat + a.l6.toNat) + (a.l2.toNat + a.l6.toNat) := by
    simp only [UInt64.toNat_add, haa2]; omega
  have hn1 : accum1_3 = ((a.l4.toNat * a.l7.toNat + a.l5.toNat * a.l6.toNat + a.l0.toNat * a.l3.toNat + a.l1.toNat *
      a.l2.toNat : Nat) : U128) := by
    simp only [accum1_3, accum1_2, accum1_1, accum2_2, accum2_1, widemul_eq, wide_eq, hd0, hd1, hd2, hd3, hd4, hd5, hd6,
        hd7, hd8, zero_acc, haa0, haa1, haa2, haa3]
    push_cast; ring
  have hb1 : a.l4.toNat * a.l7.toNat + a.l5.toNat * a.l6.toNat + a.l0.toNat * a.l3.toNat + a.l1.toNat * a.l2.toNat < 2 ^
      118 := by
    refine lt_of_le_of_lt (b := M * M + M * M + M * M + M * M) (by gcongr) (by norm_num [hM])
  obtain ⟨q1, r1, he1, hqq1, hr1, hl1, hsq1⟩ := split2 hn1 hb1
  have hqq1' : q1 ≤ 2 ^ 64 := by omega
  have hr1' : r1 ≤ 2 ^ 56 := by omega
  clear hb1 hn1
  have hl_c3_1 : c3_1.toNat = r1 := hl1
  have hn2 : accum0_3 = ((a.l0.toNat * a.l7.toNat + a.l3.toNat * a.l4.toNat + a.l4.toNat * a.l7.toNat + a.l1.toNat *
      a.l6.toNat + a.l2.toNat * a.l5.toNat + a.l5.toNat * a.l6.toNat : Nat) : U128) := by
    simp only [accum0_3, accum0_2, accum0_1, accum2_2, accum2_1, widemul_eq, wide_eq, hd0, hd1, hd2, hd3, hd4, hd5, hd6,
        hd7, hd8, zero_acc, haa0, haa1, haa2, haa3, hl_c3_1]
    push_cast; ring
  have hb2 : a.l0.toNat * a.l7.toNat + a.l3.toNat * a.l4.toNat + a.l4.toNat * a.l7.toNat + a.l1.toNat * a.l6.toNat +
      a.l2.toNat * a.l5.toNat + a.l5.toNat * a.l6.toNat < 2 ^ 118 := by
    refine lt_of_le_of_lt (b := M * M + M * M + M * M + M * M + M * M + M * M) (by gcongr) (by norm_num [hM])
  obtain ⟨q2, r2, he2, hqq2, hr2, hl2, hsq2⟩ := split2 hn2 hb2
  have hqq2' : q2 ≤ 2 ^ 64 := by omega
  have hr2' : r2 ≤ 2 ^ 56 := by omega
  clear hb2 hn2
  have hl_c7_1 : c7_1.toNat = r2 := hl2
  have hs_accum0_4 : accum0_4 = ((q2 : Nat) : U128) := hsq2
  have hs_accum1_4 : accum1_4 = ((q1 : Nat) : U128) := hsq1
  have hn3 : accum0_10 = ((q2 + a.l1.toNat * a.l7.toNat + a.l1.toNat * a.l7.toNat + a.l3.toNat * a.l5.toNat + a.l3.toNat
      * a.l5.toNat + a.l5.toNat * a.l7.toNat + a.l5.toNat * a.l7.toNat + a.l2.toNat * a.l6.toNat + a.l2.toNat *
      a.l6.toNat + a.l6.toNat * a.l6.toNat + a.l0.toNat * a.l0.toNat + a.l4.toNat * a.l4.toNat : Nat) : U128) := by
    simp only [accum0_10, accum0_9, accum0_8, accum0_7, accum0_6, accum0_5, accum2_3, widemul_eq, wide_eq, hd0, hd1,
        hd2, hd3, hd4, hd5, hd6, hd7, hd8, zero_acc, haa0, haa1, haa2, haa3, hl_c3_1, hl_c7_1, hs_accum0_4, hs_accum1_4]
    push_cast; ring
  have hb3 : q2 + a.l1.toNat * a.l7.toNat + a.l1.toNat * a.l7.toNat + a.l3.toNat * a.l5.toNat + a.l3.toNat * a.l5.toNat
      + a.l5.toNat * a.l7.toNat + a.l5.toNat * a.l7.toNat + a.l2.toNat * a.l6.toNat + a.l2.toNat * a.l6.toNat +
      a.l6.toNat * a.l6.toNat + a.l0.toNat * a.l0.toNat + a.l4.toNat * a.l4.toNat < 2 ^ 120 := by
    refine lt_of_le_of_lt (b := 2 ^ 64 + M * M + M * M + M * M + M * M + M * M + M * M + M * M + M * M + M * M + M * M +
        M * M) (by gcongr) (by norm_num [hM])
  obtain ⟨q3, r3, he3, hqq3, hr3, hl3, hsq3⟩ := split hn3 hb3
  have hqq3' : q3 ≤ 2 ^ 64 := by omega
  have hr3' : r3 ≤ 2 ^ 56 := by omega
  clear hb3 hn3
  have hl_c0_1 : c0_1.toNat = r3 := hl3
  have hn4 : accum1_9 = ((q1 + a.l5.toNat * a.l7.toNat + a.l5.toNat * a.l7.toNat + a.l5.toNat * a.l7.toNat + a.l5.toNat
      * a.l7.toNat + q2 + a.l1.toNat * a.l3.toNat + a.l1.toNat * a.l3.toNat + a.l1.toNat * a.l7.toNat + a.l1.toNat *
      a.l7.toNat + a.l3.toNat * a.l5.toNat + a.l3.toNat * a.l5.toNat + a.l2.toNat * a.l2.toNat + a.l2.toNat * a.l6.toNat
      + a.l2.toNat * a.l6.toNat + a.l6.toNat * a.l6.toNat + a.l6.toNat * a.l6.toNat + a.l0.toNat * a.l4.toNat +
      a.l0.toNat * a.l4.toNat + a.l4.toNat * a.l4.toNat : Nat) : U128) := by
    simp only [accum1_9, accum1_8, accum1_7, accum1_6, accum1_5, accum0_6, accum0_5, accum2_3, widemul_eq, wide_eq, hd0,
        hd1, hd2, hd3, hd4, hd5, hd6, hd7, hd8, zero_acc, haa0, haa1, haa2, haa3, hl_c3_1, hl_c7_1, hs_accum0_4,
        hs_accum1_4, hl_c0_1]
    push_cast; ring
  have hb4 : q1 + a.l5.toNat * a.l7.toNat + a.l5.toNat * a.l7.toNat + a.l5.toNat * a.l7.toNat + a.l5.toNat * a.l7.toNat
      + q2 + a.l1.toNat * a.l3.toNat + a.l1.toNat * a.l3.toNat + a.l1.toNat * a.l7.toNat + a.l1.toNat * a.l7.toNat +
      a.l3.toNat * a.l5.toNat + a.l3.toNat * a.l5.toNat + a.l2.toNat * a.l2.toNat + a.l2.toNat * a.l6.toNat + a.l2.toNat
      * a.l6.toNat + a.l6.toNat * a.l6.toNat + a.l6.toNat * a.l6.toNat + a.l0.toNat * a.l4.toNat + a.l0.toNat *
      a.l4.toNat + a.l4.toNat * a.l4.toNat < 2 ^ 120 := by
    refine lt_of_le_of_lt (b := 2 ^ 64 + M * M + M * M + M * M + M * M + 2 ^ 64 + M * M + M * M + M * M + M * M + M * M
        + M * M + M * M + M * M + M * M + M * M + M * M + M * M + M * M + M * M) (by gcongr) (by norm_num [hM])
  obtain ⟨q4, r4, he4, hqq4, hr4, hl4, hsq4⟩ := split hn4 hb4
  have hqq4' : q4 ≤ 2 ^ 64 := by omega
  have hr4' : r4 ≤ 2 ^ 56 := by omega
  clear hb4 hn4
  have hl_c4_1 : c4_1.toNat = r4 := hl4
  have hs_accum0_11 : accum0_11 = ((q3 : Nat) : U128) := hsq3
  have hs_accum1_10 : accum1_10 = ((q4 : Nat) : U128) := hsq4
  have hn5 : accum0_15 = ((q3 + a.l2.toNat * a.l7.toNat + a.l2.toNat * a.l7.toNat + a.l3.toNat * a.l6.toNat + a.l3.toNat
      * a.l6.toNat + a.l6.toNat * a.l7.toNat + a.l6.toNat * a.l7.toNat + a.l4.toNat * a.l5.toNat + a.l4.toNat *
      a.l5.toNat + a.l0.toNat * a.l1.toNat + a.l0.toNat * a.l1.toNat : Nat) : U128) := by
    simp only [accum0_15, accum0_14, accum0_13, accum0_12, accum2_4, accum2_5, widemul_eq, wide_eq, hd0, hd1, hd2, hd3,
        hd4, hd5, hd6, hd7, hd8, zero_acc, haa0, haa1, haa2, haa3, hl_c3_1, hl_c7_1, hs_accum0_4, hs_accum1_4, hl_c0_1,
        hl_c4_1, hs_accum0_11, hs_accum1_10]
    push_cast; ring
  have hb5 : q3 + a.l2.toNat * a.l7.toNat + a.l2.toNat * a.l7.toNat + a.l3.toNat * a.l6.toNat + a.l3.toNat * a.l6.toNat
      + a.l6.toNat * a.l7.toNat + a.l6.toNat * a.l7.toNat + a.l4.toNat * a.l5.toNat + a.l4.toNat * a.l5.toNat +
      a.l0.toNat * a.l1.toNat + a.l0.toNat * a.l1.toNat < 2 ^ 120 := by
    refine lt_of_le_of_lt (b := 2 ^ 64 + M * M + M * M + M * M + M * M + M * M + M * M + M * M + M * M + M * M + M * M)
        (by gcongr) (by norm_num [hM])
  obtain ⟨q5, r5, he5, hqq5, hr5, hl5, hsq5⟩ := split hn5 hb5
  have hqq5' : q5 ≤ 2 ^ 64 := by omega
  have hr5' : r5 ≤ 2 ^ 56 := by omega
  clear hb5 hn5
  have hl_c1_1 : c1_1.toNat = r5 := hl5
  have hn6 : accum1_14 = ((q4 + a.l6.toNat * a.l7.toNat + a.l6.toNat * a.l7.toNat + a.l6.toNat * a.l7.toNat + a.l6.toNat
      * a.l7.toNat + a.l2.toNat * a.l3.toNat + a.l2.toNat * a.l3.toNat + a.l2.toNat * a.l7.toNat + a.l2.toNat *
      a.l7.toNat + a.l3.toNat * a.l6.toNat + a.l3.toNat * a.l6.toNat + a.l0.toNat * a.l5.toNat + a.l0.toNat * a.l5.toNat
      + a.l1.toNat * a.l4.toNat + a.l1.toNat * a.l4.toNat + a.l4.toNat * a.l5.toNat + a.l4.toNat * a.l5.toNat : Nat) :
      U128) := by
    simp only [accum1_14, accum1_13, accum1_12, accum1_11, accum2_4, accum2_5, widemul_eq, wide_eq, hd0, hd1, hd2, hd3,
        hd4, hd5, hd6, hd7, hd8, zero_acc, haa0, haa1, haa2, haa3, hl_c3_1, hl_c7_1, hs_accum0_4, hs_accum1_4, hl_c0_1,
        hl_c4_1, hs_accum0_11, hs_accum1_10, hl_c1_1]
    push_cast; ring
  have hb6 : q4 + a.l6.toNat * a.l7.toNat + a.l6.toNat * a.l7.toNat + a.l6.toNat * a.l7.toNat + a.l6.toNat * a.l7.toNat
      + a.l2.toNat * a.l3.toNat + a.l2.toNat * a.l3.toNat + a.l2.toNat * a.l7.toNat + a.l2.toNat * a.l7.toNat +
      a.l3.toNat * a.l6.toNat + a.l3.toNat * a.l6.toNat + a.l0.toNat * a.l5.toNat + a.l0.toNat * a.l5.toNat + a.l1.toNat
      * a.l4.toNat + a.l1.toNat * a.l4.toNat + a.l4.toNat * a.l5.toNat + a.l4.toNat * a.l5.toNat < 2 ^ 120 := by
    refine lt_of_le_of_lt (b := 2 ^ 64 + M * M + M * M + M * M + M * M + M * M + M * M + M * M + M * M + M * M + M * M +
        M * M + M * M + M * M + M * M + M * M + M * M) (by gcongr) (by norm_num [hM])
  obtain ⟨q6, r6, he6, hqq6, hr6, hl6, hsq6⟩ := split hn6 hb6
  have hqq6' : q6 ≤ 2 ^ 64 := by omega
  have hr6' : r6 ≤ 2 ^ 56 := by omega
  clear hb6 hn6
  have hl_c5_1 : c5_1.toNat = r6 := hl6
  have hs_accum0_16 : accum0_16 = ((q5 : Nat) : U128) := hsq5
  have hs_accum1_15 : accum1_15 = ((q6 : Nat) : U128) := hsq6
  have hn7 : accum0_21 = ((q5 + a.l3.toNat * a.l7.toNat + a.l3.toNat * a.l7.toNat + a.l7.toNat * a.l7.toNat + a.l4.toNat
      * a.l6.toNat + a.l4.toNat * a.l6.toNat + a.l5.toNat * a.l5.toNat + a.l0.toNat * a.l2.toNat + a.l0.toNat *
      a.l2.toNat + a.l1.toNat * a.l1.toNat : Nat) : U128) := by
    simp only [accum0_21, accum0_20, accum0_19, accum0_18, accum0_17, accum2_6, accum2_8, accum2_7, widemul_eq, wide_eq,
        hd0, hd1, hd2, hd3, hd4, hd5, hd6, hd7, hd8, zero_acc, haa0, haa1, haa2, haa3, hl_c3_1, hl_c7_1, hs_accum0_4,
        hs_accum1_4, hl_c0_1, hl_c4_1, hs_accum0_11, hs_accum1_10, hl_c1_1, hl_c5_1, hs_accum0_16, hs_accum1_15]
    push_cast; ring
  have hb7 : q5 + a.l3.toNat * a.l7.toNat + a.l3.toNat * a.l7.toNat + a.l7.toNat * a.l7.toNat + a.l4.toNat * a.l6.toNat
      + a.l4.toNat * a.l6.toNat + a.l5.toNat * a.l5.toNat + a.l0.toNat * a.l2.toNat + a.l0.toNat * a.l2.toNat +
      a.l1.toNat * a.l1.toNat < 2 ^ 120 := by
    refine lt_of_le_of_lt (b := 2 ^ 64 + M * M + M * M + M * M + M * M + M * M + M * M + M * M + M * M + M * M) (by
        gcongr) (by norm_num [hM])
  obtain ⟨q7, r7, he7, hqq7, hr7, hl7, hsq7⟩ := split hn7 hb7
  have hqq7' : q7 ≤ 2 ^ 64 := by omega
  have hr7' : r7 ≤ 2 ^ 56 := by omega
  clear hb7 hn7
  have hl_c2_1 : c2_1.toNat = r7 := hl7
  have hn8 : accum1_20 = ((q6 + a.l7.toNat * a.l7.toNat + a.l7.toNat * a.l7.toNat + a.l3.toNat * a.l3.toNat + a.l3.toNat
      * a.l7.toNat + a.l3.toNat * a.l7.toNat + a.l0.toNat * a.l6.toNat + a.l0.toNat * a.l6.toNat + a.l2.toNat *
      a.l4.toNat + a.l2.toNat * a.l4.toNat + a.l4.toNat * a.l6.toNat + a.l4.toNat * a.l6.toNat + a.l1.toNat * a.l5.toNat
      + a.l1.toNat * a.l5.toNat + a.l5.toNat * a.l5.toNat : Nat) : U128) := by
    simp only [accum1_20, accum1_19, accum1_18, accum1_17, accum1_16, accum2_6, accum2_8, accum2_7, widemul_eq, wide_eq,
        hd0, hd1, hd2, hd3, hd4, hd5, hd6, hd7, hd8, zero_acc, haa0, haa1, haa2, haa3, hl_c3_1, hl_c7_1, hs_accum0_4,
        hs_accum1_4, hl_c0_1, hl_c4_1, hs_accum0_11, hs_accum1_10, hl_c1_1, hl_c5_1, hs_accum0_16, hs_accum1_15,
        hl_c2_1]
    push_cast; ring
  have hb8 : q6 + a.l7.toNat * a.l7.toNat + a.l7.toNat * a.l7.toNat + a.l3.toNat * a.l3.toNat + a.l3.toNat * a.l7.toNat
      + a.l3.toNat * a.l7.toNat + a.l0.toNat * a.l6.toNat + a.l0.toNat * a.l6.toNat + a.l2.toNat * a.l4.toNat +
      a.l2.toNat * a.l4.toNat + a.l4.toNat * a.l6.toNat + a.l4.toNat * a.l6.toNat + a.l1.toNat * a.l5.toNat + a.l1.toNat
      * a.l5.toNat + a.l5.toNat * a.l5.toNat < 2 ^ 120 := by
    refine lt_of_le_of_lt (b := 2 ^ 64 + M * M + M * M + M * M + M * M + M * M + M * M + M * M + M * M + M * M + M * M +
        M * M + M * M + M * M + M * M) (by gcongr) (by norm_num [hM])
  obtain ⟨q8, r8, he8, hqq8, hr8, hl8, hsq8⟩ := split hn8 hb8
  have hqq8' : q8 ≤ 2 ^ 64 := by omega
  have hr8' : r8 ≤ 2 ^ 56 := by omega
  clear hb8 hn8
  have hl_c6_1 : c6_1.toNat = r8 := hl8
  have hs_accum0_22 : accum0_22 = ((q7 : Nat) : U128) := hsq7
  have hs_accum1_21 : accum1_21 = ((q8 : Nat) : U128) := hsq8
  have hn9 : accum0_23 = ((q7 + r1 : Nat) : U128) := by
    simp only [accum0_23, widemul_eq, wide_eq, hd0, hd1, hd2, hd3, hd4, hd5, hd6, hd7, hd8, zero_acc, haa0, haa1, haa2,
        haa3, hl_c3_1, hl_c7_1, hs_accum0_4, hs_accum1_4, hl_c0_1, hl_c4_1, hs_accum0_11, hs_accum1_10, hl_c1_1,
        hl_c5_1, hs_accum0_16, hs_accum1_15, hl_c2_1, hl_c6_1, hs_accum0_22, hs_accum1_21]
    push_cast; ring
  have hb9 : q7 + r1 < 2 ^ 120 := by
    refine lt_of_le_of_lt (b := 2 ^ 64 + 2 ^ 56) (by gcongr) (by norm_num [hM])
  obtain ⟨q9, r9, he9, hqq9, hr9, hl9, hsq9⟩ := split hn9 hb9
  have hqq9' : q9 ≤ 2 ^ 64 := by omega
  have hr9' : r9 ≤ 2 ^ 56 := by omega
  have hf9 : q9 ≤ 2 ^ 9 := by rw [T_eq] at he9; omega
  clear hb9 hn9
  have hl_c3_2 : c3_2.toNat = r9 := hl9
  have hn10 : accum1_22 = ((q8 + r2 : Nat) : U128) := by
    simp only [accum1_22, widemul_eq, wide_eq, hd0, hd1, hd2, hd3, hd4, hd5, hd6, hd7, hd8, zero_acc, haa0, haa1, haa2,
        haa3, hl_c3_1, hl_c7_1, hs_accum0_4, hs_accum1_4, hl_c0_1, hl_c4_1, hs_accum0_11, hs_accum1_10, hl_c1_1,
        hl_c5_1, hs_accum0_16, hs_accum1_15, hl_c2_1, hl_c6_1, hs_accum0_22, hs_accum1_21, hl_c3_2]
    push_cast; ring
  have hb10 : q8 + r2 < 2 ^ 120 := by
    refine lt_of_le_of_lt (b := 2 ^ 64 + 2 ^ 56) (by gcongr) (by norm_num [hM])
  obtain ⟨q10, r10, he10, hqq10, hr10, hl10, hsq10⟩ := split hn10 hb10
  have hqq10' : q10 ≤ 2 ^ 64 := by omega
  have hr10' : r10 ≤ 2 ^ 56 := by omega
  have hf10 : q10 ≤ 2 ^ 9 := by rw [T_eq] at he10; omega
  clear hb10 hn10
  have hl_c7_2 : c7_2.toNat = r10 := hl10
  have hs_accum0_24 : accum0_24 = ((q9 : Nat) : U128) := hsq9
  have hs_accum1_23 : accum1_23 = ((q10 : Nat) : U128) := hsq10
  have hc_c4_2 : c4_2.toNat = r4 + (q9 + q10) := by
    simp only [c4_2, UInt64.toNat_add, hs_accum0_24, hs_accum1_23, narrow_eq (show q9 < 2 ^ 64 by omega), narrow_eq
        (show q10 < 2 ^ 64 by omega), hl_c4_1]; omega
  have hc_c0_2 : c0_2.toNat = r3 + q10 := by
    simp only [c0_2, UInt64.toNat_add, hs_accum1_23, narrow_eq (show q10 < 2 ^ 64 by omega), hl_c0_1]; omega
  subst hres
  refine ⟨⟨?_, ?_, ?_, ?_, ?_, ?_, ?_, ?_⟩, ?_⟩
  · rw [hc_c0_2]; omega
  · rw [hl_c1_1]; omega
  · rw [hl_c2_1]; omega
  · rw [hl_c3_2]; omega
  · rw [hc_c4_2]; omega
  · rw [hl_c5_1]; omega
  · rw [hl_c6_1]; omega
  · rw [hl_c7_2]; omega
  · simp only [Fe.ev_eq, hc_c0_2, hl_c1_1, hl_c2_1, hl_c3_2, hc_c4_2, hl_c5_1, hl_c6_1, hl_c7_2]
    have E1 := congrArg (Nat.cast : Nat → F) he1
    have E2 := congrArg (Nat.cast : Nat → F) he2
    have E3 := congrArg (Nat.cast : Nat → F) he3
    have E4 := congrArg (Nat.cast : Nat → F) he4
    have E5 := congrArg (Nat.cast : Nat → F) he5
    have E6 := congrArg (Nat.cast : Nat → F) he6
    have E7 := congrArg (Nat.cast : Nat → F) he7
    have E8 := congrArg (Nat.cast : Nat → F) he8
    have E9 := congrArg (Nat.cast : Nat → F) he9
    have E10 := congrArg (Nat.cast : Nat → F) he10
    push_cast at E1 E2 E3 E4 E5 E6 E7 E8 E9 E10 ⊢
    linear_combination (-((T : F) ^ 3)) * E1 + (-((T : F) ^ 7)) * E2 + (-(1)) * E3 + (-((T : F) ^ 4)) * E4 + (-((T :
        F))) * E5 + (-((T : F) ^ 5)) * E6 + (-((T : F) ^ 2)) * E7 + (-((T : F) ^ 6)) * E8 + (-((T : F) ^ 3)) * E9 +
        (-((T : F) ^ 7)) * E10 + (-((q2 : F) + (q10 : F) + ((a.l1.toNat : F) * a.l7.toNat + (a.l2.toNat : F) *
        a.l6.toNat + (a.l3.toNat : F) * a.l5.toNat + (a.l4.toNat : F) * a.l4.toNat + (a.l5.toNat : F) * a.l3.toNat +
        (a.l6.toNat : F) * a.l2.toNat + (a.l7.toNat : F) * a.l1.toNat) * 1 + ((a.l2.toNat : F) * a.l7.toNat +
        (a.l3.toNat : F) * a.l6.toNat + (a.l4.toNat : F) * a.l5.toNat + (a.l5.toNat : F) * a.l4.toNat + (a.l6.toNat : F)
        * a.l3.toNat + (a.l7.toNat : F) * a.l2.toNat) * (T : F) + ((a.l3.toNat : F) * a.l7.toNat + (a.l4.toNat : F) *
        a.l6.toNat + (a.l5.toNat : F) * a.l5.toNat + (a.l6.toNat : F) * a.l4.toNat + (a.l7.toNat : F) * a.l3.toNat) * (T
        : F) ^ 2 + ((a.l4.toNat : F) * a.l7.toNat + (a.l5.toNat : F) * a.l6.toNat + (a.l6.toNat : F) * a.l5.toNat +
        (a.l7.toNat : F) * a.l4.toNat) * (T : F) ^ 3 + ((a.l5.toNat : F) * a.l7.toNat + (a.l6.toNat : F) * a.l6.toNat +
        (a.l7.toNat : F) * a.l5.toNat) * ((T : F) ^ 4 + 1) + ((a.l6.toNat : F) * a.l7.toNat + (a.l7.toNat : F) *
        a.l6.toNat) * ((T : F) ^ 5 + (T : F)) + ((a.l7.toNat : F) * a.l7.toNat) * ((T : F) ^ 6 + (T : F) ^ 2))) * T_pow

set_option maxHeartbeats 2000000 in
theorem mulw_ok {a : Fe} {b : UInt64} (ha : a.Le M) (hb : b.toNat ≤ 2 ^ 16) :
    (mulw a b).Le M ∧ (mulw a b).ev = a.ev * (b.toNat : F) := by
  have hM : M = 2 ^ 56 + 2 ^ 10 := rfl
  obtain ⟨a0, a1, a2, a3, a4, a5, a6, a7⟩ := ha
  obtain ⟨res, hres⟩ : ∃ res, mulw a b = res := ⟨_, rfl⟩
  rw [hres]
  unfold mulw at hres
  extract_lets -merge +onlyGivenNames accum0_1 accum4_1 c0_1 accum0_2 c4_1 accum4_2 accum0_3 accum4_3 c1_1 at hres
  extract_lets -merge +onlyGivenNames accum0_4 c5_1 accum4_4 accum0_5 accum4_5 c2_1 accum0_6 c6_1 accum4_6 at hres
  extract_lets -merge +onlyGivenNames accum0_7 accum4_7 c3_1 accum0_8 c7_1 accum4_8 accum0_9 c4_2 c5_2 at hres
  extract_lets -merge +onlyGivenNames accum4_9 c0_2 c1_2 at hres
  have hn1 : accum0_1 = ((a.l0.toNat * b.toNat : Nat) : U128) := by
    simp only [accum0_1, widemul_eq, wide_eq, zero_acc]
    push_cast; ring
  have hb1 : a.l0.toNat * b.toNat < 2 ^ 120 := by
    refine lt_of_le_of_lt (b := M * 2 ^ 16) (by gcongr) (by norm_num [hM])
  obtain ⟨q1, r1, he1, hqq1, hr1, hl1, hsq1⟩ := split hn1 hb1
  have hqq1' : q1 ≤ 2 ^ 64 := by omega
  have hr1' : r1 ≤ 2 ^ 56 := by omega
  clear hb1 hn1
  have hl_c0_1 : c0_1.toNat = r1 := hl1
  have hs_accum0_2 : accum0_2 = ((q1 : Nat) : U128) := hsq1
  have hn2 : accum4_1 = ((a.l4.toNat * b.toNat : Nat) : U128) := by
    simp only [accum4_1, widemul_eq, wide_eq, zero_acc, hl_c0_1, hs_accum0_2]
    push_cast; ring
  have hb2 : a.l4.toNat * b.toNat < 2 ^ 120 := by
    refine lt_of_le_of_lt (b := M * 2 ^ 16) (by gcongr) (by norm_num [hM])
  obtain ⟨q2, r2, he2, hqq2, hr2, hl2, hsq2⟩ := split hn2 hb2
  have hqq2' : q2 ≤ 2 ^ 64 := by omega
  have hr2' : r2 ≤ 2 ^ 56 := by omega
  clear hb2 hn2
  have hl_c4_1 : c4_1.toNat = r2 := hl2
  have hs_accum4_2 : accum4_2 = ((q2 : Nat) : U128) := hsq2
  have hn3 : accum0_3 = ((q1 + a.l1.toNat * b.toNat : Nat) : U128) := by
    simp only [accum0_3, widemul_eq, wide_eq, zero_acc, hl_c0_1, hs_accum0_2, hl_c4_1, hs_accum4_2]
    push_cast; ring
  have hb3 : q1 + a.l1.toNat * b.toNat < 2 ^ 120 := by
    refine lt_of_le_of_lt (b := 2 ^ 64 + M * 2 ^ 16) (by gcongr) (by norm_num [hM])
  obtain ⟨q3, r3, he3, hqq3, hr3, hl3, hsq3⟩ := split hn3 hb3
  have hqq3' : q3 ≤ 2 ^ 64 := by omega
  have hr3' : r3 ≤ 2 ^ 56 := by omega
  clear hb3 hn3
  have hl_c1_1 : c1_1.toNat = r3 := hl3
  have hs_accum0_4 : accum0_4 = ((q3 : Nat) : U128) := hsq3
  have hn4 : accum4_3 = ((q2 + a.l5.toNat * b.toNat : Nat) : U128) := by
    simp only [accum4_3, widemul_eq, wide_eq, zero_acc, hl_c0_1, hs_accum0_2, hl_c4_1, hs_accum4_2, hl_c1_1, hs_accum0_4]
    push_cast; ring
  have hb4 : q2 + a.l5.toNat * b.toNat < 2 ^ 120 := by
    refine lt_of_le_of_lt (b := 2 ^ 64 + M * 2 ^ 16) (by gcongr) (by norm_num [hM])
  obtain ⟨q4, r4, he4, hqq4, hr4, hl4, hsq4⟩ := split hn4 hb4
  have hqq4' : q4 ≤ 2 ^ 64 := by omega
  have hr4' : r4 ≤ 2 ^ 56 := by omega
  clear hb4 hn4
  have hl_c5_1 : c5_1.toNat = r4 := hl4
  have hs_accum4_4 : accum4_4 = ((q4 : Nat) : U128) := hsq4
  have hn5 : accum0_5 = ((q3 + a.l2.toNat * b.toNat : Nat) : U128) := by
    simp only [accum0_5, widemul_eq, wide_eq, zero_acc, hl_c0_1, hs_accum0_2, hl_c4_1, hs_accum4_2, hl_c1_1,
        hs_accum0_4, hl_c5_1, hs_accum4_4]
    push_cast; ring
  have hb5 : q3 + a.l2.toNat * b.toNat < 2 ^ 120 := by
    refine lt_of_le_of_lt (b := 2 ^ 64 + M * 2 ^ 16) (by gcongr) (by norm_num [hM])
  obtain ⟨q5, r5, he5, hqq5, hr5, hl5, hsq5⟩ := split hn5 hb5
  have hqq5' : q5 ≤ 2 ^ 64 := by omega
  have hr5' : r5 ≤ 2 ^ 56 := by omega
  clear hb5 hn5
  have hl_c2_1 : c2_1.toNat = r5 := hl5
  have hs_accum0_6 : accum0_6 = ((q5 : Nat) : U128) := hsq5
  have hn6 : accum4_5 = ((q4 + a.l6.toNat * b.toNat : Nat) : U128) := by
    simp only [accum4_5, widemul_eq, wide_eq, zero_acc, hl_c0_1, hs_accum0_2, hl_c4_1, hs_accum4_2, hl_c1_1,
        hs_accum0_4, hl_c5_1, hs_accum4_4, hl_c2_1, hs_accum0_6]
    push_cast; ring
  have hb6 : q4 + a.l6.toNat * b.toNat < 2 ^ 120 := by
    refine lt_of_le_of_lt (b := 2 ^ 64 + M * 2 ^ 16) (by gcongr) (by norm_num [hM])
  obtain ⟨q6, r6, he6, hqq6, hr6, hl6, hsq6⟩ := split hn6 hb6
  have hqq6' : q6 ≤ 2 ^ 64 := by omega
  have hr6' : r6 ≤ 2 ^ 56 := by omega
  clear hb6 hn6
  have hl_c6_1 : c6_1.toNat = r6 := hl6
  have hs_accum4_6 : accum4_6 = ((q6 : Nat) : U128) := hsq6
  have hn7 : accum0_7 = ((q5 + a.l3.toNat * b.toNat : Nat) : U128) := by
    simp only [accum0_7, widemul_eq, wide_eq, zero_acc, hl_c0_1, hs_accum0_2, hl_c4_1, hs_accum4_2, hl_c1_1,
        hs_accum0_4, hl_c5_1, hs_accum4_4, hl_c2_1, hs_accum0_6, hl_c6_1, hs_accum4_6]
    push_cast; ring
  have hb7 : q5 + a.l3.toNat * b.toNat < 2 ^ 120 := by
    refine lt_of_le_of_lt (b := 2 ^ 64 + M * 2 ^ 16) (by gcongr) (by norm_num [hM])
  obtain ⟨q7, r7, he7, hqq7, hr7, hl7, hsq7⟩ := split hn7 hb7
  have hqq7' : q7 ≤ 2 ^ 64 := by omega
  have hr7' : r7 ≤ 2 ^ 56 := by omega
  clear hb7 hn7
  have hl_c3_1 : c3_1.toNat = r7 := hl7
  have hs_accum0_8 : accum0_8 = ((q7 : Nat) : U128) := hsq7
  have hn8 : accum4_7 = ((q6 + a.l7.toNat * b.toNat : Nat) : U128) := by
    simp only [accum4_7, widemul_eq, wide_eq, zero_acc, hl_c0_1, hs_accum0_2, hl_c4_1, hs_accum4_2, hl_c1_1,
        hs_accum0_4, hl_c5_1, hs_accum4_4, hl_c2_1, hs_accum0_6, hl_c6_1, hs_accum4_6, hl_c3_1, hs_accum0_8]
    push_cast; ring
  have hb8 : q6 + a.l7.toNat * b.toNat < 2 ^ 120 := by
    refine lt_of_le_of_lt (b := 2 ^ 64 + M * 2 ^ 16) (by gcongr) (by norm_num [hM])
  obtain ⟨q8, r8, he8, hqq8, hr8, hl8, hsq8⟩ := split hn8 hb8
  have hqq8' : q8 ≤ 2 ^ 64 := by omega
  have hr8' : r8 ≤ 2 ^ 56 := by omega
  clear hb8 hn8
  have hl_c7_1 : c7_1.toNat = r8 := hl8
  have hs_accum4_8 : accum4_8 = ((q8 : Nat) : U128) := hsq8
  have hn9 : accum0_9 = ((q7 + q8 + r2 : Nat) : U128) := by
    simp only [accum0_9, widemul_eq, wide_eq, zero_acc, hl_c0_1, hs_accum0_2, hl_c4_1, hs_accum4_2, hl_c1_1,
        hs_accum0_4, hl_c5_1, hs_accum4_4, hl_c2_1, hs_accum0_6, hl_c6_1, hs_accum4_6, hl_c3_1, hs_accum0_8, hl_c7_1,
        hs_accum4_8]
    push_cast; ring
  have hb9 : q7 + q8 + r2 < 2 ^ 120 := by
    refine lt_of_le_of_lt (b := 2 ^ 64 + 2 ^ 64 + 2 ^ 56) (by gcongr) (by norm_num [hM])
  obtain ⟨q9, r9, he9, hqq9, hr9, hl9, hsq9⟩ := split hn9 hb9
  have hqq9' : q9 ≤ 2 ^ 64 := by omega
  have hr9' : r9 ≤ 2 ^ 56 := by omega
  have hf9 : q9 ≤ 2 ^ 9 := by rw [T_eq] at he9; omega
  clear hb9 hn9
  have hl_c4_2 : c4_2.toNat = r9 := hl9
  have hz_c5_2 : (narrow (accum0_9 >>> 56)).toNat = q9 := by rw [hsq9, narrow_eq (by omega)]
  have hc_c5_2 : c5_2.toNat = r4 + q9 := by
    simp only [c5_2, UInt64.toNat_add, hz_c5_2, hl_c5_1]; omega
  have hn10 : accum4_9 = ((q8 + r1 : Nat) : U128) := by
    simp only [accum4_9, widemul_eq, wide_eq, zero_acc, hl_c0_1, hs_accum0_2, hl_c4_1, hs_accum4_2, hl_c1_1,
        hs_accum0_4, hl_c5_1, hs_accum4_4, hl_c2_1, hs_accum0_6, hl_c6_1, hs_accum4_6, hl_c3_1, hs_accum0_8, hl_c7_1,
        hs_accum4_8, hl_c4_2]
    push_cast; ring
  have hb10 : q8 + r1 < 2 ^ 120 := by
    refine lt_of_le_of_lt (b := 2 ^ 64 + 2 ^ 56) (by gcongr) (by norm_num [hM])
  obtain ⟨q10, r10, he10, hqq10, hr10, hl10, hsq10⟩ := split hn10 hb10
  have hqq10' : q10 ≤ 2 ^ 64 := by omega
  have hr10' : r10 ≤ 2 ^ 56 := by omega
  have hf10 : q10 ≤ 2 ^ 9 := by rw [T_eq] at he10; omega
  clear hb10 hn10
  have hl_c0_2 : c0_2.toNat = r10 := hl10
  have hz_c1_2 : (narrow (accum4_9 >>> 56)).toNat = q10 := by rw [hsq10, narrow_eq (by omega)]
  have hc_c1_2 : c1_2.toNat = r3 + q10 := by
    simp only [c1_2, UInt64.toNat_add, hz_c1_2, hl_c1_1]; omega
  subst hres
  refine ⟨⟨?_, ?_, ?_, ?_, ?_, ?_, ?_, ?_⟩, ?_⟩
  · rw [hl_c0_2]; omega
  · rw [hc_c1_2]; omega
  · rw [hl_c2_1]; omega
  · rw [hl_c3_1]; omega
  · rw [hl_c4_2]; omega
  · rw [hc_c5_2]; omega
  · rw [hl_c6_1]; omega
  · rw [hl_c7_1]; omega
  · simp only [Fe.ev_eq, hl_c0_2, hc_c1_2, hl_c2_1, hl_c3_1, hl_c4_2, hc_c5_2, hl_c6_1, hl_c7_1]
    have E1 := congrArg (Nat.cast : Nat → F) he1
    have E2 := congrArg (Nat.cast : Nat → F) he2
    have E3 := congrArg (Nat.cast : Nat → F) he3
    have E4 := congrArg (Nat.cast : Nat → F) he4
    have E5 := congrArg (Nat.cast : Nat → F) he5
    have E6 := congrArg (Nat.cast : Nat → F) he6
    have E7 := congrArg (Nat.cast : Nat → F) he7
    have E8 := congrArg (Nat.cast : Nat → F) he8
    have E9 := congrArg (Nat.cast : Nat → F) he9
    have E10 := congrArg (Nat.cast : Nat → F) he10
    push_cast at E1 E2 E3 E4 E5 E6 E7 E8 E9 E10 ⊢
    linear_combination (-(1)) * E1 + (-((T : F) ^ 4)) * E2 + (-((T : F))) * E3 + (-((T : F) ^ 5)) * E4 + (-((T : F) ^
        2)) * E5 + (-((T : F) ^ 6)) * E6 + (-((T : F) ^ 3)) * E7 + (-((T : F) ^ 7)) * E8 + (-((T : F) ^ 4)) * E9 +
        (-(1)) * E10 + (-((q8 : F))) * T_pow

end Noise.Curve448
