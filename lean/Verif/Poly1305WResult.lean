import Verif.Poly1305WProps
/-!
# The 32-bit version of Poly1305 computes the same: from the key to the result (C79)
-/

namespace Noise.Poly1305W

open Rfc7539
open Poly1305 (or_eq_add)

/-! ## The key -/

theorem and_masks (r : Nat) : clamp r =
    (r % 2 ^ 26 &&& 0x3ffffff) + 2 ^ 26 * (r / 2 ^ 26 % 2 ^ 26 &&& 0x3ffff03) +
      2 ^ 52 * (r / 2 ^ 52 % 2 ^ 26 &&& 0x3ffc0ff) + 2 ^ 78 * (r / 2 ^ 78 % 2 ^ 26 &&& 0x3f03fff) +
      2 ^ 104 * (r / 2 ^ 104 &&& 0x00fffff) := by
  unfold clamp
  generalize hx : (r &&& 0x0ffffffc0ffffffc0ffffffc0fffffff) = x
  have h0 : x % 2 ^ 26 = r % 2 ^ 26 &&& 0x3ffffff := by rw [← hx, Nat.and_mod_two_pow]
  have h1 : x / 2 ^ 26 % 2 ^ 26 = r / 2 ^ 26 % 2 ^ 26 &&& 0x3ffff03 := by
    rw [← hx, Nat.and_div_two_pow, Nat.and_mod_two_pow]
  have h2 : x / 2 ^ 52 % 2 ^ 26 = r / 2 ^ 52 % 2 ^ 26 &&& 0x3ffc0ff := by
    rw [← hx, Nat.and_div_two_pow, Nat.and_mod_two_pow]
  have h3 : x / 2 ^ 78 % 2 ^ 26 = r / 2 ^ 78 % 2 ^ 26 &&& 0x3f03fff := by
    rw [← hx, Nat.and_div_two_pow, Nat.and_mod_two_pow]
  have h4 : x / 2 ^ 104 = r / 2 ^ 104 &&& 0x00fffff := by rw [← hx, Nat.and_div_two_pow]
  rw [← h0, ← h1, ← h2, ← h3, ← h4]
  exact limbs x

/-- The pad of the key, as a number. -/
def Ctx.padVal (st : Ctx) : Nat :=
  st.pad0.toNat + 2 ^ 32 * st.pad1.toNat + 2 ^ 64 * st.pad2.toNat + 2 ^ 96 * st.pad3.toNat

theorem words4 (N : Nat) (h : N < 2 ^ 128) : N % 2 ^ 32 + 2 ^ 32 * (N / 2 ^ 32 % 2 ^ 32) +
    2 ^ 64 * (N / 2 ^ 64 % 2 ^ 32) + 2 ^ 96 * (N / 2 ^ 96 % 2 ^ 32) = N := by
  have h1 := Nat.mod_add_div N (2 ^ 32)
  have h2 := Nat.mod_add_div (N / 2 ^ 32) (2 ^ 32)
  have h3 := Nat.mod_add_div (N / 2 ^ 64) (2 ^ 32)
  rw [Nat.div_div_eq_div_mul, ← Nat.pow_add] at h2 h3
  rw [show 32 + 32 = 64 from rfl] at h2
  rw [show 64 + 32 = 96 from rfl] at h3
  rw [Nat.mod_eq_of_lt (a := N / 2 ^ 96) (by omega)]
  conv_rhs => rw [← h1, ← h2, ← h3]
  ring

theorem and_mod26 (x k : Nat) (hk : (2 ^ 26 - 1) &&& k = k) : x &&& k = x % 2 ^ 26 &&& k := by
  rw [← Nat.and_two_pow_sub_one_eq_mod, Nat.and_assoc, hk]

theorem init_r (st : Ctx) (key : Bytes) (hk : 32 ≤ key.length) :
    (init st key).RSmall ∧ (init st key).rVal = clamp (leNat (key.take 16)) ∧
      (init st key).padVal = leNat ((key.drop 16).take 16) := by
  have e0 := slice key 0 0 (by omega) (by omega)
  have e1 := slice key 0 3 (by omega) (by omega)
  have e2 := slice key 0 6 (by omega) (by omega)
  have e3 := slice key 0 9 (by omega) (by omega)
  have e4 := slice key 0 12 (by omega) (by omega)
  have p0 := slice key 16 0 (by omega) (by omega)
  have p1 := slice key 16 4 (by omega) (by omega)
  have p2 := slice key 16 8 (by omega) (by omega)
  have p3 := slice key 16 12 (by omega) (by omega)
  have hN : leNat (key.take 16) < 2 ^ 128 := by
    have := leNat_lt (key.take 16)
    rwa [List.length_take_of_le (by omega)] at this
  have hM : leNat ((key.drop 16).take 16) < 2 ^ 128 := by
    have := leNat_lt ((key.drop 16).take 16)
    rwa [List.length_take_of_le (by rw [List.length_drop]; omega)] at this
  simp only [Nat.zero_add, List.drop_zero, Nat.reduceMul, Nat.reduceAdd, Nat.pow_zero, Nat.div_one, Nat.add_zero] at e0 e1 e2 e3 e4 p0 p1 p2 p3
  rw [and_masks]
  unfold Ctx.rVal Ctx.padVal init
  generalize leNat (key.take 16) = N at *
  generalize leNat ((key.drop 16).take 16) = M at *
  have m0 : (u8to32 key 0 &&& 0x3ffffff).toNat = N % 2 ^ 26 &&& 0x3ffffff := by
    rw [UInt32.toNat_and, e0]
    refine (and_mod26 _ _ rfl).trans ?_
    rw [show N % 2 ^ 32 % 2 ^ 26 = N % 2 ^ 26 by omega]; rfl
  have m1 : ((u8to32 key 3 >>> 2) &&& 0x3ffff03).toNat = N / 2 ^ 26 % 2 ^ 26 &&& 0x3ffff03 := by
    rw [UInt32.toNat_and, show (u8to32 key 3 >>> 2).toNat = _ from shr _ 2 (by omega), e1]
    refine (and_mod26 _ _ rfl).trans ?_
    rw [show N / 2 ^ 24 % 2 ^ 32 / 2 ^ 2 % 2 ^ 26 = N / 2 ^ 26 % 2 ^ 26 by omega]; rfl
  have m2 : ((u8to32 key 6 >>> 4) &&& 0x3ffc0ff).toNat = N / 2 ^ 52 % 2 ^ 26 &&& 0x3ffc0ff := by
    rw [UInt32.toNat_and, show (u8to32 key 6 >>> 4).toNat = _ from shr _ 4 (by omega), e2]
    refine (and_mod26 _ _ rfl).trans ?_
    rw [show N / 2 ^ 48 % 2 ^ 32 / 2 ^ 4 % 2 ^ 26 = N / 2 ^ 52 % 2 ^ 26 by omega]; rfl
  have m3 : ((u8to32 key 9 >>> 6) &&& 0x3f03fff).toNat = N / 2 ^ 78 % 2 ^ 26 &&& 0x3f03fff := by
    rw [UInt32.toNat_and, show (u8to32 key 9 >>> 6).toNat = _ from shr _ 6 (by omega), e3]
    refine (and_mod26 _ _ rfl).trans ?_
    rw [show N / 2 ^ 72 % 2 ^ 32 / 2 ^ 6 % 2 ^ 26 = N / 2 ^ 78 % 2 ^ 26 by omega]; rfl
  have m4 : ((u8to32 key 12 >>> 8) &&& 0x00fffff).toNat = N / 2 ^ 104 &&& 0x00fffff := by
    rw [UInt32.toNat_and, show (u8to32 key 12 >>> 8).toNat = _ from shr _ 8 (by omega), e4]
    rw [show N / 2 ^ 96 % 2 ^ 32 / 2 ^ 8 = N / 2 ^ 104 by omega]; rfl
  refine ⟨⟨?_, ?_, ?_, ?_, ?_⟩, ?_, ?_⟩
  · simp only [m0]
    exact Nat.lt_of_le_of_lt Nat.and_le_right (by decide)
  · simp only [m1]
    exact Nat.lt_of_le_of_lt Nat.and_le_right (by decide)
  · simp only [m2]
    exact Nat.lt_of_le_of_lt Nat.and_le_right (by decide)
  · simp only [m3]
    exact Nat.lt_of_le_of_lt Nat.and_le_right (by decide)
  · simp only [m4]
    exact Nat.lt_of_le_of_lt Nat.and_le_right (by decide)
  · simp only [m0, m1, m2, m3, m4]
  · simp only [p0, p1, p2, p3]
    exact words4 M hM

/-! ## Blocks -/

theorem block_step (st : Ctx) (h : Acc) (m : Bytes) (hm : 16 ≤ m.length) (hs : h.Small) (hr : st.RSmall)
    (hibit : UInt32) (hh : hibit.toNat = 0 ∨ hibit.toNat = 2 ^ 24) :
    (mulReduce st (addBlock hibit h m)).Small ∧
      (mulReduce st (addBlock hibit h m)).val % prime =
        (h.val % prime + (leNat (m.take 16) + 2 ^ 104 * hibit.toNat)) * st.rVal % prime := by
  obtain ⟨h1, h2⟩ := addBlock_val hibit h m hm hs hh
  obtain ⟨h3, h4⟩ := mulReduce_val st _ hr h1
  refine ⟨h3, ?_⟩
  rw [h4, h2, Nat.add_assoc, Nat.mul_mod, ← Nat.mod_add_mod, ← Nat.mul_mod]

theorem blocksLoop_eq (st : Ctx) (hr : st.RSmall) (n : Nat) (h : Acc) (m : Bytes) (hm : 16 * n ≤ m.length)
    (hs : h.Small) (hibit : UInt32) (hh : hibit.toNat = 2 ^ 24) :
    (blocksLoop st hibit n h m).Small ∧
      (blocksLoop st hibit n h m).val % prime = (chunks 16 n m).foldl (absorb st.rVal) (h.val % prime) := by
  induction n generalizing h m with
  | zero => exact ⟨hs, rfl⟩
  | succ n ih =>
    obtain ⟨h1, h2⟩ := block_step st h m (by omega) hs hr hibit (Or.inr hh)
    obtain ⟨h3, h4⟩ := ih _ (m.drop 16) (by simp; omega) h1
    refine ⟨h3, ?_⟩
    rw [blocksLoop, h4, h2, chunks_succ, List.foldl_cons]
    congr 1
    rw [absorb, leNat_append, List.length_take_of_le (by omega), hh,
      show 256 ^ 16 * leNat [1] = 2 ^ 104 * 2 ^ 24 from rfl]

theorem blocks_leftover (st : Ctx) (a b : Nat) (m : Bytes) :
    { blocks { st with leftover := a } m with leftover := b } = blocks { st with leftover := b } m := by
  have h : ∀ (hibit : UInt32) (n : Nat) (h : Acc) (m : Bytes),
      blocksLoop { st with leftover := a } hibit n h m = blocksLoop { st with leftover := b } hibit n h m := by
    intro hibit n
    induction n with
    | zero => intro h m; rfl
    | succ n ih => intro h m; exact ih _ _
  unfold blocks
  simp only [h]

/-! ## The state after some input -/

/-- The limbs of the accumulator of a context. -/
def Ctx.acc (st : Ctx) : Acc := ⟨st.h0, st.h1, st.h2, st.h3, st.h4⟩

/-- The context after `m` has been absorbed under `key`. -/
structure Absorbed (key m : Bytes) (st : Ctx) : Prop where
  rsmall : st.RSmall
  rval : st.rVal = clamp (leNat (key.take 16))
  pad : st.padVal = leNat ((key.drop 16).take 16)
  notFinal : st.final = false
  bufLen : st.buffer.length = 16
  small : st.acc.Small
  left : st.leftover = m.length % 16
  buf : st.buffer.take st.leftover = m.drop (16 * (m.length / 16))
  acc : st.acc.val % prime =
    (chunks 16 (m.length / 16) m).foldl (absorb (clamp (leNat (key.take 16)))) 0

theorem init_absorbed (st : Ctx) (key : Bytes) (hk : 32 ≤ key.length) (hb : st.buffer.length = 16) :
    Absorbed key [] (init st key) := by
  obtain ⟨h1, h2, h3⟩ := init_r st key hk
  exact ⟨h1, h2, h3, rfl, hb, ⟨by show 0 < _; decide, by show 0 < _; decide, by show 0 < _; decide, by show 0 < _; decide, by show 0 < _; decide⟩,
    rfl, rfl, rfl⟩

/-- Whole blocks processed when nothing is left over. -/
theorem blocks_absorbed {key m : Bytes} {st : Ctx} (h : Absorbed key m st) (hl : m.length % 16 = 0) (d : Bytes)
    (hd : d.length % 16 = 0) : Absorbed key (m ++ d) (blocks st d) := by
  obtain ⟨h1, h2, h3, h4, h5, h6, h7, h8, h9⟩ := h
  have hlen : (m ++ d).length = m.length + d.length := List.length_append
  have hq : (m ++ d).length / 16 = m.length / 16 + d.length / 16 := by omega
  have hb := blocksLoop_eq st h1 (d.length / 16) st.acc d (by omega) h6 ((1 : UInt32) <<< 24) rfl
  have hbl : (blocks st d).acc = blocksLoop st ((1 : UInt32) <<< 24) (d.length / 16) st.acc d := by
    unfold blocks Ctx.acc
    rw [h4]; rfl
  refine ⟨⟨h1.1, h1.2, h1.3, h1.4, h1.5⟩, h2, h3, h4, h5, ?_, ?_, ?_, ?_⟩
  · rw [hbl]; exact hb.1
  · show st.leftover = _; omega
  · show st.buffer.take st.leftover = _
    rw [show st.leftover = 0 by omega, List.take_zero, List.drop_of_length_le (by omega)]
  · rw [hbl, hb.2, h9, h2, hq, chunks_append 16 _ _ m d (by omega), List.foldl_append]

theorem updateRest_absorbed {key m : Bytes} {st : Ctx} (h : Absorbed key m st) (hl : m.length % 16 = 0) (d : Bytes) :
    ∃ st', updateRest st d = .ok st' ∧ Absorbed key (m ++ d) st' := by
  -- The bytes that make up less than a block.
  have tail : ∀ (st : Ctx) (m d : Bytes), Absorbed key m st → m.length % 16 = 0 → d.length < 16 →
      ∃ st', (if d.length ≠ 0 then
        (do let b ← store st.buffer st.leftover d
            pure { st with buffer := b, leftover := st.leftover + d.length } : Out Ctx)
        else pure st) = .ok st' ∧ Absorbed key (m ++ d) st' := by
    intro st m d h hl hd
    have hq : (m ++ d).length / 16 = m.length / 16 := by rw [List.length_append]; omega
    have hlo : st.leftover = 0 := by rw [h.left]; exact hl
    by_cases h0 : d.length = 0
    · rw [if_neg (by simpa using h0)]
      have : d = [] := List.eq_nil_of_length_eq_zero h0
      subst this
      exact ⟨st, rfl, by simpa using h⟩
    · rw [if_pos h0, hlo]
      have hb := h.bufLen
      rw [store_ok (by omega)]
      refine ⟨_, rfl, ⟨h.rsmall.1, h.rsmall.2, h.rsmall.3, h.rsmall.4, h.rsmall.5⟩, h.rval, h.pad, h.notFinal, ?_, h.small, ?_, ?_, ?_⟩
      · simp only [List.take_zero, List.nil_append, List.length_append, List.length_drop]; omega
      · show 0 + d.length = _
        rw [List.length_append]; omega
      · show List.take (0 + d.length) (List.take 0 st.buffer ++ d ++ _) = _
        rw [List.take_zero, List.nil_append, Nat.zero_add, List.take_left', hq,
          show 16 * (m.length / 16) = m.length by omega, List.drop_left']
        · rfl
        · rfl
      · rw [hq, chunks_prefix 16 _ m d (by omega)]
        exact h.acc
  unfold updateRest
  by_cases hd : d.length ≥ 16
  · simp only [if_pos hd]
    have h1 := blocks_absorbed h hl (d.take (d.length - d.length % 16)) (by simp; omega)
    have h2 := tail _ _ (d.drop (d.length - d.length % 16)) h1 (by simp; omega) (by simp; omega)
    rw [List.append_assoc, List.take_append_drop] at h2
    exact h2
  · simp only [if_neg hd]
    exact tail st m d h hl (by omega)

/-- Absorbing more input never touches memory outside the buffer and appends to what has been absorbed. -/
theorem update_absorbed {key m : Bytes} {st : Ctx} (h : Absorbed key m st) (d : Bytes) :
    ∃ st', update st d = .ok st' ∧ Absorbed key (m ++ d) st' := by
  have hb := h.bufLen
  have hle := h.left
  by_cases hl : st.leftover = 0
  · have : update st d = updateRest st d := by
      unfold update; rw [if_neg (by simpa using hl)]
    rw [this]
    exact updateRest_absorbed h (by omega) d
  · unfold update
    rw [if_pos hl]
    have hw : (if 16 - st.leftover > d.length then d.length else 16 - st.leftover) =
        min (16 - st.leftover) d.length := by
      split <;> omega
    simp only [hw]
    generalize hwant : min (16 - st.leftover) d.length = want
    have hwl : (d.take want).length = want := by rw [List.length_take]; omega
    rw [store_ok (by omega)]
    show ∃ st', (if st.leftover + want < 16 then _ else _) = _ ∧ _
    have hbuf : (st.buffer.take st.leftover ++ d.take want).length = st.leftover + want := by
      rw [List.length_append, hwl, List.length_take]; omega
    by_cases hf : st.leftover + want < 16
    · rw [if_pos hf]
      have hd : d.take want = d := List.take_of_length_le (by omega)
      have hdl : want = d.length := by omega
      rw [hd] at hbuf
      simp only [hd]
      have hq : (m ++ d).length / 16 = m.length / 16 := by rw [List.length_append]; omega
      refine ⟨_, rfl, ⟨h.rsmall.1, h.rsmall.2, h.rsmall.3, h.rsmall.4, h.rsmall.5⟩, h.rval, h.pad, h.notFinal, ?_, h.small, ?_, ?_, ?_⟩
      · simp only [List.length_append, List.length_drop, List.length_take]; omega
      · show st.leftover + want = _
        rw [List.length_append]; omega
      · show List.take (st.leftover + want) (_ ++ d ++ _) = _
        rw [List.take_left' hbuf, h.buf, hq, List.drop_append_of_le_length (by omega)]
      · rw [hq, chunks_prefix 16 _ m d (by omega)]
        exact h.acc
    · rw [if_neg hf]
      have hfull : st.leftover + want = 16 := by omega
      have hdrop : st.buffer.drop (st.leftover + (d.take want).length) = [] :=
        List.drop_of_length_le (by omega)
      simp only [hdrop, List.append_nil, hfull]
      generalize hbb : st.buffer.take st.leftover ++ d.take want = bb at *
      -- The blocks before the partial one.
      have hm0 : m = m.take (16 * (m.length / 16)) ++ m.drop (16 * (m.length / 16)) := by
        rw [List.take_append_drop]
      have hmt : (m.take (16 * (m.length / 16))).length = 16 * (m.length / 16) := by
        rw [List.length_take]; omega
      have h0 : Absorbed key (m.take (16 * (m.length / 16))) { st with buffer := bb, leftover := 0 } := by
        refine ⟨⟨h.rsmall.1, h.rsmall.2, h.rsmall.3, h.rsmall.4, h.rsmall.5⟩, h.rval, h.pad, h.notFinal, by simp only; omega, h.small, ?_, ?_, ?_⟩
        · simp only [hmt]; omega
        · simp only [List.take_zero]
          rw [List.drop_of_length_le (by omega)]
        · rw [hmt, show 16 * (m.length / 16) / 16 = m.length / 16 by omega]
          have := h.acc
          rw [hm0, chunks_prefix 16 _ _ _ (by rw [← hm0]; omega)] at this
          rw [← hm0] at this
          exact this
      have h1 := blocks_absorbed h0 (by omega) bb (by omega)
      have hmb : m.take (16 * (m.length / 16)) ++ bb = m ++ d.take want := by
        rw [← hbb, h.buf, ← List.append_assoc, List.take_append_drop]
      rw [hmb] at h1
      have h2 := updateRest_absorbed h1 (by rw [List.length_append, hwl]; omega) (d.drop want)
      rw [List.append_assoc, List.take_append_drop] at h2
      rw [← blocks_leftover { st with buffer := bb } 16 0 bb] at h2
      exact h2

/-! ## The result -/

/-- The sizes of the limbs after the complete carry. -/
structure Acc.Tight (h : Acc) : Prop where
  b0 : h.h0.toNat < 2 ^ 26
  b1 : h.h1.toNat < 2 ^ 26
  b2 : h.h2.toNat < 2 ^ 26
  b3 : h.h3.toNat < 2 ^ 26
  b4 : h.h4.toNat < 2 ^ 26

theorem carry_val (h : Acc) (hs : h.Small) : (carry h).val % prime = h.val % prime ∧ (carry h).Tight := by
  obtain ⟨x0, x1, x2, x3, x4⟩ := h
  obtain ⟨b0, b1, b2, b3, b4⟩ := hs
  simp only at b0 b1 b2 b3 b4
  have e2 : (x2 + x1 >>> 26).toNat = x2.toNat + x1.toNat / 2 ^ 26 := by
    rw [UInt32.toNat_add, shr26]; omega
  have f1 := and26 x1
  unfold carry Acc.val
  dsimp only
  generalize x2 + x1 >>> 26 = y2 at *
  have e3 : (x3 + y2 >>> 26).toNat = x3.toNat + y2.toNat / 2 ^ 26 := by
    rw [UInt32.toNat_add, shr26]; omega
  generalize x3 + y2 >>> 26 = y3 at *
  have e4 : (x4 + y3 >>> 26).toNat = x4.toNat + y3.toNat / 2 ^ 26 := by
    rw [UInt32.toNat_add, shr26]; omega
  generalize x4 + y3 >>> 26 = y4 at *
  have e0 : (x0 + y4 >>> 26 * 5).toNat = x0.toNat + 5 * (y4.toNat / 2 ^ 26) := by
    rw [UInt32.toNat_add, UInt32.toNat_mul, shr26, show (5 : UInt32).toNat = 5 from rfl]; omega
  generalize x0 + y4 >>> 26 * 5 = y0 at *
  have e1 : ((x1 &&& (0x3ffffff : UInt32)) + y0 >>> 26).toNat = x1.toNat % 2 ^ 26 + y0.toNat / 2 ^ 26 := by
    rw [UInt32.toNat_add, shr26, f1]; omega
  have t1 : x1.toNat % 2 ^ 26 + y0.toNat / 2 ^ 26 < 2 ^ 26 := by omega
  refine ⟨?_, ?_, ?_, ?_, ?_, ?_⟩
  · simp only [and26, e1]
    have hx : x0.toNat + 2 ^ 26 * x1.toNat + 2 ^ 52 * x2.toNat + 2 ^ 78 * x3.toNat + 2 ^ 104 * x4.toNat =
        (y0.toNat % 2 ^ 26 + 2 ^ 26 * (x1.toNat % 2 ^ 26 + y0.toNat / 2 ^ 26) + 2 ^ 52 * (y2.toNat % 2 ^ 26) +
          2 ^ 78 * (y3.toNat % 2 ^ 26) + 2 ^ 104 * (y4.toNat % 2 ^ 26)) + prime * (y4.toNat / 2 ^ 26) := by
      rw [show prime = 2 ^ 130 - 5 from rfl]
      omega
    rw [hx, Nat.add_mul_mod_self_left]
  · simp only [and26]; omega
  · simp only [e1]; exact t1
  · simp only [and26]; omega
  · simp only [and26]; omega
  · simp only [and26]; omega

theorem select_val (h : Acc) (hs : h.Tight) : (select h).val = h.val % prime ∧ (select h).Tight := by
  obtain ⟨x0, x1, x2, x3, x4⟩ := h
  have hs' := hs
  obtain ⟨b0, b1, b2, b3, b4⟩ := hs'
  simp only at b0 b1 b2 b3 b4
  have e0 : (x0 + 5).toNat = x0.toNat + 5 := by
    rw [UInt32.toNat_add, show (5 : UInt32).toNat = 5 from rfl]; omega
  unfold select
  dsimp only
  generalize x0 + 5 = g0 at *
  have e1 : (x1 + g0 >>> 26).toNat = x1.toNat + g0.toNat / 2 ^ 26 := by
    rw [UInt32.toNat_add, shr26]; omega
  generalize x1 + g0 >>> 26 = g1 at *
  have e2 : (x2 + g1 >>> 26).toNat = x2.toNat + g1.toNat / 2 ^ 26 := by
    rw [UInt32.toNat_add, shr26]; omega
  generalize x2 + g1 >>> 26 = g2 at *
  have e3 : (x3 + g2 >>> 26).toNat = x3.toNat + g2.toNat / 2 ^ 26 := by
    rw [UInt32.toNat_add, shr26]; omega
  generalize x3 + g2 >>> 26 = g3 at *
  have e4 : (x4 + g3 >>> 26).toNat = x4.toNat + g3.toNat / 2 ^ 26 := by
    rw [UInt32.toNat_add, shr26]; omega
  generalize x4 + g3 >>> 26 = y4 at *
  have hg : (y4 - ((1 : UInt32) <<< 26)).toNat = (2 ^ 32 - 2 ^ 26 + y4.toNat) % 2 ^ 32 := by
    rw [UInt32.toNat_sub]; rfl
  generalize y4 - ((1 : UInt32) <<< 26) = g4 at *
  have s31 : (g4 >>> 31).toNat = g4.toNat / 2 ^ 31 := shr g4 31 (by omega)
  by_cases hc : y4.toNat < 2 ^ 26
  · -- `h` is less than the prime
    have hs1 : g4 >>> 31 = 1 := by apply UInt32.toNat_inj.1; rw [s31, hg]; show _ = 1; omega
    rw [hs1, show ((1 : UInt32) - 1) = 0 from rfl, show ~~~(0 : UInt32) = 0xffffffff from rfl]
    have hall : ∀ x y : UInt32, (x &&& 0xffffffff ||| y &&& 0) = x := by
      intro x y
      rw [and32]; simp
    simp only [hall]
    refine ⟨?_, hs⟩
    unfold Acc.val
    dsimp only
    rw [Nat.mod_eq_of_lt]
    rw [show prime = 2 ^ 130 - 5 from rfl]; omega
  · have hs1 : g4 >>> 31 = 0 := by apply UInt32.toNat_inj.1; rw [s31, hg]; show _ = 0; omega
    rw [hs1, show ((0 : UInt32) - 1) = 0xffffffff from rfl, show ~~~(0xffffffff : UInt32) = 0 from rfl]
    have hall : ∀ x y : UInt32, (x &&& 0 ||| y &&& 0xffffffff) = y := by
      intro x y
      rw [and32]; simp
    simp only [hall]
    have hg4 : g4.toNat = y4.toNat - 2 ^ 26 := by rw [hg]; omega
    clear hg s31 hs1
    refine ⟨?_, ?_, ?_, ?_, ?_, ?_⟩
    · unfold Acc.val
      simp only [and26]
      have hx : x0.toNat + 2 ^ 26 * x1.toNat + 2 ^ 52 * x2.toNat + 2 ^ 78 * x3.toNat + 2 ^ 104 * x4.toNat =
          (g0.toNat % 2 ^ 26 + 2 ^ 26 * (g1.toNat % 2 ^ 26) + 2 ^ 52 * (g2.toNat % 2 ^ 26) +
            2 ^ 78 * (g3.toNat % 2 ^ 26) + 2 ^ 104 * g4.toNat) + prime := by
        rw [show prime = 2 ^ 130 - 5 from rfl]; omega
      rw [hx, Nat.add_mod_right, Nat.mod_eq_of_lt (b := prime)]
      rw [show prime = 2 ^ 130 - 5 from rfl]; omega
    · simp only [and26]; omega
    · simp only [and26]; omega
    · simp only [and26]; omega
    · simp only [and26]; omega
    · dsimp only; omega

/-- The sixteen bytes of a number given by four words. -/
theorem leBytes16 (x0 x1 x2 x3 k : Nat) (h0 : x0 < 2 ^ 32) (h1 : x1 < 2 ^ 32) (h2 : x2 < 2 ^ 32) (h3 : x3 < 2 ^ 32) :
    leBytes 16 (x0 + 2 ^ 32 * (x1 + 2 ^ 32 * (x2 + 2 ^ 32 * (x3 + 2 ^ 32 * k)))) =
      leBytes 4 x0 ++ leBytes 4 x1 ++ leBytes 4 x2 ++ leBytes 4 x3 := by
  have step : ∀ (n x k : Nat), x < 2 ^ 32 → leBytes (4 + n) (x + 2 ^ 32 * k) = leBytes 4 x ++ leBytes n k := by
    intro n x k hx
    rw [leBytes_append, ← leBytes_mod 4 (x + 2 ^ 32 * k), show (256 : Nat) ^ 4 = 2 ^ 32 from rfl,
      Nat.add_mul_mod_self_left, Nat.mod_eq_of_lt hx, Nat.add_mul_div_left _ _ (by omega), Nat.div_eq_of_lt hx,
      Nat.zero_add]
  rw [show (16 : Nat) = 4 + (4 + (4 + (4 + 0))) from rfl, step _ _ _ h0, step _ _ _ h1, step _ _ _ h2, step _ _ _ h3]
  simp [leBytes]

theorem u32to8_eq (v : UInt32) : u32to8 v = leBytes 4 v.toNat := toLittle_eq v

theorem addPad_eq (st : Ctx) (h : Acc) (hs : h.Tight) : addPad st h = leBytes 16 (h.val + st.padVal) := by
  obtain ⟨x0, x1, x2, x3, x4⟩ := h
  obtain ⟨b0, b1, b2, b3, b4⟩ := hs
  simp only at b0 b1 b2 b3 b4
  unfold addPad Ctx.padVal Acc.val
  have l0 := st.pad0.toNat_lt
  have l1 := st.pad1.toNat_lt
  have l2 := st.pad2.toNat_lt
  have l3 := st.pad3.toNat_lt
  generalize st.pad0 = t0 at *
  generalize st.pad1 = t1 at *
  generalize st.pad2 = t2 at *
  generalize st.pad3 = t3 at *
  dsimp only
  simp only [and32]
  have w0 : (x0 ||| x1 <<< 26).toNat = x0.toNat + 2 ^ 26 * (x1.toNat % 2 ^ 6) := by
    rw [UInt32.toNat_or, show (x1 <<< 26).toNat = _ from shl _ 26 (by omega), or_eq_add 26 (by omega) (by omega)]; omega
  have w1 : (x1 >>> 6 ||| x2 <<< 20).toNat = x1.toNat / 2 ^ 6 + 2 ^ 20 * (x2.toNat % 2 ^ 12) := by
    rw [UInt32.toNat_or, show (x2 <<< 20).toNat = _ from shl _ 20 (by omega),
      show (x1 >>> 6).toNat = _ from shr _ 6 (by omega), or_eq_add 20 (by omega) (by omega)]; omega
  have w2 : (x2 >>> 12 ||| x3 <<< 14).toNat = x2.toNat / 2 ^ 12 + 2 ^ 14 * (x3.toNat % 2 ^ 18) := by
    rw [UInt32.toNat_or, show (x3 <<< 14).toNat = _ from shl _ 14 (by omega),
      show (x2 >>> 12).toNat = _ from shr _ 12 (by omega), or_eq_add 14 (by omega) (by omega)]; omega
  have w3 : (x3 >>> 18 ||| x4 <<< 8).toNat = x3.toNat / 2 ^ 18 + 2 ^ 8 * (x4.toNat % 2 ^ 24) := by
    rw [UInt32.toNat_or, show (x4 <<< 8).toNat = _ from shl _ 8 (by omega),
      show (x3 >>> 18).toNat = _ from shr _ 18 (by omega), or_eq_add 8 (by omega) (by omega)]; omega
  have v0 := (x0 ||| x1 <<< 26).toNat_lt
  have v1 := (x1 >>> 6 ||| x2 <<< 20).toNat_lt
  have v2 := (x2 >>> 12 ||| x3 <<< 14).toNat_lt
  have v3 := (x3 >>> 18 ||| x4 <<< 8).toNat_lt
  have hV : x0.toNat + 2 ^ 26 * x1.toNat + 2 ^ 52 * x2.toNat + 2 ^ 78 * x3.toNat + 2 ^ 104 * x4.toNat =
      (x0 ||| x1 <<< 26).toNat + 2 ^ 32 * (x1 >>> 6 ||| x2 <<< 20).toNat + 2 ^ 64 * (x2 >>> 12 ||| x3 <<< 14).toNat +
        2 ^ 96 * (x3 >>> 18 ||| x4 <<< 8).toNat + 2 ^ 128 * (x4.toNat / 2 ^ 24) := by
    rw [w0, w1, w2, w3]
    have a1 := Nat.mod_add_div x1.toNat (2 ^ 6)
    have a2 := Nat.mod_add_div x2.toNat (2 ^ 12)
    have a3 := Nat.mod_add_div x3.toNat (2 ^ 18)
    have a4 := Nat.mod_add_div x4.toNat (2 ^ 24)
    conv_lhs => rw [← a1, ← a2, ← a3, ← a4]
    ring
  rw [hV]
  clear hV w0 w1 w2 w3
  generalize x4.toNat / 2 ^ 24 = k
  generalize x0 ||| x1 <<< 26 = w0 at *
  generalize x1 >>> 6 ||| x2 <<< 20 = w1 at *
  generalize x2 >>> 12 ||| x3 <<< 14 = w2 at *
  generalize x3 >>> 18 ||| x4 <<< 8 = w3 at *
  have s32 : ∀ f : UInt64, (f >>> 32).toNat = f.toNat / 2 ^ 32 := by
    intro f
    rw [UInt64.toNat_shiftRight, ← Nat.shiftRight_eq_div_pow]; rfl
  have f0 : (w0.toUInt64 + t0.toUInt64).toNat = w0.toNat + t0.toNat := by
    rw [UInt64.toNat_add, UInt32.toNat_toUInt64, UInt32.toNat_toUInt64]; omega
  generalize w0.toUInt64 + t0.toUInt64 = F0 at *
  have f1 : (w1.toUInt64 + t1.toUInt64 + F0 >>> 32).toNat = w1.toNat + t1.toNat + F0.toNat / 2 ^ 32 := by
    rw [UInt64.toNat_add, UInt64.toNat_add, UInt32.toNat_toUInt64, UInt32.toNat_toUInt64, s32]; omega
  generalize w1.toUInt64 + t1.toUInt64 + F0 >>> 32 = F1 at *
  have f2 : (w2.toUInt64 + t2.toUInt64 + F1 >>> 32).toNat = w2.toNat + t2.toNat + F1.toNat / 2 ^ 32 := by
    rw [UInt64.toNat_add, UInt64.toNat_add, UInt32.toNat_toUInt64, UInt32.toNat_toUInt64, s32]; omega
  generalize w2.toUInt64 + t2.toUInt64 + F1 >>> 32 = F2 at *
  have f3 : (w3.toUInt64 + t3.toUInt64 + F2 >>> 32).toNat = w3.toNat + t3.toNat + F2.toNat / 2 ^ 32 := by
    rw [UInt64.toNat_add, UInt64.toNat_add, UInt32.toNat_toUInt64, UInt32.toNat_toUInt64, s32]; omega
  generalize w3.toUInt64 + t3.toUInt64 + F2 >>> 32 = F3 at *
  rw [u32to8_eq, u32to8_eq, u32to8_eq, u32to8_eq, UInt64.toNat_toUInt32, UInt64.toNat_toUInt32, UInt64.toNat_toUInt32,
    UInt64.toNat_toUInt32, ← leBytes16 (F0.toNat % 2 ^ 32) (F1.toNat % 2 ^ 32) (F2.toNat % 2 ^ 32) (F3.toNat % 2 ^ 32)
      (F3.toNat / 2 ^ 32 + k) (by omega) (by omega) (by omega) (by omega)]
  congr 1
  have a0 := Nat.mod_add_div F0.toNat (2 ^ 32)
  have a1 := Nat.mod_add_div F1.toNat (2 ^ 32)
  have a2 := Nat.mod_add_div F2.toNat (2 ^ 32)
  have a3 := Nat.mod_add_div F3.toNat (2 ^ 32)
  clear s32 v0 v1 v2 v3 l0 l1 l2 l3 b0 b1 b2 b3 b4
  generalize F0.toNat % 2 ^ 32 = r0 at *
  generalize F1.toNat % 2 ^ 32 = r1 at *
  generalize F2.toNat % 2 ^ 32 = r2 at *
  generalize F3.toNat % 2 ^ 32 = r3 at *
  generalize F0.toNat / 2 ^ 32 = q0 at *
  generalize F1.toNat / 2 ^ 32 = q1 at *
  generalize F2.toNat / 2 ^ 32 = q2 at *
  generalize F3.toNat / 2 ^ 32 = q3 at *
  omega

theorem finish_eq {key m : Bytes} {st : Ctx} (h : Absorbed key m st) :
    ∃ st', finish st = .ok (st', poly1305 key m) ∧ st'.buffer.length = 16 := by
  -- The state after the last block.
  have last : ∃ st1 : Ctx, lastBlock st = .ok st1 ∧ st1.buffer.length = 16 ∧ st1.acc.Small ∧
      st1.padVal = leNat ((key.drop 16).take 16) ∧
      st1.acc.val % prime = (Rfc7539.blocks m).foldl (absorb (clamp (leNat (key.take 16)))) 0 := by
    have hb := h.bufLen
    have hl := h.left
    unfold lastBlock
    by_cases h0 : st.leftover = 0
    · rw [if_neg (by simpa using h0)]
      refine ⟨st, rfl, hb, h.small, h.pad, ?_⟩
      rw [h.acc]
      unfold Rfc7539.blocks
      rw [show (m.length + 15) / 16 = m.length / 16 by omega]; rfl
    · rw [if_pos h0, store_ok (by simp; omega)]
      rw [Out.bind_ok, store_ok (by simp; omega)]
      have hlen : (st.buffer.take st.leftover).length = st.leftover := by rw [List.length_take]; omega
      have hbuf : List.take (st.leftover + 1)
            (st.buffer.take st.leftover ++ [1] ++ st.buffer.drop (st.leftover + ([1] : Bytes).length)) ++
          List.replicate (16 - (st.leftover + 1)) 0 ++
          List.drop (st.leftover + 1 + (List.replicate (16 - (st.leftover + 1)) (0 : UInt8)).length)
            (st.buffer.take st.leftover ++ [1] ++ st.buffer.drop (st.leftover + ([1] : Bytes).length)) =
          (m.drop (16 * (m.length / 16)) ++ [1]) ++ List.replicate (16 - (st.leftover + 1)) 0 := by
        rw [List.take_left' (by simp; omega), List.drop_of_length_le (by simp; omega), List.append_nil, h.buf]
      rw [Out.bind_ok, hbuf]
      refine ⟨_, rfl, ?_⟩
      generalize hbb : (m.drop (16 * (m.length / 16)) ++ [1]) ++
        List.replicate (16 - (st.leftover + 1)) (0 : UInt8) = bb
      have hbbl : bb.length = 16 := by rw [← hbb]; simp; omega
      have hstep := block_step { st with buffer := bb, final := true } st.acc bb (by omega) h.small
        ⟨h.rsmall.1, h.rsmall.2, h.rsmall.3, h.rsmall.4, h.rsmall.5⟩ 0 (Or.inl rfl)
      have hacc : (blocks { st with buffer := bb, final := true } bb).acc =
          mulReduce { st with buffer := bb, final := true } (addBlock 0 st.acc bb) := by
        unfold blocks Ctx.acc
        rw [hbbl]; rfl
      refine ⟨hbbl, ?_, h.pad, ?_⟩
      · rw [hacc]; exact hstep.1
      · rw [hacc, hstep.2]
        rw [h.acc, show Ctx.rVal { st with buffer := bb, final := true } = st.rVal from rfl, h.rval]
        have hq : (m.length + 15) / 16 = m.length / 16 + 1 := by omega
        have hblocks : Rfc7539.blocks m = chunks 16 (m.length / 16) m ++ [m.drop (16 * (m.length / 16))] := by
          show chunks 16 ((m.length + 15) / 16) m = _
          rw [hq, chunks_snoc, List.take_of_length_le (by rw [List.length_drop]; omega)]
        rw [hblocks, List.foldl_append, List.foldl_cons, List.foldl_nil, absorb]
        congr 3
        rw [List.take_of_length_le (by omega), ← hbb, leNat_append, leNat_replicate]
        simp
  obtain ⟨st1, e, hlen, hs, hp, hv⟩ := last
  unfold finish
  rw [e, Out.bind_ok]
  refine ⟨{ st1 with h0 := 0, h1 := 0, h2 := 0, h3 := 0, h4 := 0, r0 := 0, r1 := 0, r2 := 0, r3 := 0, r4 := 0, pad0 := 0, pad1 := 0, pad2 := 0, pad3 := 0 }, ?_, hlen⟩
  obtain ⟨c1, c2⟩ := carry_val st1.acc hs
  obtain ⟨d1, d2⟩ := select_val _ c2
  rw [poly1305, ← hv, ← c1, ← d1, ← hp, ← addPad_eq st1 _ d2]
  rfl

/-- Any number of calls of `poly1305_update`. -/
def updates (st : Ctx) : List Bytes → Out Ctx
  | [] => .ok st
  | d :: ds => do let st ← update st d; updates st ds

theorem updates_absorbed {key m : Bytes} {st : Ctx} (h : Absorbed key m st) (ds : List Bytes) :
    ∃ st', updates st ds = .ok st' ∧ Absorbed key (m ++ ds.flatten) st' := by
  induction ds generalizing st m with
  | nil => exact ⟨st, rfl, by simpa using h⟩
  | cons d ds ih =>
    obtain ⟨st1, e1, h1⟩ := update_absorbed h d
    obtain ⟨st2, e2, h2⟩ := ih h1
    refine ⟨st2, ?_, ?_⟩
    · rw [updates, e1]; exact e2
    · rw [List.flatten_cons, ← List.append_assoc]; exact h2

/-- **C79**: for every key, every message and every way of passing it in pieces, the code stays inside its
buffer and computes the Poly1305 of RFC 7539 also when built for machines of 32 bits, whatever the memory of the context holds at first. -/
theorem C79_poly1305 (st : Ctx) (hb : st.buffer.length = 16) (key : Bytes) (hk : key.length = 32)
    (ds : List Bytes) :
    ∃ st1 st2, updates (init st key) ds = .ok st1 ∧ finish st1 = .ok (st2, poly1305 key ds.flatten) := by
  obtain ⟨st1, e1, h1⟩ := updates_absorbed (init_absorbed st key (by omega) hb) ds
  obtain ⟨st2, e2, _⟩ := finish_eq h1
  exact ⟨st1, st2, e1, e2⟩

/-- **C79**, the one-shot function. -/
theorem C79_auth (st : Ctx) (hb : st.buffer.length = 16) (key m : Bytes) (hk : key.length = 32) :
    auth st m key = .ok (poly1305 key m) := by
  obtain ⟨st1, e1, h1⟩ := update_absorbed (init_absorbed st key (by omega) hb) m
  obtain ⟨st2, e2, _⟩ := finish_eq h1
  unfold auth
  rw [e1, Out.bind_ok, e2, Out.bind_ok]
  rfl

/-- **C79**: the two builds give the same tags. -/
theorem C79_same (st : Ctx) (hb : st.buffer.length = 16) (st' : Poly1305.Ctx) (hb' : st'.buffer.length = 16)
    (key m : Bytes) (hk : key.length = 32) : auth st m key = Poly1305.auth st' m key := by
  rw [C79_auth st hb key m hk, Poly1305.C34_auth st' hb' key m hk]

example : zero.buffer.length = 16 := rfl

/-- The message of RFC 7539 section 2.5.2 in three pieces. -/
example : (do
    let st ← updates (init zero
      [0x85, 0xd6, 0xbe, 0x78, 0x57, 0x55, 0x6d, 0x33, 0x7f, 0x44, 0x52, 0xfe, 0x42, 0xd5, 0x06, 0xa8,
       0x01, 0x03, 0x80, 0x8a, 0xfb, 0x0d, 0xb2, 0xfd, 0x4a, 0xbf, 0xf6, 0xaf, 0x41, 0x49, 0xf5, 0x1b])
      [[0x43, 0x72, 0x79, 0x70, 0x74], [0x6f, 0x67, 0x72, 0x61, 0x70, 0x68, 0x69, 0x63, 0x20, 0x46, 0x6f,
       0x72, 0x75, 0x6d, 0x20, 0x52, 0x65, 0x73, 0x65, 0x61, 0x72, 0x63, 0x68, 0x20, 0x47], [], [0x72, 0x6f,
       0x75, 0x70]]
    let r ← finish st
    pure r.2 : Out Bytes) =
    .ok [0xa8, 0x06, 0x1d, 0xc1, 0x30, 0x51, 0x36, 0xc6, 0xc2, 0x2b, 0x8b, 0xaf, 0x0c, 0x01, 0x27, 0xa9] := by
  decide +kernel

/-- All limbs at their largest. -/
example : auth zero (List.replicate 40 0xff) (List.replicate 32 0xff) =
    .ok (poly1305 (List.replicate 32 0xff) (List.replicate 40 0xff)) := by decide +kernel

end Noise.Poly1305W
