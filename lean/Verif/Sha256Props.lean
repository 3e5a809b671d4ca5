import Verif.Sha256
import Verif.Fips180
import Verif.Chunks
import Verif.BigEndian
/-!
# SHA-256: the code computes the function of FIPS 180-4

However the message is cut into pieces.
-/

namespace Noise.Sha256

open Fips180 (beNat beBytes padding parse)
open Fips180.Sha256 (compress schedule scheduleStep words hashPadded Vars)

theorem readWord_eq (m : Bytes) (i : Nat) (h : i + 4 ≤ m.length) :
    readWord m i = UInt32.ofNat (beNat ((m.drop i).take 4)) := by
  rw [BigEndian.take4 m i h, BigEndian.beNat4]
  exact BigEndian.read32 _ _ _ _

theorem writeBe_eq (v : UInt32) : writeBe v = beBytes 4 v.toNat := BigEndian.write32 v

theorem rightRotate_eq (v n : UInt32) : rightRotate v n = Fips180.Sha256.rotr n v := rfl

theorem k_eq : k = Fips180.Sha256.K := rfl

theorem input_eq (m : Bytes) (h : 64 ≤ m.length) : input m = words m := by
  apply List.map_congr_left
  intro i hi
  rw [List.mem_range] at hi
  exact readWord_eq m _ (by omega)

theorem words_length (m : Bytes) : (words m).length = 16 := by simp [words]

theorem extendStep_eq (w : List UInt32) : extendStep w w.length = scheduleStep w := by
  unfold extendStep scheduleStep Fips180.Sha256.sigma0 Fips180.Sha256.sigma1
  simp only [rightRotate_eq]
  congr 2
  ac_rfl

theorem scheduleStep_length (w : List UInt32) : (scheduleStep w).length = w.length + 1 := by
  simp [scheduleStep]

theorem extend_loop (j : Nat) (w : List UInt32) :
    (List.range' w.length j).foldl extendStep w = Fips180.Sha256.iter scheduleStep j w := by
  induction j generalizing w with
  | zero => rfl
  | succ j ih =>
    rw [List.range'_succ, List.foldl_cons, extendStep_eq, Fips180.Sha256.iter, ← ih, scheduleStep_length]

theorem iter_length (j : Nat) (w : List UInt32) :
    (Fips180.Sha256.iter scheduleStep j w).length = w.length + j := by
  induction j generalizing w with
  | zero => rfl
  | succ j ih => rw [Fips180.Sha256.iter, ih, scheduleStep_length]; omega

theorem extend_eq (m : Bytes) (h : 64 ≤ m.length) : extend m = schedule m := by
  unfold extend schedule
  rw [input_eq m h, ← extend_loop, words_length]

theorem schedule_length (m : Bytes) : (schedule m).length = 64 := by
  rw [schedule, iter_length, words_length]

/-- The local variables as the working variables of the standard. -/
def Regs.vars (v : Regs) : Vars := ⟨v.a, v.b, v.c, v.d, v.e, v.f, v.g, v.h⟩

theorem round_eq (a b c d e f g h kn wn : UInt32) : round a b c d e f g h kn wn =
    ((Fips180.Sha256.round ⟨a, b, c, d, e, f, g, h⟩ (kn, wn)).e,
     (Fips180.Sha256.round ⟨a, b, c, d, e, f, g, h⟩ (kn, wn)).a) := by
  have hT : h + kn + wn + (rightRotate e 6 ^^^ rightRotate e 11 ^^^ rightRotate e 25) +
      ((e &&& f) ^^^ (~~~e &&& g)) =
      h + Fips180.Sha256.Sigma1 e + Fips180.Sha256.Ch e f g + kn + wn := by
    unfold Fips180.Sha256.Sigma1 Fips180.Sha256.Ch
    simp only [rightRotate_eq]
    ac_rfl
  unfold round
  rw [hT]
  rfl

theorem rounds8_eq (w : List UInt32) (v : Regs) (i : Nat) : (rounds8 w v i).vars =
    [(k.getD i 0, w.getD i 0), (k.getD (i + 1) 0, w.getD (i + 1) 0), (k.getD (i + 2) 0, w.getD (i + 2) 0),
      (k.getD (i + 3) 0, w.getD (i + 3) 0), (k.getD (i + 4) 0, w.getD (i + 4) 0),
      (k.getD (i + 5) 0, w.getD (i + 5) 0), (k.getD (i + 6) 0, w.getD (i + 6) 0),
      (k.getD (i + 7) 0, w.getD (i + 7) 0)].foldl Fips180.Sha256.round v.vars := by
  obtain ⟨a, b, c, d, e, f, g, h⟩ := v
  generalize hk : k = kk
  unfold rounds8
  simp only [round_eq, List.foldl_cons, List.foldl_nil, hk]
  rfl

theorem zip_eq (w : List UInt32) (hw : w.length = 64) :
    k.zip w = (List.range 64).map fun i => (k.getD i 0, w.getD i 0) := by
  apply List.ext_getElem
  · simp [hw, k]
  · intro i h1 h2
    have hi : i < 64 := by simpa using h2
    have hk : i < k.length := hi
    have hw' : i < w.length := by omega
    simp [List.getD_eq_getElem?_getD, List.getElem?_eq_getElem hk, List.getElem?_eq_getElem hw']

theorem range_split : List.range 64 = (List.range 8).flatMap fun j =>
    [8 * j, 8 * j + 1, 8 * j + 2, 8 * j + 3, 8 * j + 4, 8 * j + 5, 8 * j + 6, 8 * j + 7] := by decide

theorem loop_eq (w : List UInt32) (l : List Nat) (v : Regs) : ((l.map (8 * ·)).foldl (rounds8 w) v).vars =
    ((l.flatMap fun j => [8 * j, 8 * j + 1, 8 * j + 2, 8 * j + 3, 8 * j + 4, 8 * j + 5, 8 * j + 6, 8 * j + 7]).map
      fun i => (k.getD i 0, w.getD i 0)).foldl Fips180.Sha256.round v.vars := by
  induction l generalizing v with
  | nil => rfl
  | cons j l ih =>
    rw [List.map_cons, List.foldl_cons, ih, rounds8_eq, List.flatMap_cons, List.map_append, List.foldl_append]
    rfl

theorem words_take (m : Bytes) : words (m.take 64) = words m := by
  apply List.map_congr_left
  intro i hi
  rw [List.mem_range] at hi
  rw [List.drop_take, List.take_take, Nat.min_eq_left (by omega)]

theorem transform_eq (ctx : Ctx) (m : Bytes) (h : 64 ≤ m.length) :
    transform ctx m = .ok { ctx with h := compress ctx.h (m.take 64) } := by
  unfold transform compress
  rw [if_neg (by omega), extend_eq m h]
  have hs : schedule (m.take 64) = schedule m := by rw [schedule, words_take]; rfl
  rw [hs, ← k_eq, zip_eq _ (schedule_length m), range_split]
  have hl := loop_eq (schedule m) (List.range 8) ⟨ctx.h.getD 0 0, ctx.h.getD 1 0, ctx.h.getD 2 0, ctx.h.getD 3 0,
    ctx.h.getD 4 0, ctx.h.getD 5 0, ctx.h.getD 6 0, ctx.h.getD 7 0⟩
  dsimp only
  rw [show Regs.vars ⟨ctx.h.getD 0 0, ctx.h.getD 1 0, ctx.h.getD 2 0, ctx.h.getD 3 0,
    ctx.h.getD 4 0, ctx.h.getD 5 0, ctx.h.getD 6 0, ctx.h.getD 7 0⟩ = Vars.mk (ctx.h.getD 0 0) (ctx.h.getD 1 0)
      (ctx.h.getD 2 0) (ctx.h.getD 3 0) (ctx.h.getD 4 0) (ctx.h.getD 5 0) (ctx.h.getD 6 0) (ctx.h.getD 7 0) from rfl] at hl
  rw [← hl]
  generalize List.foldl (rounds8 (schedule m)) _ _ = v
  simp only [Regs.vars, UInt32.add_comm]

/-- The context after absorbing `m`. -/
structure Absorbed (m : Bytes) (ctx : Ctx) : Prop where
  h : ctx.h = (chunks 64 (m.length / 64) m).foldl compress Fips180.Sha256.H0
  buf : ctx.m.length = 64
  pre : ctx.m.take ctx.posn = m.drop (64 * (m.length / 64))
  posn : ctx.posn = m.length % 64
  length : ctx.length = UInt64.ofNat (8 * m.length)

theorem reset_absorbed (ctx : Ctx) (hb : ctx.m.length = 64) : Absorbed [] (reset ctx) :=
  ⟨rfl, hb, rfl, rfl, rfl⟩

theorem length_add (n t : Nat) : UInt64.ofNat (8 * n) + UInt64.ofNat t * 8 = UInt64.ofNat (8 * (n + t)) := by
  rw [show (8 : UInt64) = UInt64.ofNat 8 from rfl, ← UInt64.ofNat_mul, ← UInt64.ofNat_add]
  congr 1; omega

/-- Appending less than what fills the block. -/
theorem Absorbed.short {m : Bytes} {ctx : Ctx} (h : Absorbed m ctx) (d : Bytes) (hd : m.length % 64 + d.length < 64)
    (b : Bytes) (hb : store ctx.m ctx.posn d = .ok b) : Absorbed (m ++ d)
      { ctx with m := b, posn := ctx.posn + d.length, length := ctx.length + UInt64.ofNat d.length * 8 } := by
  obtain ⟨h1, h2, h3, h4, h5⟩ := h
  have hq : (m.length + d.length) / 64 = m.length / 64 := by omega
  rw [store_ok (by omega)] at hb
  cases hb
  refine ⟨?_, ?_, ?_, ?_, ?_⟩
  · simp only [List.length_append]
    rw [hq, chunks_prefix _ _ _ _ (by omega)]; exact h1
  · simp; omega
  · simp only [List.length_append]
    rw [hq, List.drop_append_of_le_length (by omega), ← h3, List.append_assoc,
      List.take_append, List.length_take, Nat.min_eq_left (by omega), List.take_take, Nat.min_eq_right (by omega),
      show ctx.posn + d.length - ctx.posn = d.length by omega, List.take_left]
  · simp; omega
  · simp only [List.length_append]
    rw [h5, length_add]

/-- Appending exactly what fills the block. -/
theorem Absorbed.full {m : Bytes} {ctx : Ctx} (h : Absorbed m ctx) (d : Bytes) (hd : m.length % 64 + d.length = 64)
    (b : Bytes) (hb : b.length = 64) : Absorbed (m ++ d)
      { ctx with h := compress ctx.h (m.drop (64 * (m.length / 64)) ++ d), m := b, posn := 0,
                 length := ctx.length + UInt64.ofNat d.length * 8 } := by
  obtain ⟨h1, h2, h3, h4, h5⟩ := h
  have hq : (m.length + d.length) / 64 = m.length / 64 + 1 := by omega
  refine ⟨?_, hb, ?_, ?_, ?_⟩
  · simp only [List.length_append]
    rw [hq, chunks_snoc, chunks_prefix _ _ _ _ (by omega), List.foldl_append, ← h1,
      List.drop_append_of_le_length (by omega), List.take_of_length_le (by simp; omega)]
    rfl
  · simp only [List.length_append]
    rw [hq, List.drop_of_length_le (by simp; omega)]; rfl
  · simp; omega
  · simp only [List.length_append]
    rw [h5, length_add]

theorem updateStep_absorbed {m : Bytes} {ctx : Ctx} (h : Absorbed m ctx) (d : Bytes) (hd : d ≠ []) :
    ∃ ctx' t, 0 < t ∧ t ≤ d.length ∧ updateStep ctx d = .ok (ctx', d.drop t) ∧ Absorbed (m ++ d.take t) ctx' := by
  have hd0 : 0 < d.length := List.length_pos_iff.mpr hd
  have hp := h.posn
  have hb := h.buf
  unfold updateStep
  by_cases hc : ctx.posn = 0 ∧ d.length ≥ 64
  · rw [if_pos hc, transform_eq _ _ hc.2]
    refine ⟨_, 64, by omega, hc.2, rfl, ?_⟩
    have := h.full (d.take 64) (by simp; omega) ctx.m hb
    rw [show m.drop (64 * (m.length / 64)) = [] from List.drop_of_length_le (by omega), List.nil_append,
      List.length_take, Nat.min_eq_left hc.2] at this
    rw [show (64 : UInt64) = UInt64.ofNat 64 from rfl]
    rw [show ctx.posn = 0 from hc.1]
    exact this
  · rw [if_neg hc]
    have ht : (if 64 - ctx.posn > d.length then d.length else 64 - ctx.posn) = min (64 - ctx.posn) d.length := by
      split <;> omega
    dsimp only
    rw [ht]
    have hlt : ctx.posn < 64 := by omega
    have hmin : min (64 - ctx.posn) d.length ≤ d.length := Nat.min_le_right _ _
    have hpos : 0 < min (64 - ctx.posn) d.length := by omega
    have hle : min (64 - ctx.posn) d.length ≤ 64 - ctx.posn := Nat.min_le_left _ _
    have hcase : min (64 - ctx.posn) d.length < 64 - ctx.posn ∨ min (64 - ctx.posn) d.length = 64 - ctx.posn := by omega
    generalize min (64 - ctx.posn) d.length = t at *
    have hl : (d.take t).length = t := by simp; omega
    have hs := store_ok (data := ctx.m) (src := d.take t) (off := ctx.posn) (by omega)
    rcases hcase with hcase | hcase
    · refine ⟨_, t, hpos, hmin, ?_, h.short (d.take t) (by omega) _ hs⟩
      rw [hs, Out.bind_ok, flush, if_neg (by simp only; omega), hl]
      rfl
    · have hlen := store_length hs
      refine ⟨_, t, hpos, hmin, ?_, h.full (d.take t) (by omega) (ctx.m.take ctx.posn ++ d.take t ++
        ctx.m.drop (ctx.posn + (d.take t).length)) (by omega)⟩
      rw [hs, Out.bind_ok, flush, if_pos (by simp only; omega), transform_eq _ _ (Nat.le_of_eq (hlen.trans hb).symm)]
      have e : (ctx.m.take ctx.posn ++ d.take t ++ ctx.m.drop (ctx.posn + (d.take t).length)).take 64 =
          m.drop (64 * (m.length / 64)) ++ d.take t := by
        rw [← h.pre, List.drop_of_length_le (by omega), List.append_nil, List.take_of_length_le (by simp; omega)]
      dsimp only
      rw [e, hl]
      rfl

theorem updateLoop_absorbed (n : Nat) {m : Bytes} {ctx : Ctx} (h : Absorbed m ctx) (d : Bytes) (hn : d.length ≤ n) :
    ∃ ctx', updateLoop n ctx d = .ok ctx' ∧ Absorbed (m ++ d) ctx' := by
  induction n generalizing m ctx d with
  | zero =>
    obtain rfl : d = [] := List.length_eq_zero_iff.mp (by omega)
    exact ⟨ctx, by simp [updateLoop], by simpa using h⟩
  | succ n ih =>
    cases d with
    | nil => exact ⟨ctx, by simp [updateLoop], by simpa using h⟩
    | cons x d =>
      obtain ⟨c', t, ht, ht', hs, ha⟩ := updateStep_absorbed h (x :: d) (by simp)
      obtain ⟨c'', hu, ha'⟩ := ih ha ((x :: d).drop t) (by simp only [List.length_drop]; omega)
      refine ⟨c'', ?_, by rwa [List.append_assoc, List.take_append_drop] at ha'⟩
      rw [updateLoop, hs]
      exact hu

theorem update_absorbed {m : Bytes} {ctx : Ctx} (h : Absorbed m ctx) (d : Bytes) :
    ∃ ctx', update ctx d = .ok ctx' ∧ Absorbed (m ++ d) ctx' :=
  updateLoop_absorbed _ h d (Nat.le_refl _)

/-- The last bytes of the padding. -/
def lenField (n : Nat) : Bytes := beBytes 8 (8 * n % 2 ^ 64)

/-- The padding written by the code: the number of bits is counted modulo 2^64. -/
def padding64 (n : Nat) : Bytes :=
  0x80 :: (List.replicate ((64 - (n + 1 + 8) % 64) % 64) 0 ++ lenField n)

/-- The function computed by the code for messages of any length. -/
def hash64 (m : Bytes) : Bytes := hashPadded (m ++ padding64 m.length)

theorem hash64_eq (m : Bytes) (h : m.length < 2 ^ 61) : hash64 m = Fips180.Sha256.hash m := by
  unfold hash64 Fips180.Sha256.hash padding64 padding lenField
  rw [Nat.mod_eq_of_lt (a := 8 * m.length) (by omega)]

theorem lenField_eq (n : Nat) :
    writeBe (UInt64.ofNat (8 * n) >>> 32).toUInt32 ++ writeBe (UInt64.ofNat (8 * n)).toUInt32 = lenField n := by
  rw [writeBe_eq, writeBe_eq, lenField]
  rw [show (8 : Nat) = 4 + 4 from rfl, BigEndian.beBytes_append]
  have e1 : ((UInt64.ofNat ((4 + 4) * n) >>> 32).toUInt32).toNat = (4 + 4) * n % 2 ^ 64 / 256 ^ 4 := by
    simp only [UInt64.toNat_toUInt32, UInt64.toNat_shiftRight, UInt64.toNat_ofNat', Nat.shiftRight_eq_div_pow]
    rw [show (32 : UInt64).toNat % 64 = 32 from rfl]
    omega
  have e2 : ((UInt64.ofNat ((4 + 4) * n)).toUInt32).toNat = (4 + 4) * n % 2 ^ 64 % 256 ^ 4 := by
    simp only [UInt64.toNat_toUInt32, UInt64.toNat_ofNat']
    omega
  rw [e1, e2, BigEndian.beBytes_mod]

theorem lenField_length (n : Nat) : (lenField n).length = 8 := BigEndian.beBytes_length _ _

/-- The blocks of the padded message. -/
theorem parse_padded (m : Bytes) (q j : Nat) (rest : Bytes) (hq : 64 * q ≤ m.length)
    (hr : (m.drop (64 * q) ++ rest).length = 64 * j) :
    parse 64 (m ++ rest) = chunks 64 q m ++ chunks 64 j (m.drop (64 * q) ++ rest) := by
  have hl : (m ++ rest).length / 64 = q + j := by
    simp only [List.length_append, List.length_drop] at hr ⊢; omega
  have e : m ++ rest = m.take (64 * q) ++ (m.drop (64 * q) ++ rest) := by
    rw [← List.append_assoc, List.take_append_drop]
  show chunks 64 _ _ = _
  rw [hl]
  conv => lhs; rw [e]
  rw [chunks_append _ _ _ _ _ (by simp; omega)]
  congr 1
  conv => rhs; rw [← List.take_append_drop (64 * q) m]
  rw [chunks_prefix _ _ _ _ (by simp; omega)]

theorem output_eq (h : List UInt32) (hh : h.length = 8) :
    ((List.range 8).flatMap fun i => writeBe (h.getD i 0)) = h.flatMap fun w => beBytes 4 w.toNat := by
  match h, hh with
  | [a, b, c, d, e, f, g, i], _ =>
    simp only [writeBe_eq]
    rfl

theorem compress_length (h : List UInt32) (b : Bytes) : (compress h b).length = 8 := rfl

theorem hash64_blocks (m : Bytes) (j : Nat)
    (hr : (m.drop (64 * (m.length / 64)) ++ padding64 m.length).length = 64 * j) :
    hash64 m = ((chunks 64 j (m.drop (64 * (m.length / 64)) ++ padding64 m.length)).foldl compress
      ((chunks 64 (m.length / 64) m).foldl compress Fips180.Sha256.H0)).flatMap fun w => beBytes 4 w.toNat := by
  rw [hash64, hashPadded, parse_padded m _ j _ (by omega) hr, List.foldl_append]

theorem finish_eq {m : Bytes} {ctx : Ctx} (h : Absorbed m ctx) :
    ∃ ctx', finish ctx = .ok (ctx', hash64 m) ∧ ctx'.m.length = 64 := by
  have hp := h.posn
  have hb := h.buf
  have hpre := h.pre
  have hlf := lenField_eq m.length
  rw [← h.length] at hlf
  have hlen := lenField_length m.length
  have hpad : padding64 m.length = 0x80 ::
    (List.replicate ((64 - (m.length + 1 + 8) % 64) % 64) 0 ++ lenField m.length) := rfl
  have hblk := hash64_blocks m
  rw [← h.h] at hblk
  have htl : (m.drop (64 * (m.length / 64))).length = ctx.posn := by simp; omega
  have hl1 : ∀ v, (writeBe v).length = 4 := fun _ => rfl
  generalize m.drop (64 * (m.length / 64)) = tail at *
  rw [← htl] at hpre
  unfold finish pad
  obtain ⟨b1, s1, l1, p1⟩ := store_after hpre (s := [(0x80 : UInt8)]) (by simp; omega)
  rw [htl] at s1
  rw [s1, Out.bind_ok]
  have ht1 : (tail ++ [(0x80 : UInt8)]).length = ctx.posn + 1 := by simp [htl]
  by_cases hc : ctx.posn ≤ 64 - 9
  · rw [if_pos hc]
    obtain ⟨b2, s2, l2, p2⟩ := store_after p1 (s := List.replicate (64 - 8 - (ctx.posn + 1)) 0)
      (by rw [ht1, List.length_replicate]; omega)
    rw [ht1] at s2
    rw [s2, Out.bind_ok, Out.pure_eq, Out.bind_ok]
    have ht2 : (tail ++ [(0x80 : UInt8)] ++ List.replicate (64 - 8 - (ctx.posn + 1)) (0 : UInt8)).length = 64 - 8 := by
      rw [List.length_append, ht1, List.length_replicate]; omega
    obtain ⟨b3, s3, l3, p3⟩ := store_after p2 (s := writeBe (ctx.length >>> 32).toUInt32) (by rw [ht2, hl1]; omega)
    rw [ht2] at s3
    dsimp only
    rw [s3, Out.bind_ok]
    have ht3 : (tail ++ [(0x80 : UInt8)] ++ List.replicate (64 - 8 - (ctx.posn + 1)) (0 : UInt8) ++ writeBe (ctx.length >>> 32).toUInt32).length =
        64 - 4 := by rw [List.length_append, ht2, hl1]
    obtain ⟨b4, s4, l4, p4⟩ := store_after p3 (s := writeBe ctx.length.toUInt32) (by rw [ht3, hl1]; omega)
    rw [ht3] at s4
    rw [s4, Out.bind_ok, transform_eq _ _ (by omega), Out.bind_ok, Out.pure_eq]
    refine ⟨_, congrArg Out.ok (Prod.ext rfl ?_), by dsimp only; omega⟩
    have hz : (64 - (m.length + 1 + 8) % 64) % 64 = 64 - 8 - (ctx.posn + 1) := by omega
    rw [hz] at hpad
    have e : tail ++ padding64 m.length = b4.take 64 := by
      rw [List.length_append, ht3, hl1] at p4
      rw [p4, hpad, ← hlf]
      simp only [List.append_assoc, List.cons_append, List.nil_append]
    rw [hblk 1 (by rw [e, List.length_take]; omega), e, chunks_one _ _ (by rw [List.length_take]; omega)]
    exact output_eq _ (compress_length _ _)
  · rw [if_neg hc]
    obtain ⟨b2, s2, l2, p2⟩ := store_after p1 (s := List.replicate (64 - (ctx.posn + 1)) 0)
      (by rw [ht1, List.length_replicate]; omega)
    rw [ht1] at s2
    have ht2 : (tail ++ [(0x80 : UInt8)] ++ List.replicate (64 - (ctx.posn + 1)) (0 : UInt8)).length = 64 := by
      rw [List.length_append, ht1, List.length_replicate]; omega
    rw [ht2] at p2
    rw [s2, Out.bind_ok, transform_eq _ _ (by omega), Out.bind_ok]
    obtain ⟨b3, s3, l3, p3⟩ := store_after (b := b2) (x := []) (s := List.replicate (64 - 8) 0) rfl
      (by rw [List.length_replicate]; simp; omega)
    rw [List.length_nil] at s3
    rw [List.nil_append] at p3
    dsimp only
    rw [s3, Out.bind_ok, Out.pure_eq, Out.bind_ok]
    obtain ⟨b4, s4, l4, p4⟩ := store_after p3 (s := writeBe (ctx.length >>> 32).toUInt32) (by rw [List.length_replicate, hl1]; omega)
    rw [List.length_replicate] at s4
    dsimp only
    rw [s4, Out.bind_ok]
    have ht4 : (List.replicate (64 - 8) (0 : UInt8) ++ writeBe (ctx.length >>> 32).toUInt32).length = 64 - 4 := by
      rw [List.length_append, List.length_replicate, hl1]
    obtain ⟨b5, s5, l5, p5⟩ := store_after p4 (s := writeBe ctx.length.toUInt32) (by rw [ht4, hl1]; omega)
    rw [ht4] at s5
    rw [s5, Out.bind_ok, transform_eq _ _ (by omega), Out.bind_ok, Out.pure_eq]
    refine ⟨_, congrArg Out.ok (Prod.ext rfl ?_), by dsimp only; omega⟩
    have hz : (64 - (m.length + 1 + 8) % 64) % 64 = (64 - (ctx.posn + 1)) + (64 - 8) := by omega
    rw [hz] at hpad
    have e : tail ++ padding64 m.length = b2.take 64 ++ b5.take 64 := by
      rw [List.length_append, ht4, hl1] at p5
      rw [p5, p2, hpad, ← hlf, ← List.replicate_append_replicate]
      simp only [List.append_assoc, List.cons_append, List.nil_append]
    rw [hblk 2 (by rw [e, List.length_append, List.length_take, List.length_take]; omega), e,
      chunks_append _ 1 1 _ _ (by rw [List.length_take]; omega), chunks_one _ _ (by rw [List.length_take]; omega),
      chunks_one _ _ (by rw [List.length_take]; omega)]
    exact output_eq _ (compress_length _ _)

theorem fold_compress_length (l : List Bytes) (h : List UInt32) (hh : h.length = 8) : (l.foldl compress h).length = 8 := by
  induction l generalizing h with
  | nil => exact hh
  | cons b l ih => exact ih _ (compress_length _ _)

theorem hash64_length (m : Bytes) : (hash64 m).length = 32 := by
  unfold hash64 hashPadded
  have hl := fold_compress_length (parse 64 (m ++ padding64 m.length)) Fips180.Sha256.H0 rfl
  generalize List.foldl compress _ _ = l at *
  match l, hl with
  | [a, b, c, d, e, f, g, i], _ => simp [BigEndian.beBytes_length]

/-- **C32** for SHA-256: whatever the context contained before, and however the message is cut into pieces,
reset, any number of updates and finish give the hash of the concatenation, and no step is undefined. -/
theorem C32_sha256 (ctx : Ctx) (hb : ctx.m.length = 64) (ds : List Bytes) (hlen : ds.flatten.length < 2 ^ 61) :
    ∃ ctx', (ds.foldlM update (reset ctx) >>= finish) = .ok (ctx', Fips180.Sha256.hash ds.flatten) := by
  have key : ∀ (ds : List Bytes) (m : Bytes) (c : Ctx), Absorbed m c → ∃ c', ds.foldlM update c = .ok c' ∧
      Absorbed (m ++ ds.flatten) c' := by
    intro ds
    induction ds with
    | nil => intro m c h; exact ⟨c, rfl, by simpa using h⟩
    | cons d ds ih =>
      intro m c h
      obtain ⟨c1, e1, a1⟩ := update_absorbed h d
      obtain ⟨c2, e2, a2⟩ := ih _ _ a1
      refine ⟨c2, ?_, by rwa [List.append_assoc] at a2⟩
      rw [List.foldlM_cons, e1]
      exact e2
  obtain ⟨c, e, a⟩ := key ds [] (reset ctx) (reset_absorbed ctx hb)
  obtain ⟨c', e', _⟩ := finish_eq a
  refine ⟨c', ?_⟩
  rw [List.nil_append, hash64_eq _ hlen] at e'
  rw [e]
  exact e'

/-- A context: any contents, with the buffer of the declared size. -/
def Context := { c : Ctx // c.m.length = 64 }

/-- `noise_sha256_new` and the functions it installs, `src/backend/ref/hash-sha256.c:26-63`. An undefined outcome is
represented by an unchanged context and an empty hash; `C32_sha256` shows that there is none. -/
def backend : HashBackend where
  hashId := 0x4803
  hashLen := 32
  blockLen := 64
  Ctx := Context
  reset := fun c => ⟨reset c.1, c.2⟩
  update := fun c d =>
    match update c.1 d with
    | .ok c' => if h : c'.m.length = 64 then ⟨c', h⟩ else c
    | .ub => c
  finalize := fun c =>
    match finish c.1 with
    | .ok (c', out) => if h : c'.m.length = 64 then (⟨c', h⟩, out) else (c, [])
    | .ub => (c, [])

theorem backend_update {m : Bytes} {c : Context} (h : Absorbed m c.1) (d : Bytes) :
    Absorbed (m ++ d) (backend.update c d).1 := by
  obtain ⟨c', e, a⟩ := update_absorbed h d
  have : backend.update c d = ⟨c', a.buf⟩ := by
    show (match update c.1 d with | .ok c' => _ | .ub => _) = _
    rw [e]
    exact dif_pos a.buf
  rw [this]
  exact a

/-- **C32** for the SHA-256 back end: it satisfies what the protocol layer relies on. -/
theorem C32_sha256_lawful : backend.Lawful hash64 where
  digest := by
    intro c ds
    have key : ∀ (ds : List Bytes) (m : Bytes) (c : Context), Absorbed m c.1 →
        Absorbed (m ++ ds.flatten) (ds.foldl backend.update c).1 := by
      intro ds
      induction ds with
      | nil => intro m c h; rw [List.flatten_nil, List.append_nil]; exact h
      | cons d ds ih =>
        intro m c h
        have := ih _ _ (backend_update h d)
        rwa [List.append_assoc] at this
    have a := key ds [] (backend.reset c) (reset_absorbed c.1 c.2)
    rw [List.nil_append] at a
    generalize List.foldl backend.update (backend.reset c) ds = c1 at *
    obtain ⟨c', e, hb⟩ := finish_eq a
    have : backend.finalize c1 = (⟨c', hb⟩, hash64 ds.flatten) := by
      show (match finish c1.1 with | .ok (c', out) => _ | .ub => _) = _
      rw [e]
      exact dif_pos hb
    rw [this]
  length := hash64_length
  hashLen_pos := by decide
  hashLen_le_block := by decide
  hashLen_le_max := by decide

/-- The hypotheses hold for a message in several pieces, and the result is the example of the standard. -/
example : ∃ ctx', ([[0x61], [], [0x62, 0x63]].foldlM update (reset ⟨[], List.replicate 64 7, 5, 3⟩) >>= finish) =
    .ok (ctx', Fips180.Sha256.hash [0x61, 0x62, 0x63]) :=
  C32_sha256 ⟨[], List.replicate 64 7, 5, 3⟩ rfl [[0x61], [], [0x62, 0x63]] (by decide)

end Noise.Sha256
