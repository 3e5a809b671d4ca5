import Verif.Blake2b
import Verif.Rfc7693
import Verif.Chunks
import Verif.Poly1305Props
/-!
# BLAKE2b: the code computes the function of RFC 7693

However the message is cut into pieces.
-/

namespace Noise.Blake2b

open Rfc7539 (leNat leBytes)
open Rfc7693.Bb (F G mix words start absorb hashWith IV initial rotr)

theorem readWord_eq (p : Bytes) (i : Nat) : readWord p i = UInt64.ofNat (leNat ((p.drop i).take 8)) := by
  apply UInt64.toNat_inj.1
  have e := Poly1305.u8to64_toNat p i
  have hl := (Poly1305.u8to64 p i).toNat_lt
  rw [UInt64.toNat_ofNat', Nat.mod_eq_of_lt (by omega)]
  exact e

theorem writeWord_eq (w : UInt64) : writeWord w = leBytes 8 w.toNat := Poly1305.u64to8_eq w

theorem unpack_eq (data : Bytes) : unpack false data = words (data.take 128) := by
  show List.map _ _ = _
  apply List.map_congr_left
  intro i hi
  rw [List.mem_range] at hi
  rw [readWord_eq, List.drop_take, List.take_take, Nat.min_eq_left (by omega)]

theorem rot1 (x : UInt64) : rightRotate x 32 = rotr x 32 := rfl
theorem rot2 (x : UInt64) : rightRotate x 24 = rotr x 24 := rfl
theorem rot3 (x : UInt64) : rightRotate x 16 = rotr x 16 := rfl
theorem rot4 (x : UInt64) : rightRotate x 63 = rotr x 63 := rfl

theorem quarterRound_eq (a b c d x y : UInt64) : quarterRound a b c d x y = mix (a, b, c, d) x y := by
  simp only [quarterRound, mix, rot1, rot2, rot3, rot4, UInt64.add_assoc]

/-- The work vector as a list. -/
def Work.list (v : Work) : List UInt64 :=
  [v.v0, v.v1, v.v2, v.v3, v.v4, v.v5, v.v6, v.v7, v.v8, v.v9, v.v10, v.v11, v.v12, v.v13, v.v14, v.v15]

section
attribute [local irreducible] mix

theorem round_eq (m : List UInt64) (v : Work) (s : List Nat) : (round m v s).list = Rfc7693.Bb.round m v.list s := by
  obtain ⟨v0, v1, v2, v3, v4, v5, v6, v7, v8, v9, v10, v11, v12, v13, v14, v15⟩ := v
  simp only [round, quarterRound_eq, Rfc7693.Bb.round, Work.list, List.foldl_cons, List.foldl_nil, G,
    List.getD_cons_zero, List.getD_cons_succ, List.set_cons_zero, List.set_cons_succ]

end

theorem rounds_eq (m : List UInt64) (rows : List (List Nat)) (v : Work) :
    (rows.foldl (round m) v).list = rows.foldl (Rfc7693.Bb.round m) v.list := by
  induction rows generalizing v with
  | nil => rfl
  | cons s rows ih => rw [List.foldl_cons, ih, round_eq, List.foldl_cons]

theorem sigma_eq : sigma = (List.range 12).map fun i => Rfc7693.SIGMA.getD (i % 10) [] := by decide

theorem iv_eq : iv = IV := rfl

theorem format_eq (ctx : Ctx) (hh : ctx.h.length = 8) (final : Bool) :
    (format ctx (if final then 0xFFFFFFFFFFFFFFFF else 0)).list = start ctx.h ctx.length.toNat final := by
  have h12 : iv.getD 4 0 ^^^ ctx.length = IV.getD 4 0 ^^^ UInt64.ofNat ctx.length.toNat := by
    rw [UInt64.ofNat_toNat]; rfl
  have h13 : iv.getD 5 0 = IV.getD 5 0 ^^^ UInt64.ofNat (ctx.length.toNat / 2 ^ 64) := by
    have := ctx.length.toNat_lt
    rw [show ctx.length.toNat / 2 ^ 64 = 0 by omega]; rfl
  have h14 : iv.getD 6 0 ^^^ (if final then 0xFFFFFFFFFFFFFFFF else 0) = if final then ~~~(IV.getD 6 0) else IV.getD 6 0 := by
    cases final <;> decide
  unfold format
  rw [h12, h13, h14]
  obtain ⟨h, m, l, p⟩ := ctx
  match h, hh with
  | [a, b, c, d, e, f, g, i], _ => rfl

theorem F_length (h : List UInt64) (b : Bytes) (t : Nat) (f : Bool) : (F h b t f).length = 8 := by simp [F]

theorem transform_eq (ctx : Ctx) (hh : ctx.h.length = 8) (data : Bytes) (hd : 128 ≤ data.length) (final : Bool) :
    transform false ctx data (if final then 0xFFFFFFFFFFFFFFFF else 0) =
      .ok { ctx with h := F ctx.h (data.take 128) ctx.length.toNat final } := by
  unfold transform F
  rw [if_neg (by omega), unpack_eq, ← format_eq ctx hh, ← sigma_eq]
  dsimp only
  rw [← rounds_eq]
  generalize List.foldl (round _) _ _ = v
  obtain ⟨v0, v1, v2, v3, v4, v5, v6, v7, v8, v9, v10, v11, v12, v13, v14, v15⟩ := v
  simp only [← UInt64.xor_assoc]
  rfl

attribute [local irreducible] F

/-- The counter of the code. -/
def ctr (n : Nat) : Nat := n % 2 ^ 64

theorem absorb_succ (m : Bytes) (q : Nat) : absorb ctr m (q + 1) =
    F (absorb ctr m q) ((m.drop (128 * q)).take 128) (ctr (128 * (q + 1))) false := by
  rw [absorb, absorb, List.range_succ, List.foldl_append, List.foldl_cons, List.foldl_nil]

theorem absorb_append (m d : Bytes) (q : Nat) (h : 128 * q ≤ m.length) : absorb ctr (m ++ d) q = absorb ctr m q := by
  induction q with
  | zero => simp only [absorb, List.range_zero, List.foldl_nil]
  | succ q ih =>
    rw [absorb_succ, absorb_succ, ih (by omega), List.drop_append_of_le_length (by omega),
      List.take_append_of_le_length (by simp; omega)]

theorem absorb_length (m : Bytes) (q : Nat) : (absorb ctr m q).length = 8 := by
  cases q with
  | zero => rfl
  | succ q => rw [absorb_succ, F_length]

/-- The context after `m`, of which `q` blocks have been processed. -/
structure Inv (q : Nat) (m : Bytes) (ctx : Ctx) : Prop where
  lo : 128 * q ≤ m.length
  hi : m.length ≤ 128 * (q + 1)
  h : ctx.h = absorb ctr m q
  buf : ctx.m.length = 128
  pre : ctx.m.take ctx.posn = m.drop (128 * q)
  posn : ctx.posn = m.length - 128 * q
  length : ctx.length = UInt64.ofNat m.length

theorem Inv.h_length {q : Nat} {m : Bytes} {ctx : Ctx} (h : Inv q m ctx) : ctx.h.length = 8 := by
  rw [h.h, absorb_length]

/-- The context after `m` when `d` is still to come: the last block is not processed before the end. -/
def Good (m d : Bytes) (ctx : Ctx) : Prop := ∃ q, Inv q m ctx ∧ (d = [] → q = 0 ∨ 128 * q < m.length)

theorem reset_good (ctx : Ctx) (hb : ctx.m.length = 128) : Good [] [] (reset ctx) :=
  ⟨0, ⟨by simp, by simp, rfl, hb, rfl, rfl, rfl⟩, fun _ => .inl rfl⟩

theorem toNat_length {q : Nat} {m : Bytes} {ctx : Ctx} (h : Inv q m ctx) : ctx.length.toNat = ctr m.length := by
  rw [h.length, UInt64.toNat_ofNat', ctr]

theorem flush_inv {q : Nat} {m : Bytes} {ctx : Ctx} (h : Inv q m ctx) :
    ∃ q' ctx', flush false ctx = .ok ctx' ∧ Inv q' m ctx' ∧ ctx'.posn < 128 := by
  have hb := h.buf
  have hp := h.posn
  have hlo := h.lo
  have hhi := h.hi
  unfold flush
  by_cases hc : ctx.posn = 128
  · rw [if_pos hc]
    have ht := transform_eq ctx h.h_length ctx.m (by omega) false
    rw [if_neg (by decide)] at ht
    rw [ht]
    refine ⟨q + 1, _, rfl, ⟨by omega, by omega, ?_, hb, ?_, ?_, h.length⟩, Nat.zero_lt_succ _⟩
    · have hm : m.length = 128 * (q + 1) := by omega
      have e : ctx.m.take 128 = (m.drop (128 * q)).take 128 := by
        rw [← h.pre, hc, List.take_take, Nat.min_self]
      rw [absorb_succ, ← h.h, ← e, ← hm, ← toNat_length h]
    · rw [List.drop_of_length_le (by omega)]; rfl
    · show 0 = _; omega
  · rw [if_neg hc]
    exact ⟨q, ctx, rfl, h, by omega⟩

theorem updateStep_good {m : Bytes} {ctx : Ctx} (d : Bytes) (h : Good m d ctx) (hd : d ≠ []) :
    ∃ ctx' t, 0 < t ∧ t ≤ d.length ∧ updateStep false ctx d = .ok (ctx', d.drop t) ∧
      Good (m ++ d.take t) (d.drop t) ctx' := by
  have hd0 : 0 < d.length := List.length_pos_iff.mpr hd
  obtain ⟨q0, hi0, _⟩ := h
  obtain ⟨q, c, hf, hi, hlt⟩ := flush_inv hi0
  have hb := hi.buf
  have hp := hi.posn
  have hlo := hi.lo
  have hhi := hi.hi
  unfold updateStep
  rw [hf, Out.bind_ok]
  by_cases hc : d.length > 128 ∧ c.posn = 0
  · rw [if_pos hc]
    have ht := transform_eq { c with length := c.length + 128 } hi.h_length d (by omega) false
    rw [if_neg (by decide)] at ht
    rw [ht]
    have hm : m.length = 128 * q := by omega
    have hlen : c.length + 128 = UInt64.ofNat (m.length + 128) := by
      rw [hi.length, UInt64.ofNat_add]; rfl
    have hl : (d.take 128).length = 128 := by simp; omega
    refine ⟨_, 128, by omega, by omega, rfl, q + 1, ⟨?_, ?_, ?_, hb, ?_, ?_, ?_⟩, ?_⟩
    · rw [List.length_append, hl]; omega
    · rw [List.length_append, hl]; omega
    · have e : (m ++ d.take 128).drop (128 * q) = d.take 128 := by rw [← hm, List.drop_left]
      rw [absorb_succ, absorb_append _ _ _ hlo, e, List.take_take, Nat.min_self, ← hi.h]
      dsimp only
      rw [hlen, UInt64.toNat_ofNat', hm]
      rfl
    · dsimp only
      rw [hc.2, List.drop_of_length_le (by rw [List.length_append, hl]; omega)]; rfl
    · rw [List.length_append, hl]; dsimp only; omega
    · rw [List.length_append, hl]; exact hlen
    · intro hnil
      have := congrArg List.length hnil
      rw [List.length_drop, List.length_nil] at this
      omega
  · rw [if_neg hc]
    have ht : (if 128 - c.posn > d.length then d.length else 128 - c.posn) = min (128 - c.posn) d.length := by
      split <;> omega
    dsimp only
    rw [ht]
    have hmin : min (128 - c.posn) d.length ≤ d.length := Nat.min_le_right _ _
    have hpos : 0 < min (128 - c.posn) d.length := by omega
    have hle : min (128 - c.posn) d.length ≤ 128 - c.posn := Nat.min_le_left _ _
    generalize min (128 - c.posn) d.length = t at *
    have hl : (d.take t).length = t := by simp; omega
    have htl : (m.drop (128 * q)).length = c.posn := by simp; omega
    have hpre := hi.pre
    rw [← htl] at hpre
    obtain ⟨b, hs, hbl, hbp⟩ := store_after hpre (s := d.take t) (by omega)
    rw [htl] at hs
    rw [hs]
    refine ⟨_, t, hpos, hmin, rfl, q, ⟨?_, ?_, ?_, hbl.trans hb, ?_, ?_, ?_⟩, ?_⟩
    · rw [List.length_append]; omega
    · rw [List.length_append]; omega
    · rw [absorb_append _ _ _ hlo]; exact hi.h
    · rw [List.length_append, htl, hl] at hbp
      rw [List.drop_append_of_le_length hlo]; exact hbp
    · rw [List.length_append]; dsimp only; omega
    · rw [List.length_append, hl, UInt64.ofNat_add, ← hi.length]
    · intro _; right; rw [List.length_append]; omega

theorem updateLoop_good (n : Nat) {m : Bytes} {ctx : Ctx} (d : Bytes) (h : Good m d ctx) (hn : d.length ≤ n) :
    ∃ ctx', updateLoop false n ctx d = .ok ctx' ∧ Good (m ++ d) [] ctx' := by
  induction n generalizing m ctx d with
  | zero =>
    obtain rfl : d = [] := List.length_eq_zero_iff.mp (by omega)
    exact ⟨ctx, by simp [updateLoop], by simpa using h⟩
  | succ n ih =>
    cases d with
    | nil => exact ⟨ctx, by simp [updateLoop], by simpa using h⟩
    | cons x d =>
      obtain ⟨c', t, ht, ht', hs, ha⟩ := updateStep_good (x :: d) h (by simp)
      obtain ⟨c'', hu, ha'⟩ := ih ((x :: d).drop t) ha (by simp only [List.length_drop]; omega)
      refine ⟨c'', ?_, by rwa [List.append_assoc, List.take_append_drop] at ha'⟩
      rw [updateLoop, hs]
      exact hu

theorem update_good {m : Bytes} {ctx : Ctx} (h : Good m [] ctx) (d : Bytes) :
    ∃ ctx', update false ctx d = .ok ctx' ∧ Good (m ++ d) [] ctx' := by
  obtain ⟨q, hi, hs⟩ := h
  exact updateLoop_good _ d ⟨q, hi, fun _ => hs rfl⟩ (Nat.le_refl _)

theorem output_eq (h : List UInt64) (hh : h.length = 8) :
    ((List.range 8).flatMap fun i => writeWord (h.getD i 0)) = h.flatMap fun w => leBytes 8 w.toNat := by
  match h, hh with
  | [a, b, c, d, e, f, g, i], _ =>
    simp only [writeWord_eq]
    rfl

/-- The function computed by the code for messages of any length: the counter is taken modulo 2^64. -/
def hash64 (m : Bytes) : Bytes := hashWith ctr m

theorem flatMap_length (h : List UInt64) : (h.flatMap fun w => leBytes 8 w.toNat).length = 8 * h.length := by
  induction h with
  | nil => rfl
  | cons a h ih => rw [List.flatMap_cons, List.length_append, leBytes_length, ih, List.length_cons]; omega

theorem hash64_length (m : Bytes) : (hash64 m).length = 64 := by
  unfold hash64 hashWith
  rw [flatMap_length, F_length]

/-- The counter of the code is enough for all messages below 2^64 bytes. -/
theorem hash64_eq (m : Bytes) (hm : m.length < 2 ^ 64) : hash64 m = Rfc7693.Bb.hash m := by
  have e : ∀ k, 128 * k ≤ m.length → absorb ctr m k = absorb id m k := by
    intro k hk
    induction k with
    | zero => simp only [absorb, List.range_zero, List.foldl_nil]
    | succ k ih =>
      rw [absorb_succ, ih (by omega), absorb, absorb, List.range_succ, List.foldl_append, ctr,
        Nat.mod_eq_of_lt (by omega)]
      rfl
  unfold hash64 Rfc7693.Bb.hash hashWith
  dsimp only
  rw [e _ (by omega), ctr, Nat.mod_eq_of_lt hm]
  rfl

theorem finish_eq {m : Bytes} {ctx : Ctx} (h : Good m [] ctx) (hash : Bytes) (hh : hash.length = 64) :
    ∃ ctx', finish false ctx hash = .ok (ctx', hash64 m) ∧ ctx'.m.length = 128 := by
  obtain ⟨q, hi, hs⟩ := h
  have hs := hs rfl
  have hb := hi.buf
  have hp := hi.posn
  have hlo := hi.lo
  have hhi := hi.hi
  have htl : (m.drop (128 * q)).length = ctx.posn := by simp; omega
  have hpre := hi.pre
  rw [← htl] at hpre
  obtain ⟨b, es, hbl, hbp⟩ := store_after hpre (s := List.replicate (128 - ctx.posn) 0)
    (by rw [List.length_replicate]; omega)
  rw [htl] at es
  unfold finish
  rw [es, Out.bind_ok]
  have ht := transform_eq { ctx with m := b } hi.h_length b (by omega) true
  rw [if_pos rfl] at ht
  rw [ht]
  have hdd : max 1 ((m.length + (128 - 1)) / 128) = q + 1 := by omega
  have he : hash64 m = (F ctx.h (b.take 128) (ctr m.length) true).flatMap fun w => leBytes 8 w.toNat := by
    unfold hash64 hashWith
    rw [hdd]
    dsimp only
    rw [show q + 1 - 1 = q by omega, ← hi.h, htl]
    rw [List.length_append, htl, List.length_replicate, show ctx.posn + (128 - ctx.posn) = 128 by omega] at hbp
    rw [hbp]
  have ho : output false (F ctx.h (b.take 128) ctx.length.toNat true) hash = .ok (hash64 m) := by
    rw [output, if_neg (by decide), output_eq _ (F_length _ _ _ _), he, ← toNat_length hi,
      store_ok (by rw [flatMap_length, F_length]; omega), flatMap_length, F_length, List.take_zero,
      List.drop_of_length_le (by omega), List.append_nil, List.nil_append]
  rw [Out.bind_ok]
  dsimp only
  rw [ho]
  exact ⟨_, rfl, by dsimp only; omega⟩

/-- **C32** for BLAKE2b: whatever the context contained before, and however the message is cut into pieces,
reset, any number of updates and finish give the hash of the concatenation, and no step is undefined. -/
theorem C32_blake2b (ctx : Ctx) (hb : ctx.m.length = 128) (hash : Bytes) (hh : hash.length = 64) (ds : List Bytes)
    (hlen : ds.flatten.length < 2 ^ 64) :
    ∃ ctx', (ds.foldlM (update false) (reset ctx) >>= fun c => finish false c hash) =
      .ok (ctx', Rfc7693.Bb.hash ds.flatten) := by
  have key : ∀ (ds : List Bytes) (m : Bytes) (c : Ctx), Good m [] c → ∃ c', ds.foldlM (update false) c = .ok c' ∧
      Good (m ++ ds.flatten) [] c' := by
    intro ds
    induction ds with
    | nil => intro m c h; exact ⟨c, rfl, by simpa using h⟩
    | cons d ds ih =>
      intro m c h
      obtain ⟨c1, e1, a1⟩ := update_good h d
      obtain ⟨c2, e2, a2⟩ := ih _ _ a1
      refine ⟨c2, ?_, by rwa [List.append_assoc] at a2⟩
      rw [List.foldlM_cons, e1]
      exact e2
  obtain ⟨c, e, a⟩ := key ds [] (reset ctx) (reset_good ctx hb)
  obtain ⟨c', e', _⟩ := finish_eq a hash hh
  refine ⟨c', ?_⟩
  rw [List.nil_append, hash64_eq _ hlen] at e'
  rw [e]
  exact e'

/-- A context: any contents, with the buffer of the declared size. -/
def Context := { c : Ctx // c.m.length = 128 }

/-- `noise_blake2b_new` and the functions it installs, `src/backend/ref/hash-blake2b.c:26-63`. An undefined
outcome is represented by an unchanged context and an empty hash; `C32_blake2b` shows that there is none. -/
def backend : HashBackend where
  hashId := 0x4802
  hashLen := 64
  blockLen := 128
  Ctx := Context
  reset := fun c => ⟨reset c.1, c.2⟩
  update := fun c d =>
    match update false c.1 d with
    | .ok c' => if h : c'.m.length = 128 then ⟨c', h⟩ else c
    | .ub => c
  finalize := fun c =>
    match finish false c.1 (List.replicate 64 0) with
    | .ok (c', out) => if h : c'.m.length = 128 then (⟨c', h⟩, out) else (c, [])
    | .ub => (c, [])

theorem backend_update {m : Bytes} {c : Context} (h : Good m [] c.1) (d : Bytes) :
    Good (m ++ d) [] (backend.update c d).1 := by
  obtain ⟨c', e, a⟩ := update_good h d
  have hb : c'.m.length = 128 := by
    obtain ⟨q, hi, _⟩ := a
    exact hi.buf
  have : backend.update c d = ⟨c', hb⟩ := by
    show (match update false c.1 d with | .ok c' => _ | .ub => _) = _
    rw [e]
    exact dif_pos hb
  rw [this]
  exact a

/-- **C32** for the BLAKE2b back end: it satisfies what the protocol layer relies on. -/
theorem C32_blake2b_lawful : backend.Lawful hash64 where
  digest := by
    intro c ds
    have key : ∀ (ds : List Bytes) (m : Bytes) (c : Context), Good m [] c.1 →
        Good (m ++ ds.flatten) [] (ds.foldl backend.update c).1 := by
      intro ds
      induction ds with
      | nil => intro m c h; rw [List.flatten_nil, List.append_nil]; exact h
      | cons d ds ih =>
        intro m c h
        have := ih _ _ (backend_update h d)
        rwa [List.append_assoc] at this
    have a := key ds [] (backend.reset c) (reset_good c.1 c.2)
    rw [List.nil_append] at a
    generalize List.foldl backend.update (backend.reset c) ds = c1 at *
    obtain ⟨c', e, hb⟩ := finish_eq a (List.replicate 64 0) rfl
    have : backend.finalize c1 = (⟨c', hb⟩, hash64 ds.flatten) := by
      show (match finish false c1.1 (List.replicate 64 0) with | .ok (c', out) => _ | .ub => _) = _
      rw [e]
      exact dif_pos hb
    rw [this]
  length := hash64_length
  hashLen_pos := by decide
  hashLen_le_block := by decide
  hashLen_le_max := by decide

/-- The hypotheses hold for a message in several pieces. -/
example : ∃ ctx', ([[0x61], [], [0x62, 0x63]].foldlM (update false) (reset ⟨[], List.replicate 128 7, 5, 3⟩) >>=
    fun c => finish false c (List.replicate 64 0)) = .ok (ctx', Rfc7693.Bb.hash [0x61, 0x62, 0x63]) :=
  C32_blake2b ⟨[], List.replicate 128 7, 5, 3⟩ rfl (List.replicate 64 0) rfl [[0x61], [], [0x62, 0x63]] (by decide)

/-- The digest on a little endian or big endian machine. -/
def digest (big : Bool) (m : Bytes) : Option Bytes :=
  match update big (reset ⟨[], List.replicate 128 0, 0, 0⟩) m >>= fun c => finish big c (List.replicate 64 0) with
  | .ok (_, out) => some out
  | .ub => none

/-- The full statement of **C54**: the digest is the one of the RFC on either machine. -/
def C54_statement : Prop :=
  ∀ (big : Bool) (m : Bytes), m.length < 2 ^ 64 → digest big m = some (Rfc7693.Bb.hash m)

/-- **C54** fails: on a big endian machine the digest of "abc" is not the one of the RFC (the pointers advance by
four bytes for words of eight bytes, `src/crypto/blake2/blake2b.c:101` and `:189`). -/
theorem C54_fails : ¬ C54_statement := by
  intro h
  have : digest true [0x61, 0x62, 0x63] ≠ some (Rfc7693.Bb.hash [0x61, 0x62, 0x63]) := by decide +kernel
  exact this (h true _ (by decide))

/-- **C54** holds on little endian machines. -/
theorem C54_partial (m : Bytes) (hm : m.length < 2 ^ 64) : digest false m = some (Rfc7693.Bb.hash m) := by
  obtain ⟨c, e⟩ := C32_blake2b ⟨[], List.replicate 128 0, 0, 0⟩ rfl (List.replicate 64 0) rfl [m] (by simpa using hm)
  have hf : [m].flatten = m := by simp
  rw [hf, List.foldlM_cons] at e
  have hu : (update false (reset ⟨[], List.replicate 128 0, 0, 0⟩) m >>= fun c => List.foldlM (update false) c []) =
      update false (reset ⟨[], List.replicate 128 0, 0, 0⟩) m := by
    generalize update false _ m = u
    cases u <;> rfl
  rw [hu] at e
  unfold digest
  rw [e]

/-- On a big endian machine only the first 36 bytes of the digest are written. -/
theorem C54_tail (h : List UInt64) (hash out : Bytes) (e : output true h hash = .ok out) :
    out.drop 36 = hash.drop 36 := by
  have step : ∀ (is : List Nat) (a b : Bytes), (∀ i ∈ is, i < 8) → outputBig h is a = .ok b → b.drop 36 = a.drop 36 := by
    intro is
    induction is with
    | nil => intro a b _ e; cases e; rfl
    | cons i is ih =>
      intro a b hi e
      rw [outputBig] at e
      obtain ⟨c, e1, e2⟩ := Out.bind_eq_ok.1 e
      have hi8 := hi i (by simp)
      rw [ih c b (fun j hj => hi j (by simp [hj])) e2]
      have hw : (writeWord (h.getD i 0)).length = 8 := rfl
      unfold store at e1
      split at e1
      · rename_i hle
        cases e1
        rw [hw] at hle
        have hl : (a.take (4 * i) ++ writeWord (h.getD i 0)).length = 4 * i + 8 := by
          rw [List.length_append, hw, List.length_take]; omega
        rw [List.drop_append, List.drop_of_length_le (by omega), hl, List.nil_append, List.drop_drop, hw]
        congr 1; omega
      · cases e1
  exact step (List.range 8) hash out (by simp) (by simpa [output] using e)

end Noise.Blake2b
