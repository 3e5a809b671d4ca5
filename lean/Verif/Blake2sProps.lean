import Verif.Blake2s
import Verif.Rfc7693
import Verif.Chunks
import Verif.Poly1305Props
/-!
# BLAKE2s: the code computes the function of RFC 7693

However the message is cut into pieces.
-/

namespace Noise.Blake2s

open Rfc7539 (leNat leBytes)
open Rfc7693.Bs (F G mix words start absorb hashWith IV initial rotr)

theorem readWord_eq (p : Bytes) (i : Nat) : readWord p i = UInt32.ofNat (leNat ((p.drop i).take 4)) :=
  fromLittle_eq p i

theorem writeWord_eq (w : UInt32) : writeWord w = leBytes 4 w.toNat := toLittle_eq w

theorem unpack_eq (data : Bytes) : unpack data = words (data.take 64) := by
  show List.map _ _ = _
  apply List.map_congr_left
  intro i hi
  rw [List.mem_range] at hi
  rw [readWord_eq, List.drop_take, List.take_take, Nat.min_eq_left (by omega)]

theorem rot1 (x : UInt32) : rightRotate x 16 = rotr x 16 := rfl
theorem rot2 (x : UInt32) : rightRotate x 12 = rotr x 12 := rfl
theorem rot3 (x : UInt32) : rightRotate x 8 = rotr x 8 := rfl
theorem rot4 (x : UInt32) : rightRotate x 7 = rotr x 7 := rfl

theorem quarterRound_eq (a b c d x y : UInt32) : quarterRound a b c d x y = mix (a, b, c, d) x y := by
  simp only [quarterRound, mix, rot1, rot2, rot3, rot4, UInt32.add_assoc]

/-- The work vector as a list. -/
def Work.list (v : Work) : List UInt32 :=
  [v.v0, v.v1, v.v2, v.v3, v.v4, v.v5, v.v6, v.v7, v.v8, v.v9, v.v10, v.v11, v.v12, v.v13, v.v14, v.v15]

section
attribute [local irreducible] mix

theorem round_eq (m : List UInt32) (v : Work) (s : List Nat) : (round m v s).list = Rfc7693.Bs.round m v.list s := by
  obtain ⟨v0, v1, v2, v3, v4, v5, v6, v7, v8, v9, v10, v11, v12, v13, v14, v15⟩ := v
  simp only [round, quarterRound_eq, Rfc7693.Bs.round, Work.list, List.foldl_cons, List.foldl_nil, G,
    List.getD_cons_zero, List.getD_cons_succ, List.set_cons_zero, List.set_cons_succ]

end

theorem rounds_eq (m : List UInt32) (rows : List (List Nat)) (v : Work) :
    (rows.foldl (round m) v).list = rows.foldl (Rfc7693.Bs.round m) v.list := by
  induction rows generalizing v with
  | nil => rfl
  | cons s rows ih => rw [List.foldl_cons, ih, round_eq, List.foldl_cons]

theorem sigma_eq : sigma = (List.range 10).map fun i => Rfc7693.SIGMA.getD (i % 10) [] := by decide

theorem iv_eq : iv = IV := rfl

theorem format_eq (ctx : Ctx) (hh : ctx.h.length = 8) (final : Bool) :
    (format ctx (if final then 0xFFFFFFFF else 0)).list = start ctx.h ctx.length.toNat final := by
  have h12 : iv.getD 4 0 ^^^ ctx.length.toUInt32 = IV.getD 4 0 ^^^ UInt32.ofNat ctx.length.toNat := by
    rw [show UInt32.ofNat ctx.length.toNat = ctx.length.toUInt32 from ?_]; rfl
    apply UInt32.toNat_inj.1
    simp
  have h13 : iv.getD 5 0 ^^^ (ctx.length >>> 32).toUInt32 = IV.getD 5 0 ^^^ UInt32.ofNat (ctx.length.toNat / 2 ^ 32) := by
    rw [show UInt32.ofNat (ctx.length.toNat / 2 ^ 32) = (ctx.length >>> 32).toUInt32 from ?_]; rfl
    apply UInt32.toNat_inj.1
    have := ctx.length.toNat_lt
    simp [Nat.shiftRight_eq_div_pow]
  have h14 : iv.getD 6 0 ^^^ (if final then 0xFFFFFFFF else 0) = if final then ~~~(IV.getD 6 0) else IV.getD 6 0 := by
    cases final <;> decide
  unfold format
  rw [h12, h13, h14]
  obtain ⟨h, m, l, p⟩ := ctx
  match h, hh with
  | [a, b, c, d, e, f, g, i], _ => rfl

theorem F_length (h : List UInt32) (b : Bytes) (t : Nat) (f : Bool) : (F h b t f).length = 8 := by simp [F]

theorem transform_eq (ctx : Ctx) (hh : ctx.h.length = 8) (data : Bytes) (hd : 64 ≤ data.length) (final : Bool) :
    transform ctx data (if final then 0xFFFFFFFF else 0) =
      .ok { ctx with h := F ctx.h (data.take 64) ctx.length.toNat final } := by
  unfold transform F
  rw [if_neg (by omega), unpack_eq, ← format_eq ctx hh, ← sigma_eq]
  dsimp only
  rw [← rounds_eq]
  generalize List.foldl (round _) _ _ = v
  obtain ⟨v0, v1, v2, v3, v4, v5, v6, v7, v8, v9, v10, v11, v12, v13, v14, v15⟩ := v
  simp only [← UInt32.xor_assoc]
  rfl

attribute [local irreducible] F

/-- The counter of the code. -/
def ctr (n : Nat) : Nat := n % 2 ^ 64

theorem absorb_succ (m : Bytes) (q : Nat) : absorb ctr m (q + 1) =
    F (absorb ctr m q) ((m.drop (64 * q)).take 64) (ctr (64 * (q + 1))) false := by
  rw [absorb, absorb, List.range_succ, List.foldl_append, List.foldl_cons, List.foldl_nil]

theorem absorb_append (m d : Bytes) (q : Nat) (h : 64 * q ≤ m.length) : absorb ctr (m ++ d) q = absorb ctr m q := by
  induction q with
  | zero => simp only [absorb, List.range_zero, List.foldl_nil]
  | succ q ih =>
    rw [absorb_succ, absorb_succ, ih (by omega), List.drop_append_of_le_length (by omega),
      List.take_append_of_le_length (by simp; omega)]

theorem absorb_length (m : Bytes) (q : Nat) : (absorb ctr m q).length = 8 := by
  cases q with
  | zero => rfl
  | succ q => rw [absorb_succ, F_length]

/-- The context after `m`, of which `q` blocks have been processed. -/
structure Inv (q : Nat) (m : Bytes) (ctx : Ctx) : Prop where
  lo : 64 * q ≤ m.length
  hi : m.length ≤ 64 * (q + 1)
  h : ctx.h = absorb ctr m q
  buf : ctx.m.length = 64
  pre : ctx.m.take ctx.posn = m.drop (64 * q)
  posn : ctx.posn = m.length - 64 * q
  length : ctx.length = UInt64.ofNat m.length

theorem Inv.h_length {q : Nat} {m : Bytes} {ctx : Ctx} (h : Inv q m ctx) : ctx.h.length = 8 := by
  rw [h.h, absorb_length]

/-- The context after `m` when `d` is still to come: the last block is not processed before the end. -/
def Good (m d : Bytes) (ctx : Ctx) : Prop := ∃ q, Inv q m ctx ∧ (d = [] → q = 0 ∨ 64 * q < m.length)

theorem reset_good (ctx : Ctx) (hb : ctx.m.length = 64) : Good [] [] (reset ctx) :=
  ⟨0, ⟨by simp, by simp, rfl, hb, rfl, rfl, rfl⟩, fun _ => .inl rfl⟩

theorem toNat_length {q : Nat} {m : Bytes} {ctx : Ctx} (h : Inv q m ctx) : ctx.length.toNat = ctr m.length := by
  rw [h.length, UInt64.toNat_ofNat', ctr]

theorem flush_inv {q : Nat} {m : Bytes} {ctx : Ctx} (h : Inv q m ctx) :
    ∃ q' ctx', flush ctx = .ok ctx' ∧ Inv q' m ctx' ∧ ctx'.posn < 64 := by
  have hb := h.buf
  have hp := h.posn
  have hlo := h.lo
  have hhi := h.hi
  unfold flush
  by_cases hc : ctx.posn = 64
  · rw [if_pos hc]
    have ht := transform_eq ctx h.h_length ctx.m (by omega) false
    rw [if_neg (by decide)] at ht
    rw [ht]
    refine ⟨q + 1, _, rfl, ⟨by omega, by omega, ?_, hb, ?_, ?_, h.length⟩, Nat.zero_lt_succ _⟩
    · have hm : m.length = 64 * (q + 1) := by omega
      have e : ctx.m.take 64 = (m.drop (64 * q)).take 64 := by
        rw [← h.pre, hc, List.take_take, Nat.min_self]
      rw [absorb_succ, ← h.h, ← e, ← hm, ← toNat_length h]
    · rw [List.drop_of_length_le (by omega)]; rfl
    · show 0 = _; omega
  · rw [if_neg hc]
    exact ⟨q, ctx, rfl, h, by omega⟩

theorem updateStep_good {m : Bytes} {ctx : Ctx} (d : Bytes) (h : Good m d ctx) (hd : d ≠ []) :
    ∃ ctx' t, 0 < t ∧ t ≤ d.length ∧ updateStep ctx d = .ok (ctx', d.drop t) ∧
      Good (m ++ d.take t) (d.drop t) ctx' := by
  have hd0 : 0 < d.length := List.length_pos_iff.mpr hd
  obtain ⟨q0, hi0, _⟩ := h
  obtain ⟨q, c, hf, hi, hlt⟩ := flush_inv hi0
  have hb := hi.buf
  have hp := hi.posn
  have hlo := hi.lo
  have hhi := hi.hi
  unfold updateStep
  rw [hf, Out.bind_ok]
  by_cases hc : d.length > 64 ∧ c.posn = 0
  · rw [if_pos hc]
    have ht := transform_eq { c with length := c.length + 64 } hi.h_length d (by omega) false
    rw [if_neg (by decide)] at ht
    rw [ht]
    have hm : m.length = 64 * q := by omega
    have hlen : c.length + 64 = UInt64.ofNat (m.length + 64) := by
      rw [hi.length, UInt64.ofNat_add]; rfl
    have hl : (d.take 64).length = 64 := by simp; omega
    refine ⟨_, 64, by omega, by omega, rfl, q + 1, ⟨?_, ?_, ?_, hb, ?_, ?_, ?_⟩, ?_⟩
    · rw [List.length_append, hl]; omega
    · rw [List.length_append, hl]; omega
    · have e : (m ++ d.take 64).drop (64 * q) = d.take 64 := by rw [← hm, List.drop_left]
      rw [absorb_succ, absorb_append _ _ _ hlo, e, List.take_take, Nat.min_self, ← hi.h]
      dsimp only
      rw [hlen, UInt64.toNat_ofNat', hm]
      rfl
    · dsimp only
      rw [hc.2, List.drop_of_length_le (by rw [List.length_append, hl]; omega)]; rfl
    · rw [List.length_append, hl]; dsimp only; omega
    · rw [List.length_append, hl]; exact hlen
    · intro hnil
      have := congrArg List.length hnil
      rw [List.length_drop, List.length_nil] at this
      omega
  · rw [if_neg hc]
    have ht : (if 64 - c.posn > d.length then d.length else 64 - c.posn) = min (64 - c.posn) d.length := by
      split <;> omega
    dsimp only
    rw [ht]
    have hmin : min (64 - c.posn) d.length ≤ d.length := Nat.min_le_right _ _
    have hpos : 0 < min (64 - c.posn) d.length := by omega
    have hle : min (64 - c.posn) d.length ≤ 64 - c.posn := Nat.min_le_left _ _
    generalize min (64 - c.posn) d.length = t at *
    have hl : (d.take t).length = t := by simp; omega
    have htl : (m.drop (64 * q)).length = c.posn := by simp; omega
    have hpre := hi.pre
    rw [← htl] at hpre
    obtain ⟨b, hs, hbl, hbp⟩ := store_after hpre (s := d.take t) (by omega)
    rw [htl] at hs
    rw [hs]
    refine ⟨_, t, hpos, hmin, rfl, q, ⟨?_, ?_, ?_, hbl.trans hb, ?_, ?_, ?_⟩, ?_⟩
    · rw [List.length_append]; omega
    · rw [List.length_append]; omega
    · rw [absorb_append _ _ _ hlo]; exact hi.h
    · rw [List.length_append, htl, hl] at hbp
      rw [List.drop_append_of_le_length hlo]; exact hbp
    · rw [List.length_append]; dsimp only; omega
    · rw [List.length_append, hl, UInt64.ofNat_add, ← hi.length]
    · intro _; right; rw [List.length_append]; omega

theorem updateLoop_good (n : Nat) {m : Bytes} {ctx : Ctx} (d : Bytes) (h : Good m d ctx) (hn : d.length ≤ n) :
    ∃ ctx', updateLoop n ctx d = .ok ctx' ∧ Good (m ++ d) [] ctx' := by
  induction n generalizing m ctx d with
  | zero =>
    obtain rfl : d = [] := List.length_eq_zero_iff.mp (by omega)
    exact ⟨ctx, by simp [updateLoop], by simpa using h⟩
  | succ n ih =>
    cases d with
    | nil => exact ⟨ctx, by simp [updateLoop], by simpa using h⟩
    | cons x d =>
      obtain ⟨c', t, ht, ht', hs, ha⟩ := updateStep_good (x :: d) h (by simp)
      obtain ⟨c'', hu, ha'⟩ := ih ((x :: d).drop t) ha (by simp only [List.length_drop]; omega)
      refine ⟨c'', ?_, by rwa [List.append_assoc, List.take_append_drop] at ha'⟩
      rw [updateLoop, hs]
      exact hu

theorem update_good {m : Bytes} {ctx : Ctx} (h : Good m [] ctx) (d : Bytes) :
    ∃ ctx', update ctx d = .ok ctx' ∧ Good (m ++ d) [] ctx' := by
  obtain ⟨q, hi, hs⟩ := h
  exact updateLoop_good _ d ⟨q, hi, fun _ => hs rfl⟩ (Nat.le_refl _)

theorem output_eq (h : List UInt32) (hh : h.length = 8) :
    ((List.range 8).flatMap fun i => writeWord (h.getD i 0)) = h.flatMap fun w => leBytes 4 w.toNat := by
  match h, hh with
  | [a, b, c, d, e, f, g, i], _ =>
    simp only [writeWord_eq]
    rfl

/-- The function computed by the code for messages of any length: the counter is taken modulo 2^64. -/
def hash64 (m : Bytes) : Bytes := hashWith ctr m

theorem flatMap_length (h : List UInt32) : (h.flatMap fun w => leBytes 4 w.toNat).length = 4 * h.length := by
  induction h with
  | nil => rfl
  | cons a h ih => rw [List.flatMap_cons, List.length_append, leBytes_length, ih, List.length_cons]; omega

theorem hash64_length (m : Bytes) : (hash64 m).length = 32 := by
  unfold hash64 hashWith
  rw [flatMap_length, F_length]

theorem F_mod (h : List UInt32) (b : Bytes) (t : Nat) (f : Bool) : F h b (t % 2 ^ 64) f = F h b t f := by
  have e : start h (t % 2 ^ 64) f = start h t f := by
    unfold start
    rw [show UInt32.ofNat (t % 2 ^ 64) = UInt32.ofNat t from ?_,
      show UInt32.ofNat (t % 2 ^ 64 / 2 ^ 32) = UInt32.ofNat (t / 2 ^ 32) from ?_]
    · apply UInt32.toNat_inj.1
      simp only [UInt32.toNat_ofNat']; omega
    · apply UInt32.toNat_inj.1
      simp only [UInt32.toNat_ofNat']; omega
  unfold F
  rw [e]

/-- The counter of the code has as many bits as the RFC uses. -/
theorem hash64_eq (m : Bytes) : hash64 m = Rfc7693.Bs.hash m := by
  have e : ∀ k, absorb ctr m k = absorb id m k := by
    intro k
    unfold absorb ctr
    simp only [F_mod, id]
  unfold hash64 Rfc7693.Bs.hash hashWith
  simp only [e, ctr, F_mod, id]

theorem finish_eq {m : Bytes} {ctx : Ctx} (h : Good m [] ctx) :
    ∃ ctx', finish ctx = .ok (ctx', hash64 m) ∧ ctx'.m.length = 64 := by
  obtain ⟨q, hi, hs⟩ := h
  have hs := hs rfl
  have hb := hi.buf
  have hp := hi.posn
  have hlo := hi.lo
  have hhi := hi.hi
  have htl : (m.drop (64 * q)).length = ctx.posn := by simp; omega
  have hpre := hi.pre
  rw [← htl] at hpre
  obtain ⟨b, es, hbl, hbp⟩ := store_after hpre (s := List.replicate (64 - ctx.posn) 0)
    (by rw [List.length_replicate]; omega)
  rw [htl] at es
  unfold finish
  rw [es, Out.bind_ok]
  have ht := transform_eq { ctx with m := b } hi.h_length b (by omega) true
  rw [if_pos rfl] at ht
  rw [ht]
  have hdd : max 1 ((m.length + (64 - 1)) / 64) = q + 1 := by omega
  have he : hash64 m = (F ctx.h (b.take 64) (ctr m.length) true).flatMap fun w => leBytes 4 w.toNat := by
    unfold hash64 hashWith
    rw [hdd]
    dsimp only
    rw [show q + 1 - 1 = q by omega, ← hi.h, htl]
    rw [List.length_append, htl, List.length_replicate, show ctx.posn + (64 - ctx.posn) = 64 by omega] at hbp
    rw [hbp]
  refine ⟨_, congrArg Out.ok (Prod.ext rfl ?_), by dsimp only; omega⟩
  rw [he, ← toNat_length hi]
  exact output_eq _ (F_length _ _ _ _)

/-- **C32** for BLAKE2s: whatever the context contained before, and however the message is cut into pieces,
reset, any number of updates and finish give the hash of the concatenation, and no step is undefined. -/
theorem C32_blake2s (ctx : Ctx) (hb : ctx.m.length = 64) (ds : List Bytes) :
    ∃ ctx', (ds.foldlM (update) (reset ctx) >>= fun c => finish c) =
      .ok (ctx', Rfc7693.Bs.hash ds.flatten) := by
  have key : ∀ (ds : List Bytes) (m : Bytes) (c : Ctx), Good m [] c → ∃ c', ds.foldlM (update) c = .ok c' ∧
      Good (m ++ ds.flatten) [] c' := by
    intro ds
    induction ds with
    | nil => intro m c h; exact ⟨c, rfl, by simpa using h⟩
    | cons d ds ih =>
      intro m c h
      obtain ⟨c1, e1, a1⟩ := update_good h d
      obtain ⟨c2, e2, a2⟩ := ih _ _ a1
      refine ⟨c2, ?_, by rwa [List.append_assoc] at a2⟩
      rw [List.foldlM_cons, e1]
      exact e2
  obtain ⟨c, e, a⟩ := key ds [] (reset ctx) (reset_good ctx hb)
  obtain ⟨c', e', _⟩ := finish_eq a
  refine ⟨c', ?_⟩
  rw [List.nil_append, hash64_eq] at e'
  rw [e]
  exact e'

/-- A context: any contents, with the buffer of the declared size. -/
def Context := { c : Ctx // c.m.length = 64 }

/-- `noise_blake2s_new` and the functions it installs, `src/backend/ref/hash-blake2s.c:26-63`. An undefined
outcome is represented by an unchanged context and an empty hash; `C32_blake2s` shows that there is none. -/
def backend : HashBackend where
  hashId := 0x4801
  hashLen := 32
  blockLen := 64
  Ctx := Context
  reset := fun c => ⟨reset c.1, c.2⟩
  update := fun c d =>
    match update c.1 d with
    | .ok c' => if h : c'.m.length = 64 then ⟨c', h⟩ else c
    | .ub => c
  finalize := fun c =>
    match finish c.1 with
    | .ok (c', out) => if h : c'.m.length = 64 then (⟨c', h⟩, out) else (c, [])
    | .ub => (c, [])

theorem backend_update {m : Bytes} {c : Context} (h : Good m [] c.1) (d : Bytes) :
    Good (m ++ d) [] (backend.update c d).1 := by
  obtain ⟨c', e, a⟩ := update_good h d
  have hb : c'.m.length = 64 := by
    obtain ⟨q, hi, _⟩ := a
    exact hi.buf
  have : backend.update c d = ⟨c', hb⟩ := by
    show (match update c.1 d with | .ok c' => _ | .ub => _) = _
    rw [e]
    exact dif_pos hb
  rw [this]
  exact a

/-- **C32** for the BLAKE2s back end: it satisfies what the protocol layer relies on. -/
theorem C32_blake2s_lawful : backend.Lawful hash64 where
  digest := by
    intro c ds
    have key : ∀ (ds : List Bytes) (m : Bytes) (c : Context), Good m [] c.1 →
        Good (m ++ ds.flatten) [] (ds.foldl backend.update c).1 := by
      intro ds
      induction ds with
      | nil => intro m c h; rw [List.flatten_nil, List.append_nil]; exact h
      | cons d ds ih =>
        intro m c h
        have := ih _ _ (backend_update h d)
        rwa [List.append_assoc] at this
    have a := key ds [] (backend.reset c) (reset_good c.1 c.2)
    rw [List.nil_append] at a
    generalize List.foldl backend.update (backend.reset c) ds = c1 at *
    obtain ⟨c', e, hb⟩ := finish_eq a
    have : backend.finalize c1 = (⟨c', hb⟩, hash64 ds.flatten) := by
      show (match finish c1.1 with | .ok (c', out) => _ | .ub => _) = _
      rw [e]
      exact dif_pos hb
    rw [this]
  length := hash64_length
  hashLen_pos := by decide
  hashLen_le_block := by decide
  hashLen_le_max := by decide

/-- The hypotheses hold for a message in several pieces. -/
example : ∃ ctx', ([[0x61], [], [0x62, 0x63]].foldlM update (reset ⟨[], List.replicate 64 7, 5, 3⟩) >>= finish) =
    .ok (ctx', Rfc7693.Bs.hash [0x61, 0x62, 0x63]) :=
  C32_blake2s ⟨[], List.replicate 64 7, 5, 3⟩ rfl [[0x61], [], [0x62, 0x63]]

/-- The words of the four vectors. -/
def Vec.work (v : Vec.V × Vec.V × Vec.V × Vec.V) : Work :=
  ⟨v.1.a, v.1.b, v.1.c, v.1.d, v.2.1.a, v.2.1.b, v.2.1.c, v.2.1.d, v.2.2.1.a, v.2.2.1.b, v.2.2.1.c, v.2.2.1.d,
    v.2.2.2.a, v.2.2.2.b, v.2.2.2.c, v.2.2.2.d⟩

theorem Vec.round_eq (m : List UInt32) (v : Vec.V × Vec.V × Vec.V × Vec.V) (s : List Nat) :
    Vec.work (Vec.round m v s) = Blake2s.round m (Vec.work v) s := by
  obtain ⟨⟨a0, a1, a2, a3⟩, ⟨b0, b1, b2, b3⟩, ⟨c0, c1, c2, c3⟩, ⟨d0, d1, d2, d3⟩⟩ := v
  rfl

theorem Vec.rounds_eq (m : List UInt32) (rows : List (List Nat)) (v : Vec.V × Vec.V × Vec.V × Vec.V) :
    Vec.work (rows.foldl (Vec.round m) v) = rows.foldl (Blake2s.round m) (Vec.work v) := by
  induction rows generalizing v with
  | nil => rfl
  | cons s rows ih => rw [List.foldl_cons, ih, Vec.round_eq, List.foldl_cons]

/-- **C32** for the vector variant: it is the same function, so all of the above holds for it. -/
theorem C32_blake2s_vector : Vec.transform = transform := by
  funext ctx data f0
  unfold Vec.transform transform
  by_cases h : data.length < 64
  · rw [if_pos h, if_pos h]
  · rw [if_neg h, if_neg h]
    have e : format ctx f0 = Vec.work (⟨ctx.h.getD 0 0, ctx.h.getD 1 0, ctx.h.getD 2 0, ctx.h.getD 3 0⟩,
      ⟨ctx.h.getD 4 0, ctx.h.getD 5 0, ctx.h.getD 6 0, ctx.h.getD 7 0⟩,
      ⟨iv.getD 0 0, iv.getD 1 0, iv.getD 2 0, iv.getD 3 0⟩,
      ⟨iv.getD 4 0 ^^^ ctx.length.toUInt32, iv.getD 5 0 ^^^ (ctx.length >>> 32).toUInt32,
        iv.getD 6 0 ^^^ f0, iv.getD 7 0⟩) := rfl
    rw [e, ← Vec.rounds_eq]
    dsimp only
    generalize List.foldl (Vec.round _) _ _ = w
    obtain ⟨w0, w1, w2, w3⟩ := w
    rfl

end Noise.Blake2s
