import Verif.Rand
import Verif.ChaChaProps
import Verif.Fips180

/-!
C39 and C40: padding and the random number generator of `src/protocol/randstate.c`.
-/

namespace Noise.Rand

open ChaCha RandSpec

/-! ## Blocks -/

theorem block_keyBlock (g : Gen) (hc : g.counter < 2 ^ 32) : g.block = keyBlock (ctx g.key g.iv g.counter) := by
  rw [keyBlock, ctx_list, Nat.div_eq_of_lt hc, Gen.block, Rfc7539.block]
  rfl

theorem block_length (g : Gen) (hc : g.counter < 2 ^ 32) : g.block.length = 64 := by
  rw [block_keyBlock g hc, keyBlock_length]

theorem encrypt_block (g : Gen) (m : Bytes) (hm : m.length ≤ 64) (hm' : 0 < m.length) (hc : g.counter + 1 ≤ 2 ^ 32) :
    encryptBytes (ctx g.key g.iv g.counter) m =
      (ctx g.key g.iv (g.counter + 1), List.zipWith (· ^^^ ·) m g.block) := by
  rw [C33_chacha20 _ _ _ _ (by omega), show (m.length + 63) / 64 = 1 by omega]
  refine Prod.ext rfl ?_
  rw [Rfc7539.encrypt]
  refine (zipWith_stream m g.block _ (by rw [block_length g (by omega)]; omega) ?_).symm
  intro i hi
  rw [Rfc7539.stream, show g.counter + i / 64 = g.counter by omega, Nat.mod_eq_of_lt (by omega)]
  rfl

theorem zeros_xor (n : Nat) (b : Bytes) : List.zipWith (· ^^^ ·) (List.replicate n 0) b = b.take n := by
  apply List.ext_getElem
  · simp
  · intro i h1 h2
    simp

/-- The state of the code stands for a generator. -/
def Is (x : Words) (g : Gen) : Prop := x = ctx g.key g.iv g.counter

theorem fromLittle_take (d : Bytes) (i : Nat) (h : i + 4 ≤ 32) : fromLittle (d.take 32) i = fromLittle d i := by
  have hg : ∀ j, j < 32 → (d.take 32).getD j 0 = d.getD j 0 := by
    intro j hj
    simp [List.getD, hj]
  rw [fromLittle, fromLittle, hg i (by omega), hg (i + 1) (by omega), hg (i + 2) (by omega), hg (i + 3) (by omega)]

theorem ctx_take (d iv : Bytes) (c : Nat) : ctx d iv c = ctx (d.take 32) iv c := by
  have h := fun i hi => fromLittle_take d i hi
  rw [ctx, ctx, keysetup, keysetup, if_pos rfl, if_pos rfl, h 0 (by omega), h 4 (by omega), h 8 (by omega),
    h 12 (by omega), h 16 (by omega), h 20 (by omega), h 24 (by omega), h 28 (by omega)]

theorem replace_is {x : Words} {g : Gen} (h : Is x g) (m : Bytes) (hm : m.length = 40) (hc : g.counter + 1 ≤ 2 ^ 32) :
    Is (replace x m) (g.mix m) := by
  rw [Is] at h
  subst h
  rw [Is, replace, encrypt_block g m (by omega) (by omega) hc, Gen.mix]
  dsimp only
  rw [setup_eq, ctx_take]

/-! ## Event lists -/

theorem run_append (E : Nat → Bytes) (s : Gen × Nat) (a b : List Event) :
    run E s (a ++ b) = ((run E (run E s a).1 b).1, (run E s a).2 ++ (run E (run E s a).1 b).2) := by
  induction a generalizing s with
  | nil => simp [run]
  | cons e a ih => simp [run, ih]

theorem blocksSince_snoc (l : List Event) (e : Event) : blocksSince (l ++ [e]) =
    match e with | .out _ => blocksSince l + 1 | .rekey => 0 | .reseed => 0 := by
  rw [blocksSince, List.foldl_append]; rfl

theorem bytesSince_snoc (l : List Event) (e : Event) : bytesSince (l ++ [e]) =
    match e with | .out k => bytesSince l + k | .rekey => bytesSince l | .reseed => 0 := by
  rw [bytesSince, List.foldl_append]; rfl

/-- No block is used twice: neither for two outputs, nor for an output and a key. -/
theorem uses_nodup (e c : Nat) (es : List Event) :
    ((uses e c es).map fun u => (u.1, u.2.1)).Nodup ∧ ∀ u ∈ uses e c es, e < u.1 ∨ e = u.1 ∧ c ≤ u.2.1 := by
  induction es generalizing e c with
  | nil => simp [uses]
  | cons x es ih =>
    cases x with
    | out n =>
      obtain ⟨h1, h2⟩ := ih e (c + 1)
      refine ⟨?_, ?_⟩
      · rw [uses, List.map_cons, List.nodup_cons]
        refine ⟨?_, h1⟩
        intro hmem
        obtain ⟨u, hu, he⟩ := List.mem_map.mp hmem
        have := h2 u hu
        simp only [Prod.mk.injEq] at he
        omega
      · intro u hu
        rcases List.mem_cons.mp hu with rfl | hu
        · simp
        · have := h2 u hu; omega
    | rekey =>
      obtain ⟨h1, h2⟩ := ih (e + 1) 0
      refine ⟨?_, ?_⟩
      · rw [uses, List.map_cons, List.nodup_cons]
        refine ⟨?_, h1⟩
        intro hmem
        obtain ⟨u, hu, he⟩ := List.mem_map.mp hmem
        have := h2 u hu
        simp only [Prod.mk.injEq] at he
        omega
      · intro u hu
        rcases List.mem_cons.mp hu with rfl | hu
        · simp
        · have := h2 u hu; omega
    | reseed =>
      obtain ⟨h1, h2⟩ := ih (e + 2) 0
      refine ⟨?_, ?_⟩
      · rw [uses, List.map_cons, List.map_cons, List.nodup_cons, List.nodup_cons]
        refine ⟨?_, ?_, h1⟩
        · intro hmem
          rcases List.mem_cons.mp hmem with he | hmem
          · simp only [Prod.mk.injEq] at he; omega
          · obtain ⟨u, hu, he⟩ := List.mem_map.mp hmem
            have := h2 u hu
            simp only [Prod.mk.injEq] at he
            omega
        · intro hmem
          obtain ⟨u, hu, he⟩ := List.mem_map.mp hmem
          have := h2 u hu
          simp only [Prod.mk.injEq] at he
          omega
      · intro u hu
        rcases List.mem_cons.mp hu with rfl | hu
        · simp
        · rcases List.mem_cons.mp hu with rfl | hu
          · simp
          · have := h2 u hu; omega

/-! ## The invariant -/

/-- The generator before the first reseed. -/
def start : Gen := ⟨startingKey, List.replicate 8 0, 0⟩

/-- What holds of the log at all times: `limit` bounds the bytes between reseeds. -/
def Bounded (limit : Nat) (log : List Event) : Prop :=
  ∀ p, p <+: log → blocksSince p ≤ 17 ∧ bytesSince p ≤ limit

theorem Bounded.snoc {limit : Nat} {log : List Event} (h : Bounded limit log) (e : Event)
    (h1 : blocksSince (log ++ [e]) ≤ 17) (h2 : bytesSince (log ++ [e]) ≤ limit) : Bounded limit (log ++ [e]) := by
  intro p hp
  rcases List.prefix_concat_iff.mp hp with rfl | hp
  · exact ⟨h1, h2⟩
  · exact h p hp

/-- The state follows the log, with `out` handed out so far. -/
structure Follows (E : Nat → Bytes) (limit : Nat) (st : State) (out : Bytes) : Prop where
  gen : ∃ g, run E (start, 0) st.log = ((g, st.reads), out) ∧ Is st.chacha g ∧ g.counter = blocksSince st.log
  bounded : Bounded limit st.log
  left_mod : st.left % 64 = 0
  left_le : st.left ≤ 1600000
  bytes : bytesSince st.log + st.left ≤ limit

theorem Follows.blocks_le {E : Nat → Bytes} {limit : Nat} {st : State} {out : Bytes} (h : Follows E limit st out) :
    blocksSince st.log ≤ 17 := (h.bounded st.log (List.prefix_refl _)).1

variable {E : Nat → Bytes} {limit : Nat}

theorem rekey_log (st : State) : (rekey st).log = st.log ++ [.rekey] := rfl

theorem reseed_log (E : Nat → Bytes) (st : State) : (reseed E st).log = st.log ++ [.reseed] := rfl

theorem rekey_follows {st : State} {out : Bytes} (h : Follows E limit st out) :
    Follows E limit (rekey st) out ∧ blocksSince (rekey st).log = 0 := by
  have hb := h.blocks_le
  have h0 : blocksSince (rekey st).log = 0 := blocksSince_snoc _ _
  have h1 : bytesSince (rekey st).log = bytesSince st.log := bytesSince_snoc _ _
  obtain ⟨g, hr, hi, hc⟩ := h.gen
  refine ⟨⟨⟨g.mix (List.replicate 40 0), ?_, ?_, ?_⟩, ?_, h.left_mod, h.left_le, ?_⟩, h0⟩
  · rw [rekey]
    simp only
    rw [run_append, hr]
    simp [run, step]
  · exact replace_is hi _ List.length_replicate (by omega)
  · rw [h0]; rfl
  · exact h.bounded.snoc _ (by rw [← rekey_log, h0]; omega) (by rw [← rekey_log, h1]; have := h.bytes; omega)
  · rw [h1]; exact h.bytes

theorem reseed_follows (hE : ∀ k, (E k).length = 40) (hl : 1600000 ≤ limit) {st : State} {out : Bytes}
    (h : Follows E limit st out) : Follows E limit (reseed E st) out ∧ blocksSince (reseed E st).log = 0 ∧
      bytesSince (reseed E st).log = 0 := by
  have hb := h.blocks_le
  have h0 : blocksSince (reseed E st).log = 0 := blocksSince_snoc _ _
  have h1 : bytesSince (reseed E st).log = 0 := bytesSince_snoc _ _
  have hleft : (reseed E st).left = 1600000 := rfl
  obtain ⟨g, hr, hi, hc⟩ := h.gen
  refine ⟨⟨⟨(g.mix (E st.reads)).mix (List.replicate 40 0), ?_, ?_, ?_⟩, ?_, ?_, ?_, ?_⟩, h0, h1⟩
  · rw [reseed]
    simp only
    rw [run_append, hr]
    simp [run, step]
  · exact replace_is (replace_is hi _ (hE _) (by omega)) _ List.length_replicate (by show 0 + 1 ≤ _; omega)
  · rw [h0]; rfl
  · exact h.bounded.snoc _ (by rw [← reseed_log E, h0]; omega) (by rw [← reseed_log E, h1]; omega)
  · rw [hleft]
  · omega
  · rw [h1, hleft]; omega

/-- The state after a block has been handed out. -/
def emit (st : State) (n : Nat) : State :=
  { st with chacha := increment st.chacha, log := st.log ++ [.out n] }

theorem emit_follows {st : State} {out : Bytes} (h : Follows E limit st out) (n : Nat) (h0 : 0 < n) (hn : n ≤ 64)
    (hb : blocksSince st.log ≤ 16) (hl : bytesSince st.log + n + st.left ≤ limit) :
    ∃ o, encryptBytes st.chacha (List.replicate n 0) = (increment st.chacha, o) ∧ o.length = n ∧
      Follows E limit (emit st n) (out ++ o) := by
  obtain ⟨g, hr, hi, hc⟩ := h.gen
  have hcc : g.counter + 1 ≤ 2 ^ 32 := by omega
  have e := encrypt_block g (List.replicate n 0) (by simp; omega) (by simp; omega) hcc
  rw [zeros_xor] at e
  rw [Is] at hi
  have hinc : increment st.chacha = ctx g.key g.iv (g.counter + 1) := by rw [hi, increment_ctx]
  have h1 : blocksSince (emit st n).log = blocksSince st.log + 1 := blocksSince_snoc _ _
  have h2 : bytesSince (emit st n).log = bytesSince st.log + n := bytesSince_snoc _ _
  refine ⟨g.block.take n, by rw [hinc, hi, e], by rw [List.length_take, block_length g (by omega)]; omega, ?_⟩
  refine ⟨⟨{ g with counter := g.counter + 1 }, ?_, hinc, by rw [h1, ← hc]⟩, ?_, h.left_mod, h.left_le, ?_⟩
  · rw [emit]
    simp only
    rw [run_append, hr]
    simp [run, step]
  · refine h.bounded.snoc _ ?_ ?_
    · rw [show st.log ++ [.out n] = (emit st n).log from rfl, h1]; omega
    · rw [show st.log ++ [.out n] = (emit st n).log from rfl, h2]; omega
  · rw [h2]; exact hl

/-- One block: what the loop does before it encrypts. -/
def prepare (E : Nat → Bytes) (st : State) (blocks : Nat) : State × Nat :=
  let r := if 64 ≤ st.left then ({ st with left := st.left - 64 }, blocks) else (reseed E st, 0)
  if rekeyCount ≤ r.2 then (rekey r.1, 0) else (r.1, r.2 + 1)

theorem generateLoop_succ (n : Nat) (st : State) (blocks : Nat) (buf : Bytes) (off len : Nat) (hl : 0 < len) :
    generateLoop E (n + 1) st blocks buf off len = (do
      let m ← load buf off (min len 64)
      let c := encryptBytes (prepare E st blocks).1.chacha m
      let buf ← store buf off c.2
      generateLoop E n { (prepare E st blocks).1 with
        chacha := c.1, log := (prepare E st blocks).1.log ++ [.out (min len 64)] } (prepare E st blocks).2 buf
        (off + min len 64) (len - min len 64)) := by
  have hm : (if len > 64 then 64 else len) = min len 64 := by split <;> omega
  rw [generateLoop, if_neg (by omega), hm]
  rfl

theorem prepare_eq (st : State) (blocks : Nat) : prepare E st blocks =
    if 64 ≤ st.left then (if rekeyCount ≤ blocks then (rekey { st with left := st.left - 64 }, 0)
      else ({ st with left := st.left - 64 }, blocks + 1))
    else (if rekeyCount ≤ 0 then (rekey (reseed E st), 0) else (reseed E st, 1)) := by
  rw [prepare]
  by_cases h : 64 ≤ st.left
  · simp only [if_pos h]
  · simp only [if_neg h]

/-- Before the block is encrypted there is room for it. -/
theorem prepare_follows (hE : ∀ k, (E k).length = 40) {st : State} {out : Bytes} (h : Follows E limit st out)
    (blocks n : Nat) (hn : n ≤ 64) (hb : blocksSince st.log ≤ blocks + 1) (hk : blocks ≤ 16)
    (hlim : 1600064 ≤ limit ∨ 64 ≤ st.left ∧ 1600000 ≤ limit) :
    Follows E limit (prepare E st blocks).1 out ∧ blocksSince (prepare E st blocks).1.log ≤ (prepare E st blocks).2 ∧
      (prepare E st blocks).2 ≤ 16 ∧ bytesSince (prepare E st blocks).1.log + n + (prepare E st blocks).1.left ≤ limit ∧
      (64 ≤ st.left → (prepare E st blocks).1.left = st.left - 64 ∧
        bytesSince (prepare E st blocks).1.log = bytesSince st.log) ∧
      (st.left < 64 → (prepare E st blocks).1.left = 1600000 ∧ bytesSince (prepare E st blocks).1.log = 0) := by
  have hp := prepare_eq (E := E) st blocks
  by_cases hleft : 64 ≤ st.left
  · have h1 : Follows E limit { st with left := st.left - 64 } out :=
      ⟨h.gen, h.bounded, by show (st.left - 64) % 64 = 0; have := h.left_mod; omega,
        by show st.left - 64 ≤ _; have := h.left_le; omega,
        by show bytesSince st.log + (st.left - 64) ≤ _; have := h.bytes; omega⟩
    have hby := h.bytes
    rw [if_pos hleft] at hp
    by_cases hr : rekeyCount ≤ blocks
    · rw [if_pos hr] at hp
      obtain ⟨h2, h3⟩ := rekey_follows h1
      have h4 : bytesSince (rekey { st with left := st.left - 64 }).log = bytesSince st.log := bytesSince_snoc _ _
      have h5 : (rekey { st with left := st.left - 64 }).left = st.left - 64 := rfl
      rw [hp]
      simp only
      refine ⟨h2, by omega, by omega, by omega, fun _ => ⟨h5, h4⟩, fun hlt => by omega⟩
    · rw [if_neg hr] at hp
      have hr' : ¬16 ≤ blocks := hr
      have hb1 := h.blocks_le
      rw [hp]
      simp only
      refine ⟨h1, by omega, by omega, by omega, by simp, fun hlt => by omega⟩
  · rw [if_neg hleft] at hp
    have hlim' : 1600064 ≤ limit := by omega
    obtain ⟨h1, h2, h3⟩ := reseed_follows hE (by omega) h
    have hl : (reseed E st).left = 1600000 := rfl
    rw [if_neg (show ¬rekeyCount ≤ 0 from (by decide))] at hp
    rw [hp]
    simp only
    refine ⟨h1, by omega, by omega, by omega, fun hlt => by omega, fun _ => ⟨hl, h3⟩⟩

theorem take_replicate_zero (l : Bytes) (a b : Nat) (h : l.take (a + b) = List.replicate (a + b) 0) :
    l.take a = List.replicate a 0 ∧ (l.drop a).take b = List.replicate b 0 := by
  constructor
  · have := congrArg (List.take a) h
    rwa [List.take_take, List.take_replicate, Nat.min_eq_left (by omega)] at this
  · have := congrArg (List.drop a) h
    rwa [List.drop_take, List.drop_replicate, Nat.add_sub_cancel_left] at this

theorem loop_follows (hE : ∀ k, (E k).length = 40) (n : Nat) (st : State) (blocks : Nat) (buf : Bytes) (off len : Nat)
    (out : Bytes) (h : Follows E limit st out) (hb : blocksSince st.log ≤ blocks + 1) (hk : blocks ≤ 16) (hn : len ≤ n)
    (hbuf : off + len ≤ buf.length) (hz : (buf.drop off).take len = List.replicate len 0)
    (hlim : 1600064 ≤ limit ∨ 64 * ((len + 63) / 64) ≤ st.left ∧ 1600000 ≤ limit) :
    ∃ st' o, generateLoop E n st blocks buf off len = .ok (st', buf.take off ++ o ++ buf.drop (off + len)) ∧
      o.length = len ∧ Follows E limit st' (out ++ o) ∧
      (64 * ((len + 63) / 64) ≤ st.left → st'.left = st.left - 64 * ((len + 63) / 64) ∧
        bytesSince st'.log = bytesSince st.log + len) ∧
      (∀ r, 0 < r → r ≤ 64 → len = st.left + r → st'.left = 1600000 ∧ bytesSince st'.log = r) := by
  induction n generalizing st blocks buf off len out with
  | zero =>
    have hl : len = 0 := by omega
    subst hl
    refine ⟨st, [], ?_, rfl, by rwa [List.append_nil], fun _ => ⟨rfl, rfl⟩, fun r h1 _ h2 => by omega⟩
    rw [generateLoop, List.append_nil, Nat.add_zero, List.take_append_drop]
  | succ n ih =>
    by_cases hl : len = 0
    · subst hl
      refine ⟨st, [], ?_, rfl, by rwa [List.append_nil], fun _ => ⟨rfl, rfl⟩, fun r h1 _ h2 => by omega⟩
      rw [generateLoop, if_pos rfl, List.append_nil, Nat.add_zero, List.take_append_drop]
    · have hl0 : 0 < len := by omega
      obtain ⟨p1, p2, p3, p4, p5, p6⟩ := prepare_follows hE h blocks (min len 64) (by omega) hb hk (by omega)
      obtain ⟨o, e1, e2, e3⟩ := emit_follows p1 (min len 64) (by omega) (by omega) (by omega) p4
      have hsplit : min len 64 + (len - min len 64) = len := by omega
      obtain ⟨z1, z2⟩ := take_replicate_zero (buf.drop off) (min len 64) (len - min len 64) (by rw [hsplit]; exact hz)
      have hbl : (emit (prepare E st blocks).1 (min len 64)).log = (prepare E st blocks).1.log ++ [.out (min len 64)] := rfl
      have hleft : (emit (prepare E st blocks).1 (min len 64)).left = (prepare E st blocks).1.left := rfl
      have hblocks : blocksSince (emit (prepare E st blocks).1 (min len 64)).log =
        blocksSince (prepare E st blocks).1.log + 1 := blocksSince_snoc _ _
      have hbytes : bytesSince (emit (prepare E st blocks).1 (min len 64)).log =
        bytesSince (prepare E st blocks).1.log + min len 64 := bytesSince_snoc _ _
      have hst : store buf off o = .ok (buf.take off ++ o ++ buf.drop (off + min len 64)) := by
        rw [store_ok (by omega), e2]
      obtain ⟨st', o', i1, i2, i3, i4, i5⟩ := ih (emit (prepare E st blocks).1 (min len 64)) (prepare E st blocks).2
        (buf.take off ++ o ++ buf.drop (off + min len 64)) (off + min len 64) (len - min len 64) (out ++ o) e3
        (by omega) p3 (by omega) (by simp; omega)
        (by
          rw [List.drop_left' (by simp; omega), ← List.drop_drop]
          exact z2) (by
            rcases hlim with hlim | ⟨h1, h2⟩
            · exact Or.inl hlim
            · have := p5 (by omega)
              exact Or.inr ⟨by omega, h2⟩)
      have hfin : (buf.take off ++ o ++ buf.drop (off + min len 64)).take (off + min len 64) ++ o' ++
          (buf.take off ++ o ++ buf.drop (off + min len 64)).drop (off + min len 64 + (len - min len 64)) =
          buf.take off ++ (o ++ o') ++ buf.drop (off + len) := by
        have ht : (buf.take off ++ o).length = off + min len 64 := by simp; omega
        rw [List.take_left' ht, List.drop_append, List.drop_eq_nil_of_le (by omega), List.nil_append, List.drop_drop,
          List.append_assoc, List.append_assoc, List.append_assoc, List.append_assoc]
        congr 4
        omega
      refine ⟨st', o ++ o', ?_, by rw [List.length_append]; omega, by rwa [List.append_assoc] at i3, ?_, ?_⟩
      · rw [generateLoop_succ n st blocks buf off len hl0, load_ok (by omega), Out.bind_ok, z1, e1]
        simp only
        rw [hst, Out.bind_ok]
        rw [hfin] at i1
        exact i1
      · intro hle
        obtain ⟨q1, q2⟩ := p5 (by omega)
        obtain ⟨q3, q4⟩ := i4 (by omega)
        exact ⟨by omega, by omega⟩
      · intro r h1 h2 h3
        by_cases hlt : 64 ≤ st.left
        · obtain ⟨q1, q2⟩ := p5 hlt
          exact i5 r h1 h2 (by omega)
        · have hz0 : st.left = 0 := by have := h.left_mod; omega
          obtain ⟨q1, q2⟩ := p6 (by omega)
          obtain ⟨q3, q4⟩ := i4 (by omega)
          exact ⟨by omega, by omega⟩

/-! ## Whole calls -/

/-- A state between two calls. -/
structure Idle (E : Nat → Bytes) (limit : Nat) (st : State) (out : Bytes) : Prop where
  follows : Follows E limit st out
  fresh : ∃ l, st.log = l ++ [.rekey] ∨ st.log = l ++ [.reseed]

theorem Idle.blocks {st : State} {out : Bytes} (h : Idle E limit st out) : blocksSince st.log = 0 := by
  obtain ⟨l, h | h⟩ := h.fresh <;> rw [h, blocksSince_snoc]

theorem reseed_idle (hE : ∀ k, (E k).length = 40) (hl : 1600000 ≤ limit) {st : State} {out : Bytes}
    (h : Idle E limit st out) : Idle E limit (reseed E st) out :=
  ⟨(reseed_follows hE hl h.follows).1, _, Or.inr rfl⟩

theorem new_idle (hE : ∀ k, (E k).length = 40) (hl : 1600000 ≤ limit) : Idle E limit (new E) [] := by
  refine ⟨(reseed_follows hE hl (st := ⟨0, keysetup startingKey 256, 0, []⟩) (out := []) ?_).1, [], Or.inr rfl⟩
  refine ⟨⟨start, rfl, ?_, rfl⟩, ?_, rfl, by decide, by show 0 + 0 ≤ _; omega⟩
  · rw [Is]; decide +kernel
  · intro p hp
    rw [List.prefix_nil.mp hp]
    exact ⟨by decide, Nat.zero_le _⟩

/-- One call: the bytes asked for are filled, nothing else changes, and the state is again one between calls. -/
theorem generate_idle (hE : ∀ k, (E k).length = 40) {st : State} {out : Bytes} (h : Idle E limit st out) (buf : Bytes)
    (off len : Nat) (hbuf : off + len ≤ buf.length)
    (hlim : 1600064 ≤ limit ∨ len ≤ 1600000 ∧ 1600000 ≤ limit) :
    ∃ st' o, generate E st buf off len = .ok (st', buf.take off ++ o ++ buf.drop (off + len)) ∧ o.length = len ∧
      Idle E limit st' (out ++ o) ∧
      (len ≤ st.left → bytesSince st'.log = bytesSince st.log + len) ∧
      (∀ r, 0 < r → r ≤ 64 → len = 1600000 + r → st'.left = 1600000 ∧ bytesSince st'.log = r) := by
  have hst : store buf off (List.replicate len 0) =
      .ok (buf.take off ++ List.replicate len 0 ++ buf.drop (off + len)) := by
    rw [store_ok (by simpa using hbuf), List.length_replicate]
  obtain ⟨st1, hst1, hf1, hb1, hl1, hs1⟩ : ∃ st1, st1 = (if st.left < len then reseed E st else st) ∧
      Follows E limit st1 out ∧ blocksSince st1.log = 0 ∧ (len ≤ 1600000 → len ≤ st1.left) ∧
      ((len ≤ st.left → st1 = st) ∧ (1600000 < len → st1.left = 1600000)) := by
    refine ⟨_, rfl, ?_⟩
    have hle := h.follows.left_le
    by_cases hlt : st.left < len
    · rw [if_pos hlt]
      obtain ⟨h1, h2, _⟩ := reseed_follows hE (by omega) h.follows
      have hleft : (reseed E st).left = 1600000 := rfl
      exact ⟨h1, h2, fun _ => by omega, fun _ => by omega, fun _ => hleft⟩
    · rw [if_neg hlt]
      exact ⟨h.follows, h.blocks, fun _ => by omega, fun _ => rfl, fun _ => by omega⟩
  have hmod := hf1.left_mod
  obtain ⟨st', o, e1, e2, e3, e4, e5⟩ := loop_follows hE len st1 0
    (buf.take off ++ List.replicate len 0 ++ buf.drop (off + len)) off len out hf1 (by omega) (by omega) (Nat.le_refl _)
    (by simp; omega)
    (by rw [List.append_assoc, List.drop_left' (by simp; omega), List.take_left' (by simp)])
    (by
      rcases hlim with h | ⟨h1, h2⟩
      · exact Or.inl h
      · have := hl1 h1
        exact Or.inr ⟨by omega, h2⟩)
  have hfin : (buf.take off ++ List.replicate len 0 ++ buf.drop (off + len)).take off ++ o ++
      (buf.take off ++ List.replicate len 0 ++ buf.drop (off + len)).drop (off + len) =
      buf.take off ++ o ++ buf.drop (off + len) := by
    rw [List.append_assoc (buf.take off) (List.replicate len 0), List.take_left' (by simp; omega), ← List.append_assoc,
      List.drop_left' (by simp; omega)]
  refine ⟨rekey st', o, ?_, e2, ⟨(rekey_follows e3).1, _, Or.inl rfl⟩, ?_, ?_⟩
  · rw [generate, hst, Out.bind_ok, ← hst1]
    simp only
    rw [e1, Out.bind_ok, hfin]
    rfl
  · intro hle
    have := hs1.1 hle
    subst this
    rw [rekey_log, bytesSince_snoc]
    exact (e4 (by omega)).2
  · intro r h1 h2 h3
    have := hs1.2 (by omega)
    obtain ⟨q1, q2⟩ := e5 r h1 h2 (by omega)
    exact ⟨q1, by rw [rekey_log, bytesSince_snoc]; exact q2⟩

/-! ## Padding -/

/-- **C39**: with a payload in an object large enough for both lengths, the first `origLen` bytes and everything after
`paddedLen` stay as they are. The bytes between are zero, or come from the generator. If the new length is not larger,
nothing changes. Without a state, the call reports it and the padding is zero. -/
theorem C39_pad (hE : ∀ k, (E k).length = 40) {st : State} {out : Bytes} (h : Idle E 1600064 st out) (p : Bytes)
    (origLen paddedLen : Nat) (hp : max origLen paddedLen ≤ p.length) (zero : Bool) :
    (∃ st' o, pad E (some st) (some p) origLen paddedLen zero =
        .ok (.none, some st', some (p.take origLen ++ o ++ p.drop (origLen + o.length))) ∧
      o.length = paddedLen - origLen ∧ (zero = true → o = List.replicate (paddedLen - origLen) 0 ∧ st' = st) ∧
      (paddedLen ≤ origLen → st' = st) ∧
      (zero = false → Idle E 1600064 st' (out ++ o))) ∧
    pad E none (some p) origLen paddedLen zero = .ok (.invalidParam, none,
      some (p.take origLen ++ List.replicate (paddedLen - origLen) 0 ++ p.drop (max origLen paddedLen))) ∧
    (∀ s, pad E s none origLen paddedLen zero = .ok (.invalidParam, s, none)) := by
  refine ⟨?_, ?_, fun s => by cases s <;> rfl⟩
  · by_cases hle : paddedLen ≤ origLen
    · refine ⟨st, [], ?_, by simp; omega, fun _ => ⟨by rw [Nat.sub_eq_zero_of_le hle]; rfl, rfl⟩, fun _ => rfl,
        fun _ => by rwa [List.append_nil]⟩
      rw [pad]
      rw [if_pos hle]
      simp
    · cases zero with
      | true =>
        refine ⟨st, List.replicate (paddedLen - origLen) 0, ?_, by simp, fun _ => ⟨rfl, rfl⟩, fun _ => rfl,
          fun hc => by cases hc⟩
        rw [pad]
        rw [if_neg hle, if_pos rfl, store_ok (by simp; omega), Out.bind_ok]
        rfl
      | false =>
        obtain ⟨st', o, e1, e2, e3, _⟩ := generate_idle hE h p origLen (paddedLen - origLen) (by omega)
          (Or.inl (Nat.le_refl _))
        refine ⟨st', o, ?_, e2, (fun hc => by cases hc), (fun hc => absurd hc hle), (fun _ => e3)⟩
        rw [pad]
        rw [if_neg hle, if_neg (by decide), generateApi]
        rw [e1, Out.bind_ok, e2]
        rfl
  · rw [pad]
    by_cases hle : paddedLen > origLen
    · rw [if_pos hle, store_ok (by simp; omega), Out.bind_ok, List.length_replicate,
        show origLen + (paddedLen - origLen) = max origLen paddedLen by omega]
      rfl
    · rw [if_neg hle, show paddedLen - origLen = 0 by omega, show max origLen paddedLen = origLen by omega]
      simp

/-! ## Histories -/

/-- A call on one object; the buffer of `generate` is at `off` in some object. -/
inductive Op
  | generate (buf : Bytes) (off len : Nat)
  | reseed

/-- The buffer is inside its object. -/
def Op.Valid : Op → Prop
  | .generate buf off len => off + len ≤ buf.length
  | .reseed => True

/-- The number of bytes asked for. -/
def Op.len : Op → Nat
  | .generate _ _ len => len
  | .reseed => 0

/-- The object after the call, when the bytes `o` are handed out. -/
def Op.result : Op → Bytes → Bytes
  | .generate buf off len, o => buf.take off ++ o ++ buf.drop (off + len)
  | .reseed, _ => []

/-- The calls one after the other; the objects after each call. -/
def runOps (E : Nat → Bytes) : State → List Op → Out (State × List Bytes)
  | st, [] => .ok (st, [])
  | st, .generate buf off len :: ops => do
    let r ← generate E st buf off len
    let q ← runOps E r.1 ops
    pure (q.1, r.2 :: q.2)
  | st, .reseed :: ops => do
    let q ← runOps E (reseed E st) ops
    pure (q.1, [] :: q.2)

theorem runOps_idle (hE : ∀ k, (E k).length = 40) (ops : List Op) (st : State) (out : Bytes) (h : Idle E limit st out)
    (hv : ∀ op ∈ ops, op.Valid) (hlim : 1600064 ≤ limit ∨ (∀ op ∈ ops, op.len ≤ 1600000) ∧ 1600000 ≤ limit) :
    ∃ st' os, runOps E st ops = .ok (st', List.zipWith Op.result ops os) ∧ os.map List.length = ops.map Op.len ∧
      Idle E limit st' (out ++ os.flatten) := by
  induction ops generalizing st out with
  | nil => exact ⟨st, [], rfl, rfl, by simpa using h⟩
  | cons op ops ih =>
    have hop := hv op (List.mem_cons_self ..)
    have hrest : ∀ o ∈ ops, o.Valid := fun o ho => hv o (List.mem_cons_of_mem _ ho)
    have hlim' : 1600064 ≤ limit ∨ (∀ op ∈ ops, op.len ≤ 1600000) ∧ 1600000 ≤ limit :=
      hlim.imp id fun h => ⟨fun o ho => h.1 o (List.mem_cons_of_mem _ ho), h.2⟩
    cases op with
    | generate buf off len =>
      obtain ⟨st1, o, e1, e2, e3, _⟩ := generate_idle hE h buf off len hop
        (hlim.imp id fun h => ⟨h.1 _ (List.mem_cons_self ..), h.2⟩)
      obtain ⟨st', os, i1, i2, i3⟩ := ih st1 (out ++ o) e3 hrest hlim'
      refine ⟨st', o :: os, ?_, ?_, ?_⟩
      · rw [runOps, e1, Out.bind_ok, i1]; rfl
      · rw [List.map_cons, List.map_cons, i2, e2]; rfl
      · rwa [List.flatten_cons, ← List.append_assoc]
    | reseed =>
      obtain ⟨st', os, i1, i2, i3⟩ := ih (reseed E st) out (reseed_idle hE (by omega) h) hrest hlim'
      refine ⟨st', [] :: os, ?_, ?_, ?_⟩
      · rw [runOps, i1]; rfl
      · rw [List.map_cons, List.map_cons, i2]; rfl
      · rwa [List.flatten_cons, List.nil_append]

/-- The claim: in every history of calls on a new object, each call fills exactly the bytes asked for; all these bytes
together are what the events of the log hand out (so each byte is a byte of a block, each block is used once); the key
was replaced at the end of the last call; at most 17 blocks are handed out under one key; and between reseeds
at most `limit` bytes are handed out. -/
def C40_statement (limit : Nat) : Prop :=
  ∀ E : Nat → Bytes, (∀ k, (E k).length = 40) → ∀ ops : List Op, (∀ op ∈ ops, op.Valid) →
    ∃ st' os g, runOps E (new E) ops = .ok (st', List.zipWith Op.result ops os) ∧
      os.map List.length = ops.map Op.len ∧
      run E (start, 0) st'.log = ((g, st'.reads), os.flatten) ∧ Is st'.chacha g ∧
      (∃ l, st'.log = l ++ [.rekey] ∨ st'.log = l ++ [.reseed]) ∧
      ∀ p, p <+: st'.log → blocksSince p ≤ 17 ∧ bytesSince p ≤ limit

/-- **C40**, with 1600064 in the place of 1600000: the code allows one more block than its constant says. -/
theorem C40_partial : C40_statement 1600064 := by
  intro E hE ops hv
  obtain ⟨st', os, h1, h2, h3⟩ := runOps_idle (limit := 1600064) hE ops (new E) [] (new_idle hE (by omega)) hv
    (Or.inl (Nat.le_refl _))
  obtain ⟨g, hr, hi, _⟩ := h3.follows.gen
  exact ⟨st', os, g, h1, h2, hr, hi, h3.fresh, h3.follows.bounded⟩

/-- **C40**, with the documented number, for histories in which no single call asks for more than 1600000 bytes. -/
theorem C40_small (hE : ∀ k, (E k).length = 40) (ops : List Op) (hv : ∀ op ∈ ops, op.Valid)
    (hl : ∀ op ∈ ops, op.len ≤ 1600000) :
    ∃ st' os g, runOps E (new E) ops = .ok (st', List.zipWith Op.result ops os) ∧
      os.map List.length = ops.map Op.len ∧
      run E (start, 0) st'.log = ((g, st'.reads), os.flatten) ∧ Is st'.chacha g ∧
      (∃ l, st'.log = l ++ [.rekey] ∨ st'.log = l ++ [.reseed]) ∧
      ∀ p, p <+: st'.log → blocksSince p ≤ 17 ∧ bytesSince p ≤ 1600000 := by
  obtain ⟨st', os, h1, h2, h3⟩ := runOps_idle (limit := 1600000) hE ops (new E) [] (new_idle hE (by omega)) hv
    (Or.inr ⟨hl, Nat.le_refl _⟩)
  obtain ⟨g, hr, hi, _⟩ := h3.follows.gen
  exact ⟨st', os, g, h1, h2, hr, hi, h3.fresh, h3.follows.bounded⟩

/-- **C40** does not hold with the documented number: a call for 1600064 bytes reseeds inside the loop without counting
the block that follows, and a call for 1600000 bytes can then go through without a reseed. -/
theorem C40_fails : ¬C40_statement 1600000 := by
  intro h
  let E : Nat → Bytes := fun _ => List.replicate 40 0
  have hE : ∀ k, (E k).length = 40 := fun _ => List.length_replicate
  obtain ⟨st1, o1, e1, _, e3, _, e5⟩ := generate_idle (limit := 1600064) hE (new_idle hE (by omega))
    (List.replicate 1600064 0) 0 1600064 (by rw [List.length_replicate]; omega) (Or.inl (Nat.le_refl _))
  obtain ⟨l1, b1⟩ := e5 64 (by omega) (by omega) (by omega)
  obtain ⟨st2, o2, f1, _, f3, f4, _⟩ := generate_idle (limit := 1600064) hE e3
    (List.replicate 1600000 0) 0 1600000 (by rw [List.length_replicate]; omega) (Or.inl (Nat.le_refl _))
  have b2 := f4 (by omega)
  obtain ⟨st', os, g, h1, -, -, -, -, h2⟩ := h E hE
    [.generate (List.replicate 1600064 0) 0 1600064, .generate (List.replicate 1600000 0) 0 1600000] (by
      intro op hop
      rcases List.mem_cons.mp hop with rfl | hop
      · show 0 + 1600064 ≤ (List.replicate 1600064 (0 : UInt8)).length
        rw [List.length_replicate]; omega
      · rcases List.mem_cons.mp hop with rfl | hop
        · show 0 + 1600000 ≤ (List.replicate 1600000 (0 : UInt8)).length
          rw [List.length_replicate]; omega
        · cases hop)
  rw [runOps, e1, Out.bind_ok, runOps, f1, Out.bind_ok, runOps, Out.bind_ok, Out.pure_eq, Out.bind_ok] at h1
  have hs : st2 = st' := by
    have := h1
    simp only [Out.pure_eq, Out.ok.injEq, Prod.mk.injEq] at this
    exact this.1
  subst hs
  have := (h2 _ (List.prefix_refl _)).2
  omega

/-- **C40**: no block of key stream is used twice, in any history: blocks have different numbers under their key, or
belong to different keys. -/
theorem C40_no_reuse (log : List Event) : ((uses 0 0 log).map fun u => (u.1, u.2.1)).Nodup := (uses_nodup 0 0 log).1

/-- The number of times the key was replaced. -/
def epochs : List Event → Nat :=
  List.foldl (fun n e => match e with | .out _ => n | .rekey => n + 1 | .reseed => n + 2) 0

theorem uses_snoc_aux (e c : Nat) (l : List Event) (x : Event) : uses e c (l ++ [x]) = uses e c l ++
    uses (l.foldl (fun n e => match e with | .out _ => n | .rekey => n + 1 | .reseed => n + 2) e)
      (l.foldl (fun n e => match e with | .out _ => n + 1 | .rekey => 0 | .reseed => 0) c) [x] := by
  induction l generalizing e c with
  | nil => rfl
  | cons y l ih => cases y <;> simp [uses, ih]

/-- **C40**: the block that the present key comes from has the number `blocksSince l` under key number `epochs l`, and no
byte of it was handed out. -/
theorem C40_key_hidden (l : List Event) :
    uses 0 0 (l ++ [.rekey]) = uses 0 0 l ++ [(epochs l, blocksSince l, false)] ∧
      (epochs l, blocksSince l, true) ∉ uses 0 0 (l ++ [.rekey]) := by
  have h : uses 0 0 (l ++ [.rekey]) = uses 0 0 l ++ [(epochs l, blocksSince l, false)] := uses_snoc_aux 0 0 l .rekey
  refine ⟨h, ?_⟩
  have hn := C40_no_reuse (l ++ [.rekey])
  rw [h] at hn ⊢
  rw [List.map_append, List.nodup_append] at hn
  intro hm
  rcases List.mem_append.mp hm with hm | hm
  · exact hn.2.2 _ (List.mem_map.mpr ⟨_, hm, rfl⟩) _ (List.mem_map.mpr ⟨_, List.mem_singleton.mpr rfl, rfl⟩) rfl
  · simp at hm

/-- `noise_randstate_generate_simple` fills exactly its buffer with what a new generator hands out. -/
theorem C40_simple (hE : ∀ k, (E k).length = 40) (buf : Bytes) (off len : Nat) (h : off + len ≤ buf.length) :
    ∃ o st', generateSimple E buf off len = .ok (buf.take off ++ o ++ buf.drop (off + len)) ∧ o.length = len ∧
      Idle E 1600064 st' o := by
  obtain ⟨st', o, e1, e2, e3, _⟩ := generate_idle hE (new_idle hE (by omega)) buf off len h (Or.inl (Nat.le_refl _))
  refine ⟨o, st', ?_, e2, e3⟩
  rw [generateSimple, e1, Out.bind_ok]
  rfl

/-- **C40**: the key before the first reseed is the initial value of SHA-256. -/
theorem C40_starting_key : start.key = Fips180.Sha256.H0.flatMap (fun w => Fips180.beBytes 4 w.toNat) ∧
    start.iv = List.replicate 8 0 ∧ start.counter = 0 := by decide +kernel

/-- **C40**: missing arguments are refused: without a buffer nothing changes, without a state the buffer is zeroed. -/
theorem C40_null (E : Nat → Bytes) (off len : Nat) :
    (∀ st, generateApi E st none off len = .ok (.invalidParam, st, none)) ∧
    ∀ buf : Bytes, off + len ≤ buf.length → generateApi E none (some buf) off len =
      .ok (.invalidParam, none, some (buf.take off ++ List.replicate len 0 ++ buf.drop (off + len))) := by
  refine ⟨fun st => by cases st <;> rfl, fun buf h => ?_⟩
  simp only [generateApi]
  rw [store_ok (by simpa using h)]
  simp

/-- A concrete history: the hypotheses are met by any source of entropy, and the calls succeed. -/
example : ∃ st' os g, runOps (fun _ => List.replicate 40 7) (new fun _ => List.replicate 40 7)
      [.generate (List.replicate 100 1) 3 70, .reseed, .generate (List.replicate 10 1) 0 10] =
    .ok (st', List.zipWith Op.result
      [.generate (List.replicate 100 1) 3 70, .reseed, .generate (List.replicate 10 1) 0 10] os) ∧
    os.map List.length = [70, 0, 10] ∧ Is st'.chacha g := by
  obtain ⟨st', os, g, h1, h2, _, h3, _⟩ := C40_partial (fun _ => List.replicate 40 7) (fun _ => List.length_replicate)
    [.generate (List.replicate 100 1) 3 70, .reseed, .generate (List.replicate 10 1) 0 10] (by
      intro op hop
      simp only [List.mem_cons, List.not_mem_nil, or_false] at hop
      rcases hop with rfl | rfl | rfl <;> simp [Op.Valid])
  exact ⟨st', os, g, h1, h2, h3⟩

end Noise.Rand
