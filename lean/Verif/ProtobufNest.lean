import Verif.ProtobufMeasure
import Verif.ProtobufFields
import Verif.ProtobufSafe
/-!
# Nested elements, skipping, peeking and negative tags (C46, C47, C49)
-/

namespace Noise
namespace PB

/-! ## One element -/

/-- **C47**, writing an element: what was written after `noise_protobuf_write_end_element` becomes the
contents of the element. -/
theorem C47_write_element {w w1 w2 : PB} (hs : w.size < 2 ^ 64) (hi : w1.Inv) {tag : Int}
    (h0 : 0 < tag) (h1 : tag < 2 ^ 31) {content : Bytes} (_he : w.writeEndElement = (.none, w.posn))
    (hc : Wrote w w1 content) (hp : w.posn ≤ w.size)
    (h : w1.writeStartElement tag w.posn = .ok (.none, w2)) :
    Wrote w w2 (Wire.field tag.toNat (.delim content)) := by
  have hcp := hc.posn
  have hcs := hc.size
  unfold writeStartElement at h
  rw [if_neg (by omega), if_neg (by omega), writeVarint_eq hi] at h
  simp only [Out.bind_ok] at h
  rw [tag_after hi] at h
  have hl : (UInt64.ofNat (w.posn - w1.posn)).toNat = content.length := by
    rw [UInt64.toNat_ofNat', Nat.mod_eq_of_lt (by omega)]; omega
  rw [hl] at h
  have hw := field_wrote hi h
  rw [delim_eq (by omega) h1]
  have hwp := hw.posn
  refine ⟨?_, hw.size.trans hcs, hw.err, ?_⟩
  · simp only [List.length_append] at hwp ⊢; omega
  · intro d hd
    obtain ⟨d1, hd1, hl1, hdr1⟩ := hc.data d hd
    obtain ⟨d2, hd2, hl2, hdr2⟩ := hw.data d1 hd1
    exact ⟨d2, hd2, hl2.trans hl1, by rw [hdr2, hdr1]; simp⟩

/-- **C47**, reading an element: the position is that of its contents, and the end is known. The end is
reached exactly when the contents have been consumed. -/
theorem C47_read_element {p : PB} {tag : Int} (h0 : 0 < tag) (h1 : tag < 2 ^ 31) {content rest : Bytes}
    (hb : content.length < 2 ^ 64) (hp : Ready p (Wire.field tag.toNat (.delim content) ++ rest)) :
    ∃ q, p.readStartElement tag = .ok (.none, q, q.posn + content.length) ∧ Ready q (content ++ rest) ∧
      q.adv content.length = p.adv (Wire.field tag.toNat (.delim content)).length ∧
      ∀ k ≤ content.length,
        ((q.adv k).readAtEndElement (q.posn + content.length) = true ↔ k = content.length) ∧
        (((q.adv k).readEndElement (q.posn + content.length)).1 = .none ↔ k = content.length) := by
  obtain ⟨a1, q, a2, a3, -, a6, a7, -⟩ := delim_ready (by omega) h1 hb hp
  have hr := a6.room
  rw [List.length_append] at hr
  refine ⟨q, ?_, a6, a7, ?_⟩
  · unfold readStartElement
    rw [a1]
    simp only [Out.bind_ok, ne_eq, not_true_eq_false, if_false]
    rw [if_pos (by omega), a2]
    simp only [Out.bind_ok, not_true_eq_false, if_false, a3]
    rw [if_neg (by omega)]
    rfl
  · intro k hk
    have he := a6.err
    have hpq : (q.adv k).posn = q.posn + k := rfl
    constructor
    · unfold readAtEndElement
      rw [if_neg (by simp [he]), decide_eq_true_eq, hpq]
      omega
    · unfold readEndElement
      rw [if_neg (by simp [he])]
      by_cases hkk : k = content.length
      · rw [if_neg (by rw [hpq]; omega)]
        simp [hkk]
      · rw [if_pos (by rw [hpq]; omega)]
        simp [hkk]

/-- The number of a value fits its wire type. -/
def Fit : Wire.Val → Prop
  | .varint n => n < 2 ^ 64
  | .fixed64 _ => True
  | .delim b => b.length < 2 ^ 64
  | .fixed32 _ => True

/-- **C47**, skipping a field moves past exactly that field. -/
theorem C47_skip {p : PB} {tag : Nat} (h0 : 0 < tag) (h1 : tag < 2 ^ 31) {v : Wire.Val} (hv : Fit v)
    {rest : Bytes} (hp : Ready p (Wire.field tag v ++ rest)) :
    p.readSkip = .ok (.none, p.adv (Wire.field tag v).length) := by
  have hf : Wire.field tag v = Wire.varint (tag * 8 + v.type) ++ v.bytes := by
    unfold Wire.field Wire.key
    rw [if_neg (by omega)]
  rw [hf] at hp ⊢
  rw [List.append_assoc] at hp
  have ht : v.type < 8 := by cases v <;> simp [Wire.Val.type]
  have hw : (UInt64.ofNat (tag * 8 + v.type)) &&& 7 = UInt64.ofNat v.type := by
    apply UInt64.toNat_inj.1
    rw [UInt64.toNat_and, UInt64.toNat_ofNat', UInt64.toNat_ofNat', Nat.mod_eq_of_lt (by omega),
      Nat.mod_eq_of_lt (a := v.type) (by omega)]
    have := Nat.and_two_pow_sub_one_eq_mod (tag * 8 + v.type) 3
    rw [show (7 : UInt64).toNat = 2 ^ 3 - 1 from rfl, this]
    omega
  unfold readSkip
  rw [readVarint_ok hp (by omega)]
  simp only [Out.bind_ok, ne_eq, not_true_eq_false, if_false, hw]
  have hr := hp.adv
  rw [List.length_append, ← adv_adv]
  clear hp hw hf
  generalize p.adv (Wire.varint (tag * 8 + v.type)).length = q at *
  simp only [wireVarint, wire64, wireDelim, wire32]
  cases v with
  | varint n =>
    simp only [Wire.Val.type]
    rw [if_pos trivial]
    rw [readVarint_ok hr hv]
    rfl
  | fixed64 n =>
    simp only [Wire.Val.type]
    rw [if_neg (show ¬ (UInt64.ofNat 1 = UInt64.ofNat 0) by decide), if_pos trivial]
    have := readSpace_ok hr
    rw [show (Wire.Val.fixed64 n).bytes.length = 8 from Wire.little_length 8 n] at this ⊢
    rw [this]
    rfl
  | delim b =>
    simp only [Wire.Val.type]
    rw [if_neg (show ¬ (UInt64.ofNat 2 = UInt64.ofNat 0) by decide), if_neg (show ¬ (UInt64.ofNat 2 = UInt64.ofNat 1) by decide), if_pos trivial]
    have hr2 : Ready q
        (Wire.varint b.length ++ (b ++ rest)) := by simpa [Wire.Val.bytes] using hr
    rw [readVarint_ok hr2 hv]
    have hl : (UInt64.ofNat b.length).toNat = b.length := by
      rw [UInt64.toNat_ofNat', Nat.mod_eq_of_lt hv]
    have hroom := hr2.adv.room
    rw [List.length_append] at hroom
    simp only [Out.bind_ok, if_true, hl]
    rw [if_pos (by omega)]
    simp only [Wire.Val.bytes, List.length_append]
    rw [← adv_adv]
    rfl
  | fixed32 n =>
    simp only [Wire.Val.type]
    rw [if_neg (show ¬ (UInt64.ofNat 5 = UInt64.ofNat 0) by decide), if_neg (show ¬ (UInt64.ofNat 5 = UInt64.ofNat 1) by decide), if_neg (show ¬ (UInt64.ofNat 5 = UInt64.ofNat 2) by decide), if_pos trivial]
    have := readSpace_ok hr
    rw [show (Wire.Val.fixed32 n).bytes.length = 4 from Wire.little_length 4 n] at this ⊢
    rw [this]
    rfl

/-! ## Trees of any depth -/

/-- The value of a field. -/
inductive Leaf
  | uint64 (v : UInt64)
  | fixed64 (v : UInt64)
  | bytes (b : Bytes)
  | fixed32 (v : UInt32)
  deriving DecidableEq, Repr

/-- A sequence of fields; an element contains another sequence. -/
inductive Forest
  | nil
  | leaf (tag : Nat) (v : Leaf) (next : Forest)
  | elem (tag : Nat) (content : Forest) (next : Forest)
  deriving DecidableEq, Repr

/-- The value on the wire. -/
def Leaf.val : Leaf → Wire.Val
  | .uint64 v => .varint v.toNat
  | .fixed64 v => .fixed64 v.toNat
  | .bytes b => .delim b
  | .fixed32 v => .fixed32 v.toNat

/-- The encoding of a sequence of fields. -/
def Forest.bytes : Forest → Bytes
  | .nil => []
  | .leaf tag v next => Wire.field tag v.val ++ next.bytes
  | .elem tag content next => Wire.field tag (.delim content.bytes) ++ next.bytes

/-- The number of fields of a sequence, not counting the contents of elements. -/
def Forest.count : Forest → Nat
  | .nil => 0
  | .leaf _ _ next => next.count + 1
  | .elem _ _ next => next.count + 1

/-- The tags are in range. -/
def Forest.Tags : Forest → Prop
  | .nil => True
  | .leaf tag _ next => 0 < tag ∧ tag < 2 ^ 31 ∧ next.Tags
  | .elem tag content next => 0 < tag ∧ tag < 2 ^ 31 ∧ content.Tags ∧ next.Tags

/-- The write call for a value. -/
def Leaf.write (tag : Nat) : Leaf → WOp
  | .uint64 v => .uint64 tag v
  | .fixed64 v => .fixed64 tag v
  | .bytes b => .bytes tag b
  | .fixed32 v => .fixed32 tag v

/-- The calls that write a sequence of fields: the last field first, and an element from its end to its
start. -/
def Forest.write : Forest → List WOp
  | .nil => []
  | .leaf tag v next => next.write ++ [v.write tag]
  | .elem tag content next => next.write ++ .endElement :: content.write ++ [.startElement tag]

/-- The read call for a value of the same kind. -/
def Leaf.read (p : PB) (tag : Nat) : Leaf → Out (Err × PB × Leaf)
  | .uint64 _ => do let (e, q, v) ← p.readUInt64 tag; pure (e, q, .uint64 v)
  | .fixed64 _ => do let (e, q, v) ← p.readFixed64 tag; pure (e, q, .fixed64 v)
  | .bytes _ => do
    let (e, q, b, n) ← p.readAllocBytes tag 0 true
    pure (e, q, .bytes ((b.getD []).take n))
  | .fixed32 _ => do let (e, q, v) ← p.readFixed32 tag; pure (e, q, .fixed32 v)

/-- The calls that read a sequence of fields of a given shape; the values of the shape are not used. -/
def Forest.read : Forest → PB → Out (Err × PB × Forest)
  | .nil, p => .ok (.none, p, .nil)
  | .leaf tag v next, p => do
    let (e, p, v) ← v.read p tag
    if e ≠ .none then pure (e, p, .nil) else do
    let (e, p, next) ← next.read p
    pure (e, p, .leaf tag v next)
  | .elem tag content next, p => do
    let (e, p, endPosn) ← p.readStartElement tag
    if e ≠ .none then pure (e, p, .nil) else do
    let (e, p, content) ← content.read p
    if e ≠ .none then pure (e, p, .nil) else do
    let (e, p) := p.readEndElement endPosn
    if e ≠ .none then pure (e, p, .nil) else do
    let (e, p, next) ← next.read p
    pure (e, p, .elem tag content next)

/-- Skipping a number of fields. -/
def skips : Nat → PB → Out (Err × PB)
  | 0, p => .ok (.none, p)
  | n + 1, p => do
    let (e, p) ← p.readSkip
    if e ≠ .none then pure (e, p) else skips n p

theorem WOp.run_append (x : PB × List Nat) (a b : List WOp) :
    WOp.run x (a ++ b) = (do
      let (es, y) ← WOp.run x a
      let (es', z) ← WOp.run y b
      pure (es ++ es', z)) := by
  induction a generalizing x with
  | nil =>
    simp only [List.nil_append, WOp.run, Out.bind_ok]
    cases WOp.run x b <;> rfl
  | cons op a ih =>
    simp only [List.cons_append, WOp.run]
    cases hs : op.step x with
    | ub => rfl
    | ok r =>
      simp only [Out.bind_ok]
      rw [ih]
      cases h1 : WOp.run r.2 a with
      | ub => rfl
      | ok s =>
        simp only [Out.bind_ok]
        cases h2 : WOp.run s.2 b <;> simp [h2, Out.pure_eq]

/-- A call with room for what it writes. -/
theorem WOp.step_room {x : PB × List Nat} (h : Writing x) (he : x.1.err = .none) {op : WOp} (hf : op.Fits)
    {l : List Bytes} (hl : op.parts x = some l) (hr : l.flatten.length ≤ x.1.posn) :
    op.step x = .ok (.none, x.1.push l.reverse.flatten, op.stack x) := by
  rw [WOp.step_eq h.inv he h.stack h.size op hf, hl]
  simp only
  rw [puts_ok h.inv he l hr]
  simp [push, he]

theorem Leaf.parts {v : Leaf} {tag : Nat} (h0 : 0 < tag) (h1 : tag < 2 ^ 31) (x : PB × List Nat) :
    ∃ l, (v.write tag).parts x = some l ∧ l.reverse.flatten = Wire.field tag v.val ∧
      (v.write tag).stack x = x.2 := by
  have hk : ∀ type, type < 8 → keyBytes (tag : Int) type = Wire.key tag type := by
    intro type ht
    rw [keyBytes_eq (by omega) (by omega) type ht]; simp
  cases v with
  | uint64 v => exact ⟨_, rfl, by simp [hk wireVarint (by decide)]; rfl, rfl⟩
  | fixed64 v => exact ⟨_, rfl, by simp [hk wire64 (by decide)]; rfl, rfl⟩
  | bytes b => exact ⟨_, rfl, by simp [hk wireDelim (by decide)]; rfl, rfl⟩
  | fixed32 v => exact ⟨_, rfl, by simp [hk wire32 (by decide)]; rfl, rfl⟩

theorem Leaf.fits {v : Leaf} {tag : Nat} (h : (Wire.field tag v.val).length < 2 ^ 64) : (v.write tag).Fits := by
  cases v with
  | bytes b =>
    simp only [Wire.field, Leaf.val, Wire.Val.bytes, List.length_append] at h
    show b.length < 2 ^ 64
    omega
  | _ => trivial

theorem rev_flatten_length {l : List Bytes} : l.flatten.length = l.reverse.flatten.length := by
  simp [List.length_flatten]

theorem Forest.write_run (f : Forest) (ht : f.Tags) {x : PB × List Nat} (h : Writing x)
    (he : x.1.err = .none) (hr : f.bytes.length ≤ x.1.posn) :
    ∃ es, WOp.run x f.write = .ok (es, x.1.push f.bytes, x.2) ∧ (∀ e ∈ es, e = .none) ∧
      Writing (x.1.push f.bytes, x.2) := by
  induction f generalizing x with
  | nil =>
    refine ⟨[], ?_, by simp, ?_⟩
    · simp only [Forest.bytes, push_nil x.1 h.inv, Forest.write, WOp.run]
    · simp only [Forest.bytes, push_nil x.1 h.inv]; exact h
  | leaf tag v next ih =>
    obtain ⟨h0, h1, hn⟩ := ht
    simp only [Forest.bytes, List.length_append] at hr
    have hsz := h.inv.posn
    have hsz2 := h.size
    obtain ⟨es, hrun, hes, hw⟩ := ih hn h he (by omega)
    obtain ⟨l, hp, hl, hst⟩ := Leaf.parts (v := v) h0 h1 (x.1.push next.bytes, x.2)
    have hfl : l.flatten.length ≤ (x.1.push next.bytes).posn := by
      rw [rev_flatten_length, hl]; show _ ≤ x.1.posn - _; omega
    have hfit : (v.write tag).Fits := Leaf.fits (by omega)
    have hstep := WOp.step_room hw he hfit hp hfl
    rw [hl, hst] at hstep
    simp only at hstep
    rw [push_push x.1 h.inv _ _ (by omega)] at hstep
    refine ⟨es ++ [.none], ?_, ?_, ?_⟩
    · simp only [Forest.write]
      rw [WOp.run_append, hrun]
      simp only [Out.bind_ok, WOp.run, hstep]
      rfl
    · intro e hm
      rcases List.mem_append.mp hm with hm | hm
      · exact hes e hm
      · simpa using hm
    · obtain ⟨e, y, hy, wy, -⟩ := hw.step _ hfit
      rw [hstep] at hy
      cases hy
      exact wy
  | elem tag content next ihc ihn =>
    obtain ⟨h0, h1, hc, hn⟩ := ht
    have hfield : Wire.field tag (.delim content.bytes) =
        keyBytes (tag : Int) wireDelim ++ (Wire.varint content.bytes.length ++ content.bytes) := by
      have := delim_eq (tag := (tag : Int)) (by omega) (by omega) content.bytes
      simpa using this
    simp only [Forest.bytes, List.length_append, hfield] at hr
    have hsz := h.inv.posn
    have hsz2 := h.size
    obtain ⟨es, hrun, hes, hw⟩ := ihn hn h he (by omega)
    -- the end
    have hwe : (x.1.push next.bytes).err = .none := he
    have hend : WOp.step (x.1.push next.bytes, x.2) .endElement =
        .ok (.none, x.1.push next.bytes, (x.1.push next.bytes).posn :: x.2) := by
      simp [WOp.step, writeEndElement, hwe]
    have hw' : Writing (x.1.push next.bytes, (x.1.push next.bytes).posn :: x.2) := by
      obtain ⟨e, y, hy, wy, -⟩ := hw.step .endElement trivial
      rw [hend] at hy
      cases hy
      exact wy
    -- the contents
    obtain ⟨es', hrun', hes', hwc⟩ := ihc hc hw' hwe (by show _ ≤ x.1.posn - _; omega)
    -- the start
    have hpos : (x.1.push next.bytes).posn = x.1.posn - next.bytes.length := rfl
    have hpos2 : ((x.1.push next.bytes).push content.bytes).posn =
        x.1.posn - next.bytes.length - content.bytes.length := rfl
    have hparts : WOp.parts ((x.1.push next.bytes).push content.bytes, (x.1.push next.bytes).posn :: x.2)
        (.startElement tag) = some [Wire.varint content.bytes.length, keyBytes (tag : Int) wireDelim] := by
      simp only [WOp.parts, List.headD_cons, hpos, hpos2]
      rw [if_neg (by omega)]
      congr 3
      omega
    have hstep := WOp.step_room hwc (x := ((x.1.push next.bytes).push content.bytes,
      (x.1.push next.bytes).posn :: x.2)) he (op := .startElement tag) trivial hparts (by
        simp only [List.flatten_cons, List.flatten_nil, List.length_append, List.length_nil, hpos2]
        omega)
    have hfinal : ((x.1.push next.bytes).push content.bytes).push
        [Wire.varint content.bytes.length, keyBytes (tag : Int) wireDelim].reverse.flatten =
        x.1.push (Forest.elem tag content next).bytes := by
      rw [push_push x.1 h.inv _ _ (by omega), push_push x.1 h.inv _ _ (by simp; omega)]
      simp [Forest.bytes, hfield]
    simp only [WOp.stack, List.tail_cons] at hstep
    rw [hfinal] at hstep
    refine ⟨es ++ (.none :: es' ++ [.none]), ?_, ?_, ?_⟩
    · simp only [Forest.write]
      rw [List.append_assoc, WOp.run_append, hrun]
      simp only [Out.bind_ok, List.cons_append, WOp.run, hend]
      rw [WOp.run_append, hrun']
      simp only [Out.bind_ok, WOp.run, hstep]
      rfl
    · intro e hm
      simp only [List.mem_append, List.mem_cons, List.not_mem_nil, or_false] at hm
      rcases hm with hm | (rfl | hm) | rfl
      · exact hes e hm
      · rfl
      · exact hes' e hm
      · rfl
    · obtain ⟨e, y, hy, wy, -⟩ := hwc.step (.startElement tag) trivial
      rw [hstep] at hy
      cases hy
      exact wy

/-- **C47**, writing a tree of any depth produces its encoding, at the end of the buffer. -/
theorem C47_write_tree (f : Forest) (ht : f.Tags) (d : Bytes) (hd : d.length < 2 ^ 64)
    (hr : f.bytes.length ≤ d.length) :
    ∃ es p, WOp.run (prepareOutput d, []) f.write = .ok (es, p, []) ∧ (∀ e ∈ es, e = .none) ∧
      p.finishOutput = (.none, some (d.length - f.bytes.length), f.bytes.length) ∧
      p.data = some (d.take (d.length - f.bytes.length) ++ f.bytes) := by
  obtain ⟨es, h1, h2, -⟩ := f.write_run ht
    (x := (prepareOutput d, [])) ⟨prepareOutput_inv d, fun _ => by simp, hd⟩ rfl hr
  refine ⟨es, _, h1, h2, ?_, ?_⟩
  · simp only [finishOutput, push, prepareOutput, ne_eq, not_true_eq_false, if_false, Option.map_some,
      Prod.mk.injEq, true_and]
    omega
  · simp [push, prepareOutput]

theorem Leaf.read_ok {v : Leaf} {p : PB} {tag : Nat} (h0 : 0 < tag) (h1 : tag < 2 ^ 31) {rest : Bytes}
    (hp : Ready p (Wire.field tag v.val ++ rest)) (hl : (Wire.field tag v.val).length < 2 ^ 64) :
    v.read p tag = .ok (.none, p.adv (Wire.field tag v.val).length, v) := by
  have hbig : (prepareOutput (List.replicate (Wire.field tag v.val).length 0)).posn =
      (Wire.field tag v.val).length := by simp [prepareOutput]
  have hw : Writing (prepareOutput (List.replicate (Wire.field tag v.val).length 0), []) :=
    ⟨prepareOutput_inv _, fun _ => by simp, by simpa [prepareOutput] using hl⟩
  obtain ⟨l, hpp, hl', hst⟩ := Leaf.parts (v := v) h0 h1
    (prepareOutput (List.replicate (Wire.field tag v.val).length 0), [])
  have hstep := WOp.step_room hw rfl (Leaf.fits (by omega)) hpp
    (by rw [rev_flatten_length, hl', hbig]; exact Nat.le_refl _)
  generalize prepareOutput (List.replicate (Wire.field tag v.val).length 0) = w at *
  have ht0 : (0 : Int) ≤ tag := by omega
  have ht1 : (tag : Int) < 2 ^ 31 := by omega
  cases v with
  | uint64 v =>
    simp only [Leaf.write, WOp.step, Out.bind_eq_ok] at hstep
    obtain ⟨⟨e, w'⟩, hwr, hok⟩ := hstep
    cases hok
    have := (C41_uint64 hw.inv ht0 ht1 hwr).2 p rest (by simpa [Leaf.val] using hp)
    simp only [Leaf.read, this, Out.bind_ok, Int.toNat_natCast]
    rfl
  | fixed64 v =>
    simp only [Leaf.write, WOp.step, Out.bind_eq_ok] at hstep
    obtain ⟨⟨e, w'⟩, hwr, hok⟩ := hstep
    cases hok
    have := (C42_fixed64 hw.inv ht0 ht1 hwr).2 p rest (by simpa [Leaf.val] using hp)
    simp only [Leaf.read, this, Out.bind_ok, Int.toNat_natCast]
    rfl
  | bytes b =>
    have hb : b.length < 2 ^ 64 := Leaf.fits (v := .bytes b) (tag := tag) (by omega)
    simp only [Leaf.write, WOp.step, Out.bind_eq_ok] at hstep
    obtain ⟨⟨e, w'⟩, hwr, hok⟩ := hstep
    cases hok
    have := ((C42_alloc_bytes hw.inv ht0 ht1 hb hwr).2 p rest 0 (by simpa [Leaf.val] using hp)).1 (.inl rfl)
    simp only [Leaf.read, this, Out.bind_ok, Int.toNat_natCast, Option.getD_some, Out.pure_eq]
    cases b <;> simp [Leaf.val]
  | fixed32 v =>
    simp only [Leaf.write, WOp.step, Out.bind_eq_ok] at hstep
    obtain ⟨⟨e, w'⟩, hwr, hok⟩ := hstep
    cases hok
    have := (C42_fixed32 hw.inv ht0 ht1 hwr).2 p rest (by simpa [Leaf.val] using hp)
    simp only [Leaf.read, this, Out.bind_ok, Int.toNat_natCast]
    rfl

/-- **C47**, reading a tree of any depth gives the tree back and consumes exactly its encoding. -/
theorem C47_read_tree (f : Forest) (ht : f.Tags) {p : PB} {rest : Bytes} (hp : Ready p (f.bytes ++ rest))
    (hl : f.bytes.length < 2 ^ 64) : f.read p = .ok (.none, p.adv f.bytes.length, f) := by
  induction f generalizing p rest with
  | nil => rfl
  | leaf tag v next ih =>
    obtain ⟨h0, h1, hn⟩ := ht
    simp only [Forest.bytes, List.append_assoc] at hp
    simp only [Forest.bytes, List.length_append] at hl
    simp only [Forest.read]
    rw [Leaf.read_ok h0 h1 hp (by omega)]
    simp only [Out.bind_ok, ne_eq, not_true_eq_false, if_false]
    rw [ih hn hp.adv (by omega)]
    simp [adv_adv, Forest.bytes]
  | elem tag content next ihc ihn =>
    obtain ⟨h0, h1, hc, hn⟩ := ht
    simp only [Forest.bytes, List.append_assoc] at hp
    simp only [Forest.bytes, List.length_append] at hl
    have hcl : content.bytes.length < 2 ^ 64 := by
      simp only [Wire.field, Wire.Val.bytes, List.length_append] at hl; omega
    have hp' : Ready p (Wire.field (tag : Int).toNat (.delim content.bytes) ++ (next.bytes ++ rest)) := by
      simpa using hp
    obtain ⟨q, hq, hrq, hqa, hend⟩ := C47_read_element (tag := (tag : Int)) (by omega) (by omega) hcl hp'
    simp only [Int.toNat_natCast] at hqa
    simp only [Forest.read, hq, Out.bind_ok, ne_eq, not_true_eq_false, if_false]
    rw [ihc hc hrq hcl]
    simp only [Out.bind_ok, not_true_eq_false, if_false]
    have he : (q.adv content.bytes.length).readEndElement (q.posn + content.bytes.length) =
        (.none, q.adv content.bytes.length) := by
      simp [readEndElement, hrq.err]
    rw [he]
    simp only [not_true_eq_false, if_false]
    rw [hqa, ihn hn hp.adv (by omega)]
    simp [adv_adv, Forest.bytes]

/-- **C47**, skipping the fields one by one: as many calls as there are fields, whatever they contain. -/
theorem C47_skip_tree (f : Forest) (ht : f.Tags) {p : PB} {rest : Bytes} (hp : Ready p (f.bytes ++ rest))
    (hl : f.bytes.length < 2 ^ 64) : skips f.count p = .ok (.none, p.adv f.bytes.length) := by
  induction f generalizing p rest with
  | nil => rfl
  | leaf tag v next ih =>
    obtain ⟨h0, h1, hn⟩ := ht
    simp only [Forest.bytes, List.append_assoc] at hp
    simp only [Forest.bytes, List.length_append] at hl
    have hv : Fit v.val := by
      cases v with
      | uint64 v => exact v.toNat_lt
      | bytes b => exact Leaf.fits (v := .bytes b) (tag := tag) (by omega)
      | _ => trivial
    simp only [Forest.count, skips, C47_skip h0 h1 hv hp, Out.bind_ok, ne_eq, not_true_eq_false, if_false]
    rw [ih hn hp.adv (by omega)]
    simp [adv_adv, Forest.bytes]
  | elem tag content next _ ihn =>
    obtain ⟨h0, h1, hc, hn⟩ := ht
    simp only [Forest.bytes, List.append_assoc] at hp
    simp only [Forest.bytes, List.length_append] at hl
    have hcl : Fit (.delim content.bytes) := by
      show content.bytes.length < 2 ^ 64
      simp only [Wire.field, Wire.Val.bytes, List.length_append] at hl; omega
    simp only [Forest.count, skips, C47_skip h0 h1 hcl hp, Out.bind_ok, ne_eq, not_true_eq_false, if_false]
    rw [ihn hn hp.adv (by omega)]
    simp [adv_adv, Forest.bytes]

/-- A tree with an element in an element. -/
def exampleTree : Forest :=
  .leaf 1 (.uint64 300) (.elem 2 (.leaf 1 (.bytes [7, 8]) (.elem 3 .nil .nil)) (.leaf 4 (.fixed32 5) .nil))

example : exampleTree.Tags ∧
    exampleTree.bytes = [8, 0xAC, 2, 18, 6, 10, 2, 7, 8, 26, 0, 37, 5, 0, 0, 0] ∧
    exampleTree.read (prepareInput exampleTree.bytes) =
      .ok (.none, (prepareInput exampleTree.bytes).adv 16, exampleTree) ∧
    skips 3 (prepareInput exampleTree.bytes) = .ok (.none, (prepareInput exampleTree.bytes).adv 16) :=
  ⟨by simp [exampleTree, Forest.Tags], by decide +kernel, by decide +kernel, by decide +kernel⟩

/-! ## Peeking -/

/-- **C46** does not hold: the tag 16 is reported as 2080 (the byte 0x82 of the key `82 01` is counted
twice), while reading sees the tag 16. -/
theorem C46_fails : ∃ p, Ready p (Wire.field 16 (.delim [1]) ++ []) ∧ p.peekTag = .ok 2080 ∧
    p.readTag 16 wireDelim = .ok (.none, p.adv 2) :=
  ⟨prepareInput [0x82, 1, 1, 1], by
    have h : Wire.field 16 (.delim [1]) = [0x82, 1, 1, 1] := by decide +kernel
    rw [h]; exact prepareInput_ready _, by decide +kernel, by decide +kernel⟩

/-- **C46** does not hold for sizes either: the size 200 is reported as 25672. -/
theorem C46_size_fails : ∃ p b, b.length = 200 ∧ Ready p (Wire.field 1 (.delim b) ++ []) ∧
    p.peekSize = .ok 25672 :=
  ⟨prepareInput ([10, 0xC8, 1] ++ List.replicate 200 0), List.replicate 200 0, List.length_replicate, by
    have h : Wire.field 1 (.delim (List.replicate 200 0)) = [10, 0xC8, 1] ++ List.replicate 200 0 := by
      show Wire.key 1 2 ++ (Wire.varint (List.replicate 200 (0 : UInt8)).length ++ _) = _
      have hk : Wire.key 1 2 = [10] := by decide +kernel
      have hv : Wire.varint 200 = [0xC8, 1] := by decide +kernel
      rw [List.length_replicate, hk, hv]
      rfl
    rw [h, List.append_nil]; exact prepareInput_ready _, by decide +kernel⟩

theorem peek_one {p : PB} {b : UInt8} {rest : Bytes} (h : Ready p (b :: rest)) (hb : b.toNat < 128) :
    p.peekVarint 0 = .ok (.none, b.toUInt64, 1) := by
  obtain ⟨d, hd, hdr⟩ := h.data
  have hr := h.room
  unfold peekVarint
  rw [hd]
  simp only [Nat.add_zero]
  rw [if_neg (by simpa using h.err), if_neg (by simp at hr; omega), byteAt_drop hdr]
  simp only [Out.bind_ok, u8_top]
  rw [if_pos hb]
  rfl

theorem peek_next {p : PB} {a b : UInt8} {rest : Bytes} (h : Ready p (a :: b :: rest)) (hb : b.toNat < 128) :
    p.peekVarint 1 = .ok (.none, b.toUInt64, 2) := by
  have h' := peek_one (h.drop (n := 1) (by simp)) hb
  obtain ⟨d, hd, hdr⟩ := h.data
  have hr := h.room
  have hdr' : d.drop (p.posn + 1) = b :: rest := by
    rw [← List.drop_drop, hdr]; rfl
  unfold peekVarint
  rw [hd]
  simp only
  rw [if_neg (by simpa using h.err), if_neg (by simp at hr; omega), byteAt_drop hdr']
  simp only [Out.bind_ok, u8_top]
  rw [if_pos hb]
  rfl

theorem varint_small {n : Nat} (h : n < 128) : Wire.varint n = [UInt8.ofNat n] := by
  rw [Wire.varint, if_pos h]

theorem key_small {tag : Nat} (h0 : 0 < tag) (h1 : tag ≤ 15) {type : Nat} (ht : type < 8) :
    Wire.key tag type = [UInt8.ofNat (tag * 8 + type)] := by
  unfold Wire.key
  rw [if_neg (by omega), Wire.varint, if_pos (by omega)]

/-- What holds of **C46**: tags up to 15 are reported correctly. -/
theorem C46_tag_partial {p : PB} {tag : Nat} (h0 : 0 < tag) (h1 : tag ≤ 15) {v : Wire.Val} {rest : Bytes}
    (h : Ready p (Wire.field tag v ++ rest)) : p.peekTag = .ok tag := by
  have ht : v.type < 8 := by cases v <;> simp [Wire.Val.type]
  unfold Wire.field at h
  rw [key_small h0 h1 ht] at h
  have hb : (UInt8.ofNat (tag * 8 + v.type)).toNat = tag * 8 + v.type := by
    rw [UInt8.toNat_ofNat', Nat.mod_eq_of_lt (by omega)]
  unfold peekTag
  rw [peek_one h (by omega)]
  have hs : ((UInt8.ofNat (tag * 8 + v.type)).toUInt64 >>> 3).toNat = tag := by
    rw [u64_shr _ (n := 3) rfl (by omega), UInt8.toNat_toUInt64, hb]; omega
  simp only [Out.bind_ok, ne_eq, not_true_eq_false, if_false]
  rw [if_neg]
  · show Out.ok (((UInt8.ofNat (tag * 8 + v.type)).toUInt64 >>> 3).toNat : Int) = _
    rw [hs]
  · rintro (hz | hz)
    · rw [hz] at hs; simp at hs; omega
    · have := UInt64.lt_iff_toNat_lt.mp hz
      rw [hs] at this
      simp [maxTag] at this
      omega

/-- What holds of **C46**: if the tag is at most 15 and the size below 128, the size is reported
correctly. -/
theorem C46_size_partial {p : PB} {tag : Nat} (h0 : 0 < tag) (h1 : tag ≤ 15) {b : Bytes} (hl : b.length < 128)
    {rest : Bytes} (h : Ready p (Wire.field tag (.delim b) ++ rest)) : p.peekSize = .ok b.length := by
  have hf : Wire.field tag (.delim b) = [UInt8.ofNat (tag * 8 + 2)] ++ ([UInt8.ofNat b.length] ++ b) := by
    rw [← varint_small hl, ← key_small h0 h1 (type := 2) (by omega)]
    rfl
  rw [hf] at h
  have hb : (UInt8.ofNat (tag * 8 + 2)).toNat = tag * 8 + 2 := by
    rw [UInt8.toNat_ofNat', Nat.mod_eq_of_lt (by omega)]
  have hbl : (UInt8.ofNat b.length).toNat = b.length := by
    rw [UInt8.toNat_ofNat', Nat.mod_eq_of_lt (by omega)]
  unfold peekSize
  rw [peek_one (b := UInt8.ofNat (tag * 8 + 2)) h (by omega)]
  have hw : (UInt8.ofNat (tag * 8 + 2)).toUInt64 &&& 7 = UInt64.ofNat wireDelim := by
    apply UInt64.toNat_inj.1
    rw [UInt64.toNat_and, UInt8.toNat_toUInt64, hb]
    have := Nat.and_two_pow_sub_one_eq_mod (tag * 8 + 2) 3
    rw [show (7 : UInt64).toNat = 2 ^ 3 - 1 from rfl, this]
    show _ = 2
    omega
  simp only [Out.bind_ok, ne_eq, not_true_eq_false, if_false, hw]
  rw [peek_next (b := UInt8.ofNat b.length) h (by omega)]
  simp [hbl]

/-- Fields that are not of variable length have size 0 (with a tag of at most 15). -/
theorem C46_size_zero_partial {p : PB} {tag : Nat} (h0 : 0 < tag) (h1 : tag ≤ 15) {v : Wire.Val}
    (hv : v.type ≠ 2) {rest : Bytes} (h : Ready p (Wire.field tag v ++ rest)) : p.peekSize = .ok 0 := by
  have ht : v.type < 8 := by cases v <;> simp [Wire.Val.type]
  unfold Wire.field at h
  rw [key_small h0 h1 ht] at h
  have hb : (UInt8.ofNat (tag * 8 + v.type)).toNat = tag * 8 + v.type := by
    rw [UInt8.toNat_ofNat', Nat.mod_eq_of_lt (by omega)]
  unfold peekSize
  rw [peek_one (b := UInt8.ofNat (tag * 8 + v.type)) h (by omega)]
  have hw : (UInt8.ofNat (tag * 8 + v.type)).toUInt64 &&& 7 ≠ UInt64.ofNat wireDelim := by
    intro hw
    have hw := congrArg UInt64.toNat hw
    rw [UInt64.toNat_and, UInt8.toNat_toUInt64, hb] at hw
    have := Nat.and_two_pow_sub_one_eq_mod (tag * 8 + v.type) 3
    rw [show (7 : UInt64).toNat = 2 ^ 3 - 1 from rfl, this] at hw
    have hw' : (tag * 8 + v.type) % 2 ^ 3 = 2 := hw
    omega
  simp only [Out.bind_ok, ne_eq, not_true_eq_false, if_false]
  rw [if_pos hw]
  rfl

example : Ready (prepareInput (Wire.field 15 (.delim (List.replicate 127 1)))) (Wire.field 15 (.delim (List.replicate 127 1)) ++ [])
    ∧ (prepareInput (Wire.field 15 (.delim (List.replicate 127 1)))).peekSize = .ok 127 :=
  ⟨by rw [List.append_nil]; exact prepareInput_ready _, by decide +kernel⟩

/-- **C46**, what is reported if there is nothing to report: after an error, without data, at the end of the
data, and if the data end after a key (of a tag up to 15), tag or size are 0. -/
theorem C46_nothing {p : PB} :
    (p.err ≠ .none ∨ p.data = none ∨ p.size ≤ p.posn → p.peekTag = .ok 0 ∧ p.peekSize = .ok 0) ∧
    (∀ tag, 0 < tag → tag ≤ 15 → Ready p (Wire.key tag 2) → p.size = p.posn + 1 → p.peekSize = .ok 0) := by
  constructor
  · intro h
    have hv : ∃ e v l, e ≠ Err.none ∧ p.peekVarint 0 = .ok (e, v, l) := by
      unfold peekVarint
      cases hd : p.data with
      | none => exact ⟨_, _, _, by decide, rfl⟩
      | some d =>
        dsimp only
        by_cases he : p.err ≠ .none
        · rw [if_pos he]
          exact ⟨_, _, _, he, rfl⟩
        · rw [if_neg he, if_pos (by simp only [hd, reduceCtorEq, false_or] at h; have := h.resolve_left he; omega)]
          exact ⟨_, _, _, by decide, rfl⟩
    obtain ⟨e, v, l, he, hv⟩ := hv
    unfold peekTag peekSize
    rw [hv, Out.bind_ok, Out.bind_ok]
    dsimp only
    rw [if_pos he, if_pos he]
    exact ⟨rfl, rfl⟩
  · intro tag h0 h1 h hs
    rw [key_small h0 h1 (type := 2) (by omega)] at h
    have hb : (UInt8.ofNat (tag * 8 + 2)).toNat = tag * 8 + 2 := by
      rw [UInt8.toNat_ofNat', Nat.mod_eq_of_lt (by omega)]
    unfold peekSize
    rw [peek_one h (by omega), Out.bind_ok]
    dsimp only
    obtain ⟨d, hd, -⟩ := h.data
    have hp : p.peekVarint 1 = .ok (.invalidFormat, 0, 1) := by
      unfold peekVarint
      rw [hd]
      dsimp only
      rw [if_neg (by simpa using h.err), if_pos (by omega)]
    rw [hp, Out.bind_ok]
    dsimp only
    rw [if_neg (by simp), if_pos (c := Err.invalidFormat ≠ .none) (by simp)]
    split <;> rfl

example : Ready (prepareInput [10]) (Wire.key 1 2) ∧ (prepareInput [10]).size = (prepareInput [10]).posn + 1 := by
  have h : Wire.key 1 2 = [10] := by decide +kernel
  rw [h]; exact ⟨prepareInput_ready _, rfl⟩

/-! ## Negative tags -/

/-- **C49** does not hold: a negative tag is accepted as if it were 0 (the test on line 1219 is the wrong
way round), so that a value is read without checking its key. -/
theorem C49_fails : (prepareInput [8, 5]).readUInt32 (-1) = .ok (.none, (prepareInput [8, 5]).adv 1, 8) := by
  decide +kernel

/-- What the code does with a negative tag: without an error so far the check succeeds and consumes
nothing. -/
theorem C49_accepted {p : PB} {tag : Int} (h : tag < 0) (he : p.err = .none) (type : Nat) :
    p.readTag tag type = .ok (.none, p) := by
  unfold readTag
  rw [if_neg (by omega), if_neg (by omega)]
  simp [he]

/-- What holds of **C49**: once there has been an error, a negative tag is rejected. -/
theorem C49_negative_tag_partial {p : PB} {tag : Int} (h : tag < 0) (he : p.err ≠ .none) (type : Nat) :
    p.readTag tag type = .ok (.invalidFormat, p.fail .invalidFormat) := by
  unfold readTag
  rw [if_neg (by omega), if_neg (by omega)]
  simp [he, fail]

example : ((prepareInput [8]).fail .invalidFormat).err ≠ .none := by simp [fail]

end PB
end Noise
