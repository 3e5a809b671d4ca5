import Verif.ProtobufRead
/-!
# Reading stays inside the input, and errors are final (C43)
-/

namespace Noise
namespace PB

/-- What a read call may do to the structure: the position moves forward inside the input; after an error
nothing moves and the call fails; an error is recorded. -/
structure Moved (p q : PB) (e : Err) : Prop where
  inv : q.Inv
  data : q.data = p.data
  size : q.size = p.size
  posn : p.posn ≤ q.posn
  sticky : p.err ≠ .none → e ≠ .none ∧ q.posn = p.posn ∧ q.err ≠ .none
  code : p.err = .none → e = q.err

theorem Moved.refl {p : PB} (h : p.Inv) : Moved p p p.err :=
  ⟨h, rfl, rfl, Nat.le_refl _, fun h => ⟨h, rfl, h⟩, fun _ => rfl⟩

theorem Moved.fail {p : PB} (h : p.Inv) {e : Err} (he : e ≠ .none) : Moved p (p.fail e) e :=
  ⟨⟨h.posn, h.size⟩, rfl, rfl, Nat.le_refl _, fun _ => ⟨he, rfl, he⟩, fun _ => rfl⟩

theorem Moved.adv {p : PB} (h : p.Inv) (he : p.err = .none) {n : Nat} (hn : n ≤ p.size - p.posn) :
    Moved p (p.adv n) .none := by
  have := h.posn
  exact ⟨⟨by simp only [adv_posn, adv_size]; omega, h.size⟩, rfl, rfl, by simp, fun h => absurd he h,
    fun _ => he.symm⟩

theorem Moved.ok {p q : PB} (h : Moved p q .none) : p.err = .none ∧ q.err = .none := by
  have hp : p.err = .none := by
    by_cases hp : p.err = .none
    · exact hp
    · exact absurd rfl (h.sticky hp).1
  exact ⟨hp, (h.code hp).symm⟩

theorem Moved.trans {p q r : PB} {e : Err} (h1 : Moved p q .none) (h2 : Moved q r e) : Moved p r e := by
  obtain ⟨hp, hq⟩ := h1.ok
  exact ⟨h2.inv, h2.data.trans h1.data, h2.size.trans h1.size, Nat.le_trans h1.posn h2.posn,
    fun h => absurd hp h, fun _ => h2.code hq⟩

/-- A call with a value. -/
def Reads (p : PB) {α : Type} (f : Out (Err × PB × α)) (P : Err → α → Prop) : Prop :=
  ∃ e q v, f = .ok (e, q, v) ∧ Moved p q e ∧ P e v

/-- Sequencing of `err = f; if (err != NOISE_ERROR_NONE) return err; g`. -/
theorem Reads.bind {p : PB} {α β : Type} {f : Out (Err × PB × α)} {P : Err → α → Prop} {Q : Err → β → Prop}
    {g : Err × PB × α → Out (Err × PB × β)} {z : β}
    (h : Reads p f P)
    (hbad : ∀ e q v, e ≠ .none → g (e, q, v) = .ok (e, q, z)) (hz : ∀ e, e ≠ .none → Q e z)
    (hgood : ∀ q v, Moved p q .none → P .none v → Reads q (g (.none, q, v)) Q) : Reads p (f >>= g) Q := by
  obtain ⟨e, q, v, hf, hm, hP⟩ := h
  rw [hf]
  simp only [Out.bind_ok]
  by_cases he : e = .none
  · subst he
    obtain ⟨e', r, v', hg, hm', hQ⟩ := hgood q v hm hP
    exact ⟨e', r, v', hg, hm.trans hm', hQ⟩
  · rw [hbad e q v he]
    exact ⟨e, q, z, rfl, hm, hz e he⟩

/-- The structure has an input. -/
def Input (p : PB) : Prop := p.Inv ∧ ∃ d, p.data = some d

theorem Moved.input {p q : PB} {e : Err} (hp : Input p) (h : Moved p q e) : Input q := by
  obtain ⟨d, hd⟩ := hp.2
  exact ⟨h.inv, d, by rw [h.data, hd]⟩

theorem Input.ready {p : PB} (h : Input p) (he : p.err = .none) : ∃ rest, Ready p rest := by
  obtain ⟨hi, d, hd⟩ := h
  exact ⟨_, hi, he, d, hd, rfl⟩

theorem readVarint_reads {p : PB} (h : Input p) : Reads p p.readVarint (fun _ _ => True) := by
  by_cases he : p.err = .none
  · obtain ⟨rest, hr⟩ := h.ready he
    have hroom := hr.room
    obtain ⟨a, b⟩ := readVarint_eq hr
    cases hd : Wire.decode 10 rest with
    | none =>
      obtain ⟨k, w, hk, heq⟩ := b hd
      refine ⟨_, _, _, heq, (Moved.adv h.1 he (by omega)).trans (Moved.fail ?_ (by simp)), trivial⟩
      exact (Moved.adv h.1 he (by omega)).inv
    | some x =>
      obtain ⟨v, l⟩ := x
      have := (Wire.decode_length hd).1
      exact ⟨_, _, _, a v l hd, Moved.adv h.1 he (by omega), trivial⟩
  · obtain ⟨d, hd⟩ := h.2
    refine ⟨p.err, p, 0, ?_, Moved.refl h.1, trivial⟩
    unfold readVarint
    rw [hd]
    simp only [he, ne_eq, not_false_eq_true, if_true]

theorem readTag_moved {p : PB} (h : Input p) (tag : Int) (type : Nat) :
    ∃ e q, p.readTag tag type = .ok (e, q) ∧ Moved p q e := by
  unfold readTag
  by_cases ht : tag > 0
  · rw [if_pos ht]
    obtain ⟨e, q, v, hv, hm, -⟩ := readVarint_reads h
    rw [hv]
    simp only [Out.bind_ok]
    by_cases he : e = .none
    · subst he
      simp only [if_true]
      by_cases ha : tagWord tag type = v
      · exact ⟨.none, q, by simp [ha], hm⟩
      · exact ⟨.invalidFormat, q.fail .invalidFormat, by simp [ha], hm.trans (Moved.fail hm.inv (by simp))⟩
    · rw [if_neg he]
      exact ⟨_, _, rfl, hm⟩
  · rw [if_neg ht]
    split
    · exact ⟨_, _, rfl, Moved.refl h.1⟩
    · by_cases he : p.err = .none
      · simp only [he, ne_eq, not_true_eq_false, if_false]
        exact ⟨_, _, rfl, he ▸ Moved.refl h.1⟩
      · simp only [he, ne_eq, not_false_eq_true, if_true]
        exact ⟨_, _, rfl, Moved.fail h.1 (by simp)⟩

theorem readSpace_reads {p : PB} (h : Input p) (n : Nat) :
    Reads p (p.readSpace n) (fun e v => e = .none → v.length = n) := by
  obtain ⟨hi, d, hd⟩ := h
  have h1 := hi.posn
  have h2 := hi.size d hd
  have hm : ∀ k, (⟨some d, p.size, p.posn + k, p.err⟩ : PB) = p.adv k := by intro k; simp [PB.adv, hd]
  unfold readSpace
  rw [hd]
  simp only
  by_cases he : p.err = .none
  · rw [if_neg (by simpa using he)]
    by_cases hn : n > p.size - p.posn
    · rw [if_pos hn]
      exact ⟨_, _, _, rfl, Moved.fail hi (by simp), by simp⟩
    · rw [if_neg hn, load_ok (by omega)]
      simp only [Out.bind_ok, Out.pure_eq, hm]
      refine ⟨_, _, _, rfl, Moved.adv hi he (by omega), fun _ => ?_⟩
      simp; omega
  · rw [if_pos he]
    exact ⟨_, _, _, rfl, Moved.refl hi, fun h => absurd h he⟩

/-- A tag check followed by something else. -/
theorem tag_reads {p : PB} (h : Input p) (tag : Int) (type : Nat) {β : Type} {Q : Err → β → Prop}
    {g : Err × PB → Out (Err × PB × β)} {z : β}
    (hbad : ∀ e q, e ≠ .none → g (e, q) = .ok (e, q, z)) (hz : ∀ e, e ≠ .none → Q e z)
    (hgood : ∀ q, Moved p q .none → Reads q (g (.none, q)) Q) : Reads p (p.readTag tag type >>= g) Q := by
  obtain ⟨e, q, hf, hm⟩ := readTag_moved h tag type
  rw [hf]
  simp only [Out.bind_ok]
  by_cases he : e = .none
  · subst he
    obtain ⟨e', r, v', hg, hm', hQ⟩ := hgood q hm
    exact ⟨e', r, v', hg, hm.trans hm', hQ⟩
  · rw [hbad e q he]
    exact ⟨e, q, z, rfl, hm, hz e he⟩

theorem Reads.pure {p : PB} (h : p.Inv) {α : Type} {v : α} {Q : Err → α → Prop} (he : p.err = .none)
    (hQ : Q .none v) : Reads p (.ok (.none, p, v)) Q := ⟨_, _, _, rfl, he ▸ Moved.refl h, hQ⟩

theorem Reads.err {p : PB} (h : p.Inv) {α : Type} {v : α} {Q : Err → α → Prop} {e : Err} (he : e ≠ .none)
    (hQ : Q e v) : Reads p (.ok (e, p.fail e, v)) Q := ⟨_, _, _, rfl, Moved.fail h he, hQ⟩

/-- The value is `z` if there was an error. -/
def ZeroOnError {α : Type} (z : α) (e : Err) (v : α) : Prop := e ≠ .none → v = z

theorem readInteger_reads {p : PB} (h : Input p) (tag : Int) :
    Reads p (p.readInteger tag) (fun _ _ => True) := by
  unfold readInteger
  refine tag_reads h tag wireVarint (z := 0) ?_ (fun _ _ => trivial) ?_
  · intro e q he; simp [he]
  · intro q hm
    simp only [ne_eq, not_true_eq_false, if_false]
    exact readVarint_reads (hm.input h)

/-- All read calls for integers. -/
theorem integer_reads {p : PB} (h : Input p) (tag : Int) {α : Type} (z : α) (f : UInt64 → α) :
    Reads p (p.readInteger tag >>= fun x => if x.1 ≠ .none then pure (x.1, x.2.1, z) else
      pure (.none, x.2.1, f x.2.2)) (ZeroOnError z) := by
  refine Reads.bind (readInteger_reads h tag) (z := z) ?_ (fun _ _ _ => rfl) ?_
  · intro e q v he; simp [he]
  · intro q v hm _
    simp only [ne_eq, not_true_eq_false, if_false]
    exact Reads.pure hm.inv hm.ok.2 (fun h => absurd rfl h)

theorem readInt32_reads {p : PB} (h : Input p) (tag : Int) : Reads p (p.readInt32 tag) (ZeroOnError 0) :=
  integer_reads h tag 0 (fun v => v.toUInt32.toInt32)
theorem readUInt32_reads {p : PB} (h : Input p) (tag : Int) : Reads p (p.readUInt32 tag) (ZeroOnError 0) :=
  integer_reads h tag 0 _
theorem readInt64_reads {p : PB} (h : Input p) (tag : Int) : Reads p (p.readInt64 tag) (ZeroOnError 0) :=
  integer_reads h tag 0 _
theorem readUInt64_reads {p : PB} (h : Input p) (tag : Int) : Reads p (p.readUInt64 tag) (ZeroOnError 0) :=
  integer_reads h tag 0 (fun v => v)
theorem readSInt32_reads {p : PB} (h : Input p) (tag : Int) : Reads p (p.readSInt32 tag) (ZeroOnError 0) :=
  integer_reads h tag 0 _
theorem readSInt64_reads {p : PB} (h : Input p) (tag : Int) : Reads p (p.readSInt64 tag) (ZeroOnError 0) :=
  integer_reads h tag 0 _
theorem readBool_reads {p : PB} (h : Input p) (tag : Int) : Reads p (p.readBool tag) (ZeroOnError 0) :=
  integer_reads h tag 0 (fun v => if v ≠ 0 then 1 else 0)

theorem unle32_ok {b : Bytes} (h : b.length = 4) : ∃ v, unle32 b = .ok v := by
  match b, h with
  | [_, _, _, _], _ => exact ⟨_, rfl⟩

theorem unle64_ok {b : Bytes} (h : b.length = 8) : ∃ v, unle64 b = .ok v := by
  match b, h with
  | [_, _, _, _, _, _, _, _], _ => exact ⟨_, rfl⟩

theorem readFixed32_reads {p : PB} (h : Input p) (tag : Int) :
    Reads p (p.readFixed32 tag) (ZeroOnError 0) := by
  unfold readFixed32
  refine tag_reads h tag wire32 (z := 0) ?_ (fun _ _ _ => rfl) ?_
  · intro e q he; simp [he]
  · intro q hm
    simp only [ne_eq, not_true_eq_false, if_false]
    refine Reads.bind (readSpace_reads (hm.input h) 4) (z := 0) ?_ (fun _ _ _ => rfl) ?_
    · intro e q v he; simp [he]
    · intro r v hr hv
      obtain ⟨x, hx⟩ := unle32_ok (hv rfl)
      simp only [not_true_eq_false, if_false, hx, Out.bind_ok, Out.pure_eq]
      exact Reads.pure hr.inv hr.ok.2 (fun h => absurd rfl h)

theorem readFixed64_reads {p : PB} (h : Input p) (tag : Int) :
    Reads p (p.readFixed64 tag) (ZeroOnError 0) := by
  unfold readFixed64
  refine tag_reads h tag wire64 (z := 0) ?_ (fun _ _ _ => rfl) ?_
  · intro e q he; simp [he]
  · intro q hm
    simp only [ne_eq, not_true_eq_false, if_false]
    refine Reads.bind (readSpace_reads (hm.input h) 8) (z := 0) ?_ (fun _ _ _ => rfl) ?_
    · intro e q v he; simp [he]
    · intro r v hr hv
      obtain ⟨x, hx⟩ := unle64_ok (hv rfl)
      simp only [not_true_eq_false, if_false, hx, Out.bind_ok, Out.pure_eq]
      exact Reads.pure hr.inv hr.ok.2 (fun h => absurd rfl h)

theorem readSFixed32_reads {p : PB} (h : Input p) (tag : Int) :
    Reads p (p.readSFixed32 tag) (ZeroOnError 0) := by
  obtain ⟨e, q, v, hf, hm, hz⟩ := readFixed32_reads h tag
  exact ⟨e, q, v.toInt32, by simp [readSFixed32, hf], hm, fun he => by rw [hz he]; rfl⟩
theorem readSFixed64_reads {p : PB} (h : Input p) (tag : Int) :
    Reads p (p.readSFixed64 tag) (ZeroOnError 0) := by
  obtain ⟨e, q, v, hf, hm, hz⟩ := readFixed64_reads h tag
  exact ⟨e, q, v.toInt64, by simp [readSFixed64, hf], hm, fun he => by rw [hz he]; rfl⟩
theorem readFloat_reads {p : PB} (h : Input p) (tag : Int) : Reads p (p.readFloat tag) (ZeroOnError 0) := by
  obtain ⟨e, q, v, hf, hm, hz⟩ := readFixed32_reads h tag
  exact ⟨e, q, _, by simp only [readFloat, hf, Out.bind_ok]; rfl, hm, fun he => by rw [if_neg he]⟩
theorem readDouble_reads {p : PB} (h : Input p) (tag : Int) : Reads p (p.readDouble tag) (ZeroOnError 0) := by
  obtain ⟨e, q, v, hf, hm, hz⟩ := readFixed64_reads h tag
  exact ⟨e, q, _, by simp only [readDouble, hf, Out.bind_ok]; rfl, hm, fun he => by rw [if_neg he]⟩

/-- Byte strings: on error the memory is unchanged and the size 0; the memory never changes its size. -/
theorem readBytes_reads {p : PB} (h : Input p) (tag : Int) (mem : Bytes) :
    Reads p (p.readBytes tag mem) (fun e v => ZeroOnError (mem, 0) e v ∧ v.1.length = mem.length) := by
  unfold readBytes
  refine tag_reads h tag wireDelim (z := (mem, 0)) ?_ (fun _ _ => ⟨fun _ => rfl, rfl⟩) ?_
  · intro e q he; simp [he]
  · intro q hm
    simp only [ne_eq, not_true_eq_false, if_false]
    refine Reads.bind (readVarint_reads (hm.input h)) (z := (mem, 0)) ?_ (fun _ _ => ⟨fun _ => rfl, rfl⟩) ?_
    · intro e q v he; simp [he]
    · intro r v hr _
      simp only [not_true_eq_false, if_false]
      split
      · exact Reads.err hr.inv (by simp) ⟨fun _ => rfl, rfl⟩
      · refine Reads.bind (readSpace_reads (hr.input (hm.input h)) v.toNat) (z := (mem, 0)) ?_
          (fun _ _ => ⟨fun _ => rfl, rfl⟩) ?_
        · intro e q v he; simp [he]
        · intro s w hs hw
          have hlen := hw rfl
          simp only [not_true_eq_false, if_false]
          rw [store_ok (by omega)]
          simp only [Out.bind_ok, Out.pure_eq]
          refine Reads.pure hs.inv hs.ok.2 ⟨fun h => absurd rfl h, ?_⟩
          simp; omega

/-- Byte strings in new memory: none on error. -/
theorem readAllocBytes_reads {p : PB} (h : Input p) (tag : Int) (max : Nat) (m : Bool) :
    Reads p (p.readAllocBytes tag max m) (ZeroOnError (none, 0)) := by
  unfold readAllocBytes
  refine tag_reads h tag wireDelim (z := (none, 0)) ?_ (fun _ _ _ => rfl) ?_
  · intro e q he; simp [he]
  · intro q hm
    simp only [ne_eq, not_true_eq_false, if_false]
    refine Reads.bind (readVarint_reads (hm.input h)) (z := (none, 0)) ?_ (fun _ _ _ => rfl) ?_
    · intro e q v he; simp [he]
    · intro r v hr _
      simp only [not_true_eq_false, if_false]
      generalize (if max = 0 then r.size - r.posn else max) = mx
      split
      · exact Reads.err hr.inv (by simp) (fun _ => rfl)
      · refine Reads.bind (readSpace_reads (hr.input (hm.input h)) v.toNat) (z := (none, 0)) ?_
          (fun _ _ _ => rfl) ?_
        · intro e q v he; simp [he]
        · intro s w hs hw
          simp only [not_true_eq_false, if_false]
          split
          · exact Reads.err hs.inv (by simp) (fun _ => rfl)
          · exact Reads.pure hs.inv hs.ok.2 (fun h => absurd rfl h)

/-- Strings in new memory: none on error. -/
theorem readAllocString_reads {p : PB} (h : Input p) (tag : Int) (max : Nat) (m : Bool) :
    Reads p (p.readAllocString tag max m) (ZeroOnError (none, 0)) := by
  unfold readAllocString
  refine tag_reads h tag wireDelim (z := (none, 0)) ?_ (fun _ _ _ => rfl) ?_
  · intro e q he; simp [he]
  · intro q hm
    simp only [ne_eq, not_true_eq_false, if_false]
    refine Reads.bind (readVarint_reads (hm.input h)) (z := (none, 0)) ?_ (fun _ _ _ => rfl) ?_
    · intro e q v he; simp [he]
    · intro r v hr _
      simp only [not_true_eq_false, if_false]
      generalize (if max = 0 then r.size - r.posn else max) = mx
      split
      · exact Reads.err hr.inv (by simp) (fun _ => rfl)
      · refine Reads.bind (readSpace_reads (hr.input (hm.input h)) v.toNat) (z := (none, 0)) ?_
          (fun _ _ _ => rfl) ?_
        · intro e q v he; simp [he]
        · intro s w hs hw
          have hlen := hw rfl
          simp only [not_true_eq_false, if_false]
          obtain ⟨b, hb⟩ := isUtf8_ok v.toNat w (by omega)
          rw [hb]
          simp only [Out.bind_ok]
          split
          · exact Reads.err hs.inv (by simp) (fun _ => rfl)
          split
          · exact Reads.err hs.inv (by simp) (fun _ => rfl)
          · exact Reads.pure hs.inv hs.ok.2 (fun h => absurd rfl h)

/-- Strings: on error the memory holds an empty string and the size is 0; the rest of the memory is
unchanged. -/
theorem readString_reads {p : PB} (h : Input p) (tag : Int) (mem : Bytes) (hmem : mem ≠ []) :
    Reads p (p.readString tag mem)
      (fun e v => ZeroOnError (0 :: mem.drop 1, 0) e v ∧ v.1.length = mem.length) := by
  have hl : 0 < mem.length := List.length_pos_iff.2 hmem
  unfold readString
  have hs : store mem 0 [0] = .ok (0 :: mem.drop 1) := by
    rw [store_ok (by simp; omega)]; simp
  rw [if_neg (by omega), hs]
  simp only [Out.bind_ok]
  have hl' : (0 :: mem.drop 1).length = mem.length := by simp; omega
  generalize hm0 : (0 :: mem.drop 1 : Bytes) = mem' at *
  have hz : ∀ e, e ≠ .none → ZeroOnError (mem', 0) e (mem', 0) ∧ mem'.length = mem.length :=
    fun _ _ => ⟨fun _ => rfl, hl'⟩
  refine tag_reads h tag wireDelim (z := (mem', 0)) ?_ hz ?_
  · intro e q he; simp [he]
  · intro q hm
    simp only [ne_eq, not_true_eq_false, if_false]
    refine Reads.bind (readVarint_reads (hm.input h)) (z := (mem', 0)) ?_ hz ?_
    · intro e q v he; simp [he]
    · intro r v hr _
      simp only [not_true_eq_false, if_false]
      split
      · exact Reads.err hr.inv (by simp) (hz _ (by simp))
      · refine Reads.bind (readSpace_reads (hr.input (hm.input h)) v.toNat) (z := (mem', 0)) ?_ hz ?_
        · intro e q v he; simp [he]
        · intro s w hs hw
          have hlen := hw rfl
          simp only [not_true_eq_false, if_false]
          obtain ⟨b, hb⟩ := isUtf8_ok v.toNat w (by omega)
          rw [hb]
          simp only [Out.bind_ok]
          split
          · exact Reads.err hs.inv (by simp) (hz _ (by simp))
          · rw [store_ok (by omega)]
            simp only [Out.bind_ok]
            rw [store_ok (by simp; omega)]
            simp only [Out.bind_ok, Out.pure_eq]
            refine Reads.pure hs.inv hs.ok.2 ⟨fun h => absurd rfl h, ?_⟩
            simp; omega

theorem readStartElement_reads {p : PB} (h : Input p) (tag : Int) :
    Reads p (p.readStartElement tag) (fun e v => (e ≠ .none → v = 0) ∧ v ≤ p.size) := by
  unfold readStartElement
  refine tag_reads h tag wireDelim (z := 0) ?_ (fun _ _ => ⟨fun _ => rfl, Nat.zero_le _⟩) ?_
  · intro e q he; simp [he]
  · intro q hm
    simp only [ne_eq, not_true_eq_false, if_false]
    split
    · refine Reads.bind (readVarint_reads (hm.input h)) (z := 0) ?_ (fun _ _ => ⟨fun _ => rfl, Nat.zero_le _⟩) ?_
      · intro e q v he; simp [he]
      · intro r v hr _
        simp only [not_true_eq_false, if_false]
        have h1 := hr.size
        have h2 := hm.size
        have h3 := hr.inv.posn
        split
        · exact Reads.err hr.inv (by simp) ⟨fun _ => rfl, Nat.zero_le _⟩
        · exact Reads.pure hr.inv hr.ok.2 ⟨fun h => absurd rfl h, by omega⟩
    · exact Reads.pure hm.inv hm.ok.2 ⟨fun h => absurd rfl h, by rw [hm.size]; exact Nat.le_refl _⟩

/-- The part of a `Reads` without the value. -/
theorem Reads.drop {p : PB} {α : Type} {f : Out (Err × PB × α)} {P : Err → α → Prop} (h : Reads p f P) :
    ∃ e q, (f >>= fun x => Out.ok (x.1, x.2.1)) = .ok (e, q) ∧ Moved p q e := by
  obtain ⟨e, q, v, hf, hm, -⟩ := h
  exact ⟨e, q, by rw [hf]; rfl, hm⟩

theorem readSkip_moved {p : PB} (h : Input p) : ∃ e q, p.readSkip = .ok (e, q) ∧ Moved p q e := by
  unfold readSkip
  obtain ⟨e, q, v, hv, hm, -⟩ := readVarint_reads h
  rw [hv]
  simp only [Out.bind_ok]
  by_cases he : e = .none
  · subst he
    simp only [ne_eq, not_true_eq_false, if_false]
    have hq := hm.input h
    split
    · obtain ⟨e, r, hr, hmr⟩ := (readVarint_reads hq).drop
      exact ⟨e, r, hr, hm.trans hmr⟩
    split
    · obtain ⟨e, r, hr, hmr⟩ := (readSpace_reads hq 8).drop
      exact ⟨e, r, hr, hm.trans hmr⟩
    split
    · obtain ⟨e, r, v, hr, hmr, -⟩ := readVarint_reads hq
      rw [hr]
      simp only [Out.bind_ok]
      by_cases he : e = .none
      · subst he
        rw [if_pos rfl]
        split
        · next hle => exact ⟨_, _, rfl, hm.trans (hmr.trans (Moved.adv hmr.inv hmr.ok.2 hle))⟩
        · exact ⟨_, _, rfl, hm.trans (hmr.trans (Moved.fail hmr.inv (by simp)))⟩
      · rw [if_neg he]
        exact ⟨_, _, rfl, hm.trans hmr⟩
    split
    · obtain ⟨e, r, hr, hmr⟩ := (readSpace_reads hq 4).drop
      exact ⟨e, r, hr, hm.trans hmr⟩
    · exact ⟨_, _, rfl, hm.trans (Moved.fail hm.inv (by simp))⟩
  · rw [if_pos he]
    exact ⟨_, _, rfl, hm⟩

/-! ## Peeking -/

theorem peekLoop_ok {p : PB} {d : Bytes} (hd : d.length = p.size) (n s : Nat) (v : UInt64) (posn len : Nat) :
    ∃ x, peekLoop p d n s v posn len = .ok x := by
  induction n generalizing s v posn len with
  | zero => exact ⟨_, rfl⟩
  | succ n ih =>
    unfold peekLoop
    split
    · exact ⟨_, rfl⟩
    · have : ∃ b, byteAt d posn = .ok b := by
        unfold byteAt
        rw [List.getElem?_eq_getElem (by omega)]
        exact ⟨_, rfl⟩
      obtain ⟨b, hb⟩ := this
      rw [hb]
      simp only [Out.bind_ok]
      split
      · exact ⟨_, rfl⟩
      · exact ih _ _ _ _

theorem peekVarint_ok {p : PB} (h : p.Inv) (len : Nat) : ∃ x, p.peekVarint len = .ok x := by
  unfold peekVarint
  cases hd : p.data with
  | none => exact ⟨_, rfl⟩
  | some d =>
    have hl := h.size d hd
    simp only
    split
    · exact ⟨_, rfl⟩
    split
    · exact ⟨_, rfl⟩
    · have : ∃ b, byteAt d (p.posn + len) = .ok b := by
        unfold byteAt
        rw [List.getElem?_eq_getElem (by omega)]
        exact ⟨_, rfl⟩
      obtain ⟨b, hb⟩ := this
      rw [hb]
      simp only [Out.bind_ok]
      split
      · exact ⟨_, rfl⟩
      · exact peekLoop_ok hl _ _ _ _ _

theorem peekTag_ok {p : PB} (h : p.Inv) : ∃ x, p.peekTag = .ok x := by
  obtain ⟨⟨e, v, l⟩, hx⟩ := peekVarint_ok h 0
  unfold peekTag
  rw [hx]
  simp only [Out.bind_ok]
  split
  · exact ⟨_, rfl⟩
  · split <;> exact ⟨_, rfl⟩

theorem peekSize_ok {p : PB} (h : p.Inv) : ∃ x, p.peekSize = .ok x := by
  obtain ⟨⟨e, v, l⟩, hx⟩ := peekVarint_ok h 0
  unfold peekSize
  rw [hx]
  simp only [Out.bind_ok]
  split
  · exact ⟨_, rfl⟩
  split
  · exact ⟨_, rfl⟩
  · obtain ⟨⟨e', v', l'⟩, hx'⟩ := peekVarint_ok h l
    rw [hx']
    simp only [Out.bind_ok]
    split <;> exact ⟨_, rfl⟩

/-! ## Sequences of calls -/

/-- The calls that read, with all their arguments (`mem` is the caller's memory; the flags say whether
an allocation succeeds). -/
inductive ROp
  | int32 (tag : Int) | uint32 (tag : Int) | int64 (tag : Int) | uint64 (tag : Int)
  | sint32 (tag : Int) | sint64 (tag : Int) | sfixed32 (tag : Int) | fixed32 (tag : Int)
  | sfixed64 (tag : Int) | fixed64 (tag : Int) | float (tag : Int) | double (tag : Int) | bool (tag : Int)
  | string (tag : Int) (mem : Bytes) | allocString (tag : Int) (max : Nat) (malloc : Bool)
  | bytes (tag : Int) (mem : Bytes) | allocBytes (tag : Int) (max : Nat) (malloc : Bool)
  | startElement (tag : Int) | endElement (endPosn : Nat) | stop | skip | peekTag | peekSize | finish

/-- One call: its code and the structure. The two peek functions have no code; that of the structure is
used. -/
def ROp.step (p : PB) : ROp → Out (Err × PB)
  | .int32 tag => p.readInt32 tag >>= fun x => pure (x.1, x.2.1)
  | .uint32 tag => p.readUInt32 tag >>= fun x => pure (x.1, x.2.1)
  | .int64 tag => p.readInt64 tag >>= fun x => pure (x.1, x.2.1)
  | .uint64 tag => p.readUInt64 tag >>= fun x => pure (x.1, x.2.1)
  | .sint32 tag => p.readSInt32 tag >>= fun x => pure (x.1, x.2.1)
  | .sint64 tag => p.readSInt64 tag >>= fun x => pure (x.1, x.2.1)
  | .sfixed32 tag => p.readSFixed32 tag >>= fun x => pure (x.1, x.2.1)
  | .fixed32 tag => p.readFixed32 tag >>= fun x => pure (x.1, x.2.1)
  | .sfixed64 tag => p.readSFixed64 tag >>= fun x => pure (x.1, x.2.1)
  | .fixed64 tag => p.readFixed64 tag >>= fun x => pure (x.1, x.2.1)
  | .float tag => p.readFloat tag >>= fun x => pure (x.1, x.2.1)
  | .double tag => p.readDouble tag >>= fun x => pure (x.1, x.2.1)
  | .bool tag => p.readBool tag >>= fun x => pure (x.1, x.2.1)
  | .string tag mem => p.readString tag mem >>= fun x => pure (x.1, x.2.1)
  | .allocString tag max m => p.readAllocString tag max m >>= fun x => pure (x.1, x.2.1)
  | .bytes tag mem => p.readBytes tag mem >>= fun x => pure (x.1, x.2.1)
  | .allocBytes tag max m => p.readAllocBytes tag max m >>= fun x => pure (x.1, x.2.1)
  | .startElement tag => p.readStartElement tag >>= fun x => pure (x.1, x.2.1)
  | .endElement e => .ok (p.readEndElement e)
  | .stop => .ok p.readStop
  | .skip => p.readSkip
  | .peekTag => p.peekTag >>= fun _ => pure (p.err, p)
  | .peekSize => p.peekSize >>= fun _ => pure (p.err, p)
  | .finish => .ok p.finishInput

/-- A sequence of calls, with their codes. -/
def ROp.run : PB → List ROp → Out (List Err × PB)
  | p, [] => .ok ([], p)
  | p, op :: ops => do
    let (e, q) ← op.step p
    let (es, r) ← ROp.run q ops
    pure (e :: es, r)

/-- Strings are read into memory of at least one byte; otherwise the call is refused (see
`C43_empty_memory`). -/
def ROp.Fits : ROp → Prop
  | .string _ mem => mem ≠ []
  | _ => True

theorem ROp.step_moved {p : PB} (h : Input p) (op : ROp) (hf : op.Fits) :
    ∃ e q, op.step p = .ok (e, q) ∧ Moved p q e := by
  cases op with
  | int32 tag => exact (readInt32_reads h tag).drop
  | uint32 tag => exact (readUInt32_reads h tag).drop
  | int64 tag => exact (readInt64_reads h tag).drop
  | uint64 tag => exact (readUInt64_reads h tag).drop
  | sint32 tag => exact (readSInt32_reads h tag).drop
  | sint64 tag => exact (readSInt64_reads h tag).drop
  | sfixed32 tag => exact (readSFixed32_reads h tag).drop
  | fixed32 tag => exact (readFixed32_reads h tag).drop
  | sfixed64 tag => exact (readSFixed64_reads h tag).drop
  | fixed64 tag => exact (readFixed64_reads h tag).drop
  | float tag => exact (readFloat_reads h tag).drop
  | double tag => exact (readDouble_reads h tag).drop
  | bool tag => exact (readBool_reads h tag).drop
  | string tag mem => exact (readString_reads h tag mem hf).drop
  | allocString tag max m => exact (readAllocString_reads h tag max m).drop
  | bytes tag mem => exact (readBytes_reads h tag mem).drop
  | allocBytes tag max m => exact (readAllocBytes_reads h tag max m).drop
  | startElement tag => exact (readStartElement_reads h tag).drop
  | endElement e =>
    simp only [ROp.step, readEndElement]
    split
    · exact ⟨_, _, rfl, Moved.refl h.1⟩
    · next he =>
      split
      · exact ⟨_, _, rfl, Moved.fail h.1 (by simp)⟩
      · have he' : p.err = .none := by simpa using he
        exact ⟨_, _, rfl, he' ▸ Moved.refl h.1⟩
  | stop =>
    simp only [ROp.step, readStop]
    split
    · exact ⟨_, _, rfl, Moved.fail h.1 (by simp)⟩
    · exact ⟨_, _, rfl, Moved.refl h.1⟩
  | skip => exact readSkip_moved h
  | peekTag =>
    obtain ⟨x, hx⟩ := peekTag_ok h.1
    exact ⟨_, _, by simp only [ROp.step, hx]; rfl, Moved.refl h.1⟩
  | peekSize =>
    obtain ⟨x, hx⟩ := peekSize_ok h.1
    exact ⟨_, _, by simp only [ROp.step, hx]; rfl, Moved.refl h.1⟩
  | finish =>
    simp only [ROp.step, finishInput]
    split
    · exact ⟨_, _, rfl, Moved.refl h.1⟩
    · next he =>
      split
      · exact ⟨_, _, rfl, Moved.fail h.1 (by simp)⟩
      · have he' : p.err = .none := by simpa using he
        exact ⟨_, _, rfl, he' ▸ Moved.refl h.1⟩

/-- **C43**, one call, from any state of a structure with an input: no undefined behaviour (no byte
outside the input is read), the position stays inside the input and does not decrease, an error is
recorded, and after an error the call fails and the position stays. -/
theorem C43_call_safe {p : PB} (h : Input p) (op : ROp) (hf : op.Fits) :
    ∃ e q, op.step p = .ok (e, q) ∧ Input q ∧ q.data = p.data ∧ q.size = p.size ∧
      p.posn ≤ q.posn ∧ q.posn ≤ q.size ∧
      (p.err = .none → e = q.err) ∧ (p.err ≠ .none → e ≠ .none ∧ q.posn = p.posn ∧ q.err ≠ .none) := by
  obtain ⟨e, q, hs, hm⟩ := ROp.step_moved h op hf
  exact ⟨e, q, hs, hm.input h, hm.data, hm.size, hm.posn, hm.inv.posn, hm.code, hm.sticky⟩

theorem ROp.run_safe {p : PB} (h : Input p) (ops : List ROp) (hf : ∀ op ∈ ops, op.Fits) :
    ∃ es q, ROp.run p ops = .ok (es, q) ∧ Input q ∧ q.data = p.data ∧ q.size = p.size ∧ p.posn ≤ q.posn ∧
      q.posn ≤ q.size ∧ es.length = ops.length ∧
      (p.err ≠ .none → (∀ e ∈ es, e ≠ .none) ∧ q.posn = p.posn ∧ q.err ≠ .none) := by
  induction ops generalizing p with
  | nil => exact ⟨[], p, rfl, h, rfl, rfl, Nat.le_refl _, h.1.posn, rfl, fun he => ⟨by simp, rfl, he⟩⟩
  | cons op ops ih =>
    obtain ⟨e, q, hs, hm⟩ := ROp.step_moved h op (hf op (by simp))
    obtain ⟨es, r, hr, a1, a2, a3, a4, a5, a6, a7⟩ := ih (hm.input h) (fun o ho => hf o (by simp [ho]))
    refine ⟨e :: es, r, by simp [ROp.run, hs, hr], a1, a2.trans hm.data, a3.trans hm.size,
      Nat.le_trans hm.posn a4, a5, by simp [a6], fun he => ?_⟩
    obtain ⟨b1, b2, b3⟩ := hm.sticky he
    obtain ⟨c1, c2, c3⟩ := a7 b3
    refine ⟨?_, c2.trans b2, c3⟩
    intro e' he'
    rcases List.mem_cons.mp he' with rfl | he'
    · exact b1
    · exact c1 e' he'

/-- **C43**, any sequence of calls on any input. -/
theorem C43_reader_safe (d : Bytes) (ops : List ROp) (hf : ∀ op ∈ ops, op.Fits) :
    ∃ es q, ROp.run (prepareInput d) ops = .ok (es, q) ∧ q.data = some d ∧ q.size = d.length ∧
      q.posn ≤ d.length := by
  obtain ⟨es, q, h1, -, h2, h3, -, h5, -⟩ :=
    ROp.run_safe ⟨prepareInput_inv d, d, rfl⟩ ops hf
  exact ⟨es, q, h1, h2, h3, by rw [h3] at h5; exact h5⟩

/-- **C43**, errors are final: if a call in a sequence fails, every later call fails and the position
stays where the failing call left it. -/
theorem C43_errors_final (d : Bytes) (before : List ROp) (op : ROp) (after : List ROp)
    (hf : ∀ o ∈ before ++ op :: after, o.Fits) :
    ∃ es p e q es' r, ROp.run (prepareInput d) before = .ok (es, p) ∧ op.step p = .ok (e, q) ∧
      ROp.run q after = .ok (es', r) ∧
      (e ≠ .none → (∀ x ∈ es', x ≠ .none) ∧ r.posn = q.posn ∧ r.err ≠ .none) := by
  obtain ⟨es, p, h1, i1, -⟩ := ROp.run_safe (⟨prepareInput_inv d, d, rfl⟩ : Input (prepareInput d)) before
    (fun o ho => hf o (by simp [ho]))
  obtain ⟨e, q, h2, hm⟩ := ROp.step_moved i1 op (hf op (by simp))
  obtain ⟨es', r, h3, -, -, -, -, -, -, h4⟩ := ROp.run_safe (hm.input i1) after (fun o ho => hf o (by simp [ho]))
  refine ⟨es, p, e, q, es', r, h1, h2, h3, fun he => h4 ?_⟩
  by_cases hp : p.err = .none
  · rw [← hm.code hp]; exact he
  · exact (hm.sticky hp).2.2

/-- A string is never read into memory of no size: the call is refused and changes nothing. -/
theorem C43_empty_memory (p : PB) (tag : Int) : p.readString tag [] = .ok (.invalidParam, p, [], 0) := rfl

/-- **C42**, no partial results: a call that fails returns 0, or nothing. -/
theorem C42_zero_on_error {p : PB} (h : Input p) (tag : Int) :
    (∃ e q v, p.readInt32 tag = .ok (e, q, v) ∧ (e ≠ .none → v = 0)) ∧
    (∃ e q v, p.readUInt32 tag = .ok (e, q, v) ∧ (e ≠ .none → v = 0)) ∧
    (∃ e q v, p.readInt64 tag = .ok (e, q, v) ∧ (e ≠ .none → v = 0)) ∧
    (∃ e q v, p.readUInt64 tag = .ok (e, q, v) ∧ (e ≠ .none → v = 0)) ∧
    (∃ e q v, p.readSInt32 tag = .ok (e, q, v) ∧ (e ≠ .none → v = 0)) ∧
    (∃ e q v, p.readSInt64 tag = .ok (e, q, v) ∧ (e ≠ .none → v = 0)) ∧
    (∃ e q v, p.readBool tag = .ok (e, q, v) ∧ (e ≠ .none → v = 0)) ∧
    (∃ e q v, p.readFixed32 tag = .ok (e, q, v) ∧ (e ≠ .none → v = 0)) ∧
    (∃ e q v, p.readFixed64 tag = .ok (e, q, v) ∧ (e ≠ .none → v = 0)) ∧
    (∃ e q v, p.readSFixed32 tag = .ok (e, q, v) ∧ (e ≠ .none → v = 0)) ∧
    (∃ e q v, p.readSFixed64 tag = .ok (e, q, v) ∧ (e ≠ .none → v = 0)) ∧
    (∃ e q v, p.readFloat tag = .ok (e, q, v) ∧ (e ≠ .none → v = 0)) ∧
    (∃ e q v, p.readDouble tag = .ok (e, q, v) ∧ (e ≠ .none → v = 0)) ∧
    (∀ mem, ∃ e q m n, p.readBytes tag mem = .ok (e, q, m, n) ∧ (e ≠ .none → m = mem ∧ n = 0)) ∧
    (∀ mem, mem ≠ [] → ∃ e q m n, p.readString tag mem = .ok (e, q, m, n) ∧
      (e ≠ .none → m = 0 :: mem.drop 1 ∧ n = 0)) ∧
    (∀ max malloc, ∃ e q b n, p.readAllocBytes tag max malloc = .ok (e, q, b, n) ∧
      (e ≠ .none → b = none ∧ n = 0)) ∧
    (∀ max malloc, ∃ e q b n, p.readAllocString tag max malloc = .ok (e, q, b, n) ∧
      (e ≠ .none → b = none ∧ n = 0)) := by
  have key : ∀ {α : Type} {f : Out (Err × PB × α)} {z : α}, Reads p f (ZeroOnError z) →
      ∃ e q v, f = .ok (e, q, v) ∧ (e ≠ .none → v = z) := by
    intro α f z ⟨e, q, v, hf, _, hz⟩
    exact ⟨e, q, v, hf, hz⟩
  refine ⟨key (readInt32_reads h tag), key (readUInt32_reads h tag), key (readInt64_reads h tag),
    key (readUInt64_reads h tag), key (readSInt32_reads h tag), key (readSInt64_reads h tag),
    key (readBool_reads h tag), key (readFixed32_reads h tag), key (readFixed64_reads h tag),
    key (readSFixed32_reads h tag), key (readSFixed64_reads h tag), key (readFloat_reads h tag),
    key (readDouble_reads h tag), ?_, ?_, ?_, ?_⟩
  · intro mem
    obtain ⟨e, q, v, hf, -, hz, -⟩ := readBytes_reads h tag mem
    exact ⟨e, q, v.1, v.2, hf, fun he => Prod.mk.inj (hz he)⟩
  · intro mem hm
    obtain ⟨e, q, v, hf, -, hz, -⟩ := readString_reads h tag mem hm
    exact ⟨e, q, v.1, v.2, hf, fun he => Prod.mk.inj (hz he)⟩
  · intro max malloc
    obtain ⟨e, q, v, hf, -, hz⟩ := readAllocBytes_reads h tag max malloc
    exact ⟨e, q, v.1, v.2, hf, fun he => Prod.mk.inj (hz he)⟩
  · intro max malloc
    obtain ⟨e, q, v, hf, -, hz⟩ := readAllocString_reads h tag max malloc
    exact ⟨e, q, v.1, v.2, hf, fun he => Prod.mk.inj (hz he)⟩

/-- A sequence on a malformed input: the length of the byte string is larger than the input, so the second
call fails, and then all others do. -/
example : ROp.run (prepareInput [8, 5, 18, 200, 1, 7]) [.uint32 1, .bytes 2 [0, 0], .skip, .peekTag, .uint32 0] =
    .ok ([.none, .invalidFormat, .invalidFormat, .invalidFormat, .invalidFormat],
      ⟨some [8, 5, 18, 200, 1, 7], 6, 5, .invalidFormat⟩) := by decide +kernel

end PB
end Noise
