import Verif.Cert
import Verif.ProtobufNest
import Mathlib.Tactic.Tauto
/-!
# What the write functions of `certificate.c` write (C50)
-/

namespace Noise

theorem Out.bind_assoc' {α β γ : Type} (x : Out α) (f : α → Out β) (g : β → Out γ) :
    (x >>= f >>= g) = (x >>= fun a => f a >>= g) := by cases x <;> rfl

namespace Cert
open PB

/-- Whether or not there is an error, the buffer changes only in that an end part of `bs` is put in front of what
had been written. -/
def Part (w w' : PB) (bs : Bytes) : Prop :=
  ∃ t, t <:+ bs ∧ w'.posn + t.length = w.posn ∧ w'.data = w.data.map fun d => d.take w'.posn ++ t ++ d.drop w.posn

theorem Part.refl (w : PB) (bs : Bytes) : Part w w bs := by
  refine ⟨[], List.nil_suffix, rfl, ?_⟩
  simp

theorem Part.err {w w' : PB} (bs : Bytes) (h1 : w'.posn = w.posn) (h2 : w'.data = w.data) : Part w w' bs := by
  refine ⟨[], List.nil_suffix, by simp [h1], ?_⟩
  simp [h1, h2]

theorem Part.wider {w w' : PB} {a b : Bytes} (h : Part w w' a) (hs : a <:+ b) : Part w w' b := by
  obtain ⟨t, h1, h2⟩ := h
  exact ⟨t, h1.trans hs, h2⟩

theorem Part.step {w w1 w2 : PB} {a b : Bytes} (hw : w.Inv) (h1 : Part w w1 a) (hf : w1.posn + a.length = w.posn)
    (h2 : Part w1 w2 b) : Part w w2 (b ++ a) := by
  obtain ⟨t, ht, hp, hd⟩ := h1
  obtain ⟨u, hu, hq, he⟩ := h2
  have hta : t = a := ht.eq_of_length (by omega)
  subst hta
  refine ⟨u ++ t, ?_, by rw [List.length_append]; omega, ?_⟩
  · obtain ⟨x, rfl⟩ := hu
    exact ⟨x, by simp⟩
  · rw [he, hd]
    cases hdat : w.data with
    | none => rfl
    | some d =>
      have := hw.size d hdat
      have := hw.posn
      simp only [Option.map_some, Option.some.injEq]
      have h1 : (d.take w1.posn).length = w1.posn := by rw [List.length_take]; omega
      rw [List.append_assoc (d.take w1.posn), List.take_append_of_le_length (by omega), List.take_take, Nat.min_eq_left (by omega),
        List.drop_left' h1]
      simp

theorem put_part {w : PB} (bs : Bytes) : Part w (w.put bs).2 bs := by
  unfold PB.put
  split
  · exact Part.refl _ _
  split
  · exact Part.err _ rfl rfl
  · exact ⟨bs, List.suffix_rfl, by simp only [PB.push]; omega, rfl⟩

theorem puts_part {w : PB} (h : w.Inv) (l : List Bytes) : Part w (w.puts l) l.reverse.flatten := by
  induction l generalizing w with
  | nil => exact Part.refl _ _
  | cons b l ih =>
    rw [puts_cons]
    have e : (b :: l).reverse.flatten = l.reverse.flatten ++ b := by simp
    rw [e]
    by_cases he : (w.put b).2.err = .none
    · refine Part.step h (put_part b) ?_ (ih (h.put b))
      by_cases hw : w.err = .none
      · by_cases hb : b.length > w.posn
        · simp [PB.put, hw, hb] at he
        · simp only [PB.put, hw, ne_eq, not_true_eq_false, if_false, hb, PB.push]; omega
      · simp [PB.put, hw] at he
    · rw [puts_err he]
      exact (put_part b).wider ⟨_, rfl⟩

/-- What a part of a write function does: nothing after an error; otherwise it succeeds if and only if `V`
holds and there is room for `bs`, and then puts `bs` in front of what had been written. -/
structure Emit (w w' : PB) (V : Prop) (bs : Bytes) : Prop where
  part : Part w w' bs
  inv : w'.Inv
  size : w'.size = w.size
  posn : w'.posn ≤ w.posn
  sticky : w.err ≠ .none → w' = w
  ok : w.err = .none → (w'.err = .none ↔ V ∧ bs.length ≤ w.posn)
  wrote : w'.err = .none → Wrote w w' bs

/-- The same for every state. -/
def Emits (f : PB → Out PB) (V : Prop) (bs : Bytes) : Prop :=
  ∀ w : PB, w.Inv → w.size < 2 ^ 64 → ∃ w', f w = .ok w' ∧ Emit w w' V bs

theorem Emits.congr {f : PB → Out PB} {V V' : Prop} {bs bs' : Bytes} (h : Emits f V bs) (hV : V ↔ V')
    (hb : bs = bs') : Emits f V' bs' := by
  subst hb
  rw [← propext hV]
  exact h

theorem Emit.id {w : PB} (h : w.Inv) : Emit w w True [] :=
  ⟨Part.refl _ _, h, rfl, Nat.le_refl _, fun _ => rfl, fun he => by simp [he], fun he => ⟨by simp, rfl, he, fun d hd => ⟨d, hd, rfl, by simp⟩⟩⟩

theorem Wrote.trans {w w1 w2 : PB} {a b : Bytes} (h1 : Wrote w w1 a) (h2 : Wrote w1 w2 b) : Wrote w w2 (b ++ a) := by
  refine ⟨?_, h2.size.trans h1.size, h2.err, ?_⟩
  · have := h1.posn; have := h2.posn; rw [List.length_append]; omega
  · intro d hd
    obtain ⟨d1, hd1, hl1, hdr1⟩ := h1.data d hd
    obtain ⟨d2, hd2, hl2, hdr2⟩ := h2.data d1 hd1
    exact ⟨d2, hd2, hl2.trans hl1, by rw [hdr2, hdr1]; simp⟩

theorem Emit.trans {w w1 w2 : PB} {V1 V2 : Prop} {a b : Bytes} (hi : w.Inv) (h1 : Emit w w1 V1 a) (h2 : Emit w1 w2 V2 b) :
    Emit w w2 (V1 ∧ V2) (b ++ a) := by
  have key : w2.err = .none → w1.err = .none := by
    intro h
    by_cases he : w1.err = .none
    · exact he
    · rw [h2.sticky he] at h; exact h
  have key0 : w1.err = .none → w.err = .none := by
    intro h
    by_cases he : w.err = .none
    · exact he
    · rw [h1.sticky he] at h; exact h
  refine ⟨?_, h2.inv, h2.size.trans h1.size, Nat.le_trans h2.posn h1.posn, ?_, ?_, ?_⟩
  · by_cases e1 : w1.err = .none
    · exact Part.step hi h1.part (h1.wrote e1).posn h2.part
    · rw [h2.sticky e1]
      exact h1.part.wider ⟨_, rfl⟩
  · intro he
    have e1 := h1.sticky he
    rw [h2.sticky (by rw [e1]; exact he), e1]
  · intro he
    constructor
    · intro h
      have e1 := key h
      have ⟨a1, a2⟩ := (h1.ok he).1 e1
      have ⟨b1, b2⟩ := (h2.ok e1).1 h
      have := (h1.wrote e1).posn
      refine ⟨⟨a1, b1⟩, ?_⟩
      rw [List.length_append]; omega
    · rintro ⟨⟨v1, v2⟩, hl⟩
      rw [List.length_append] at hl
      have e1 := (h1.ok he).2 ⟨v1, by omega⟩
      have := (h1.wrote e1).posn
      exact (h2.ok e1).2 ⟨v2, by omega⟩
  · intro h
    exact Wrote.trans (h1.wrote (key h)) (h2.wrote h)

theorem Emits.id : Emits (fun w => .ok w) True [] := fun w hw _ => ⟨w, rfl, Emit.id hw⟩

theorem Emits.bind {f g : PB → Out PB} {V1 V2 : Prop} {a b : Bytes} (h1 : Emits f V1 a) (h2 : Emits g V2 b) :
    Emits (fun w => f w >>= g) (V1 ∧ V2) (b ++ a) := by
  intro w hw hs
  obtain ⟨w1, e1, m1⟩ := h1 w hw hs
  obtain ⟨w2, e2, m2⟩ := h2 w1 m1.inv (by rw [m1.size]; exact hs)
  exact ⟨w2, by simp only [e1, Out.bind_ok, e2], m1.trans hw m2⟩

/-! ## Fields -/

theorem puts_emit {w : PB} (h : w.Inv) (l : List Bytes) : Emit w (w.puts l) True l.reverse.flatten := by
  have hlen : l.reverse.flatten.length = l.flatten.length := by simp [List.length_flatten]
  refine ⟨puts_part h l, h.puts l, (puts_frame w l).2.1, (puts_frame w l).1, fun he => puts_err he l, fun he => ?_, fun he => (puts_wrote h he).2.2⟩
  rw [hlen]
  constructor
  · intro h'; exact ⟨trivial, (puts_wrote h h').2.1⟩
  · rintro ⟨-, hl⟩
    rw [puts_ok h he l hl]
    exact he

theorem bytes_emits {tag : Nat} (h1 : tag < 2 ^ 31) (b : Bytes) :
    Emits (fun p => do let (_, p) ← p.writeBytes tag b; pure p) True (Wire.field tag (.delim b)) := by
  intro w hw hs
  by_cases hb : b.length < 2 ^ 64
  · have he := writeBytes_eq hw (tag : Int) b hb
    rw [fields_puts, ← puts_cons] at he
    refine ⟨w.puts [b, Wire.varint b.length, keyBytes tag wireDelim], by simp only [he, Out.bind_ok, Out.pure_eq], ?_⟩
    have hf := delim_eq (tag := (tag : Int)) (by omega) (by omega) b
    rw [Int.toNat_natCast] at hf
    rw [hf]
    have := puts_emit hw [b, Wire.varint b.length, keyBytes tag wireDelim]
    simpa using this
  · have hp := hw.posn
    by_cases he : w.err = .none
    · refine ⟨{ w with err := .invalidLength }, ?_, Part.err _ rfl rfl, ⟨hw.posn, hw.size⟩, rfl, Nat.le_refl _, fun h => absurd he h, fun _ => ?_, fun h => by cases h⟩
      · have hr : w.reserveSpace b.length = (.invalidLength, { w with err := .invalidLength }, none) := by
          unfold reserveSpace
          rw [if_neg (by simp [he]), if_pos (by omega)]
        have : w.writeBytes tag b = .ok (.invalidLength, { w with err := .invalidLength }) := by
          unfold writeBytes
          rw [hr]
        simp only [this]; rfl
      · constructor
        · intro h; cases h
        · rintro ⟨-, hl⟩
          exfalso
          have : b.length ≤ (Wire.field tag (.delim b)).length := by
            simp only [Wire.field, Wire.Val.bytes, List.length_append]; omega
          omega
    · have hr : w.reserveSpace b.length = (w.err, w, none) := by
        unfold reserveSpace
        rw [if_pos (by simpa using he)]
      refine ⟨w, ?_, Part.refl _ _, hw, rfl, Nat.le_refl _, fun _ => rfl, fun h => absurd h he, fun h => absurd h he⟩
      have : w.writeBytes tag b = .ok (w.err, w) := by
        unfold writeBytes
        rw [hr]
        split
        · rename_i heq; exact absurd (Prod.mk.inj heq).1 he
        · rename_i heq; cases heq; rfl
      simp only [this]; rfl

/-- The strings that `noise_protobuf_write_string` accepts. -/
def Good (l : List Bytes) : Prop := ∀ s ∈ l, isUtf8 s.length s = .ok true

theorem Good.append {a b : List Bytes} : Good (a ++ b) ↔ Good a ∧ Good b := by
  simp [Good, or_imp, forall_and]

theorem Good.nil : Good [] ↔ True := by simp [Good]

theorem wrBytes_emits {tag : Nat} (h1 : tag < 2 ^ 31) (b : Option Bytes) :
    Emits (wrBytes tag b) True (fBlock tag b) := by
  cases b with
  | none => exact Emits.id
  | some b => exact bytes_emits h1 b

theorem wrString_emits {tag : Nat} (h1 : tag < 2 ^ 31) (s : Option Bytes) :
    Emits (wrString tag s) (Good s.toList) (fBlock tag s) := by
  cases s with
  | none => exact Emits.id.congr (by simp [Good]) rfl
  | some s =>
    intro w hw hs
    obtain ⟨w', e', m'⟩ := bytes_emits h1 s w hw hs
    by_cases he : w.err = .none
    · obtain ⟨ok, hok⟩ := isUtf8_ok s.length s (Nat.le_refl _)
      cases ok
      · refine ⟨{ w with err := .invalidFormat }, ?_, Part.err _ rfl rfl, ⟨hw.posn, hw.size⟩, rfl, Nat.le_refl _, fun h => absurd he h, fun _ => ?_,
          fun h => by cases h⟩
        · show (do let (_, p) ← w.writeString tag s; pure p) = _
          have : w.writeString tag s = .ok (.invalidFormat, { w with err := .invalidFormat }) := by
            unfold writeString
            rw [if_neg (by simp [he]), hok]
            rfl
          rw [this]; rfl
        · constructor
          · intro h; cases h
          · rintro ⟨h, -⟩
            have := h s (by simp)
            rw [hok] at this; cases this
      · refine ⟨w', ?_, m'.part, m'.inv, m'.size, m'.posn, m'.sticky, fun h => ?_, m'.wrote⟩
        · show (do let (_, p) ← w.writeString tag s; pure p) = _
          have : w.writeString tag s = w.writeBytes tag s := by
            unfold writeString
            rw [if_neg (by simp [he]), hok]
            rfl
          rw [this]; exact e'
        · rw [m'.ok h]
          simp [Good, hok, fBlock]
    · refine ⟨w, ?_, Part.refl _ _, hw, rfl, Nat.le_refl _, fun _ => rfl, fun h => absurd h he, fun h => absurd h he⟩
      show (do let (_, p) ← w.writeString tag s; pure p) = _
      have : w.writeString tag s = .ok (w.err, w) := by
        unfold writeString
        rw [if_pos he]
      rw [this]; rfl

theorem wrNum_emits {tag : Nat} (h1 : tag < 2 ^ 31) (v : UInt32) : Emits (wrNum tag v) True (fNum tag v) := by
  unfold wrNum fNum
  by_cases hv : v = 0
  · rw [if_pos hv]
    simp only [hv, ne_eq, not_true_eq_false, if_false]
    exact Emits.id
  · rw [if_neg hv]
    intro w hw hs
    simp only [ne_eq, hv, not_false_eq_true, if_true]
    have he : w.writeUInt32 tag v = .ok (w.putField tag wireVarint (Wire.varint v.toNat)) := by
      unfold writeUInt32
      rw [writeInteger_eq hw, UInt32.toNat_toUInt64]
    rw [fields_puts] at he
    refine ⟨w.puts [Wire.varint v.toNat, keyBytes tag wireVarint], by simp only [he, Out.bind_ok, Out.pure_eq], ?_⟩
    have hf : Wire.field tag (.varint v.toNat) = keyBytes tag wireVarint ++ Wire.varint v.toNat := by
      rw [keyBytes_eq (by omega) (by omega) _ (by decide)]; rfl
    rw [hf]
    have := puts_emit hw [Wire.varint v.toNat, keyBytes tag wireVarint]
    simpa using this

/-! ## Messages -/

/-- The bytes of a message with a tag; there is no tag and no length for the outermost message. -/
def msgBytes (tag : Nat) (content : Bytes) : Bytes := if tag = 0 then content else Wire.field tag (.delim content)

/-- What a write function does; the code is the one recorded, if there was no error before. -/
def Writes {α : Type} (write : PB → Int → α → Out (Err × PB)) (o : α) (V : Prop) (content : Bytes) : Prop :=
  ∀ (w : PB) (tag : Nat), w.Inv → w.size < 2 ^ 64 → tag < 2 ^ 31 → ∃ e w', write w tag o = .ok (e, w') ∧
    Emit w w' V (msgBytes tag content) ∧ (w.err = .none → e = w'.err) ∧ (w.err ≠ .none → e ≠ .none)

theorem Writes.of {α : Type} {write : PB → Int → α → Out (Err × PB)} {o : α} {V V' : Prop} {content content' : Bytes}
    {f : PB → Out PB} (hf : Emits f V' content')
    (hw : ∀ w tag, write w tag o = (f w >>= fun p => p.writeStartElement tag w.writeEndElement.2))
    (hV : V' ↔ V) (hc : content' = content) : Writes write o V content := by
  subst hc
  rw [propext hV] at hf
  intro w tag hi hs ht
  obtain ⟨w1, e1, m1⟩ := hf w hi hs
  have hp := hi.posn
  rw [hw, e1]
  simp only [Out.bind_ok]
  by_cases he : w.err = .none
  · have hen : w.writeEndElement.2 = w.posn := by unfold writeEndElement; rw [if_neg (by simp [he])]
    rw [hen]
    have hpos := m1.posn
    have hsz := m1.size
    unfold writeStartElement
    rw [if_neg (by omega)]
    by_cases ht0 : tag = 0
    · subst ht0
      rw [if_pos (by simp)]
      exact ⟨_, _, rfl, by simpa [msgBytes] using m1, fun _ => rfl, fun h => absurd he h⟩
    · rw [if_neg (by omega), writeVarint_eq m1.inv]
      simp only [Out.bind_ok]
      rw [tag_after m1.inv, fields_puts]
      refine ⟨_, _, rfl, ?_, fun _ => rfl, fun h => absurd he h⟩
      have hf := delim_eq (tag := (tag : Int)) (by omega) (by omega) content'
      rw [Int.toNat_natCast] at hf
      unfold msgBytes
      rw [if_neg ht0]
      by_cases h1 : w1.err = .none
      · have hwp := (m1.wrote h1).posn
        have hl : (UInt64.ofNat (w.posn - w1.posn)).toNat = content'.length := by
          rw [UInt64.toNat_ofNat', Nat.mod_eq_of_lt (by omega)]; omega
        rw [hl, hf]
        have m2 := m1.trans hi (puts_emit m1.inv [Wire.varint content'.length, keyBytes tag wireDelim])
        simpa using m2
      · rw [puts_err h1]
        refine ⟨m1.part.wider (by rw [hf, ← List.append_assoc]; exact ⟨_, rfl⟩), m1.inv, m1.size, m1.posn, m1.sticky, fun h => ?_, fun h => absurd h h1⟩
        constructor
        · intro h; exact absurd h h1
        · rintro ⟨v, hl⟩
          exact absurd ((m1.ok h).2 ⟨v, by rw [hf] at hl; simp only [List.length_append] at hl; omega⟩) h1
  · have e2 := m1.sticky he
    subst e2
    have hen : w1.writeEndElement.2 = 0 := by unfold writeEndElement; rw [if_pos he]
    rw [hen]
    have hm : ∀ V bs, Emit w1 w1 V bs := fun V bs =>
      ⟨Part.refl _ _, hi, rfl, Nat.le_refl _, fun _ => rfl, fun h => absurd h he, fun h => absurd h he⟩
    unfold writeStartElement
    split
    · exact ⟨_, _, rfl, hm _ _, fun h => absurd h he, fun _ => by simp⟩
    split
    · exact ⟨_, _, rfl, hm _ _, fun h => absurd h he, fun _ => he⟩
    · rw [writeVarint_eq hi, put_err he]
      simp only [Out.bind_ok]
      rw [if_pos he]
      exact ⟨_, _, rfl, hm _ _, fun h => absurd h he, fun _ => he⟩

/-- An optional nested message. -/
theorem wrMsg_emits {α : Type} {write : PB → Int → α → Out (Err × PB)} {V : α → Prop} {enc : α → Bytes}
    (h : ∀ o, Writes write o (V o) (enc o)) {tag : Nat} (h0 : 0 < tag) (h1 : tag < 2 ^ 31) (o : Option α) :
    Emits (wrMsg write tag o) (∀ x ∈ o, V x) (fMsg enc tag o) := by
  cases o with
  | none => exact Emits.id.congr (by simp) rfl
  | some o =>
    intro w hw hs
    obtain ⟨e, w', e', m', -⟩ := h o w tag hw hs h1
    refine ⟨w', ?_, ?_⟩
    · show (do let (_, p) ← write w tag o; pure p) = _
      rw [e']; rfl
    · simp only [Option.mem_some_iff, forall_eq']
      simpa [msgBytes, show tag ≠ 0 by omega, fMsg] using m'

theorem wrList_emits {α : Type} {write : PB → Int → α → Out (Err × PB)} {V : α → Prop} {enc : α → Bytes}
    (h : ∀ o, Writes write o (V o) (enc o)) {tag : Nat} (h0 : 0 < tag) (h1 : tag < 2 ^ 31) (l : List (Option α)) :
    Emits (wrList write tag l) (∀ x, some x ∈ l → V x) (fList enc tag l) := by
  induction l with
  | nil => exact Emits.id.congr (by simp) rfl
  | cons o l ih =>
    refine (ih.bind (wrMsg_emits h h0 h1 o)).congr ?_ (by simp [fList])
    constructor
    · rintro ⟨a, b⟩ x hx
      rcases List.mem_cons.1 hx with hx | hx
      · exact b x (by simp [← hx])
      · exact a x hx
    · intro hh
      exact ⟨fun x hx => hh x (List.mem_cons_of_mem _ hx), fun x hx => hh x (by
        rw [Option.mem_def] at hx; rw [hx]; exact List.mem_cons_self)⟩

theorem good_opt {α : Type} (f : α → List Bytes) (o : Option α) :
    (∀ x ∈ o, Good (f x)) ↔ Good ((o.map f).getD []) := by
  cases o <;> simp [Good]

theorem good_list {α : Type} (f : α → List Bytes) (l : List (Option α)) :
    (∀ x, some x ∈ l → Good (f x)) ↔ Good (strings f l) := by
  induction l with
  | nil => simp [Good, strings]
  | cons o l ih =>
    have : strings f (o :: l) = (o.map f).getD [] ++ strings f l := by simp [strings]
    rw [this, Good.append, ← ih, ← good_opt]
    constructor
    · intro h
      exact ⟨fun x hx => h x (by rw [Option.mem_def] at hx; rw [hx]; exact List.mem_cons_self),
        fun x hx => h x (List.mem_cons_of_mem _ hx)⟩
    · rintro ⟨a, b⟩ x hx
      rcases List.mem_cons.1 hx with hx | hx
      · exact a x (by simp [← hx])
      · exact b x hx

/-! ## The write functions -/

theorem PublicKeyInfo.write_writes (o : PublicKeyInfo) : Writes PublicKeyInfo.write o (Good o.strings) o.enc := by
  refine Writes.of ((wrBytes_emits (tag := 2) (by decide) o.key).bind (wrString_emits (tag := 1) (by decide) o.algorithm))
    (fun w tag => ?_) ?_ ?_
  · simp only [PublicKeyInfo.write, Out.bind_assoc']; rfl
  · simp [PublicKeyInfo.strings]
  · simp [PublicKeyInfo.enc]

theorem PrivateKeyInfo.write_writes (o : PrivateKeyInfo) : Writes PrivateKeyInfo.write o (Good o.strings) o.enc := by
  refine Writes.of ((wrBytes_emits (tag := 2) (by decide) o.key).bind (wrString_emits (tag := 1) (by decide) o.algorithm))
    (fun w tag => ?_) ?_ ?_
  · simp only [PrivateKeyInfo.write, Out.bind_assoc']; rfl
  · simp [PrivateKeyInfo.strings]
  · simp [PrivateKeyInfo.enc]

theorem MetaInfo.write_writes (o : MetaInfo) : Writes MetaInfo.write o (Good o.strings) o.enc := by
  refine Writes.of ((wrString_emits (tag := 2) (by decide) o.value).bind (wrString_emits (tag := 1) (by decide) o.name))
    (fun w tag => ?_) ?_ ?_
  · simp only [MetaInfo.write, Out.bind_assoc']; rfl
  · simp [MetaInfo.strings, Good.append]; tauto
  · simp [MetaInfo.enc]

theorem SubjectInfo.write_writes (o : SubjectInfo) : Writes SubjectInfo.write o (Good o.strings) o.enc := by
  refine Writes.of (((((wrList_emits MetaInfo.write_writes (tag := 5) (by decide) (by decide) o.metas).bind
    (wrList_emits PublicKeyInfo.write_writes (tag := 4) (by decide) (by decide) o.keys)).bind
    (wrString_emits (tag := 3) (by decide) o.role)).bind (wrString_emits (tag := 2) (by decide) o.name)).bind
    (wrString_emits (tag := 1) (by decide) o.id))
    (fun w tag => ?_) ?_ ?_
  · simp only [SubjectInfo.write, Out.bind_assoc']; rfl
  · simp only [SubjectInfo.strings, Good.append, good_list]; tauto
  · simp [SubjectInfo.enc]

theorem PrivateKey.write_writes (o : PrivateKey) : Writes PrivateKey.write o (Good o.strings) o.enc := by
  refine Writes.of (((((wrList_emits MetaInfo.write_writes (tag := 5) (by decide) (by decide) o.metas).bind
    (wrList_emits PrivateKeyInfo.write_writes (tag := 4) (by decide) (by decide) o.keys)).bind
    (wrString_emits (tag := 3) (by decide) o.role)).bind (wrString_emits (tag := 2) (by decide) o.name)).bind
    (wrString_emits (tag := 1) (by decide) o.id))
    (fun w tag => ?_) ?_ ?_
  · simp only [PrivateKey.write, Out.bind_assoc']; rfl
  · simp only [PrivateKey.strings, Good.append, good_list]; tauto
  · simp [PrivateKey.enc]

theorem ExtraSignedInfo.write_writes (o : ExtraSignedInfo) :
    Writes ExtraSignedInfo.write o (Good o.strings) o.enc := by
  refine Writes.of ((((wrList_emits MetaInfo.write_writes (tag := 4) (by decide) (by decide) o.metas).bind
    (wrString_emits (tag := 3) (by decide) o.validTo)).bind (wrString_emits (tag := 2) (by decide) o.validFrom)).bind
    (wrBytes_emits (tag := 1) (by decide) o.nonce))
    (fun w tag => ?_) ?_ ?_
  · simp only [ExtraSignedInfo.write, Out.bind_assoc']; rfl
  · simp only [ExtraSignedInfo.strings, Good.append, good_list]; tauto
  · simp [ExtraSignedInfo.enc]

theorem Signature.write_writes (o : Signature) : Writes Signature.write o (Good o.strings) o.enc := by
  refine Writes.of ((((((wrBytes_emits (tag := 15) (by decide) o.signature).bind
    (wrMsg_emits ExtraSignedInfo.write_writes (tag := 5) (by decide) (by decide) o.extraSignedInfo)).bind
    (wrString_emits (tag := 4) (by decide) o.hashAlgorithm)).bind
    (wrMsg_emits PublicKeyInfo.write_writes (tag := 3) (by decide) (by decide) o.signingKey)).bind
    (wrString_emits (tag := 2) (by decide) o.name)).bind (wrString_emits (tag := 1) (by decide) o.id))
    (fun w tag => ?_) ?_ ?_
  · simp only [Signature.write, Out.bind_assoc']; rfl
  · simp only [Signature.strings, Good.append, good_opt]; tauto
  · simp [Signature.enc]

theorem Certificate.write_writes (o : Certificate) : Writes Certificate.write o (Good o.strings) o.enc := by
  refine Writes.of (((wrList_emits Signature.write_writes (tag := 3) (by decide) (by decide) o.signatures).bind
    (wrMsg_emits SubjectInfo.write_writes (tag := 2) (by decide) (by decide) o.subject)).bind
    (wrNum_emits (tag := 1) (by decide) o.version))
    (fun w tag => ?_) ?_ ?_
  · simp only [Certificate.write, Out.bind_assoc']; rfl
  · simp only [Certificate.strings, Good.append, good_opt, good_list]; tauto
  · simp [Certificate.enc]

theorem CertificateChain.write_writes (o : CertificateChain) :
    Writes CertificateChain.write o (Good o.strings) o.enc := by
  refine Writes.of (wrList_emits Certificate.write_writes (tag := 8) (by decide) (by decide) o.certs)
    (fun w tag => ?_) ?_ ?_
  · simp only [CertificateChain.write]; rfl
  · simp only [CertificateChain.strings, good_list]
  · simp [CertificateChain.enc]

theorem EncryptedPrivateKey.write_writes (o : EncryptedPrivateKey) :
    Writes EncryptedPrivateKey.write o (Good o.strings) o.enc := by
  refine Writes.of (((((wrBytes_emits (tag := 15) (by decide) o.encryptedData).bind
    (wrNum_emits (tag := 13) (by decide) o.iterations)).bind (wrBytes_emits (tag := 12) (by decide) o.salt)).bind
    (wrString_emits (tag := 11) (by decide) o.algorithm)).bind (wrNum_emits (tag := 10) (by decide) o.version))
    (fun w tag => ?_) ?_ ?_
  · simp only [EncryptedPrivateKey.write, Out.bind_assoc']; rfl
  · simp only [EncryptedPrivateKey.strings]; tauto
  · simp [EncryptedPrivateKey.enc]

end Cert
end Noise
