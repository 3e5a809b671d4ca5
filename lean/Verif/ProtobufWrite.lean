import Verif.ProtobufUtf8
/-!
# Writing protobuf fields

`Wire` is a small separate specification of the protobuf wire format
(<https://developers.google.com/protocol-buffers/docs/encoding>). The writer fills its buffer from the
end, so writing a field puts its encoding in front of what is there already.
-/

namespace Noise

namespace Wire

/-- Base 128 varint. -/
def varint (n : Nat) : Bytes :=
  if n < 128 then [UInt8.ofNat n] else UInt8.ofNat (n % 128 + 128) :: varint (n / 128)

/-- `k` bytes, least significant first. -/
def little : Nat → Nat → Bytes
  | 0, _ => []
  | k + 1, n => UInt8.ofNat (n % 256) :: little k (n / 256)

/-- A field value on the wire. -/
inductive Val
  | varint (n : Nat)
  | fixed64 (n : Nat)
  | delim (b : Bytes)
  | fixed32 (n : Nat)
  deriving DecidableEq, Repr

/-- Its wire type. -/
def Val.type : Val → Nat
  | .varint _ => 0
  | .fixed64 _ => 1
  | .delim _ => 2
  | .fixed32 _ => 5

/-- Its encoding. -/
def Val.bytes : Val → Bytes
  | .varint n => Wire.varint n
  | .fixed64 n => little 8 n
  | .delim b => Wire.varint b.length ++ b
  | .fixed32 n => little 4 n

/-- The key of a field; the code base uses tag 0 for "no key". -/
def key (tag type : Nat) : Bytes := if tag = 0 then [] else varint (tag * 8 + type)

/-- A field. -/
def field (tag : Nat) (v : Val) : Bytes := key tag v.type ++ v.bytes

end Wire

/-! ## Varints -/

theorem u8_or80 (b : UInt8) : b ||| 0x80 = UInt8.ofNat (b.toNat % 128 + 128) := by
  have h : ∀ n, n < 256 → UInt8.ofNat n ||| 0x80 = UInt8.ofNat ((UInt8.ofNat n).toNat % 128 + 128) := by
    decide +kernel
  have := h b.toNat b.toNat_lt
  rwa [UInt8.ofNat_toNat] at this

theorem u8_and7F (b : UInt8) : b &&& 0x7F = UInt8.ofNat (b.toNat % 128) := by
  have h : ∀ n, n < 256 → UInt8.ofNat n &&& 0x7F = UInt8.ofNat ((UInt8.ofNat n).toNat % 128) := by
    decide +kernel
  have := h b.toNat b.toNat_lt
  rwa [UInt8.ofNat_toNat] at this

theorem u64_shr (v : UInt64) {k : UInt64} {n : Nat} (hk : k.toNat = n) (hn : n < 64) :
    (v >>> k).toNat = v.toNat / 2 ^ n := by
  rw [UInt64.toNat_shiftRight, hk, Nat.mod_eq_of_lt hn, Nat.shiftRight_eq_div_pow]

namespace PB

theorem varintBytes_eq : ∀ (n : Nat) (v : UInt64), v.toNat < 128 ^ (n + 1) →
    (n = 0 ∨ 128 ^ n ≤ v.toNat) → varintBytes n v = Wire.varint v.toNat := by
  intro n
  induction n with
  | zero =>
    intro v hv _
    simp only [Nat.zero_add, Nat.pow_one] at hv
    rw [Wire.varint, if_pos hv, varintBytes, u8_and7F, UInt64.toNat_toUInt8]
    congr 2
    omega
  | succ n ih =>
    intro v hv h
    have h1 : 128 ^ (n + 1) ≤ v.toNat := by simpa using h
    have h0 : 128 ≤ v.toNat := by
      have : 0 < 128 ^ n := Nat.pow_pos (by omega)
      rw [Nat.pow_succ] at h1; omega
    have hs : (v >>> 7).toNat = v.toNat / 128 := u64_shr v (n := 7) rfl (by omega)
    rw [Wire.varint, if_neg (by omega), varintBytes, u8_or80, UInt64.toNat_toUInt8, ih]
    · rw [hs]; congr 3; omega
    · rw [hs, Nat.div_lt_iff_lt_mul (by omega), ← Nat.pow_succ]; exact hv
    · right
      rw [hs, Nat.le_div_iff_mul_le (by omega), ← Nat.pow_succ]; exact h1

theorem varint_bytes (v : UInt64) : varintBytes (varintSize v - 1) v = Wire.varint v.toNat := by
  have hv : v.toNat < 2 ^ 64 := v.toNat_lt
  unfold varintSize
  repeat' split
  all_goals refine varintBytes_eq _ _ ?_ ?_ <;> omega

theorem varintBytes_length : ∀ n v, (varintBytes n v).length = n + 1 := by
  intro n
  induction n with
  | zero => intro v; rfl
  | succ n ih => intro v; simp [varintBytes, ih]

theorem varintSize_eq (v : UInt64) : varintSize v = (Wire.varint v.toNat).length := by
  rw [← varint_bytes, varintBytes_length]
  have : 0 < varintSize v := by unfold varintSize; (repeat' split) <;> omega
  omega

/-! ## Putting bytes in front -/

/-- The buffer behind the structure has the size the structure says, and the position is inside. -/
structure Inv (p : PB) : Prop where
  posn : p.posn ≤ p.size
  size : ∀ d, p.data = some d → d.length = p.size

/-- `bs` in front of what has been written. -/
def push (p : PB) (bs : Bytes) : PB :=
  { p with
    posn := p.posn - bs.length
    data := p.data.map fun d => d.take (p.posn - bs.length) ++ bs ++ d.drop p.posn }

/-- What every primitive writing step does: nothing after an error, `INVALID_LENGTH` if there is no
room, and otherwise put bytes in front. -/
def put (p : PB) (bs : Bytes) : Err × PB :=
  if p.err ≠ .none then (p.err, p)
  else if bs.length > p.posn then (.invalidLength, { p with err := .invalidLength })
  else (.none, p.push bs)

theorem prepareOutput_inv (d : Bytes) : (prepareOutput d).Inv := ⟨Nat.le_refl _, fun _ h => by cases h; rfl⟩
theorem prepareInput_inv (d : Bytes) : (prepareInput d).Inv := ⟨Nat.zero_le _, fun _ h => by cases h; rfl⟩
theorem prepareMeasure_inv (n : Nat) : (prepareMeasure n).Inv := ⟨Nat.le_refl _, fun _ h => by cases h⟩

theorem Inv.push {p : PB} (h : p.Inv) {bs : Bytes} (hb : bs.length ≤ p.posn) : (p.push bs).Inv := by
  have hp := h.posn
  refine ⟨by simp only [PB.push]; omega, ?_⟩
  intro d hd
  simp only [PB.push, Option.map_eq_some_iff] at hd
  obtain ⟨d0, h0, rfl⟩ := hd
  have := h.size d0 h0
  simp [PB.push]; omega

theorem Inv.put {p : PB} (h : p.Inv) (bs : Bytes) : (p.put bs).2.Inv := by
  unfold PB.put
  split
  · exact h
  split
  · exact ⟨h.posn, h.size⟩
  · exact h.push (by omega)

@[simp] theorem push_nil (p : PB) (h : p.Inv) : p.push [] = p := by
  cases p with
  | mk d s n e => cases d <;> simp [push]

theorem push_push (p : PB) (h : p.Inv) (a b : Bytes) (hl : a.length + b.length ≤ p.posn) :
    (p.push a).push b = p.push (b ++ a) := by
  cases p with
  | mk d s n e =>
    cases d with
    | none => simp [push]; omega
    | some d =>
      have h1 := h.size d rfl
      have h2 := h.posn
      simp only at h1 h2 hl
      simp only [push, Option.map_some, List.length_append, PB.mk.injEq, Option.some.injEq, true_and, and_true]
      refine ⟨?_, by omega⟩
      simp only [List.append_assoc]
      rw [List.take_append_of_le_length (by simp; omega), List.take_take]
      congr 1
      · congr 1; omega
      congr 1
      rw [List.drop_append, List.drop_of_length_le (by simp; omega)]
      simp only [List.nil_append, List.length_take]
      rw [show n - a.length - min (n - a.length) d.length = 0 by omega]
      rfl

@[simp] theorem put_err {p : PB} (h : p.err ≠ .none) (bs : Bytes) : p.put bs = (p.err, p) := by simp [put, h]

theorem put_code (p : PB) (bs : Bytes) : (p.put bs).1 = (p.put bs).2.err := by
  unfold put
  split
  · rfl
  split
  · rfl
  · next h _ => simp only [push]; simpa using (Classical.not_not.1 h).symm

/-- Two puts in a row: the second one does nothing if the first one failed. -/
theorem put_put (p : PB) (h : p.Inv) (a b : Bytes) (hl : a.length + b.length ≤ p.posn) :
    (p.put a).2.put b = p.put (b ++ a) := by
  by_cases he : p.err = .none
  · have h1 : p.put a = (.none, p.push a) := by
      simp only [put, he]; rw [if_neg (by simp), if_neg (by omega)]
    have h2 : (p.push a).err = .none := he
    rw [h1]
    simp only [put, he, h2]
    rw [if_neg (by simp), if_neg (by show ¬ b.length > p.posn - a.length; omega), if_neg (by simp),
      if_neg (by simp; omega), push_push p h a b hl]
  · rw [put_err he, put_err he, put_err he]

theorem poke_eq {p : PB} (h : p.Inv) {bs : Bytes} (hb : bs.length ≤ p.posn) {d : Bytes}
    (hd : p.data = some d) :
    poke { p with posn := p.posn - bs.length } (p.posn - bs.length) bs = .ok (p.push bs) := by
  have h1 := h.size d hd
  have h2 := h.posn
  simp only [poke, hd]
  rw [store_ok (by omega)]
  simp only [Out.bind_ok, Out.pure_eq, push, hd, Option.map_some, Out.ok.injEq, PB.mk.injEq, and_true]
  rw [show p.posn - bs.length + bs.length = p.posn by omega]

theorem writeVarint_eq {p : PB} (h : p.Inv) (v : UInt64) :
    p.writeVarint v = .ok (p.put (Wire.varint v.toNat)) := by
  unfold writeVarint reserveSpace put
  dsimp only
  rw [varint_bytes, varintSize_eq]
  by_cases he : p.err = .none
  · simp only [he, ne_eq, not_true_eq_false, if_false]
    by_cases hl : (Wire.varint v.toNat).length > p.posn
    · simp [hl]
    · simp only [hl, if_false]
      cases hd : p.data with
      | none => simp [push, hd, he]
      | some d =>
        simp only [Option.map_some]
        have := poke_eq h (bs := Wire.varint v.toNat) (by omega) hd
        rw [he, hd] at this
        rw [this]
        simp
  · simp only [he, ne_eq, not_false_eq_true, if_true]
    cases hp : p.err <;> simp_all

/-- The key in front of a field, as bytes. -/
def keyBytes (tag : Int) (type : Nat) : Bytes := if tag = 0 then [] else Wire.varint (tagWord tag type).toNat

theorem put_nil {p : PB} (h : p.Inv) : p.put [] = (p.err, p) := by
  unfold put
  split
  · rfl
  · next he => simp at he; simp [he, push_nil p h]

theorem writeTag_eq {p : PB} (h : p.Inv) (tag : Int) (type : Nat) :
    p.writeTag tag type = .ok (p.put (keyBytes tag type)) := by
  unfold writeTag keyBytes
  by_cases he : p.err = .none
  · simp only [he, ne_eq, not_true_eq_false, if_false]
    by_cases ht : tag = 0
    · simp only [ht, if_true]
      rw [put_nil h, he]
    · simp only [ht, if_false]
      exact writeVarint_eq h _
  · simp only [he, ne_eq, not_false_eq_true, if_true]
    rw [put_err he]

/-- The value first, then the key in front of it. -/
def putField (p : PB) (tag : Int) (type : Nat) (bs : Bytes) : Err × PB :=
  (p.put bs).2.put (keyBytes tag type)

theorem tag_after {p : PB} (h : p.Inv) (tag : Int) (type : Nat) (bs : Bytes) :
    (if (p.put bs).1 ≠ .none then pure ((p.put bs).1, (p.put bs).2)
      else (p.put bs).2.writeTag tag type : Out (Err × PB)) = .ok (p.putField tag type bs) := by
  unfold putField
  by_cases he : (p.put bs).1 = .none
  · rw [if_neg (by simpa using he), writeTag_eq (h.put bs)]
  · have he' : (p.put bs).2.err ≠ .none := by rw [← put_code]; exact he
    rw [if_pos he, put_err (p := (p.put bs).2) he', ← put_code]; rfl

theorem writeInteger_eq {p : PB} (h : p.Inv) (tag : Int) (v : UInt64) :
    p.writeInteger tag v = .ok (p.putField tag wireVarint (Wire.varint v.toNat)) := by
  unfold writeInteger
  rw [writeVarint_eq h]
  exact tag_after h tag wireVarint _

theorem le32_eq (v : UInt32) : le32 v = Wire.little 4 v.toNat := by
  have key : ∀ k : UInt32, ∀ n, k.toNat = n → n < 32 → (v >>> k).toNat = v.toNat / 2 ^ n := by
    intro k n hk hn
    rw [UInt32.toNat_shiftRight, hk, Nat.mod_eq_of_lt hn, Nat.shiftRight_eq_div_pow]
  have e : ∀ w : UInt32, w.toUInt8 = UInt8.ofNat (w.toNat % 256) := by
    intro w; apply UInt8.toNat_inj.1; simp
  simp only [le32, Wire.little, e, key 8 8 rfl (by omega), key 16 16 rfl (by omega), key 24 24 rfl (by omega)]
  simp [Nat.div_div_eq_div_mul]

theorem le64_eq (v : UInt64) : le64 v = Wire.little 8 v.toNat := by
  have e : ∀ w : UInt64, w.toUInt8 = UInt8.ofNat (w.toNat % 256) := by
    intro w; apply UInt8.toNat_inj.1; simp
  simp only [le64, Wire.little, e, u64_shr v (k := 8) (n := 8) rfl (by omega),
    u64_shr v (k := 16) (n := 16) rfl (by omega), u64_shr v (k := 24) (n := 24) rfl (by omega),
    u64_shr v (k := 32) (n := 32) rfl (by omega), u64_shr v (k := 40) (n := 40) rfl (by omega),
    u64_shr v (k := 48) (n := 48) rfl (by omega), u64_shr v (k := 56) (n := 56) rfl (by omega)]
  simp [Nat.div_div_eq_div_mul]

theorem reserve_put {p : PB} (h : p.Inv) (tag : Int) (type : Nat) (bs : Bytes) :
    (match p.reserveSpace bs.length with
      | (.none, p, none) => p.writeTag tag type
      | (.none, p, some off) => do
        let p ← p.poke off bs
        p.writeTag tag type
      | (e, p, _) => .ok (e, p) : Out (Err × PB)) = .ok (p.putField tag type bs) := by
  rw [← tag_after h]
  unfold reserveSpace put
  by_cases he : p.err = .none
  · simp only [he, ne_eq, not_true_eq_false, if_false]
    by_cases hl : bs.length > p.posn
    · simp [hl]
    · simp only [hl, if_false]
      cases hd : p.data with
      | none => simp [push, hd, he]
      | some d =>
        simp only [Option.map_some]
        have := poke_eq h (bs := bs) (by omega) hd
        rw [he, hd] at this
        rw [this]
        simp
  · simp only [he, ne_eq, not_false_eq_true, if_true]
    cases hp : p.err <;> simp_all

theorem writeFixed32_eq {p : PB} (h : p.Inv) (tag : Int) (v : UInt32) :
    p.writeFixed32 tag v = .ok (p.putField tag wire32 (Wire.little 4 v.toNat)) := by
  rw [← le32_eq, ← reserve_put h]; rfl

theorem writeFixed64_eq {p : PB} (h : p.Inv) (tag : Int) (v : UInt64) :
    p.writeFixed64 tag v = .ok (p.putField tag wire64 (Wire.little 8 v.toNat)) := by
  rw [← le64_eq, ← reserve_put h]; rfl

theorem writeBytes_eq {p : PB} (h : p.Inv) (tag : Int) (d : Bytes) (hd : d.length < 2 ^ 64) :
    p.writeBytes tag d = .ok ((p.put d).2.putField tag wireDelim (Wire.varint d.length)) := by
  have hl : (UInt64.ofNat d.length).toNat = d.length := by
    rw [UInt64.toNat_ofNat', Nat.mod_eq_of_lt hd]
  have key : p.writeBytes tag d = (if (p.put d).1 ≠ .none then .ok (p.put d) else do
      let (err, p) ← (p.put d).2.writeVarint (UInt64.ofNat d.length)
      if err ≠ .none then pure (err, p) else p.writeTag tag wireDelim) := by
    unfold writeBytes reserveSpace put
    by_cases he : p.err = .none
    · simp only [he, ne_eq, not_true_eq_false, if_false]
      by_cases hl : d.length > p.posn
      · simp [hl]
      · simp only [hl, if_false]
        cases hm : p.data with
        | none => simp [push, hm, he]
        | some m =>
          simp only [Option.map_some]
          have := poke_eq h (bs := d) (by omega) hm
          rw [he, hm] at this
          by_cases h0 : d.length = 0
          · have hn : d = [] := by simpa using h0
            subst hn
            have := push_nil p h
            rw [this]
            simp only [List.length_nil, not_true_eq_false, if_false, Nat.sub_zero]
            cases p; simp_all
          · simp only [h0, not_false_eq_true, if_true]
            rw [this]
            simp
    · simp only [he, ne_eq, not_false_eq_true, if_true]
  rw [key]
  by_cases he : (p.put d).1 = .none
  · rw [if_neg (by simpa using he), writeVarint_eq (h.put d), hl]
    exact tag_after (h.put d) tag wireDelim _
  · rw [if_pos he]
    have he' : (p.put d).2.err ≠ .none := by rw [← put_code]; exact he
    have hc := put_code p d
    unfold putField
    rw [put_err he', put_err he', ← hc]

/-! ## Several puts -/

/-- Puts in a row. -/
def puts (p : PB) (l : List Bytes) : PB := l.foldl (fun p bs => (p.put bs).2) p

theorem puts_err {p : PB} (h : p.err ≠ .none) (l : List Bytes) : p.puts l = p := by
  induction l with
  | nil => rfl
  | cons b l ih => simp only [puts, List.foldl_cons, put_err h] at *; exact ih

theorem puts_cons (p : PB) (b : Bytes) (l : List Bytes) : p.puts (b :: l) = (p.put b).2.puts l := rfl

theorem Inv.puts {p : PB} (h : p.Inv) (l : List Bytes) : (p.puts l).Inv := by
  induction l generalizing p with
  | nil => exact h
  | cons b l ih => exact ih (h.put b)

/-- What several puts do if there is room. -/
theorem puts_ok {p : PB} (h : p.Inv) (he : p.err = .none) (l : List Bytes) (hl : l.flatten.length ≤ p.posn) :
    p.puts l = p.push l.reverse.flatten := by
  induction l generalizing p with
  | nil => simp [puts, push_nil p h]
  | cons b l ih =>
    simp only [List.flatten_cons, List.length_append] at hl
    have hp : p.put b = (.none, p.push b) := by
      simp only [put, he]; rw [if_neg (by simp), if_neg (by omega)]
    rw [puts_cons, hp, ih (h.push (by omega)) he (by show _ ≤ p.posn - b.length; omega)]
    rw [push_push p h]
    · simp
    · have : l.reverse.flatten.length = l.flatten.length := by simp [List.length_flatten]
      rw [this]; omega

/-- What they do if there is none: the error is recorded, and only memory in front of the position has
been written to. -/
theorem puts_full {p : PB} (h : p.Inv) (he : p.err = .none) (l : List Bytes) (hl : p.posn < l.flatten.length) :
    (p.puts l).err = .invalidLength := by
  induction l generalizing p with
  | nil => simp at hl
  | cons b l ih =>
    simp only [List.flatten_cons, List.length_append] at hl
    rw [puts_cons]
    by_cases hb : b.length > p.posn
    · have hp : p.put b = (.invalidLength, { p with err := .invalidLength }) := by
        simp only [put, he]; rw [if_neg (by simp), if_pos hb]
      rw [hp, puts_err (by simp)]
    · have hp : p.put b = (.none, p.push b) := by
        simp only [put, he]; rw [if_neg (by simp), if_neg hb]
      rw [hp]
      exact ih (h.push (by omega)) he (by show p.posn - b.length < _; omega)

theorem puts_frame (p : PB) (l : List Bytes) : (p.puts l).posn ≤ p.posn ∧ (p.puts l).size = p.size ∧
    (p.puts l).data.isSome = p.data.isSome := by
  induction l generalizing p with
  | nil => exact ⟨Nat.le_refl _, rfl, rfl⟩
  | cons b l ih =>
    obtain ⟨h1, h2, h3⟩ := ih (p.put b).2
    rw [puts_cons]
    have : (p.put b).2.posn ≤ p.posn ∧ (p.put b).2.size = p.size ∧ (p.put b).2.data.isSome = p.data.isSome := by
      unfold put
      split
      · exact ⟨Nat.le_refl _, rfl, rfl⟩
      split
      · exact ⟨Nat.le_refl _, rfl, rfl⟩
      · simp [push]
    exact ⟨by omega, by rw [h2, this.2.1], by rw [h3, this.2.2]⟩

/-! ## Write calls -/

/-- The calls that write, as steps of a program; `endElement` remembers the position it gets and
`startElement` uses the position remembered last (or the end of the buffer if there is none). -/
inductive WOp
  | int32 (tag : Int) (v : Int32)
  | uint32 (tag : Int) (v : UInt32)
  | int64 (tag : Int) (v : Int64)
  | uint64 (tag : Int) (v : UInt64)
  | sint32 (tag : Int) (v : Int32)
  | sint64 (tag : Int) (v : Int64)
  | sfixed32 (tag : Int) (v : Int32)
  | fixed32 (tag : Int) (v : UInt32)
  | sfixed64 (tag : Int) (v : Int64)
  | fixed64 (tag : Int) (v : UInt64)
  | float (tag : Int) (bits : UInt32)
  | double (tag : Int) (bits : UInt64)
  | bool (tag : Int) (v : Int32)
  | string (tag : Int) (s : Bytes)
  | bytes (tag : Int) (b : Bytes)
  | endElement
  | startElement (tag : Int)

/-- One call: code, structure, remembered positions. -/
def WOp.step (x : PB × List Nat) : WOp → Out (Err × PB × List Nat)
  | .int32 tag v => do let (e, q) ← x.1.writeInt32 tag v; pure (e, q, x.2)
  | .uint32 tag v => do let (e, q) ← x.1.writeUInt32 tag v; pure (e, q, x.2)
  | .int64 tag v => do let (e, q) ← x.1.writeInt64 tag v; pure (e, q, x.2)
  | .uint64 tag v => do let (e, q) ← x.1.writeUInt64 tag v; pure (e, q, x.2)
  | .sint32 tag v => do let (e, q) ← x.1.writeSInt32 tag v; pure (e, q, x.2)
  | .sint64 tag v => do let (e, q) ← x.1.writeSInt64 tag v; pure (e, q, x.2)
  | .sfixed32 tag v => do let (e, q) ← x.1.writeSFixed32 tag v; pure (e, q, x.2)
  | .fixed32 tag v => do let (e, q) ← x.1.writeFixed32 tag v; pure (e, q, x.2)
  | .sfixed64 tag v => do let (e, q) ← x.1.writeSFixed64 tag v; pure (e, q, x.2)
  | .fixed64 tag v => do let (e, q) ← x.1.writeFixed64 tag v; pure (e, q, x.2)
  | .float tag v => do let (e, q) ← x.1.writeFloat tag v; pure (e, q, x.2)
  | .double tag v => do let (e, q) ← x.1.writeDouble tag v; pure (e, q, x.2)
  | .bool tag v => do let (e, q) ← x.1.writeBool tag v; pure (e, q, x.2)
  | .string tag s => do let (e, q) ← x.1.writeString tag s; pure (e, q, x.2)
  | .bytes tag b => do let (e, q) ← x.1.writeBytes tag b; pure (e, q, x.2)
  | .endElement => let r := x.1.writeEndElement; .ok (r.1, x.1, r.2 :: x.2)
  | .startElement tag => do
    let (e, q) ← x.1.writeStartElement tag (x.2.headD x.1.size)
    pure (e, q, x.2.tail)

/-- A sequence of calls; the codes are collected. -/
def WOp.run : PB × List Nat → List WOp → Out (List Err × PB × List Nat)
  | x, [] => .ok ([], x)
  | x, op :: ops => do
    let (e, x') ← op.step x
    let (es, x'') ← WOp.run x' ops
    pure (e :: es, x'')

/-- Byte strings have a length that fits `size_t`. -/
def WOp.Fits : WOp → Prop
  | .string _ s => s.length < 2 ^ 64
  | .bytes _ b => b.length < 2 ^ 64
  | _ => True

/-- What a call puts in front, in the order of the puts; `none` for a string that is refused. -/
def WOp.parts (x : PB × List Nat) : WOp → Option (List Bytes)
  | .int32 tag v => some [Wire.varint v.toInt64.toUInt64.toNat, keyBytes tag wireVarint]
  | .uint32 tag v => some [Wire.varint v.toNat, keyBytes tag wireVarint]
  | .int64 tag v => some [Wire.varint v.toUInt64.toNat, keyBytes tag wireVarint]
  | .uint64 tag v => some [Wire.varint v.toNat, keyBytes tag wireVarint]
  | .sint32 tag v => some [Wire.varint (zigzag32 v).toNat, keyBytes tag wireVarint]
  | .sint64 tag v => some [Wire.varint (zigzag64 v).toNat, keyBytes tag wireVarint]
  | .sfixed32 tag v => some [Wire.little 4 v.toUInt32.toNat, keyBytes tag wire32]
  | .fixed32 tag v => some [Wire.little 4 v.toNat, keyBytes tag wire32]
  | .sfixed64 tag v => some [Wire.little 8 v.toUInt64.toNat, keyBytes tag wire64]
  | .fixed64 tag v => some [Wire.little 8 v.toNat, keyBytes tag wire64]
  | .float tag v => some [Wire.little 4 v.toNat, keyBytes tag wire32]
  | .double tag v => some [Wire.little 8 v.toNat, keyBytes tag wire64]
  | .bool tag v => some [Wire.varint (if v ≠ 0 then 1 else 0), keyBytes tag wireVarint]
  | .string tag s =>
    if isUtf8 s.length s = .ok true then some [s, Wire.varint s.length, keyBytes tag wireDelim] else none
  | .bytes tag b => some [b, Wire.varint b.length, keyBytes tag wireDelim]
  | .endElement => some []
  | .startElement tag =>
    if tag = 0 then some []
    else some [Wire.varint (x.2.headD x.1.size - x.1.posn), keyBytes tag wireDelim]

/-- The remembered positions lie between the current position and the end. -/
def StackOK (x : PB × List Nat) : Prop := x.1.err = .none → ∀ e ∈ x.2, x.1.posn ≤ e ∧ e ≤ x.1.size

/-- The remembered positions after a call. -/
def WOp.stack (x : PB × List Nat) : WOp → List Nat
  | .endElement => x.1.writeEndElement.2 :: x.2
  | .startElement _ => x.2.tail
  | _ => x.2

theorem fields_puts {p : PB} {bs : Bytes} {tag : Int} {type : Nat} :
    (p.putField tag type bs) = ((p.puts [bs, keyBytes tag type]).err, p.puts [bs, keyBytes tag type]) := by
  unfold putField
  exact Prod.ext (put_code _ _) rfl

/-- Every call, as long as there is no error: puts. -/
theorem WOp.step_eq {x : PB × List Nat} (h : x.1.Inv) (he : x.1.err = .none) (hs : StackOK x)
    (hz : x.1.size < 2 ^ 64) (op : WOp) (hf : op.Fits) :
    op.step x = match op.parts x with
      | some l => .ok ((x.1.puts l).err, x.1.puts l, op.stack x)
      | none => .ok (.invalidFormat, x.1.fail .invalidFormat, op.stack x) := by
  obtain ⟨p, st⟩ := x
  simp only at h he hz
  have hbytes : ∀ tag (b : Bytes), b.length < 2 ^ 64 → p.writeBytes tag b =
      .ok ((p.puts [b, Wire.varint b.length, keyBytes tag wireDelim]).err,
        p.puts [b, Wire.varint b.length, keyBytes tag wireDelim]) := by
    intro tag b hb
    rw [writeBytes_eq h tag b hb, fields_puts]; rfl
  cases op with
  | string tag s =>
    simp only [step, writeString, parts, stack]
    rw [if_neg (by simpa using he)]
    obtain ⟨b, hb⟩ := isUtf8_ok s.length s (Nat.le_refl _)
    rw [hb]
    cases b with
    | false => simp [fail]
    | true =>
      have := hbytes tag s hf
      simp [this]
  | bytes tag b =>
    simp only [step, parts, stack]
    rw [hbytes tag b hf]; rfl
  | endElement => simp [step, parts, stack, writeEndElement, he, puts]
  | startElement tag =>
    simp only [step, writeStartElement, parts, stack]
    have hr : p.posn ≤ st.headD p.size ∧ st.headD p.size ≤ p.size := by
      cases st with
      | nil => exact ⟨h.posn, Nat.le_refl _⟩
      | cons e st => exact hs he e (by simp)
    rw [if_neg (by omega)]
    by_cases ht : tag = 0
    · simp [ht, puts, he]
    · rw [if_neg ht, if_neg ht]
      have hl : (UInt64.ofNat (st.headD p.size - p.posn)).toNat = st.headD p.size - p.posn := by
        rw [UInt64.toNat_ofNat', Nat.mod_eq_of_lt (by omega)]
      rw [writeVarint_eq h, hl]
      have := tag_after h tag wireDelim (Wire.varint (st.headD p.size - p.posn))
      rw [fields_puts] at this
      simp only [Out.bind_ok]
      rw [this]
      rfl
  | int32 tag v => simp only [step, parts, stack, writeInt32, writeInteger_eq h, fields_puts]; rfl
  | uint32 tag v =>
    simp only [step, parts, stack, writeUInt32, writeInteger_eq h, fields_puts, UInt32.toNat_toUInt64]; rfl
  | int64 tag v => simp only [step, parts, stack, writeInt64, writeInteger_eq h, fields_puts]; rfl
  | uint64 tag v => simp only [step, parts, stack, writeUInt64, writeInteger_eq h, fields_puts]; rfl
  | sint32 tag v => simp only [step, parts, stack, writeSInt32, writeInteger_eq h, fields_puts]; rfl
  | sint64 tag v => simp only [step, parts, stack, writeSInt64, writeInteger_eq h, fields_puts]; rfl
  | sfixed32 tag v => simp only [step, parts, stack, writeSFixed32, writeFixed32_eq h, fields_puts]; rfl
  | fixed32 tag v => simp only [step, parts, stack, writeFixed32_eq h, fields_puts]; rfl
  | sfixed64 tag v => simp only [step, parts, stack, writeSFixed64, writeFixed64_eq h, fields_puts]; rfl
  | fixed64 tag v => simp only [step, parts, stack, writeFixed64_eq h, fields_puts]; rfl
  | float tag v => simp only [step, parts, stack, writeFloat, writeFixed32_eq h, fields_puts]; rfl
  | double tag v => simp only [step, parts, stack, writeDouble, writeFixed64_eq h, fields_puts]; rfl
  | bool tag v =>
    simp only [step, parts, stack, writeBool, writeInteger_eq h, fields_puts]
    by_cases hv : v = 0
    · simp [hv]
    · simp [hv]

/-- Every call after an error: it fails, and nothing changes. -/
theorem WOp.step_err {x : PB × List Nat} (h : x.1.Inv) (he : x.1.err ≠ .none) (op : WOp) (hf : op.Fits) :
    ∃ e, op.step x = .ok (e, x.1, op.stack x) ∧ e ≠ .none := by
  obtain ⟨p, st⟩ := x
  simp only at h he
  have hput : ∀ tag type bs, p.putField tag type bs = (p.err, p) := by
    intro tag type bs
    unfold putField
    rw [put_err he, put_err he]
  cases op with
  | string tag s => exact ⟨p.err, by simp [step, writeString, he, stack], he⟩
  | bytes tag b =>
    refine ⟨p.err, ?_, he⟩
    simp only [step, writeBytes_eq h tag b hf, stack]
    rw [put_err he, hput]; rfl
  | endElement => exact ⟨p.err, by simp [step, writeEndElement, he, stack], he⟩
  | startElement tag =>
    simp only [step, writeStartElement, stack]
    split
    · exact ⟨_, rfl, by simp⟩
    split
    · exact ⟨_, rfl, he⟩
    · rw [writeVarint_eq h, put_err he]
      simp only [Out.bind_ok]
      rw [if_pos he]
      exact ⟨_, rfl, he⟩
  | int32 tag v => exact ⟨p.err, by simp [step, stack, writeInt32, writeInteger_eq h, hput], he⟩
  | uint32 tag v => exact ⟨p.err, by simp [step, stack, writeUInt32, writeInteger_eq h, hput], he⟩
  | int64 tag v => exact ⟨p.err, by simp [step, stack, writeInt64, writeInteger_eq h, hput], he⟩
  | uint64 tag v => exact ⟨p.err, by simp [step, stack, writeUInt64, writeInteger_eq h, hput], he⟩
  | sint32 tag v => exact ⟨p.err, by simp [step, stack, writeSInt32, writeInteger_eq h, hput], he⟩
  | sint64 tag v => exact ⟨p.err, by simp [step, stack, writeSInt64, writeInteger_eq h, hput], he⟩
  | sfixed32 tag v => exact ⟨p.err, by simp [step, stack, writeSFixed32, writeFixed32_eq h, hput], he⟩
  | fixed32 tag v => exact ⟨p.err, by simp [step, stack, writeFixed32_eq h, hput], he⟩
  | sfixed64 tag v => exact ⟨p.err, by simp [step, stack, writeSFixed64, writeFixed64_eq h, hput], he⟩
  | fixed64 tag v => exact ⟨p.err, by simp [step, stack, writeFixed64_eq h, hput], he⟩
  | float tag v => exact ⟨p.err, by simp [step, stack, writeFloat, writeFixed32_eq h, hput], he⟩
  | double tag v => exact ⟨p.err, by simp [step, stack, writeDouble, writeFixed64_eq h, hput], he⟩
  | bool tag v => exact ⟨p.err, by simp [step, stack, writeBool, writeInteger_eq h, hput], he⟩

end PB
end Noise
