import Verif.ProtobufRoundtrip
/-!
# Fixed-width fields, byte strings and strings are read back (C42)
-/

namespace Noise
namespace PB

/-! ## Fixed width -/

theorem unle32_little (v : UInt32) : unle32 (Wire.little 4 v.toNat) = .ok v := by
  have hv := v.toNat_lt
  simp only [Wire.little, unle32, Out.ok.injEq]
  apply UInt32.toNat_inj.1
  simp only [UInt32.toNat_or, UInt32.toNat_shiftLeft, UInt8.toNat_toUInt32, UInt8.toNat_ofNat',
    Nat.shiftLeft_eq]
  have e1 : (8 : UInt32).toNat % 32 = 8 := rfl
  have e2 : (16 : UInt32).toNat % 32 = 16 := rfl
  have e3 : (24 : UInt32).toNat % 32 = 24 := rfl
  rw [e1, e2, e3]
  generalize v.toNat = n at *
  rw [Nat.or_comm, Nat.or_comm (_ ||| _), Nat.or_comm (n % 256 % 2 ^ 8)]
  rw [Nat.mod_eq_of_lt (a := n / 256 % 256 % 2 ^ 8 * 2 ^ 8) (by omega),
    Nat.mod_eq_of_lt (a := n / 256 / 256 % 256 % 2 ^ 8 * 2 ^ 16) (by omega),
    Nat.mod_eq_of_lt (a := n / 256 / 256 / 256 % 256 % 2 ^ 8 * 2 ^ 24) (by omega),
    or_add (n := 8) (by omega), or_add (n := 16) (by omega), or_add (n := 24) (by omega)]
  omega

theorem unle64_little (v : UInt64) : unle64 (Wire.little 8 v.toNat) = .ok v := by
  have hv := v.toNat_lt
  simp only [Wire.little, unle64, Out.ok.injEq]
  apply UInt64.toNat_inj.1
  simp only [UInt64.toNat_or, UInt64.toNat_shiftLeft, UInt8.toNat_toUInt64, UInt8.toNat_ofNat',
    Nat.shiftLeft_eq]
  have e1 : (8 : UInt64).toNat % 64 = 8 := rfl
  have e2 : (16 : UInt64).toNat % 64 = 16 := rfl
  have e3 : (24 : UInt64).toNat % 64 = 24 := rfl
  have e4 : (32 : UInt64).toNat % 64 = 32 := rfl
  have e5 : (40 : UInt64).toNat % 64 = 40 := rfl
  have e6 : (48 : UInt64).toNat % 64 = 48 := rfl
  have e7 : (56 : UInt64).toNat % 64 = 56 := rfl
  rw [e1, e2, e3, e4, e5, e6, e7]
  generalize v.toNat = n at *
  have m0 : n % 256 % 2 ^ 8 = n % 256 := by omega
  have m : ∀ x k, k ≤ 56 → x % 256 % 2 ^ 8 * 2 ^ k % 2 ^ 64 = x % 256 * 2 ^ k := by
    intro x k hk
    have h1 : x % 256 % 2 ^ 8 = x % 256 := by omega
    have h2 : x % 256 * 2 ^ k < 2 ^ 64 := by
      have h3 : (2 : Nat) ^ k ≤ 2 ^ 56 := Nat.pow_le_pow_right (by omega) hk
      calc x % 256 * 2 ^ k ≤ 255 * 2 ^ 56 := Nat.mul_le_mul (by omega) h3
        _ < 2 ^ 64 := by decide
    rw [h1, Nat.mod_eq_of_lt h2]
  rw [m0, m _ 8 (by omega), m _ 16 (by omega), m _ 24 (by omega), m _ 32 (by omega), m _ 40 (by omega),
    m _ 48 (by omega), m _ 56 (by omega)]
  have c : ∀ a b k, b < 2 ^ k → b ||| a * 2 ^ k = a * 2 ^ k + b := fun a b k h => by
    rw [Nat.or_comm, or_add h]
  rw [c _ _ 8 (by omega), c _ _ 16 (by omega), c _ _ 24 (by omega), c _ _ 32 (by omega),
    c _ _ 40 (by omega), c _ _ 48 (by omega), c _ _ 56 (by omega)]
  omega

/-- **C42**. -/
theorem C42_fixed32 {w w' : PB} (hw : w.Inv) {tag : Int} (h0 : 0 ≤ tag) (h1 : tag < 2 ^ 31) {v : UInt32}
    (h : w.writeFixed32 tag v = .ok (.none, w')) :
    Wrote w w' (Wire.field tag.toNat (.fixed32 v.toNat)) ∧
    ∀ p rest, Ready p (Wire.field tag.toNat (.fixed32 v.toNat) ++ rest) →
      p.readFixed32 tag = .ok (.none, p.adv (Wire.field tag.toNat (.fixed32 v.toNat)).length, v) := by
  rw [writeFixed32_eq hw] at h
  have hf : Wire.field tag.toNat (.fixed32 v.toNat) = keyBytes tag wire32 ++ Wire.little 4 v.toNat := by
    rw [keyBytes_eq h0 h1 _ (by decide)]; rfl
  rw [hf]
  refine ⟨field_wrote hw h, fun p rest hp => ?_⟩
  rw [List.append_assoc] at hp
  unfold readFixed32
  rw [readTag_ok h0 hp]
  have hs := readSpace_ok hp.adv
  rw [Wire.little_length] at hs
  simp only [Out.bind_ok, ne_eq, not_true_eq_false, if_false]
  rw [hs]
  simp only [Out.bind_ok, not_true_eq_false, if_false, unle32_little]
  rw [adv_adv, List.length_append, Wire.little_length]
  rfl

/-- **C42**. -/
theorem C42_fixed64 {w w' : PB} (hw : w.Inv) {tag : Int} (h0 : 0 ≤ tag) (h1 : tag < 2 ^ 31) {v : UInt64}
    (h : w.writeFixed64 tag v = .ok (.none, w')) :
    Wrote w w' (Wire.field tag.toNat (.fixed64 v.toNat)) ∧
    ∀ p rest, Ready p (Wire.field tag.toNat (.fixed64 v.toNat) ++ rest) →
      p.readFixed64 tag = .ok (.none, p.adv (Wire.field tag.toNat (.fixed64 v.toNat)).length, v) := by
  rw [writeFixed64_eq hw] at h
  have hf : Wire.field tag.toNat (.fixed64 v.toNat) = keyBytes tag wire64 ++ Wire.little 8 v.toNat := by
    rw [keyBytes_eq h0 h1 _ (by decide)]; rfl
  rw [hf]
  refine ⟨field_wrote hw h, fun p rest hp => ?_⟩
  rw [List.append_assoc] at hp
  unfold readFixed64
  rw [readTag_ok h0 hp]
  have hs := readSpace_ok hp.adv
  rw [Wire.little_length] at hs
  simp only [Out.bind_ok, ne_eq, not_true_eq_false, if_false]
  rw [hs]
  simp only [Out.bind_ok, not_true_eq_false, if_false, unle64_little]
  rw [adv_adv, List.length_append, Wire.little_length]
  rfl

/-- **C42**. -/
theorem C42_sfixed32 {w w' : PB} (hw : w.Inv) {tag : Int} (h0 : 0 ≤ tag) (h1 : tag < 2 ^ 31) {v : Int32}
    (h : w.writeSFixed32 tag v = .ok (.none, w')) :
    Wrote w w' (Wire.field tag.toNat (.fixed32 (v.toInt % 2 ^ 32).toNat)) ∧
    ∀ p rest, Ready p (Wire.field tag.toNat (.fixed32 (v.toInt % 2 ^ 32).toNat) ++ rest) →
      p.readSFixed32 tag =
        .ok (.none, p.adv (Wire.field tag.toNat (.fixed32 (v.toInt % 2 ^ 32).toNat)).length, v) := by
  have hn : v.toUInt32.toNat = (v.toInt % 2 ^ 32).toNat := by
    have h : v.toInt = v.toBitVec.toInt := rfl
    have h2 : v.toUInt32.toNat = v.toBitVec.toNat := rfl
    rw [h, h2, BitVec.toInt_eq_toNat_cond]
    have := v.toBitVec.isLt
    split <;> omega
  obtain ⟨a, b⟩ := C42_fixed32 hw h0 h1 h
  rw [hn] at a b
  exact ⟨a, fun p rest hp => by simp [readSFixed32, b p rest hp]⟩

/-- **C42**. -/
theorem C42_sfixed64 {w w' : PB} (hw : w.Inv) {tag : Int} (h0 : 0 ≤ tag) (h1 : tag < 2 ^ 31) {v : Int64}
    (h : w.writeSFixed64 tag v = .ok (.none, w')) :
    Wrote w w' (Wire.field tag.toNat (.fixed64 (v.toInt % 2 ^ 64).toNat)) ∧
    ∀ p rest, Ready p (Wire.field tag.toNat (.fixed64 (v.toInt % 2 ^ 64).toNat) ++ rest) →
      p.readSFixed64 tag =
        .ok (.none, p.adv (Wire.field tag.toNat (.fixed64 (v.toInt % 2 ^ 64).toNat)).length, v) := by
  obtain ⟨a, b⟩ := C42_fixed64 hw h0 h1 h
  rw [i64_nat] at a b
  exact ⟨a, fun p rest hp => by simp [readSFixed64, b p rest hp]⟩

/-- **C42**, on bit patterns. -/
theorem C42_float {w w' : PB} (hw : w.Inv) {tag : Int} (h0 : 0 ≤ tag) (h1 : tag < 2 ^ 31) {v : UInt32}
    (h : w.writeFloat tag v = .ok (.none, w')) :
    Wrote w w' (Wire.field tag.toNat (.fixed32 v.toNat)) ∧
    ∀ p rest, Ready p (Wire.field tag.toNat (.fixed32 v.toNat) ++ rest) →
      p.readFloat tag = .ok (.none, p.adv (Wire.field tag.toNat (.fixed32 v.toNat)).length, v) := by
  obtain ⟨a, b⟩ := C42_fixed32 hw h0 h1 h
  exact ⟨a, fun p rest hp => by simp [readFloat, b p rest hp]⟩

/-- **C42**, on bit patterns. -/
theorem C42_double {w w' : PB} (hw : w.Inv) {tag : Int} (h0 : 0 ≤ tag) (h1 : tag < 2 ^ 31) {v : UInt64}
    (h : w.writeDouble tag v = .ok (.none, w')) :
    Wrote w w' (Wire.field tag.toNat (.fixed64 v.toNat)) ∧
    ∀ p rest, Ready p (Wire.field tag.toNat (.fixed64 v.toNat) ++ rest) →
      p.readDouble tag = .ok (.none, p.adv (Wire.field tag.toNat (.fixed64 v.toNat)).length, v) := by
  obtain ⟨a, b⟩ := C42_fixed64 hw h0 h1 h
  exact ⟨a, fun p rest hp => by simp [readDouble, b p rest hp]⟩

/-! ## Byte strings -/

theorem delim_eq {tag : Int} (h0 : 0 ≤ tag) (h1 : tag < 2 ^ 31) (b : Bytes) :
    Wire.field tag.toNat (.delim b) = keyBytes tag wireDelim ++ (Wire.varint b.length ++ b) := by
  rw [keyBytes_eq h0 h1 _ (by decide)]; rfl

theorem bytes_wrote {w w' : PB} (hw : w.Inv) {tag : Int} (h0 : 0 ≤ tag) (h1 : tag < 2 ^ 31) {b : Bytes}
    (hb : b.length < 2 ^ 64) (h : w.writeBytes tag b = .ok (.none, w')) :
    Wrote w w' (Wire.field tag.toNat (.delim b)) := by
  rw [writeBytes_eq hw tag b hb, fields_puts, ← puts_cons] at h
  cases hp : (w.puts [b, Wire.varint b.length, keyBytes tag wireDelim]).err <;> rw [hp] at h <;> cases h
  have := (puts_wrote hw hp).2.2
  rw [delim_eq h0 h1]
  simpa using this

/-- The three steps common to all read calls of this kind. -/
theorem delim_ready {p : PB} {tag : Int} (h0 : 0 ≤ tag) (h1 : tag < 2 ^ 31) {b rest : Bytes}
    (hb : b.length < 2 ^ 64) (hp : Ready p (Wire.field tag.toNat (.delim b) ++ rest)) :
    p.readTag tag wireDelim = .ok (.none, p.adv (keyBytes tag wireDelim).length) ∧
    ∃ q, (p.adv (keyBytes tag wireDelim).length).readVarint = .ok (.none, q, UInt64.ofNat b.length) ∧
      (UInt64.ofNat b.length).toNat = b.length ∧ q.size = p.size ∧
      Ready q (b ++ rest) ∧ q.adv b.length = p.adv (Wire.field tag.toNat (.delim b)).length ∧
      q.readSpace b.length = .ok (.none, p.adv (Wire.field tag.toNat (.delim b)).length, b) := by
  rw [delim_eq h0 h1] at hp ⊢
  simp only [List.append_assoc] at hp
  refine ⟨readTag_ok h0 hp, _, readVarint_ok hp.adv hb, ?_, rfl, hp.adv.adv, ?_, ?_⟩
  · rw [UInt64.toNat_ofNat', Nat.mod_eq_of_lt hb]
  · rw [adv_adv, adv_adv, List.length_append, List.length_append]
  · rw [readSpace_ok hp.adv.adv, adv_adv, adv_adv, List.length_append, List.length_append]

/-- **C42**, byte strings: read back into memory of sufficient size; memory behind them is untouched. In
memory that is too small nothing is stored. -/
theorem C42_bytes {w w' : PB} (hw : w.Inv) {tag : Int} (h0 : 0 ≤ tag) (h1 : tag < 2 ^ 31) {b : Bytes}
    (hb : b.length < 2 ^ 64) (h : w.writeBytes tag b = .ok (.none, w')) :
    Wrote w w' (Wire.field tag.toNat (.delim b)) ∧
    ∀ p rest mem, Ready p (Wire.field tag.toNat (.delim b) ++ rest) →
      (b.length ≤ mem.length → p.readBytes tag mem =
        .ok (.none, p.adv (Wire.field tag.toNat (.delim b)).length, b ++ mem.drop b.length, b.length)) ∧
      (mem.length < b.length → ∃ q, p.readBytes tag mem = .ok (.invalidFormat, q, mem, 0) ∧
        q.err = .invalidFormat) := by
  refine ⟨bytes_wrote hw h0 h1 hb h, fun p rest mem hp => ?_⟩
  obtain ⟨a1, q, a2, a3, -, -, -, a5⟩ := delim_ready h0 h1 hb hp
  constructor
  · intro hm
    simp only [readBytes, a1, Out.bind_ok, ne_eq, not_true_eq_false, if_false, a2, a3]
    rw [if_neg (by omega), a5]
    simp only [Out.bind_ok, not_true_eq_false, if_false]
    rw [store_ok (by omega)]
    simp
  · intro hm
    simp only [readBytes, a1, Out.bind_ok, ne_eq, not_true_eq_false, if_false, a2, a3]
    rw [if_pos hm]
    exact ⟨_, rfl, rfl⟩

/-- **C42**, byte strings read into new memory; a maximum of 0 means no maximum. An empty byte string gets
a block of one byte. -/
theorem C42_alloc_bytes {w w' : PB} (hw : w.Inv) {tag : Int} (h0 : 0 ≤ tag) (h1 : tag < 2 ^ 31) {b : Bytes}
    (hb : b.length < 2 ^ 64) (h : w.writeBytes tag b = .ok (.none, w')) :
    Wrote w w' (Wire.field tag.toNat (.delim b)) ∧
    ∀ p rest max, Ready p (Wire.field tag.toNat (.delim b) ++ rest) →
      (max = 0 ∨ b.length ≤ max → p.readAllocBytes tag max true =
        .ok (.none, p.adv (Wire.field tag.toNat (.delim b)).length, some (if b = [] then [0] else b),
          b.length)) ∧
      (max ≠ 0 ∧ max < b.length → ∀ m, ∃ q, p.readAllocBytes tag max m = .ok (.invalidFormat, q, none, 0) ∧
        q.err = .invalidFormat) := by
  refine ⟨bytes_wrote hw h0 h1 hb h, fun p rest max hp => ?_⟩
  obtain ⟨a1, q, a2, a3, a4, a6, -, a5⟩ := delim_ready h0 h1 hb hp
  have hr := a6.room
  rw [List.length_append] at hr
  constructor
  · intro hm
    simp only [readAllocBytes, a1, Out.bind_ok, ne_eq, not_true_eq_false, if_false, a2, a3]
    rw [if_neg (by split <;> omega), a5]
    simp only [Out.bind_ok, not_true_eq_false, if_false]
    cases b <;> simp
  · intro hm m
    simp only [readAllocBytes, a1, Out.bind_ok, ne_eq, not_true_eq_false, if_false, a2, a3]
    rw [if_pos (by split <;> omega)]
    exact ⟨_, rfl, rfl⟩

/-! ## Strings -/

theorem string_bytes {w w' : PB} {tag : Int} {s : Bytes} (h : w.writeString tag s = .ok (.none, w')) :
    isUtf8 s.length s = .ok true ∧ w.writeBytes tag s = .ok (.none, w') := by
  unfold writeString at h
  by_cases he : w.err = .none
  · rw [if_neg (by simpa using he)] at h
    obtain ⟨b, hb⟩ := isUtf8_ok s.length s (Nat.le_refl _)
    rw [hb] at h
    cases b
    · simp at h
    · exact ⟨hb, by simpa using h⟩
  · rw [if_pos he] at h
    simp at h
    exact absurd h.1 he

/-- **C42**, strings: read back with a terminating NUL into memory that has room for it; in smaller
memory nothing but the NUL of an empty string is stored. -/
theorem C42_string {w w' : PB} (hw : w.Inv) {tag : Int} (h0 : 0 ≤ tag) (h1 : tag < 2 ^ 31) {s : Bytes}
    (hb : s.length < 2 ^ 64) (h : w.writeString tag s = .ok (.none, w')) :
    Wrote w w' (Wire.field tag.toNat (.delim s)) ∧
    ∀ p rest mem, Ready p (Wire.field tag.toNat (.delim s) ++ rest) →
      (s.length < mem.length → p.readString tag mem =
        .ok (.none, p.adv (Wire.field tag.toNat (.delim s)).length, s ++ 0 :: mem.drop (s.length + 1),
          s.length)) ∧
      (mem ≠ [] ∧ mem.length ≤ s.length → ∃ q, p.readString tag mem =
        .ok (.invalidFormat, q, 0 :: mem.drop 1, 0) ∧ q.err = .invalidFormat) := by
  obtain ⟨hu, hbs⟩ := string_bytes h
  refine ⟨bytes_wrote hw h0 h1 hb hbs, fun p rest mem hp => ?_⟩
  obtain ⟨a1, q, a2, a3, -, -, -, a5⟩ := delim_ready h0 h1 hb hp
  constructor
  · intro hm
    unfold readString
    rw [if_neg (by omega), store_ok (by simp; omega)]
    simp only [Out.bind_ok, a1, ne_eq, not_true_eq_false, if_false, a2, a3]
    rw [if_neg (by simp; omega), a5]
    simp only [Out.bind_ok, not_true_eq_false, if_false, hu, Bool.true_eq_false]
    rw [store_ok (by simp; omega)]
    simp only [Out.bind_ok]
    rw [store_ok (by simp; omega)]
    cases mem with
    | nil => simp at hm
    | cons m ms =>
      simp only [Out.bind_ok, Out.pure_eq, List.take_zero, List.nil_append, List.length_cons, List.length_nil,
        Nat.zero_add, List.drop_succ_cons, List.drop_zero, List.singleton_append, Out.ok.injEq, Prod.mk.injEq,
        true_and, and_true]
      rw [List.take_append_of_le_length (by simp), List.take_length, List.drop_append,
        List.drop_of_length_le (by simp)]
      simp
  · intro ⟨hm0, hm⟩
    cases mem with
    | nil => exact absurd rfl hm0
    | cons m ms =>
      unfold readString
      rw [if_neg (by simp), store_ok (by simp)]
      simp only [Out.bind_ok, a1, ne_eq, not_true_eq_false, if_false, a2, a3]
      rw [if_pos (by simpa using hm)]
      exact ⟨_, rfl, rfl⟩

/-- **C42**, strings read into new memory. -/
theorem C42_alloc_string {w w' : PB} (hw : w.Inv) {tag : Int} (h0 : 0 ≤ tag) (h1 : tag < 2 ^ 31) {s : Bytes}
    (hb : s.length < 2 ^ 64) (h : w.writeString tag s = .ok (.none, w')) :
    Wrote w w' (Wire.field tag.toNat (.delim s)) ∧
    ∀ p rest max, Ready p (Wire.field tag.toNat (.delim s) ++ rest) →
      (max = 0 ∨ s.length ≤ max → p.readAllocString tag max true =
        .ok (.none, p.adv (Wire.field tag.toNat (.delim s)).length, some (s ++ [0]), s.length)) ∧
      (max ≠ 0 ∧ max < s.length → ∀ m, ∃ q, p.readAllocString tag max m = .ok (.invalidFormat, q, none, 0) ∧
        q.err = .invalidFormat) := by
  obtain ⟨hu, hbs⟩ := string_bytes h
  refine ⟨bytes_wrote hw h0 h1 hb hbs, fun p rest max hp => ?_⟩
  obtain ⟨a1, q, a2, a3, a4, a6, -, a5⟩ := delim_ready h0 h1 hb hp
  have hr := a6.room
  rw [List.length_append] at hr
  constructor
  · intro hm
    simp only [readAllocString, a1, Out.bind_ok, ne_eq, not_true_eq_false, if_false, a2, a3]
    rw [if_neg (by split <;> omega), a5]
    simp [hu]
  · intro hm m
    simp only [readAllocString, a1, Out.bind_ok, ne_eq, not_true_eq_false, if_false, a2, a3]
    rw [if_pos (by split <;> omega)]
    exact ⟨_, rfl, rfl⟩

/-- A byte string is written and read back; the memory behind it stays as it is. -/
example : ∃ w', (prepareOutput [1, 2, 3, 4, 5, 6]).writeBytes 1 [7, 8] = .ok (.none, w') ∧
    w' = ⟨some [1, 2, 10, 2, 7, 8], 6, 2, .none⟩ ∧
    (prepareInput [10, 2, 7, 8, 99]).readBytes 1 [0, 0, 55] =
      .ok (.none, (prepareInput [10, 2, 7, 8, 99]).adv 4, [7, 8, 55], 2) :=
  ⟨_, by decide +kernel, rfl, by decide +kernel⟩

end PB
end Noise
