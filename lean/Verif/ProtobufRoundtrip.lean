import Verif.ProtobufRead
/-!
# What is written is read back (C41, C42)

Every theorem has the same form: if a write call succeeds, it puts the field (in the wire format) in
front of what is there, and on every input that goes on with this field the matching read call succeeds,
returns the value and consumes exactly the field.
-/

namespace Noise

namespace Wire
/-- Zigzag coding of a signed number. -/
def zigzag (i : Int) : Nat := if 0 ≤ i then 2 * i.toNat else 2 * (-i).toNat - 1
end Wire

namespace PB

/-- `bs` was put in front of what had been written. -/
structure Wrote (w w' : PB) (bs : Bytes) : Prop where
  posn : w'.posn + bs.length = w.posn
  size : w'.size = w.size
  err : w'.err = .none
  data : ∀ d, w.data = some d → ∃ d', w'.data = some d' ∧ d'.length = d.length ∧
    d'.drop w'.posn = bs ++ d.drop w.posn

theorem puts_wrote {w : PB} (h : w.Inv) {l : List Bytes} (he : (w.puts l).err = .none) :
    w.err = .none ∧ l.flatten.length ≤ w.posn ∧ Wrote w (w.puts l) l.reverse.flatten := by
  have hwe : w.err = .none := by
    by_cases hwe : w.err = .none
    · exact hwe
    · rw [puts_err hwe] at he; exact absurd he hwe
  have hl : l.flatten.length ≤ w.posn := by
    rcases Nat.lt_or_ge w.posn l.flatten.length with hl | hl
    · rw [puts_full h hwe l hl] at he; cases he
    · exact hl
  have hlen : l.reverse.flatten.length = l.flatten.length := by simp [List.length_flatten]
  refine ⟨hwe, hl, ?_⟩
  rw [puts_ok h hwe l hl]
  refine ⟨by show w.posn - _ + _ = _; omega, rfl, hwe, ?_⟩
  intro d hd
  have h1 := h.size d hd
  have h2 := h.posn
  refine ⟨d.take (w.posn - l.reverse.flatten.length) ++ l.reverse.flatten ++ d.drop w.posn, ?_, ?_, ?_⟩
  · simp only [push, hd, Option.map_some]
  · rw [List.length_append, List.length_append, List.length_take, List.length_drop]; omega
  · show List.drop (w.posn - l.reverse.flatten.length) _ = _
    have hm : (d.take (w.posn - l.reverse.flatten.length)).length = w.posn - l.reverse.flatten.length := by
      rw [List.length_take]; omega
    rw [List.append_assoc, List.drop_append, List.drop_of_length_le (by omega), hm]
    simp

theorem field_wrote {w w' : PB} (h : w.Inv) {tag : Int} {type : Nat} {bs : Bytes}
    (he : (.ok (w.putField tag type bs) : Out (Err × PB)) = .ok (.none, w')) :
    Wrote w w' (keyBytes tag type ++ bs) := by
  rw [fields_puts] at he
  cases hp : (w.puts [bs, keyBytes tag type]).err <;> rw [hp] at he <;> cases he
  have := (puts_wrote h hp).2.2
  simpa using this

theorem readInteger_ok {p : PB} {tag : Int} (h0 : 0 ≤ tag) {v : Nat} {rest : Bytes}
    (h : Ready p (keyBytes tag wireVarint ++ (Wire.varint v ++ rest))) (hv : v < 2 ^ 64) :
    p.readInteger tag =
      .ok (.none, p.adv ((keyBytes tag wireVarint).length + (Wire.varint v).length), UInt64.ofNat v) := by
  unfold readInteger
  rw [readTag_ok h0 h]
  simp only [Out.bind_ok, ne_eq, not_true_eq_false, if_false]
  rw [readVarint_ok h.adv hv, adv_adv]

/-- The common part of the theorems about integers. -/
theorem varint_trip {w w' : PB} (hw : w.Inv) {tag : Int} (h0 : 0 ≤ tag) (h1 : tag < 2 ^ 31) {v : UInt64}
    (h : w.writeInteger tag v = .ok (.none, w')) {n : Nat} (hn : v.toNat = n) :
    Wrote w w' (Wire.field tag.toNat (.varint n)) ∧
    ∀ p rest, Ready p (Wire.field tag.toNat (.varint n) ++ rest) →
      p.readInteger tag = .ok (.none, p.adv (Wire.field tag.toNat (.varint n)).length, v) := by
  subst hn
  rw [writeInteger_eq hw] at h
  have hf : Wire.field tag.toNat (.varint v.toNat) = keyBytes tag wireVarint ++ Wire.varint v.toNat := by
    rw [keyBytes_eq h0 h1 _ (by decide)]; rfl
  rw [hf]
  refine ⟨field_wrote hw h, fun p rest hp => ?_⟩
  rw [List.append_assoc] at hp
  rw [readInteger_ok h0 hp v.toNat_lt, List.length_append, UInt64.ofNat_toNat]

/-- **C41**. -/
theorem C41_uint64 {w w' : PB} (hw : w.Inv) {tag : Int} (h0 : 0 ≤ tag) (h1 : tag < 2 ^ 31) {v : UInt64}
    (h : w.writeUInt64 tag v = .ok (.none, w')) :
    Wrote w w' (Wire.field tag.toNat (.varint v.toNat)) ∧
    ∀ p rest, Ready p (Wire.field tag.toNat (.varint v.toNat) ++ rest) →
      p.readUInt64 tag = .ok (.none, p.adv (Wire.field tag.toNat (.varint v.toNat)).length, v) := by
  obtain ⟨a, b⟩ := varint_trip hw h0 h1 h rfl
  exact ⟨a, fun p rest hp => by simp [readUInt64, b p rest hp]⟩

/-- **C41**. -/
theorem C41_uint32 {w w' : PB} (hw : w.Inv) {tag : Int} (h0 : 0 ≤ tag) (h1 : tag < 2 ^ 31) {v : UInt32}
    (h : w.writeUInt32 tag v = .ok (.none, w')) :
    Wrote w w' (Wire.field tag.toNat (.varint v.toNat)) ∧
    ∀ p rest, Ready p (Wire.field tag.toNat (.varint v.toNat) ++ rest) →
      p.readUInt32 tag = .ok (.none, p.adv (Wire.field tag.toNat (.varint v.toNat)).length, v) := by
  obtain ⟨a, b⟩ := varint_trip hw h0 h1 h (UInt32.toNat_toUInt64 v)
  exact ⟨a, fun p rest hp => by simp [readUInt32, b p rest hp]⟩

theorem i64_nat (v : Int64) : v.toUInt64.toNat = (v.toInt % 2 ^ 64).toNat := by
  have h : v.toInt = v.toBitVec.toInt := rfl
  have h2 : v.toUInt64.toNat = v.toBitVec.toNat := rfl
  rw [h, h2, BitVec.toInt_eq_toNat_cond]
  have := v.toBitVec.isLt
  split <;> omega

/-- **C41**. -/
theorem C41_int64 {w w' : PB} (hw : w.Inv) {tag : Int} (h0 : 0 ≤ tag) (h1 : tag < 2 ^ 31) {v : Int64}
    (h : w.writeInt64 tag v = .ok (.none, w')) :
    Wrote w w' (Wire.field tag.toNat (.varint (v.toInt % 2 ^ 64).toNat)) ∧
    ∀ p rest, Ready p (Wire.field tag.toNat (.varint (v.toInt % 2 ^ 64).toNat) ++ rest) →
      p.readInt64 tag =
        .ok (.none, p.adv (Wire.field tag.toNat (.varint (v.toInt % 2 ^ 64).toNat)).length, v) := by
  obtain ⟨a, b⟩ := varint_trip hw h0 h1 h (i64_nat v)
  exact ⟨a, fun p rest hp => by simp [readInt64, b p rest hp]⟩

/-- **C41**. Negative numbers take ten bytes, as in the wire format. -/
theorem C41_int32 {w w' : PB} (hw : w.Inv) {tag : Int} (h0 : 0 ≤ tag) (h1 : tag < 2 ^ 31) {v : Int32}
    (h : w.writeInt32 tag v = .ok (.none, w')) :
    Wrote w w' (Wire.field tag.toNat (.varint (v.toInt % 2 ^ 64).toNat)) ∧
    ∀ p rest, Ready p (Wire.field tag.toNat (.varint (v.toInt % 2 ^ 64).toNat) ++ rest) →
      p.readInt32 tag =
        .ok (.none, p.adv (Wire.field tag.toNat (.varint (v.toInt % 2 ^ 64).toNat)).length, v) := by
  obtain ⟨a, b⟩ := varint_trip hw h0 h1 h (n := (v.toInt % 2 ^ 64).toNat) (by
    rw [i64_nat, Int32.toInt_toInt64])
  refine ⟨a, fun p rest hp => ?_⟩
  have hv : v.toInt64.toUInt64.toUInt32.toInt32 = v := by
    apply Int32.toInt_inj.1
    have e1 : v.toInt64.toUInt64.toUInt32.toNat = (v.toInt % 2 ^ 64).toNat % 2 ^ 32 := by
      rw [UInt64.toNat_toUInt32, i64_nat, Int32.toInt_toInt64]
    have h1 := Int32.le_toInt v
    have h2 := Int32.toInt_lt v
    have h3 : v.toInt64.toUInt64.toUInt32.toInt32.toInt =
        v.toInt64.toUInt64.toUInt32.toBitVec.toInt := rfl
    rw [h3, BitVec.toInt_eq_toNat_cond]
    have h4 : v.toInt64.toUInt64.toUInt32.toBitVec.toNat = v.toInt64.toUInt64.toUInt32.toNat := rfl
    rw [h4, e1]
    split <;> omega
  simp [readInt32, b p rest hp, hv]

/-- **C41**. Every true value is read back as 1. -/
theorem C41_bool {w w' : PB} (hw : w.Inv) {tag : Int} (h0 : 0 ≤ tag) (h1 : tag < 2 ^ 31) {v : Int32}
    (h : w.writeBool tag v = .ok (.none, w')) :
    Wrote w w' (Wire.field tag.toNat (.varint (if v = 0 then 0 else 1))) ∧
    ∀ p rest, Ready p (Wire.field tag.toNat (.varint (if v = 0 then 0 else 1)) ++ rest) →
      p.readBool tag = .ok (.none, p.adv (Wire.field tag.toNat (.varint (if v = 0 then 0 else 1))).length,
        if v = 0 then 0 else 1) := by
  by_cases hv : v = 0
  · simp only [hv, if_true]
    simp only [hv, writeBool, ne_eq, not_true_eq_false, if_false] at h
    obtain ⟨a, b⟩ := varint_trip hw h0 h1 h (n := 0) rfl
    exact ⟨a, fun p rest hp => by simp [readBool, b p rest hp]⟩
  · simp only [hv, if_false]
    simp only [hv, writeBool, ne_eq, not_false_eq_true, if_true] at h
    obtain ⟨a, b⟩ := varint_trip hw h0 h1 h (n := 1) rfl
    exact ⟨a, fun p rest hp => by simp [readBool, b p rest hp]⟩

/-! ### Zigzag -/

theorem sshift_top {w : Nat} (x : BitVec (w + 1)) :
    x.sshiftRight w = if x.msb then BitVec.allOnes (w + 1) else 0#(w + 1) := by
  apply BitVec.eq_of_getLsbD_eq
  intro i hi
  rw [BitVec.getLsbD_sshiftRight, BitVec.msb_eq_getLsbD_last]
  simp only [Nat.add_sub_cancel]
  by_cases h0 : i = 0
  · subst h0
    cases h : x.getLsbD w <;> simp [show ¬ (w + 1 ≤ 0) by omega]
  · rw [if_neg (by omega)]
    have hi' : ¬ (w + 1 ≤ i) := by omega
    cases h : x.getLsbD w <;> simp [hi', hi]

theorem zz_nat {w : Nat} (x : BitVec (w + 1)) :
    ((x <<< 1) ^^^ (x.sshiftRight w)).toNat = Wire.zigzag x.toInt := by
  have hx := x.isLt
  rw [sshift_top]
  unfold Wire.zigzag
  rw [BitVec.toInt_eq_msb_cond]
  have hp : (2 : Nat) ^ (w + 1) = 2 * 2 ^ w := by rw [Nat.pow_succ]; omega
  have hpos : 0 < (2 : Nat) ^ w := Nat.pow_pos (by omega)
  have hms := BitVec.msb_eq_decide x
  simp only [Nat.add_sub_cancel] at hms
  cases hm : x.msb with
  | false =>
    rw [hm] at hms
    have : ¬ 2 ^ w ≤ x.toNat := by simpa using hms.symm
    simp only [Bool.false_eq_true, if_false, BitVec.xor_zero, BitVec.toNat_shiftLeft, Nat.shiftLeft_eq]
    rw [if_pos (by omega), Nat.mod_eq_of_lt (by omega)]
    omega
  | true =>
    rw [hm] at hms
    have hge : 2 ^ w ≤ x.toNat := by simpa using hms.symm
    simp only [if_true, BitVec.xor_allOnes, BitVec.toNat_not, BitVec.toNat_shiftLeft, Nat.shiftLeft_eq]
    have hmod : x.toNat * 2 ^ 1 % 2 ^ (w + 1) = 2 * x.toNat - 2 ^ (w + 1) := by
      rw [show x.toNat * 2 ^ 1 = (2 * x.toNat - 2 ^ (w + 1)) + 2 ^ (w + 1) by omega, Nat.add_mod_right,
        Nat.mod_eq_of_lt (by omega)]
    rw [hmod]
    have hc : ((2 ^ (w + 1) : Nat) : Int) = 2 * ((2 ^ w : Nat) : Int) := by rw [hp]; push_cast; rfl
    simp only [hp] at *
    generalize 2 ^ w = t at *
    rw [if_neg (by omega)]
    omega

theorem zigzag64_nat (v : Int64) : (zigzag64 v).toNat = Wire.zigzag v.toInt := by
  have e : (zigzag64 v).toBitVec = (v.toBitVec <<< 1) ^^^ (v.toBitVec.sshiftRight 63) := by
    simp [zigzag64]
  exact (congrArg BitVec.toNat e).trans (zz_nat (w := 63) v.toBitVec)

theorem zigzag32_nat (v : Int32) : (zigzag32 v).toNat = Wire.zigzag v.toInt := by
  have e : ((v.toUInt32 <<< 1) ^^^ (v >>> 31).toUInt32).toBitVec =
      (v.toBitVec <<< 1) ^^^ (v.toBitVec.sshiftRight 31) := by simp
  have e2 : (zigzag32 v).toNat = ((v.toUInt32 <<< 1) ^^^ (v >>> 31).toUInt32).toNat := by
    simp [zigzag32]
  rw [e2]
  exact (congrArg BitVec.toNat e).trans (zz_nat (w := 31) v.toBitVec)

/-- The arithmetic of decoding. -/
theorem unzz {w : Nat} (y : BitVec (w + 1)) (b : Bool) :
    (y ^^^ -(if b then 1#(w + 1) else 0#(w + 1))).toInt = if b then -1 - y.toInt else y.toInt := by
  cases b with
  | false => simp
  | true =>
    have : -(1#(w + 1)) = BitVec.allOnes (w + 1) := BitVec.neg_one_eq_allOnes
    simp only [if_true, this, BitVec.xor_allOnes]
    have hy := y.isLt
    rw [BitVec.toInt_eq_toNat_cond, BitVec.toInt_eq_toNat_cond, BitVec.toNat_not]
    have hp : (2 : Nat) ^ (w + 1) = 2 * 2 ^ w := by rw [Nat.pow_succ]; omega
    simp only [hp] at *
    generalize 2 ^ w = t at *
    split <;> split <;> omega

theorem unzigzag64_int (v : UInt64) :
    (unzigzag64 v).toInt = if v.toNat % 2 = 0 then ((v.toNat / 2 : Nat) : Int) else -1 - ((v.toNat / 2 : Nat) : Int) := by
  have e : (unzigzag64 v).toBitVec =
      (v.toBitVec >>> 1) ^^^ -(if v.toNat % 2 = 1 then 1#64 else 0#64) := by
    have h1 : v.toBitVec &&& 1#64 = if v.toNat % 2 = 1 then 1#64 else 0#64 := by
      apply BitVec.eq_of_toNat_eq
      rw [BitVec.toNat_and]
      simp only [BitVec.toNat_ofNat, UInt64.toNat_toBitVec]
      rw [show 1 % 2 ^ 64 = 2 ^ 1 - 1 by decide, Nat.and_two_pow_sub_one_eq_mod]
      split <;> simp <;> omega
    simp [unzigzag64, h1]
  have h2 := unzz (w := 63) (v.toBitVec >>> 1) (decide (v.toNat % 2 = 1))
  simp only [decide_eq_true_eq] at h2
  have h3 : (unzigzag64 v).toInt = (unzigzag64 v).toBitVec.toInt := rfl
  rw [h3, e, h2]
  have h4 : (v.toBitVec >>> 1).toInt = ((v.toNat / 2 : Nat) : Int) := by
    rw [BitVec.toInt_eq_toNat_cond, BitVec.toNat_ushiftRight, Nat.shiftRight_eq_div_pow]
    have := v.toNat_lt
    rw [if_pos (by simp only [UInt64.toNat_toBitVec]; omega)]
    rfl
  rw [h4]
  split <;> split <;> omega

theorem unzigzag32_int (v : UInt64) (hv : v.toNat < 2 ^ 32) :
    (unzigzag32 v).toInt = if v.toNat % 2 = 0 then ((v.toNat / 2 : Nat) : Int) else -1 - ((v.toNat / 2 : Nat) : Int) := by
  have hs : (v >>> 1).toNat = v.toNat / 2 := u64_shr v (n := 1) rfl (by omega)
  have ha : (v &&& 1).toNat = v.toNat % 2 := by
    rw [UInt64.toNat_and]
    exact Nat.and_two_pow_sub_one_eq_mod v.toNat 1
  have e : (unzigzag32 v).toBitVec =
      BitVec.ofNat 32 (v.toNat / 2) ^^^ -(if v.toNat % 2 = 1 then 1#32 else 0#32) := by
    have h1 : (v &&& 1).toUInt32.toBitVec = if v.toNat % 2 = 1 then 1#32 else 0#32 := by
      apply BitVec.eq_of_toNat_eq
      show (v &&& 1).toUInt32.toNat = _
      rw [UInt64.toNat_toUInt32, ha]
      split <;> simp <;> omega
    have h2 : (v >>> 1).toUInt32.toBitVec = BitVec.ofNat 32 (v.toNat / 2) := by
      apply BitVec.eq_of_toNat_eq
      show (v >>> 1).toUInt32.toNat = _
      rw [UInt64.toNat_toUInt32, hs]
      simp
    show (v >>> 1).toUInt32.toBitVec ^^^ -(v &&& 1).toUInt32.toBitVec = _
    rw [h1, h2]
  have h2 := unzz (w := 31) (BitVec.ofNat 32 (v.toNat / 2)) (decide (v.toNat % 2 = 1))
  simp only [decide_eq_true_eq] at h2
  have h3 : (unzigzag32 v).toInt = (unzigzag32 v).toBitVec.toInt := rfl
  rw [h3, e, h2]
  have h4 : (BitVec.ofNat 32 (v.toNat / 2)).toInt = ((v.toNat / 2 : Nat) : Int) := by
    rw [BitVec.toInt_eq_toNat_cond, BitVec.toNat_ofNat, Nat.mod_eq_of_lt (by omega), if_pos (by omega)]
  rw [h4]
  split <;> split <;> omega

theorem unzigzag64_zigzag (v : Int64) : unzigzag64 (zigzag64 v) = v := by
  apply Int64.toInt_inj.1
  rw [unzigzag64_int, zigzag64_nat]
  unfold Wire.zigzag
  split <;> split <;> omega

theorem unzigzag32_zigzag (v : Int32) : unzigzag32 (zigzag32 v) = v := by
  apply Int32.toInt_inj.1
  have h1 := Int32.le_toInt v
  have h2 := Int32.toInt_lt v
  rw [unzigzag32_int, zigzag32_nat]
  · unfold Wire.zigzag
    split <;> split <;> omega
  · rw [zigzag32_nat]
    unfold Wire.zigzag
    split <;> omega

/-- **C41**. -/
theorem C41_sint64 {w w' : PB} (hw : w.Inv) {tag : Int} (h0 : 0 ≤ tag) (h1 : tag < 2 ^ 31) {v : Int64}
    (h : w.writeSInt64 tag v = .ok (.none, w')) :
    Wrote w w' (Wire.field tag.toNat (.varint (Wire.zigzag v.toInt))) ∧
    ∀ p rest, Ready p (Wire.field tag.toNat (.varint (Wire.zigzag v.toInt)) ++ rest) →
      p.readSInt64 tag =
        .ok (.none, p.adv (Wire.field tag.toNat (.varint (Wire.zigzag v.toInt))).length, v) := by
  obtain ⟨a, b⟩ := varint_trip hw h0 h1 h (zigzag64_nat v)
  exact ⟨a, fun p rest hp => by simp [readSInt64, b p rest hp, unzigzag64_zigzag]⟩

/-- **C41**. -/
theorem C41_sint32 {w w' : PB} (hw : w.Inv) {tag : Int} (h0 : 0 ≤ tag) (h1 : tag < 2 ^ 31) {v : Int32}
    (h : w.writeSInt32 tag v = .ok (.none, w')) :
    Wrote w w' (Wire.field tag.toNat (.varint (Wire.zigzag v.toInt))) ∧
    ∀ p rest, Ready p (Wire.field tag.toNat (.varint (Wire.zigzag v.toInt)) ++ rest) →
      p.readSInt32 tag =
        .ok (.none, p.adv (Wire.field tag.toNat (.varint (Wire.zigzag v.toInt))).length, v) := by
  obtain ⟨a, b⟩ := varint_trip hw h0 h1 h (zigzag32_nat v)
  exact ⟨a, fun p rest hp => by simp [readSInt32, b p rest hp, unzigzag32_zigzag]⟩

/-- A field is written and read back, with data behind it. -/
example : ∃ w', (prepareOutput [1, 2, 3, 4, 5, 6]).writeSInt32 5 (-200) = .ok (.none, w') ∧
    w' = ⟨some [1, 2, 3, 40, 0x8F, 3], 6, 3, .none⟩ ∧
    (prepareInput [40, 0x8F, 3, 99]).readSInt32 5 = .ok (.none, (prepareInput [40, 0x8F, 3, 99]).adv 3, -200) :=
  ⟨_, by decide +kernel, rfl, by decide +kernel⟩

end PB
end Noise
