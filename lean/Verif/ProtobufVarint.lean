import Verif.ProtobufRoundtrip
/-!
# Reading integers of any size (C75)
-/

namespace Noise.PB

theorem readTag_eq {p : PB} {rest : Bytes} (h : Ready p rest) {tag : Int} (h0 : 0 < tag) (h1 : tag < 2 ^ 31) (type : Nat)
    (ht : type < 8) :
    (∀ k l, Wire.decode 10 rest = some (k, l) → k % 2 ^ 64 = tag.toNat * 8 + type → p.readTag tag type = .ok (.none, p.adv l)) ∧
    ((∀ k l, Wire.decode 10 rest = some (k, l) → k % 2 ^ 64 ≠ tag.toNat * 8 + type) →
      ∃ q, p.readTag tag type = .ok (.invalidFormat, q)) := by
  have hw := tagWord_nat (by omega) h1 type ht
  obtain ⟨a, b⟩ := readVarint_eq h
  unfold readTag
  rw [if_pos h0]
  refine ⟨fun k l hk he => ?_, fun hn => ?_⟩
  · rw [a k l hk]
    simp only [Out.bind_ok, if_pos]
    rw [if_neg]
    · rfl
    · intro hne
      apply hne
      apply UInt64.toNat_inj.1
      rw [hw, UInt64.toNat_ofNat', he]
  · cases hd : Wire.decode 10 rest with
    | none =>
      obtain ⟨k, w, -, e⟩ := b hd
      rw [e]
      exact ⟨_, rfl⟩
    | some x =>
      obtain ⟨k, l⟩ := x
      rw [a k l hd]
      simp only [Out.bind_ok, if_pos]
      rw [if_pos]
      · exact ⟨_, rfl⟩
      · intro e
        refine hn k l hd ?_
        rw [← hw, e, UInt64.toNat_ofNat']

/-- The bytes are a field with the given tag and a number: the value, and the lengths of the two parts. -/
def Wire.field (tag : Int) (rest : Bytes) : Option (Nat × Nat) :=
  match Wire.decode 10 rest with
  | none => none
  | some (k, l) =>
    if k % 2 ^ 64 = tag.toNat * 8 then (Wire.decode 10 (rest.drop l)).map fun (v, l') => (v, l + l') else none

theorem readInteger_eq {p : PB} {rest : Bytes} (h : Ready p rest) {tag : Int} (h0 : 0 < tag) (h1 : tag < 2 ^ 31) :
    (∀ v l, Wire.field tag rest = some (v, l) → p.readInteger tag = .ok (.none, p.adv l, UInt64.ofNat v)) ∧
    (Wire.field tag rest = none → ∃ q w, p.readInteger tag = .ok (.invalidFormat, q, w)) := by
  obtain ⟨a, b⟩ := readTag_eq h h0 h1 wireVarint (by decide)
  unfold readInteger Wire.field
  cases hd : Wire.decode 10 rest with
  | none =>
    refine ⟨fun v l e => (nomatch e), fun _ => ?_⟩
    obtain ⟨q, e⟩ := b fun k l hk => by rw [hd] at hk; cases hk
    rw [e]
    exact ⟨q, 0, rfl⟩
  | some x =>
    obtain ⟨k, l⟩ := x
    dsimp only
    by_cases c : k % 2 ^ 64 = tag.toNat * 8
    · rw [if_pos c, a k l hd c]
      have hr := h.drop (n := l) (Wire.decode_length hd).1
      obtain ⟨a', b'⟩ := readVarint_eq hr
      simp only [Out.bind_ok]
      rw [if_neg (by decide)]
      refine ⟨fun v l2 e => ?_, fun e => ?_⟩
      · cases hd2 : Wire.decode 10 (rest.drop l) with
        | none => rw [hd2] at e; cases e
        | some y =>
          rw [hd2] at e
          cases e
          rw [a' _ _ hd2, adv_adv]
      · cases hd2 : Wire.decode 10 (rest.drop l) with
        | none =>
          obtain ⟨k', w, -, e'⟩ := b' hd2
          exact ⟨_, _, e'⟩
        | some y => rw [hd2] at e; cases e
    · rw [if_neg c]
      refine ⟨fun v l e => (nomatch e), fun _ => ?_⟩
      obtain ⟨q, e⟩ := b fun k' l' hk => by rw [hd] at hk; cases hk; exact c
      rw [e]
      exact ⟨q, 0, rfl⟩

/-- **C75.** An integer field is read as the number it encodes, converted to the type as in C (modulo 2^64 or 2^32), and
consumes exactly the field. -/
theorem C75_value {p : PB} {rest : Bytes} (h : Ready p rest) {tag : Int} (h0 : 0 < tag) (h1 : tag < 2 ^ 31) (v l : Nat)
    (hf : Wire.field tag rest = some (v, l)) :
    p.readUInt64 tag = .ok (.none, p.adv l, UInt64.ofNat v) ∧ p.readUInt32 tag = .ok (.none, p.adv l, UInt32.ofNat v) ∧
    p.readInt64 tag = .ok (.none, p.adv l, Int64.ofNat v) ∧ p.readInt32 tag = .ok (.none, p.adv l, Int32.ofNat v) ∧
    p.readBool tag = .ok (.none, p.adv l, if v % 2 ^ 64 = 0 then 0 else 1) := by
  have e := (readInteger_eq h h0 h1).1 v l hf
  have e32 : (UInt64.ofNat v).toUInt32 = UInt32.ofNat v := by
    apply UInt32.toNat_inj.1
    rw [UInt64.toNat_toUInt32, UInt64.toNat_ofNat', UInt32.toNat_ofNat']
    exact Nat.mod_mod_of_dvd _ ⟨2 ^ 32, by decide⟩
  refine ⟨?_, ?_, ?_, ?_, ?_⟩
  · unfold readUInt64; rw [e]; rfl
  · unfold readUInt32; rw [e]; simp only [Out.bind_ok]; rw [if_neg (by decide), e32]; rfl
  · unfold readInt64; rw [e]; rfl
  · unfold readInt32; rw [e]; simp only [Out.bind_ok]; rw [if_neg (by decide), e32]; rfl
  · unfold readBool
    rw [e]
    simp only [Out.bind_ok]
    rw [if_neg (by decide)]
    have : (UInt64.ofNat v ≠ 0) ↔ ¬ v % 2 ^ 64 = 0 := by
      rw [ne_eq, ← UInt64.toNat_inj, UInt64.toNat_ofNat']
      rfl
    by_cases c : v % 2 ^ 64 = 0
    · rw [if_pos c, if_neg (fun n => this.1 n c)]; rfl
    · rw [if_neg c, if_pos (this.2 c)]; rfl

/-- **C75.** Anything else is refused: another tag or wire type, a number of more than ten bytes, or the end of the input. -/
theorem C75_refused {p : PB} {rest : Bytes} (h : Ready p rest) {tag : Int} (h0 : 0 < tag) (h1 : tag < 2 ^ 31)
    (hf : Wire.field tag rest = none) :
    (∃ q, p.readUInt64 tag = .ok (.invalidFormat, q, 0)) ∧ (∃ q, p.readUInt32 tag = .ok (.invalidFormat, q, 0)) ∧
    (∃ q, p.readInt64 tag = .ok (.invalidFormat, q, 0)) ∧ (∃ q, p.readInt32 tag = .ok (.invalidFormat, q, 0)) ∧
    ∃ q, p.readBool tag = .ok (.invalidFormat, q, 0) := by
  obtain ⟨q, w, e⟩ := (readInteger_eq h h0 h1).2 hf
  unfold readUInt64 readUInt32 readInt64 readInt32 readBool
  rw [e]
  exact ⟨⟨q, rfl⟩, ⟨q, rfl⟩, ⟨q, rfl⟩, ⟨q, rfl⟩, ⟨q, rfl⟩⟩

/-- The number 2^64 in ten bytes under the tag 1 is read as 0. -/
example : Wire.field 1 [8, 0x80, 0x80, 0x80, 0x80, 0x80, 0x80, 0x80, 0x80, 0x80, 2] = some (2 ^ 64, 11) ∧
    Wire.field 2 [8, 1] = none ∧ Wire.field 1 [8, 0x80, 0x80, 0x80, 0x80, 0x80, 0x80, 0x80, 0x80, 0x80, 0x80, 0] = none ∧
    Wire.field 1 [0x88, 0, 0x83, 0] = some (3, 4) := by decide

/-- A reader at the start of these bytes. -/
example : Ready ⟨some [8, 0x80, 0x80, 0x80, 0x80, 0x80, 0x80, 0x80, 0x80, 0x80, 2], 11, 0, .none⟩
    [8, 0x80, 0x80, 0x80, 0x80, 0x80, 0x80, 0x80, 0x80, 0x80, 2] :=
  ⟨⟨by decide, by simp⟩, rfl, ⟨_, rfl, rfl⟩⟩

end Noise.PB
