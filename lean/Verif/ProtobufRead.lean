import Verif.ProtobufWrite
/-!
# Reading protobuf fields

The exact behaviour of the primitives that read, on every input.
-/

namespace Noise

namespace Wire

/-- Decoding a varint of at most `k` bytes at the start of a byte string: its value and its length. -/
def decode : Nat → Bytes → Option (Nat × Nat)
  | 0, _ => none
  | _ + 1, [] => none
  | k + 1, b :: bs =>
    if b.toNat < 128 then some (b.toNat, 1)
    else (decode k bs).map fun (v, l) => (b.toNat % 128 + 128 * v, l + 1)

theorem decode_varint (k n : Nat) (h : n < 128 ^ (k + 1)) (rest : Bytes) :
    decode (k + 1) (varint n ++ rest) = some (n, (varint n).length) := by
  induction k generalizing n with
  | zero =>
    rw [varint, if_pos (by simpa using h)]
    have hn : n < 128 := by simpa using h
    have : (UInt8.ofNat n).toNat = n := by rw [UInt8.toNat_ofNat', Nat.mod_eq_of_lt (by omega)]
    simp [decode, this, hn]
  | succ k ih =>
    rw [varint]
    split
    · next hn =>
      have : (UInt8.ofNat n).toNat = n := by rw [UInt8.toNat_ofNat', Nat.mod_eq_of_lt (by omega)]
      simp [decode, this, hn]
    · next hn =>
      have : (UInt8.ofNat (n % 128 + 128)).toNat = n % 128 + 128 := by
        rw [UInt8.toNat_ofNat', Nat.mod_eq_of_lt (by omega)]
      rw [List.cons_append, decode, if_neg (by rw [this]; omega),
        ih (n / 128) (by rw [Nat.div_lt_iff_lt_mul (by omega), ← Nat.pow_succ]; exact h)]
      simp only [this, Option.map_some, List.length_cons, Option.some.injEq, Prod.mk.injEq, and_true]
      omega

theorem decode_length {k : Nat} {bs : Bytes} {v l : Nat} (h : decode k bs = some (v, l)) :
    l ≤ bs.length ∧ 1 ≤ l ∧ l ≤ k := by
  induction k generalizing bs v l with
  | zero => cases h
  | succ k ih =>
    cases bs with
    | nil => cases h
    | cons b bs =>
      simp only [decode] at h
      split at h
      · cases h; simp
      · cases hd : decode k bs with
        | none => rw [hd] at h; cases h
        | some x =>
          rw [hd] at h
          cases h
          obtain ⟨h1, h2, h3⟩ := ih hd
          simp; omega

theorem varint_pos (n : Nat) : 0 < (varint n).length := by
  rw [varint]; split <;> simp

theorem little_length (k n : Nat) : (little k n).length = k := by
  induction k generalizing n with
  | zero => rfl
  | succ k ih => simp [little, ih]

end Wire

namespace PB

/-- Moving the position. -/
def adv (p : PB) (n : Nat) : PB := { p with posn := p.posn + n }

/-- The structure is reading, has seen no error, and `rest` is what is left. -/
structure Ready (p : PB) (rest : Bytes) : Prop where
  inv : p.Inv
  err : p.err = .none
  data : ∃ d, p.data = some d ∧ d.drop p.posn = rest

@[simp] theorem adv_data (p : PB) (n : Nat) : (p.adv n).data = p.data := rfl
@[simp] theorem adv_size (p : PB) (n : Nat) : (p.adv n).size = p.size := rfl
@[simp] theorem adv_posn (p : PB) (n : Nat) : (p.adv n).posn = p.posn + n := rfl
@[simp] theorem adv_err (p : PB) (n : Nat) : (p.adv n).err = p.err := rfl
@[simp] theorem adv_zero (p : PB) : p.adv 0 = p := rfl
theorem adv_adv (p : PB) (m n : Nat) : (p.adv m).adv n = p.adv (m + n) := by simp [adv, Nat.add_assoc]

theorem Ready.room {p : PB} {rest : Bytes} (h : Ready p rest) : p.size - p.posn = rest.length := by
  obtain ⟨d, hd, rfl⟩ := h.data
  rw [← h.inv.size d hd]; simp

theorem Ready.drop {p : PB} {rest : Bytes} (h : Ready p rest) {n : Nat} (hn : n ≤ rest.length) :
    Ready (p.adv n) (rest.drop n) := by
  have hr := h.room
  have hp := h.inv.posn
  obtain ⟨d, hd, rfl⟩ := h.data
  refine ⟨⟨by simp only [adv_posn, adv_size]; omega, h.inv.size⟩, h.err, d, hd, ?_⟩
  rw [List.drop_drop]; rfl

theorem Ready.adv {p : PB} {a rest : Bytes} (h : Ready p (a ++ rest)) : Ready (p.adv a.length) rest := by
  have := h.drop (n := a.length) (by simp)
  rwa [List.drop_left] at this

theorem prepareInput_ready (d : Bytes) : Ready (prepareInput d) d := ⟨prepareInput_inv d, rfl, d, rfl, rfl⟩

theorem byteAt_drop {d : Bytes} {n : Nat} {b : UInt8} {bs : Bytes} (h : d.drop n = b :: bs) :
    byteAt d n = .ok b := by
  have : d[n]? = some b := by
    have h1 := congrArg (fun l => l[0]?) h
    simpa [List.getElem?_drop] using h1
  simp [byteAt, this]

theorem u8_top (b : UInt8) : (b &&& 0x80 = 0) ↔ b.toNat < 128 := by
  have h : ∀ n, n < 256 → ((UInt8.ofNat n &&& 0x80 = 0) ↔ (UInt8.ofNat n).toNat < 128) := by decide +kernel
  have := h b.toNat b.toNat_lt
  rwa [UInt8.ofNat_toNat] at this

theorem group_val (acc : UInt64) (ch : UInt8) (s : Nat) (hs : s < 64) (ha : acc.toNat < 2 ^ s) :
    (acc ||| ((ch &&& 0x7F).toUInt64 <<< UInt64.ofNat s)).toNat =
      (acc.toNat + ch.toNat % 128 * 2 ^ s) % 2 ^ 64 := by
  have e1 : (ch &&& 0x7F).toUInt64.toNat = ch.toNat % 128 := by
    rw [u8_and7F, UInt8.toNat_toUInt64, UInt8.toNat_ofNat', Nat.mod_eq_of_lt (by omega)]
  have e2 : (UInt64.ofNat s).toNat % 64 = s := by
    rw [UInt64.toNat_ofNat', Nat.mod_eq_of_lt (a := s) (by omega), Nat.mod_eq_of_lt hs]
  rw [UInt64.toNat_or, UInt64.toNat_shiftLeft, e1, e2, Nat.shiftLeft_eq]
  generalize ch.toNat % 128 = c
  have hm : (2 : Nat) ^ 64 = 2 ^ (64 - s) * 2 ^ s := by rw [← Nat.pow_add]; congr 1; omega
  have hmp : 0 < (2 : Nat) ^ (64 - s) := Nat.pow_pos (by omega)
  rw [hm, Nat.mul_mod_mul_right, Nat.or_comm, or_add ha]
  have hlt := Nat.mod_lt c hmp
  generalize 2 ^ (64 - s) = m at *
  generalize 2 ^ s = t at *
  have h1 : c % m * t + acc.toNat < m * t := by
    have : (c % m + 1) * t ≤ m * t := Nat.mul_le_mul_right t (by omega)
    rw [Nat.add_mul] at this; omega
  have h2 : acc.toNat + c * t = (c % m * t + acc.toNat) + (m * t) * (c / m) := by
    conv => lhs; rw [← Nat.mod_add_div c m, Nat.add_mul, Nat.mul_right_comm]
    omega
  rw [h2, Nat.add_mul_mod_self_left, Nat.mod_eq_of_lt h1]

/-- The loop of `noise_protobuf_read_varint`, exactly. -/
theorem readLoop_eq {d : Bytes} (n : Nat) (s : Nat) (hs : s + 7 * n = 70) (acc : UInt64)
    (ha : n ≠ 0 → acc.toNat < 2 ^ s) (p : PB) (rest : Bytes) (h : Ready p rest) (hd : p.data = some d) :
    (∀ v l, Wire.decode n rest = some (v, l) →
      readLoop d n s acc p = .ok (.none, p.adv l, UInt64.ofNat (acc.toNat + v * 2 ^ s))) ∧
    (Wire.decode n rest = none →
      ∃ k w, k ≤ rest.length ∧ readLoop d n s acc p = .ok (.invalidFormat, (p.adv k).fail .invalidFormat, w)) := by
  induction n generalizing s acc p rest with
  | zero => exact ⟨fun v l h => (by cases h), fun _ => ⟨0, acc, Nat.zero_le _, rfl⟩⟩
  | succ n ih =>
    have hr := h.room
    cases rest with
    | nil =>
      refine ⟨fun v l h => (by cases h), fun _ => ⟨0, acc, Nat.le_refl _, ?_⟩⟩
      rw [readLoop, if_pos (by simp at hr; omega)]; rfl
    | cons b bs =>
      have hb : byteAt d p.posn = .ok b := by
        obtain ⟨d', hd', hdr⟩ := h.data
        rw [hd] at hd'; cases hd'
        exact byteAt_drop hdr
      have hg := group_val acc b s (by omega) (ha (by omega))
      have hadv := h.drop (n := 1) (by simp)
      have hloop : readLoop d (n + 1) s acc p =
          (if b.toNat < 128 then .ok (.none, p.adv 1, UInt64.ofNat (acc.toNat + b.toNat % 128 * 2 ^ s))
            else readLoop d n (s + 7) (acc ||| ((b &&& 0x7F).toUInt64 <<< UInt64.ofNat s)) (p.adv 1)) := by
        rw [readLoop, if_neg (by simp at hr; omega), hb]
        simp only [Out.bind_ok, u8_top]
        split
        · simp only [Out.pure_eq, PB.adv, Out.ok.injEq, Prod.mk.injEq, true_and]
          apply UInt64.toNat_inj.1
          rw [hg, UInt64.toNat_ofNat']
        · rfl
      rw [hloop]
      simp only [Wire.decode]
      by_cases hlt : b.toNat < 128
      · rw [if_pos hlt, if_pos hlt]
        refine ⟨fun v l h => ?_, fun h => by cases h⟩
        cases h
        rw [Nat.mod_eq_of_lt hlt]
      · rw [if_neg hlt, if_neg hlt]
        have hacc : n ≠ 0 → (acc ||| ((b &&& 0x7F).toUInt64 <<< UInt64.ofNat s)).toNat =
            acc.toNat + b.toNat % 128 * 2 ^ s ∧ acc.toNat + b.toNat % 128 * 2 ^ s < 2 ^ (s + 7) := by
          intro hn
          have h1 := ha (by omega)
          have h2 : b.toNat % 128 * 2 ^ s ≤ 127 * 2 ^ s := Nat.mul_le_mul_right _ (by omega)
          have h3 : acc.toNat + b.toNat % 128 * 2 ^ s < 2 ^ (s + 7) := by
            rw [Nat.pow_add]; omega
          refine ⟨?_, h3⟩
          rw [hg, Nat.mod_eq_of_lt]
          exact Nat.lt_of_lt_of_le h3 (Nat.pow_le_pow_right (by omega) (by omega))
        obtain ⟨i1, i2⟩ := ih (s + 7) (by omega) _ (fun hn => by rw [(hacc hn).1]; exact (hacc hn).2)
          (p.adv 1) bs hadv hd
        refine ⟨?_, ?_⟩
        · intro v l hvl
          cases hdec : Wire.decode n bs with
          | none => rw [hdec] at hvl; cases hvl
          | some x =>
            obtain ⟨v', l'⟩ := x
            rw [hdec] at hvl
            simp only [Option.map_some, Option.some.injEq, Prod.mk.injEq] at hvl
            obtain ⟨rfl, rfl⟩ := hvl
            have hn : n ≠ 0 := by
              have := (Wire.decode_length hdec).2
              omega
            rw [i1 v' l' hdec, (hacc hn).1, adv_adv, Nat.add_comm 1 l']
            congr 3
            rw [Nat.pow_add, Nat.add_mul, Nat.add_assoc, Nat.mul_comm 128 v', Nat.mul_assoc v' 128,
              Nat.mul_comm 128 (2 ^ s)]
        · intro hnone
          have hdec : Wire.decode n bs = none := by
            cases hdec : Wire.decode n bs with
            | none => rfl
            | some x => rw [hdec] at hnone; cases hnone
          obtain ⟨k, w, hk, he⟩ := i2 hdec
          exact ⟨1 + k, w, by simp; omega, by rw [he, adv_adv]⟩

/-- `noise_protobuf_read_varint`, exactly: a varint of at most ten bytes is decoded modulo 2^64, anything
else is an error. -/
theorem readVarint_eq {p : PB} {rest : Bytes} (h : Ready p rest) :
    (∀ v l, Wire.decode 10 rest = some (v, l) → p.readVarint = .ok (.none, p.adv l, UInt64.ofNat v)) ∧
    (Wire.decode 10 rest = none →
      ∃ k w, k ≤ rest.length ∧ p.readVarint = .ok (.invalidFormat, (p.adv k).fail .invalidFormat, w)) := by
  obtain ⟨d, hd, hdr⟩ := h.data
  have hr := h.room
  have hp := h.inv.posn
  have hm : ∀ k, (⟨some d, p.size, p.posn + k, p.err⟩ : PB) = p.adv k := by intro k; simp [PB.adv, hd]
  unfold readVarint
  rw [hd]
  simp only
  rw [if_neg (by simpa using h.err)]
  cases rest with
  | nil =>
    refine ⟨fun v l h => (by cases h), fun _ => ⟨0, 0, Nat.le_refl _, ?_⟩⟩
    rw [if_pos (by simp at hr; omega)]; rfl
  | cons b bs =>
    rw [if_neg (by simp at hr; omega), byteAt_drop hdr]
    simp only [Out.bind_ok, u8_top, Wire.decode, hm 1]
    by_cases hlt : b.toNat < 128
    · rw [if_pos hlt, if_pos hlt]
      refine ⟨fun v l h => ?_, fun h => by cases h⟩
      cases h
      simp only [Out.pure_eq, Out.ok.injEq, Prod.mk.injEq, true_and]
      apply UInt64.toNat_inj.1
      simp
    · rw [if_neg hlt, if_neg hlt]
      have e1 : (b &&& 0x7F).toUInt64.toNat = b.toNat % 128 := by
        rw [u8_and7F, UInt8.toNat_toUInt64, UInt8.toNat_ofNat', Nat.mod_eq_of_lt (by omega)]
      obtain ⟨i1, i2⟩ := readLoop_eq (d := d) 9 7 rfl (b &&& 0x7F).toUInt64
        (fun _ => by rw [e1]; omega) (p.adv 1) bs (h.drop (n := 1) (by simp)) hd
      refine ⟨?_, ?_⟩
      · intro v l hvl
        cases hdec : Wire.decode 9 bs with
        | none => rw [hdec] at hvl; cases hvl
        | some x =>
          obtain ⟨v', l'⟩ := x
          rw [hdec] at hvl
          simp only [Option.map_some, Option.some.injEq, Prod.mk.injEq] at hvl
          obtain ⟨rfl, rfl⟩ := hvl
          have := i1 v' l' hdec
          rw [e1, adv_adv, Nat.add_comm 1 l', Nat.mul_comm v'] at this
          exact this
      · intro hnone
        have hdec : Wire.decode 9 bs = none := by
          cases hdec : Wire.decode 9 bs with
          | none => rfl
          | some x => rw [hdec] at hnone; cases hnone
        obtain ⟨k, w, hk, he⟩ := i2 hdec
        rw [adv_adv] at he
        exact ⟨1 + k, w, by simp; omega, he⟩

theorem readVarint_ok {p : PB} {v : Nat} {rest : Bytes} (h : Ready p (Wire.varint v ++ rest)) (hv : v < 2 ^ 64) :
    p.readVarint = .ok (.none, p.adv (Wire.varint v).length, UInt64.ofNat v) :=
  (readVarint_eq h).1 v _ (Wire.decode_varint 9 v (by omega) rest)

theorem tagWord_nat {tag : Int} (h0 : 0 ≤ tag) (h1 : tag < 2 ^ 31) (type : Nat) (ht : type < 8) :
    (tagWord tag type).toNat = tag.toNat * 8 + type := by
  unfold tagWord
  rw [UInt64.toNat_ofNat']
  omega

theorem keyBytes_eq {tag : Int} (h0 : 0 ≤ tag) (h1 : tag < 2 ^ 31) (type : Nat) (ht : type < 8) :
    keyBytes tag type = Wire.key tag.toNat type := by
  unfold keyBytes Wire.key
  rw [tagWord_nat h0 h1 type ht]
  by_cases h : tag = 0
  · simp [h]
  · rw [if_neg h, if_neg (by omega)]

theorem readTag_ok {p : PB} {tag : Int} {type : Nat} {rest : Bytes} (h0 : 0 ≤ tag)
    (h : Ready p (keyBytes tag type ++ rest)) :
    p.readTag tag type = .ok (.none, p.adv (keyBytes tag type).length) := by
  unfold readTag
  by_cases ht : tag = 0
  · subst ht
    rw [if_neg (by omega), if_pos rfl, h.err]
    rfl
  · rw [if_pos (by omega)]
    unfold keyBytes at h ⊢
    rw [if_neg ht] at h ⊢
    rw [readVarint_ok h (tagWord tag type).toNat_lt]
    simp [UInt64.ofNat_toNat]

theorem readSpace_ok {p : PB} {b rest : Bytes} (h : Ready p (b ++ rest)) :
    p.readSpace b.length = .ok (.none, p.adv b.length, b) := by
  have hr := h.room
  have hp := h.inv.posn
  obtain ⟨d, hd, hdr⟩ := h.data
  have hl := h.inv.size d hd
  simp only [List.length_append] at hr
  have hm : ∀ k, (⟨some d, p.size, p.posn + k, p.err⟩ : PB) = p.adv k := by intro k; simp [PB.adv, hd]
  unfold readSpace
  rw [hd]
  simp only
  rw [if_neg (by simpa using h.err), if_neg (by omega), load_ok (by omega), hdr, List.take_left, hm]
  rfl

end PB
end Noise
