import Verif.Protobuf
/-!
# C45: string validation

`Utf8` is a separate specification of UTF-8 (RFC 3629): the encoding of a Unicode scalar value, and
strings as concatenations of encodings.
-/

namespace Noise
namespace Utf8

/-- Unicode scalar values: code points without the surrogates. -/
def Scalar (c : Nat) : Prop := c ≤ 0x10FFFF ∧ ¬ (0xD800 ≤ c ∧ c ≤ 0xDFFF)

/-- RFC 3629, section 3. -/
def encode (c : Nat) : Bytes :=
  if c < 0x80 then [UInt8.ofNat c]
  else if c < 0x800 then [UInt8.ofNat (0xC0 + c / 64), UInt8.ofNat (0x80 + c % 64)]
  else if c < 0x10000 then
    [UInt8.ofNat (0xE0 + c / 4096), UInt8.ofNat (0x80 + c / 64 % 64), UInt8.ofNat (0x80 + c % 64)]
  else
    [UInt8.ofNat (0xF0 + c / 262144), UInt8.ofNat (0x80 + c / 4096 % 64), UInt8.ofNat (0x80 + c / 64 % 64),
      UInt8.ofNat (0x80 + c % 64)]

/-- Well-formed UTF-8 without NUL characters. -/
def Valid (s : Bytes) : Prop := ∃ cs : List Nat, (∀ c ∈ cs, Scalar c ∧ c ≠ 0) ∧ s = cs.flatMap encode

/-- What the code accepts: additionally, a character above U+07FF can only be the last one. -/
def Accepted (s : Bytes) : Prop :=
  ∃ cs : List Nat, (∀ c ∈ cs, Scalar c ∧ c ≠ 0) ∧ s = cs.flatMap encode ∧ ∀ c ∈ cs.dropLast, c < 0x800

end Utf8

open Utf8

instance (c : Nat) : Decidable (Utf8.Scalar c) := inferInstanceAs (Decidable (_ ∧ _))

theorem Accepted_cons {c : Nat} {s : Bytes} (h : Scalar c ∧ c ≠ 0) (hc : c < 0x800) (hs : Accepted s) :
    Accepted (encode c ++ s) := by
  obtain ⟨cs, h1, h2, h3⟩ := hs
  refine ⟨c :: cs, ?_, by simp [h2], ?_⟩
  · intro x hx
    rcases List.mem_cons.1 hx with rfl | hx
    · exact h
    · exact h1 x hx
  · cases cs with
    | nil => simp
    | cons d ds =>
      intro x hx
      rw [List.dropLast_cons_of_ne_nil (by simp)] at hx
      rcases List.mem_cons.1 hx with rfl | hx
      · exact hc
      · exact h3 x hx

theorem u8_eq {a : UInt8} {n : Nat} (h : a.toNat = n) : a = UInt8.ofNat n := by
  rw [← h, UInt8.ofNat_toNat]

theorem notCont_false {b : UInt8} : PB.notCont b = false ↔ 0x80 ≤ b.toNat ∧ b.toNat ≤ 0xBF := by
  simp only [PB.notCont, Bool.or_eq_false_iff, decide_eq_false_iff_not, UInt8.lt_iff_toNat_lt, gt_iff_lt]
  have h1 : (0x80 : UInt8).toNat = 0x80 := rfl
  have h2 : (0xBF : UInt8).toNat = 0xBF := rfl
  rw [h1, h2]; omega

theorem or_add {a b n : Nat} (h : b < 2 ^ n) : a * 2 ^ n ||| b = a * 2 ^ n + b := by
  have := Nat.shiftLeft_add_eq_or_of_lt h a
  rw [Nat.shiftLeft_eq] at this
  exact this.symm

theorem u8_and_mask {b : UInt8} {m : UInt8} {k : Nat} (hm : m.toNat = 2 ^ k - 1) :
    (b &&& m).toUInt32.toNat = b.toNat % 2 ^ k := by
  rw [UInt8.toNat_toUInt32, UInt8.toNat_and, hm, Nat.and_two_pow_sub_one_eq_mod]

theorem code3 (ch c1 c2 : UInt8) :
    (((ch &&& 0x0F).toUInt32 <<< 12) ||| ((c1 &&& 0x3F).toUInt32 <<< 6) ||| (c2 &&& 0x3F).toUInt32).toNat =
      ch.toNat % 16 * 4096 + c1.toNat % 64 * 64 + c2.toNat % 64 := by
  have a1 : (ch &&& 0x0F).toUInt32.toNat = ch.toNat % 16 := u8_and_mask (k := 4) rfl
  have a2 : (c1 &&& 0x3F).toUInt32.toNat = c1.toNat % 64 := u8_and_mask (k := 6) rfl
  have a3 : (c2 &&& 0x3F).toUInt32.toNat = c2.toNat % 64 := u8_and_mask (k := 6) rfl
  rw [UInt32.toNat_or, UInt32.toNat_or, UInt32.toNat_shiftLeft, UInt32.toNat_shiftLeft, a1, a2, a3]
  simp only [Nat.shiftLeft_eq]
  have e1 : (12 : UInt32).toNat % 32 = 12 := rfl
  have e2 : (6 : UInt32).toNat % 32 = 6 := rfl
  rw [e1, e2, Nat.mod_eq_of_lt (a := ch.toNat % 16 * 2 ^ 12) (by omega),
    Nat.mod_eq_of_lt (a := c1.toNat % 64 * 2 ^ 6) (by omega), or_add (n := 12) (by omega)]
  rw [show ch.toNat % 16 * 2 ^ 12 + c1.toNat % 64 * 2 ^ 6 = (ch.toNat % 16 * 64 + c1.toNat % 64) * 2 ^ 6 by omega,
    or_add (n := 6) (by omega)]

theorem code4 (ch c1 c2 c3 : UInt8) :
    (((ch &&& 0x07).toUInt32 <<< 18) ||| ((c1 &&& 0x3F).toUInt32 <<< 12) ||| ((c2 &&& 0x3F).toUInt32 <<< 6) |||
      (c3 &&& 0x3F).toUInt32).toNat =
      ch.toNat % 8 * 262144 + c1.toNat % 64 * 4096 + c2.toNat % 64 * 64 + c3.toNat % 64 := by
  have a1 : (ch &&& 0x07).toUInt32.toNat = ch.toNat % 8 := u8_and_mask (k := 3) rfl
  have a2 : (c1 &&& 0x3F).toUInt32.toNat = c1.toNat % 64 := u8_and_mask (k := 6) rfl
  have a3 : (c2 &&& 0x3F).toUInt32.toNat = c2.toNat % 64 := u8_and_mask (k := 6) rfl
  have a4 : (c3 &&& 0x3F).toUInt32.toNat = c3.toNat % 64 := u8_and_mask (k := 6) rfl
  rw [UInt32.toNat_or, UInt32.toNat_or, UInt32.toNat_or, UInt32.toNat_shiftLeft, UInt32.toNat_shiftLeft,
    UInt32.toNat_shiftLeft, a1, a2, a3, a4]
  simp only [Nat.shiftLeft_eq]
  have e0 : (18 : UInt32).toNat % 32 = 18 := rfl
  have e1 : (12 : UInt32).toNat % 32 = 12 := rfl
  have e2 : (6 : UInt32).toNat % 32 = 6 := rfl
  rw [e0, e1, e2, Nat.mod_eq_of_lt (a := ch.toNat % 8 * 2 ^ 18) (by omega),
    Nat.mod_eq_of_lt (a := c1.toNat % 64 * 2 ^ 12) (by omega), Nat.mod_eq_of_lt (a := c2.toNat % 64 * 2 ^ 6) (by omega),
    or_add (n := 18) (by omega)]
  rw [show ch.toNat % 8 * 2 ^ 18 + c1.toNat % 64 * 2 ^ 12 = (ch.toNat % 8 * 64 + c1.toNat % 64) * 2 ^ 12 by omega,
    or_add (n := 12) (by omega),
    show (ch.toNat % 8 * 64 + c1.toNat % 64) * 2 ^ 12 + c2.toNat % 64 * 2 ^ 6 =
      ((ch.toNat % 8 * 64 + c1.toNat % 64) * 64 + c2.toNat % 64) * 2 ^ 6 by omega, or_add (n := 6) (by omega)]

namespace PB

/-- One iteration of the loop. -/
def utf8Body (size : Nat) (ch : UInt8) (str : Bytes) : Out Bool :=
  if ch = 0 then .ok false
  else if ch < 0x80 then isUtf8 size str
  else if ch ≥ 0xC2 && ch ≤ 0xDF then
    match size, str with
    | 0, _ => .ok false
    | _ + 1, [] => .ub
    | size + 1, c1 :: str => if notCont c1 then .ok false else isUtf8 size str
  else if ch ≥ 0xE0 && ch ≤ 0xEF then
    if size < 2 then .ok false
    else match str with
    | c1 :: c2 :: _ =>
      if notCont c1 then .ok false
      else if notCont c2 then .ok false
      else
        let code : UInt32 := ((ch &&& 0x0F).toUInt32 <<< 12) ||| ((c1 &&& 0x3F).toUInt32 <<< 6) |||
          (c2 &&& 0x3F).toUInt32
        if code ≥ 0xD800 && code ≤ 0xDFFF then .ok false
        else if code < 0x0800 then .ok false
        else isUtf8 (size - 2) str
    | _ => .ub
  else if ch ≥ 0xF0 && ch ≤ 0xF4 then
    if size < 3 then .ok false
    else match str with
    | c1 :: c2 :: c3 :: _ =>
      if notCont c1 then .ok false
      else if notCont c2 then .ok false
      else if notCont c3 then .ok false
      else
        let code : UInt32 := ((ch &&& 0x07).toUInt32 <<< 18) ||| ((c1 &&& 0x3F).toUInt32 <<< 12) |||
          ((c2 &&& 0x3F).toUInt32 <<< 6) ||| (c3 &&& 0x3F).toUInt32
        if code > 0x10FFFF then .ok false
        else if code < 0x10000 then .ok false
        else isUtf8 (size - 3) str
    | _ => .ub
  else .ok false

theorem isUtf8_cons (n : Nat) (ch : UInt8) (s : Bytes) : isUtf8 (n + 1) (ch :: s) = utf8Body n ch s := by
  unfold isUtf8
  rfl

theorem isUtf8_zero (s : Bytes) : isUtf8 0 s = .ok true := by rw [isUtf8]

/-- A continuation byte in leading position is refused. -/
theorem isUtf8_cont {n : Nat} {c : UInt8} {s : Bytes} (h : notCont c = false) :
    isUtf8 (n + 1) (c :: s) = .ok false := by
  rw [notCont_false] at h
  rw [isUtf8_cons]
  unfold utf8Body
  have h0 : c ≠ 0 := by rintro rfl; simp at h
  simp only [h0, if_false, UInt8.lt_iff_toNat_lt, ge_iff_le, UInt8.le_iff_toNat_le, Bool.and_eq_true,
    decide_eq_true_eq]
  have e1 : (0x80 : UInt8).toNat = 0x80 := rfl
  have e2 : (0xC2 : UInt8).toNat = 0xC2 := rfl
  have e3 : (0xE0 : UInt8).toNat = 0xE0 := rfl
  have e4 : (0xF0 : UInt8).toNat = 0xF0 := rfl
  rw [e1, e2, e3, e4]
  rw [if_neg (by omega), if_neg (by omega), if_neg (by omega), if_neg (by omega)]

/-- The validation never reads outside the string. -/
theorem isUtf8_ok : ∀ (n : Nat) (s : Bytes), n ≤ s.length → ∃ b, isUtf8 n s = .ok b := by
  intro n
  induction n using Nat.strongRecOn with
  | ind n ih =>
    intro s h
    cases n with
    | zero => exact ⟨true, isUtf8_zero s⟩
    | succ n =>
      cases s with
      | nil => simp at h
      | cons ch s =>
        simp only [List.length_cons] at h
        rw [isUtf8_cons]
        unfold utf8Body
        by_cases k0 : ch = 0
        · rw [if_pos k0]; exact ⟨_, rfl⟩
        rw [if_neg k0]
        by_cases k1 : ch < 0x80
        · rw [if_pos k1]; exact ih n (by omega) s (by omega)
        rw [if_neg k1]
        by_cases k2 : (ch ≥ 0xC2 && ch ≤ 0xDF) = true
        · rw [if_pos k2]
          split
          · exact ⟨_, rfl⟩
          · simp at h
          · next m c1 s' =>
            simp only [List.length_cons] at h
            split
            · exact ⟨_, rfl⟩
            · exact ih _ (by omega) _ (by omega)
        rw [if_neg k2]
        by_cases k3 : (ch ≥ 0xE0 && ch ≤ 0xEF) = true
        · rw [if_pos k3]
          split
          · exact ⟨_, rfl⟩
          · split
            · split
              · exact ⟨_, rfl⟩
              split
              · exact ⟨_, rfl⟩
              dsimp only
              split
              · exact ⟨_, rfl⟩
              split
              · exact ⟨_, rfl⟩
              · exact ih _ (by omega) _ (by omega)
            · next hx =>
              exfalso
              match s, hx with
              | [], _ => simp at h; omega
              | [_], _ => simp at h; omega
              | a :: b :: c, hx => exact hx a b c rfl
        rw [if_neg k3]
        by_cases k4 : (ch ≥ 0xF0 && ch ≤ 0xF4) = true
        · rw [if_pos k4]
          split
          · exact ⟨_, rfl⟩
          · split
            · split
              · exact ⟨_, rfl⟩
              split
              · exact ⟨_, rfl⟩
              split
              · exact ⟨_, rfl⟩
              dsimp only
              split
              · exact ⟨_, rfl⟩
              split
              · exact ⟨_, rfl⟩
              · exact ih _ (by omega) _ (by omega)
            · next hx =>
              exfalso
              match s, hx with
              | [], _ => simp at h; omega
              | [_], _ => simp at h; omega
              | [_, _], _ => simp at h; omega
              | a :: b :: c :: d, hx => exact hx a b c d rfl
        · rw [if_neg k4]; exact ⟨_, rfl⟩

/-- After a three- or four-byte character the loop only succeeds at the end of the string. -/
theorem isUtf8_stuck {n : Nat} {c : UInt8} {s : Bytes} (hc : notCont c = false)
    (h : isUtf8 n (c :: s) = .ok true) : n = 0 := by
  cases n with
  | zero => rfl
  | succ n => rw [isUtf8_cont hc] at h; cases h

theorem isUtf8_sound : ∀ (s : Bytes), isUtf8 s.length s = .ok true → Accepted s := by
  intro s
  induction hn : s.length using Nat.strongRecOn generalizing s with
  | ind n ih =>
    intro h
    cases s with
    | nil => exact ⟨[], by simp, rfl, by simp⟩
    | cons ch s =>
      subst hn
      have hch := ch.toNat_lt
      rw [List.length_cons, isUtf8_cons] at h
      unfold utf8Body at h
      simp only [UInt8.lt_iff_toNat_lt, ge_iff_le, UInt8.le_iff_toNat_le, Bool.and_eq_true,
        decide_eq_true_eq] at h
      have e1 : (0x80 : UInt8).toNat = 0x80 := rfl
      have e2 : (0xC2 : UInt8).toNat = 0xC2 := rfl
      have e3 : (0xE0 : UInt8).toNat = 0xE0 := rfl
      have e4 : (0xF0 : UInt8).toNat = 0xF0 := rfl
      have e5 : (0xDF : UInt8).toNat = 0xDF := rfl
      have e6 : (0xEF : UInt8).toNat = 0xEF := rfl
      have e7 : (0xF4 : UInt8).toNat = 0xF4 := rfl
      rw [e1, e2, e3, e4, e5, e6, e7] at h
      by_cases k0 : ch = 0
      · rw [if_pos k0] at h; cases h
      rw [if_neg k0] at h
      have h0 : ch.toNat ≠ 0 := fun hx => k0 (UInt8.toNat_inj.1 hx)
      by_cases h1 : ch.toNat < 0x80
      · rw [if_pos h1] at h
        have := Accepted_cons (c := ch.toNat) ⟨⟨by omega, by omega⟩, h0⟩ (by omega)
          (ih s.length (by simp) s rfl h)
        rw [encode, if_pos h1, UInt8.ofNat_toNat] at this
        exact this
      rw [if_neg h1] at h
      by_cases h2 : 0xC2 ≤ ch.toNat ∧ ch.toNat ≤ 0xDF
      · rw [if_pos h2] at h
        split at h
        · cases h
        · cases h
        · next m c1 s' hm =>
          split at h
          · cases h
          · next hc =>
            have hc := notCont_false.1 (by simpa using hc)
            have := Accepted_cons (c := (ch.toNat - 0xC0) * 64 + (c1.toNat - 0x80))
              ⟨⟨by omega, by omega⟩, by omega⟩ (by omega) (ih s'.length (by simp; omega) s' rfl (by
                simp only [List.length_cons, Nat.succ_eq_add_one, Nat.add_right_cancel_iff] at hm
                rw [hm]; exact h))
            rw [encode, if_neg (by omega), if_pos (by omega)] at this
            rw [show 0xC0 + ((ch.toNat - 0xC0) * 64 + (c1.toNat - 0x80)) / 64 = ch.toNat by omega,
              show 0x80 + ((ch.toNat - 0xC0) * 64 + (c1.toNat - 0x80)) % 64 = c1.toNat by omega,
              UInt8.ofNat_toNat, UInt8.ofNat_toNat] at this
            exact this
      rw [if_neg h2] at h
      by_cases h3 : 0xE0 ≤ ch.toNat ∧ ch.toNat ≤ 0xEF
      · rw [if_pos h3] at h
        split at h
        · cases h
        · split at h
          · next c1 c2 s' _ =>
            split at h
            · cases h
            next hc1 =>
            split at h
            · cases h
            next hc2 =>
            rw [Bool.not_eq_true] at hc1 hc2
            have hcode := code3 ch c1 c2
            simp only [UInt32.lt_iff_toNat_lt, UInt32.le_iff_toNat_le, hcode] at h
            rw [show (0xD800 : UInt32).toNat = 0xD800 from rfl, show (0xDFFF : UInt32).toNat = 0xDFFF from rfl,
              show (0x0800 : UInt32).toNat = 0x0800 from rfl] at h
            split at h
            · cases h
            next k1 =>
            split at h
            · cases h
            next k2 =>
            have hl := isUtf8_stuck hc1 h
            have hs : s' = [] := by
              simp only [List.length_cons] at hl
              exact List.length_eq_zero_iff.1 (by omega)
            subst hs
            have hc1 := notCont_false.1 hc1
            have hc2 := notCont_false.1 hc2
            refine ⟨[ch.toNat % 16 * 4096 + c1.toNat % 64 * 64 + c2.toNat % 64], ?_, ?_, by simp⟩
            · intro c hc
              simp only [List.mem_singleton] at hc
              subst hc
              exact ⟨⟨by omega, k1⟩, by omega⟩
            · simp only [List.flatMap_cons, List.flatMap_nil, List.append_nil]
              rw [encode, if_neg (by omega), if_neg (by omega), if_pos (by omega)]
              rw [← u8_eq (a := ch) (by omega), ← u8_eq (a := c1) (by omega), ← u8_eq (a := c2) (by omega)]
          · cases h
      rw [if_neg h3] at h
      by_cases h4 : 0xF0 ≤ ch.toNat ∧ ch.toNat ≤ 0xF4
      · rw [if_pos h4] at h
        split at h
        · cases h
        · split at h
          · next c1 c2 c3 s' _ =>
            split at h
            · cases h
            next hc1 =>
            split at h
            · cases h
            next hc2 =>
            split at h
            · cases h
            next hc3 =>
            rw [Bool.not_eq_true] at hc1 hc2 hc3
            have hcode := code4 ch c1 c2 c3
            simp only [UInt32.lt_iff_toNat_lt, gt_iff_lt, hcode] at h
            rw [show (0x10FFFF : UInt32).toNat = 0x10FFFF from rfl,
              show (0x10000 : UInt32).toNat = 0x10000 from rfl] at h
            split at h
            · cases h
            next k1 =>
            split at h
            · cases h
            next k2 =>
            have hl := isUtf8_stuck hc1 h
            have hs : s' = [] := by
              simp only [List.length_cons] at hl
              exact List.length_eq_zero_iff.1 (by omega)
            subst hs
            have hc1 := notCont_false.1 hc1
            have hc2 := notCont_false.1 hc2
            have hc3 := notCont_false.1 hc3
            refine ⟨[ch.toNat % 8 * 262144 + c1.toNat % 64 * 4096 + c2.toNat % 64 * 64 + c3.toNat % 64], ?_, ?_,
              by simp⟩
            · intro c hc
              simp only [List.mem_singleton] at hc
              subst hc
              exact ⟨⟨by omega, by omega⟩, by omega⟩
            · simp only [List.flatMap_cons, List.flatMap_nil, List.append_nil]
              rw [encode, if_neg (by omega), if_neg (by omega), if_neg (by omega)]
              rw [← u8_eq (a := ch) (by omega), ← u8_eq (a := c1) (by omega), ← u8_eq (a := c2) (by omega),
                ← u8_eq (a := c3) (by omega)]
          · cases h
      · rw [if_neg h4] at h; cases h

/-- One character in front. -/
theorem isUtf8_char {c : Nat} (h : Scalar c ∧ c ≠ 0) (hc : c < 0x800) (s : Bytes) :
    isUtf8 (encode c ++ s).length (encode c ++ s) = isUtf8 s.length s := by
  have e1 : (0x80 : UInt8).toNat = 0x80 := rfl
  have e2 : (0xC2 : UInt8).toNat = 0xC2 := rfl
  have e5 : (0xDF : UInt8).toNat = 0xDF := rfl
  obtain ⟨⟨_, _⟩, h0⟩ := h
  by_cases h1 : c < 0x80
  · rw [encode, if_pos h1, List.cons_append, List.nil_append, List.length_cons, isUtf8_cons]
    unfold utf8Body
    have hn : (UInt8.ofNat c).toNat = c := by rw [UInt8.toNat_ofNat']; omega
    rw [if_neg (by intro hx; rw [hx] at hn; simp at hn; omega), if_pos (by
      rw [UInt8.lt_iff_toNat_lt, hn]; exact h1)]
  · rw [encode, if_neg h1, if_pos hc, List.cons_append, List.cons_append, List.nil_append, List.length_cons,
      isUtf8_cons]
    unfold utf8Body
    have hn : (UInt8.ofNat (0xC0 + c / 64)).toNat = 0xC0 + c / 64 := by rw [UInt8.toNat_ofNat']; omega
    have hn1 : (UInt8.ofNat (0x80 + c % 64)).toNat = 0x80 + c % 64 := by rw [UInt8.toNat_ofNat']; omega
    rw [if_neg (by intro hx; rw [hx] at hn; simp at hn; omega), if_neg (by
      rw [UInt8.lt_iff_toNat_lt, hn, e1]; omega), if_pos (by
      simp only [ge_iff_le, UInt8.le_iff_toNat_le, Bool.and_eq_true, decide_eq_true_eq, hn, e2, e5]; omega),
      List.length_cons]
    dsimp only
    rw [if_neg (by rw [Bool.not_eq_true, notCont_false, hn1]; omega)]

/-- The last character. -/
theorem isUtf8_last {c : Nat} (h : Scalar c ∧ c ≠ 0) :
    isUtf8 (encode c).length (encode c) = .ok true := by
  by_cases hc : c < 0x800
  · have := isUtf8_char h hc []
    rw [List.append_nil] at this
    rw [this]; exact isUtf8_zero _
  have e1 : (0x80 : UInt8).toNat = 0x80 := rfl
  have e2 : (0xC2 : UInt8).toNat = 0xC2 := rfl
  have e3 : (0xE0 : UInt8).toNat = 0xE0 := rfl
  have e4 : (0xF0 : UInt8).toNat = 0xF0 := rfl
  have e5 : (0xDF : UInt8).toNat = 0xDF := rfl
  have e6 : (0xEF : UInt8).toNat = 0xEF := rfl
  have e7 : (0xF4 : UInt8).toNat = 0xF4 := rfl
  obtain ⟨⟨hm, hs⟩, h0⟩ := h
  by_cases h3 : c < 0x10000
  · rw [encode, if_neg (by omega), if_neg hc, if_pos h3, List.length_cons, isUtf8_cons]
    unfold utf8Body
    have hn : (UInt8.ofNat (0xE0 + c / 4096)).toNat = 0xE0 + c / 4096 := by rw [UInt8.toNat_ofNat']; omega
    have hn1 : (UInt8.ofNat (0x80 + c / 64 % 64)).toNat = 0x80 + c / 64 % 64 := by rw [UInt8.toNat_ofNat']; omega
    have hn2 : (UInt8.ofNat (0x80 + c % 64)).toNat = 0x80 + c % 64 := by rw [UInt8.toNat_ofNat']; omega
    rw [if_neg (by intro hx; rw [hx] at hn; simp at hn; omega), if_neg (by
      rw [UInt8.lt_iff_toNat_lt, hn, e1]; omega), if_neg (by
      simp only [ge_iff_le, UInt8.le_iff_toNat_le, Bool.and_eq_true, decide_eq_true_eq, hn, e2, e5]; omega),
      if_pos (by
      simp only [ge_iff_le, UInt8.le_iff_toNat_le, Bool.and_eq_true, decide_eq_true_eq, hn, e3, e6]; omega)]
    have hcode := code3 (UInt8.ofNat (0xE0 + c / 4096)) (UInt8.ofNat (0x80 + c / 64 % 64)) (UInt8.ofNat (0x80 + c % 64))
    rw [hn, hn1, hn2] at hcode
    rw [if_neg (by simp)]
    dsimp only
    rw [if_neg (by rw [Bool.not_eq_true, notCont_false, hn1]; omega),
      if_neg (by rw [Bool.not_eq_true, notCont_false, hn2]; omega)]
    rw [if_neg, if_neg]
    · exact isUtf8_zero _
    · rw [UInt32.lt_iff_toNat_lt, hcode]; show ¬ _ < 0x800; omega
    · simp only [ge_iff_le, UInt32.le_iff_toNat_le, Bool.and_eq_true, decide_eq_true_eq, hcode]
      show ¬ (0xD800 ≤ _ ∧ _ ≤ 0xDFFF); omega
  · rw [encode, if_neg (by omega), if_neg hc, if_neg h3, List.length_cons, isUtf8_cons]
    unfold utf8Body
    have hn : (UInt8.ofNat (0xF0 + c / 262144)).toNat = 0xF0 + c / 262144 := by rw [UInt8.toNat_ofNat']; omega
    have hn1 : (UInt8.ofNat (0x80 + c / 4096 % 64)).toNat = 0x80 + c / 4096 % 64 := by rw [UInt8.toNat_ofNat']; omega
    have hn2 : (UInt8.ofNat (0x80 + c / 64 % 64)).toNat = 0x80 + c / 64 % 64 := by rw [UInt8.toNat_ofNat']; omega
    have hn3 : (UInt8.ofNat (0x80 + c % 64)).toNat = 0x80 + c % 64 := by rw [UInt8.toNat_ofNat']; omega
    rw [if_neg (by intro hx; rw [hx] at hn; simp at hn; omega), if_neg (by
      rw [UInt8.lt_iff_toNat_lt, hn, e1]; omega), if_neg (by
      simp only [ge_iff_le, UInt8.le_iff_toNat_le, Bool.and_eq_true, decide_eq_true_eq, hn, e2, e5]; omega),
      if_neg (by
      simp only [ge_iff_le, UInt8.le_iff_toNat_le, Bool.and_eq_true, decide_eq_true_eq, hn, e3, e6]; omega),
      if_pos (by
      simp only [ge_iff_le, UInt8.le_iff_toNat_le, Bool.and_eq_true, decide_eq_true_eq, hn, e4, e7]; omega)]
    have hcode := code4 (UInt8.ofNat (0xF0 + c / 262144)) (UInt8.ofNat (0x80 + c / 4096 % 64))
      (UInt8.ofNat (0x80 + c / 64 % 64)) (UInt8.ofNat (0x80 + c % 64))
    rw [hn, hn1, hn2, hn3] at hcode
    rw [if_neg (by simp)]
    dsimp only
    rw [if_neg (by rw [Bool.not_eq_true, notCont_false, hn1]; omega),
      if_neg (by rw [Bool.not_eq_true, notCont_false, hn2]; omega),
      if_neg (by rw [Bool.not_eq_true, notCont_false, hn3]; omega)]
    rw [if_neg, if_neg]
    · exact isUtf8_zero _
    · rw [UInt32.lt_iff_toNat_lt, hcode]; show ¬ _ < 0x10000; omega
    · rw [gt_iff_lt, UInt32.lt_iff_toNat_lt, hcode]; show ¬ 0x10FFFF < _; omega

theorem isUtf8_complete {s : Bytes} (h : Accepted s) : isUtf8 s.length s = .ok true := by
  obtain ⟨cs, h1, h2, h3⟩ := h
  induction cs generalizing s with
  | nil => subst h2; exact isUtf8_zero _
  | cons c cs ih =>
    subst h2
    cases cs with
    | nil =>
      simp only [List.flatMap_cons, List.flatMap_nil, List.append_nil]
      exact isUtf8_last (h1 c (by simp))
    | cons d ds =>
      rw [List.flatMap_cons, isUtf8_char (h1 c (by simp)) (h3 c (by
        rw [List.dropLast_cons_of_ne_nil (by simp)]; simp))]
      exact ih (fun x hx => h1 x (List.mem_cons_of_mem _ hx)) rfl (fun x hx => h3 x (by
        rw [List.dropLast_cons_of_ne_nil (by simp)]; exact List.mem_cons_of_mem _ hx))

/-- Exactly which strings `noise_protobuf_is_utf8` accepts: well-formed UTF-8 without NUL in which only
the last character takes three or four bytes. -/
theorem C45_utf8_exact (s : Bytes) : isUtf8 s.length s = .ok true ↔ Accepted s :=
  ⟨isUtf8_sound s, isUtf8_complete⟩

/-- C45, one direction: what is accepted is well-formed UTF-8 without NUL. Missing (and false, see
`C45_fails`): every such string is accepted. -/
theorem C45_utf8_partial (s : Bytes) (h : isUtf8 s.length s = .ok true) : Utf8.Valid s := by
  obtain ⟨cs, h1, h2, _⟩ := isUtf8_sound s h
  exact ⟨cs, h1, h2⟩

/-- Everything that is well-formed but for characters above U+07FF before the end is accepted; in
particular all text of one- and two-byte characters. -/
theorem C45_utf8_short_partial (cs : List Nat) (h : ∀ c ∈ cs, c ≠ 0 ∧ c < 0x800) :
    isUtf8 (cs.flatMap encode).length (cs.flatMap encode) = .ok true :=
  isUtf8_complete ⟨cs, fun c hc => ⟨⟨by have := h c hc; omega, by have := h c hc; omega⟩, (h c hc).1⟩, rfl,
    fun c hc => (h c (List.dropLast_subset _ hc)).2⟩

/-- C45 is false: two Japanese characters are well-formed UTF-8 but refused. -/
theorem C45_fails : ∃ s : Bytes, Utf8.Valid s ∧ isUtf8 s.length s = .ok false := by
  refine ⟨[0xE6, 0x97, 0xA5, 0xE6, 0x9C, 0xAC], ⟨[0x65E5, 0x672C], by decide, by decide⟩, ?_⟩
  show isUtf8 (5 + 1) _ = _
  rw [isUtf8_cons]
  unfold utf8Body
  have : isUtf8 (2 + 1) [0x97, 0xA5, 0xE6, 0x9C, 0xAC] = .ok false := isUtf8_cont (by decide)
  have c0 : ¬ ((0xE6 : UInt8) < 0x80) := by decide
  have c1 : ((0xE6 : UInt8) ≥ 0xC2 && (0xE6 : UInt8) ≤ 0xDF) = false := by decide
  have c2 : ((0xE6 : UInt8) ≥ 0xE0 && (0xE6 : UInt8) ≤ 0xEF) = true := by decide
  rw [if_neg (by decide), if_neg c0, if_neg (by rw [c1]; simp), if_pos c2, if_neg (by decide)]
  dsimp only
  rw [if_neg (by decide), if_neg (by decide), if_neg (by decide), if_neg (by decide)]
  exact this

/-- "né" followed by the euro sign: accepted. -/
example : isUtf8 6 [0x6E, 0xC3, 0xA9, 0xE2, 0x82, 0xAC] = .ok true :=
  isUtf8_complete (s := [0x6E, 0xC3, 0xA9, 0xE2, 0x82, 0xAC]) ⟨[0x6E, 0xE9, 0x20AC], by decide, by decide, by decide⟩

end PB
end Noise
