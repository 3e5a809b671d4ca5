import Verif.Util
/-!
# Properties C37 (comparison helpers), C38 (fingerprints) and C53 (error strings)
-/

namespace Noise

/-! ## C37 -/

theorem u8_or_eq_zero (a b : UInt8) : a ||| b = 0 ↔ a = 0 ∧ b = 0 := by
  constructor
  · intro h
    have h' := congrArg UInt8.toBitVec h
    simp only [UInt8.toBitVec_or] at h'
    constructor <;> apply UInt8.toBitVec_inj.mp <;> ext i hi
    · have := congrArg (fun v => v.getLsbD i) h'
      simp at this
      simp
      exact this.1
    · have := congrArg (fun v => v.getLsbD i) h'
      simp at this
      simp
      exact this.2
  · rintro ⟨rfl, rfl⟩; rfl

theorem ctResult_eq (t : UInt8) : ctResult t = if t = 0 then 1 else 0 := by
  unfold ctResult
  have hlt := t.toNat_lt
  by_cases h : t = 0
  · subst h; rfl
  · have : t.toNat ≠ 0 := fun hc => h (UInt8.toNat_inj.mp hc)
    simp only [h, if_false, Nat.shiftRight_eq_div_pow]
    omega

theorem isEqualLoop_spec : ∀ (size : Nat) (a b : Bytes) (t : UInt8),
    size ≤ a.length → size ≤ b.length →
    ∃ r, isEqualLoop a b size t = .ok r ∧ (r = 0 ↔ t = 0 ∧ a.take size = b.take size) := by
  intro size
  induction size with
  | zero => intro a b t _ _; exact ⟨t, by simp [isEqualLoop], by simp⟩
  | succ size ih =>
    intro a b t ha hb
    match a, b with
    | [], _ => simp at ha
    | _ :: _, [] => simp at hb
    | x :: a, y :: b =>
      simp only [List.length_cons, Nat.add_le_add_iff_right] at ha hb
      obtain ⟨r, h1, h2⟩ := ih a b (t ||| (x ^^^ y)) ha hb
      refine ⟨r, by simp [isEqualLoop, h1], ?_⟩
      rw [h2, u8_or_eq_zero]
      simp [and_assoc]

theorem isZeroLoop_spec : ∀ (size : Nat) (a : Bytes) (t : UInt8), size ≤ a.length →
    ∃ r, isZeroLoop a size t = .ok r ∧ (r = 0 ↔ t = 0 ∧ ∀ x ∈ a.take size, x = 0) := by
  intro size
  induction size with
  | zero => intro a t _; exact ⟨t, by cases a <;> simp [isZeroLoop], by simp⟩
  | succ size ih =>
    intro a t ha
    match a with
    | [] => simp at ha
    | x :: a =>
      simp only [List.length_cons, Nat.add_le_add_iff_right] at ha
      obtain ⟨r, h1, h2⟩ := ih a (t ||| x) ha
      refine ⟨r, by simp [isZeroLoop, h1], ?_⟩
      rw [h2, u8_or_eq_zero]
      simp [and_assoc]

/-- **C37.** `noise_is_equal` returns 1 exactly when the `size` bytes are equal, else 0. -/
theorem C37_is_equal_correct (a b : Bytes) (size : Nat) (ha : size ≤ a.length)
    (hb : size ≤ b.length) :
    isEqual a b size = .ok (if a.take size = b.take size then 1 else 0) := by
  obtain ⟨r, h1, h2⟩ := isEqualLoop_spec size a b 0 ha hb
  simp only [isEqual, h1, Out.bind_ok, ctResult_eq, Out.pure_eq]
  simp [h2]

/-- **C37.** `noise_is_zero` returns 1 exactly when the `size` bytes are all zero, else 0. -/
theorem C37_is_zero_correct (a : Bytes) (size : Nat) (ha : size ≤ a.length) :
    isZero a size = .ok (if ∀ x ∈ a.take size, x = 0 then 1 else 0) := by
  obtain ⟨r, h1, h2⟩ := isZeroLoop_spec size a 0 ha
  simp only [isZero, h1, Out.bind_ok, ctResult_eq, Out.pure_eq]
  simp [h2]

/-- **C37.** `noise_clean` zeroes exactly the requested bytes. -/
theorem C37_clean_correct (size : Nat) : ∀ (d : Bytes), size ≤ d.length →
    cleanLoop d size = .ok (List.replicate size 0 ++ d.drop size) := by
  induction size with
  | zero => intro d _; simp [cleanLoop]
  | succ size ih =>
    intro d hd
    match d with
    | [] => simp at hd
    | x :: d =>
      simp only [List.length_cons, Nat.add_le_add_iff_right] at hd
      simp [cleanLoop, ih d hd, List.replicate_succ]

example : isEqual [1, 2, 3] [1, 2, 4] 2 = .ok 1 ∧ isEqual [1, 2, 3] [1, 2, 4] 3 = .ok 0 ∧
    isZero [0, 0, 0x80] 3 = .ok 0 ∧ isZero [0, 0, 0x80] 2 = .ok 1 := by
  refine ⟨?_, ?_, ?_, ?_⟩ <;> rfl

/-! ## C38 -/

/-- Lower-case hexadecimal digit of a value below 16 (specification). -/
def specHexDigit (n : Nat) : UInt8 := if n < 10 then UInt8.ofNat (48 + n) else UInt8.ofNat (87 + n)

/-- Two-digit lower-case hexadecimal of a byte (specification). -/
def specHex (b : UInt8) : Bytes := [specHexDigit (b.toNat / 16), specHexDigit (b.toNat % 16)]

/-- The fingerprint text: hexadecimal bytes separated by `':'` (specification). -/
def specFingerprint (digest : Bytes) : Bytes := List.intercalate [58] (digest.map specHex)

theorem hexchar_eq : ∀ n : Fin 16, hexchar (UInt8.ofNat n.val) = specHexDigit n.val := by decide

theorem hexchar_hi (b : UInt8) : hexchar ((b >>> 4) &&& 0x0F) = specHexDigit (b.toNat / 16) := by
  have hlt := b.toNat_lt
  have := hexchar_eq ⟨b.toNat / 16, by omega⟩
  simp only at this
  rw [← this]
  congr 1
  apply UInt8.toNat_inj.mp
  simp only [UInt8.toNat_and, UInt8.toNat_shiftRight, UInt8.toNat_ofNat']
  simp only [UInt8.reduceToNat, Nat.shiftRight_eq_div_pow, Nat.reduceMod, Nat.reducePow]
  rw [show (15 : Nat) = 2 ^ 4 - 1 from rfl, Nat.and_two_pow_sub_one_eq_mod]
  omega

theorem hexchar_lo (b : UInt8) : hexchar (b &&& 0x0F) = specHexDigit (b.toNat % 16) := by
  have hlt := b.toNat_lt
  have := hexchar_eq ⟨b.toNat % 16, by omega⟩
  simp only at this
  rw [← this]
  congr 1
  apply UInt8.toNat_inj.mp
  simp only [UInt8.toNat_and, UInt8.toNat_ofNat']
  simp only [UInt8.reduceToNat]
  rw [show (15 : Nat) = 2 ^ 4 - 1 from rfl, Nat.and_two_pow_sub_one_eq_mod]
  omega

theorem store_one {data : Bytes} {off : Nat} {x : UInt8} (h : off < data.length) :
    store data off [x] = .ok (data.set off x) := by
  rw [store_ok (by simp; omega)]
  simp only [List.length_singleton, Out.ok.injEq]
  rw [List.set_eq_take_append_cons_drop]
  simp [h]

/-- Loop body: three consecutive characters. -/
theorem fp_three {buffer : Bytes} {p : Nat} {x y z : UInt8} (h : p + 3 ≤ buffer.length) :
    (do let b1 ← store buffer p [x]
        let b2 ← store b1 (p + 1) [y]
        store b2 (p + 2) [z]) =
      .ok (buffer.take p ++ [x, y, z] ++ buffer.drop (p + 3)) := by
  rw [store_one (by omega)]
  simp only [Out.bind_ok]
  rw [store_one (by simp; omega)]
  simp only [Out.bind_ok]
  rw [store_one (by simp; omega)]
  obtain ⟨pre, a, b, c, post, rfl, rfl⟩ : ∃ pre a b c post, buffer = pre ++ a :: b :: c :: post ∧
      pre.length = p := by
    refine ⟨buffer.take p, buffer[p], buffer[p + 1], buffer[p + 2], buffer.drop (p + 3), ?_, ?_⟩
    · rw [List.getElem_cons_drop, List.getElem_cons_drop, List.getElem_cons_drop,
        List.take_append_drop]
    · simp; omega
  congr 1
  rw [List.set_append_right _ _ (Nat.le_refl _), List.set_append_right _ _ (by omega),
    List.set_append_right _ _ (by omega)]
  have e1 : pre.length + 1 - pre.length = 1 := by omega
  have e2 : pre.length + 2 - pre.length = 2 := by omega
  rw [e1, e2, Nat.sub_self, List.take_left', List.drop_append]
  · have e3 : pre.length + 3 - pre.length = 3 := by omega
    rw [List.drop_eq_nil_of_le (by omega), e3]
    simp
  · rfl

/-- What the loop writes for each digest byte. -/
def fpChunk (b : UInt8) : Bytes := specHex b ++ [58]

theorem fpLoop_spec (hash : Bytes) : ∀ (k posn : Nat) (buffer : Bytes),
    posn + k ≤ hash.length → (posn + k) * 3 ≤ buffer.length →
    fpLoop hash buffer posn k =
      .ok (buffer.take (posn * 3) ++ ((hash.drop posn).take k).flatMap fpChunk ++
        buffer.drop ((posn + k) * 3)) := by
  intro k
  induction k with
  | zero => intro posn buffer _ _; simp [fpLoop]
  | succ k ih =>
    intro posn buffer h1 h2
    have hp : posn < hash.length := by omega
    unfold fpLoop
    rw [List.getElem?_eq_getElem hp]
    simp only
    have h3 := @fp_three buffer (posn * 3) (hexchar ((hash[posn] >>> 4) &&& 0x0F))
      (hexchar (hash[posn] &&& 0x0F)) 58 (by omega)
    simp only [Out.bind_eq_ok] at h3
    obtain ⟨b1, e1, b2, e2, e3⟩ := h3
    rw [e1]; simp only [Out.bind_ok]; rw [e2]; simp only [Out.bind_ok]; rw [e3]
    simp only [Out.bind_ok]
    have hl : (buffer.take (posn * 3) ++
        [hexchar ((hash[posn] >>> 4) &&& 0x0F), hexchar (hash[posn] &&& 0x0F), 58] ++
        buffer.drop (posn * 3 + 3)).length = buffer.length := by simp; omega
    rw [ih (posn + 1) _ (by omega) (by rw [hl]; omega)]
    congr 1
    have hd : List.drop posn hash = hash[posn] :: List.drop (posn + 1) hash :=
      List.drop_eq_getElem_cons hp
    rw [hd, List.take_succ_cons, List.flatMap_cons]
    have e4 : (posn + 1) * 3 = posn * 3 + 3 := by omega
    have e5 : (posn + 1 + k) * 3 = (posn + (k + 1)) * 3 := by omega
    rw [e4, e5]
    have hl2 : (buffer.take (posn * 3) ++
        [hexchar ((hash[posn] >>> 4) &&& 0x0F), hexchar (hash[posn] &&& 0x0F), 58]).length
        = posn * 3 + 3 := by simp; omega
    rw [List.take_append_of_le_length (by omega)]
    rw [← hl2, List.take_length, hl2]
    rw [List.drop_append, hl2]
    simp only [List.drop_drop]
    have e6 : posn * 3 + 3 + ((posn + (k + 1)) * 3 - (posn * 3 + 3)) = (posn + (k + 1)) * 3 := by
      omega
    rw [e6]
    rw [hexchar_hi, hexchar_lo]
    simp [fpChunk, specHex]
    omega

theorem intercalate_chunks : ∀ (d : Bytes), d ≠ [] →
    d.flatMap fpChunk = specFingerprint d ++ [58] := by
  intro d
  induction d with
  | nil => simp
  | cons x xs ih =>
    intro _
    cases xs with
    | nil => simp [specFingerprint, fpChunk, List.intercalate]
    | cons y ys =>
      have := ih (by simp)
      rw [List.flatMap_cons, this]
      simp [specFingerprint, fpChunk, List.intercalate]

theorem flatMap_fpChunk_length (d : Bytes) : (d.flatMap fpChunk).length = 3 * d.length := by
  induction d with
  | nil => rfl
  | cons x xs ih => simp [fpChunk, specHex, List.flatMap_cons, ih] at *; omega

theorem specFingerprint_length (d : Bytes) (h : d ≠ []) :
    (specFingerprint d).length = 3 * d.length - 1 := by
  have h1 := flatMap_fpChunk_length d
  rw [intercalate_chunks d h] at h1
  simp at h1; omega

/-- **C38.** `noise_format_fingerprint` is always defined (writes stay inside the caller's
buffer). With a large enough buffer it leaves exactly the NUL-terminated fingerprint of the
first 16 (basic) or 32 (full) digest bytes at the front and does not touch the rest; otherwise
it reports an error and the buffer holds the empty string with the rest untouched. -/
theorem C38_format_fingerprint (sha256 : Bytes → Bytes) (hsha : ∀ m, (sha256 m).length = 32)
    (ty : FpType) (buffer pk : Bytes) :
    (ty ≠ .other → (if ty = .basic then 48 else 96) ≤ buffer.length →
      formatFingerprint sha256 ty buffer pk =
        .ok (.none, specFingerprint ((sha256 pk).take (if ty = .basic then 16 else 32)) ++ [0] ++
          buffer.drop (if ty = .basic then 48 else 96))) ∧
    (buffer.length < (if ty = .basic then 48 else 96) ∨ ty = .other →
      ∃ e, e ≠ Err.none ∧ formatFingerprint sha256 ty buffer pk =
        .ok (e, if buffer = [] then [] else 0 :: buffer.tail)) := by
  constructor
  · intro hty hlen
    have hl0 : buffer.length ≠ 0 := by split at hlen <;> omega
    have key : ∀ f, (f = 16 ∨ f = 32) → f * 3 ≤ buffer.length →
        (do let b ← fpLoop (sha256 pk) (buffer.set 0 0) 0 f
            let b ← store b (f * 3 - 1) [0]
            pure (Err.none, b)) =
          (.ok (.none, specFingerprint ((sha256 pk).take f) ++ [0] ++ buffer.drop (f * 3)) : Out _) := by
      intro f hf hfl
      rw [fpLoop_spec _ _ _ _ (by rw [hsha]; omega) (by simp; omega)]
      simp only [Nat.zero_mul, List.take_zero, List.nil_append, List.drop_zero, Nat.zero_add,
        Out.bind_ok]
      have hne : (sha256 pk).take f ≠ [] := by
        intro hc; have := congrArg List.length hc; simp [hsha] at this; omega
      rw [intercalate_chunks _ hne]
      have hsl := specFingerprint_length _ hne
      have htl : ((sha256 pk).take f).length = f := by simp [hsha]; omega
      rw [htl] at hsl
      rw [store_one (by simp; omega)]
      have hset : f * 3 - 1 = (specFingerprint ((sha256 pk).take f)).length := by omega
      have hdrop : (buffer.set 0 0).drop (f * 3) = buffer.drop (f * 3) := by
        rw [List.drop_set_of_lt (by omega)]
      simp only [Out.bind_ok, Out.pure_eq, hdrop]
      rw [hset, List.append_assoc, List.set_append_right _ _ (Nat.le_refl _)]
      simp
    unfold formatFingerprint
    rw [if_neg hl0, store_one (by omega)]
    simp only [Out.bind_ok]
    cases ty with
    | other => exact absurd rfl hty
    | basic =>
      simp only [if_true] at hlen ⊢
      have := key 16 (Or.inl rfl) (by omega)
      rw [if_neg (by simp; omega)]
      exact this
    | full =>
      simp only [reduceCtorEq, if_false] at hlen ⊢
      have := key 32 (Or.inr rfl) (by omega)
      rw [if_neg (by simp; omega)]
      exact this
  · intro h
    unfold formatFingerprint
    by_cases hl0 : buffer.length = 0
    · have : buffer = [] := List.eq_nil_of_length_eq_zero hl0
      subst this
      exact ⟨.invalidLength, by decide, by simp⟩
    · rw [if_neg hl0, store_one (by omega)]
      have hb : buffer ≠ [] := fun hc => hl0 (by simp [hc])
      have hset : buffer.set 0 0 = 0 :: buffer.tail := by
        cases buffer with
        | nil => exact absurd rfl hb
        | cons x xs => rfl
      simp only [Out.bind_ok, hb, if_false]
      cases ty with
      | other => exact ⟨.invalidParam, by decide, by simp [hset]⟩
      | basic =>
        have h' : buffer.length < 48 := by simpa using h
        refine ⟨.invalidLength, by decide, ?_⟩
        simp only [if_true]
        rw [if_pos (by simp; omega)]
        simp [hset]
      | full =>
        have h' : buffer.length < 96 := by simpa using h
        refine ⟨.invalidLength, by decide, ?_⟩
        simp only [reduceCtorEq, if_false]
        rw [if_pos (by simp; omega)]
        simp [hset]

theorem specHexDigit_inj : ∀ a b : Fin 16, specHexDigit a.val = specHexDigit b.val → a = b := by
  decide

theorem specHex_inj {a b : UInt8} (h : specHex a = specHex b) : a = b := by
  have ha := a.toNat_lt
  have hb := b.toNat_lt
  simp only [specHex, List.cons.injEq, and_true] at h
  have h1 := specHexDigit_inj ⟨a.toNat / 16, by omega⟩ ⟨b.toNat / 16, by omega⟩ h.1
  have h2 := specHexDigit_inj ⟨a.toNat % 16, by omega⟩ ⟨b.toNat % 16, by omega⟩ h.2
  simp only [Fin.mk.injEq] at h1 h2
  apply UInt8.toNat_inj.mp
  omega

theorem flatMap_fpChunk_inj : ∀ (a b : Bytes), a.flatMap fpChunk = b.flatMap fpChunk → a = b := by
  intro a
  induction a with
  | nil =>
    intro b h
    cases b with
    | nil => rfl
    | cons y ys => simp [List.flatMap_cons, fpChunk] at h
  | cons x xs ih =>
    intro b h
    cases b with
    | nil => simp [List.flatMap_cons, fpChunk] at h
    | cons y ys =>
      simp only [List.flatMap_cons, fpChunk, specHex, List.cons_append, List.nil_append,
        List.cons.injEq, true_and] at h
      have hxy : x = y := specHex_inj (by simp [specHex, h.1, h.2.1])
      rw [hxy, ih ys h.2.2]

/-- **C38.** Distinct digests give distinct fingerprints. -/
theorem C38_fingerprint_injective (a b : Bytes) (ha : a ≠ []) (hb : b ≠ [])
    (h : specFingerprint a = specFingerprint b) : a = b := by
  apply flatMap_fpChunk_inj
  rw [intercalate_chunks a ha, intercalate_chunks b hb, h]

example : specFingerprint [0xa0, 0x07] = ascii "a0:07" := by decide

example : formatFingerprint (fun _ => List.replicate 32 0xAB) .basic (List.replicate 49 9) [1] =
    .ok (.none, ascii "ab:ab:ab:ab:ab:ab:ab:ab:ab:ab:ab:ab:ab:ab:ab:ab" ++ [0, 9]) := by
  decide +kernel

/-! ## C53 -/

/-- The C string held in a memory area: the bytes before the first NUL. -/
def cstr (mem : Bytes) : Bytes := mem.takeWhile (· ≠ 0)

/-- Documented text of every error code (specification, from the error code documentation in
`include/noise/protocol/constants.h` and the English names). -/
def Err.text : Err → String
  | .none => "No error" | .noMemory => "Out of memory" | .unknownId => "Unknown identifier"
  | .unknownName => "Unknown name" | .macFailure => "MAC failure"
  | .notApplicable => "Not applicable" | .system => "System error"
  | .remoteKeyRequired => "Remote public key required"
  | .localKeyRequired => "Local keypair required" | .pskRequired => "Pre shared key required"
  | .invalidLength => "Invalid length" | .invalidParam => "Invalid parameter"
  | .invalidState => "Invalid state" | .invalidNonce => "Invalid nonce"
  | .invalidPrivateKey => "Invalid private key" | .invalidPublicKey => "Invalid public key"
  | .invalidFormat => "Invalid format" | .invalidSignature => "Invalid signature"

theorem errstr_known (e : Err) : errstr e.code = some (ascii e.text) := by
  cases e <;> decide

theorem ascii_text_nonzero (e : Err) : ∀ b ∈ ascii e.text, b ≠ 0 := by
  cases e <;> decide

theorem takeWhile_ne_zero_append {a rest : Bytes} (ha : ∀ b ∈ a, b ≠ 0) :
    (a ++ 0 :: rest).takeWhile (· ≠ 0) = a := by
  induction a with
  | nil => simp
  | cons x xs ih =>
    have h1 := ha x (by simp)
    have h2 := ih (fun b hb => ha b (by simp [hb]))
    simp only [List.cons_append, List.takeWhile_cons]
    simp only [ne_eq, h1, not_false_eq_true, decide_true, if_true, List.cons.injEq, true_and]
    simpa using h2

theorem store_prefix {buf src : Bytes} (h : src.length ≤ buf.length) :
    store buf 0 src = .ok (src ++ buf.drop src.length) := by
  rw [store_ok (by omega)]
  simp

theorem set_last_prefix {s pad : Bytes} {n : Nat} (hs : ∀ b ∈ s, b ≠ 0) (hn : 0 < n)
    (mem : Bytes) (hmem : mem.length = n)
    (hm : (s.length < n ∧ mem = s ++ 0 :: pad) ∨ (n ≤ s.length ∧ mem = s.take n)) :
    cstr (mem.set (n - 1) 0) = s.take (n - 1) := by
  unfold cstr
  rcases hm with ⟨h1, h2⟩ | ⟨h1, h2⟩
  · rw [List.take_of_length_le (by omega)]
    subst h2
    by_cases hc : n - 1 = s.length
    · rw [hc, List.set_append_right _ _ (Nat.le_refl _)]
      simp only [Nat.sub_self, List.set_cons_zero]
      exact takeWhile_ne_zero_append hs
    · rw [List.set_append_right _ _ (by omega)]
      have : n - 1 - s.length = (n - 1 - s.length - 1) + 1 := by omega
      rw [this, List.set_cons_succ]
      exact takeWhile_ne_zero_append hs
  · have : mem.set (n - 1) 0 = s.take (n - 1) ++ 0 :: [] := by
      subst h2
      rw [List.set_eq_take_append_cons_drop]
      rw [if_pos (by simp; omega)]
      rw [List.take_take, Nat.min_eq_left (by omega)]
      rw [List.drop_eq_nil_of_le (by simp; omega)]
    rw [this]
    exact takeWhile_ne_zero_append (fun b hb => hs b (List.mem_of_mem_take hb))

theorem hexDigits_nonzero : ∀ n, ∀ b ∈ hexDigits n, b ≠ 0 := by
  intro n
  induction n using Nat.strongRecOn with
  | _ n ih =>
    intro b hb
    have base : ∀ k : Fin 16, hexchar (UInt8.ofNat k.val) ≠ 0 := by decide
    rw [hexDigits] at hb
    split at hb
    · simp only [List.mem_singleton] at hb
      subst hb
      exact base ⟨n, by omega⟩
    · simp only [List.mem_append, List.mem_singleton] at hb
      rcases hb with hb | hb
      · exact ih (n / 16) (by omega) b hb
      · subst hb
        exact base ⟨n % 16, by omega⟩

/-- **C53.** For every code and every buffer, `noise_strerror` stays inside the buffer and
(unless the buffer is empty, when it returns -1) leaves a NUL-terminated string in it: the
documented text for a known code, truncated to the buffer. -/
theorem C53_strerror_known (e : Err) (buf : Bytes) (hb : buf ≠ []) :
    ∃ mem, strerror e.code buf = .ok (0, mem) ∧ mem.length = buf.length ∧
      mem.getLast? = some 0 ∧ cstr mem = (ascii e.text).take (buf.length - 1) := by
  have hn : 0 < buf.length := List.length_pos_iff.mpr hb
  have hsl : (strncpy (ascii e.text) buf.length).length = buf.length := by
    unfold strncpy; split <;> simp <;> omega
  refine ⟨(strncpy (ascii e.text) buf.length).set (buf.length - 1) 0, ?_, ?_, ?_, ?_⟩
  · unfold strerror
    rw [if_neg (by omega), errstr_known]
    simp only
    rw [store_prefix (by omega), hsl]
    simp only [List.drop_length, List.append_nil, Out.bind_ok]
    rw [hsl, store_one (by omega)]
    rfl
  · simp [hsl]
  · rw [List.getLast?_eq_getElem?]
    simp only [List.length_set, hsl]
    rw [List.getElem?_set_self (by omega)]
  · by_cases hlt : (ascii e.text).length < buf.length
    · apply set_last_prefix (pad := List.replicate (buf.length - (ascii e.text).length - 1) 0)
        (ascii_text_nonzero e) hn _ hsl
      left
      refine ⟨hlt, ?_⟩
      unfold strncpy
      rw [if_pos hlt]
      have : buf.length - (ascii e.text).length =
        (buf.length - (ascii e.text).length - 1) + 1 := by omega
      rw [this, List.replicate_succ]
      simp
    · apply set_last_prefix (pad := []) (ascii_text_nonzero e) hn _ hsl
      right
      refine ⟨by omega, ?_⟩
      unfold strncpy
      rw [if_neg hlt]

/-- The text for a code that is not one of the library's: "Unknown error 0x" followed by the
hexadecimal value of the 32-bit code. -/
def specUnknown (c : Int) : Bytes := ascii "Unknown error 0x" ++ hexDigits (c % 4294967296).toNat

theorem errstr_unknown (c : Int) (hc : ∀ e : Err, (e.code : Int) ≠ c) : errstr c = none := by
  unfold errstr
  have h0 := hc .none
  rw [if_neg (by intro h; exact h0 (by simp [Err.code, h]))]
  by_cases hr : c < 0x4501 ∨ c ≥ 0x4500 + errorStrings.length
  · rw [if_pos hr]
  · exfalso
    have hlen : (errorStrings.length : Int) = 18 := by decide
    rw [hlen] at hr
    have all : c = 0x4501 ∨ c = 0x4502 ∨ c = 0x4503 ∨ c = 0x4504 ∨ c = 0x4505 ∨
        c = 0x4506 ∨ c = 0x4507 ∨ c = 0x4508 ∨ c = 0x4509 ∨ c = 0x450a ∨ c = 0x450b ∨
        c = 0x450c ∨ c = 0x450d ∨ c = 0x450e ∨ c = 0x450f ∨ c = 0x4510 ∨ c = 0x4511 := by omega
    rcases all with rfl | rfl | rfl | rfl | rfl | rfl | rfl | rfl | rfl | rfl | rfl | rfl | rfl | rfl | rfl | rfl | rfl
    · exact hc .noMemory rfl
    · exact hc .unknownId rfl
    · exact hc .unknownName rfl
    · exact hc .macFailure rfl
    · exact hc .notApplicable rfl
    · exact hc .system rfl
    · exact hc .remoteKeyRequired rfl
    · exact hc .localKeyRequired rfl
    · exact hc .pskRequired rfl
    · exact hc .invalidLength rfl
    · exact hc .invalidParam rfl
    · exact hc .invalidState rfl
    · exact hc .invalidNonce rfl
    · exact hc .invalidPrivateKey rfl
    · exact hc .invalidPublicKey rfl
    · exact hc .invalidFormat rfl
    · exact hc .invalidSignature rfl

/-- **C53.** Codes that are not the library's get the text "Unknown error 0x..." with their
value, again truncated and terminated inside the buffer. -/
theorem C53_strerror_unknown (c : Int) (hc : ∀ e : Err, (e.code : Int) ≠ c) (buf : Bytes)
    (hb : buf ≠ []) :
    ∃ mem, strerror c buf = .ok (0, mem) ∧ mem.length = buf.length ∧
      mem.getLast? = some 0 ∧ cstr mem = (specUnknown c).take (buf.length - 1) := by
  have hn : 0 < buf.length := List.length_pos_iff.mpr hb
  have hnz : ∀ b ∈ specUnknown c, b ≠ 0 := by
    intro b hb
    simp only [specUnknown, List.mem_append] at hb
    rcases hb with hb | hb
    · revert b; decide
    · exact hexDigits_nonzero _ b hb
  have hsn : snprintfUnknown c buf.length = (specUnknown c).take (buf.length - 1) ++ [0] := rfl
  have hle : (snprintfUnknown c buf.length).length ≤ buf.length := by rw [hsn]; simp; omega
  have hml : (snprintfUnknown c buf.length ++
      buf.drop (snprintfUnknown c buf.length).length).length = buf.length := by simp; omega
  refine ⟨(snprintfUnknown c buf.length ++ buf.drop (snprintfUnknown c buf.length).length).set
      (buf.length - 1) 0, ?_, ?_, ?_, ?_⟩
  · unfold strerror
    rw [if_neg (by omega), errstr_unknown c hc]
    simp only
    rw [store_prefix hle]
    simp only [Out.bind_ok]
    rw [hml, store_one (by omega)]
    rfl
  · simp only [List.length_set]; exact hml
  · rw [List.getLast?_eq_getElem?]
    simp only [List.length_set, hml]
    rw [List.getElem?_set_self (by omega)]
  · have := set_last_prefix (s := (specUnknown c).take (buf.length - 1))
      (pad := buf.drop (snprintfUnknown c buf.length).length)
      (fun b hb => hnz b (List.mem_of_mem_take hb)) hn
      (snprintfUnknown c buf.length ++ buf.drop (snprintfUnknown c buf.length).length) hml
      (Or.inl ⟨by simp; omega, by rw [hsn]; simp⟩)
    rw [this, List.take_take, Nat.min_self]

/-- **C53.** An empty buffer is refused without touching memory. -/
theorem C53_strerror_empty (c : Int) : strerror c [] = .ok (-1, []) := rfl

/-- **C53.** Different codes have different texts, and no unknown code's text is a known one. -/
theorem C53_texts_distinct (e1 e2 : Err) (h : e1.text = e2.text) : e1 = e2 := by
  cases e1 <;> cases e2 <;> first | rfl | (revert h; decide)

theorem C53_unknown_text_distinct (e : Err) (c : Int) : ascii e.text ≠ specUnknown c := by
  intro h
  have h2 := congrArg (List.take 16) h
  rw [specUnknown, List.take_append_of_le_length (by decide)] at h2
  revert h2
  cases e <;> decide

example : strerror 0x4504 (List.replicate 5 1) = .ok (0, ascii "MAC " ++ [0]) := by rfl
example : (∀ e : Err, (e.code : Int) ≠ 0x4512) := by intro e; cases e <;> decide

end Noise
