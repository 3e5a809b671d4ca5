import Verif.Hash
/-!
# HMAC, HKDF and PBKDF2 (C31)
-/

namespace Noise

/-! ## Specification (RFC 2104, Noise section 4.3 / RFC 5869, RFC 8018) -/

/-- RFC 2104: the key, hashed when longer than a block, padded with zeros to a block. -/
def specHmacKey (H : Bytes → Bytes) (blockLen : Nat) (key : Bytes) : Bytes :=
  let k := if key.length > blockLen then H key else key
  k ++ List.replicate (blockLen - k.length) 0

/-- RFC 2104: `H(K XOR opad, H(K XOR ipad, text))`. -/
def specHmac (H : Bytes → Bytes) (blockLen : Nat) (key text : Bytes) : Bytes :=
  let k := specHmacKey H blockLen key
  H (k.map (· ^^^ 0x5C) ++ H (k.map (· ^^^ 0x36) ++ text))

/-- Noise specification HKDF with two outputs. -/
def specHkdf (H : Bytes → Bytes) (blockLen : Nat) (ck ikm : Bytes) : Bytes × Bytes :=
  let tempKey := specHmac H blockLen ck ikm
  let o1 := specHmac H blockLen tempKey [0x01]
  (o1, specHmac H blockLen tempKey (o1 ++ [0x02]))

/-- RFC 8018: `U_1 = PRF(P, S || INT(i))`, `U_{j+1} = PRF(P, U_j)`; here `specU .. j` is
`U_{j+1}`. -/
def specU (prf : Bytes → Bytes) (first : Bytes) : Nat → Bytes
  | 0 => prf first
  | j + 1 => prf (specU prf first j)

/-- RFC 8018: `F = U_1 xor U_2 xor ... xor U_c`, for `c = k + 1`. -/
def specF (prf : Bytes → Bytes) (first : Bytes) : Nat → Bytes
  | 0 => specU prf first 0
  | k + 1 => List.zipWith (· ^^^ ·) (specF prf first k) (specU prf first (k + 1))

/-- RFC 8018 `INT(i)`: four octets, most significant first. -/
def specINT (i : Nat) : Bytes :=
  [UInt8.ofNat (i / 16777216 % 256), UInt8.ofNat (i / 65536 % 256), UInt8.ofNat (i / 256 % 256),
   UInt8.ofNat (i % 256)]

/-- RFC 8018: `T_1 || T_2 || ... || T_l` truncated to `dkLen` bytes, `l = ceil(dkLen / hLen)`. -/
def specPbkdf2 (prf : Bytes → Bytes) (hLen : Nat) (salt : Bytes) (c dkLen : Nat) : Bytes :=
  ((List.range ((dkLen + hLen - 1) / hLen)).flatMap
    (fun i => specF prf (salt ++ specINT (i + 1)) (c - 1))).take dkLen

/-! ## Lemmas -/

theorem xorKey_eq (l : Bytes) (v : UInt8) : HashBackend.xorKey l v = l.map (· ^^^ v) := by
  induction l with
  | nil => rfl
  | cons x xs ih => simp [HashBackend.xorKey, ih]

variable {B : HashBackend} {H : Bytes → Bytes}

theorem hashOne_eq (L : B.Lawful H) (c : B.Ctx) (d : Bytes) : (B.hashOne c d).2 = H d := by
  simpa [HashBackend.hashOne] using L.digest c [d]

theorem hashTwo_eq (L : B.Lawful H) (c : B.Ctx) (d e : Bytes) :
    (B.hashTwo c d e).2 = H (d ++ e) := by
  simpa [HashBackend.hashTwo] using L.digest c [d, e]

theorem hmac_key_step (L : B.Lawful H) (c : B.Ctx) (key : Bytes) : ∃ c',
    B.hmacKey c key = .ok (c', specHmacKey H B.blockLen key) := by
  unfold HashBackend.hmacKey
  by_cases hk : key.length ≤ B.blockLen
  · refine ⟨c, ?_⟩
    rw [if_pos hk]
    simp [specHmacKey, Nat.not_lt.mpr hk]
  · refine ⟨(B.hashOne c key).1, ?_⟩
    have h1 := hashOne_eq L c key
    rw [if_neg hk, if_pos L.hashLen_le_block]
    simp [specHmacKey, Nat.lt_of_not_ge hk, L.length, h1]

theorem hmac_eq (L : B.Lawful H) (c : B.Ctx) (key d1 : Bytes) (d2 : Option Bytes) :
    ∃ c', B.hmac c key d1 d2 = .ok (c', specHmac H B.blockLen key (d1 ++ d2.getD [])) := by
  obtain ⟨c0, h0⟩ := hmac_key_step L c key
  unfold HashBackend.hmac
  rw [h0]
  simp only [Out.bind_ok, Out.pure_eq, xorKey_eq]
  have key_opad : ∀ k : Bytes, (k.map (· ^^^ (0x36 : UInt8))).map (· ^^^ ((0x36 : UInt8) ^^^ 0x5C)) =
      k.map (· ^^^ 0x5C) := by
    intro k
    rw [List.map_map]
    apply List.map_congr_left
    intro x _
    simp only [Function.comp]
    rw [UInt8.xor_assoc]
    congr 1
  rw [key_opad]
  refine ⟨_, congrArg Out.ok (Prod.ext rfl ?_)⟩
  dsimp only
  cases d2 with
  | none =>
    have hi := L.digest c0 [(specHmacKey H B.blockLen key).map (· ^^^ 0x36), d1]
    simp only [List.foldl_cons, List.foldl_nil, List.flatten_cons, List.flatten_nil, List.append_nil] at hi
    have ho := fun c1 h => L.digest c1 [(specHmacKey H B.blockLen key).map (· ^^^ 0x5C), h]
    simp only [List.foldl_cons, List.foldl_nil, List.flatten_cons, List.flatten_nil, List.append_nil] at ho
    simp only [hi, ho, specHmac, Option.getD_none, List.append_nil]
  | some d =>
    have hi := L.digest c0 [(specHmacKey H B.blockLen key).map (· ^^^ 0x36), d1, d]
    simp only [List.foldl_cons, List.foldl_nil, List.flatten_cons, List.flatten_nil, List.append_nil] at hi
    have ho := fun c1 h => L.digest c1 [(specHmacKey H B.blockLen key).map (· ^^^ 0x5C), h]
    simp only [List.foldl_cons, List.foldl_nil, List.flatten_cons, List.flatten_nil, List.append_nil] at ho
    simp only [hi, ho, specHmac, Option.getD_some]

theorem specHmac_length (L : B.Lawful H) (k t : Bytes) :
    (specHmac H B.blockLen k t).length = B.hashLen := by
  simp [specHmac, L.length]

/-- C31: HMAC is RFC 2104 over the concatenated data, for every key length. -/
theorem C31_hmac (L : B.Lawful H) (c : B.Ctx) (key data1 : Bytes) (data2 : Option Bytes) :
    ∃ c', B.hmac c key data1 data2 =
      .ok (c', specHmac H B.blockLen key (data1 ++ data2.getD [])) :=
  hmac_eq L c key data1 data2

/-- C31: HKDF is the specification's, truncated to the requested lengths; it fails exactly when a
requested length exceeds the hash length. -/
theorem C31_hkdf (L : B.Lawful H) (c : B.Ctx) (key data : Bytes) (len1 len2 : Nat) :
    (len1 ≤ B.hashLen ∧ len2 ≤ B.hashLen → ∃ c', B.hkdf c key data len1 len2 =
      .ok (.none, c', (specHkdf H B.blockLen key data).1.take len1,
        (specHkdf H B.blockLen key data).2.take len2)) ∧
    (¬ (len1 ≤ B.hashLen ∧ len2 ≤ B.hashLen) → B.hkdf c key data len1 len2 =
      .ok (.invalidLength, c, [], [])) := by
  constructor
  · rintro ⟨h1, h2⟩
    unfold HashBackend.hkdf
    rw [if_neg (by omega)]
    obtain ⟨c1, e1⟩ := hmac_eq L c key data none
    rw [e1]
    simp only [Out.bind_ok]
    obtain ⟨c2, e2⟩ := hmac_eq L c1 (specHmac H B.blockLen key (data ++ Option.getD none [])) [0x01] none
    rw [e2]
    simp only [Out.bind_ok, Option.getD_none, List.append_nil]
    obtain ⟨c3, e3⟩ := hmac_eq L c2 (specHmac H B.blockLen key data)
      (specHmac H B.blockLen (specHmac H B.blockLen key data) [0x01] ++ [0x02]) none
    rw [e3]
    refine ⟨c3, ?_⟩
    simp [specHkdf]
  · intro h
    unfold HashBackend.hkdf
    rw [if_pos (by omega)]

theorem pbkdf2Inner_eq (L : B.Lawful H) (pass first : Bytes) : ∀ (k j : Nat) (c : B.Ctx),
    ∃ c', B.pbkdf2Inner pass k c (specF (specHmac H B.blockLen pass) first j)
      (specU (specHmac H B.blockLen pass) first j) =
      .ok (c', specF (specHmac H B.blockLen pass) first (j + k)) := by
  intro k
  induction k with
  | zero => intro j c; exact ⟨c, rfl⟩
  | succ k ih =>
    intro j c
    unfold HashBackend.pbkdf2Inner
    obtain ⟨c1, e1⟩ := hmac_eq L c pass (specU (specHmac H B.blockLen pass) first j) none
    rw [e1]
    simp only [Out.bind_ok, Option.getD_none, List.append_nil]
    obtain ⟨c2, e2⟩ := ih (j + 1) c1
    refine ⟨c2, ?_⟩
    rw [Nat.add_right_comm, ← Nat.add_assoc] at *
    exact e2

theorem specF_length (L : B.Lawful H) (pass first : Bytes) (k : Nat) :
    (specF (specHmac H B.blockLen pass) first k).length = B.hashLen := by
  induction k with
  | zero => simp [specF, specU, specHmac_length L]
  | succ k ih => simp [specF, specU, specHmac_length L, ih]

theorem ibuf_eq (i : Nat) : HashBackend.ibuf i = specINT i := by
  have h : ∀ n : Nat, UInt8.ofNat n = UInt8.ofNat (n % 256) := by
    intro n
    apply UInt8.toNat_inj.mp
    simp
  unfold HashBackend.ibuf specINT
  simp only [List.cons.injEq, and_true]
  exact ⟨h _, h _, h _, h _⟩

theorem flatMap_range_succ_left {α : Type} (f : Nat → List α) (n : Nat) :
    (List.range (n + 1)).flatMap f = f 0 ++ (List.range n).flatMap (fun i => f (i + 1)) := by
  rw [List.range_succ_eq_map, List.flatMap_cons, List.flatMap_map]

theorem pbkdf2Loop_eq (L : B.Lawful H) (pass salt : Bytes) (iterations : Nat) :
    ∀ (outputLen i : Nat) (c : B.Ctx), ∃ c',
      B.pbkdf2Loop pass salt iterations i outputLen c = .ok (c',
        ((List.range ((outputLen + B.hashLen - 1) / B.hashLen)).flatMap
          (fun j => specF (specHmac H B.blockLen pass) (salt ++ specINT (i + j)) (iterations - 1))).take
            outputLen) := by
  have hpos := L.hashLen_pos
  intro outputLen
  induction outputLen using Nat.strongRecOn with
  | _ outputLen ih =>
    intro i c
    unfold HashBackend.pbkdf2Loop
    by_cases h0 : 0 < outputLen
    · rw [if_pos h0, if_neg (by have := L.hashLen_le_max; unfold HashBackend.maxHashLen; omega)]
      obtain ⟨c1, e1⟩ := hmac_eq L c pass salt (some (HashBackend.ibuf i))
      rw [e1]
      simp only [Out.bind_ok, Option.getD_some, ibuf_eq]
      obtain ⟨c2, e2⟩ := pbkdf2Inner_eq L pass (salt ++ specINT i) (iterations - 1) 0 c1
      simp only [specF, specU, Nat.zero_add] at e2
      rw [e2]
      simp only [Out.bind_ok]
      have hl := specF_length L pass (salt ++ specINT i) (iterations - 1)
      by_cases hge : outputLen ≥ B.hashLen
      · rw [dif_pos ⟨hge, hpos⟩]
        obtain ⟨c3, e3⟩ := ih (outputLen - B.hashLen) (by omega) (i + 1) c2
        rw [e3]
        refine ⟨c3, ?_⟩
        simp only [Out.bind_ok, Out.pure_eq, Out.ok.injEq, Prod.mk.injEq, true_and]
        have hn : (outputLen + B.hashLen - 1) / B.hashLen =
            (outputLen - B.hashLen + B.hashLen - 1) / B.hashLen + 1 := by
          rw [← Nat.add_div_right _ hpos]; congr 1; omega
        rw [hn, flatMap_range_succ_left]
        have hsplit : outputLen = B.hashLen + (outputLen - B.hashLen) := by omega
        generalize hD : outputLen - B.hashLen = D at *
        have htk : ∀ (a b : Bytes), a.length = B.hashLen →
            (a ++ b).take outputLen = a ++ b.take D := by
          intro a b ha
          rw [hsplit, ← ha, List.take_length_add_append]
        rw [htk _ _ (by simpa using hl)]
        simp only [Nat.add_assoc, Nat.add_comm 1, Nat.add_zero]
      · rw [dif_neg (by omega)]
        refine ⟨c2, ?_⟩
        have hn : (outputLen + B.hashLen - 1) / B.hashLen = 0 + 1 := by
          rw [Nat.zero_add]
          apply Nat.div_eq_of_lt_le <;> omega
        rw [hn, flatMap_range_succ_left]
        simp
    · have : outputLen = 0 := by omega
      subst this
      exact ⟨c, by simp⟩

/-- C31: PBKDF2 is RFC 8018's with HMAC as the PRF for every passphrase, salt, iteration count (0
behaving as 1) and output length up to the RFC limit, beyond which it fails. -/
theorem C31_pbkdf2 (L : B.Lawful H) (c : B.Ctx) (pass salt : Bytes) (iterations outputLen : Nat) :
    (outputLen ≤ (2 ^ 32 - 1) * B.hashLen → ∃ c', B.pbkdf2 c pass salt iterations outputLen =
      .ok (.none, c', specPbkdf2 (specHmac H B.blockLen pass) B.hashLen salt iterations outputLen)) ∧
    (outputLen > (2 ^ 32 - 1) * B.hashLen →
      B.pbkdf2 c pass salt iterations outputLen = .ok (.invalidLength, c, [])) := by
  constructor
  · intro h
    unfold HashBackend.pbkdf2
    rw [if_neg (by simpa using h)]
    obtain ⟨c', e⟩ := pbkdf2Loop_eq L pass salt iterations outputLen 1 c
    rw [e]
    refine ⟨c', ?_⟩
    simp [specPbkdf2, Nat.add_comm 1]
  · intro h
    unfold HashBackend.pbkdf2
    rw [if_pos (by simpa using h)]

/-- C31: the derived key has exactly the requested length. -/
theorem C31_pbkdf2_length (L : B.Lawful H) (pass salt : Bytes) (iterations outputLen : Nat) :
    (specPbkdf2 (specHmac H B.blockLen pass) B.hashLen salt iterations outputLen).length =
      outputLen := by
  have hpos := L.hashLen_pos
  have hlen : ∀ n, ((List.range n).flatMap
      (fun i => specF (specHmac H B.blockLen pass) (salt ++ specINT (i + 1)) (iterations - 1))).length
      = n * B.hashLen := by
    intro n
    rw [List.length_flatMap]
    simp only [specF_length L]
    induction n with
    | zero => simp
    | succ n ih => rw [List.range_succ, List.map_append, List.sum_append, ih]; simp [Nat.succ_mul]
  rw [specPbkdf2, List.length_take, hlen]
  apply Nat.min_eq_left
  have := Nat.div_add_mod (outputLen + B.hashLen - 1) B.hashLen
  have := Nat.mod_lt (outputLen + B.hashLen - 1) hpos
  rw [Nat.mul_comm]
  omega

/-! ## A toy back end showing that the hypotheses can be met -/

/-- Example back end (not part of the code base): the "hash" is the two-byte sum and length. -/
def toyHash : HashBackend where
  hashId := 0
  hashLen := 2
  blockLen := 4
  Ctx := Bytes
  reset _ := []
  update c d := c ++ d
  finalize c := (c, [c.foldl (· + ·) 1, UInt8.ofNat c.length])

theorem toyHash_lawful :
    toyHash.Lawful (fun m => [m.foldl (· + ·) 1, UInt8.ofNat m.length]) where
  digest := by
    intro c chunks
    have h : ∀ (l : List Bytes) (a : Bytes),
        l.foldl (fun (c : Bytes) (d : Bytes) => c ++ d) a = a ++ l.flatten := by
      intro l
      induction l with
      | nil => intro a; simp
      | cons x xs ih => intro a; rw [List.foldl_cons, ih]; simp
    have h2 := h chunks []
    rw [List.nil_append] at h2
    show (fun (c : Bytes) => [c.foldl (· + ·) 1, UInt8.ofNat c.length]) _ = _
    exact congrArg (fun (c : Bytes) => [c.foldl (· + ·) 1, UInt8.ofNat c.length]) h2
  length := by intro m; rfl
  hashLen_pos := by decide
  hashLen_le_block := by decide
  hashLen_le_max := by decide

/-- A five-byte key, longer than the block, three iterations, an output that is not a multiple
of the hash length. -/
example : ∃ c', toyHash.pbkdf2 ([] : Bytes) [1, 2, 3, 4, 5] [9] 3 5 =
    .ok (.none, c', [199, 6, 200, 6, 201]) := by
  obtain ⟨c', h⟩ := (C31_pbkdf2 toyHash_lawful ([] : Bytes) [1, 2, 3, 4, 5] [9] 3 5).1 (by decide)
  refine ⟨c', h.trans ?_⟩
  congr 3

example : ∃ c', toyHash.hkdf ([] : Bytes) [1, 2, 3, 4, 5] [9] 2 1 =
    .ok (.none, c', [40, 6], [89]) :=
  ((C31_hkdf toyHash_lawful ([] : Bytes) [1, 2, 3, 4, 5] [9] 2 1).1 (by decide))

end Noise
