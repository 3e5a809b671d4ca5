import Verif.Cipher
/-!
# Properties C01-C07 of the CipherState API
-/

namespace Noise

/-! ## A toy back end used only to show that hypotheses can be met -/

/-- Example back end (not part of the code base): "encrypts" by appending one zero MAC byte. -/
def toyCipher : CipherBackend where
  cipherId := 0
  keyLen := 1
  macLen := 1
  enc _ _ _ pt := (.none, pt ++ [0])
  dec _ _ _ ct := if ct.getLast? = some 0 then (.none, ct) else (.macFailure, ct)

theorem toyCipher_lawful : toyCipher.Lawful where
  macLen_le := by decide
  enc_length := by simp [toyCipher]
  dec_length := by intro k n ad ct; simp only [toyCipher]; split <;> rfl
  enc_ok := by simp [toyCipher]
  dec_inert := by intro k n ad ct; simp only [toyCipher]; split <;> simp
  dec_enc := by simp [toyCipher]

/-! ## Helper lemmas -/

theorem u64_succ {x : UInt64} (h : x ≠ 0xFFFFFFFFFFFFFFFF) : (x + 1).toNat = x.toNat + 1 := by
  have h1 := x.toNat_lt
  have h2 : x.toNat ≠ 18446744073709551615 := fun hc => h (UInt64.toNat_inj.mp hc)
  rw [UInt64.toNat_add]
  simp
  omega

/-! ## Specification vocabulary -/

/-- The nonce of an invocation that *consumes* it: an encryption, or a decryption that
succeeded. -/
def Call.consumed : Call → Option UInt64
  | .enc _ n => some n
  | .dec _ n .none => some n
  | .dec _ _ _ => none

/-- The nonce handed to the cipher by an invocation. -/
def Call.nonce : Call → UInt64
  | .enc _ n => n
  | .dec _ n _ => n

/-- The key used by an invocation. -/
def Call.key : Call → Bytes
  | .enc k _ => k
  | .dec k _ _ => k

/-! ## Every call in detail -/

/-- The three facts about a single call that the history theorems rest on. -/
theorem step_facts {B : CipherBackend} {s s' : CipherState} {op : COp} {cs : List Call}
    (h : op.step B s = .ok (s', cs)) :
    s'.key = s.key ∧ s'.hasKey = s.hasKey ∧ s.n.toNat ≤ s'.n.toNat ∧
    (cs.filterMap Call.consumed = [] ∨
      (cs.filterMap Call.consumed = [s.n] ∧ s.n.toNat < s'.n.toNat)) ∧
    (∀ c ∈ cs, c.nonce = s.n ∧ c.nonce ≠ 0xFFFFFFFFFFFFFFFF ∧ c.key = s.key ∧ s.hasKey = true) := by
  cases op with
  | setNonce n =>
    simp only [COp.step, CipherState.setNonce] at h
    repeat' split at h
    all_goals simp only [Out.pure_eq, Out.ok.injEq, Prod.mk.injEq] at h
    all_goals obtain ⟨rfl, rfl⟩ := h
    · simp
    · simp
    · rename_i _ h2
      simp only [gt_iff_lt, UInt64.lt_iff_toNat_lt, Nat.not_lt] at h2
      simp [h2]
  | encrypt ad b =>
    simp only [COp.step, CipherState.encryptWithAd, Out.bind_eq_ok] at h
    obtain ⟨r, hr, hp⟩ := h
    simp only [Out.pure_eq, Out.ok.injEq, Prod.mk.injEq] at hp
    obtain ⟨rfl, rfl⟩ := hp
    repeat' split at hr
    any_goals (cases hr; simp; done)
    rename_i hk _ _ hn
    simp only [Out.bind_eq_ok] at hr
    obtain ⟨pt, _, data, _, hr⟩ := hr
    have hsucc := u64_succ hn
    split at hr <;> cases hr <;> simp_all [Call.consumed, Call.nonce, Call.key, -UInt64.toNat_add]
  | decrypt ad b =>
    simp only [COp.step, CipherState.decryptWithAd, Out.bind_eq_ok] at h
    obtain ⟨r, hr, hp⟩ := h
    simp only [Out.pure_eq, Out.ok.injEq, Prod.mk.injEq] at hp
    obtain ⟨rfl, rfl⟩ := hp
    repeat' split at hr
    any_goals (cases hr; simp; done)
    rename_i hk _ hn
    simp only [Out.bind_eq_ok] at hr
    obtain ⟨pt, _, data, _, hr⟩ := hr
    have hsucc := u64_succ hn
    split at hr
    · rename_i he
      cases hr
      refine ⟨rfl, rfl, Nat.le_refl _, Or.inl ?_, ?_⟩
      · have : ∀ e : Err, e ≠ .none → Call.consumed (.dec s.key s.n e) = none := by
          intro e he; cases e <;> simp_all [Call.consumed]
        simp [this _ he]
      · simp_all [Call.nonce, Call.key]
    · cases hr; simp_all [Call.consumed, Call.nonce, Call.key, -UInt64.toNat_add]

theorem run_facts {B : CipherBackend} {ops : List COp} :
    ∀ {s s' : CipherState} {cs : List Call}, COp.run B s ops = .ok (s', cs) →
    s'.key = s.key ∧ s'.hasKey = s.hasKey ∧ s.n.toNat ≤ s'.n.toNat ∧
    (cs.filterMap Call.consumed).Pairwise (fun a b => a.toNat < b.toNat) ∧
    (∀ n ∈ cs.filterMap Call.consumed, s.n.toNat ≤ n.toNat ∧ n.toNat < s'.n.toNat) ∧
    (∀ c ∈ cs, c.nonce ≠ 0xFFFFFFFFFFFFFFFF ∧ c.key = s.key ∧ s.hasKey = true ∧
      s.n.toNat ≤ c.nonce.toNat) := by
  induction ops with
  | nil =>
    intro s s' cs h
    simp only [COp.run, Out.pure_eq, Out.ok.injEq, Prod.mk.injEq] at h
    obtain ⟨rfl, rfl⟩ := h
    simp
  | cons op ops ih =>
    intro s s' cs h
    simp only [COp.run, Out.bind_eq_ok] at h
    obtain ⟨⟨s1, c1⟩, h1, ⟨s2, c2⟩, h2, h3⟩ := h
    simp only [Out.pure_eq, Out.ok.injEq, Prod.mk.injEq] at h3
    obtain ⟨rfl, rfl⟩ := h3
    obtain ⟨hk, hh, hle, hc, hall⟩ := step_facts h1
    obtain ⟨ik, ihh, ile, ipw, ibd, iall⟩ := ih h2
    dsimp only at ik ihh ile ibd iall
    refine ⟨by rw [ik, hk], by rw [ihh, hh], by omega, ?_, ?_, ?_⟩
    · rw [List.filterMap_append, List.pairwise_append]
      refine ⟨?_, ipw, ?_⟩
      · rcases hc with hc | ⟨hc, _⟩ <;> simp [hc]
      · intro a ha b hb
        rcases hc with hc | ⟨hc, hlt⟩
        · simp [hc] at ha
        · simp only [hc, List.mem_singleton] at ha
          subst ha
          have := ibd b hb
          omega
    · intro n hn
      rw [List.filterMap_append, List.mem_append] at hn
      rcases hn with hn | hn
      · rcases hc with hc | ⟨hc, hlt⟩
        · simp [hc] at hn
        · simp only [hc, List.mem_singleton] at hn
          subst hn
          omega
      · have := ibd n hn; omega
    · intro c hcm
      rw [List.mem_append] at hcm
      rcases hcm with hcm | hcm
      · obtain ⟨a, b, d, e⟩ := hall c hcm
        exact ⟨b, d, e, by rw [a]; exact Nat.le_refl _⟩
      · obtain ⟨a, b, d, e⟩ := iall c hcm
        exact ⟨a, by rw [b, hk], by rw [← hh]; exact d, by omega⟩

/-! ## C01 -/

/-- **C01.** In every history of calls on a keyed CipherState (from any state it may be in,
in particular right after `init_key`), the nonces consumed by encryptions and by successful
decryptions form a strictly increasing sequence, all under the one installed key. -/
theorem C01_nonces_strictly_increase (B : CipherBackend) (s s' : CipherState)
    (ops : List COp) (cs : List Call) (h : COp.run B s ops = .ok (s', cs)) :
    (cs.filterMap Call.consumed).Pairwise (fun a b => a.toNat < b.toNat) ∧
    (∀ c ∈ cs, c.key = s.key) :=
  let f := run_facts h
  ⟨f.2.2.2.1, fun c hc => (f.2.2.2.2.2 c hc).2.1⟩

/-- **C01**, as usually stated: two different encryptions in a history never share their nonce,
and no encryption shares its nonce with a successfully decrypted message. -/
theorem C01_no_nonce_reuse (B : CipherBackend) (s s' : CipherState)
    (ops : List COp) (cs : List Call) (h : COp.run B s ops = .ok (s', cs)) :
    (cs.filterMap Call.consumed).Nodup := by
  have := (C01_nonces_strictly_increase B s s' ops cs h).1
  exact this.imp (fun hab => by intro he; subst he; omega)

example : COp.run toyCipher ⟨true, [7], 0⟩
    [.encrypt [] ⟨[1, 2, 0], 2⟩, .decrypt [] ⟨[1], 1⟩, .setNonce 5, .setNonce 3,
     .encrypt [] ⟨[1, 2, 0], 2⟩] =
    .ok (⟨true, [7], 6⟩, [.enc [7] 0, .dec [7] 1 .macFailure, .enc [7] 5]) := by rfl

/-! ## C02 -/

/-- **C02.** No call in any history hands the reserved nonce `2^64-1` to the cipher. -/
theorem C02_reserved_nonce_never_used (B : CipherBackend) (s s' : CipherState)
    (ops : List COp) (cs : List Call) (h : COp.run B s ops = .ok (s', cs)) :
    ∀ c ∈ cs, c.nonce ≠ 0xFFFFFFFFFFFFFFFF :=
  fun c hc => ((run_facts h).2.2.2.2.2 c hc).1

/-- **C02.** Once the counter is exhausted it stays exhausted whatever is called, nothing is
ever handed to the cipher again, and encryption and decryption return an error with the buffer
untouched. -/
theorem C02_exhaustion_is_permanent (B : CipherBackend) (s s' : CipherState)
    (ops : List COp) (cs : List Call) (hk : s.hasKey = true) (hn : s.n = 0xFFFFFFFFFFFFFFFF)
    (h : COp.run B s ops = .ok (s', cs)) :
    s' = s ∧ cs = [] ∧ ∀ ad b,
      (∃ e, e ≠ Err.none ∧ s'.encryptWithAd B ad b = .ok ⟨e, s, b, []⟩) ∧
      (∃ e, e ≠ Err.none ∧ s'.decryptWithAd B ad b = .ok ⟨e, s, b, []⟩) := by
  obtain ⟨fk, fh, fle, _, _, fall⟩ := run_facts h
  have hcs : cs = [] := by
    cases cs with
    | nil => rfl
    | cons c cs =>
      exfalso
      obtain ⟨h1, _, _, h4⟩ := fall c List.mem_cons_self
      have hlt := c.nonce.toNat_lt
      rw [hn] at h4
      apply h1
      apply UInt64.toNat_inj.mp
      have : (0xFFFFFFFFFFFFFFFF : UInt64).toNat = 18446744073709551615 := by rfl
      omega
  have hs : s' = s := by
    have hlt := s'.n.toNat_lt
    have hn' : s'.n = s.n := by
      apply UInt64.toNat_inj.mp
      have : (0xFFFFFFFFFFFFFFFF : UInt64).toNat = 18446744073709551615 := by rfl
      rw [hn] at fle ⊢
      omega
    cases s; cases s'; simp_all
  refine ⟨hs, hcs, fun ad b => ?_⟩
  subst hs
  constructor
  · simp only [CipherState.encryptWithAd, hk, hn]
    repeat' split
    all_goals first | exact ⟨_, by decide, rfl⟩ | simp_all
  · simp only [CipherState.decryptWithAd, hk, hn]
    repeat' split
    all_goals first | exact ⟨_, by decide, rfl⟩ | simp_all

example : COp.run toyCipher ⟨true, [7], 0xFFFFFFFFFFFFFFFE⟩
    [.encrypt [] ⟨[1, 0], 1⟩, .encrypt [] ⟨[1, 0], 1⟩, .setNonce 0, .decrypt [] ⟨[0], 1⟩] =
    .ok (⟨true, [7], 0xFFFFFFFFFFFFFFFF⟩, [.enc [7] 0xFFFFFFFFFFFFFFFE]) := by rfl

/-! ## C03 -/

/-- **C03.** `set_nonce` succeeds exactly when a key is present and the nonce does not go
backwards; it then installs exactly that nonce and touches nothing else, and otherwise it
changes nothing. -/
theorem C03_set_nonce_forward_only (s : CipherState) (n : UInt64) :
    ((s.setNonce n).1 = .none ↔ s.hasKey = true ∧ s.n.toNat ≤ n.toNat) ∧
    ((s.setNonce n).1 = .none → (s.setNonce n).2 = { s with n := n }) ∧
    ((s.setNonce n).1 ≠ .none → (s.setNonce n).2 = s) := by
  unfold CipherState.setNonce
  repeat' split
  all_goals simp_all [UInt64.lt_iff_toNat_lt]

example : (CipherState.setNonce ⟨true, [7], 4⟩ 9) = (.none, ⟨true, [7], 9⟩) ∧
    (CipherState.setNonce ⟨true, [7], 4⟩ 3) = (.invalidNonce, ⟨true, [7], 4⟩) := by decide

/-! ## C04 -/

/-- **C04.** Whenever decryption reports an error, the cipher state and the buffer (size and
contents) are exactly what they were. -/
theorem C04_failed_decrypt_has_no_effect (B : CipherBackend) (hB : B.Lawful) (s : CipherState)
    (ad : Bytes) (b : Buf) (r : CRes) (h : s.decryptWithAd B ad b = .ok r) (he : r.err ≠ .none) :
    r.st = s ∧ r.buf = b := by
  unfold CipherState.decryptWithAd at h
  repeat' split at h
  any_goals (cases h; simp_all; done)
  rename_i hsz _ _ _
  simp only [Out.bind_eq_ok] at h
  obtain ⟨ct, hct, data, hdata, h⟩ := h
  split at h
  · rename_i hne
    cases h
    have hl : b.size ≤ b.data.length := by simp [Buf.maxSize] at hsz; omega
    rw [load_ok (by omega)] at hct
    cases hct
    rw [hB.dec_inert _ _ _ _ hne] at hdata
    rw [store_ok (by simp <;> omega)] at hdata
    simp only [List.drop_zero, List.take_zero, List.nil_append, List.length_take,
      Nat.zero_add, Out.ok.injEq] at hdata
    rw [Nat.min_eq_left hl, List.take_append_drop] at hdata
    subst hdata
    exact ⟨rfl, rfl⟩
  · cases h; simp_all

example : CipherState.decryptWithAd toyCipher ⟨true, [7], 3⟩ [] ⟨[9, 8, 7], 2⟩ =
    .ok ⟨.macFailure, ⟨true, [7], 3⟩, ⟨[9, 8, 7], 2⟩, [.dec [7] 3 .macFailure]⟩ := by rfl

/-! ## C06 -/

/-- **C06.** Encryption never touches memory outside the buffer (no undefined behaviour). It
succeeds exactly when the buffer is well formed, the message plus MAC fits both the buffer and
the 65535-byte limit, and the nonce is not exhausted; then `size` grows by exactly the MAC
length. -/
theorem C06_encrypt_respects_capacity (B : CipherBackend) (hB : B.Lawful) (s : CipherState)
    (ad : Bytes) (b : Buf) :
    ∃ r, s.encryptWithAd B ad b = .ok r ∧ r.buf.maxSize = b.maxSize ∧
      (b.size ≤ b.maxSize → r.buf.size ≤ r.buf.maxSize) ∧
      (r.err = .none ↔
        b.size ≤ b.maxSize ∧
        (s.hasKey = true → b.size + B.macLen ≤ b.maxSize ∧ b.size + B.macLen ≤ 65535 ∧
          s.n ≠ 0xFFFFFFFFFFFFFFFF) ∧
        (s.hasKey = false → b.size ≤ 65535)) ∧
      (r.err = .none → r.buf.size = b.size + if s.hasKey then B.macLen else 0) ∧
      (r.err ≠ .none → r.buf = b ∧ r.st = s) ∧
      r.buf.data.drop (b.size + B.macLen) = b.data.drop (b.size + B.macLen) := by
  have hm := hB.macLen_le
  unfold CipherState.encryptWithAd
  split
  · exact ⟨_, rfl, rfl, fun h => h, by simp; omega, by simp, by simp, rfl⟩
  rename_i h1
  split
  · rename_i hk
    simp only [Bool.not_eq_true'] at hk
    split
    · rename_i h2
      refine ⟨_, rfl, rfl, fun h => h, ?_, by simp, by simp, rfl⟩
      simp [hk, maxPayload] at h2 ⊢; omega
    · rename_i h2
      refine ⟨_, rfl, rfl, fun h => h, ?_, by simp [hk], by simp, rfl⟩
      simp [hk, maxPayload] at h1 h2 ⊢; omega
  rename_i hk
  simp only [Bool.not_eq_true', Bool.not_eq_false] at hk
  split
  · refine ⟨_, rfl, rfl, fun h => h, ?_, by simp, by simp, rfl⟩
    simp [hk, maxPayload] at *; omega
  split
  · refine ⟨_, rfl, rfl, fun h => h, ?_, by simp, by simp, rfl⟩
    simp [hk, maxPayload] at *; omega
  split
  · refine ⟨_, rfl, rfl, fun h => h, ?_, by simp, by simp, rfl⟩
    simp_all
  rename_i h3 h4 hn
  have hbl : b.size ≤ b.data.length := by simp [Buf.maxSize] at h1; omega
  have hsum : b.size + B.macLen ≤ b.data.length := by simp [Buf.maxSize] at h1 h4; omega
  have hlen : (B.enc s.key s.n ad (List.take b.size b.data)).2.length = b.size + B.macLen := by
    rw [hB.enc_length]; simp [Nat.min_eq_left hbl]
  rw [load_ok (by omega)]
  simp only [List.drop_zero, Out.bind_ok]
  rw [store_ok (by rw [hlen]; omega), hlen]
  simp only [Out.bind_ok, hB.enc_ok, ne_eq, not_true_eq_false, if_false]
  refine ⟨_, rfl, ?_, ?_, ?_, by simp, by simp, ?_⟩
  · simp [Buf.maxSize, hlen] <;> omega
  · simp [Buf.maxSize, hlen] <;> omega
  · simp [hk, hn, maxPayload, Buf.maxSize] at *; omega
  · simp [hlen]

/-- **C06.** Decryption never touches memory outside the buffer; it succeeds only with a size
between the MAC length and 65535 (when keyed), and then `size` shrinks by exactly the MAC
length; memory after the packet is untouched. -/
theorem C06_decrypt_respects_capacity (B : CipherBackend) (hB : B.Lawful) (s : CipherState)
    (ad : Bytes) (b : Buf) :
    ∃ r, s.decryptWithAd B ad b = .ok r ∧ r.buf.maxSize = b.maxSize ∧
      (b.size ≤ b.maxSize → r.buf.size ≤ r.buf.maxSize) ∧
      (r.err = .none → b.size ≤ b.maxSize ∧ b.size ≤ 65535 ∧
        (s.hasKey = true → B.macLen ≤ b.size ∧ r.buf.size + B.macLen = b.size) ∧
        (s.hasKey = false → r.buf.size = b.size)) ∧
      r.buf.data.drop b.size = b.data.drop b.size := by
  unfold CipherState.decryptWithAd
  split
  · exact ⟨_, rfl, rfl, fun h => h, by simp, rfl⟩
  rename_i h1
  simp only [not_or, Nat.not_lt, maxPayload, gt_iff_lt] at h1
  split
  · rename_i hk
    exact ⟨_, rfl, rfl, fun h => h, by simp_all, rfl⟩
  rename_i hk
  simp only [Bool.not_eq_true', Bool.not_eq_false] at hk
  split
  · exact ⟨_, rfl, rfl, fun h => h, by simp, rfl⟩
  split
  · exact ⟨_, rfl, rfl, fun h => h, by simp, rfl⟩
  rename_i h3 hn
  have hbl : b.size ≤ b.data.length := h1.1
  have hlen : (B.dec s.key s.n ad (List.take b.size b.data)).2.length = b.size := by
    rw [hB.dec_length]; simp [Nat.min_eq_left hbl]
  rw [load_ok (by omega)]
  simp only [List.drop_zero, Out.bind_ok]
  rw [store_ok (by rw [hlen]; omega), hlen]
  simp only [Out.bind_ok]
  split
  · refine ⟨_, rfl, ?_, ?_, ?_, ?_⟩
    · simp [Buf.maxSize, hlen] <;> omega
    · simp [Buf.maxSize, hlen] <;> omega
    · rename_i he; intro h; exact absurd h he
    · simp [hlen]
  · refine ⟨_, rfl, ?_, ?_, ?_, ?_⟩
    · simp [Buf.maxSize, hlen] <;> omega
    · simp [Buf.maxSize, hlen] <;> omega
    · simp [hk] <;> omega
    · simp [hlen]

example : CipherState.encryptWithAd toyCipher ⟨true, [7], 3⟩ [] ⟨[9, 8, 7], 2⟩ =
    .ok ⟨.none, ⟨true, [7], 4⟩, ⟨[9, 8, 0], 3⟩, [.enc [7] 3]⟩ ∧
    CipherState.encryptWithAd toyCipher ⟨true, [7], 3⟩ [] ⟨[9, 8, 7], 3⟩ =
    .ok ⟨.invalidLength, ⟨true, [7], 3⟩, ⟨[9, 8, 7], 3⟩, []⟩ := by constructor <;> rfl

/-- **C06, C01.** No history of calls is undefined. -/
theorem C06_history_defined (B : CipherBackend) (hB : B.Lawful) (ops : List COp) :
    ∀ s : CipherState, ∃ r, COp.run B s ops = .ok r := by
  induction ops with
  | nil => intro s; exact ⟨_, rfl⟩
  | cons op ops ih =>
    intro s
    have : ∃ r, op.step B s = .ok r := by
      cases op with
      | setNonce n => exact ⟨_, rfl⟩
      | encrypt ad b =>
        obtain ⟨r, h, _⟩ := C06_encrypt_respects_capacity B hB s ad b
        exact ⟨_, by simp only [COp.step, h]; rfl⟩
      | decrypt ad b =>
        obtain ⟨r, h, _⟩ := C06_decrypt_respects_capacity B hB s ad b
        exact ⟨_, by simp only [COp.step, h]; rfl⟩
    obtain ⟨⟨s1, c1⟩, h1⟩ := this
    obtain ⟨⟨s2, c2⟩, h2⟩ := ih s1
    exact ⟨(s2, c1 ++ c2), by simp [COp.run, h1, h2]⟩

/-! ## C07 -/

/-- **C07.** Without a key both directions are the identity on the buffer and the state, and
fail exactly when the buffer is malformed or larger than 65535 bytes. -/
theorem C07_unkeyed_is_identity (B : CipherBackend) (s : CipherState) (hk : s.hasKey = false)
    (ad : Bytes) (b : Buf) :
    ∃ e, s.encryptWithAd B ad b = .ok ⟨e, s, b, []⟩ ∧
      s.decryptWithAd B ad b = .ok ⟨e, s, b, []⟩ ∧
      (e = .none ↔ b.size ≤ b.maxSize ∧ b.size ≤ 65535) := by
  by_cases h1 : b.size > b.maxSize
  · refine ⟨.invalidLength, ?_, ?_, ?_⟩
    · simp [CipherState.encryptWithAd, h1]
    · simp [CipherState.decryptWithAd, h1]
    · simp; omega
  · by_cases h2 : b.size > 65535
    · refine ⟨.invalidLength, ?_, ?_, ?_⟩
      · simp [CipherState.encryptWithAd, h1, hk, maxPayload, h2]
      · simp [CipherState.decryptWithAd, maxPayload, h2]
      · simp; omega
    · refine ⟨.none, ?_, ?_, ?_⟩
      · simp [CipherState.encryptWithAd, h1, hk, maxPayload, h2]
      · simp [CipherState.decryptWithAd, h1, hk, maxPayload, h2]
      · simp; omega

example : CipherState.new.encryptWithAd toyCipher [1] ⟨[9, 8], 2⟩ =
    .ok ⟨.none, CipherState.new, ⟨[9, 8], 2⟩, []⟩ := by rfl

/-! ## C05 -/

/-- A message to send: associated data and a plaintext sitting in a buffer. -/
structure Msg where
  ad : Bytes
  buf : Buf

/-- Send a sequence of messages through `encrypt_with_ad`; `none` when any call fails. The
packets are what the buffers hold afterwards. -/
def sendAll (B : CipherBackend) : CipherState → List Msg → Option (CipherState × List (Bytes × Bytes))
  | s, [] => some (s, [])
  | s, m :: ms =>
    match s.encryptWithAd B m.ad m.buf with
    | .ok r =>
      if r.err = .none then
        (sendAll B r.st ms).map (fun x => (x.1, (m.ad, r.buf.bytes) :: x.2))
      else none
    | .ub => none

/-- What arrives at the receiver: associated data and a buffer, tagged with whether it is the
next genuine packet or something injected. -/
structure Arrival where
  genuine : Bool
  ad : Bytes
  buf : Buf

/-- Feed arrivals to `decrypt_with_ad` one after another, collecting code and buffer contents. -/
def recvAll (B : CipherBackend) : CipherState → List Arrival → Option (CipherState × List (Err × Bytes))
  | s, [] => some (s, [])
  | s, a :: as =>
    match s.decryptWithAd B a.ad a.buf with
    | .ok r => (recvAll B r.st as).map (fun x => (x.1, (r.err, r.buf.bytes) :: x.2))
    | .ub => none

/-- Injected arrivals were all rejected. -/
def junkRejected : List Arrival → List (Err × Bytes) → Prop
  | a :: as, r :: rs => (a.genuine = false → r.1 ≠ .none) ∧ junkRejected as rs
  | _, _ => True

theorem recv_send_one {B : CipherBackend} (hB : B.Lawful) {s : CipherState} {m : Msg} {r : CRes}
    (h : s.encryptWithAd B m.ad m.buf = .ok r) (he : r.err = .none) (c : Buf)
    (hwf : c.size ≤ c.maxSize) (hc : c.bytes = r.buf.bytes) :
    ∃ r', s.decryptWithAd B m.ad c = .ok r' ∧ r'.err = .none ∧ r'.st = r.st ∧
      r'.buf.bytes = m.buf.bytes := by
  have hm := hB.macLen_le
  obtain ⟨r1, h1, hmax, hle, hiff, hsz, _, _⟩ := C06_encrypt_respects_capacity B hB s m.ad m.buf
  rw [h] at h1; cases h1
  have hcond := hiff.mp he
  have hrsz := hsz he
  have hrle := hle hcond.1
  have hcs : c.size = r.buf.size := by
    have := congrArg List.length hc
    simp only [Buf.bytes, List.length_take] at this
    simp only [Buf.maxSize] at hwf hrle
    omega
  unfold CipherState.encryptWithAd at h
  rw [if_neg (by omega)] at h
  by_cases hk : s.hasKey = true
  · obtain ⟨hcap, hpay, hn⟩ := hcond.2.1 hk
    simp only [hk, if_true] at hrsz
    simp only [hk, Bool.not_true, Bool.false_eq_true, if_false] at h
    rw [if_neg (by simp [maxPayload]; omega), if_neg (by omega), if_neg hn] at h
    have hbl : m.buf.size ≤ m.buf.data.length := hcond.1
    have hcap' : m.buf.size + B.macLen ≤ m.buf.data.length := hcap
    have hlen : (B.enc s.key s.n m.ad (List.take m.buf.size m.buf.data)).2.length
        = m.buf.size + B.macLen := by
      rw [hB.enc_length]; simp [Nat.min_eq_left hbl]
    rw [load_ok (by omega)] at h
    simp only [List.drop_zero, Out.bind_ok] at h
    rw [store_ok (by rw [hlen]; omega), hlen] at h
    simp only [Out.bind_ok, hB.enc_ok, ne_eq, not_true_eq_false, if_false, Out.ok.injEq] at h
    subst h
    simp only [Buf.bytes] at hc
    simp only [List.take_zero, List.nil_append] at hc
    rw [List.take_append_of_le_length (by omega), ← hlen, List.take_length] at hc
    simp only at hcs
    obtain ⟨hd1, hd2⟩ := hB.dec_enc s.key s.n m.ad (List.take m.buf.size m.buf.data)
    unfold CipherState.decryptWithAd
    rw [if_neg (by simp only [maxPayload]; omega)]
    simp only [hk, Bool.not_true, Bool.false_eq_true, if_false]
    rw [if_neg (by omega), if_neg hn]
    have hcl : c.size ≤ c.data.length := hwf
    rw [load_ok (by omega)]
    simp only [List.drop_zero, Out.bind_ok, hc]
    rw [store_ok (by rw [hB.dec_length, hlen]; omega)]
    simp only [Out.bind_ok, hd1, ne_eq, not_true_eq_false, if_false]
    refine ⟨_, rfl, rfl, rfl, ?_⟩
    simp only [Buf.bytes, List.take_zero, List.nil_append]
    rw [List.take_append_of_le_length (by rw [hB.dec_length, hlen]; omega)]
    have : c.size - B.macLen = (List.take m.buf.size m.buf.data).length := by
      simp; omega
    rw [this, hd2]
  · simp only [Bool.not_eq_true] at hk
    have hpay := hcond.2.2 hk
    obtain ⟨e, h1, h2, h3⟩ := C07_unkeyed_is_identity B s hk m.ad m.buf
    obtain ⟨e', h1', h2', h3'⟩ := C07_unkeyed_is_identity B s hk m.ad c
    simp only [hk, Bool.false_eq_true, if_false, Nat.add_zero] at hrsz
    simp only [hk, Bool.not_false, if_true] at h
    rw [if_neg (by simp [maxPayload]; omega)] at h
    cases h
    exact ⟨_, h2', h3'.mpr ⟨hwf, by rw [hcs]; exact hpay⟩, rfl, hc⟩

/-- **C05.** Sender and receiver start from the same key and nonce. The sender successfully
sends `ms`, producing `pkts`. The receiver sees exactly those packets in order, with arbitrary
injected arrivals anywhere in between, all of which it rejects. Then every genuine packet
decrypts successfully to the plaintext that was sent, and both ends finish in the same state. -/
theorem C05_channel_delivers_in_order (B : CipherBackend) (hB : B.Lawful) (as : List Arrival) :
    ∀ (s s' : CipherState) (ms : List Msg) (pkts : List (Bytes × Bytes)),
    sendAll B s ms = some (s', pkts) →
    (as.filter (·.genuine)).map (fun a => (a.ad, a.buf.bytes)) = pkts →
    (∀ a ∈ as, a.buf.size ≤ a.buf.maxSize) →
    ∃ r rs, recvAll B s as = some (r, rs) ∧ rs.length = as.length ∧
      (junkRejected as rs → r = s' ∧
        ((as.zip rs).filter (·.1.genuine)).map (·.2) =
          ms.map (fun m => (Err.none, m.buf.bytes))) := by
  induction as with
  | nil =>
    intro s s' ms pkts hs hp _
    simp only [List.filter_nil, List.map_nil] at hp
    subst hp
    cases ms with
    | nil => simp [sendAll] at hs; subst hs; exact ⟨_, _, rfl, rfl, by simp⟩
    | cons m ms =>
      exfalso
      simp only [sendAll] at hs
      repeat' split at hs
      all_goals simp_all
  | cons a as ih =>
    intro s s' ms pkts hs hp hwf
    cases hg : a.genuine with
    | false =>
      simp only [List.filter_cons, hg, Bool.false_eq_true, if_false] at hp
      obtain ⟨r0, h0, _⟩ := C06_decrypt_respects_capacity B hB s a.ad a.buf
      by_cases he : r0.err = .none
      · -- accepted junk: only definedness is claimed
        have hdef : ∀ (as : List Arrival) (t : CipherState), ∃ r rs,
            recvAll B t as = some (r, rs) ∧ rs.length = as.length := by
          intro as
          induction as with
          | nil => intro t; exact ⟨_, _, rfl, rfl⟩
          | cons b bs ihb =>
            intro t
            obtain ⟨r1, h1, _⟩ := C06_decrypt_respects_capacity B hB t b.ad b.buf
            obtain ⟨r, rs, h2, h3⟩ := ihb r1.st
            exact ⟨r, (r1.err, r1.buf.bytes) :: rs, by simp [recvAll, h1, h2], by simp [h3]⟩
        obtain ⟨r, rs, h1, h2⟩ := hdef as r0.st
        refine ⟨r, (r0.err, r0.buf.bytes) :: rs, by simp [recvAll, h0, h1], by simp [h2], ?_⟩
        intro hj
        exact absurd he (hj.1 hg)
      · obtain ⟨hst, hbuf⟩ := C04_failed_decrypt_has_no_effect B hB s a.ad a.buf r0 h0 he
        obtain ⟨r, rs, h1, h2, h3⟩ := ih s s' ms pkts hs hp (fun x hx => hwf x (by simp [hx]))
        refine ⟨r, (r0.err, r0.buf.bytes) :: rs, by simp [recvAll, h0, hst, h1], by simp [h2], ?_⟩
        intro hj
        obtain ⟨h4, h5⟩ := h3 hj.2
        refine ⟨h4, ?_⟩
        simp [hg, h5]
    | true =>
      simp only [List.filter_cons, hg, if_true, List.map_cons] at hp
      cases ms with
      | nil => simp [sendAll] at hs; simp_all
      | cons m ms =>
        simp only [sendAll] at hs
        split at hs
        · rename_i r0 h0
          split at hs
          · rename_i he
            simp only [Option.map_eq_some_iff] at hs
            obtain ⟨⟨s1, pk1⟩, hs1, hs2⟩ := hs
            simp only [Prod.mk.injEq] at hs2
            obtain ⟨rfl, rfl⟩ := hs2
            simp only [List.cons.injEq, Prod.mk.injEq] at hp
            obtain ⟨⟨had, hby⟩, hrest⟩ := hp
            obtain ⟨r', hr', he', hst', hb'⟩ :=
              recv_send_one hB h0 he a.buf (hwf a (by simp)) hby
            obtain ⟨r, rs, h1, h2, h3⟩ := ih r0.st s1 ms pk1 hs1 hrest
              (fun x hx => hwf x (by simp [hx]))
            refine ⟨r, (r'.err, r'.buf.bytes) :: rs,
              by simp [recvAll, had, hr', hst', h1], by simp [h2], ?_⟩
            intro hj
            obtain ⟨h4, h5⟩ := h3 hj.2
            refine ⟨h4, ?_⟩
            simp [hg, h5, he', hb']
          · simp at hs
        · simp at hs

example :
    (sendAll toyCipher ⟨true, [7], 0⟩ [⟨[], ⟨[1, 2, 3], 2⟩⟩, ⟨[4], ⟨[5, 9], 1⟩⟩]) =
      some (⟨true, [7], 2⟩, [([], [1, 2, 0]), ([4], [5, 0])]) ∧
    recvAll toyCipher ⟨true, [7], 0⟩ [⟨true, [], ⟨[1, 2, 0], 3⟩⟩, ⟨false, [], ⟨[3, 3], 2⟩⟩,
      ⟨true, [4], ⟨[5, 0], 2⟩⟩] =
      some (⟨true, [7], 2⟩, [(.none, [1, 2]), (.macFailure, [3, 3]), (.none, [5])]) := by
  constructor <;> rfl

end Noise
