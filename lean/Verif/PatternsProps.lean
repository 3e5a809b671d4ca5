import Verif.Handshake
import Verif.PatternsSpec
import Verif.NamesLemmas
/-!
# The pattern tables (C17)
-/

namespace Noise

open Spec (Tok)

/-- What a token byte means, `src/protocol/internal.h:589-598`. -/
def decodeTok (b : UInt8) : Option Tok :=
  if b = tokE then some .e
  else if b = tokS then some .s
  else if b = tokF then some .f
  else if b = tokEe then some .ee
  else if b = tokEs then some .es
  else if b = tokSe then some .se
  else if b = tokSs then some .ss
  else if b = tokFf then some .ff
  else none

/-- The messages a token table describes: tokens up to FLIP_DIR or END
(`src/protocol/handshakestate.c:1162-1173`). -/
def decodeMsgs : Bytes → Option (List (List Tok))
  | [] => none
  | t :: ts =>
    if t = tokEnd then some [[]]
    else if t = tokFlipDir then (decodeMsgs ts).map ([] :: ·)
    else
      match decodeTok t, decodeMsgs ts with
      | some k, some (m :: ms) => some ((k :: m) :: ms)
      | _, _ => none

/-- The flags byte pair says what the specification's pattern says: which key objects each party
has and which are known beforehand. Stated from the initiator's point of view. -/
def FlagsAgree (flags : PatFlags) (p : Spec.Pattern) : Prop :=
  hasFlag flags flagLocalStatic = p.hasKey .initiator .s ∧
  hasFlag flags flagLocalEphemeral = p.hasKey .initiator .e ∧
  hasFlag flags flagLocalHybrid = p.hasKey .initiator .f ∧
  hasFlag flags flagRemoteStatic = p.hasKey .responder .s ∧
  hasFlag flags flagRemoteEphemeral = p.hasKey .responder .e ∧
  hasFlag flags flagRemoteHybrid = p.hasKey .responder .f ∧
  hasFlag flags flagLocalRequired = p.preKey .initiator .s ∧
  hasFlag flags flagLocalEphemReq = p.preKey .initiator .e ∧
  hasFlag flags flagLocalHybridReq = p.preKey .initiator .f ∧
  hasFlag flags flagRemoteRequired = p.preKey .responder .s ∧
  hasFlag flags flagRemoteEphemReq = p.preKey .responder .e ∧
  hasFlag flags flagRemoteHybridReq = p.preKey .responder .f

instance (flags : PatFlags) (p : Spec.Pattern) : Decidable (FlagsAgree flags p) :=
  inferInstanceAs (Decidable (_ ∧ _))

/-- The row of `src/protocol/names.c:56-123` for an identifier, as a string of the specification. -/
def specPattern (id : Int) : Option Spec.Pattern :=
  match Spec.patternNames.find? (fun r =>
      algorithmNames.any fun m => m.id == id && m.name == ascii r.1) with
  | some r => Spec.pattern r.2.1 r.2.2.1 r.2.2.2
  | none => none

theorem patternLookup_mem {id : Int} {t : Bytes} (h : patternLookup id = some t) :
    (id, t) ∈ patternTable := by
  unfold patternLookup at h
  cases hf : patternTable.find? (fun p => p.1 == id) with
  | none => simp [hf] at h
  | some p =>
    have h1 := List.find?_some hf
    have h2 := List.mem_of_find?_eq_some hf
    simp [hf] at h
    simp at h1
    obtain ⟨a, b⟩ := p
    simp at h h1
    subst h; subst h1
    exact h2

/-- All the facts about one row of the table that hold of every row. -/
def RowOk (e : Int × Bytes) : Prop :=
  ∃ p, specPattern e.1 = some p ∧ decodeMsgs (e.2.drop 2) = some p.msgs ∧
    (∃ flags, patternFlags e.2 = .ok flags ∧ FlagsAgree flags p) ∧
    (∃ body, e.2.drop 2 = body ++ [tokEnd] ∧ tokEnd ∉ body) ∧
    (∀ m ∈ p.msgs, m ≠ []) ∧ p.NoRepeat ∧ p.KeysAvailable

/-- A decision procedure for `RowOk`. -/
def rowCheck (e : Int × Bytes) : Bool :=
  match specPattern e.1, patternFlags e.2 with
  | some p, .ok flags =>
    decide (decodeMsgs (e.2.drop 2) = some p.msgs) && decide (FlagsAgree flags p) &&
    decide (e.2.drop 2 = (e.2.drop 2).dropLast ++ [tokEnd]) &&
    decide (tokEnd ∉ (e.2.drop 2).dropLast) &&
    decide (∀ m ∈ p.msgs, m ≠ []) && decide p.NoRepeat && decide p.KeysAvailable
  | _, _ => false

theorem rowCheck_sound {e : Int × Bytes} (h : rowCheck e = true) : RowOk e := by
  unfold rowCheck at h
  split at h
  · next p flags hp hf =>
    simp only [Bool.and_eq_true, decide_eq_true_eq] at h
    obtain ⟨⟨⟨⟨⟨⟨h1, h2⟩, h3⟩, h4⟩, h5⟩, h6⟩, h7⟩ := h
    exact ⟨p, hp, h1, ⟨flags, hf, h2⟩, ⟨_, h3, h4⟩, h5, h6, h7⟩
  · cases h

theorem table_ok : ∀ e ∈ patternTable, rowCheck e = true := by decide +kernel

theorem row_ok {id : Int} {t : Bytes} (h : patternLookup id = some t) : RowOk (id, t) :=
  rowCheck_sound (table_ok _ (patternLookup_mem h))

/-- C17: every table in the library is the pattern of that name in the Noise specification
(including the `noidh` and `hfs` transformations): same messages in the same order, and the flags
say exactly which keys each party has and which are pre-messages. -/
theorem C17_tables_are_the_specification {id : Int} {t : Bytes} (h : patternLookup id = some t) :
    ∃ p flags, specPattern id = some p ∧ decodeMsgs (t.drop 2) = some p.msgs ∧
      patternFlags t = .ok flags ∧ FlagsAgree flags p := by
  obtain ⟨p, h1, h2, ⟨flags, h3, h4⟩, _⟩ := row_ok h
  exact ⟨p, flags, h1, h2, h3, h4⟩

/-- C17: the token list ends with END and has no other END, and no message is empty of tokens
(messages alternate: two FLIP_DIR tokens never meet and none is first or last). -/
theorem C17_tables_well_formed {id : Int} {t : Bytes} (h : patternLookup id = some t) :
    (∃ body, t.drop 2 = body ++ [tokEnd] ∧ tokEnd ∉ body) ∧
    ∃ ms, decodeMsgs (t.drop 2) = some ms ∧ ∀ m ∈ ms, m ≠ [] := by
  obtain ⟨p, h1, h2, h3, h4, h5, _⟩ := row_ok h
  exact ⟨h4, _, h2, h5⟩

/-- C17: no party sends the same kind of key twice, or again after a pre-message. -/
theorem C17_no_key_sent_twice {id : Int} {t : Bytes} {p : Spec.Pattern}
    (h : patternLookup id = some t) (hp : specPattern id = some p) : p.NoRepeat := by
  obtain ⟨q, h1, _, _, _, _, h6, _⟩ := row_ok h
  cases hp.symm.trans h1
  exact h6

/-- C17: a Diffie-Hellman token occurs only when both its public keys have been sent or are
pre-messages. -/
theorem C17_keys_available {id : Int} {t : Bytes} {p : Spec.Pattern}
    (h : patternLookup id = some t) (hp : specPattern id = some p) : p.KeysAvailable := by
  obtain ⟨q, h1, _, _, _, _, _, h7⟩ := row_ok h
  cases hp.symm.trans h1
  exact h7

/-- NKhfs, XKhfs, KKhfs, IKhfs, IKnoidh+hfs (`include/noise/protocol/constants.h:80-96`). -/
def badEncrypt : List Int := [0x5031, 0x5034, 0x5037, 0x503a, 0x5053]

/-- C17 (partial): the rule that a party which used its static key in a Diffie-Hellman must use
its ephemeral key with the same remote key before encrypting. It holds of every pattern except the
five in `badEncrypt`. -/
theorem C17_encrypt_rule_partial {id : Int} {t : Bytes} {p : Spec.Pattern}
    (h : patternLookup id = some t) (hp : specPattern id = some p) (hb : id ∉ badEncrypt) :
    p.EncryptRule := by
  have key : ∀ e ∈ patternTable, e.1 ∉ badEncrypt →
      (match specPattern e.1 with
       | some p => decide p.EncryptRule
       | none => true) = true := by decide +kernel
  have := key _ (patternLookup_mem h) hb
  simp only [hp, decide_eq_true_eq] at this
  exact this

/-- C17, negative part: in NKhfs, XKhfs, KKhfs, IKhfs and IKnoidh+hfs the responder encrypts its
hybrid key `f` under a key that depends on `es` (and `ss`) but on no ephemeral key of its own, so
the rule fails: the first message can be replayed to make it encrypt different plaintexts under the
same key and nonce. -/
theorem C17_encrypt_rule_fails : ∀ id ∈ badEncrypt, ∃ t p, patternLookup id = some t ∧
    specPattern id = some p ∧ ¬ p.EncryptRule := by
  have key : ∀ id ∈ badEncrypt, (match patternLookup id, specPattern id with
      | some _, some p => decide (¬ p.EncryptRule)
      | _, _ => false) = true := by decide +kernel
  intro id hid
  have := key id hid
  split at this
  · next t p ht hp => exact ⟨t, p, ht, hp, by simpa using this⟩
  · cases this

theorem hasFlag_bit (x f : PatFlags) (k : Nat) (hk : k < 16)
    (hf : f.toBitVec = BitVec.twoPow 16 k) : hasFlag x f = x.toBitVec.getLsbD k := by
  have h0 : BitVec.twoPow 16 k ≠ 0#16 := by
    intro h
    have := congrArg (fun v => v.getLsbD k) h
    simp [hk] at this
  unfold hasFlag
  have : ((x &&& f) != 0) = ((x &&& f).toBitVec != 0) := by
    simp only [bne, Bool.not_eq_eq_eq_not, Bool.not_not]
    rw [Bool.eq_iff_iff]
    simp [← UInt16.toBitVec_inj]
  rw [this, UInt16.toBitVec_and, hf, BitVec.and_twoPow]
  cases hx : x.toBitVec.getLsbD k <;> simp [h0]

theorem reverse_bits (f : PatFlags) (k : Nat) (hk : k < 16) :
    (reverseFlags f).toBitVec.getLsbD k = f.toBitVec.getLsbD (if k < 8 then k + 8 else k - 8) := by
  have hm : ∀ k < 16, (0x00FF#16).getLsbD k = decide (k < 8) := by decide
  have hm2 : ∀ k < 16, (0xFF00#16).getLsbD k = decide (8 ≤ k) := by decide
  have h8 : (8 : PatFlags).toBitVec % 16 = 8#16 := by decide
  simp only [reverseFlags, UInt16.toBitVec_or, UInt16.toBitVec_and, UInt16.toBitVec_shiftLeft,
    UInt16.toBitVec_shiftRight, BitVec.getLsbD_or, BitVec.getLsbD_and]
  rw [show UInt16.toBitVec 255 = 0x00FF#16 from rfl, show UInt16.toBitVec 65280 = 0xFF00#16 from rfl,
    hm k hk, hm2 k hk, h8]
  simp only [BitVec.getLsbD_ushiftRight, BitVec.shiftLeft_eq', BitVec.getLsbD_shiftLeft,
    BitVec.ushiftRight_eq']
  by_cases h : k < 8
  · simp [h, show ¬ 8 ≤ k by omega, Nat.add_comm]
  · simp [h, show 8 ≤ k by omega, hk]

/-- C17: the flags the responder sees are the mirror image of the initiator's. -/
theorem C17_responder_flags_mirror (f : PatFlags) :
    (hasFlag (reverseFlags f) flagLocalStatic = hasFlag f flagRemoteStatic) ∧
    (hasFlag (reverseFlags f) flagLocalEphemeral = hasFlag f flagRemoteEphemeral) ∧
    (hasFlag (reverseFlags f) flagLocalRequired = hasFlag f flagRemoteRequired) ∧
    (hasFlag (reverseFlags f) flagLocalEphemReq = hasFlag f flagRemoteEphemReq) ∧
    (hasFlag (reverseFlags f) flagLocalHybrid = hasFlag f flagRemoteHybrid) ∧
    (hasFlag (reverseFlags f) flagLocalHybridReq = hasFlag f flagRemoteHybridReq) ∧
    (hasFlag (reverseFlags f) flagRemoteStatic = hasFlag f flagLocalStatic) ∧
    (hasFlag (reverseFlags f) flagRemoteEphemeral = hasFlag f flagLocalEphemeral) ∧
    (hasFlag (reverseFlags f) flagRemoteRequired = hasFlag f flagLocalRequired) ∧
    (hasFlag (reverseFlags f) flagRemoteEphemReq = hasFlag f flagLocalEphemReq) ∧
    (hasFlag (reverseFlags f) flagRemoteHybrid = hasFlag f flagLocalHybrid) ∧
    (hasFlag (reverseFlags f) flagRemoteHybridReq = hasFlag f flagLocalHybridReq) ∧
    reverseFlags (reverseFlags f) = f := by
  have m : ∀ (a b : PatFlags) (k : Nat) (_ : k < 16), a.toBitVec = BitVec.twoPow 16 k →
      b.toBitVec = BitVec.twoPow 16 (if k < 8 then k + 8 else k - 8) →
      hasFlag (reverseFlags f) a = hasFlag f b := by
    intro a b k hk ha hb
    rw [hasFlag_bit _ _ k hk ha, hasFlag_bit _ _ _ (by split <;> omega) hb, reverse_bits _ _ hk]
  refine ⟨m _ _ 0 (by decide) (by decide) (by decide), m _ _ 1 (by decide) (by decide) (by decide),
    m _ _ 2 (by decide) (by decide) (by decide), m _ _ 3 (by decide) (by decide) (by decide),
    m _ _ 4 (by decide) (by decide) (by decide), m _ _ 5 (by decide) (by decide) (by decide),
    m _ _ 8 (by decide) (by decide) (by decide), m _ _ 9 (by decide) (by decide) (by decide),
    m _ _ 10 (by decide) (by decide) (by decide), m _ _ 11 (by decide) (by decide) (by decide),
    m _ _ 12 (by decide) (by decide) (by decide), m _ _ 13 (by decide) (by decide) (by decide), ?_⟩
  rw [← UInt16.toBitVec_inj]
  apply BitVec.eq_of_getLsbD_eq
  intro k hk
  rw [reverse_bits _ _ hk, reverse_bits _ _ (by split <;> omega)]
  congr 1
  split <;> split <;> omega

/-! Cases that meet the hypotheses: IK is a pattern with pre-messages and four kinds of DH token. -/
example : ∃ t p, patternLookup 0x500e = some t ∧ specPattern 0x500e = some p ∧
    p.msgs = [[.e, .es, .s, .ss], [.e, .ee, .se]] ∧ p.preR = [.s] ∧ (0x500e : Int) ∉ badEncrypt :=
  ⟨patIK, _, by decide +kernel, rfl, by decide +kernel, by decide +kernel, by decide⟩

end Noise
