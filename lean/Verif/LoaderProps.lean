import Verif.LoaderSave
import Verif.ChaChaPolyProps
import Verif.Blake2bProps
import Verif.Sha256Props
/-!
# Properties of `src/keys/loader.c`: protected private keys
-/

namespace Noise
namespace Loader
open PB Cert

variable {A : Algs} {name : Bytes} {P : Prot}

/-! ## Names -/

/-- **C51**: the protection names accepted are exactly the eight combinations of cipher and hash. -/
theorem C51_names (name : Bytes) (c h : Nat) :
    parseProtectName name = some (c, h) ↔ ∃ s, (s, c, h) ∈ protectNames ∧ name = ascii s := by
  constructor
  · intro e
    obtain ⟨cn, hn, rfl, hc, hh⟩ := parse_iff.1 e
    obtain ⟨m, hm, hmc, hmi, rfl⟩ := idToName_some hc
    obtain ⟨m', hm', hmc', hmi', rfl⟩ := idToName_some hh
    have hmi : m.id = c := by omega
    have hmi' : m'.id = h := by omega
    subst hmi hmi'
    have : ∀ m ∈ algorithmNames, m.inCategory catCipher = true → ∀ m' ∈ algorithmNames, m'.inCategory catHash = true →
        ∃ x ∈ protectNames, x.2 = (m.id, m'.id) ∧ m.name ++ 95 :: (m'.name ++ 95 :: ascii "PBKDF2") = ascii x.1 := by
      decide +kernel
    obtain ⟨x, hx, e1, e2⟩ := this m hm hmc m' hm' hmc'
    exact ⟨x.1, by rw [← e1]; exact hx, e2⟩
  · rintro ⟨s, hs, rfl⟩
    have : ∀ x ∈ protectNames, parseProtectName (ascii x.1) = some x.2 := by decide +kernel
    exact this _ hs

/-! ## Loading -/

/-- Opening the encrypted data: the error, or the plaintext. -/
def opened (P : Prot) (pass salt : Bytes) (iterations : Nat) (ct : Bytes) : Except Err Bytes :=
  if 65535 < ct.length ∨ ct.length < P.CB.macLen then .error .invalidLength
  else if ¬ P.Usable pass salt iterations then .error .invalidNonce
  else match P.decrypt pass salt iterations ct with
    | (.none, out) => .ok (out.take (ct.length - P.CB.macLen))
    | (e, _) => .error e

theorem decrypt_opened (hP : P.CB.Lawful) (pass salt : Bytes) (n : Nat) (ct : Bytes) :
    ∃ r, CipherState.decryptWithAd P.CB ⟨true, P.key pass salt n, P.nonce pass salt n⟩ [] ⟨ct, ct.length⟩ = .ok r ∧
      match opened P pass salt n ct with
      | .error e => r.err = e ∧ e ≠ .none
      | .ok pt => r.err = .none ∧ r.buf.bytes = pt := by
  unfold CipherState.decryptWithAd opened Buf.maxSize maxPayload
  simp only [Bool.not_true, Bool.false_eq_true, if_false, gt_iff_lt, Nat.lt_irrefl, false_or]
  by_cases h1 : 65535 < ct.length
  · rw [if_pos h1, if_pos (Or.inl h1)]
    exact ⟨_, rfl, rfl, by simp⟩
  rw [if_neg h1]
  by_cases h2 : ct.length < P.CB.macLen
  · rw [if_pos h2, if_pos (Or.inr h2)]
    exact ⟨_, rfl, rfl, by simp⟩
  rw [if_neg h2, if_neg (show ¬ (65535 < ct.length ∨ ct.length < P.CB.macLen) by omega)]
  by_cases h3 : P.nonce pass salt n = 0xFFFFFFFFFFFFFFFF
  · rw [if_pos h3, if_pos (by unfold Prot.Usable; simpa using h3)]
    exact ⟨_, rfl, rfl, by simp⟩
  rw [if_neg h3, if_neg (by unfold Prot.Usable; simpa using h3), load_ok (by omega)]
  simp only [List.drop_zero, Out.bind_ok, List.take_length]
  have hl := hP.dec_length (P.key pass salt n) (P.nonce pass salt n) [] ct
  unfold Prot.decrypt
  generalize P.CB.dec (P.key pass salt n) (P.nonce pass salt n) [] ct = x at hl
  obtain ⟨e, out⟩ := x
  dsimp only at hl ⊢
  rw [store_ok (by omega)]
  simp only [Out.bind_ok, List.take_zero, List.nil_append, Nat.zero_add]
  rw [List.drop_of_length_le (by omega), List.append_nil]
  by_cases he : e = .none
  · subst he
    rw [if_neg (by simp)]
    exact ⟨_, rfl, rfl, rfl⟩
  · rw [if_pos he]
    refine ⟨_, rfl, ?_⟩
    cases e <;> first | exact absurd rfl he | exact ⟨rfl, by simp⟩

/-- **C51**, loading exactly: for an encrypted private key object of version 1 with all its parts, under available algorithms
and with enough memory, the outcome is that of opening the encrypted data with the key and nonce derived from the
passphrase, and reading the plaintext. -/
theorem C51_load_exact {al : Nat → Bool} {fuel : Nat} {p : PB} {pass : Bytes} {k : EncryptedPrivateKey} {r : R}
    (hk : EncryptedPrivateKey.read al fuel ⟨p, 0⟩ 0 = .ok (some (.none, some k, r)))
    {algorithm salt ct : Bytes} (hv : k.version = 1) (ha : k.algorithm = some algorithm) (hs : k.salt = some salt)
    (hi : k.iterations ≠ 0) (hd : k.encryptedData = some ct)
    (E : Protects A (algorithm.takeWhile (· ≠ 0)) P) (h0 : al r.n = true) (h1 : al (r.n + 1) = true) :
    loadPrivateKey A al fuel p pass =
      match opened P pass salt k.iterations.toNat ct with
      | .error e => .ok (some (e, none, r.p))
      | .ok pt => PrivateKey.read al fuel ⟨prepareInput pt, r.n + 2⟩ 0 >>= fun
        | none => .ok none
        | some (err, key, _) => .ok (some (err, key, r.p)) := by
  unfold loadPrivateKey
  rw [hk, Out.bind_ok]
  dsimp only
  rw [if_neg (by rw [hv]; decide), ha, hs, hd]
  dsimp only
  rw [if_neg hi, E.parse]
  dsimp only
  rw [E.cipher_eq]
  dsimp only
  rw [if_neg (by simp [h0]), if_neg (by simp [E.keyLen]), E.hash_eq]
  dsimp only
  rw [if_neg (by simp [h1])]
  obtain ⟨ctx', e⟩ := setKey_ok E E.hash.ctx CipherState.new pass salt k.iterations.toNat
  rw [e, Out.bind_ok]
  dsimp only
  obtain ⟨d, e2, hm⟩ := decrypt_opened E.cipher_lawful pass salt k.iterations.toNat ct
  rw [e2, Out.bind_ok]
  cases ho : opened P pass salt k.iterations.toNat ct with
  | error x =>
    rw [ho] at hm
    obtain ⟨rfl, hx⟩ := hm
    dsimp only
    rw [if_pos hx]
    rfl
  | ok pt =>
    rw [ho] at hm
    obtain ⟨hx, rfl⟩ := hm
    dsimp only
    rw [if_neg (by simp [hx])]
    rfl

theorem opened_encrypt (hP : P.CB.Lawful) {pass salt pt : Bytes} {n : Nat} (hl : pt.length + P.CB.macLen ≤ 65535)
    (hu : P.Usable pass salt n) : opened P pass salt n (P.encrypt pass salt n pt) = .ok pt := by
  have hel : (P.encrypt pass salt n pt).length = pt.length + P.CB.macLen := hP.enc_length _ _ _ _
  obtain ⟨h1, h2⟩ := hP.dec_enc (P.key pass salt n) (P.nonce pass salt n) [] pt
  unfold opened
  rw [if_neg (by omega), if_neg (by simpa using hu)]
  unfold Prot.decrypt
  change (P.CB.dec _ _ [] (P.encrypt pass salt n pt)).1 = _ at h1
  change (P.CB.dec _ _ [] (P.encrypt pass salt n pt)).2.take _ = _ at h2
  generalize P.CB.dec (P.key pass salt n) (P.nonce pass salt n) [] (P.encrypt pass salt n pt) = x at h1 h2
  obtain ⟨e, out⟩ := x
  dsimp only at h1 h2
  subst h1
  dsimp only
  rw [hel, Nat.add_sub_cancel, h2]

/-! ## Saving -/

/-- What is in the buffer after saving, whatever the outcome: apart from an end part `t` of the encoding of the protected key,
in front of what was there before, some bytes may have been cleared. -/
def Left (p p' : PB) (d content : Bytes) : Prop :=
  ∃ lo t, lo ≤ p.posn ∧ t <:+ content ∧ p'.posn + t.length = p.posn ∧
    p'.data = some ((wipe d lo p.posn).take p'.posn ++ t ++ d.drop p.posn)

theorem Left.wiped {p : PB} {d : Bytes} (hi : p.Inv) (hd : p.data = some d) {lo : Nat} (h : lo ≤ p.posn) (content : Bytes) :
    Left p { p with data := some (wipe d lo p.posn) } d content := by
  have hz := hi.size d hd
  have hp := hi.posn
  refine ⟨lo, [], h, List.nil_suffix, rfl, ?_⟩
  have hl : (d.take lo ++ List.replicate (p.posn - lo) (0 : UInt8)).length = p.posn := by
    simp only [List.length_append, List.length_take, List.length_replicate]; omega
  simp only [Option.some.injEq, List.append_nil]
  unfold wipe
  rw [List.take_left' hl]

theorem parse_good {name : Bytes} {c h : Nat} (e : parseProtectName name = some (c, h)) : Good [name] := by
  obtain ⟨s, hs, rfl⟩ := (C51_names name c h).1 e
  have : ∀ x ∈ protectNames, ∀ s ∈ [ascii x.1], isUtf8 s.length s = .ok true := by decide +kernel
  exact this _ hs

theorem wipe_drop {d : Bytes} {lo hi : Nat} (h1 : lo ≤ hi) (h2 : hi ≤ d.length) : (wipe d lo hi).drop hi = d.drop hi := by
  unfold wipe
  rw [List.drop_left']
  simp only [List.length_append, List.length_take, List.length_replicate]
  omega

/-- The last part: writing the protected key. -/
theorem last_write (E : Protects A name P) (pass salt : Bytes) (key : PrivateKey) {p : PB} {d : Bytes} (hd : p.data = some d)
    (hi : p.Inv) (hs : p.size < 2 ^ 64) (he : p.err = .none) {lo : Nat} (hlo : lo ≤ p.posn) :
    ∃ e p', EncryptedPrivateKey.write { p with data := some (wipe d lo p.posn) } 0 (P.protected pass salt name key) = .ok (e, p') ∧
      p'.size = p.size ∧ Left p p' d (P.protected pass salt name key).enc ∧ p'.err = e ∧
      (e = .none → p'.posn + (P.protected pass salt name key).enc.length = p.posn) ∧
      (e = .none ↔ (P.protected pass salt name key).enc.length ≤ p.posn) := by
  have hz := hi.size d hd
  have hp := hi.posn
  have hi0 : ({ p with data := some (wipe d lo p.posn) } : PB).Inv :=
    ⟨hp, fun x hx => by cases hx; rw [wipe_length hlo (by omega)]; exact hz⟩
  obtain ⟨e, p', e1, m, h1, -⟩ := (P.protected pass salt name key).write_writes _ 0 hi0 hs (by decide)
  have h1 := h1 he
  have hg : Good (P.protected pass salt name key).strings := parse_good E.parse
  obtain ⟨t, ht, hpt, hdat⟩ := m.part
  simp only [msgBytes, if_true] at ht hpt hdat
  refine ⟨e, p', e1, m.size, ⟨lo, t, hlo, ht, hpt, ?_⟩, h1.symm, ?_, ?_⟩
  · rw [hdat, Option.map_some, wipe_drop hlo (by omega)]
  · intro hn
    have := (m.wrote (h1.symm.trans hn)).posn
    simpa only [msgBytes, if_true] using this
  · rw [h1, m.ok he]
    simp only [hg, true_and, msgBytes, if_true]

/-- Everything that saving can do. -/
theorem save_cases (E : Protects A name P) (al : Nat → Bool) (salts : Nat → Bytes) (fuel : Nat) (key : PrivateKey) {p : PB}
    {d : Bytes} (hd : p.data = some d) (hi : p.Inv) (hs : p.size < 2 ^ 64) (pass : Bytes) :
    (savePrivateKey A al salts fuel key p pass name = .ok none ∧ Room P key p ∧ (∀ i ∈ [0, 1, 2, 3], al i = true) ∧
      (65535 < key.enc.length + P.CB.macLen ∨ firstUsable P pass salts fuel 0 = none)) ∨
    (∃ e p' i, savePrivateKey A al salts fuel key p pass name = .ok (some (e, p')) ∧
      i = (firstUsable P pass salts fuel 0).getD 0 ∧ p'.size = p.size ∧ Left p p' d (P.protected pass (salts i) name key).enc ∧
      (e = .none → p'.err = .none ∧ p'.posn + (P.protected pass (salts i) name key).enc.length = p.posn) ∧
      (e = .none ↔ (∀ i ∈ [0, 1, 2, 3, 4, 5], al i = true) ∧ p.err = .none ∧ Good key.strings ∧
        key.enc.length + P.CB.macLen ≤ 65535 ∧ firstUsable P pass salts fuel 0 = some i ∧
        (P.protected pass (salts i) name key).enc.length ≤ p.posn)) := by
  have hnm : ∀ lo : Nat, lo ≤ p.posn → ∀ e : Err, e ≠ .none → savePrivateKey A al salts fuel key p pass name =
      .ok (some (e, { p with data := some (wipe d lo p.posn) })) →
      (∀ i, ¬ ((∀ i ∈ [0, 1, 2, 3, 4, 5], al i = true) ∧ p.err = .none ∧ Good key.strings ∧
        key.enc.length + P.CB.macLen ≤ 65535 ∧ firstUsable P pass salts fuel 0 = some i ∧
        (P.protected pass (salts i) name key).enc.length ≤ p.posn)) →
      ∃ e p' i, savePrivateKey A al salts fuel key p pass name = .ok (some (e, p')) ∧
      i = (firstUsable P pass salts fuel 0).getD 0 ∧ p'.size = p.size ∧ Left p p' d (P.protected pass (salts i) name key).enc ∧
      (e = .none → p'.err = .none ∧ p'.posn + (P.protected pass (salts i) name key).enc.length = p.posn) ∧
      (e = .none ↔ (∀ i ∈ [0, 1, 2, 3, 4, 5], al i = true) ∧ p.err = .none ∧ Good key.strings ∧
        key.enc.length + P.CB.macLen ≤ 65535 ∧ firstUsable P pass salts fuel 0 = some i ∧
        (P.protected pass (salts i) name key).enc.length ≤ p.posn) :=
    fun lo hlo e he h hn => ⟨e, _, _, h, rfl, rfl, Left.wiped hi hd hlo _, fun h => absurd h he, fun h => absurd h he,
      fun h => absurd h (hn _)⟩
  have hself : ∀ e : Err, savePrivateKey A al salts fuel key p pass name = .ok (some (e, p)) →
      savePrivateKey A al salts fuel key p pass name = .ok (some (e, { p with data := some (wipe d p.posn p.posn) })) := by
    intro e h
    rw [h, wipe_self, ← hd]
  cases h0 : al 0 with
  | false =>
    refine .inr (hnm p.posn (Nat.le_refl _) .noMemory (by simp) (hself _ ?_) ?_)
    · unfold savePrivateKey
      rw [E.parse]
      dsimp only
      rw [E.cipher_eq]
      dsimp only
      rw [if_pos h0]
    · intro i h
      have := h.1 0 (by simp)
      simp [h0] at this
  | true =>
  cases h1 : al 1 with
  | false =>
    refine .inr (hnm p.posn (Nat.le_refl _) .noMemory (by simp) (hself _ ?_) ?_)
    · unfold savePrivateKey
      rw [E.parse]
      dsimp only
      rw [E.cipher_eq]
      dsimp only
      rw [if_neg (by simp [h0]), if_neg (by simp [E.keyLen]), E.hash_eq]
      dsimp only
      rw [if_pos h1]
    · intro i h
      have := h.1 1 (by simp)
      simp [h1] at this
  | true =>
  by_cases hr : Room P key p
  · by_cases ha : al 2 = false ∨ al 3 = false
    · refine .inr (hnm _ (Nat.sub_le _ _) .noMemory (by simp) (save_nomem E h0 h1 salts fuel key hd hi hs pass hr ha) ?_)
      intro i h
      have k2 := h.1 2 (by simp)
      have k3 := h.1 3 (by simp)
      simp [k2, k3] at ha
    · have h2 : al 2 = true := Bool.of_not_eq_false fun h => ha (.inl h)
      have h3 : al 3 = true := Bool.of_not_eq_false fun h => ha (.inr h)
      have hall : ∀ i ∈ [0, 1, 2, 3], al i = true := by simp [h0, h1, h2, h3]
      have e := save_room E h0 h1 salts fuel key hd hi hs pass hr h2 h3
      by_cases hl : key.enc.length + P.CB.macLen > maxPayload
      · rw [if_pos hl] at e
        exact .inl ⟨e, hr, hall, .inl hl⟩
      · rw [if_neg hl] at e
        cases hf : firstUsable P pass salts fuel 0 with
        | none =>
          rw [hf] at e
          exact .inl ⟨e, hr, hall, .inr rfl⟩
        | some i =>
          rw [hf] at e
          dsimp only at e
          by_cases hb : al 4 = false ∨ al 5 = false
          · rw [if_pos hb] at e
            rw [hf] at hnm
            refine .inr (hnm _ (Nat.sub_le _ _) .noMemory (by simp) e ?_)
            intro j h
            have k4 := h.1 4 (by simp)
            have k5 := h.1 5 (by simp)
            simp [k4, k5] at hb
          · rw [if_neg hb] at e
            have h4 : al 4 = true := Bool.of_not_eq_false fun h => hb (.inl h)
            have h5 : al 5 = true := Bool.of_not_eq_false fun h => hb (.inr h)
            obtain ⟨x, p', e1, k1, k2, k3, k4, k5⟩ := last_write E pass (salts i) key hd hi hs hr.1 (Nat.sub_le p.posn (key.enc.length + P.CB.macLen))
            rw [e1, Out.bind_ok] at e
            refine .inr ⟨x, p', i, e, rfl, k1, k2, fun h => ⟨k3.trans h, k4 h⟩, ?_⟩
            rw [k5]
            constructor
            · intro h
              exact ⟨by simp [h0, h1, h2, h3, h4, h5], hr.1, hr.2.1, by simpa [maxPayload] using hl, rfl, h⟩
            · exact fun h => h.2.2.2.2.2
  · obtain ⟨e, lo, he, hlo, h⟩ := save_noroom E h0 h1 salts fuel key hd hi hs pass hr
    refine .inr (hnm lo hlo e he h ?_)
    rintro i ⟨-, k1, k2, k3, -, k4⟩
    apply hr
    refine ⟨k1, k2, ?_⟩
    have : key.enc.length + P.CB.macLen ≤ (P.protected pass (salts i) name key).enc.length := by
      have hel : (P.encrypt pass (salts i) 20000 key.enc).length = key.enc.length + P.CB.macLen :=
        E.cipher_lawful.enc_length _ _ _ _
      simp only [Prot.protected, EncryptedPrivateKey.enc, fBlock, Wire.field, List.length_append]
      simp only [Wire.Val.bytes, List.length_append, hel]
      omega
    omega

/-! ## C51 -/

/-- **C51**: a private key that was saved with a passphrase is loaded with the same passphrase as it was, apart from NULL items
in its lists, whatever salts were drawn and whatever the algorithms: from the message that `noise_protobuf_finish_output`
gives, with nothing left over. The message is the encoding of the protected key. -/
theorem C51_roundtrip (E : Protects A name P) {al : Nat → Bool} {salts : Nat → Bytes} {fuel : Nat} {key : PrivateKey}
    {d pass : Bytes} (hd : d.length < 2 ^ 64) {p' : PB}
    (h : savePrivateKey A al salts fuel key (prepareOutput d) pass name = .ok (some (.none, p'))) :
    ∃ off len d' i, p'.finishOutput = (.none, some off, len) ∧ p'.data = some d' ∧
      (d'.drop off).take len = (P.protected pass (salts i) name key).enc ∧
      (∀ fuel', len ≤ fuel' → ∃ q, loadPrivateKey A yes fuel' (prepareInput ((d'.drop off).take len)) pass =
        .ok (some (.none, some key.norm, q)) ∧ q.finishInput.1 = .none) ∧
      (key.NoNull → key.norm = key) := by
  rcases save_cases E al salts fuel key (p := prepareOutput d) rfl (prepareOutput_inv d) hd pass with
    ⟨hx, -⟩ | ⟨e, p2, i, hx, -, hsz, ⟨lo, t, hlo, ht, hp, hdat⟩, hok, hiff⟩
  · rw [hx] at h; cases h
  · rw [hx] at h
    cases h
    obtain ⟨hok1, hok2⟩ := hok rfl
    obtain ⟨-, -, hg, hl, hf, hroom⟩ := hiff.1 rfl
    change lo ≤ d.length at hlo
    change _ = d.length at hok2
    change _ = d.length at hp
    change _ ≤ d.length at hroom
    change p'.data = some ((wipe d lo d.length).take p'.posn ++ t ++ d.drop d.length) at hdat
    have hte : t = (P.protected pass (salts i) name key).enc := ht.eq_of_length (by omega)
    subst hte
    have hlw : ((wipe d lo d.length).take p'.posn).length = p'.posn := by
      rw [List.length_take, wipe_length hlo (Nat.le_refl _)]; omega
    rw [List.drop_length, List.append_nil] at hdat
    have hsz' : p'.size - p'.posn = (P.protected pass (salts i) name key).enc.length := by
      rw [hsz]; change d.length - _ = _; omega
    refine ⟨p'.posn, p'.size - p'.posn, _, i, ?_, hdat, ?_, ?_, PrivateKey.norm_eq⟩
    · simp [finishOutput, hok1, hdat]
    · rw [List.drop_left' hlw, hsz', List.take_length]
    · rw [List.drop_left' hlw, hsz', List.take_length]
      intro fuel' hfu
      generalize hc : (P.protected pass (salts i) name key).enc = content at *
      have hcl : content.length < 2 ^ 64 := by omega
      obtain ⟨n', e'⟩ := EncryptedPrivateKey.reads fuel' (P.protected pass (salts i) name key) (parse_good E.parse)
        ⟨prepareInput content, 0⟩ 0 [] hcl hfu (by decide)
        (by simp only [msgBytes, if_true, List.append_nil, hc]; exact prepareInput_ready _) (fun _ => rfl)
      have E' : Protects A (name.takeWhile (· ≠ 0)) P := by
        rw [takeWhile_clean (parse_clean E.parse)]; exact E
      have hu := (firstUsable_some hf).1
      have hld := C51_load_exact (pass := pass) e' (algorithm := name) (salt := salts i)
        (ct := P.encrypt pass (salts i) 20000 key.enc) rfl rfl rfl (show (20000 : UInt32) ≠ 0 by decide) rfl E' rfl rfl
      rw [show (P.protected pass (salts i) name key).iterations.toNat = 20000 from rfl,
        opened_encrypt E.cipher_lawful hl hu] at hld
      have hcle : key.enc.length ≤ content.length := by
        have hel : (P.encrypt pass (salts i) 20000 key.enc).length = key.enc.length + P.CB.macLen :=
          E.cipher_lawful.enc_length _ _ _ _
        rw [← hc]
        simp only [Prot.protected, EncryptedPrivateKey.enc, fBlock, Wire.field, List.length_append]
        simp only [Wire.Val.bytes, List.length_append, hel]
        omega
      obtain ⟨n2, e2⟩ := PrivateKey.reads fuel' key hg ⟨prepareInput key.enc, n' + 2⟩ 0 [] (by
        change key.enc.length < _; omega) (by change key.enc.length ≤ _; omega) (by decide)
        (by simp only [msgBytes, if_true, List.append_nil]; exact prepareInput_ready _) (fun _ => rfl)
      have e2' : PrivateKey.read yes fuel' ⟨prepareInput key.enc, n' + 2⟩ 0 = _ := e2
      dsimp only at hld
      rw [e2', Out.bind_ok] at hld
      refine ⟨_, hld, ?_⟩
      simp [finishInput, msgBytes, prepareInput, hc]

/-- **C51**: a key is loaded only if the AEAD algorithm accepts the encrypted data under the key and nonce derived from the
passphrase. With a passphrase whose derived key is rejected, the error is the one of the AEAD algorithm and there is no
key. -/
theorem C51_rejected {al : Nat → Bool} {fuel : Nat} {p : PB} {pass : Bytes} {k : EncryptedPrivateKey} {r : R}
    (hk : EncryptedPrivateKey.read al fuel ⟨p, 0⟩ 0 = .ok (some (.none, some k, r)))
    {algorithm salt ct : Bytes} (hv : k.version = 1) (ha : k.algorithm = some algorithm) (hs : k.salt = some salt)
    (hi : k.iterations ≠ 0) (hd : k.encryptedData = some ct)
    (E : Protects A (algorithm.takeWhile (· ≠ 0)) P) (h0 : al r.n = true) (h1 : al (r.n + 1) = true)
    (hrej : (P.decrypt pass salt k.iterations.toNat ct).1 ≠ .none) :
    ∃ e, e ≠ .none ∧ loadPrivateKey A al fuel p pass = .ok (some (e, none, r.p)) ∧
      (P.CB.macLen ≤ ct.length → ct.length ≤ 65535 → P.Usable pass salt k.iterations.toNat →
        e = (P.decrypt pass salt k.iterations.toNat ct).1) := by
  rw [C51_load_exact hk hv ha hs hi hd E h0 h1]
  unfold opened
  by_cases h2 : 65535 < ct.length ∨ ct.length < P.CB.macLen
  · rw [if_pos h2]
    exact ⟨.invalidLength, by simp, rfl, fun _ _ _ => by omega⟩
  rw [if_neg h2]
  by_cases h3 : P.Usable pass salt k.iterations.toNat
  swap
  · rw [if_pos h3]
    exact ⟨.invalidNonce, by simp, rfl, fun _ _ hu => absurd hu h3⟩
  rw [if_neg (by simpa using h3)]
  generalize P.decrypt pass salt k.iterations.toNat ct = x at hrej
  obtain ⟨e, out⟩ := x
  refine ⟨e, hrej, ?_, fun _ _ _ => rfl⟩
  cases e <;> first | exact absurd rfl hrej | rfl

/-- **C51**: whatever the outcome of saving, in particular on every error, and whichever allocations fail, no plaintext is left:
the buffer holds, in front of what was there before, an end part of the encoding of the protected key (which is a
function of the ciphertext, see `Prot.protected`); in front of that, bytes are as they were or are zero. Saving to a
buffer never runs into undefined behaviour. -/
theorem C51_no_plaintext (E : Protects A name P) (al : Nat → Bool) (salts : Nat → Bytes) (fuel : Nat) (key : PrivateKey) {p : PB}
    {d : Bytes} (hd : p.data = some d) (hi : p.Inv) (hs : p.size < 2 ^ 64) (pass : Bytes) :
    ∃ res, savePrivateKey A al salts fuel key p pass name = .ok res ∧ ∀ e p', res = some (e, p') →
      ∃ d' lo t i, p'.data = some d' ∧ lo ≤ p.posn ∧ t <:+ (P.protected pass (salts i) name key).enc ∧
        p'.posn + t.length = p.posn ∧
        d' = (d.take lo ++ List.replicate (p.posn - lo) 0).take p'.posn ++ t ++ d.drop p.posn := by
  rcases save_cases E al salts fuel key hd hi hs pass with ⟨hx, -⟩ | ⟨e, p2, i, hx, -, -, ⟨lo, t, hlo, ht, hp, hdat⟩, -⟩
  · exact ⟨_, hx, fun _ _ h => by cases h⟩
  · refine ⟨_, hx, ?_⟩
    intro e' p' h
    cases h
    refine ⟨_, lo, t, i, hdat, hlo, ht, hp, ?_⟩
    have := hi.size d hd
    have := hi.posn
    unfold wipe
    rw [List.take_append_of_le_length]
    simp only [List.length_append, List.length_take, List.length_replicate]
    omega

/-- **C51**: saving succeeds if and only if memory is available, the strings are accepted, the encoding with the MAC has at
most 65535 bytes, one of the salts drawn can be used, and the protected key fits. -/
theorem C51_save_iff (E : Protects A name P) (al : Nat → Bool) (salts : Nat → Bytes) (fuel : Nat) (key : PrivateKey) {p : PB}
    {d : Bytes} (hd : p.data = some d) (hi : p.Inv) (hs : p.size < 2 ^ 64) (pass : Bytes) :
    (∃ p', savePrivateKey A al salts fuel key p pass name = .ok (some (.none, p'))) ↔
      (∀ i ∈ [0, 1, 2, 3, 4, 5], al i = true) ∧ p.err = .none ∧ (∀ s ∈ key.strings, isUtf8 s.length s = .ok true) ∧
      key.enc.length + P.CB.macLen ≤ 65535 ∧ ∃ i, (i < fuel ∧ P.Usable pass (salts i) 20000 ∧
        ∀ j < i, ¬ P.Usable pass (salts j) 20000) ∧ (P.protected pass (salts i) name key).enc.length ≤ p.posn := by
  have hfu : ∀ i, firstUsable P pass salts fuel 0 = some i ↔ i < fuel ∧ P.Usable pass (salts i) 20000 ∧
      ∀ j < i, ¬ P.Usable pass (salts j) 20000 := by
    have gen : ∀ f t i, firstUsable P pass salts f t = some i ↔ (t ≤ i ∧ i < t + f) ∧ P.Usable pass (salts i) 20000 ∧
        ∀ j, t ≤ j → j < i → ¬ P.Usable pass (salts j) 20000 := by
      intro f
      induction f with
      | zero => intro t i; simp only [firstUsable, reduceCtorEq, false_iff]; omega
      | succ f ih =>
        intro t i
        rw [firstUsable]
        split
        · rename_i hu
          simp only [Option.some.injEq]
          constructor
          · rintro rfl; exact ⟨⟨Nat.le_refl _, by omega⟩, hu, fun j h1 h2 => by omega⟩
          · rintro ⟨⟨h1, h2⟩, h3, h4⟩
            by_contra hne
            exact h4 t (Nat.le_refl _) (by omega) hu
        · rename_i hu
          rw [ih]
          constructor
          · rintro ⟨⟨h1, h2⟩, h3, h4⟩
            refine ⟨⟨by omega, by omega⟩, h3, fun j h5 h6 => ?_⟩
            by_cases hj : j = t
            · subst hj; exact hu
            · exact h4 j (by omega) h6
          · rintro ⟨⟨h1, h2⟩, h3, h4⟩
            have : i ≠ t := by rintro rfl; exact hu h3
            exact ⟨⟨by omega, by omega⟩, h3, fun j h5 h6 => h4 j (by omega) h6⟩
    intro i
    rw [gen]
    simp
  rcases save_cases E al salts fuel key hd hi hs pass with ⟨hx, hr, -, hn⟩ | ⟨e, p2, i, hx, hie, -, -, -, hiff⟩
  · constructor
    · rintro ⟨p', h⟩; rw [hx] at h; cases h
    · rintro ⟨-, -, -, hl, i, hi, -⟩
      rcases hn with hn | hn
      · omega
      · rw [(hfu i).2 hi] at hn; cases hn
  · constructor
    · rintro ⟨p', h⟩
      rw [hx] at h
      cases h
      obtain ⟨h1, h2, h3, h4, h5, h6⟩ := hiff.1 rfl
      exact ⟨h1, h2, h3, h4, i, (hfu i).1 h5, h6⟩
    · rintro ⟨h1, h2, h3, h4, j, h5, h6⟩
      have h5 := (hfu j).2 h5
      have hij : i = j := by rw [hie, h5]; rfl
      subst hij
      have := hiff.2 ⟨h1, h2, h3, h4, h5, h6⟩
      subst this
      exact ⟨p2, hx⟩

end Loader
end Noise
