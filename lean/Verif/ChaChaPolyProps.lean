import Verif.ChaChaPoly
import Verif.Poly1305Props
import Verif.UtilProps
import Verif.CipherProps
/-!
# The ChaChaPoly back end is the AEAD of RFC 7539
-/

namespace Noise.ChaChaPoly

open Rfc7539 ChaCha

attribute [local irreducible] ChaCha.keyBlock Rfc7539.core

/-- The nonce of the Noise specification for ChaChaPoly: 32 bits of zeros and the little-endian number. -/
def nonce (n : UInt64) : Bytes := [0, 0, 0, 0] ++ leBytes 8 n.toNat

theorem putUint64_eq (v : UInt64) : putUint64 v = leBytes 8 v.toNat := Poly1305.u64to8_eq v

/-- The object after `init_key` and any number of calls. -/
structure Ready (key : Bytes) (st : State) : Prop where
  chacha : ∀ iv, ivsetup st.chacha iv none = ctx key iv 0
  poly : st.poly.buffer.length = 16
  block : st.block.length = 64

theorem ready_initKey (st : State) (key : Bytes) (hp : st.poly.buffer.length = 16) (hb : st.block.length = 64) :
    Ready key (initKey st key) := ⟨fun iv => setup_eq key iv, hp, hb⟩

theorem ivsetup_ctx (key iv iv' : Bytes) (c : Nat) : ivsetup (ctx key iv c) iv' none = ctx key iv' 0 := rfl

/-! ## The stream cipher with its 32-bit length -/

/-- The bytes exclusive or the key stream from block 1 on; beyond the low 32 bits of the length nothing is
changed. -/
def cipher (key iv m : Bytes) : Bytes :=
  ((m.take (m.length % 2 ^ 32)).mapIdx fun i b => b ^^^ stream64 key iv 1 i) ++ m.drop (m.length % 2 ^ 32)

theorem chachaBytes_eq (key iv m : Bytes) : ∃ c, chachaBytes (ctx key iv 1) m = (ctx key iv c, cipher key iv m) := by
  refine ⟨1 + ((m.take (m.length % 2 ^ 32)).length + 63) / 64, ?_⟩
  unfold chachaBytes cipher
  simp only [encryptBytes_eq]

theorem cipher_length (key iv m : Bytes) : (cipher key iv m).length = m.length := by
  unfold cipher
  rw [List.length_append, List.length_mapIdx, List.length_take, List.length_drop]
  have := Nat.mod_le m.length (2 ^ 32)
  omega

theorem cipher_cipher (key iv m : Bytes) : cipher key iv (cipher key iv m) = m := by
  have hl := cipher_length key iv m
  have hle := Nat.mod_le m.length (2 ^ 32)
  have hlen : ((m.take (m.length % 2 ^ 32)).mapIdx fun i b => b ^^^ stream64 key iv 1 i).length =
      m.length % 2 ^ 32 := by rw [List.length_mapIdx, List.length_take]; omega
  have ht : (cipher key iv m).take (m.length % 2 ^ 32) =
      (m.take (m.length % 2 ^ 32)).mapIdx fun i b => b ^^^ stream64 key iv 1 i := by
    unfold cipher; rw [List.take_left' hlen]
  have hd : (cipher key iv m).drop (m.length % 2 ^ 32) = m.drop (m.length % 2 ^ 32) := by
    unfold cipher; rw [List.drop_left' hlen]
  have hu : ∀ c : Bytes, c.length = m.length → cipher key iv c =
      ((c.take (m.length % 2 ^ 32)).mapIdx fun i b => b ^^^ stream64 key iv 1 i) ++ c.drop (m.length % 2 ^ 32) := by
    intro c hc; rw [cipher, hc]
  rw [hu _ hl, ht, hd]
  conv_rhs => rw [← List.take_append_drop (m.length % 2 ^ 32) m]
  congr 1
  apply List.ext_getElem
  · simp
  · intro i h1 h2
    simp only [List.getElem_mapIdx]
    rw [UInt8.xor_assoc, UInt8.xor_self, UInt8.xor_zero]

/-- Below 2^32 bytes this is the encryption of RFC 7539. -/
theorem cipher_eq (key iv m : Bytes) (h : m.length < 2 ^ 32) :
    cipher key iv m = Rfc7539.encrypt key 1 ([0, 0, 0, 0] ++ iv) m := by
  have h1 := C33_chacha20 key iv 1 m (by omega)
  rw [encryptBytes_eq] at h1
  have h2 := congrArg Prod.snd h1
  unfold cipher
  rw [Nat.mod_eq_of_lt h, List.take_length, List.drop_length, List.append_nil]
  exact h2

/-! ## Setting up -/

theorem block_length (key iv : Bytes) : (Rfc7539.block key 0 ([0, 0, 0, 0] ++ iv)).length = 64 := by
  have h := keyBlock_length (ctx key iv 0)
  unfold keyBlock at h
  rw [ctx_list] at h
  exact h

theorem encrypt_zeros (key iv : Bytes) :
    Rfc7539.encrypt key 0 ([0, 0, 0, 0] ++ iv) (List.replicate 64 0) = Rfc7539.block key 0 ([0, 0, 0, 0] ++ iv) := by
  have hb := block_length key iv
  show List.mapIdx _ _ = _
  apply List.ext_getElem
  · rw [List.length_mapIdx, List.length_replicate, hb]
  · intro i h1 h2
    rw [List.getElem_mapIdx, List.getElem_replicate, UInt8.zero_xor]
    unfold stream
    have h3 := h2
    rw [hb] at h3
    rw [show i / 64 = 0 by omega, show i % 64 = i by omega, List.getD_eq_getElem?_getD,
      List.getElem?_eq_getElem h2, Option.getD_some]

theorem fromLittle_append (a b : Bytes) (i : Nat) (h : i + 4 ≤ a.length) : fromLittle (a ++ b) i = fromLittle a i := by
  have hg : ∀ j, j < a.length → (a ++ b).getD j 0 = a.getD j 0 := by
    intro j hj
    simp [List.getD_eq_getElem?_getD, List.getElem?_append_left hj]
  unfold fromLittle
  rw [hg i (by omega), hg (i + 1) (by omega), hg (i + 2) (by omega), hg (i + 3) (by omega)]

theorem ctx_append (key iv rest : Bytes) (c : Nat) (h : iv.length = 8) : ctx key (iv ++ rest) c = ctx key iv c := by
  unfold ctx
  rw [fromLittle_append iv rest 0 (by omega), fromLittle_append iv rest 4 (by omega)]

/-- The one-time key of a call. -/
def otk (key : Bytes) (n : UInt64) : Bytes := Rfc7539.block key 0 (nonce n)

/-- The state inside a call, after `m` has been authenticated. -/
structure Busy (key : Bytes) (n : UInt64) (m : Bytes) (st : State) : Prop where
  chacha : ∃ c, st.chacha = ctx key (leBytes 8 n.toNat) c
  poly : Poly1305.Absorbed (otk key n) m st.poly
  block : st.block.length = 64

theorem setup_spec {key : Bytes} {st : State} (h : Ready key st) (n : UInt64) :
    ∃ st', setup st n = .ok st' ∧ st'.chacha = ctx key (leBytes 8 n.toNat) 1 ∧ Busy key n [] st' := by
  obtain ⟨h1, h2, h3⟩ := h
  have hl : (leBytes 8 n.toNat).length = 8 := leBytes_length 8 _
  have s1 : store st.block 0 (putUint64 n) = .ok (leBytes 8 n.toNat ++ st.block.drop 8) := by
    rw [putUint64_eq, store_ok (by omega), hl]; rfl
  have s2 : ∀ b : Bytes, b.length = 64 → ∀ x : Bytes, x.length = 64 → store b 0 x = .ok x := by
    intro b hb x hx
    rw [store_ok (by omega), List.drop_of_length_le (by omega)]
    simp
  have s3 : ∀ b : Bytes, b.length = 64 → load b 0 64 = .ok b := by
    intro b hb
    rw [load_ok (by omega), List.drop_zero, List.take_of_length_le (by omega)]
  have hz : (List.replicate 64 (0 : UInt8)).length = 64 := List.length_replicate
  have hc : chachaBytes (ctx key (leBytes 8 n.toNat) 0) (List.replicate 64 0) =
      (ctx key (leBytes 8 n.toNat) 1, otk key n) := by
    unfold chachaBytes
    simp only [hz]
    rw [show 64 % 2 ^ 32 = 64 from rfl, List.take_of_length_le (by omega), List.drop_of_length_le (by omega),
      C33_chacha20 key _ 0 _ (by rw [hz]; omega), encrypt_zeros, hz, List.append_nil]
    rfl
  have hob : (otk key n).length = 64 := block_length key (leBytes 8 n.toNat)
  unfold setup
  rw [s1, Out.bind_ok, h1, ctx_append _ _ _ _ hl, s2 _ (by rw [List.length_append, hl, List.length_drop]; omega) _ hz]
  rw [Out.bind_ok, s3 _ hz, Out.bind_ok, hc]
  simp only
  rw [s2 _ hz _ hob, Out.bind_ok, s2 _ hob _ hz, Out.bind_ok]
  exact ⟨_, rfl, rfl, ⟨1, rfl⟩, Poly1305.init_absorbed _ _ (by omega) h2, hz⟩

/-! ## Authentication -/

theorem update_spec {key m : Bytes} {n : UInt64} {st : State} (h : Busy key n m st) (d : Bytes) :
    ∃ p, Poly1305.update st.poly d = .ok p ∧ Busy key n (m ++ d) { st with poly := p } := by
  obtain ⟨p, e, hp⟩ := Poly1305.update_absorbed h.poly d
  exact ⟨p, e, h.chacha, hp, h.block⟩

theorem padAuth_spec {key m : Bytes} {n : UInt64} {st : State} (h : Busy key n m st) (d : Bytes) :
    ∃ st', padAuth st d.length = .ok st' ∧ st'.chacha = st.chacha ∧ Busy key n (m ++ pad16 d) st' := by
  unfold padAuth pad16
  by_cases hd : d.length % 16 = 0
  · rw [if_neg (by simpa using hd), hd]
    refine ⟨st, rfl, rfl, by simpa using h⟩
  · rw [if_pos hd]
    obtain ⟨p, e, hp⟩ := update_spec h (List.replicate (16 - d.length % 16) 0)
    rw [e, Out.bind_ok, Nat.mod_eq_of_lt (a := 16 - d.length % 16) (by omega)]
    exact ⟨_, rfl, rfl, hp⟩

theorem authAd_spec {key m : Bytes} {n : UInt64} {st : State} (h : Busy key n m st) (ad : Bytes) :
    ∃ st', authAd st ad = .ok st' ∧ st'.chacha = st.chacha ∧ Busy key n (m ++ (ad ++ pad16 ad)) st' := by
  unfold authAd
  by_cases hd : ad.length = 0
  · rw [if_neg (by simpa using hd)]
    have : ad = [] := List.eq_nil_of_length_eq_zero hd
    subst this
    refine ⟨st, rfl, rfl, by simpa [pad16] using h⟩
  · rw [if_pos hd]
    obtain ⟨p, e, hp⟩ := update_spec h ad
    rw [e, Out.bind_ok]
    obtain ⟨st', e', hc, hb⟩ := padAuth_spec hp ad
    rw [List.append_assoc] at hb
    exact ⟨st', e', hc, hb⟩

theorem leBytes8_ofNat (x : Nat) : leBytes 8 (UInt64.ofNat x).toNat = leBytes 8 x := by
  rw [UInt64.toNat_ofNat', show (2 : Nat) ^ 64 = 256 ^ 8 from rfl, leBytes_mod]

theorem authLengths_spec {key m : Bytes} {n : UInt64} {st : State} (h : Busy key n m st) (x y : Nat) :
    ∃ st', authLengths st (UInt64.ofNat x) (UInt64.ofNat y) = .ok st' ∧ st'.chacha = st.chacha ∧
      Busy key n (m ++ (leBytes 8 x ++ leBytes 8 y)) st' := by
  have hb := h.block
  have hl : ∀ v, (leBytes 8 v).length = 8 := leBytes_length 8
  unfold authLengths
  rw [putUint64_eq, putUint64_eq, leBytes8_ofNat, leBytes8_ofNat, store_ok (by rw [hl]; omega), Out.bind_ok, hl,
    List.take_zero, List.nil_append, Nat.zero_add]
  have h2 : store (leBytes 8 x ++ st.block.drop 8) 8 (leBytes 8 y) =
      .ok ((leBytes 8 x ++ leBytes 8 y) ++ st.block.drop 16) := by
    rw [store_ok (by rw [List.length_append, hl, hl, List.length_drop]; omega), List.take_left' (hl x), hl,
      List.drop_append, hl, List.drop_of_length_le (by rw [hl]; omega), List.drop_drop]
    rfl
  have h3 : load ((leBytes 8 x ++ leBytes 8 y) ++ st.block.drop 16) 0 16 = .ok (leBytes 8 x ++ leBytes 8 y) := by
    rw [load_ok (by simp only [List.length_append, hl, List.length_drop]; omega), List.drop_zero,
      List.take_left' (by rw [List.length_append, hl, hl])]
  rw [h2, Out.bind_ok, h3, Out.bind_ok]
  obtain ⟨p, e, hp⟩ := update_spec h (leBytes 8 x ++ leBytes 8 y)
  rw [e, Out.bind_ok]
  exact ⟨_, rfl, rfl, hp.chacha, hp.poly, by simp only [List.length_append, hl, List.length_drop]; omega⟩

theorem poly1305_take (k m : Bytes) : poly1305 (k.take 32) m = poly1305 k m := by
  unfold poly1305
  rw [List.take_take, List.drop_take, List.take_take]
  rfl

theorem finish_spec {key m : Bytes} {n : UInt64} {st : State} (h : Busy key n m st) :
    ∃ p, Poly1305.finish st.poly = .ok (p, poly1305 ((otk key n).take 32) m) ∧ p.buffer.length = 16 := by
  obtain ⟨p, e, hp⟩ := Poly1305.finish_eq h.poly
  rw [poly1305_take]
  exact ⟨p, e, hp⟩

theorem ready_ctx {key iv : Bytes} {st : State} (c : Nat) (hc : st.chacha = ctx key iv c)
    (hp : st.poly.buffer.length = 16) (hb : st.block.length = 64) : Ready key st :=
  ⟨fun iv' => by rw [hc]; exact ivsetup_ctx key iv iv' c, hp, hb⟩

/-! ## The two functions -/

/-- The tag of RFC 7539 for the Noise nonce. -/
abbrev noiseTag (key : Bytes) (n : UInt64) (ad ct : Bytes) : Bytes := tag key (nonce n) ad ct

theorem encrypt_general {key : Bytes} {st : State} (h : Ready key st) (n : UInt64) (ad data : Bytes) (len : Nat)
    (hd : data.length = len + 16) :
    ∃ st', encrypt st n ad data len = .ok (st', cipher key (leBytes 8 n.toNat) (data.take len) ++
        noiseTag key n ad (cipher key (leBytes 8 n.toNat) (data.take len))) ∧ Ready key st' := by
  obtain ⟨st1, e1, c1, b1⟩ := setup_spec h n
  obtain ⟨st2, e2, c2, b2⟩ := authAd_spec b1 ad
  rw [List.nil_append] at b2
  have hpl : (data.take len).length = len := by rw [List.length_take]; omega
  obtain ⟨c, hcc⟩ := chachaBytes_eq key (leBytes 8 n.toNat) (data.take len)
  generalize hct : cipher key (leBytes 8 n.toNat) (data.take len) = ct at *
  have hctl : ct.length = len := by rw [← hct, cipher_length, hpl]
  unfold encrypt
  rw [e1, Out.bind_ok, e2, Out.bind_ok, load_ok (by omega), Out.bind_ok, List.drop_zero, c2, c1, hcc]
  simp only
  rw [store_ok (by omega), Out.bind_ok, List.take_zero, List.nil_append, Nat.zero_add, hctl,
    load_ok (by rw [List.length_append, List.length_drop]; omega), Out.bind_ok, List.drop_zero,
    List.take_left' hctl]
  obtain ⟨p3, e3, b3⟩ := update_spec b2 ct
  rw [e3, Out.bind_ok]
  have b3' : Busy key n (ad ++ pad16 ad ++ ct)
      { st2 with chacha := ctx key (leBytes 8 n.toNat) c, poly := p3 } := ⟨⟨c, rfl⟩, b3.poly, b3.block⟩
  obtain ⟨st4, e4, c4, b4⟩ := padAuth_spec b3' ct
  rw [hctl] at e4
  rw [e4, Out.bind_ok]
  obtain ⟨st5, e5, c5, b5⟩ := authLengths_spec b4 ad.length len
  rw [e5, Out.bind_ok]
  obtain ⟨p6, e6, b6⟩ := finish_spec b5
  rw [e6, Out.bind_ok]
  simp only
  have hmac : poly1305 ((otk key n).take 32)
      (ad ++ pad16 ad ++ ct ++ pad16 ct ++ (leBytes 8 ad.length ++ leBytes 8 len)) = noiseTag key n ad ct := by
    unfold noiseTag tag macData otk
    rw [hctl, List.append_assoc (ad ++ pad16 ad) ct]
  rw [hmac]
  have htl : (noiseTag key n ad ct).length = 16 := leBytes_length 16 _
  rw [store_ok (by rw [List.length_append, List.length_drop]; omega), Out.bind_ok, List.take_left' hctl,
    List.drop_of_length_le (by rw [List.length_append, List.length_drop]; omega), List.append_nil]
  refine ⟨_, rfl, ?_⟩
  have hc5 : st5.chacha = ctx key (leBytes 8 n.toNat) c := by rw [c5, c4]
  exact ready_ctx c hc5 b6 b5.block

theorem decrypt_general {key : Bytes} {st : State} (h : Ready key st) (n : UInt64) (ad data : Bytes) (len : Nat)
    (hd : data.length = len + 16) :
    ∃ st', decrypt st n ad data len = .ok (if data.drop len = noiseTag key n ad (data.take len) then
        (.none, st', cipher key (leBytes 8 n.toNat) (data.take len) ++ data.drop len)
      else (.macFailure, st', data)) ∧ Ready key st' := by
  obtain ⟨st1, e1, c1, b1⟩ := setup_spec h n
  obtain ⟨st2, e2, c2, b2⟩ := authAd_spec b1 ad
  rw [List.nil_append] at b2
  have hpl : (data.take len).length = len := by rw [List.length_take]; omega
  unfold decrypt
  rw [e1, Out.bind_ok, e2, Out.bind_ok, load_ok (by omega), Out.bind_ok, List.drop_zero]
  obtain ⟨p3, e3, b3⟩ := update_spec b2 (data.take len)
  rw [e3, Out.bind_ok]
  obtain ⟨st4, e4, c4, b4⟩ := padAuth_spec b3 (data.take len)
  rw [hpl] at e4
  rw [e4, Out.bind_ok]
  obtain ⟨st5, e5, c5, b5⟩ := authLengths_spec b4 ad.length len
  rw [e5, Out.bind_ok]
  obtain ⟨p6, e6, b6⟩ := finish_spec b5
  rw [e6, Out.bind_ok]
  simp only
  have hmac : poly1305 ((otk key n).take 32)
      (ad ++ pad16 ad ++ data.take len ++ pad16 (data.take len) ++ (leBytes 8 ad.length ++ leBytes 8 len)) =
      noiseTag key n ad (data.take len) := by
    unfold noiseTag tag macData otk
    rw [hpl, List.append_assoc (ad ++ pad16 ad) (data.take len)]
  rw [hmac]
  have htl : (noiseTag key n ad (data.take len)).length = 16 := leBytes_length 16 _
  have hb5 := b5.block
  have hdl : (data.drop len).length = 16 := by rw [List.length_drop]; omega
  rw [store_ok (by omega), Out.bind_ok, load_ok (by omega), Out.bind_ok,
    C37_is_equal_correct _ _ _ (by rw [List.take_zero, List.nil_append, List.length_append]; omega)
      (by rw [List.length_take]; omega),
    Out.bind_ok, List.take_zero, List.nil_append, List.take_left' htl, List.take_take, Nat.min_self,
    List.take_of_length_le (l := data.drop len) (by omega), Nat.zero_add, htl]
  have hbl : (noiseTag key n ad (data.take len) ++ st5.block.drop 16).length = 64 := by
    rw [List.length_append, List.length_drop]; omega
  have hc5 : st5.chacha = ctx key (leBytes 8 n.toNat) 1 := by rw [c5, c4]; rw [c2, c1]
  by_cases he : data.drop len = noiseTag key n ad (data.take len)
  · simp only [if_pos he, if_pos he.symm]
    rw [if_neg (by decide)]
    obtain ⟨c, hcc⟩ := chachaBytes_eq key (leBytes 8 n.toNat) (data.take len)
    have hctl : (cipher key (leBytes 8 n.toNat) (data.take len)).length = len := by rw [cipher_length, hpl]
    rw [Out.bind_ok, hc5, hcc]
    simp only
    rw [store_ok (by omega), Out.bind_ok, List.take_zero, List.nil_append, Nat.zero_add, hctl]
    exact ⟨_, rfl, ready_ctx c rfl b6 hbl⟩
  · simp only [if_neg he, if_neg (fun e => he (Eq.symm e))]
    rw [if_pos trivial]
    exact ⟨_, rfl, ready_ctx 1 hc5 b6 hbl⟩

theorem openSealed_eq (key nonce ad data : Bytes) (len : Nat) (h : data.length = len + 16) :
    openSealed key nonce ad data = if data.drop len = tag key nonce ad (data.take len) then
      some (Rfc7539.encrypt key 1 nonce (data.take len)) else none := by
  rw [openSealed, if_neg (by omega), show data.length - 16 = len by omega]

/-- **C33**, encryption: the code leaves in the buffer the sealed message of RFC 7539 under the Noise nonce,
in every state that `init_key` and earlier calls can leave behind, and whatever the room for the MAC held. -/
theorem C33_encrypt {key : Bytes} {st : State} (h : Ready key st) (n : UInt64) (ad data : Bytes) (len : Nat)
    (hd : data.length = len + 16) (hl : len < 2 ^ 32) :
    ∃ st', encrypt st n ad data len = .ok (st', sealBytes key (nonce n) ad (data.take len)) ∧ Ready key st' := by
  obtain ⟨st', e, hr⟩ := encrypt_general h n ad data len hd
  rw [cipher_eq _ _ _ (by rw [List.length_take]; omega)] at e
  exact ⟨st', e, hr⟩

/-- **C33**, decryption: the code accepts exactly the messages that RFC 7539 accepts, that is those with the
right tag, and then leaves the plaintext in front of the tag. A rejected message is left alone. -/
theorem C33_decrypt {key : Bytes} {st : State} (h : Ready key st) (n : UInt64) (ad data : Bytes) (len : Nat)
    (hd : data.length = len + 16) (hl : len < 2 ^ 32) :
    ∃ st', decrypt st n ad data len = .ok (match openSealed key (nonce n) ad data with
      | some pt => (.none, st', pt ++ data.drop len)
      | none => (.macFailure, st', data)) ∧ Ready key st' := by
  obtain ⟨st', e, hr⟩ := decrypt_general h n ad data len hd
  refine ⟨st', ?_, hr⟩
  rw [e, openSealed_eq _ _ _ _ len hd, cipher_eq _ _ _ (by rw [List.length_take]; omega)]
  by_cases hc : data.drop len = noiseTag key n ad (data.take len)
  · rw [if_pos hc, if_pos hc]; rfl
  · rw [if_neg hc, if_neg hc]

/-- **C33**, acceptance in terms of the 16 bytes after the ciphertext. -/
theorem C33_accepts {key : Bytes} {st : State} (h : Ready key st) (n : UInt64) (ad data : Bytes) (len : Nat)
    (hd : data.length = len + 16) :
    ∃ e st' out, decrypt st n ad data len = .ok (e, st', out) ∧
      (e = .none ↔ data.drop len = tag key (nonce n) ad (data.take len)) ∧ (e = .none ∨ e = .macFailure) := by
  obtain ⟨st', e, _⟩ := decrypt_general h n ad data len hd
  rw [e]
  by_cases hc : data.drop len = noiseTag key n ad (data.take len)
  · rw [if_pos hc]; exact ⟨_, _, _, rfl, ⟨fun _ => hc, fun _ => rfl⟩, Or.inl rfl⟩
  · rw [if_neg hc]; exact ⟨_, _, _, rfl, ⟨fun e => (by cases e), fun e => absurd e hc⟩, Or.inr rfl⟩

/-! ## Any sequence of calls on one object -/

/-- A call of one of the function pointers of the back end. -/
inductive Op
  | init (key : Bytes)
  | enc (n : UInt64) (ad data : Bytes)
  | dec (n : UInt64) (ad data : Bytes)

/-- The calls allowed: keys of 32 bytes, buffers with room for the tag. -/
def Op.Valid : Op → Prop
  | .init key => key.length = 32
  | .enc _ _ data => 16 ≤ data.length ∧ data.length < 2 ^ 32
  | .dec _ _ data => 16 ≤ data.length ∧ data.length < 2 ^ 32

/-- The calls one after the other on one object: the return codes and buffers. -/
def run (st : State) : List Op → Out (List (Err × Bytes))
  | [] => .ok []
  | .init key :: ops => run (initKey st key) ops
  | .enc n ad data :: ops => do
    let r ← encrypt st n ad data (data.length - 16)
    let rs ← run r.1 ops
    pure ((.none, r.2) :: rs)
  | .dec n ad data :: ops => do
    let r ← decrypt st n ad data (data.length - 16)
    let rs ← run r.2.1 ops
    pure ((r.1, r.2.2) :: rs)

/-- What RFC 7539 says about the same calls. -/
def runSpec (key : Bytes) : List Op → List (Err × Bytes)
  | [] => []
  | .init key :: ops => runSpec key ops
  | .enc n ad data :: ops => (.none, sealBytes key (nonce n) ad (data.take (data.length - 16))) :: runSpec key ops
  | .dec n ad data :: ops =>
    (match openSealed key (nonce n) ad data with
      | some pt => (.none, pt ++ data.drop (data.length - 16))
      | none => (.macFailure, data)) :: runSpec key ops

/-- **C33**: the calls made on one object do not disturb each other. -/
theorem C33_history (st : State) (hp : st.poly.buffer.length = 16) (hb : st.block.length = 64) (key : Bytes)
    (ops : List Op) (hv : ∀ op ∈ ops, op.Valid) : run st (.init key :: ops) = .ok (runSpec key ops) := by
  have main : ∀ (ops : List Op) (key : Bytes) (st : State), Ready key st → (∀ op ∈ ops, op.Valid) →
      run st ops = .ok (runSpec key ops) := by
    intro ops
    induction ops with
    | nil => intro _ _ _ _; rfl
    | cons op ops ih =>
      intro key st hr hv
      have hop := hv op (List.mem_cons_self ..)
      have hrest : ∀ o ∈ ops, o.Valid := fun o ho => hv o (List.mem_cons_of_mem _ ho)
      cases op with
      | init k => exact ih k _ (ready_initKey st k hr.poly hr.block) hrest
      | enc n ad data =>
        obtain ⟨st', e, hr'⟩ := C33_encrypt hr n ad data (data.length - 16) (by have := hop.1; omega)
          (by have := hop.2; omega)
        rw [run, e, Out.bind_ok, ih key st' hr' hrest]; rfl
      | dec n ad data =>
        obtain ⟨st', e, hr'⟩ := C33_decrypt hr n ad data (data.length - 16) (by have := hop.1; omega)
          (by have := hop.2; omega)
        rw [run, e, Out.bind_ok, runSpec]
        cases openSealed key (nonce n) ad data with
        | none => rw [ih key st' hr' hrest]; rfl
        | some pt => rw [ih key st' hr' hrest]; rfl
  exact main ops key _ (ready_initKey st key hp hb) hv

/-! ## The back end satisfies what the protocol layer relies on -/

theorem ready_fresh (k : Bytes) : Ready k (initKey fresh k) := ready_initKey fresh k rfl rfl

theorem backend_enc_def (k : Bytes) (n : UInt64) (ad pt : Bytes) : backend.enc k n ad pt =
    encOut (encrypt (initKey fresh k) n ad (pt ++ List.replicate 16 0) pt.length) := by
  unfold backend
  with_reducible rfl

theorem backend_dec_def (k : Bytes) (n : UInt64) (ad ct : Bytes) : backend.dec k n ad ct =
    decOut ct (decrypt (initKey fresh k) n ad ct (ct.length - 16)) := by
  unfold backend
  with_reducible rfl

theorem backend_enc (k : Bytes) (n : UInt64) (ad pt : Bytes) :
    backend.enc k n ad pt = (.none, cipher k (leBytes 8 n.toNat) pt ++
      noiseTag k n ad (cipher k (leBytes 8 n.toNat) pt)) := by
  obtain ⟨st', e, _⟩ := encrypt_general (ready_fresh k) n ad (pt ++ List.replicate 16 0) pt.length (by simp)
  rw [List.take_left' rfl] at e
  rw [backend_enc_def]
  rw [e, encOut]

theorem backend_dec (k : Bytes) (n : UInt64) (ad ct : Bytes) (h : 16 ≤ ct.length) :
    backend.dec k n ad ct = if ct.drop (ct.length - 16) = noiseTag k n ad (ct.take (ct.length - 16)) then
      (.none, cipher k (leBytes 8 n.toNat) (ct.take (ct.length - 16)) ++ ct.drop (ct.length - 16))
      else (.macFailure, ct) := by
  obtain ⟨st', e, _⟩ := decrypt_general (ready_fresh k) n ad ct (ct.length - 16) (by omega)
  rw [backend_dec_def]
  rw [e]
  by_cases hc : ct.drop (ct.length - 16) = noiseTag k n ad (ct.take (ct.length - 16))
  · rw [if_pos hc, if_pos hc]; rfl
  · rw [if_neg hc, if_neg hc]; rfl

/-- A message too short for a tag is not passed to the back end; the model gives back the message. -/
theorem backend_dec_short (k : Bytes) (n : UInt64) (ad ct : Bytes) (h : ct.length < 16) :
    (backend.dec k n ad ct).2 = ct := by
  rw [backend_dec_def]
  have hu : decrypt (initKey fresh k) n ad ct (ct.length - 16) = .ub := by
    have hl : load ct (ct.length - 16) 16 = .ub := by rw [load, if_neg (by omega)]
    unfold decrypt
    simp only [hl]
    generalize setup (initKey fresh k) n = a
    cases a <;> [skip; rfl]
    rw [Out.bind_ok]
    rename_i st1
    generalize authAd st1 ad = a
    cases a <;> [skip; rfl]
    rw [Out.bind_ok]
    generalize load ct 0 (ct.length - 16) = a
    cases a <;> [skip; rfl]
    rw [Out.bind_ok]
    rename_i st2 m
    generalize Poly1305.update st2.poly m = a
    cases a <;> [skip; rfl]
    rw [Out.bind_ok]
    rename_i p
    generalize padAuth { st2 with poly := p } (ct.length - 16) = a
    cases a <;> [skip; rfl]
    rw [Out.bind_ok]
    rename_i st3
    generalize authLengths st3 _ _ = a
    cases a <;> [skip; rfl]
    rw [Out.bind_ok]
    rename_i st4
    generalize Poly1305.finish st4.poly = a
    cases a <;> [skip; rfl]
    rw [Out.bind_ok]
    rename_i f
    generalize store st4.block 0 f.2 = a
    cases a <;> rfl
  rw [hu]; rfl

/-- **C33**: the reference back end keeps every promise that the proofs about the protocol layer use. -/
theorem C33_lawful : backend.Lawful where
  macLen_le := by decide
  enc_length k n ad pt := by
    rw [backend_enc, List.length_append, cipher_length]
    exact congrArg (pt.length + ·) (leBytes_length 16 _)
  dec_length k n ad ct := by
    by_cases h : 16 ≤ ct.length
    · rw [backend_dec k n ad ct h]
      split
      · rw [List.length_append, cipher_length, ← List.length_append, List.take_append_drop]
      · rfl
    · rw [backend_dec_short k n ad ct (by omega)]
  enc_ok k n ad pt := by rw [backend_enc]
  dec_inert k n ad ct := by
    by_cases h : 16 ≤ ct.length
    · rw [backend_dec k n ad ct h]
      split
      · intro h; exact absurd rfl h
      · intro _; rfl
    · intro _; exact backend_dec_short k n ad ct (by omega)
  dec_enc k n ad pt := by
    have hl : (cipher k (leBytes 8 n.toNat) pt).length = pt.length := cipher_length _ _ _
    have ht : (noiseTag k n ad (cipher k (leBytes 8 n.toNat) pt)).length = 16 := leBytes_length 16 _
    have hs : (cipher k (leBytes 8 n.toNat) pt ++
        noiseTag k n ad (cipher k (leBytes 8 n.toNat) pt)).length - 16 = pt.length := by
      rw [List.length_append]; omega
    rw [backend_enc]
    simp only
    rw [backend_dec _ _ _ _ (by rw [List.length_append]; omega), hs, List.take_left' hl, List.drop_left' hl,
      if_pos rfl, cipher_cipher]
    exact ⟨rfl, List.take_left' rfl⟩

/-- **C33**, for the messages that Noise allows: what the protocol layer gets is the AEAD of RFC 7539. -/
theorem C33_backend (k : Bytes) (n : UInt64) (ad m : Bytes) (hm : m.length ≤ maxPayload) :
    backend.enc k n ad m = (.none, sealBytes k (nonce n) ad m) ∧
    (16 ≤ m.length → backend.dec k n ad m = match openSealed k (nonce n) ad m with
      | some pt => (.none, pt ++ m.drop (m.length - 16))
      | none => (.macFailure, m)) := by
  have hlt : m.length < 2 ^ 32 := by unfold maxPayload at hm; omega
  constructor
  · rw [backend_enc, cipher_eq _ _ _ hlt]; rfl
  · intro h
    rw [backend_dec k n ad m h, openSealed_eq _ _ _ _ (m.length - 16) (by omega),
      cipher_eq _ _ _ (by rw [List.length_take]; omega)]
    by_cases hc : m.drop (m.length - 16) = noiseTag k n ad (m.take (m.length - 16))
    · rw [if_pos hc, if_pos hc]; rfl
    · rw [if_neg hc, if_neg hc]

/-- A call with associated data and a message, and the reverse. -/
example : ∃ out, backend.enc (List.replicate 32 7) 5 [1, 2, 3] [4, 5] = (.none, out) ∧ out.length = 18 ∧
    (backend.dec (List.replicate 32 7) 5 [1, 2, 3] out).1 = .none ∧
    (backend.dec (List.replicate 32 7) 6 [1, 2, 3] out).1 = .macFailure := by
  refine ⟨_, rfl, ?_⟩
  decide +kernel

example : Ready (List.replicate 32 7) (initKey fresh (List.replicate 32 7)) := ready_fresh _

end Noise.ChaChaPoly
