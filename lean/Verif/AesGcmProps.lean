import Verif.AesGcm
import Verif.GhashProps
import Verif.UtilProps
import Verif.CipherProps
/-!
# The AESGCM back end is the authenticated encryption of SP 800-38D

For every block cipher and both variants of GHASH.
-/

namespace Noise.AesGcm

open Fips180 (beNat beBytes)
open Sp80038D (ghash xorBytes gctr ctrBlock inc32 J0 tag sealBytes openSealed)
open BigEndian (beBytes_length)

/-- A block cipher gives blocks of 16 bytes. -/
def BlockCipher.Sized (B : BlockCipher) : Prop := ∀ rk b, (B.enc rk b).length = 16

/-- The initialization vector of the Noise specification for AESGCM: 32 bits of zeros and the big-endian number. -/
def iv (n : UInt64) : Bytes := [0, 0, 0, 0] ++ beBytes 8 n.toNat

/-- The block cipher under a key. -/
def ciph (B : BlockCipher) (key : Bytes) (b : Bytes) : Bytes := B.enc (B.setup key) b

theorem ciph_length {B : BlockCipher} (hB : B.Sized) (key b : Bytes) : (ciph B key b).length = 16 := hB _ _

theorem iv_length (n : UInt64) : (iv n).length = 12 := by rw [iv, List.length_append, beBytes_length]; rfl

theorem putUint64_eq (v : UInt64) : putUint64 v = beBytes 8 v.toNat := BigEndian.write64 v

/-! ## The counter -/

theorem beBytes2 (c : Nat) : beBytes 2 c = [UInt8.ofNat (c / 256 % 256), UInt8.ofNat (c % 256)] := rfl

theorem bump_eq (p : Bytes) (c : Nat) (hp : p.length = 14) : bump (p ++ beBytes 2 c) = .ok (p ++ beBytes 2 (c + 1)) := by
  have h14 : (p ++ beBytes 2 c).getD 14 0 = UInt8.ofNat (c / 256 % 256) := by
    rw [List.getD_eq_getElem?_getD, List.getElem?_append_right (by omega), hp, beBytes2]; rfl
  have h15 : (p ++ beBytes 2 c).getD 15 0 = UInt8.ofNat (c % 256) := by
    rw [List.getD_eq_getElem?_getD, List.getElem?_append_right (by omega), hp, beBytes2]; rfl
  have hc : (((UInt8.ofNat (c % 256)).toUInt16 ||| ((UInt8.ofNat (c / 256 % 256)).toUInt16 <<< 8)) + 1).toNat =
      (c + 1) % 65536 := by
    rw [UInt16.toNat_add, UInt16.toNat_or, UInt16.toNat_shiftLeft, UInt8.toNat_toUInt16, UInt8.toNat_toUInt16,
      UInt8.toNat_ofNat', UInt8.toNat_ofNat', show (8 : UInt16).toNat % 16 = 8 from rfl, Nat.shiftLeft_eq,
      show (1 : UInt16).toNat = 1 from rfl, Nat.or_comm,
      BigEndian.or_add 8 _ _ (by omega) (by omega)]
    omega
  unfold bump
  rw [h14, h15]
  generalize ((UInt8.ofNat (c % 256)).toUInt16 ||| ((UInt8.ofNat (c / 256 % 256)).toUInt16 <<< 8)) + 1 = x at hc
  have hl : x.toUInt8 = UInt8.ofNat ((c + 1) % 256) := by
    apply UInt8.toNat_inj.mp
    rw [UInt16.toNat_toUInt8, hc, UInt8.toNat_ofNat']; omega
  have hh : (x >>> 8).toUInt8 = UInt8.ofNat ((c + 1) / 256 % 256) := by
    apply UInt8.toNat_inj.mp
    rw [UInt16.toNat_toUInt8, UInt16.toNat_shiftRight, hc, UInt8.toNat_ofNat', show (8 : UInt16).toNat % 16 = 8 from rfl,
      Nat.shiftRight_eq_div_pow]
    omega
  simp only [hl, hh]
  have s1 : ∀ a b y : UInt8, store (p ++ [a, b]) 15 [y] = .ok (p ++ [a, y]) := by
    intro a b y
    rw [store_ok (by simp [hp])]
    refine congrArg Out.ok ?_
    rw [List.take_append, List.drop_append, hp, List.take_of_length_le (by omega), List.drop_of_length_le (by simp; omega)]
    simp
  have s2 : ∀ a b y : UInt8, store (p ++ [a, b]) 14 [y] = .ok (p ++ [y, b]) := by
    intro a b y
    rw [store_ok (by simp [hp])]
    refine congrArg Out.ok ?_
    rw [List.take_append, List.drop_append, hp, List.take_of_length_le (by omega), List.drop_of_length_le (by simp; omega)]
    simp
  rw [beBytes2, s1, Out.bind_ok, s2, beBytes2]

/-- The bytes `d` exclusive or the key stream that starts after counter `c`. -/
def stream (f : Bytes → Bytes) (p : Bytes) (c : Nat) (d : Bytes) : Bytes :=
  d.mapIdx fun i b => b ^^^ (f (p ++ beBytes 2 (c + 1 + i / 16))).getD (i % 16) 0

theorem stream_length (f : Bytes → Bytes) (p : Bytes) (c : Nat) (d : Bytes) : (stream f p c d).length = d.length := by
  simp [stream]

theorem stream_stream (f : Bytes → Bytes) (p : Bytes) (c : Nat) (d : Bytes) :
    stream f p c (stream f p c d) = d := by
  apply List.ext_getElem
  · simp [stream]
  · intro i h1 h2
    simp only [stream, List.getElem_mapIdx]
    rw [UInt8.xor_assoc, UInt8.xor_self, UInt8.xor_zero]

theorem stream_step (f : Bytes → Bytes) (p : Bytes) (c : Nat) (d : Bytes) (t : Nat) (ht : t ≤ 16)
    (h : t = 16 ∨ t = d.length) (hf : (f (p ++ beBytes 2 (c + 1))).length = 16) :
    List.zipWith (· ^^^ ·) (d.take t) (f (p ++ beBytes 2 (c + 1))) ++ stream f p (c + 1) (d.drop t) = stream f p c d := by
  apply List.ext_getElem
  · simp [stream, hf]; omega
  · intro i h1 h2
    have hi : i < d.length := by simpa [stream] using h2
    rw [List.getElem_append]
    split
    · rename_i hc
      simp [hf] at hc
      simp only [List.getElem_zipWith, stream, List.getElem_mapIdx, List.getElem_take]
      rw [show c + 1 + i / 16 = c + 1 by omega, show i % 16 = i by omega, List.getD_eq_getElem?_getD,
        List.getElem?_eq_getElem (by omega), Option.getD_some]
    · rename_i hc
      simp [hf] at hc
      have ht : t = 16 := by omega
      subst ht
      simp only [stream, List.getElem_mapIdx, List.getElem_drop, List.length_zipWith, List.length_take, hf]
      have e : min (min 16 d.length) 16 = 16 := by omega
      simp only [e]
      rw [show (i - 16) % 16 = i % 16 by omega, show c + 1 + 1 + (i - 16) / 16 = c + 1 + i / 16 by omega]
      congr 2
      omega

theorem cryptLoop_eq {B : BlockCipher} (hB : B.Sized) (aes : B.Rk) (n : Nat) (p : Bytes) (c : Nat) (d : Bytes)
    (hp : p.length = 14) (hn : d.length ≤ n) :
    ∃ c', cryptLoop aes n (p ++ beBytes 2 c) d = .ok (p ++ beBytes 2 c', stream (B.enc aes) p c d) := by
  induction n generalizing c d with
  | zero =>
    have : d = [] := List.eq_nil_of_length_eq_zero (by omega)
    subst this
    exact ⟨c, rfl⟩
  | succ n ih =>
    cases d with
    | nil => exact ⟨c, rfl⟩
    | cons x d =>
      rw [cryptLoop, bump_eq p c hp, Out.bind_ok]
      simp only
      generalize ht : (if 16 > (x :: d).length then (x :: d).length else 16) = t
      have htc : t ≤ 16 ∧ (t = 16 ∨ t = (x :: d).length) ∧ 1 ≤ t ∧ t ≤ (x :: d).length := by
        have : 1 ≤ (x :: d).length := by simp
        split at ht <;> omega
      obtain ⟨c', e⟩ := ih (c + 1) ((x :: d).drop t) (by rw [List.length_drop]; omega)
      rw [e, Out.bind_ok]
      exact ⟨c', congrArg Out.ok (Prod.ext rfl (stream_step (B.enc aes) p c (x :: d) t htc.1 htc.2.1 (hB _ _)))⟩

/-- The first 14 bytes of the counter block. -/
def pre (n : UInt64) : Bytes := iv n ++ [0, 0]

theorem pre_length (n : UInt64) : (pre n).length = 14 := by rw [pre, List.length_append, iv_length]; rfl

/-- The data encrypted or decrypted with a counter of 16 bits. -/
def cipher (f : Bytes → Bytes) (n : UInt64) (d : Bytes) : Bytes := stream f (pre n) 1 d

theorem beBytes4_small (c : Nat) (h : c < 65536) : beBytes 4 c = [0, 0] ++ beBytes 2 c := by
  rw [show 4 = 2 + 2 from rfl, BigEndian.beBytes_append, show c / 256 ^ 2 = 0 from Nat.div_eq_of_lt h]
  rfl

theorem inc32_eq (p : Bytes) (c : Nat) (hp : p.length = 12) (h : c < 2 ^ 32) :
    inc32 (p ++ beBytes 4 c) = p ++ beBytes 4 (c + 1) := by
  rw [inc32, List.take_left' hp, List.drop_left' hp, Ghash.beNat_beBytes, Nat.mod_eq_of_lt (a := c) (by omega)]
  rw [show (2 : Nat) ^ 32 = 256 ^ 4 from rfl, BigEndian.beBytes_mod]

theorem ctrBlock_eq (p : Bytes) (hp : p.length = 12) (c j : Nat) (h : c + j < 2 ^ 32) :
    ctrBlock (p ++ beBytes 4 c) j = p ++ beBytes 4 (c + j) := by
  induction j with
  | zero => rfl
  | succ j ih => rw [ctrBlock, ih (by omega), inc32_eq _ _ hp (by omega)]; rfl

theorem J0_eq (p : Bytes) : J0 p = p ++ beBytes 4 1 := rfl

/-- For the lengths that do not exhaust the 16 bits, this is the encryption of SP 800-38D. -/
theorem cipher_eq (f : Bytes → Bytes) (n : UInt64) (d : Bytes) (h : d.length ≤ 16 * 65534) :
    cipher f n d = Sp80038D.crypt f (iv n) d := by
  rw [cipher, stream, Sp80038D.crypt, gctr, J0_eq, inc32_eq _ _ (iv_length n) (by omega)]
  apply List.ext_getElem
  · simp
  · intro i h1 h2
    have hi : i < d.length := by simpa using h1
    simp only [List.getElem_mapIdx]
    have e : iv n ++ beBytes 4 (1 + 1 + i / 16) = pre n ++ beBytes 2 (1 + 1 + i / 16) := by
      rw [beBytes4_small (1 + 1 + i / 16) (by omega), pre, List.append_assoc]
    rw [ctrBlock_eq _ (iv_length n) _ _ (by omega), e]

/-! ## Inside a call -/

variable {B : BlockCipher} {I : Ghash.Impl}

/-- The hash key. -/
def hkey (B : BlockCipher) (key : Bytes) : Bytes := ciph B key (List.replicate 16 0)

/-- The object after `init_key` and any number of calls. -/
structure Ready (key : Bytes) (st : State B I) : Prop where
  aes : st.aes = B.setup key
  H : st.ghash.H = I.mulInit (hkey B key)

theorem ready_initKey (st : State B I) (key : Bytes) : Ready key (initKey st key) := ⟨rfl, rfl⟩

/-- The state inside a call, after `m` has been hashed. -/
structure Busy (key : Bytes) (n : UInt64) (m : Bytes) (st : State B I) : Prop where
  aes : st.aes = B.setup key
  ghash : Ghash.Absorbed (hkey B key) m st.ghash
  counter : ∃ c, st.counter = pre n ++ beBytes 2 c

theorem Busy.ready {key m : Bytes} {n : UInt64} {st : State B I} (h : Busy key n m st) : Ready key st :=
  ⟨h.aes, h.ghash.H⟩

theorem setupIv_spec {key : Bytes} {st : State B I} (h : Ready key st) (n : UInt64) :
    Busy key n [] (setupIv st n) ∧ (setupIv st n).counter = pre n ++ beBytes 2 1 ∧
      (setupIv st n).hash = ciph B key (J0 (iv n)) := by
  have hc : (setupIv st n).counter = J0 (iv n) := by
    simp only [setupIv, putUint64_eq]
    rfl
  have hj : J0 (iv n) = pre n ++ beBytes 2 1 := by
    rw [J0_eq, beBytes4_small _ (by omega), pre, List.append_assoc]
  refine ⟨⟨h.aes, Ghash.reset_none_absorbed h.H, 1, by rw [hc, hj]⟩, by rw [hc, hj], ?_⟩
  have : (setupIv st n).hash = B.enc st.aes (setupIv st n).counter := rfl
  rw [this, hc, h.aes]
  rfl

theorem update_spec (hI : I.Correct) (hB : B.Sized) {key m : Bytes} {n : UInt64} {st : State B I}
    (h : Busy key n m st) (d : Bytes) :
    ∃ gh, Ghash.update st.ghash d = .ok gh ∧ Busy key n (m ++ d) { st with ghash := gh } := by
  obtain ⟨gh, e, hg⟩ := Ghash.update_absorbed hI h.ghash (hB _ _) d
  exact ⟨gh, e, h.aes, hg, h.counter⟩

theorem authAd_spec (hI : I.Correct) (hB : B.Sized) {key : Bytes} {n : UInt64} {st : State B I}
    (h : Busy key n [] st) (ad : Bytes) :
    ∃ gh, authAd st ad = .ok { st with ghash := gh } ∧ Busy key n (ad ++ Sp80038D.pad ad) { st with ghash := gh } := by
  unfold authAd
  by_cases hd : ad.length = 0
  · rw [if_neg (by simpa using hd)]
    have : ad = [] := List.eq_nil_of_length_eq_zero hd
    subst this
    exact ⟨st.ghash, rfl, h⟩
  · rw [if_pos hd]
    obtain ⟨gh, e, hb⟩ := update_spec hI hB h ad
    rw [e, Out.bind_ok]
    rw [List.nil_append] at hb
    exact ⟨_, rfl, h.aes, Ghash.pad_absorbed hI hb.ghash (hB _ _), h.counter⟩

theorem crypt_spec (hB : B.Sized) {key m : Bytes} {n : UInt64} {st : State B I} (h : Busy key n m st)
    (hc : st.counter = pre n ++ beBytes 2 1) (d : Bytes) :
    ∃ c, crypt st d = .ok ({ st with counter := pre n ++ beBytes 2 c }, cipher (ciph B key) n d) := by
  obtain ⟨c, e⟩ := cryptLoop_eq hB st.aes d.length (pre n) 1 d (pre_length n) (Nat.le_refl _)
  refine ⟨c, ?_⟩
  unfold crypt
  rw [hc, e, Out.bind_ok, h.aes]
  rfl

theorem len8 (x : Nat) : beBytes 8 (UInt64.ofNat x * 8).toNat = beBytes 8 (8 * x) := by
  rw [UInt64.toNat_mul, UInt64.toNat_ofNat', show (8 : UInt64).toNat = 8 from rfl]
  rw [← BigEndian.beBytes_mod 8 (8 * x), show (2 : Nat) ^ 64 = 256 ^ 8 from rfl]
  congr 1
  omega

theorem gctr_block (f : Bytes → Bytes) (J X : Bytes) (hX : X.length = 16) (hf : (f J).length = 16) :
    gctr f J X = List.zipWith (· ^^^ ·) (f J) X := by
  apply List.ext_getElem
  · simp [gctr, hX, hf]
  · intro i h1 h2
    have hi : i < 16 := by simpa [gctr, hX] using h1
    simp only [gctr, List.getElem_mapIdx, List.getElem_zipWith]
    rw [show i / 16 = 0 by omega, show i % 16 = i by omega, ctrBlock, List.getD_eq_getElem?_getD,
      List.getElem?_eq_getElem (by omega), Option.getD_some, UInt8.xor_comm]

/-- The tag of SP 800-38D for the Noise nonce. -/
abbrev noiseTag (B : BlockCipher) (key : Bytes) (n : UInt64) (ad ct : Bytes) : Bytes := tag (ciph B key) (iv n) ad ct

theorem pad_after (a d : Bytes) (h : a.length % 16 = 0) : Sp80038D.pad (a ++ d) = Sp80038D.pad d := by
  unfold Sp80038D.pad
  rw [List.length_append]
  congr 2
  omega

theorem noiseTag_length (hB : B.Sized) (key : Bytes) (n : UInt64) (ad ct : Bytes) : (noiseTag B key n ad ct).length = 16 := by
  unfold noiseTag tag gctr
  rw [List.length_mapIdx, Ghash.ghash_length _ _ (ciph_length hB _ _)]

theorem finalizeHash_spec (hI : I.Correct) (hB : B.Sized) {key : Bytes} {n : UInt64} {st : State B I} (ad ct : Bytes)
    (h : Busy key n (ad ++ Sp80038D.pad ad ++ ct) st) (hh : st.hash = ciph B key (J0 (iv n))) :
    ∃ gh, finalizeHash st (UInt64.ofNat ad.length) (UInt64.ofNat ct.length) =
        .ok ({ st with ghash := gh }, noiseTag B key n ad ct) ∧ gh.H = I.mulInit (hkey B key) := by
  have hp := Ghash.pad_absorbed hI h.ghash (hB _ _)
  rw [pad_after _ _ (Ghash.pad_aligned ad)] at hp
  obtain ⟨gh, e, hg⟩ := Ghash.update_absorbed hI hp (hB _ _) (beBytes 8 (8 * ad.length) ++ beBytes 8 (8 * ct.length))
  have hal : (ad ++ Sp80038D.pad ad ++ ct ++ Sp80038D.pad ct ++ (beBytes 8 (8 * ad.length) ++
      beBytes 8 (8 * ct.length))).length % 16 = 0 := by
    have h1 := Ghash.pad_aligned ad
    have h2 := Ghash.pad_aligned ct
    simp only [List.length_append, beBytes_length] at h1 h2 ⊢
    omega
  have hY := hg.aligned (hB _ _) hal
  refine ⟨gh, ?_, hg.H⟩
  unfold finalizeHash
  rw [putUint64_eq, putUint64_eq, len8, len8, e, Out.bind_ok, hY, hh]
  refine congrArg Out.ok (Prod.ext rfl ?_)
  simp only
  unfold noiseTag tag
  rw [gctr_block _ _ _ (Ghash.ghash_length _ _ (ciph_length hB _ _)) (ciph_length hB _ _)]
  rw [← List.append_assoc]
  rfl

/-! ## The two functions -/

theorem encrypt_general (hI : I.Correct) (hB : B.Sized) {key : Bytes} {st : State B I} (h : Ready key st) (n : UInt64)
    (ad data : Bytes) (len : Nat) (hd : data.length = len + 16) :
    ∃ st', encrypt st n ad data len = .ok (st', cipher (ciph B key) n (data.take len) ++
        noiseTag B key n ad (cipher (ciph B key) n (data.take len))) ∧ Ready key st' := by
  obtain ⟨b1, c1, h1⟩ := setupIv_spec h n
  obtain ⟨g2, e2, b2⟩ := authAd_spec hI hB b1 ad
  have hpl : (data.take len).length = len := by rw [List.length_take]; omega
  obtain ⟨c, hcc⟩ := crypt_spec hB b2 c1 (data.take len)
  generalize hct : cipher (ciph B key) n (data.take len) = ct at *
  have hctl : ct.length = len := by rw [← hct, cipher, stream_length, hpl]
  unfold encrypt
  simp only
  rw [e2, Out.bind_ok, load_ok (by omega), Out.bind_ok, List.drop_zero, hcc, Out.bind_ok]
  simp only
  rw [store_ok (by omega), Out.bind_ok, List.take_zero, List.nil_append, Nat.zero_add, hctl,
    load_ok (by rw [List.length_append, List.length_drop]; omega), Out.bind_ok, List.drop_zero,
    List.take_left' hctl]
  obtain ⟨g3, e3, b3⟩ := update_spec hI hB b2 ct
  have e3' : Ghash.update g2 ct = .ok g3 := e3
  rw [e3', Out.bind_ok]
  have b3' : Busy key n (ad ++ Sp80038D.pad ad ++ ct)
      ({ aes := (setupIv st n).aes, ghash := g3, counter := pre n ++ beBytes 2 c, hash := (setupIv st n).hash } : State B I) :=
    ⟨b3.aes, b3.ghash, c, rfl⟩
  obtain ⟨g4, e4, h4⟩ := finalizeHash_spec hI hB ad ct b3' h1
  rw [hctl] at e4
  rw [e4, Out.bind_ok]
  simp only
  have htl := noiseTag_length hB key n ad ct
  rw [store_ok (by rw [List.length_append, List.length_drop]; omega), Out.bind_ok, List.take_left' hctl,
    List.drop_of_length_le (by rw [List.length_append, List.length_drop]; omega), List.append_nil]
  exact ⟨_, rfl, b3.aes, h4⟩

theorem decrypt_general (hI : I.Correct) (hB : B.Sized) {key : Bytes} {st : State B I} (h : Ready key st) (n : UInt64)
    (ad data : Bytes) (len : Nat) (hd : data.length = len + 16) :
    ∃ st', decrypt st n ad data len = .ok (if data.drop len = noiseTag B key n ad (data.take len) then
        (.none, st', cipher (ciph B key) n (data.take len) ++ data.drop len)
      else (.macFailure, st', data)) ∧ Ready key st' := by
  obtain ⟨b1, c1, h1⟩ := setupIv_spec h n
  obtain ⟨g2, e2, b2⟩ := authAd_spec hI hB b1 ad
  have hpl : (data.take len).length = len := by rw [List.length_take]; omega
  unfold decrypt
  simp only
  rw [e2, Out.bind_ok, load_ok (by omega), Out.bind_ok, List.drop_zero]
  obtain ⟨g3, e3, b3⟩ := update_spec hI hB b2 (data.take len)
  simp only at e3 ⊢
  rw [e3, Out.bind_ok]
  obtain ⟨g4, e4, h4⟩ := finalizeHash_spec hI hB ad (data.take len) b3 h1
  simp only at e4
  rw [hpl] at e4
  rw [e4, Out.bind_ok]
  simp only
  have htl := noiseTag_length hB key n ad (data.take len)
  have hdl : (data.drop len).length = 16 := by rw [List.length_drop]; omega
  rw [load_ok (by omega), Out.bind_ok, List.take_of_length_le (l := data.drop len) (by omega),
    C37_is_equal_correct _ _ _ (by omega) (by omega), Out.bind_ok, List.take_of_length_le (l := data.drop len) (by omega),
    List.take_of_length_le (l := noiseTag B key n ad (data.take len)) (by omega)]
  by_cases he : data.drop len = noiseTag B key n ad (data.take len)
  · simp only [if_pos he]
    rw [if_neg (by decide), Out.bind_ok]
    have b6 : ∃ c, crypt (⟨(setupIv st n).aes, g4, (setupIv st n).counter,
        noiseTag B key n ad (data.take len)⟩ : State B I) (data.take len) =
        .ok (⟨(setupIv st n).aes, g4, pre n ++ beBytes 2 c, noiseTag B key n ad (data.take len)⟩,
          cipher (ciph B key) n (data.take len)) := by
      obtain ⟨c, e⟩ := cryptLoop_eq hB (setupIv st n).aes (data.take len).length (pre n) 1 (data.take len) (pre_length n)
        (Nat.le_refl _)
      refine ⟨c, ?_⟩
      unfold crypt
      simp only
      rw [c1, e, Out.bind_ok, b3.aes]
      rfl
    obtain ⟨c, hcc⟩ := b6
    rw [hcc, Out.bind_ok]
    have hctl : (cipher (ciph B key) n (data.take len)).length = len := by rw [cipher, stream_length, hpl]
    simp only
    rw [store_ok (by omega), Out.bind_ok, List.take_zero, List.nil_append, Nat.zero_add, hctl]
    exact ⟨_, rfl, b3.aes, h4⟩
  · simp only [if_neg he]
    rw [if_pos trivial]
    exact ⟨_, rfl, b3.aes, h4⟩

theorem openSealed_eq (f : Bytes → Bytes) (nonce ad data : Bytes) (len : Nat) (h : data.length = len + 16) :
    openSealed f nonce ad data = if data.drop len = tag f nonce ad (data.take len) then
      some (Sp80038D.crypt f nonce (data.take len)) else none := by
  rw [openSealed, if_neg (by omega), show data.length - 16 = len by omega]

/-- **C35**, encryption: the code leaves in the buffer the sealed message of SP 800-38D under the Noise nonce, in
every state that `init_key` and earlier calls can leave behind, and whatever the room for the MAC held. The bound is
where the 16-bit counter would come round again; Noise messages are far shorter. -/
theorem C35_encrypt (hI : I.Correct) (hB : B.Sized) {key : Bytes} {st : State B I} (h : Ready key st) (n : UInt64)
    (ad data : Bytes) (len : Nat) (hd : data.length = len + 16) (hl : len ≤ 16 * 65534) :
    ∃ st', encrypt st n ad data len = .ok (st', sealBytes (ciph B key) (iv n) ad (data.take len)) ∧ Ready key st' := by
  obtain ⟨st', e, hr⟩ := encrypt_general hI hB h n ad data len hd
  rw [cipher_eq _ _ _ (by rw [List.length_take]; omega)] at e
  exact ⟨st', e, hr⟩

/-- **C35**, decryption: the code accepts exactly the messages that SP 800-38D accepts, that is those with the right
tag, and then leaves the plaintext in front of the tag. A rejected message is left alone. -/
theorem C35_decrypt (hI : I.Correct) (hB : B.Sized) {key : Bytes} {st : State B I} (h : Ready key st) (n : UInt64)
    (ad data : Bytes) (len : Nat) (hd : data.length = len + 16) (hl : len ≤ 16 * 65534) :
    ∃ st', decrypt st n ad data len = .ok (match openSealed (ciph B key) (iv n) ad data with
      | some pt => (.none, st', pt ++ data.drop len)
      | none => (.macFailure, st', data)) ∧ Ready key st' := by
  obtain ⟨st', e, hr⟩ := decrypt_general hI hB h n ad data len hd
  refine ⟨st', ?_, hr⟩
  rw [e, openSealed_eq _ _ _ _ len hd, cipher_eq _ _ _ (by rw [List.length_take]; omega)]
  by_cases hc : data.drop len = noiseTag B key n ad (data.take len)
  · rw [if_pos hc, if_pos hc]
  · rw [if_neg hc, if_neg hc]

/-- **C35**, acceptance in terms of the 16 bytes after the ciphertext. -/
theorem C35_accepts (hI : I.Correct) (hB : B.Sized) {key : Bytes} {st : State B I} (h : Ready key st) (n : UInt64)
    (ad data : Bytes) (len : Nat) (hd : data.length = len + 16) :
    ∃ e st' out, decrypt st n ad data len = .ok (e, st', out) ∧
      (e = .none ↔ data.drop len = tag (ciph B key) (iv n) ad (data.take len)) ∧ (e = .none ∨ e = .macFailure) := by
  obtain ⟨st', e, _⟩ := decrypt_general hI hB h n ad data len hd
  rw [e]
  by_cases hc : data.drop len = noiseTag B key n ad (data.take len)
  · rw [if_pos hc]; exact ⟨_, _, _, rfl, ⟨fun _ => hc, fun _ => rfl⟩, Or.inl rfl⟩
  · rw [if_neg hc]; exact ⟨_, _, _, rfl, ⟨fun e => (by cases e), fun e => absurd e hc⟩, Or.inr rfl⟩

/-- **C35**, the counter: no two blocks of a message, nor a block and the mask of the tag, are encrypted with the same
counter block, for every message shorter than the period of the 16-bit counter. The mask of the tag uses counter 1. -/
theorem C35_counters_distinct (n : UInt64) (len i j : Nat) (hl : len ≤ 16 * 65534) (hi : 16 * i < len) (hj : 16 * j < len) :
    (pre n ++ beBytes 2 (1 + 1 + i) = pre n ++ beBytes 2 (1 + 1 + j) → i = j) ∧
      pre n ++ beBytes 2 (1 + 1 + i) ≠ J0 (iv n) := by
  have key : ∀ a b, a < 65536 → b < 65536 → pre n ++ beBytes 2 a = pre n ++ beBytes 2 b → a = b := by
    intro a b ha hb e
    have := congrArg beNat (List.append_cancel_left e)
    rw [Ghash.beNat_beBytes, Ghash.beNat_beBytes] at this
    omega
  constructor
  · intro e
    have := key _ _ (by omega) (by omega) e
    omega
  · intro e
    have hj : J0 (iv n) = pre n ++ beBytes 2 1 := by
      rw [J0_eq, beBytes4_small _ (by omega), pre, List.append_assoc]
    rw [hj] at e
    have := key _ _ (by omega) (by omega) e
    omega

/-! ## Any sequence of calls on one object -/

/-- A call of one of the function pointers of the back end. -/
inductive Op
  | init (key : Bytes)
  | enc (n : UInt64) (ad data : Bytes)
  | dec (n : UInt64) (ad data : Bytes)

/-- The calls allowed: buffers with room for the tag, and not longer than the counter permits. -/
def Op.Valid : Op → Prop
  | .init _ => True
  | .enc _ _ data => 16 ≤ data.length ∧ data.length ≤ 16 * 65535
  | .dec _ _ data => 16 ≤ data.length ∧ data.length ≤ 16 * 65535

/-- The calls one after the other on one object: the return codes and buffers. -/
def run (st : State B I) : List Op → Out (List (Err × Bytes))
  | [] => .ok []
  | .init key :: ops => run (initKey st key) ops
  | .enc n ad data :: ops => do
    let r ← encrypt st n ad data (data.length - 16)
    let rs ← run r.1 ops
    pure ((.none, r.2) :: rs)
  | .dec n ad data :: ops => do
    let r ← decrypt st n ad data (data.length - 16)
    let rs ← run r.2.1 ops
    pure ((r.1, r.2.2) :: rs)

/-- What SP 800-38D says about the same calls. -/
def runSpec (B : BlockCipher) (key : Bytes) : List Op → List (Err × Bytes)
  | [] => []
  | .init key :: ops => runSpec B key ops
  | .enc n ad data :: ops =>
    (.none, sealBytes (ciph B key) (iv n) ad (data.take (data.length - 16))) :: runSpec B key ops
  | .dec n ad data :: ops =>
    (match openSealed (ciph B key) (iv n) ad data with
      | some pt => (.none, pt ++ data.drop (data.length - 16))
      | none => (.macFailure, data)) :: runSpec B key ops

/-- **C35**: the calls made on one object do not disturb each other. -/
theorem C35_history (hI : I.Correct) (hB : B.Sized) (st : State B I) (key : Bytes) (ops : List Op)
    (hv : ∀ op ∈ ops, op.Valid) : run st (.init key :: ops) = .ok (runSpec B key ops) := by
  have main : ∀ (ops : List Op) (key : Bytes) (st : State B I), Ready key st → (∀ op ∈ ops, op.Valid) →
      run st ops = .ok (runSpec B key ops) := by
    intro ops
    induction ops with
    | nil => intro _ _ _ _; rfl
    | cons op ops ih =>
      intro key st hr hv
      have hop := hv op (List.mem_cons_self ..)
      have hrest : ∀ o ∈ ops, o.Valid := fun o ho => hv o (List.mem_cons_of_mem _ ho)
      cases op with
      | init k => exact ih k _ (ready_initKey st k) hrest
      | enc n ad data =>
        obtain ⟨st', e, hr'⟩ := C35_encrypt hI hB hr n ad data (data.length - 16) (by have := hop.1; omega)
          (by have := hop.2; omega)
        rw [run, e, Out.bind_ok, ih key st' hr' hrest]; rfl
      | dec n ad data =>
        obtain ⟨st', e, hr'⟩ := C35_decrypt hI hB hr n ad data (data.length - 16) (by have := hop.1; omega)
          (by have := hop.2; omega)
        rw [run, e, Out.bind_ok, runSpec]
        cases openSealed (ciph B key) (iv n) ad data with
        | none => rw [ih key st' hr' hrest]; rfl
        | some pt => rw [ih key st' hr' hrest]; rfl
  exact main ops key _ (ready_initKey st key) hv

/-! ## The back end satisfies what the protocol layer relies on -/

theorem backend_enc_def (k : Bytes) (n : UInt64) (ad pt : Bytes) : (backend B I).enc k n ad pt =
    encOut (encrypt (initKey (fresh B I) k) n ad (pt ++ List.replicate 16 0) pt.length) := by
  unfold backend
  with_reducible rfl

theorem backend_dec_def (k : Bytes) (n : UInt64) (ad ct : Bytes) : (backend B I).dec k n ad ct =
    decOut ct (decrypt (initKey (fresh B I) k) n ad ct (ct.length - 16)) := by
  unfold backend
  with_reducible rfl

theorem backend_enc (hI : I.Correct) (hB : B.Sized) (k : Bytes) (n : UInt64) (ad pt : Bytes) :
    (backend B I).enc k n ad pt = (.none, cipher (ciph B k) n pt ++ noiseTag B k n ad (cipher (ciph B k) n pt)) := by
  obtain ⟨st', e, _⟩ := encrypt_general hI hB (ready_initKey (fresh B I) k) n ad (pt ++ List.replicate 16 0) pt.length
    (by simp)
  rw [List.take_left' rfl] at e
  rw [backend_enc_def]
  rw [e, encOut]

theorem backend_dec (hI : I.Correct) (hB : B.Sized) (k : Bytes) (n : UInt64) (ad ct : Bytes) (h : 16 ≤ ct.length) :
    (backend B I).dec k n ad ct = if ct.drop (ct.length - 16) = noiseTag B k n ad (ct.take (ct.length - 16)) then
      (.none, cipher (ciph B k) n (ct.take (ct.length - 16)) ++ ct.drop (ct.length - 16))
      else (.macFailure, ct) := by
  obtain ⟨st', e, _⟩ := decrypt_general hI hB (ready_initKey (fresh B I) k) n ad ct (ct.length - 16) (by omega)
  rw [backend_dec_def]
  rw [e]
  by_cases hc : ct.drop (ct.length - 16) = noiseTag B k n ad (ct.take (ct.length - 16))
  · rw [if_pos hc, if_pos hc]; rfl
  · rw [if_neg hc, if_neg hc]; rfl

/-- A message too short for a tag is not passed to the back end; the model gives back the message. -/
theorem backend_dec_short (k : Bytes) (n : UInt64) (ad ct : Bytes) (h : ct.length < 16) :
    ((backend B I).dec k n ad ct).2 = ct := by
  rw [backend_dec_def]
  have hu : decrypt (initKey (fresh B I) k) n ad ct (ct.length - 16) = .ub := by
    have hl : load ct (ct.length - 16) 16 = .ub := by rw [load, if_neg (by omega)]
    unfold decrypt
    simp only [hl]
    generalize setupIv (initKey (fresh B I) k) n = st0
    generalize authAd st0 ad = a
    cases a <;> [skip; rfl]
    rw [Out.bind_ok]
    generalize load ct 0 (ct.length - 16) = a
    cases a <;> [skip; rfl]
    rw [Out.bind_ok]
    rename_i st2 m
    generalize Ghash.update st2.ghash m = a
    cases a <;> [skip; rfl]
    rw [Out.bind_ok]
    rename_i gh
    generalize finalizeHash { st2 with ghash := gh } _ _ = a
    cases a <;> rfl
  rw [hu]; rfl

/-- **C35**: the reference back end keeps every promise that the proofs about the protocol layer use. -/
theorem C35_lawful (hI : I.Correct) (hB : B.Sized) : (backend B I).Lawful where
  macLen_le := by show 16 ≤ maxPayload; decide
  enc_length k n ad pt := by
    rw [backend_enc hI hB, List.length_append, cipher, stream_length, noiseTag_length hB]
    rfl
  dec_length k n ad ct := by
    by_cases h : 16 ≤ ct.length
    · rw [backend_dec hI hB k n ad ct h]
      split
      · rw [List.length_append, cipher, stream_length, ← List.length_append, List.take_append_drop]
      · rfl
    · rw [backend_dec_short k n ad ct (by omega)]
  enc_ok k n ad pt := by rw [backend_enc hI hB]
  dec_inert k n ad ct := by
    by_cases h : 16 ≤ ct.length
    · rw [backend_dec hI hB k n ad ct h]
      split
      · intro h; exact absurd rfl h
      · intro _; rfl
    · intro _; exact backend_dec_short k n ad ct (by omega)
  dec_enc k n ad pt := by
    have hl : (cipher (ciph B k) n pt).length = pt.length := stream_length _ _ _ _
    have ht := noiseTag_length hB k n ad (cipher (ciph B k) n pt)
    have hs : (cipher (ciph B k) n pt ++ noiseTag B k n ad (cipher (ciph B k) n pt)).length - 16 = pt.length := by
      rw [List.length_append]; omega
    rw [backend_enc hI hB]
    simp only
    rw [backend_dec hI hB _ _ _ _ (by rw [List.length_append]; omega), hs, List.take_left' hl, List.drop_left' hl,
      if_pos rfl, cipher, cipher, stream_stream]
    exact ⟨rfl, List.take_left' rfl⟩

/-- **C35**, for the messages that Noise allows: what the protocol layer gets is the GCM of SP 800-38D. -/
theorem C35_backend (hI : I.Correct) (hB : B.Sized) (k : Bytes) (n : UInt64) (ad m : Bytes) (hm : m.length ≤ maxPayload) :
    (backend B I).enc k n ad m = (.none, sealBytes (ciph B k) (iv n) ad m) ∧
    (16 ≤ m.length → (backend B I).dec k n ad m = match openSealed (ciph B k) (iv n) ad m with
      | some pt => (.none, pt ++ m.drop (m.length - 16))
      | none => (.macFailure, m)) := by
  have hlt : m.length ≤ 65535 := hm
  constructor
  · rw [backend_enc hI hB, cipher_eq _ _ _ (by omega)]; rfl
  · intro h
    rw [backend_dec hI hB k n ad m h, openSealed_eq _ _ _ _ (m.length - 16) (by omega),
      cipher_eq _ _ _ (by rw [List.length_take]; omega)]
    by_cases hc : m.drop (m.length - 16) = noiseTag B k n ad (m.take (m.length - 16))
    · rw [if_pos hc, if_pos hc]
    · rw [if_neg hc, if_neg hc]

end Noise.AesGcm
