import Verif.AesTableProps
import Verif.AesGcmProps

/-!
C55: the block cipher of the AESGCM back end is AES-256.
-/

namespace Noise.Aes

open Fips197

/-! ## Rounds -/

/-- The state of the code as the 16 bytes of the standard: each word is a column. -/
def Words.bytes (s : Words) : Bytes := putU32 s.a ++ putU32 s.b ++ putU32 s.c ++ putU32 s.d

/-- The words `k` to `k + 3` of the schedule as bytes. -/
def key4 (rk : List UInt32) (k : Nat) : Bytes :=
  putU32 (rd rk k) ++ putU32 (rd rk (k + 1)) ++ putU32 (rd rk (k + 2)) ++ putU32 (rd rk (k + 3))

theorem putU32_def (x : UInt32) : putU32 x = [(x >>> 24).toUInt8, (x >>> 16).toUInt8, (x >>> 8).toUInt8, x.toUInt8] :=
  rfl

theorem shiftRows_list (a b c d e f g h i j k l m n o p : UInt8) :
    shiftRows [a, b, c, d, e, f, g, h, i, j, k, l, m, n, o, p] =
      [a, f, k, p, e, j, o, d, i, n, c, h, m, b, g, l] := rfl

theorem mixColumns_list (a b c d e f g h i j k l m n o p : UInt8) :
    mixColumns [a, b, c, d, e, f, g, h, i, j, k, l, m, n, o, p] =
      [mul a 2 ^^^ mul b 3 ^^^ c ^^^ d, mul b 2 ^^^ mul c 3 ^^^ d ^^^ a, mul c 2 ^^^ mul d 3 ^^^ a ^^^ b,
        mul d 2 ^^^ mul a 3 ^^^ b ^^^ c,
        mul e 2 ^^^ mul f 3 ^^^ g ^^^ h, mul f 2 ^^^ mul g 3 ^^^ h ^^^ e, mul g 2 ^^^ mul h 3 ^^^ e ^^^ f,
        mul h 2 ^^^ mul e 3 ^^^ f ^^^ g,
        mul i 2 ^^^ mul j 3 ^^^ k ^^^ l, mul j 2 ^^^ mul k 3 ^^^ l ^^^ i, mul k 2 ^^^ mul l 3 ^^^ i ^^^ j,
        mul l 2 ^^^ mul i 3 ^^^ j ^^^ k,
        mul m 2 ^^^ mul n 3 ^^^ o ^^^ p, mul n 2 ^^^ mul o 3 ^^^ p ^^^ m, mul o 2 ^^^ mul p 3 ^^^ m ^^^ n,
        mul p 2 ^^^ mul m 3 ^^^ n ^^^ o] := rfl

/-- A column of a full round. -/
theorem column (x y z w k : UInt32) {a b c d : UInt8} (ha : x.toNat = a.toNat) (hb : y.toNat = b.toNat)
    (hc : z.toNat = c.toNat) (hd : w.toNat = d.toNat) :
    putU32 (tab te0 x ^^^ tab te1 y ^^^ tab te2 z ^^^ tab te3 w ^^^ k) = List.zipWith (· ^^^ ·)
      [mul (sbox a) 2 ^^^ mul (sbox b) 3 ^^^ sbox c ^^^ sbox d, mul (sbox b) 2 ^^^ mul (sbox c) 3 ^^^ sbox d ^^^ sbox a,
        mul (sbox c) 2 ^^^ mul (sbox d) 3 ^^^ sbox a ^^^ sbox b, mul (sbox d) 2 ^^^ mul (sbox a) 3 ^^^ sbox b ^^^ sbox c]
      (putU32 k) := by
  rw [putU32_xor, putU32_xor, putU32_xor, putU32_xor, tab0 ha, tab1 hb, tab2 hc, tab3 hd]
  simp only [List.zipWith_cons_cons, List.zipWith_nil_left]
  refine congrArg₂ _ ?_ (congrArg₂ _ ?_ (congrArg₂ _ ?_ (congrArg₂ _ ?_ rfl))) <;> ac_rfl

theorem fullRound_eq (rk : List UInt32) (k : Nat) (s : Words) :
    (fullRound rk k s).bytes = addRoundKey (mixColumns (shiftRows (subBytes s.bytes))) (key4 rk k) := by
  rw [Words.bytes, fullRound]
  simp only
  rw [column _ _ _ _ _ (ix3 s.a) (ix2 s.b) (ix1 s.c) (ix0 s.d), column _ _ _ _ _ (ix3 s.b) (ix2 s.c) (ix1 s.d) (ix0 s.a),
    column _ _ _ _ _ (ix3 s.c) (ix2 s.d) (ix1 s.a) (ix0 s.b), column _ _ _ _ _ (ix3 s.d) (ix2 s.a) (ix1 s.b) (ix0 s.c)]
  rw [Words.bytes, putU32_def s.a, putU32_def s.b, putU32_def s.c, putU32_def s.d]
  simp only [subBytes, List.cons_append, List.nil_append, List.map_cons, List.map_nil]
  rw [shiftRows_list, mixColumns_list, addRoundKey, key4]
  rfl

/-- A column of the last round. -/
theorem lastColumn (x y z w k : UInt32) {a b c d : UInt8} (ha : x.toNat = a.toNat) (hb : y.toNat = b.toNat)
    (hc : z.toNat = c.toNat) (hd : w.toNat = d.toNat) :
    putU32 ((tab te4 x &&& (0xff000000 : UInt32)) ^^^ (tab te4 y &&& (0x00ff0000 : UInt32)) ^^^ (tab te4 z &&& (0x0000ff00 : UInt32)) ^^^
      (tab te4 w &&& (0x000000ff : UInt32)) ^^^ k) = List.zipWith (· ^^^ ·) [sbox a, sbox b, sbox c, sbox d] (putU32 k) := by
  rw [putU32_xor, putU32_xor, putU32_xor, putU32_xor, putU32_and, putU32_and, putU32_and, putU32_and, tab4 ha, tab4 hb,
    tab4 hc, tab4 hd, mask0, mask1, mask2, mask3]
  simp only [List.zipWith_cons_cons, List.zipWith_nil_left, and_255, UInt8.and_zero, UInt8.zero_xor, UInt8.xor_zero]

theorem lastRound_eq (rk : List UInt32) (k : Nat) (s : Words) :
    lastRound rk k s = addRoundKey (shiftRows (subBytes s.bytes)) (key4 rk k) := by
  rw [lastRound]
  rw [lastColumn _ _ _ _ _ (ix3 s.a) (ix2 s.b) (ix1 s.c) (ix0 s.d),
    lastColumn _ _ _ _ _ (ix3 s.b) (ix2 s.c) (ix1 s.d) (ix0 s.a),
    lastColumn _ _ _ _ _ (ix3 s.c) (ix2 s.d) (ix1 s.a) (ix0 s.b),
    lastColumn _ _ _ _ _ (ix3 s.d) (ix2 s.a) (ix1 s.b) (ix0 s.c)]
  rw [Words.bytes, putU32_def s.a, putU32_def s.b, putU32_def s.c, putU32_def s.d]
  simp only [subBytes, List.cons_append, List.nil_append, List.map_cons, List.map_nil]
  rw [shiftRows_list, addRoundKey, key4]
  rfl

/-! ## The key schedule -/

/-- The schedule of the code as words of the standard. -/
def words (rk : List UInt32) : List Bytes := rk.map putU32

theorem words_getD (rk : List UInt32) (i : Nat) (h : i < rk.length) : (words rk).getD i [] = putU32 (rd rk i) := by
  simp [words, rd, List.getD, h]

theorem rd_append_left (rk l : List UInt32) (i : Nat) (h : i < rk.length) : rd (rk ++ l) i = rd rk i := by
  simp [rd, List.getD, List.getElem?_append_left h]

theorem rd_append_right (rk l : List UInt32) (i n : Nat) (h : rk.length + n = i) : rd (rk ++ l) i = rd l n := by
  subst h; simp [rd, List.getD, List.getElem?_append_right]

/-- One word of the standard's expansion, when the code computes the next word by this rule. -/
theorem nextWord_plain (rk : List UInt32) (w : UInt32) (h8 : 8 ≤ rk.length) (h0 : rk.length % 8 ≠ 0)
    (h4 : rk.length % 8 ≠ 4) (hw : w = rd rk (rk.length - 8) ^^^ rd rk (rk.length - 1)) :
    nextWord (words rk) = words (rk ++ [w]) := by
  have hl : (words rk).length = rk.length := List.length_map ..
  rw [nextWord, hl]
  rw [if_neg (show ¬rk.length % Nk = 0 from h0), if_neg (show ¬rk.length % Nk = 4 from h4),
    show rk.length - Nk = rk.length - 8 from rfl, words_getD _ _ (by omega), words_getD _ _ (by omega), hw, ← putU32_xor]
  simp [words]

theorem nextWord_rot (rk : List UInt32) (w g : UInt32) (h8 : 8 ≤ rk.length) (h0 : rk.length % 8 = 0)
    (hw : w = rd rk (rk.length - 8) ^^^ g) (hg : putU32 g = List.zipWith (· ^^^ ·)
      (subWord (rotWord (putU32 (rd rk (rk.length - 1))))) (Fips197.rcon (rk.length / 8))) :
    nextWord (words rk) = words (rk ++ [w]) := by
  have hl : (words rk).length = rk.length := List.length_map ..
  rw [nextWord, hl]
  rw [if_pos (show rk.length % Nk = 0 from h0), show rk.length - Nk = rk.length - 8 from rfl,
    show rk.length / Nk = rk.length / 8 from rfl, words_getD _ _ (by omega), words_getD _ _ (by omega), hw, ← hg, ← putU32_xor]
  simp [words]

theorem nextWord_sub (rk : List UInt32) (w g : UInt32) (h8 : 8 ≤ rk.length) (h4 : rk.length % 8 = 4)
    (hw : w = rd rk (rk.length - 8) ^^^ g) (hg : putU32 g = subWord (putU32 (rd rk (rk.length - 1)))) :
    nextWord (words rk) = words (rk ++ [w]) := by
  have hl : (words rk).length = rk.length := List.length_map ..
  rw [nextWord, hl]
  rw [if_neg (show ¬rk.length % Nk = 0 by rw [Nk]; omega), if_pos (show rk.length % Nk = 4 from h4),
    show rk.length - Nk = rk.length - 8 from rfl, words_getD _ _ (by omega), words_getD _ _ (by omega), hw, ← hg, ← putU32_xor]
  simp [words]

theorem setupA_length (rk : List UInt32) (b i : Nat) : (setupA rk b i).length = rk.length + 4 := by
  simp [setupA]

theorem setupB_length (rk : List UInt32) (b : Nat) : (setupB rk b).length = rk.length + 4 := by
  simp [setupB]

/-- `SubWord(RotWord(temp)) ^ Rcon` as the code computes it. -/
theorem rotSub (temp r : UInt32) {c : Bytes} (hc : putU32 r = c) :
    putU32 ((tab te4 ((temp >>> 16) &&& (0xff : UInt32)) &&& (0xff000000 : UInt32)) ^^^
      (tab te4 ((temp >>> 8) &&& (0xff : UInt32)) &&& (0x00ff0000 : UInt32)) ^^^ (tab te4 (temp &&& (0xff : UInt32)) &&& (0x0000ff00 : UInt32)) ^^^
      (tab te4 (temp >>> 24) &&& (0x000000ff : UInt32)) ^^^ r) =
    List.zipWith (· ^^^ ·) (subWord (rotWord (putU32 temp))) c := by
  rw [lastColumn _ _ _ _ _ (ix2 temp) (ix1 temp) (ix0 temp) (ix3 temp), hc]
  rfl

/-- `SubWord(temp)` as the code computes it. -/
theorem plainSub (temp : UInt32) :
    putU32 ((tab te4 (temp >>> 24) &&& (0xff000000 : UInt32)) ^^^ (tab te4 ((temp >>> 16) &&& (0xff : UInt32)) &&& (0x00ff0000 : UInt32)) ^^^
      (tab te4 ((temp >>> 8) &&& (0xff : UInt32)) &&& (0x0000ff00 : UInt32)) ^^^ (tab te4 (temp &&& (0xff : UInt32)) &&& (0x000000ff : UInt32))) =
    subWord (putU32 temp) := by
  have h := lastColumn _ _ _ _ 0 (ix3 temp) (ix2 temp) (ix1 temp) (ix0 temp)
  rw [UInt32.xor_zero] at h
  rw [h, putU32_def temp]
  simp [subWord, putU32]

theorem extend_add (m n : Nat) (w : List Bytes) : extend (m + n) w = extend n (extend m w) := by
  induction m generalizing w with
  | zero => rw [Nat.zero_add]; rfl
  | succ m ih => rw [show m + 1 + n = (m + n) + 1 by omega, extend, ih]; rfl

/-- Three plain words after the first of a half turn. -/
theorem three (rk : List UInt32) (b : Nat) (w0 : UInt32) (hb : rk.length = b + 8) (h4 : b % 4 = 0) :
    extend 3 (words (rk ++ [w0])) = words (rk ++ [w0, rd rk (b + 1) ^^^ w0, rd rk (b + 2) ^^^ (rd rk (b + 1) ^^^ w0),
      rd rk (b + 3) ^^^ (rd rk (b + 2) ^^^ (rd rk (b + 1) ^^^ w0))]) := by
  have key : ∀ (l : List UInt32) (x y : UInt32) (n : Nat), 1 ≤ n → n ≤ 3 → l.length = n - 1 → y = rd rk (b + n) ^^^ x →
      nextWord (words (rk ++ (l ++ [x]))) = words (rk ++ (l ++ [x] ++ [y])) := by
    intro l x y n h1 h3 hl hy
    have hlen : (rk ++ (l ++ [x])).length = b + 8 + n := by simp; omega
    rw [nextWord_plain (rk ++ (l ++ [x])) y (by omega) (by omega) (by omega), List.append_assoc]
    rw [hlen, show b + 8 + n - 8 = b + n by omega, show b + 8 + n - 1 = rk.length + l.length by omega,
      rd_append_left _ _ _ (by omega), rd_append_right _ _ _ _ rfl, rd_append_right l [x] l.length 0 rfl, hy]
    rfl
  have k1 := key [] w0 _ 1 (by omega) (by omega) rfl rfl
  have k2 := key [w0] _ _ 2 (by omega) (by omega) rfl (Eq.refl (rd rk (b + 2) ^^^ (rd rk (b + 1) ^^^ w0)))
  have k3 := key [w0, rd rk (b + 1) ^^^ w0] _ _ 3 (by omega) (by omega) rfl
    (Eq.refl (rd rk (b + 3) ^^^ (rd rk (b + 2) ^^^ (rd rk (b + 1) ^^^ w0))))
  simp only [List.nil_append, List.cons_append] at k1 k2 k3
  rw [extend, k1, extend, k2, extend, k3, extend]

theorem setupA_eq (rk : List UInt32) (b i : Nat) (hb : rk.length = b + 8) (hi : b = 8 * i) (hi' : i < 10) :
    words (setupA rk b i) = extend 4 (words rk) := by
  have hr := rcon_eq ⟨i, hi'⟩
  have h1 := nextWord_rot rk _ _ (by omega) (by omega) rfl
    (rotSub (rd rk (rk.length - 1)) (rd rcon i) (by rw [hr, hb, show (b + 8) / 8 = i + 1 by omega]))
  rw [show extend 4 (words rk) = extend 3 (nextWord (words rk)) from rfl, h1, three rk b _ hb (by omega), setupA]
  rw [hb, show b + 8 - 1 = b + 7 by omega, show b + 8 - 8 = b by omega]
  simp only [UInt32.xor_assoc]

theorem setupB_eq (rk : List UInt32) (b : Nat) (hb : rk.length = b + 12) (hi : b % 8 = 0) :
    words (setupB rk b) = extend 4 (words rk) := by
  have h1 := nextWord_sub rk _ _ (by omega) (by omega) rfl (plainSub (rd rk (rk.length - 1)))
  rw [show extend 4 (words rk) = extend 3 (nextWord (words rk)) from rfl, h1, three rk (b + 4) _ (by omega) (by omega), setupB]
  rw [hb, show b + 12 - 1 = b + 11 by omega, show b + 12 - 8 = b + 4 by omega]
  simp only [UInt32.xor_assoc, Nat.add_assoc, Nat.reduceAdd]

theorem setupLoop_eq (n : Nat) (rk : List UInt32) (b i : Nat) (hb : rk.length = b + 8) (hi : b = 8 * i)
    (hi' : i + n < 10) : words (setupLoop n rk b i) = extend (8 * n + 4) (words rk) ∧
      (setupLoop n rk b i).length = rk.length + 8 * n + 4 := by
  induction n generalizing rk b i with
  | zero => exact ⟨setupA_eq rk b i hb hi (by omega), setupA_length ..⟩
  | succ n ih =>
    have h1 := setupA_eq rk b i hb hi (by omega)
    have h2 := setupB_eq (setupA rk b i) b (by rw [setupA_length]; omega) (by omega)
    have hl : (setupB (setupA rk b i) b).length = rk.length + 8 := by rw [setupB_length, setupA_length]
    obtain ⟨h3, h4⟩ := ih (setupB (setupA rk b i) b) (b + 8) (i + 1) (by omega) (by omega) (by omega)
    refine ⟨?_, ?_⟩
    · rw [setupLoop, h3, h2, h1, ← extend_add, ← extend_add]
      congr 1
      omega
    · rw [setupLoop, h4, hl]; omega

/-- **C55**, the array: the schedule takes exactly the 60 words that the state of the back end has room for. -/
theorem C55_keySetup_length (key : Bytes) : (keySetup key).length = 60 :=
  (setupLoop_eq 6 _ 0 0 rfl rfl (by omega)).2

theorem words_key (key : Bytes) (hk : key.length = 32) : words [getU32 key 0, getU32 key 4, getU32 key 8, getU32 key 12,
    getU32 key 16, getU32 key 20, getU32 key 24, getU32 key 28] = keyWords key := by
  have h : ∀ i, i + 4 ≤ 32 → putU32 (getU32 key i) = (key.drop i).take 4 := by
    intro i hi
    rw [putU32_getU32]
    apply List.ext_getElem
    · simp; omega
    · intro j h1 h2
      simp only [List.length_cons, List.length_nil] at h1
      have : j = 0 ∨ j = 1 ∨ j = 2 ∨ j = 3 := by omega
      have e0 := List.getElem?_eq_getElem (l := key) (show i < key.length by omega)
      have e1 := List.getElem?_eq_getElem (l := key) (show i + 1 < key.length by omega)
      have e2 := List.getElem?_eq_getElem (l := key) (show i + 2 < key.length by omega)
      have e3 := List.getElem?_eq_getElem (l := key) (show i + 3 < key.length by omega)
      rcases this with rfl | rfl | rfl | rfl <;> simp [List.getD, e0, e1, e2, e3]
  simp only [words, List.map_cons, List.map_nil]
  rw [h 0 (by omega), h 4 (by omega), h 8 (by omega), h 12 (by omega), h 16 (by omega), h 20 (by omega), h 24 (by omega),
    h 28 (by omega)]
  rfl

/-- **C55**, the key schedule. -/
theorem C55_keySetup (key : Bytes) (hk : key.length = 32) : words (keySetup key) = keyExpansion key := by
  rw [keySetup, (setupLoop_eq 6 _ 0 0 rfl rfl (by omega)).1, words_key key hk]
  rfl

/-! ## Encryption -/

theorem roundKey_eq (rk : List UInt32) (r : Nat) (h : 4 * r + 4 ≤ rk.length) :
    roundKey (words rk) r = key4 rk (4 * r) := by
  have : ((words rk).drop (4 * r)).take 4 = [putU32 (rd rk (4 * r)), putU32 (rd rk (4 * r + 1)),
      putU32 (rd rk (4 * r + 2)), putU32 (rd rk (4 * r + 3))] := by
    have hl : (words rk).length = rk.length := List.length_map ..
    apply List.ext_getElem
    · simp; omega
    · intro j h1 h2
      simp only [List.length_cons, List.length_nil] at h2
      have hg : ∀ k, (hk : k < rk.length) → rd rk k = rk[k] := by intro k hk; simp [rd, List.getD, hk]
      have : j = 0 ∨ j = 1 ∨ j = 2 ∨ j = 3 := by omega
      rcases this with rfl | rfl | rfl | rfl <;> simp [words, hg _ (show 4 * r < rk.length by omega),
        hg _ (show 4 * r + 1 < rk.length by omega), hg _ (show 4 * r + 2 < rk.length by omega),
        hg _ (show 4 * r + 3 < rk.length by omega)]
  rw [roundKey, this, key4]
  simp

theorem fullRound_round (rk : List UInt32) (r : Nat) (s : Words) (h : 4 * r + 4 ≤ rk.length) :
    (fullRound rk (4 * r) s).bytes = round (words rk) s.bytes r := by
  rw [fullRound_eq, round, roundKey_eq _ _ h]

theorem encLoop_eq (rk : List UInt32) (n r : Nat) (s : Words) (h : 4 * (2 * r + 2 * n + 1) + 4 ≤ rk.length) :
    (encLoop rk n (8 * r) s).bytes = rounds (words rk) (2 * r + 1) (2 * n + 1) s.bytes := by
  induction n generalizing r s with
  | zero =>
    rw [encLoop, show 8 * r + 4 = 4 * (2 * r + 1) by omega, fullRound_round _ _ _ (by omega)]
    rfl
  | succ n ih =>
    rw [encLoop, show 8 * r + 8 = 8 * (r + 1) by omega, ih (r + 1) _ (by omega),
      show 8 * (r + 1) = 4 * (2 * r + 1 + 1) by omega, fullRound_round _ _ _ (by omega),
      show 8 * r + 4 = 4 * (2 * r + 1) by omega, fullRound_round _ _ _ (by omega),
      show 2 * (r + 1) + 1 = 2 * r + 1 + 1 + 1 by omega]
    rfl

theorem input_bytes (pt : Bytes) (hp : pt.length = 16) :
    putU32 (getU32 pt 0) ++ putU32 (getU32 pt 4) ++ putU32 (getU32 pt 8) ++ putU32 (getU32 pt 12) = pt := by
  match pt, hp with
  | [a, b, c, d, e, f, g, h, i, j, k, l, m, n, o, p], _ =>
    rw [putU32_getU32, putU32_getU32, putU32_getU32, putU32_getU32]
    rfl

theorem encrypt_eq (rk : List UInt32) (pt : Bytes) (hr : rk.length = 60) (hp : pt.length = 16) :
    encrypt rk pt = cipher (words rk) pt := by
  have hs : Words.bytes ⟨getU32 pt 0 ^^^ rd rk 0, getU32 pt 4 ^^^ rd rk 1, getU32 pt 8 ^^^ rd rk 2, getU32 pt 12 ^^^ rd rk 3⟩
      = addRoundKey pt (roundKey (words rk) 0) := by
    rw [roundKey_eq _ _ (by omega), Words.bytes]
    dsimp only
    rw [putU32_xor, putU32_xor, putU32_xor, putU32_xor]
    conv_rhs => rw [← input_bytes pt hp]
    rfl
  have hl := encLoop_eq rk 6 0 ⟨getU32 pt 0 ^^^ rd rk 0, getU32 pt 4 ^^^ rd rk 1, getU32 pt 8 ^^^ rd rk 2,
    getU32 pt 12 ^^^ rd rk 3⟩ (by omega)
  rw [hs] at hl
  rw [encrypt, lastRound_eq, show 56 = 4 * 14 from rfl, ← roundKey_eq _ _ (by omega)]
  rw [show 8 * 0 = 0 from rfl] at hl
  rw [hl]
  rfl

/-- **C55**: the block cipher of the AESGCM back end is AES-256, for every key and every block. -/
theorem C55_aes256 (key pt : Bytes) (hk : key.length = 32) (hp : pt.length = 16) :
    encrypt (keySetup key) pt = aes256 key pt := by
  rw [encrypt_eq _ _ (C55_keySetup_length key) hp, C55_keySetup key hk]
  rfl

theorem encrypt_length (rk : List UInt32) (pt : Bytes) : (encrypt rk pt).length = 16 := rfl

theorem sized : blockCipher.Sized := encrypt_length

/-! ## The AESGCM back end with this block cipher -/

/-- The reference AESGCM cipher of the library: this block cipher and the GHASH of one of the four builds. -/
def aesgcm (I : Ghash.Impl) : CipherBackend := AesGcm.backend blockCipher I

theorem ciph_eq (key : Bytes) (hk : key.length = 32) (b : Bytes) (hb : b.length = 16) :
    AesGcm.ciph blockCipher key b = aes256 key b := C55_aes256 key b hk hb

theorem ctrBlock_length (icb : Bytes) (h : icb.length = 16) (n : Nat) : (Sp80038D.ctrBlock icb n).length = 16 := by
  induction n with
  | zero => exact h
  | succ n ih =>
    rw [Sp80038D.ctrBlock, Sp80038D.inc32, List.length_append, BigEndian.beBytes_length, List.length_take]
    omega

theorem gctr_congr {f g : Bytes → Bytes} (j : Bytes) (hj : j.length = 16) (m : Bytes)
    (h : ∀ b : Bytes, b.length = 16 → f b = g b) : Sp80038D.gctr f j m = Sp80038D.gctr g j m := by
  unfold Sp80038D.gctr
  congr 1
  funext i b
  rw [h _ (ctrBlock_length j hj _)]

theorem J0_length (n : UInt64) : (Sp80038D.J0 (AesGcm.iv n)).length = 16 := by
  rw [Sp80038D.J0, List.length_append, AesGcm.iv_length]; rfl

theorem sealBytes_congr {f g : Bytes → Bytes} (n : UInt64) (ad m : Bytes) (h : ∀ b : Bytes, b.length = 16 → f b = g b) :
    Sp80038D.sealBytes f (AesGcm.iv n) ad m = Sp80038D.sealBytes g (AesGcm.iv n) ad m := by
  have hi : (Sp80038D.inc32 (Sp80038D.J0 (AesGcm.iv n))).length = 16 := ctrBlock_length _ (J0_length n) 1
  unfold Sp80038D.sealBytes Sp80038D.tag Sp80038D.crypt
  rw [gctr_congr _ hi m h, h _ List.length_replicate, gctr_congr _ (J0_length n) _ h]

theorem openSealed_congr {f g : Bytes → Bytes} (n : UInt64) (ad m : Bytes) (h : ∀ b : Bytes, b.length = 16 → f b = g b) :
    Sp80038D.openSealed f (AesGcm.iv n) ad m = Sp80038D.openSealed g (AesGcm.iv n) ad m := by
  have hi : (Sp80038D.inc32 (Sp80038D.J0 (AesGcm.iv n))).length = 16 := ctrBlock_length _ (J0_length n) 1
  unfold Sp80038D.openSealed Sp80038D.tag Sp80038D.crypt
  rw [gctr_congr _ hi _ h, h _ List.length_replicate, gctr_congr _ (J0_length n) _ h]

/-- **C55**: with AES and GHASH in place, the reference AESGCM back end is AES-256 in Galois/Counter Mode, for every key,
nonce, associated data and every message that Noise allows, for both word sizes and byte orders of the GHASH code. -/
theorem C55_aesgcm {I : Ghash.Impl} (hI : I.Correct) (k : Bytes) (hk : k.length = 32) (n : UInt64) (ad m : Bytes)
    (hm : m.length ≤ maxPayload) :
    (aesgcm I).enc k n ad m = (.none, Sp80038D.sealBytes (aes256 k) (AesGcm.iv n) ad m) ∧
    (16 ≤ m.length → (aesgcm I).dec k n ad m = match Sp80038D.openSealed (aes256 k) (AesGcm.iv n) ad m with
      | some pt => (.none, pt ++ m.drop (m.length - 16))
      | none => (.macFailure, m)) := by
  have h := AesGcm.C35_backend hI sized k n ad m hm
  rw [sealBytes_congr n ad m (ciph_eq k hk), openSealed_congr n ad m (ciph_eq k hk)] at h
  exact h

/-- **C55**: the reference AESGCM back end keeps the promises that the protocol layer relies on. -/
theorem C55_lawful {I : Ghash.Impl} (hI : I.Correct) : (aesgcm I).Lawful := AesGcm.C35_lawful hI sized

/-! ## Concrete cases -/

/-- Appendix C.3 of FIPS 197, on the model of the code. -/
example : encrypt (keySetup [0, 1, 2, 3, 4, 5, 6, 7, 8, 9, 10, 11, 12, 13, 14, 15, 16, 17, 18, 19, 20, 21, 22, 23, 24, 25,
    26, 27, 28, 29, 30, 31]) [0x00, 0x11, 0x22, 0x33, 0x44, 0x55, 0x66, 0x77, 0x88, 0x99, 0xaa, 0xbb, 0xcc, 0xdd, 0xee,
    0xff] = [0x8e, 0xa2, 0xb7, 0xca, 0x51, 0x67, 0x45, 0xbf, 0xea, 0xfc, 0x49, 0x90, 0x4b, 0x49, 0x60, 0x89] := by
  decide +kernel

/-- Test case 14 of the GCM submission, on the model of the back end: a key of zeros, nonce 0 and a block of zeros. -/
example : (aesgcm (Ghash.word64 false)).enc (List.replicate 32 0) 0 [] (List.replicate 16 0) =
    (.none, [0xce, 0xa7, 0x40, 0x3d, 0x4d, 0x60, 0x6b, 0x6e, 0x07, 0x4e, 0xc5, 0xd3, 0xba, 0xf3, 0x9d, 0x18,
      0xd0, 0xd1, 0xc8, 0xa7, 0x99, 0x99, 0x6b, 0xf0, 0x26, 0x5b, 0x98, 0xb5, 0xd4, 0x8a, 0xb9, 0x19]) := by
  decide +kernel

end Noise.Aes
