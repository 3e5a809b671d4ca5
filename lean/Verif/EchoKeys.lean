import Verif.Echo
import Verif.Poly1305Props
/-!
# The echo example: keys in files (C81)
-/

namespace Noise.Echo

open Poly1305 (or_eq_add)

/-! ## Private keys -/

theorem privateLoop_eq (file key : Bytes) (posn : Nat) (hp : posn ≤ key.length) :
    ∃ r, privateLoop key.length file key posn = .ok r ∧ r.2.length = key.length ∧
      (r.1 = true ↔ posn + file.length = key.length) ∧ (r.1 = true → r.2 = key.take posn ++ file) := by
  induction file generalizing key posn with
  | nil =>
    refine ⟨(!decide (posn < key.length), key), rfl, rfl, ?_, ?_⟩
    · simp; omega
    · intro h
      have : ¬posn < key.length := by simpa using h
      rw [List.take_of_length_le (by omega), List.append_nil]
  | cons c file ih =>
    rw [privateLoop]
    by_cases h : posn ≥ key.length
    · rw [if_pos h]
      exact ⟨(false, key), rfl, rfl, by simp; omega, nofun⟩
    · rw [if_neg h, store_ok (by simp; omega), Out.bind_ok]
      have hl : (key.take posn ++ [c] ++ key.drop (posn + [c].length)).length = key.length := by simp; omega
      obtain ⟨r, e, l, i, v⟩ := ih (key.take posn ++ [c] ++ key.drop (posn + [c].length)) (posn + 1) (by omega)
      rw [hl] at e l i
      refine ⟨r, e, l, ?_, ?_⟩
      · rw [i, List.length_cons]; omega
      · intro h1
        rw [v h1, List.take_left' (by simp; omega)]
        simp

/-- **C81**: a private key is loaded exactly when the file has its length, which is at most 2048, and is then the contents
of the file. -/
theorem C81_private (file : Option Bytes) (key : Bytes) :
    ∃ r, loadPrivateKey file key key.length = .ok r ∧ r.2.length = key.length ∧
      (r.1 = true ↔ key.length ≤ 2048 ∧ ∃ f, file = some f ∧ f.length = key.length) ∧ (r.1 = true → file = some r.2) := by
  unfold loadPrivateKey
  by_cases h : key.length > 2048
  · rw [if_pos h]
    exact ⟨(false, key), rfl, rfl, by simp; omega, nofun⟩
  rw [if_neg h]
  cases file with
  | none => exact ⟨(false, key), rfl, rfl, by simp, nofun⟩
  | some f =>
    obtain ⟨r, e, l, i, v⟩ := privateLoop_eq f key 0 (by omega)
    refine ⟨r, e, l, ?_, ?_⟩
    · rw [i]; simp; omega
    · intro h1
      rw [v h1]; simp

example : loadPrivateKey (some [1, 2, 3]) [0, 0, 0] 3 = .ok (true, [1, 2, 3]) ∧
    (loadPrivateKey (some [1, 2, 3, 10]) [0, 0, 0] 3) = .ok (false, [1, 2, 3]) := by decide +kernel

/-! ## Public keys -/

/-- The alphabet of RFC 4648, section 4. -/
def alphabet : Bytes := ascii "ABCDEFGHIJKLMNOPQRSTUVWXYZabcdefghijklmnopqrstuvwxyz0123456789+/"

/-- A character of the encoding. -/
def b64 (d : Nat) : UInt8 := alphabet.getD d 0

/-- The encoding of RFC 4648, section 4, with padding. -/
def encode : Bytes → Bytes
  | [] => []
  | [a] => [b64 (a.toNat / 4), b64 (a.toNat % 4 * 16), 61, 61]
  | [a, b] => [b64 (a.toNat / 4), b64 (a.toNat % 4 * 16 + b.toNat / 16), b64 (b.toNat % 16 * 4), 61]
  | a :: b :: c :: r => b64 (a.toNat / 4) :: b64 (a.toNat % 4 * 16 + b.toNat / 16) ::
      b64 (b.toNat % 16 * 4 + c.toNat / 64) :: b64 (c.toNat % 64) :: encode r

theorem classify_b64 (d : Nat) (h : d < 64) : classify (b64 d) = .digit (UInt32.ofNat d) := by
  have : ∀ d : Fin 64, classify (b64 d.1) = .digit (UInt32.ofNat d.1) := by decide +kernel
  exact this ⟨d, h⟩

theorem shift_in (g : UInt32) (d : Nat) (h : d < 64) :
    ((g <<< 6) ||| UInt32.ofNat d).toNat = g.toNat * 64 % 2 ^ 32 + d := by
  have hd : (UInt32.ofNat d).toNat = d := by rw [UInt32.toNat_ofNat']; omega
  have hs : (g <<< 6).toNat = g.toNat * 64 % 2 ^ 32 := by
    rw [UInt32.toNat_shiftLeft]
    show g.toNat <<< 6 % 2 ^ 32 = _
    rw [Nat.shiftLeft_eq]
  rw [UInt32.toNat_or, hd, hs, Nat.or_comm, or_eq_add 6 (by omega) (by omega), Nat.add_comm]

theorem byte_at (g : UInt32) (k : Nat) (hk : k < 32) (x : UInt8) (h : g.toNat / 2 ^ k % 256 = x.toNat) :
    (g >>> UInt32.ofNat k).toUInt8 = x := by
  apply UInt8.toNat_inj.1
  rw [UInt32.toNat_toUInt8, UInt32.toNat_shiftRight, UInt32.toNat_ofNat', Nat.mod_eq_of_lt (a := k) (by omega),
    Nat.mod_eq_of_lt (a := k) (by omega), Nat.shiftRight_eq_div_pow]
  exact h

theorem addDigit_inner (len : Nat) (s : Dec) (h : s.groupSize < 3) :
    addDigit len s = .ok (some { s with group := (s.group <<< 6) ||| s.digit, groupSize := s.groupSize + 1 }) := by
  unfold addDigit
  dsimp only
  rw [if_neg (by omega)]
  rfl

theorem loop_digit (len d : Nat) (hd : d < 64) (file : Bytes) (s : Dec) (h : s.groupSize < 3) :
    publicLoop len (b64 d :: file) s = publicLoop len file
      { s with digit := UInt32.ofNat d, group := (s.group <<< 6) ||| UInt32.ofNat d, groupSize := s.groupSize + 1 } := by
  rw [publicLoop, classify_b64 d hd]
  dsimp only
  rw [addDigit_inner len { s with digit := UInt32.ofNat d } h]
  rfl

theorem sizeSub_eq {a b : Nat} (h : b ≤ a) : sizeSub a b = a - b := by unfold sizeSub; rw [if_pos h]

/-- Four characters give three bytes. -/
theorem loop_group (len : Nat) (a b c : UInt8) (file : Bytes) (s : Dec) (hs : s.groupSize = 0) (hk : s.key.length = len)
    (hp : s.posn + 3 ≤ len) :
    ∃ g d, publicLoop len (b64 (a.toNat / 4) :: b64 (a.toNat % 4 * 16 + b.toNat / 16) ::
        b64 (b.toNat % 16 * 4 + c.toNat / 64) :: b64 (c.toNat % 64) :: file) s =
      publicLoop len file ⟨g, 0, d, s.posn + 3, s.key.take s.posn ++ [a, b, c] ++ s.key.drop (s.posn + 3)⟩ := by
  have ha := a.toNat_lt
  have hb := b.toNat_lt
  have hc := c.toNat_lt
  rw [loop_digit _ _ (by omega) _ _ (by omega), loop_digit _ _ (by omega) _ _ (by dsimp only; omega),
    loop_digit _ _ (by omega) _ _ (by dsimp only; omega), publicLoop, classify_b64 _ (by omega)]
  dsimp only
  have g1 := shift_in s.group (a.toNat / 4) (by omega)
  generalize (s.group <<< 6) ||| UInt32.ofNat (a.toNat / 4) = G1 at *
  have g2 := shift_in G1 (a.toNat % 4 * 16 + b.toNat / 16) (by omega)
  generalize (G1 <<< 6) ||| UInt32.ofNat (a.toNat % 4 * 16 + b.toNat / 16) = G2 at *
  have g3 := shift_in G2 (b.toNat % 16 * 4 + c.toNat / 64) (by omega)
  generalize (G2 <<< 6) ||| UInt32.ofNat (b.toNat % 16 * 4 + c.toNat / 64) = G3 at *
  unfold addDigit
  dsimp only
  have g4 := shift_in G3 (c.toNat % 64) (by omega)
  generalize (G3 <<< 6) ||| UInt32.ofNat (c.toNat % 64) = G4 at *
  have b0 : (G4 >>> 16).toUInt8 = a := byte_at G4 16 (by omega) a (by omega)
  have b1 : (G4 >>> 8).toUInt8 = b := byte_at G4 8 (by omega) b (by omega)
  have b2 : G4.toUInt8 = c := by
    apply UInt8.toNat_inj.1
    rw [UInt32.toNat_toUInt8]; omega
  rw [if_pos (by omega), if_neg (by rw [sizeSub_eq (by omega)]; omega), b0, b1, b2, store_ok (by simp; omega)]
  exact ⟨_, _, rfl⟩

/-- White space. -/
def isSpace (c : UInt8) : Prop := c = 32 ∨ c = 9 ∨ c = 13 ∨ c = 10

theorem loop_encode (len : Nat) (k tail : Bytes) (ht : k.length % 3 = 0 → tail = [] ∨ ∃ c, isSpace c ∧ tail = [c]) (s : Dec)
    (hs : s.groupSize = 0) (hk : s.key.length = len) (hp : s.posn + k.length = len) :
    publicLoop len (encode k ++ tail) s = .ok (true, s.key.take s.posn ++ k) := by
  match k, ht, hp with
  | [], ht, hp =>
    simp only [List.length_nil, Nat.add_zero] at hp
    rw [encode, List.nil_append, List.append_nil, List.take_of_length_le (by omega)]
    rcases ht rfl with rfl | ⟨c, hc, rfl⟩
    · rw [publicLoop]
      unfold finishPublic
      rw [if_neg (by omega), if_neg (by omega)]
      simp; omega
    · have hcl : classify c = .space := by rcases hc with rfl | rfl | rfl | rfl <;> decide
      rw [publicLoop, hcl]
      dsimp only
      rw [addDigit_inner _ _ (by omega), Out.bind_ok]
      dsimp only
      rw [publicLoop]
      unfold finishPublic
      dsimp only
      rw [if_neg (by omega), if_neg (by omega)]
      simp; omega
  | [a], _, hp =>
    simp only [List.length_cons, List.length_nil, Nat.zero_add] at hp
    have ha := a.toNat_lt
    simp only [encode, List.cons_append, List.nil_append]
    rw [loop_digit _ _ (by omega) _ _ (by omega), loop_digit _ _ (by omega) _ _ (by dsimp only; omega), publicLoop]
    have hcl : classify 61 = .stop := by decide
    rw [hcl]
    dsimp only
    have g1 := shift_in s.group (a.toNat / 4) (by omega)
    generalize (s.group <<< 6) ||| UInt32.ofNat (a.toNat / 4) = G1 at *
    have g2 := shift_in G1 (a.toNat % 4 * 16) (by omega)
    generalize (G1 <<< 6) ||| UInt32.ofNat (a.toNat % 4 * 16) = G2 at *
    have b0 : (G2 >>> 4).toUInt8 = a := byte_at G2 4 (by omega) a (by omega)
    unfold finishPublic
    dsimp only
    rw [if_neg (by omega), if_pos (by omega), if_neg (by rw [sizeSub_eq (by omega)]; omega), b0, store_ok (by simp; omega), Out.bind_ok,
      List.drop_of_length_le (by simp; omega), List.append_nil]
    simp; omega
  | [a, b], _, hp =>
    simp only [List.length_cons, List.length_nil, Nat.zero_add] at hp
    have ha := a.toNat_lt
    have hb := b.toNat_lt
    simp only [encode, List.cons_append, List.nil_append]
    rw [loop_digit _ _ (by omega) _ _ (by omega), loop_digit _ _ (by omega) _ _ (by dsimp only; omega),
      loop_digit _ _ (by omega) _ _ (by dsimp only; omega), publicLoop]
    have hcl : classify 61 = .stop := by decide
    rw [hcl]
    dsimp only
    have g1 := shift_in s.group (a.toNat / 4) (by omega)
    generalize (s.group <<< 6) ||| UInt32.ofNat (a.toNat / 4) = G1 at *
    have g2 := shift_in G1 (a.toNat % 4 * 16 + b.toNat / 16) (by omega)
    generalize (G1 <<< 6) ||| UInt32.ofNat (a.toNat % 4 * 16 + b.toNat / 16) = G2 at *
    have g3 := shift_in G2 (b.toNat % 16 * 4) (by omega)
    generalize (G2 <<< 6) ||| UInt32.ofNat (b.toNat % 16 * 4) = G3 at *
    have b0 : (G3 >>> 10).toUInt8 = a := byte_at G3 10 (by omega) a (by omega)
    have b1 : (G3 >>> 2).toUInt8 = b := byte_at G3 2 (by omega) b (by omega)
    unfold finishPublic
    dsimp only
    rw [if_pos (by omega), if_neg (by rw [sizeSub_eq (by omega)]; omega), b0, b1, store_ok (by simp; omega), Out.bind_ok,
      List.drop_of_length_le (by simp; omega), List.append_nil]
    simp; omega
  | a :: b :: c :: r, ht, hp =>
    simp only [List.length_cons] at hp ht
    simp only [encode, List.cons_append]
    obtain ⟨g, d, e⟩ := loop_group len a b c (encode r ++ tail) s hs hk (by omega)
    rw [e, loop_encode len r tail (fun h => ht (by omega)) _ rfl (by simp; omega) (by dsimp only; omega)]
    dsimp only
    rw [List.take_left' (by simp; omega)]
    simp

/-- **C81**: a file with the base64 encoding of a key gives this key. After the padding anything may follow; when there is
none, nothing or one character of white space. -/
theorem C81_public_partial (k key tail : Bytes) (hl : k.length ≤ 2048) (hk : key.length = k.length)
    (ht : k.length % 3 = 0 → tail = [] ∨ ∃ c, isSpace c ∧ tail = [c]) :
    loadPublicKey (some (encode k ++ tail)) key k.length = .ok (true, k) := by
  unfold loadPublicKey
  rw [if_neg (by omega)]
  exact loop_encode k.length k tail ht ⟨0, 0, 0, 0, key⟩ rfl hk (by simp)

theorem addDigit_safe (s : Dec) (hp : s.posn ≤ s.key.length) :
    addDigit s.key.length s = .ok none ∨
      ∃ s', addDigit s.key.length s = .ok (some s') ∧ s'.key.length = s.key.length ∧ s'.posn ≤ s.key.length := by
  unfold addDigit
  dsimp only
  split
  · split
    · exact Or.inl rfl
    · rename_i h
      rw [sizeSub_eq hp] at h
      rw [store_ok (by simp; omega)]
      exact Or.inr ⟨_, rfl, by simp; omega, by dsimp only; omega⟩
  · exact Or.inr ⟨_, rfl, rfl, hp⟩

theorem publicLoop_safe (len : Nat) (file : Bytes) (s : Dec) (hk : s.key.length = len) (hp : s.posn ≤ len) :
    ∃ r, publicLoop len file s = .ok r ∧ r.2.length = len := by
  have fin : ∀ s : Dec, s.key.length = len → s.posn ≤ len → ∃ r, finishPublic len s = .ok r ∧ r.2.length = len := by
    intro s hk hp
    unfold finishPublic
    rw [sizeSub_eq hp]
    split
    · split
      · exact ⟨_, rfl, hk⟩
      · rw [store_ok (by simp; omega)]
        exact ⟨_, rfl, by simp; omega⟩
    · split
      · split
        · exact ⟨_, rfl, hk⟩
        · rw [store_ok (by simp; omega)]
          exact ⟨_, rfl, by simp; omega⟩
      · exact ⟨_, rfl, hk⟩
  induction file generalizing s with
  | nil => exact fin s hk hp
  | cons ch file ih =>
    rw [publicLoop]
    split
    · exact fin s hk hp
    · exact ⟨_, rfl, hk⟩
    · subst hk
      rcases addDigit_safe s hp with e | ⟨s', e, l, p⟩
      · rw [e]; exact ⟨_, rfl, rfl⟩
      · rw [e, Out.bind_ok]; exact ih s' l p
    · rename_i d _
      subst hk
      rcases addDigit_safe { s with digit := d } hp with e | ⟨s', e, l, p⟩
      · rw [e]; exact ⟨_, rfl, rfl⟩
      · rw [e, Out.bind_ok]; exact ih s' l p

/-- **C81**: a file that is not there and a key of more than 2048 bytes are refused, and nothing is written. -/
theorem C81_public_refuses (file : Option Bytes) (key : Bytes) (h : file = none ∨ 2048 < key.length) :
    loadPublicKey file key key.length = .ok (false, key) := by
  unfold loadPublicKey
  rcases h with rfl | h
  · split <;> rfl
  · rw [if_pos h]; rfl

example : loadPublicKey none [1, 2] 2 = .ok (false, [1, 2]) := by decide +kernel

/-- **C81**: no file makes the function write outside the memory for the key. -/
theorem C81_public_safe (file : Option Bytes) (key : Bytes) :
    ∃ r, loadPublicKey file key key.length = .ok r ∧ r.2.length = key.length := by
  unfold loadPublicKey
  split
  · exact ⟨_, rfl, rfl⟩
  · cases file with
    | none => exact ⟨_, rfl, rfl⟩
    | some file => exact publicLoop_safe _ _ _ rfl (Nat.zero_le _)

/-- A key of 32 bytes, as the server has it in its file. -/
example : loadPublicKey (some (encode (List.replicate 31 0x5a ++ [0x77]) ++ [10])) (List.replicate 32 0) 32 =
    .ok (true, List.replicate 31 0x5a ++ [0x77]) := by decide +kernel

/-- **C81** fails for white space between the characters, which RFC 4648 allows to be ignored and which the code means to
ignore: the digit before it counts again. A key with a line break in it is refused, a text with a digit missing is accepted
where the line is broken, and bytes can be wrong without any sign. -/
theorem C81_fails_space :
    -- the encoding of 32 zero bytes with a line break
    (∃ m, loadPublicKey (some ((encode (List.replicate 32 0)).take 20 ++ [10] ++ (encode (List.replicate 32 0)).drop 20))
      (List.replicate 32 0) 32 = .ok (false, m)) ∧
    -- 42 digits are not the encoding of 32 bytes
    loadPublicKey (some (List.replicate 41 65 ++ [66, 10])) (List.replicate 32 7) 32 =
      .ok (true, List.replicate 30 0 ++ [0, 16]) ∧
    -- another key
    loadPublicKey (some (ascii "AB CD")) [0, 0, 0] 3 = .ok (true, [0, 16, 66]) ∧
    loadPublicKey (some (ascii "ABCD")) [0, 0, 0] 3 = .ok (true, [0, 16, 131]) := by
  refine ⟨⟨List.replicate 32 0, ?_⟩, ?_, ?_, ?_⟩ <;> decide +kernel

end Noise.Echo
