import Verif.NewHopeDH
import Verif.NewHopeUniformProps
import Verif.ChaChaProps
/-!
# New Hope with its hash functions and its stream cipher
-/

namespace Noise.NewHope
open Noise.Rfc7539 Noise.ChaCha

/-! ## `crypto_stream_chacha20` -/

theorem core_keyBlock (x : Words) :
    toLittle (addWords (rounds 20 x) x).x0 ++ toLittle (addWords (rounds 20 x) x).x1 ++ toLittle (addWords (rounds 20 x) x).x2 ++
    toLittle (addWords (rounds 20 x) x).x3 ++ toLittle (addWords (rounds 20 x) x).x4 ++ toLittle (addWords (rounds 20 x) x).x5 ++
    toLittle (addWords (rounds 20 x) x).x6 ++ toLittle (addWords (rounds 20 x) x).x7 ++ toLittle (addWords (rounds 20 x) x).x8 ++
    toLittle (addWords (rounds 20 x) x).x9 ++ toLittle (addWords (rounds 20 x) x).x10 ++ toLittle (addWords (rounds 20 x) x).x11 ++
    toLittle (addWords (rounds 20 x) x).x12 ++ toLittle (addWords (rounds 20 x) x).x13 ++
    toLittle (addWords (rounds 20 x) x).x14 ++ toLittle (addWords (rounds 20 x) x).x15 = keyBlock x := by
  unfold keyBlock
  rw [← core_eq]
  generalize addWords (rounds 20 x) x = y
  simp only [Words.list, List.flatMap_cons, List.flatMap_nil, List.append_nil, toLittle_eq, List.append_assoc]

theorem fromLittle_append_left (a b : Bytes) (i : Nat) (h : i + 4 ≤ a.length) : fromLittle (a ++ b) i = fromLittle a i := by
  apply UInt32.toNat_inj.1
  rw [fromLittle_eq, fromLittle_eq, List.drop_append_of_le_length (by omega),
    List.take_append_of_le_length (by rw [List.length_drop]; omega)]

theorem fromLittle_append_right (a b : Bytes) (i : Nat) : fromLittle (a ++ b) (a.length + i) = fromLittle b i := by
  apply UInt32.toNat_inj.1
  rw [fromLittle_eq, fromLittle_eq, List.drop_append, List.drop_of_length_le (by omega), List.nil_append,
    Nat.add_sub_cancel_left]

theorem fromLittle_leBytes (c : Nat) : fromLittle (leBytes 8 c) 0 = UInt32.ofNat c ∧
    fromLittle (leBytes 8 c) 4 = UInt32.ofNat (c / 2 ^ 32) := by
  have e : leBytes 8 c = leBytes 4 c ++ leBytes 4 (c / 2 ^ 32) := by
    simp only [leBytes, List.cons_append, List.nil_append, Nat.div_div_eq_div_mul, Nat.reduceMul, Nat.reducePow]
  have four : ∀ v, fromLittle (leBytes 4 v) 0 = UInt32.ofNat v := by
    intro v
    apply UInt32.toNat_inj.1
    rw [fromLittle_eq, List.drop_zero, List.take_of_length_le (by rw [leBytes_length]), leNat_leBytes, UInt32.toNat_ofNat',
      UInt32.toNat_ofNat']
    omega
  rw [e]
  refine ⟨?_, ?_⟩
  · rw [fromLittle_append_left _ _ _ (by rw [leBytes_length]), four]
  · have := fromLittle_append_right (leBytes 4 c) (leBytes 4 (c / 2 ^ 32)) 0
    rw [leBytes_length] at this
    rw [this, four]

theorem chachaCore_ok (nonce key : Bytes) (hn : nonce.length = 8) (c : Nat) :
    chachaCore (nonce ++ leBytes 8 c) key = keyBlock (ctx key nonce c) := by
  rw [← core_keyBlock]
  obtain ⟨c0, c1⟩ := fromLittle_leBytes c
  have r0 := fromLittle_append_right nonce (leBytes 8 c) 0
  have r1 := fromLittle_append_right nonce (leBytes 8 c) 4
  rw [hn] at r0 r1
  unfold chachaCore
  dsimp only
  rw [r0, r1, c0, c1, fromLittle_append_left _ _ _ (by omega), fromLittle_append_left _ _ _ (by omega)]
  rfl

theorem carry_ok (n : Nat) (c : Nat) (u : UInt32) (hu : u.toNat ≤ 1) :
    carry (leBytes n c) u = leBytes n (c + u.toNat) := by
  induction n generalizing c u with
  | zero => rfl
  | succ n ih =>
    unfold leBytes carry
    dsimp only
    have b : (UInt8.ofNat (c % 256)).toUInt32.toNat = c % 256 := by
      rw [UInt8.toNat_toUInt32, UInt8.toNat_ofNat']; omega
    have s : (u + (UInt8.ofNat (c % 256)).toUInt32).toNat = u.toNat + c % 256 := by
      rw [UInt32.toNat_add, b]; omega
    have sh : ((u + (UInt8.ofNat (c % 256)).toUInt32) >>> 8).toNat = (u.toNat + c % 256) / 256 := by
      rw [UInt32.toNat_shiftRight, s]
      show (u.toNat + c % 256) >>> 8 = _
      rw [Nat.shiftRight_eq_div_pow]
    rw [ih _ _ (by rw [sh]; omega), sh]
    congr 1
    · apply UInt8.toNat_inj.1
      rw [UInt32.toNat_toUInt8, s, UInt8.toNat_ofNat']
      omega
    · congr 1
      omega

theorem chachaLoop_ok (nonce key : Bytes) (hn : nonce.length = 8) (fuel clen c : Nat) (hf : clen / 64 < fuel) :
    chachaLoop nonce key fuel clen (leBytes 8 c) = (List.range clen).map fun i => stream64 key nonce c i := by
  induction fuel generalizing clen c with
  | zero => omega
  | succ fuel ih =>
    have L := keyBlock_length (ctx key nonce c)
    unfold chachaLoop
    dsimp only
    rw [chachaCore_ok nonce key hn c, carry_ok 8 c 1 (by decide)]
    split
    · next h =>
      rw [show c + (1 : UInt32).toNat = c + 1 from rfl, ih (clen - 64) (c + 1) (by omega)]
      apply List.ext_getElem
      · rw [List.length_append, L]; simp; omega
      · intro i h1 h2
        rw [List.getElem_append, List.getElem_map, List.getElem_range]
        unfold stream64
        split
        · next hi =>
          rw [L] at hi
          rw [Nat.div_eq_of_lt hi, Nat.mod_eq_of_lt hi, Nat.add_zero, List.getD_eq_getElem?_getD,
            List.getElem?_eq_getElem (by rw [L]; exact hi)]
          rfl
        · next hi =>
          rw [L] at hi
          rw [List.getElem_map, List.getElem_range]
          simp only [L]
          rw [show c + 1 + (i - 64) / 64 = c + i / 64 by omega, show (i - 64) % 64 = i % 64 by omega]
    · next h =>
      apply List.ext_getElem
      · rw [List.length_take, L]; simp; omega
      · intro i h1 h2
        rw [List.length_take, L] at h1
        rw [List.getElem_take, List.getElem_map, List.getElem_range]
        unfold stream64
        rw [Nat.div_eq_of_lt (by omega), Nat.mod_eq_of_lt (by omega), Nat.add_zero, List.getD_eq_getElem?_getD,
          List.getElem?_eq_getElem (by rw [L]; omega)]
        rfl

/-- **C72.** `crypto_stream_chacha20` gives the key stream of RFC 7539 from counter 0 on, for a nonce of 8 bytes preceded by
four zero bytes. -/
theorem C72_chacha (clen : Nat) (hc : clen ≤ 2 ^ 38) (nonce key : Bytes) (hn : nonce.length = 8) :
    chachaStream clen nonce key = (List.range clen).map (stream key 0 ([0, 0, 0, 0] ++ nonce)) := by
  have e : List.replicate 8 (0 : UInt8) = leBytes 8 0 := by decide
  unfold chachaStream
  rw [e, chachaLoop_ok nonce key hn _ clen 0 (by omega)]
  refine List.map_congr_left fun i hi => ?_
  rw [stream64_eq key nonce 0 i (by have := List.mem_range.1 hi; omega)]

/-! ## The noise -/

/-- Number of ones of a byte. -/
def popcount (b : UInt8) : Nat := ((List.range 8).filter fun j => b.toNat.testBit j).length

theorem popcount_sum (w : Nat) : w % 2 + w / 2 % 2 + w / 4 % 2 + w / 8 % 2 + w / 16 % 2 + w / 32 % 2 + w / 64 % 2 +
      w / 128 % 2 = ((List.range 8).filter fun j => w.testBit j).length := by
  have t : ∀ j, w.testBit j = decide (w / 2 ^ j % 2 = 1) := fun j => Nat.testBit_eq_decide_div_mod_eq
  have c : ∀ j, (if w.testBit j then 1 else 0) = w / 2 ^ j % 2 := by
    intro j; rw [t]; rcases Nat.mod_two_eq_zero_or_one (w / 2 ^ j) with h | h <;> simp [h]
  have s : ∀ l : List Nat, (l.filter fun j => w.testBit j).length = (l.map fun j => w / 2 ^ j % 2).sum := by
    intro l
    induction l with
    | nil => rfl
    | cons x l ih =>
      rw [List.map_cons, List.sum_cons, ← ih, ← c x, List.filter_cons]
      cases w.testBit x
      · simp
      · simp; omega
  rw [s]
  simp [List.range, List.range.loop]
  omega

theorem ones_shift (t k : Nat) : ones t k = ones (t / 2 ^ k) 0 := by
  unfold ones
  have e : ∀ i, t / 2 ^ (k + i) = t / 2 ^ k / 2 ^ (0 + i) := fun i => by rw [Nat.pow_add, Nat.div_div_eq_div_mul, Nat.zero_add]
  rw [e 1, e 2, e 3, e 4, e 5, e 6, e 7, Nat.pow_zero, Nat.div_one]

theorem ones_byte (w : Nat) : ones w 0 = ones (w % 256) 0 := by
  unfold ones
  have m0 : w % 256 / 2 ^ 0 % 2 = w / 2 ^ 0 % 2 := by omega
  have m1 : w % 256 / 2 ^ (0 + 1) % 2 = w / 2 ^ (0 + 1) % 2 := by omega
  have m2 : w % 256 / 2 ^ (0 + 2) % 2 = w / 2 ^ (0 + 2) % 2 := by omega
  have m3 : w % 256 / 2 ^ (0 + 3) % 2 = w / 2 ^ (0 + 3) % 2 := by omega
  have m4 : w % 256 / 2 ^ (0 + 4) % 2 = w / 2 ^ (0 + 4) % 2 := by omega
  have m5 : w % 256 / 2 ^ (0 + 5) % 2 = w / 2 ^ (0 + 5) % 2 := by omega
  have m6 : w % 256 / 2 ^ (0 + 6) % 2 = w / 2 ^ (0 + 6) % 2 := by omega
  have m7 : w % 256 / 2 ^ (0 + 7) % 2 = w / 2 ^ (0 + 7) % 2 := by omega
  rw [m0, m1, m2, m3, m4, m5, m6, m7]

theorem popcount_eq (b : UInt8) (t k : Nat) (h : t / 2 ^ k % 256 = b.toNat) : ones t k = popcount b := by
  rw [ones_shift, ones_byte, h]
  unfold popcount
  rw [← popcount_sum]
  unfold ones
  rw [Nat.pow_zero, Nat.div_one]
  rfl

/-- **C72.** The noise: coefficient `i` of `poly_getnoise` is, modulo 12289, the number of ones in bytes `4 i` and `4 i + 1` of
the ChaCha20 key stream less the number of ones in the following two bytes. -/
theorem C72_noise (seed : Bytes) (nonce : UInt8) (i : Nat) (hi : i < 1024) :
    let b := stream seed 0 (0 :: 0 :: 0 :: 0 :: nonce :: List.replicate 7 0)
    let d : Int := (popcount (b (4 * i)) + popcount (b (4 * i + 1)) : Nat) - (popcount (b (4 * i + 2)) + popcount (b (4 * i + 3)) : Nat)
    (polyGetnoise seed nonce).v i = (d : Z) ∧ (((polyGetnoise seed nonce).at i).toNat : Int) = d + 12289 := by
  have hb : ∃ b, b = stream seed 0 (0 :: 0 :: 0 :: 0 :: nonce :: List.replicate 7 0) := ⟨_, rfl⟩
  obtain ⟨b, hb⟩ := hb
  rw [← hb]
  dsimp only
  obtain ⟨d, hd'⟩ : ∃ d : Int, d = (popcount (b (4 * i)) + popcount (b (4 * i + 1)) : Nat) -
    (popcount (b (4 * i + 2)) + popcount (b (4 * i + 3)) : Nat) := ⟨_, rfl⟩
  rw [← hd']
  have hd : d = noise seed nonce i := by
    have st := C72_chacha 4096 (by decide) (nonce :: List.replicate 7 0) seed (by simp)
    have g : ∀ j < 4096, (chachaStream 4096 (nonce :: List.replicate 7 0) seed).getD j 0 = b j := by
      intro j hj
      rw [st, List.getD_eq_getElem?_getD, List.getElem?_map, List.getElem?_range hj, hb]
      simp only [Option.map_some, Option.getD_some, List.cons_append, List.nil_append]
    have t := fromLittle_toNat (chachaStream 4096 (nonce :: List.replicate 7 0) seed) (4 * i)
    rw [g _ (by omega), g _ (by omega), g _ (by omega), g _ (by omega)] at t
    have l0 := (b (4 * i)).toNat_lt
    have l1 := (b (4 * i + 1)).toNat_lt
    have l2 := (b (4 * i + 2)).toNat_lt
    have l3 := (b (4 * i + 3)).toNat_lt
    rw [hd']
    unfold noise
    dsimp only
    generalize (fromLittle (chachaStream 4096 (nonce :: List.replicate 7 0) seed) (4 * i)).toNat = T at *
    rw [popcount_eq (b (4 * i)) _ 0 (by rw [t]; omega), popcount_eq (b (4 * i + 1)) _ 8 (by rw [t]; omega),
      popcount_eq (b (4 * i + 2)) _ 16 (by rw [t]; omega), popcount_eq (b (4 * i + 3)) _ 24 (by rw [t]; omega)]
  rw [hd, getnoise_v seed nonce i hi, getnoise_ok seed nonce i hi]
  exact ⟨rfl, Int.add_comm _ _⟩

/-! ## New Hope -/

/-- The functions of `fips202.c` and `poly.c` for the model of `newhope.c`. `poly_uniform` is cut off after `n` iterations; the
value for a seed for which it does not end by then is arbitrary. -/
def hashes (n : Nat) : Hashes where
  sha3 := Keccak.sha3256
  uniform seed := (polyUniform n seed).getD []

/-- **C69** with the hash functions of the code. -/
theorem C69_real (n : Nat) (random randomB : Bytes) (hs : SmallNoise ((random.drop 32).take 32) (randomB.take 32)) :
    shareda (hashes n) (keygen (hashes n) random).2 (sharedb (hashes n) (keygen (hashes n) random).1 randomB).2 =
      (sharedb (hashes n) (keygen (hashes n) random).1 randomB).1 :=
  C69_agreement (hashes n) Keccak.C70_sha3_length random randomB hs

end Noise.NewHope
