import Verif.LoaderProps
import Verif.AesProps
import Verif.Sha512Props
import Verif.Blake2sProps
/-!
# Properties of `src/keys/loader.c`: the algorithms of the library; saving that does not end
-/

namespace Noise
namespace Loader
open PB Cert

variable {A : Algs} {name : Bytes} {P : Prot}

/-! ## The algorithms of the library -/

/-- The reference back ends: the cases of `noise_cipherstate_new_by_id` (`src/protocol/cipherstate.c:86-96`) and
`noise_hashstate_new_by_id` (`src/protocol/hashstate.c:81-100`). The memory of a new object is zero. -/
def refAlgs (I : Ghash.Impl) : Algs where
  cipher
    | 0x4301 => some ChaChaPoly.backend
    | 0x4302 => some (Aes.aesgcm I)
    | _ => none
  hash
    | 0x4801 => some ⟨Blake2s.backend, ⟨⟨List.replicate 8 0, List.replicate 64 0, 0, 0⟩, rfl⟩⟩
    | 0x4802 => some ⟨Blake2b.backend, ⟨⟨List.replicate 8 0, List.replicate 128 0, 0, 0⟩, rfl⟩⟩
    | 0x4803 => some ⟨Sha256.backend, ⟨⟨List.replicate 8 0, List.replicate 64 0, 0, 0⟩, rfl⟩⟩
    | 0x4804 => some ⟨Sha512.backend, ⟨⟨List.replicate 8 0, List.replicate 128 0, 0, 0⟩, rfl⟩⟩
    | _ => none

/-- What the names should stand for. -/
def refProt (I : Ghash.Impl) (cipherId hashId : Nat) : Option Prot :=
  (match cipherId with
    | 0x4301 => some ChaChaPoly.backend
    | 0x4302 => some (Aes.aesgcm I)
    | _ => none).bind fun CB =>
  match hashId with
    | 0x4801 => some ⟨CB, Blake2s.hash64, 64, 32⟩
    | 0x4802 => some ⟨CB, Blake2b.hash64, 128, 64⟩
    | 0x4803 => some ⟨CB, Sha256.hash64, 64, 32⟩
    | 0x4804 => some ⟨CB, Sha512.hash64, 128, 64⟩
    | _ => none

/-- **C51**: each of the eight names stands for its algorithms in the library, so that the theorems about `Protects` apply to
it. -/
theorem C51_algorithms {I : Ghash.Impl} (hI : I.Correct) : ∀ x ∈ protectNames, ∃ P, refProt I x.2.1 x.2.2 = some P ∧
    Nonempty (Protects (refAlgs I) (ascii x.1) P) := by
  have hp : ∀ x ∈ protectNames, parseProtectName (ascii x.1) = some x.2 := by decide +kernel
  intro x hx
  have hp := hp x hx
  have h2 := Blake2s.C32_blake2s_lawful
  have h3 := Blake2b.C32_blake2b_lawful
  have h4 := Sha256.C32_sha256_lawful
  have h5 := Sha512.C32_sha512_lawful
  have c1 := ChaChaPoly.C33_lawful
  have c2 := Aes.C55_lawful hI
  simp only [protectNames, List.mem_cons, List.not_mem_nil, or_false] at hx
  rcases hx with rfl | rfl | rfl | rfl | rfl | rfl | rfl | rfl
  · exact ⟨_, rfl, ⟨⟨_, _, _, hp, rfl, rfl, rfl, c1, h2, rfl, rfl⟩⟩⟩
  · exact ⟨_, rfl, ⟨⟨_, _, _, hp, rfl, rfl, rfl, c1, h3, rfl, rfl⟩⟩⟩
  · exact ⟨_, rfl, ⟨⟨_, _, _, hp, rfl, rfl, rfl, c1, h4, rfl, rfl⟩⟩⟩
  · exact ⟨_, rfl, ⟨⟨_, _, _, hp, rfl, rfl, rfl, c1, h5, rfl, rfl⟩⟩⟩
  · exact ⟨_, rfl, ⟨⟨_, _, _, hp, rfl, rfl, rfl, c2, h2, rfl, rfl⟩⟩⟩
  · exact ⟨_, rfl, ⟨⟨_, _, _, hp, rfl, rfl, rfl, c2, h3, rfl, rfl⟩⟩⟩
  · exact ⟨_, rfl, ⟨⟨_, _, _, hp, rfl, rfl, rfl, c2, h4, rfl, rfl⟩⟩⟩
  · exact ⟨_, rfl, ⟨⟨_, _, _, hp, rfl, rfl, rfl, c2, h5, rfl, rfl⟩⟩⟩

theorem refProt_mac {I : Ghash.Impl} {c h : Nat} (e : refProt I c h = some P) : P.CB.macLen = 16 := by
  simp only [refProt, Option.bind_eq_some_iff] at e
  obtain ⟨CB, h1, h2⟩ := e
  have : CB.macLen = 16 := by split at h1 <;> cases h1 <;> rfl
  split at h2 <;> cases h2 <;> exact this

theorem material_of_length {P : Prot} {pass salt : Bytes} {n : Nat} (h : (P.material pass salt n).length = 40) :
    (P.key pass salt n).length = 32 := by
  rw [Prot.key, List.length_take, h]; rfl

/-- With the algorithms of the library, rejecting means the error `MAC_FAILURE`. -/
theorem C51_mac_failure {I : Ghash.Impl} (hI : I.Correct) {s : String} {c h : Nat} (hs : (s, c, h) ∈ protectNames)
    (e : refProt I c h = some P) (pass salt ct : Bytes) (n : Nat) (h1 : 16 ≤ ct.length) (h2 : ct.length ≤ 65535)
    (hrej : (P.decrypt pass salt n ct).1 ≠ .none) : (P.decrypt pass salt n ct).1 = .macFailure := by
  obtain ⟨P', e', ⟨E⟩⟩ := C51_algorithms hI _ hs
  rw [e] at e'
  cases e'
  have hk : (P.key pass salt n).length = 32 := material_of_length (Prot.material_length E pass salt n)
  have hcb : P.CB = ChaChaPoly.backend ∨ P.CB = Aes.aesgcm I := by
    simp only [refProt, Option.bind_eq_some_iff] at e
    obtain ⟨CB, h1, h2⟩ := e
    have : CB = ChaChaPoly.backend ∨ CB = Aes.aesgcm I := by split at h1 <;> cases h1 <;> simp
    split at h2 <;> cases h2 <;> exact this
  unfold Prot.decrypt at hrej ⊢
  rcases hcb with hc | hc
  · rw [hc] at hrej ⊢
    rw [(ChaChaPoly.C33_backend _ _ _ _ (by simpa [maxPayload] using h2)).2 h1] at hrej ⊢
    split at hrej
    · exact absurd rfl hrej
    · rfl
  · rw [hc] at hrej ⊢
    rw [(Aes.C55_aesgcm hI _ hk _ _ _ (by simpa [maxPayload] using h2)).2 h1] at hrej ⊢
    split at hrej
    · exact absurd rfl hrej
    · rfl

/-! ## Saving need not end (C52) -/

/-- Saving goes on for ever, no matter how many rounds are allowed, if and only if there is room for the key, the first four
allocations succeed, and the encoding with the MAC is too long for one encryption or no salt ever gives a nonce other
than the reserved one. -/
theorem C52_hangs_iff (E : Protects A name P) (al : Nat → Bool) (salts : Nat → Bytes) (key : PrivateKey) {p : PB}
    {d : Bytes} (hd : p.data = some d) (hi : p.Inv) (hs : p.size < 2 ^ 64) (pass : Bytes) :
    (∀ fuel, savePrivateKey A al salts fuel key p pass name = .ok none) ↔
      (∀ i ∈ [0, 1, 2, 3], al i = true) ∧ p.err = .none ∧ (∀ s ∈ key.strings, isUtf8 s.length s = .ok true) ∧
      key.enc.length + P.CB.macLen ≤ p.posn ∧
      (65535 < key.enc.length + P.CB.macLen ∨ ∀ i, ¬ P.Usable pass (salts i) 20000) := by
  constructor
  · intro h
    have key0 : ∀ fuel, Room P key p ∧ (∀ i ∈ [0, 1, 2, 3], al i = true) ∧
        (65535 < key.enc.length + P.CB.macLen ∨ firstUsable P pass salts fuel 0 = none) := by
      intro fuel
      rcases save_cases E al salts fuel key hd hi hs pass with ⟨-, h1, h2, h3⟩ | ⟨e, p2, i, hx, -⟩
      · exact ⟨h1, h2, h3⟩
      · rw [h fuel] at hx; cases hx
    obtain ⟨h1, h2, -⟩ := key0 0
    refine ⟨h2, h1.1, h1.2.1, h1.2.2, ?_⟩
    by_cases hl : 65535 < key.enc.length + P.CB.macLen
    · exact .inl hl
    · refine .inr fun i => ?_
      obtain ⟨-, -, h3⟩ := key0 (i + 1)
      rcases h3 with h3 | h3
      · exact absurd h3 hl
      · exact firstUsable_none.1 h3 i (by omega) (by omega)
  · rintro ⟨h1, h2, h3, h4, h5⟩ fuel
    rw [save_room E (h1 0 (by simp)) (h1 1 (by simp)) salts fuel key hd hi hs pass ⟨h2, h3, h4⟩ (h1 2 (by simp)) (h1 3 (by simp))]
    rcases h5 with h5 | h5
    · rw [if_pos (by simpa [maxPayload] using h5)]
    · split
      · rfl
      · rw [firstUsable_none.2 fun i _ _ => h5 i]

/-- **C52** holds only in part: saving returns if the encoding with the MAC fits into one message of at most 65535 bytes and
one of the salts that the random number generator gives, here that of number `i`, leads to a nonce other than the
reserved one; `i + 1` rounds are enough. Missing are the longer keys, for which it is false (`C52_fails`). -/
theorem C52_partial (E : Protects A name P) (al : Nat → Bool) (salts : Nat → Bytes) (key : PrivateKey) {p : PB}
    {d : Bytes} (hd : p.data = some d) (hi : p.Inv) (hs : p.size < 2 ^ 64) (pass : Bytes)
    (hl : key.enc.length + P.CB.macLen ≤ 65535) {i : Nat} (hu : P.Usable pass (salts i) 20000) {fuel : Nat} (hf : i < fuel) :
    ∃ e p', savePrivateKey A al salts fuel key p pass name = .ok (some (e, p')) := by
  rcases save_cases E al salts fuel key hd hi hs pass with ⟨-, -, -, h3⟩ | ⟨e, p2, i, hx, -⟩
  · rcases h3 with h3 | h3
    · omega
    · exact absurd hu (firstUsable_none.1 h3 i (by omega) (by omega))
  · exact ⟨e, p2, hx⟩

/-- A private key with one key of 65520 bytes. -/
def longKey : PrivateKey := { keys := [some { key := some (List.replicate 65520 0) }] }

theorem longKey_length : longKey.enc.length = 65528 := by
  have h1 : (Wire.varint 65520).length = 3 := by decide +kernel
  have h2 : (Wire.varint 65524).length = 3 := by decide +kernel
  have h3 : (Wire.key 2 2).length = 1 := by decide +kernel
  have h4 : (Wire.key 4 2).length = 1 := by decide +kernel
  simp only [longKey, PrivateKey.enc, fBlock, fList, fMsg, List.map_cons, List.map_nil, List.flatten_cons, List.flatten_nil,
    List.append_nil, List.nil_append, PrivateKeyInfo.enc, Wire.field, Wire.Val.bytes, Wire.Val.type, List.length_append,
    List.length_replicate, h1, h2, h3, h4]

theorem longKey_good : Good longKey.strings := by
  have h : longKey.strings = [] := rfl
  rw [h]
  exact fun s hs => absurd hs List.not_mem_nil

/-- **C52** is false: saving `longKey` to a buffer of at least 65544 bytes never returns, for every protection name of the
library, every passphrase and whatever the random number generator gives. -/
theorem C52_fails {I : Ghash.Impl} (hI : I.Correct) {x : String × Nat × Nat} (hx : x ∈ protectNames) (salts : Nat → Bytes)
    (pass d : Bytes) (hd1 : 65544 ≤ d.length) (hd2 : d.length < 2 ^ 64) (fuel : Nat) :
    savePrivateKey (refAlgs I) yes salts fuel longKey (prepareOutput d) pass (ascii x.1) = .ok none := by
  obtain ⟨P, e, ⟨E⟩⟩ := C51_algorithms hI x hx
  refine (C52_hangs_iff E yes salts longKey (p := prepareOutput d) (d := d) rfl (prepareOutput_inv d) hd2 pass).2
    ⟨fun _ _ => rfl, rfl, longKey_good, ?_, .inl ?_⟩ fuel
  · rw [longKey_length, refProt_mac e]; exact hd1
  · rw [longKey_length, refProt_mac e]; decide

example : ∃ I : Ghash.Impl, I.Correct ∧ ∃ x, x ∈ protectNames ∧ ∃ d : Bytes, 65544 ≤ d.length ∧ d.length < 2 ^ 64 :=
  ⟨_, Ghash.word64_correct false, ("ChaChaPoly_SHA256_PBKDF2", 0x4301, 0x4803), by decide +kernel, List.replicate 65544 0,
    by rw [List.length_replicate], by rw [List.length_replicate]; decide⟩

/-- **C52** is false for files, too: the length is measured, and that of `longKey` is accepted, without the MAC. -/
theorem C52_fails_file {I : Ghash.Impl} (hI : I.Correct) {x : String × Nat × Nat} (hx : x ∈ protectNames)
    (salts : Nat → Bytes) (pass mem : Bytes) (hm : 65528 + (ascii x.1).length + 128 ≤ mem.length) (disk : Disk) (fuel : Nat) :
    savePrivateKeyToFile (refAlgs I) yes salts fuel longKey pass (ascii x.1) true mem disk = .ok none := by
  have hp : ∀ x ∈ protectNames, parseProtectName (ascii x.1) = some x.2 ∧ (ascii x.1).length < 100 := by decide +kernel
  obtain ⟨hp, hnl⟩ := hp x hx
  obtain ⟨e, w, e1, m, he, -⟩ := longKey.write_writes (prepareMeasure maxPayload) 0
    ⟨Nat.le_refl _, fun d h => by cases h⟩ (by decide) (by decide)
  have hn : w.err = .none := (m.ok rfl).2 ⟨longKey_good, by
    simp only [msgBytes, if_true, longKey_length]; show 65528 ≤ 65535; decide⟩
  have hw := m.wrote hn
  have hwp := hw.posn
  simp only [msgBytes, if_true, longKey_length] at hwp
  have hsz : w.size = 65535 := m.size
  change w.posn + 65528 = 65535 at hwp
  have he : e = .none := (he rfl).trans hn
  subst he
  have e1' : PrivateKey.write (prepareMeasure maxPayload) 0 longKey = .ok (.none, w) := e1
  unfold savePrivateKeyToFile
  rw [hp]
  dsimp only
  rw [e1', Out.bind_ok]
  dsimp only
  have hfm : w.finishMeasure = (.none, 65528) := by
    simp only [finishMeasure, hn, hsz]
    have : w.posn = 7 := by omega
    rw [this]
    rfl
  rw [if_neg (by simp), hfm]
  dsimp only
  rw [if_neg (by simp), if_neg (by simp)]
  rw [C52_fails hI hx salts pass _ (by rw [List.length_take]; unfold encKeyOverhead; omega)
    (by rw [List.length_take]; unfold encKeyOverhead; omega) fuel, Out.bind_ok]
  rfl

/-! ## Concrete cases -/

/-- A hash function, for the examples, that is zero everywhere. -/
def zeroHash : HashBackend where
  hashId := 0x4803
  hashLen := 32
  blockLen := 64
  Ctx := Unit
  reset _ := ()
  update _ _ := ()
  finalize _ := ((), List.replicate 32 0)

theorem zeroHash_lawful : zeroHash.Lawful fun _ => List.replicate 32 0 :=
  ⟨fun _ _ => rfl, fun _ => rfl, by decide, by decide, by decide⟩

/-- ChaChaPoly with `zeroHash`. -/
def zeroAlgs : Algs := ⟨fun _ => some ChaChaPoly.backend, fun _ => some ⟨zeroHash, ()⟩⟩

/-- What the name stands for under `zeroAlgs`. -/
def zeroProt : Prot := ⟨ChaChaPoly.backend, fun _ => List.replicate 32 0, 64, 32⟩

/-- The hypothesis `Protects` under `zeroAlgs`. -/
def zeroProtects : Protects zeroAlgs (ascii "ChaChaPoly_SHA256_PBKDF2") zeroProt :=
  ⟨0x4301, 0x4803, ⟨zeroHash, ()⟩, by decide +kernel, rfl, rfl, rfl, ChaChaPoly.C33_lawful, zeroHash_lawful, rfl, rfl⟩

theorem zero_usable (pass salt : Bytes) (n : Nat) : zeroProt.Usable pass salt n := by
  have hu : ∀ first j, specU (specHmac zeroProt.H 64 pass) first j = List.replicate 32 0 := by
    intro first j
    cases j <;> rfl
  have hF : ∀ first j, specF (specHmac zeroProt.H 64 pass) first j = List.replicate 32 0 := by
    intro first j
    induction j with
    | zero => exact hu _ _
    | succ j ih => rw [specF, ih, hu]; decide
  unfold Prot.Usable Prot.nonce Prot.material specPbkdf2
  have : (fun i => specF (specHmac zeroProt.H zeroProt.blockLen pass) (salt ++ specINT (i + 1)) (n - 1)) =
    fun _ => List.replicate 32 0 := funext fun i => hF _ _
  rw [this]
  decide

/-- A key that is saved: the hypotheses of `C51_roundtrip` and of `C52_partial` can be met. -/
example : ∃ p', savePrivateKey zeroAlgs yes (fun _ => List.replicate 16 7) 1 { name := some (ascii "a"), keys := [some { key := some [1, 2, 3] }] }
    (prepareOutput (List.replicate 200 9)) (ascii "secret") (ascii "ChaChaPoly_SHA256_PBKDF2") = .ok (some (.none, p')) := by
  refine (C51_save_iff zeroProtects yes _ 1 _ (p := prepareOutput (List.replicate 200 9)) rfl (prepareOutput_inv _)
    (by show (List.replicate 200 (9 : UInt8)).length < 2 ^ 64; rw [List.length_replicate]; decide) _).2 ⟨fun _ _ => rfl, rfl, ?_, by decide +kernel,
    0, ⟨by decide, zero_usable _ _ _, fun j hj => absurd hj (Nat.not_lt_zero j)⟩, ?_⟩
  · decide +kernel
  · have h : ∀ pt, (zeroProt.encrypt (ascii "secret") (List.replicate 16 7) 20000 pt).length = pt.length + 16 :=
      fun pt => ChaChaPoly.C33_lawful.enc_length _ _ _ _
    simp only [Prot.protected, EncryptedPrivateKey.enc, fBlock, Wire.field, Wire.Val.bytes, List.length_append, h]
    decide +kernel

end Loader
end Noise
