import Verif.LoaderSpec
import Verif.NamesLemmas
import Verif.CertProps
import Verif.BigEndian
/-!
# Lemmas about the model of `src/keys/loader.c`
-/

namespace Noise
namespace Loader
open PB Cert

/-! ## Names -/

theorem parse_iff {name : Bytes} {c h : Nat} : parseProtectName name = some (c, h) ↔ ∃ cn hn,
    name = cn ++ 95 :: (hn ++ 95 :: ascii "PBKDF2") ∧ idToName catCipher c = some cn ∧ idToName catHash h = some hn := by
  constructor
  · intro e
    unfold parseProtectName at e
    obtain ⟨i1, i2⟩ := scan_inv (· == 95) name
    generalize scan (· == 95) name = x at e i1 i2
    obtain ⟨cn, r1⟩ := x
    cases r1 with
    | nil => cases e
    | cons u rest =>
      have hu : u = 95 := by simpa using i2 u rest rfl
      subst hu
      dsimp only at e i1
      split at e
      · cases e
      · rename_i hc
        obtain ⟨j1, j2⟩ := scan_inv (· == 95) rest
        generalize scan (· == 95) rest = y at e j1 j2
        obtain ⟨hn, r2⟩ := y
        cases r2 with
        | nil => cases e
        | cons v rest' =>
          have hv : v = 95 := by simpa using j2 v rest' rfl
          subst hv
          dsimp only at e j1
          split at e
          · cases e
          · rename_i hh
            split at e
            · rename_i hr
              cases e
              exact ⟨cn, hn, by rw [i1, j1, hr], idToName_of_nameToId hc, idToName_of_nameToId hh⟩
            · cases e
  · rintro ⟨cn, hn, rfl, hc, hh⟩
    have k1 := nameToId_of_idToName hc
    have k2 := nameToId_of_idToName hh
    unfold parseProtectName
    rw [scan_append (fun x hx => by simpa using (idToName_clean hc x hx).1) (by decide)]
    dsimp only
    rw [if_neg (by omega), scan_append (fun x hx => by simpa using (idToName_clean hh x hx).1) (by decide)]
    dsimp only
    rw [if_neg (by omega), if_pos rfl]
    simp only [Option.some.injEq, Prod.mk.injEq]
    omega

theorem parse_clean {name : Bytes} {c h : Nat} (e : parseProtectName name = some (c, h)) : ∀ x ∈ name, x ≠ 0 := by
  obtain ⟨cn, hn, rfl, hc, hh⟩ := parse_iff.1 e
  intro x hx
  simp only [List.mem_append, List.mem_cons] at hx
  rcases hx with hx | rfl | hx | rfl | hx
  · exact (idToName_clean hc x hx).2
  · decide
  · exact (idToName_clean hh x hx).2
  · decide
  · revert x
    decide

theorem takeWhile_clean {l : Bytes} (h : ∀ x ∈ l, x ≠ 0) : l.takeWhile (· ≠ 0) = l := by
  induction l with
  | nil => rfl
  | cons x l ih => rw [List.takeWhile_cons, if_pos (by simpa using h x (by simp)), ih fun y hy => h y (by simp [hy])]

/-! ## Key material -/

theorem Prot.material_length {A : Algs} {name : Bytes} {P : Prot} (E : Protects A name P) (pass salt : Bytes) (n : Nat) :
    (P.material pass salt n).length = 40 := by
  have := C31_pbkdf2_length E.hash_lawful pass salt n 40
  rw [E.blockLen, E.hashLen] at this
  exact this

theorem nonceOf_eq (k : Bytes) (h : k.length = 40) : nonceOf k = UInt64.ofNat (Fips180.beNat (k.drop 32)) := by
  have e := BigEndian.take8 k 32 (by omega)
  rw [List.take_of_length_le (by rw [List.length_drop]; omega)] at e
  rw [e, BigEndian.beNat8, ← BigEndian.read64]
  rfl

theorem setKey_ok {A : Algs} {name : Bytes} {P : Prot} (E : Protects A name P) (ctx : E.hash.B.Ctx) (c : CipherState)
    (pass salt : Bytes) (n : Nat) : ∃ ctx', setKey P.CB E.hash.B ctx c pass salt n =
      .ok (ctx', ⟨true, P.key pass salt n, P.nonce pass salt n⟩) := by
  have hb := E.hash_lawful.hashLen_pos
  obtain ⟨ctx', e⟩ := (C31_pbkdf2 E.hash_lawful ctx pass salt n 40).1 (by omega)
  rw [E.blockLen, E.hashLen] at e
  have hl := Prot.material_length E pass salt n
  refine ⟨ctx', ?_⟩
  unfold setKey
  rw [e, Out.bind_ok]
  change (if Err.none ≠ Err.none then Out.ub else _) = _
  rw [if_neg (by simp)]
  have h32 : ((P.material pass salt n).take 32).length = P.CB.keyLen := by rw [List.length_take, hl, E.keyLen]; rfl
  change Out.ok (ctx', (((c.initKey P.CB ((P.material pass salt n).take 32)).2).setNonce (nonceOf (P.material pass salt n))).2) = _
  rw [nonceOf_eq _ hl]
  unfold CipherState.initKey
  rw [if_neg (by rw [h32]; simp)]
  unfold CipherState.setNonce
  simp only [Bool.not_true, Bool.false_eq_true, if_false]
  rw [if_neg (by simp)]
  rfl

/-! ## The saving loop -/

/-- The first salt of those from number `t` on that can be used, if it is among the next `f`. -/
def firstUsable (P : Prot) (pass : Bytes) (salts : Nat → Bytes) : Nat → Nat → Option Nat
  | 0, _ => none
  | f + 1, t => if P.Usable pass (salts t) 20000 then some t else firstUsable P pass salts f (t + 1)

theorem firstUsable_some {P : Prot} {pass : Bytes} {salts : Nat → Bytes} {f t i : Nat}
    (h : firstUsable P pass salts f t = some i) : P.Usable pass (salts i) 20000 ∧ t ≤ i ∧ i < t + f := by
  induction f generalizing t with
  | zero => cases h
  | succ f ih =>
    rw [firstUsable] at h
    split at h
    · rename_i hu
      cases h
      exact ⟨hu, Nat.le_refl _, by omega⟩
    · have := ih h
      exact ⟨this.1, by omega, by omega⟩

theorem firstUsable_none {P : Prot} {pass : Bytes} {salts : Nat → Bytes} {f t : Nat} :
    firstUsable P pass salts f t = none ↔ ∀ i, t ≤ i → i < t + f → ¬ P.Usable pass (salts i) 20000 := by
  induction f generalizing t with
  | zero => simp only [firstUsable, true_iff]; intro i; omega
  | succ f ih =>
    rw [firstUsable]
    split
    · rename_i hu
      simp only [reduceCtorEq, false_iff]
      intro h
      exact h t (Nat.le_refl _) (by omega) hu
    · rename_i hu
      rw [ih]
      constructor
      · intro h i h1 h2
        by_cases hi : i = t
        · subst hi; exact hu
        · exact h i (by omega) (by omega)
      · intro h i h1 h2
        exact h i (by omega) (by omega)

theorem encryptLoop_short {A : Algs} {name : Bytes} {P : Prot} (E : Protects A name P) (pass : Bytes) (salts : Nat → Bytes)
    (pt : Bytes) (hfit : pt.length + P.CB.macLen ≤ maxPayload) :
    ∀ (fuel t : Nat) (ctx : E.hash.B.Ctx) (c : CipherState) (region : Bytes), region.length = pt.length + P.CB.macLen →
    region.take pt.length = pt →
    encryptLoop P.CB E.hash.B pass salts fuel t ctx c region =
      .ok ((firstUsable P pass salts fuel t).map fun i => (salts i, P.encrypt pass (salts i) 20000 pt)) := by
  intro fuel
  induction fuel with
  | zero => intros; rfl
  | succ fuel ih =>
    intro t ctx c region hl hr
    obtain ⟨ctx', e⟩ := setKey_ok E ctx c pass (salts t) 20000
    unfold encryptLoop
    rw [show keyIterations.toNat = 20000 from rfl, e, Out.bind_ok]
    dsimp only
    have hel := E.cipher_lawful.enc_length (P.key pass (salts t) 20000) (P.nonce pass (salts t) 20000) [] pt
    have heo := E.cipher_lawful.enc_ok (P.key pass (salts t) 20000) (P.nonce pass (salts t) 20000) [] pt
    unfold CipherState.encryptWithAd Buf.maxSize
    simp only [Bool.not_true, Bool.false_eq_true, if_false]
    rw [if_neg (by omega), if_neg (by omega), if_neg (by omega)]
    rw [firstUsable]
    by_cases hu : P.nonce pass (salts t) 20000 = 0xFFFFFFFFFFFFFFFF
    · rw [if_pos hu, if_neg (by unfold Prot.Usable; simpa using hu), Out.bind_ok]
      dsimp only
      rw [if_pos (by simp)]
      exact ih _ _ _ _ hl hr
    · have hu' : P.Usable pass (salts t) 20000 := hu
      rw [if_neg hu, if_pos hu', load_ok (by omega)]
      simp only [List.drop_zero, Out.bind_ok]
      rw [hl, Nat.add_sub_cancel, hr, store_ok (by rw [hel]; omega), Out.bind_ok, if_neg (by simp [heo]), Out.bind_ok]
      dsimp only
      rw [if_neg (by simp)]
      rw [List.drop_of_length_le (by rw [hel]; omega)]
      simp only [List.take_zero, List.nil_append, List.append_nil]
      rfl

theorem encryptLoop_long {A : Algs} {name : Bytes} {P : Prot} (E : Protects A name P) (pass : Bytes) (salts : Nat → Bytes) :
    ∀ (fuel t : Nat) (ctx : E.hash.B.Ctx) (c : CipherState) (region : Bytes), region.length > maxPayload →
    encryptLoop P.CB E.hash.B pass salts fuel t ctx c region = .ok none := by
  intro fuel
  induction fuel with
  | zero => intros; rfl
  | succ fuel ih =>
    intro t ctx c region hl
    obtain ⟨ctx', e⟩ := setKey_ok E ctx c pass (salts t) 20000
    have := E.cipher_lawful.macLen_le
    unfold encryptLoop
    rw [show keyIterations.toNat = 20000 from rfl, e, Out.bind_ok]
    dsimp only
    unfold CipherState.encryptWithAd Buf.maxSize
    simp only [Bool.not_true, Bool.false_eq_true, if_false]
    rw [if_neg (by omega), if_pos (by omega), Out.bind_ok]
    dsimp only
    rw [if_pos (by simp)]
    exact ih _ _ _ _ hl

end Loader
end Noise
