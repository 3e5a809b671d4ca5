import Verif.LoaderLemmas
/-!
# What `noise_save_private_key_to_buffer` does, case by case
-/

namespace Noise
namespace Loader
open PB Cert

/-- Memory with the bytes from `lo` up to `hi` cleared. -/
def wipe (d : Bytes) (lo hi : Nat) : Bytes := d.take lo ++ List.replicate (hi - lo) 0 ++ d.drop hi

theorem wipe_length {d : Bytes} {lo hi : Nat} (h1 : lo ≤ hi) (h2 : hi ≤ d.length) : (wipe d lo hi).length = d.length := by
  simp only [wipe, List.length_append, List.length_take, List.length_replicate, List.length_drop]
  omega

theorem wipe_self (d : Bytes) (n : Nat) : wipe d n n = d := by simp [wipe]

theorem clean_eq {d t : Bytes} {a b c : Nat} (h1 : a + t.length = b) (h2 : b ≤ c) (h3 : c ≤ d.length) :
    cleanRegion (some (d.take a ++ t ++ d.drop b)) a c = .ok (some (wipe d a c)) := by
  have ha : (d.take a).length = a := by rw [List.length_take]; omega
  have hat : (d.take a ++ t).length = b := by rw [List.length_append, ha, h1]
  unfold cleanRegion
  dsimp only
  rw [store_ok (by simp only [List.length_append, List.length_replicate, List.length_drop]; omega), Out.bind_ok]
  rw [List.length_replicate, show a + (c - a) = b + (c - b) by omega]
  have e1 : (d.take a ++ t ++ d.drop b).take a = d.take a := by
    rw [List.append_assoc, List.take_append_of_le_length (by omega), List.take_of_length_le (by omega)]
  have e2 : (d.take a ++ t ++ d.drop b).drop (b + (c - b)) = d.drop c := by
    rw [← List.drop_drop, List.drop_left' hat, List.drop_drop, show b + (c - b) = c by omega]
  rw [e1, e2]
  rfl

variable {A : Algs} {name : Bytes} {P : Prot}

/-- There is room for the private key and the MAC, and the key can be encoded. -/
def Room (P : Prot) (key : PrivateKey) (p : PB) : Prop :=
  p.err = .none ∧ Good key.strings ∧ key.enc.length + P.CB.macLen ≤ p.posn

/-- The first part: the unencrypted key is written in front of the space for the MAC. -/
theorem first_write (key : PrivateKey) {p : PB} {d : Bytes} (hd : p.data = some d) (hi : p.Inv) (hs : p.size < 2 ^ 64)
    (hm : P.CB.macLen ≤ p.posn) : ∃ e w t, PrivateKey.write { p with posn := p.posn - P.CB.macLen } 0 key = .ok (e, w) ∧
      w.data = some (d.take w.posn ++ t ++ d.drop (p.posn - P.CB.macLen)) ∧ w.posn + t.length = p.posn - P.CB.macLen ∧
      (e = .none ↔ Room P key p) ∧ (e = .none → t = key.enc) := by
  have hi0 : ({ p with posn := p.posn - P.CB.macLen } : PB).Inv := ⟨by have := hi.posn; simp only; omega, hi.size⟩
  obtain ⟨e, w, e1, m, he, hne⟩ := key.write_writes _ 0 hi0 hs (by decide)
  obtain ⟨t, ht, hp, hdat⟩ := m.part
  simp only [hd, Option.map_some] at hdat
  refine ⟨e, w, t, e1, hdat, hp, ?_, ?_⟩
  · by_cases hp0 : p.err = .none
    · rw [he hp0, m.ok hp0]
      simp only [Room, hp0, true_and, msgBytes, if_true]
      have := hi.posn
      constructor
      · rintro ⟨a, b⟩; exact ⟨a, by omega⟩
      · rintro ⟨a, b⟩; exact ⟨a, by omega⟩
    · exact ⟨fun h => absurd h (hne hp0), fun h => absurd h.1 hp0⟩
  · intro h
    have hp0 : p.err = .none := by
      by_contra hc
      exact hne hc h
    have hw := m.wrote ((he hp0).symm.trans h)
    have := hw.posn
    simp only [msgBytes, if_true] at this ht hp
    exact ht.eq_of_length (by omega)

theorem save_start (E : Protects A name P) {al : Nat → Bool} (h0 : al 0 = true) (h1 : al 1 = true) (salts : Nat → Bytes)
    (fuel : Nat) (key : PrivateKey) (p : PB) (pass : Bytes) :
    savePrivateKey A al salts fuel key p pass name = (do
      let (err, pcopy) ← writePlain P.CB p key
      if err ≠ .none then do
        let d ← cleanRegion pcopy.data pcopy.posn p.posn
        pure (some (err, { p with data := d }))
      else if al 2 = false ∨ al 3 = false then do
        let d ← cleanRegion pcopy.data pcopy.posn p.posn
        pure (some (.noMemory, { p with data := d }))
      else match pcopy.data with
        | none => .ub
        | some d => do
          let region ← load d pcopy.posn (p.posn - pcopy.posn)
          match ← encryptLoop P.CB E.hash.B pass salts fuel 0 E.hash.ctx CipherState.new region with
          | none => pure none
          | some (salt, region) => do
            let d ← store d pcopy.posn region
            let data ← load d pcopy.posn (p.posn - pcopy.posn)
            let d ← cleanRegion (some d) pcopy.posn p.posn
            if al 4 = false ∨ al 5 = false then pure (some (.noMemory, { p with data := d }))
            else do
              let (err, p) ← EncryptedPrivateKey.write { p with data := d } 0
                { version := keyVersion, algorithm := some name, salt := some salt
                  iterations := keyIterations, encryptedData := some data }
              pure (some (err, p))) := by
  unfold savePrivateKey
  rw [E.parse]
  dsimp only
  rw [E.cipher_eq]
  dsimp only
  rw [if_neg (by simp [h0]), if_neg (by simp [E.keyLen]), E.hash_eq]
  dsimp only
  rw [if_neg (by simp [h1])]
  rfl

/-- No room, or the key cannot be encoded. -/
theorem save_noroom (E : Protects A name P) {al : Nat → Bool} (h0 : al 0 = true) (h1 : al 1 = true) (salts : Nat → Bytes)
    (fuel : Nat) (key : PrivateKey) {p : PB} {d : Bytes} (hd : p.data = some d) (hi : p.Inv) (hs : p.size < 2 ^ 64)
    (pass : Bytes) (hr : ¬ Room P key p) : ∃ e lo, e ≠ .none ∧ lo ≤ p.posn ∧
      savePrivateKey A al salts fuel key p pass name = .ok (some (e, { p with data := some (wipe d lo p.posn) })) := by
  have hz := hi.size d hd
  have hp := hi.posn
  rw [save_start E h0 h1]
  by_cases hm : p.posn < P.CB.macLen
  · refine ⟨.invalidLength, p.posn, by simp, Nat.le_refl _, ?_⟩
    rw [writePlain, if_pos hm]
    simp only [Out.pure_eq, Out.bind_ok]
    rw [if_pos (by simp), hd]
    have := clean_eq (d := d) (t := []) (a := p.posn) (b := p.posn) (c := p.posn) rfl (Nat.le_refl _) (by omega)
    rw [List.append_nil, List.take_append_drop] at this
    rw [this, Out.bind_ok]
  · obtain ⟨e, w, t, e1, hdat, hw, he, -⟩ := first_write (P := P) key hd hi hs (by omega)
    have hne : e ≠ .none := fun h => hr (he.1 h)
    refine ⟨e, w.posn, hne, by omega, ?_⟩
    rw [writePlain, if_neg hm, e1]
    simp only [Out.pure_eq, Out.bind_ok]
    rw [if_pos hne, hdat, clean_eq hw (by omega) (by omega), Out.bind_ok]

/-- The encryption object or its first string cannot be allocated. -/
theorem save_nomem (E : Protects A name P) {al : Nat → Bool} (h0 : al 0 = true) (h1 : al 1 = true) (salts : Nat → Bytes)
    (fuel : Nat) (key : PrivateKey) {p : PB} {d : Bytes} (hd : p.data = some d) (hi : p.Inv) (hs : p.size < 2 ^ 64)
    (pass : Bytes) (hr : Room P key p) (ha : al 2 = false ∨ al 3 = false) :
    savePrivateKey A al salts fuel key p pass name = .ok (some (.noMemory,
      { p with data := some (wipe d (p.posn - (key.enc.length + P.CB.macLen)) p.posn) })) := by
  have hz := hi.size d hd
  have hp := hi.posn
  have hroom := hr.2.2
  rw [save_start E h0 h1]
  obtain ⟨e, w, t, e1, hdat, hw, he, ht⟩ := first_write (P := P) key hd hi hs (by omega)
  have hn : e = .none := he.2 hr
  obtain rfl := ht hn
  subst hn
  have hwp : w.posn = p.posn - (key.enc.length + P.CB.macLen) := by omega
  rw [writePlain, if_neg (by omega), e1]
  simp only [Out.pure_eq, Out.bind_ok]
  rw [if_neg (by simp), if_pos ha, hdat, clean_eq hw (by omega) (by omega), Out.bind_ok, hwp]

/-- The rest: the loop runs. -/
theorem save_room (E : Protects A name P) {al : Nat → Bool} (h0 : al 0 = true) (h1 : al 1 = true) (salts : Nat → Bytes)
    (fuel : Nat) (key : PrivateKey) {p : PB} {d : Bytes} (hd : p.data = some d) (hi : p.Inv) (hs : p.size < 2 ^ 64)
    (pass : Bytes) (hr : Room P key p) (h2 : al 2 = true) (h3 : al 3 = true) :
    savePrivateKey A al salts fuel key p pass name =
      if key.enc.length + P.CB.macLen > maxPayload then .ok none
      else match firstUsable P pass salts fuel 0 with
        | none => .ok none
        | some i =>
          let p1 := { p with data := some (wipe d (p.posn - (key.enc.length + P.CB.macLen)) p.posn) }
          if al 4 = false ∨ al 5 = false then .ok (some (.noMemory, p1))
          else EncryptedPrivateKey.write p1 0 (P.protected pass (salts i) name key) >>= fun r => .ok (some r) := by
  have hz := hi.size d hd
  have hp := hi.posn
  have hroom := hr.2.2
  rw [save_start E h0 h1]
  obtain ⟨e, w, t, e1, hdat, hw, he, ht⟩ := first_write (P := P) key hd hi hs (by omega)
  have hn : e = .none := he.2 hr
  obtain rfl := ht hn
  subst hn
  have hwp : p.posn - (key.enc.length + P.CB.macLen) = w.posn := by omega
  rw [writePlain, if_neg (by omega), e1]
  simp only [Out.pure_eq, Out.bind_ok]
  rw [if_neg (by simp), if_neg (by simp [h2, h3])]
  rw [hdat, hwp]
  have hlw : (d.take w.posn).length = w.posn := by rw [List.length_take]; omega
  have hle : (d.take w.posn ++ key.enc).length = p.posn - P.CB.macLen := by rw [List.length_append, hlw]; omega
  generalize hd1 : d.take w.posn ++ key.enc ++ d.drop (p.posn - P.CB.macLen) = d1
  have hl1 : d1.length = d.length := by
    rw [← hd1, List.length_append, hle, List.length_drop]; omega
  have htk : d1.take w.posn = d.take w.posn := by
    rw [← hd1, List.append_assoc, List.take_append_of_le_length (by omega), List.take_of_length_le (by omega)]
  have hdp : d1.drop p.posn = d.drop p.posn := by
    rw [← hd1, show p.posn = (p.posn - P.CB.macLen) + P.CB.macLen by omega, ← List.drop_drop, Nat.add_sub_cancel,
      List.drop_left' hle, List.drop_drop]
  dsimp only
  rw [load_ok (by omega)]
  simp only [Out.bind_ok]
  have hreg : ((d1.drop w.posn).take (p.posn - w.posn)).length = key.enc.length + P.CB.macLen := by
    rw [List.length_take, List.length_drop]; omega
  have hpt : ((d1.drop w.posn).take (p.posn - w.posn)).take key.enc.length = key.enc := by
    rw [List.take_take, Nat.min_eq_left (by omega), ← hd1, List.append_assoc, List.drop_left' hlw, List.take_left]
  by_cases hlong : key.enc.length + P.CB.macLen > maxPayload
  · rw [if_pos hlong, encryptLoop_long E pass salts _ _ _ _ _ (by omega)]
    simp only [Out.bind_ok]
  · rw [if_neg hlong, encryptLoop_short E pass salts key.enc (by omega) _ _ _ _ _ hreg hpt]
    cases firstUsable P pass salts fuel 0 with
    | none => simp only [Option.map_none, Out.bind_ok]
    | some i =>
      simp only [Option.map_some, Out.bind_ok]
      generalize hc : P.encrypt pass (salts i) 20000 key.enc = c
      have hcl : c.length = key.enc.length + P.CB.macLen := by
        rw [← hc]; exact E.cipher_lawful.enc_length _ _ _ _
      rw [store_ok (by omega)]
      simp only [Out.bind_ok]
      rw [htk, show w.posn + c.length = p.posn by omega, hdp, load_ok]
      · simp only [Out.bind_ok]
        rw [clean_eq (by omega) (Nat.le_refl _) (by omega)]
        simp only [Out.bind_ok]
        have : ((d.take w.posn ++ c ++ d.drop p.posn).drop w.posn).take (p.posn - w.posn) = c := by
          rw [List.append_assoc, List.drop_left' hlw, show p.posn - w.posn = c.length by omega, List.take_left]
        rw [this, ← hc]
        rfl
      · simp only [List.length_append, List.length_take, List.length_drop]
        omega

end Loader
end Noise
