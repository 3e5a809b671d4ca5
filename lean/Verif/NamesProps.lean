import Verif.NamesLemmas
import Verif.UtilProps
/-!
# Properties of protocol and algorithm names (C27-C30)
-/

namespace Noise

/-- Specification: `s` is the Noise protocol name of `id`, i.e. the registered names of its
parts joined as `prefix_pattern_dh_cipher_hash`, with `dh+hybrid` when there is a hybrid. -/
def IsNameOf (id : ProtocolId) (s : Bytes) : Prop :=
  ∃ pre pat dh ci ha, idToName catPrefix id.prefixId = some pre ∧
    idToName catPattern id.patternId = some pat ∧ idToName catDH id.dhId = some dh ∧
    idToName catCipher id.cipherId = some ci ∧ idToName catHash id.hashId = some ha ∧
    ((id.hybridId = 0 ∧ s = pre ++ 95 :: (pat ++ 95 :: (dh ++ 95 :: (ci ++ 95 :: ha)))) ∨
     (id.hybridId ≠ 0 ∧ ∃ hy, idToName catDH id.hybridId = some hy ∧
        s = pre ++ 95 :: (pat ++ 95 :: (dh ++ 43 :: (hy ++ 95 :: (ci ++ 95 :: ha))))))

theorem fieldSpec_some {n : Nat} {cat id : Int} {last : Bool} {p : Option Bytes} {s : Bytes} :
    fieldSpec n cat id last p = some s ↔ ∃ t alg, p = some t ∧ idToName cat id = some alg ∧
      t.length + alg.length < n ∧ s = t ++ alg ++ (if last then [] else [95]) := by
  unfold fieldSpec
  cases p with
  | none => simp
  | some t =>
    cases h : idToName cat id with
    | none => simp
    | some alg =>
      simp only [Option.bind_some]
      split
      · rename_i hl
        simp only [Option.some.injEq, exists_and_left, exists_eq_left', hl, true_and]
        exact eq_comm
      · rename_i hl
        simp [hl]

theorem plusSpec_some {n : Nat} {p : Option Bytes} {s : Bytes} :
    plusSpec n p = some s ↔ ∃ t, p = some t ∧ t.length + 1 < n ∧ s = t ++ [43] := by
  unfold plusSpec
  cases p with
  | none => simp
  | some t =>
    simp only [Option.bind_some]
    split
    · rename_i hl
      simp only [Option.some.injEq, exists_eq_left', hl, true_and]
      exact eq_comm
    · rename_i hl
      simp [hl]

theorem formatSpec_iff {n : Nat} {id : ProtocolId} {s : Bytes} :
    formatSpec n id = some s ↔ IsNameOf id s ∧ s.length < n := by
  unfold formatSpec IsNameOf
  dsimp only
  by_cases hh : id.hybridId = 0
  · simp only [if_pos hh, fieldSpec_some]
    constructor
    · rintro ⟨t4, ha, ⟨t3, ci, ⟨t2, dh, ⟨t1, pat, ⟨t0, pre, h0, hpre, l0, rfl⟩, hpat, l1, rfl⟩,
        hdh, l2, rfl⟩, hci, l3, rfl⟩, hha, l4, rfl⟩
      cases h0
      refine ⟨⟨pre, pat, dh, ci, ha, hpre, hpat, hdh, hci, hha, Or.inl ⟨hh, by simp⟩⟩, ?_⟩
      simp at l4 ⊢; omega
    · rintro ⟨⟨pre, pat, dh, ci, ha, hpre, hpat, hdh, hci, hha, h | ⟨h, -⟩⟩, hl⟩
      · obtain ⟨-, rfl⟩ := h
        simp at hl
        refine ⟨_, ha, ⟨_, ci, ⟨_, dh, ⟨_, pat, ⟨[], pre, rfl, hpre, ?_, rfl⟩, hpat, ?_, rfl⟩,
          hdh, ?_, rfl⟩, hci, ?_, rfl⟩, hha, ?_, ?_⟩ <;> simp <;> omega
      · exact absurd hh h
  · simp only [if_neg hh, fieldSpec_some, plusSpec_some]
    constructor
    · rintro ⟨t4, ha, ⟨t3, ci, ⟨th, hy, ⟨t2', ⟨t2, dh, ⟨t1, pat, ⟨t0, pre, h0, hpre, l0, rfl⟩, hpat,
        l1, rfl⟩, hdh, l2, rfl⟩, lp, rfl⟩, hhy, lh, rfl⟩, hci, l3, rfl⟩, hha, l4, rfl⟩
      cases h0
      refine ⟨⟨pre, pat, dh, ci, ha, hpre, hpat, hdh, hci, hha,
        Or.inr ⟨hh, hy, hhy, by simp⟩⟩, ?_⟩
      simp at l4 ⊢; omega
    · rintro ⟨⟨pre, pat, dh, ci, ha, hpre, hpat, hdh, hci, hha, ⟨h, -⟩ | h⟩, hl⟩
      · exact absurd h hh
      · obtain ⟨-, hy, hhy, rfl⟩ := h
        simp at hl
        refine ⟨_, ha, ⟨_, ci, ⟨_, hy, ⟨_, ⟨_, dh, ⟨_, pat, ⟨[], pre, rfl, hpre, ?_, rfl⟩, hpat,
          ?_, rfl⟩, hdh, ?_, rfl⟩, ?_, rfl⟩, hhy, ?_, rfl⟩, hci, ?_, rfl⟩, hha, ?_, ?_⟩ <;>
          simp <;> omega

theorem isNameOf_nonzero {id : ProtocolId} {s : Bytes} (h : IsNameOf id s) : ∀ b ∈ s, b ≠ 0 := by
  obtain ⟨pre, pat, dh, ci, ha, h1, h2, h3, h4, h5, h⟩ := h
  have k := fun {c i : Int} {nm : Bytes} (h : idToName c i = some nm) x hx =>
    (idToName_clean h x hx).2
  intro b hb
  rcases h with ⟨-, rfl⟩ | ⟨-, hy, h6, rfl⟩
  · simp only [List.mem_append, List.mem_cons] at hb
    rcases hb with hb | rfl | hb | rfl | hb | rfl | hb | rfl | hb
    · exact k h1 b hb
    · decide
    · exact k h2 b hb
    · decide
    · exact k h3 b hb
    · decide
    · exact k h4 b hb
    · decide
    · exact k h5 b hb
  · simp only [List.mem_append, List.mem_cons] at hb
    rcases hb with hb | rfl | hb | rfl | hb | rfl | hb | rfl | hb | rfl | hb
    · exact k h1 b hb
    · decide
    · exact k h2 b hb
    · decide
    · exact k h3 b hb
    · decide
    · exact k h6 b hb
    · decide
    · exact k h4 b hb
    · decide
    · exact k h5 b hb

theorem parse_of_isNameOf {id : ProtocolId} {s : Bytes} (h : IsNameOf id s)
    (hr : id.reserved = [0, 0, 0, 0]) : protocolNameToId s = (.none, id) := by
  obtain ⟨pre, pat, dh, ci, ha, h1, h2, h3, h4, h5, h⟩ := h
  have k1 := (nameToId_of_idToName h1).1
  have k2 := (nameToId_of_idToName h2).1
  have k3 := (nameToId_of_idToName h3).1
  have k4 := (nameToId_of_idToName h4).1
  have k5 := (nameToId_of_idToName h5).1
  rcases h with ⟨h0, rfl⟩ | ⟨h0, hy, h6, rfl⟩
  · simp only [protocolNameToId, parseProtocolName, parseField_mid h1, parseField_mid h2,
      parseDual_single h3, parseField_mid h4, parseField_last h5, Option.bind_eq_bind,
      Option.bind_some, k1, k2, k3, k4, k5]
    obtain ⟨a, b, c, d, e, f, g⟩ := id
    simp_all
  · have k6 := (nameToId_of_idToName h6).1
    simp only [protocolNameToId, parseProtocolName, parseField_mid h1, parseField_mid h2,
      parseDual_double h3 h6, parseField_mid h4, parseField_last h5, Option.bind_eq_bind,
      Option.bind_some, k1, k2, k3, k4, k5, k6]
    obtain ⟨a, b, c, d, e, f, g⟩ := id
    simp_all

theorem isNameOf_of_parse {id : ProtocolId} {s : Bytes} (h : protocolNameToId s = (.none, id)) :
    IsNameOf id s ∧ id.reserved = [0, 0, 0, 0] := by
  unfold protocolNameToId at h
  cases hp : parseProtocolName s with
  | none => simp [hp] at h
  | some id' =>
    simp [hp] at h
    subst h
    simp only [parseProtocolName, Option.bind_eq_bind, Option.bind_eq_some_iff] at hp
    obtain ⟨⟨i1, r1⟩, p1, ⟨i2, r2⟩, p2, ⟨i3, i6, r3⟩, p3, ⟨i4, r4⟩, p4, ⟨i5, r5⟩, p5, he⟩ := hp
    simp only [Option.some.injEq] at he
    subst he
    obtain ⟨n1, e1, m1, -⟩ := parseField_mid_inv p1
    obtain ⟨n2, e2, m2, -⟩ := parseField_mid_inv p2
    obtain ⟨n4, e4, m4, -⟩ := parseField_mid_inv p4
    obtain ⟨m5, -⟩ := parseField_last_inv p5
    obtain ⟨n3, m3, -, h3⟩ := parseDual_inv p3
    dsimp only at *
    refine ⟨⟨n1, n2, n3, n4, r4, m1, m2, m3, m4, m5, ?_⟩, rfl⟩
    rcases h3 with ⟨z, e3⟩ | ⟨z, n6, m6, e3⟩
    · left
      refine ⟨by simp [z], by rw [e1, e2, e3, e4]⟩
    · right
      refine ⟨by simpa using z, n6, m6, by rw [e1, e2, e3, e4]⟩

theorem any_ne_zero_false {l : List Int} (h : l.any (· ≠ 0) = false) (hl : l.length = 4) :
    l = [0, 0, 0, 0] := by
  match l, hl with
  | [a, b, c, d], _ => simp at h; simp [h]

/-- Complete behaviour of `noise_protocol_id_to_name`. -/
theorem protocolIdToName_cases (mem : Bytes) (id : ProtocolId) :
    ∃ e m', protocolIdToName mem id = .ok (e, m') ∧ m'.length = mem.length ∧
      (e ≠ .none → cstr m' = []) ∧
      (e = .none ↔ (∃ s, IsNameOf id s ∧ s.length < mem.length) ∧ id.reserved.any (· ≠ 0) = false) ∧
      (∀ s, IsNameOf id s → e = .none → cstr m' = s ∧ m'[s.length]? = some 0) := by
  by_cases h0 : mem.length = 0
  · refine ⟨.invalidLength, mem, by simp [protocolIdToName, h0], rfl, ?_, ?_, ?_⟩
    · intro _; simp [List.length_eq_zero_iff.mp h0, cstr]
    · simp [h0]
    · simp
  · obtain ⟨f, hst, hz, hrun⟩ := protocolIdToName_run mem id h0
    rw [hrun]
    have hlen : f.mem.length = mem.length := hst.1
    have hok : f.err = .none ↔ ∃ s, IsNameOf id s ∧ s.length < mem.length := by
      constructor
      · intro he
        cases hp : formatSpec mem.length id with
        | none => rw [hp] at hst; exact absurd he hst.2
        | some s => exact ⟨s, formatSpec_iff.mp hp⟩
      · rintro ⟨s, hs⟩
        rw [formatSpec_iff.mpr hs] at hst
        exact hst.2.1
    have herr : ∀ (e : Err), e ≠ .none → ∃ m', store f.mem 0 [0] = .ok m' ∧
        m'.length = mem.length ∧ cstr m' = [] := by
      intro e _
      refine ⟨_, store_ok (by simp; omega), ?_, ?_⟩
      · simp; omega
      · simp [cstr]
    unfold checkReserved
    by_cases he : f.err = .none
    · cases hr : id.reserved.any (· ≠ 0) with
      | true =>
        obtain ⟨m', hs, hl, hc⟩ := herr .unknownId (by decide)
        refine ⟨.unknownId, m', ?_, hl, fun _ => hc, by simp, by simp⟩
        simp [he, hs]
      | false =>
        refine ⟨.none, f.mem, ?_, hlen, by simp, by simp [hok.mp he], ?_⟩
        · simp [he]
        · intro s hs _
          obtain ⟨s', hs'⟩ := hok.mp he
          rw [formatSpec_iff.mpr hs'] at hst
          -- the name is unique
          have hss : s = s' := by
            obtain ⟨pre, pat, dh, ci, ha, h1, h2, h3, h4, h5, h⟩ := hs
            obtain ⟨pre', pat', dh', ci', ha', h1', h2', h3', h4', h5', h'⟩ := hs'.1
            rw [h1] at h1'; rw [h2] at h2'; rw [h3] at h3'; rw [h4] at h4'; rw [h5] at h5'
            cases h1'; cases h2'; cases h3'; cases h4'; cases h5'
            rcases h with ⟨z, rfl⟩ | ⟨z, hy, h6, rfl⟩ <;>
              rcases h' with ⟨z', rfl⟩ | ⟨z', hy', h6', rfl⟩
            · rfl
            · exact absurd z z'
            · exact absurd z' z
            · rw [h6] at h6'; cases h6'; rfl
          subst hss
          obtain ⟨-, hp, -, ht⟩ := hst.2
          have hzz := hz he
          rw [hp] at hzz
          refine ⟨?_, hzz⟩
          have hsplit : f.mem = s ++ 0 :: f.mem.drop (s.length + 1) := by
            have hlt : s.length < f.mem.length := by rw [hlen]; exact hs'.2
            have h2 : f.mem[s.length] = 0 := by
              rw [List.getElem?_eq_getElem hlt] at hzz; simpa using hzz
            calc f.mem = f.mem.take s.length ++ f.mem.drop s.length :=
                  (List.take_append_drop _ _).symm
              _ = s ++ f.mem.drop s.length := by rw [ht]
              _ = s ++ 0 :: f.mem.drop (s.length + 1) := by
                  rw [List.drop_eq_getElem_cons hlt, h2]
          unfold cstr
          rw [hsplit]
          simpa using takeWhile_ne_zero_append (rest := f.mem.drop (s.length + 1)) (isNameOf_nonzero hs)
    · obtain ⟨m', hs, hl, hc⟩ := herr f.err he
      refine ⟨f.err, m', ?_, hl, fun _ => hc, ?_, ?_⟩
      · simp [he, hs]
      · constructor
        · intro h; exact absurd h he
        · rintro ⟨h, -⟩; exact absurd (hok.mpr h) he
      · intro _ _ h; exact absurd h he

/-! ## C27 -/

/-- C27: whatever `noise_protocol_id_to_name` writes is parsed back to the same identifier. -/
theorem C27_id_to_name_to_id (mem m' : Bytes) (id : ProtocolId) (hr : id.reserved.length = 4)
    (h : protocolIdToName mem id = .ok (.none, m')) :
    protocolNameToId (cstr m') = (.none, id) := by
  obtain ⟨e, m, h1, _, _, hok, hs⟩ := protocolIdToName_cases mem id
  rw [h1] at h
  cases h
  obtain ⟨⟨s, hs', _⟩, hres⟩ := hok.mp rfl
  rw [(hs s hs' rfl).1]
  exact parse_of_isNameOf hs' (any_ne_zero_false hres hr)

/-- C27: formatting succeeds for every identifier made of registered algorithm identifiers (and
zero reserved fields) exactly when the buffer holds the name and its terminator. -/
theorem C27_id_to_name_succeeds (mem : Bytes) (id : ProtocolId) (s : Bytes)
    (hs : IsNameOf id s) (hr : id.reserved = [0, 0, 0, 0]) :
    (∃ m', protocolIdToName mem id = .ok (.none, m') ∧ cstr m' = s) ↔ s.length < mem.length := by
  obtain ⟨e, m, h1, hl, _, hok, hs'⟩ := protocolIdToName_cases mem id
  constructor
  · rintro ⟨m', h, hc⟩
    rw [h1] at h
    cases h
    have h2 := (hs' s hs rfl).2
    rw [← hl]
    rcases Nat.lt_or_ge s.length m.length with h | h
    · exact h
    · rw [List.getElem?_eq_none h] at h2; cases h2
  · intro hlt
    have he : e = .none := hok.mpr ⟨⟨s, hs, hlt⟩, by simp [hr]⟩
    subst he
    exact ⟨m, h1, (hs' s hs rfl).1⟩

example : protocolIdToName (List.replicate 40 7) ⟨0x4E01, 0x5009, 0x4401, 0x4301, 0x4801, 0, [0, 0, 0, 0]⟩ =
    .ok (.none, ascii "Noise_XX_25519_ChaChaPoly_BLAKE2s" ++ [0] ++ List.replicate 6 7) := by
  decide +kernel

example : IsNameOf ⟨0x4E02, 0x5035, 0x4402, 0x4302, 0x4804, 0x4403, [0, 0, 0, 0]⟩
    (ascii "NoisePSK_XXhfs_448+NewHope_AESGCM_SHA512") :=
  ⟨ascii "NoisePSK", ascii "XXhfs", ascii "448", ascii "AESGCM", ascii "SHA512",
    by decide +kernel, by decide +kernel, by decide +kernel, by decide +kernel,
    by decide +kernel, Or.inr ⟨by decide, ascii "NewHope", by decide +kernel, by decide +kernel⟩⟩

/-! ## C28 -/

/-- C28: an accepted name is exactly what formatting its identifier produces. -/
theorem C28_name_to_id_to_name (s mem : Bytes) (id : ProtocolId)
    (h : protocolNameToId s = (.none, id)) (hl : s.length < mem.length) :
    ∃ m', protocolIdToName mem id = .ok (.none, m') ∧ cstr m' = s := by
  obtain ⟨h1, h2⟩ := isNameOf_of_parse h
  exact (C27_id_to_name_succeeds mem id s h1 h2).mpr hl

/-- C28: no two different names are accepted for the same protocol. -/
theorem C28_names_unique (s t : Bytes) (id : ProtocolId)
    (hs : protocolNameToId s = (.none, id)) (ht : protocolNameToId t = (.none, id)) : s = t := by
  obtain ⟨m1, h1, c1⟩ := C28_name_to_id_to_name s (List.replicate (s.length + t.length + 1) 0) id hs
    (by simp; omega)
  obtain ⟨m2, h2, c2⟩ := C28_name_to_id_to_name t (List.replicate (s.length + t.length + 1) 0) id ht
    (by simp; omega)
  rw [h1] at h2
  cases h2
  rw [← c1, ← c2]

/-- C28: a rejected name leaves the all-zero identifier and the error is `UNKNOWN_NAME`. -/
theorem C28_rejected_is_zero (s : Bytes) (e : Err) (id : ProtocolId)
    (h : protocolNameToId s = (e, id)) (he : e ≠ .none) :
    e = .unknownName ∧ id = ⟨0, 0, 0, 0, 0, 0, [0, 0, 0, 0]⟩ := by
  unfold protocolNameToId at h
  split at h
  · cases h; exact absurd rfl he
  · cases h; exact ⟨rfl, rfl⟩

/-- C28: the accepted names are exactly the well-formed protocol names. -/
theorem C28_accepts_exactly_protocol_names (s : Bytes) :
    (protocolNameToId s).1 = .none ↔ ∃ id, IsNameOf id s ∧ id.reserved = [0, 0, 0, 0] := by
  constructor
  · intro h
    exact ⟨(protocolNameToId s).2, isNameOf_of_parse (by rw [← h])⟩
  · rintro ⟨id, h1, h2⟩
    rw [parse_of_isNameOf h1 h2]

example : protocolNameToId (ascii "NoisePSK_XXfallback+hfs_448+NewHope_AESGCM_SHA512") =
    (.none, ⟨0x4E02, 0x503C, 0x4402, 0x4302, 0x4804, 0x4403, [0, 0, 0, 0]⟩) := by decide +kernel
example : (protocolNameToId (ascii "Noise_XX_25519_ChaChaPoly_BLAKE2s_")).1 = .unknownName := by
  decide +kernel

/-! ## C29 -/

/-- C29: formatting is always defined (every write lies inside the caller's buffer), keeps the
buffer's size, NUL-terminates inside it on success and leaves an empty string on error. -/
theorem C29_formatting_stays_inside (mem : Bytes) (id : ProtocolId) :
    ∃ e m', protocolIdToName mem id = .ok (e, m') ∧ m'.length = mem.length ∧
      (e = .none → ∃ i, i < mem.length ∧ m'[i]? = some 0 ∧ (cstr m').length = i) ∧
      (e ≠ .none → mem ≠ [] → m'.head? = some 0) := by
  obtain ⟨e, m, h1, hl, hc, hok, hs'⟩ := protocolIdToName_cases mem id
  refine ⟨e, m, h1, hl, ?_, ?_⟩
  · intro he
    obtain ⟨⟨s, hs, hlt⟩, _⟩ := hok.mp he
    obtain ⟨a, b⟩ := hs' s hs he
    exact ⟨s.length, hlt, b, by rw [a]⟩
  · intro he hm
    have := hc he
    cases m with
    | nil => simp at hl; exact absurd (List.length_eq_zero_iff.mp hl.symm) hm
    | cons x xs =>
      by_cases hx : x = 0
      · simp [hx]
      · simp [cstr, hx] at this

example : protocolIdToName (List.replicate 33 7) ⟨0x4E01, 0x5009, 0x4401, 0x4301, 0x4801, 0, [0, 0, 0, 0]⟩ =
    .ok (.invalidLength, 0 :: (ascii "oise_XX_25519_ChaChaPoly_" ++ List.replicate 7 7)) := by
  decide +kernel

/-! ## C30 -/

/-- C30: the name found for an identifier maps back to the identifier, in every category
(0 meaning any category). -/
theorem C30_id_name_id (category id : Int) (nm : Bytes) (h : idToName category id = some nm) :
    (nameToId category nm : Int) = id := (nameToId_of_idToName h).1

/-- C30: the identifier found for a name maps back to that name. -/
theorem C30_name_id_name (category : Int) (nm : Bytes) (h : nameToId category nm ≠ 0) :
    idToName category (nameToId category nm) = some nm := idToName_of_nameToId h

/-- The identifiers defined in `include/noise/protocol/constants.h:35-108`, listed
independently of the name table: category letter and numbers. -/
def definedIds : List (Int × List Int) :=
  [(0x43, [1, 2]), (0x48, [1, 2, 3, 4]), (0x44, [1, 2, 3]),
   (0x50, [1, 2, 3, 4, 5, 6, 7, 8, 9, 10, 11, 12, 13, 14, 15, 16, 32, 33, 34, 35, 36, 37,
      48, 49, 50, 51, 52, 53, 54, 55, 56, 57, 58, 59, 60, 80, 81, 82, 83, 84]),
   (0x4E, [1, 2]), (0x53, [1])]

/-- C30: exactly the defined identifiers have names, each in its own category. -/
theorem C30_registered_exactly (category id : Int) :
    (idToName category id).isSome = true ↔
      ∃ p ∈ definedIds, ∃ k ∈ p.2, id = p.1 * 256 + k ∧ (category = 0 ∨ category = p.1 * 256) := by
  constructor
  · intro h
    cases hn : idToName category id with
    | none => simp [hn] at h
    | some nm =>
      obtain ⟨m, hm, hc, hid, -⟩ := idToName_some hn
      have key : ∀ m ∈ algorithmNames, ∃ p ∈ definedIds, ∃ k ∈ p.2,
          (m.id : Int) = p.1 * 256 + k ∧ ((m.id &&& 0xFF00 : Nat) : Int) = p.1 * 256 := by
        decide +kernel
      obtain ⟨p, hp, k, hk, h1, h2⟩ := key m hm
      refine ⟨p, hp, k, hk, by rw [← hid, h1], ?_⟩
      rcases inCategory_cases hc with h | h
      · exact Or.inl h
      · exact Or.inr (by rw [h, h2])
  · rintro ⟨p, hp, k, hk, rfl, h⟩
    have key : ∀ p ∈ definedIds, ∀ k ∈ p.2, (idToName 0 (p.1 * 256 + k)).isSome = true ∧
        (idToName (p.1 * 256) (p.1 * 256 + k)).isSome = true := by decide +kernel
    rcases h with rfl | rfl
    · exact (key p hp k hk).1
    · exact (key p hp k hk).2

/-- C30: two names in a category with the same non-zero identifier are equal. -/
theorem C30_names_injective (category : Int) (a b : Bytes) (h : nameToId category a = nameToId category b)
    (h0 : nameToId category a ≠ 0) : a = b := by
  have h1 := C30_name_id_name category a h0
  have h2 := C30_name_id_name category b (h ▸ h0)
  rw [h] at h1
  exact Option.some.inj (h1.symm.trans h2)

/-- The names that `include/noise/protocol/constants.h:35-108` and the Noise specification give to the
identifiers: in each category, number and name. -/
def definedNames : List (Int × List (Nat × String)) :=
  [(0x43, [(1, "ChaChaPoly"), (2, "AESGCM")]),
   (0x48, [(1, "BLAKE2s"), (2, "BLAKE2b"), (3, "SHA256"), (4, "SHA512")]),
   (0x44, [(1, "25519"), (2, "448"), (3, "NewHope")]),
   (0x50, [(1, "N"), (2, "X"), (3, "K")] ++
     [(4, "NN"), (5, "NK"), (6, "NX"), (7, "XN"), (8, "XK"), (9, "XX"), (10, "KN"), (11, "KK"), (12, "KX"),
      (13, "IN"), (14, "IK"), (15, "IX"), (16, "XXfallback")] ++
     [(32, "Xnoidh"), (33, "NXnoidh"), (34, "XXnoidh"), (35, "KXnoidh"), (36, "IKnoidh"), (37, "IXnoidh")] ++
     [(48, "NNhfs"), (49, "NKhfs"), (50, "NXhfs"), (51, "XNhfs"), (52, "XKhfs"), (53, "XXhfs"), (54, "KNhfs"),
      (55, "KKhfs"), (56, "KXhfs"), (57, "INhfs"), (58, "IKhfs"), (59, "IXhfs"), (60, "XXfallback+hfs")] ++
     [(80, "NXnoidh+hfs"), (81, "XXnoidh+hfs"), (82, "KXnoidh+hfs"), (83, "IKnoidh+hfs"), (84, "IXnoidh+hfs")]),
   (0x4E, [(1, "Noise"), (2, "NoisePSK")]), (0x53, [(1, "Ed25519")])]

/-- C30: every name and identifier is mapped as documented, in its own category and in the category 0 of all
names. -/
theorem C30_documented : ∀ p ∈ definedNames, ∀ k ∈ p.2, ∀ c ∈ [0, p.1 * 256],
    idToName c (p.1 * 256 + k.1) = some (ascii k.2) ∧ (nameToId c (ascii k.2) : Int) = p.1 * 256 + k.1 := by
  decide +kernel

/-- C30: the names are those of all defined identifiers. -/
theorem C30_documented_all : definedNames.map (fun p => (p.1, p.2.map fun k => (k.1 : Int))) = definedIds := by
  decide +kernel

/-- C30: the categories, which are letters in the upper byte: C, H, D, P, N, S. -/
theorem C30_categories : [catCipher, catHash, catDH, catPattern, catPrefix, catSign] =
    (ascii "CHDPNS").map fun c => (c.toNat : Int) * 256 := by decide +kernel

example : idToName 0 0x5054 = some (ascii "IXnoidh+hfs") := by decide +kernel
example : nameToId catHash (ascii "BLAKE2b") = 0x4802 ∧ nameToId catCipher (ascii "BLAKE2b") = 0 := by
  decide +kernel
example : idToName catDH 0x4804 = none ∧ idToName 0 (-5) = none := by decide +kernel

end Noise
