import Verif.Echo
import Verif.NamesProps
/-!
# The echo example: protocol identifiers (C80), keys (C81) and packets (C82)
-/

namespace Noise.Echo

/-! ## C80: protocol identifiers -/

theorem mem_of_lookup {α β : Type} [BEq α] [LawfulBEq α] {t : List (α × β)} {x : α} {y : β}
    (h : t.lookup x = some y) : (x, y) ∈ t := by
  induction t with
  | nil => cases h
  | cons p t ih =>
    obtain ⟨a, b⟩ := p
    rw [List.lookup_cons] at h
    split at h
    · rename_i e
      cases h
      rw [eq_of_beq e]
      exact List.mem_cons_self
    · exact List.mem_cons_of_mem _ (ih h)

theorem isSome_lookup {α β : Type} [BEq α] [LawfulBEq α] {t : List (α × β)} {x : α} (h : (t.lookup x).isSome = true) :
    ∃ y, t.lookup x = some y ∧ (x, y) ∈ t := by
  obtain ⟨y, hy⟩ := Option.isSome_iff_exists.1 h
  exact ⟨y, hy, mem_of_lookup hy⟩

theorem fromNoise_ok {nid : ProtocolId} {id : Id} (h : fromNoise nid = (true, id)) :
    ∃ d y, (nid.prefixId, id.psk) ∈ pskOf ∧ (nid.patternId, id.pattern) ∈ patternOf ∧ (nid.cipherId, id.cipher) ∈ cipherOf ∧
      (nid.dhId, d) ∈ dhOf ∧ (nid.hybridId, y) ∈ hybridOf ∧ (nid.hashId, id.hash) ∈ hashOf ∧ id.dh = d ||| y := by
  unfold fromNoise at h
  simp only [Prod.mk.injEq, Bool.and_eq_true] at h
  obtain ⟨⟨⟨⟨⟨⟨a1, a2⟩, a3⟩, a4⟩, a5⟩, a6⟩, e⟩ := h
  obtain ⟨y1, e1, m1⟩ := isSome_lookup a1
  obtain ⟨y2, e2, m2⟩ := isSome_lookup a2
  obtain ⟨y3, e3, m3⟩ := isSome_lookup a3
  obtain ⟨y4, e4, m4⟩ := isSome_lookup a4
  obtain ⟨y5, e5, m5⟩ := isSome_lookup a5
  obtain ⟨y6, e6, m6⟩ := isSome_lookup a6
  rw [e1, e2, e3, e4, e5, e6] at e
  subst e
  exact ⟨y4, y5, m1, m2, m3, m4, m5, m6, rfl⟩

theorem toNoise_ok {id : Id} {nid : ProtocolId} (h : toNoise id = (true, nid)) :
    (id.psk, nid.prefixId) ∈ ofPsk ∧ (id.pattern, nid.patternId) ∈ ofPattern ∧ (id.cipher, nid.cipherId) ∈ ofCipher ∧
      (id.dh &&& 0x0f, nid.dhId) ∈ ofDh ∧ (id.dh &&& 0xf0, nid.hybridId) ∈ ofHybrid ∧ (id.hash, nid.hashId) ∈ ofHash ∧
      nid.reserved = [0, 0, 0, 0] := by
  unfold toNoise at h
  simp only [Prod.mk.injEq, Bool.and_eq_true] at h
  obtain ⟨⟨⟨⟨⟨⟨a1, a2⟩, a3⟩, a4⟩, a5⟩, a6⟩, e⟩ := h
  obtain ⟨y1, e1, m1⟩ := isSome_lookup a1
  obtain ⟨y2, e2, m2⟩ := isSome_lookup a2
  obtain ⟨y3, e3, m3⟩ := isSome_lookup a3
  obtain ⟨y4, e4, m4⟩ := isSome_lookup a4
  obtain ⟨y5, e5, m5⟩ := isSome_lookup a5
  obtain ⟨y6, e6, m6⟩ := isSome_lookup a6
  rw [e1, e2, e3, e4, e5, e6] at e
  subst e
  exact ⟨m1, m2, m3, m4, m5, m6, rfl⟩

theorem getProtocolId_ok {name : Bytes} {id : Id} (h : getProtocolId name = (true, id)) :
    (protocolNameToId name).1 = .none ∧ fromNoise (protocolNameToId name).2 = (true, id) := by
  unfold getProtocolId at h
  split at h
  rename_i err nid e
  split at h
  · cases h
  · rename_i hn
    rw [e]
    exact ⟨Classical.not_not.1 hn, h⟩

/-- **C80**: the server understands from the identifier which the client sends the very protocol that the client was asked
for by name. -/
theorem C80_server_understands (name : Bytes) (id : Id) (h : getProtocolId name = (true, id)) :
    ∃ nid, protocolNameToId name = (.none, nid) ∧ toNoise id = (true, nid) := by
  obtain ⟨h1, h2⟩ := getProtocolId_ok h
  refine ⟨(protocolNameToId name).2, by rw [← h1], ?_⟩
  have hr := (isNameOf_of_parse (s := name) (id := (protocolNameToId name).2) (by rw [← h1])).2
  generalize (protocolNameToId name).2 = nid at *
  obtain ⟨d, y, m1, m2, m3, m4, m5, m6, e⟩ := fromNoise_ok h2
  have t1 : ∀ p ∈ pskOf, ofPsk.lookup p.2 = some p.1 := by decide +kernel
  have t2 : ∀ p ∈ patternOf, ofPattern.lookup p.2 = some p.1 := by decide +kernel
  have t3 : ∀ p ∈ cipherOf, ofCipher.lookup p.2 = some p.1 := by decide +kernel
  have t4 : ∀ p ∈ dhOf, ∀ q ∈ hybridOf, ofDh.lookup ((p.2 ||| q.2) &&& 0x0f) = some p.1 ∧
      ofHybrid.lookup ((p.2 ||| q.2) &&& 0xf0) = some q.1 := by decide +kernel
  have t6 : ∀ p ∈ hashOf, ofHash.lookup p.2 = some p.1 := by decide +kernel
  have u4 := t4 _ m4 _ m5
  unfold toNoise
  simp only [e, t1 _ m1, t2 _ m2, t3 _ m3, u4.1, u4.2, t6 _ m6, ← hr]
  rfl

/-- **C80**: every identifier which the server accepts, whatever bytes it gets, is the one of exactly one protocol name. -/
theorem C80_every_id_has_a_name (id : Id) (nid : ProtocolId) (h : toNoise id = (true, nid)) :
    ∃ name, (protocolNameToId name = (.none, nid) ∧ getProtocolId name = (true, id)) ∧
      ∀ name', protocolNameToId name' = (.none, nid) → name' = name := by
  obtain ⟨m1, m2, m3, m4, m5, m6, hr⟩ := toNoise_ok h
  have t1 : ∀ p ∈ ofPsk, pskOf.lookup p.2 = some p.1 ∧ (idToName catPrefix p.2).isSome := by decide +kernel
  have t2 : ∀ p ∈ ofPattern, patternOf.lookup p.2 = some p.1 ∧ (idToName catPattern p.2).isSome := by decide +kernel
  have t3 : ∀ p ∈ ofCipher, cipherOf.lookup p.2 = some p.1 ∧ (idToName catCipher p.2).isSome := by decide +kernel
  have t4 : ∀ p ∈ ofDh, dhOf.lookup p.2 = some p.1 ∧ (idToName catDH p.2).isSome := by decide +kernel
  have t5 : ∀ p ∈ ofHybrid, hybridOf.lookup p.2 = some p.1 ∧ (p.2 = 0 ∨ p.2 ≠ 0 ∧ (idToName catDH p.2).isSome) := by decide +kernel
  have t6 : ∀ p ∈ ofHash, hashOf.lookup p.2 = some p.1 ∧ (idToName catHash p.2).isSome := by decide +kernel
  have t1 := t1 _ m1
  have t2 := t2 _ m2
  have t3 := t3 _ m3
  have t4 := t4 _ m4
  have t5 := t5 _ m5
  have t6 := t6 _ m6
  obtain ⟨n1, k1⟩ := Option.isSome_iff_exists.1 t1.2
  obtain ⟨n2, k2⟩ := Option.isSome_iff_exists.1 t2.2
  obtain ⟨n3, k3⟩ := Option.isSome_iff_exists.1 t3.2
  obtain ⟨n4, k4⟩ := Option.isSome_iff_exists.1 t4.2
  obtain ⟨n6, k6⟩ := Option.isSome_iff_exists.1 t6.2
  have hname : ∃ s, IsNameOf nid s := by
    rcases t5.2 with h0 | ⟨h0, h5⟩
    · exact ⟨_, n1, n2, n4, n3, n6, k1, k2, k4, k3, k6, Or.inl ⟨h0, rfl⟩⟩
    · obtain ⟨n5, k5⟩ := Option.isSome_iff_exists.1 h5
      exact ⟨_, n1, n2, n4, n3, n6, k1, k2, k4, k3, k6, Or.inr ⟨h0, n5, k5, rfl⟩⟩
  obtain ⟨s, hs⟩ := hname
  have hp := parse_of_isNameOf hs hr
  refine ⟨s, ⟨hp, ?_⟩, fun s' hs' => C28_names_unique s' s nid hs' hp⟩
  unfold getProtocolId
  rw [hp]
  simp only [ne_eq, not_true_eq_false, if_false]
  unfold fromNoise
  simp only [t1.1, t2.1, t3.1, t4.1, t5.1, t6.1, Option.isSome_some, Bool.and_self, Option.getD_some]
  have hd : (id.dh &&& 0x0f) ||| (id.dh &&& 0xf0) = id.dh := by
    apply UInt8.toNat_inj.1
    rw [UInt8.toNat_or, UInt8.toNat_and, UInt8.toNat_and, ← Nat.and_or_distrib_left]
    exact (Nat.and_two_pow_sub_one_eq_mod id.dh.toNat 8).trans (Nat.mod_eq_of_lt id.dh.toNat_lt)
  rw [hd]

/-- **C80**: the identifiers of two names differ if the names do. -/
theorem C80_injective (a b : Bytes) (id : Id) (ha : getProtocolId a = (true, id)) (hb : getProtocolId b = (true, id)) : a = b := by
  obtain ⟨n, h1, h2⟩ := C80_server_understands a id ha
  obtain ⟨n', h3, h4⟩ := C80_server_understands b id hb
  rw [h2] at h4
  cases h4
  exact C28_names_unique a b n h1 h3

/-- The patterns with messages in both directions and keys for each party from the start on, and the same with `hfs`. -/
def echoPatterns : List Bytes :=
  ["NN", "KN", "NK", "KK", "NX", "KX", "XN", "IN", "XK", "IK", "XX", "IX"].flatMap fun s => [ascii s, ascii (s ++ "hfs")]

/-- **C80**: the client accepts exactly the protocol names with one of the 24 patterns. -/
theorem C80_accepts (name : Bytes) : (getProtocolId name).1 = true ↔
    ∃ nid, protocolNameToId name = (.none, nid) ∧ ∃ p ∈ echoPatterns, idToName catPattern nid.patternId = some p := by
  constructor
  · intro h
    obtain ⟨nid, h1, _⟩ := C80_server_understands name (getProtocolId name).2 (by rw [← h])
    obtain ⟨_, h2⟩ := getProtocolId_ok (id := (getProtocolId name).2) (by rw [← h])
    rw [h1] at h2
    obtain ⟨d, y, _, m2, _⟩ := fromNoise_ok h2
    refine ⟨nid, h1, ?_⟩
    have t2 : ∀ p ∈ patternOf, ∃ s ∈ echoPatterns, idToName catPattern p.1 = some s := by decide +kernel
    exact t2 _ m2
  · rintro ⟨nid, h1, p, hp, hn⟩
    have reg : ∀ (c : Int) (t : List (Int × UInt8)),
        (∀ m ∈ algorithmNames, m.inCategory c → (t.lookup (m.id : Int)).isSome) → ∀ i n, idToName c i = some n →
        (t.lookup i).isSome = true := by
      intro c t ht i n hi
      unfold idToName at hi
      split at hi
      · cases hi
      · split at hi
        · rename_i m hm
          have h1 := List.find?_some hm
          have h2 := List.mem_of_find?_eq_some hm
          simp only [Bool.and_eq_true, beq_iff_eq] at h1
          rw [← h1.2]
          exact ht m h2 h1.1
        · cases hi
    obtain ⟨⟨n1, n2, n4, n3, n6, k1, k2, k4, k3, k6, k5⟩, _⟩ := isNameOf_of_parse h1
    have a1 := reg catPrefix pskOf (by decide +kernel) _ _ k1
    have a3 := reg catCipher cipherOf (by decide +kernel) _ _ k3
    have a4 := reg catDH dhOf (by decide +kernel) _ _ k4
    have a6 := reg catHash hashOf (by decide +kernel) _ _ k6
    have a5 : (hybridOf.lookup nid.hybridId).isSome = true := by
      rcases k5 with ⟨h0, _⟩ | ⟨_, n5, k5, _⟩
      · rw [h0]; rfl
      · exact reg catDH hybridOf (by decide +kernel) _ _ k5
    have a2 : (patternOf.lookup nid.patternId).isSome = true := by
      have ids : ∀ s ∈ echoPatterns, (patternOf.lookup (nameToId catPattern s : Int)).isSome = true := by decide +kernel
      have := ids p hp
      rwa [(nameToId_of_idToName hn).1] at this
    unfold getProtocolId
    rw [h1]
    simp only [ne_eq, not_true_eq_false, if_false]
    unfold fromNoise
    simp only [a1, a2, a3, a4, a5, a6]
    rfl

example : getProtocolId (ascii "NoisePSK_XXhfs_25519+NewHope_AESGCM_BLAKE2b") = (true, ⟨1, 0x8a, 1, 0x30, 3⟩) := by
  decide +kernel
example : toNoise ⟨1, 0x8a, 1, 0x30, 3⟩ = (true, ⟨0x4e02, 0x5035, 0x4401, 0x4302, 0x4802, 0x4403, [0, 0, 0, 0]⟩) := by
  decide +kernel
example : (getProtocolId (ascii "Noise_XXfallback_25519_AESGCM_SHA256")).1 = false ∧ (toNoise ⟨0, 0x0c, 0, 0, 0⟩).1 = false := by
  decide +kernel

/-- **C80**: what is left after a refusal. A name that cannot be read leaves an identifier of zeros, and each part of an
identifier that the server does not know becomes zero. -/
theorem C80_refused (name : Bytes) (id : Id) :
    ((protocolNameToId name).1 ≠ .none → getProtocolId name = (false, ⟨0, 0, 0, 0, 0⟩)) ∧
    (1 < id.psk → (toNoise id).2.prefixId = 0) ∧ (0x0b < id.pattern &&& 0x7f → (toNoise id).2.patternId = 0) ∧
    (1 < id.cipher → (toNoise id).2.cipherId = 0) ∧ (2 < id.dh &&& 0x0f → (toNoise id).2.dhId = 0) ∧
    (0x3f < id.dh → (toNoise id).2.hybridId = 0) ∧ (3 < id.hash → (toNoise id).2.hashId = 0) := by
  have all : ∀ (P : UInt8 → Prop), (∀ n : Fin 256, P (UInt8.ofNat n.1)) → ∀ x, P x := by
    intro P h x
    have := h ⟨x.toNat, x.toNat_lt⟩
    rwa [UInt8.ofNat_toNat] at this
  refine ⟨?_, ?_, ?_, ?_, ?_, ?_, ?_⟩
  · intro h
    unfold getProtocolId
    split
    rename_i err nid e
    rw [e] at h
    rw [if_pos h]
  · exact all (fun x => 1 < x → (ofPsk.lookup x).getD 0 = 0) (by decide +kernel) _
  · exact all (fun x => 0x0b < x &&& 0x7f → (ofPattern.lookup x).getD 0 = 0) (by decide +kernel) _
  · exact all (fun x => 1 < x → (ofCipher.lookup x).getD 0 = 0) (by decide +kernel) _
  · exact all (fun x => 2 < x &&& 0x0f → (ofDh.lookup (x &&& 0x0f)).getD 0 = 0) (by decide +kernel) _
  · exact all (fun x => 0x3f < x → (ofHybrid.lookup (x &&& 0xf0)).getD 0 = 0) (by decide +kernel) _
  · exact all (fun x => 3 < x → (ofHash.lookup x).getD 0 = 0) (by decide +kernel) _

end Noise.Echo
