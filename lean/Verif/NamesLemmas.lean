import Verif.Names
/-!
# Helper lemmas for `Verif.NamesProps`
-/

namespace Noise

theorem table_facts : ∀ m ∈ algorithmNames,
    m.nameLen = m.name.length ∧ 0 < m.id ∧ (∀ c ∈ m.name, c ≠ 95 ∧ c ≠ 0) ∧
    ((m.id &&& 0xFF00) = 0x4400 → ∀ c ∈ m.name, c ≠ 43) ∧
    idToName 0 m.id = some m.name ∧ nameToId 0 m.name = m.id ∧
    idToName ((m.id &&& 0xFF00 : Nat) : Int) m.id = some m.name ∧
    nameToId ((m.id &&& 0xFF00 : Nat) : Int) m.name = m.id := by
  decide +kernel

theorem inCategory_cases {m : IdMapping} {c : Int} (h : m.inCategory c = true) :
    c = 0 ∨ c = ((m.id &&& 0xFF00 : Nat) : Int) := by
  unfold IdMapping.inCategory at h
  by_cases hc : c = 0
  · exact Or.inl hc
  · right
    simp [hc] at h
    exact h.symm

theorem idToName_some {c id : Int} {nm : Bytes} (h : idToName c id = some nm) :
    ∃ m ∈ algorithmNames, m.inCategory c = true ∧ (m.id : Int) = id ∧ m.name = nm := by
  unfold idToName at h
  split at h
  · cases h
  · split at h
    · rename_i m hm
      have h1 := List.find?_some hm
      have h2 := List.mem_of_find?_eq_some hm
      simp at h1 h
      exact ⟨m, h2, h1.1, h1.2, h⟩
    · cases h

theorem nameToId_ne_zero {c : Int} {nm : Bytes} (h : nameToId c nm ≠ 0) :
    ∃ m ∈ algorithmNames, m.inCategory c = true ∧ m.id = nameToId c nm ∧ m.name = nm := by
  unfold nameToId at h ⊢
  split at h
  · rename_i m hm
    have h1 := List.find?_some hm
    have h2 := List.mem_of_find?_eq_some hm
    simp at h1
    refine ⟨m, h2, h1.1, rfl, ?_⟩
    have := (table_facts m h2).1
    have h3 := h1.2.2
    rw [← h1.2.1, this, List.take_length] at h3
    exact h3
  · exact absurd rfl h

/-- Looking up the id of a name found for an id gives back that id. -/
theorem nameToId_of_idToName {c id : Int} {nm : Bytes} (h : idToName c id = some nm) :
    (nameToId c nm : Int) = id ∧ 0 < id := by
  obtain ⟨m, hm, hc, hid, hn⟩ := idToName_some h
  have f := table_facts m hm
  subst hn; subst hid
  rcases inCategory_cases hc with rfl | rfl
  · exact ⟨by rw [f.2.2.2.2.2.1], by have := f.2.1; omega⟩
  · exact ⟨by rw [f.2.2.2.2.2.2.2], by have := f.2.1; omega⟩

/-- Looking up the name of an id found for a name gives back that name. -/
theorem idToName_of_nameToId {c : Int} {nm : Bytes} (h : nameToId c nm ≠ 0) :
    idToName c (nameToId c nm) = some nm := by
  obtain ⟨m, hm, hc, hid, hn⟩ := nameToId_ne_zero h
  have f := table_facts m hm
  rw [← hid, ← hn]
  rcases inCategory_cases hc with rfl | rfl
  · exact f.2.2.2.2.1
  · exact f.2.2.2.2.2.2.1

theorem idToName_clean {c id : Int} {nm : Bytes} (h : idToName c id = some nm) :
    ∀ x ∈ nm, x ≠ 95 ∧ x ≠ 0 := by
  obtain ⟨m, hm, _, _, hn⟩ := idToName_some h
  subst hn
  exact (table_facts m hm).2.2.1

theorem idToName_dh_clean {id : Int} {nm : Bytes} (h : idToName catDH id = some nm) :
    ∀ x ∈ nm, x ≠ 43 := by
  obtain ⟨m, hm, hc, _, hn⟩ := idToName_some h
  subst hn
  rcases inCategory_cases hc with h0 | h0
  · exact absurd h0 (by decide)
  · exact (table_facts m hm).2.2.2.1 (by unfold catDH at h0; omega)

theorem scan_append {stop : UInt8 → Bool} {a : Bytes} {c : UInt8} {r : Bytes}
    (ha : ∀ x ∈ a, stop x = false) (hc : stop c = true) :
    scan stop (a ++ c :: r) = (a, c :: r) := by
  induction a with
  | nil => simp [scan, hc]
  | cons x xs ih =>
    have := ih (fun y hy => ha y (List.mem_cons_of_mem _ hy))
    simp [scan, ha x (List.mem_cons_self ..), this]

theorem scan_end {stop : UInt8 → Bool} {a : Bytes} (ha : ∀ x ∈ a, stop x = false) :
    scan stop a = (a, []) := by
  induction a with
  | nil => simp [scan]
  | cons x xs ih =>
    have := ih (fun y hy => ha y (List.mem_cons_of_mem _ hy))
    simp [scan, ha x (List.mem_cons_self ..), this]

theorem scan_inv (stop : UInt8 → Bool) (l : Bytes) :
    l = (scan stop l).1 ++ (scan stop l).2 ∧
    ∀ c r, (scan stop l).2 = c :: r → stop c = true := by
  induction l with
  | nil => simp [scan]
  | cons x xs ih =>
    unfold scan
    split
    · rename_i h
      refine ⟨by simp, ?_⟩
      intro c r hr
      simp at hr
      rw [← hr.1]; exact h
    · refine ⟨?_, ih.2⟩
      simp only [List.cons_append]
      rw [← ih.1]

theorem parseField_mid {c id : Int} {nm r : Bytes} (h : idToName c id = some nm) :
    parseField c (nm ++ 95 :: r) false = some (nameToId c nm, r) := by
  have hclean := idToName_clean h
  have hs : scan (· == 95) (nm ++ 95 :: r) = (nm, 95 :: r) :=
    scan_append (by intro x hx; simpa using (hclean x hx).1) (by decide)
  have := nameToId_of_idToName h
  unfold parseField
  simp only [hs]
  have h0 : nameToId c nm ≠ 0 := by omega
  simp [h0]

theorem parseField_last {c id : Int} {nm : Bytes} (h : idToName c id = some nm) :
    parseField c nm true = some (nameToId c nm, []) := by
  have hclean := idToName_clean h
  have hs : scan (· == 95) nm = (nm, []) :=
    scan_end (by intro x hx; simpa using (hclean x hx).1)
  have := nameToId_of_idToName h
  unfold parseField
  simp only [hs]
  have h0 : nameToId c nm ≠ 0 := by omega
  simp [h0]

theorem parseDual_single {id : Int} {nm r : Bytes} (h : idToName catDH id = some nm) :
    parseDualField catDH (nm ++ 95 :: r) = some (nameToId catDH nm, 0, r) := by
  have hclean := idToName_clean h
  have hclean2 := idToName_dh_clean h
  have hs : scan (fun c => c == 95 || c == 43) (nm ++ 95 :: r) = (nm, 95 :: r) :=
    scan_append (by intro x hx; simp [(hclean x hx).1, hclean2 x hx]) (by decide)
  have := nameToId_of_idToName h
  unfold parseDualField
  simp only [hs]
  have h0 : nameToId catDH nm ≠ 0 := by omega
  simp [h0]

theorem parseDual_double {id id2 : Int} {nm nm2 r : Bytes} (h : idToName catDH id = some nm)
    (h2 : idToName catDH id2 = some nm2) :
    parseDualField catDH (nm ++ 43 :: (nm2 ++ 95 :: r)) =
      some (nameToId catDH nm, nameToId catDH nm2, r) := by
  have hclean := idToName_clean h
  have hclean2 := idToName_dh_clean h
  have hs : scan (fun c => c == 95 || c == 43) (nm ++ 43 :: (nm2 ++ 95 :: r)) =
      (nm, 43 :: (nm2 ++ 95 :: r)) :=
    scan_append (by intro x hx; simp [(hclean x hx).1, hclean2 x hx]) (by decide)
  have := nameToId_of_idToName h
  have := nameToId_of_idToName h2
  unfold parseDualField
  simp only [hs]
  have h0 : nameToId catDH nm ≠ 0 := by omega
  have h1 : nameToId catDH nm2 ≠ 0 := by omega
  have := parseField_mid (r := r) h2
  simp [h0, h1, this]

theorem parseField_mid_inv {c : Int} {s r : Bytes} {id : Nat}
    (h : parseField c s false = some (id, r)) :
    ∃ nm, s = nm ++ 95 :: r ∧ idToName c id = some nm ∧ id ≠ 0 := by
  unfold parseField at h
  have hs := scan_inv (· == 95) s
  generalize scan (· == 95) s = p at h hs
  obtain ⟨a, b⟩ := p
  dsimp only at h hs
  simp only [Bool.false_eq_true, if_false] at h
  split at h
  · cases h
  · rename_i x rest'
    split at h
    · cases h
    · rename_i h0
      simp at h
      have hx := hs.2 x rest' rfl
      simp at hx
      refine ⟨a, ?_, ?_, ?_⟩
      · rw [hs.1, hx, h.2]
      · rw [← h.1]; exact idToName_of_nameToId h0
      · rw [← h.1]; exact h0

theorem parseField_last_inv {c : Int} {s r : Bytes} {id : Nat}
    (h : parseField c s true = some (id, r)) :
    idToName c id = some s ∧ id ≠ 0 := by
  unfold parseField at h
  have hs := scan_inv (· == 95) s
  generalize scan (· == 95) s = p at h hs
  obtain ⟨a, b⟩ := p
  dsimp only at h hs
  simp only [if_true] at h
  split at h
  · cases h
  · split at h
    · cases h
    · rename_i h0
      simp at h
      have : s = a := by rw [hs.1]; simp
      rw [← h.1, this]
      exact ⟨idToName_of_nameToId h0, h0⟩

theorem parseDual_inv {s r : Bytes} {id id2 : Nat}
    (h : parseDualField catDH s = some (id, id2, r)) :
    ∃ nm, idToName catDH id = some nm ∧ id ≠ 0 ∧
      ((id2 = 0 ∧ s = nm ++ 95 :: r) ∨
       (id2 ≠ 0 ∧ ∃ nm2, idToName catDH id2 = some nm2 ∧ s = nm ++ 43 :: (nm2 ++ 95 :: r))) := by
  unfold parseDualField at h
  have hs := scan_inv (fun c => c == 95 || c == 43) s
  generalize scan (fun c => c == 95 || c == 43) s = p at h hs
  obtain ⟨a, b⟩ := p
  dsimp only at h hs
  split at h
  · cases h
  · rename_i x rest'
    split at h
    · cases h
    · rename_i h0
      have hx := hs.2 x rest' rfl
      split at h
      · rename_i hx95
        simp at h
        refine ⟨a, ?_, ?_, Or.inl ⟨h.2.1.symm, ?_⟩⟩
        · rw [← h.1]; exact idToName_of_nameToId h0
        · rw [← h.1]; exact h0
        · rw [hs.1, hx95, h.2.2]
      · rename_i hx95
        simp [hx95] at hx
        cases hp : parseField catDH rest' false with
        | none => simp [hp] at h
        | some q =>
          obtain ⟨i2, r2⟩ := q
          simp [hp] at h
          obtain ⟨hi2, h1, h2, h3⟩ := h
          subst h1; subst h2; subst h3
          obtain ⟨nm2, hr, hn2, _⟩ := parseField_mid_inv hp
          refine ⟨a, idToName_of_nameToId h0, h0, Or.inr ⟨hi2, nm2, hn2, ?_⟩⟩
          rw [hs.1, hx, hr]

/-- Abstract formatting step: the text so far, or `none` after an error. -/
def fieldSpec (n : Nat) (cat id : Int) (last : Bool) (p : Option Bytes) : Option Bytes :=
  p.bind fun s => (idToName cat id).bind fun alg =>
    if s.length + alg.length < n then some (s ++ alg ++ if last then [] else [95]) else none

/-- The formatting state holds the text `p`. -/
def St (n : Nat) (p : Option Bytes) (f : Fmt) : Prop :=
  f.mem.length = n ∧
  match p with
  | some s => f.err = .none ∧ f.posn = s.length ∧ f.posn ≤ n ∧ f.mem.take s.length = s
  | none => f.err ≠ .none

theorem store_take {data src out : Bytes} {off : Nat} (h : store data off src = .ok out) :
    out.take (off + src.length) = data.take off ++ src := by
  unfold store at h
  split at h
  · rename_i hl
    cases h
    have : (data.take off ++ src).length = off + src.length := by simp; omega
    rw [← this, List.take_left]
  · cases h

theorem formatField_st {n : Nat} {p : Option Bytes} {f : Fmt} (cat id : Int) (last : Bool)
    (h : St n p f) : ∃ f', formatField cat id last f = .ok f' ∧
      St n (fieldSpec n cat id last p) f' ∧
      (last = true → f'.err = .none → f'.mem[f'.posn]? = some 0) := by
  obtain ⟨hn, h⟩ := h
  cases p with
  | none =>
    simp only at h
    refine ⟨f, by simp [formatField, h], ⟨hn, by simpa [fieldSpec] using h⟩, fun _ he => absurd he h⟩
  | some s =>
    obtain ⟨he, hp, hle, ht⟩ := h
    unfold formatField
    simp only [he, ne_eq, not_true, if_false, fieldSpec, Option.bind_some]
    cases hnm : idToName cat id with
    | none => exact ⟨_, rfl, ⟨hn, by simp⟩, by simp⟩
    | some alg =>
      have hsub : sizeSub f.mem.length f.posn = n - s.length := by
        unfold sizeSub; rw [hn, hp]; split <;> omega
      simp only [hsub, Option.bind_some]
      by_cases hfit : s.length + alg.length < n
      · have h1 : ¬ (alg.length ≥ n - s.length) := by omega
        obtain ⟨m1, hm1⟩ : ∃ m1, store f.mem f.posn alg = .ok m1 :=
          ⟨_, store_ok (by omega)⟩
        have hl1 := store_length hm1
        have ht1 := store_take hm1
        simp only [h1, if_false, hm1, Out.bind_ok, hfit, if_true]
        cases last with
        | false =>
          obtain ⟨m2, hm2⟩ : ∃ m2, store m1 (f.posn + alg.length) [95] = .ok m2 :=
            ⟨_, store_ok (by simp; omega)⟩
          have hl2 := store_length hm2
          have ht2 := store_take hm2
          simp only [Bool.not_false, if_true, hm2, Out.bind_ok, Out.pure_eq]
          refine ⟨_, rfl, ⟨?_, ?_⟩, by simp⟩
          · simp; omega
          · refine ⟨rfl, by simp [hp] <;> omega, by dsimp only; omega, ?_⟩
            rw [ht1, hp, ht] at ht2
            simpa [Nat.add_assoc] using ht2
        | true =>
          obtain ⟨m2, hm2⟩ : ∃ m2, store m1 (f.posn + alg.length) [0] = .ok m2 :=
            ⟨_, store_ok (by simp; omega)⟩
          have hl2 := store_length hm2
          have ht2 := store_take hm2
          rw [ht1, hp, ht] at ht2
          simp only [Bool.not_true, Bool.false_eq_true, if_false, hm2, Out.bind_ok, Out.pure_eq]
          refine ⟨_, rfl, ⟨?_, ?_⟩, ?_⟩
          · simp; omega
          · refine ⟨rfl, by simp [hp], by dsimp only; omega, ?_⟩
            have := congrArg (List.take (s.length + alg.length)) ht2
            simp only [List.length_cons, List.length_nil, List.take_take] at this
            rw [Nat.min_eq_left (by omega)] at this
            simp only [if_true]
            rw [List.append_nil, List.length_append, this,
              ← List.length_append, List.take_left]
          · intro _ _
            have := congrArg (fun l => l[s.length + alg.length]?) ht2
            simp only [List.length_cons, List.length_nil, List.getElem?_take] at this
            rw [if_pos (by omega), List.getElem?_append_right (by simp)] at this
            simp only [hp]
            rw [this]; simp
      · have h1 : (alg.length ≥ n - s.length) := by omega
        simp only [h1, if_true, hfit, if_false]
        exact ⟨_, rfl, ⟨hn, by simp⟩, by simp⟩

/-- Abstract `'+'` step. -/
def plusSpec (n : Nat) (p : Option Bytes) : Option Bytes :=
  p.bind fun s => if s.length + 1 < n then some (s ++ [43]) else none

theorem formatPlus_st {n : Nat} {p : Option Bytes} {f : Fmt} (h : St n p f) :
    ∃ f', formatPlus f = .ok f' ∧ St n (plusSpec n p) f' := by
  obtain ⟨hn, h⟩ := h
  cases p with
  | none =>
    simp only at h
    exact ⟨f, by simp [formatPlus, h], ⟨hn, by simpa [plusSpec] using h⟩⟩
  | some s =>
    obtain ⟨he, hp, hle, ht⟩ := h
    unfold formatPlus
    simp only [he, if_true, plusSpec, Option.bind_some]
    by_cases hfit : s.length + 1 < n
    · obtain ⟨m2, hm2⟩ : ∃ m2, store f.mem f.posn [43] = .ok m2 :=
        ⟨_, store_ok (by simp; omega)⟩
      have hl2 := store_length hm2
      have ht2 := store_take hm2
      rw [hp, ht] at ht2
      have h1 : f.posn + 1 < f.mem.length := by omega
      simp only [h1, if_true, hm2, Out.bind_ok, Out.pure_eq, hfit]
      refine ⟨_, rfl, ⟨by simp; omega, ?_⟩⟩
      refine ⟨rfl, by simp [hp], by dsimp only; omega, by simpa using ht2⟩
    · have h1 : ¬ (f.posn + 1 < f.mem.length) := by omega
      simp only [h1, if_false, hfit]
      exact ⟨_, rfl, ⟨hn, by simp⟩⟩

/-- All formatting steps in sequence, abstractly. -/
def formatSpec (n : Nat) (id : ProtocolId) : Option Bytes :=
  let p := fieldSpec n catPattern id.patternId false
    (fieldSpec n catPrefix id.prefixId false (some []))
  let p := if id.hybridId = 0 then fieldSpec n catDH id.dhId false p
    else fieldSpec n catDH id.hybridId false (plusSpec n (fieldSpec n catDH id.dhId true p))
  fieldSpec n catHash id.hashId true (fieldSpec n catCipher id.cipherId false p)

theorem protocolIdToName_run (mem : Bytes) (id : ProtocolId) (h0 : mem.length ≠ 0) :
    ∃ f, St mem.length (formatSpec mem.length id) f ∧
      (f.err = .none → f.mem[f.posn]? = some 0) ∧
      protocolIdToName mem id =
        (let g := checkReserved f id.reserved
         if g.err ≠ .none then do
           let m ← store g.mem 0 [0]
           pure (g.err, m)
         else pure (.none, g.mem)) := by
  unfold protocolIdToName
  rw [if_neg h0]
  have s0 : St mem.length (some []) ⟨mem, 0, .none⟩ := ⟨rfl, rfl, rfl, by simp, by simp⟩
  obtain ⟨f1, e1, s1, -⟩ := formatField_st catPrefix id.prefixId false s0
  obtain ⟨f2, e2, s2, -⟩ := formatField_st catPattern id.patternId false s1
  simp only [e1, e2, Out.bind_ok]
  by_cases hh : id.hybridId = 0
  · obtain ⟨f3, e3, s3, -⟩ := formatField_st catDH id.dhId false s2
    obtain ⟨f4, e4, s4, -⟩ := formatField_st catCipher id.cipherId false s3
    obtain ⟨f5, e5, s5, z5⟩ := formatField_st catHash id.hashId true s4
    refine ⟨f5, ?_, z5 rfl, ?_⟩
    · simpa [formatSpec, hh] using s5
    · simp only [hh, if_true, e3, e4, e5, Out.bind_ok]
  · obtain ⟨f3, e3, s3, -⟩ := formatField_st catDH id.dhId true s2
    obtain ⟨g3, ep, sp⟩ := formatPlus_st s3
    obtain ⟨h3, eh, sh, -⟩ := formatField_st catDH id.hybridId false sp
    obtain ⟨f4, e4, s4, -⟩ := formatField_st catCipher id.cipherId false sh
    obtain ⟨f5, e5, s5, z5⟩ := formatField_st catHash id.hashId true s4
    refine ⟨f5, ?_, z5 rfl, ?_⟩
    · simpa [formatSpec, hh] using s5
    · simp only [hh, if_false, e3, ep, eh, e4, e5, Out.bind_ok]

end Noise
