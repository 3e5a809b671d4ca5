import Verif.CertWrite
/-!
# What is written is read back (C50)
-/

namespace Noise
namespace Cert
open PB

/-- Every allocation succeeds. -/
def yes : Nat → Bool := fun _ => true

/-- The loop of a read function takes the fields `bs` and turns `o` into `o'`; all numbers of rounds not below
the size of the input will do. -/
def Eats {α : Type} (fuel : Nat) (step : α → R → Out (Option (α × R))) (o : α) (bs : Bytes) (o' : α) : Prop :=
  ∀ (r : R) (rest : Bytes) (endPosn c : Nat), r.p.size < 2 ^ 64 → r.p.size ≤ fuel → Ready r.p (bs ++ rest) →
    r.p.posn + bs.length ≤ endPosn → bs.length ≤ c →
    ∃ c' n', c ≤ c' + bs.length ∧ loop step endPosn c o r = loop step endPosn c' o' ⟨r.p.adv bs.length, n'⟩

section
variable {α : Type} {fuel : Nat} {step : α → R → Out (Option (α × R))}

theorem Eats.nil (o : α) : Eats fuel step o [] o :=
  fun r _ _ c _ _ _ _ _ => ⟨c, r.n, by simp, rfl⟩

theorem Eats.append {o o' o'' : α} {a b : Bytes} (h1 : Eats fuel step o a o') (h2 : Eats fuel step o' b o'') :
    Eats fuel step o (a ++ b) o'' := by
  intro r rest endPosn c hs hf hr hp hc
  rw [List.append_assoc] at hr
  rw [List.length_append] at hp hc ⊢
  obtain ⟨c1, n1, hc1, e1⟩ := h1 r (b ++ rest) endPosn c hs hf hr (by omega) (by omega)
  obtain ⟨c2, n2, hc2, e2⟩ := h2 ⟨r.p.adv a.length, n1⟩ rest endPosn c1 hs hf hr.adv
    (by simp only [adv_posn]; omega) (by omega)
  exact ⟨c2, n2, by omega, by rw [e1, e2, adv_adv]⟩

theorem Eats.one {o o' : α} {bs : Bytes} (hb : bs ≠ [])
    (h : ∀ (r : R) (rest : Bytes), r.p.size < 2 ^ 64 → r.p.size ≤ fuel → Ready r.p (bs ++ rest) →
      ∃ n', step o r = .ok (some (o', ⟨r.p.adv bs.length, n'⟩))) : Eats fuel step o bs o' := by
  intro r rest endPosn c hs hf hr hp hc
  have hl : 0 < bs.length := List.length_pos_iff.2 hb
  obtain ⟨n', e⟩ := h r rest hs hf hr
  cases c with
  | zero => omega
  | succ c =>
    refine ⟨c, n', by omega, ?_⟩
    show (if r.p.readAtEndElement endPosn = true then _ else _) = _
    rw [if_neg, e]
    · rfl
    · unfold readAtEndElement
      rw [if_neg (by simp [hr.err]), decide_eq_true_eq]
      omega

theorem field_ne (tag : Nat) (h0 : 0 < tag) (v : Wire.Val) : Wire.field tag v ≠ [] := by
  intro h
  have := congrArg List.length h
  unfold Wire.field Wire.key at this
  rw [if_neg (by omega), List.length_append, List.length_nil] at this
  have := Wire.varint_pos (tag * 8 + v.type)
  omega

/-! ## Fields -/

theorem Ready.small {p : PB} {a rest : Bytes} (h : Ready p (a ++ rest)) (hs : p.size < 2 ^ 64) : a.length < 2 ^ 64 := by
  have := h.room
  rw [List.length_append] at this
  omega

theorem delim_small {tag : Nat} {b rest : Bytes} {p : PB} (h : Ready p (Wire.field tag (.delim b) ++ rest))
    (hs : p.size < 2 ^ 64) : b.length < 2 ^ 64 := by
  have := Ready.small h hs
  simp only [Wire.field, Wire.Val.bytes, List.length_append] at this
  omega

theorem rdString_ok {tag : Nat} (h1 : tag < 2 ^ 31) {s rest : Bytes} {r : R} (hs : r.p.size < 2 ^ 64)
    (hg : isUtf8 s.length s = .ok true) (h : Ready r.p (Wire.field tag (.delim s) ++ rest)) :
    rdString yes tag r = .ok (some s, ⟨r.p.adv (Wire.field tag (.delim s)).length, r.n + 1⟩) := by
  have h' : Ready r.p (Wire.field (tag : Int).toNat (.delim s) ++ rest) := by rw [Int.toNat_natCast]; exact h
  obtain ⟨a1, q, a2, a3, a4, a6, -, a5⟩ := delim_ready (tag := (tag : Int)) (by omega) (by omega) (delim_small h hs) h'
  rw [Int.toNat_natCast] at a5
  have hr := a6.room
  rw [List.length_append] at hr
  have e : r.p.readAllocString tag 0 (yes r.n) =
      .ok (.none, r.p.adv (Wire.field tag (.delim s)).length, some (s ++ [0]), s.length) := by
    simp only [readAllocString, a1, Out.bind_ok, ne_eq, not_true_eq_false, if_false, a2, a3]
    rw [if_neg (by simp; omega), a5]
    simp [hg, yes]
  simp [rdString, e]

theorem rdBytes_ok {tag : Nat} (h1 : tag < 2 ^ 31) {b rest : Bytes} {r : R} (hs : r.p.size < 2 ^ 64)
    (h : Ready r.p (Wire.field tag (.delim b) ++ rest)) :
    rdBytes yes tag r = .ok (some b, ⟨r.p.adv (Wire.field tag (.delim b)).length, r.n + 1⟩) := by
  have h' : Ready r.p (Wire.field (tag : Int).toNat (.delim b) ++ rest) := by rw [Int.toNat_natCast]; exact h
  obtain ⟨a1, q, a2, a3, a4, a6, -, a5⟩ := delim_ready (tag := (tag : Int)) (by omega) (by omega) (delim_small h hs) h'
  rw [Int.toNat_natCast] at a5
  have hr := a6.room
  rw [List.length_append] at hr
  have e : r.p.readAllocBytes tag 0 (yes r.n) =
      .ok (.none, r.p.adv (Wire.field tag (.delim b)).length, some (if b.length > 0 then b else [0]), b.length) := by
    simp only [readAllocBytes, a1, Out.bind_ok, ne_eq, not_true_eq_false, if_false, a2, a3]
    rw [if_neg (by simp; omega), a5]
    simp [yes]
  cases b <;> simp [rdBytes, e]

theorem rdNum_ok {tag : Nat} (h1 : tag < 2 ^ 31) {v : UInt32} {rest : Bytes} {r : R}
    (h : Ready r.p (Wire.field tag (.varint v.toNat) ++ rest)) :
    rdNum tag r = .ok (v, ⟨r.p.adv (Wire.field tag (.varint v.toNat)).length, r.n⟩) := by
  have hf : Wire.field tag (.varint v.toNat) = keyBytes tag wireVarint ++ Wire.varint v.toNat := by
    rw [keyBytes_eq (by omega) (by omega) _ (by decide)]; rfl
  rw [hf] at h ⊢
  have hv := v.toNat_lt
  rw [List.append_assoc] at h
  have e : r.p.readInteger tag = .ok (.none, r.p.adv (keyBytes tag wireVarint ++ Wire.varint v.toNat).length,
      UInt64.ofNat v.toNat) := by
    unfold readInteger
    rw [readTag_ok (by omega) h]
    simp only [Out.bind_ok, ne_eq, not_true_eq_false, if_false]
    rw [readVarint_ok h.adv (by omega), adv_adv, List.length_append]
  simp [rdNum, readUInt32, e]

/-- A string in the switch statement. -/
theorem Eats.string {o : α} {tag : Nat} (h0 : 0 < tag) (h1 : tag ≤ 15) {set : Option Bytes → α}
    (hd : ∀ r : R, r.p.peekTag = .ok (tag : Int) → step o r = rdField (rdString yes tag) set r) (v : Option Bytes)
    (hg : Good v.toList) (hn : set none = o) : Eats fuel step o (fBlock tag v) (set v) := by
  cases v with
  | none => rw [hn]; exact Eats.nil o
  | some s =>
    refine Eats.one (field_ne tag h0 _) fun r rest hs _ hr => ⟨r.n + 1, ?_⟩
    rw [hd r (C46_tag_partial h0 h1 hr)]
    simp [rdField, rdString_ok (by omega) hs (hg s (by simp)) hr, fBlock]

/-- A byte string in the switch statement. -/
theorem Eats.bytes {o : α} {tag : Nat} (h0 : 0 < tag) (h1 : tag ≤ 15) {set : Option Bytes → α}
    (hd : ∀ r : R, r.p.peekTag = .ok (tag : Int) → step o r = rdField (rdBytes yes tag) set r) (v : Option Bytes)
    (hn : set none = o) : Eats fuel step o (fBlock tag v) (set v) := by
  cases v with
  | none => rw [hn]; exact Eats.nil o
  | some s =>
    refine Eats.one (field_ne tag h0 _) fun r rest hs _ hr => ⟨r.n + 1, ?_⟩
    rw [hd r (C46_tag_partial h0 h1 hr)]
    simp [rdField, rdBytes_ok (by omega) hs hr, fBlock]

/-- A number in the switch statement. -/
theorem Eats.num {o : α} {tag : Nat} (h0 : 0 < tag) (h1 : tag ≤ 15) {set : UInt32 → α}
    (hd : ∀ r : R, r.p.peekTag = .ok (tag : Int) → step o r = rdField (rdNum tag) set r) (v : UInt32)
    (hn : set 0 = o) : Eats fuel step o (fNum tag v) (set v) := by
  unfold fNum
  by_cases hv : v = 0
  · rw [if_pos hv, hv, hn]; exact Eats.nil o
  · rw [if_neg hv]
    refine Eats.one (field_ne tag h0 _) fun r rest hs _ hr => ⟨r.n, ?_⟩
    rw [hd r (C46_tag_partial h0 h1 hr)]
    simp [rdField, rdNum_ok (by omega) hr]

end

/-! ## Objects -/

/-- A read function turns the message `content` into `o`. -/
def ReadsBack {β : Type} (fuel : Nat) (read : R → Int → Out (Option (Err × Option β × R))) (content : Bytes) (o : β) :
    Prop :=
  ∀ (r : R) (tag : Nat) (rest : Bytes), r.p.size < 2 ^ 64 → r.p.size ≤ fuel → tag < 2 ^ 31 →
    Ready r.p (msgBytes tag content ++ rest) → (tag = 0 → rest = []) →
    ∃ n', read r tag = .ok (some (.none, some o, ⟨r.p.adv (msgBytes tag content).length, n'⟩))

theorem readObj_ok {α : Type} {fuel : Nat} {new : α} {step : α → R → Out (Option (α × R))} {content : Bytes} {o : α}
    (h : Eats fuel step new content o) : ReadsBack fuel (readObj yes fuel new step) content o := by
  intro r tag rest hs hf ht hr h0
  have hstart : ∃ q : PB, r.p.readStartElement tag = .ok (.none, q, q.posn + content.length) ∧ q.size = r.p.size ∧
      Ready q (content ++ rest) ∧ q.adv content.length = r.p.adv (msgBytes tag content).length := by
    by_cases ht0 : tag = 0
    · subst ht0
      have := h0 rfl
      subst this
      simp only [msgBytes, if_true] at hr ⊢
      refine ⟨r.p, ?_, rfl, hr, rfl⟩
      have hroom := hr.room
      have hpos := hr.inv.posn
      rw [List.append_nil] at hroom
      have hz : r.p.posn + content.length = r.p.size := by omega
      rw [hz]
      simp [readStartElement, readTag, hr.err]
    · simp only [msgBytes, if_neg ht0] at hr ⊢
      have hr' : Ready r.p (Wire.field (tag : Int).toNat (.delim content) ++ rest) := by
        rw [Int.toNat_natCast]; exact hr
      obtain ⟨q, e, hq, ha, -⟩ := C47_read_element (tag := (tag : Int)) (by omega) (by omega) (delim_small hr hs) hr'
      rw [Int.toNat_natCast] at ha
      refine ⟨q, e, ?_, hq, ha⟩
      have := congrArg PB.size ha
      exact this
  obtain ⟨q, e, hqs, hq, ha⟩ := hstart
  have hql := hq.room
  rw [List.length_append] at hql
  obtain ⟨c', n', hc', el⟩ := h ⟨q, r.n + 1⟩ rest (q.posn + content.length) fuel (by rw [hqs]; exact hs)
    (by rw [hqs]; exact hf) hq (Nat.le_refl _) (by omega)
  refine ⟨n', ?_⟩
  have hend : (q.adv content.length).readAtEndElement (q.posn + content.length) = true := by
    unfold readAtEndElement
    rw [if_neg (by simp [hq.err]), decide_eq_true_eq, adv_posn]
    exact Nat.le_refl _
  have hl : ∀ c, loop step (q.posn + content.length) c o ⟨q.adv content.length, n'⟩ =
      .ok (some (o, ⟨q.adv content.length, n'⟩)) := by
    intro c
    cases c <;> (unfold loop; rw [if_pos hend])
  have hfin : (q.adv content.length).readEndElement (q.posn + content.length) = (.none, q.adv content.length) := by
    unfold readEndElement
    rw [if_neg (by simp [hq.err]), if_neg (by simp)]
  unfold readObj
  rw [if_neg (by simp [yes]), e]
  simp only [Out.bind_ok]
  rw [el, hl]
  simp only [Out.bind_ok, hfin, ne_eq, not_true_eq_false, if_false, Out.pure_eq]
  rw [ha]

section
variable {α β : Type} {fuel : Nat} {step : α → R → Out (Option (α × R))}

/-- A nested object in the switch statement. -/
theorem Eats.msg {o : α} {tag : Nat} (h0 : 0 < tag) (h1 : tag ≤ 15) {set : Option β → α}
    {read : R → Int → Out (Option (Err × Option β × R))} {enc : β → Bytes} {norm : β → β}
    (hd : ∀ r : R, r.p.peekTag = .ok (tag : Int) → step o r = rdMsg read tag set r) (v : Option β)
    (hb : ∀ x ∈ v, ReadsBack fuel read (enc x) (norm x))
    (hn : set none = o) : Eats fuel step o (fMsg enc tag v) (set (v.map norm)) := by
  cases v with
  | none => rw [Option.map_none, hn]; exact Eats.nil o
  | some x =>
    refine Eats.one (field_ne tag h0 _) fun r rest hs hf hr => ?_
    have hm : msgBytes tag (enc x) = Wire.field tag (.delim (enc x)) := by
      unfold msgBytes; rw [if_neg (by omega)]
    obtain ⟨n', e⟩ := hb x rfl r tag rest hs hf (by omega) (by rw [hm]; exact hr) (by omega)
    refine ⟨n', ?_⟩
    rw [hd r (C46_tag_partial h0 h1 hr)]
    simp [rdMsg, e, hm, fMsg]

/-- The items of an array in the switch statement. -/
theorem Eats.list {tag : Nat} (h0 : 0 < tag) (h1 : tag ≤ 15) {set : List (Option β) → α}
    {read : R → Int → Out (Option (Err × Option β × R))} {enc : β → Bytes} {norm : β → β}
    (hd : ∀ (l : List (Option β)) (r : R), r.p.peekTag = .ok (tag : Int) →
      step (set l) r = rdItem yes read tag l set r) (l : List (Option β))
    (hb : ∀ x, some x ∈ l → ReadsBack fuel read (enc x) (norm x)) (l0 : List (Option β)) :
    Eats fuel step (set l0) (fList enc tag l) (set (l0 ++ items norm l)) := by
  induction l generalizing l0 with
  | nil => simpa [fList, items] using Eats.nil (set l0)
  | cons x l ih =>
    have ih := ih fun y hy => hb y (List.mem_cons_of_mem _ hy)
    cases x with
    | none => simpa [fList, items, fMsg] using ih l0
    | some x =>
      have h2 := ih (l0 ++ [some (norm x)])
      have h1 : Eats fuel step (set l0) (Wire.field tag (.delim (enc x))) (set (l0 ++ [some (norm x)])) := by
        refine Eats.one (field_ne tag h0 _) fun r rest hs hf hr => ?_
        have hm : msgBytes tag (enc x) = Wire.field tag (.delim (enc x)) := by
          unfold msgBytes; rw [if_neg (by omega)]
        obtain ⟨n', e⟩ := hb x List.mem_cons_self r tag rest hs hf (by omega) (by rw [hm]; exact hr) (by omega)
        refine ⟨n' + 1, ?_⟩
        rw [hd l0 r (C46_tag_partial h0 h1 hr)]
        simp [rdItem, e, hm, addTo, yes]
      have := h1.append h2
      simpa [fList, items, fMsg] using this

end

/-! ## The read functions -/

theorem PublicKeyInfo.reads (fuel : Nat) (o : PublicKeyInfo) (hg : Good o.strings) :
    ReadsBack fuel (PublicKeyInfo.read yes fuel) o.enc o := by
  have h0 : Eats fuel (PublicKeyInfo.step yes) {} (fBlock 1 o.algorithm) { algorithm := o.algorithm } :=
    Eats.string (set := fun v => ({ algorithm := v } : PublicKeyInfo)) (by decide) (by decide)
      (fun r h => by simp [PublicKeyInfo.step, h]) _ hg rfl
  have h1 : Eats fuel (PublicKeyInfo.step yes) { algorithm := o.algorithm } (fBlock 2 o.key) { algorithm := o.algorithm, key := o.key } :=
    Eats.bytes (set := fun v => ({ algorithm := o.algorithm, key := v } : PublicKeyInfo)) (by decide) (by decide)
      (fun r h => by simp [PublicKeyInfo.step, h]) _ rfl
  exact readObj_ok (h0.append h1)

theorem PrivateKeyInfo.reads (fuel : Nat) (o : PrivateKeyInfo) (hg : Good o.strings) :
    ReadsBack fuel (PrivateKeyInfo.read yes fuel) o.enc o := by
  have h0 : Eats fuel (PrivateKeyInfo.step yes) {} (fBlock 1 o.algorithm) { algorithm := o.algorithm } :=
    Eats.string (set := fun v => ({ algorithm := v } : PrivateKeyInfo)) (by decide) (by decide)
      (fun r h => by simp [PrivateKeyInfo.step, h]) _ hg rfl
  have h1 : Eats fuel (PrivateKeyInfo.step yes) { algorithm := o.algorithm } (fBlock 2 o.key) { algorithm := o.algorithm, key := o.key } :=
    Eats.bytes (set := fun v => ({ algorithm := o.algorithm, key := v } : PrivateKeyInfo)) (by decide) (by decide)
      (fun r h => by simp [PrivateKeyInfo.step, h]) _ rfl
  exact readObj_ok (h0.append h1)

theorem MetaInfo.reads (fuel : Nat) (o : MetaInfo) (hg : Good o.strings) :
    ReadsBack fuel (MetaInfo.read yes fuel) o.enc o := by
  rw [MetaInfo.strings, Good.append] at hg
  have h0 : Eats fuel (MetaInfo.step yes) {} (fBlock 1 o.name) { name := o.name } :=
    Eats.string (set := fun v => ({ name := v } : MetaInfo)) (by decide) (by decide)
      (fun r h => by simp [MetaInfo.step, h]) _ hg.1 rfl
  have h1 : Eats fuel (MetaInfo.step yes) { name := o.name } (fBlock 2 o.value) { name := o.name, value := o.value } :=
    Eats.string (set := fun v => ({ name := o.name, value := v } : MetaInfo)) (by decide) (by decide)
      (fun r h => by simp [MetaInfo.step, h]) _ hg.2 rfl
  exact readObj_ok (h0.append h1)

theorem SubjectInfo.reads (fuel : Nat) (o : SubjectInfo) (hg : Good o.strings) :
    ReadsBack fuel (SubjectInfo.read yes fuel) o.enc o.norm := by
  simp only [SubjectInfo.strings, Good.append, ← good_list] at hg
  obtain ⟨⟨⟨⟨g1, g2⟩, g3⟩, g4⟩, g5⟩ := hg
  have h0 : Eats fuel (SubjectInfo.step yes fuel) {} (fBlock 1 o.id) { id := o.id } :=
    Eats.string (set := fun v => ({ id := v } : SubjectInfo)) (by decide) (by decide)
      (fun r h => by simp [SubjectInfo.step, h]) _ g1 rfl
  have h1 : Eats fuel (SubjectInfo.step yes fuel) { id := o.id } (fBlock 2 o.name) { id := o.id, name := o.name } :=
    Eats.string (set := fun v => ({ id := o.id, name := v } : SubjectInfo)) (by decide) (by decide)
      (fun r h => by simp [SubjectInfo.step, h]) _ g2 rfl
  have h2 : Eats fuel (SubjectInfo.step yes fuel) { id := o.id, name := o.name } (fBlock 3 o.role) { id := o.id, name := o.name, role := o.role } :=
    Eats.string (set := fun v => ({ id := o.id, name := o.name, role := v } : SubjectInfo)) (by decide) (by decide)
      (fun r h => by simp [SubjectInfo.step, h]) _ g3 rfl
  have h3 : Eats fuel (SubjectInfo.step yes fuel) { id := o.id, name := o.name, role := o.role } (fList PublicKeyInfo.enc 4 o.keys) { id := o.id, name := o.name, role := o.role, keys := items _root_.id o.keys } :=
    Eats.list (set := fun v => ({ id := o.id, name := o.name, role := o.role, keys := v } : SubjectInfo)) (norm := _root_.id) (by decide) (by decide)
      (fun l r h => by simp [SubjectInfo.step, h]) _ (fun x hx => PublicKeyInfo.reads fuel x (g4 x hx)) []
  have h4 : Eats fuel (SubjectInfo.step yes fuel) { id := o.id, name := o.name, role := o.role, keys := items _root_.id o.keys } (fList MetaInfo.enc 5 o.metas) { id := o.id, name := o.name, role := o.role, keys := items _root_.id o.keys, metas := items _root_.id o.metas } :=
    Eats.list (set := fun v => ({ id := o.id, name := o.name, role := o.role, keys := items _root_.id o.keys, metas := v } : SubjectInfo)) (norm := _root_.id) (by decide) (by decide)
      (fun l r h => by simp [SubjectInfo.step, h]) _ (fun x hx => MetaInfo.reads fuel x (g5 x hx)) []
  exact readObj_ok ((((h0.append h1).append h2).append h3).append h4)

theorem PrivateKey.reads (fuel : Nat) (o : PrivateKey) (hg : Good o.strings) :
    ReadsBack fuel (PrivateKey.read yes fuel) o.enc o.norm := by
  simp only [PrivateKey.strings, Good.append, ← good_list] at hg
  obtain ⟨⟨⟨⟨g1, g2⟩, g3⟩, g4⟩, g5⟩ := hg
  have h0 : Eats fuel (PrivateKey.step yes fuel) {} (fBlock 1 o.id) { id := o.id } :=
    Eats.string (set := fun v => ({ id := v } : PrivateKey)) (by decide) (by decide)
      (fun r h => by simp [PrivateKey.step, h]) _ g1 rfl
  have h1 : Eats fuel (PrivateKey.step yes fuel) { id := o.id } (fBlock 2 o.name) { id := o.id, name := o.name } :=
    Eats.string (set := fun v => ({ id := o.id, name := v } : PrivateKey)) (by decide) (by decide)
      (fun r h => by simp [PrivateKey.step, h]) _ g2 rfl
  have h2 : Eats fuel (PrivateKey.step yes fuel) { id := o.id, name := o.name } (fBlock 3 o.role) { id := o.id, name := o.name, role := o.role } :=
    Eats.string (set := fun v => ({ id := o.id, name := o.name, role := v } : PrivateKey)) (by decide) (by decide)
      (fun r h => by simp [PrivateKey.step, h]) _ g3 rfl
  have h3 : Eats fuel (PrivateKey.step yes fuel) { id := o.id, name := o.name, role := o.role } (fList PrivateKeyInfo.enc 4 o.keys) { id := o.id, name := o.name, role := o.role, keys := items _root_.id o.keys } :=
    Eats.list (set := fun v => ({ id := o.id, name := o.name, role := o.role, keys := v } : PrivateKey)) (norm := _root_.id) (by decide) (by decide)
      (fun l r h => by simp [PrivateKey.step, h]) _ (fun x hx => PrivateKeyInfo.reads fuel x (g4 x hx)) []
  have h4 : Eats fuel (PrivateKey.step yes fuel) { id := o.id, name := o.name, role := o.role, keys := items _root_.id o.keys } (fList MetaInfo.enc 5 o.metas) { id := o.id, name := o.name, role := o.role, keys := items _root_.id o.keys, metas := items _root_.id o.metas } :=
    Eats.list (set := fun v => ({ id := o.id, name := o.name, role := o.role, keys := items _root_.id o.keys, metas := v } : PrivateKey)) (norm := _root_.id) (by decide) (by decide)
      (fun l r h => by simp [PrivateKey.step, h]) _ (fun x hx => MetaInfo.reads fuel x (g5 x hx)) []
  exact readObj_ok ((((h0.append h1).append h2).append h3).append h4)

theorem ExtraSignedInfo.reads (fuel : Nat) (o : ExtraSignedInfo) (hg : Good o.strings) :
    ReadsBack fuel (ExtraSignedInfo.read yes fuel) o.enc o.norm := by
  simp only [ExtraSignedInfo.strings, Good.append, ← good_list] at hg
  obtain ⟨⟨g1, g2⟩, g3⟩ := hg
  have h0 : Eats fuel (ExtraSignedInfo.step yes fuel) {} (fBlock 1 o.nonce) { nonce := o.nonce } :=
    Eats.bytes (set := fun v => ({ nonce := v } : ExtraSignedInfo)) (by decide) (by decide)
      (fun r h => by simp [ExtraSignedInfo.step, h]) _ rfl
  have h1 : Eats fuel (ExtraSignedInfo.step yes fuel) { nonce := o.nonce } (fBlock 2 o.validFrom) { nonce := o.nonce, validFrom := o.validFrom } :=
    Eats.string (set := fun v => ({ nonce := o.nonce, validFrom := v } : ExtraSignedInfo)) (by decide) (by decide)
      (fun r h => by simp [ExtraSignedInfo.step, h]) _ g1 rfl
  have h2 : Eats fuel (ExtraSignedInfo.step yes fuel) { nonce := o.nonce, validFrom := o.validFrom } (fBlock 3 o.validTo) { nonce := o.nonce, validFrom := o.validFrom, validTo := o.validTo } :=
    Eats.string (set := fun v => ({ nonce := o.nonce, validFrom := o.validFrom, validTo := v } : ExtraSignedInfo)) (by decide) (by decide)
      (fun r h => by simp [ExtraSignedInfo.step, h]) _ g2 rfl
  have h3 : Eats fuel (ExtraSignedInfo.step yes fuel) { nonce := o.nonce, validFrom := o.validFrom, validTo := o.validTo } (fList MetaInfo.enc 4 o.metas) { nonce := o.nonce, validFrom := o.validFrom, validTo := o.validTo, metas := items _root_.id o.metas } :=
    Eats.list (set := fun v => ({ nonce := o.nonce, validFrom := o.validFrom, validTo := o.validTo, metas := v } : ExtraSignedInfo)) (norm := _root_.id) (by decide) (by decide)
      (fun l r h => by simp [ExtraSignedInfo.step, h]) _ (fun x hx => MetaInfo.reads fuel x (g3 x hx)) []
  exact readObj_ok (((h0.append h1).append h2).append h3)

theorem Signature.reads (fuel : Nat) (o : Signature) (hg : Good o.strings) :
    ReadsBack fuel (Signature.read yes fuel) o.enc o.norm := by
  simp only [Signature.strings, Good.append, ← good_opt] at hg
  obtain ⟨⟨⟨⟨g1, g2⟩, g3⟩, g4⟩, g5⟩ := hg
  have h0 : Eats fuel (Signature.step yes fuel) {} (fBlock 1 o.id) { id := o.id } :=
    Eats.string (set := fun v => ({ id := v } : Signature)) (by decide) (by decide)
      (fun r h => by simp [Signature.step, h]) _ g1 rfl
  have h1 : Eats fuel (Signature.step yes fuel) { id := o.id } (fBlock 2 o.name) { id := o.id, name := o.name } :=
    Eats.string (set := fun v => ({ id := o.id, name := v } : Signature)) (by decide) (by decide)
      (fun r h => by simp [Signature.step, h]) _ g2 rfl
  have h2 : Eats fuel (Signature.step yes fuel) { id := o.id, name := o.name } (fMsg PublicKeyInfo.enc 3 o.signingKey) { id := o.id, name := o.name, signingKey := o.signingKey.map _root_.id } :=
    Eats.msg (set := fun v => ({ id := o.id, name := o.name, signingKey := v } : Signature)) (by decide) (by decide)
      (fun r h => by simp [Signature.step, h]) _
      (fun x hx => PublicKeyInfo.reads fuel x (g3 x hx)) rfl
  have h3 : Eats fuel (Signature.step yes fuel) { id := o.id, name := o.name, signingKey := o.signingKey.map _root_.id } (fBlock 4 o.hashAlgorithm) { id := o.id, name := o.name, signingKey := o.signingKey.map _root_.id, hashAlgorithm := o.hashAlgorithm } :=
    Eats.string (set := fun v => ({ id := o.id, name := o.name, signingKey := o.signingKey.map _root_.id, hashAlgorithm := v } : Signature)) (by decide) (by decide)
      (fun r h => by simp [Signature.step, h]) _ g4 rfl
  have h4 : Eats fuel (Signature.step yes fuel) { id := o.id, name := o.name, signingKey := o.signingKey.map _root_.id, hashAlgorithm := o.hashAlgorithm } (fMsg ExtraSignedInfo.enc 5 o.extraSignedInfo) { id := o.id, name := o.name, signingKey := o.signingKey.map _root_.id, hashAlgorithm := o.hashAlgorithm, extraSignedInfo := o.extraSignedInfo.map ExtraSignedInfo.norm } :=
    Eats.msg (set := fun v => ({ id := o.id, name := o.name, signingKey := o.signingKey.map _root_.id, hashAlgorithm := o.hashAlgorithm, extraSignedInfo := v } : Signature)) (by decide) (by decide)
      (fun r h => by simp [Signature.step, h]) _
      (fun x hx => ExtraSignedInfo.reads fuel x (g5 x hx)) rfl
  have h5 : Eats fuel (Signature.step yes fuel) { id := o.id, name := o.name, signingKey := o.signingKey.map _root_.id, hashAlgorithm := o.hashAlgorithm, extraSignedInfo := o.extraSignedInfo.map ExtraSignedInfo.norm } (fBlock 15 o.signature) { id := o.id, name := o.name, signingKey := o.signingKey.map _root_.id, hashAlgorithm := o.hashAlgorithm, extraSignedInfo := o.extraSignedInfo.map ExtraSignedInfo.norm, signature := o.signature } :=
    Eats.bytes (set := fun v => ({ id := o.id, name := o.name, signingKey := o.signingKey.map _root_.id, hashAlgorithm := o.hashAlgorithm, extraSignedInfo := o.extraSignedInfo.map ExtraSignedInfo.norm, signature := v } : Signature)) (by decide) (by decide)
      (fun r h => by simp [Signature.step, h]) _ rfl
  have h := readObj_ok (((((h0.append h1).append h2).append h3).append h4).append h5)
  rw [show o.signingKey.map _root_.id = o.signingKey by simp] at h
  exact h

theorem Certificate.reads (fuel : Nat) (o : Certificate) (hg : Good o.strings) :
    ReadsBack fuel (Certificate.read yes fuel) o.enc o.norm := by
  simp only [Certificate.strings, Good.append, ← good_opt, ← good_list] at hg
  obtain ⟨g1, g2⟩ := hg
  have h0 : Eats fuel (Certificate.step yes fuel) {} (fNum 1 o.version) { version := o.version } :=
    Eats.num (set := fun v => ({ version := v } : Certificate)) (by decide) (by decide)
      (fun r h => by simp [Certificate.step, h]) _ rfl
  have h1 : Eats fuel (Certificate.step yes fuel) { version := o.version } (fMsg SubjectInfo.enc 2 o.subject) { version := o.version, subject := o.subject.map SubjectInfo.norm } :=
    Eats.msg (set := fun v => ({ version := o.version, subject := v } : Certificate)) (by decide) (by decide)
      (fun r h => by simp [Certificate.step, h]) _
      (fun x hx => SubjectInfo.reads fuel x (g1 x hx)) rfl
  have h2 : Eats fuel (Certificate.step yes fuel) { version := o.version, subject := o.subject.map SubjectInfo.norm } (fList Signature.enc 3 o.signatures) { version := o.version, subject := o.subject.map SubjectInfo.norm, signatures := items Signature.norm o.signatures } :=
    Eats.list (set := fun v => ({ version := o.version, subject := o.subject.map SubjectInfo.norm, signatures := v } : Certificate)) (norm := Signature.norm) (by decide) (by decide)
      (fun l r h => by simp [Certificate.step, h]) _ (fun x hx => Signature.reads fuel x (g2 x hx)) []
  exact readObj_ok ((h0.append h1).append h2)

theorem CertificateChain.reads (fuel : Nat) (o : CertificateChain) (hg : Good o.strings) :
    ReadsBack fuel (CertificateChain.read yes fuel) o.enc o.norm := by
  simp only [CertificateChain.strings, ← good_list] at hg
  have h0 : Eats fuel (CertificateChain.step yes fuel) {} (fList Certificate.enc 8 o.certs) { certs := items Certificate.norm o.certs } :=
    Eats.list (set := fun v => ({ certs := v } : CertificateChain)) (norm := Certificate.norm) (by decide) (by decide)
      (fun l r h => by simp [CertificateChain.step, h]) _ (fun x hx => Certificate.reads fuel x (hg x hx)) []
  exact readObj_ok h0

theorem EncryptedPrivateKey.reads (fuel : Nat) (o : EncryptedPrivateKey) (hg : Good o.strings) :
    ReadsBack fuel (EncryptedPrivateKey.read yes fuel) o.enc o := by
  have h0 : Eats fuel (EncryptedPrivateKey.step yes) {} (fNum 10 o.version) { version := o.version } :=
    Eats.num (set := fun v => ({ version := v } : EncryptedPrivateKey)) (by decide) (by decide)
      (fun r h => by simp [EncryptedPrivateKey.step, h]) _ rfl
  have h1 : Eats fuel (EncryptedPrivateKey.step yes) { version := o.version } (fBlock 11 o.algorithm) { version := o.version, algorithm := o.algorithm } :=
    Eats.string (set := fun v => ({ version := o.version, algorithm := v } : EncryptedPrivateKey)) (by decide) (by decide)
      (fun r h => by simp [EncryptedPrivateKey.step, h]) _ hg rfl
  have h2 : Eats fuel (EncryptedPrivateKey.step yes) { version := o.version, algorithm := o.algorithm } (fBlock 12 o.salt) { version := o.version, algorithm := o.algorithm, salt := o.salt } :=
    Eats.bytes (set := fun v => ({ version := o.version, algorithm := o.algorithm, salt := v } : EncryptedPrivateKey)) (by decide) (by decide)
      (fun r h => by simp [EncryptedPrivateKey.step, h]) _ rfl
  have h3 : Eats fuel (EncryptedPrivateKey.step yes) { version := o.version, algorithm := o.algorithm, salt := o.salt } (fNum 13 o.iterations) { version := o.version, algorithm := o.algorithm, salt := o.salt, iterations := o.iterations } :=
    Eats.num (set := fun v => ({ version := o.version, algorithm := o.algorithm, salt := o.salt, iterations := v } : EncryptedPrivateKey)) (by decide) (by decide)
      (fun r h => by simp [EncryptedPrivateKey.step, h]) _ rfl
  have h4 : Eats fuel (EncryptedPrivateKey.step yes) { version := o.version, algorithm := o.algorithm, salt := o.salt, iterations := o.iterations } (fBlock 15 o.encryptedData) { version := o.version, algorithm := o.algorithm, salt := o.salt, iterations := o.iterations, encryptedData := o.encryptedData } :=
    Eats.bytes (set := fun v => ({ version := o.version, algorithm := o.algorithm, salt := o.salt, iterations := o.iterations, encryptedData := v } : EncryptedPrivateKey)) (by decide) (by decide)
      (fun r h => by simp [EncryptedPrivateKey.step, h]) _ rfl
  exact readObj_ok ((((h0.append h1).append h2).append h3).append h4)

end Cert
end Noise
