import Verif.CertProps
/-!
# Reading arbitrary bytes as certificates and key files (C58, C59)
-/

namespace Noise
namespace Cert
open PB

/-! ## One call -/

theorem readVarint_adv {p q : PB} (h : Input p) {v : UInt64} (hq : p.readVarint = .ok (.none, q, v)) :
    p.posn < q.posn := by
  obtain ⟨e, q', v', hf, hm, -⟩ := readVarint_reads h
  rw [hq] at hf
  cases hf
  obtain ⟨rest, hr⟩ := h.ready hm.ok.1
  obtain ⟨a, b⟩ := readVarint_eq hr
  cases hd : Wire.decode 10 rest with
  | none =>
    obtain ⟨k, w, hk, heq⟩ := b hd
    rw [hq] at heq
    cases heq
  | some x =>
    obtain ⟨v0, l⟩ := x
    have := (Wire.decode_length hd).2.1
    have heq := a v0 l hd
    rw [hq] at heq
    cases heq
    simp only [adv_posn]
    omega

theorem readTag_adv {p q : PB} (h : Input p) {tag : Int} (ht : 0 < tag) {type : Nat}
    (hq : p.readTag tag type = .ok (.none, q)) : p.posn < q.posn := by
  unfold readTag at hq
  rw [if_pos ht] at hq
  obtain ⟨e, r, v, hv, hm, -⟩ := readVarint_reads h
  rw [hv] at hq
  simp only [Out.bind_ok] at hq
  by_cases he : e = .none
  · subst he
    simp only [if_true] at hq
    split at hq
    · cases hq
    · cases hq
      exact readVarint_adv h hv
  · rw [if_neg he] at hq
    cases hq
    exact absurd rfl he

/-- After a call that starts with the check of a tag: there is an error or the position has moved. -/
theorem tag_adv {p : PB} (h : Input p) {tag : Int} (ht : 0 < tag) {type : Nat} {β : Type}
    {g : Err × PB → Out (Err × PB × β)} {Q : Err → β → Prop}
    (hr : ∀ tag p, Input p → Reads p (p.readTag tag type >>= g) Q)
    (hbad : ∀ e q, e ≠ .none → ∃ z, g (e, q) = .ok (e, q, z)) {e : Err} {q : PB} {v : β}
    (hq : (p.readTag tag type >>= g) = .ok (e, q, v)) : q.err ≠ .none ∨ p.posn < q.posn := by
  obtain ⟨e1, q1, hf, hm⟩ := readTag_moved h tag type
  obtain ⟨e2, q2, v2, hf2, hm2, -⟩ := hr tag p h
  rw [hq] at hf2
  cases hf2
  by_cases hp : p.err = .none
  · rw [hf] at hq
    simp only [Out.bind_ok] at hq
    by_cases he : e1 = .none
    · subst he
      obtain ⟨e', r, v', hg, hm', -⟩ := hr 0 q1 (hm.input h)
      rw [show q1.readTag 0 type = .ok (.none, q1) by simp [readTag, hm.ok.2], Out.bind_ok, hq] at hg
      cases hg
      have h1 := readTag_adv h ht hf
      have h2 := hm'.posn
      exact .inr (by omega)
    · obtain ⟨z, hz⟩ := hbad e1 q1 he
      rw [hz] at hq
      cases hq
      exact .inl (by rw [← hm.code hp]; exact he)
  · exact .inl (hm2.sticky hp).2.2

theorem readUInt32_adv {p : PB} (h : Input p) {tag : Int} (ht : 0 < tag) {e : Err} {q : PB} {v : UInt32}
    (hq : p.readUInt32 tag = .ok (e, q, v)) : q.err ≠ .none ∨ p.posn < q.posn := by
  obtain ⟨e1, q1, v1, hf, hm, -⟩ := readInteger_reads h tag
  unfold readUInt32 at hq
  rw [hf] at hq
  simp only [Out.bind_ok] at hq
  have hx := tag_adv h ht (fun tag p h => readInteger_reads h tag)
    (fun e q he => ⟨0, by simp [he]⟩) hf
  split at hq
  · cases hq; exact hx
  · cases hq; exact hx

theorem readAllocBytes_adv {p : PB} (h : Input p) {tag : Int} (ht : 0 < tag) {max : Nat} {m : Bool} {e : Err} {q : PB}
    {v : Option Bytes × Nat} (hq : p.readAllocBytes tag max m = .ok (e, q, v)) : q.err ≠ .none ∨ p.posn < q.posn :=
  tag_adv h ht (fun tag p h => readAllocBytes_reads h tag max m) (fun e q he => ⟨(none, 0), by simp [he]⟩) hq

theorem readAllocString_adv {p : PB} (h : Input p) {tag : Int} (ht : 0 < tag) {max : Nat} {m : Bool} {e : Err} {q : PB}
    {v : Option Bytes × Nat} (hq : p.readAllocString tag max m = .ok (e, q, v)) : q.err ≠ .none ∨ p.posn < q.posn :=
  tag_adv h ht (fun tag p h => readAllocString_reads h tag max m) (fun e q he => ⟨(none, 0), by simp [he]⟩) hq

theorem readStartElement_adv {p : PB} (h : Input p) {tag : Int} (ht : 0 < tag) {e : Err} {q : PB} {v : Nat}
    (hq : p.readStartElement tag = .ok (e, q, v)) : q.err ≠ .none ∨ p.posn < q.posn := by
  obtain ⟨e1, q1, hf, hm⟩ := readTag_moved h tag wireDelim
  obtain ⟨e2, q2, v2, hf2, hm2, -⟩ := readStartElement_reads h tag
  rw [hq] at hf2
  cases hf2
  by_cases hp : p.err = .none
  · unfold readStartElement at hq
    rw [hf] at hq
    simp only [Out.bind_ok] at hq
    by_cases he : e1 = .none
    · subst he
      rw [if_neg (by simp), if_pos (by omega)] at hq
      have h1 := readTag_adv h ht hf
      obtain ⟨e', r, v', hg, hm', -⟩ := readVarint_reads (hm.input h)
      rw [hg] at hq
      simp only [Out.bind_ok] at hq
      have h2 := hm'.posn
      split at hq
      · cases hq
        exact .inr (by omega)
      · split at hq
        · cases hq
          exact .inl (by simp [PB.fail])
        · cases hq
          exact .inr (by omega)
    · rw [if_pos he] at hq
      cases hq
      exact .inl (by rw [← hm.code hp]; exact he)
  · exact .inl (hm2.sticky hp).2.2

theorem readSkip_adv {p : PB} (h : Input p) {e : Err} {q : PB} (hq : p.readSkip = .ok (e, q)) :
    q.err ≠ .none ∨ p.posn < q.posn := by
  obtain ⟨e2, q2, hf2, hm2⟩ := readSkip_moved h
  rw [hq] at hf2
  cases hf2
  by_cases hp : p.err = .none
  · obtain ⟨e1, q1, v1, hf, hm, -⟩ := readVarint_reads h
    unfold readSkip at hq
    rw [hf] at hq
    simp only [Out.bind_ok] at hq
    by_cases he : e1 = .none
    · subst he
      have h1 := readVarint_adv h hf
      rw [if_neg (by simp)] at hq
      have key : ∀ {α : Type} {f : Out (Err × PB × α)} {P : Err → α → Prop}, Reads q1 f P →
          (f >>= fun x => Out.ok (x.1, x.2.1)) = .ok (e, q) → p.posn < q.posn := by
        intro α f P hr hq
        obtain ⟨e', r, v', hg, hm', -⟩ := hr
        rw [hg] at hq
        cases hq
        have := hm'.posn
        show p.posn < r.posn
        omega
      split at hq
      · exact .inr (key (readVarint_reads (hm.input h)) hq)
      split at hq
      · exact .inr (key (readSpace_reads (hm.input h) 8) hq)
      split at hq
      · obtain ⟨e', r, v', hg, hm', -⟩ := readVarint_reads (hm.input h)
        rw [hg] at hq
        simp only [Out.bind_ok] at hq
        have := hm'.posn
        split at hq
        · split at hq
          · cases hq
            exact .inr (by simp only; omega)
          · cases hq
            exact .inl (by simp [PB.fail])
        · cases hq
          exact .inr (by omega)
      split at hq
      · exact .inr (key (readSpace_reads (hm.input h) 4) hq)
      · cases hq
        exact .inl (by simp [PB.fail])
    · rw [if_pos he] at hq
      cases hq
      exact .inl (by rw [← hm.code hp]; exact he)
  · exact .inl (hm2.sticky hp).2.2

/-! ## Termination -/

/-- What a part of a read function does to the state: it stays inside the input, and unless there was an
error already there is now one, or the position has moved, or an allocation failed. -/
structure Step (al : Nat → Bool) (r r' : R) : Prop where
  inp : Input r'.p
  data : r'.p.data = r.p.data
  size : r'.p.size = r.p.size
  posn : r.p.posn ≤ r'.p.posn
  n : r.n ≤ r'.n
  sticky : r.p.err ≠ .none → r'.p.err ≠ .none

/-- There is an error, or the position has moved, or an allocation has failed. -/
def Progress (al : Nat → Bool) (r r' : R) : Prop :=
  r'.p.err ≠ .none ∨ r.p.posn < r'.p.posn ∨ ∃ k, r.n ≤ k ∧ k < r'.n ∧ al k = false

theorem Step.refl {al : Nat → Bool} {r : R} (h : Input r.p) : Step al r r :=
  ⟨h, rfl, rfl, Nat.le_refl _, Nat.le_refl _, fun h => h⟩

theorem Step.trans {al : Nat → Bool} {r s t : R} (h1 : Step al r s) (h2 : Step al s t) : Step al r t :=
  ⟨h2.inp, h2.data.trans h1.data, h2.size.trans h1.size, Nat.le_trans h1.posn h2.posn, Nat.le_trans h1.n h2.n,
    fun h => h2.sticky (h1.sticky h)⟩

theorem Progress.left {al : Nat → Bool} {r s t : R} (h1 : Progress al r s) (h2 : Step al s t) : Progress al r t := by
  have := h2.posn
  have := h2.n
  rcases h1 with h | h | ⟨k, h, h', hk⟩
  · exact .inl (h2.sticky h)
  · exact .inr (.inl (by omega))
  · exact .inr (.inr ⟨k, h, by omega, hk⟩)

theorem Step.of_moved {al : Nat → Bool} {p q : PB} {e : Err} {n m : Nat} (hp : Input p) (h : Moved p q e) (hn : n ≤ m) :
    Step al ⟨p, n⟩ ⟨q, m⟩ :=
  ⟨h.input hp, h.data, h.size, h.posn, hn, fun he => (h.sticky he).2.2⟩

/-- How much can still happen if all allocations from the `N`-th on succeed. -/
def left (N : Nat) (r : R) : Nat := (r.p.size - r.p.posn) + (N - r.n)

theorem Step.left_le {al : Nat → Bool} {r r' : R} (N : Nat) (h : Step al r r') : left N r' ≤ left N r := by
  have := h.size
  have := h.posn
  have := h.n
  unfold left
  omega

theorem Step.left_lt {al : Nat → Bool} {r r' : R} {N : Nat} (hN : ∀ n, N ≤ n → al n = true) (h : Step al r r')
    (hp : Progress al r r') : r'.p.err ≠ .none ∨ left N r' < left N r := by
  have h1 := h.size
  have h2 := h.posn
  have h3 := h.n
  have h4 := h.inp.1.posn
  unfold left
  rcases hp with h | h | ⟨k, h, h', hk⟩
  · exact .inl h
  · exact .inr (by omega)
  · have : k < N := by
      by_cases hkN : k < N
      · exact hkN
      · rw [hN k (by omega)] at hk
        cases hk
    exact .inr (by omega)

/-- A switch statement that does not run out of rounds. -/
def GoodStep (al : Nat → Bool) (N fuel : Nat) {α : Type} (step : α → R → Out (Option (α × R))) : Prop :=
  ∀ o r, Input r.p → left N r ≤ fuel → ∃ o' r', step o r = .ok (some (o', r')) ∧ Step al r r' ∧ Progress al r r'

/-- A read function that does not run out of rounds. -/
def GoodRead (al : Nat → Bool) (N fuel : Nat) {α : Type} (read : R → Int → Out (Option (Err × Option α × R))) : Prop :=
  ∀ r tag, Input r.p → left N r ≤ fuel → ∃ e o r', read r tag = .ok (some (e, o, r')) ∧ Step al r r' ∧
    (e ≠ .none ↔ o = none) ∧ (0 < tag → Progress al r r')

theorem loop_good {al : Nat → Bool} {N fuel : Nat} (hN : ∀ n, N ≤ n → al n = true) {α : Type}
    {step : α → R → Out (Option (α × R))} (hs : GoodStep al N fuel step) (endPosn : Nat) : ∀ (f : Nat) (o : α) (r : R),
    Input r.p → endPosn ≤ r.p.size → left N r ≤ fuel → (r.p.err ≠ .none ∨ left N r ≤ f) →
    ∃ o' r', loop step endPosn f o r = .ok (some (o', r')) ∧ Step al r r' := by
  intro f
  induction f with
  | zero =>
    intro o r hi he hl hf
    have : r.p.readAtEndElement endPosn = true := by
      unfold readAtEndElement
      split
      · rfl
      · next hne =>
        have h1 : left N r ≤ 0 := by
          rcases hf with h | h
          · exact absurd h hne
          · exact h
        have h2 := hi.1.posn
        unfold left at h1
        simp only [ge_iff_le, decide_eq_true_eq]
        omega
    exact ⟨o, r, by rw [loop, this]; rfl, Step.refl hi⟩
  | succ f ih =>
    intro o r hi he hl hf
    rw [loop]
    split
    · exact ⟨o, r, rfl, Step.refl hi⟩
    · next hne =>
      obtain ⟨o', r', e', s', p'⟩ := hs o r hi hl
      rw [e']
      simp only [Out.bind_ok]
      have hnone : r.p.err = .none := by
        by_cases h : r.p.err = .none
        · exact h
        · simp [readAtEndElement, h] at hne
      have hle := s'.left_le N
      have hlt := s'.left_lt hN p'
      have hsz := s'.size
      have hf' : left N r ≤ f + 1 := by
        rcases hf with h | h
        · exact absurd hnone h
        · exact h
      obtain ⟨o2, r2, e2, s2⟩ := ih o' r' s'.inp (by omega) (by omega) (by
        rcases hlt with h | h
        · exact .inl h
        · exact .inr (by omega))
      exact ⟨o2, r2, e2, s'.trans s2⟩

theorem readObj_good {al : Nat → Bool} {N fuel : Nat} (hN : ∀ n, N ≤ n → al n = true) {α : Type} {new : α}
    {step : α → R → Out (Option (α × R))} (hs : GoodStep al N fuel step) :
    GoodRead al N fuel (readObj al fuel new step) := by
  intro r tag hi hl
  unfold readObj
  by_cases ha : al r.n = false
  · rw [if_pos ha]
    exact ⟨_, _, _, rfl, ⟨hi, rfl, rfl, Nat.le_refl _, Nat.le_succ _, fun h => h⟩, by simp,
      fun _ => .inr (.inr ⟨r.n, Nat.le_refl _, Nat.lt_succ_self _, ha⟩)⟩
  · rw [if_neg ha]
    obtain ⟨e, q, v, hf, hm, -, hv⟩ := readStartElement_reads hi tag
    rw [hf]
    simp only [Out.bind_ok]
    have s1 : Step al r ⟨q, r.n + 1⟩ := Step.of_moved hi hm (Nat.le_succ _)
    have hle := s1.left_le N
    have hsz := hm.size
    obtain ⟨o', r', e', s'⟩ := loop_good hN hs v fuel new ⟨q, r.n + 1⟩ s1.inp
      (by show v ≤ q.size; omega)
      (Nat.le_trans hle hl) (.inr (Nat.le_trans hle hl))
    rw [e']
    have hend : ∀ x : R, Input x.p → Step al x ⟨(x.p.readEndElement v).2, x.n⟩ := by
      intro x hx
      unfold readEndElement
      split
      · exact Step.refl hx
      · split
        · exact ⟨⟨⟨hx.1.posn, hx.1.size⟩, hx.2⟩, rfl, rfl, Nat.le_refl _, Nat.le_refl _, fun _ => by simp [PB.fail]⟩
        · exact Step.refl hx
    refine ⟨_, _, _, rfl, (s1.trans s').trans (hend r' s'.inp), ?_, ?_⟩
    · split
      · simp [*]
      · simp [*]
    · intro ht
      have : Progress al r ⟨q, r.n + 1⟩ := by
        rcases readStartElement_adv hi ht hf with h | h
        · exact .inl h
        · exact .inr (.inl h)
      exact (this.left s').left (hend r' s'.inp)

theorem rdString_good {al : Nat → Bool} {tag : Int} (ht : 0 < tag) {α : Type} (set : Option Bytes → α) (r : R)
    (hi : Input r.p) :
    ∃ o' r', rdField (rdString al tag) set r = .ok (some (o', r')) ∧ Step al r r' ∧ Progress al r r' := by
  obtain ⟨e, q, v, hf, hm, -⟩ := readAllocString_reads hi tag 0 (al r.n)
  refine ⟨set (v.1.map (·.take v.2)), ⟨q, r.n + 1⟩, by simp only [rdField, rdString, hf, Out.bind_ok, Out.pure_eq],
    Step.of_moved hi hm (Nat.le_succ _), ?_⟩
  rcases readAllocString_adv hi ht hf with h | h
  · exact .inl h
  · exact .inr (.inl h)

theorem rdBytes_good {al : Nat → Bool} {tag : Int} (ht : 0 < tag) {α : Type} (set : Option Bytes → α) (r : R)
    (hi : Input r.p) :
    ∃ o' r', rdField (rdBytes al tag) set r = .ok (some (o', r')) ∧ Step al r r' ∧ Progress al r r' := by
  obtain ⟨e, q, v, hf, hm, -⟩ := readAllocBytes_reads hi tag 0 (al r.n)
  refine ⟨set (v.1.map (·.take v.2)), ⟨q, r.n + 1⟩, by simp only [rdField, rdBytes, hf, Out.bind_ok, Out.pure_eq],
    Step.of_moved hi hm (Nat.le_succ _), ?_⟩
  rcases readAllocBytes_adv hi ht hf with h | h
  · exact .inl h
  · exact .inr (.inl h)

theorem rdNum_good {al : Nat → Bool} {tag : Int} (ht : 0 < tag) {α : Type} (set : UInt32 → α) (r : R)
    (hi : Input r.p) :
    ∃ o' r', rdField (rdNum tag) set r = .ok (some (o', r')) ∧ Step al r r' ∧ Progress al r r' := by
  obtain ⟨e, q, v, hf, hm, -⟩ := readUInt32_reads hi tag
  refine ⟨set v, ⟨q, r.n⟩, by simp only [rdField, rdNum, hf, Out.bind_ok, Out.pure_eq],
    Step.of_moved hi hm (Nat.le_refl _), ?_⟩
  rcases readUInt32_adv hi ht hf with h | h
  · exact .inl h
  · exact .inr (.inl h)

theorem rdOther_good {al : Nat → Bool} {α : Type} (o : α) (r : R) (hi : Input r.p) :
    ∃ o' r', rdOther o r = .ok (some (o', r')) ∧ Step al r r' ∧ Progress al r r' := by
  obtain ⟨e, q, hf, hm⟩ := readSkip_moved hi
  refine ⟨o, ⟨q, r.n⟩, by simp only [rdOther, rdSkip, hf, Out.bind_ok, Out.pure_eq],
    Step.of_moved hi hm (Nat.le_refl _), ?_⟩
  rcases readSkip_adv hi hf with h | h
  · exact .inl h
  · exact .inr (.inl h)

theorem rdMsg_good {al : Nat → Bool} {N fuel : Nat} {α β : Type} {read : R → Int → Out (Option (Err × Option β × R))}
    (hr : GoodRead al N fuel read) {tag : Int} (ht : 0 < tag) (set : Option β → α) (r : R) (hi : Input r.p)
    (hl : left N r ≤ fuel) : ∃ o' r', rdMsg read tag set r = .ok (some (o', r')) ∧ Step al r r' ∧ Progress al r r' := by
  obtain ⟨e, o, r', hf, s, -, p⟩ := hr r tag hi hl
  exact ⟨set o, r', by simp only [rdMsg, hf, Out.bind_ok, Out.pure_eq], s, p ht⟩

theorem addTo_step {al : Nat → Bool} {α : Type} (l : List (Option α)) (v : Option α) (r : R) (hi : Input r.p) :
    Step al r (addTo al l v r).2 := by
  unfold addTo
  split
  · dsimp only
    split
    · exact ⟨⟨⟨hi.1.posn, hi.1.size⟩, hi.2⟩, rfl, rfl, Nat.le_refl _, Nat.le_succ _, fun _ => by simp [PB.fail]⟩
    · exact ⟨hi, rfl, rfl, Nat.le_refl _, Nat.le_succ _, fun h => h⟩
  · exact ⟨hi, rfl, rfl, Nat.le_refl _, Nat.le_succ _, fun h => h⟩

theorem rdItem_good {al : Nat → Bool} {N fuel : Nat} {α β : Type} {read : R → Int → Out (Option (Err × Option β × R))}
    (hr : GoodRead al N fuel read) {tag : Int} (ht : 0 < tag) (l : List (Option β)) (set : List (Option β) → α) (r : R)
    (hi : Input r.p) (hl : left N r ≤ fuel) :
    ∃ o' r', rdItem al read tag l set r = .ok (some (o', r')) ∧ Step al r r' ∧ Progress al r r' := by
  obtain ⟨e, o, r', hf, s, -, p⟩ := hr r tag hi hl
  have s2 := addTo_step (al := al) l o r' s.inp
  exact ⟨set (addTo al l o r').1, (addTo al l o r').2, by simp only [rdItem, hf, Out.bind_ok, Out.pure_eq], s.trans s2,
    (p ht).left s2⟩

section
variable {al : Nat → Bool} {N : Nat} (hN : ∀ n, N ≤ n → al n = true) (fuel : Nat)
include hN

theorem PublicKeyInfo.good : GoodRead al N fuel (PublicKeyInfo.read al fuel) := by
  refine readObj_good hN fun o r hi hl => ?_
  obtain ⟨t, ht⟩ := peekTag_ok hi.1
  simp only [PublicKeyInfo.step, ht, Out.bind_ok]
  repeat' split
  · exact rdString_good (by decide) _ r hi
  · exact rdBytes_good (by decide) _ r hi
  · exact rdOther_good _ r hi

theorem PrivateKeyInfo.good : GoodRead al N fuel (PrivateKeyInfo.read al fuel) := by
  refine readObj_good hN fun o r hi hl => ?_
  obtain ⟨t, ht⟩ := peekTag_ok hi.1
  simp only [PrivateKeyInfo.step, ht, Out.bind_ok]
  repeat' split
  · exact rdString_good (by decide) _ r hi
  · exact rdBytes_good (by decide) _ r hi
  · exact rdOther_good _ r hi

theorem MetaInfo.good : GoodRead al N fuel (MetaInfo.read al fuel) := by
  refine readObj_good hN fun o r hi hl => ?_
  obtain ⟨t, ht⟩ := peekTag_ok hi.1
  simp only [MetaInfo.step, ht, Out.bind_ok]
  repeat' split
  · exact rdString_good (by decide) _ r hi
  · exact rdString_good (by decide) _ r hi
  · exact rdOther_good _ r hi

theorem SubjectInfo.good : GoodRead al N fuel (SubjectInfo.read al fuel) := by
  refine readObj_good hN fun o r hi hl => ?_
  obtain ⟨t, ht⟩ := peekTag_ok hi.1
  simp only [SubjectInfo.step, ht, Out.bind_ok]
  repeat' split
  · exact rdString_good (by decide) _ r hi
  · exact rdString_good (by decide) _ r hi
  · exact rdString_good (by decide) _ r hi
  · exact rdItem_good (PublicKeyInfo.good hN fuel) (by decide) _ _ r hi hl
  · exact rdItem_good (MetaInfo.good hN fuel) (by decide) _ _ r hi hl
  · exact rdOther_good _ r hi

theorem PrivateKey.good : GoodRead al N fuel (PrivateKey.read al fuel) := by
  refine readObj_good hN fun o r hi hl => ?_
  obtain ⟨t, ht⟩ := peekTag_ok hi.1
  simp only [PrivateKey.step, ht, Out.bind_ok]
  repeat' split
  · exact rdString_good (by decide) _ r hi
  · exact rdString_good (by decide) _ r hi
  · exact rdString_good (by decide) _ r hi
  · exact rdItem_good (PrivateKeyInfo.good hN fuel) (by decide) _ _ r hi hl
  · exact rdItem_good (MetaInfo.good hN fuel) (by decide) _ _ r hi hl
  · exact rdOther_good _ r hi

theorem ExtraSignedInfo.good : GoodRead al N fuel (ExtraSignedInfo.read al fuel) := by
  refine readObj_good hN fun o r hi hl => ?_
  obtain ⟨t, ht⟩ := peekTag_ok hi.1
  simp only [ExtraSignedInfo.step, ht, Out.bind_ok]
  repeat' split
  · exact rdBytes_good (by decide) _ r hi
  · exact rdString_good (by decide) _ r hi
  · exact rdString_good (by decide) _ r hi
  · exact rdItem_good (MetaInfo.good hN fuel) (by decide) _ _ r hi hl
  · exact rdOther_good _ r hi

theorem Signature.good : GoodRead al N fuel (Signature.read al fuel) := by
  refine readObj_good hN fun o r hi hl => ?_
  obtain ⟨t, ht⟩ := peekTag_ok hi.1
  simp only [Signature.step, ht, Out.bind_ok]
  repeat' split
  · exact rdString_good (by decide) _ r hi
  · exact rdString_good (by decide) _ r hi
  · exact rdMsg_good (PublicKeyInfo.good hN fuel) (by decide) _ r hi hl
  · exact rdString_good (by decide) _ r hi
  · exact rdMsg_good (ExtraSignedInfo.good hN fuel) (by decide) _ r hi hl
  · exact rdBytes_good (by decide) _ r hi
  · exact rdOther_good _ r hi

theorem Certificate.good : GoodRead al N fuel (Certificate.read al fuel) := by
  refine readObj_good hN fun o r hi hl => ?_
  obtain ⟨t, ht⟩ := peekTag_ok hi.1
  simp only [Certificate.step, ht, Out.bind_ok]
  repeat' split
  · exact rdNum_good (by decide) _ r hi
  · exact rdMsg_good (SubjectInfo.good hN fuel) (by decide) _ r hi hl
  · exact rdItem_good (Signature.good hN fuel) (by decide) _ _ r hi hl
  · exact rdOther_good _ r hi

theorem CertificateChain.good : GoodRead al N fuel (CertificateChain.read al fuel) := by
  refine readObj_good hN fun o r hi hl => ?_
  obtain ⟨t, ht⟩ := peekTag_ok hi.1
  simp only [CertificateChain.step, ht, Out.bind_ok]
  repeat' split
  · exact rdItem_good (Certificate.good hN fuel) (by decide) _ _ r hi hl
  · exact rdOther_good _ r hi

theorem EncryptedPrivateKey.good : GoodRead al N fuel (EncryptedPrivateKey.read al fuel) := by
  refine readObj_good hN fun o r hi hl => ?_
  obtain ⟨t, ht⟩ := peekTag_ok hi.1
  simp only [EncryptedPrivateKey.step, ht, Out.bind_ok]
  repeat' split
  · exact rdNum_good (by decide) _ r hi
  · exact rdString_good (by decide) _ r hi
  · exact rdBytes_good (by decide) _ r hi
  · exact rdNum_good (by decide) _ r hi
  · exact rdBytes_good (by decide) _ r hi
  · exact rdOther_good _ r hi

end

/-! ## C58 -/

/-- Reading `d` gives a result, inside the input, if every loop may run for `fuel` rounds; the object is given
exactly if there is no error. -/
def Returns {α : Type} (read : Nat → R → Int → Out (Option (Err × Option α × R))) (d : Bytes) (fuel : Nat) : Prop :=
  ∃ e o r, read fuel ⟨prepareInput d, 0⟩ 0 = .ok (some (e, o, r)) ∧ r.p.data = some d ∧ r.p.size = d.length ∧
    r.p.posn ≤ d.length ∧ (e ≠ .none ↔ o = none)

theorem GoodRead.returns {al : Nat → Bool} {N : Nat} {α : Type} {read : Nat → R → Int → Out (Option (Err × Option α × R))}
    (h : ∀ fuel, GoodRead al N fuel (read fuel)) (d : Bytes) {fuel : Nat} (hf : d.length + N ≤ fuel) :
    Returns read d fuel := by
  have hi : Input (prepareInput d) := ⟨⟨Nat.zero_le _, fun d' h => by cases h; rfl⟩, d, rfl⟩
  obtain ⟨e, o, r, he, s, ho, -⟩ := h fuel ⟨prepareInput d, 0⟩ 0 hi (by simpa [left, prepareInput] using hf)
  refine ⟨e, o, r, he, s.data, s.size, ?_, ho⟩
  have := s.inp.1.posn
  have h2 : r.p.size = d.length := s.size
  omega

/-- **C58**, what holds: reading any bytes as any of the objects has no undefined behaviour, stays inside the
input and terminates, after at most `d.length + N` rounds of every loop, if every allocation from the `N`-th on
succeeds. Missing: that it terminates when allocations go on failing, which is false (`C58_fails`). -/
theorem C58_partial (al : Nat → Bool) (N : Nat) (hN : ∀ n, N ≤ n → al n = true) (d : Bytes) (fuel : Nat)
    (hf : d.length + N ≤ fuel) :
    Returns (CertificateChain.read al) d fuel ∧ Returns (Certificate.read al) d fuel ∧
    Returns (PrivateKey.read al) d fuel ∧ Returns (EncryptedPrivateKey.read al) d fuel ∧
    Returns (SubjectInfo.read al) d fuel ∧ Returns (Signature.read al) d fuel ∧
    Returns (ExtraSignedInfo.read al) d fuel ∧ Returns (PublicKeyInfo.read al) d fuel ∧
    Returns (PrivateKeyInfo.read al) d fuel ∧ Returns (MetaInfo.read al) d fuel :=
  ⟨GoodRead.returns (CertificateChain.good hN) d hf, GoodRead.returns (Certificate.good hN) d hf,
    GoodRead.returns (PrivateKey.good hN) d hf, GoodRead.returns (EncryptedPrivateKey.good hN) d hf,
    GoodRead.returns (SubjectInfo.good hN) d hf, GoodRead.returns (Signature.good hN) d hf,
    GoodRead.returns (ExtraSignedInfo.good hN) d hf, GoodRead.returns (PublicKeyInfo.good hN) d hf,
    GoodRead.returns (PrivateKeyInfo.good hN) d hf, GoodRead.returns (MetaInfo.good hN) d hf⟩

/-- The end of a loop that never ends: no allocation but the first succeeds. -/
theorem chain_loops (k : Nat) : ∀ (f n : Nat) (o : CertificateChain), 1 ≤ n → o.certs = [] →
    loop (CertificateChain.step (fun n => n = 0) k) 2 f o ⟨prepareInput [66, 0], n⟩ = .ok none := by
  have hp : (prepareInput [66, 0]).peekTag = .ok 8 := by decide +kernel
  intro f
  induction f with
  | zero =>
    intro n o hn ho
    rfl
  | succ f ih =>
    intro n o hn ho
    rw [loop, if_neg (by simp [readAtEndElement, prepareInput])]
    have h0 : decide (n = 0) = false := by simp; omega
    have h1 : decide (n + 1 = 0) = false := by simp
    have hs : CertificateChain.step (fun n => n = 0) k o ⟨prepareInput [66, 0], n⟩ =
        .ok (some (o, ⟨prepareInput [66, 0], n + 1 + 1⟩)) := by
      simp only [CertificateChain.step, hp, Out.bind_ok, if_true, rdItem, Certificate.read, readObj, h0,
        addTo, ho, List.length_nil, h1]
      obtain ⟨c⟩ := o
      cases ho
      rfl
    rw [hs]
    exact ih (n + 2) o (by omega) ho

/-- **C58** is false: if the memory is used up (every allocation but the first fails), the loop that reads a certificate chain never ends, as the
failure to allocate an item is not recorded in the protobuf. The input is a chain of one empty certificate. -/
theorem C58_fails (fuel : Nat) :
    CertificateChain.read (fun n => n = 0) fuel ⟨prepareInput [66, 0], 0⟩ 0 = .ok none := by
  have hs : (prepareInput [66, 0]).readStartElement 0 = .ok (.none, prepareInput [66, 0], 2) := by decide +kernel
  simp only [CertificateChain.read, readObj]
  rw [if_neg (by simp), hs]
  simp only [Out.bind_ok]
  rw [chain_loops fuel fuel 1 {} (by omega) rfl]
  rfl

/-! ## C59 -/

/-- If there is no error after a call, then no allocation failed in it. -/
def Faith {α : Type} (step step' : α → R → Out (Option (α × R))) : Prop :=
  ∀ o r o' r', Input r.p → step o r = .ok (some (o', r')) →
    Input r'.p ∧ (r'.p.err = .none → step' o r = .ok (some (o', r')))

theorem loop_err {α : Type} {step : α → R → Out (Option (α × R))} {endPosn : Nat} (f : Nat) {o : α} {r : R}
    (h : r.p.err ≠ .none) : loop step endPosn f o r = .ok (some (o, r)) := by
  cases f <;> simp [loop, readAtEndElement, h]

theorem loop_faith {α : Type} {step step' : α → R → Out (Option (α × R))} (hs : Faith step step') (endPosn : Nat) :
    ∀ (f : Nat) (o : α) (r : R) (o' : α) (r' : R), Input r.p → loop step endPosn f o r = .ok (some (o', r')) →
      r'.p.err = .none → loop step' endPosn f o r = .ok (some (o', r')) := by
  intro f
  induction f with
  | zero => intro o r o' r' _ h _; exact h
  | succ f ih =>
    intro o r o' r' hi h he
    rw [loop] at h ⊢
    split
    · next hend => rw [if_pos hend] at h; exact h
    · next hend =>
      rw [if_neg hend] at h
      cases hx : step o r with
      | ub => rw [hx] at h; cases h
      | ok x =>
        rw [hx] at h
        cases x with
        | none => cases h
        | some x =>
          obtain ⟨o1, r1⟩ := x
          simp only [Out.bind_ok] at h
          have h1 : r1.p.err = .none := by
            by_cases h1 : r1.p.err = .none
            · exact h1
            · rw [loop_err f h1] at h
              cases h
              exact he
          obtain ⟨hi', hx'⟩ := hs o r o1 r1 hi hx
          rw [hx' h1]
          exact ih o1 r1 o' r' hi' h he

theorem readObj_faith {al : Nat → Bool} {α : Type} {new : α} {step step' : α → R → Out (Option (α × R))}
    (hs : Faith step step') (fuel : Nat) (r : R) (hi : Input r.p) (tag : Int) {o : α} {r' : R}
    (h : readObj al fuel new step r tag = .ok (some (.none, some o, r'))) :
    readObj yes fuel new step' r tag = .ok (some (.none, some o, r')) := by
  unfold readObj at h ⊢
  split at h
  · cases h
  · rw [if_neg (by simp [yes])]
    obtain ⟨e, q, v, hx, hm, -⟩ := readStartElement_reads hi tag
    rw [hx] at h ⊢
    simp only [Out.bind_ok] at h ⊢
    cases hy : loop step v fuel new ⟨q, r.n + 1⟩ with
    | ub => rw [hy] at h; cases h
    | ok y =>
      rw [hy] at h
      cases y with
      | none => cases h
      | some y =>
        obtain ⟨o1, r1⟩ := y
        simp only [Out.bind_ok, Out.pure_eq] at h
        have he : (r1.p.readEndElement v).1 = .none := by
          injection h with h
          injection h with h
          exact (Prod.mk.inj h).1
        have h1 : r1.p.err = .none := by
          by_cases h1 : r1.p.err = .none
          · exact h1
          · rw [readEndElement, if_pos h1] at he
            exact absurd he h1
        rw [loop_faith hs v fuel _ _ _ _ (hm.input hi) hy h1]
        exact h

/-- Nothing is read into memory that could not be allocated. -/
theorem noAlloc_string {p : PB} {tag : Int} {e : Err} {q : PB} {v : Option Bytes × Nat}
    (h : p.readAllocString tag 0 false = .ok (e, q, v)) : e ≠ .none := by
  intro he
  subst he
  unfold readAllocString at h
  obtain ⟨⟨e1, q1⟩, -, h⟩ := Out.bind_eq_ok.1 h
  dsimp only at h
  split at h
  · next hne => cases h; exact hne rfl
  obtain ⟨⟨e2, q2, v2⟩, -, h⟩ := Out.bind_eq_ok.1 h
  dsimp only at h
  split at h
  · next hne => cases h; exact hne rfl
  rw [if_pos rfl] at h
  split at h
  · cases h
  obtain ⟨⟨e3, q3, v3⟩, -, h⟩ := Out.bind_eq_ok.1 h
  dsimp only at h
  split at h
  · next hne => cases h; exact hne rfl
  obtain ⟨b, -, h⟩ := Out.bind_eq_ok.1 h
  split at h
  · cases h
  · cases h

/-- Nothing is read into memory that could not be allocated. -/
theorem noAlloc_bytes {p : PB} {tag : Int} {e : Err} {q : PB} {v : Option Bytes × Nat}
    (h : p.readAllocBytes tag 0 false = .ok (e, q, v)) : e ≠ .none := by
  intro he
  subst he
  unfold readAllocBytes at h
  obtain ⟨⟨e1, q1⟩, -, h⟩ := Out.bind_eq_ok.1 h
  dsimp only at h
  split at h
  · next hne => cases h; exact hne rfl
  obtain ⟨⟨e2, q2, v2⟩, -, h⟩ := Out.bind_eq_ok.1 h
  dsimp only at h
  split at h
  · next hne => cases h; exact hne rfl
  rw [if_pos rfl] at h
  split at h
  · cases h
  obtain ⟨⟨e3, q3, v3⟩, -, h⟩ := Out.bind_eq_ok.1 h
  dsimp only at h
  split at h
  · next hne => cases h; exact hne rfl
  · cases h

theorem Moved.bad {p q : PB} {e : Err} (h : Moved p q e) (he : e ≠ .none) : q.err ≠ .none := by
  by_cases hp : p.err = .none
  · rw [← h.code hp]; exact he
  · exact (h.sticky hp).2.2

theorem rdString_faith {al : Nat → Bool} {tag : Int} {α : Type} {set : Option Bytes → α} {r : R} {o' : α} {r' : R}
    (hi : Input r.p) (h : rdField (rdString al tag) set r = .ok (some (o', r'))) :
    Input r'.p ∧ (r'.p.err = .none → rdField (rdString yes tag) set r = .ok (some (o', r'))) := by
  obtain ⟨e, q, v, hf, hm, -⟩ := readAllocString_reads hi tag 0 (al r.n)
  have hx := h
  simp only [rdField, rdString, hf, Out.bind_ok, Out.pure_eq] at hx
  cases hx
  refine ⟨hm.input hi, fun he => ?_⟩
  cases ha : al r.n with
  | true =>
    have : rdString yes tag r = rdString al tag r := by unfold rdString; rw [ha]; rfl
    unfold rdField at h ⊢
    rw [this]
    exact h
  | false =>
    rw [ha] at hf
    exact absurd he (Moved.bad hm (noAlloc_string hf))

theorem rdBytes_faith {al : Nat → Bool} {tag : Int} {α : Type} {set : Option Bytes → α} {r : R} {o' : α} {r' : R}
    (hi : Input r.p) (h : rdField (rdBytes al tag) set r = .ok (some (o', r'))) :
    Input r'.p ∧ (r'.p.err = .none → rdField (rdBytes yes tag) set r = .ok (some (o', r'))) := by
  obtain ⟨e, q, v, hf, hm, -⟩ := readAllocBytes_reads hi tag 0 (al r.n)
  have hx := h
  simp only [rdField, rdBytes, hf, Out.bind_ok, Out.pure_eq] at hx
  cases hx
  refine ⟨hm.input hi, fun he => ?_⟩
  cases ha : al r.n with
  | true =>
    have : rdBytes yes tag r = rdBytes al tag r := by unfold rdBytes; rw [ha]; rfl
    unfold rdField at h ⊢
    rw [this]
    exact h
  | false =>
    rw [ha] at hf
    exact absurd he (Moved.bad hm (noAlloc_bytes hf))

theorem rdNum_faith {tag : Int} {α : Type} {set : UInt32 → α} {r : R} {o' : α} {r' : R}
    (hi : Input r.p) (h : rdField (rdNum tag) set r = .ok (some (o', r'))) :
    Input r'.p ∧ (r'.p.err = .none → rdField (rdNum tag) set r = .ok (some (o', r'))) := by
  obtain ⟨e, q, v, hf, hm, -⟩ := readUInt32_reads hi tag
  have hx := h
  simp only [rdField, rdNum, hf, Out.bind_ok, Out.pure_eq] at hx
  cases hx
  exact ⟨hm.input hi, fun _ => h⟩

theorem rdOther_faith {α : Type} {o : α} {r : R} {o' : α} {r' : R}
    (hi : Input r.p) (h : rdOther o r = .ok (some (o', r'))) :
    Input r'.p ∧ (r'.p.err = .none → rdOther o r = .ok (some (o', r'))) := by
  obtain ⟨e, q, hf, hm⟩ := readSkip_moved hi
  have hx := h
  simp only [rdOther, rdSkip, hf, Out.bind_ok, Out.pure_eq] at hx
  cases hx
  exact ⟨hm.input hi, fun _ => h⟩

/-- Success means that the same object would have been read with enough memory. -/
def Complete {α : Type} (read : (Nat → Bool) → Nat → R → Int → Out (Option (Err × Option α × R))) : Prop :=
  ∀ (al : Nat → Bool) (fuel : Nat) (d : Bytes) (o : α) (r : R),
    read al fuel ⟨prepareInput d, 0⟩ 0 = .ok (some (.none, some o, r)) →
    read (fun _ => true) fuel ⟨prepareInput d, 0⟩ 0 = .ok (some (.none, some o, r))

theorem prepareInput_input (d : Bytes) : Input (prepareInput d) :=
  ⟨⟨Nat.zero_le _, fun d' h => by cases h; rfl⟩, d, rfl⟩

/-- **C59**, what holds: a lack of memory is always reported for the objects without nested objects. Missing:
the others, for which it is false (`C59_fails`). -/
theorem C59_partial : Complete PublicKeyInfo.read ∧ Complete PrivateKeyInfo.read ∧ Complete MetaInfo.read ∧
    Complete EncryptedPrivateKey.read := by
  refine ⟨?_, ?_, ?_, ?_⟩
  · intro al fuel d o r h
    refine readObj_faith (fun o r o' r' hi h => ?_) fuel _ (prepareInput_input d) 0 h
    obtain ⟨t, ht⟩ := peekTag_ok hi.1
    simp only [PublicKeyInfo.step, ht, Out.bind_ok] at h ⊢
    by_cases h1 : t = 1
    · rw [if_pos h1] at h ⊢; exact rdString_faith hi h
    rw [if_neg h1] at h ⊢
    by_cases h2 : t = 2
    · rw [if_pos h2] at h ⊢; exact rdBytes_faith hi h
    rw [if_neg h2] at h ⊢
    exact rdOther_faith hi h
  · intro al fuel d o r h
    refine readObj_faith (fun o r o' r' hi h => ?_) fuel _ (prepareInput_input d) 0 h
    obtain ⟨t, ht⟩ := peekTag_ok hi.1
    simp only [PrivateKeyInfo.step, ht, Out.bind_ok] at h ⊢
    by_cases h1 : t = 1
    · rw [if_pos h1] at h ⊢; exact rdString_faith hi h
    rw [if_neg h1] at h ⊢
    by_cases h2 : t = 2
    · rw [if_pos h2] at h ⊢; exact rdBytes_faith hi h
    rw [if_neg h2] at h ⊢
    exact rdOther_faith hi h
  · intro al fuel d o r h
    refine readObj_faith (fun o r o' r' hi h => ?_) fuel _ (prepareInput_input d) 0 h
    obtain ⟨t, ht⟩ := peekTag_ok hi.1
    simp only [MetaInfo.step, ht, Out.bind_ok] at h ⊢
    by_cases h1 : t = 1
    · rw [if_pos h1] at h ⊢; exact rdString_faith hi h
    rw [if_neg h1] at h ⊢
    by_cases h2 : t = 2
    · rw [if_pos h2] at h ⊢; exact rdString_faith hi h
    rw [if_neg h2] at h ⊢
    exact rdOther_faith hi h
  · intro al fuel d o r h
    refine readObj_faith (fun o r o' r' hi h => ?_) fuel _ (prepareInput_input d) 0 h
    obtain ⟨t, ht⟩ := peekTag_ok hi.1
    simp only [EncryptedPrivateKey.step, ht, Out.bind_ok] at h ⊢
    by_cases h1 : t = 10
    · rw [if_pos h1] at h ⊢; exact rdNum_faith hi h
    rw [if_neg h1] at h ⊢
    by_cases h2 : t = 11
    · rw [if_pos h2] at h ⊢; exact rdString_faith hi h
    rw [if_neg h2] at h ⊢
    by_cases h3 : t = 12
    · rw [if_pos h3] at h ⊢; exact rdBytes_faith hi h
    rw [if_neg h3] at h ⊢
    by_cases h4 : t = 13
    · rw [if_pos h4] at h ⊢; exact rdNum_faith hi h
    rw [if_neg h4] at h ⊢
    by_cases h5 : t = 15
    · rw [if_pos h5] at h ⊢; exact rdBytes_faith hi h
    rw [if_neg h5] at h ⊢
    exact rdOther_faith hi h

/-- The outcome of a read call: whether it returned success, and the object. -/
def outcome {α : Type} (x : Out (Option (Err × Option α × R))) : Option (Err × Option α) :=
  match x with
  | .ok (some (e, o, _)) => some (e, o)
  | _ => none

/-- **C59** is false: if one allocation fails while a chain or a private key is read, the read function may
report success without the item (the array could not be grown) or with a NULL item in the array (the item could
not be allocated). The inputs are a chain of one certificate and a private key file with one key. -/
theorem C59_fails :
    outcome (CertificateChain.read (fun _ => true) 9 ⟨prepareInput [66, 2, 8, 1], 0⟩ 0) =
      some (.none, some { certs := [some { version := 1 }] }) ∧
    outcome (CertificateChain.read (fun n => n ≠ 2) 9 ⟨prepareInput [66, 2, 8, 1], 0⟩ 0) =
      some (.none, some { certs := [] }) ∧
    outcome (CertificateChain.read (fun n => n ≠ 1) 9 ⟨prepareInput [66, 2, 8, 1], 0⟩ 0) =
      some (.none, some { certs := [none, some { version := 1 }] }) ∧
    outcome (PrivateKey.read (fun _ => true) 9 ⟨prepareInput [34, 3, 18, 1, 7], 0⟩ 0) =
      some (.none, some { keys := [some { key := some [7] }] }) ∧
    outcome (PrivateKey.read (fun n => n ≠ 3) 9 ⟨prepareInput [34, 3, 18, 1, 7], 0⟩ 0) =
      some (.none, some { keys := [] }) := by decide +kernel

/-! ## Examples -/

/-- Garbage is refused, and so is a chain that is cut off. -/
example : outcome (CertificateChain.read (fun n => n ≠ 1) 9 ⟨prepareInput [7, 7, 7], 0⟩ 0) = some (.invalidFormat, none) ∧
    outcome (CertificateChain.read (fun _ => true) 9 ⟨prepareInput [66, 9, 8, 1], 0⟩ 0) = some (.invalidFormat, none) := by
  decide +kernel

/-- Two allocations fail, then all succeed. -/
example : ∀ n, 3 ≤ n → (fun n => decide (n = 0 ∨ 3 ≤ n)) n = true := by
  intro n h; simp; omega

/-- A key that is read although the memory is used up afterwards, and one that is not. -/
example : outcome (PublicKeyInfo.read (fun n => n ≤ 1) 9 ⟨prepareInput [18, 1, 7], 0⟩ 0) = some (.none, some { key := some [7] }) ∧
    outcome (PublicKeyInfo.read (fun n => n ≤ 0) 9 ⟨prepareInput [18, 1, 7], 0⟩ 0) = some (.noMemory, none) := by
  decide +kernel

end Cert
end Noise
