import Verif.ProtobufWrite
/-!
# Writing stays inside the buffer, and measuring is exact (C44)
-/

namespace Noise
namespace PB

/-- What holds before and after every call of a program that writes. -/
structure Writing (x : PB × List Nat) : Prop where
  inv : x.1.Inv
  stack : StackOK x
  size : x.1.size < 2 ^ 64

/-- One call keeps the invariant; it writes only in front of the position. -/
theorem Writing.step {x : PB × List Nat} (h : Writing x) (op : WOp) (hf : op.Fits) :
    ∃ e y, op.step x = .ok (e, y) ∧ Writing y ∧ y.1.posn ≤ x.1.posn ∧ y.1.size = x.1.size ∧
      y.1.data.isSome = x.1.data.isSome ∧ (x.1.err ≠ .none → y.1 = x.1 ∧ e ≠ .none) ∧
      (x.1.err = .none → e = y.1.err) := by
  by_cases he : x.1.err = .none
  · have heq := WOp.step_eq h.inv he h.stack h.size op hf
    cases hp : op.parts x with
    | none =>
      rw [hp] at heq
      refine ⟨_, _, heq, ⟨⟨h.inv.posn, h.inv.size⟩, fun h => by simp [PB.fail] at h, h.size⟩, Nat.le_refl _, rfl,
        rfl, fun h => absurd he h, fun _ => rfl⟩
    | some l =>
      rw [hp] at heq
      obtain ⟨h1, h2, h3⟩ := puts_frame x.1 l
      refine ⟨_, _, heq, ⟨h.inv.puts l, ?_, by rw [h2]; exact h.size⟩, h1, h2, h3, fun h => absurd he h,
        fun _ => rfl⟩
      intro _ e hm
      show (x.1.puts l).posn ≤ e ∧ e ≤ (x.1.puts l).size
      rw [h2]
      have hold : ∀ e ∈ x.2, (x.1.puts l).posn ≤ e ∧ e ≤ x.1.size := by
        intro e hm
        have := h.stack he e hm
        omega
      cases op with
      | endElement =>
        simp only [WOp.stack, writeEndElement, he] at hm
        rcases List.mem_cons.mp hm with rfl | hm
        · have := h.inv.posn
          simp only [ne_eq, not_true_eq_false, if_false]
          omega
        · exact hold e hm
      | startElement tag => exact hold e (List.mem_of_mem_tail hm)
      | _ => exact hold e hm
  · obtain ⟨e, heq, hne⟩ := WOp.step_err h.inv he op hf
    exact ⟨_, _, heq, ⟨h.inv, fun h => absurd h he, h.size⟩, Nat.le_refl _, rfl, rfl, fun _ => ⟨rfl, hne⟩,
      fun h => absurd h he⟩

/-- A whole program keeps it. -/
theorem Writing.run {x : PB × List Nat} (h : Writing x) (ops : List WOp) (hf : ∀ op ∈ ops, op.Fits) :
    ∃ es y, WOp.run x ops = .ok (es, y) ∧ Writing y ∧ y.1.posn ≤ x.1.posn ∧ y.1.size = x.1.size ∧
      y.1.data.isSome = x.1.data.isSome ∧ (x.1.err ≠ .none → y.1 = x.1 ∧ ∀ e ∈ es, e ≠ .none) ∧
      (x.1.err = .none → ((∀ e ∈ es, e = .none) ↔ y.1.err = .none)) := by
  induction ops generalizing x with
  | nil => exact ⟨[], x, rfl, h, Nat.le_refl _, rfl, rfl, fun _ => ⟨rfl, by simp⟩, fun he => by simp [he]⟩
  | cons op ops ih =>
    obtain ⟨e, y, hy, wy, p1, s1, d1, k1, c1⟩ := h.step op (hf op (by simp))
    obtain ⟨es, z, hz, wz, p2, s2, d2, k2, c2⟩ := ih wy (fun o ho => hf o (by simp [ho]))
    refine ⟨e :: es, z, ?_, wz, by omega, by rw [s2, s1], by rw [d2, d1], ?_, ?_⟩
    · simp [WOp.run, hy, hz]
    · intro he
      obtain ⟨a, b⟩ := k1 he
      obtain ⟨a', b'⟩ := k2 (by rw [a]; exact he)
      exact ⟨by rw [a', a], fun e' hm => by rcases List.mem_cons.mp hm with rfl | hm; exact b; exact b' e' hm⟩
    · intro he
      have hc := c1 he
      simp only [List.mem_cons, forall_eq_or_imp]
      by_cases hye : y.1.err = .none
      · rw [hc, hye, c2 hye]; simp
      · obtain ⟨a, b⟩ := k2 hye
        rw [a, hc]
        constructor
        · exact fun h => absurd h.1 hye
        · exact fun h => absurd h hye

/-- A buffer and a measuring structure with `k` bytes more room, both running the same program. -/
structure Sim (k : Nat) (r m : PB × List Nat) : Prop where
  real : Writing r
  meas : Writing m
  size : m.1.size = r.1.size + k
  good : r.1.err = .none → m.1.err = .none ∧ m.1.posn = r.1.posn + k ∧ m.2 = r.2.map (· + k)
  bad : r.1.err ≠ .none → m.1.err ≠ .none ∨ m.1.posn < k

theorem Sim.parts {k : Nat} {r m : PB × List Nat} (h : Sim k r m) (he : r.1.err = .none) (op : WOp) :
    op.parts m = op.parts r := by
  obtain ⟨-, hp, hs⟩ := h.good he
  cases op with
  | startElement tag =>
    have : m.2.headD m.1.size - m.1.posn = r.2.headD r.1.size - r.1.posn := by
      rw [hs, hp, h.size]
      cases r.2 with
      | nil => simp only [List.map_nil, List.headD_nil]; omega
      | cons a l => simp only [List.map_cons, List.headD_cons]; omega
    simp only [WOp.parts, this]
  | _ => rfl

theorem Sim.stack {k : Nat} {r m : PB × List Nat} (h : Sim k r m) (he : r.1.err = .none) (op : WOp) :
    op.stack m = (op.stack r).map (· + k) := by
  obtain ⟨hm, hp, hs⟩ := h.good he
  cases op with
  | startElement tag => simp only [WOp.stack, hs, List.map_tail]
  | endElement => simp [WOp.stack, writeEndElement, he, hm, hs, hp]
  | _ => exact hs

theorem Sim.step {k : Nat} {r m : PB × List Nat} (h : Sim k r m) (op : WOp) (hf : op.Fits) :
    ∃ e r' e' m', op.step r = .ok (e, r') ∧ op.step m = .ok (e', m') ∧ Sim k r' m' := by
  obtain ⟨e, r', hr, wr, rp, rs, rd, rk, rc⟩ := h.real.step op hf
  obtain ⟨e', m', hm, wm, mp, ms, md, mk, mc⟩ := h.meas.step op hf
  refine ⟨e, r', e', m', hr, hm, wr, wm, by rw [ms, rs, h.size], ?_, ?_⟩
  all_goals by_cases he : r.1.err = .none
  · have q1 := WOp.step_eq h.real.inv he h.real.stack h.real.size op hf
    obtain ⟨hme, hp, hs⟩ := h.good he
    have q2 := WOp.step_eq h.meas.inv hme h.meas.stack h.meas.size op hf
    rw [h.parts he op] at q2
    have hst := h.stack he op
    intro hre
    cases hpa : op.parts r with
    | none =>
      rw [hpa, hr] at q1
      cases q1
      simp [PB.fail] at hre
    | some l =>
      rw [hpa, hr] at q1
      rw [hpa, hm] at q2
      cases q1; cases q2
      by_cases hl : l.flatten.length ≤ r.1.posn
      · rw [puts_ok h.real.inv he l hl, puts_ok h.meas.inv hme l (by omega)]
        have hlen : l.reverse.flatten.length = l.flatten.length := by simp [List.length_flatten]
        refine ⟨hme, ?_, hst⟩
        show m.1.posn - _ = r.1.posn - _ + k
        omega
      · have := puts_full h.real.inv he l (by omega)
        rw [this] at hre
        cases hre
  · intro hre
    rw [(rk he).1] at hre
    exact absurd hre he
  · have q1 := WOp.step_eq h.real.inv he h.real.stack h.real.size op hf
    obtain ⟨hme, hp, hs⟩ := h.good he
    have q2 := WOp.step_eq h.meas.inv hme h.meas.stack h.meas.size op hf
    rw [h.parts he op] at q2
    intro hre
    cases hpa : op.parts r with
    | none =>
      rw [hpa, hm] at q2
      cases q2
      exact .inl (by simp [PB.fail])
    | some l =>
      rw [hpa, hr] at q1
      rw [hpa, hm] at q2
      cases q1; cases q2
      by_cases hl : l.flatten.length ≤ r.1.posn
      · rw [puts_ok h.real.inv he l hl] at hre
        exact absurd he hre
      · by_cases hl' : l.flatten.length ≤ m.1.posn
        · refine .inr ?_
          have hlen : l.reverse.flatten.length = l.flatten.length := by simp [List.length_flatten]
          rw [puts_ok h.meas.inv hme l hl']
          show m.1.posn - _ < k
          omega
        · refine .inl ?_
          rw [puts_full h.meas.inv hme l (by omega)]
          simp
  · intro _
    rcases h.bad he with hb | hb
    · exact .inl (by rw [(mk hb).1]; exact hb)
    · exact .inr (by omega)

theorem Sim.run {k : Nat} {r m : PB × List Nat} (h : Sim k r m) (ops : List WOp) (hf : ∀ op ∈ ops, op.Fits) :
    ∃ es r' es' m', WOp.run r ops = .ok (es, r') ∧ WOp.run m ops = .ok (es', m') ∧ Sim k r' m' := by
  induction ops generalizing r m with
  | nil => exact ⟨_, _, _, _, rfl, rfl, h⟩
  | cons op ops ih =>
    obtain ⟨e, r', e', m', h1, h2, h3⟩ := h.step op (hf op (by simp))
    obtain ⟨es, r'', es', m'', h4, h5, h6⟩ := ih h3 (fun o ho => hf o (by simp [ho]))
    exact ⟨e :: es, r'', e' :: es', m'', by simp [WOp.run, h1, h4], by simp [WOp.run, h2, h5], h6⟩

/-- **C44**, safety. No sequence of write calls, whatever their codes, has undefined behaviour: all
stores are inside the buffer. The buffer keeps its size; all calls succeed exactly if no error is recorded
at the end. -/
theorem C44_safe (d : Bytes) (hd : d.length < 2 ^ 64) (ops : List WOp) (hf : ∀ op ∈ ops, op.Fits) :
    ∃ es p st d', WOp.run (prepareOutput d, []) ops = .ok (es, p, st) ∧ p.data = some d' ∧
      d'.length = d.length ∧ p.posn ≤ d.length ∧ p.size = d.length ∧
      ((∀ e ∈ es, e = .none) ↔ p.err = .none) := by
  have w : Writing (prepareOutput d, []) := ⟨prepareOutput_inv d, fun _ => by simp, hd⟩
  obtain ⟨es, ⟨p, st⟩, hr, wp, hp, hs, hsome, -, hc⟩ := w.run ops hf
  simp only at hp hs hsome wp
  obtain ⟨d', hd'⟩ := Option.isSome_iff_exists.mp (hsome.trans rfl)
  have hl := wp.inv.size d' hd'
  have hs' : p.size = d.length := hs
  exact ⟨es, p, st, d', hr, hd', hl.trans hs', hp, hs', hc rfl⟩

/-- `noise_protobuf_write_start_element` is safe for every end position. -/
theorem C44_start_safe {p : PB} (h : p.Inv) (tag : Int) (endPosn : Nat) :
    ∃ e q, p.writeStartElement tag endPosn = .ok (e, q) ∧ q.Inv ∧ q.posn ≤ p.posn ∧ q.size = p.size := by
  unfold writeStartElement
  split
  · exact ⟨_, _, rfl, h, Nat.le_refl _, rfl⟩
  split
  · exact ⟨_, _, rfl, h, Nat.le_refl _, rfl⟩
  · rw [writeVarint_eq h]
    simp only [Out.bind_ok]
    rw [tag_after h, fields_puts]
    obtain ⟨a, b, -⟩ := puts_frame p
      [Wire.varint (UInt64.ofNat (endPosn - p.posn)).toNat, keyBytes tag wireDelim]
    exact ⟨_, _, rfl, h.puts _, a, b⟩

/-- **C44**, measuring. A sequence of write calls is run with a limit of `M` bytes and no buffer, and on a
buffer of at most `M` bytes. If measuring succeeds, it reports the number of bytes `L` such that writing
succeeds if and only if the buffer has at least `L` bytes, and then writing produces `L` bytes. If
measuring fails, writing fails. -/
theorem C44_measure (M : Nat) (hM : M < 2 ^ 64) (d : Bytes) (hd : d.length ≤ M) (ops : List WOp)
    (hf : ∀ op ∈ ops, op.Fits) :
    ∃ es p st es' m st', WOp.run (prepareOutput d, []) ops = .ok (es, p, st) ∧
      WOp.run (prepareMeasure M, []) ops = .ok (es', m, st') ∧
      (∀ L, m.finishMeasure = (.none, L) →
        ((p.finishOutput.1 = .none ↔ L ≤ d.length) ∧
         (L ≤ d.length → p.finishOutput = (.none, some (d.length - L), L)))) ∧
      (m.finishMeasure.1 ≠ .none → p.finishOutput.1 ≠ .none) := by
  have s : Sim (M - d.length) (prepareOutput d, []) (prepareMeasure M, []) :=
    ⟨⟨prepareOutput_inv d, fun _ => by simp, by show d.length < _; omega⟩,
     ⟨prepareMeasure_inv M, fun _ => by simp, hM⟩, by show M = d.length + (M - d.length); omega,
     fun _ => ⟨rfl, by show M = d.length + (M - d.length); omega, rfl⟩, fun h => absurd rfl h⟩
  obtain ⟨es, ⟨p, st⟩, es', ⟨m, st'⟩, h1, h2, h3⟩ := s.run ops hf
  obtain ⟨es0, p0, st0, d', hr0, hd', hl0, hp0, hs0, -⟩ := C44_safe d (by omega) ops hf
  rw [h1] at hr0
  cases hr0
  refine ⟨es, p, st, es', m, st', h1, h2, ?_, ?_⟩
  · intro L hL
    unfold finishMeasure at hL
    have hsz := h3.size
    have hmp := h3.meas.inv.posn
    simp only at hsz hmp
    split at hL
    · next he => exact absurd (Prod.mk.inj hL).1 he
    · next he =>
      have hL' := (Prod.mk.inj hL).2
      by_cases hpe : p.err = .none
      · obtain ⟨-, g2, -⟩ := h3.good hpe
        simp only at g2
        have : L ≤ d.length := by omega
        have hf : p.finishOutput = (.none, some (d.length - L), L) := by
          unfold finishOutput
          rw [if_neg (by simpa using hpe), hd']
          simp only [Option.map_some, Prod.mk.injEq, Option.some.injEq, true_and]
          constructor <;> omega
        exact ⟨⟨fun _ => this, fun _ => by rw [hf]⟩, fun _ => hf⟩
      · have hb := h3.bad hpe
        simp only at hb
        rcases hb with hb | hb
        · exact absurd (by simpa using he) hb
        · have hnl : ¬ L ≤ d.length := by omega
          refine ⟨⟨fun h => ?_, fun h => absurd h hnl⟩, fun h => absurd h hnl⟩
          unfold finishOutput at h
          rw [if_pos hpe] at h
          exact absurd h hpe
  · intro hm hpo
    unfold finishOutput at hpo
    split at hpo
    · next he => exact he hpo
    · next he =>
      have := (h3.good (by simpa using he)).1
      simp only at this
      unfold finishMeasure at hm
      rw [if_neg (by simpa using this)] at hm
      exact hm rfl

/-- `noise_protobuf_finish_output_shift` moves the message to the front of the buffer. -/
theorem C44_shift {p : PB} (h : p.Inv) (he : p.err = .none) {d : Bytes} (hd : p.data = some d) :
    ∃ q, p.finishOutputShift = .ok (.none, q, p.size - p.posn) ∧
      ∃ d', q.data = some d' ∧ d'.length = d.length ∧ d'.take (p.size - p.posn) = d.drop p.posn := by
  have hl := h.size d hd
  have hp := h.posn
  unfold finishOutputShift
  rw [if_neg (by simpa using he), hd]
  simp only
  by_cases h0 : p.posn = 0
  · rw [if_neg (by simpa using h0)]
    refine ⟨p, rfl, d, hd, rfl, ?_⟩
    rw [h0, List.drop_zero, List.take_of_length_le (by omega)]
  · rw [if_pos h0, load_ok (by omega)]
    have ht : ((d.drop p.posn).take (p.size - p.posn)) = d.drop p.posn := by
      apply List.take_of_length_le; simp; omega
    simp only [Out.bind_ok, ht]
    rw [store_ok (by simp)]
    simp only [Out.bind_ok, Out.pure_eq]
    refine ⟨_, rfl, _, rfl, ?_, ?_⟩
    · simp
    · simp only [List.take_zero, List.nil_append]
      rw [List.take_append_of_le_length (by simp; omega), List.take_of_length_le (by simp; omega)]

/-- A program with a nested element, on a buffer of the measured size. -/
example : WOp.run (prepareOutput (List.replicate 10 0), [])
    [.endElement, .uint32 2 300, .string 1 [0x61], .startElement 3] =
    .ok ([.none, .none, .none, .none],
      ⟨some [0, 0, 26, 6, 10, 1, 0x61, 16, 0xAC, 2], 10, 2, .none⟩, []) := by decide +kernel

example : WOp.run (prepareMeasure 100, [])
    [.endElement, .uint32 2 300, .string 1 [0x61], .startElement 3] =
      .ok ([.none, .none, .none, .none], ⟨none, 100, 92, .none⟩, []) ∧
    finishMeasure ⟨none, 100, 92, .none⟩ = (.none, 8) := by decide +kernel

end PB
end Noise
