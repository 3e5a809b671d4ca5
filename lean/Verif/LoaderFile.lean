import Verif.LoaderReal
/-!
# Properties of `src/keys/loader.c`: certificates and files
-/

namespace Noise
namespace Loader
open PB Cert

/-! ## The first field -/

theorem fList_head {α : Type} (enc : α → Bytes) (tag : Nat) (l : List (Option α)) :
    (fList enc tag l = [] ∧ l.filterMap id = []) ∨
      ∃ x rest, (l.filterMap id).head? = some x ∧ fList enc tag l = Wire.field tag (.delim (enc x)) ++ rest := by
  induction l with
  | nil => exact .inl ⟨rfl, rfl⟩
  | cons y l ih =>
    cases y with
    | none =>
      have e : fList enc tag (none :: l) = fList enc tag l := by simp [fList, fMsg]
      rw [e]
      simpa using ih
    | some x => exact .inr ⟨x, fList enc tag l, by simp, by simp [fList, fMsg]⟩

theorem peek_empty {p : PB} (h : Ready p []) : p.peekTag = .ok 0 := by
  obtain ⟨hi, he, d, hd, hr⟩ := h
  have := hi.size d hd
  have hl := congrArg List.length hr
  rw [List.length_drop, List.length_nil] at hl
  have hp := hi.posn
  have : p.peekVarint 0 = .ok (.invalidFormat, 0, 0) := by
    unfold peekVarint
    rw [hd]
    dsimp only
    rw [if_neg (by simp [he]), if_pos (by omega)]
  unfold peekTag
  rw [this, Out.bind_ok]
  rfl

/-- The encoding of a certificate does not start with tag 8. -/
theorem peek_certificate {p : PB} (cert : Certificate) (h : Ready p cert.enc) : ∃ t, p.peekTag = .ok t ∧ t ≠ 8 := by
  unfold Certificate.enc fNum fMsg at h
  by_cases hv : cert.version = 0
  swap
  · rw [if_neg hv, List.append_assoc] at h
    exact ⟨_, C46_tag_partial (by decide) (by decide) h, by decide⟩
  rw [if_pos hv] at h
  cases hs : cert.subject with
  | some s =>
    rw [hs, List.nil_append] at h
    exact ⟨_, C46_tag_partial (by decide) (by decide) h, by decide⟩
  | none =>
    rw [hs] at h
    dsimp only at h
    rw [List.nil_append, List.nil_append] at h
    rcases fList_head Signature.enc 3 cert.signatures with ⟨e, -⟩ | ⟨x, rest, -, e⟩
    · rw [e] at h
      exact ⟨_, peek_empty h, by decide⟩
    · rw [e] at h
      exact ⟨_, C46_tag_partial (by decide) (by decide) h, by decide⟩

/-! ## Loading certificates and chains -/

theorem good_certs {l : List (Option Certificate)} (h : Good (Cert.strings Certificate.strings l)) {x : Certificate}
    (hx : some x ∈ l) : Good x.strings := by
  intro s hs
  refine h s ?_
  simp only [Cert.strings, List.mem_flatten, List.mem_map]
  exact ⟨_, ⟨some x, hx, rfl⟩, by simpa using hs⟩

theorem certLoop_ok (fuel endPosn : Nat) : ∀ (l : List (Option Certificate)) (c : Nat) (kept : Option Certificate) (r : R),
    (∀ x, some x ∈ l → Good x.strings) → r.p.size < 2 ^ 64 → r.p.size ≤ fuel → Ready r.p (fList Certificate.enc 8 l) →
    r.p.posn + (fList Certificate.enc 8 l).length = endPosn → (fList Certificate.enc 8 l).length ≤ c →
    ∃ n', certLoop yes fuel endPosn c kept r =
      .ok (some (match kept with | none => (l.filterMap id).head?.map Certificate.norm | some k => some k,
        ⟨r.p.adv (fList Certificate.enc 8 l).length, n'⟩)) := by
  intro l
  induction l with
  | nil =>
    intro c kept r _ _ _ hr hp _
    refine ⟨r.n, ?_⟩
    have hend : r.p.readAtEndElement endPosn = true := by
      unfold readAtEndElement
      rw [if_neg (by simp [hr.err]), decide_eq_true_eq]
      simp [fList] at hp
      omega
    have hk : (match kept with | none => (([] : List (Option Certificate)).filterMap id).head?.map Certificate.norm | some k => some k) = kept := by
      cases kept <;> rfl
    rw [hk]
    cases c <;> simp only [certLoop, hend, if_true] <;> rfl
  | cons y l ih =>
    intro c kept r hg hs hf hr hp hc
    cases y with
    | none =>
      have e : fList Certificate.enc 8 (none :: l) = fList Certificate.enc 8 l := by simp [fList, fMsg]
      rw [e] at hr hp hc ⊢
      exact ih c kept r (fun x hx => hg x (List.mem_cons_of_mem _ hx)) hs hf hr hp hc
    | some x =>
      have e : fList Certificate.enc 8 (some x :: l) = Wire.field 8 (.delim x.enc) ++ fList Certificate.enc 8 l := by
        simp [fList, fMsg]
      rw [e] at hr hp hc ⊢
      rw [List.length_append] at hp hc ⊢
      have hl : 0 < (Wire.field 8 (.delim x.enc)).length := List.length_pos_iff.2 (field_ne 8 (by decide) _)
      cases c with
      | zero => omega
      | succ c =>
        have hnot : r.p.readAtEndElement endPosn ≠ true := by
          unfold readAtEndElement
          rw [if_neg (by simp [hr.err]), ne_eq, decide_eq_true_eq]
          omega
        obtain ⟨n1, e1⟩ := Certificate.reads fuel x (hg x (by simp)) r 8 _ hs hf (by decide)
          (by simp only [msgBytes]; exact hr) (fun h => absurd h (by decide))
        have e1' : Certificate.read yes fuel r 8 = _ := e1
        simp only [msgBytes, show ¬ (8 = 0) by decide, if_false] at e1'
        obtain ⟨n2, e2⟩ := ih c (match kept with | none => some x.norm | some k => some k)
          ⟨r.p.adv (Wire.field 8 (.delim x.enc)).length, n1⟩ (fun z hz => hg z (List.mem_cons_of_mem _ hz)) hs hf hr.adv
          (by simp only [adv_posn]; omega) (by omega)
        refine ⟨n2, ?_⟩
        rw [certLoop, if_neg hnot, e1', Out.bind_ok]
        dsimp only
        rw [if_neg (by simp)]
        rw [adv_adv] at e2
        cases kept <;> simpa using e2

section
variable {fuel n : Nat}

/-- A certificate is loaded as a certificate. -/
theorem load_cert_cert (cert : Certificate) (hg : Good cert.strings) (hs : cert.enc.length < 2 ^ 64) (hf : cert.enc.length ≤ fuel) :
    ∃ r, loadCertificate yes fuel ⟨prepareInput cert.enc, n⟩ = .ok (some (.none, some cert.norm, r)) ∧
      r.p.finishInput.1 = .none := by
  obtain ⟨t, e, ht⟩ := peek_certificate cert (prepareInput_ready cert.enc)
  obtain ⟨n', e'⟩ := Certificate.reads fuel cert hg ⟨prepareInput cert.enc, n⟩ 0 [] hs hf (by decide)
    (by simp only [msgBytes, if_true, List.append_nil]; exact prepareInput_ready _) (fun _ => rfl)
  refine ⟨⟨(prepareInput cert.enc).adv cert.enc.length, n'⟩, ?_, ?_⟩
  · unfold loadCertificate
    rw [if_neg (by simp [prepareInput])]
    dsimp only
    rw [e, Out.bind_ok, if_neg ht]
    exact e'
  · simp [finishInput, prepareInput]

/-- A certificate is loaded as a chain. -/
theorem load_cert_chain (cert : Certificate) (hg : Good cert.strings) (hs : cert.enc.length < 2 ^ 64) (hf : cert.enc.length ≤ fuel) :
    ∃ r, loadChain yes fuel ⟨prepareInput cert.enc, n⟩ = .ok (some (.none, some { certs := [some cert.norm] }, r)) ∧
      r.p.finishInput.1 = .none := by
  obtain ⟨t, e, ht⟩ := peek_certificate cert (prepareInput_ready cert.enc)
  obtain ⟨n', e'⟩ := Certificate.reads fuel cert hg ⟨prepareInput cert.enc, n + 1⟩ 0 [] hs hf (by decide)
    (by simp only [msgBytes, if_true, List.append_nil]; exact prepareInput_ready _) (fun _ => rfl)
  have e'' : Certificate.read yes fuel ⟨prepareInput cert.enc, n + 1⟩ 0 = _ := e'
  refine ⟨⟨(prepareInput cert.enc).adv cert.enc.length, n' + 1⟩, ?_, ?_⟩
  · unfold loadChain
    rw [if_neg (by simp [prepareInput])]
    dsimp only
    rw [e, Out.bind_ok, if_pos ht, if_neg (by simp [yes]), e'', Out.bind_ok]
    dsimp only
    rw [if_neg (by simp [yes])]
    rfl
  · simp [finishInput, prepareInput]

/-- A chain is loaded as a chain. -/
theorem load_chain_chain (chain : CertificateChain) (hne : chain.certs.filterMap id ≠ []) (hg : Good chain.strings)
    (hs : chain.enc.length < 2 ^ 64) (hf : chain.enc.length ≤ fuel) :
    ∃ r, loadChain yes fuel ⟨prepareInput chain.enc, n⟩ = .ok (some (.none, some chain.norm, r)) ∧
      r.p.finishInput.1 = .none := by
  have ht : (prepareInput chain.enc).peekTag = .ok 8 := by
    rcases fList_head Certificate.enc 8 chain.certs with ⟨-, h⟩ | ⟨x, rest, -, e⟩
    · exact absurd h hne
    · have hr := prepareInput_ready chain.enc
      unfold CertificateChain.enc at hr ⊢
      rw [e] at hr ⊢
      exact C46_tag_partial (by decide) (by decide) hr
  obtain ⟨n', e'⟩ := CertificateChain.reads fuel chain hg ⟨prepareInput chain.enc, n⟩ 0 [] hs hf (by decide)
    (by simp only [msgBytes, if_true, List.append_nil]; exact prepareInput_ready _) (fun _ => rfl)
  refine ⟨⟨(prepareInput chain.enc).adv chain.enc.length, n'⟩, ?_, ?_⟩
  · unfold loadChain
    rw [if_neg (by simp [prepareInput])]
    dsimp only
    rw [ht, Out.bind_ok, if_neg (by simp)]
    exact e'
  · simp [finishInput, prepareInput]

/-- A chain is loaded as a certificate: its first. -/
theorem load_chain_cert (chain : CertificateChain) {first : Certificate} (hfi : (chain.certs.filterMap id).head? = some first)
    (hg : Good chain.strings) (hs : chain.enc.length < 2 ^ 64) (hf : chain.enc.length ≤ fuel) :
    ∃ r, loadCertificate yes fuel ⟨prepareInput chain.enc, n⟩ = .ok (some (.none, some first.norm, r)) ∧
      r.p.finishInput.1 = .none := by
  have ht : (prepareInput chain.enc).peekTag = .ok 8 := by
    rcases fList_head Certificate.enc 8 chain.certs with ⟨-, h⟩ | ⟨x, rest, -, e⟩
    · rw [h] at hfi; cases hfi
    · have hr := prepareInput_ready chain.enc
      unfold CertificateChain.enc at hr ⊢
      rw [e] at hr ⊢
      exact C46_tag_partial (by decide) (by decide) hr
  obtain ⟨n', e'⟩ := certLoop_ok fuel chain.enc.length chain.certs fuel none ⟨prepareInput chain.enc, n⟩
    (fun x hx => good_certs hg hx) hs hf (prepareInput_ready _) (by simp [prepareInput, CertificateChain.enc]) hf
  have hst : (prepareInput chain.enc).readStartElement 0 = .ok (.none, prepareInput chain.enc, chain.enc.length) := by
    simp [readStartElement, readTag, prepareInput]
  refine ⟨⟨(((prepareInput chain.enc).adv chain.enc.length).readEndElement chain.enc.length).2, n'⟩, ?_, ?_⟩
  · unfold loadCertificate
    rw [if_neg (by simp [prepareInput])]
    dsimp only
    rw [ht, Out.bind_ok, if_pos rfl, hst, Out.bind_ok]
    dsimp only
    rw [e', Out.bind_ok, hfi]
    dsimp only
    have hend : (((prepareInput chain.enc).adv chain.enc.length).readEndElement chain.enc.length).1 = .none := by
      simp [readEndElement, prepareInput, adv]
    have hend' : ((prepareInput chain.enc).adv (fList Certificate.enc 8 chain.certs).length).readEndElement chain.enc.length =
      (.none, (((prepareInput chain.enc).adv chain.enc.length).readEndElement chain.enc.length).2) := by
      rw [← hend]; rfl
    rw [hend']
    dsimp only
    rw [if_neg (by simp)]
    rfl
  · simp [finishInput, prepareInput, readEndElement, adv]

end

/-! ## Writing to a file -/

/-- What `saveToFile` does with a write function that `Writes`: the file gets the encoding if the strings are accepted and the
encoding is not longer than 65535 bytes; otherwise there is an error, and the file is not touched. -/
theorem saveToFile_spec {α : Type} {write : PB → Int → α → Out (Err × PB)} {o : α} {V : Prop} {content : Bytes}
    (hw : Writes write o V content) (malloc : Bool) {mem : Bytes} (hm : content.length ≤ mem.length) (disk : Disk) :
    (V ∧ content.length ≤ 65535 ∧ malloc = true → saveToFile write o malloc mem disk = .ok (writeFile disk content)) ∧
    (¬ (V ∧ content.length ≤ 65535 ∧ malloc = true) →
      ∃ e, e ≠ .none ∧ saveToFile write o malloc mem disk = .ok (e, none)) := by
  obtain ⟨e, w, e1, m, he, -⟩ := hw (prepareMeasure maxPayload) 0 ⟨Nat.le_refl _, fun d h => by cases h⟩ (by decide) (by decide)
  have e1' : write (prepareMeasure maxPayload) 0 o = .ok (e, w) := e1
  have he := he rfl
  have hok := m.ok rfl
  simp only [msgBytes, if_true] at hok
  change _ ↔ V ∧ content.length ≤ 65535 at hok
  rw [← he] at hok
  unfold saveToFile
  rw [e1', Out.bind_ok]
  dsimp only
  by_cases hn : e = .none
  swap
  · rw [if_pos hn]
    exact ⟨fun h => absurd (hok.2 ⟨h.1, h.2.1⟩) hn, fun _ => ⟨e, hn, rfl⟩⟩
  obtain ⟨hV, hl⟩ := hok.1 hn
  rw [if_neg (by simpa using hn)]
  have hwp := (m.wrote (he.symm.trans hn)).posn
  simp only [msgBytes, if_true] at hwp
  change w.posn + _ = 65535 at hwp
  have hsz : w.size = 65535 := m.size
  have hfm : w.finishMeasure = (.none, content.length) := by
    unfold finishMeasure
    rw [if_neg (by rw [← he]; simpa using hn), hsz]
    congr 1
    omega
  rw [hfm]
  dsimp only
  rw [if_neg (by simp)]
  cases malloc with
  | false => exact ⟨fun h => by simp at h, fun _ => ⟨.noMemory, by simp, rfl⟩⟩
  | true =>
  rw [if_neg (by simp)]
  have hml : (mem.take content.length).length = content.length := by rw [List.length_take]; omega
  obtain ⟨e2, w2, e3, m2, he2, -⟩ := hw (prepareOutput (mem.take content.length)) 0 (prepareOutput_inv _)
    (by show (mem.take content.length).length < _; omega) (by decide)
  have e3' : write (prepareOutput (mem.take content.length)) 0 o = .ok (e2, w2) := e3
  have he2 := he2 rfl
  have hn2 : w2.err = .none := (m2.ok rfl).2 ⟨hV, by
    simp only [msgBytes, if_true]; show _ ≤ (mem.take content.length).length; omega⟩
  have hw2 := m2.wrote hn2
  have hp2 := hw2.posn
  simp only [msgBytes, if_true] at hp2
  change w2.posn + _ = (mem.take content.length).length at hp2
  have hsz2 : w2.size = (mem.take content.length).length := m2.size
  obtain ⟨d', hd', hl', hdr⟩ := hw2.data _ rfl
  simp only [msgBytes, if_true] at hdr
  rw [show (prepareOutput (mem.take content.length)).posn = (mem.take content.length).length from rfl, List.drop_length,
    List.append_nil] at hdr
  rw [e3', Out.bind_ok]
  dsimp only
  rw [if_neg (by rw [he2]; simpa using hn2)]
  have hfo : w2.finishOutput = (.none, some w2.posn, w2.size - w2.posn) := by
    simp [finishOutput, hn2, hd']
  rw [hfo, hd']
  dsimp only
  rw [load_ok (by omega), hdr, Out.bind_ok, List.take_of_length_le (by omega)]
  exact ⟨fun _ => rfl, fun h => absurd ⟨hV, hl, rfl⟩ h⟩

theorem writeFile_ok {disk : Disk} {bytes file : Bytes} (h : writeFile disk bytes = (.none, some file)) : file = bytes := by
  unfold writeFile at h
  cases disk with
  | closed => cases h
  | short n =>
    simp only [Prod.mk.injEq, Option.some.injEq] at h
    obtain ⟨h1, rfl⟩ := h
    split at h1
    · cases h1
    · exact List.take_of_length_le (by omega)
  | good => cases h; rfl

/-- A file of at most 65535 bytes, and of at least one unless one cannot seek in it, is loaded as it is. -/
theorem loadFile_ok {c : Bytes} {seekable : Bool} (h0 : c ≠ [] ∨ seekable = false) (h1 : c.length ≤ 65535) :
    loadFile (some ⟨c, seekable⟩) true true = .ok (prepareInput c) := by
  unfold loadFile maxPayload
  dsimp only
  rw [if_neg, if_neg (by simp), if_neg (by simp)]
  · congr 2
    apply List.take_of_length_le
    split <;> omega
  · rintro ⟨h2, h3 | h3⟩
    · rcases h0 with h0 | h0
      · exact h0 (List.length_eq_zero_iff.1 h3)
      · rw [h0] at h2; cases h2
    · omega

/-! ## C56: certificates and chains -/

/-- **C56**, certificates in buffers: what `noise_save_certificate_to_buffer` wrote is loaded as the same certificate, and
as a chain of this one certificate. -/
theorem C56_certificate_buffer {cert : Certificate} {d : Bytes} (hd : d.length < 2 ^ 64) {w' : PB}
    (h : Certificate.write (prepareOutput d) 0 cert = .ok (.none, w')) :
    ∃ off len d', w'.finishOutput = (.none, some off, len) ∧ w'.data = some d' ∧ (d'.drop off).take len = cert.enc ∧
      (∀ fuel n, len ≤ fuel → ∃ r r', loadCertificate yes fuel ⟨prepareInput ((d'.drop off).take len), n⟩ =
          .ok (some (.none, some cert.norm, r)) ∧ r.p.finishInput.1 = .none ∧
        loadChain yes fuel ⟨prepareInput ((d'.drop off).take len), n⟩ =
          .ok (some (.none, some { certs := [some cert.norm] }, r')) ∧ r'.p.finishInput.1 = .none) ∧
      (cert.NoNull → cert.norm = cert) := by
  obtain ⟨e, w1, e1, hiff⟩ := write_iff cert.write_writes hd
  rw [h] at e1
  cases e1
  obtain ⟨hg, hl⟩ := hiff.1 rfl
  obtain ⟨off, len, d', h1, h2, h3, -⟩ := cycle cert.write_writes (fun hg fuel => Certificate.reads fuel cert hg) hd h
  refine ⟨off, len, d', h1, h2, h3, fun fuel n hf => ?_, Certificate.norm_eq⟩
  rw [h3]
  have hf' : cert.enc.length ≤ fuel := by
    have := congrArg List.length h3
    rw [List.length_take] at this
    omega
  obtain ⟨r, k1, k2⟩ := load_cert_cert (n := n) cert hg (by omega) hf'
  obtain ⟨r', k3, k4⟩ := load_cert_chain (n := n) cert hg (by omega) hf'
  exact ⟨r, r', k1, k2, k3, k4⟩

/-- **C56**, chains in buffers: what `noise_save_certificate_chain_to_buffer` wrote is loaded as the same chain, and as a
certificate it is the first one of the chain; `first` is the first item that is not NULL. Missing are chains without such an item
(`C56_empty_chain`). -/
theorem C56_chain_buffer_partial {chain : CertificateChain} {first : Certificate}
    (hfi : (chain.certs.filterMap id).head? = some first) {d : Bytes} (hd : d.length < 2 ^ 64) {w' : PB}
    (h : CertificateChain.write (prepareOutput d) 0 chain = .ok (.none, w')) :
    ∃ off len d', w'.finishOutput = (.none, some off, len) ∧ w'.data = some d' ∧ (d'.drop off).take len = chain.enc ∧
      (∀ fuel n, len ≤ fuel → ∃ r r', loadChain yes fuel ⟨prepareInput ((d'.drop off).take len), n⟩ =
          .ok (some (.none, some chain.norm, r)) ∧ r.p.finishInput.1 = .none ∧
        loadCertificate yes fuel ⟨prepareInput ((d'.drop off).take len), n⟩ =
          .ok (some (.none, some first.norm, r')) ∧ r'.p.finishInput.1 = .none) ∧
      (chain.NoNull → chain.norm = chain ∧ first.norm = first ∧ chain.certs.head? = some (some first)) := by
  obtain ⟨e, w1, e1, hiff⟩ := write_iff chain.write_writes hd
  rw [h] at e1
  cases e1
  obtain ⟨hg, hl⟩ := hiff.1 rfl
  obtain ⟨off, len, d', h1, h2, h3, -⟩ := cycle chain.write_writes (fun hg fuel => CertificateChain.reads fuel chain hg) hd h
  refine ⟨off, len, d', h1, h2, h3, fun fuel n hf => ?_, fun hn => ⟨CertificateChain.norm_eq hn, ?_⟩⟩
  · rw [h3]
    have hf' : chain.enc.length ≤ fuel := by
      have := congrArg List.length h3
      rw [List.length_take] at this
      omega
    have hne : chain.certs.filterMap id ≠ [] := by
      intro hc
      rw [hc] at hfi
      cases hfi
    obtain ⟨r, k1, k2⟩ := load_chain_chain (n := n) chain hne hg (by omega) hf'
    obtain ⟨r', k3, k4⟩ := load_chain_cert (n := n) chain hfi hg (by omega) hf'
    exact ⟨r, r', k1, k2, k3, k4⟩
  · cases hc : chain.certs with
    | nil => rw [hc] at hfi; cases hfi
    | cons x l =>
      obtain ⟨y, rfl, hy⟩ := hn x (by simp [hc])
      rw [hc] at hfi
      simp only [List.filterMap_cons, id, List.head?_cons, Option.some.injEq] at hfi
      subst hfi
      exact ⟨Certificate.norm_eq hy, rfl⟩

/-- **C56**, certificate files: saving to a file succeeds or leaves a message that says what is wrong; if the file was written
and is not empty, it is loaded as the same certificate, and as a chain of this one certificate. Missing are empty files,
for which it is false (`C56_fails`). -/
theorem C56_certificate_file_partial {cert : Certificate} {malloc : Bool} {mem : Bytes} (hm : cert.enc.length ≤ mem.length) {disk : Disk}
    {file : Bytes} (h : saveCertificateToFile cert malloc mem disk = .ok (.none, some file)) :
    file = cert.enc ∧ file.length ≤ 65535 ∧ ∀ seekable fuel, file ≠ [] ∨ seekable = false → file.length ≤ fuel →
      loadCertificateFromFile yes fuel (some ⟨file, seekable⟩) true true = .ok (some (.none, some cert.norm)) ∧
      loadChainFromFile yes fuel (some ⟨file, seekable⟩) true true = .ok (some (.none, some { certs := [some cert.norm] })) := by
  obtain ⟨k1, k2⟩ := saveToFile_spec cert.write_writes malloc hm disk
  by_cases hc : Good cert.strings ∧ cert.enc.length ≤ 65535 ∧ malloc = true
  swap
  · obtain ⟨e, he, h2⟩ := k2 hc
    unfold saveCertificateToFile at h
    rw [h2] at h
    cases h
  have k1 := k1 hc
  unfold saveCertificateToFile at h
  rw [k1] at h
  injection h with h
  obtain rfl := writeFile_ok h
  refine ⟨rfl, hc.2.1, fun seekable fuel hs hf => ?_⟩
  unfold loadCertificateFromFile loadChainFromFile loadFrom
  rw [loadFile_ok hs hc.2.1]
  obtain ⟨r, m1, -⟩ := load_cert_cert (n := 0) cert hc.1 (by omega) hf
  obtain ⟨r', m2, -⟩ := load_cert_chain (n := 0) cert hc.1 (by omega) hf
  dsimp only
  rw [m1, m2]
  exact ⟨rfl, rfl⟩

/-- **C56**, chain files. Missing are empty chains, for which it is false (`C56_fails`). -/
theorem C56_chain_file_partial {chain : CertificateChain} {first : Certificate} (hfi : (chain.certs.filterMap id).head? = some first)
    {malloc : Bool} {mem : Bytes} (hm : chain.enc.length ≤ mem.length) {disk : Disk}
    {file : Bytes} (h : saveChainToFile chain malloc mem disk = .ok (.none, some file)) :
    file = chain.enc ∧ file.length ≤ 65535 ∧ ∀ seekable fuel, file.length ≤ fuel →
      loadChainFromFile yes fuel (some ⟨file, seekable⟩) true true = .ok (some (.none, some chain.norm)) ∧
      loadCertificateFromFile yes fuel (some ⟨file, seekable⟩) true true = .ok (some (.none, some first.norm)) := by
  obtain ⟨k1, k2⟩ := saveToFile_spec chain.write_writes malloc hm disk
  by_cases hc : Good chain.strings ∧ chain.enc.length ≤ 65535 ∧ malloc = true
  swap
  · obtain ⟨e, he, h2⟩ := k2 hc
    unfold saveChainToFile at h
    rw [h2] at h
    cases h
  have k1 := k1 hc
  unfold saveChainToFile at h
  rw [k1] at h
  injection h with h
  obtain rfl := writeFile_ok h
  have hne : chain.certs.filterMap id ≠ [] := by
    intro hc
    rw [hc] at hfi
    cases hfi
  have henc : chain.enc ≠ [] := by
    rcases fList_head Certificate.enc 8 chain.certs with ⟨-, h⟩ | ⟨x, rest, -, e⟩
    · exact absurd h hne
    · unfold CertificateChain.enc
      rw [e]
      intro hc
      exact field_ne 8 (by decide) _ (List.append_eq_nil_iff.1 hc).1
  refine ⟨rfl, hc.2.1, fun seekable fuel hf => ?_⟩
  unfold loadCertificateFromFile loadChainFromFile loadFrom
  rw [loadFile_ok (.inl henc) hc.2.1]
  obtain ⟨r, m1, -⟩ := load_chain_chain (n := 0) chain hne hc.1 (by omega) hf
  obtain ⟨r', m2, -⟩ := load_chain_cert (n := 0) chain hfi hc.1 (by omega) hf
  dsimp only
  rw [m1, m2]
  exact ⟨rfl, rfl⟩

/-- **C56**, saving to a file exactly: with memory, it succeeds if and only if the strings are accepted, the encoding has at
most 65535 bytes and the file system does its work. Nothing is undefined. -/
theorem C56_save_iff {cert : Certificate} {mem : Bytes} (hm : cert.enc.length ≤ mem.length) (disk : Disk) :
    ∃ e file, saveCertificateToFile cert true mem disk = .ok (e, file) ∧
      (e = .none ↔ (∀ s ∈ cert.strings, isUtf8 s.length s = .ok true) ∧ cert.enc.length ≤ 65535 ∧
        (disk = .good ∨ ∃ n, disk = .short n ∧ cert.enc.length ≤ n)) ∧ (e = .none → file = some cert.enc) ∧
      (e ≠ .none → file = none ∨ ∃ n, disk = .short n ∧ n < cert.enc.length ∧ file = some (cert.enc.take n)) := by
  obtain ⟨k1, k2⟩ := saveToFile_spec cert.write_writes true hm disk
  unfold saveCertificateToFile
  by_cases hc : Good cert.strings ∧ cert.enc.length ≤ 65535
  · have hg : ∀ s ∈ cert.strings, isUtf8 s.length s = .ok true := hc.1
    refine ⟨(writeFile disk cert.enc).1, (writeFile disk cert.enc).2, k1 ⟨hc.1, hc.2, rfl⟩, ?_⟩
    cases disk with
    | closed => simp [writeFile]
    | good => simp [writeFile, hc.2]; exact hg
    | short n =>
      by_cases hn : n < cert.enc.length
      · have : ¬ cert.enc.length ≤ n := by omega
        simp [writeFile, hn, this]
      · have : cert.enc.length ≤ n := by omega
        simp [writeFile, hn, this, hc.2]
        exact ⟨hg, List.take_of_length_le this⟩
  · obtain ⟨e, he, h2⟩ := k2 fun h => hc ⟨h.1, h.2.1⟩
    exact ⟨e, none, h2, ⟨fun h => absurd h he, fun h => absurd ⟨h.1, h.2.1⟩ hc⟩, fun h => absurd h he, fun _ => .inl rfl⟩

/-- **C56** is false for empty objects: an empty chain (or one of NULL items) and a certificate with nothing in it are saved
without an error, to an empty file, and the file cannot be loaded. -/
theorem C56_fails (fuel : Nat) : saveChainToFile {} true [] .good = .ok (.none, some []) ∧
    saveCertificateToFile {} true [] .good = .ok (.none, some []) ∧
    loadChainFromFile yes fuel (some ⟨[], true⟩) true true = .ok (some (.invalidFormat, none)) ∧
    loadCertificateFromFile yes fuel (some ⟨[], true⟩) true true = .ok (some (.invalidFormat, none)) :=
  ⟨by decide +kernel, by decide +kernel, rfl, rfl⟩

/-- In a buffer the message of an empty chain is loaded, as a chain with one certificate that has nothing in it. -/
theorem C56_empty_chain (fuel n : Nat) : ∃ r, loadChain yes fuel ⟨prepareInput ({} : CertificateChain).enc, n⟩ =
    .ok (some (.none, some { certs := [some {}] }, r)) := by
  obtain ⟨r, h, -⟩ := load_cert_chain (fuel := fuel) (n := n) {} (by intro s hs; simp [Certificate.strings, Cert.strings] at hs)
    (by decide) (Nat.zero_le _)
  exact ⟨r, h⟩

/-- A chain and what becomes of it. -/
example : saveChainToFile { certs := [none, some { version := 1 }, some { version := 2 }] } true (List.replicate 8 0) .good =
      .ok (.none, some [66, 2, 8, 1, 66, 2, 8, 2]) ∧
    (([none, some { version := 1 }, some { version := 2 }] : List (Option Certificate)).filterMap id).head? = some { version := 1 } := by
  decide +kernel

/-- A file in which one cannot seek is cut after 65535 bytes, without an error, although the documentation of
`noise_load_certificate_from_file` promises `INVALID_FORMAT` for a file that is too long. -/
theorem C56_truncated (content : Bytes) :
    loadFile (some ⟨content, false⟩) true true = .ok (prepareInput (content.take 65535)) := by
  unfold loadFile maxPayload
  simp

/-! ## C51: private key files -/

section
variable {A : Algs} {name : Bytes} {P : Prot}

/-- **C51**, private key files: if the file was written, it is loaded with the same passphrase as the same key. -/
theorem C51_file (E : Protects A name P) {al : Nat → Bool} {salts : Nat → Bytes} {fuel : Nat} {key : PrivateKey}
    {pass : Bytes} {malloc : Bool} {mem : Bytes} {disk : Disk} {file : Bytes} (hm : mem.length < 2 ^ 64)
    (h : savePrivateKeyToFile A al salts fuel key pass name malloc mem disk = .ok (some (.none, some file))) :
    (∃ i, file = (P.protected pass (salts i) name key).enc) ∧ file.length ≤ 65535 ∧ ∀ seekable fuel', file.length ≤ fuel' →
      loadPrivateKeyFromFile A yes fuel' pass (some ⟨file, seekable⟩) true true = .ok (some (.none, some key.norm)) := by
  unfold savePrivateKeyToFile at h
  rw [E.parse] at h
  dsimp only at h
  obtain ⟨e, w, e1, -⟩ := key.write_writes (prepareMeasure maxPayload) 0 ⟨Nat.le_refl _, fun d h => by cases h⟩ (by decide) (by decide)
  have e1' : PrivateKey.write (prepareMeasure maxPayload) 0 key = .ok (e, w) := e1
  rw [e1', Out.bind_ok] at h
  dsimp only at h
  split at h
  · rename_i hne; simp only [Out.pure_eq, Out.ok.injEq, Option.some.injEq, Prod.mk.injEq] at h; exact absurd h.1 hne
  split at h
  · rename_i hne; simp only [Out.pure_eq, Out.ok.injEq, Option.some.injEq, Prod.mk.injEq] at h; exact absurd h.1 hne
  split at h
  · simp at h
  generalize hb : mem.take (w.finishMeasure.2 + name.length + encKeyOverhead) = buf at h
  have hbl : buf.length < 2 ^ 64 := by rw [← hb, List.length_take]; omega
  cases hsv : savePrivateKey A al salts fuel key (prepareOutput buf) pass name with
  | ub => rw [hsv] at h; cases h
  | ok res =>
  rw [hsv, Out.bind_ok] at h
  cases res with
  | none => simp at h
  | some res =>
  obtain ⟨e2, p'⟩ := res
  dsimp only at h
  split at h
  · rename_i hne; simp only [Out.pure_eq, Out.ok.injEq, Option.some.injEq, Prod.mk.injEq] at h; exact absurd h.1 hne
  rename_i he2
  have he2 : e2 = .none := by simpa using he2
  subst he2
  split at h
  · simp at h
  rename_i hsz
  obtain ⟨off, len, d', i, k1, k2, k3, k4, -⟩ := C51_roundtrip E hbl hsv
  have hoff : off = p'.posn ∧ len = p'.size - p'.posn := by
    unfold finishOutput at k1
    split at k1
    · simp at k1
    · rw [k2] at k1
      simp only [Option.map_some, Prod.mk.injEq, Option.some.injEq, true_and] at k1
      exact ⟨k1.1.symm, k1.2.symm⟩
  obtain ⟨rfl, rfl⟩ := hoff
  rw [k2] at h
  dsimp only at h
  by_cases hlo : p'.posn + (p'.size - p'.posn) ≤ d'.length
  swap
  · rw [load, if_neg hlo] at h
    cases h
  rw [load_ok hlo, Out.bind_ok] at h
  simp only [Out.pure_eq, Out.ok.injEq, Option.some.injEq] at h
  obtain rfl := writeFile_ok h
  have hfl : ((d'.drop p'.posn).take (p'.size - p'.posn)).length = p'.size - p'.posn := by
    rw [List.length_take, List.length_drop]; omega
  refine ⟨⟨i, k3⟩, by rw [hfl]; simpa [maxPayload] using hsz, fun seekable fuel' hf => ?_⟩
  rw [hfl] at hf
  obtain ⟨q, k5, -⟩ := k4 fuel' hf
  unfold loadPrivateKeyFromFile loadFrom
  rw [loadFile_ok (.inl ?_) (by rw [hfl]; simpa [maxPayload] using hsz)]
  · dsimp only
    rw [k5]
    rfl
  · rw [k3]
    intro hc
    have := congrArg List.length hc
    have hv : (P.protected pass (salts i) name key).version = 1 := rfl
    simp only [EncryptedPrivateKey.enc, fNum, hv, if_neg (show ¬ (1 : UInt32) = 0 by decide), List.append_assoc] at hc
    exact field_ne 10 (by decide) _ (List.append_eq_nil_iff.1 hc).1

theorem varint_length_le {n : Nat} (h : n < 2097152) : (Wire.varint n).length ≤ 3 := by
  rw [Wire.varint]
  split
  · simp
  rw [Wire.varint]
  split
  · simp
  rw [Wire.varint, if_pos (by omega)]
  simp

/-- The space that `noise_save_private_key_to_file` adds for the protection is enough. -/
theorem protected_length (E : Protects A name P) (hmac : P.CB.macLen ≤ 16) (pass : Bytes) {salt : Bytes} (hsl : salt.length = 16)
    (key : PrivateKey) (hl : key.enc.length + P.CB.macLen ≤ 65535) :
    (P.protected pass salt name key).enc.length ≤ key.enc.length + name.length + encKeyOverhead := by
  have hnl : name.length < 100 := by
    obtain ⟨s, hs, rfl⟩ := (C51_names _ _ _).1 E.parse
    have : ∀ x ∈ protectNames, (ascii x.1).length < 100 := by decide +kernel
    exact this _ hs
  have hel : (P.encrypt pass salt 20000 key.enc).length = key.enc.length + P.CB.macLen := E.cipher_lawful.enc_length _ _ _ _
  have v1 := varint_length_le (n := name.length) (by omega)
  have v2 := varint_length_le (n := key.enc.length + P.CB.macLen) (by omega)
  have v3 : (fNum 10 1).length = 2 := by decide +kernel
  have v4 : (fNum 13 20000).length = 4 := by decide +kernel
  have v5 : (Wire.key 11 2).length = 1 := by decide +kernel
  have v6 : (Wire.key 12 2).length = 1 := by decide +kernel
  have v7 : (Wire.key 15 2).length = 1 := by decide +kernel
  have v8 : (Wire.varint 16).length = 1 := by decide +kernel
  simp only [Prot.protected, EncryptedPrivateKey.enc, fBlock, Wire.field, Wire.Val.bytes, Wire.Val.type, List.length_append, hel,
    v3, v4, v5, v6, v7, hsl, v8, encKeyOverhead]
  omega

/-- **C51**, when saving to a file succeeds: with memory, a file system that works, a salt that can be used and an encoding
that with its MAC is not longer than 65535 bytes, saving returns, and it succeeds if and only if the strings are accepted
and the protected key has at most 65535 bytes. For longer encodings see `C52_fails_file`. -/
theorem C51_file_iff (E : Protects A name P) (hmac : P.CB.macLen ≤ 16) {salts : Nat → Bytes} (hsl : ∀ i, (salts i).length = 16)
    {fuel : Nat} (key : PrivateKey) {pass mem : Bytes} (hm1 : key.enc.length + name.length + 128 ≤ mem.length)
    (hm2 : mem.length < 2 ^ 64) (hl : key.enc.length + P.CB.macLen ≤ 65535) {i : Nat} (hi : i < fuel)
    (hu : P.Usable pass (salts i) 20000) (hfirst : ∀ j < i, ¬ P.Usable pass (salts j) 20000) :
    ∃ e file, savePrivateKeyToFile A yes salts fuel key pass name true mem .good = .ok (some (e, file)) ∧
      (e = .none ↔ (∀ s ∈ key.strings, isUtf8 s.length s = .ok true) ∧ (P.protected pass (salts i) name key).enc.length ≤ 65535) ∧
      (e ≠ .none → file = none) := by
  obtain ⟨e, w, e1, m, he, -⟩ := key.write_writes (prepareMeasure maxPayload) 0 ⟨Nat.le_refl _, fun d h => by cases h⟩ (by decide) (by decide)
  have e1' : PrivateKey.write (prepareMeasure maxPayload) 0 key = .ok (e, w) := e1
  have he := he rfl
  have hok := m.ok rfl
  simp only [msgBytes, if_true] at hok
  change _ ↔ Good key.strings ∧ key.enc.length ≤ 65535 at hok
  rw [← he] at hok
  unfold savePrivateKeyToFile
  rw [E.parse]
  dsimp only
  rw [e1', Out.bind_ok]
  dsimp only
  by_cases hn : e = .none
  swap
  · rw [if_pos hn]
    exact ⟨e, none, rfl, ⟨fun h => absurd h hn, fun h => absurd (hok.2 ⟨h.1, by omega⟩) hn⟩, fun _ => rfl⟩
  have hg := (hok.1 hn).1
  rw [if_neg (by simpa using hn)]
  have hwp := (m.wrote (he.symm.trans hn)).posn
  simp only [msgBytes, if_true] at hwp
  change w.posn + _ = 65535 at hwp
  have hsz : w.size = 65535 := m.size
  have hfm : w.finishMeasure = (.none, key.enc.length) := by
    unfold finishMeasure
    rw [if_neg (by rw [← he]; simpa using hn), hsz]
    congr 1
    omega
  rw [hfm]
  dsimp only
  rw [if_neg (by simp), if_neg (by simp)]
  have hbl : (mem.take (key.enc.length + name.length + encKeyOverhead)).length = key.enc.length + name.length + encKeyOverhead := by
    rw [List.length_take, encKeyOverhead]; omega
  generalize mem.take (key.enc.length + name.length + encKeyOverhead) = buf at hbl
  have hbs : buf.length < 2 ^ 64 := by rw [hbl, encKeyOverhead]; omega
  obtain ⟨p', hsv⟩ := (C51_save_iff E yes salts fuel key (p := prepareOutput buf) rfl (prepareOutput_inv _) hbs pass).2
    ⟨fun _ _ => rfl, rfl, hg, hl, i, ⟨hi, hu, hfirst⟩, by
      have := protected_length E hmac pass (hsl i) key hl
      show _ ≤ buf.length
      omega⟩
  rcases save_cases E yes salts fuel key (p := prepareOutput buf) rfl (prepareOutput_inv _) hbs pass with
    ⟨hx, -⟩ | ⟨e', p2, i', hx, hie, hsz2, -, hok2, hiff⟩
  · rw [hx] at hsv; cases hsv
  rw [hx] at hsv
  cases hsv
  obtain ⟨-, -, -, -, hfu, -⟩ := hiff.1 rfl
  have hii : i' = i := by
    obtain ⟨u1, -, u2⟩ := firstUsable_some hfu
    by_contra hne
    rcases Nat.lt_or_gt_of_ne hne with hlt | hgt
    · exact hfirst i' hlt u1
    · have hmin : ∀ f t k, firstUsable P pass salts f t = some k → ∀ j, t ≤ j → j < k → ¬ P.Usable pass (salts j) 20000 := by
        intro f
        induction f with
        | zero => intro t k h; cases h
        | succ f ih =>
          intro t k h j h1 h2
          rw [firstUsable] at h
          split at h
          · cases h; omega
          · rename_i hnu
            by_cases hj : j = t
            · subst hj; exact hnu
            · exact ih _ _ h j (by omega) h2
      exact hmin _ _ _ hfu i (Nat.zero_le _) hgt hu
  subst hii
  obtain ⟨-, hpo⟩ := hok2 rfl
  change _ = buf.length at hpo
  change _ = buf.length at hsz2
  obtain ⟨off, len, d', j, k1, k2, k3, -⟩ := C51_roundtrip E hbs hx
  rw [hx, Out.bind_ok]
  dsimp only
  rw [if_neg (by simp)]
  have hlen : p'.size - p'.posn = (P.protected pass (salts i') name key).enc.length := by omega
  rw [hlen]
  by_cases hmax : (P.protected pass (salts i') name key).enc.length > maxPayload
  · rw [if_pos hmax]
    exact ⟨.invalidLength, none, rfl, ⟨(nomatch ·), fun h => by unfold maxPayload at hmax; omega⟩, fun _ => rfl⟩
  · rw [if_neg hmax, k2]
    dsimp only
    have hdl : d'.length = buf.length := by
      rcases save_cases E yes salts fuel key (p := prepareOutput buf) rfl (prepareOutput_inv _) hbs pass with
        ⟨hx', -⟩ | ⟨e', p2, i2, hx', -, -, ⟨lo, t, hlo, ht, hp, hdat⟩, -⟩
      · rw [hx'] at hx; cases hx
      · rw [hx'] at hx
        cases hx
        rw [k2] at hdat
        injection hdat with hdat
        change lo ≤ buf.length at hlo
        change _ = buf.length at hp
        rw [hdat]
        simp only [List.length_append, List.length_take, List.length_drop]
        rw [show (prepareOutput buf).posn = buf.length from rfl, wipe_length hlo (Nat.le_refl _)]
        omega
    rw [load_ok (by omega)]
    exact ⟨.none, _, rfl, ⟨fun _ => ⟨hg, by unfold maxPayload at hmax; omega⟩, fun _ => rfl⟩, fun h => absurd rfl h⟩

end

end Loader
end Noise
