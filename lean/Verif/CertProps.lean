import Verif.CertRead
/-!
# Objects survive a write/read cycle (C50)
-/

namespace Noise
namespace Cert
open PB

/-! ## Any object -/

/-- The outcome of writing `o` to a buffer and reading the message from a buffer of its own: what
`noise_protobuf_finish_output` gives is the encoding `content`, the read function given this message returns
success and the object `back`, and nothing is left over. -/
def Survives {α : Type} (read : Nat → R → Int → Out (Option (Err × Option α × R))) (w' : PB) (content : Bytes)
    (back : α) : Prop :=
  ∃ off len d', w'.finishOutput = (.none, some off, len) ∧ w'.data = some d' ∧ (d'.drop off).take len = content ∧
    ∀ fuel n, content.length ≤ fuel → ∃ r, read fuel ⟨prepareInput content, n⟩ 0 = .ok (some (.none, some back, r)) ∧
      r.p.finishInput.1 = .none

theorem cycle {α : Type} {write : PB → Int → α → Out (Err × PB)}
    {read : Nat → R → Int → Out (Option (Err × Option α × R))} {o back : α} {V : Prop} {content : Bytes}
    (hw : Writes write o V content) (hr : V → ∀ fuel, ReadsBack fuel (read fuel) content back) {d : Bytes}
    (hd : d.length < 2 ^ 64) {w' : PB} (h : write (prepareOutput d) 0 o = .ok (.none, w')) :
    Survives read w' content back := by
  obtain ⟨e, w1, e1, m, he, -⟩ := hw (prepareOutput d) 0 (prepareOutput_inv d) hd (by decide)
  have e1' : write (prepareOutput d) 0 o = .ok (e, w1) := e1
  rw [h] at e1'
  injection e1' with e2
  obtain ⟨rfl, rfl⟩ := Prod.mk.inj e2
  have hn : w'.err = .none := (he rfl).symm
  obtain ⟨hV, hroom⟩ := (m.ok rfl).1 hn
  obtain ⟨hp, hsz, -, hdata⟩ := m.wrote hn
  simp only [msgBytes, if_true] at hp hdata hroom
  obtain ⟨d', hd', hl', hdr⟩ := hdata d rfl
  have hps : (prepareOutput d).posn = d.length := rfl
  have hss : w'.size = d.length := hsz
  rw [hps, List.drop_length, List.append_nil] at hdr
  refine ⟨w'.posn, w'.size - w'.posn, d', by simp [finishOutput, hn, hd'], hd', ?_, ?_⟩
  · rw [hdr, List.take_of_length_le]
    omega
  · intro fuel n hf
    have hc : content.length < 2 ^ 64 := by omega
    obtain ⟨n', e'⟩ := hr hV fuel ⟨prepareInput content, n⟩ 0 [] hc hf (by decide)
      (by simp only [msgBytes, if_true, List.append_nil]; exact prepareInput_ready _) (fun _ => rfl)
    refine ⟨_, e', ?_⟩
    simp [finishInput, msgBytes, prepareInput]

/-- Writing is total; it succeeds if and only if the strings are accepted and the message fits. -/
theorem write_iff {α : Type} {write : PB → Int → α → Out (Err × PB)} {o : α} {V : Prop} {content : Bytes}
    (hw : Writes write o V content) {d : Bytes} (hd : d.length < 2 ^ 64) :
    ∃ e w', write (prepareOutput d) 0 o = .ok (e, w') ∧ (e = .none ↔ V ∧ content.length ≤ d.length) := by
  obtain ⟨e, w1, e1, m, he, -⟩ := hw (prepareOutput d) 0 (prepareOutput_inv d) hd (by decide)
  exact ⟨e, w1, e1, by rw [he rfl, m.ok rfl]; rfl⟩

/-! ## NULL items

`norm` (`CertSpec.lean`) changes nothing if there are no NULL items. -/

theorem items_eq {α : Type} {f : α → α} {l : List (Option α)} (h : ∀ x ∈ l, ∃ y, x = some y ∧ f y = y) :
    items f l = l := by
  induction l with
  | nil => rfl
  | cons x l ih =>
    obtain ⟨y, rfl, hy⟩ := h x List.mem_cons_self
    have := ih fun z hz => h z (List.mem_cons_of_mem _ hz)
    unfold items at this ⊢
    simp only [List.filterMap_cons, _root_.id, List.map_cons, hy]
    rw [this]

/-- No NULL items in the arrays. -/
def SubjectInfo.NoNull (o : SubjectInfo) : Prop := none ∉ o.keys ∧ none ∉ o.metas

/-- No NULL items in the arrays. -/
def PrivateKey.NoNull (o : PrivateKey) : Prop := none ∉ o.keys ∧ none ∉ o.metas

/-- No NULL items in the arrays. -/
def ExtraSignedInfo.NoNull (o : ExtraSignedInfo) : Prop := none ∉ o.metas

/-- No NULL items in the arrays. -/
def Signature.NoNull (o : Signature) : Prop := ∀ x ∈ o.extraSignedInfo, x.NoNull

/-- No NULL items in the arrays. -/
def Certificate.NoNull (o : Certificate) : Prop :=
  (∀ x ∈ o.subject, x.NoNull) ∧ ∀ x ∈ o.signatures, ∃ y : Signature, x = some y ∧ y.NoNull

/-- No NULL items in the arrays. -/
def CertificateChain.NoNull (o : CertificateChain) : Prop := ∀ x ∈ o.certs, ∃ y : Certificate, x = some y ∧ y.NoNull

theorem items_id {α : Type} {l : List (Option α)} (h : none ∉ l) : items _root_.id l = l := by
  refine items_eq fun x hx => ?_
  cases x with
  | none => exact absurd hx h
  | some y => exact ⟨y, rfl, rfl⟩

theorem SubjectInfo.norm_eq {o : SubjectInfo} (h : o.NoNull) : o.norm = o := by
  unfold SubjectInfo.norm
  rw [items_id h.1, items_id h.2]

theorem PrivateKey.norm_eq {o : PrivateKey} (h : o.NoNull) : o.norm = o := by
  unfold PrivateKey.norm
  rw [items_id h.1, items_id h.2]

theorem ExtraSignedInfo.norm_eq {o : ExtraSignedInfo} (h : o.NoNull) : o.norm = o := by
  unfold ExtraSignedInfo.norm
  rw [items_id h]

theorem map_eq {α : Type} {f : α → α} {o : Option α} (h : ∀ x ∈ o, f x = x) : o.map f = o := by
  cases o with
  | none => rfl
  | some x => simp [h x rfl]

theorem Signature.norm_eq {o : Signature} (h : o.NoNull) : o.norm = o := by
  unfold Signature.norm
  rw [map_eq fun x hx => ExtraSignedInfo.norm_eq (h x hx)]

theorem Certificate.norm_eq {o : Certificate} (h : o.NoNull) : o.norm = o := by
  unfold Certificate.norm
  rw [map_eq fun x hx => SubjectInfo.norm_eq (h.1 x hx), items_eq]
  intro x hx
  obtain ⟨y, e, hy⟩ := h.2 x hx
  exact ⟨y, e, Signature.norm_eq hy⟩

theorem CertificateChain.norm_eq {o : CertificateChain} (h : o.NoNull) : o.norm = o := by
  unfold CertificateChain.norm
  rw [items_eq]
  intro x hx
  obtain ⟨y, e, hy⟩ := h x hx
  exact ⟨y, e, Certificate.norm_eq hy⟩

/-! ## The objects -/

/-- **C50**, a certificate: if it was written, it is read back as it was, apart from NULL items. -/
theorem C50_certificate (o : Certificate) {d : Bytes} (hd : d.length < 2 ^ 64) {w' : PB}
    (h : Certificate.write (prepareOutput d) 0 o = .ok (.none, w')) :
    Survives (Certificate.read yes) w' o.enc o.norm ∧ (o.NoNull → o.norm = o) :=
  ⟨cycle o.write_writes (fun hg fuel => Certificate.reads fuel o hg) hd h, Certificate.norm_eq⟩

/-- **C50**, a certificate chain: if it was written, it is read back as it was, apart from NULL items. -/
theorem C50_chain (o : CertificateChain) {d : Bytes} (hd : d.length < 2 ^ 64) {w' : PB}
    (h : CertificateChain.write (prepareOutput d) 0 o = .ok (.none, w')) :
    Survives (CertificateChain.read yes) w' o.enc o.norm ∧ (o.NoNull → o.norm = o) :=
  ⟨cycle o.write_writes (fun hg fuel => CertificateChain.reads fuel o hg) hd h, CertificateChain.norm_eq⟩

/-- **C50**, a private key: if it was written, it is read back as it was, apart from NULL items. -/
theorem C50_private_key (o : PrivateKey) {d : Bytes} (hd : d.length < 2 ^ 64) {w' : PB}
    (h : PrivateKey.write (prepareOutput d) 0 o = .ok (.none, w')) :
    Survives (PrivateKey.read yes) w' o.enc o.norm ∧ (o.NoNull → o.norm = o) :=
  ⟨cycle o.write_writes (fun hg fuel => PrivateKey.reads fuel o hg) hd h, PrivateKey.norm_eq⟩

/-- **C50**, an encrypted private key: if it was written, it is read back as it was. -/
theorem C50_encrypted_private_key (o : EncryptedPrivateKey) {d : Bytes} (hd : d.length < 2 ^ 64) {w' : PB}
    (h : EncryptedPrivateKey.write (prepareOutput d) 0 o = .ok (.none, w')) :
    Survives (EncryptedPrivateKey.read yes) w' o.enc o :=
  cycle o.write_writes (fun hg fuel => EncryptedPrivateKey.reads fuel o hg) hd h

/-- **C50**, subject information: if it was written, it is read back as it was, apart from NULL items. -/
theorem C50_subject (o : SubjectInfo) {d : Bytes} (hd : d.length < 2 ^ 64) {w' : PB}
    (h : SubjectInfo.write (prepareOutput d) 0 o = .ok (.none, w')) :
    Survives (SubjectInfo.read yes) w' o.enc o.norm ∧ (o.NoNull → o.norm = o) :=
  ⟨cycle o.write_writes (fun hg fuel => SubjectInfo.reads fuel o hg) hd h, SubjectInfo.norm_eq⟩

/-- **C50**, public key information: if it was written, it is read back as it was. -/
theorem C50_public_key_info (o : PublicKeyInfo) {d : Bytes} (hd : d.length < 2 ^ 64) {w' : PB}
    (h : PublicKeyInfo.write (prepareOutput d) 0 o = .ok (.none, w')) :
    Survives (PublicKeyInfo.read yes) w' o.enc o :=
  cycle o.write_writes (fun hg fuel => PublicKeyInfo.reads fuel o hg) hd h

/-- **C50**, private key information: if it was written, it is read back as it was. -/
theorem C50_private_key_info (o : PrivateKeyInfo) {d : Bytes} (hd : d.length < 2 ^ 64) {w' : PB}
    (h : PrivateKeyInfo.write (prepareOutput d) 0 o = .ok (.none, w')) :
    Survives (PrivateKeyInfo.read yes) w' o.enc o :=
  cycle o.write_writes (fun hg fuel => PrivateKeyInfo.reads fuel o hg) hd h

/-- **C50**, meta information: if it was written, it is read back as it was. -/
theorem C50_meta_info (o : MetaInfo) {d : Bytes} (hd : d.length < 2 ^ 64) {w' : PB}
    (h : MetaInfo.write (prepareOutput d) 0 o = .ok (.none, w')) :
    Survives (MetaInfo.read yes) w' o.enc o :=
  cycle o.write_writes (fun hg fuel => MetaInfo.reads fuel o hg) hd h

/-- **C50**, a signature: if it was written, it is read back as it was, apart from NULL items. -/
theorem C50_signature (o : Signature) {d : Bytes} (hd : d.length < 2 ^ 64) {w' : PB}
    (h : Signature.write (prepareOutput d) 0 o = .ok (.none, w')) :
    Survives (Signature.read yes) w' o.enc o.norm ∧ (o.NoNull → o.norm = o) :=
  ⟨cycle o.write_writes (fun hg fuel => Signature.reads fuel o hg) hd h, Signature.norm_eq⟩

/-- **C50**, extra signed information: if it was written, it is read back as it was, apart from NULL items. -/
theorem C50_extra_signed_info (o : ExtraSignedInfo) {d : Bytes} (hd : d.length < 2 ^ 64) {w' : PB}
    (h : ExtraSignedInfo.write (prepareOutput d) 0 o = .ok (.none, w')) :
    Survives (ExtraSignedInfo.read yes) w' o.enc o.norm ∧ (o.NoNull → o.norm = o) :=
  ⟨cycle o.write_writes (fun hg fuel => ExtraSignedInfo.reads fuel o hg) hd h, ExtraSignedInfo.norm_eq⟩

/-- **C50**: writing a certificate chain is total, and succeeds if and only if every string is accepted by the
check of the library and the message fits in the buffer. -/
theorem C50_write_chain (o : CertificateChain) {d : Bytes} (hd : d.length < 2 ^ 64) :
    ∃ e w', CertificateChain.write (prepareOutput d) 0 o = .ok (e, w') ∧
      (e = .none ↔ (∀ s ∈ o.strings, isUtf8 s.length s = .ok true) ∧ o.enc.length ≤ d.length) :=
  write_iff o.write_writes hd

/-- **C50**: the same for a certificate. -/
theorem C50_write_certificate (o : Certificate) {d : Bytes} (hd : d.length < 2 ^ 64) :
    ∃ e w', Certificate.write (prepareOutput d) 0 o = .ok (e, w') ∧
      (e = .none ↔ (∀ s ∈ o.strings, isUtf8 s.length s = .ok true) ∧ o.enc.length ≤ d.length) :=
  write_iff o.write_writes hd

/-- **C50**: the same for a private key. -/
theorem C50_write_private_key (o : PrivateKey) {d : Bytes} (hd : d.length < 2 ^ 64) :
    ∃ e w', PrivateKey.write (prepareOutput d) 0 o = .ok (e, w') ∧
      (e = .none ↔ (∀ s ∈ o.strings, isUtf8 s.length s = .ok true) ∧ o.enc.length ≤ d.length) :=
  write_iff o.write_writes hd

/-- **C50**: the same for an encrypted private key. -/
theorem C50_write_encrypted_private_key (o : EncryptedPrivateKey) {d : Bytes} (hd : d.length < 2 ^ 64) :
    ∃ e w', EncryptedPrivateKey.write (prepareOutput d) 0 o = .ok (e, w') ∧
      (e = .none ↔ (∀ s ∈ o.strings, isUtf8 s.length s = .ok true) ∧ o.enc.length ≤ d.length) :=
  write_iff o.write_writes hd

/-! ## An example -/

/-- A chain of two certificates with nested objects, an empty string and a NULL item. -/
def exampleChain : CertificateChain where
  certs := [
    some { version := 300
           subject := some { id := some [0x61], name := some [], keys := [some { algorithm := some [0x32, 0x35], key := some [0, 255] }, none], metas := [some { name := some [0x6e], value := some [0x76] }] }
           signatures := [some { id := some [0x73], signingKey := some { key := some [7] }, extraSignedInfo := some { nonce := some [1, 2], validTo := some [0x7a] }, signature := some [9, 9] }, some {}] },
    some { subject := some { id := some [0x62] } }]

example : exampleChain.enc = [66, 53, 8, 172, 2, 18, 23, 10, 1, 97, 18, 0, 34, 8, 10, 2, 50, 53, 18, 2, 0, 255, 42, 6, 10, 1, 110,
    18, 1, 118, 26, 21, 10, 1, 115, 26, 3, 18, 1, 7, 42, 7, 10, 2, 1, 2, 26, 1, 122, 122, 2, 9, 9, 26, 0, 66, 5, 18,
    3, 10, 1, 98] := by decide +kernel

example : ∃ w' : PB, CertificateChain.write (prepareOutput (List.replicate 64 0)) 0 exampleChain = .ok (.none, w') ∧
    w'.posn = 2 := by
  obtain ⟨e, w', h, he⟩ := C50_write_chain exampleChain (d := List.replicate 64 0) (by decide)
  have hn : e = .none := he.2 ⟨by decide +kernel, by decide +kernel⟩
  subst hn
  refine ⟨w', h, ?_⟩
  have : (match CertificateChain.write (prepareOutput (List.replicate 64 0)) 0 exampleChain with
    | .ok (_, w) => w.posn
    | .ub => 0) = 2 := by decide +kernel
  rw [h] at this
  exact this

example : (match CertificateChain.read yes 62 ⟨prepareInput exampleChain.enc, 0⟩ 0 with
      | .ok (some (.none, some o, _)) => some o
      | _ => none) = some exampleChain.norm ∧
    exampleChain.norm ≠ exampleChain := by decide +kernel

end Cert
end Noise
