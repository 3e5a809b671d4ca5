import Verif.NewHopeProps
import Verif.DHProps
/-!
# New Hope: the functions of the model in the New Hope back end

`newhope_keygen` writes the secret polynomial into the `private_key` field of the object. That field is 2048 bytes here;
a coefficient is stored with its low byte first.
-/

namespace Noise.NewHope

/-- The memory of a polynomial: two bytes for each coefficient. -/
def polyMem (p : Poly) : Bytes := (List.range N).flatMap fun i => [(p.at i).toUInt8, (p.at i >>> 8).toUInt8]

/-- The polynomial in 2048 bytes of memory. -/
def memPoly (a : Bytes) : Poly :=
  (List.range N).map fun i => (a.getD (2 * i) 0).toUInt16 ||| (a.getD (2 * i + 1) 0).toUInt16 <<< 8

/-- The functions of `newhope.c` for `NewHopeFns`. -/
def fns (H : Hashes) : NewHopeFns where
  keygen r := ((keygen H r).1, polyMem (keygen H r).2)
  sharedb received r := sharedb H received r
  shareda sk received := shareda H (memPoly sk) received

theorem polyMem_length (p : Poly) : (polyMem p).length = 2048 := by
  unfold polyMem N
  rw [List.length_flatMap]
  simp only [List.length_cons, List.length_nil, List.map_const', List.sum_replicate, List.length_range, smul_eq_mul]

theorem memPoly_polyMem (p : Poly) (i : Nat) (hi : i < 1024) : (memPoly (polyMem p)).at i = p.at i := by
  unfold memPoly
  rw [at_map, if_pos hi]
  have h0 := flatMap_getD (fun i => [(p.at i).toUInt8, (p.at i >>> 8).toUInt8]) 2 0 (fun _ => rfl) N i 0 hi (by decide)
  have h1 := flatMap_getD (fun i => [(p.at i).toUInt8, (p.at i >>> 8).toUInt8]) 2 0 (fun _ => rfl) N i 1 hi (by decide)
  unfold polyMem
  rw [Nat.add_zero] at h0
  rw [h0, h1]
  apply UInt16.toNat_inj.1
  have u := UInt16.toNat_lt (p.at i)
  have e0 : ((p.at i).toUInt8.toUInt16).toNat = (p.at i).toNat % 256 := by
    rw [UInt8.toNat_toUInt16, UInt16.toNat_toUInt8]
  have e1 : ((p.at i >>> 8).toUInt8.toUInt16).toNat = (p.at i).toNat / 256 := by
    have := byte_shr (a := p.at i) (r := 8) (i := 8) rfl (by decide)
    rw [UInt8.toNat_toUInt16, this]
    omega
  show ((p.at i).toUInt8.toUInt16 ||| (p.at i >>> 8).toUInt8.toUInt16 <<< 8).toNat = _
  have w := word_or (x := (p.at i).toUInt8.toUInt16) (y := (p.at i >>> 8).toUInt8.toUInt16) (l := 8) (j := 8) rfl (by decide)
    (by omega) (by omega)
  rw [w, e0, e1]
  omega

theorem polyNtt_length (p : Poly) : (polyNtt p).length = 1024 := (polyNtt_ok p).1.1

theorem poly_ext {p q : Poly} (hp : p.length = 1024) (hq : q.length = 1024) (h : ∀ i < 1024, p.at i = q.at i) : p = q := by
  refine List.ext_getElem (hp.trans hq.symm) fun i h1 h2 => ?_
  have := h i (by omega)
  unfold Poly.at at this
  rwa [List.getD_eq_getElem?_getD, List.getD_eq_getElem?_getD, List.getElem?_eq_getElem h1, List.getElem?_eq_getElem h2] at this

theorem keygen_sk_eq (H : Hashes) (r : Bytes) : (keygen H r).2 = polyNtt (polyGetnoise ((r.drop 32).take 32) 0) := by
  unfold keygen; dsimp only

theorem memPoly_length (a : Bytes) : (memPoly a).length = 1024 := by
  unfold memPoly; exact length_map _

theorem memPoly_sk (H : Hashes) (r : Bytes) : memPoly (polyMem (keygen H r).2) = (keygen H r).2 := by
  rw [keygen_sk_eq]
  exact poly_ext (memPoly_length _) (polyNtt_length _) fun i hi => memPoly_polyMem _ i hi

theorem encodeA_length (p : Poly) {seed : Bytes} (h : seed.length = 32) : (encodeA p seed).length = 1824 := by
  unfold encodeA
  rw [List.length_append, polyToBytes_length, h]

theorem encodeB_length (p c : Poly) : (encodeB p c).length = 2048 := by
  unfold encodeB
  rw [List.length_append, polyToBytes_length, List.length_map, List.length_range]

theorem keygen_send_length (H : Hashes) (hH : ∀ m, (H.sha3 m).length = 32) (r : Bytes) : (keygen H r).1.length = 1824 := by
  unfold keygen; dsimp only
  exact encodeA_length _ (hH _)

theorem sharedb_lengths (H : Hashes) (hH : ∀ m, (H.sha3 m).length = 32) (s r : Bytes) :
    (sharedb H s r).1.length = 32 ∧ (sharedb H s r).2.length = 2048 := by
  unfold sharedb; dsimp only
  exact ⟨hH _, encodeB_length _ _⟩

theorem shareda_length (H : Hashes) (hH : ∀ m, (H.sha3 m).length = 32) (s : Poly) (r : Bytes) :
    (shareda H s r).length = 32 := by
  unfold shareda; dsimp only
  exact hH _

theorem fns_sized (H : Hashes) (hH : ∀ m, (H.sha3 m).length = 32) : (fns H).Sized := by
  have e1 : sendABytes = 1824 := by decide
  have e2 : sendBBytes = 2048 := by decide
  constructor
  · intro r; unfold fns; dsimp only; rw [e1]; exact keygen_send_length H hH r
  · intro r; unfold fns; dsimp only; exact polyMem_length (keygen H r).2
  · intro r s; unfold fns; dsimp only; exact (sharedb_lengths H hH r s).1
  · intro r s; unfold fns; dsimp only; rw [e2]; exact (sharedb_lengths H hH r s).2
  · intro s r; unfold fns; dsimp only; exact shareda_length H hH (memPoly s) r

theorem fns_agree (H : Hashes) (hH : ∀ m, (H.sha3 m).length = 32) (x y : Bytes)
    (hs : SmallNoise ((x.drop 32).take 32) (y.take 32)) :
    (fns H).shareda ((fns H).keygen x).2 ((fns H).sharedb ((fns H).keygen x).1 y).2 =
      ((fns H).sharedb ((fns H).keygen x).1 y).1 := by
  unfold fns
  dsimp only
  rw [memPoly_sk]
  exact C69_agreement H hH x y hs

/-- **C69.** The API functions for New Hope compute the same secret on both sides when the noise of the two key pairs
is small: `C25_newhope_agreement` without a hypothesis on the reconciliation. -/
theorem C69_api (H : Hashes) (hH : ∀ m, (H.sha3 m).length = 32) (rndA rndB : Nat → UInt8)
    (a b a1 b1 ra rb ra1 rb1 : DHState NewHopeExt) (ea eb era erb : Err)
    (hIa : newHopeInv a) (hIb : newHopeInv b) (hIra : newHopeInv ra) (hIrb : newHopeInv rb)
    (hra : a.role = some .initiator) (hrb : b.role = some .responder)
    (hrra : ra.role = some .initiator) (hrrb : rb.role = some .responder)
    (hga : (fns H).backend.generateDependent rndA a none = .ok (ea, a1))
    (hsa : (fns H).backend.setPublicKey ra a1.pubKey = .ok (era, ra1))
    (hgb : (fns H).backend.generateDependent rndB b (some (.same ra1)) = .ok (eb, b1))
    (hsb : (fns H).backend.setPublicKey rb b1.pubKey = .ok (erb, rb1))
    (hs : SmallNoise (((randBytes rndA 64).drop 32).take 32) (randBytes rndB 32))
    (sh1 sh2 : Bytes) (h1 : sh1.length = 32) (h2 : sh2.length = 32) :
    ∃ secret, (fns H).backend.calculateApi a1 (.same rb1) sh1 = .ok (.none, secret, a1) ∧
      (fns H).backend.calculateApi b1 (.same ra1) sh2 = .ok (.none, secret, b1) := by
  have e : (randBytes rndB 32).take 32 = randBytes rndB 32 := List.take_of_length_le (by rw [randBytes_length])
  exact C25_newhope_agreement (fns H) (fns_sized H hH) rndA rndB a b a1 b1 ra rb ra1 rb1 ea eb era erb hIa hIb hIra hIrb
    hra hrb hrra hrrb hga hsa hgb hsb (fns_agree H hH _ _ (by rw [e]; exact hs)) sh1 sh2 h1 h2

end Noise.NewHope
