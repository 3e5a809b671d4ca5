import Verif.EchoLoopProps
import Verif.HandshakeCurve25519
/-!
# A whole session of the echo programs (C83): from the handshake to the printed lines
-/

namespace Noise.Echo

theorem sym_split_keyed (S : Suite) (s s' : SymState S.HB) (a b : CipherState)
    (h : s.split S.CB true true true = .ok (.none, s', some a, some b)) :
    a.hasKey = true ∧ a.n = 0 ∧ b.hasKey = true ∧ b.n = 0 := by
  obtain ⟨ctx, he⟩ := (C31_hkdf S.hl s.ctx s.ck [] S.CB.keyLen S.CB.keyLen).1
    ⟨by rw [S.key32]; exact S.hash32, by rw [S.key32]; exact S.hash32⟩
  have h32 := S.hash32
  have hl1 : (specHkdf S.H S.HB.blockLen s.ck []).1.length = S.HB.hashLen := by
    simp [specHkdf, specHmac_length S.hl]
  have hl2 : (specHkdf S.H S.HB.blockLen s.ck []).2.length = S.HB.hashLen := by
    simp [specHkdf, specHmac_length S.hl]
  have key : ∀ (d : CipherState) (k : Bytes), k.length = S.HB.hashLen →
      (d.initKey S.CB (k.take S.CB.keyLen)).2.hasKey = true ∧ (d.initKey S.CB (k.take S.CB.keyLen)).2.n = 0 := by
    intro d k hk
    unfold CipherState.initKey
    rw [if_neg (by rw [List.length_take, hk, S.key32]; omega)]
    exact ⟨rfl, rfl⟩
  unfold SymState.split at h
  cases hc : s.cipher with
  | none => rw [hc] at h; simp at h
  | some c =>
    rw [hc] at h
    simp only [Bool.not_true, Bool.and_self, Bool.false_eq_true, if_false] at h
    rw [he, Out.bind_ok] at h
    simp only [ne_eq, not_true, if_false, Bool.false_and, Bool.false_eq_true, if_true, Out.pure_eq, Out.ok.injEq, Prod.mk.injEq,
      Option.some.injEq, true_and] at h
    obtain ⟨_, rfl, rfl⟩ := h
    exact ⟨(key _ _ hl1).1, (key _ _ hl1).2, (key _ _ hl2).1, (key _ _ hl2).2⟩

theorem split_keyed (X : Setup) (s s' : X.H) (a b : CipherState)
    (h : s.split X.S.CB true true true = .ok (.none, s', some a, some b)) :
    a.hasKey = true ∧ a.n = 0 ∧ b.hasKey = true ∧ b.n = 0 := by
  unfold HS.split at h
  simp only [Bool.not_true, Bool.and_self, Bool.false_eq_true, if_false] at h
  split at h
  · simp at h
  split at h
  · simp at h
  cases hsp : s.sym.split X.S.CB true true true with
  | ub => cases hr : s.role <;> rw [hr] at h <;> simp only [hsp] at h <;> cases h
  | ok v =>
    obtain ⟨e, y, u, w⟩ := v
    cases hr : s.role <;> rw [hr] at h <;> simp only [hsp, Out.bind_ok, Out.pure_eq, Out.ok.injEq, Prod.mk.injEq] at h
    · obtain ⟨rfl, _, rfl, rfl⟩ := h
      exact sym_split_keyed X.S s.sym y a b hsp
    · obtain ⟨rfl, _, rfl, rfl⟩ := h
      obtain ⟨h1, h2, h3, h4⟩ := sym_split_keyed X.S s.sym y b a hsp
      exact ⟨h3, h4, h1, h2⟩

/-- **C83** for whole sessions with Curve25519, the reference ciphers and hashes, and no hypothesis about a cryptographic
function: after any handshake that C12 is about, the client prints exactly the lines that are typed. The client is the
initiator. (The hypotheses about the handshake are met by the example after `C12_curve25519_agreement`, the others by the
example after `C83_echo`.) -/
theorem C83_session (c : RefCipher) (h : RefHash) (i r i1 r1 : (refSetup c h).H)
    (hi : SetUp (refSetup c h) i) (hr : SetUp (refSetup c h) r) (hri : i.role = .initiator)
    (hrr : r.role = .responder) (hid : i.sym.id = r.sym.id) (hpro : i.prologue = r.prologue)
    (hpsk : i.psk = r.psk) (p : Spec.Pattern) (hp : specPattern i.sym.id.patternId = some p)
    (hfb : p.preKey .responder .e = false)
    (hks : p.preKey .responder .s = true → pubOf i.rs = pubOf r.ls)
    (hkr : p.preKey .initiator .s = true → pubOf r.rs = pubOf i.ls)
    (hfix : i.fe = none ∧ i.fh = none ∧ r.fe = none ∧ r.fh = none)
    (si : i.start c.backend = .ok (.none, i1)) (sr : r.start c.backend = .ok (.none, r1))
    (turns : List Noise.Turn) (hfit : RefFit c h turns p)
    -- the lines and the random data
    (ls : List Bytes) (hls : ∀ l ∈ ls, IsLine l ∧ l.length < 65519) (hnum : ls.length < 2 ^ 64)
    (E : Nat → Bytes) (hE : ∀ k, (E k).length = 40) (padding : Bool) (cmsg smsg : Bytes) (hcm : cmsg.length = 65537)
    (hsm : smsg.length = 65537)
    -- `send` works
    (ckss skss : List (List Snd)) (hcl : ls.length < ckss.length) (hsl : ls.length < skss.length)
    (hck : ∀ ks ∈ ckss, ∀ p : Bytes, p.length ≤ 65537 → (send ks p).1 = some true)
    (hsk : ∀ ks ∈ skss, ∀ p : Bytes, p.length ≤ 65537 → (send ks p).1 = some true) :
    ∃ i2 r2, HS.exchange c.backend turns i1 r1 = .ok (some (i2, r2, turns.map (·.payload))) ∧
      ∃ i3 r3 csend crecv ssend srecv, i2.split c.backend true true true = .ok (.none, i3, some csend, some crecv) ∧
        r2.split c.backend true true true = .ok (.none, r3, some ssend, some srecv) ∧
        ∃ toServer toClient : Bytes,
          (∀ segs, Clean segs → stream segs = toServer →
            serverLoop c.backend skss segs smsg srecv ssend = .ok (some true, toClient)) ∧
          (∀ segs, Clean segs → stream segs = toClient →
            clientLoop c.backend E ckss segs cmsg crecv csend (if padding then some (Rand.new E) else none) ls.flatten =
              .ok (some true, toServer, ls)) := by
  obtain ⟨i2, r2, ex, _, _, _, i3, r3, c1, c2, e1, e2, _⟩ := C12_curve25519_agreement c h i r i1 r1 hi hr hri hrr hid hpro hpsk p hp
    hfb hks hkr hfix si sr turns hfit
  obtain ⟨k1, n1, k2, n2⟩ := split_keyed (refSetup c h) i2 i3 c1 c2 e1
  have h16 := c.mac16
  obtain ⟨a, b, h1, h2, _⟩ := C83_echo c.backend c.lawful (by omega) E hE ls
    (fun l hl => ⟨(hls l hl).1, by have := (hls l hl).2; omega⟩) c1 c2 k1 k2
    (by rw [n1, show (0 : UInt64).toNat = 0 from rfl]; omega) (by rw [n2, show (0 : UInt64).toNat = 0 from rfl]; omega)
    (if padding then some (Rand.new E) else none)
    (by
      intro st hst
      cases padding with
      | false => cases hst
      | true => cases hst; exact ⟨[], Rand.new_idle hE (by decide)⟩)
    cmsg smsg hcm hsm ckss skss hcl hsl hck hsk
  exact ⟨i2, r2, ex, i3, r3, c1, c2, c2, c1, e1, e2, a, b, h1, h2⟩

end Noise.Echo
