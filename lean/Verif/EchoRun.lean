import Verif.EchoHandshakeBase
import Verif.EchoSession
/-!
# The echo programs from the first handshake message to the exit (C84)
-/

namespace Noise.Echo

open Spec (Tok HSt Res)
open HS (Generates)

/-- Every message of every pattern begins with a public key, and has few tokens. -/
theorem pattern_heads {id : Int} {t : Bytes} {p : Spec.Pattern} (h : patternLookup id = some t)
    (hp : specPattern id = some p) : ∀ m ∈ p.msgs, (m.head? = some .e ∨ m.head? = some .s) ∧ m.length ≤ 100 := by
  have key : ∀ e ∈ patternTable, (match specPattern e.1 with
      | some p => p.msgs.all fun m => decide ((m.head? = some .e ∨ m.head? = some .s) ∧ m.length ≤ 100)
      | none => true) = true := by decide +kernel
  have := key _ (patternLookup_mem h)
  rw [hp] at this
  intro m hm
  exact of_decide_eq_true (List.all_eq_true.1 this m hm)

theorem sum_le {f : Tok → Nat} {k : Nat} (h : ∀ t, f t ≤ k) (m : List Tok) : (m.map f).sum ≤ m.length * k := by
  induction m with
  | nil => simp
  | cons t m ih =>
    have := h t
    simp only [List.map_cons, List.sum_cons, List.length_cons, Nat.add_mul]
    omega

theorem handshake_of_loop {CB : CipherBackend} {HB : HashBackend} {D G : DHBackend} {ts : List HTurn} {segs segs' : List Seg}
    {msg msg' sent : Bytes} {s s' s'' : HS HB D G} {a b : CipherState}
    (h : handLoop CB ts segs msg s = .ok ⟨.next, sent, segs', msg', s'⟩) (ha : s'.action = .split)
    (hsp : s'.split CB true true true = .ok (.none, s'', some a, some b)) :
    handshake CB ts segs msg s = .ok (⟨.next, sent, segs', msg', s''⟩, some (a, b)) := by
  unfold handshake
  rw [h, Out.bind_ok]
  simp only [ne_eq, not_true_eq_false, if_false, ha]
  rw [hsp, Out.bind_ok]
  rfl

theorem serverRun_of {CB : CipherBackend} {HB : HashBackend} {D G : DHBackend} {ts : List HTurn} {kss : List (List Snd)}
    {segs segs' : List Seg} {msg msg' sent sent' : Bytes} {s s' : HS HB D G} {a b : CipherState} {ok : Option Bool}
    (h : handshake CB ts segs msg s = .ok (⟨.next, sent, segs', msg', s'⟩, some (a, b)))
    (hl : serverLoop CB kss segs' msg' b a = .ok (ok, sent')) :
    serverRun CB ts kss segs msg s = .ok (ok, sent ++ sent') := by
  unfold serverRun
  rw [h, Out.bind_ok]
  dsimp only
  rw [hl, Out.bind_ok]
  rfl

theorem clientRun_of {CB : CipherBackend} {E : Nat → Bytes} {padding : Bool} {HB : HashBackend} {D G : DHBackend}
    {ts : List HTurn} {kss : List (List Snd)} {input : Bytes} {outs : List Bytes}
    {segs segs' : List Seg} {msg msg' sent sent' : Bytes} {s s' : HS HB D G} {a b : CipherState} {ok : Option Bool}
    (h : handshake CB ts segs msg s = .ok (⟨.next, sent, segs', msg', s'⟩, some (a, b)))
    (hl : clientLoop CB E kss segs' msg' b a (if padding then some (Rand.new E) else none) input = .ok (ok, sent', outs)) :
    clientRun CB E padding ts kss segs msg s input = .ok (ok, sent ++ sent', outs) := by
  unfold clientRun
  rw [h, Out.bind_ok]
  dsimp only
  rw [hl, Out.bind_ok]
  rfl

/-- **C84**: whole runs of the two programs over one connection, with Curve25519, the reference ciphers and hashes and no
hypothesis about a cryptographic function. From two objects that are consistent as in C12 and have started: there are two
streams of bytes such that, however the network divides and delays them, the server that receives the one sends the other and
the client that receives the other sends the one; both exit with 0 and the client prints exactly the lines that are typed. -/
theorem C84_runs (c : RefCipher) (h : RefHash) (i r i1 r1 : (refSetup c h).H)
    (hi : SetUp (refSetup c h) i) (hr : SetUp (refSetup c h) r) (hri : i.role = .initiator)
    (hrr : r.role = .responder) (hid : i.sym.id = r.sym.id) (hpro : i.prologue = r.prologue)
    (hpsk : i.psk = r.psk) (p : Spec.Pattern) (hp : specPattern i.sym.id.patternId = some p)
    (hfb : p.preKey .responder .e = false)
    (hks : p.preKey .responder .s = true → pubOf i.rs = pubOf r.ls)
    (hkr : p.preKey .initiator .s = true → pubOf r.rs = pubOf i.ls)
    (hfix : i.fe = none ∧ i.fh = none ∧ r.fe = none ∧ r.fh = none)
    (si : i.start c.backend = .ok (.none, i1)) (sr : r.start c.backend = .ok (.none, r1))
    -- the lines and the random data
    (ls : List Bytes) (hls : ∀ l ∈ ls, IsLine l ∧ l.length < 65519) (hnum : ls.length < 2 ^ 64)
    (E : Nat → Bytes) (hE : ∀ k, (E k).length = 40) (padding : Bool) (cmsg smsg : Bytes) (hcm : cmsg.length = 65537)
    (hsm : smsg.length = 65537)
    -- enough turns, and `send` works
    (cts sts : List HTurn) (hct : p.msgs.length ≤ cts.length) (hst : p.msgs.length ≤ sts.length)
    (ckss skss : List (List Snd)) (hcl : ls.length < ckss.length) (hsl : ls.length < skss.length)
    (hcs : ∀ t ∈ cts, ∀ p : Bytes, p.length ≤ 65537 → (send t.ks p).1 = some true)
    (hss : ∀ t ∈ sts, ∀ p : Bytes, p.length ≤ 65537 → (send t.ks p).1 = some true)
    (hck : ∀ ks ∈ ckss, ∀ p : Bytes, p.length ≤ 65537 → (send ks p).1 = some true)
    (hsk : ∀ ks ∈ skss, ∀ p : Bytes, p.length ≤ 65537 → (send ks p).1 = some true) :
    ∃ toServer toClient : Bytes,
      (∀ segs, Clean segs → stream segs = toServer →
        serverRun c.backend sts skss segs smsg r1 = .ok (some true, toClient)) ∧
      (∀ segs, Clean segs → stream segs = toClient →
        clientRun c.backend E padding cts ckss segs cmsg i1 ls.flatten = .ok (some true, toServer, ls)) := by
  have hm16 := c.mac16
  have h16 : donna25519.len + (refSuite c h).CB.macLen ≤ 65535 := by
    show 32 + c.backend.macLen ≤ 65535
    omega
  have nn : ∀ k : (donna25519.specDH donna25519_sized).KP, ¬ AllZero (donna25519.eval k.1 donna25519.base) :=
    fun k => donna25519_nonzero k.1 k.2
  have gen : ∀ (s : (refSetup c h).H) (t : Noise.Turn), s.fe = none → s.fh = none →
      HS.Generates (curveReal (refSuite c h) donna25519 donna25519 donna25519_sized donna25519_sized h16 h16)
        (fun g => ∃ k, ¬ AllZero (donna25519.eval k.1 donna25519.base) ∧ g = fun _ => k) t s :=
    fun s t h1 h2 n => ⟨⟨_, by rw [h1]; rfl, fun _ => decide_eq_false (nn _)⟩, _,
      by rw [h2]; rfl, _, nn _, rfl⟩
  obtain ⟨sa, sb, a2, b2, a3, b3, a6, b6, hlink, a4, hsum, hwell, hsa, hsb⟩ := HS.start_agree
    (curveReal (refSuite c h) donna25519 donna25519 donna25519_sized donna25519_sized h16 h16)
    (curveReal_genuine _ _ _ _ _ h16 h16)
    (fun g => ∃ k, ¬ AllZero (donna25519.eval k.1 donna25519.base) ∧ g = fun _ => k) i r i1 r1 hi hr hri hrr hid hpro
    hpsk p hp hfb hks hkr si sr
  obtain ⟨t, fl, t1, _⟩ := hi.idle.tokens
  have hroom : ∀ m ∈ p.msgs, (m.head? = some .e ∨ m.head? = some .s) ∧
      (m.map (HSt.tokMax (refSuite c h).crypto (donna25519.specDH donna25519_sized) (donna25519.specDH donna25519_sized))).sum +
        (refSuite c h).crypto.macLen ≤ 65535 := by
    intro m hm
    obtain ⟨q1, q2⟩ := pattern_heads t1 hp m hm
    refine ⟨q1, ?_⟩
    have hmac : (refSuite c h).crypto.macLen = 16 := hm16
    have hl : ∀ o, (donna25519.specDH donna25519_sized).len o = 32 := fun _ => rfl
    have := sum_le (f := HSt.tokMax (refSuite c h).crypto (donna25519.specDH donna25519_sized)
      (donna25519.specDH donna25519_sized)) (k := 48) (by
        intro u
        cases u <;> simp only [HSt.tokMax, hmac, hl] <;> omega) m
    omega
  obtain ⟨i2, r2, sa', sb', toA, toB, mA, mB, x2, x3, x4, x5, x6, x7, x8, lA, lB, runA, runB⟩ := handLoop_agree
    (curveReal (refSuite c h) donna25519 donna25519 donna25519_sized donna25519_sized h16 h16)
    (donna25519.good donna25519_sized donna25519_commutes) (by show 0 < 32; omega)
    (donna25519.goodGen donna25519_sized donna25519_commutes) p.msgs cts sts .initiator p.known 0 i1 r1 sa sb cmsg smsg a2 b2
    (fun _ => ⟨a6, b6⟩) hlink a4 hsum hwell hsa hsb hroom hct hst
    (fun t ht => ⟨(gen i t.turn hfix.1 hfix.2.1).frame a3, hcs t ht⟩)
    (fun t ht => ⟨(gen r t.turn hfix.2.2.1 hfix.2.2.2).frame b3, hss t ht⟩) hcm hsm
  obtain ⟨y1, y2, i3, s1, v1, y3, y4, y5⟩ := HS.C13_split _ i2 sa' x2 x4
  obtain ⟨z1, z2, r3, s2, v2, z3, z4, z5⟩ := HS.C13_split _ r2 sb' x3 x5
  rw [x7] at y5
  rw [x8] at z5
  simp only [Role.flip, Prod.ext_iff, Prod.fst_swap, Prod.snd_swap] at y5 z5
  have w1 : s1 = v2 := CipherState.abs_inj (by rw [y5.1, z5.2, x6]) (by rw [y5.1]; rfl)
  have w2 : v1 = s2 := CipherState.abs_inj (by rw [y5.2, z5.1, x6]) (by rw [y5.2]; rfl)
  subst w1 w2
  obtain ⟨k1, n1, k2, n2⟩ := split_keyed (refSetup c h) i2 i3 s1 v1 y3
  obtain ⟨ds, dc, h1, h2, _⟩ := C83_echo c.backend c.lawful (by omega) E hE ls
    (fun l hl => ⟨(hls l hl).1, by have := (hls l hl).2; omega⟩) s1 v1 k1 k2
    (by rw [n1, show (0 : UInt64).toNat = 0 from rfl]; omega) (by rw [n2, show (0 : UInt64).toNat = 0 from rfl]; omega)
    (if padding then some (Rand.new E) else none)
    (by
      intro st hst
      cases padding with
      | false => cases hst
      | true => cases hst; exact ⟨[], Rand.new_idle hE (by decide)⟩)
    mA mB lA lB ckss skss hcl hsl hck hsk
  refine ⟨toB ++ ds, toA ++ dc, ?_, ?_⟩
  · intro segs hc hs
    obtain ⟨segs', e, c', s'⟩ := runB segs ds hc hs
    have e := handshake_of_loop e z1 z3
    exact serverRun_of e (h1 segs' c' s')
  · intro segs hc hs
    obtain ⟨segs', e, c', s'⟩ := runA segs dc hc hs
    have e := handshake_of_loop e y1 y3
    exact clientRun_of e (h2 segs' c' s')

/-- The parties of the test vector meet the hypotheses, with padding and two lines. -/
example : ∃ i r i1 r1 : vecSetup.H, vecMake .initiator = some i ∧ vecMake .responder = some r ∧
    i.start ChaChaPoly.backend = .ok (.none, i1) ∧ r.start ChaChaPoly.backend = .ok (.none, r1) ∧
    ∃ toServer toClient : Bytes,
      (∀ segs, Clean segs → stream segs = toServer →
        serverRun ChaChaPoly.backend (List.replicate 2 ⟨fun n k => UInt8.ofNat (n + k), fun _ _ => 9, [.takes 65537]⟩)
          (List.replicate 3 [.again, .takes 65537]) segs (List.replicate 65537 0) r1 = .ok (some true, toClient)) ∧
      (∀ segs, Clean segs → stream segs = toClient →
        clientRun ChaChaPoly.backend (fun _ => List.replicate 40 3) true
          (List.replicate 2 ⟨fun n k => UInt8.ofNat (n * k), fun _ _ => 8, [.takes 65537]⟩) (List.replicate 3 [.takes 65537]) segs
          (List.replicate 65537 0) i1 [[104, 10], [10]].flatten = .ok (some true, toServer, [[104, 10], [10]])) :=
  ⟨_, _, _, _, rfl, rfl, rfl, rfl, C84_runs .chachapoly .sha256 _ _ _ _ (@vecMake_setUp .initiator _ rfl rfl rfl)
    (@vecMake_setUp .responder _ rfl rfl rfl) rfl rfl rfl rfl rfl _ rfl rfl (fun h => by cases h) (fun h => by cases h)
    ⟨rfl, rfl, rfl, rfl⟩ rfl rfl [[104, 10], [10]]
    (by
      intro l hl
      rcases List.mem_cons.1 hl with rfl | hl
      · exact ⟨⟨[104], rfl, by decide, by decide⟩, by decide⟩
      · rw [List.mem_singleton.1 hl]
        exact ⟨⟨[], rfl, by decide, by decide⟩, by decide⟩)
    (by decide) (fun _ => List.replicate 40 3) (fun _ => List.length_replicate) true (List.replicate 65537 0)
    (List.replicate 65537 0) List.length_replicate List.length_replicate _ _ (by decide) (by decide) _ _ (by decide) (by decide)
    (by intro t ht p hp; rw [List.eq_of_mem_replicate ht, send, if_pos (by omega)])
    (by intro t ht p hp; rw [List.eq_of_mem_replicate ht, send, if_pos (by omega)])
    (by intro t ht p hp; rw [List.eq_of_mem_replicate ht, send, if_pos (by omega)])
    (by intro t ht p hp; rw [List.eq_of_mem_replicate ht, send, send, if_pos (by omega)])⟩

end Noise.Echo
