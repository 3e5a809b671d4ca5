import Verif.NewHopeRing
import Verif.NewHopeCodec
import Verif.NewHopeRec
/-!
# New Hope: when the two parties agree (C69)
-/

namespace Noise.NewHope

/-! ## The noise -/

theorem and_mask (n : Nat) : n &&& 0x01010101 = n % 2 + n / 256 % 2 * 256 + n / 65536 % 2 * 65536 + n / 16777216 % 2 * 16777216 := by
  have step : ∀ n m, n &&& (1 + 256 * m) = n % 2 + 256 * (n / 256 &&& m) := by
    intro n m
    have h1 : (n &&& (1 + 256 * m)) / 2 ^ 8 = n / 2 ^ 8 &&& (1 + 256 * m) / 2 ^ 8 := Nat.and_div_two_pow
    have h2 : (n &&& (1 + 256 * m)) % 2 ^ 8 = n % 2 ^ 8 &&& (1 + 256 * m) % 2 ^ 8 := Nat.and_mod_two_pow
    rw [show (1 + 256 * m) / 2 ^ 8 = m by omega] at h1
    rw [show (1 + 256 * m) % 2 ^ 8 = 1 by omega, Nat.and_one_is_mod] at h2
    generalize n &&& (1 + 256 * m) = x at *
    generalize hy : n / 2 ^ 8 &&& m = y at *
    omega
  have h := step n (1 + 256 * (1 + 256 * 1))
  rw [step (n / 256), step (n / 256 / 256), Nat.and_one_is_mod] at h
  refine h.trans ?_
  omega

/-- Number of ones among the bits `k` to `k + 7` of `t`. -/
def ones (t k : Nat) : Nat :=
  t / 2 ^ k % 2 + t / 2 ^ (k + 1) % 2 + t / 2 ^ (k + 2) % 2 + t / 2 ^ (k + 3) % 2 + t / 2 ^ (k + 4) % 2 +
    t / 2 ^ (k + 5) % 2 + t / 2 ^ (k + 6) % 2 + t / 2 ^ (k + 7) % 2

/-- A word whose bytes are at most `n`. -/
structure Bytewise (n : Nat) (x : UInt32) (a b c d : Nat) : Prop where
  eq : x.toNat = a + b * 256 + c * 65536 + d * 16777216
  a_le : a ≤ n
  b_le : b ≤ n
  c_le : c ≤ n
  d_le : d ≤ n

theorem bit_le (x : Nat) : x % 2 ≤ 1 := by omega

theorem Bytewise.add {n : Nat} {x y : UInt32} {a b c d a' b' c' d' : Nat} (h : Bytewise n x a b c d) (hn : n ≤ 100)
    (e : y.toNat = a' + b' * 256 + c' * 65536 + d' * 16777216) (ha : a' ≤ 1) (hb : b' ≤ 1) (hc : c' ≤ 1) (hd : d' ≤ 1) :
    Bytewise (n + 1) (x + y) (a + a') (b + b') (c + c') (d + d') := by
  obtain ⟨h1, h2, h3, h4, h5⟩ := h
  refine ⟨?_, by omega, by omega, by omega, by omega⟩
  rw [UInt32.toNat_add, h1, e]
  omega

/-- A noise coefficient is the number of ones in the lower half of a word minus the number of ones in the upper half,
plus the modulus. -/
theorem noiseCoeff_ok (t : UInt32) :
    (noiseCoeff t).toNat + ones t.toNat 16 + ones t.toNat 24 = 12289 + ones t.toNat 0 + ones t.toNat 8 := by
  have e : ∀ j < 8, ((t >>> UInt32.ofNat j) &&& 0x01010101).toNat = t.toNat / 2 ^ j % 2 + t.toNat / 2 ^ (8 + j) % 2 * 256 +
      t.toNat / 2 ^ (16 + j) % 2 * 65536 + t.toNat / 2 ^ (24 + j) % 2 * 16777216 := by
    intro j hj
    have h1 : (t >>> UInt32.ofNat j).toNat = t.toNat / 2 ^ j := by
      rw [UInt32.toNat_shiftRight, UInt32.toNat_ofNat', Nat.mod_eq_of_lt (by omega : j < 2 ^ 32),
        Nat.mod_eq_of_lt (by omega : j < 32), Nat.shiftRight_eq_div_pow]
    rw [UInt32.toNat_and, h1]
    refine (and_mask _).trans ?_
    rw [Nat.div_div_eq_div_mul, Nat.div_div_eq_div_mul, Nat.div_div_eq_div_mul, pow_add, pow_add, pow_add]
    simp only [Nat.mul_comm]
    rfl
  have b0 : ∀ k, ones t.toNat k ≤ 8 := fun k => by unfold ones; omega
  have hd : ((List.range 8).foldl (fun d j => d + ((t >>> UInt32.ofNat j) &&& 0x01010101)) (0 : UInt32)).toNat =
      ones t.toNat 0 + ones t.toNat 8 * 256 + ones t.toNat 16 * 65536 + ones t.toNat 24 * 16777216 := by
    have h0 : Bytewise 0 (0 : UInt32) 0 0 0 0 := ⟨rfl, by decide, by decide, by decide, by decide⟩
    have h1 := h0.add (by decide) (e 0 (by decide)) (bit_le _) (bit_le _) (bit_le _) (bit_le _)
    have h2 := h1.add (by decide) (e 1 (by decide)) (bit_le _) (bit_le _) (bit_le _) (bit_le _)
    have h3 := h2.add (by decide) (e 2 (by decide)) (bit_le _) (bit_le _) (bit_le _) (bit_le _)
    have h4 := h3.add (by decide) (e 3 (by decide)) (bit_le _) (bit_le _) (bit_le _) (bit_le _)
    have h5 := h4.add (by decide) (e 4 (by decide)) (bit_le _) (bit_le _) (bit_le _) (bit_le _)
    have h6 := h5.add (by decide) (e 5 (by decide)) (bit_le _) (bit_le _) (bit_le _) (bit_le _)
    have h7 := h6.add (by decide) (e 6 (by decide)) (bit_le _) (bit_le _) (bit_le _) (bit_le _)
    have h8 := h7.add (by decide) (e 7 (by decide)) (bit_le _) (bit_le _) (bit_le _) (bit_le _)
    have h := h8.eq
    simp only [Nat.zero_add] at h
    exact h
  unfold noiseCoeff
  dsimp only
  generalize (List.range 8).foldl (fun d j => d + ((t >>> UInt32.ofNat j) &&& 0x01010101)) (0 : UInt32) = d at *
  have l0 := b0 0; have l1 := b0 8; have l2 := b0 16; have l3 := b0 24
  generalize ones t.toNat 0 = o0 at *
  generalize ones t.toNat 8 = o1 at *
  generalize ones t.toNat 16 = o2 at *
  generalize ones t.toNat 24 = o3 at *
  have s : ∀ k < 32, (d >>> UInt32.ofNat k).toNat = d.toNat / 2 ^ k := by
    intro k hk
    rw [UInt32.toNat_shiftRight, UInt32.toNat_ofNat', Nat.mod_eq_of_lt (by omega : k < 2 ^ 32), Nat.mod_eq_of_lt hk,
      Nat.shiftRight_eq_div_pow]
  have m : ∀ x : UInt32, (x &&& 0xff).toNat = x.toNat % 256 := by
    intro x
    rw [UInt32.toNat_and]
    exact Nat.and_two_pow_sub_one_eq_mod _ 8
  have s8 : (d >>> 8).toNat = d.toNat / 2 ^ 8 := s 8 (by decide)
  have s16 : (d >>> 16).toNat = d.toNat / 2 ^ 16 := s 16 (by decide)
  have s24 : (d >>> 24).toNat = d.toNat / 2 ^ 24 := s 24 (by decide)
  rw [UInt32.toNat_toUInt16, UInt32.toNat_sub, UInt32.toNat_add, UInt32.toNat_add, UInt32.toNat_add, m, m, m, s8, s16, s24, hd,
    show (o0 + o1 * 256 + o2 * 65536 + o3 * 16777216) / 2 ^ 8 % 256 = o1 by omega,
    show (o0 + o1 * 256 + o2 * 65536 + o3 * 16777216) % 256 = o0 by omega,
    show (o0 + o1 * 256 + o2 * 65536 + o3 * 16777216) / 2 ^ 16 % 256 = o2 by omega,
    show (o0 + o1 * 256 + o2 * 65536 + o3 * 16777216) / 2 ^ 24 = o3 by omega]
  show (_ + (_ + 12289) % _) % _ % _ + _ + _ = _
  omega

/-- The centred noise: the value of coefficient `i` of `poly_getnoise` between -16 and 16. -/
def noise (seed : Bytes) (nonce : UInt8) (i : Nat) : Int :=
  let t := (fromLittle (chachaStream 4096 (nonce :: List.replicate 7 0) seed) (4 * i)).toNat
  (ones t 0 + ones t 8 : Nat) - (ones t 16 + ones t 24 : Nat)

theorem noise_le (seed : Bytes) (nonce : UInt8) (i : Nat) : -16 ≤ noise seed nonce i ∧ noise seed nonce i ≤ 16 := by
  have b : ∀ t k, ones t k ≤ 8 := fun t k => by unfold ones; omega
  unfold noise
  dsimp only
  generalize (fromLittle (chachaStream 4096 (nonce :: List.replicate 7 0) seed) (4 * i)).toNat = t
  have := b t 0; have := b t 8; have := b t 16; have := b t 24
  omega

theorem getnoise_ok (seed : Bytes) (nonce : UInt8) (i : Nat) (hi : i < 1024) :
    (((polyGetnoise seed nonce).at i).toNat : Int) = 12289 + noise seed nonce i := by
  unfold polyGetnoise
  dsimp only
  rw [at_map, if_pos hi]
  have := noiseCoeff_ok (fromLittle (chachaStream 4096 (nonce :: List.replicate 7 0) seed) (4 * i))
  show ((noiseCoeff (fromLittle (chachaStream 4096 (nonce :: List.replicate 7 0) seed) (4 * i))).toNat : Int) = _
  unfold noise
  dsimp only
  omega

theorem getnoise_v (seed : Bytes) (nonce : UInt8) (i : Nat) (hi : i < 1024) :
    (polyGetnoise seed nonce).v i = ((noise seed nonce i : Int) : Z) := by
  have := congrArg (Int.cast (R := Z)) (getnoise_ok seed nonce i hi)
  rw [Int.cast_natCast, Int.cast_add, show ((12289 : Int) : Z) = 0 from by decide, zero_add] at this
  exact this

theorem getnoise_lt (seed : Bytes) (nonce : UInt8) (i : Nat) : ((polyGetnoise seed nonce).at i).toNat < 2 ^ 15 := by
  by_cases hi : i < 1024
  · have := getnoise_ok seed nonce i hi
    have := noise_le seed nonce i
    omega
  · unfold polyGetnoise
    dsimp only
    rw [at_map, if_neg hi]
    decide

/-! ## The difference of the two polynomials -/

/-- Coefficient `i` of the difference between the polynomial of the party that sends the hint and that of the party
that receives it: `e s' - s e' + e''` modulo `X^1024 + 1`. All but `e''` are in bit-reversed order. -/
def diff (s e s' e' e'' : Nat → Int) (i : Nat) : Int :=
  nega 1024 (fun k => e (rev k)) (fun k => s' (rev k)) i - nega 1024 (fun k => s (rev k)) (fun k => e' (rev k)) i + e'' i

/-- The difference for the noise of two seeds. -/
def gap (seedA seedB : Bytes) : Nat → Int :=
  diff (noise seedA 0) (noise seedA 1) (noise seedB 0) (noise seedB 1) (noise seedB 2)

theorem ev_congr {x y : Nat → Z} (h : ∀ k < 1024, x k = y k) (s : Nat) : ev x s = ev y s := by
  unfold ev
  exact Finset.sum_congr rfl fun k hk => by rw [h k (Finset.mem_range.1 hk)]

/-- A polynomial with given integers as values. -/
def Has (p : Poly) (x : Nat → Int) : Prop := ∀ i < 1024, p.v i = ((x i : Int) : Z)

theorem ntt_has {p : Poly} {x : Nat → Int} (h : Has p x) (s : Nat) (hs : s < 1024) :
    (polyNtt p).v s = ev (fun k => ((x (rev k) : Int) : Z)) s := by
  rw [(polyNtt_ok p).2 s hs]
  exact ev_congr (fun k _ => h _ (rev_lt k)) s

theorem difference {S E S' E' E'' A P B : Poly} {s e s' e' e'' : Nat → Int} (hS : Has S s) (hE : Has E e) (hS' : Has S' s')
    (hE' : Has E' e') (hE'' : Has E'' e'') (hb : ∀ i, (E''.at i).toNat < 2 ^ 15)
    (hP : ∀ i < 1024, P.v i = (polyAdd (polyNtt E) (polyPointwise (polyNtt S) A)).v i)
    (hB : ∀ i < 1024, B.v i = (polyAdd (polyPointwise A (polyNtt S')) (polyNtt E')).v i) :
    Small (polyAdd (polyInvntt (polyPointwise P (polyNtt S'))) E'') ∧
    Small (polyInvntt (polyPointwise (polyNtt S) B)) ∧
    ∀ i < 1024, (polyAdd (polyInvntt (polyPointwise P (polyNtt S'))) E'').v i =
      (polyInvntt (polyPointwise (polyNtt S) B)).v i + ((diff s e s' e' e'' i : Int) : Z) := by
  have lt15 : ∀ {p : Poly}, Small p → ∀ i, (p.at i).toNat < 2 ^ 15 := fun h i => by have := h.2 i; omega
  obtain ⟨p1, p2⟩ := add_ok (a := polyNtt E) (b := polyPointwise (polyNtt S) A) (lt15 (polyNtt_ok E).1)
    (lt15 (pointwise_ok _ _).1)
  obtain ⟨b1, b2⟩ := add_ok (a := polyPointwise A (polyNtt S')) (b := polyNtt E') (lt15 (pointwise_ok _ _).1)
    (lt15 (polyNtt_ok E').1)
  obtain ⟨x1, x2⟩ := polyInvntt_ok (p := polyPointwise P (polyNtt S')) (pointwise_ok _ _).1
  obtain ⟨y1, y2⟩ := polyInvntt_ok (p := polyPointwise (polyNtt S) B) (pointwise_ok _ _).1
  obtain ⟨a1, a2⟩ := add_ok (a := polyInvntt (polyPointwise P (polyNtt S'))) (b := E'') (lt15 x1) hb
  refine ⟨a1, y1, fun i hi => ?_⟩
  rw [a2 i hi, hE'' i hi]
  have key : (polyInvntt (polyPointwise P (polyNtt S'))).v i - (polyInvntt (polyPointwise (polyNtt S) B)).v i =
      nega 1024 (fun k => ((e (rev k) : Int) : Z)) (fun k => ((s' (rev k) : Int) : Z)) i -
        nega 1024 (fun k => ((s (rev k) : Int) : Z)) (fun k => ((e' (rev k) : Int) : Z)) i := by
    have l : (polyInvntt (polyPointwise P (polyNtt S'))).v i = inv (polyPointwise P (polyNtt S')).v i := x2 i hi
    have r : (polyInvntt (polyPointwise (polyNtt S) B)).v i = inv (polyPointwise (polyNtt S) B).v i := y2 i hi
    rw [l, r, ← inv_sub]
    refine (inv_congr (fun k hk => ?_) i).trans (inv_ev (fun j =>
      nega 1024 (fun k => ((e (rev k) : Int) : Z)) (fun k => ((s' (rev k) : Int) : Z)) j -
        nega 1024 (fun k => ((s (rev k) : Int) : Z)) (fun k => ((e' (rev k) : Int) : Z)) j) hi)
    rw [ev_sub, ev_nega, ev_nega, (pointwise_ok _ _).2 k hk, (pointwise_ok _ _).2 k hk, hP k hk, hB k hk, p2 k hk, b2 k hk,
      (pointwise_ok _ _).2 k hk, (pointwise_ok _ _).2 k hk, ntt_has hS k hk, ntt_has hE k hk, ntt_has hS' k hk,
      ntt_has hE' k hk]
    ring
  have cast : ((diff s e s' e' e'' i : Int) : Z) =
      nega 1024 (fun k => ((e (rev k) : Int) : Z)) (fun k => ((s' (rev k) : Int) : Z)) i -
        nega 1024 (fun k => ((s (rev k) : Int) : Z)) (fun k => ((e' (rev k) : Int) : Z)) i + ((e'' i : Int) : Z) := by
    unfold diff
    rw [Int.cast_add, Int.cast_sub]
    have := fun (x y : Nat → Int) => nega_map (Int.castRingHom Z) 1024 x y i
    simp only [eq_intCast] at this
    rw [this, this]
  rw [cast, ← key]
  ring

/-! ## The key -/

theorem helprecStep_range {v : Fin 4 → Int} {r : Int} (j : Fin 4) : 0 ≤ helprecStep v r j ∧ helprecStep v r j < 4 := by
  unfold helprecStep
  dsimp only
  split <;> omega

theorem helprec_lt (rand : Bytes) (v : Poly) (i : Nat) : ((helprec rand v).at i).toNat < 4 := by
  unfold helprec
  rw [at_map]
  split
  · dsimp only
    have := helprecStep_range (v := quad v (i % 256))
      (r := ((rand.getD (i % 256 / 8) 0 >>> UInt8.ofNat (i % 256 % 8)) &&& 1).toNat) (Fin.ofNat 4 (i / 256))
    rw [UInt16.toNat_ofNat']
    omega
  · decide

/-- The random bit of `helprec` for the group `i`. -/
def hintBit (rand : Bytes) (i : Nat) : Int := ((rand.getD (i / 8) 0 >>> UInt8.ofNat (i % 8)) &&& 1).toNat

theorem hintBit_range (rand : Bytes) (i : Nat) : hintBit rand i = 0 ∨ hintBit rand i = 1 := by
  unfold hintBit
  rw [UInt8.toNat_and]
  have : ∀ n : Nat, n &&& 1 = 0 ∨ n &&& 1 = 1 := fun n => by rw [Nat.and_one_is_mod]; omega
  rcases this (rand.getD (i / 8) 0 >>> UInt8.ofNat (i % 8)).toNat with h | h
  · left; show ((_ &&& 1 : Nat) : Int) = 0; rw [h]; rfl
  · right; show ((_ &&& 1 : Nat) : Int) = 1; rw [h]; rfl

theorem quad_helprec (rand : Bytes) (v : Poly) (i : Nat) (hi : i < 256) :
    quad (helprec rand v) i = helprecStep (quad v i) (hintBit rand i) := by
  funext j
  have hj := j.isLt
  unfold quad helprec
  rw [at_map, if_pos (by omega)]
  dsimp only
  rw [show (256 * j.val + i) % 256 = i by omega, show (256 * j.val + i) / 256 = j.val by omega,
    show Fin.ofNat 4 j.val = j from Fin.ext (Nat.mod_eq_of_lt hj)]
  have := helprecStep_range (v := quad v i) (r := hintBit rand i) j
  rw [UInt16.toNat_ofNat']
  change (((helprecStep (quad v i) (hintBit rand i) j).toNat % 2 ^ 16 : Nat) : Int) =
    helprecStep (quad v i) (hintBit rand i) j
  omega

theorem fold_congr {b b' : Nat → UInt8} : ∀ (l : List Nat), (∀ j ∈ l, b j = b' j) → ∀ k : UInt8,
    l.foldl (fun (key : UInt8) j => key ||| b j) k = l.foldl (fun (key : UInt8) j => key ||| b' j) k
  | [], _, _ => rfl
  | j :: l, h, k => by
    rw [List.foldl_cons, List.foldl_cons, h j (List.mem_cons_self ..)]
    exact fold_congr l (fun j hj => h j (List.mem_cons_of_mem _ hj)) _

theorem reconcile_congr {v v' c c' : Poly} (h : ∀ i < 256, recBit (quad v i) (quad c i) = recBit (quad v' i) (quad c' i)) :
    reconcile v c = reconcile v' c' := by
  unfold reconcile
  refine List.map_congr_left fun m hm => ?_
  have hm := List.mem_range.1 hm
  refine fold_congr _ (fun j hj => ?_) _
  have hj := List.mem_range.1 hj
  rw [h (8 * m + j) (by omega)]

theorem reconcile_agree {v v' : Poly} {d : Nat → Int} (rand : Bytes) (hv : Small v) (hv' : Small v')
    (hd : ∀ i < 1024, v.v i = v'.v i + ((d i : Int) : Z))
    (hs : ∀ i < 256, (d i).natAbs + (d (256 + i)).natAbs + (d (512 + i)).natAbs + (d (768 + i)).natAbs ≤ 9214) :
    ∀ i < 256, recBit (quad v' i) (quad (helprec rand v) i) = recBit (quad v i) (quad (helprec rand v) i) := by
  intro i hi
  rw [quad_helprec rand v i hi]
  have rng : ∀ {p : Poly}, Small p → ∀ j, 0 ≤ quad p i j ∧ quad p i j < 16384 := fun h j => by
    have := h.2 (256 * j.val + i)
    unfold quad
    omega
  obtain ⟨b, _, hb⟩ := recBit_ok (hintBit_range rand i) (rng hv)
  have ex : ∀ j : Fin 4, ∃ n : Int, quad v' i j = quad v i j + -d (256 * j.val + i) + 12289 * n := by
    intro j
    have h := hd (256 * j.val + i) (by omega)
    have h' : (((quad v' i j - (quad v i j + -d (256 * j.val + i)) : Int)) : Z) = 0 := by
      unfold quad
      push_cast
      have h2 : (((v.at (256 * j.val + i)).toNat : Nat) : Z) = ((v'.at (256 * j.val + i)).toNat : Z) +
        ((d (256 * j.val + i) : Int) : Z) := h
      rw [h2]
      ring
    obtain ⟨n, hn⟩ := (ZMod.intCast_zmod_eq_zero_iff_dvd _ _).1 h'
    exact ⟨n, by push_cast at hn; omega⟩
  rw [hb (quad v' i) (fun j => -d (256 * j.val + i)) (fun j => (ex j).choose) (rng hv') (fun j => (ex j).choose_spec) (by
      have := hs i hi
      show (-d (256 * 0 + i)).natAbs + (-d (256 * 1 + i)).natAbs + (-d (256 * 2 + i)).natAbs + (-d (256 * 3 + i)).natAbs ≤ _
      rw [show 256 * 0 + i = i by omega, show 256 * 1 + i = 256 + i by omega, show 256 * 2 + i = 512 + i by omega,
        show 256 * 3 + i = 768 + i by omega, Int.natAbs_neg, Int.natAbs_neg, Int.natAbs_neg, Int.natAbs_neg]
      exact this),
    hb (quad v i) (fun _ => 0) (fun _ => 0) (rng hv) (fun j => by omega) (by decide)]

theorem decodeB_fst (r : Bytes) : (decodeB r).1 = polyFromBytes r := by
  unfold decodeB
  dsimp only

/-- The noise of the two parties is small: in total the four coefficients of each key bit differ by at most 9214. -/
def SmallNoise (seedA seedB : Bytes) : Prop :=
  ∀ i < 256,
    (gap seedA seedB i).natAbs + (gap seedA seedB (256 + i)).natAbs + (gap seedA seedB (512 + i)).natAbs +
      (gap seedA seedB (768 + i)).natAbs ≤ 9214

/-- **C69.** When the noise is small enough, the initiator computes from the responder's message the shared secret that
the responder computed. -/
theorem C69_agreement (H : Hashes) (hH : ∀ m, (H.sha3 m).length = 32) (random randomB : Bytes)
    (hs : SmallNoise ((random.drop 32).take 32) (randomB.take 32)) :
    shareda H (keygen H random).2 (sharedb H (keygen H random).1 randomB).2 = (sharedb H (keygen H random).1 randomB).1 := by
  unfold shareda sharedb keygen
  dsimp only
  generalize hseed : H.sha3 (random.take 32) = seed
  have hl : seed.length = 32 := hseed ▸ hH _
  generalize (random.drop 32).take 32 = sa at *
  generalize randomB.take 32 = sb at *
  rw [decodeA_encodeA _ _ hl]
  generalize H.uniform seed = A
  unfold decodeA encodeA
  dsimp only
  obtain ⟨_, q2⟩ := poly_round_ok (polyAdd (polyNtt (polyGetnoise sa 1)) (polyPointwise (polyNtt (polyGetnoise sa 0)) A)) seed
  generalize polyFromBytes (polyToBytes (polyAdd (polyNtt (polyGetnoise sa 1))
    (polyPointwise (polyNtt (polyGetnoise sa 0)) A)) ++ seed) = P at *
  generalize hbp : polyAdd (polyPointwise A (polyNtt (polyGetnoise sb 0))) (polyNtt (polyGetnoise sb 1)) = bp
  generalize hv : polyAdd (polyInvntt (polyPointwise P (polyNtt (polyGetnoise sb 0)))) (polyGetnoise sb 2) = v
  generalize hc : helprec (chachaStream 32 (List.replicate 7 0 ++ [3]) sb) v = c
  have hc4 : ∀ i, (c.at i).toNat < 4 := fun i => by rw [← hc]; exact helprec_lt _ _ i
  have hB : ∀ i < 1024, (decodeB (encodeB bp c)).1.v i = bp.v i := by
    intro i hi
    rw [decodeB_fst]
    unfold encodeB
    exact (poly_round_ok bp _).2 i hi
  have hcc : ∀ i < 256, quad (decodeB (encodeB bp c)).2 i = quad c i := by
    intro i hi
    funext j
    unfold quad
    rw [decodeB_hint bp c hc4 _ (by omega)]
  obtain ⟨d1, d2, d3⟩ := difference (A := A) (fun i hi => getnoise_v sa 0 i hi) (fun i hi => getnoise_v sa 1 i hi)
    (fun i hi => getnoise_v sb 0 i hi) (fun i hi => getnoise_v sb 1 i hi) (fun i hi => getnoise_v sb 2 i hi)
    (getnoise_lt sb 2) q2 (fun i hi => (hB i hi).trans (by rw [hbp]))
  rw [hv] at d1 d3
  have := reconcile_agree (chachaStream 32 (List.replicate 7 0 ++ [3]) sb) d1 d2 d3 hs
  rw [hc] at this
  refine congrArg H.sha3 (reconcile_congr fun i hi => ?_)
  rw [hcc i hi]
  exact this i hi

end Noise.NewHope
