import Verif.Basic
/-!
# `src/crypto/newhope/fips202.c`

The local variables `Aba`, ..., `Asu` (and `Eba`, ..., `Esu`) are the fields of `Lanes`. The body of the loop of
`KeccakF1600_StatePermute` consists of a round from `A` to `E` and one from `E` to `A`; each is one definition.
-/

namespace Noise.Keccak

/-- `ROL`, line 13. The offset is a constant between 1 and 63 in every use. -/
def rol (a : UInt64) (k : UInt64) : UInt64 := (a <<< k) ^^^ (a >>> (64 - k))

/-- `load64`, lines 15-23. -/
def load64 (x : Bytes) (o : Nat) : UInt64 :=
  (List.range 8).foldl (fun r i => r ||| (x.getD (o + i) 0).toUInt64 <<< (8 * i).toUInt64) 0

/-- The loop of `store64` from index `i` on. -/
def store64From : Nat → UInt64 → Bytes
  | 0, _ => []
  | n + 1, u => u.toUInt8 :: store64From n (u >>> 8)

/-- `store64`, lines 25-33. -/
def store64 (u : UInt64) : Bytes := store64From 8 u

/-- `KeccakF_RoundConstants`, lines 35-61. -/
def roundConstants : List UInt64 :=
  [0x0000000000000001, 0x0000000000008082, 0x800000000000808a, 0x8000000080008000,
   0x000000000000808b, 0x0000000080000001, 0x8000000080008081, 0x8000000000008009,
   0x000000000000008a, 0x0000000000000088, 0x0000000080008009, 0x000000008000000a,
   0x000000008000808b, 0x800000000000008b, 0x8000000000008089, 0x8000000000008003,
   0x8000000000008002, 0x8000000000000080, 0x000000000000800a, 0x800000008000000a,
   0x8000000080008081, 0x8000000000008080, 0x0000000080000001, 0x8000000080008008]

/-- The local variables of `KeccakF1600_StatePermute` that hold the state, lines 67-71 (and 74-78). -/
structure Lanes where
  (ba be bi bo bu : UInt64)
  (ga ge gi go gu : UInt64)
  (ka ke ki ko ku : UInt64)
  (ma me mi mo mu : UInt64)
  (sa se si so su : UInt64)

/-- Lines 109-202: a round from `A` to `E`. -/
def roundA (s : Lanes) (rc : UInt64) : Lanes :=
  let Aba := s.ba
  let Abe := s.be
  let Abi := s.bi
  let Abo := s.bo
  let Abu := s.bu
  let Aga := s.ga
  let Age := s.ge
  let Agi := s.gi
  let Ago := s.go
  let Agu := s.gu
  let Aka := s.ka
  let Ake := s.ke
  let Aki := s.ki
  let Ako := s.ko
  let Aku := s.ku
  let Ama := s.ma
  let Ame := s.me
  let Ami := s.mi
  let Amo := s.mo
  let Amu := s.mu
  let Asa := s.sa
  let Ase := s.se
  let Asi := s.si
  let Aso := s.so
  let Asu := s.su
  let BCa := Aba ^^^ Aga ^^^ Aka ^^^ Ama ^^^ Asa
  let BCe := Abe ^^^ Age ^^^ Ake ^^^ Ame ^^^ Ase
  let BCi := Abi ^^^ Agi ^^^ Aki ^^^ Ami ^^^ Asi
  let BCo := Abo ^^^ Ago ^^^ Ako ^^^ Amo ^^^ Aso
  let BCu := Abu ^^^ Agu ^^^ Aku ^^^ Amu ^^^ Asu
  let Da := BCu ^^^ rol BCe 1
  let De := BCa ^^^ rol BCi 1
  let Di := BCe ^^^ rol BCo 1
  let Do := BCi ^^^ rol BCu 1
  let Du := BCo ^^^ rol BCa 1
  let Aba := Aba ^^^ Da
  let BCa := Aba
  let Age := Age ^^^ De
  let BCe := rol Age 44
  let Aki := Aki ^^^ Di
  let BCi := rol Aki 43
  let Amo := Amo ^^^ Do
  let BCo := rol Amo 21
  let Asu := Asu ^^^ Du
  let BCu := rol Asu 14
  let Eba := BCa ^^^ ((~~~BCe) &&& BCi)
  let Eba := Eba ^^^ rc
  let Ebe := BCe ^^^ ((~~~BCi) &&& BCo)
  let Ebi := BCi ^^^ ((~~~BCo) &&& BCu)
  let Ebo := BCo ^^^ ((~~~BCu) &&& BCa)
  let Ebu := BCu ^^^ ((~~~BCa) &&& BCe)
  let Abo := Abo ^^^ Do
  let BCa := rol Abo 28
  let Agu := Agu ^^^ Du
  let BCe := rol Agu 20
  let Aka := Aka ^^^ Da
  let BCi := rol Aka 3
  let Ame := Ame ^^^ De
  let BCo := rol Ame 45
  let Asi := Asi ^^^ Di
  let BCu := rol Asi 61
  let Ega := BCa ^^^ ((~~~BCe) &&& BCi)
  let Ege := BCe ^^^ ((~~~BCi) &&& BCo)
  let Egi := BCi ^^^ ((~~~BCo) &&& BCu)
  let Ego := BCo ^^^ ((~~~BCu) &&& BCa)
  let Egu := BCu ^^^ ((~~~BCa) &&& BCe)
  let Abe := Abe ^^^ De
  let BCa := rol Abe 1
  let Agi := Agi ^^^ Di
  let BCe := rol Agi 6
  let Ako := Ako ^^^ Do
  let BCi := rol Ako 25
  let Amu := Amu ^^^ Du
  let BCo := rol Amu 8
  let Asa := Asa ^^^ Da
  let BCu := rol Asa 18
  let Eka := BCa ^^^ ((~~~BCe) &&& BCi)
  let Eke := BCe ^^^ ((~~~BCi) &&& BCo)
  let Eki := BCi ^^^ ((~~~BCo) &&& BCu)
  let Eko := BCo ^^^ ((~~~BCu) &&& BCa)
  let Eku := BCu ^^^ ((~~~BCa) &&& BCe)
  let Abu := Abu ^^^ Du
  let BCa := rol Abu 27
  let Aga := Aga ^^^ Da
  let BCe := rol Aga 36
  let Ake := Ake ^^^ De
  let BCi := rol Ake 10
  let Ami := Ami ^^^ Di
  let BCo := rol Ami 15
  let Aso := Aso ^^^ Do
  let BCu := rol Aso 56
  let Ema := BCa ^^^ ((~~~BCe) &&& BCi)
  let Eme := BCe ^^^ ((~~~BCi) &&& BCo)
  let Emi := BCi ^^^ ((~~~BCo) &&& BCu)
  let Emo := BCo ^^^ ((~~~BCu) &&& BCa)
  let Emu := BCu ^^^ ((~~~BCa) &&& BCe)
  let Abi := Abi ^^^ Di
  let BCa := rol Abi 62
  let Ago := Ago ^^^ Do
  let BCe := rol Ago 55
  let Aku := Aku ^^^ Du
  let BCi := rol Aku 39
  let Ama := Ama ^^^ Da
  let BCo := rol Ama 41
  let Ase := Ase ^^^ De
  let BCu := rol Ase 2
  let Esa := BCa ^^^ ((~~~BCe) &&& BCi)
  let Ese := BCe ^^^ ((~~~BCi) &&& BCo)
  let Esi := BCi ^^^ ((~~~BCo) &&& BCu)
  let Eso := BCo ^^^ ((~~~BCu) &&& BCa)
  let Esu := BCu ^^^ ((~~~BCa) &&& BCe)
  ⟨Eba, Ebe, Ebi, Ebo, Ebu, Ega, Ege, Egi, Ego, Egu, Eka, Eke, Eki, Eko, Eku, Ema, Eme, Emi, Emo, Emu, Esa, Ese, Esi, Eso, Esu⟩

/-- Lines 204-297: a round from `E` to `A`. -/
def roundE (s : Lanes) (rc : UInt64) : Lanes :=
  let Eba := s.ba
  let Ebe := s.be
  let Ebi := s.bi
  let Ebo := s.bo
  let Ebu := s.bu
  let Ega := s.ga
  let Ege := s.ge
  let Egi := s.gi
  let Ego := s.go
  let Egu := s.gu
  let Eka := s.ka
  let Eke := s.ke
  let Eki := s.ki
  let Eko := s.ko
  let Eku := s.ku
  let Ema := s.ma
  let Eme := s.me
  let Emi := s.mi
  let Emo := s.mo
  let Emu := s.mu
  let Esa := s.sa
  let Ese := s.se
  let Esi := s.si
  let Eso := s.so
  let Esu := s.su
  let BCa := Eba ^^^ Ega ^^^ Eka ^^^ Ema ^^^ Esa
  let BCe := Ebe ^^^ Ege ^^^ Eke ^^^ Eme ^^^ Ese
  let BCi := Ebi ^^^ Egi ^^^ Eki ^^^ Emi ^^^ Esi
  let BCo := Ebo ^^^ Ego ^^^ Eko ^^^ Emo ^^^ Eso
  let BCu := Ebu ^^^ Egu ^^^ Eku ^^^ Emu ^^^ Esu
  let Da := BCu ^^^ rol BCe 1
  let De := BCa ^^^ rol BCi 1
  let Di := BCe ^^^ rol BCo 1
  let Do := BCi ^^^ rol BCu 1
  let Du := BCo ^^^ rol BCa 1
  let Eba := Eba ^^^ Da
  let BCa := Eba
  let Ege := Ege ^^^ De
  let BCe := rol Ege 44
  let Eki := Eki ^^^ Di
  let BCi := rol Eki 43
  let Emo := Emo ^^^ Do
  let BCo := rol Emo 21
  let Esu := Esu ^^^ Du
  let BCu := rol Esu 14
  let Aba := BCa ^^^ ((~~~BCe) &&& BCi)
  let Aba := Aba ^^^ rc
  let Abe := BCe ^^^ ((~~~BCi) &&& BCo)
  let Abi := BCi ^^^ ((~~~BCo) &&& BCu)
  let Abo := BCo ^^^ ((~~~BCu) &&& BCa)
  let Abu := BCu ^^^ ((~~~BCa) &&& BCe)
  let Ebo := Ebo ^^^ Do
  let BCa := rol Ebo 28
  let Egu := Egu ^^^ Du
  let BCe := rol Egu 20
  let Eka := Eka ^^^ Da
  let BCi := rol Eka 3
  let Eme := Eme ^^^ De
  let BCo := rol Eme 45
  let Esi := Esi ^^^ Di
  let BCu := rol Esi 61
  let Aga := BCa ^^^ ((~~~BCe) &&& BCi)
  let Age := BCe ^^^ ((~~~BCi) &&& BCo)
  let Agi := BCi ^^^ ((~~~BCo) &&& BCu)
  let Ago := BCo ^^^ ((~~~BCu) &&& BCa)
  let Agu := BCu ^^^ ((~~~BCa) &&& BCe)
  let Ebe := Ebe ^^^ De
  let BCa := rol Ebe 1
  let Egi := Egi ^^^ Di
  let BCe := rol Egi 6
  let Eko := Eko ^^^ Do
  let BCi := rol Eko 25
  let Emu := Emu ^^^ Du
  let BCo := rol Emu 8
  let Esa := Esa ^^^ Da
  let BCu := rol Esa 18
  let Aka := BCa ^^^ ((~~~BCe) &&& BCi)
  let Ake := BCe ^^^ ((~~~BCi) &&& BCo)
  let Aki := BCi ^^^ ((~~~BCo) &&& BCu)
  let Ako := BCo ^^^ ((~~~BCu) &&& BCa)
  let Aku := BCu ^^^ ((~~~BCa) &&& BCe)
  let Ebu := Ebu ^^^ Du
  let BCa := rol Ebu 27
  let Ega := Ega ^^^ Da
  let BCe := rol Ega 36
  let Eke := Eke ^^^ De
  let BCi := rol Eke 10
  let Emi := Emi ^^^ Di
  let BCo := rol Emi 15
  let Eso := Eso ^^^ Do
  let BCu := rol Eso 56
  let Ama := BCa ^^^ ((~~~BCe) &&& BCi)
  let Ame := BCe ^^^ ((~~~BCi) &&& BCo)
  let Ami := BCi ^^^ ((~~~BCo) &&& BCu)
  let Amo := BCo ^^^ ((~~~BCu) &&& BCa)
  let Amu := BCu ^^^ ((~~~BCa) &&& BCe)
  let Ebi := Ebi ^^^ Di
  let BCa := rol Ebi 62
  let Ego := Ego ^^^ Do
  let BCe := rol Ego 55
  let Eku := Eku ^^^ Du
  let BCi := rol Eku 39
  let Ema := Ema ^^^ Da
  let BCo := rol Ema 41
  let Ese := Ese ^^^ De
  let BCu := rol Ese 2
  let Asa := BCa ^^^ ((~~~BCe) &&& BCi)
  let Ase := BCe ^^^ ((~~~BCi) &&& BCo)
  let Asi := BCi ^^^ ((~~~BCo) &&& BCu)
  let Aso := BCo ^^^ ((~~~BCu) &&& BCa)
  let Asu := BCu ^^^ ((~~~BCa) &&& BCe)
  ⟨Aba, Abe, Abi, Abo, Abu, Aga, Age, Agi, Ago, Agu, Aka, Ake, Aki, Ako, Aku, Ama, Ame, Ami, Amo, Amu, Asa, Ase, Asi, Aso, Asu⟩

/-- `copyFromState`, lines 80-105. -/
def ofState (s : List UInt64) : Lanes where
  ba := s.getD 0 0
  be := s.getD 1 0
  bi := s.getD 2 0
  bo := s.getD 3 0
  bu := s.getD 4 0
  ga := s.getD 5 0
  ge := s.getD 6 0
  gi := s.getD 7 0
  go := s.getD 8 0
  gu := s.getD 9 0
  ka := s.getD 10 0
  ke := s.getD 11 0
  ki := s.getD 12 0
  ko := s.getD 13 0
  ku := s.getD 14 0
  ma := s.getD 15 0
  me := s.getD 16 0
  mi := s.getD 17 0
  mo := s.getD 18 0
  mu := s.getD 19 0
  sa := s.getD 20 0
  se := s.getD 21 0
  si := s.getD 22 0
  so := s.getD 23 0
  su := s.getD 24 0

/-- `copyToState`, lines 300-325. -/
def toState (s : Lanes) : List UInt64 :=
  [s.ba, s.be, s.bi, s.bo, s.bu, s.ga, s.ge, s.gi, s.go, s.gu, s.ka, s.ke, s.ki, s.ko, s.ku, s.ma, s.me, s.mi, s.mo, s.mu, s.sa, s.se, s.si, s.so, s.su]

/-- The loop of `KeccakF1600_StatePermute`; `n` iterations are left. -/
def rounds : Nat → Nat → Lanes → Lanes
  | 0, _, s => s
  | n + 1, round, s =>
    rounds n (round + 2) (roundE (roundA s (roundConstants.getD round 0)) (roundConstants.getD (round + 1) 0))

/-- `KeccakF1600_StatePermute`, lines 63-328. -/
def permute (s : List UInt64) : List UInt64 := toState (rounds 12 0 (ofState s))

/-- `s[i] ^= load64(m + 8 * i)` for `i < r / 8`, lines 347-348 and 361-362. -/
def xorBlock (s : List UInt64) (r : Nat) (m : Bytes) : List UInt64 :=
  (List.range 25).map fun i => if i < r / 8 then s.getD i 0 ^^^ load64 m (8 * i) else s.getD i 0

/-- The `while` loop of `keccak_absorb`, lines 345-353: the state and the rest of the message. The first argument bounds the number of
iterations; `mlen` is enough since `r > 0`. -/
def absorbLoop (r : Nat) : Nat → List UInt64 → Bytes → List UInt64 × Bytes
  | 0, s, m => (s, m)
  | n + 1, s, m => if r ≤ m.length then absorbLoop r n (permute (xorBlock s r m)) (m.drop r) else (s, m)

/-- The block `t` of `keccak_absorb`, lines 355-360. -/
def lastBlock (r : Nat) (m : Bytes) (p : UInt8) : Bytes :=
  let t := (m ++ [p] ++ List.replicate (r - m.length - 1) 0)
  t.set (r - 1) (t.getD (r - 1) 0 ||| 128)

/-- `keccak_absorb`, lines 334-363. -/
def absorb (r : Nat) (m : Bytes) (p : UInt8) : List UInt64 :=
  let (s, m) := absorbLoop r m.length (List.replicate 25 0) m
  xorBlock s r (lastBlock r m p)

/-- `keccak_squeezeblocks`, lines 366-381: the output and the state. -/
def squeezeBlocks (r : Nat) : Nat → List UInt64 → Bytes × List UInt64
  | 0, s => ([], s)
  | n + 1, s =>
    let s := permute s
    let (h, s') := squeezeBlocks r n s
    ((List.range (r / 8)).flatMap (fun i => store64 (s.getD i 0)) ++ h, s')

/-- `shake128_absorb`, lines 384-387; `SHAKE128_RATE` is 168, `fips202.h:4`. -/
def shake128Absorb (input : Bytes) : List UInt64 := absorb 168 input 0x1f

/-- `shake128_squeezeblocks`, lines 390-393. -/
def shake128SqueezeBlocks (nblocks : Nat) (s : List UInt64) : Bytes × List UInt64 := squeezeBlocks 168 nblocks s

/-- `sha3256`, lines 407-418; `SHA3_256_RATE` is 136, `fips202.h:5`. -/
def sha3256 (input : Bytes) : Bytes := (squeezeBlocks 136 1 (absorb 136 input 0x06)).1.take 32

end Noise.Keccak
