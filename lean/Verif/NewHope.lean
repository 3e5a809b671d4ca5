import Verif.ChaCha
import Verif.NewHopeTables
/-!
# Model of `src/crypto/newhope` except for `fips202.c` and `batcher.c`

Polynomials are lists of 1024 words of 16 bits. The machine is little-endian (`poly_getnoise` reads the key stream
as words). Products of `int` are written as 32-bit unsigned products; the factors are below 2^16 and 2^15, so that
there is no overflow. The functions of `fips202.c` and the selection of the coefficients of `a` are in other files and
parameters here (`Hashes`).
-/

namespace Noise.NewHope

/-- `poly`, `poly.h:12-14`: 1024 coefficients. -/
abbrev Poly := List UInt16

/-- `PARAM_N`, `params.h:4`. -/
def N : Nat := 1024

/-- `p->coeffs[i]`. -/
def Poly.at (p : Poly) (i : Nat) : UInt16 := p.getD i 0

/-- Entry `i` of a table. -/
def entry (t : List Nat) (i : Nat) : UInt16 := UInt16.ofNat (t.getD i 0)

/-! ## `reduce.c` -/

/-- `montgomery_reduce`, `reduce.c:12-21`. -/
def montgomeryReduce (a : UInt32) : UInt16 :=
  let u := a * 12287
  let u := u &&& 0x3FFFF
  let u := u * 12289
  let a := a + u
  (a >>> 18).toUInt16

/-- `barrett_reduce`, `reduce.c:24-32`. -/
def barrettReduce (a : UInt16) : UInt16 :=
  let u := (a.toUInt32 * 5) >>> 16
  let u := u * 12289
  (a.toUInt32 - u).toUInt16

/-! ## `ntt.c` -/

/-- One iteration of `bitrev_vector`, `ntt.c:46-55`. -/
def bitrevStep (p : Poly) (i : Nat) : Poly :=
  let r := bitrev.getD i 0
  if i < r then (p.set i (p.at r)).set r (p.at i) else p

/-- `bitrev_vector`, `ntt.c:41-56`. -/
def bitrevVector (p : Poly) : Poly := (List.range N).foldl bitrevStep p

/-- `mul_coefficients`, `ntt.c:58-64`. -/
def mulCoefficients (p : Poly) (factors : List Nat) : Poly :=
  (List.range N).map fun i => montgomeryReduce ((p.at i).toUInt32 * (entry factors i).toUInt32)

/-- One butterfly, `ntt.c:84-87` with `red` the identity and `ntt.c:98-101` with `red` the Barrett reduction. -/
def butterfly (red : UInt16 → UInt16) (omega : List Nat) (d : Nat) (a : Poly) (j k : Nat) : Poly :=
  let w := entry omega k
  let temp := a.at j
  let b := a.at (j + d)
  (a.set j (red (temp + b))).set (j + d) (montgomeryReduce (w.toUInt32 * (temp.toUInt32 + 36867 - b.toUInt32)))

/-- The two inner loops for a distance `d`, `ntt.c:79-89` and `ntt.c:93-103`: `j` runs from `start` in steps of `2d`
and `jTwiddle` counts the steps; there are `512 / d` of them. -/
def level (red : UInt16 → UInt16) (omega : List Nat) (d : Nat) (a : Poly) : Poly :=
  (List.range d).foldl (fun a start =>
    (List.range (512 / d)).foldl (fun a k => butterfly red omega d a (start + 2 * d * k) k) a) a

/-- An iteration of the outer loop of `ntt`, `ntt.c:76-104`: an even level and an odd level. -/
def nttStep (omega : List Nat) (a : Poly) (i : Nat) : Poly :=
  level barrettReduce omega (2 ^ (i + 1)) (level id omega (2 ^ i) a)

/-- `ntt`, `ntt.c:69-105`. -/
def ntt (a : Poly) (omega : List Nat) : Poly := [0, 2, 4, 6, 8].foldl (nttStep omega) a

/-! ## `poly.c` -/

/-- Coefficient `4 i + j` of `poly_frombytes`, `poly.c:14-17`. -/
def fromBytesAt (a : Bytes) (i : Nat) : Nat → UInt16
  | 0 => (a.getD (7 * i) 0).toUInt16 ||| ((a.getD (7 * i + 1) 0).toUInt16 &&& 0x3f) <<< 8
  | 1 => ((a.getD (7 * i + 1) 0) >>> 6).toUInt16 ||| (a.getD (7 * i + 2) 0).toUInt16 <<< 2 |||
      ((a.getD (7 * i + 3) 0).toUInt16 &&& 0x0f) <<< 10
  | 2 => ((a.getD (7 * i + 3) 0) >>> 4).toUInt16 ||| (a.getD (7 * i + 4) 0).toUInt16 <<< 4 |||
      ((a.getD (7 * i + 5) 0).toUInt16 &&& 0x03) <<< 12
  | _ => ((a.getD (7 * i + 5) 0) >>> 2).toUInt16 ||| (a.getD (7 * i + 6) 0).toUInt16 <<< 6

/-- `poly_frombytes`, `poly.c:9-19`. -/
def polyFromBytes (a : Bytes) : Poly := (List.range N).map fun i => fromBytesAt a (i / 4) (i % 4)

/-- Reduction of a coefficient in `poly_tobytes`, `poly.c:28` and `33-36`; the arithmetic shift of the negative
`int16_t` makes a mask. -/
def toBytesCoeff (x : UInt16) : UInt16 :=
  let t := barrettReduce x
  let m := t - 12289
  let c : UInt16 := if m ≥ 0x8000 then 0xFFFF else 0
  m ^^^ ((t ^^^ m) &&& c)

/-- The seven bytes of four coefficients in `poly_tobytes`, `poly.c:53-59`. -/
def toBytesGroup (t0 t1 t2 t3 : UInt16) : Bytes :=
  [(t0 &&& 0xff).toUInt8, (t0 >>> 8 ||| t1 <<< 6).toUInt8, (t1 >>> 2).toUInt8, (t1 >>> 10 ||| t2 <<< 4).toUInt8,
    (t2 >>> 4).toUInt8, (t2 >>> 12 ||| t3 <<< 2).toUInt8, (t3 >>> 6).toUInt8]

/-- `poly_tobytes`, `poly.c:21-61`. -/
def polyToBytes (p : Poly) : Bytes :=
  (List.range 256).flatMap fun i => toBytesGroup (toBytesCoeff (p.at (4 * i))) (toBytesCoeff (p.at (4 * i + 1)))
    (toBytesCoeff (p.at (4 * i + 2))) (toBytesCoeff (p.at (4 * i + 3)))

/-- One coefficient of `poly_getnoise`, `poly.c:121-127`, from a word of the key stream. -/
def noiseCoeff (t : UInt32) : UInt16 :=
  let d := (List.range 8).foldl (fun d j => d + ((t >>> UInt32.ofNat j) &&& 0x01010101)) (0 : UInt32)
  let a := ((d >>> 8) &&& 0xff) + (d &&& 0xff)
  let b := (d >>> 24) + ((d >>> 16) &&& 0xff)
  (a + 12289 - b).toUInt16

/-- `poly_pointwise`, `poly.c:131-140`. -/
def polyPointwise (a b : Poly) : Poly :=
  (List.range N).map fun i =>
    let t := montgomeryReduce (3186 * (b.at i).toUInt32)
    montgomeryReduce ((a.at i).toUInt32 * t.toUInt32)

/-- `poly_add`, `poly.c:142-147`. -/
def polyAdd (a b : Poly) : Poly := (List.range N).map fun i => barrettReduce (a.at i + b.at i)

/-- `poly_ntt`, `poly.c:149-153`. -/
def polyNtt (r : Poly) : Poly := ntt (mulCoefficients r psisBitrev) omegas

/-- `poly_invntt`, `poly.c:155-160`. -/
def polyInvntt (r : Poly) : Poly := mulCoefficients (ntt (bitrevVector r) omegasInv) psisInv

/-! ## `error_correction.c`

The values of type `int32_t` are integers here: all of them are far below 2^31 (`x * 2730` is at most 1.5 * 10^9).
Arithmetic right shifts are divisions rounded down, `& 1` and `& 3` are remainders. -/

/-- `f`, `error_correction.c:12-32`: `*v0`, `*v1` and the returned value. -/
def f (x : Int) : Int × Int × Int :=
  let b := x * 2730
  let t := b / 2 ^ 25
  let b := x - t * 12289
  let b := 12288 - b
  let b := b / 2 ^ 31
  let t := t - b
  let r := t % 2
  let xit := t / 2
  let v0 := xit + r
  let t := t - 1
  let r := t % 2
  let v1 := t / 2 + r
  (v0, v1, (x - v0 * 2 * 12289).natAbs)

/-- `g`, `error_correction.c:35-53`. -/
def g (x : Int) : Int :=
  let b := x * 2730
  let t := b / 2 ^ 27
  let b := x - t * 49156
  let b := 49155 - b
  let b := b / 2 ^ 31
  let t := t - b
  let c := t % 2
  let t := t / 2 + c
  let t := t * (8 * 12289)
  (t - x).natAbs

/-- `LDDecode`, `error_correction.c:56-68`. -/
def ldDecode (x0 x1 x2 x3 : Int) : Int :=
  let t := g x0 + g x1 + g x2 + g x3
  let t := t - 8 * 12289
  let t := t / 2 ^ 31
  t % 2

/-- An iteration of `helprec`, `error_correction.c:85-105`, for the four coefficients `v` and the random bit. The masks
`k` and `~k` (`k` is 0 or -1) are written as a choice. -/
def helprecStep (v : Fin 4 → Int) (rbit : Int) : Fin 4 → Int :=
  let r := fun j => f (8 * v j + 4 * rbit)
  let k := (r 0).2.2 + (r 1).2.2 + (r 2).2.2 + (r 3).2.2
  let k := (2 * 12289 - 1 - k) / 2 ^ 31
  let vt := fun j => if k = 0 then (r j).1 else (r j).2.1
  fun j => if j = 3 then (-k + 2 * vt 3) % 4 else (vt j - vt 3) % 4

/-- `v->coeffs[i]`, `[256+i]`, `[512+i]`, `[768+i]`. -/
def quad (v : Poly) (i : Nat) : Fin 4 → Int := fun j => ((v.at (256 * j.val + i)).toNat : Int)

/-- `helprec`, `error_correction.c:71-106`, with the 32 bytes of the key stream. -/
def helprec (rand : Bytes) (v : Poly) : Poly :=
  (List.range N).map fun n =>
    let i := n % 256
    let rbit := ((rand.getD (i / 8) 0 >>> UInt8.ofNat (i % 8)) &&& 1).toNat
    UInt16.ofNat (helprecStep (quad v i) rbit (Fin.ofNat 4 (n / 256))).toNat

/-- An iteration of `rec`, `error_correction.c:119-124`: the bit. -/
def recBit (v c : Fin 4 → Int) : Int :=
  ldDecode (16 * 12289 + 8 * v 0 - 12289 * (2 * c 0 + c 3)) (16 * 12289 + 8 * v 1 - 12289 * (2 * c 1 + c 3))
    (16 * 12289 + 8 * v 2 - 12289 * (2 * c 2 + c 3)) (16 * 12289 + 8 * v 3 - 12289 * c 3)

/-- `rec`, `error_correction.c:109-126`: byte `m` collects the bits `8 m` to `8 m + 7`. -/
def reconcile (v c : Poly) : Bytes :=
  (List.range 32).map fun m => (List.range 8).foldl (fun (key : UInt8) j =>
    key ||| UInt8.ofNat (recBit (quad v (8 * m + j)) (quad c (8 * m + j))).toNat <<< UInt8.ofNat j) 0

/-! ## `crypto_stream_chacha20.c`

The double round is the same sequence of operations as in `crypto/chacha/chacha.c`. -/

/-- `crypto_core_chacha20`, `crypto_stream_chacha20.c:40-114`. -/
def chachaCore (input key : Bytes) : Bytes :=
  let j : ChaCha.Words :=
    { x0 := fromLittle ChaCha.tag256 0, x1 := fromLittle ChaCha.tag256 4, x2 := fromLittle ChaCha.tag256 8
      x3 := fromLittle ChaCha.tag256 12
      x4 := fromLittle key 0, x5 := fromLittle key 4, x6 := fromLittle key 8, x7 := fromLittle key 12
      x8 := fromLittle key 16, x9 := fromLittle key 20, x10 := fromLittle key 24, x11 := fromLittle key 28
      x12 := fromLittle input 8, x13 := fromLittle input 12, x14 := fromLittle input 0, x15 := fromLittle input 4 }
  let x := ChaCha.addWords (ChaCha.rounds 20 j) j
  toLittle x.x0 ++ toLittle x.x1 ++ toLittle x.x2 ++ toLittle x.x3 ++ toLittle x.x4 ++ toLittle x.x5 ++ toLittle x.x6 ++
    toLittle x.x7 ++ toLittle x.x8 ++ toLittle x.x9 ++ toLittle x.x10 ++ toLittle x.x11 ++ toLittle x.x12 ++
    toLittle x.x13 ++ toLittle x.x14 ++ toLittle x.x15

/-- The counter loop, `crypto_stream_chacha20.c:136-141`: on `in[8..15]` with the carry `u`. -/
def carry : Bytes → UInt32 → Bytes
  | [], _ => []
  | b :: bs, u => let u := u + b.toUInt32; u.toUInt8 :: carry bs (u >>> 8)

/-- `crypto_stream_chacha20`, `crypto_stream_chacha20.c:118-151`: the loop from a given `in[8..15]`. -/
def chachaLoop (nonce key : Bytes) : (fuel clen : Nat) → (counter : Bytes) → Bytes
  | 0, _, _ => []
  | fuel + 1, clen, counter =>
    let block := chachaCore (nonce ++ counter) key
    if clen ≥ 64 then block ++ chachaLoop nonce key fuel (clen - 64) (carry counter 1) else block.take clen

/-- `crypto_stream_chacha20`, `crypto_stream_chacha20.c:118-151`. -/
def chachaStream (clen : Nat) (nonce key : Bytes) : Bytes :=
  chachaLoop nonce key (clen / 64 + 1) clen (List.replicate 8 0)

/-- `poly_getnoise`, `poly.c:102-129`. -/
def polyGetnoise (seed : Bytes) (nonce : UInt8) : Poly :=
  let buf := chachaStream (4 * N) (nonce :: List.replicate 7 0) seed
  (List.range N).map fun i => noiseCoeff (fromLittle buf (4 * i))

/-! ## `newhope.c` -/

/-- The functions of `fips202.c` that are used: `sha3256` (`fips202.c:407-417`), and `poly_uniform`
(`poly.c:87-100`). -/
structure Hashes where
  sha3 : Bytes → Bytes
  uniform : (seed : Bytes) → Poly

/-- `encode_a`, `newhope.c:7-13`. -/
def encodeA (pk : Poly) (seed : Bytes) : Bytes := polyToBytes pk ++ seed

/-- `decode_a`, `newhope.c:15-21`. -/
def decodeA (r : Bytes) : Poly × Bytes := (polyFromBytes r, (r.drop 1792).take 32)

/-- `encode_b`, `newhope.c:23-29`. -/
def encodeB (b c : Poly) : Bytes :=
  polyToBytes b ++ (List.range 256).map fun i =>
    (c.at (4 * i) ||| c.at (4 * i + 1) <<< 2 ||| c.at (4 * i + 2) <<< 4 ||| c.at (4 * i + 3) <<< 6).toUInt8

/-- Coefficient `4 i + j` of `c` in `decode_b`, `newhope.c:37-40`. -/
def decodeBAt (x : UInt8) : Nat → UInt16
  | 0 => (x &&& 0x03).toUInt16
  | 1 => ((x >>> 2) &&& 0x03).toUInt16
  | 2 => ((x >>> 4) &&& 0x03).toUInt16
  | _ => (x >>> 6).toUInt16

/-- `decode_b`, `newhope.c:31-42`. -/
def decodeB (r : Bytes) : Poly × Poly :=
  (polyFromBytes r, (List.range N).map fun i => decodeBAt (r.getD (1792 + i / 4) 0) (i % 4))

variable (H : Hashes)

/-- `newhope_keygen`, `newhope.c:52-73`: `send` and `sk`. -/
def keygen (random : Bytes) : Bytes × Poly :=
  let seed := H.sha3 (random.take 32)
  let noiseseed := (random.drop 32).take 32
  let a := H.uniform seed
  let sk := polyNtt (polyGetnoise noiseseed 0)
  let e := polyNtt (polyGetnoise noiseseed 1)
  let r := polyPointwise sk a
  let pk := polyAdd e r
  (encodeA pk seed, sk)

/-- `newhope_sharedb`, `newhope.c:76-110`: `sharedkey` and `send`. -/
def sharedb (received random : Bytes) : Bytes × Bytes :=
  let noiseseed := random.take 32
  let (pka, seed) := decodeA received
  let a := H.uniform seed
  let sp := polyNtt (polyGetnoise noiseseed 0)
  let ep := polyNtt (polyGetnoise noiseseed 1)
  let bp := polyPointwise a sp
  let bp := polyAdd bp ep
  let v := polyPointwise pka sp
  let v := polyInvntt v
  let epp := polyGetnoise noiseseed 2
  let v := polyAdd v epp
  let c := helprec (chachaStream 32 (List.replicate 7 0 ++ [3]) noiseseed) v
  (H.sha3 (reconcile v c), encodeB bp c)

/-- `newhope_shareda`, `newhope.c:113-127`. -/
def shareda (sk : Poly) (received : Bytes) : Bytes :=
  let (bp, c) := decodeB received
  let v := polyPointwise sk bp
  let v := polyInvntt v
  H.sha3 (reconcile v c)

end Noise.NewHope
