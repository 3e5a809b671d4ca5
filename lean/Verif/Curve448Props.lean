import Verif.Curve448Eval
import Verif.Curve448Mul
import Verif.Curve448Bytes
/-!
# Curve448: the code computes X448 of RFC 7748
-/

namespace Noise.Curve448

set_option exponentiation.threshold 500

open X448 (P F)
open Rfc7539 (leNat leBytes)

theorem setUi_ok (x : UInt64) (h : x.toNat ≤ 1) : (setUi x).Le M ∧ (setUi x).ev = (x.toNat : F) := by
  refine ⟨?_, ?_⟩
  · unfold M
    constructor <;> (simp [setUi]; try omega)
  · rw [Fe.ev_eq]
    simp [setUi]

/-- The field of `arch_ref64`. -/
def ref64_correct : ref64.Correct where
  Ok := fun a : Fe => a.Le M
  ev := Fe.ev
  setUi := setUi_ok
  mul := refMul_ok
  sqr := sqr_ok
  mulw h := mulw_ok (b := 39081) h (by decide)
  add := refAdd_ok
  sub := refSub_ok
  serialize := serialize_ok
  deserialize := deserialize_ok
  cswap0 := cswap0
  cswap1 := cswap1

/-- The field of `arch_x86_64`. -/
def x64_correct : x64.Correct where
  Ok := fun a : Fe => a.Le M
  ev := Fe.ev
  setUi := setUi_ok
  mul := x64Mul_ok
  sqr := sqr_ok
  mulw h := mulw_ok (b := 39081) h (by decide)
  add := x64Add_ok
  sub := x64Sub_ok
  serialize := serialize_ok
  deserialize := deserialize_ok
  cswap0 := cswap0
  cswap1 := cswap1

/-- **C62**: for every private key and every public key of 56 bytes, `curve448_eval` with the field of `arch_x86_64` has
defined behaviour (no assertion fails), computes the X448 function of RFC 7748, and returns 1 exactly if the public key is
a number below `2^448 - 2^224 - 1`. -/
theorem C62_x86_64_is_x448 (secret basepoint : Bytes) (hs : secret.length = 56) (hb : basepoint.length = 56) :
    x64.eval secret basepoint =
      .ok (X448.x448 secret basepoint, decide (leNat basepoint < 2 ^ 448 - 2 ^ 224 - 1)) :=
  P_eq ▸ x64_correct.eval_ok secret basepoint hs hb

/-- **C62**: the same with the field of `arch_ref64`. -/
theorem C62_ref64_is_x448 (secret basepoint : Bytes) (hs : secret.length = 56) (hb : basepoint.length = 56) :
    ref64.eval secret basepoint =
      .ok (X448.x448 secret basepoint, decide (leNat basepoint < 2 ^ 448 - 2 ^ 224 - 1)) :=
  P_eq ▸ ref64_correct.eval_ok secret basepoint hs hb

/-- The first test vector of RFC 7748, section 5.2, computed in the kernel by the model of the code. -/
example :
    x64.eval
      (leBytes 56 0xd30a601c4f9a25294bf568a3eb4349f4bf8fd7cdf8244c989c770a7021e1aad1d0045104efac8288d2349aa1fe665249888eecf9dd2f263d)
      (leBytes 56 0x86a0f84efba7a78aa1ad94db2954fa8325dac6198cc3bddd31c04d81f9080f027f4307bd4c3388ad8a3f26d5f26c5fdabf8734fa40e6fc06) =
    .ok (leBytes 56 0x6f6bd93df7826276211e11613922989d77b0016ac65f44ebadba4fe19f235f6d54d712240ab579dffb6a5ed8b11dda9766dc605af94f3ece, true) := by
  decide +kernel

end Noise.Curve448
