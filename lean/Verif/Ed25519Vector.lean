import Verif.Ed25519Verify
-- Only for the order of the build: each of these computations takes several gigabytes.
import Verif.HandshakeVector
/-!
# The second vector of RFC 8032, section 7.1, in the kernel

The model of the code gives the results of the RFC; with C65 and C66 so does the transcription of the RFC.
-/

namespace Noise.Ed25519

theorem vector_publickey : publickey rfcStack rfcSecret = .ok rfcPublic := by decide +kernel

theorem vector_sign : sign rfcStack [0x72] rfcSecret rfcPublic = .ok rfcSignature := by decide +kernel

theorem vector_signOpen : signOpen rfcStack [0x72] rfcPublic rfcSignature = .ok true := by decide +kernel

/-- Another message is not accepted. -/
theorem vector_other : signOpen rfcStack [0x73] rfcPublic rfcSignature = .ok false := by decide +kernel

example : Rfc8032.publicKey Rfc8032.sha512 rfcSecret = rfcPublic :=
  Out.ok.inj ((C65_publickey (stack := rfcStack) rfl rfcSecret rfl).symm.trans vector_publickey)

example : Rfc8032.sign Rfc8032.sha512 rfcSecret rfcPublic [0x72] = rfcSignature :=
  Out.ok.inj ((C66_sign (stack := rfcStack) rfl [0x72] rfcSecret rfcPublic rfl rfl (by decide)).symm.trans vector_sign)

/-- A second signature for the message of the vector, that the RFC does not accept (C68). -/
example := C68_fails_malleable (stack := rfcStack) rfl (m := [0x72]) (pk := rfcPublic) (sig := rfcSignature) rfl rfl
  (by decide) (by decide +kernel) vector_signOpen

/-- The hypotheses of C67 and C68 about the key are met. -/
example : Rfc8032.Verifies Rfc8032.sha512 rfcPublic [0x72] rfcSignature :=
  C68_rfc_partial (stack := rfcStack) rfl rfl rfl (by decide)
    (A := Rfc8032.smul (Rfc8032.scalar Rfc8032.sha512 rfcSecret) Rfc8032.B)
    (by rw [← Out.ok.inj ((C65_publickey (stack := rfcStack) rfl rfcSecret rfl).symm.trans vector_publickey)]
        exact publicKey_decode _ _)
    (publicKey_order _) (by decide +kernel) vector_signOpen

end Noise.Ed25519
