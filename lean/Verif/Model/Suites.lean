import Verif.Model.Nist
import Verif.Model.Ristretto
import Verif.Spec.Sha2
import Verif.Curve.P256
import Verif.Curve.P384
import Verif.Curve.P521

/-!
# The ciphersuites of RFC 9497 that the crate supports

`src/ciphersuite.rs:37-50` makes every `VoprfParameters` type a `CipherSuite`; the identifiers and the hash
functions of `NistP256`, `NistP384` and `NistP521` are constants of the crates `p256`, `p384` and `p521`.
`src/group/ristretto.rs:29-35` does the same for `Ristretto255`, here over any implementation of the point
library.
-/

namespace Voprf

/-- The UTF-8 bytes of an ASCII identifier. `src/ciphersuite.rs:26`, `src/common.rs:534`. -/
def ascii (s : String) : Bytes := s.toList.map fun c => UInt8.ofNat c.toNat

/-- `NistP256`: "P256-SHA256" (an instance of `src/ciphersuite.rs:37-49`) -/
noncomputable def P256Sha256 : CipherSuite where
  ID := [80, 50, 53, 54, 45, 83, 72, 65, 50, 53, 54]
  group := Nist.group Curve.p256
  hash := Sha2.Sha256

/-- `NistP384`: "P384-SHA384" (an instance of `src/ciphersuite.rs:37-49`) -/
noncomputable def P384Sha384 : CipherSuite where
  ID := [80, 51, 56, 52, 45, 83, 72, 65, 51, 56, 52]
  group := Nist.group Curve.p384
  hash := Sha2.Sha384

/-- `NistP521`: "P521-SHA512" (an instance of `src/ciphersuite.rs:37-49`) -/
noncomputable def P521Sha512 : CipherSuite where
  ID := [80, 53, 50, 49, 45, 83, 72, 65, 53, 49, 50]
  group := Nist.group Curve.p521
  hash := Sha2.Sha512

/-- `src/group/ristretto.rs:29-35` (`Ristretto255`): "ristretto255-SHA512" -/
noncomputable def Ristretto255Sha512 (D : Ristretto.Dalek) : CipherSuite where
  ID := [114, 105, 115, 116, 114, 101, 116, 116, 111, 50, 53, 53, 45, 83, 72, 65, 53, 49, 50]
  group := Ristretto.group D
  hash := Sha2.Sha512

example : P256Sha256.ID = ascii "P256-SHA256" := by decide
example : P384Sha384.ID = ascii "P384-SHA384" := by decide
example : P521Sha512.ID = ascii "P521-SHA512" := by decide
example (D : Ristretto.Dalek) : (Ristretto255Sha512 D).ID = ascii "ristretto255-SHA512" := by
  show [114, 105, 115, 116, 114, 101, 116, 116, 111, 50, 53, 53, 45, 83, 72, 65, 53, 49, 50] = _
  decide

end Voprf
