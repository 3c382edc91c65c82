import Verif.Exec.Nist
import Verif.Exec.Vector
import Verif.Model.Suites
import Verif.Exec.Vectors.Ristretto

/-!
# RFC 9497 test vectors: P256-SHA256

Generated by `tools/vectors.py` from `src/tests/cfrg_vectors.rs`.  Tests of the model, evaluated by the kernel.
-/

-- One kernel computation at a time, to bound memory.
set_option Elab.async false

namespace Voprf.Exec.P256

/-- The suite with fast group operations. -/
noncomputable def fastSuite : CipherSuite where
  ID := P256Sha256.ID
  group := Nist.fast Curve.p256
  hash := P256Sha256.hash

theorem suite_eq : P256Sha256 = fastSuite := by
  unfold fastSuite
  rw [Nist.fast_eq]
  rfl

def oprf1 : Vector where
  seed := toBeBytes 32 0xa3a3a3a3a3a3a3a3a3a3a3a3a3a3a3a3a3a3a3a3a3a3a3a3a3a3a3a3a3a3a3a3
  sksm := toBeBytes 32 0x159749d750713afe245d2d39ccfaae8381c53ce92d098a9375ee70739c7ac0bf
  pksm := []
  input := [toBeBytes 1 0x00]
  info := []
  keyInfo := toBeBytes 8 0x74657374206b6579
  blind := [toBeBytes 32 0x3338fa65ec36e0290022b48eb562889d89dbfa691d1cde91517fa222ed7ad364]
  blindedElement := [toBeBytes 33 0x03723a1e5c09b8b9c18d1dcbca29e8007e95f14f4732d9346d490ffc195110368d]
  evaluationElement := [toBeBytes 33 0x030de02ffec47a1fd53efcdd1c6faf5bdc270912b8749e783c7ca75bb412958832]
  proof := []
  proofRandomScalar := []
  output := [toBeBytes 32 0xa0b34de5fa4c5b6da07e72af73cc507cceeb48981b97b7285fc375345fe495dd]


set_option maxHeartbeats 4000000 in
-- The kernel computation alone may exceed the default.
theorem oprf1_Key : oprfKey fastSuite oprf1 = true := by decide +kernel

set_option maxHeartbeats 4000000 in
-- The kernel computation alone may exceed the default.
theorem oprf1_Blind : oprfBlind fastSuite oprf1 = true := by decide +kernel

set_option maxHeartbeats 4000000 in
-- The kernel computation alone may exceed the default.
theorem oprf1_BlindEvaluate : oprfBlindEvaluate fastSuite oprf1 = true := by decide +kernel

set_option maxHeartbeats 4000000 in
-- The kernel computation alone may exceed the default.
theorem oprf1_Finalize : oprfFinalize fastSuite oprf1 = true := by decide +kernel

set_option maxHeartbeats 4000000 in
-- The kernel computation alone may exceed the default.
theorem oprf1_Evaluate : oprfEvaluate fastSuite oprf1 = true := by decide +kernel

theorem oprf1_passes : complete oprf1 = true ∧ oprf P256Sha256 oprf1 = true := by
  rw [suite_eq]
  refine ⟨by decide +kernel, ?_⟩
  unfold oprf
  rw [oprf1_Key, oprf1_Blind, oprf1_BlindEvaluate, oprf1_Finalize, oprf1_Evaluate]
  rfl

def oprf2 : Vector where
  seed := toBeBytes 32 0xa3a3a3a3a3a3a3a3a3a3a3a3a3a3a3a3a3a3a3a3a3a3a3a3a3a3a3a3a3a3a3a3
  sksm := toBeBytes 32 0x159749d750713afe245d2d39ccfaae8381c53ce92d098a9375ee70739c7ac0bf
  pksm := []
  input := [toBeBytes 17 0x5a5a5a5a5a5a5a5a5a5a5a5a5a5a5a5a5a]
  info := []
  keyInfo := toBeBytes 8 0x74657374206b6579
  blind := [toBeBytes 32 0x3338fa65ec36e0290022b48eb562889d89dbfa691d1cde91517fa222ed7ad364]
  blindedElement := [toBeBytes 33 0x03cc1df781f1c2240a64d1c297b3f3d16262ef5d4cf102734882675c26231b0838]
  evaluationElement := [toBeBytes 33 0x03a0395fe3828f2476ffcd1f4fe540e5a8489322d398be3c4e5a869db7fcb7c52c]
  proof := []
  proofRandomScalar := []
  output := [toBeBytes 32 0xc748ca6dd327f0ce85f4ae3a8cd6d4d5390bbb804c9e12dcf94f853fece3dcce]


set_option maxHeartbeats 4000000 in
-- The kernel computation alone may exceed the default.
theorem oprf2_Key : oprfKey fastSuite oprf2 = true := by decide +kernel

set_option maxHeartbeats 4000000 in
-- The kernel computation alone may exceed the default.
theorem oprf2_Blind : oprfBlind fastSuite oprf2 = true := by decide +kernel

set_option maxHeartbeats 4000000 in
-- The kernel computation alone may exceed the default.
theorem oprf2_BlindEvaluate : oprfBlindEvaluate fastSuite oprf2 = true := by decide +kernel

set_option maxHeartbeats 4000000 in
-- The kernel computation alone may exceed the default.
theorem oprf2_Finalize : oprfFinalize fastSuite oprf2 = true := by decide +kernel

set_option maxHeartbeats 4000000 in
-- The kernel computation alone may exceed the default.
theorem oprf2_Evaluate : oprfEvaluate fastSuite oprf2 = true := by decide +kernel

theorem oprf2_passes : complete oprf2 = true ∧ oprf P256Sha256 oprf2 = true := by
  rw [suite_eq]
  refine ⟨by decide +kernel, ?_⟩
  unfold oprf
  rw [oprf2_Key, oprf2_Blind, oprf2_BlindEvaluate, oprf2_Finalize, oprf2_Evaluate]
  rfl

def voprf1 : Vector where
  seed := toBeBytes 32 0xa3a3a3a3a3a3a3a3a3a3a3a3a3a3a3a3a3a3a3a3a3a3a3a3a3a3a3a3a3a3a3a3
  sksm := toBeBytes 32 0xca5d94c8807817669a51b196c34c1b7f8442fde4334a7121ae4736364312fca6
  pksm := toBeBytes 33 0x03e17e70604bcabe198882c0a1f27a92441e774224ed9c702e51dd17038b102462
  input := [toBeBytes 1 0x00]
  info := []
  keyInfo := toBeBytes 8 0x74657374206b6579
  blind := [toBeBytes 32 0x3338fa65ec36e0290022b48eb562889d89dbfa691d1cde91517fa222ed7ad364]
  blindedElement := [toBeBytes 33 0x02dd05901038bb31a6fae01828fd8d0e49e35a486b5c5d4b4994013648c01277da]
  evaluationElement := [toBeBytes 33 0x0209f33cab60cf8fe69239b0afbcfcd261af4c1c5632624f2e9ba29b90ae83e4a2]
  proof := toBeBytes 64 0xe7c2b3c5c954c035949f1f74e6bce2ed539a3be267d1481e9ddb178533df4c2664f69d065c604a4fd953e100b856ad83804eb3845189babfa5a702090d6fc5fa
  proofRandomScalar := toBeBytes 32 0xf9db001266677f62c095021db018cd8cbb55941d4073698ce45c405d1348b7b1
  output := [toBeBytes 32 0x0412e8f78b02c415ab3a288e228978376f99927767ff37c5718d420010a645a1]


set_option maxHeartbeats 4000000 in
-- The kernel computation alone may exceed the default.
theorem voprf1_Key : voprfKey fastSuite voprf1 = true := by decide +kernel

set_option maxHeartbeats 4000000 in
-- The kernel computation alone may exceed the default.
theorem voprf1_Blind : voprfBlind fastSuite voprf1 = true := by decide +kernel

set_option maxHeartbeats 4000000 in
-- The kernel computation alone may exceed the default.
theorem voprf1_BlindEvaluate : voprfBlindEvaluate fastSuite voprf1 = true := by decide +kernel

set_option maxHeartbeats 4000000 in
-- The kernel computation alone may exceed the default.
theorem voprf1_Finalize : voprfFinalize fastSuite voprf1 = true := by decide +kernel

set_option maxHeartbeats 4000000 in
-- The kernel computation alone may exceed the default.
theorem voprf1_Evaluate : voprfEvaluate fastSuite voprf1 = true := by decide +kernel

theorem voprf1_passes : complete voprf1 = true ∧ voprf P256Sha256 voprf1 = true := by
  rw [suite_eq]
  refine ⟨by decide +kernel, ?_⟩
  unfold voprf
  rw [voprf1_Key, voprf1_Blind, voprf1_BlindEvaluate, voprf1_Finalize, voprf1_Evaluate]
  rfl

def voprf2 : Vector where
  seed := toBeBytes 32 0xa3a3a3a3a3a3a3a3a3a3a3a3a3a3a3a3a3a3a3a3a3a3a3a3a3a3a3a3a3a3a3a3
  sksm := toBeBytes 32 0xca5d94c8807817669a51b196c34c1b7f8442fde4334a7121ae4736364312fca6
  pksm := toBeBytes 33 0x03e17e70604bcabe198882c0a1f27a92441e774224ed9c702e51dd17038b102462
  input := [toBeBytes 17 0x5a5a5a5a5a5a5a5a5a5a5a5a5a5a5a5a5a]
  info := []
  keyInfo := toBeBytes 8 0x74657374206b6579
  blind := [toBeBytes 32 0x3338fa65ec36e0290022b48eb562889d89dbfa691d1cde91517fa222ed7ad364]
  blindedElement := [toBeBytes 33 0x03cd0f033e791c4d79dfa9c6ed750f2ac009ec46cd4195ca6fd3800d1e9b887dbd]
  evaluationElement := [toBeBytes 33 0x030d2985865c693bf7af47ba4d3a3813176576383d19aff003ef7b0784a0d83cf1]
  proof := toBeBytes 64 0x2787d729c57e3d9512d3aa9e8708ad226bc48e0f1750b0767aaff73482c44b8d2873d74ec88aebd3504961acea16790a05c542d9fbff4fe269a77510db00abab
  proofRandomScalar := toBeBytes 32 0xf9db001266677f62c095021db018cd8cbb55941d4073698ce45c405d1348b7b1
  output := [toBeBytes 32 0x771e10dcd6bcd3664e23b8f2a710cfaaa8357747c4a8cbba03133967b5c24f18]


set_option maxHeartbeats 4000000 in
-- The kernel computation alone may exceed the default.
theorem voprf2_Key : voprfKey fastSuite voprf2 = true := by decide +kernel

set_option maxHeartbeats 4000000 in
-- The kernel computation alone may exceed the default.
theorem voprf2_Blind : voprfBlind fastSuite voprf2 = true := by decide +kernel

set_option maxHeartbeats 4000000 in
-- The kernel computation alone may exceed the default.
theorem voprf2_BlindEvaluate : voprfBlindEvaluate fastSuite voprf2 = true := by decide +kernel

set_option maxHeartbeats 4000000 in
-- The kernel computation alone may exceed the default.
theorem voprf2_Finalize : voprfFinalize fastSuite voprf2 = true := by decide +kernel

set_option maxHeartbeats 4000000 in
-- The kernel computation alone may exceed the default.
theorem voprf2_Evaluate : voprfEvaluate fastSuite voprf2 = true := by decide +kernel

theorem voprf2_passes : complete voprf2 = true ∧ voprf P256Sha256 voprf2 = true := by
  rw [suite_eq]
  refine ⟨by decide +kernel, ?_⟩
  unfold voprf
  rw [voprf2_Key, voprf2_Blind, voprf2_BlindEvaluate, voprf2_Finalize, voprf2_Evaluate]
  rfl

def voprf3 : Vector where
  seed := toBeBytes 32 0xa3a3a3a3a3a3a3a3a3a3a3a3a3a3a3a3a3a3a3a3a3a3a3a3a3a3a3a3a3a3a3a3
  sksm := toBeBytes 32 0xca5d94c8807817669a51b196c34c1b7f8442fde4334a7121ae4736364312fca6
  pksm := toBeBytes 33 0x03e17e70604bcabe198882c0a1f27a92441e774224ed9c702e51dd17038b102462
  input := [toBeBytes 1 0x00, toBeBytes 17 0x5a5a5a5a5a5a5a5a5a5a5a5a5a5a5a5a5a]
  info := []
  keyInfo := toBeBytes 8 0x74657374206b6579
  blind := [toBeBytes 32 0x3338fa65ec36e0290022b48eb562889d89dbfa691d1cde91517fa222ed7ad364, toBeBytes 32 0xf9db001266677f62c095021db018cd8cbb55941d4073698ce45c405d1348b7b1]
  blindedElement := [toBeBytes 33 0x02dd05901038bb31a6fae01828fd8d0e49e35a486b5c5d4b4994013648c01277da, toBeBytes 33 0x03462e9ae64cae5b83ba98a6b360d942266389ac369b923eb3d557213b1922f8ab]
  evaluationElement := [toBeBytes 33 0x0209f33cab60cf8fe69239b0afbcfcd261af4c1c5632624f2e9ba29b90ae83e4a2, toBeBytes 33 0x02bb24f4d838414aef052a8f044a6771230ca69c0a5677540fff738dd31bb69771]
  proof := toBeBytes 64 0xbdcc351707d02a72ce49511c7db990566d29d6153ad6f8982fad2b435d6ce4d60da1e6b3fa740811bde34dd4fe0aa1b5fe6600d0440c9ddee95ea7fad7a60cf2
  proofRandomScalar := toBeBytes 32 0x350e8040f828bf6ceca27405420cdf3d63cb3aef005f40ba51943c8026877963
  output := [toBeBytes 32 0x0412e8f78b02c415ab3a288e228978376f99927767ff37c5718d420010a645a1, toBeBytes 32 0x771e10dcd6bcd3664e23b8f2a710cfaaa8357747c4a8cbba03133967b5c24f18]


set_option maxHeartbeats 4000000 in
-- The kernel computation alone may exceed the default.
theorem voprf3_Key : voprfKey fastSuite voprf3 = true := by decide +kernel

set_option maxHeartbeats 4000000 in
-- The kernel computation alone may exceed the default.
theorem voprf3_Blind : voprfBlind fastSuite voprf3 = true := by decide +kernel

set_option maxHeartbeats 4000000 in
-- The kernel computation alone may exceed the default.
theorem voprf3_BlindEvaluate : voprfBlindEvaluate fastSuite voprf3 = true := by decide +kernel

set_option maxHeartbeats 4000000 in
-- The kernel computation alone may exceed the default.
theorem voprf3_Finalize : voprfFinalize fastSuite voprf3 = true := by decide +kernel

set_option maxHeartbeats 4000000 in
-- The kernel computation alone may exceed the default.
theorem voprf3_Evaluate : voprfEvaluate fastSuite voprf3 = true := by decide +kernel

theorem voprf3_passes : complete voprf3 = true ∧ voprf P256Sha256 voprf3 = true := by
  rw [suite_eq]
  refine ⟨by decide +kernel, ?_⟩
  unfold voprf
  rw [voprf3_Key, voprf3_Blind, voprf3_BlindEvaluate, voprf3_Finalize, voprf3_Evaluate]
  rfl

def poprf1 : Vector where
  seed := toBeBytes 32 0xa3a3a3a3a3a3a3a3a3a3a3a3a3a3a3a3a3a3a3a3a3a3a3a3a3a3a3a3a3a3a3a3
  sksm := toBeBytes 32 0x6ad2173efa689ef2c27772566ad7ff6e2d59b3b196f00219451fb2c89ee4dae2
  pksm := toBeBytes 33 0x030d7ff077fddeec965db14b794f0cc1ba9019b04a2f4fcc1fa525dedf72e2a3e3
  input := [toBeBytes 1 0x00]
  info := toBeBytes 9 0x7465737420696e666f
  keyInfo := toBeBytes 8 0x74657374206b6579
  blind := [toBeBytes 32 0x3338fa65ec36e0290022b48eb562889d89dbfa691d1cde91517fa222ed7ad364]
  blindedElement := [toBeBytes 33 0x031563e127099a8f61ed51eeede05d747a8da2be329b40ba1f0db0b2bd9dd4e2c0]
  evaluationElement := [toBeBytes 33 0x02c5e5300c2d9e6ba7f3f4ad60500ad93a0157e6288eb04b67e125db024a2c74d2]
  proof := toBeBytes 64 0xf8a33690b87736c854eadfcaab58a59b8d9c03b569110b6f31f8bf7577f3fbb85a8a0c38468ccde1ba942be501654adb106167c8eb178703ccb42bccffb9231a
  proofRandomScalar := toBeBytes 32 0xf9db001266677f62c095021db018cd8cbb55941d4073698ce45c405d1348b7b1
  output := [toBeBytes 32 0x193a92520bd8fd1f37accb918040a57108daa110dc4f659abe212636d245c592]


set_option maxHeartbeats 4000000 in
-- The kernel computation alone may exceed the default.
theorem poprf1_Key : poprfKey fastSuite poprf1 = true := by decide +kernel

set_option maxHeartbeats 4000000 in
-- The kernel computation alone may exceed the default.
theorem poprf1_Blind : poprfBlind fastSuite poprf1 = true := by decide +kernel

set_option maxHeartbeats 4000000 in
-- The kernel computation alone may exceed the default.
theorem poprf1_BlindEvaluate : poprfBlindEvaluate fastSuite poprf1 = true := by decide +kernel

set_option maxHeartbeats 4000000 in
-- The kernel computation alone may exceed the default.
theorem poprf1_Finalize : poprfFinalize fastSuite poprf1 = true := by decide +kernel

set_option maxHeartbeats 4000000 in
-- The kernel computation alone may exceed the default.
theorem poprf1_Evaluate : poprfEvaluate fastSuite poprf1 = true := by decide +kernel

theorem poprf1_passes : complete poprf1 = true ∧ poprf P256Sha256 poprf1 = true := by
  rw [suite_eq]
  refine ⟨by decide +kernel, ?_⟩
  unfold poprf
  rw [poprf1_Key, poprf1_Blind, poprf1_BlindEvaluate, poprf1_Finalize, poprf1_Evaluate]
  rfl

def poprf2 : Vector where
  seed := toBeBytes 32 0xa3a3a3a3a3a3a3a3a3a3a3a3a3a3a3a3a3a3a3a3a3a3a3a3a3a3a3a3a3a3a3a3
  sksm := toBeBytes 32 0x6ad2173efa689ef2c27772566ad7ff6e2d59b3b196f00219451fb2c89ee4dae2
  pksm := toBeBytes 33 0x030d7ff077fddeec965db14b794f0cc1ba9019b04a2f4fcc1fa525dedf72e2a3e3
  input := [toBeBytes 17 0x5a5a5a5a5a5a5a5a5a5a5a5a5a5a5a5a5a]
  info := toBeBytes 9 0x7465737420696e666f
  keyInfo := toBeBytes 8 0x74657374206b6579
  blind := [toBeBytes 32 0x3338fa65ec36e0290022b48eb562889d89dbfa691d1cde91517fa222ed7ad364]
  blindedElement := [toBeBytes 33 0x021a440ace8ca667f261c10ac7686adc66a12be31e3520fca317643a1eee9dcd4d]
  evaluationElement := [toBeBytes 33 0x0208ca109cbae44f4774fc0bdd2783efdcb868cb4523d52196f700210e777c5de3]
  proof := toBeBytes 64 0x043a8fb7fc7fd31e35770cabda4753c5bf0ecc1e88c68d7d35a62bf2631e875af4613641be2d1875c31d1319d191c4bbc0d04875f4fd03c31d3d17dd8e069b69
  proofRandomScalar := toBeBytes 32 0xf9db001266677f62c095021db018cd8cbb55941d4073698ce45c405d1348b7b1
  output := [toBeBytes 32 0x1e6d164cfd835d88a31401623549bf6b9b306628ef03a7962921d62bc5ffce8c]


set_option maxHeartbeats 4000000 in
-- The kernel computation alone may exceed the default.
theorem poprf2_Key : poprfKey fastSuite poprf2 = true := by decide +kernel

set_option maxHeartbeats 4000000 in
-- The kernel computation alone may exceed the default.
theorem poprf2_Blind : poprfBlind fastSuite poprf2 = true := by decide +kernel

set_option maxHeartbeats 4000000 in
-- The kernel computation alone may exceed the default.
theorem poprf2_BlindEvaluate : poprfBlindEvaluate fastSuite poprf2 = true := by decide +kernel

set_option maxHeartbeats 4000000 in
-- The kernel computation alone may exceed the default.
theorem poprf2_Finalize : poprfFinalize fastSuite poprf2 = true := by decide +kernel

set_option maxHeartbeats 4000000 in
-- The kernel computation alone may exceed the default.
theorem poprf2_Evaluate : poprfEvaluate fastSuite poprf2 = true := by decide +kernel

theorem poprf2_passes : complete poprf2 = true ∧ poprf P256Sha256 poprf2 = true := by
  rw [suite_eq]
  refine ⟨by decide +kernel, ?_⟩
  unfold poprf
  rw [poprf2_Key, poprf2_Blind, poprf2_BlindEvaluate, poprf2_Finalize, poprf2_Evaluate]
  rfl

def poprf3 : Vector where
  seed := toBeBytes 32 0xa3a3a3a3a3a3a3a3a3a3a3a3a3a3a3a3a3a3a3a3a3a3a3a3a3a3a3a3a3a3a3a3
  sksm := toBeBytes 32 0x6ad2173efa689ef2c27772566ad7ff6e2d59b3b196f00219451fb2c89ee4dae2
  pksm := toBeBytes 33 0x030d7ff077fddeec965db14b794f0cc1ba9019b04a2f4fcc1fa525dedf72e2a3e3
  input := [toBeBytes 1 0x00, toBeBytes 17 0x5a5a5a5a5a5a5a5a5a5a5a5a5a5a5a5a5a]
  info := toBeBytes 9 0x7465737420696e666f
  keyInfo := toBeBytes 8 0x74657374206b6579
  blind := [toBeBytes 32 0x3338fa65ec36e0290022b48eb562889d89dbfa691d1cde91517fa222ed7ad364, toBeBytes 32 0xf9db001266677f62c095021db018cd8cbb55941d4073698ce45c405d1348b7b1]
  blindedElement := [toBeBytes 33 0x031563e127099a8f61ed51eeede05d747a8da2be329b40ba1f0db0b2bd9dd4e2c0, toBeBytes 33 0x03ca4ff41c12fadd7a0bc92cf856732b21df652e01a3abdf0fa8847da053db213c]
  evaluationElement := [toBeBytes 33 0x02c5e5300c2d9e6ba7f3f4ad60500ad93a0157e6288eb04b67e125db024a2c74d2, toBeBytes 33 0x02f0b6bcd467343a8d8555a99dc2eed0215c71898c5edb77a3d97ddd0dbad478e8]
  proof := toBeBytes 64 0x8fbd85a32c13aba79db4b42e762c00687d6dbf9c8cb97b2a225645ccb00d9d7580b383c885cdfd07df448d55e06f50f6173405eee5506c0ed0851ff718d13e68
  proofRandomScalar := toBeBytes 32 0x350e8040f828bf6ceca27405420cdf3d63cb3aef005f40ba51943c8026877963
  output := [toBeBytes 32 0x193a92520bd8fd1f37accb918040a57108daa110dc4f659abe212636d245c592, toBeBytes 32 0x1e6d164cfd835d88a31401623549bf6b9b306628ef03a7962921d62bc5ffce8c]


set_option maxHeartbeats 4000000 in
-- The kernel computation alone may exceed the default.
theorem poprf3_Key : poprfKey fastSuite poprf3 = true := by decide +kernel

set_option maxHeartbeats 4000000 in
-- The kernel computation alone may exceed the default.
theorem poprf3_Blind : poprfBlind fastSuite poprf3 = true := by decide +kernel

set_option maxHeartbeats 4000000 in
-- The kernel computation alone may exceed the default.
theorem poprf3_BlindEvaluate : poprfBlindEvaluate fastSuite poprf3 = true := by decide +kernel

set_option maxHeartbeats 4000000 in
-- The kernel computation alone may exceed the default.
theorem poprf3_Finalize : poprfFinalize fastSuite poprf3 = true := by decide +kernel

set_option maxHeartbeats 4000000 in
-- The kernel computation alone may exceed the default.
theorem poprf3_Evaluate : poprfEvaluate fastSuite poprf3 = true := by decide +kernel

theorem poprf3_passes : complete poprf3 = true ∧ poprf P256Sha256 poprf3 = true := by
  rw [suite_eq]
  refine ⟨by decide +kernel, ?_⟩
  unfold poprf
  rw [poprf3_Key, poprf3_Blind, poprf3_BlindEvaluate, poprf3_Finalize, poprf3_Evaluate]
  rfl

end Voprf.Exec.P256
