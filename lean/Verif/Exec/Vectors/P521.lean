import Verif.Exec.Nist
import Verif.Exec.Vector
import Verif.Model.Suites
import Verif.Exec.Vectors.P384

/-!
# RFC 9497 test vectors: P521-SHA512

Generated by `tools/vectors.py` from `src/tests/cfrg_vectors.rs`.  Tests of the model, evaluated by the kernel.
-/

-- One kernel computation at a time, to bound memory.
set_option Elab.async false

namespace Voprf.Exec.P521

/-- The suite with fast group operations. -/
noncomputable def fastSuite : CipherSuite where
  ID := P521Sha512.ID
  group := Nist.fast Curve.p521
  hash := P521Sha512.hash

theorem suite_eq : P521Sha512 = fastSuite := by
  unfold fastSuite
  rw [Nist.fast_eq]
  rfl

def oprf1 : Vector where
  seed := toBeBytes 32 0xa3a3a3a3a3a3a3a3a3a3a3a3a3a3a3a3a3a3a3a3a3a3a3a3a3a3a3a3a3a3a3a3
  sksm := toBeBytes 66 0x0153441b8faedb0340439036d6aed06d1217b34c42f17f8db4c5cc610a4a955d698a688831b16d0dc7713a1aa3611ec60703bffc7dc9c84e3ed673b3dbe1d5fccea6
  pksm := []
  input := [toBeBytes 1 0x00]
  info := []
  keyInfo := toBeBytes 8 0x74657374206b6579
  blind := [toBeBytes 66 0x00d1dccf7a51bafaf75d4a866d53d8cafe4d504650f53df8f16f6861633388936ea23338fa65ec36e0290022b48eb562889d89dbfa691d1cde91517fa222ed7ad364]
  blindedElement := [toBeBytes 67 0x0300e78bf846b0e1e1a3c320e353d758583cd876df56100a3a1e62bacba470fa6e0991be1be80b721c50c5fd0c672ba764457acc18c6200704e9294fbf28859d916351]
  evaluationElement := [toBeBytes 67 0x030166371cf827cb2fb9b581f97907121a16e2dc5d8b10ce9f0ede7f7d76a0d047657735e8ad07bcda824907b3e5479bd72cdef6b839b967ba5c58b118b84d26f2ba07]
  proof := []
  proofRandomScalar := []
  output := [toBeBytes 64 0x26232de6fff83f812adadadb6cc05d7bbeee5dca043dbb16b03488abb9981d0a1ef4351fad52dbd7e759649af393348f7b9717566c19a6b8856284d69375c809]


set_option maxHeartbeats 4000000 in
-- The kernel computation alone may exceed the default.
theorem oprf1_Key : oprfKey fastSuite oprf1 = true := by decide +kernel

set_option maxHeartbeats 4000000 in
-- The kernel computation alone may exceed the default.
theorem oprf1_Blind : oprfBlind fastSuite oprf1 = true := by decide +kernel

set_option maxHeartbeats 4000000 in
-- The kernel computation alone may exceed the default.
theorem oprf1_BlindEvaluate : oprfBlindEvaluate fastSuite oprf1 = true := by decide +kernel

set_option maxHeartbeats 4000000 in
-- The kernel computation alone may exceed the default.
theorem oprf1_Finalize : oprfFinalize fastSuite oprf1 = true := by decide +kernel

set_option maxHeartbeats 4000000 in
-- The kernel computation alone may exceed the default.
theorem oprf1_Evaluate : oprfEvaluate fastSuite oprf1 = true := by decide +kernel

theorem oprf1_passes : complete oprf1 = true ∧ oprf P521Sha512 oprf1 = true := by
  rw [suite_eq]
  refine ⟨by decide +kernel, ?_⟩
  unfold oprf
  rw [oprf1_Key, oprf1_Blind, oprf1_BlindEvaluate, oprf1_Finalize, oprf1_Evaluate]
  rfl

def voprf3 : Vector where
  seed := toBeBytes 32 0xa3a3a3a3a3a3a3a3a3a3a3a3a3a3a3a3a3a3a3a3a3a3a3a3a3a3a3a3a3a3a3a3
  sksm := toBeBytes 66 0x015c7fc1b4a0b1390925bae915bd9f3d72009d44d9241b962428aad5d13f22803311e7102632a39addc61ea440810222715c9d2f61f03ea424ec9ab1fe5e31cf9238
  pksm := toBeBytes 67 0x0301505d646f6e4c9102451eb39730c4ba1c4087618641edbdba4a60896b07fd0c9414ce553cbf25b81dfcca50a8f6724ab7a2bc4d0cf736967a287bb6084cc0678ac0
  input := [toBeBytes 1 0x00, toBeBytes 17 0x5a5a5a5a5a5a5a5a5a5a5a5a5a5a5a5a5a]
  info := []
  keyInfo := toBeBytes 8 0x74657374206b6579
  blind := [toBeBytes 66 0x00d1dccf7a51bafaf75d4a866d53d8cafe4d504650f53df8f16f6861633388936ea23338fa65ec36e0290022b48eb562889d89dbfa691d1cde91517fa222ed7ad364, toBeBytes 66 0x015e80ae32363b32cb76ad4b95a5a34e46bb803d955f0e073a04aa5d92b3fb739f56f9db001266677f62c095021db018cd8cbb55941d4073698ce45c405d1348b7b1]
  blindedElement := [toBeBytes 67 0x0301d6e4fb545e043ddb6aee5d5ceeee1b44102615ab04430c27dd0f56988dedcb1df32ef384f160e0e76e718605f14f3f582f9357553d153b996795b4b3628a4f6380, toBeBytes 67 0x0301403b597538b939b450c93586ba275f9711ba07e42364bac1d5769c6824a8b55be6f9a536df46d952b11ab2188363b3d6737635d9543d4dba14a6e19421b9245bf5]
  evaluationElement := [toBeBytes 67 0x03013fdeaf887f3d3d283a79e696a54b66ff0edcb559265e204a958acf840e0930cc147e2a6835148d8199eebc26c03e9394c9762a1c991dde40bca0f8ca003eefb045, toBeBytes 67 0x03001f96424497e38c46c904978c2fa1636c5c3dd2e634a85d8a7265977c5dce1f02c7e6c118479f0751767b91a39cce6561998258591b5d7c1bb02445a9e08e4f3e8d]
  proof := toBeBytes 132 0x00b4d215c8405e57c7a4b53398caf55f1f1623aaeb22408ddb9ea29130909b3f95dbb1ff366e81e86e918f9f2fd8b80dbb344cd498c9499d112905e585417e0068c600fe5dea18b389ef6c4cc062935607b8ccbbb9a84fba3143868a3e8a58efa0bf6ca642804d09dc06e980f64837811227c4267b217f1099a4e28b0854f4e5ee659796
  proofRandomScalar := toBeBytes 66 0x01ec21c7bb69b0734cb48dfd68433dd93b0fa097e722ed2427de86966910acba9f5c350e8040f828bf6ceca27405420cdf3d63cb3aef005f40ba51943c8026877963
  output := [toBeBytes 64 0x5e003d9b2fb540b3d4bab5fedd154912246da1ee5e557afd8f56415faa1a0fadff6517da802ee254437e4f60907b4cda146e7ba19e249eef7be405549f62954b, toBeBytes 64 0xfa15eebba81ecf40954f7135cb76f69ef22c6bae394d1a4362f9b03066b54b6604d39f2e53369ca6762a3d9787e230e832aa85955af40ecb8deebb009a8cf474]


set_option maxHeartbeats 4000000 in
-- The kernel computation alone may exceed the default.
theorem voprf3_Key : voprfKey fastSuite voprf3 = true := by decide +kernel

set_option maxHeartbeats 4000000 in
-- The kernel computation alone may exceed the default.
theorem voprf3_Blind : voprfBlind fastSuite voprf3 = true := by decide +kernel

set_option maxHeartbeats 4000000 in
-- The kernel computation alone may exceed the default.
theorem voprf3_BlindEvaluate : voprfBlindEvaluate fastSuite voprf3 = true := by decide +kernel

set_option maxHeartbeats 4000000 in
-- The kernel computation alone may exceed the default.
theorem voprf3_Finalize : voprfFinalize fastSuite voprf3 = true := by decide +kernel

set_option maxHeartbeats 4000000 in
-- The kernel computation alone may exceed the default.
theorem voprf3_Evaluate : voprfEvaluate fastSuite voprf3 = true := by decide +kernel

theorem voprf3_passes : complete voprf3 = true ∧ voprf P521Sha512 voprf3 = true := by
  rw [suite_eq]
  refine ⟨by decide +kernel, ?_⟩
  unfold voprf
  rw [voprf3_Key, voprf3_Blind, voprf3_BlindEvaluate, voprf3_Finalize, voprf3_Evaluate]
  rfl

def poprf3 : Vector where
  seed := toBeBytes 32 0xa3a3a3a3a3a3a3a3a3a3a3a3a3a3a3a3a3a3a3a3a3a3a3a3a3a3a3a3a3a3a3a3
  sksm := toBeBytes 66 0x014893130030ce69cf714f536498a02ff6b396888f9bb507985c32928c4427d6d39de10ef509aca4240e8569e3a88debc0d392e3361bcd934cb9bdd59e339dff7b27
  pksm := toBeBytes 67 0x0301de8ceb9ffe9237b1bba87c320ea0bebcfc3447fe6f278065c6c69886d692d1126b79b6844f829940ace9b52a5e26882cf7cbc9e57503d4cca3cd834584729f812a
  input := [toBeBytes 1 0x00, toBeBytes 17 0x5a5a5a5a5a5a5a5a5a5a5a5a5a5a5a5a5a]
  info := toBeBytes 9 0x7465737420696e666f
  keyInfo := toBeBytes 8 0x74657374206b6579
  blind := [toBeBytes 66 0x00d1dccf7a51bafaf75d4a866d53d8cafe4d504650f53df8f16f6861633388936ea23338fa65ec36e0290022b48eb562889d89dbfa691d1cde91517fa222ed7ad364, toBeBytes 66 0x015e80ae32363b32cb76ad4b95a5a34e46bb803d955f0e073a04aa5d92b3fb739f56f9db001266677f62c095021db018cd8cbb55941d4073698ce45c405d1348b7b1]
  blindedElement := [toBeBytes 67 0x020095cff9d7ecf65bdfee4ea92d6e748d60b02de34ad98094f82e25d33a8bf50138ccc2cc633556f1a97d7ea9438cbb394df612f041c485a515849d5ebb2238f2f0e2, toBeBytes 67 0x0201a328cf9f3fdeb86b6db242dd4cbb436b3a488b70b72d2fbbd1e5f50d7b0878b157d6f278c6a95c488f3ad52d6898a421658a82fe7ceb000b01aedea7967522d525]
  evaluationElement := [toBeBytes 67 0x0301408e9c5be3ffcc1c16e5ae8f8aa68446223b0804b11962e856af5a6d1c65ebbb5db7278c21db4e8cc06d89a35b6804fb1738a295b691638af77aa1327253f26d01, toBeBytes 67 0x020062ab51ac3aa829e0f5b7ae50688bcf5f63a18a83a6e0da538666b8d50c7ea2b4ef31f4ac669302318dbebe46660acdda695da30c22cee7ca21f6984a720504502e]
  proof := toBeBytes 132 0x00731738844f739bca0cca9d1c8bea204bed4fd00285785738b985763741de5cdfa275152d52b6a2fdf7792ef3779f39ba34581e56d62f78ecad5b7f8083f384961501cd4b43713253c022692669cf076b1d382ecd8293c1de69ea569737f37a24772ab73517983c1e3db5818754ba1f008076267b8058b6481949ae346cdc17a8455fe2
  proofRandomScalar := toBeBytes 66 0x01ec21c7bb69b0734cb48dfd68433dd93b0fa097e722ed2427de86966910acba9f5c350e8040f828bf6ceca27405420cdf3d63cb3aef005f40ba51943c8026877963
  output := [toBeBytes 64 0x808ae5b87662eaaf0b39151dd85991b94c96ef214cb14a68bf5c143954882d330da8953a80eea20788e552bc8bbbfff3100e89f9d6e341197b122c46a208733b, toBeBytes 64 0x27032e24b1a52a82ab7f4646f3c5df0f070f499db98b9c5df33972bd5af5762c3638afae7912a6c1acdb1ae2ab2fa670bd5486c645a0e55412e08d33a4a0d6e3]


set_option maxHeartbeats 4000000 in
-- The kernel computation alone may exceed the default.
theorem poprf3_Key : poprfKey fastSuite poprf3 = true := by decide +kernel

set_option maxHeartbeats 4000000 in
-- The kernel computation alone may exceed the default.
theorem poprf3_Blind : poprfBlind fastSuite poprf3 = true := by decide +kernel

set_option maxHeartbeats 4000000 in
-- The kernel computation alone may exceed the default.
theorem poprf3_BlindEvaluate : poprfBlindEvaluate fastSuite poprf3 = true := by decide +kernel

set_option maxHeartbeats 4000000 in
-- The kernel computation alone may exceed the default.
theorem poprf3_Finalize : poprfFinalize fastSuite poprf3 = true := by decide +kernel

set_option maxHeartbeats 4000000 in
-- The kernel computation alone may exceed the default.
theorem poprf3_Evaluate : poprfEvaluate fastSuite poprf3 = true := by decide +kernel

theorem poprf3_passes : complete poprf3 = true ∧ poprf P521Sha512 poprf3 = true := by
  rw [suite_eq]
  refine ⟨by decide +kernel, ?_⟩
  unfold poprf
  rw [poprf3_Key, poprf3_Blind, poprf3_BlindEvaluate, poprf3_Finalize, poprf3_Evaluate]
  rfl

end Voprf.Exec.P521
