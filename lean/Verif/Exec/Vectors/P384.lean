import Verif.Exec.Nist
import Verif.Exec.Vector
import Verif.Model.Suites
import Verif.Exec.Vectors.P256

/-!
# RFC 9497 test vectors: P384-SHA384

Generated by `tools/vectors.py` from `src/tests/cfrg_vectors.rs`.  Tests of the model, evaluated by the kernel.
-/

-- One kernel computation at a time, to bound memory.
set_option Elab.async false

namespace Voprf.Exec.P384

/-- The suite with fast group operations. -/
noncomputable def fastSuite : CipherSuite where
  ID := P384Sha384.ID
  group := Nist.fast Curve.p384
  hash := P384Sha384.hash

theorem suite_eq : P384Sha384 = fastSuite := by
  unfold fastSuite
  rw [Nist.fast_eq]
  rfl

def oprf1 : Vector where
  seed := toBeBytes 32 0xa3a3a3a3a3a3a3a3a3a3a3a3a3a3a3a3a3a3a3a3a3a3a3a3a3a3a3a3a3a3a3a3
  sksm := toBeBytes 48 0xdfe7ddc41a4646901184f2b432616c8ba6d452f9bcd0c4f75a5150ef2b2ed02ef40b8b92f60ae591bcabd72a6518f188
  pksm := []
  input := [toBeBytes 1 0x00]
  info := []
  keyInfo := toBeBytes 8 0x74657374206b6579
  blind := [toBeBytes 48 0x504650f53df8f16f6861633388936ea23338fa65ec36e0290022b48eb562889d89dbfa691d1cde91517fa222ed7ad364]
  blindedElement := [toBeBytes 49 0x02a36bc90e6db34096346eaf8b7bc40ee1113582155ad3797003ce614c835a874343701d3f2debbd80d97cbe45de6e5f1f]
  evaluationElement := [toBeBytes 49 0x03af2a4fc94770d7a7bf3187ca9cc4faf3732049eded2442ee50fbddda58b70ae2999366f72498cdbc43e6f2fc184afe30]
  proof := []
  proofRandomScalar := []
  output := [toBeBytes 48 0xed84ad3f31a552f0456e58935fcc0a3039db42e7f356dcb32aa6d487b6b815a07d5813641fb1398c03ddab5763874357]


set_option maxHeartbeats 4000000 in
-- The kernel computation alone may exceed the default.
theorem oprf1_Key : oprfKey fastSuite oprf1 = true := by decide +kernel

set_option maxHeartbeats 4000000 in
-- The kernel computation alone may exceed the default.
theorem oprf1_Blind : oprfBlind fastSuite oprf1 = true := by decide +kernel

set_option maxHeartbeats 4000000 in
-- The kernel computation alone may exceed the default.
theorem oprf1_BlindEvaluate : oprfBlindEvaluate fastSuite oprf1 = true := by decide +kernel

set_option maxHeartbeats 4000000 in
-- The kernel computation alone may exceed the default.
theorem oprf1_Finalize : oprfFinalize fastSuite oprf1 = true := by decide +kernel

set_option maxHeartbeats 4000000 in
-- The kernel computation alone may exceed the default.
theorem oprf1_Evaluate : oprfEvaluate fastSuite oprf1 = true := by decide +kernel

theorem oprf1_passes : complete oprf1 = true ∧ oprf P384Sha384 oprf1 = true := by
  rw [suite_eq]
  refine ⟨by decide +kernel, ?_⟩
  unfold oprf
  rw [oprf1_Key, oprf1_Blind, oprf1_BlindEvaluate, oprf1_Finalize, oprf1_Evaluate]
  rfl

def voprf3 : Vector where
  seed := toBeBytes 32 0xa3a3a3a3a3a3a3a3a3a3a3a3a3a3a3a3a3a3a3a3a3a3a3a3a3a3a3a3a3a3a3a3
  sksm := toBeBytes 48 0x051646b9e6e7a71ae27c1e1d0b87b4381db6d3595eeeb1adb41579adbf992f4278f9016eafc944edaa2b43183581779d
  pksm := toBeBytes 49 0x031d689686c611991b55f1a1d8f4305ccd6cb719446f660a30db61b7aa87b46acf59b7c0d4a9077b3da21c25dd482229a0
  input := [toBeBytes 1 0x00, toBeBytes 17 0x5a5a5a5a5a5a5a5a5a5a5a5a5a5a5a5a5a]
  info := []
  keyInfo := toBeBytes 8 0x74657374206b6579
  blind := [toBeBytes 48 0x504650f53df8f16f6861633388936ea23338fa65ec36e0290022b48eb562889d89dbfa691d1cde91517fa222ed7ad364, toBeBytes 48 0x803d955f0e073a04aa5d92b3fb739f56f9db001266677f62c095021db018cd8cbb55941d4073698ce45c405d1348b7b1]
  blindedElement := [toBeBytes 49 0x02d338c05cbecb82de13d6700f09cb61190543a7b7e2c6cd4fca56887e564ea82653b27fdad383995ea6d02cf26d0e24d9, toBeBytes 49 0x02fa02470d7f151018b41e82223c32fad824de6ad4b5ce9f8e9f98083c9a726de9a1fc39d7a0cb6f4f188dd9cea01474cd]
  evaluationElement := [toBeBytes 49 0x02a7bba589b3e8672aa19e8fd258de2e6aae20101c8d761246de97a6b5ee9cf105febce4327a326255a3c604f63f600ef6, toBeBytes 49 0x028e9e115625ff4c2f07bf87ce3fd73fc77994a7a0c1df03d2a630a3d845930e2e63a165b114d98fe34e61b68d23c0b50a]
  proof := toBeBytes 96 0x6d8dcbd2fc95550a02211fb78afd013933f307d21e7d855b0b1ed0af78076d8137ad8b0a1bfa05676d325249c1dbb9a52bd81b1c2b7b0efc77cf7b278e1c947f6283f1d4c513053fc0ad19e026fb0c30654b53d9cea4b87b037271b5d2e2d0ea
  proofRandomScalar := toBeBytes 48 0xa097e722ed2427de86966910acba9f5c350e8040f828bf6ceca27405420cdf3d63cb3aef005f40ba51943c8026877963
  output := [toBeBytes 48 0x3333230886b562ffb8329a8be08fea8025755372817ec969d114d1203d026b4a622beab60220bf19078bca35a529b35c, toBeBytes 48 0xb91c70ea3d4d62ba922eb8a7d03809a441e1c3c7af915cbc2226f485213e895942cd0f8580e6d99f82221e66c40d274f]


set_option maxHeartbeats 4000000 in
-- The kernel computation alone may exceed the default.
theorem voprf3_Key : voprfKey fastSuite voprf3 = true := by decide +kernel

set_option maxHeartbeats 4000000 in
-- The kernel computation alone may exceed the default.
theorem voprf3_Blind : voprfBlind fastSuite voprf3 = true := by decide +kernel

set_option maxHeartbeats 4000000 in
-- The kernel computation alone may exceed the default.
theorem voprf3_BlindEvaluate : voprfBlindEvaluate fastSuite voprf3 = true := by decide +kernel

set_option maxHeartbeats 4000000 in
-- The kernel computation alone may exceed the default.
theorem voprf3_Finalize : voprfFinalize fastSuite voprf3 = true := by decide +kernel

set_option maxHeartbeats 4000000 in
-- The kernel computation alone may exceed the default.
theorem voprf3_Evaluate : voprfEvaluate fastSuite voprf3 = true := by decide +kernel

theorem voprf3_passes : complete voprf3 = true ∧ voprf P384Sha384 voprf3 = true := by
  rw [suite_eq]
  refine ⟨by decide +kernel, ?_⟩
  unfold voprf
  rw [voprf3_Key, voprf3_Blind, voprf3_BlindEvaluate, voprf3_Finalize, voprf3_Evaluate]
  rfl

def poprf3 : Vector where
  seed := toBeBytes 32 0xa3a3a3a3a3a3a3a3a3a3a3a3a3a3a3a3a3a3a3a3a3a3a3a3a3a3a3a3a3a3a3a3
  sksm := toBeBytes 48 0x5b2690d6954b8fbb159f19935d64133f12770c00b68422559c65431942d721ff79d47d7a75906c30b7818ec0f38b7fb2
  pksm := toBeBytes 49 0x02f00f0f1de81e5d6cf18140d4926ffdc9b1898c48dc49657ae36eb1e45deb8b951aaf1f10c82d2eaa6d02aafa3f10d2b6
  input := [toBeBytes 1 0x00, toBeBytes 17 0x5a5a5a5a5a5a5a5a5a5a5a5a5a5a5a5a5a]
  info := toBeBytes 9 0x7465737420696e666f
  keyInfo := toBeBytes 8 0x74657374206b6579
  blind := [toBeBytes 48 0x504650f53df8f16f6861633388936ea23338fa65ec36e0290022b48eb562889d89dbfa691d1cde91517fa222ed7ad364, toBeBytes 48 0x803d955f0e073a04aa5d92b3fb739f56f9db001266677f62c095021db018cd8cbb55941d4073698ce45c405d1348b7b1]
  blindedElement := [toBeBytes 49 0x03859b36b95e6564faa85cd3801175eda2949707f6aa0640ad093cbf8ad2f58e762f08b56b2a1b42a64953aaf49cbf1ae3, toBeBytes 49 0x021a65d618d645f1a20bc33b06deaa7e73d6d634c8a56a3d02b53a732b69a5c53c5a207ea33d5afdcde9a22d59726bce51]
  evaluationElement := [toBeBytes 49 0x0220710e2e00306453f5b4f574cb6a512453f35c45080d09373e190c19ce5b185914fbf36582d7e0754bb7c8b683205b91, toBeBytes 49 0x02017657b315ec65ef861505e596c8645d94685dd7602cdd092a8f1c1c0194a5d0485fe47d071d972ab514370174cc23f5]
  proof := toBeBytes 96 0x4a0b2fe96d5b2a046a0447fe079b77859ef11a39a3520d6ff7c626aad9b473b724fb0cf188974ec961710a62162a83e97e0baa9eeada73397032d928b3e97b1ea92ad9458208302be3681b8ba78bcc17745bac00f84e0fdc98a6a8cba009c080
  proofRandomScalar := toBeBytes 48 0xa097e722ed2427de86966910acba9f5c350e8040f828bf6ceca27405420cdf3d63cb3aef005f40ba51943c8026877963
  output := [toBeBytes 48 0x0188653cfec38119a6c7dd7948b0f0720460b4310e40824e048bf82a16527303ed449a08caf84272c3bbc972ede797df, toBeBytes 48 0xff2a527a21cc43b251a567382677f078c6e356336aec069dea8ba36995343ca3b33bb5d6cf15be4d31a7e6d75b30d3f5]


set_option maxHeartbeats 4000000 in
-- The kernel computation alone may exceed the default.
theorem poprf3_Key : poprfKey fastSuite poprf3 = true := by decide +kernel

set_option maxHeartbeats 4000000 in
-- The kernel computation alone may exceed the default.
theorem poprf3_Blind : poprfBlind fastSuite poprf3 = true := by decide +kernel

set_option maxHeartbeats 4000000 in
-- The kernel computation alone may exceed the default.
theorem poprf3_BlindEvaluate : poprfBlindEvaluate fastSuite poprf3 = true := by decide +kernel

set_option maxHeartbeats 4000000 in
-- The kernel computation alone may exceed the default.
theorem poprf3_Finalize : poprfFinalize fastSuite poprf3 = true := by decide +kernel

set_option maxHeartbeats 4000000 in
-- The kernel computation alone may exceed the default.
theorem poprf3_Evaluate : poprfEvaluate fastSuite poprf3 = true := by decide +kernel

theorem poprf3_passes : complete poprf3 = true ∧ poprf P384Sha384 poprf3 = true := by
  rw [suite_eq]
  refine ⟨by decide +kernel, ?_⟩
  unfold poprf
  rw [poprf3_Key, poprf3_Blind, poprf3_BlindEvaluate, poprf3_Finalize, poprf3_Evaluate]
  rfl

end Voprf.Exec.P384
