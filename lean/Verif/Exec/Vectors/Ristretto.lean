import Verif.Exec.Ristretto
import Verif.Exec.Vector
import Verif.Model.Suites

/-!
# RFC 9497 test vectors: ristretto255-SHA512

Generated by `tools/vectors.py` from `src/tests/cfrg_vectors.rs`.  Tests of the model, evaluated by the kernel.
-/

-- One kernel computation at a time, to bound memory.
set_option Elab.async false

namespace Voprf.Exec.Ristretto

/-- The suite with fast group operations. -/
noncomputable def fastSuite : CipherSuite where
  ID := (Ristretto255Sha512 Ristretto.ristretto255).ID
  group := Ristretto.fast Ristretto.ristretto255
  hash := (Ristretto255Sha512 Ristretto.ristretto255).hash

theorem suite_eq : (Ristretto255Sha512 Ristretto.ristretto255) = fastSuite := by
  unfold fastSuite
  rw [Ristretto.fast_eq]
  rfl

def oprf1 : Vector where
  seed := toBeBytes 32 0xa3a3a3a3a3a3a3a3a3a3a3a3a3a3a3a3a3a3a3a3a3a3a3a3a3a3a3a3a3a3a3a3
  sksm := toBeBytes 32 0x5ebcea5ee37023ccb9fc2d2019f9d7737be85591ae8652ffa9ef0f4d37063b0e
  pksm := []
  input := [toBeBytes 1 0x00]
  info := []
  keyInfo := toBeBytes 8 0x74657374206b6579
  blind := [toBeBytes 32 0x64d37aed22a27f5191de1c1d69fadb899d8862b58eb4220029e036ec4c1f6706]
  blindedElement := [toBeBytes 32 0x609a0ae68c15a3cf6903766461307e5c8bb2f95e7e6550e1ffa2dc99e412803c]
  evaluationElement := [toBeBytes 32 0x7ec6578ae5120958eb2db1745758ff379e77cb64fe77b0b2d8cc917ea0869c7e]
  proof := []
  proofRandomScalar := []
  output := [toBeBytes 64 0x527759c3d9366f277d8c6020418d96bb393ba2afb20ff90df23fb7708264e2f3ab9135e3bd69955851de4b1f9fe8a0973396719b7912ba9ee8aa7d0b5e24bcf6]


set_option maxHeartbeats 4000000 in
-- The kernel computation alone may exceed the default.
theorem oprf1_Key : oprfKey fastSuite oprf1 = true := by decide +kernel

set_option maxHeartbeats 4000000 in
-- The kernel computation alone may exceed the default.
theorem oprf1_Blind : oprfBlind fastSuite oprf1 = true := by decide +kernel

set_option maxHeartbeats 4000000 in
-- The kernel computation alone may exceed the default.
theorem oprf1_BlindEvaluate : oprfBlindEvaluate fastSuite oprf1 = true := by decide +kernel

set_option maxHeartbeats 4000000 in
-- The kernel computation alone may exceed the default.
theorem oprf1_Finalize : oprfFinalize fastSuite oprf1 = true := by decide +kernel

set_option maxHeartbeats 4000000 in
-- The kernel computation alone may exceed the default.
theorem oprf1_Evaluate : oprfEvaluate fastSuite oprf1 = true := by decide +kernel

theorem oprf1_passes : complete oprf1 = true ∧ oprf (Ristretto255Sha512 Ristretto.ristretto255) oprf1 = true := by
  rw [suite_eq]
  refine ⟨by decide +kernel, ?_⟩
  unfold oprf
  rw [oprf1_Key, oprf1_Blind, oprf1_BlindEvaluate, oprf1_Finalize, oprf1_Evaluate]
  rfl

def oprf2 : Vector where
  seed := toBeBytes 32 0xa3a3a3a3a3a3a3a3a3a3a3a3a3a3a3a3a3a3a3a3a3a3a3a3a3a3a3a3a3a3a3a3
  sksm := toBeBytes 32 0x5ebcea5ee37023ccb9fc2d2019f9d7737be85591ae8652ffa9ef0f4d37063b0e
  pksm := []
  input := [toBeBytes 17 0x5a5a5a5a5a5a5a5a5a5a5a5a5a5a5a5a5a]
  info := []
  keyInfo := toBeBytes 8 0x74657374206b6579
  blind := [toBeBytes 32 0x64d37aed22a27f5191de1c1d69fadb899d8862b58eb4220029e036ec4c1f6706]
  blindedElement := [toBeBytes 32 0xda27ef466870f5f15296299850aa088629945a17d1f5b7f5ff043f76b3c06418]
  evaluationElement := [toBeBytes 32 0xb4cbf5a4f1eeda5a63ce7b77c7d23f461db3fcab0dd28e4e17cecb5c90d02c25]
  proof := []
  proofRandomScalar := []
  output := [toBeBytes 64 0xf4a74c9c592497375e796aa837e907b1a045d34306a749db9f34221f7e750cb4f2a6413a6bf6fa5e19ba6348eb673934a722a7ede2e7621306d18951e7cf2c73]


set_option maxHeartbeats 4000000 in
-- The kernel computation alone may exceed the default.
theorem oprf2_Key : oprfKey fastSuite oprf2 = true := by decide +kernel

set_option maxHeartbeats 4000000 in
-- The kernel computation alone may exceed the default.
theorem oprf2_Blind : oprfBlind fastSuite oprf2 = true := by decide +kernel

set_option maxHeartbeats 4000000 in
-- The kernel computation alone may exceed the default.
theorem oprf2_BlindEvaluate : oprfBlindEvaluate fastSuite oprf2 = true := by decide +kernel

set_option maxHeartbeats 4000000 in
-- The kernel computation alone may exceed the default.
theorem oprf2_Finalize : oprfFinalize fastSuite oprf2 = true := by decide +kernel

set_option maxHeartbeats 4000000 in
-- The kernel computation alone may exceed the default.
theorem oprf2_Evaluate : oprfEvaluate fastSuite oprf2 = true := by decide +kernel

theorem oprf2_passes : complete oprf2 = true ∧ oprf (Ristretto255Sha512 Ristretto.ristretto255) oprf2 = true := by
  rw [suite_eq]
  refine ⟨by decide +kernel, ?_⟩
  unfold oprf
  rw [oprf2_Key, oprf2_Blind, oprf2_BlindEvaluate, oprf2_Finalize, oprf2_Evaluate]
  rfl

def voprf1 : Vector where
  seed := toBeBytes 32 0xa3a3a3a3a3a3a3a3a3a3a3a3a3a3a3a3a3a3a3a3a3a3a3a3a3a3a3a3a3a3a3a3
  sksm := toBeBytes 32 0xe6f73f344b79b379f1a0dd37e07ff62e38d9f71345ce62ae3a9bc60b04ccd909
  pksm := toBeBytes 32 0xc803e2cc6b05fc15064549b5920659ca4a77b2cca6f04f6b357009335476ad4e
  input := [toBeBytes 1 0x00]
  info := []
  keyInfo := toBeBytes 8 0x74657374206b6579
  blind := [toBeBytes 32 0x64d37aed22a27f5191de1c1d69fadb899d8862b58eb4220029e036ec4c1f6706]
  blindedElement := [toBeBytes 32 0x863f330cc1a1259ed5a5998a23acfd37fb4351a793a5b3c090b642ddc439b945]
  evaluationElement := [toBeBytes 32 0xaa8fa048764d5623868679402ff6108d2521884fa138cd7f9c7669a9a014267e]
  proof := toBeBytes 64 0xddef93772692e535d1a53903db24367355cc2cc78de93b3be5a8ffcc6985dd066d4346421d17bf5117a2a1ff0fcb2a759f58a539dfbe857a40bce4cf49ec600d
  proofRandomScalar := toBeBytes 32 0x222a5e897cf59db8145db8d16e597e8facb80ae7d4e26d9881aa6f61d645fc0e
  output := [toBeBytes 64 0xb58cfbe118e0cb94d79b5fd6a6dafb98764dff49c14e1770b566e42402da1a7da4d8527693914139caee5bd03903af43a491351d23b430948dd50cde10d32b3c]


set_option maxHeartbeats 4000000 in
-- The kernel computation alone may exceed the default.
theorem voprf1_Key : voprfKey fastSuite voprf1 = true := by decide +kernel

set_option maxHeartbeats 4000000 in
-- The kernel computation alone may exceed the default.
theorem voprf1_Blind : voprfBlind fastSuite voprf1 = true := by decide +kernel

set_option maxHeartbeats 4000000 in
-- The kernel computation alone may exceed the default.
theorem voprf1_BlindEvaluate : voprfBlindEvaluate fastSuite voprf1 = true := by decide +kernel

set_option maxHeartbeats 4000000 in
-- The kernel computation alone may exceed the default.
theorem voprf1_Finalize : voprfFinalize fastSuite voprf1 = true := by decide +kernel

set_option maxHeartbeats 4000000 in
-- The kernel computation alone may exceed the default.
theorem voprf1_Evaluate : voprfEvaluate fastSuite voprf1 = true := by decide +kernel

theorem voprf1_passes : complete voprf1 = true ∧ voprf (Ristretto255Sha512 Ristretto.ristretto255) voprf1 = true := by
  rw [suite_eq]
  refine ⟨by decide +kernel, ?_⟩
  unfold voprf
  rw [voprf1_Key, voprf1_Blind, voprf1_BlindEvaluate, voprf1_Finalize, voprf1_Evaluate]
  rfl

def voprf2 : Vector where
  seed := toBeBytes 32 0xa3a3a3a3a3a3a3a3a3a3a3a3a3a3a3a3a3a3a3a3a3a3a3a3a3a3a3a3a3a3a3a3
  sksm := toBeBytes 32 0xe6f73f344b79b379f1a0dd37e07ff62e38d9f71345ce62ae3a9bc60b04ccd909
  pksm := toBeBytes 32 0xc803e2cc6b05fc15064549b5920659ca4a77b2cca6f04f6b357009335476ad4e
  input := [toBeBytes 17 0x5a5a5a5a5a5a5a5a5a5a5a5a5a5a5a5a5a]
  info := []
  keyInfo := toBeBytes 8 0x74657374206b6579
  blind := [toBeBytes 32 0x64d37aed22a27f5191de1c1d69fadb899d8862b58eb4220029e036ec4c1f6706]
  blindedElement := [toBeBytes 32 0xcc0b2a350101881d8a4cba4c80241d74fb7dcbfde4a61fde2f91443c2bf9ef0c]
  evaluationElement := [toBeBytes 32 0x60a59a57208d48aca71e9e850d22674b611f752bed48b36f7a91b372bd7ad468]
  proof := toBeBytes 64 0x401a0da6264f8cf45bb2f5264bc31e109155600babb3cd4e5af7d181a2c9dc0a67154fabf031fd936051dec80b0b6ae29c9503493dde7393b722eafdf5a50b02
  proofRandomScalar := toBeBytes 32 0x222a5e897cf59db8145db8d16e597e8facb80ae7d4e26d9881aa6f61d645fc0e
  output := [toBeBytes 64 0x8a9a2f3c7f085b65933594309041fc1898d42d0858e59f90814ae90571a6df60356f4610bf816f27afdd84f47719e480906d27ecd994985890e5f539e7ea74b6]


set_option maxHeartbeats 4000000 in
-- The kernel computation alone may exceed the default.
theorem voprf2_Key : voprfKey fastSuite voprf2 = true := by decide +kernel

set_option maxHeartbeats 4000000 in
-- The kernel computation alone may exceed the default.
theorem voprf2_Blind : voprfBlind fastSuite voprf2 = true := by decide +kernel

set_option maxHeartbeats 4000000 in
-- The kernel computation alone may exceed the default.
theorem voprf2_BlindEvaluate : voprfBlindEvaluate fastSuite voprf2 = true := by decide +kernel

set_option maxHeartbeats 4000000 in
-- The kernel computation alone may exceed the default.
theorem voprf2_Finalize : voprfFinalize fastSuite voprf2 = true := by decide +kernel

set_option maxHeartbeats 4000000 in
-- The kernel computation alone may exceed the default.
theorem voprf2_Evaluate : voprfEvaluate fastSuite voprf2 = true := by decide +kernel

theorem voprf2_passes : complete voprf2 = true ∧ voprf (Ristretto255Sha512 Ristretto.ristretto255) voprf2 = true := by
  rw [suite_eq]
  refine ⟨by decide +kernel, ?_⟩
  unfold voprf
  rw [voprf2_Key, voprf2_Blind, voprf2_BlindEvaluate, voprf2_Finalize, voprf2_Evaluate]
  rfl

def voprf3 : Vector where
  seed := toBeBytes 32 0xa3a3a3a3a3a3a3a3a3a3a3a3a3a3a3a3a3a3a3a3a3a3a3a3a3a3a3a3a3a3a3a3
  sksm := toBeBytes 32 0xe6f73f344b79b379f1a0dd37e07ff62e38d9f71345ce62ae3a9bc60b04ccd909
  pksm := toBeBytes 32 0xc803e2cc6b05fc15064549b5920659ca4a77b2cca6f04f6b357009335476ad4e
  input := [toBeBytes 1 0x00, toBeBytes 17 0x5a5a5a5a5a5a5a5a5a5a5a5a5a5a5a5a5a]
  info := []
  keyInfo := toBeBytes 8 0x74657374206b6579
  blind := [toBeBytes 32 0x64d37aed22a27f5191de1c1d69fadb899d8862b58eb4220029e036ec4c1f6706, toBeBytes 32 0x222a5e897cf59db8145db8d16e597e8facb80ae7d4e26d9881aa6f61d645fc0e]
  blindedElement := [toBeBytes 32 0x863f330cc1a1259ed5a5998a23acfd37fb4351a793a5b3c090b642ddc439b945, toBeBytes 32 0x90a0145ea9da29254c3a56be4fe185465ebb3bf2a1801f7124bbbadac751e654]
  evaluationElement := [toBeBytes 32 0xaa8fa048764d5623868679402ff6108d2521884fa138cd7f9c7669a9a014267e, toBeBytes 32 0xcc5ac221950a49ceaa73c8db41b82c20372a4c8d63e5dded2db920b7eee36a2a]
  proof := toBeBytes 64 0xcc203910175d786927eeb44ea847328047892ddf8590e723c37205cb74600b0a5ab5337c8eb4ceae0494c2cf89529dcf94572ed267473d567aeed6ab873dee08
  proofRandomScalar := toBeBytes 32 0x419c4f4f5052c53c45f3da494d2b67b220d02118e0857cdbcf037f9ea84bbe0c
  output := [toBeBytes 64 0xb58cfbe118e0cb94d79b5fd6a6dafb98764dff49c14e1770b566e42402da1a7da4d8527693914139caee5bd03903af43a491351d23b430948dd50cde10d32b3c, toBeBytes 64 0x8a9a2f3c7f085b65933594309041fc1898d42d0858e59f90814ae90571a6df60356f4610bf816f27afdd84f47719e480906d27ecd994985890e5f539e7ea74b6]


set_option maxHeartbeats 4000000 in
-- The kernel computation alone may exceed the default.
theorem voprf3_Key : voprfKey fastSuite voprf3 = true := by decide +kernel

set_option maxHeartbeats 4000000 in
-- The kernel computation alone may exceed the default.
theorem voprf3_Blind : voprfBlind fastSuite voprf3 = true := by decide +kernel

set_option maxHeartbeats 4000000 in
-- The kernel computation alone may exceed the default.
theorem voprf3_BlindEvaluate : voprfBlindEvaluate fastSuite voprf3 = true := by decide +kernel

set_option maxHeartbeats 4000000 in
-- The kernel computation alone may exceed the default.
theorem voprf3_Finalize : voprfFinalize fastSuite voprf3 = true := by decide +kernel

set_option maxHeartbeats 4000000 in
-- The kernel computation alone may exceed the default.
theorem voprf3_Evaluate : voprfEvaluate fastSuite voprf3 = true := by decide +kernel

theorem voprf3_passes : complete voprf3 = true ∧ voprf (Ristretto255Sha512 Ristretto.ristretto255) voprf3 = true := by
  rw [suite_eq]
  refine ⟨by decide +kernel, ?_⟩
  unfold voprf
  rw [voprf3_Key, voprf3_Blind, voprf3_BlindEvaluate, voprf3_Finalize, voprf3_Evaluate]
  rfl

def poprf1 : Vector where
  seed := toBeBytes 32 0xa3a3a3a3a3a3a3a3a3a3a3a3a3a3a3a3a3a3a3a3a3a3a3a3a3a3a3a3a3a3a3a3
  sksm := toBeBytes 32 0x145c79c108538421ac164ecbe131942136d5570b16d8bf41a24d4337da981e07
  pksm := toBeBytes 32 0xc647bef38497bc6ec077c22af65b696efa43bff3b4a1975a3e8e0a1c5a79d631
  input := [toBeBytes 1 0x00]
  info := toBeBytes 9 0x7465737420696e666f
  keyInfo := toBeBytes 8 0x74657374206b6579
  blind := [toBeBytes 32 0x64d37aed22a27f5191de1c1d69fadb899d8862b58eb4220029e036ec4c1f6706]
  blindedElement := [toBeBytes 32 0xc8713aa89241d6989ac142f22dba30596db635c772cbf25021fdd8f3d461f715]
  evaluationElement := [toBeBytes 32 0x1a4b860d808ff19624731e67b5eff20ceb2df3c3c03b906f5693e2078450d874]
  proof := toBeBytes 64 0x41ad1a291aa02c80b0915fbfbb0c0afa15a57e2970067a602ddb9e8fd6b7100de32e1ecff943a36f0b10e3dae6bd266cdeb8adf825d86ef27dbc6c0e30c52206
  proofRandomScalar := toBeBytes 32 0x222a5e897cf59db8145db8d16e597e8facb80ae7d4e26d9881aa6f61d645fc0e
  output := [toBeBytes 64 0xca688351e88afb1d841fde4401c79efebb2eb75e7998fa9737bd5a82a152406d38bd29f680504e54fd4587eddcf2f37a2617ac2fbd2993f7bdf45442ace7d221]


set_option maxHeartbeats 4000000 in
-- The kernel computation alone may exceed the default.
theorem poprf1_Key : poprfKey fastSuite poprf1 = true := by decide +kernel

set_option maxHeartbeats 4000000 in
-- The kernel computation alone may exceed the default.
theorem poprf1_Blind : poprfBlind fastSuite poprf1 = true := by decide +kernel

set_option maxHeartbeats 4000000 in
-- The kernel computation alone may exceed the default.
theorem poprf1_BlindEvaluate : poprfBlindEvaluate fastSuite poprf1 = true := by decide +kernel

set_option maxHeartbeats 4000000 in
-- The kernel computation alone may exceed the default.
theorem poprf1_Finalize : poprfFinalize fastSuite poprf1 = true := by decide +kernel

set_option maxHeartbeats 4000000 in
-- The kernel computation alone may exceed the default.
theorem poprf1_Evaluate : poprfEvaluate fastSuite poprf1 = true := by decide +kernel

theorem poprf1_passes : complete poprf1 = true ∧ poprf (Ristretto255Sha512 Ristretto.ristretto255) poprf1 = true := by
  rw [suite_eq]
  refine ⟨by decide +kernel, ?_⟩
  unfold poprf
  rw [poprf1_Key, poprf1_Blind, poprf1_BlindEvaluate, poprf1_Finalize, poprf1_Evaluate]
  rfl

def poprf2 : Vector where
  seed := toBeBytes 32 0xa3a3a3a3a3a3a3a3a3a3a3a3a3a3a3a3a3a3a3a3a3a3a3a3a3a3a3a3a3a3a3a3
  sksm := toBeBytes 32 0x145c79c108538421ac164ecbe131942136d5570b16d8bf41a24d4337da981e07
  pksm := toBeBytes 32 0xc647bef38497bc6ec077c22af65b696efa43bff3b4a1975a3e8e0a1c5a79d631
  input := [toBeBytes 17 0x5a5a5a5a5a5a5a5a5a5a5a5a5a5a5a5a5a]
  info := toBeBytes 9 0x7465737420696e666f
  keyInfo := toBeBytes 8 0x74657374206b6579
  blind := [toBeBytes 32 0x64d37aed22a27f5191de1c1d69fadb899d8862b58eb4220029e036ec4c1f6706]
  blindedElement := [toBeBytes 32 0xf0f0b209dd4d5f1844dac679acc7761b91a2e704879656cb7c201e82a99ab07d]
  evaluationElement := [toBeBytes 32 0x8c3c9d064c334c6991e99f286ea2301d1bde170b54003fb9c44c6d7bd6fc1540]
  proof := toBeBytes 64 0x4c39992d55ffba38232cdac88fe583af8a85441fefd7d1d4a8d0394cd1de77018bf135c174f20281b3341ab1f453fe72b0293a7398703384bed822bfdeec8908
  proofRandomScalar := toBeBytes 32 0x222a5e897cf59db8145db8d16e597e8facb80ae7d4e26d9881aa6f61d645fc0e
  output := [toBeBytes 64 0x7c6557b276a137922a0bcfc2aa2b35dd78322bd500235eb6d6b6f91bc5b56a52de2d65612d503236b321f5d0bebcbc52b64b92e426f29c9b8b69f52de98ae507]


set_option maxHeartbeats 4000000 in
-- The kernel computation alone may exceed the default.
theorem poprf2_Key : poprfKey fastSuite poprf2 = true := by decide +kernel

set_option maxHeartbeats 4000000 in
-- The kernel computation alone may exceed the default.
theorem poprf2_Blind : poprfBlind fastSuite poprf2 = true := by decide +kernel

set_option maxHeartbeats 4000000 in
-- The kernel computation alone may exceed the default.
theorem poprf2_BlindEvaluate : poprfBlindEvaluate fastSuite poprf2 = true := by decide +kernel

set_option maxHeartbeats 4000000 in
-- The kernel computation alone may exceed the default.
theorem poprf2_Finalize : poprfFinalize fastSuite poprf2 = true := by decide +kernel

set_option maxHeartbeats 4000000 in
-- The kernel computation alone may exceed the default.
theorem poprf2_Evaluate : poprfEvaluate fastSuite poprf2 = true := by decide +kernel

theorem poprf2_passes : complete poprf2 = true ∧ poprf (Ristretto255Sha512 Ristretto.ristretto255) poprf2 = true := by
  rw [suite_eq]
  refine ⟨by decide +kernel, ?_⟩
  unfold poprf
  rw [poprf2_Key, poprf2_Blind, poprf2_BlindEvaluate, poprf2_Finalize, poprf2_Evaluate]
  rfl

def poprf3 : Vector where
  seed := toBeBytes 32 0xa3a3a3a3a3a3a3a3a3a3a3a3a3a3a3a3a3a3a3a3a3a3a3a3a3a3a3a3a3a3a3a3
  sksm := toBeBytes 32 0x145c79c108538421ac164ecbe131942136d5570b16d8bf41a24d4337da981e07
  pksm := toBeBytes 32 0xc647bef38497bc6ec077c22af65b696efa43bff3b4a1975a3e8e0a1c5a79d631
  input := [toBeBytes 1 0x00, toBeBytes 17 0x5a5a5a5a5a5a5a5a5a5a5a5a5a5a5a5a5a]
  info := toBeBytes 9 0x7465737420696e666f
  keyInfo := toBeBytes 8 0x74657374206b6579
  blind := [toBeBytes 32 0x64d37aed22a27f5191de1c1d69fadb899d8862b58eb4220029e036ec4c1f6706, toBeBytes 32 0x222a5e897cf59db8145db8d16e597e8facb80ae7d4e26d9881aa6f61d645fc0e]
  blindedElement := [toBeBytes 32 0xc8713aa89241d6989ac142f22dba30596db635c772cbf25021fdd8f3d461f715, toBeBytes 32 0x423a01c072e06eb1cce96d23acce06e1ea64a609d7ec9e9023f3049f2d64e50c]
  evaluationElement := [toBeBytes 32 0x1a4b860d808ff19624731e67b5eff20ceb2df3c3c03b906f5693e2078450d874, toBeBytes 32 0xaa1f16e903841036e38075da8a46655c94fc92341887eb5819f46312adfc0504]
  proof := toBeBytes 64 0x43fdb53be399cbd3561186ae480320caa2b9f36cca0e5b160c4a677b8bbf4301b28f12c36aa8e11e5a7ef551da0781e863a6dc8c0b2bf5a149c9e00621f02006
  proofRandomScalar := toBeBytes 32 0x419c4f4f5052c53c45f3da494d2b67b220d02118e0857cdbcf037f9ea84bbe0c
  output := [toBeBytes 64 0xca688351e88afb1d841fde4401c79efebb2eb75e7998fa9737bd5a82a152406d38bd29f680504e54fd4587eddcf2f37a2617ac2fbd2993f7bdf45442ace7d221, toBeBytes 64 0x7c6557b276a137922a0bcfc2aa2b35dd78322bd500235eb6d6b6f91bc5b56a52de2d65612d503236b321f5d0bebcbc52b64b92e426f29c9b8b69f52de98ae507]


set_option maxHeartbeats 4000000 in
-- The kernel computation alone may exceed the default.
theorem poprf3_Key : poprfKey fastSuite poprf3 = true := by decide +kernel

set_option maxHeartbeats 4000000 in
-- The kernel computation alone may exceed the default.
theorem poprf3_Blind : poprfBlind fastSuite poprf3 = true := by decide +kernel

set_option maxHeartbeats 4000000 in
-- The kernel computation alone may exceed the default.
theorem poprf3_BlindEvaluate : poprfBlindEvaluate fastSuite poprf3 = true := by decide +kernel

set_option maxHeartbeats 4000000 in
-- The kernel computation alone may exceed the default.
theorem poprf3_Finalize : poprfFinalize fastSuite poprf3 = true := by decide +kernel

set_option maxHeartbeats 4000000 in
-- The kernel computation alone may exceed the default.
theorem poprf3_Evaluate : poprfEvaluate fastSuite poprf3 = true := by decide +kernel

theorem poprf3_passes : complete poprf3 = true ∧ poprf (Ristretto255Sha512 Ristretto.ristretto255) poprf3 = true := by
  rw [suite_eq]
  refine ⟨by decide +kernel, ?_⟩
  unfold poprf
  rw [poprf3_Key, poprf3_Blind, poprf3_BlindEvaluate, poprf3_Finalize, poprf3_Evaluate]
  rfl

end Voprf.Exec.Ristretto
