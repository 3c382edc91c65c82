{
 "claims": [
  {
   "property": "C01",
   "status": "proved",
   "theorems": [
    "Voprf.C01_oprf_correct",
    "Voprf.C01_oprf_correct_deterministic"
   ],
   "note": ""
  },
  {
   "property": "C02",
   "status": "proved",
   "theorems": [
    "Voprf.C02_voprf_correct",
    "Voprf.C02_voprf_answers"
   ],
   "note": ""
  },
  {
   "property": "C03",
   "status": "proved",
   "theorems": [
    "Voprf.C03_voprf_batch_correct",
    "Voprf.C03_voprf_batch_answers"
   ],
   "note": ""
  },
  {
   "property": "C04",
   "status": "proved",
   "theorems": [
    "Voprf.C04_poprf_correct",
    "Voprf.C04_poprf_answers"
   ],
   "note": ""
  },
  {
   "property": "C05",
   "status": "proved",
   "theorems": [
    "Voprf.C05_poprf_batch_correct",
    "Voprf.C05_poprf_batch_answers"
   ],
   "note": ""
  },
  {
   "property": "C06",
   "status": "partial",
   "theorems": [
    "Voprf.C06_none_is_empty_partial",
    "Voprf.C06_evaluate_none_iff_collision",
    "Voprf.C06_evaluate_none_violation"
   ],
   "note": "False of the code for evaluate(input, None): C06_evaluate_none_violation is a witness, C06_evaluate_none_iff_collision says equality needs a hash collision; the interactive calls satisfy it (C06_none_is_empty_partial)."
  },
  {
   "property": "C07",
   "status": "proved",
   "theorems": [
    "Voprf.C07_oprf_deterministic",
    "Voprf.C07_voprf_deterministic",
    "Voprf.C07_poprf_deterministic"
   ],
   "note": ""
  },
  {
   "property": "C08",
   "status": "proved",
   "theorems": [
    "Voprf.C08_blinding_bijective",
    "Voprf.C08_same_distribution",
    "Voprf.C08_identity_input"
   ],
   "note": ""
  },
  {
   "property": "C09",
   "status": "proved",
   "theorems": [
    "Voprf.C09_voprf_batch",
    "Voprf.C09_voprf_single",
    "Voprf.C09_poprf_batch",
    "Voprf.C09_poprf_single",
    "Voprf.C09_poprf_batch_only"
   ],
   "note": ""
  },
  {
   "property": "C10",
   "status": "proved",
   "theorems": [
    "Voprf.C10_unique_challenge",
    "Voprf.C10_extraction",
    "Voprf.C10_false_statement_lucky",
    "Voprf.C10_voprf_finalize_sound",
    "Voprf.C10_poprf_finalize_sound",
    "Voprf.C10_poprf_batch_sound",
    "Voprf.C10_voprf_batch_sound"
   ],
   "note": ""
  },
  {
   "property": "C11",
   "status": "proved",
   "theorems": [
    "Voprf.C11_one_weight",
    "Voprf.C11_fraction",
    "Voprf.C11_composites"
   ],
   "note": ""
  },
  {
   "property": "C12",
   "status": "proved",
   "theorems": [
    "Voprf.C12_voprf_proof_shape",
    "Voprf.C12_poprf_proof_shape",
    "Voprf.C12_poprf_batch_proof_shape",
    "Voprf.C12_single_proof_shape",
    "Voprf.C12_simulation",
    "Voprf.C12_response_bijective",
    "Voprf.C12_simulated_verifies",
    "Voprf.C12_voprf_simulated_accepted",
    "Voprf.C12_poprf_simulated_accepted"
   ],
   "note": ""
  },
  {
   "property": "C13",
   "status": "proved",
   "theorems": [
    "Voprf.C13_voprf_finish",
    "Voprf.C13_voprf_batch",
    "Voprf.C13_poprf_finish",
    "Voprf.C13_voprf_finalize",
    "Voprf.C13_poprf_finalize",
    "Voprf.C13_poprf_finalize_errors"
   ],
   "note": ""
  },
  {
   "property": "C14",
   "status": "partial",
   "theorems": [
    "Voprf.C14_poprf_batch_no_panic_partial",
    "Voprf.C14_poprf_batch_panics"
   ],
   "note": "False of the code: C14_poprf_batch_panics proves the panic for every batch of more than 65535 items; up to 65535 items there is no panic."
  },
  {
   "property": "C15",
   "status": "partial",
   "theorems": [
    "Voprf.C15_poprf_one_to_one",
    "Voprf.C15_voprf_positions_partial",
    "Voprf.C15_voprf_truncates"
   ],
   "note": "Proved for POPRF; false for VOPRF (C15_voprf_truncates), where only the position-wise statement holds."
  },
  {
   "property": "C16",
   "status": "proved",
   "theorems": [
    "Voprf.C16_voprf_elementwise",
    "Voprf.C16_poprf_elementwise",
    "Voprf.C16_poprf_prepared"
   ],
   "note": ""
  },
  {
   "property": "C17",
   "status": "proved",
   "theorems": [
    "Voprf.C17_roundtrip",
    "Voprf.C17_reachable"
   ],
   "note": ""
  },
  {
   "property": "C18",
   "status": "proved",
   "theorems": [
    "Voprf.C18_lengths",
    "Voprf.C18_values",
    "Voprf.C18_outputs"
   ],
   "note": ""
  },
  {
   "property": "C19",
   "status": "proved",
   "theorems": [
    "Voprf.C19_total"
   ],
   "note": ""
  },
  {
   "property": "C20",
   "status": "proved",
   "theorems": [
    "Voprf.C20_valid",
    "Voprf.C20_new_with_key"
   ],
   "note": ""
  },
  {
   "property": "C21",
   "status": "proved",
   "theorems": [
    "Voprf.C21_prefix",
    "Voprf.C21_trailing"
   ],
   "note": ""
  },
  {
   "property": "C22",
   "status": "proved",
   "theorems": [
    "Voprf.C22_injective",
    "Voprf.C22_canonical"
   ],
   "note": ""
  },
  {
   "property": "C23",
   "status": "proved",
   "theorems": [
    "Voprf.C23_public_key",
    "Voprf.C23_deserialize_unchecked",
    "Voprf.C23_inconsistent_voprf",
    "Voprf.C23_inconsistent_poprf"
   ],
   "note": ""
  },
  {
   "property": "C24",
   "status": "proved",
   "theorems": [
    "Voprf.C24_first_candidate",
    "Voprf.C24_errors",
    "Voprf.C24_servers"
   ],
   "note": ""
  },
  {
   "property": "C25",
   "status": "partial",
   "theorems": [
    "Voprf.C25_same_string_same_key",
    "Voprf.C25_other_string_other_key",
    "Voprf.C25_equal_seed_length_partial",
    "Voprf.C25_unframed_seed_collides"
   ],
   "note": "False of the code in general: C25_unframed_seed_collides exhibits colliding (seed, info) pairs for every suite and mode. Proved: derivations that hash the same string give the same key (C25_same_string_same_key); derivations that hash different strings, or are for different modes, agree with probability at most 1/(number of non-zero scalars) over a random oracle (C25_other_string_other_key), in particular different (seed, info) with seeds of equal length (C25_equal_seed_length_partial)."
  },
  {
   "property": "C26",
   "status": "proved",
   "theorems": [
    "Voprf.C26_blind_local",
    "Voprf.C26_keys_local",
    "Voprf.C26_evaluate_local",
    "Voprf.C26_finalize_local",
    "Voprf.C26_blind_evaluate_local",
    "Voprf.C26_domain_separation"
   ],
   "note": ""
  },
  {
   "property": "C27",
   "status": "proved",
   "theorems": [
    "Voprf.C27_encodings",
    "Voprf.C27_oprf_outputs",
    "Voprf.C27_voprf_outputs",
    "Voprf.C27_poprf_outputs"
   ],
   "note": ""
  },
  {
   "property": "C28",
   "status": "proved",
   "theorems": [
    "Voprf.C28_challenge_injective",
    "Voprf.C28_composite_injective",
    "Voprf.C28_seed_injective",
    "Voprf.C28_kinds_disjoint"
   ],
   "note": ""
  },
  {
   "property": "C29",
   "status": "proved",
   "theorems": [
    "Voprf.C29_length_framing",
    "Voprf.C29_injective"
   ],
   "note": ""
  },
  {
   "property": "C30",
   "status": "proved",
   "theorems": [
    "Voprf.C30_oprf_finalize",
    "Voprf.C30_voprf_finalize",
    "Voprf.C30_voprf_batch",
    "Voprf.C30_poprf_finalize",
    "Voprf.C30_poprf_batch",
    "Voprf.C30_evaluate",
    "Voprf.C30_info_too_long"
   ],
   "note": ""
  },
  {
   "property": "C31",
   "status": "proved",
   "theorems": [
    "Voprf.C31_blind",
    "Voprf.C31_blind_total",
    "Voprf.C31_evaluate_identity"
   ],
   "note": ""
  },
  {
   "property": "C32",
   "status": "proved",
   "theorems": [
    "Voprf.C32_oprf",
    "Voprf.C32_voprf",
    "Voprf.C32_poprf",
    "Voprf.C32_long_identifier_panics",
    "Voprf.C32_zero_blind_panics"
   ],
   "note": ""
  },
  {
   "property": "C33",
   "status": "proved",
   "theorems": [
    "Voprf.C33_nonzero"
   ],
   "note": ""
  },
  {
   "property": "C34",
   "status": "proved",
   "theorems": [
    "Voprf.C34_same_info_refused",
    "Voprf.C34_other_calls"
   ],
   "note": ""
  },
  {
   "property": "C35",
   "status": "proved",
   "theorems": [
    "Voprf.C35_messages_differ",
    "Voprf.C35_info_bound"
   ],
   "note": ""
  },
  {
   "property": "C36",
   "status": "proved",
   "theorems": [
    "Voprf.C36_other_key",
    "Voprf.C36_honest_server_other_key",
    "Voprf.C36_output_of_key",
    "Voprf.C36_voprf_batch_other_key",
    "Voprf.C36_poprf_batch_other_key",
    "Voprf.C36_poprf_other_key",
    "Voprf.C36_poprf_output_of_key"
   ],
   "note": ""
  },
  {
   "property": "C37",
   "status": "proved",
   "theorems": [
    "Voprf.C37_voprf",
    "Voprf.C37_voprf_batch",
    "Voprf.C37_poprf",
    "Voprf.C37_poprf_batch"
   ],
   "note": ""
  },
  {
   "property": "C38",
   "status": "proved",
   "theorems": [
    "Voprf.Serde.C38_scalar_field",
    "Voprf.Serde.C38_element_field",
    "Voprf.Serde.C38_roundtrip",
    "Voprf.Serde.C38_valid",
    "Voprf.Serde.C38_same_bytes",
    "Voprf.Serde.C38_voprf_client_map",
    "Voprf.Serde.C38_poprf_client_map",
    "Voprf.Serde.C38_voprf_server_map",
    "Voprf.Serde.C38_poprf_server_map",
    "Voprf.Serde.C38_proof_map",
    "Voprf.Serde.C38_oprf_map",
    "Voprf.Serde.C38_positional",
    "Voprf.Serde.C38_newtype",
    "Voprf.Serde.C38_agrees"
   ],
   "note": ""
  },
  {
   "property": "C39",
   "status": "partial",
   "theorems": [
    "Voprf.C39_states_partial",
    "Voprf.C39_messages_partial",
    "Voprf.C39_bytes_partial",
    "Voprf.C39_prepared_iterator_keeps_key"
   ],
   "note": "Which fields are overwritten, and with what; memory and compiler behaviour is outside the model. False of the iterators of batch_blind_evaluate_prepare, which keep a copy of the key (C39_prepared_iterator_keeps_key)."
  },
  {
   "property": "C40",
   "status": "proved",
   "theorems": [
    "Voprf.C40_blind",
    "Voprf.C40_oprf",
    "Voprf.C40_voprf",
    "Voprf.C40_voprf_batch",
    "Voprf.C40_poprf",
    "Voprf.C40_poprf_batch",
    "Voprf.C40_poprf_batch_finalize",
    "Voprf.C40_derive_key_pair",
    "Voprf.C40_poprf_evaluate_none_deviates"
   ],
   "note": ""
  },
  {
   "property": "C41",
   "status": "proved",
   "theorems": [
    "Voprf.C41_ristretto_contract",
    "Voprf.C41_ristretto_scalar_decoding",
    "Voprf.C41_ristretto_element_decoding",
    "Voprf.C41_ristretto_hash",
    "Voprf.C41_ristretto_invert",
    "Voprf.C41_ristretto255_parameters",
    "Voprf.C41_ristretto255_rfc9496",
    "Voprf.C41_ristretto255_contract",
    "Voprf.C41_ristretto255_element_decoding"
   ],
   "note": ""
  },
  {
   "property": "C42",
   "status": "proved",
   "theorems": [
    "Voprf.C42_nist_contract",
    "Voprf.C42_nist_serialize",
    "Voprf.C42_nist_element_decoding",
    "Voprf.C42_nist_element_not_canonical",
    "Voprf.C42_nist_element_fixed_length",
    "Voprf.C42_nist_scalar_decoding",
    "Voprf.C42_nist_hash_to_scalar",
    "Voprf.C42_nist_hash_to_curve",
    "Voprf.C42_nist_invert",
    "Voprf.Nist.Primeorder.C42_projective_arithmetic",
    "Voprf.Nist.Primeorder.C42_nist_projective_arithmetic",
    "Voprf.Nist.Primeorder.C42_from_okm",
    "Voprf.Nist.Primeorder.C42_nist_from_okm"
   ],
   "note": ""
  },
  {
   "property": "C43",
   "status": "proved",
   "theorems": [
    "Voprf.C43_nist_random_scalar",
    "Voprf.C43_ristretto_random_scalar"
   ],
   "note": ""
  },
  {
   "property": "C44",
   "status": "proved",
   "theorems": [
    "Voprf.C44_transparent",
    "Voprf.C44_oprf_reloads",
    "Voprf.C44_voprf_reloads",
    "Voprf.C44_poprf_reloads"
   ],
   "note": ""
  },
  {
   "property": "C45",
   "status": "proved",
   "theorems": [
    "Voprf.C45_oprf_history",
    "Voprf.C45_voprf_history",
    "Voprf.C45_poprf_history",
    "Voprf.C45_oprf_alone",
    "Voprf.C45_voprf_alone",
    "Voprf.C45_poprf_alone"
   ],
   "note": ""
  },
  {
   "property": "C46",
   "status": "proved",
   "theorems": [
    "Voprf.C46_blind_is_deterministic",
    "Voprf.C46_deterministic_value",
    "Voprf.C46_derive_key"
   ],
   "note": ""
  },
  {
   "property": "C47",
   "status": "proved",
   "theorems": [
    "Voprf.C47_instrumentation_faithful",
    "Voprf.C47_oprf_blind",
    "Voprf.C47_voprf_blind",
    "Voprf.C47_poprf_blind",
    "Voprf.C47_oprf_finalize",
    "Voprf.C47_voprf_batch_finalize",
    "Voprf.C47_poprf_batch_finalize",
    "Voprf.C47_voprf_finalize",
    "Voprf.C47_poprf_finalize",
    "Voprf.C47_oprf_blind_evaluate",
    "Voprf.C47_voprf_prepare",
    "Voprf.C47_poprf_prepare",
    "Voprf.C47_poprf_tweak",
    "Voprf.C47_voprf_finish",
    "Voprf.C47_poprf_finish",
    "Voprf.C47_voprf_batch_blind_evaluate",
    "Voprf.C47_poprf_batch_blind_evaluate",
    "Voprf.C47_voprf_blind_evaluate",
    "Voprf.C47_poprf_blind_evaluate",
    "Voprf.C47_oprf_evaluate",
    "Voprf.C47_voprf_evaluate",
    "Voprf.C47_poprf_evaluate",
    "Voprf.C47_oprf_new_from_seed",
    "Voprf.C47_voprf_new_from_seed",
    "Voprf.C47_poprf_new_from_seed",
    "Voprf.C47_oprf_new",
    "Voprf.C47_voprf_new",
    "Voprf.C47_poprf_new",
    "Voprf.C47_new_with_key",
    "Voprf.Leak.Curve.C47_nist_arithmetic_faithful",
    "Voprf.Leak.Curve.C47_nist_arithmetic",
    "Voprf.Leak.Curve.C47_nist_curves",
    "Voprf.Leak.Curve.C47_ristretto_arithmetic_faithful",
    "Voprf.Leak.Curve.C47_ristretto_arithmetic"
   ],
   "note": "About the crate's own control flow, on an instrumented copy of the model proved to compute the same results (C47_instrumentation_faithful). One group operation, one hash and one random_scalar is one event there. Inside the element operations (C47_nist_arithmetic, C47_ristretto_arithmetic) one field operation is one event, on the arithmetic modelled from the published source of the curve crates; the limb arithmetic of the field, inversion of scalars, the hash functions and random_scalar remain single events, and instruction timing is outside the model. Key derivation shows the number of rejected candidates, as in the statement. That every branch of the source is recorded by the instrumented copy rests on reading it next to the code (each definition cites its lines)."
  },
  {
   "property": "C48",
   "status": "proved",
   "theorems": [
    "Voprf.C48_ristretto255",
    "Voprf.C48_contract",
    "Voprf.C48_sizes",
    "Voprf.C48_order",
    "Voprf.C48_identifiers",
    "Voprf.C48_oprf_run",
    "Voprf.C48_voprf_run",
    "Voprf.C48_voprf_batch_run",
    "Voprf.C48_poprf_run",
    "Voprf.C48_poprf_batch_run"
   ],
   "note": ""
  },
  {
   "property": "C49",
   "status": "proved",
   "theorems": [
    "Voprf.C49_voprf",
    "Voprf.C49_voprf_output",
    "Voprf.C49_poprf",
    "Voprf.C49_poprf_output",
    "Voprf.C49_voprf_batch",
    "Voprf.C49_poprf_batch"
   ],
   "note": "hash_to_scalar is idealised as a uniformly random table (the usual random-oracle reading); group, codecs, hash_to_group and digest are the suite's own. The batch bound is for a public key (and info) fixed before the questions are asked."
  },
  {
   "property": "C50",
   "status": "proved",
   "theorems": [
    "Voprf.C50_voprf_forgery",
    "Voprf.C50_poprf_forgery",
    "Voprf.C50_item_error_zero",
    "Voprf.C50_voprf_cancelling_accepted",
    "Voprf.C50_voprf_accepted_cancels",
    "Voprf.C50_poprf_cancelling_accepted",
    "Voprf.C50_poprf_accepted_cancels"
   ],
   "note": "The decomposition holds for every lawful suite as it is; the forgery bounds read hash_to_scalar as a random oracle, as in C49, and count questions, not computing time."
  },
  {
   "property": "C51",
   "status": "proved",
   "theorems": [
    "Voprf.C51_oprf",
    "Voprf.C51_voprf",
    "Voprf.C51_poprf"
   ],
   "note": ""
  },
  {
   "property": "C52",
   "status": "proved",
   "theorems": [
    "Voprf.C52_voprf",
    "Voprf.C52_poprf"
   ],
   "note": ""
  },
  {
   "property": "C53",
   "status": "proved",
   "theorems": [
    "Voprf.C53_failed_answer",
    "Voprf.C53_failed_blind",
    "Voprf.C53_blind",
    "Voprf.C53_evaluate",
    "Voprf.C53_new",
    "Voprf.C53_consecutive",
    "Voprf.C53_voprf_nonce",
    "Voprf.C53_poprf_nonce",
    "Voprf.C53_voprf_nonce_reuse",
    "Voprf.C53_poprf_nonce_reuse"
   ],
   "note": ""
  },
  {
   "property": "C54",
   "status": "proved",
   "theorems": [
    "Voprf.C54_oprf",
    "Voprf.C54_voprf",
    "Voprf.C54_poprf",
    "Voprf.C54_oprf_independent",
    "Voprf.C54_voprf_independent",
    "Voprf.C54_poprf_independent"
   ],
   "note": ""
  },
  {
   "property": "C55",
   "status": "proved",
   "theorems": [
    "Voprf.C55_oprf",
    "Voprf.C55_voprf",
    "Voprf.C55_poprf"
   ],
   "note": ""
  },
  {
   "property": "C56",
   "status": "proved",
   "theorems": [
    "Voprf.C56_voprf",
    "Voprf.C56_poprf"
   ],
   "note": ""
  },
  {
   "property": "C57",
   "status": "proved",
   "theorems": [
    "Voprf.C57_blind",
    "Voprf.C57_oprf",
    "Voprf.C57_voprf_server",
    "Voprf.C57_voprf_client",
    "Voprf.C57_poprf_server",
    "Voprf.C57_poprf_client",
    "Voprf.C57_keys"
   ],
   "note": ""
  },
  {
   "property": "C58",
   "status": "proved",
   "theorems": [
    "Voprf.C58_eq",
    "Voprf.C58_eq_iff_bytes",
    "Voprf.C58_ord",
    "Voprf.C58_hash",
    "Voprf.C58_hash_separates"
   ],
   "note": ""
  },
  {
   "property": "C59",
   "status": "proved",
   "theorems": [
    "Sha2.C59_streams",
    "Sha2.C59_cut_irrelevant",
    "Sha2.C59_digest",
    "Sha2.C59_split"
   ],
   "note": ""
  },
  {
   "property": "C60",
   "status": "proved",
   "theorems": [
    "Voprf.Lazy.C60_schedule",
    "Voprf.Lazy.C60_voprf_prepare",
    "Voprf.Lazy.C60_poprf_prepare",
    "Voprf.Lazy.C60_voprf_finish",
    "Voprf.Lazy.C60_poprf_finish",
    "Voprf.Lazy.C60_voprf_finalize",
    "Voprf.Lazy.C60_poprf_finalize"
   ],
   "note": ""
  },
  {
   "property": "C61",
   "status": "proved",
   "theorems": [
    "Voprf.C61_programs",
    "Voprf.C61_enough",
    "Voprf.C61_nist_scalars",
    "Voprf.C61_nist_supply",
    "Voprf.C61_ristretto_scalars",
    "Voprf.C61_ristretto_supply",
    "Voprf.C61_blind",
    "Voprf.C61_events",
    "Voprf.C61_suites",
    "Voprf.C61_enough_suites"
   ],
   "note": ""
  },
  {
   "property": "C62",
   "status": "proved",
   "theorems": [
    "Voprf.C62_uniform",
    "Voprf.C62_failure",
    "Voprf.C62_new",
    "Voprf.C62_suites"
   ],
   "note": ""
  },
  {
   "property": "C63",
   "status": "proved",
   "theorems": [
    "Voprf.C63_oprf",
    "Voprf.C63_voprf",
    "Voprf.C63_poprf",
    "Voprf.C63_oprf_prf",
    "Voprf.C63_voprf_prf",
    "Voprf.C63_poprf_prf"
   ],
   "note": ""
  },
  {
   "property": "C64",
   "status": "proved",
   "theorems": [
    "Voprf.C64_oprf",
    "Voprf.C64_voprf",
    "Voprf.C64_poprf",
    "Voprf.C64_suites"
   ],
   "note": ""
  },
  {
   "property": "C65",
   "status": "proved",
   "theorems": [
    "Voprf.C65_voprf",
    "Voprf.C65_voprf_outputs",
    "Voprf.C65_poprf",
    "Voprf.C65_poprf_outputs",
    "Voprf.C65_voprf_batch",
    "Voprf.C65_poprf_batch",
    "Voprf.C65_suites"
   ],
   "note": ""
  },
  {
   "property": "C66",
   "status": "proved",
   "theorems": [
    "Voprf.C66_oprf",
    "Voprf.C66_voprf",
    "Voprf.C66_poprf",
    "Voprf.C66_ratio",
    "Voprf.C66_suites"
   ],
   "note": ""
  },
  {
   "property": "C67",
   "status": "proved",
   "theorems": [
    "Voprf.C67_voprf",
    "Voprf.C67_poprf",
    "Voprf.C67_suites"
   ],
   "note": ""
  },
  {
   "property": "C68",
   "status": "proved",
   "theorems": [
    "Voprf.C68_voprf",
    "Voprf.C68_poprf",
    "Voprf.C68_suites"
   ],
   "note": ""
  },
  {
   "property": "C69",
   "status": "proved",
   "theorems": [
    "Voprf.C69_blind",
    "Voprf.C69_oprf_finalize",
    "Voprf.C69_voprf_batch_finalize",
    "Voprf.C69_voprf_finalize",
    "Voprf.C69_poprf_batch_finalize",
    "Voprf.C69_poprf_finalize",
    "Voprf.C69_finish",
    "Voprf.C69_poprf_prepare",
    "Voprf.C69_poprf_tweak",
    "Voprf.C69_voprf_batch_blind_evaluate",
    "Voprf.C69_poprf_batch_blind_evaluate",
    "Voprf.C69_voprf_blind_evaluate",
    "Voprf.C69_poprf_blind_evaluate",
    "Voprf.C69_evaluate",
    "Voprf.C69_poprf_evaluate",
    "Voprf.C69_new_with_key",
    "Voprf.C69_new_from_seed"
   ],
   "note": ""
  },
  {
   "property": "C70",
   "status": "proved",
   "theorems": [
    "Voprf.C70_voprf",
    "Voprf.C70_poprf",
    "Voprf.C70_voprf_batch",
    "Voprf.C70_poprf_batch",
    "Voprf.C70_oprf",
    "Voprf.C70_oprf_tagging",
    "Voprf.C70_suites",
    "Voprf.C70_voprf_tape",
    "Voprf.C70_poprf_tape",
    "Voprf.C70_voprf_batch_tape",
    "Voprf.C70_poprf_batch_tape",
    "Voprf.C70_oprf_tape",
    "Voprf.C70_tape_suites"
   ],
   "note": ""
  },
  {
   "property": "C71",
   "status": "partial",
   "theorems": [
    "Voprf.C71_state_violation",
    "Voprf.C71_prepared_violation",
    "Voprf.C71_messages_partial",
    "Voprf.C71_distinguishes"
   ],
   "note": "Proved for everything that is sent. The code violates the property for clients, servers, blind results, prepared tweaks and prepared iterators: one reader recovers the blind or the private key of every such value from its text (C71_state_violation, C71_prepared_violation), for any self-delimiting format of scalars. The converse part (two values with the same text are equal) is proved for every type, for self-delimiting formats (C71_distinguishes)."
  },
  {
   "property": "C72",
   "status": "proved",
   "theorems": [
    "Voprf.C72_voprf",
    "Voprf.C72_poprf",
    "Voprf.C72_voprf_single",
    "Voprf.C72_poprf_single",
    "Voprf.C72_voprf_wire",
    "Voprf.C72_poprf_wire",
    "Voprf.C72_bytes",
    "Voprf.C72_suites"
   ],
   "note": "The channel may depend on the key and everything that is sent, but not on the table of hash_to_scalar (an adversary that asks hash_to_scalar is bounded in C65, for wrong values). Byte level for one batch call each (Exchange); canonical decoding is proved for Ristretto255 and fails for the NIST curves (C22)."
  },
  {
   "property": "C73",
   "status": "proved",
   "theorems": [
    "Voprf.C73_oprf",
    "Voprf.C73_voprf",
    "Voprf.C73_poprf",
    "Voprf.C73_oprf_finalize",
    "Voprf.C73_voprf_finalize",
    "Voprf.C73_poprf_finalize",
    "Voprf.C73_distinct",
    "Voprf.C73_suites"
   ],
   "note": "Keys are compared for one mode at a time: the final hash does not name the mode, so outputs of different modes are separated only by hash_to_group (C26). An explicit-collision version for any concrete hash is C27."
  },
  {
   "property": "C74",
   "status": "proved",
   "theorems": [
    "Voprf.C74_oprf",
    "Voprf.C74_voprf"
   ],
   "note": "OPRF and VOPRF; for POPRF the corresponding statement is C56 (two infos whose tweaks collide would let a solver count one product twice). A solver could name a target it never asked for and guess its product (chance 1/q)."
  },
  {
   "property": "C75",
   "status": "proved",
   "theorems": [
    "Voprf.C75_voprf_batch",
    "Voprf.C75_voprf_single",
    "Voprf.C75_poprf_batch",
    "Voprf.C75_poprf_single"
   ],
   "note": "The collision is explicit: Spec.ChallengeCollision names the two strings (collisions as such exist for every hash). Two accepted proofs with the same response and different challenges are not excluded."
  }
 ]
}
