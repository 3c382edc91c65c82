{"id": "C01", "title": "Base-mode OPRF: oblivious result equals direct evaluation", "statement": "If OprfClient::blind(input) succeeds and the server answers blind_evaluate on the resulting message, then finalize on that state with the same input returns exactly the byte string that OprfServer::evaluate(input) returns for the same key (whenever evaluate succeeds), and that string is Hash(len(input)||input||len(E)||E||\"Finalize\") with E the serialization of key*HashToGroup(input).", "quantifier": "every ciphersuite satisfying the Group contract, every key, every input of every length, every RNG state / blinding factor", "why_tests_cant": "Unit tests run one random input per curve; equality must hold for every blind, key and input length up to 65535.", "anchors": ["src/oprf.rs: OprfClient::blind, OprfClient::finalize, OprfServer::blind_evaluate, OprfServer::evaluate", "src/common.rs: deterministic_blind_unchecked, hash_to_group, server_evaluate_hash_input"]}
{"id": "C02", "title": "Verifiable OPRF: an honest run is accepted and yields the direct evaluation", "statement": "If VoprfClient::blind(input) succeeds and an honest VoprfServer (one made by any constructor) answers with blind_evaluate, then finalize with the server's message, proof and public key returns Ok, and the output equals VoprfServer::evaluate(input) whenever that succeeds.", "quantifier": "every lawful ciphersuite, key, input, client RNG and server RNG state", "why_tests_cant": "Completeness of the DLEQ proof is an algebraic identity over all scalars; tests sample a handful of keys.", "anchors": ["src/voprf.rs: VoprfClient::blind, VoprfClient::finalize, VoprfServer::blind_evaluate, VoprfServer::evaluate", "src/common.rs: generate_proof, verify_proof, compute_composites"]}
{"id": "C03", "title": "Verifiable OPRF batches: one proof covers any batch up to 65535 items", "statement": "For any list of at most 65535 inputs blinded by clients, the messages and single proof returned by VoprfServer::batch_blind_evaluate (or prepare+finish) are accepted by VoprfClient::batch_finalize, and the i-th result is the direct evaluation of the i-th input.", "quantifier": "every batch size 0..65535, every list of inputs, blinds, keys and RNG states", "why_tests_cant": "Tests use a batch of 10 (or 2 in the vectors); the claim is an induction over the batch.", "anchors": ["src/voprf.rs: batch_blind_evaluate, batch_blind_evaluate_prepare, batch_blind_evaluate_finish, batch_finalize, verifiable_unblind", "src/common.rs: compute_composites"]}
{"id": "C04", "title": "Partially-oblivious mode: an honest run with public info is accepted and yields the direct evaluation", "statement": "For info = Some(bytes): if PoprfClient::blind succeeds and PoprfServer::blind_evaluate(message, info) succeeds then finalize(.., pk, info) succeeds and returns the same output as PoprfServer::evaluate(input, info) whenever that succeeds.", "quantifier": "every lawful ciphersuite, key, info string, input and RNG states", "why_tests_cant": "Needs the tweak inversion and tweaked-key algebra for every key/info pair.", "anchors": ["src/poprf.rs: PoprfClient::finalize, PoprfServer::blind_evaluate, PoprfServer::evaluate, compute_tweak, compute_tweaked_key, poprf_unblind"]}
{"id": "C05", "title": "Partially-oblivious batches: one proof covers any batch up to 65535 items", "statement": "For any list of at most 65535 blinded inputs and any info, prepare+finish (or batch_blind_evaluate) produces messages and one proof accepted by PoprfClient::batch_finalize with the same info and the server's public key, the i-th output being the output of a single run on the i-th input.", "quantifier": "every batch size 0..65535, inputs, blinds, keys, info, RNG states", "why_tests_cant": "Repository tests have no POPRF batch beyond the RFC vector of size 2.", "anchors": ["src/poprf.rs: batch_blind_evaluate, batch_blind_evaluate_prepare, batch_blind_evaluate_finish, batch_finalize"]}
{"id": "C06", "title": "POPRF: omitted info is the same as empty info", "statement": "Passing info = None gives exactly the result of passing info = Some(b\"\") in blind_evaluate, batch preparation, finalize and batch_finalize, and in evaluate; hence evaluate(input, None) equals the client's finalize with None.", "quantifier": "every key, input, message, proof, RNG state", "why_tests_cant": "No test passes None. (The evaluate half is false of the code: evaluate(None) hashes a transcript without the info frame.)", "anchors": ["src/poprf.rs: compute_tweak, compute_tweaked_key, poprf_unblind, finalize_after_unblind, PoprfServer::evaluate", "src/common.rs: server_evaluate_hash_input"]}
{"id": "C07", "title": "The PRF output does not depend on the blinding factor or any RNG", "statement": "Two independent runs (different client RNGs, different server RNGs, different batch composition) on the same input, key (and info) return byte-identical outputs.", "quantifier": "every pair of RNG states and blinding factors, every input and key, all three modes", "why_tests_cant": "A test can only compare finitely many pairs of random runs.", "anchors": ["src/oprf.rs: blind, finalize", "src/voprf.rs: blind, finalize", "src/poprf.rs: blind, finalize"]}
{"id": "C08", "title": "Obliviousness: the blinded message is statistically independent of the input", "statement": "For any input not hashing to the identity, the map from non-zero blinding factor to transmitted BlindedElement is a bijection onto the non-identity group elements; so for any two such inputs and any transmitted message there is exactly one blinding factor per input explaining it.", "quantifier": "every input (or pair of inputs) and every blinding factor / message", "why_tests_cant": "Perfect hiding is a statement about the whole distribution; no sample can establish it.", "anchors": ["src/common.rs: deterministic_blind_unchecked", "src/oprf.rs, src/voprf.rs, src/poprf.rs: blind"]}
{"id": "C09", "title": "No output without a verifying proof", "statement": "VoprfClient/PoprfClient finalize and batch_finalize return an output (any output, for a batch) only if the recomputed challenge equals the challenge in the proof; otherwise the whole call returns Error::ProofVerification and no output at all is released.", "quantifier": "every client state list, message list, proof, public key and info, including adversarial ones", "why_tests_cant": "Tests try one wrong public key; the guarantee is over all adversarial messages.", "anchors": ["src/common.rs: verify_proof", "src/voprf.rs: verifiable_unblind, batch_finalize", "src/poprf.rs: poprf_unblind, batch_finalize"]}
{"id": "C10", "title": "Proof soundness: a wrong evaluation is accepted only by predicting the hash", "statement": "If a proof (c,s) is accepted for public key B and composites (M,Z) but Z is not the key-multiple of M, then c equals a value determined by (M,Z) and the commitments alone, i.e. for each pair of commitments at most one challenge value can be answered; so acceptance of a false statement forces HashToScalar of the transcript to hit that one value. Consequently two accepted proofs on the same commitments with different challenges extract the correct key relation.", "quantifier": "every adversarial proof, message and public key", "why_tests_cant": "Soundness is a universal statement over forged proofs.", "anchors": ["src/common.rs: verify_proof, generate_proof"]}
{"id": "C11", "title": "Batch soundness: one bad element spoils all but a 1/q fraction of composite weights", "statement": "If some evaluation element in a batch is not the key-multiple of its blinded element then, among all q^n assignments of composite weights, exactly q^(n-1) make the composite statement true; in particular for fixed other weights exactly one weight of the bad item does.", "quantifier": "every batch size n, every batch with at least one bad item, every key", "why_tests_cant": "A counting statement over all weight vectors.", "anchors": ["src/common.rs: compute_composites"]}
{"id": "C12", "title": "Proofs are simulatable (reveal nothing about the key beyond the statement)", "statement": "For every challenge c and response s there are commitments making the verification equations hold without the key, and for a fixed challenge the map from the prover's random scalar to the response s is a bijection of the scalar field, so (commitments, c, s) is distributed as in the simulation.", "quantifier": "every key, statement, challenge and nonce", "why_tests_cant": "A statement about the whole distribution of proofs.", "anchors": ["src/common.rs: generate_proof, verify_proof"]}
{"id": "C13", "title": "Batch limits: Error::Batch exactly on length mismatch or more than 65535 items", "statement": "VoprfServer::batch_blind_evaluate(_finish), PoprfServer::batch_blind_evaluate_finish, VoprfClient::batch_finalize and PoprfClient::batch_finalize return Error::Batch if and only if the paired lists differ in length or have more than 65535 items (for POPRF batch_finalize also when the inputs count differs); 65535 items are accepted.", "quantifier": "every list length, including the exact boundary 65535/65536", "why_tests_cant": "Nobody tests 65536-item batches; the boundary is a universal arithmetic fact.", "anchors": ["src/common.rs: compute_composites", "src/voprf.rs: batch_blind_evaluate_finish, batch_finalize", "src/poprf.rs: batch_blind_evaluate_finish"]}
{"id": "C14", "title": "POPRF allocating batch evaluation reports an oversized batch as an error, not a panic", "statement": "PoprfServer::batch_blind_evaluate never panics: a batch of more than 65535 items yields an Error. (False of the code: it unwraps Error::Batch and panics, while the VOPRF counterpart returns Error::Batch.)", "quantifier": "every batch length and info", "why_tests_cant": "A 65536-item batch is outside every test.", "anchors": ["src/poprf.rs: PoprfServer::batch_blind_evaluate", "src/voprf.rs: VoprfServer::batch_blind_evaluate"]}
{"id": "C15", "title": "batch_finalize pairs outputs with inputs one to one", "statement": "On success the number of results of batch_finalize equals the number of clients, result i being computed from input i, client i, message i; a differing number of inputs is rejected with Error::Batch. (POPRF: holds. VOPRF: fewer inputs than clients silently truncates the results and surplus inputs are ignored.)", "quantifier": "every triple of list lengths", "why_tests_cant": "Mismatched lengths are not exercised by tests.", "anchors": ["src/voprf.rs: batch_finalize", "src/poprf.rs: batch_finalize"]}
{"id": "C16", "title": "Batch evaluation is element-wise single evaluation in the same order", "statement": "The i-th message of any batch evaluation equals the message blind_evaluate returns for the i-th blinded element; prepare+collect+finish returns the same messages and proof as the allocating batch call with the same RNG; the single call is the batch call on one element.", "quantifier": "every list of blinded elements, key, info, RNG state", "why_tests_cant": "Order/agreement is an induction over arbitrary batches.", "anchors": ["src/voprf.rs: blind_evaluate, batch_blind_evaluate*", "src/poprf.rs: blind_evaluate, batch_blind_evaluate*"]}
{"id": "C17", "title": "Serialization round-trips for all nine wire types", "statement": "deserialize(serialize(x)) = Ok(x) for OprfClient, VoprfClient, PoprfClient, OprfServer, VoprfServer, PoprfServer, BlindedElement, EvaluationElement and Proof, exactly when every scalar in x is non-zero and every element is not the identity.", "quantifier": "every value of each type, every lawful ciphersuite", "why_tests_cant": "Tests only check that arbitrary bytes do not crash; round trip is for all values.", "anchors": ["src/serialization.rs"]}
{"id": "C18", "title": "Serialized sizes are the published constants", "statement": "serialize of each type returns exactly OprfClientLen / VoprfClientLen / ... / ProofLen bytes, independent of content and batch size; every output of finalize, batch_finalize and evaluate has exactly the length of the suite's hash.", "quantifier": "every value of every type", "why_tests_cant": "Universal over values.", "anchors": ["src/serialization.rs: *Len types"]}
{"id": "C19", "title": "Deserialization is total: short or malformed bytes give Error::Deserialization, never a panic", "statement": "For every byte string, each deserialize returns Ok or Error::Deserialization; any string shorter than the type's length gives Error::Deserialization.", "quantifier": "every byte string of every length", "why_tests_cant": "proptest samples lengths 0..200 only.", "anchors": ["src/serialization.rs: deserialize_elem, deserialize_scalar, take_ext"]}
{"id": "C20", "title": "Nothing invalid can be deserialized", "statement": "A value obtained from any deserialize (or new_with_key) contains no identity element and no zero scalar.", "quantifier": "every byte string", "why_tests_cant": "Tests check one byte string per curve.", "anchors": ["src/serialization.rs", "src/group/ristretto.rs: deserialize_elem, deserialize_scalar", "src/group/elliptic_curve.rs: deserialize_elem, deserialize_scalar"]}
{"id": "C21", "title": "Deserialization reads a fixed prefix and ignores what follows", "statement": "deserialize(bytes) depends only on the first Len bytes: appending anything to an accepted string yields the same value; trailing bytes are not rejected.", "quantifier": "every byte string and suffix", "why_tests_cant": "Universal over suffixes; also documents malleability users must know.", "anchors": ["src/serialization.rs: take_ext, deserialize"]}
{"id": "C22", "title": "Serialization is injective", "statement": "Two values of the same type with equal serializations are equal (including values that cannot be deserialized, such as those containing the identity or zero).", "quantifier": "every pair of values", "why_tests_cant": "Universal over pairs.", "anchors": ["src/serialization.rs", "src/group/mod.rs: serialize_elem, serialize_scalar"]}
{"id": "C23", "title": "Public key always matches the private key for constructed servers", "statement": "VoprfServer/PoprfServer built by new, new_with_key or new_from_seed satisfy get_public_key() = base * sk; after deserialize this holds iff the encoded pair was consistent (deserialize does not check it), and an inconsistent pair makes every single honest-looking proof of the VOPRF server depend on a hash coincidence to verify.", "quantifier": "every seed, info, key bytes, RNG, and every serialized state", "why_tests_cant": "Needs all constructors and all bytes.", "anchors": ["src/voprf.rs: new, new_with_key, new_from_seed, get_public_key", "src/poprf.rs: same", "src/common.rs: derive_keypair", "src/serialization.rs: VoprfServer::deserialize"]}
{"id": "C24", "title": "Key derivation is deterministic, returns the first non-zero candidate, and fails exactly as specified", "statement": "new_from_seed/derive_key returns the HashToScalar value of the least counter in 0..=255 whose value is non-zero; it never returns zero; Error::DeriveKeyPair exactly when info is longer than 65535 bytes or the group's hash refuses; Error::Protocol exactly when all 256 candidates are zero.", "quantifier": "every seed, info, mode; every hash function behaviour", "why_tests_cant": "Retry branches have negligible probability under real hashes, no test reaches them.", "anchors": ["src/common.rs: derive_key_internal, derive_key, derive_keypair"]}
{"id": "C25", "title": "Key derivation binds seed and info", "statement": "Distinct (seed, info) pairs feed distinct byte strings to the hash. (False of the code in general: the seed is not length-framed, so e.g. (\"\", 0x0000) and (0x0002, \"\") derive the same key; true for seeds of equal length.)", "quantifier": "every pair of (seed, info) pairs", "why_tests_cant": "Universal over pairs; collision is structural.", "anchors": ["src/common.rs: derive_key_internal"]}
{"id": "C26", "title": "Domain separation between purposes, modes and ciphersuites", "statement": "The domain-separation strings used for hash-to-group, hash-to-scalar, key derivation and proof seeds differ whenever purpose, mode or ciphersuite identifier differ (injective encoding). Every call of the API consults its hashes only under the tags of its own mode and purpose: replacing a suite's hash functions by any others that agree on those tags changes no result.", "quantifier": "every pair of (purpose, mode, suite id), suite ids arbitrary strings; for the second part every suite, all arguments and all replacements of the two hash functions", "why_tests_cant": "Suite ids are arbitrary; injectivity is a universal claim.", "anchors": ["src/common.rs: Dst::new, Dst::as_dst, STR_*", "src/common.rs: Mode::to_u8"]}
{"id": "C27", "title": "The output transcript is an injective encoding", "statement": "The byte string hashed to produce an output determines (input, element) in OPRF/VOPRF and (input, info, element) in POPRF, and no OPRF/VOPRF transcript equals a POPRF transcript (except that PoprfServer::evaluate without info hashes the OPRF form, see C06); so two outputs agree only if the inputs agree or the hash collides.", "quantifier": "every pair of inputs, infos, elements within length limits", "why_tests_cant": "Injectivity over all byte strings.", "anchors": ["src/common.rs: server_evaluate_hash_input", "src/oprf.rs, src/voprf.rs, src/poprf.rs: finalize_after_unblind"]}
{"id": "C28", "title": "Proof transcripts are injective encodings", "statement": "The challenge transcript determines (B,M,Z,t2,t3); a composite transcript determines (seed, index, C_i, D_i); the seed transcript determines (B, domain). Challenge, composite and info transcripts (hashed under the same domain) are pairwise distinct.", "quantifier": "every tuple of elements and indices", "why_tests_cant": "Injectivity over all values.", "anchors": ["src/common.rs: generate_proof, verify_proof, compute_composites", "src/poprf.rs: compute_tweak"]}
{"id": "C29", "title": "Two-byte big-endian length framing is exact", "statement": "Lengths 0..=65535 are encoded as the two big-endian bytes and decode back; every larger length is refused, never truncated.", "quantifier": "every natural number length", "why_tests_cant": "Boundary and injectivity over the whole range.", "anchors": ["src/common.rs: i2osp_2, i2osp_2_array, Dst::i2osp_2"]}
{"id": "C30", "title": "Oversized inputs and info are refused with the documented error", "statement": "With a verifying proof, finalize returns Error::Input for an input longer than 65535 bytes and Ok otherwise; in a batch only that item's result fails; evaluate returns Error::Input for such inputs; POPRF calls return Error::Info for info longer than 65535 before doing anything else.", "quantifier": "every input and info length", "why_tests_cant": "65536-byte inputs are never tested.", "anchors": ["src/oprf.rs: finalize, evaluate", "src/voprf.rs: finalize_after_unblind", "src/poprf.rs: compute_tweak, compute_tweaked_key"]}
{"id": "C31", "title": "blind rejects exactly what the group hash rejects", "statement": "blind returns Error::Input if and only if the group's hash-to-curve refuses the input, and otherwise succeeds; it performs no length or identity check itself. With the two shipped groups nothing is refused, so (contrary to the rustdoc) empty and over-long inputs are blinded successfully.", "quantifier": "every input of every length, every lawful group", "why_tests_cant": "Documentation promises a rejection; only an all-inputs statement shows when it happens.", "anchors": ["src/oprf.rs, src/voprf.rs, src/poprf.rs: blind", "src/common.rs: hash_to_group", "src/group/*.rs: hash_to_curve"]}
{"id": "C32", "title": "No panic through the safe API", "statement": "No public non-danger function panics on values obtained through the safe API (constructors, blind, deserialize), for a ciphersuite whose identifier fits the DST limit and whose hashes do not refuse; except the two call sites recorded under C14.", "quantifier": "every reachable value, every argument", "why_tests_cant": "Panics hide behind unwrap calls justified by comments; all call sites must be covered.", "anchors": ["src/common.rs: unwrap in generate_proof, verify_proof, compute_composites, Dst::new", "src/voprf.rs: blind_evaluate", "src/poprf.rs: compute_tweak, blind_evaluate", "src/group/elliptic_curve.rs: invert_scalar"]}
{"id": "C33", "title": "Secret scalars are never zero", "statement": "Blinding factors chosen by blind, private keys of constructed or deserialized servers and POPRF tweaks are non-zero (hence invertible).", "quantifier": "every RNG, seed, byte string, info", "why_tests_cant": "Zero has probability 2^-252, no test hits it.", "anchors": ["src/group/ristretto.rs: random_scalar", "src/group/elliptic_curve.rs: random_scalar", "src/common.rs: derive_key_internal", "src/poprf.rs: compute_tweak"]}
{"id": "C34", "title": "POPRF client and server refuse the same info", "statement": "For a server with a consistent key pair and any info, the server refuses the info with Error::Protocol (in blind_evaluate, batch_blind_evaluate, batch_blind_evaluate_prepare, and evaluate of any input that hashes to a non-identity element) if and only if the client does (in finalize and batch_finalize): exactly for an info within limits whose hash is the negative of the private key.", "quantifier": "every key, info, request, batch, proof and RNG", "why_tests_cant": "The failing case needs info hashing to -sk.", "anchors": ["src/poprf.rs: compute_tweak, compute_tweaked_key, PoprfServer::blind_evaluate, PoprfServer::batch_blind_evaluate, PoprfServer::batch_blind_evaluate_prepare, PoprfServer::evaluate, PoprfClient::finalize, PoprfClient::batch_finalize"]}
{"id": "C35", "title": "POPRF output and proof are bound to info", "statement": "If two infos hash to different scalars then the server's messages for the same non-identity blinded element differ, and a response produced under one info is accepted under the other only if the challenge hash coincides with the single answerable value.", "quantifier": "every pair of infos, key, blinded element", "why_tests_cant": "Universal over pairs.", "anchors": ["src/poprf.rs: compute_tweak, compute_tweaked_key, poprf_unblind"]}
{"id": "C36", "title": "A response made with a different key is not accepted under the pinned public key", "statement": "For an honest server with key k and any other public key pk' != base*k, a response to a non-identity composite is accepted under pk' only if the challenge hash hits the single answerable value; and whenever a finalize is accepted for a true statement the output is the one determined by pk'.", "quantifier": "every pair of keys, VOPRF and POPRF (any info), single requests and batches of every size, every proof", "why_tests_cant": "Tests try a single wrong key.", "anchors": ["src/voprf.rs: finalize, batch_finalize", "src/poprf.rs: finalize, batch_finalize", "src/common.rs: verify_proof"]}
{"id": "C37", "title": "The verified output is a function of the public key and input only", "statement": "Any two accepted VOPRF finalizations of the same input under the same public key, both for true statements, return the same output, whatever servers, blinds, batches or networks were involved; in POPRF mode the same holds for the same info.", "quantifier": "every pair of accepted runs, including adversarial servers", "why_tests_cant": "Universal over pairs of executions.", "anchors": ["src/voprf.rs: finalize, batch_finalize", "src/poprf.rs: finalize, batch_finalize"]}
{"id": "C38", "title": "serde encoding round-trips and enforces the same validity rules", "statement": "For every serde-enabled type, deserializing the serialized form gives back the value when it is valid; encodings of identity/zero, wrong lengths or missing fields are rejected.", "quantifier": "every value and every data-model tree", "why_tests_cant": "Not tested at all in the repository.", "anchors": ["src/serialization.rs: mod serde", "src/common.rs, src/oprf.rs, src/voprf.rs, src/poprf.rs: derive(Serialize, Deserialize)"]}
{"id": "C39", "title": "Dropping a secret-bearing value erases it", "statement": "After drop every field of client/server/message/proof/tweak types has been zeroized, so its serialization is all zero bytes and no longer depends on the secret. (False of the lazy iterators returned by batch_blind_evaluate_prepare: they hold a copy of the private key, for POPRF of the tweak, which dropping does not erase.)", "quantifier": "every value of each type", "why_tests_cant": "Tests read freed stack memory for one value; the logical part (all fields covered) is universal. The memory-level part (compiler copies) is outside a model.", "anchors": ["derive_where(ZeroizeOnDrop) on all structs"]}
{"id": "C40", "title": "Conformance with RFC 9497", "statement": "Each protocol function computes exactly the RFC 9497 pseudo-code function of the same name (Blind, BlindEvaluate, Finalize, Evaluate, GenerateProof, VerifyProof, ComputeComposites(Fast), DeriveKeyPair) on all inputs, except for the listed deviations (no identity check in Blind; POPRF Evaluate without info).", "quantifier": "every input of every function", "why_tests_cant": "RFC vectors cover a dozen inputs.", "anchors": ["src/common.rs", "src/oprf.rs", "src/voprf.rs", "src/poprf.rs"]}
{"id": "C41", "title": "The Ristretto255 group implementation meets the Group contract", "statement": "Canonical 32-byte scalars only; zero and the identity are refused; round trips; 32-byte lengths; random scalars non-zero; hashes never fail for a non-empty DST; elements are those of ristretto255 (RFC 9496), of prime order, and exactly their canonical encodings are accepted.", "quantifier": "every byte string, scalar, point", "why_tests_cant": "Universal over 2^256 strings.", "anchors": ["src/group/ristretto.rs"]}
{"id": "C42", "title": "The NIST-curve group implementation meets the Group contract", "statement": "Compressed SEC1 encodings of fixed length with the identity padded to zeros; identity/zero/out-of-range refused; round trips; inversion panics only on zero. Whatever is computed with the projective point arithmetic behind the elements (sums, differences, multiples; equal, opposite or identity operands included) is the element the group law prescribes, and elements compare equal exactly when they are.", "quantifier": "every byte string, scalar, point, expression over points", "why_tests_cant": "Universal.", "anchors": ["src/group/elliptic_curve.rs"]}
{"id": "C43", "title": "Random scalar generation returns the first acceptable sample and never zero", "statement": "random_scalar repeatedly draws from the RNG and returns the first acceptable non-zero value; it terminates exactly when the RNG eventually supplies one, and its result is never zero.", "quantifier": "every RNG behaviour (infinite stream)", "why_tests_cant": "A zero sample has negligible probability under real RNGs.", "anchors": ["src/group/ristretto.rs: random_scalar", "src/group/elliptic_curve.rs: random_scalar"]}
{"id": "C44", "title": "Crash/restart transparency: protocol survives serialization at any point", "statement": "Replacing any client state, server state, message or proof by deserialize(serialize(.)) at any point of any history, any number of times, does not change any session, answer or outcome. The only values that cannot be read back are a message whose input hashes to the identity element and a proof with a zero scalar; these are refused with Error::Deserialization, never silently changed.", "quantifier": "all histories of one server and any number of clients, all three modes, all placements of reloads", "why_tests_cant": "All crash points times all values.", "anchors": ["src/serialization.rs", "src/oprf.rs", "src/voprf.rs", "src/poprf.rs"]}
{"id": "C45", "title": "Interleaving independence", "statement": "A server answering any sequence of requests from any number of clients in any order, with duplicates, gives each request the answer it would have received alone; every client that finalizes an answer to its own request obtains the PRF value of its input.", "quantifier": "every history/schedule of blind, deliver, duplicate, reorder, evaluate, finalize steps", "why_tests_cant": "Schedules are unbounded.", "anchors": ["src/oprf.rs", "src/voprf.rs", "src/poprf.rs"]}
{"id": "C46", "title": "Danger API consistency", "statement": "deterministic_blind_unchecked with the scalar the RNG would have produced equals blind; derive_key equals the key of new_from_seed; from_value_unchecked/value are inverse.", "quantifier": "every input, scalar, seed", "why_tests_cant": "Universal.", "anchors": ["src/oprf.rs, src/voprf.rs, src/poprf.rs: deterministic_blind_unchecked", "src/common.rs: derive_key"]}
{"id": "C47", "title": "Control flow independent of secrets", "statement": "In every API call that succeeds, the sequence of group operations, hashes, conditional branches and early returns, and the lengths of all byte strings hashed, are the same for all keys, blinds, random generators, inputs, messages and proofs: they depend only on the lengths of the input, the info, the seed and the key, on whether an info is present, and on the batch size. Key generation in addition shows how many candidate scalars were rejected. Within one addition, subtraction, multiplication or comparison of elements, one mapping of field elements (or bytes) to the curve, and one Ristretto encoding, the sequence of field operations, constant-time selections, table accesses (with their indices) and branches is the same for all points, scalars and field elements.", "quantifier": "every pair of successful executions of the same API function, with any two keys, blinds, random generators, inputs of equal length, elements, proofs and any batch size", "why_tests_cant": "It compares all pairs of executions; a secret-dependent branch may be taken for a single key.", "anchors": ["src/common.rs: verify_proof, generate_proof, compute_composites, derive_key_internal, server_evaluate_hash_input", "src/oprf.rs, src/voprf.rs, src/poprf.rs: all client and server functions", "src/group/elliptic_curve.rs, src/group/ristretto.rs: element operations, hash_to_curve, serialize_elem"]}
{"id": "C48", "title": "The shipped ciphersuites meet every assumption of the other properties", "statement": "For P256-SHA256, P384-SHA384, P521-SHA512 and ristretto255-SHA512 the group has prime order exactly the published one, the codecs, hashes and sizes are as the Group contract requires, the suite identifiers are pairwise different, and therefore a complete protocol run in each of the three modes, single or batched up to 65535 items, succeeds and returns what the server's evaluate returns, for every key, every input of at most 65535 bytes and every pair of generators that produce a scalar.", "quantifier": "every shipped suite, key, input, info, batch and generator", "why_tests_cant": "The group order and the correctness of decoding and hashing for every input are facts about astronomically large sets.", "anchors": ["src/group/elliptic_curve.rs: impl Group for C", "src/group/ristretto.rs: impl Group for Ristretto255", "src/ciphersuite.rs: impl CipherSuite", "src/common.rs, src/oprf.rs, src/voprf.rs, src/poprf.rs"]}
{"id": "C49", "title": "Proofs cannot be forged, whatever the adversary computes", "statement": "With hash_to_scalar read as a random oracle, an adversary of unlimited computing power that sees the answers of at most q oracle questions of its own choice, adaptively, and then picks every argument of one finalize call (blind, blinded element, input, message, proof, public key, info) makes the call succeed on a wrong message with probability at most (q+2)/|scalars| for VoprfClient::finalize and (q+3)/|scalars| for PoprfClient::finalize; so an output obtained for an input the client blinded itself is the OPRF value under the public key with that probability. For a fixed public key (and info) and batches of at most N items with at least one wrong item the probability is at most (q+N+1)^N/|scalars| for VoprfClient::batch_finalize and (q+N+2)^N/|scalars| for PoprfClient::batch_finalize.", "quantifier": "every adaptive strategy, every number of questions q, every batch bound N, every lawful ciphersuite; the probability is over all tables of oracle answers", "why_tests_cant": "It quantifies over all adversaries and all tables of oracle answers.", "anchors": ["src/voprf.rs: VoprfClient::finalize, VoprfClient::batch_finalize", "src/poprf.rs: PoprfClient::finalize, PoprfClient::batch_finalize", "src/common.rs: verify_proof, compute_composites"]}
{"id": "C50", "title": "A batch proof is a sum over independent items", "statement": "Whether a batch of evaluation elements is accepted is decided by a sum with one term per item, where the term depends only on the key, the item's position and the item itself and is zero for a right item. If the terms of arbitrary (wrong) evaluation elements cancel, the proof that batch_blind_evaluate_finish makes for them is accepted by batch_finalize; conversely an accepted batch has cancelling terms or hits the single lucky challenge. Consequently the batch bound of C49 must grow with the batch: given any N waiting clients and K wrong answers per position, an adversary asking N*K+1 (POPRF: N*K+2) questions gets N wrong answers accepted with probability at least K^N/(K^N+|scalars|).", "quantifier": "every ciphersuite, key, info, batch up to 65535 items, set of wrong candidate answers; the probability is over all tables of hash_to_scalar answers", "why_tests_cant": "It is a statement about all batches and about the fraction of all oracle tables on which a forgery exists.", "anchors": ["src/common.rs: compute_composites, generate_proof, verify_proof", "src/voprf.rs: VoprfServer::batch_blind_evaluate_finish, VoprfClient::batch_finalize", "src/poprf.rs: PoprfServer::batch_blind_evaluate_finish, PoprfClient::batch_finalize"]}
{"id": "C51", "title": "Blinding hides the inputs from a malicious server", "statement": "A malicious server of unlimited computing power starts any number of clients whose inputs are secret, sees their blinded elements, and delivers answers of its own making (any evaluation elements, proof, public key and info) to any of them by finalize or to several of them by batch_finalize, in any order, adaptively and repeatedly; it sees whether each call is accepted and with which error. The probability of anything it concludes is exactly the same whatever the inputs are, for all three modes.", "quantifier": "every server strategy, every two sequences of inputs (up to 65535 bytes, not hashing to the identity), every lawful ciphersuite; the probability is over the clients' blinds, uniform over non-zero scalars", "why_tests_cant": "It compares probabilities over all blinds for all strategies and all inputs.", "anchors": ["src/oprf.rs: OprfClient::blind, OprfClient::finalize", "src/voprf.rs: VoprfClient::blind, VoprfClient::finalize, VoprfClient::batch_finalize", "src/poprf.rs: PoprfClient::blind, PoprfClient::finalize, PoprfClient::batch_finalize"]}
{"id": "C52", "title": "Proofs reveal nothing about the key beyond the evaluations", "statement": "With hash_to_scalar read as a random oracle, the responses of a VoprfServer or PoprfServer to blind_evaluate and batch_blind_evaluate can be imitated by a simulator that knows the public key and the evaluation elements but not the private key: an adversary of unlimited computing power that asks n oracle questions and sends m requests, adaptively, tells the server from the simulator with an advantage of at most m(n+m)/(number of non-zero scalars). Hence seeing proofs gives no more than seeing the evaluation elements.", "quantifier": "every adaptive adversary, every n and m, every key, batch up to 65535 items, info, lawful ciphersuite; the probability is over the oracle, the nonces and the simulator's choices", "why_tests_cant": "It bounds a distinguishing probability for all adversaries.", "anchors": ["src/common.rs: generate_proof", "src/voprf.rs: VoprfServer::blind_evaluate, VoprfServer::batch_blind_evaluate", "src/poprf.rs: PoprfServer::blind_evaluate, PoprfServer::batch_blind_evaluate"]}
{"id": "C53", "title": "Randomness is used once", "statement": "blind, blind_evaluate, batch_blind_evaluate and batch_blind_evaluate_finish draw exactly one random scalar from the generator they are given (new draws exactly one scalar-length byte string); the result depends on the generator only through that draw, and the generator is left just after it. A server call that returns an error has drawn nothing; a blind that returns an error has drawn its scalar. So calls made one after the other on one generator use consecutive draws, never one twice. The draw is the nonce of the proof: were a draw repeated on two requests whose challenges differ, the two proofs would reveal the private key, as (s2 - s1)/(c1 - c2) (minus the public tweak for POPRF).", "quantifier": "every generator type and state, every key, input, element, batch, info, ciphersuite; every list of such calls", "why_tests_cant": "A test sees one generator; a second hidden draw or a reused nonce does not change any single answer's validity.", "anchors": ["src/common.rs: generate_proof, derive_key", "src/oprf.rs: OprfClient::blind, OprfServer::new", "src/voprf.rs: VoprfClient::blind, VoprfServer::blind_evaluate, VoprfServer::batch_blind_evaluate_finish", "src/poprf.rs: PoprfClient::blind, PoprfServer::blind_evaluate, PoprfServer::batch_blind_evaluate_finish"]}
{"id": "C54", "title": "Outputs are unpredictable", "statement": "With the digest read as a random oracle, an output can only be known by computing it: a party of unlimited computing power that sends any requests to the server (single or batched, choosing even the server's generators), asks for any digests, and then claims at most m outputs, has some right claim whose evaluated element (the key times the hashed input) it did not itself present to the digest with probability at most m/256^Nh, Nh being the output length. So a client with more right outputs than evaluations must have produced evaluated elements by itself. Outputs of evaluate on pairwise different (key, input, info) are independent and uniformly distributed.", "quantifier": "every adaptive party, every m, key, lawful ciphersuite, all three modes; the probability is over the digest tables", "why_tests_cant": "It bounds a guessing probability for all strategies over all digest functions.", "anchors": ["src/common.rs: server_evaluate_hash_input", "src/oprf.rs: OprfServer::evaluate, OprfServer::blind_evaluate", "src/voprf.rs: VoprfServer::evaluate, VoprfServer::batch_blind_evaluate", "src/poprf.rs: PoprfServer::evaluate, PoprfServer::batch_blind_evaluate"]}
{"id": "C55", "title": "No more outputs than evaluations without solving Diffie-Hellman", "statement": "With the digest read as a random oracle: from any party that sends requests to the server (single or batched), asks for digests and claims at most m outputs, a solver is made that sends exactly the same requests, never uses the private key and lists the elements it reads off the party's digest questions. The party is right for more inputs than it had elements evaluated with at most the probability that the solver's list contains the evaluated element key*HashToGroup(x) for more inputs x than it had elements evaluated (a one-more Diffie-Hellman problem), plus m/256^Nh. For POPRF the same holds for (input, info) pairs and the elements HashToGroup(x)/(key + HashToScalar(info)).", "quantifier": "every key, every adaptive party of unlimited computing power, every number of requests, batches, digests and claims, over all digest tables", "why_tests_cant": "It bounds a probability over all digest functions for every adversary strategy.", "anchors": ["src/oprf.rs: OprfServer::blind_evaluate, OprfServer::evaluate", "src/voprf.rs: VoprfServer::blind_evaluate, batch_blind_evaluate, evaluate", "src/poprf.rs: PoprfServer::blind_evaluate, batch_blind_evaluate, evaluate", "src/common.rs: server_evaluate_hash_input"]}
{"id": "C56", "title": "The server's proofs do not help to get more outputs than evaluations", "statement": "With hash_to_scalar and the digest both read as random oracles: the probability that a client talking to a VoprfServer (single and batch requests, proofs included) ends with right outputs for more inputs than it had elements evaluated is at most the probability that the digest questions of the same client, now talking to a simulator that is handed only the public key and single evaluations key*P (no proofs, nothing else depending on the private key), contain key*HashToGroup(x) for more inputs x than it had elements evaluated; plus M/256^Nh + m(n+m)/(q-1) for M claims, m requests and n hash_to_scalar questions. For POPRF the same holds for (input, info) pairs, with evaluations P/(key + tweak) and d digest questions adding 2d to n.", "quantifier": "every key, every adaptive client of unlimited computing power, all numbers n, d, m, M, all tables of both hashes and all nonces", "why_tests_cant": "It compares two probabilities over all hash functions and nonces for every strategy.", "anchors": ["src/voprf.rs: VoprfServer::blind_evaluate, batch_blind_evaluate, evaluate", "src/poprf.rs: PoprfServer::blind_evaluate, batch_blind_evaluate, evaluate", "src/common.rs: generate_proof, compute_composites, server_evaluate_hash_input"]}
{"id": "C57", "title": "The work of every call is linear in the number of items", "statement": "Counting group operations, hashes and draws of randomness: blind does one hash to the group, one draw and one multiplication; an OPRF blind_evaluate one multiplication and a finalize one inversion, one multiplication and one digest; a VOPRF server answering n elements does exactly 2n+3 multiplications (POPRF 2n+4), n additions and n+1 (n+2) hashes to scalars; a client verifying n messages does exactly 2n+4 (2n+5) multiplications and 2n+2 (2n+3) additions, and then one multiplication for each output it asks for and none for the others; deriving a key hashes at most 256 times. These are exact counts when the call succeeds and upper bounds whatever its outcome (an error, a rejected proof, an early stop), so no input makes a call do more.", "quantifier": "every cipher suite, key, state, message and input, honest or hostile, every batch size, every call, every outcome", "why_tests_cant": "It bounds every execution on hostile input, for every batch size.", "anchors": ["src/common.rs: blind, generate_proof, verify_proof, compute_composites, derive_key_internal, server_evaluate_hash_input", "src/oprf.rs: OprfServer::blind_evaluate, OprfClient::finalize", "src/voprf.rs: VoprfServer::batch_blind_evaluate, VoprfClient::batch_finalize", "src/poprf.rs: PoprfServer::batch_blind_evaluate, PoprfClient::batch_finalize"]}
{"id": "C58", "title": "Comparison agrees with the bytes", "statement": "Two clients, servers, proofs, blinded or evaluation elements compare equal with == exactly if they serialize to the same bytes, hence exactly if they are interchangeable in every call; the same comparison of prepared elements and tweaks decides equality of their contents. For a suite whose scalars and elements are ordered, <, > and == of these types form a total order. Hashing agrees with ==: equal values leave every hasher in the same state, and (if scalars and elements feed it injectively, scalars with a fixed length) different values feed it different bytes.", "quantifier": "every pair of values of each type, valid or not, and every ciphersuite", "why_tests_cant": "A derived comparison that skipped or confused a field would differ only on pairs no test compares.", "anchors": ["src/common.rs: BlindedElement, EvaluationElement, PreparedEvaluationElement, Proof", "src/oprf.rs: OprfClient, OprfServer", "src/voprf.rs: VoprfClient, VoprfServer", "src/poprf.rs: PoprfClient, PoprfServer, PoprfPreparedTweak"]}
{"id": "C59", "title": "Hashing piece by piece equals hashing the concatenation", "statement": "Every hash the crate computes is fed to the SHA-2 hasher in several updates (lengths, inputs, elements, labels). The result is the FIPS 180-4 digest of the concatenation of the updates, so it depends only on the bytes and not on how they are cut: an update that is empty, shorter than a block, that ends exactly on a block boundary or that spans several blocks is absorbed the same way.", "quantifier": "every number of updates, of every length, for SHA-256, SHA-384 and SHA-512", "why_tests_cant": "The buffer's position and the padding depend on all lengths fed before; test vectors reach a few of them.", "anchors": ["src/common.rs: compute_composites, server_evaluate_hash_input, DigestExt::chain_update_multi", "src/oprf.rs: finalize_after_unblind", "src/voprf.rs: finalize_after_unblind", "src/poprf.rs: finalize_after_unblind"]}
{"id": "C60", "title": "Lazy results can be consumed at any time and in any order", "statement": "batch_blind_evaluate_prepare, batch_blind_evaluate_finish and batch_finalize return iterators that compute an item when it is asked for. Whatever such results a caller holds at the same time, and in whatever order it asks them for items (interleaved, partially, long after the call, past the end), every request is answered with the item it would have got from collecting that result at once: items come in order, each exactly once, then None for ever. The proof is made, respectively verified, by the call itself and not delayed.", "quantifier": "every set of results of the three calls in both modes, every iterator passed in, every schedule of requests", "why_tests_cant": "It ranges over all interleavings of requests to any number of results.", "anchors": ["src/voprf.rs: VoprfServer::batch_blind_evaluate_prepare, VoprfServer::batch_blind_evaluate_finish, VoprfClient::batch_finalize, verifiable_unblind", "src/poprf.rs: PoprfServer::batch_blind_evaluate_prepare, PoprfServer::batch_blind_evaluate_finish, PoprfClient::batch_finalize, poprf_unblind, finalize_after_unblind"]}
{"id": "C61", "title": "Random scalars, and so blinded messages, are uniform and independent when the generator is", "statement": "When the generator handed to the crate yields independent uniform bytes, the scalars the crate draws from it one after the other (blinds and proof nonces) are independent and uniform on the non-zero scalars: exactly so on the NIST curves, up to a factor 1 + 2^-259 each on Ristretto255. Consequently, in every mode, the messages of blind for any sequence of inputs are distributed independently of the inputs: any sequence of non-identity elements is as likely (up to the same factors) for any inputs as any other for any other inputs. So any computation that draws at most m scalars from uniform bytes ends with nearly the same probabilities as with uniformly chosen scalars, up to that deviation and the probability that the bytes run out, which for j blocks per scalar is at most m/2^(32j), m/2^(194j), m(255/256)^j and m/2^(252j) for P-256, P-384, P-521 and Ristretto255.", "quantifier": "every sequence of scalars, every sequence of inputs not hashing to the identity and of messages, every amount of randomness, all modes, all shipped suites", "why_tests_cant": "Counts over all byte strings a generator can produce; a test sees a few samples and cannot detect a bias below its sample size.", "anchors": ["src/group/elliptic_curve.rs: random_scalar", "src/group/ristretto.rs: random_scalar", "src/oprf.rs: OprfClient::blind", "src/voprf.rs: VoprfClient::blind", "src/poprf.rs: PoprfClient::blind", "src/common.rs: deterministic_blind_unchecked"]}
{"id": "C62", "title": "Keys made from seeds are uniform and independent", "statement": "Reading hash_to_scalar as a random oracle: the private keys of servers made by new_from_seed from any number of calls that differ in mode or in what is hashed (seed followed by the length-prefixed info) are jointly uniform on the non-zero scalars, independent of each other and of every other answer of the oracle. A derivation with admissible sizes fails only with Error::Protocol, and that with probability |scalars|^-256. A server made by new from a generator yielding uniform bytes cannot be told, even from its private key, from one with a uniformly chosen non-zero key, except by a party lucky enough to ask the oracle about the seed: with n questions the advantage is at most n/256^ScalarLen + |scalars|^-256, below (n+1)/2^256 for every shipped suite.", "quantifier": "every number of calls, every mode, seed and info, every combination of keys, every event about the other answers, every adaptive party with any number of questions", "why_tests_cant": "A statement about probabilities over all oracle tables and seeds and all adaptive parties; a test sees single keys.", "anchors": ["src/common.rs: derive_key_internal, derive_keypair", "src/oprf.rs: OprfServer::new, OprfServer::new_from_seed", "src/voprf.rs: VoprfServer::new, VoprfServer::new_from_seed", "src/poprf.rs: PoprfServer::new, PoprfServer::new_from_seed"]}
{"id": "C63", "title": "Outputs are pseudorandom", "statement": "With the digest read as a random oracle: a party that has elements evaluated (single or in batches, with proofs, choosing even the server's generators), asks for digests, and asks the server directly for outputs of evaluate, cannot tell these outputs from those of an independent random function, except with the probability that - the random function being in place - it presents to the digest the evaluated element of an input whose output it asked for (it then solved a Diffie-Hellman problem), or in POPRF names an info whose hash cancels the key. A party that only sees outputs has no way to do so: under a uniformly chosen key, evaluate is a pseudorandom function of the input (and info) with advantage at most n/(|scalars|-1) for n digests, in POPRF (n+m)/(|scalars|-1) with m outputs, whatever its computing power.", "quantifier": "every adaptive party of unlimited computing power, every key, every number of digests, requests and outputs, all three modes; probabilities over all digest tables, random functions and keys", "why_tests_cant": "It bounds a distinguishing advantage for all strategies over all digest functions and keys; statistical tests only look for particular biases.", "anchors": ["src/common.rs: server_evaluate_hash_input", "src/oprf.rs: OprfServer::evaluate, OprfServer::blind_evaluate", "src/voprf.rs: VoprfServer::evaluate, blind_evaluate, batch_blind_evaluate", "src/poprf.rs: PoprfServer::evaluate, blind_evaluate, batch_blind_evaluate"]}
{"id": "C64", "title": "Outputs of a freshly made server are pseudorandom", "statement": "With hash_to_scalar and the digest read as random oracles: a server made by new from a generator yielding uniform bytes and then only used through evaluate is indistinguishable from a random function. A party of unlimited computing power that asks for d digests, h values of hash_to_scalar and m outputs of evaluate has an advantage of at most d/(|scalars|-1) + h/256^ScalarLen + |scalars|^-256 in OPRF and VOPRF, and (d+m)/(|scalars|-1) + (h+m)/256^ScalarLen + |scalars|^-256 in POPRF; for every shipped suite at most (d+h+1)/2^252, in POPRF (d+h+2m+1)/2^252.", "quantifier": "every adaptive party, every number of questions and outputs, all three modes, every shipped suite; probabilities over all seeds, hash_to_scalar tables, digest tables and random functions", "why_tests_cant": "It bounds a distinguishing advantage for all strategies over all hash functions and all bytes of the generator.", "anchors": ["src/oprf.rs: OprfServer::new, OprfServer::new_from_seed, OprfServer::evaluate", "src/voprf.rs: VoprfServer::new, VoprfServer::evaluate", "src/poprf.rs: PoprfServer::new, PoprfServer::evaluate", "src/common.rs: derive_key_internal, server_evaluate_hash_input"]}
{"id": "C65", "title": "Verification holds over whole sessions", "statement": "With hash_to_scalar read as a random oracle: a malicious server of unlimited computing power that asks q questions and has clients finalize m answers of its own making, adaptively, seeing the result of every call and choosing every argument (client state, public key, info), gets some call to return an output for a wrong message with probability at most (q+2m)/|scalars| for VoprfClient::finalize and (q+3m)/|scalars| for PoprfClient::finalize; so except with that probability every output of the session for an input the client blinded itself is the OPRF value under the public key. For every shipped suite the bounds are (q+2m)/2^252 and (q+3m)/2^252. For batches of at most N items under a fixed public key (and info) they are (q+m(N+1))^N/|scalars| and (q+m(N+1)+1)^N/|scalars|.", "quantifier": "every adaptive server strategy, every number of questions and calls, every batch bound, every lawful ciphersuite; the probability is over all tables of oracle answers", "why_tests_cant": "It bounds the success probability of all adaptive attacks over any number of calls; a test can only try particular attacks.", "anchors": ["src/common.rs: verify_proof, compute_composites", "src/voprf.rs: VoprfClient::finalize, VoprfClient::batch_finalize, verifiable_unblind", "src/poprf.rs: PoprfClient::finalize, PoprfClient::batch_finalize, poprf_unblind, compute_tweaked_key"]}
{"id": "C66", "title": "Blinding hides the inputs when the generator yields uniform bytes", "statement": "Clients blind their inputs one after the other with one generator that yields uniform bytes. A malicious server of unlimited computing power sees the blinded elements, delivers any answers, proofs, public keys and infos to any waiting clients (one at a time or in batches, in any order) and sees how each finalize ends. However it chooses its strategy, each of its guesses is exactly as likely for one choice of the inputs as for any other with P-256, P-384 and P-521, and with Ristretto255 the two probabilities differ by at most m/2^258, where m is the number of clients it starts.", "quantifier": "every adaptive server strategy, all sequences of inputs of at most 65535 bytes not hashing to the identity, every tape length, every mode and shipped suite (and every lawful suite with nearly uniform random_scalar)", "why_tests_cant": "It compares the distributions, over all generator outputs, seen by all adaptive strategies; a test runs one strategy on a few outputs.", "anchors": ["src/oprf.rs: OprfClient::blind, OprfClient::finalize", "src/voprf.rs: VoprfClient::blind, VoprfClient::finalize, VoprfClient::batch_finalize", "src/poprf.rs: PoprfClient::blind, PoprfClient::finalize, PoprfClient::batch_finalize", "src/group/elliptic_curve.rs: random_scalar", "src/group/ristretto.rs: random_scalar"]}
{"id": "C67", "title": "Proofs reveal nothing about the key when the server's generator yields uniform bytes", "statement": "A VoprfServer or PoprfServer answers adaptively chosen blind_evaluate and batch_blind_evaluate requests with one generator yielding uniform bytes, hash_to_scalar being read as a random oracle. A party of unlimited computing power that sends m requests and asks n questions of the oracle can tell the answers from those of a simulator that is handed the evaluations and the public key, but not the private key, with an advantage of at most m(n+m)/2^252, plus m/2^258 for Ristretto255 (the deviation of random_scalar from uniform; none for the NIST curves), plus the probability that the bytes do not suffice for m scalars, which for j blocks of bytes per request is at most m/2^(32j) for P-256, m/2^(194j) for P-384, m(255/256)^j for P-521 and m/2^(252j) for Ristretto255.", "quantifier": "every private key, every adaptive party, every number of questions, requests and bytes, both modes, every shipped suite (and every lawful suite with nearly uniform random_scalar)", "why_tests_cant": "It compares two distributions over all generator outputs and all oracle tables, for all adaptive parties; tests see single runs.", "anchors": ["src/common.rs: generate_proof, compute_composites", "src/voprf.rs: VoprfServer::blind_evaluate, VoprfServer::batch_blind_evaluate", "src/poprf.rs: PoprfServer::blind_evaluate, PoprfServer::batch_blind_evaluate", "src/group/elliptic_curve.rs: random_scalar", "src/group/ristretto.rs: random_scalar"]}
{"id": "C68", "title": "No more outputs than evaluations when the server's generator yields uniform bytes", "statement": "The game of C56, played against a VoprfServer or PoprfServer that answers every blind_evaluate and batch_blind_evaluate call of the session with one generator yielding uniform bytes: the probability that a client ends with right outputs for more inputs (in POPRF: pairs of an input and an info) than it had elements evaluated exceeds by at most M/2^256 + m(n+2d+m)/2^252, plus m/2^258 for Ristretto255, plus the probability that the bytes do not suffice for m scalars, the probability that the digest questions of the same client, talking to a simulator that has only an evaluation oracle, contain the evaluations of more inputs than that. M is the number of claims, m of requests, n of hash_to_scalar questions, d of digest questions; with j blocks of bytes per request the bytes do not suffice with probability at most m/2^(32j) for P-256, m/2^(194j) for P-384, m(255/256)^j for P-521 and m/2^(252j) for Ristretto255.", "quantifier": "every private key (non-zero in VOPRF), every adaptive client of unlimited computing power, all numbers n, d, m, M and j, both modes, every shipped suite (and every lawful suite with nearly uniform random_scalar)", "why_tests_cant": "It compares two probabilities over all generator outputs and all tables of both hashes, for all adaptive clients.", "anchors": ["src/voprf.rs: VoprfServer::blind_evaluate, batch_blind_evaluate, evaluate", "src/poprf.rs: PoprfServer::blind_evaluate, batch_blind_evaluate, evaluate", "src/common.rs: generate_proof, compute_composites, server_evaluate_hash_input", "src/group/elliptic_curve.rs: random_scalar", "src/group/ristretto.rs: random_scalar"]}
{"id": "C69", "title": "A failing call shows nothing but its error", "statement": "Two runs of the same API call with the same public lengths (input, info, key, batch size) that end in the same way - both succeed, both return the same error, both panic, or both wait on the generator for ever - perform the same sequence of group operations, hashes, tests and early returns, whatever the keys, blinds, generators, inputs, messages and proofs. So a refused proof tells an observer of the control flow that it was refused, and nothing about the blind, the input or the answer. Server-side evaluate is covered for inputs of at most 65535 bytes (a longer input and one hashing to the identity give the same error at two different points). A failing new_from_seed shows only the lengths of the seed and the info.", "quantifier": "every pair of executions with equal public lengths and equal outcome (any of success, a given error, panic, divergence), any two keys, blinds, generators, inputs, elements, proofs and any batch size; every ciphersuite", "why_tests_cant": "It compares all pairs of executions, including failing ones reached only by adversarial messages; an early exit that depends on a secret may be taken for a single value.", "anchors": ["src/common.rs: verify_proof, generate_proof, derive_key_internal, server_evaluate_hash_input", "src/oprf.rs, src/voprf.rs, src/poprf.rs: all client and server functions"]}
{"id": "C70", "title": "Outputs cannot be linked to the sessions that produced them", "statement": "Let n clients hold n inputs in an unknown order, all using one public key (and, in POPRF, one info). A malicious server sees all blinded elements, asks hash_to_scalar at most q questions, delivers at most d answers and proofs of its own making to the clients in any order, sees how each finalize ends, and is shown the outputs in the order of the inputs once every client has one. Modelling hash_to_scalar as a random oracle, the probability of any guess it makes differs between any two orders by at most (q+2d)/|scalars| in VOPRF and (q+3d)/|scalars| in POPRF (over the shipped suites at most (q+2d)/2^252 and (q+3d)/2^252). With deliveries to batches of at most N clients the bounds are (q+(N+1)d)^N/|scalars| and (q+(N+1)d+1)^N/|scalars|. In OPRF a server that uses one key for all clients sees exactly the same distribution, while one that uses two keys can tell the orders apart with certainty. When the clients draw their blinds one after the other with a generator that yields uniform bytes, the same bounds hold up to twice the deviation of random_scalar from uniform (nothing for the NIST curves, n/2^258 for Ristretto255) and twice the probability that the bytes do not suffice for n blinds.", "quantifier": "every server strategy (adaptive, any number of clients, questions and deliveries), every two permutations of the inputs, every public key and info, every hidable inputs, every ciphersuite", "why_tests_cant": "It is a statement about all adversarial strategies and about probabilities; a test fixes one server and cannot see whether another one could link.", "anchors": ["src/oprf.rs: OprfClient::blind, OprfClient::finalize, OprfServer::blind_evaluate", "src/voprf.rs: VoprfClient::blind, VoprfClient::finalize, VoprfClient::batch_finalize", "src/poprf.rs: PoprfClient::blind, PoprfClient::finalize, PoprfClient::batch_finalize", "src/common.rs: verify_proof"]}
{"id": "C71", "title": "Debug output does not reveal secrets", "statement": "Formatting a value with {:?}, as log lines and assertion messages do, shows no more than what the protocol sends. For messages, proofs and results of blind_evaluate, batch_blind_evaluate and batch_blind_evaluate_finish the text is determined by the bytes of the messages and of the proof. Conversely nothing is left out: two values of the same type with the same text are equal (for an iterator: up to the function it applies). (The code violates the first part for everything that holds a secret: the text of a client, of a server, of a blind result, of a prepared tweak and of a prepared iterator contains the blind or the private key in full.)", "quantifier": "every value of every public type deriving Debug, every way of formatting elements, every self-delimiting way of formatting scalars, every ciphersuite; for prepared iterators also every caller's iterator and every number of items already taken", "why_tests_cant": "A test compares the text of a few values; whether the text determines a secret is a statement about all values at once.", "anchors": ["src/common.rs: BlindedElement, EvaluationElement, PreparedEvaluationElement, Proof", "src/oprf.rs: OprfClient, OprfServer, OprfClientBlindResult", "src/voprf.rs: VoprfClient, VoprfServer, VoprfClientBlindResult, VoprfServerEvaluateResult, VoprfServerBatchEvaluateResult, VoprfServerBatchEvaluateFinishResult, VoprfServerBatchEvaluatePreparedEvaluationElements", "src/poprf.rs: PoprfClient, PoprfServer, PoprfClientBlindResult, PoprfServerEvaluateResult, PoprfServerBatchEvaluateResult, PoprfPreparedTweak, PoprfServerBatchEvaluatePrepareResult, PoprfServerBatchEvaluateFinishResult"]}
{"id": "C72", "title": "A request or response altered on the way is refused", "statement": "Let a channel between client and server change requests and responses at will - flip bits, replace, reorder, drop or duplicate items, replace the proof - knowing the private key, the blinds and the nonce, but without looking into hash_to_scalar. In VOPRF and POPRF, if the server answers the request that arrives and the client finalizes the response that arrives, then outputs are returned although some element or proof scalar was changed with probability at most 3/|scalars| (2/|scalars| for a single finalize when one element arrives at the server; 3/2^252 over the shipped suites), modelling hash_to_scalar as a random oracle. This holds even if all changed values are equally correct (another valid proof is refused as well). The same holds for a channel that acts on the bytes of the messages: what is read is what was sent; and for a group with canonical decoding (Ristretto255) no byte was changed, except that bytes may have been appended to a message.", "quantifier": "every channel (a function of everything that is sent), every private key, client state, input, info and generator, every batch size, every ciphersuite", "why_tests_cant": "A test flips some bits of some responses; that no alteration, also of several items at once, gets through except with negligible probability is a statement about all functions on messages.", "anchors": ["src/voprf.rs: VoprfServer::blind_evaluate, VoprfServer::batch_blind_evaluate, VoprfClient::finalize, VoprfClient::batch_finalize", "src/poprf.rs: PoprfServer::blind_evaluate, PoprfServer::batch_blind_evaluate, PoprfClient::finalize, PoprfClient::batch_finalize", "src/common.rs: generate_proof, verify_proof, compute_composites", "src/serialization.rs: BlindedElement::deserialize, EvaluationElement::deserialize, Proof::deserialize"]}
{"id": "C73", "title": "An output commits to the key, the input and the info", "statement": "Reading the digest as a random oracle: a party of unlimited computing power that asks at most n digests and names at most m evaluations of its own choice - private keys, inputs and infos included - finds two different ones (different key, different input, or different info; omitted info counts as different from every info) that have the same output with probability at most (n+m)(n+m-1)/2 / 256^Nh, and (n+m)^2/2^257 with the shipped suites; this holds in OPRF, VOPRF and POPRF. In particular the outputs of one server for m inputs are all different except with probability m(m-1)/2 / 256^Nh. On the client side, `finalize` gives the same output for two different inputs (or infos) with at most that probability, even if the party chooses the blinds, the public keys, the messages and the proofs.", "quantifier": "every adaptive strategy (unbounded computing power, at most n questions, at most m named evaluations), all keys, inputs, infos and messages, every ciphersuite", "why_tests_cant": "A collision among outputs will not show up in a test; that no strategy for choosing keys and inputs finds one except with the birthday probability is a statement about all strategies and all hash tables.", "anchors": ["src/oprf.rs: OprfServer::evaluate, OprfClient::finalize", "src/voprf.rs: VoprfServer::evaluate, VoprfClient::finalize", "src/poprf.rs: PoprfServer::evaluate, PoprfClient::finalize", "src/common.rs: server_evaluate_hash_input"]}
{"id": "C74", "title": "More outputs than evaluations solve one-more Diffie-Hellman for random targets", "statement": "With hash_to_group and the digest read as random oracles: from any client of an OprfServer that asks these two hashes, has elements evaluated and claims at most M outputs, a solver of the following group problem is made: it is given independent uniformly random elements (targets) under names of its choice, may have elements multiplied by the private key, and wins if it is right about key*target for more targets than it had elements multiplied. The solver asks for a target only where the client hashes a string to the group, multiplies exactly the elements that the client has evaluated, and uses nothing else that depends on the key. The client ends with right outputs for more inputs than it had elements evaluated with at most the probability that the solver wins, plus M/256^Nh. The same holds for a VoprfServer (single and batch requests, proofs included), hash_to_scalar being a random oracle too: the solver is also given the public key, makes up the proofs itself, and m(n+m)/(q-1) is added for m requests and n questions to hash_to_scalar.", "quantifier": "every key, every adaptive client of unlimited computing power, every number of hash, digest and scalar questions, requests, batches and claims; probabilities over all tables of the hashes, all nonces and the solver's coins", "why_tests_cant": "A test cannot attack; the property reduces every attack on the outputs to a problem about the group alone, for all adaptive clients.", "anchors": ["src/oprf.rs: OprfServer::blind_evaluate, OprfServer::evaluate", "src/voprf.rs: VoprfServer::blind_evaluate, VoprfServer::batch_blind_evaluate, VoprfServer::evaluate", "src/common.rs: hash_to_group, generate_proof, server_evaluate_hash_input"]}
{"id": "C75", "title": "An accepted proof is determined by its challenge", "statement": "If finalize (or batch_finalize) succeeds for two proofs with the same challenge, on the same client states and evaluation elements, then the two proofs are equal and the public keys are equal (for POPRF the tweaked public keys, of public key and info, are equal) - or the two strings that the two verifications hash are different and hash_to_scalar maps both of them to the challenge. So nobody, not even the holder of the private key, can turn an accepted proof into another one with its challenge, or present it under another key, without exhibiting a collision of the hash.", "quantifier": "every client state, evaluation element, pair of proofs, pair of public keys, input and info, every batch size, every ciphersuite", "why_tests_cant": "A test tries a few altered proofs; the property is about every pair of proofs, and about adversaries that hold the key.", "anchors": ["src/common.rs: verify_proof, Proof", "src/voprf.rs: VoprfClient::finalize, VoprfClient::batch_finalize", "src/poprf.rs: PoprfClient::finalize, PoprfClient::batch_finalize"]}
