{
 "C06": {
  "status": "partial",
  "note": "False of the code for evaluate(input, None): C06_evaluate_none_violation is a witness, C06_evaluate_none_iff_collision says equality needs a hash collision; the interactive calls satisfy it (C06_none_is_empty_partial)."
 },
 "C14": {
  "status": "partial",
  "note": "False of the code: C14_poprf_batch_panics proves the panic for every batch of more than 65535 items; up to 65535 items there is no panic."
 },
 "C15": {
  "status": "partial",
  "note": "Proved for POPRF; false for VOPRF (C15_voprf_truncates), where only the position-wise statement holds."
 },
 "C39": {
  "status": "partial",
  "note": "Which fields are overwritten, and with what; memory and compiler behaviour is outside the model. False of the iterators of batch_blind_evaluate_prepare, which keep a copy of the key (C39_prepared_iterator_keeps_key)."
 },
 "C47": {
  "status": "proved",
  "note": "About the crate's own control flow, on an instrumented copy of the model proved to compute the same results (C47_instrumentation_faithful). One group operation, one hash and one random_scalar is one event there. Inside the element operations (C47_nist_arithmetic, C47_ristretto_arithmetic) one field operation is one event, on the arithmetic modelled from the published source of the curve crates; the limb arithmetic of the field, inversion of scalars, the hash functions and random_scalar remain single events, and instruction timing is outside the model. Key derivation shows the number of rejected candidates, as in the statement. That every branch of the source is recorded by the instrumented copy rests on reading it next to the code (each definition cites its lines)."
 },
 "C25": {
  "status": "partial",
  "note": "False of the code in general: C25_unframed_seed_collides exhibits colliding (seed, info) pairs for every suite and mode. Proved: derivations that hash the same string give the same key (C25_same_string_same_key); derivations that hash different strings, or are for different modes, agree with probability at most 1/(number of non-zero scalars) over a random oracle (C25_other_string_other_key), in particular different (seed, info) with seeds of equal length (C25_equal_seed_length_partial)."
 },
 "C49": {
  "status": "proved",
  "note": "hash_to_scalar is idealised as a uniformly random table (the usual random-oracle reading); group, codecs, hash_to_group and digest are the suite's own. The batch bound is for a public key (and info) fixed before the questions are asked."
 },
 "C50": {
  "status": "proved",
  "note": "The decomposition holds for every lawful suite as it is; the forgery bounds read hash_to_scalar as a random oracle, as in C49, and count questions, not computing time."
 },
 "C71": {
  "status": "partial",
  "note": "Proved for everything that is sent. The code violates the property for clients, servers, blind results, prepared tweaks and prepared iterators: one reader recovers the blind or the private key of every such value from its text (C71_state_violation, C71_prepared_violation), for any self-delimiting format of scalars. The converse part (two values with the same text are equal) is proved for every type, for self-delimiting formats (C71_distinguishes)."
 },
 "C72": {
  "status": "proved",
  "note": "The channel may depend on the key and everything that is sent, but not on the table of hash_to_scalar (an adversary that asks hash_to_scalar is bounded in C65, for wrong values). Byte level for one batch call each (Exchange); canonical decoding is proved for Ristretto255 and fails for the NIST curves (C22)."
 },
 "C73": {
  "status": "proved",
  "note": "Keys are compared for one mode at a time: the final hash does not name the mode, so outputs of different modes are separated only by hash_to_group (C26). An explicit-collision version for any concrete hash is C27."
 },
 "C74": {
  "status": "proved",
  "note": "OPRF and VOPRF; for POPRF the corresponding statement is C56 (two infos whose tweaks collide would let a solver count one product twice). A solver could name a target it never asked for and guess its product (chance 1/q)."
 },
 "C75": {
  "status": "proved",
  "note": "The collision is explicit: Spec.ChallengeCollision names the two strings (collisions as such exist for every hash). Two accepted proofs with the same response and different challenges are not excluded."
 }
}