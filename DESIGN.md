# Design of the voprf model (Lean 4)

The model covers the non-test source of the crate (`/repo/src`, about 3400 lines of Rust): every function of
`common.rs`, `oprf.rs`, `voprf.rs`, `poprf.rs`, `serialization.rs`, `error.rs`, `ciphersuite.rs`,
`group/mod.rs`, `group/ristretto.rs`, `group/elliptic_curve.rs`. Each definition cites the lines it models.

## 1. Layers (files under `lean/Verif/`)

| layer | files | content |
|---|---|---|
| base | `Base.lean` | bytes, `Error`, `InternalError`, `Res` (ok / err / panic / diverge), `RngCore` |
| model | `Model/Group.lean` | the traits `Group`, `CipherSuite` and the hash as records of operations, with no laws except what Rust's types enforce (lengths of fixed-size arrays) |
| model | `Model/Common.lean`, `Oprf.lean`, `Voprf.lean`, `Poprf.lean`, `Serialization.lean`, `Serde.lean`, `Zeroize.lean`, `Equality.lean` | one definition per Rust function, same names |
| model | `Model/Expand.lean`, `Model/Loops.lean`, `Model/Nist.lean`, `Model/Ristretto.lean`, `Model/Ristretto255.lean`, `Model/Suites.lean` | the two shipped `Group` implementations, with the parts of the dependencies they call (`expand_message_xmd`, rejection loops, SEC1 decoding, simplified SWU, the ristretto255 formulas of RFC 9496, reduction modulo the order) |
| model | `Model/Leak.lean` | the protocol functions again, instrumented with a record of operations, branches and lengths |
| spec | `Spec/Contract.lean` | `VGroup.Lawful`: the documented contract of the `Group` trait |
| spec | `Spec/Rfc9497.lean`, `Rfc9380.lean`, `Sha2.lean`, `Rfc9496.lean`, `Sec1.lean`, `Sswu.lean` | the standards, written independently of the model |
| spec | `Spec/Reach.lean`, `Wire.lean`, `Serde.lean`, `System.lean`, `Transcript.lean`, `Dleq.lean`, `Samples.lean`, `Dalek.lean`, `Oracle.lean`, `Rehash.lean`, `Distinguisher.lean`, `Simulator.lean`, `Spy.lean`, `Randomness.lean`, `Predict.lean`, `OneMore.lean`, `Tape.lean`, `DerivedKeys.lean`, `Pseudorandom.lean` | the vocabulary of the property statements: values obtainable through the API, wire formats, histories of calls with crashes and interleavings, transcripts, the proof relation, RNG samples, the contract of the ristretto point library, the random-oracle reading of a suite with adaptive adversaries |
| curves | `Curve/*.lean` | P-256, P-384, P-521: the field and the order are prime (Pocklington / ECPP-style certificates) and the curve has that prime order, all by kernel computation with verified Jacobian arithmetic; edwards25519: the group law of complete twisted Edwards curves and the order 8ℓ |
| proofs | `Lemmas/*.lean` | helper lemmas |
| properties | `Props/*.lean` | the theorems listed in `MANIFEST.json`, with `example`s meeting their hypotheses |
| instances | `Toy.lean`, `Exec/*.lean` | a small lawful suite for the examples; executable forms of the four real suites |
| tests | `Exec/Vectors/*.lean` | RFC 9497 appendix A vectors run through the model in the kernel (a check of the model against the standard's data, not a proof of a property) |

Every panic path (`unwrap`, `assert!`, failed slice index) is the explicit value `Res.panic`; an RNG loop
that never ends is `Res.diverge`; lazily computed iterators are lists of `Res` values (justified
by C60).

## 2. How each property is treated

* C01-C05, C07: algebra over the contract (`Scalar` a field, `Elem` a one-dimensional vector space); batch
  cases by induction over the list.
* C06, C14, C15, C25: the code violates the natural statement. A `_partial` theorem states what holds,
  and a second theorem proves the violation, with a witness. What holds of C25 is a bound over the tables of C49:
  scaling the answers to one derivation's questions by a non-zero scalar is a bijection of the tables.
* C08, C10, C11, C12, C35, C36, C37: algebra and counting on the contract, stated about the API calls.
  Security statements that need a computational assumption are stated as "fails unless the hash takes this
  value" or as a count of the bad challenges, weights or nonces.
* C09, C13, C16, C30, C31, C34: exact case analysis of the `Res` value of the calls.
* C17-C22, C38: byte-level theorems about the serializers, over the contract of the group codecs.
* C23, C24, C33, C46: constructors and the 256-step derivation loop by induction on the counter.
* C26-C29: injectivity of the byte framing, stated for the strings the model's functions hash. C26 also compares
  runs under two suites whose hashes agree on some tags only (`Spec/Rehash.lean`).
* C32: every call returns a non-panic value on reachable arguments; the exceptions are theorems too.
* C39: logical part only (`_partial`): which fields are overwritten with what; moves, copies and the
  optimiser are not modelled. The iterators of `batch_blind_evaluate_prepare` keep the key (a theorem too).
* C40: refinement to `Spec/Rfc9497.lean`.
* C41-C43: models of the two group implementations; the NIST one over concrete curves down to field
  arithmetic; the ristretto one over the contract of the point library (`Spec/Dalek.lean`), and that contract is proved
  of the formulas of RFC 9496 (`Lemmas/Ristretto255.lean`, `RistrettoPoint.lean`, `RistrettoGroup.lean`): extended
  coordinates compute the Edwards group law, whose associativity is a polynomial certificate; encoding, decoding and
  the one-way map compute the relations of `Spec/Rfc9496.lean`; the group has order ℓ.
* C44, C45: induction over histories of an explicit transition system with reloads and interleaving.
* C47: two-run comparison of the instrumented model, which is proved to compute the same results; the same one level down
  for the element arithmetic of the curve crates (`Model/LeakCurve.lean`), down to field operations and table accesses.
* C48: the suites `P256-SHA256`, `P384-SHA384`, `P521-SHA512` and `ristretto255-SHA512` satisfy every
  hypothesis used elsewhere, so the other theorems apply to them.
* C49: `Spec/Oracle.lean` replaces `hash_to_scalar` by a table; an adversary is an arbitrary adaptive decision
  tree over questions to the table (unbounded computing power), and the probability is the fraction of
  tables. Proved by a counting argument over the decision tree (`Lemmas/Oracle.lean`): each question, and each
  question the verifier itself asks, spoils at most one answer in `|scalars|`. For batches the union bound
  runs over the at most `N` weight questions and the challenge; the exponent `N` is not an artefact (C50).
  `hash_to_group` and the digest are those of the suite, not oracles.
* C50: algebra for the decomposition; the lower bound is an explicit strategy in the vocabulary of C49, counted
  with a second-moment argument (`Lemmas/SecondMoment.lean`).
* C51: `Spec/Spy.lean`: a server is an arbitrary adaptive decision tree over client starts and deliveries; the
  two plays are matched blind by blind by a bijection of the non-zero scalars, by induction over the tree. Blinds
  are taken uniform over the non-zero scalars (that `random_scalar` has exactly this range is C42/C43).
* C52: `Spec/Distinguisher.lean`, `Spec/Simulator.lean`: an adversary is a decision tree over oracle questions and
  requests; the proof is a reprogramming argument (`Lemmas/Distinguisher.lean`), by induction over the tree. Each request
  loses at most (questions so far)/(non-zero scalars). Nonces are taken uniform over the non-zero scalars.
* C53: `Spec/Randomness.lean`: a call is a function polymorphic in the generator type; structural proof call by call,
  then induction over lists of calls; nonce reuse by algebra. What failed calls have drawn is read off the record of C57.
* C54: `Spec/Predict.lean` replaces the digest by a table (the group hashes, which in the crate use the same hash function
  under domain-separation tags, are left as they are); a party is a decision tree over digest questions and requests;
  changing one unasked entry is a bijection (`Lemmas/Predict.lean`). The server's proofs ask the table only for batch
  seeds, which are never strings of outputs.
* C55: `Spec/OneMore.lean`: the solver is an explicit transformation of the party (it parses the digest questions); the
  bound follows from C54 because every right claim that was not guessed was presented. That the one-more problem is hard
  is an assumption about the group and not modelled; for VOPRF and POPRF the solver's oracle is the server with its
  proofs, which C56 removes.
* C56: `Spec/Party.lean`: one game with both tables. For each table of `hash_to_scalar` and each sequence of nonces the
  client is a player of C55; for each table of digests it is a session of C52 (with two more questions per digest
  question for POPRF, for the tweaks in the winning condition). Nonces are taken uniform over the non-zero scalars.
* C57: counts over the record of the instrumented model (`Model/Leak.lean`), which C47 ties to the model; the cost
  tables are in `Spec/Cost.lean`. Lazy items of a batch are counted when they are asked for.
* C60: `Model/Iter.lean` models the `core::iter` adapters with their state and the functions that return them; each is
  proved to yield the list the other theorems use (`Yields`), and any schedule of calls on any family of results to answer
  as if they had been collected (`Spec/Lazy.lean`). For POPRF outputs the blinding factors must be invertible (C33).
* C59: the incremental hashers (`Model/Sha2Stream.lean`): invariant of the block buffer under every update; the padding of
  the last block(s) against FIPS 180-4 (`Spec/Sha2.lean`).
* C61: `Spec/Tape.lean`: uniform bytes are the tapes of a given length, all equally likely, so probabilities are counts.
  `random_scalar` is shown to consume the tape block by block; the number of tapes giving a sequence of scalars is a product
  of numbers of blocks, one per scalar, times a factor depending only on the length. Messages by C08/C46. `C61_events` turns any
  count over sequences of scalars into one over tapes, which discharges, for the shipped suites, the uniformity assumed of
  blinds and nonces in C51, C52 and C56.
* C62: `Spec/DerivedKeys.lean`: calls of `new_from_seed` on the random-oracle reading of a suite (`Spec/Oracle.lean`). Scaling
  the 256 possible answers of a derivation by a non-zero scalar permutes the tables, multiplies the key and keeps everything
  else, so keys are uniform given any other event; several calls by induction, their questions being disjoint (C34). For `new`,
  a party that never asks a question of the derivation cannot notice the scaling; the seed is guessed with probability
  `n / 256^ScalarLen`.
* C63: `Spec/Pseudorandom.lean`: real and ideal worlds over the digest tables of C54. Exchanging the digest entries of the outputs
  a party asked for with the values of the random function is a bijection between unspoilt runs of the two worlds. For the
  unconditional bound each digest question determines at most one key that it can spoil the game for.
* C64: `Spec/Fresh.lean`: `new`, then `evaluate`, over the tables of C62 and C63 at once. Two hops: the key of `new` is replaced
  by a uniform one (C62, the party computing the outputs itself), then the outputs by those of a random function (C63, with the
  table of `hash_to_scalar` fixed).
* C65: `Spec/Sessions.lean`: the server is a player that asks the oracle and sends `finalize` calls. Each call depends only on the
  answers to the questions of its verifier, so the player can run the calls itself; the counting lemma of C49 then applies to the
  whole session.
* C66: `Spec/SpyTape.lean`: the game of C51 with the real generator threaded through the calls. A run on a tape is a run on the
  sequence of scalars drawn; multiplying the blinds by the quotients of the discrete logarithms of the hashed inputs, position
  by position, turns the runs for one choice of the inputs into those for the other; counted on the tapes by C61.
* C67: `Spec/ServeTape.lean`: the conversations of C52 with the real generator threaded through the calls. A conversation is a
  computation that draws one scalar per successful request (C53); `C61_programs` (`Spec/Drawer.lean`) compares any such
  computation on uniform bytes with the one on uniform scalars, and C52 the latter with the simulator.
* C68: `Spec/PartyTape.lean`: the game of C56 with the real generator threaded through the server's calls; a session is again a
  computation that draws one scalar per successful request, so `C61_programs` and C56 give it.
* C69: the two-run comparison of C47 without its assumption that both runs succeed: a relation between computations
  (`Lemmas/LeakFail.lean`, `Kin S x y`: only outcomes in `S` besides success, and equal outcomes give equal records), closed
  under sequencing because the error set of the first step is disjoint from that of the rest; size refusals are public.
* C70: a game (`Spec/Unlink.lean`) with adaptive server strategies as trees, delivering to single clients or to batches.
  Up to the first accepted wrong answer, how `finalize` ends depends on the blinded element only (C51) and the outputs on the inputs
  only (C65), so a bijection of the nonces turns one order into the other; the first accepted wrong answer has the
  probability bounded in C65. The OPRF part is exact, with the tagging attack as the matching negative statement.
  On uniform bytes (`Spec/UnlinkTape.lean`): blinding in turn is a computation that draws `n` scalars, so `C61_programs` applies.
* C71: the text of derived `Debug` (`Model/Debug.lean`: `debug_struct`, `debug_tuple`, `debug_list` and the adapters of
  `core::iter`, for `{:?}`; scalars and elements are formatted by a parameter). "Reveals" is: one reader recovers the secret of
  every value; "shows only" is: the text is a function of the bytes sent (`Spec/Debug.lean`).
* C72: `Spec/Transit.lean`: a channel as a pair of functions, for values and for bytes. If the client's challenge question is not
  the server's, its answer hits the received challenge with chance `1/|scalars|`; if it is, the proof is unchanged (the first
  commitment fixes the response) and the weighted sums of the two batches agree, which is one linear equation for the weight of an
  item that was not sent, or of an item that did not arrive (`Props/Transit.lean`, `chance_one_answer`).
* C73: strategies of `Spec/Oracle.lean` over the digest tables of C54; the birthday bound by the counting lemma of C49
  (`Lemmas/Collision.lean`), after the strategy has also asked for the strings of the evaluations it names, which are
  different for different evaluations (C27).
* C74: `Spec/Targets.lean`: `hash_to_group` as a table of points is the target oracle of one-more Diffie-Hellman. OPRF from C54
  and C55 for each table, VOPRF from C56 for each table: the simulators do not use the table, so the target questions stay
  questions. The solver is explicit, because a statement "some solver exists" would hold of one that computes discrete logs.
* C75: `Spec/Rigid.lean` writes down the string a verification hashes; it is an injective encoding of key, composites and commitments
  (C28), and the first commitment `s·G + c·B` fixes `s` once `B` and `c` are fixed.
* C58: the derived `PartialEq`, `Ord` and `Hash` (`Model/Equality.lean`), field by field, with C22.

## 3. Trusted base

* Lean 4.33.0's kernel and Mathlib. Every theorem depends on at most the axioms `propext`,
  `Classical.choice` and `Quot.sound` (vcheck prints it); none are added. Concrete computations use
  `decide +kernel`, i.e. kernel evaluation (with its GMP-accelerated `Nat`).
* That the model reads the Rust source correctly: the definitions follow the source function by function and
  cite it. The RFC 9497 vectors run on the model are a test of this reading.
* Rust semantics assumed: no integer wraps in the modelled code (`u16` conversions are explicit),
  iterators are consumed once and in order, `derive` and `derive_where` do what they document.

### Assumed of dependencies (not in the sandbox)

* `digest`/`sha2`/`block-buffer`: in the theorems for every suite a hash is a function of the concatenation of its updates, of
  fixed output length. For SHA-2 this is proved of the block buffering and padding (C59, `Model/Sha2Stream.lean`); the
  compression function is assumed to be that of FIPS 180-4 (`Spec/Sha2.lean`).
* `elliptic-curve`, `primeorder`, `p256`, `p384`, `p521`: modelled from their documentation and published
  source: `from_bytes`/`to_bytes` are SEC1, hashing is RFC 9380's SSWU, points are added with the complete
  projective formulas and multiplied with 4-bit windows (`Model/Primeorder.lean`; `C42_projective_arithmetic`
  proves that they compute the group law the other theorems use), and hash output is reduced half by half
  (`FromOkm`; `C42_from_okm` proves that this is the whole integer reduced). Field elements are integers modulo `p`: the
  limb arithmetic is not modelled. The theorems of C42 are about that model.
* `curve25519-dalek`: assumed to compute the formulas of RFC 9496 §4 and, for adding and multiplying points, those of
  its serial backend (Niels coordinates, signed radix-16 windows), as written in `Model/Ristretto255.lean` on
  field elements modulo `2^255 - 19` (the limb arithmetic and the vectorised backends are not modelled).
  Everything the crate relies on is proved of those formulas.
* `serde`: a data-model tree (`Model/Serde.lean`): structs as maps or sequences, `serde(with)` fields.
* `zeroize`, `subtle`: functional behaviour only.
* `rand_core`: a state machine producing any bytes; `CryptoRng` quality is not modelled.

### Not modelled

Memory layout, moves and compiler optimisation (C39), instruction timing inside one field operation, scalar inversion or hash (C47),
`no_std`/feature selection, documentation examples, tests and benches.

## 4. Findings about the code

Each is a theorem or part of one.

* C06: `PoprfServer::evaluate(input, None)` omits the info from the final hash, unlike `Some(b"")` and unlike
  the interactive protocol, so its output never matches `finalize` without a hash collision.
* C14: `PoprfServer::batch_blind_evaluate` panics (`unwrap`, `poprf.rs:315`) on more than 65535 elements.
* C15: `VoprfClient::batch_finalize` silently truncates to the shorter of inputs and clients.
* C17/C31: a proof with a zero scalar serializes but does not deserialize; `blind` does not refuse an
  input hashing to the identity while `evaluate` does.
* C21: trailing bytes are ignored by every `deserialize`.
* C23: `deserialize` of a server does not check that the public key matches the private key.
* C24: `Error::DeriveKeyPair` is returned only for an info above 65535 bytes, not for seed and info together
  above 65532 as documented.
* C25: the seed is not length-prefixed in key derivation, so different (seed, info) pairs collide.
* C32: the danger API with a zero blind panics on the NIST curves in `finalize` and yields the identity on ristretto255;
  a too long ciphersuite identifier panics.
* C40: the deviation of C06 is also a deviation from RFC 9497.
* C42: NIST element decoding accepts the compact tag `05` besides `02`/`03`; `new_with_key` accepts keys
  from 24 bytes up to the field size, padding on the left.
* C50: the weight of a batch item is hashed from the public key, the position and that item only (as in
  RFC 9497), not from the whole batch. A dishonest server that finds wrong items with cancelling terms gets the
  batch accepted; the number of oracle questions needed for this drops from about the group order to a few
  hundred as the batch grows (the search among the answers is then a generalised-birthday problem). The single
  calls are not affected (C49).
* C71: the derived `Debug` prints blinds, private keys and tweaks in full, also inside the lazy iterator of
  `batch_blind_evaluate_prepare`.
* Not a theorem: `Cargo.toml`'s `default` enables `dep:serde` but not the feature `serde`, so the documented
  "serde feature, enabled by default" does not hold.

## 5. Testing the theorems

`seeded/LOG.jsonl` lists edits of the model made in a scratch copy, the claim each breaks and the theorems
that then fail. Theorems that survived an edit they should have caught were tightened; the entry says so.
`theorems_failed` includes theorems that depend on a failed one; `declarations_broken_directly` lists only the
declarations whose own proof no longer checks.
