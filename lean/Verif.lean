import Verif.Model.Serialization
import Verif.Spec.Contract
import Verif.Spec.Transcript
import Verif.Spec.Reach
import Verif.Toy
import Verif.Props.Correctness
import Verif.Props.Info
import Verif.Props.Batch
import Verif.Props.Soundness
import Verif.Spec.Wire
import Verif.Props.Binding
import Verif.Props.Serialization
import Verif.Props.Transcripts
import Verif.Props.Keys
import Verif.Props.Errors
import Verif.Spec.Rfc9497
import Verif.Props.Rfc
import Verif.Model.Serde
import Verif.Model.Zeroize
import Verif.Spec.Serde
import Verif.Props.Serde
import Verif.Props.Zeroize
import Verif.Spec.System
import Verif.Props.History
import Verif.Spec.Rfc9380
import Verif.Spec.Sswu
import Verif.Model.Expand
import Verif.Model.Nist
import Verif.Lemmas.Expand
import Verif.Lemmas.Loops
import Verif.Lemmas.Sswu
import Verif.Curve.Pocklington
import Verif.Curve.Jacobian
import Verif.Curve.Ecpp
import Verif.Curve.Primes
import Verif.Spec.Sec1
import Verif.Spec.Samples
import Verif.Spec.Dalek
import Verif.Model.Ristretto
import Verif.Lemmas.Nist
import Verif.Lemmas.Ristretto
import Verif.Props.Groups
import Verif.Props.Suites
import Verif.Curve.Order
import Verif.Curve.P256
import Verif.Curve.P384
import Verif.Curve.P521
import Verif.Spec.Sha2
import Verif.Model.Suites
import Verif.Exec.Jacobian
import Verif.Exec.Nist
import Verif.Exec.Vector
import Verif.Exec.Ristretto
import Verif.Exec.Vectors.P256
import Verif.Exec.Vectors.P384
import Verif.Exec.Vectors.P521
import Verif.Exec.Vectors.Ristretto
import Verif.Model.Leak
import Verif.Lemmas.Leak
import Verif.Lemmas.LeakErase
import Verif.Lemmas.LeakRel
import Verif.Props.Leak
import Verif.Spec.Oracle
import Verif.Lemmas.Oracle
import Verif.Props.Rom
import Verif.Props.BatchSum
import Verif.Lemmas.SecondMoment
import Verif.Props.BatchAttack
import Verif.Spec.Rehash
import Verif.Lemmas.Rehash
import Verif.Props.Domains
import Verif.Props.Encodings
import Verif.Props.Composites
import Verif.Spec.Distinguisher
import Verif.Lemmas.Distinguisher
import Verif.Spec.Simulator
import Verif.Props.ZeroKnowledge
import Verif.Spec.Spy
import Verif.Props.Blindness
import Verif.Props.KeyBinding
import Verif.Spec.Randomness
import Verif.Props.Randomness
import Verif.Spec.Predict
import Verif.Lemmas.Predict
import Verif.Props.Predict
import Verif.Props.Responses
import Verif.Spec.OneMore
import Verif.Props.OneMore
import Verif.Spec.Party
import Verif.Lemmas.Party
import Verif.Props.Party
import Verif.Spec.Cost
import Verif.Props.Cost
import Verif.Curve.Edwards
import Verif.Curve.Edwards25519
import Verif.Spec.Rfc9496
import Verif.Model.Ristretto255
import Verif.Lemmas.Ristretto255
import Verif.Lemmas.RistrettoPoint
import Verif.Lemmas.RistrettoGroup
import Verif.Props.Ristretto255
import Verif.Model.Equality
import Verif.Props.Equality
import Verif.Model.Primeorder
import Verif.Lemmas.Primeorder
import Verif.Spec.Projective
import Verif.Props.Primeorder
import Verif.Model.Sha2Stream
import Verif.Lemmas.Sha2Stream
import Verif.Props.Sha2Stream
import Verif.Model.Iter
import Verif.Spec.Lazy
import Verif.Props.Lazy
import Verif.Spec.Tape
import Verif.Props.Uniform
import Verif.Props.UniformSuites
import Verif.Props.FailedCalls
import Verif.Spec.DerivedKeys
import Verif.Props.DerivedKeys
import Verif.Props.DerivedKeysSuites
import Verif.Spec.Pseudorandom
import Verif.Lemmas.Pseudorandom
import Verif.Props.Pseudorandom
import Verif.Spec.Fresh
import Verif.Props.Fresh
import Verif.Props.FreshSuites
import Verif.Spec.Sessions
import Verif.Props.Sessions
import Verif.Props.SessionsSuites
import Verif.Spec.SpyTape
import Verif.Props.BlindnessTape
import Verif.Props.BlindnessTapeSuites
import Verif.Spec.Drawer
import Verif.Props.Drawer
import Verif.Spec.ServeTape
import Verif.Props.ZeroKnowledgeTape
import Verif.Props.ZeroKnowledgeTapeSuites
import Verif.Spec.PartyTape
import Verif.Props.PartyTape
import Verif.Props.PartyTapeSuites
import Verif.Lemmas.LeakFail
import Verif.Props.LeakFail
import Verif.Model.LeakCurve
import Verif.Props.LeakCurve
import Verif.Spec.Unlink
import Verif.Props.Unlink
import Verif.Props.UnlinkSuites
import Verif.Spec.UnlinkTape
import Verif.Props.UnlinkTape
import Verif.Props.UnlinkTapeSuites
import Verif.Model.Debug
import Verif.Spec.Debug
import Verif.Props.Debug
import Verif.Spec.Transit
import Verif.Props.Transit
import Verif.Props.TransitSuites
import Verif.Spec.Targets
import Verif.Props.Targets
import Verif.Lemmas.Collision
import Verif.Props.Collision
import Verif.Props.CollisionSuites
import Verif.Spec.Rigid
import Verif.Props.Rigid
