import Verif.Basic
import Verif.Model.Bls
import Verif.Props.Bls
import Verif.Props.Batch
import Verif.Props.Cache
import Verif.Props.Hashers
import Verif.Props.HashToCurve
import Verif.Props.Utils
import Verif.Props.Encoding
import Verif.Props.Gadgets
import Verif.Props.EpochCircuit
import Verif.Props.Prover
import Verif.Props.PublicInputs
import Verif.Props.HashGadget
import Verif.Props.Serialize
import Verif.Props.Setup
import Verif.Props.Ffi
import Verif.Props.FfiData
import Verif.Props.EndToEnd
import Verif.Props.FfiSpec
import Verif.Lemmas.PointCount
import Verif.Lemmas.Torsion
import Verif.Lemmas.G1Order
import Verif.Lemmas.DigestCount
import Verif.Props.GroupOrder
import Verif.Lemmas.PointCount2
import Verif.Lemmas.G2Order
import Verif.Model.Scheme
import Verif.Props.Scheme
import Verif.Model.Blake2s
import Verif.Props.Blake2s
import Verif.Model.Jacobian
import Verif.Lemmas.Jacobian
import Verif.Props.Jacobian
import Verif.Model.Session
import Verif.Props.Session
import Verif.Props.Helper
import Verif.Model.Mutex
import Verif.Props.Mutex
import Verif.Props.Blake2sSpec
import Verif.Model.Pedersen
import Verif.Lemmas.Pedersen
import Verif.Lemmas.Edwards
import Verif.Lemmas.EdwardsOrder
import Verif.Lemmas.EdwardsAdd
import Verif.Props.Pedersen
import Verif.Model.CircuitCurve
import Verif.Lemmas.CircuitCurve
import Verif.Props.CircuitCurve
import Verif.Model.Float
import Verif.Props.Float
import Verif.Model.CInt
import Verif.Props.CInt
import Verif.Props.Rogue
import Verif.Model.Sampling
import Verif.Props.Sampling
import Verif.Props.Conformance
import Verif.Props.Universal
import Verif.Lemmas.CurveEval
import Verif.Props.ConformanceCurve
import Verif.Props.KeyGen
import Verif.Props.Forge
import Verif.Props.LightClient
import Verif.Props.HashToG2
import Verif.Props.BatchForge
import Verif.Props.CircuitForge
import Verif.Props.Uncompressed
import Verif.Props.OracleChain
import Verif.Model.Fixtures
import Verif.Props.Fixtures
import Verif.Model.Library
import Verif.Props.FfiReal
import Verif.Props.LightSync
import Verif.Props.SyncForge
import Verif.Props.Sizes
import Verif.Props.FullSession
import Verif.Model.Groth16
import Verif.Model.GrothCircuit
import Verif.Lemmas.Groth16
import Verif.Lemmas.GrothSound
import Verif.Props.Groth16
import Verif.Props.GrothSound
import Verif.Props.GrothEpochs
import Verif.Props.GrothClient
import Verif.Model.Synthesis
import Verif.Model.SynthesisEpoch
import Verif.Model.SynthesisBls
import Verif.Model.SynthesisEpochs
import Verif.Lemmas.Synthesis
import Verif.Lemmas.SynthesisEpoch
import Verif.Lemmas.SynthesisBls
import Verif.Lemmas.SynthesisEpochs
import Verif.Lemmas.SynthesisRun
import Verif.Lemmas.SynthesisExact
import Verif.Lemmas.SynthesisPoint
import Verif.Lemmas.SynthesisCost
import Verif.Props.Synthesis
import Verif.Lemmas.SynthesisEnd
import Verif.Props.SynthesisEnd
import Verif.Props.SynthesisEpoch
import Verif.Props.SynthesisBls
import Verif.Props.SynthesisEpochs
import Verif.Model.SynthesisGroth
import Verif.Lemmas.SynthesisGroth
import Verif.Props.SynthesisGroth
import Verif.Lemmas.SynthesisProver
import Verif.Lemmas.SynthesisInputs
import Verif.Lemmas.SynthesisSetup
import Verif.Props.SynthesisProver
import Verif.Model.SynthesisHash
import Verif.Lemmas.SynthesisHashShape
import Verif.Lemmas.SynthesisHash
import Verif.Props.SynthesisHash
import Verif.Model.SynthesisHelper
import Verif.Lemmas.SynthesisHelper
import Verif.Props.SynthesisHelper
import Verif.Model.SynthesisApi
import Verif.Props.SynthesisProgram
import Verif.Model.EvaluationDomain
import Verif.Props.SynthesisSize
import Verif.Props.SynthesisHashSize
import Verif.Props.YSign
import Verif.Model.Bench
import Verif.Model.Sqrt
import Verif.Model.Sqrt2
import Verif.Model.Msm
import Verif.Model.Normalize
import Verif.Model.Inverse
import Verif.Model.Montgomery
import Verif.Model.ScalarLoop
import Verif.Model.Extension
import Verif.Model.MsmRep
import Verif.Props.Bench
import Verif.Props.Sqrt
import Verif.Props.Sqrt2
import Verif.Props.Msm
import Verif.Props.Normalize
import Verif.Props.Inverse
import Verif.Props.InverseWitness
import Verif.Props.Montgomery
import Verif.Props.ScalarLoop
import Verif.Props.Extension
import Verif.Props.MsmRep
import Verif.Props.GrothBinding
import Verif.Props.SchemeHash
