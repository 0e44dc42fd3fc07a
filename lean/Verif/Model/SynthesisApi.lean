import Verif.Model.SynthesisGroth
import Verif.Model.SynthesisHelper
import Verif.Model.Setup

/-!
# Setup and proofs of both circuits, on the constraints they emit

How `crates/epoch-snark/src/api/{setup,prover}.rs` call the proof system: the constraints are those that the
two `generate_constraints` of the model emit.  The random generator of the setup is given by what it yields for the two calls, the helper's
first.
-/

namespace Verif

section

variable {HP VK A1 A2 B1 B2 : Type} [AddCommGroup A1] [Module (ZMod FQ_MODULUS) A1] [AddCommGroup A2]
  [Module (ZMod FQ_MODULUS) A2] [AddCommGroup B1] [Module (ZMod FR_MODULUS) B1] [AddCommGroup B2]
  [Module (ZMod FR_MODULUS) B2] [Fact (Nat.Prime FQ_MODULUS)] [Fact (Nat.Prime FR_MODULUS)]

/-- What the generator yields for the two calls of `trusted_setup`,
`crates/epoch-snark/src/api/setup.rs:30-46`. -/
abbrev SetupRng (A1 A2 B1 B2 : Type) : Type :=
  Trapdoor (ZMod FR_MODULUS) B1 B2 × Trapdoor (ZMod FQ_MODULUS) A1 A2

/-- `generate_random_parameters::<BLSCurve, _, _>(c, rng)`, `crates/epoch-snark/src/api/setup.rs:42`, on the
helper circuit. -/
noncomputable def helperSetup (blake : List BoolV → Bytes → Synth FR_MODULUS (List BoolV))
    (domain : ℕ → EvalDomain (ZMod FR_MODULUS)) (circuit : HashToBits) (rng : SetupRng A1 A2 B1 B2) :
    Outcome Unit (GrothPk B1 B2) × SetupRng A1 A2 B1 B2 :=
  (circuitSetup (circuit.generateConstraints blake) domain rng.1, rng)

/-- `generate_random_parameters::<CPCurve, _, _>(c, rng)`, `crates/epoch-snark/src/api/setup.rs:43`, on the
epoch circuit. -/
noncomputable def epochSetup (O : OuterGadgets (HashToBitsHelper HP VK)) (oc drop : Bool) (a : Fq × Fq)
    (d : (Fq × Fq) × (Fq × Fq)) (domain : ℕ → EvalDomain (ZMod FQ_MODULUS))
    (circuit : ValidatorSetUpdateOpt G1Point HP VK) (rng : SetupRng A1 A2 B1 B2) :
    Outcome Unit (GrothPk A1 A2) × SetupRng A1 A2 B1 B2 :=
  (circuitSetup (generateConstraints O oc drop a d circuit) domain rng.2, rng)

/-- `create_proof_no_zk(circuit, params)`, `crates/epoch-snark/src/api/prover.rs:112`, on the helper circuit. -/
noncomputable def helperProve (blake : List BoolV → Bytes → Synth FR_MODULUS (List BoolV))
    (domain : ℕ → EvalDomain (ZMod FR_MODULUS)) (circuit : HashToBits) (pk : GrothPk B1 B2) :
    Outcome Unit (GrothProof B1 B2) :=
  circuitProve (circuit.generateConstraints blake) domain pk 0 0

/-- `create_proof_no_zk(circuit, &parameters.epochs)`, `crates/epoch-snark/src/api/prover.rs:78`, on the epoch
circuit. -/
noncomputable def epochProve (O : OuterGadgets (HashToBitsHelper HP VK)) (oc drop : Bool) (a : Fq × Fq)
    (d : (Fq × Fq) × (Fq × Fq)) (domain : ℕ → EvalDomain (ZMod FQ_MODULUS))
    (circuit : ValidatorSetUpdateOpt G1Point HP VK) (pk : GrothPk A1 A2) : Outcome Unit (GrothProof A1 A2) :=
  circuitProve (generateConstraints O oc drop a d circuit) domain pk 0 0

end

end Verif
