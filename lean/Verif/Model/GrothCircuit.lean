import Verif.Model.Groth16
import Verif.Model.Setup

/-!
# Groth16 for the epoch circuit

How `crates/epoch-snark/src/api/{setup,prover}.rs` use the proof system: the constraint system is
synthesised from the circuit, by the setup and again by the prover.
-/

namespace Verif

/-- The constraint systems which `generate_constraints` builds
(`crates/epoch-snark/src/gadgets/epochs.rs:82-312`) and the domains chosen for them: they depend on the
shape of the circuit only.  There are two public inputs (`gadgets/epoch_bits.rs:92-98`). -/
structure CircuitSystem (VK : Type*) where
  witnesses : CircuitShape VK → ℕ
  constraints : CircuitShape VK → ℕ
  system : ∀ σ, R1cs Fq 2 (witnesses σ) (constraints σ)
  domain : CircuitShape VK → EvalDomain Fq

section
variable {G1P HP VK G1 G2 : Type*} [AddCommGroup G1] [Module (ZMod FQ_MODULUS) G1] [AddCommGroup G2]
  [Module (ZMod FQ_MODULUS) G2] [Fact (Nat.Prime FQ_MODULUS)]

/-- `generate_random_parameters(c, rng)`, `crates/epoch-snark/src/api/setup.rs:43`, on the constraint
system of the circuit; the random generator is the sequence of what it will give. -/
noncomputable def grothSetup (S : CircuitSystem VK) (circuit : ValidatorSetUpdateOpt G1P HP VK)
    (rng : ℕ → Trapdoor (ZMod FQ_MODULUS) G1 G2) :
    Outcome Unit (GrothPk G1 G2) × (ℕ → Trapdoor (ZMod FQ_MODULUS) G1 G2) :=
  (generateParameters (S.system circuit.shape) (S.domain circuit.shape) (rng 0), fun i => rng (i + 1))

/-- `create_proof_no_zk(circuit, &parameters.epochs)`, `crates/epoch-snark/src/api/prover.rs:78`; `values`
are the public inputs and the witnesses that synthesis assigns. -/
noncomputable def grothProve (S : CircuitSystem VK)
    (values : ∀ circuit : ValidatorSetUpdateOpt G1P HP VK,
      Outcome Unit ((Fin 2 → Fq) × (Fin (S.witnesses circuit.shape) → Fq)))
    (circuit : ValidatorSetUpdateOpt G1P HP VK) (pk : GrothPk G1 G2) :
    Outcome Unit (GrothProof G1 G2) :=
  (values circuit).map fun v =>
    createProofNoZk (S.system circuit.shape) (S.domain circuit.shape) pk v.1 v.2

end

end Verif
