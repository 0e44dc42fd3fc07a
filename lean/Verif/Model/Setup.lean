import Verif.Model.HashGadget

/-!
# The setup

Models `crates/epoch-snark/src/api/setup.rs`, the `empty` circuits it is run on, and the circuits
with optional values of `crates/epoch-snark/src/gadgets/`, which both the setup and the prover build.

The Groth16 parameter generator is external: a function of the circuit and of the random generator.
-/

namespace Verif

/-- `HashToBits`, `crates/epoch-snark/src/gadgets/hash_to_bits.rs:20-22`. -/
structure HashToBits where
  messageBits : List (List (Option Bool))

/-- `HashToBits::empty`, `crates/epoch-snark/src/gadgets/hash_to_bits.rs:26-31`; `modulusBits` is
`P::MODULUS_BITS`. -/
def HashToBits.empty (modulusBits numEpochs : ℕ) : HashToBits :=
  let modulusBitRounded := ((modulusBits + 7) / 8) * 8
  ⟨List.replicate numEpochs (List.replicate modulusBitRounded none)⟩

/-- `EpochData`, `crates/epoch-snark/src/gadgets/epoch_data.rs:25-38`. -/
structure EpochDataOpt where
  maximumNonSigners : UInt32
  index : Option UInt16
  round : Option UInt8
  epochEntropy : Option Bytes
  parentEntropy : Option Bytes
  publicKeys : List (Option G2Point)

/-- `EpochData::empty`, `crates/epoch-snark/src/gadgets/epoch_data.rs:85-94`. -/
def EpochDataOpt.empty (numValidators maximumNonSigners : ℕ) : EpochDataOpt where
  index := none
  round := none
  epochEntropy := none
  parentEntropy := none
  maximumNonSigners := UInt32.ofNat maximumNonSigners
  publicKeys := List.replicate numValidators none

/-- `SingleUpdate`, `crates/epoch-snark/src/gadgets/single_update.rs:23-28`. -/
structure SingleUpdateOpt where
  epochData : EpochDataOpt
  signedBitmap : List (Option Bool)

/-- `SingleUpdate::empty`, `crates/epoch-snark/src/gadgets/single_update.rs:32-37`. -/
def SingleUpdateOpt.empty (numValidators maximumNonSigners : ℕ) : SingleUpdateOpt where
  epochData := EpochDataOpt.empty numValidators maximumNonSigners
  signedBitmap := List.replicate numValidators none

/-- `HashToBitsHelper`, `crates/epoch-snark/src/gadgets/epochs.rs:46-51`. -/
structure HashToBitsHelper (HP VK : Type*) where
  proof : HP
  verifyingKey : VK

/-- `ValidatorSetUpdate`, `crates/epoch-snark/src/gadgets/epochs.rs:30-42`. -/
structure ValidatorSetUpdateOpt (G1 HP VK : Type*) where
  initialEpoch : EpochDataOpt
  numValidators : ℕ
  epochs : List SingleUpdateOpt
  aggregatedSignature : Option G1
  hashHelper : Option (HashToBitsHelper HP VK)

/-- `ValidatorSetUpdate::empty`, `crates/epoch-snark/src/gadgets/epochs.rs:56-75`; `defaultProof` is
`Proof::default()`.  The number of validators is truncated to 32 bits (`as u32`). -/
def ValidatorSetUpdateOpt.empty {G1 HP VK : Type*} (defaultProof : HP)
    (numValidators numEpochs maximumNonSigners : ℕ) (vk : Option VK) :
    ValidatorSetUpdateOpt G1 HP VK where
  initialEpoch := EpochDataOpt.empty numValidators maximumNonSigners
  numValidators := (UInt32.ofNat numValidators).toNat
  epochs := List.replicate numEpochs (SingleUpdateOpt.empty numValidators maximumNonSigners)
  aggregatedSignature := none
  hashHelper := vk.map fun vk => ⟨defaultProof, vk⟩

/-- `Parameters`, `crates/epoch-snark/src/api/setup.rs:18-21`. -/
structure SetupParameters (PC PB : Type*) where
  epochs : PC
  hashToBits : Option PB

/-- `setup`, `crates/epoch-snark/src/api/setup.rs:63-105`.  The random generator is a state `R`
passed along; `vkOf` is the field `vk` of the helper's parameters and 377 is `MODULUS_BITS` of the
scalar field of BW6-761. -/
def setup {G1 HP VK PC PB R ε : Type*} (defaultProof : HP) (vkOf : PB → VK)
    (numValidators numEpochs maximumNonSigners : ℕ)
    (hashToBitsSetup : HashToBits → R → Outcome ε PB × R)
    (validatorSetupFn : ValidatorSetUpdateOpt G1 HP VK → R → Outcome ε PC × R)
    (hashesInBls12_377 : Bool) (rng : R) : Outcome ε (SetupParameters PC PB) × R :=
  let r : Outcome ε (Option VK × Option PB) × R :=
    if hashesInBls12_377 then
      let emptyHashToBits := HashToBits.empty 377 numEpochs
      let r := hashToBitsSetup emptyHashToBits rng
      (r.1.map fun hashToBits => (some (vkOf hashToBits), some hashToBits), r.2)
    else (.ok (none, none), rng)
  match r with
  | (.ok (vk, hashToBits), rng) =>
    let emptyEpochs := ValidatorSetUpdateOpt.empty defaultProof numValidators numEpochs
      maximumNonSigners vk
    let e := validatorSetupFn emptyEpochs rng
    (e.1.map fun epochs => ⟨epochs, hashToBits⟩, e.2)
  | (.err x, rng) => (.err x, rng)
  | (.panic, rng) => (.panic, rng)

/-- `trusted_setup`, `crates/epoch-snark/src/api/setup.rs:30-46`; `generateB` and `generateC` are the
two instances of `generate_random_parameters` (ark_groth16, external). -/
def trustedSetup {G1 HP VK PC PB R ε : Type*} (defaultProof : HP) (vkOf : PB → VK)
    (generateB : HashToBits → R → Outcome ε PB × R)
    (generateC : ValidatorSetUpdateOpt G1 HP VK → R → Outcome ε PC × R)
    (numValidators numEpochs maximumNonSigners : ℕ) (rng : R) (hashesInBls12_377 : Bool) :
    Outcome ε (SetupParameters PC PB) × R :=
  setup defaultProof vkOf numValidators numEpochs maximumNonSigners generateB generateC
    hashesInBls12_377 rng

/-! ## The prover's circuits, with options -/

/-- The data of an epoch as the prover wraps it, `crates/epoch-snark/src/api/prover.rs:120-133`. -/
def EpochData.toOpt (d : EpochData) : EpochDataOpt where
  index := some d.index
  round := some d.round
  epochEntropy := d.epochEntropy
  parentEntropy := d.parentEntropy
  maximumNonSigners := d.maximumNonSigners
  publicKeys := d.publicKeys.map some

/-- An update as the prover wraps it, `crates/epoch-snark/src/api/prover.rs:135-144`. -/
def SingleUpdate.toOpt (u : SingleUpdate) : SingleUpdateOpt where
  epochData := u.epochData.toOpt
  signedBitmap := u.signedBitmap.map some

/-- The circuit of `prove`, `crates/epoch-snark/src/api/prover.rs:69-75`, with the helper. -/
def ValidatorSetUpdate.toOpt {G1 HP VK : Type*} (s : ValidatorSetUpdate G1)
    (helper : Option (HashToBitsHelper HP VK)) : ValidatorSetUpdateOpt G1 HP VK where
  initialEpoch := s.initialEpoch.toOpt
  numValidators := s.numValidators
  epochs := s.epochs.map SingleUpdate.toOpt
  aggregatedSignature := some s.aggregatedSignature
  hashHelper := helper

/-- The circuit of `generate_hash_helper`, `crates/epoch-snark/src/api/prover.rs:89-110`. -/
noncomputable def proverHelperCircuit {G1 : Type*} (gen2 : G2Point)
    (pedersen : Bytes → Outcome BLSError Bytes) (transitions : List (EpochTransition G1)) :
    Outcome Unit HashToBits :=
  (helperMessages gen2 pedersen transitions).map fun ms => ⟨ms.map (·.map some)⟩

/-- `generate_hash_helper`, `crates/epoch-snark/src/api/prover.rs:84-118`; `createProof` is
`create_proof_no_zk` (ark_groth16, external) and `vkOf` the field `vk` of the parameters. -/
noncomputable def generateHashHelper {G1 HP VK PB : Type*} (gen2 : G2Point)
    (pedersen : Bytes → Outcome BLSError Bytes)
    (createProof : HashToBits → PB → Outcome Unit HP) (vkOf : PB → VK) (params : PB)
    (transitions : List (EpochTransition G1)) : Outcome Unit (HashToBitsHelper HP VK) :=
  (proverHelperCircuit gen2 pedersen transitions).bind fun circuit =>
    (createProof circuit params).map fun proof => ⟨proof, vkOf params⟩

/-- `prove`, `crates/epoch-snark/src/api/prover.rs:22-82`, with the helper.  The helper is generated
after the epochs are padded and before the signatures are added up. -/
noncomputable def prove {G1 HP VK PC PB Proof : Type*} [AddCommGroup G1] (gen1 : G1) (gen2 : G2Point)
    (pedersen : Bytes → Outcome BLSError Bytes)
    (createProofB : HashToBits → PB → Outcome Unit HP)
    (createProofC : ValidatorSetUpdateOpt G1 HP VK → PC → Outcome Unit Proof) (vkOf : PB → VK)
    (parameters : SetupParameters PC PB) (numValidators : ℕ) (initialEpoch : EpochBlock)
    (transitions : List (EpochTransition G1)) (maxTransitions : ℕ) : Outcome Unit Proof :=
  (proverEpochs gen2 numValidators transitions maxTransitions).bind fun epochs =>
    (match parameters.hashToBits with
      | some params =>
        (generateHashHelper gen2 pedersen createProofB vkOf params transitions).map some
      | none => .ok none).bind fun hashHelper =>
      (proverSignature gen1 transitions maxTransitions).bind fun asig =>
        let circuit : ValidatorSetUpdate G1 :=
          { initialEpoch := toEpochData initialEpoch
            epochs := epochs
            numValidators := numValidators
            aggregatedSignature := asig }
        createProofC (circuit.toOpt hashHelper) parameters.epochs

/-! ## Shapes -/

/-- What the layout of the constraints of `ValidatorSetUpdate` depends on
(`crates/epoch-snark/src/gadgets/epochs.rs:82-312`): the numbers of keys and of bitmap bits, the
asserted number of validators and the helper's verifying key, which is a constant of the circuit
(`gadgets/epoch_bits.rs:113-116`).  All other fields are values of witnesses. -/
structure CircuitShape (VK : Type*) where
  numValidators : ℕ
  initialKeys : ℕ
  updates : List (ℕ × ℕ)
  helperKey : Option VK

/-- The shape of an epoch circuit, `crates/epoch-snark/src/gadgets/epochs.rs:30-42`. -/
def ValidatorSetUpdateOpt.shape {G1 HP VK : Type*} (s : ValidatorSetUpdateOpt G1 HP VK) :
    CircuitShape VK where
  numValidators := s.numValidators
  initialKeys := s.initialEpoch.publicKeys.length
  updates := s.epochs.map fun u => (u.epochData.publicKeys.length, u.signedBitmap.length)
  helperKey := s.hashHelper.map (·.verifyingKey)

/-- The shape of a helper circuit, `crates/epoch-snark/src/gadgets/hash_to_bits.rs:46-52`: the
lengths of its messages. -/
def HashToBits.shape (h : HashToBits) : List ℕ := h.messageBits.map List.length

end Verif
