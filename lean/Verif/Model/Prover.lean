import Verif.Model.EpochCircuit

/-!
# The prover

Models `crates/epoch-snark/src/api/prover.rs` and the values which the circuit code of
`crates/epoch-snark/src/gadgets/` assigns to its witnesses.

The helper proof (`generate_hash_helper`) is modelled in `Verif.Model.HashGadget`.
-/

namespace Verif

/-- `EpochTransition`, `crates/epoch-snark/src/epoch_block.rs:22-30`. -/
structure EpochTransition (G1 : Type*) where
  block : EpochBlock
  aggregateSignature : G1
  bitmap : List Bool

/-- `EpochData`, `crates/epoch-snark/src/gadgets/epoch_data.rs:25-38`, with all options set (outside
of the setup). -/
structure EpochData where
  maximumNonSigners : UInt32
  index : UInt16
  round : UInt8
  epochEntropy : Option Bytes
  parentEntropy : Option Bytes
  publicKeys : List G2Point

/-- `SingleUpdate`, `crates/epoch-snark/src/gadgets/single_update.rs:23-28`. -/
structure SingleUpdate where
  epochData : EpochData
  signedBitmap : List Bool

/-- `to_epoch_data`, `crates/epoch-snark/src/api/prover.rs:120-133`.  The maximum number of
validators is dropped: keys are not padded. -/
def toEpochData (b : EpochBlock) : EpochData where
  index := b.index
  round := b.round
  epochEntropy := b.epochEntropy
  parentEntropy := b.parentEntropy
  maximumNonSigners := b.maximumNonSigners
  publicKeys := b.newPublicKeys

/-- `to_update`, `crates/epoch-snark/src/api/prover.rs:135-144`. -/
def toUpdate {G1 : Type*} (t : EpochTransition G1) : SingleUpdate where
  epochData := toEpochData t.block
  signedBitmap := t.bitmap

/-- `to_dummy_update`, `crates/epoch-snark/src/api/prover.rs:146-160`; `gen2` is the generator of
G2. -/
def toDummyUpdate (gen2 : G2Point) (numValidators : ℕ) : SingleUpdate where
  epochData :=
    { maximumNonSigners := 0
      epochEntropy := some (List.replicate ENTROPY_BYTES 0)
      parentEntropy := some (List.replicate ENTROPY_BYTES 0)
      index := 0
      round := 0
      publicKeys := List.replicate numValidators gen2 }
  signedBitmap := List.replicate numValidators true

/-- The updates passed to the circuit, `crates/epoch-snark/src/api/prover.rs:39-51`.  The slice
`epochs[..num_epochs - 1]` panics for an empty list (underflow, or out of range). -/
def proverEpochs {G1 : Type*} (gen2 : G2Point) (numValidators : ℕ)
    (transitions : List (EpochTransition G1)) (maxTransitions : ℕ) :
    Outcome Unit (List SingleUpdate) :=
  let epochs := transitions.map toUpdate
  let numEpochs := epochs.length
  if numEpochs < maxTransitions then
    match epochs.getLast? with
    | none => .panic
    | some lastEpoch =>
      .ok (epochs.take (numEpochs - 1) ++
        List.replicate (maxTransitions - numEpochs) (toDummyUpdate gen2 numValidators) ++
        [lastEpoch])
  else .ok epochs

/-- The signature passed to the circuit, `crates/epoch-snark/src/api/prover.rs:61-67`.  For more
transitions than `max_transitions` the range of line 63 underflows: a panic with overflow checks,
otherwise a range of nearly `2 ^ 64` elements, whose `collect` panics on capacity overflow. -/
def proverSignature {G1 : Type*} [AddCommGroup G1] (gen1 : G1)
    (transitions : List (EpochTransition G1)) (maxTransitions : ℕ) : Outcome Unit G1 :=
  let asig := (transitions.map (·.aggregateSignature)).sum
  if maxTransitions < transitions.length then .panic
  else
    let asigDummy := List.replicate (maxTransitions - transitions.length) gen1 ++ [asig]
    .ok asigDummy.sum

/-- `ValidatorSetUpdate`, `crates/epoch-snark/src/gadgets/epochs.rs:30-42`, without the helper. -/
structure ValidatorSetUpdate (G1 : Type*) where
  initialEpoch : EpochData
  epochs : List SingleUpdate
  numValidators : ℕ
  aggregatedSignature : G1

/-- The circuit built by `prove`, `crates/epoch-snark/src/api/prover.rs:22-75`, without a helper. -/
def proverCircuit {G1 : Type*} [AddCommGroup G1] (gen1 : G1) (gen2 : G2Point) (numValidators : ℕ)
    (initialEpoch : EpochBlock) (transitions : List (EpochTransition G1)) (maxTransitions : ℕ) :
    Outcome Unit (ValidatorSetUpdate G1) :=
  (proverEpochs gen2 numValidators transitions maxTransitions).bind fun epochs =>
    (proverSignature gen1 transitions maxTransitions).map fun asig =>
      { initialEpoch := toEpochData initialEpoch
        epochs := epochs
        numValidators := numValidators
        aggregatedSignature := asig }

/-! ## Values assigned to the witnesses -/

/-- Coordinates assigned to an allocated point (`new_variable_omit_prime_order_check`, external),
`crates/epoch-snark/src/gadgets/epoch_data.rs:194-198`: affine with `z = 1`, and `(0, 1, 0)` for
infinity. -/
def G2Var.ofPoint : G2Point → G2Var
  | .zero => ⟨0, 1, 0⟩
  | .some x y _ => ⟨x, y, 1⟩

/-- Value assigned by `bytes_to_fr`, `crates/epoch-snark/src/gadgets/mod.rs:86-91`
(`64 * NUM_LIMBS = 384`); `Fr::from` of a number not below the modulus is modelled by reduction
(never reached from 16 bytes). -/
def bytesToFr (bytes : Bytes) : Fq := ((fromBitsBe (bytesLeToBitsBe bytes 384) : ℕ) : Fq)

/-- Entropy value of an epoch, `crates/epoch-snark/src/gadgets/epoch_data.rs:157-169`. -/
def entropyToFr (entropy : Option Bytes) : Fq :=
  bytesToFr (match entropy with
    | some v => v
    | none => List.replicate ENTROPY_BYTES 0)

/-- Witnesses of the sign gadget of a key, `crates/epoch-snark/src/gadgets/mod.rs:106`. -/
def keyWitness (v : G2Var) : YBitWitness FQ_MODULUS := yToBitG2Witness (.var v.y.re) (.var v.y.im)

/-- Values assigned by `EpochData::to_bits`,
`crates/epoch-snark/src/gadgets/epoch_data.rs:147-208`. -/
def EpochVars.assign (d : EpochData) : EpochVars where
  index := ((d.index.toNat : ℕ) : Fq)
  round := ((d.round.toNat : ℕ) : Fq)
  maximumNonSigners := ((d.maximumNonSigners.toNat : ℕ) : Fq)
  epochEntropy := entropyToFr d.epochEntropy
  parentEntropy := entropyToFr d.parentEntropy
  keys := d.publicKeys.map fun pk => (G2Var.ofPoint pk, keyWitness (G2Var.ofPoint pk))

/-- Values assigned to the variables of one update,
`crates/epoch-snark/src/gadgets/single_update.rs:79-136`.  `hashW` assigns the hash of a message and
may fail (`gadgets/epoch_data.rs:288-290`); the counter of the threshold gadget may panic
(`crates/bls-gadgets/src/bitmap.rs:49-53`). -/
def UpdateVars.assign {G1 : Type*} (overflowChecks : Bool)
    (hashW : List Bool → List Bool → Outcome Unit (HashOut G1)) (s : SingleUpdate) :
    Outcome Unit (UpdateVars G1) :=
  let e := EpochVars.assign s.epochData
  (hashW e.epochBits e.extraDataBits).bind fun h =>
    (maxOccurrencesWitness overflowChecks s.signedBitmap false).map fun occ =>
      { epoch := e
        bitmap := s.signedBitmap
        hash := h
        occurrences := occ
        nextZero := isEqZeroWitness (.var e.index)
        updateZero := isEqZeroWitness (.var e.index)
        loopZero := isEqZeroWitness (.var e.index) }

/-- Values assigned to the aggregate of the last epoch,
`crates/epoch-snark/src/gadgets/epochs.rs:272-275`. -/
def LastVars.assign (apk : G2Point) : LastVars :=
  let v := G2Var.ofPoint apk
  ⟨v.x, v.y, keyWitness v⟩

/-- Values assigned to all variables of the circuit,
`crates/epoch-snark/src/gadgets/epochs.rs:102-312`. -/
noncomputable def CircuitVars.assign {G1 : Type*} (overflowChecks : Bool)
    (hashW : List Bool → List Bool → Outcome Unit (HashOut G1)) (s : ValidatorSetUpdate G1) :
    Outcome Unit (CircuitVars G1) :=
  (Outcome.mapM (UpdateVars.assign overflowChecks hashW) s.epochs).map fun us =>
    let initial := EpochVars.assign s.initialEpoch
    { initial := initial
      entropyZero := isEqZeroWitness (.var initial.epochEntropy)
      updates := us
      last := LastVars.assign (match s.epochs.getLast? with
        | some u => u.epochData.publicKeys.sum
        | none => 0)
      signature := s.aggregatedSignature }

end Verif
