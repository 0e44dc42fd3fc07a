import Verif.Model.Fixtures
import Verif.Model.SynthesisEpochs

/-!
# The benchmark of the batch verification and the program that counts constraints

Models `crates/bls-crypto/benches/batch_bls.rs` and `crates/epoch-snark/examples/constraints.rs`.  A failing `unwrap`
is a panic.  Command lines, printing and the measuring of time are not modelled: the benchmark takes the messages and
the keys that the random generator yields, and runs each measured function once; the other program returns the number
it prints.
-/

namespace Verif

section
variable {r : ℕ} {G1 G2 GT : Type*} [AddCommGroup G1] [Module (ZMod r) G1] [AddCommGroup G2]
  [Module (ZMod r) G2] [CommGroup GT] [DecidableEq GT]

/-- The variables of one block, `crates/bls-crypto/benches/batch_bls.rs:41-43`. -/
structure BenchBlock (G1 G2 : Type*) where
  epochPubkey : G2
  epochSig : G1
  epochBatch : Batch G1 G2

/-- The loop over the validators, `crates/bls-crypto/benches/batch_bls.rs:44-51`, for the keys generated. -/
def benchSign (P : Pairing r G1 G2 GT) (H : HashToG1 G1) (msg : Bytes × Bytes) :
    List (ZMod r) → BenchBlock G1 G2 → Outcome Unit (BenchBlock G1 G2)
  | [], b => .ok b
  | sk :: sks, b =>
    (sign sk msg.1 msg.2 H).unwrapResult.bind fun s =>
      benchSign P H msg sks
        ⟨b.epochPubkey + toPublic P sk, b.epochSig + s, b.epochBatch.add (toPublic P sk) s⟩

/-- The loop over the blocks, `crates/bls-crypto/benches/batch_bls.rs:40-59`: a message with the keys of its committee
for each block. -/
def benchBlocks (P : Pairing r G1 G2 GT) (H : HashToG1 G1) (input : List ((Bytes × Bytes) × List (ZMod r))) :
    Outcome Unit (List (BenchBlock G1 G2)) :=
  Outcome.mapM (fun x => benchSign P H x.1 x.2 ⟨0, 0, Batch.new x.1.1 x.1.2⟩) input

/-- The whole benchmark, `crates/bls-crypto/benches/batch_bls.rs:12-97`; `rng i` is the random source of the `i`-th
call of `Batch::verify`. -/
def benchMain (P : Pairing r G1 G2 GT) (H : HashToG1 G1) (rng : ℕ → ℕ → ℕ → UInt8)
    (input : List ((Bytes × Bytes) × List (ZMod r))) : Outcome Unit Unit :=
  (benchBlocks P H input).bind fun blocks =>
    let msgs := input.map Prod.fst
    let aggregatePubkeys := blocks.map (·.epochPubkey)
    let aggregateSigs := blocks.map (·.epochSig)
    let asig := blocks.foldl (fun a b => a + b.epochSig) 0
    (Outcome.mapM (fun x => (verify P x.1.1 x.2.1 x.2.2 x.1.2 H).unwrapResult)
      ((aggregatePubkeys.zip aggregateSigs).zip msgs)).bind fun _ =>
    (batchVerify P asig aggregatePubkeys SIG_DOMAIN msgs H).unwrapResult.bind fun _ =>
    (Outcome.mapM (fun x => (x.1.epochBatch.verify P H (rng x.2)).unwrapResult) blocks.zipIdx).bind fun _ =>
    (Outcome.mapM (fun b => (b.epochBatch.verifyEach P H).unwrapResult) blocks).bind fun _ => .ok ()

end

/-- `main` of `crates/epoch-snark/examples/constraints.rs:6-33` for its two arguments: the number of constraints it
prints. -/
def constraintsMain {HP VK : Type} (O : OuterGadgets (HashToBitsHelper HP VK)) (overflowChecks drop : Bool)
    (gen1 : Fq × Fq) (gen2 : (Fq × Fq) × (Fq × Fq)) (defaultProof : HP) (numValidators numEpochs : ℕ) :
    Outcome Unit ℕ :=
  (proofFaults overflowChecks numValidators).bind fun faults =>
    (generateConstraints O overflowChecks drop gen1 gen2
      (ValidatorSetUpdateOpt.empty defaultProof numValidators numEpochs faults none)
      (.new FQ_MODULUS true)).unwrapResult.map fun r => r.2.constraints.length

end Verif
