import Verif.Model.Setup
import Verif.Model.Scheme
import Verif.Model.Serialize
import Verif.Model.KeyGen

/-!
# Model: test helpers, the fixture, the end-to-end program and the examples

Models `crates/bls-crypto/src/test_helpers.rs`, `crates/epoch-snark/tests/fixtures.rs`,
`crates/epoch-snark/tests/e2e.rs` and the programs under `crates/bls-crypto/examples` and
`crates/epoch-snark/examples/proof.rs`.  A failing `unwrap`, `expect` or `assert!` is a panic.  Command
lines, printing and files are not modelled: a program takes its parsed arguments and returns what it
prints.
-/

namespace Verif

/-- `Result::unwrap`, for instance `crates/epoch-snark/tests/fixtures.rs:58`. -/
def Outcome.unwrapResult {ε ε' α : Type*} : Outcome ε α → Outcome ε' α
  | .ok a => .ok a
  | .err _ => .panic
  | .panic => .panic

/-! ## test_helpers.rs -/

section
variable {r : ℕ} {G1 G2 : Type*} [AddCommGroup G1] [AddCommGroup G2]

/-- `keygen`, `crates/bls-crypto/src/test_helpers.rs:10-17`; `rng` is the sequence of scalars drawn by
`Fr::rand` (external), `s` the position in it before and after. -/
def keygen (gen : G2) (rng : ℕ → ZMod r) (s : ℕ) : (ZMod r × G2) × ℕ :=
  let secretKey := rng s
  let pubkey := secretKey.val • gen
  ((secretKey, pubkey), s + 1)

/-- The loop of `keygen_mul`, `crates/bls-crypto/src/test_helpers.rs:23-27`. -/
def keygenMulLoop (gen : G2) (rng : ℕ → ZMod r) :
    ℕ → List (ZMod r) → List G2 → ℕ → (List (ZMod r) × List G2) × ℕ
  | 0, sks, pks, s => ((sks, pks), s)
  | k + 1, sks, pks, s =>
    let ((sk, pk), s) := keygen gen rng s
    keygenMulLoop gen rng k (sks ++ [sk]) (pks ++ [pk]) s

/-- `keygen_mul`, `crates/bls-crypto/src/test_helpers.rs:20-29`. -/
def keygenMul (gen : G2) (rng : ℕ → ZMod r) (num s : ℕ) : (List (ZMod r) × List G2) × ℕ :=
  keygenMulLoop gen rng num [] [] s

/-- The loop of `keygen_batch`, `crates/bls-crypto/src/test_helpers.rs:39-43`. -/
def keygenBatchLoop (gen : G2) (rng : ℕ → ZMod r) (numPerBatch : ℕ) :
    ℕ → List (List (ZMod r)) → List (List G2) → ℕ → (List (List (ZMod r)) × List (List G2)) × ℕ
  | 0, sks, pks, s => ((sks, pks), s)
  | k + 1, sks, pks, s =>
    let ((sk, pk), s) := keygenMul gen rng numPerBatch s
    keygenBatchLoop gen rng numPerBatch k (sks ++ [sk]) (pks ++ [pk]) s

/-- `keygen_batch`, `crates/bls-crypto/src/test_helpers.rs:33-45`. -/
def keygenBatch (gen : G2) (rng : ℕ → ZMod r) (numBatches numPerBatch s : ℕ) :
    (List (List (ZMod r)) × List (List G2)) × ℕ :=
  keygenBatchLoop gen rng numPerBatch numBatches [] [] s

/-- `sum`, `crates/bls-crypto/src/test_helpers.rs:48-50`. -/
def helperSum {P : Type*} [AddCommGroup P] (elements : List P) : P :=
  elements.foldl (fun acc key => acc + key) 0

/-- `sign`, `crates/bls-crypto/src/test_helpers.rs:69-81`. -/
def helperSign (messageHash : G1) (secretKeys : List (ZMod r)) : List G1 × G1 :=
  let sigs := secretKeys.map fun key => key.val • messageHash
  let asig := sigs.foldl (fun acc sig => acc + sig) 0
  (sigs, asig)

/-- `sign_batch`, `crates/bls-crypto/src/test_helpers.rs:54-66`. -/
def helperSignBatch (secretKeys : List (List (ZMod r))) (messages : List G1) : List G1 :=
  (secretKeys.zip messages).map fun p => (helperSign p.2 p.1).2

end

/-! ## tests/fixtures.rs -/

/-- `generate_bitmaps`, `crates/epoch-snark/tests/fixtures.rs:106-116`. -/
def generateBitmaps (numEpochs numValidators faults : ℕ) : List (List Bool) :=
  (List.range numEpochs).map fun _ =>
    (List.range numValidators).map fun j => if j < faults then false else true

/-- `generate_block`, `crates/epoch-snark/tests/fixtures.rs:85-103`. -/
def generateBlock (index round : ℕ) (epochEntropy parentEntropy : Bytes)
    (nonSigners maxValidators : ℕ) (pubkeys : List G2Point) : EpochBlock where
  index := UInt16.ofNat index
  round := UInt8.ofNat round
  epochEntropy := some epochEntropy
  parentEntropy := some parentEntropy
  maximumNonSigners := UInt32.ofNat nonSigners
  maximumValidators := maxValidators
  newPublicKeys := pubkeys

section
variable {G1 : Type*} [AddCommGroup G1]

/-- The aggregate signature of an epoch, `crates/epoch-snark/tests/fixtures.rs:62-70`: `j` is the
position reached.  Indexing panics past the end of the bitmap. -/
def fixtureSignLoop (hash : G1) (bitmap : List Bool) :
    List (ZMod FR_MODULUS) → ℕ → G1 → Outcome Unit G1
  | [], _, asig => .ok asig
  | sk :: sks, j, asig =>
    match bitmap[j]? with
    | none => .panic
    | some b => fixtureSignLoop hash bitmap sks (j + 1) (if b then asig + sk.val • hash else asig)

/-- The loop over the epochs, `crates/epoch-snark/tests/fixtures.rs:48-79`, from epoch `i` on; `H` is
`hash_to_g1_cip22`. -/
def fixtureLoop (H : EpochBlock → Outcome BLSError G1) (faults numValidators : ℕ)
    (pubkeys : List (List G2Point)) (bitmaps : List (List Bool)) :
    List (List (ZMod FR_MODULUS)) → ℕ → List (EpochTransition G1) →
      Outcome Unit (List (EpochTransition G1))
  | [], _, transitions => .ok transitions
  | signersEpoch :: rest, i, transitions =>
    match pubkeys[i]? with
    | none => .panic
    | some keys =>
      let block := generateBlock (i + 1) (i + 10) (List.replicate ENTROPY_BYTES (UInt8.ofNat (i + 2)))
        (List.replicate ENTROPY_BYTES (UInt8.ofNat (i + 1))) faults numValidators keys
      (H block).unwrapResult.bind fun hash =>
        match bitmaps[i]? with
        | none => .panic
        | some bitmapEpoch =>
          (fixtureSignLoop hash bitmapEpoch signersEpoch 0 0).bind fun asig =>
            fixtureLoop H faults numValidators pubkeys bitmaps rest (i + 1)
              (transitions ++ [⟨block, asig, bitmapEpoch⟩])

/-- `generate_test_data`, `crates/epoch-snark/tests/fixtures.rs:10-83`.  The slice
`validators.0[..len - 1]` panics for no epochs (underflow, or out of range). -/
noncomputable def generateTestData (gen2 : G2Point) (H : EpochBlock → Outcome BLSError G1)
    (rng : ℕ → ZMod FR_MODULUS) (numValidators faults numEpochs : ℕ) :
    Outcome Unit (EpochBlock × List (EpochTransition G1) × EpochBlock) :=
  let bitmaps := generateBitmaps numEpochs numValidators faults
  let (initialValidatorSet, s) := keygenMul gen2 rng numValidators 0
  let firstEpoch := generateBlock 0 0 (List.replicate ENTROPY_BYTES 1) (List.replicate ENTROPY_BYTES 2)
    faults numValidators initialValidatorSet.2
  let (validators, _) := keygenBatch gen2 rng numEpochs numValidators s
  if validators.1.length = 0 then .panic
  else
    let signers := initialValidatorSet.1 :: validators.1.take (validators.1.length - 1)
    (fixtureLoop H faults numValidators validators.2 bitmaps signers 0 []).bind fun transitions =>
      match transitions.getLast? with
      | none => .panic
      | some t => .ok (firstEpoch, transitions, t.block)

/-! ## tests/e2e.rs and examples/proof.rs -/

/-- The program of `crates/epoch-snark/tests/e2e.rs:9-44` and `:70-106` and of
`crates/epoch-snark/examples/proof.rs:41-68`: setup, test data, proof, verification.  `maxEpochs` is the
number of updates of the circuit (`num_transitions`, `max_transitions` or `num_epochs`); serialising and
printing the results (`tests/e2e.rs:46-65`) is left out.  Groth16 (`generateB`, `generateC`,
`createProofB`, `createProofC`, `groth16`) and the fields `vk` are external. -/
noncomputable def endToEnd {HP VK PC PB R ε VKC Proof : Type*} (gen1 : G1) (gen2 : G2Point)
    (B : Blake2s) (pedersen : Bytes → Outcome BLSError Bytes) (H : EpochBlock → Outcome BLSError G1)
    (defaultProof : HP) (vkOf : PB → VK) (vkOfC : PC → VKC)
    (generateB : HashToBits → R → Outcome ε PB × R)
    (generateC : ValidatorSetUpdateOpt G1 HP VK → R → Outcome ε PC × R)
    (createProofB : HashToBits → PB → Outcome Unit HP)
    (createProofC : ValidatorSetUpdateOpt G1 HP VK → PC → Outcome Unit Proof)
    (groth16 : VKC → Proof → List Fq → Outcome Unit Bool)
    (rng : ℕ → ZMod FR_MODULUS) (setupRng : R) (numValidators faults numEpochs maxEpochs : ℕ)
    (hashesInBls12_377 : Bool) : Outcome Unit Unit :=
  (trustedSetup defaultProof vkOf generateB generateC numValidators maxEpochs faults setupRng
      hashesInBls12_377).1.unwrapResult.bind fun params =>
    (generateTestData gen2 H rng numValidators faults numEpochs).bind fun d =>
      (prove gen1 gen2 pedersen createProofB createProofC vkOf params
          (UInt32.ofNat numValidators).toNat d.1 d.2.1 maxEpochs).unwrapResult.bind fun proof =>
        match verifyEpochs groth16 gen2 B (vkOfC params.epochs) d.1 d.2.2 proof with
        | .ok _ => .ok ()
        | .err _ => .panic
        | .panic => .panic

/-- The number of faults tolerated, `crates/epoch-snark/examples/proof.rs:39`: the subtraction
underflows for no validators, which panics with overflow checks and wraps around (64 bits) without. -/
def proofFaults (overflowChecks : Bool) (numValidators : ℕ) : Outcome Unit ℕ :=
  if numValidators = 0 then
    if overflowChecks then .panic else .ok ((2 ^ 64 - 1) / 3)
  else .ok ((numValidators - 1) / 3)

end

/-! ## The examples of bls-crypto -/

section
variable {r : ℕ} {G1 G2 GT : Type*} [AddCommGroup G1] [Module (ZMod r) G1] [AddCommGroup G2]
  [Module (ZMod r) G2] [CommGroup GT] [DecidableEq GT]

/-- `main` of `crates/bls-crypto/examples/simple_signature.rs:10-67` for three generated keys: the
aggregated key and signature it prints. -/
def simpleSignature (P : Pairing r G1 G2 GT) (H : HashToG1 G1) (sk1 sk2 sk3 : ZMod r)
    (message : Bytes) : Outcome Unit (G2 × G1) :=
  (sign sk1 message [] H).unwrapResult.bind fun sig1 =>
  (sign sk2 message [] H).unwrapResult.bind fun sig2 =>
  (sign sk3 message [] H).unwrapResult.bind fun sig3 =>
    let apk := aggregatePublicKeys [toPublic P sk1, toPublic P sk2, toPublic P sk3, toPublic P sk3]
    let asig1 := aggregateSignatures [sig1, sig3]
    let asig2 := aggregateSignatures [sig2, sig3]
    let asig := aggregateSignatures [asig1, asig2]
    (verify P apk message [] asig H).unwrapResult.map fun _ => (apk, asig)

end

section
variable {GT : Type*} [CommGroup GT] [DecidableEq GT]

/-- `main` of `crates/bls-crypto/examples/pop.rs:7-37`: from the bytes of the key (after `hex::decode`)
to the bytes printed. -/
noncomputable def popMain (C : CurvePairing GT) (H : HashToG1 G1r) (keyBytes : Bytes) :
    Outcome Unit Bytes :=
  (deserializePrivateKey keyBytes).unwrapResult.bind fun sk =>
    let pk : G2r := toPublic C.toPairing sk.1
    let pkBytes := serializePublicKey pk
    (signPop sk.1 pkBytes H).unwrapResult.bind fun pop =>
      let popBytes := serializeSignature pop
      (verifyPop C.toPairing pk pkBytes pop H).unwrapResult.map fun _ => popBytes

/-- The address of `crates/bls-crypto/examples/pop_csv.rs:36`. -/
def popCsvAddress : Bytes :=
  [0x60, 0x51, 0x5f, 0x8c, 0x59, 0x45, 0x1e, 0x04, 0xab, 0x4b, 0x22, 0xb3, 0xfc, 0x9a, 0x19, 0x6b,
    0x2a, 0xd3, 0x54, 0xe6]

/-- `main` of `crates/bls-crypto/examples/pop_csv.rs:8-60` for the generated keys: the lines written,
as the bytes of secret key, public key and proof. -/
noncomputable def popCsvMain (C : CurvePairing GT) (H : HashToG1 G1r) :
    List (ZMod FR_MODULUS) → Outcome Unit (List (Bytes × Bytes × Bytes))
  | [] => .ok []
  | sk :: sks =>
    let pk : G2r := toPublic C.toPairing sk
    let pkBytes := serializePublicKey pk
    (signPop sk popCsvAddress H).unwrapResult.bind fun pop =>
      let popBytes := serializeSignature pop
      let skBytes := serializePrivateKey sk
      (verifyPop C.toPairing pk popCsvAddress pop H).unwrapResult.bind fun _ =>
        (popCsvMain C H sks).map fun lines => (skBytes, pkBytes, popBytes) :: lines

end

end Verif
