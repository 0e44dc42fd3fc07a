import Verif.Model.SynthesisEpoch
import Verif.Model.SynthesisBls

/-!
# Synthesis of the whole circuit into rank-1 constraints

`ValidatorSetUpdate::generate_constraints` (`crates/epoch-snark/src/gadgets/epochs.rs`) with
`SingleUpdate::constrain`, `EpochData::constrain` and `EpochBits::verify`, as the program it is: what it
allocates, assigns and constrains, in this order.  The gadgets for hashing, pairings, BLAKE2s and Groth16
verification are parameters (`OuterGadgets`); everything else is the synthesis of `Model/Synthesis`,
`Model/SynthesisEpoch` and `Model/SynthesisBls`.

Simplification: without validators the aggregate keys are constants, with which ark_r1cs_std would emit
fewer constraints (selections and products of constants); here they are emitted as for variables.
-/

namespace Verif

section

variable {p : ℕ}

/-- A point of G1 as a variable (`G1Var`, ark_bls12_377, external),
`crates/epoch-snark/src/gadgets/epochs.rs:253-257`: the homogeneous coordinates. -/
abbrev G1V (p : ℕ) := LinComb p × LinComb p × LinComb p

/-- The coordinates of an aggregate key, `crates/epoch-snark/src/gadgets/epochs.rs:245-249,269-271`: the
constant zero is `(0, 1, 0)`. -/
def G2V.ofOption : Option (G2V p) → G2V p
  | some v => v
  | none => (Fp2V.const 0 0, Fp2V.const 1 0, Fp2V.const 0 0)

/-- A constant key `(x : y : 1)`, `crates/epoch-snark/src/gadgets/epochs.rs:179-183`. -/
def G2V.constant (x y : ZMod p × ZMod p) : G2V p :=
  (Fp2V.const x.1 x.2, Fp2V.const y.1 y.2, Fp2V.const 1 0)

/-- A constant message `(x : y : 1)`, `crates/epoch-snark/src/gadgets/epochs.rs:184-188`. -/
def G1V.constant (c : ZMod p × ZMod p) : G1V p := (lcConst c.1, lcConst c.2, lcConst 1)

/-- `G2Var::conditionally_select` (ark_r1cs_std, external),
`crates/epoch-snark/src/gadgets/epochs.rs:237,245-249`: coordinate by coordinate. -/
def g2Select (bit : BoolV) (t f : G2V p) : Synth p (G2V p) := do
  let x ← fp2Select bit t.1 f.1
  let y ← fp2Select bit t.2.1 f.2.1
  let z ← fp2Select bit t.2.2 f.2.2
  Synth.pure (x, y, z)

/-- `G1Var::conditionally_select` (ark_r1cs_std, external),
`crates/epoch-snark/src/gadgets/epochs.rs:253-257`. -/
def g1Select (bit : BoolV) (t f : G1V p) : Synth p (G1V p) := do
  let x ← fpSelect bit t.1 f.1
  let y ← fpSelect bit t.2.1 f.2.1
  let z ← fpSelect bit t.2.2 f.2.2
  Synth.pure (x, y, z)

/-- The value assigned to an inverse in the extension (`QuadExtVar::inverse`, ark_r1cs_std, external),
`crates/epoch-snark/src/gadgets/epochs.rs:272-273`: zero for zero. -/
def fp2InverseValue (nr : ZMod p) (d : Fp2V p) (cs : ConstraintSystem p) :
    Outcome SynthErr (ZMod p × ZMod p) :=
  (lcValue d.c0 cs).bind fun a => (lcValue d.c1 cs).map fun b =>
    (a * (a ^ 2 - nr * b ^ 2)⁻¹, -b * (a ^ 2 - nr * b ^ 2)⁻¹)

/-- `QuadExtVar::inverse` (ark_r1cs_std, external), inside `mul_by_inverse` at
`crates/epoch-snark/src/gadgets/epochs.rs:272-273`: a witness whose product with `d` is one. -/
def fp2Inverse (nr : ZMod p) (d : Fp2V p) : Synth p (Fp2V p) := do
  let inv ← fp2Witness (fp2InverseValue nr d)
  fp2MulEquals nr d inv (Fp2V.const 1 0)
  Synth.pure inv

/-- `mul_by_inverse` (ark_r1cs_std, external), `crates/epoch-snark/src/gadgets/epochs.rs:272-273`. -/
def fp2MulByInverse (nr : ZMod p) (x d : Fp2V p) : Synth p (Fp2V p) := do
  let inv ← fp2Inverse nr d
  fp2Mul nr inv x

/-- `constrain_bool`, `crates/epoch-snark/src/gadgets/mod.rs:116-124`. -/
def constrainBool (input : List (Option Bool)) : Synth p (List BoolV) :=
  Synth.mapM (fun b => boolWitness (getValue id b)) input

/-- The state of the loop of `verify_intermediate_epochs`,
`crates/epoch-snark/src/gadgets/epochs.rs:198-201`. -/
structure PreviousV (p : ℕ) where
  pubkeys : List (G2V p)
  index : LinComb p
  entropy : LinComb p
  maximumNonSigners : LinComb p

/-- The outputs of `hash_bits_to_g1`, `crates/epoch-snark/src/gadgets/epoch_data.rs:238-301`. -/
structure HashV (p : ℕ) where
  messageHash : G1V p
  crhBits : List BoolV
  xofBits : List BoolV

end

/-- The gadgets that are not modelled as constraints: `hash_bits_to_g1`
(`crates/epoch-snark/src/gadgets/epoch_data.rs:238-301`, the flag is `generate_constraints_for_hash`),
`prepare_g1` and `prepare_g2` (ark_r1cs_std, external, `gadgets/epochs.rs:251,259`),
`batch_verify_prepared` (`crates/bls-gadgets/src/bls.rs:109-129`), the BLAKE2s gadget
(ark_crypto_primitives, external, `gadgets/epoch_bits.rs:83-88`, message and parameter block to bits) and
the Groth16 verifier for the helper (external, `gadgets/epoch_bits.rs:110-130`, public inputs and
helper). -/
structure OuterGadgets (H : Type) where
  PG1 : Type
  PG2 : Type
  hash : Bool → List BoolV → List BoolV → Synth FQ_MODULUS (HashV FQ_MODULUS)
  prepareG1 : G1V FQ_MODULUS → Synth FQ_MODULUS PG1
  prepareG2 : G2V FQ_MODULUS → Synth FQ_MODULUS PG2
  verify : List PG2 → List PG1 → G1V FQ_MODULUS → Synth FQ_MODULUS Unit
  blake : List BoolV → Bytes → Synth FQ_MODULUS (List BoolV)
  groth : List (List BoolV) → H → Synth FQ_MODULUS Unit

section

variable {H : Type} (O : OuterGadgets H)

/-- `EpochData::constrain`, `crates/epoch-snark/src/gadgets/epoch_data.rs:102-139`. -/
def constrainEpochV (generateHash : Bool) (previousIndex : LinComb FQ_MODULUS) (d : EpochDataOpt) :
    Synth FQ_MODULUS (EpochBitsV FQ_MODULUS × HashV FQ_MODULUS) := do
  let bits ← epochToBits d
  enforceNextEpoch previousIndex bits.index
  let hash ← O.hash generateHash bits.epochBits bits.extraDataBits
  Synth.pure (bits, hash)

/-- The entropy check of `SingleUpdate::constrain`,
`crates/epoch-snark/src/gadgets/single_update.rs:99-107`. -/
def constrainEntropyV (previousEntropy : LinComb FQ_MODULUS) (entropyBit : BoolV)
    (e : EpochBitsV FQ_MODULUS) : Synth FQ_MODULUS Unit := do
  let zero ← isEqZero (.var e.index)
  let both ← boolAnd zero.neg entropyBit
  condEnforceEqual previousEntropy e.parentEntropy both

/-- `SingleUpdate::constrain`, `crates/epoch-snark/src/gadgets/single_update.rs:79-136`; `pad` is the
padding key of line 120. -/
def constrainUpdateV (overflowChecks drop generateHash : Bool) (pad : (Fq × Fq) × (Fq × Fq))
    (numValidators : ℕ) (prev : PreviousV FQ_MODULUS) (entropyBit : BoolV) (u : SingleUpdateOpt) :
    Synth FQ_MODULUS ((EpochBitsV FQ_MODULUS × HashV FQ_MODULUS) × Option (G2V FQ_MODULUS)) :=
  if numValidators ≠ u.epochData.publicKeys.length then Synth.panic
  else do
    let e ← constrainEpochV O generateHash prev.index u.epochData
    constrainEntropyV prev.entropy entropyBit e.1
    let bitmap ← constrainBool u.signedBitmap
    let pk ← enforceBitmapV overflowChecks drop (-5) g2CoeffB.re g2CoeffB.im pad.1 pad.2 prev.pubkeys bitmap
      prev.maximumNonSigners
    Synth.pure (e, pk)

/-- Update of the loop state, `crates/epoch-snark/src/gadgets/epochs.rs:222-243`. -/
def nextPreviousV (indexBit : BoolV) (e : EpochBitsV FQ_MODULUS) (prev : PreviousV FQ_MODULUS) :
    Synth FQ_MODULUS (PreviousV FQ_MODULUS) := do
  let entropy ← fpSelect indexBit e.epochEntropy prev.entropy
  let index ← fpSelect indexBit e.index prev.index
  let pubkeys ← Synth.mapM (fun k => g2Select indexBit k.1 k.2) (e.pubkeys.zip prev.pubkeys)
  let maximum ← fpSelect indexBit e.maximumNonSigners prev.maximumNonSigners
  Synth.pure ⟨pubkeys, index, entropy, maximum⟩

/-- The key and message of an epoch for the pairing equation, or the dummies,
`crates/epoch-snark/src/gadgets/epochs.rs:245-263`. -/
def preparePairV (gen1 : Fq × Fq) (gen2 : (Fq × Fq) × (Fq × Fq)) (indexBit : BoolV)
    (pk : Option (G2V FQ_MODULUS)) (messageHash : G1V FQ_MODULUS) :
    Synth FQ_MODULUS (O.PG2 × O.PG1) := do
  let aggregatePk ← g2Select indexBit (G2V.ofOption pk) (G2V.constant gen2.1 gen2.2)
  let preparedPk ← O.prepareG2 aggregatePk
  let message ← g1Select indexBit messageHash (G1V.constant gen1)
  let preparedMessage ← O.prepareG1 message
  Synth.pure (preparedPk, preparedMessage)

/-- What the last round of the loop does in addition, `crates/epoch-snark/src/gadgets/epochs.rs:268-281`:
the bits of the last epoch, and that its index is not zero. -/
def lastEpochV (drop : Bool) (pubkeys : List (G2V FQ_MODULUS)) (lastBits : List BoolV)
    (indexBit : BoolV) : Synth FQ_MODULUS (List BoolV) := do
  let apk ← enforceAggregatedAllPubkeysV drop (-5) g2CoeffB.re g2CoeffB.im pubkeys
  let affineX ← fp2MulByInverse (-5) (G2V.ofOption apk).1 (G2V.ofOption apk).2.2
  let affineY ← fp2MulByInverse (-5) (G2V.ofOption apk).2.1 (G2V.ofOption apk).2.2
  let apkBits ← g2ToBitsV (affineX, affineY, Fp2V.const 1 0)
  boolEnforceEqual indexBit (.constant true)
  Synth.pure (lastBits ++ apkBits)

/-- The branch on the last round, `crates/epoch-snark/src/gadgets/epochs.rs:268-282`. -/
def lastRoundV (isLast drop : Bool) (pubkeys : List (G2V FQ_MODULUS)) (lastBits : List BoolV)
    (indexBit : BoolV) : Synth FQ_MODULUS (List BoolV) :=
  if isLast then lastEpochV drop pubkeys lastBits indexBit else Synth.pure []

/-- The results of `verify_intermediate_epochs`, `crates/epoch-snark/src/gadgets/epochs.rs:287-293`. -/
structure LoopV (PG1 PG2 : Type) where
  lastEpochBits : List BoolV
  crhBits : List BoolV
  xofBits : List BoolV
  aggregatedPublicKeys : List PG2
  messageHashes : List PG1

/-- The loop of `verify_intermediate_epochs`, `crates/epoch-snark/src/gadgets/epochs.rs:204-283`; `gen1`
and `gen2` are the dummies of lines 179-188, and `gen2` is also the padding key. -/
def epochsLoop (overflowChecks drop generateHash : Bool) (gen1 : Fq × Fq)
    (gen2 : (Fq × Fq) × (Fq × Fq)) (numValidators : ℕ) (entropyBit : BoolV) :
    List SingleUpdateOpt → PreviousV FQ_MODULUS → Synth FQ_MODULUS (LoopV O.PG1 O.PG2)
  | [], _ => Synth.pure ⟨[], [], [], [], []⟩
  | u :: us, prev => do
    let c ← constrainUpdateV O overflowChecks drop generateHash gen2 numValidators prev entropyBit u
    let zero ← isEqZero (.var c.1.1.index)
    let prev' ← nextPreviousV zero.neg c.1.1 prev
    let pair ← preparePairV O gen1 gen2 zero.neg c.2 c.1.2.messageHash
    let last ← lastRoundV us.isEmpty drop prev'.pubkeys c.1.1.lastEpochBits zero.neg
    let r ← epochsLoop overflowChecks drop generateHash gen1 gen2 numValidators entropyBit us prev'
    Synth.pure ⟨if us.isEmpty then last else r.lastEpochBits, c.1.2.crhBits ++ r.crhBits,
      c.1.2.xofBits ++ r.xofBits, pair.1 :: r.aggregatedPublicKeys, pair.2 :: r.messageHashes⟩

/-- The values assigned to the aggregate signature, `crates/epoch-snark/src/gadgets/epochs.rs:304-308`, as
for `G2Var.ofPoint`. -/
def G1Var.ofPoint : G1Point → G1Var
  | .zero => ⟨0, 1, 0⟩
  | .some x y _ => ⟨x, y, 1⟩

/-- `verify_signature`, `crates/epoch-snark/src/gadgets/epochs.rs:298-312`. -/
def verifySignatureV (signature : Option G1Point) (keys : List O.PG2) (messages : List O.PG1) :
    Synth FQ_MODULUS Unit := do
  let s ← allocPointG1 1 (getValue (fun q => (G1Var.ofPoint q).x) signature)
    (getValue (fun q => (G1Var.ofPoint q).y) signature) (getValue (fun q => (G1Var.ofPoint q).z) signature)
  O.verify keys messages s

/-- The bits passed on by `enforce`, `EpochBits` at `crates/epoch-snark/src/gadgets/epoch_bits.rs:29-38`. -/
structure EdgeBitsV where
  firstEpochBits : List BoolV
  lastEpochBits : List BoolV
  crhBits : List BoolV
  xofBits : List BoolV

/-- `ValidatorSetUpdate::enforce`, `crates/epoch-snark/src/gadgets/epochs.rs:102-153`, with
`verify_intermediate_epochs` (`160-294`). -/
def enforceEpochsV {HP VK : Type} (O : OuterGadgets (HashToBitsHelper HP VK)) (overflowChecks drop : Bool)
    (gen1 : Fq × Fq) (gen2 : (Fq × Fq) × (Fq × Fq))
    (s : ValidatorSetUpdateOpt G1Point HP VK) : Synth FQ_MODULUS EdgeBitsV := do
  let first ← epochToBits s.initialEpoch
  let zero ← isEqZero (.var first.epochEntropy)
  let r ← epochsLoop O overflowChecks drop s.hashHelper.isNone gen1 gen2 s.numValidators zero.neg s.epochs
    ⟨first.pubkeys, first.index, first.epochEntropy, first.maximumNonSigners⟩
  verifySignatureV O s.aggregatedSignature r.aggregatedPublicKeys r.messageHashes
  Synth.pure ⟨first.firstEpochBits, r.lastEpochBits, r.crhBits, r.xofBits⟩

/-- The hash of the bits of one edge, `crates/epoch-snark/src/gadgets/epoch_bits.rs:62-88`. -/
def edgeHashV (bits : List BoolV) : Synth FQ_MODULUS (List BoolV) :=
  let message := bits.reverse
  let roundedLen := 8 * ((message.length + 7) / 8)
  O.blake (message ++ List.replicate (roundedLen - message.length) (.constant false))
    edgeParams.parameters

/-- `verify_edges`, `crates/epoch-snark/src/gadgets/epoch_bits.rs:57-101`: the packed hashes are public
inputs. -/
def verifyEdgesV (b : EdgeBitsV) : Synth FQ_MODULUS (List (LinComb FQ_MODULUS)) := do
  let first ← edgeHashV O b.firstEpochBits
  let last ← edgeHashV O b.lastEpochBits
  multipack true 376 (first ++ last)

/-- `le_chunks`, `crates/epoch-snark/src/gadgets/epoch_bits.rs:138-146`. -/
def leChunksV (bits : List BoolV) (chunkSize : ℕ) : List (List BoolV) :=
  (chunks chunkSize bits).map List.reverse

/-- `EpochBits::verify`, `crates/epoch-snark/src/gadgets/epoch_bits.rs:42-53`, with `verify_proof`
(`104-132`). -/
def verifyEpochBitsV (helper : Option H) (b : EdgeBitsV) :
    Synth FQ_MODULUS (List (LinComb FQ_MODULUS)) :=
  match helper with
  | some h => do
    O.groth (leChunksV b.crhBits 252 ++ leChunksV b.xofBits 252) h
    verifyEdgesV O b
  | none => verifyEdgesV O b

/-- `generate_constraints` of `ValidatorSetUpdate`, `crates/epoch-snark/src/gadgets/epochs.rs:82-94`; the
public inputs are returned. -/
def generateConstraints {HP VK : Type} (O : OuterGadgets (HashToBitsHelper HP VK))
    (overflowChecks drop : Bool) (gen1 : Fq × Fq) (gen2 : (Fq × Fq) × (Fq × Fq))
    (s : ValidatorSetUpdateOpt G1Point HP VK) : Synth FQ_MODULUS (List (LinComb FQ_MODULUS)) := do
  let b ← enforceEpochsV O overflowChecks drop gen1 gen2 s
  verifyEpochBitsV O s.hashHelper b

end

end Verif
