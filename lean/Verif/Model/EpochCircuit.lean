import Verif.Model.Gadgets

/-!
# The epoch circuit

Models `crates/epoch-snark/src/gadgets/{mod,epoch_data,single_update,epochs,epoch_bits,pack}.rs`.

As in `Verif.Model.Gadgets`, a circuit is the conjunction of its constraints, as a predicate on the
values of all variables.  Witnesses are explicit (`EpochVars`, `UpdateVars`, `CircuitVars`) and take
any value; the values assigned by the honest prover are in `Verif.Model.Prover`.

External gadgets (ark_r1cs_std) are modelled by their meaning:

* `FpVar::to_bits_le`/`to_bits_be` give the binary digits of the canonical representative;
* `conditional_enforce_equal`, `conditionally_select`, `enforce_equal` mean what they say;
* additions, selections and comparisons of `ProjectiveVar`s are those of the points;
* `mul_by_inverse` is unsatisfiable for a zero denominator.

What the allocation of a curve point as a witness enforces is a parameter `alloc`, and the in-circuit
hash of a message is a parameter `hashC`, instantiated in `Verif.Model.HashGadget`.
-/

namespace Verif

/-- `FpVar::to_bits_be` (ark_r1cs_std, external): the `n = MODULUS_BITS` binary digits of the
canonical representative, most significant first, as used at
`crates/epoch-snark/src/gadgets/mod.rs:104-105` and `gadgets/pack.rs:42`. -/
def fieldBitsBe {p : ℕ} (n : ℕ) (x : ZMod p) : List Bool :=
  ((List.range n).map x.val.testBit).reverse

/-- `FpVar::to_bits_le` (ark_r1cs_std, external) over the proof system field,
`crates/epoch-snark/src/gadgets/mod.rs:96`. -/
def fqBitsLe (x : Fq) : List Bool := (List.range 377).map x.val.testBit

/-- `fr_to_bits`, `crates/epoch-snark/src/gadgets/mod.rs:95-99`: the low bits, little-endian. -/
def frToBits (x : Fq) (length : ℕ) : List Bool := (fqBitsLe x).take length

/-- A `G2Var` (`ProjectiveVar`, ark_r1cs_std, external): homogeneous projective coordinates;
`crates/epoch-snark/src/gadgets/epochs.rs:272-274` reads and builds them. -/
structure G2Var where
  x : Fq2
  y : Fq2
  z : Fq2

open Classical in
/-- The curve point a `G2Var` denotes (`crates/epoch-snark/src/gadgets/epochs.rs:272-274`:
`x / z`, `y / z`), infinity when `z = 0`.  Coordinates off the curve denote nothing; they are sent
to infinity here. -/
noncomputable def G2Var.point (v : G2Var) : G2Point :=
  if h : v.z ≠ 0 ∧ g2Curve.Nonsingular (v.x / v.z) (v.y / v.z) then .some _ _ h.2 else 0

/-- `g2_to_bits`, `crates/epoch-snark/src/gadgets/mod.rs:103-112`: reads the projective `x` and `y`
directly. -/
def g2ToBits (v : G2Var) (w : YBitWitness FQ_MODULUS) : List Bool :=
  fieldBitsBe 377 v.x.re ++ fieldBitsBe 377 v.x.im ++ [w.yBit]

/-- Constraints of `g2_to_bits`, `crates/epoch-snark/src/gadgets/mod.rs:106`. -/
def g2ToBitsC (v : G2Var) (w : YBitWitness FQ_MODULUS) : Prop :=
  yToBitG2C (.var v.y.re) (.var v.y.im) w

/-- Variables allocated by `EpochData::to_bits`,
`crates/epoch-snark/src/gadgets/epoch_data.rs:147-169,194-198`, with the witnesses of the sign
gadget for every key. -/
structure EpochVars where
  index : Fq
  round : Fq
  maximumNonSigners : Fq
  epochEntropy : Fq
  parentEntropy : Fq
  keys : List (G2Var × YBitWitness FQ_MODULUS)

namespace EpochVars

/-- `pubkey_vars`, `crates/epoch-snark/src/gadgets/epoch_data.rs:192-208`. -/
def pubkeys (w : EpochVars) : List G2Var := w.keys.map (·.1)

/-- The bits of all keys, `crates/epoch-snark/src/gadgets/epoch_data.rs:193-204`. -/
def keyBits (w : EpochVars) : List Bool := w.keys.flatMap fun k => g2ToBits k.1 k.2

/-- `epoch_bits` of `to_bits`, `crates/epoch-snark/src/gadgets/epoch_data.rs:172-173,202`. -/
def epochBits (w : EpochVars) : List Bool :=
  frToBits w.epochEntropy 128 ++ frToBits w.parentEntropy 128 ++ w.keyBits

/-- `extra_data_bits` of `to_bits`, `crates/epoch-snark/src/gadgets/epoch_data.rs:175-180`. -/
def extraDataBits (w : EpochVars) : List Bool :=
  frToBits w.index 16 ++ frToBits w.round 8 ++ frToBits w.maximumNonSigners 32

/-- `first_epoch_bits` of `to_bits`, `crates/epoch-snark/src/gadgets/epoch_data.rs:182-187,203`. -/
def firstEpochBits (w : EpochVars) : List Bool :=
  frToBits w.index 16 ++ frToBits w.parentEntropy 128 ++ frToBits w.maximumNonSigners 32 ++ w.keyBits

/-- `last_epoch_bits` of `to_bits`, `crates/epoch-snark/src/gadgets/epoch_data.rs:189-190,204`. -/
def lastEpochBits (w : EpochVars) : List Bool :=
  frToBits w.index 16 ++ frToBits w.epochEntropy 128 ++ frToBits w.maximumNonSigners 32 ++ w.keyBits

/-- Constraints of `EpochData::to_bits`, `crates/epoch-snark/src/gadgets/epoch_data.rs:143-221`.
`alloc` is what `new_variable_omit_prime_order_check` (external) enforces on a witness. -/
def toBitsC (alloc : G2Var → Prop) (w : EpochVars) : Prop :=
  ∀ k ∈ w.keys, alloc k.1 ∧ g2ToBitsC k.1 k.2

end EpochVars

/-- Outputs of `hash_bits_to_g1`, `crates/epoch-snark/src/gadgets/epoch_data.rs:238-301`. -/
structure HashOut (G1 : Type*) where
  messageHash : G1
  crhBits : List Bool
  xofBits : List Bool

/-- Variables of one `SingleUpdate`: the epoch, the bitmap
(`crates/epoch-snark/src/gadgets/single_update.rs:110`), the outputs of the hash, the witness of the
threshold gadget and those of the three zero tests of the index
(`gadgets/epoch_data.rs:229`, `gadgets/single_update.rs:99`, `gadgets/epochs.rs:219`). -/
structure UpdateVars (G1 : Type*) where
  epoch : EpochVars
  bitmap : List Bool
  hash : HashOut G1
  occurrences : Fq
  nextZero : Fq × Bool
  updateZero : Fq × Bool
  loopZero : Fq × Bool

/-- Constraints of `enforce_next_epoch`, `crates/epoch-snark/src/gadgets/epoch_data.rs:225-233`. -/
def enforceNextEpochC (previousIndex index : Fq) (zero : Fq × Bool) : Prop :=
  isEqZeroC (.var index) zero.1 zero.2 ∧ ((!zero.2) = true → index = previousIndex + 1)

/-- The state of the loop of `verify_intermediate_epochs`,
`crates/epoch-snark/src/gadgets/epochs.rs:198-201`. -/
structure Previous where
  pubkeys : List G2Var
  index : Fq
  entropy : Fq
  maximumNonSigners : Fq

section

variable {G1 GT : Type*} [AddCommGroup G1] [CommGroup GT]
variable (alloc : G2Var → Prop) (hashC : List Bool → List Bool → HashOut G1 → Prop)

/-- Constraints of `EpochData::constrain`,
`crates/epoch-snark/src/gadgets/epoch_data.rs:102-139`. -/
def constrainEpochC (previousIndex : Fq) (u : UpdateVars G1) : Prop :=
  u.epoch.toBitsC alloc ∧
  enforceNextEpochC previousIndex u.epoch.index u.nextZero ∧
  hashC u.epoch.epochBits u.epoch.extraDataBits u.hash

/-- `SingleUpdate::constrain`, `crates/epoch-snark/src/gadgets/single_update.rs:79-136`: constraints
and aggregate key.  `padding` is the constant `EpochBlock::padding_pk()` of line 120. -/
noncomputable def constrainUpdate (padding : G2Point) (numValidators : ℕ) (prev : Previous)
    (constrainEntropyBit : Bool) (u : UpdateVars G1) : Outcome Unit (Prop × G2Point) :=
  if numValidators ≠ u.epoch.pubkeys.length then .panic
  else
    (enforceBitmap (prev.pubkeys.map G2Var.point) u.bitmap u.hash.messageHash
        prev.maximumNonSigners padding u.occurrences).map fun r =>
      (constrainEpochC alloc hashC prev.index u ∧
        isEqZeroC (.var u.epoch.index) u.updateZero.1 u.updateZero.2 ∧
        ((!u.updateZero.2 && constrainEntropyBit) = true →
          prev.entropy = u.epoch.parentEntropy) ∧
        r.1,
       r.2.2)

/-- Witnesses for the aggregate of the last epoch's keys: its affine coordinates
(`crates/epoch-snark/src/gadgets/epochs.rs:272-273`) and those of its sign gadget (`275`). -/
structure LastVars where
  x : Fq2
  y : Fq2
  w : YBitWitness FQ_MODULUS

/-- Constraints on the aggregate of the last epoch,
`crates/epoch-snark/src/gadgets/epochs.rs:269-275`.  `mul_by_inverse` is unsatisfiable for `z = 0`,
so the aggregate is finite, with affine coordinates `x` and `y`. -/
def lastApkC (pubkeys : List G2Var) (l : LastVars) : Prop :=
  (∃ h, enforceAggregatedAllPubkeys (pubkeys.map G2Var.point) = .some l.x l.y h) ∧
  g2ToBitsC ⟨l.x, l.y, 1⟩ l.w

/-- Result of `verify_intermediate_epochs`, `crates/epoch-snark/src/gadgets/epochs.rs:287-293`,
with the constraints emitted. -/
structure LoopOut (G1 : Type*) where
  sat : Prop
  lastEpochBits : List Bool
  crhBits : List Bool
  xofBits : List Bool
  aggregatedPublicKeys : List G2Point
  messageHashes : List G1

/-- Update of the loop state, `crates/epoch-snark/src/gadgets/epochs.rs:222-243`. -/
def Previous.next (prev : Previous) (indexBit : Bool) (e : EpochVars) : Previous where
  entropy := if indexBit then e.epochEntropy else prev.entropy
  index := if indexBit then e.index else prev.index
  pubkeys := (e.pubkeys.zip prev.pubkeys).map fun k => if indexBit then k.1 else k.2
  maximumNonSigners := if indexBit then e.maximumNonSigners else prev.maximumNonSigners

/-- The loop of `verify_intermediate_epochs`,
`crates/epoch-snark/src/gadgets/epochs.rs:204-283`.  `gen1`, `gen2` are the dummy message and key
(`179-188`); `gen2` is also the padding key. -/
noncomputable def intermediateLoop (gen1 : G1) (gen2 : G2Point) (numValidators : ℕ)
    (entropyBit : Bool) (last : LastVars) :
    List (UpdateVars G1) → Previous → Outcome Unit (LoopOut G1)
  | [], _ => .ok ⟨True, [], [], [], [], []⟩
  | u :: us, prev =>
    (constrainUpdate alloc hashC gen2 numValidators prev entropyBit u).bind fun c =>
      let indexBit := !u.loopZero.2
      let zeroC := isEqZeroC (.var u.epoch.index) u.loopZero.1 u.loopZero.2
      let prev' := prev.next indexBit u.epoch
      let pk := if indexBit then c.2 else gen2
      let msg := if indexBit then u.hash.messageHash else gen1
      let lastC := us = [] → (lastApkC prev'.pubkeys last ∧ indexBit = true)
      (intermediateLoop gen1 gen2 numValidators entropyBit last us prev').map fun r =>
        { sat := c.1 ∧ zeroC ∧ lastC ∧ r.sat
          lastEpochBits :=
            if us.isEmpty then
              u.epoch.lastEpochBits ++ g2ToBits ⟨last.x, last.y, 1⟩ last.w
            else r.lastEpochBits
          crhBits := u.hash.crhBits ++ r.crhBits
          xofBits := u.hash.xofBits ++ r.xofBits
          aggregatedPublicKeys := pk :: r.aggregatedPublicKeys
          messageHashes := msg :: r.messageHashes }

/-- All variables of `ValidatorSetUpdate`, `crates/epoch-snark/src/gadgets/epochs.rs:30-42`:
initial epoch, updates, aggregate signature (`304-308`), witnesses of the entropy zero test (`193`)
and of the last aggregate. -/
structure CircuitVars (G1 : Type*) where
  initial : EpochVars
  entropyZero : Fq × Bool
  updates : List (UpdateVars G1)
  last : LastVars
  signature : G1

/-- `EpochBits`, `crates/epoch-snark/src/gadgets/epoch_bits.rs:29-38`, with the constraints emitted
so far. -/
structure EpochBits where
  sat : Prop
  firstEpochBits : List Bool
  lastEpochBits : List Bool
  crhBits : List Bool
  xofBits : List Bool

/-- `ValidatorSetUpdate::enforce`, `crates/epoch-snark/src/gadgets/epochs.rs:102-153`, with
`verify_intermediate_epochs` (`160-294`) and `verify_signature` (`298-312`).  `negGen` of the
pairing equation is minus the generator of G2, the same generator as the dummy key. -/
noncomputable def enforceEpochs (e : G1 → G2Point → GT) (gen1 : G1) (gen2 : G2Point)
    (numValidators : ℕ) (c : CircuitVars G1) : Outcome Unit EpochBits :=
  (intermediateLoop alloc hashC gen1 gen2 numValidators (!c.entropyZero.2) c.last c.updates
    { pubkeys := c.initial.pubkeys, index := c.initial.index, entropy := c.initial.epochEntropy,
      maximumNonSigners := c.initial.maximumNonSigners }).bind fun r =>
  (batchVerifyPrepared e gen2 r.aggregatedPublicKeys r.messageHashes c.signature).map fun eqn =>
    { sat := c.initial.toBitsC alloc ∧
        isEqZeroC (.var c.initial.epochEntropy) c.entropyZero.1 c.entropyZero.2 ∧
        r.sat ∧ eqn
      firstEpochBits := c.initial.firstEpochBits
      lastEpochBits := r.lastEpochBits
      crhBits := r.crhBits
      xofBits := r.xofBits }

end

/-- Constraints of `MultipackGadget::pack`, `crates/epoch-snark/src/gadgets/pack.rs:14-51`, over a
field of `modulusBits` bits: `packed` are the allocated elements, one per chunk, and only the low
bits of each, as many as the chunk has, are compared (lines 44-46). -/
def multipackC {p : ℕ} (modulusBits elementSize : ℕ) (bits : List Bool) (packed : List (ZMod p)) :
    Prop :=
  List.Forall₂ (fun chunk fp => ∀ j < chunk.length,
    (fieldBitsBe modulusBits fp)[modulusBits - chunk.length + j]? = chunk[j]?)
    (chunks elementSize bits) packed

/-- Assignment of the packed elements, `crates/epoch-snark/src/gadgets/pack.rs:30-41`; `from_repr`
fails for numbers not below the modulus. -/
def multipackWitness {p : ℕ} (elementSize : ℕ) (bits : List Bool) : Outcome Unit (List (ZMod p)) :=
  Outcome.mapM (fun c => let v := fromBitsBe c; if v < p then .ok (v : ZMod p) else .err ())
    (chunks elementSize bits)

/-- `Blake2sWithParameterBlock` (ark_crypto_primitives, external), built at
`crates/epoch-snark/src/gadgets/epoch_bits.rs:70-82` and
`crates/bls-gadgets/src/hash_to_group.rs:57-75`. -/
structure Blake2sBlock where
  digestLength : UInt8
  keyLength : UInt8
  fanOut : UInt8
  depth : UInt8
  leafLength : UInt32
  nodeOffset : UInt32
  xofDigestLength : UInt16
  nodeDepth : UInt8
  innerLength : UInt8
  salt : Bytes
  personalization : Bytes

/-- `Blake2sWithParameterBlock::parameters` (ark_crypto_primitives, external), used at
`crates/epoch-snark/src/gadgets/epoch_bits.rs:84`: the parameter block, as bytes (the code has the
same 32 bytes as eight little-endian words). -/
def Blake2sBlock.parameters (b : Blake2sBlock) : Bytes :=
  [b.digestLength, b.keyLength, b.fanOut, b.depth] ++ leBytes 4 b.leafLength.toNat ++
  leBytes 4 b.nodeOffset.toNat ++ leBytes 2 b.xofDigestLength.toNat ++
  [b.nodeDepth, b.innerLength] ++ b.salt ++ b.personalization

/-- The BLAKE2s gadget `evaluate_blake2s_with_parameters` (ark_crypto_primitives, external), used at
`crates/epoch-snark/src/gadgets/epoch_bits.rs:83-84`: a function of the parameter block and of the
message, with 32 bytes of output. -/
structure Blake2sCore where
  digest : Bytes → Bytes → Bytes
  length_digest : ∀ b m, (digest b m).length = 32

/-- The gadget on bits: message bits (a multiple of 8, least significant first in each byte) to the
256 output bits, `crates/epoch-snark/src/gadgets/epoch_bits.rs:83-88`. -/
def Blake2sCore.evaluate (K : Blake2sCore) (message : List Bool) (block : Bytes) : List Bool :=
  bytesLeToBitsLe (K.digest block (bitsLeToBytesLe message)) 256

/-- The parameters of the edge hash, `crates/epoch-snark/src/gadgets/epoch_bits.rs:67-82`. -/
def edgeParams : Blake2sBlock where
  digestLength := 32
  keyLength := 0
  fanOut := 1
  depth := 1
  leafLength := 0
  nodeOffset := 0
  xofDigestLength := 0
  nodeDepth := 0
  innerLength := 0
  salt := List.replicate 8 0
  personalization := OUT_DOMAIN

/-- Hash of the bits of one edge, `crates/epoch-snark/src/gadgets/epoch_bits.rs:62-88`. -/
def edgeHash (K : Blake2sCore) (bits : List Bool) : List Bool :=
  let message := bits.reverse
  let roundedLen := 8 * ((message.length + 7) / 8)
  let message := message ++ List.replicate (roundedLen - message.length) false
  K.evaluate message edgeParams.parameters

/-- Constraints of `EpochBits::verify_edges`,
`crates/epoch-snark/src/gadgets/epoch_bits.rs:57-101`; `inputs` are the public inputs. -/
def verifyEdgesC (K : Blake2sCore) (b : EpochBits) (inputs : List Fq) : Prop :=
  multipackC 377 376 (edgeHash K b.firstEpochBits ++ edgeHash K b.lastEpochBits) inputs

/-- `le_chunks`, `crates/epoch-snark/src/gadgets/epoch_bits.rs:138-146`. -/
def leChunks (bits : List Bool) (chunkSize : ℕ) : List (List Bool) :=
  (chunks chunkSize bits).map List.reverse

/-- `EpochBits::verify_proof`, `crates/epoch-snark/src/gadgets/epoch_bits.rs:104-132`.  `groth` is
the Groth16 verifier gadget (external) for the helper's key: for given public inputs and proof it
emits constraints and returns a Boolean, which line 125 discards (`let _ = ..`). -/
def verifyHelperProof {HP : Type*}
    (groth : List (List Bool) → HP → Outcome Unit (Prop × Bool)) (b : EpochBits) (proof : HP) :
    Outcome Unit Prop :=
  let publicInputs := leChunks b.crhBits 252 ++ leChunks b.xofBits 252
  (groth publicInputs proof).map fun r => r.1

/-- `EpochBits::verify`, `crates/epoch-snark/src/gadgets/epoch_bits.rs:42-53`; the helper is
optional. -/
def EpochBits.verify {HP : Type*} (K : Blake2sCore)
    (groth : List (List Bool) → HP → Outcome Unit (Prop × Bool)) (helper : Option HP)
    (b : EpochBits) (inputs : List Fq) : Outcome Unit Prop :=
  (match helper with
    | some proof => verifyHelperProof groth b proof
    | none => .ok True).map fun h => h ∧ verifyEdgesC K b inputs

/-- `generate_constraints` of `ValidatorSetUpdate`,
`crates/epoch-snark/src/gadgets/epochs.rs:82-94`: all constraints of the circuit on its variables
and public inputs.  `hashC` takes whether the XOF is computed in the circuit (no helper,
`epochs.rs:214`). -/
noncomputable def epochCircuit {G1 GT HP : Type*} [AddCommGroup G1] [CommGroup GT]
    (alloc : G2Var → Prop) (hashC : Bool → List Bool → List Bool → HashOut G1 → Prop)
    (K : Blake2sCore) (groth : List (List Bool) → HP → Outcome Unit (Prop × Bool))
    (e : G1 → G2Point → GT) (gen1 : G1) (gen2 : G2Point) (numValidators : ℕ)
    (helper : Option HP) (c : CircuitVars G1) (inputs : List Fq) : Outcome Unit Prop :=
  (enforceEpochs alloc (hashC helper.isNone) e gen1 gen2 numValidators c).bind fun b =>
    (b.verify K groth helper inputs).map fun v => b.sat ∧ v

/-- The public inputs that a prover assigns in `generate_constraints`,
`crates/epoch-snark/src/gadgets/epochs.rs:82-94` with `epoch_bits.rs:57-101` and `pack.rs:30-41`: the packed
hashes of the edges. -/
noncomputable def circuitInputs {G1 GT HP : Type*} [AddCommGroup G1] [CommGroup GT]
    (alloc : G2Var → Prop) (hashC : Bool → List Bool → List Bool → HashOut G1 → Prop)
    (K : Blake2sCore) (e : G1 → G2Point → GT) (gen1 : G1) (gen2 : G2Point) (numValidators : ℕ)
    (helper : Option HP) (c : CircuitVars G1) : Outcome Unit (List Fq) :=
  (enforceEpochs alloc (hashC helper.isNone) e gen1 gen2 numValidators c).bind fun b =>
    multipackWitness 376 (edgeHash K b.firstEpochBits ++ edgeHash K b.lastEpochBits)

end Verif
