import Verif.Model.Synthesis
import Verif.Model.Setup

/-!
# Synthesis of the epoch data into rank-1 constraints

The gadgets of `crates/epoch-snark/src/gadgets/epoch_data.rs` and the helpers of `gadgets/mod.rs` as the
programs they are: what they allocate, assign and constrain.  The hash of the bits is not here.  The
operations of `FpVar`, `Boolean` and `ProjectiveVar` (ark_r1cs_std, external) are those of
`Model/Synthesis`.
-/

namespace Verif

section

variable {p : ℕ}

/-- `conditional_enforce_equal` of two allocated variables (ark_r1cs_std, external),
`crates/epoch-snark/src/gadgets/epoch_data.rs:231`: `(a - b) * bit = 0`. -/
def condEnforceEqual (a b : LinComb p) (bit : BoolV) : Synth p Unit := enforce (lcSub a b) bit.lc []

/-- `enforce_next_epoch`, `crates/epoch-snark/src/gadgets/epoch_data.rs:225-233`, for an allocated
previous index. -/
def enforceNextEpoch (previousIndex index : LinComb p) : Synth p Unit := do
  let previousPlusOne := previousIndex ++ lcVar .one
  let zero ← isEqZero (.var index)
  condEnforceEqual index previousPlusOne zero.neg

/-- `fr_to_bits`, `crates/epoch-snark/src/gadgets/mod.rs:95-99`: the range of line 97 is out of bounds, a
panic, if the modulus has fewer bits. -/
def frToBitsV (x : LinComb p) (length : ℕ) : Synth p (List BoolV) := do
  let bits ← toBitsLe x
  if bits.length < length then Synth.panic else Synth.pure (bits.take length)

/-- `g2_to_bits`, `crates/epoch-snark/src/gadgets/mod.rs:103-112`, of allocated coordinates `(x, y, z)`;
`to_bits_be` (ark_r1cs_std, external) reverses `to_bits_le`. -/
def g2ToBitsV (v : Fp2V p × Fp2V p × Fp2V p) : Synth p (List BoolV) := do
  let x0 ← toBitsLe v.1.c0
  let x1 ← toBitsLe v.1.c1
  let yBit ← yToBitG2 (.var v.2.1.c0) (.var v.2.1.c1)
  Synth.pure (x0.reverse ++ x1.reverse ++ [yBit])

/-- The result of `EpochData::to_bits`, `EpochDataToBits` at
`crates/epoch-snark/src/gadgets/epoch_data.rs:40-51`. -/
structure EpochBitsV (p : ℕ) where
  epochBits : List BoolV
  extraDataBits : List BoolV
  firstEpochBits : List BoolV
  lastEpochBits : List BoolV
  index : LinComb p
  epochEntropy : LinComb p
  parentEntropy : LinComb p
  maximumNonSigners : LinComb p
  pubkeys : List (Fp2V p × Fp2V p × Fp2V p)

/-- `Assignment::get` of an `Option` (ark_r1cs_std, external) in a closure of
`crates/epoch-snark/src/gadgets/epoch_data.rs:147,149,196`, followed by a conversion. -/
def getValue {α β : Type} (f : α → β) (x : Option α) (_ : ConstraintSystem p) : Outcome SynthErr β :=
  match x with
  | some v => .ok (f v)
  | none => .err .assignmentMissing

/-- The results of `EpochData::to_bits` put together,
`crates/epoch-snark/src/gadgets/epoch_data.rs:172-190,201-204,210-220`. -/
def assembleBits (indexBits roundBits maximumBits epochEntropyBits parentEntropyBits : List BoolV)
    (index epochEntropy parentEntropy maximumNonSigners : LinComb p)
    (keys : List ((Fp2V p × Fp2V p × Fp2V p) × List BoolV)) : EpochBitsV p :=
  let keyBits := keys.flatMap (·.2)
  { epochBits := epochEntropyBits ++ parentEntropyBits ++ keyBits
    extraDataBits := indexBits ++ roundBits ++ maximumBits
    firstEpochBits := indexBits ++ parentEntropyBits ++ maximumBits ++ keyBits
    lastEpochBits := indexBits ++ epochEntropyBits ++ maximumBits ++ keyBits
    index := index
    epochEntropy := epochEntropy
    parentEntropy := parentEntropy
    maximumNonSigners := maximumNonSigners
    pubkeys := keys.map (·.1) }

end

/-- One round of the loop over the keys, `crates/epoch-snark/src/gadgets/epoch_data.rs:194-207`: the key
is allocated (on the curve, not in the subgroup) and converted to bits. -/
def epochKey (pk : Option G2Point) : Synth FQ_MODULUS
    ((Fp2V FQ_MODULUS × Fp2V FQ_MODULUS × Fp2V FQ_MODULUS) × List BoolV) := do
  let v ← allocPointG2 (-5) g2CoeffB.re g2CoeffB.im
    (getValue (fun q => ((G2Var.ofPoint q).x.re, (G2Var.ofPoint q).x.im)) pk)
    (getValue (fun q => ((G2Var.ofPoint q).y.re, (G2Var.ofPoint q).y.im)) pk)
    (getValue (fun q => ((G2Var.ofPoint q).z.re, (G2Var.ofPoint q).z.im)) pk)
  let bits ← g2ToBitsV v
  Synth.pure (v, bits)

/-- `EpochData::to_bits`, `crates/epoch-snark/src/gadgets/epoch_data.rs:143-221`. -/
def epochToBits (d : EpochDataOpt) : Synth FQ_MODULUS (EpochBitsV FQ_MODULUS) := do
  let index ← fpWitness (getValue (fun v : UInt16 => ((v.toNat : ℕ) : Fq)) d.index)
  let indexBits ← frToBitsV index 16
  let round ← fpWitness (getValue (fun v : UInt8 => ((v.toNat : ℕ) : Fq)) d.round)
  let roundBits ← frToBitsV round 8
  let maximum ← fpWitness fun _ => .ok ((d.maximumNonSigners.toNat : ℕ) : Fq)
  let maximumBits ← frToBitsV maximum 32
  let epochEntropy ← fpWitness fun _ => .ok (entropyToFr d.epochEntropy)
  let epochEntropyBits ← frToBitsV epochEntropy (8 * ENTROPY_BYTES)
  let parentEntropy ← fpWitness fun _ => .ok (entropyToFr d.parentEntropy)
  let parentEntropyBits ← frToBitsV parentEntropy (8 * ENTROPY_BYTES)
  let keys ← Synth.mapM epochKey d.publicKeys
  Synth.pure (assembleBits indexBits roundBits maximumBits epochEntropyBits parentEntropyBits index
    epochEntropy parentEntropy maximum keys)

end Verif
