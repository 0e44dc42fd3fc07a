import Verif.Model.SynthesisEpochs

/-!
# Synthesis of the helper circuit into rank-1 constraints

`HashToBits::generate_constraints` (`crates/epoch-snark/src/gadgets/hash_to_bits.rs`), the second circuit of
the two-curve setup, over the scalar field of BLS12-377.  The BLAKE2s gadget is a parameter.
-/

namespace Verif

section

variable {p : ℕ}

/-- `hash_to_bits` with `generate_constraints_for_hash`,
`crates/bls-gadgets/src/hash_to_group.rs:192-230`, over any field; `blake` is
`evaluate_blake2s_with_parameters` (ark_crypto_primitives, external), followed by `to_bits_le`
(`219-226`). -/
def blakeBitsV (blake : List BoolV → Bytes → Synth p (List BoolV)) (message : List BoolV)
    (hashLength : UInt16) (personalization : Bytes) : Synth p (List BoolV) :=
  if hashLength % 256 ≠ 0 then Synth.panic
  else do
    let blocks ← Synth.mapM (fun i => blake message
      (blake2xsParams hashLength (UInt32.ofNat i) personalization).parameters)
      (List.range (hashLength / 256).toNat)
    Synth.pure blocks.flatten

/-- One round of the loop of `HashToBits::generate_constraints`,
`crates/epoch-snark/src/gadgets/hash_to_bits.rs:45-51`: the bits of the message and of its hash. -/
def helperRound (blake : List BoolV → Bytes → Synth p (List BoolV)) (message : List (Option Bool)) :
    Synth p (List BoolV × List BoolV) := do
  let bits ← constrainBool message
  let hash ← blakeBitsV blake bits 512 SIG_DOMAIN
  Synth.pure (bits, hash)

end

/-- `FrParameters::CAPACITY` (ark_bls12_377, external),
`crates/epoch-snark/src/gadgets/hash_to_bits.rs:57,63`. -/
def FR_CAPACITY : ℕ := 252

/-- `HashToBits::generate_constraints`, `crates/epoch-snark/src/gadgets/hash_to_bits.rs:35-69`.  The code
discards the packed elements; here they are returned, to name the public inputs. -/
def HashToBits.generateConstraints (blake : List BoolV → Bytes → Synth FR_MODULUS (List BoolV))
    (h : HashToBits) : Synth FR_MODULUS (List (LinComb FR_MODULUS) × List (LinComb FR_MODULUS)) := do
  let rounds ← Synth.mapM (helperRound blake) h.messageBits
  let crh ← multipack true FR_CAPACITY (rounds.map (·.1)).flatten
  let xof ← multipack true FR_CAPACITY (rounds.map (·.2)).flatten
  Synth.pure (crh, xof)

end Verif
