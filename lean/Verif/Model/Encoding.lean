import Verif.Model.Utils
import Verif.Model.G2
import Verif.Model.Hashers

/-!
# Encoding of epochs

Models `crates/epoch-snark/src/encoding.rs`, `crates/epoch-snark/src/epoch_block.rs`,
`pack` of `crates/epoch-snark/src/gadgets/mod.rs` and `crates/epoch-snark/src/api/verifier.rs`.

The `Result` wrappers of the encoding functions are dropped: the only fallible calls in them are
writes to a `Vec`, which cannot fail.
-/

namespace Verif

open WeierstrassCurve

/-- Little-endian bytes of a number (`write_u16::<LittleEndian>`, `write_u32::<LittleEndian>`
(byteorder) and `ToBytes::write` (ark_ff), external), as used at
`crates/epoch-snark/src/encoding.rs:38,42,62,73`. -/
def leBytes : ℕ → ℕ → Bytes
  | 0, _ => []
  | k + 1, n => UInt8.ofNat n :: leBytes k (n / 256)

/-- The closure `(0..8).map(|i| ((x & 2.pow(i)) >> i) == 1)` of
`crates/epoch-snark/src/encoding.rs:54,65,76`. -/
def maskBits (x : UInt8) : List Bool :=
  (List.range 8).map fun i => ((x.toNat &&& 2 ^ i) >>> i) == 1

/-- `encode_u8`, `crates/epoch-snark/src/encoding.rs:50-57`. -/
def encodeU8 (num : UInt8) : List Bool := [num].flatMap maskBits

/-- `encode_u16`, `crates/epoch-snark/src/encoding.rs:60-68`. -/
def encodeU16 (num : UInt16) : List Bool := (leBytes 2 num.toNat).flatMap maskBits

/-- `encode_u32`, `crates/epoch-snark/src/encoding.rs:71-79`. -/
def encodeU32 (num : UInt32) : List Bool := (leBytes 4 num.toNat).flatMap maskBits

/-- `Fq::modulus_minus_one_div_two` (ark_ff, external), `crates/epoch-snark/src/encoding.rs:32`. -/
def FQ_HALF : ℕ := (FQ_MODULUS - 1) / 2

/-- The sign bit of a `y` coordinate, `crates/epoch-snark/src/encoding.rs:28-33`. -/
def isOverHalf (y : Fq2) : Bool :=
  let c0 := y.re.val
  let c1 := y.im.val
  decide (c1 > FQ_HALF) || (c1 == 0 && decide (c0 > FQ_HALF))

/-- The 377 bits of a base field element, most significant first,
`crates/epoch-snark/src/encoding.rs:36-39` (and `41-43`). -/
def encodeFq (x : Fq) : List Bool := bytesLeToBitsBe (leBytes 48 x.val) 377

/-- `encode_public_key`, `crates/epoch-snark/src/encoding.rs:23-47`. -/
noncomputable def encodePublicKey (pk : G2Point) : List Bool :=
  let (x, y) := intoAffine pk
  encodeFq x.re ++ encodeFq x.im ++ [isOverHalf y]

/-- `EpochBlock`, `crates/epoch-snark/src/epoch_block.rs:34-53`. -/
structure EpochBlock where
  index : UInt16
  round : UInt8
  epochEntropy : Option Bytes
  parentEntropy : Option Bytes
  maximumNonSigners : UInt32
  maximumValidators : ℕ
  newPublicKeys : List G2Point

/-- `EpochType`, `crates/epoch-snark/src/epoch_block.rs:12-15`. -/
inductive EpochType where
  | first
  | last

/-- `EpochBlock::ENTROPY_BYTES`, `crates/epoch-snark/src/epoch_block.rs:57`. -/
def ENTROPY_BYTES : ℕ := 16

/-- `encode_entropy_cip22`, `crates/epoch-snark/src/epoch_block.rs:142-149`. -/
def encodeEntropy (entropy : Option Bytes) : List Bool :=
  let entropyBytes := match entropy with
    | some e => e
    | none => List.replicate (ENTROPY_BYTES * 8) 0
  bytesLeToBitsLe entropyBytes (ENTROPY_BYTES * 8)

namespace EpochBlock

variable (gen : G2Point)

/-- The key bits followed by padding, `crates/epoch-snark/src/epoch_block.rs:129-138` and
`161-170`.  `gen` is `padding_pk()`, the G2 generator (`94-96`, external constant). -/
noncomputable def keyBits (b : EpochBlock) : List Bool :=
  b.newPublicKeys.flatMap encodePublicKey ++
    if b.maximumValidators > b.newPublicKeys.length then
      let difference := b.maximumValidators - b.newPublicKeys.length
      (List.replicate difference gen).flatMap encodePublicKey
    else []

/-- `encode_to_bits` (pre-CIP22), `crates/epoch-snark/src/epoch_block.rs:106-114`. -/
noncomputable def encodeToBits (b : EpochBlock) : List Bool :=
  encodeU16 b.index ++ encodeU32 b.maximumNonSigners ++ b.newPublicKeys.flatMap encodePublicKey

/-- `encode_to_bits_cip22`, `crates/epoch-snark/src/epoch_block.rs:117-140`. -/
noncomputable def encodeToBitsCip22 (b : EpochBlock) (t : EpochType) : List Bool :=
  encodeU16 b.index ++
  (match t with
    | .first => encodeEntropy b.parentEntropy
    | .last => encodeEntropy b.epochEntropy) ++
  encodeU32 b.maximumNonSigners ++ b.keyBits gen

/-- `encode_inner_to_bits_cip22`, `crates/epoch-snark/src/epoch_block.rs:152-171`: epoch bits and
extra data bits. -/
noncomputable def encodeInnerToBitsCip22 (b : EpochBlock) : List Bool × List Bool :=
  (encodeEntropy b.epochEntropy ++ encodeEntropy b.parentEntropy ++ b.keyBits gen,
   encodeU16 b.index ++ encodeU8 b.round ++ encodeU32 b.maximumNonSigners)

/-- `encode_last_epoch_to_bits_with_aggregated_pk_cip22`,
`crates/epoch-snark/src/epoch_block.rs:174-181`.  The aggregate is over the real keys only
(`PublicKey::aggregate`, `crates/bls-crypto/src/bls/public.rs`). -/
noncomputable def encodeLastToBits (b : EpochBlock) : List Bool :=
  b.encodeToBitsCip22 gen .last ++ encodePublicKey b.newPublicKeys.sum

/-- `encode_first_epoch_to_bytes_cip22`, `crates/epoch-snark/src/epoch_block.rs:184-188`. -/
noncomputable def encodeFirstToBytes (b : EpochBlock) : Bytes :=
  bitsBeToBytesLe (b.encodeToBitsCip22 gen .first)

/-- `encode_to_bytes`, `crates/epoch-snark/src/epoch_block.rs:191-193`. -/
noncomputable def encodeToBytes (b : EpochBlock) : Bytes := bitsBeToBytesLe b.encodeToBits

/-- `encode_last_epoch_to_bytes_with_aggregated_pk_cip22`,
`crates/epoch-snark/src/epoch_block.rs:196-202`. -/
noncomputable def encodeLastToBytes (b : EpochBlock) : Bytes :=
  bitsBeToBytesLe (b.encodeLastToBits gen)

/-- `encode_inner_to_bytes_cip22`, `crates/epoch-snark/src/epoch_block.rs:205-211`. -/
noncomputable def encodeInnerToBytes (b : EpochBlock) : Bytes × Bytes :=
  let (inner, extra) := b.encodeInnerToBitsCip22 gen
  (bitsBeToBytesLe inner, bitsBeToBytesLe extra)

/-- `hash_to_g1_cip22`, `crates/epoch-snark/src/epoch_block.rs:82-87`; `H` is
`COMPOSITE_HASH_TO_G1_CIP22` (arguments domain, message, extra data). -/
noncomputable def hashToG1 {G1 : Type*} (H : HashToG1 G1) (b : EpochBlock) :
    Outcome BLSError G1 :=
  let (input, extra) := b.encodeInnerToBytes gen
  H SIG_DOMAIN input extra

end EpochBlock

/-- Parameters of `hash_to_bits`, `crates/epoch-snark/src/epoch_block.rs:227-229`. -/
def outHashParams : Outcome BLSError Blake2sParams :=
  (Blake2sParams.new.setHashLength 32).bind fun p => p.setPersonal OUT_DOMAIN

/-- `hash_to_bits`, `crates/epoch-snark/src/epoch_block.rs:226-236`.  The parameters are constants
for which no setter panics (`outHashParams_ok`). -/
def hashToBits (B : Blake2s) (bytes : Bytes) : List Bool :=
  match outHashParams with
  | .ok p => bytesLeToBitsLe (B.run p bytes) 256
  | _ => []

/-- `hash_first_last_epoch_block`, `crates/epoch-snark/src/epoch_block.rs:216-223`, through
`blake2_first_epoch_cip22` (`90-92`) and `blake2_last_epoch_with_aggregated_pk_cip22` (`99-103`). -/
noncomputable def hashFirstLast (gen : G2Point) (B : Blake2s) (first last : EpochBlock) :
    List Bool :=
  hashToBits B (first.encodeFirstToBytes gen) ++ hashToBits B (last.encodeLastToBytes gen)

/-- `BigInteger::from_bits_be` (ark_ff, external), used at
`crates/epoch-snark/src/gadgets/mod.rs:79`: the number whose binary digits are the bits, most
significant first (at most 384 bits). -/
def fromBitsBe (bits : List Bool) : ℕ :=
  bits.foldl (fun acc b => 2 * acc + b.toNat) 0

/-- `pack`, `crates/epoch-snark/src/gadgets/mod.rs:75-83`, at the proof system field, whose modulus
is the 377-bit prime `q` (`CAPACITY = 376`).  `from_repr` rejects numbers not below the modulus;
the error is `SynthesisError::AssignmentMissing`, represented by `()`. -/
def pack (values : List Bool) : Outcome Unit (List Fq) :=
  Outcome.mapM (fun c =>
    let v := fromBitsBe c
    if v < FQ_MODULUS then .ok (v : Fq) else .err ()) (chunks 376 values)

/-- `VerificationError`, `crates/epoch-snark/src/api/verifier.rs:12-19`. -/
inductive VerificationError where
  | verificationFailed
  | synthesisError
  | epochEncodingError
  deriving DecidableEq, Repr

/-- `verify`, `crates/epoch-snark/src/api/verifier.rs:23-40`.  `groth16` is `verify_proof` on a
prepared key (ark_groth16, external). -/
noncomputable def verifyEpochs {VK Proof : Type*}
    (groth16 : VK → Proof → List Fq → Outcome Unit Bool) (gen : G2Point) (B : Blake2s)
    (vk : VK) (first last : EpochBlock) (proof : Proof) : Outcome VerificationError Unit :=
  let hash := hashFirstLast gen B first last
  match pack hash with
  | .err _ => .err .synthesisError
  | .panic => .panic
  | .ok publicInputs =>
    match groth16 vk proof publicInputs with
    | .err _ => .err .synthesisError
    | .panic => .panic
    | .ok accepted => if accepted then .ok () else .err .verificationFailed

end Verif
