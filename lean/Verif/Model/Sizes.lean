import Verif.Model.Serialize

/-!
# The sizes the serialisable types report

`PublicKey` and `Signature` implement `CanonicalSerialize` by hand with three methods: `serialize`,
`serialize_uncompressed` and `serialized_size` (`crates/bls-crypto/src/bls/public.rs:123-135`,
`crates/bls-crypto/src/bls/signature.rs:31-43`).  The remaining methods of the trait keep their
defaults, which are part of ark_serialize (external).
-/

namespace Verif

/-- `buffer_byte_size` (ark_serialize, external), reached from
`crates/bls-crypto/src/bls/public.rs:133`: the bytes that hold so many bits. -/
def bufferByteSize (bits : ℕ) : ℕ := (bits + 7) / 8

/-- `Fp::MODULUS_BITS` of the base field (ark_bls12_377, external), reached from
`crates/bls-crypto/src/bls/public.rs:133`. -/
def FQ_BITS : ℕ := 377

/-- `Fp::MODULUS_BITS` of the scalar field (ark_bls12_377, external), reached from the derived
implementation at `crates/bls-crypto/src/bls/secret.rs:11`. -/
def FR_BITS : ℕ := 253

/-- `SWFlags::len` (ark_serialize, external), the bits of the flags, reached from
`crates/bls-crypto/src/bls/public.rs:133`. -/
def SW_FLAG_BITS : ℕ := 2

/-- `GroupAffine::serialized_size` of G1 (ark_ec, external), called at
`crates/bls-crypto/src/bls/signature.rs:41` and, for the hash, at
`crates/bls-crypto/src/hash_to_curve/try_and_increment.rs:93` and
`try_and_increment_cip22.rs:87`: one coordinate with the flags. -/
def g1SerializedSize : ℕ := bufferByteSize (FQ_BITS + SW_FLAG_BITS)

/-- `GroupAffine::serialized_size` of G2 (ark_ec, external), called at
`crates/bls-crypto/src/bls/public.rs:133`: the first half of the coordinate has no flags. -/
def g2SerializedSize : ℕ := bufferByteSize FQ_BITS + bufferByteSize (FQ_BITS + SW_FLAG_BITS)

/-- `PublicKey::serialized_size`, `crates/bls-crypto/src/bls/public.rs:132-134`. -/
def publicKeySerializedSize (_ : G2Point) : ℕ := g2SerializedSize

/-- `Signature::serialized_size`, `crates/bls-crypto/src/bls/signature.rs:40-42`. -/
def signatureSerializedSize (_ : G1Point) : ℕ := g1SerializedSize

/-- `PrivateKey::serialized_size` (derived, `crates/bls-crypto/src/bls/secret.rs:11`). -/
def privateKeySerializedSize (_ : ZMod FR_MODULUS) : ℕ := bufferByteSize FR_BITS

/-- `CanonicalSerialize::uncompressed_size`, whose default (ark_serialize, external) is
`serialized_size`; the implementation at `crates/bls-crypto/src/bls/public.rs:123-135` overrides
`serialize_uncompressed` but not this method. -/
def publicKeyUncompressedSize (pk : G2Point) : ℕ := publicKeySerializedSize pk

/-- The same default for `crates/bls-crypto/src/bls/signature.rs:31-43`. -/
def signatureUncompressedSize (s : G1Point) : ℕ := signatureSerializedSize s

end Verif
