import Verif.Model.Sizes
import Verif.Model.HashToG2
import Verif.Props.Uncompressed
import Verif.Props.FfiData

/-!
# The sizes that keys and signatures report: C103
-/

namespace Verif

/-- The uncompressed form of a point takes two coordinates. -/
theorem serializeAffineUncompressed_length {F : Type*} [Field F] {C : CoordCodec F}
    (hC : CodecLaws C) (p : AffinePoint F) :
    (serializeAffineUncompressed C p).length = 2 * C.size := by
  cases p <;>
    simp only [serializeAffineUncompressed, List.length_append, serializeWithFlags_length hC,
      hC.write_length] <;> omega

/-- **C103.** `serialized_size` is the number of bytes `serialize` writes, for every key and
signature; the modulus leaves room for the flags in the last byte. -/
theorem C103_serialized_size (pk : G2Point) (s : G1Point) (sk : ZMod FR_MODULUS) :
    (serializePublicKey pk).length = publicKeySerializedSize pk ∧
    (serializeSignature s).length = signatureSerializedSize s ∧
    (serializePrivateKey sk).length = privateKeySerializedSize sk :=
  C66_sizes pk s sk

/-- **C103.** The bit counts the sizes are computed from are those of the moduli: every element is
below `2 ^ bits`, and some element is not below `2 ^ (bits - 1)`. -/
theorem C103_bits :
    (∀ x : Fq, x.val < 2 ^ FQ_BITS) ∧ (∃ x : Fq, 2 ^ (FQ_BITS - 1) ≤ x.val) ∧
    (∀ x : ZMod FR_MODULUS, x.val < 2 ^ FR_BITS) ∧
    ∃ x : ZMod FR_MODULUS, 2 ^ (FR_BITS - 1) ≤ x.val := by
  have hq : NeZero FQ_MODULUS := ⟨by decide +kernel⟩
  have hr : NeZero FR_MODULUS := ⟨by decide +kernel⟩
  have q1 : FQ_MODULUS ≤ 2 ^ FQ_BITS := by decide +kernel
  have q2 : 2 ^ (FQ_BITS - 1) < FQ_MODULUS := by decide +kernel
  have r1 : FR_MODULUS ≤ 2 ^ FR_BITS := by decide +kernel
  have r2 : 2 ^ (FR_BITS - 1) < FR_MODULUS := by decide +kernel
  refine ⟨fun x => lt_of_lt_of_le (ZMod.val_lt x) q1, ⟨((2 ^ (FQ_BITS - 1) : ℕ) : Fq), ?_⟩,
    fun x => lt_of_lt_of_le (ZMod.val_lt x) r1,
    ⟨((2 ^ (FR_BITS - 1) : ℕ) : ZMod FR_MODULUS), ?_⟩⟩
  · exact le_of_eq (ZMod.val_cast_of_lt q2).symm
  · exact le_of_eq (ZMod.val_cast_of_lt r2).symm

section
variable {sqrt2 : Fq2 → Option Fq2} (hs2 : RootSpec sqrt2)
  {sqrt1 : Fq → Option Fq} (hs1 : RootSpec sqrt1)

include hs2 hs1 in
/-- **C103.** Whatever the stream, a successful `deserialize` takes exactly `serialized_size` bytes
of the result off it and leaves the others. -/
theorem C103_consumed :
    (∀ (stream rest : Bytes) (pk : G2Point),
      deserializePublicKey sqrt2 stream = .ok (pk, rest) →
      publicKeySerializedSize pk ≤ stream.length ∧
        rest = stream.drop (publicKeySerializedSize pk)) ∧
    (∀ (stream rest : Bytes) (s : G1Point),
      deserializeSignature sqrt1 stream = .ok (s, rest) →
      signatureSerializedSize s ≤ stream.length ∧
        rest = stream.drop (signatureSerializedSize s)) ∧
    ∀ (stream rest : Bytes) (sk : ZMod FR_MODULUS),
      deserializePrivateKey stream = .ok (sk, rest) →
      privateKeySerializedSize sk ≤ stream.length ∧
        rest = stream.drop (privateKeySerializedSize sk) := by
  have key : ∀ (a rest : Bytes) (n : ℕ), a.length = n →
      n ≤ (a ++ rest).length ∧ rest = (a ++ rest).drop n := by
    rintro a rest n rfl
    exact ⟨by simp, by simp⟩
  refine ⟨fun stream rest pk h => ?_, fun stream rest s h => ?_, fun stream rest sk h => ?_⟩
  · obtain ⟨-, ⟨-, rfl⟩ | ⟨-, x, rfl⟩⟩ := (C66_public_key_iff hs2 _ _ _).mp h
    · exact key _ _ _ (C103_serialized_size pk 0 0).1
    · exact key _ _ _ (by
        rw [List.length_append, leBytes_length, leBytes_length]; rfl)
  · obtain ⟨-, ⟨-, rfl⟩ | ⟨-, x, rfl⟩⟩ := (C66_signature_iff hs1 _ _ _).mp h
    · exact key _ _ _ (C103_serialized_size 0 s 0).2.1
    · exact key _ _ _ (by rw [leBytes_length]; rfl)
  · obtain rfl := (C66_private_key_iff _ _ _).mp h
    exact key _ _ _ (C103_serialized_size 0 0 sk).2.2

end

/-- **C103.** The uncompressed forms take twice as many bytes as `uncompressed_size` reports, for
every key and every signature: the method keeps its default while `serialize_uncompressed` is
overridden (violation). -/
theorem C103_violation_uncompressed (pk : G2Point) (s : G1Point) :
    (serializePublicKeyUncompressed pk).length = 2 * publicKeyUncompressedSize pk ∧
    (serializeSignatureUncompressed s).length = 2 * signatureUncompressedSize s ∧
    (serializePublicKeyUncompressed pk).length ≠ publicKeyUncompressedSize pk ∧
    (serializeSignatureUncompressed s).length ≠ signatureUncompressedSize s := by
  have h2 : (serializePublicKeyUncompressed pk).length = 2 * publicKeyUncompressedSize pk :=
    serializeAffineUncompressed_length fq2Codec_laws _
  have h1 : (serializeSignatureUncompressed s).length = 2 * signatureUncompressedSize s :=
    serializeAffineUncompressed_length fqCodec_laws _
  refine ⟨h2, h1, ?_, ?_⟩
  · rw [h2]; exact (by decide : 2 * g2SerializedSize ≠ g2SerializedSize)
  · rw [h1]; exact (by decide : 2 * g1SerializedSize ≠ g1SerializedSize)

/-- **C103.** A caller that sizes a buffer by `uncompressed_size` and keeps that many bytes of the
uncompressed form keeps nothing of the second coordinate: two keys with the same first coordinate
give the same bytes, in particular a key and its negative; the same for signatures. -/
theorem C103_truncated (pk : G2Point) (s : G1Point) :
    (serializePublicKeyUncompressed pk).take (publicKeyUncompressedSize pk) =
      (serializePublicKeyUncompressed (-pk)).take (publicKeyUncompressedSize (-pk)) ∧
    (serializeSignatureUncompressed s).take (signatureUncompressedSize s) =
      (serializeSignatureUncompressed (-s)).take (signatureUncompressedSize (-s)) := by
  have take_left : ∀ (a b c : Bytes) (n : ℕ), a.length = n →
      (a ++ b).take n = (a ++ c).take n := by
    rintro a b c n rfl; simp
  constructor
  · cases pk with
    | zero => rfl
    | some x y h => exact take_left _ _ _ _ (fq2Codec_laws.write_length x)
  · cases s with
    | zero => rfl
    | some x y h => exact take_left _ _ _ _ (fqCodec_laws.write_length x)

/-- **C103.** The hashes to the curve read as many bytes of a candidate as the size of a point of
their group; `PUBKEY_BYTES` of the C interface is the size of a public key. -/
theorem C103_constants :
    g1HashCurve.numBytes = g1SerializedSize ∧ g2HashCurve.numBytes = g2SerializedSize ∧
    PUBKEY_BYTES = g2SerializedSize := ⟨rfl, rfl, rfl⟩

/-- The generator of G2 reports and writes 96 bytes; a signature other than infinity 48; the private
key 5 reports and writes 32. -/
example : (serializePublicKey g2Generator).length = 96 ∧
    (serializeSignature (G1_COFACTOR • onePoint)).length = 48 ∧
    (serializePrivateKey 5).length = 32 :=
  C103_serialized_size g2Generator (G1_COFACTOR • onePoint) 5

/-- A key followed by two bytes: 96 bytes are read. -/
example : [1, 2] = (serializePublicKey g2Generator ++ [1, 2]).drop 96 :=
  ((C103_consumed someSqrt2_spec someSqrt_root).1 _ _ _
    (C66_public_key_roundtrip someSqrt2_spec g2Generator g2Generator_order [1, 2])).2

/-- The uncompressed generator of G2 has 192 bytes, reported as 96. -/
example : (serializePublicKeyUncompressed g2Generator).length = 192 ∧
    publicKeyUncompressedSize g2Generator = 96 :=
  ⟨(C103_violation_uncompressed g2Generator 0).1, rfl⟩

/-- The generator and its negative are different and agree on the first 96 bytes. -/
example : g2Generator ≠ -g2Generator ∧
    (serializePublicKeyUncompressed g2Generator).take 96 =
      (serializePublicKeyUncompressed (-g2Generator)).take 96 := by
  refine ⟨fun h => ?_, (C103_truncated g2Generator 0).1⟩
  have h2 : 2 • g2Generator = 0 := by rw [two_nsmul]; nth_rw 2 [h]; exact add_neg_cancel _
  have h1 := g2Generator_order
  have hd : addOrderOf g2Generator ∣ 1 := by
    have := Nat.dvd_gcd (addOrderOf_dvd_of_nsmul_eq_zero h2) (addOrderOf_dvd_of_nsmul_eq_zero h1)
    rwa [show Nat.gcd 2 FR_MODULUS = 1 by decide +kernel] at this
  have h3 := addOrderOf_dvd_iff_nsmul_eq_zero.mp hd
  rw [one_nsmul] at h3
  exact absurd h3 (by intro h; cases h)

end Verif
