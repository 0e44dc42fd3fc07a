import Verif.Model.G1
import Verif.Model.G2
import Verif.Model.Encoding

/-!
# Serialisation of keys and signatures

`PublicKey`, `Signature` and `PrivateKey` delegate to `ark_serialize` (external, version 0.1).  Its
format is written out here: coordinates are 48 little-endian bytes, the two top bits of the last
byte carry the flags.  All of `ark`'s error kinds are kept apart only as far as the code shows
them: end of input, bad flags, non-canonical or invalid data.
-/

namespace Verif

open WeierstrassCurve

/-- `SerializationError` (ark_serialize, external), wrapped at
`crates/bls-crypto/src/lib.rs:110-112` and `crates/epoch-snark/src/encoding.rs:12-19`. -/
inductive SerError where
  | endOfInput
  | unexpectedFlags
  | invalidData
  deriving DecidableEq, Repr

/-- `SWFlags` (ark_serialize, external), used through `serialize` at
`crates/bls-crypto/src/bls/public.rs:123-149`. -/
inductive SWFlags where
  | infinity
  | positiveY
  | negativeY
  deriving DecidableEq, Repr

/-- `SWFlags::u8_bitmask` (ark_serialize, external), reached from
`crates/bls-crypto/src/bls/public.rs:125`. -/
def SWFlags.mask : SWFlags → UInt8
  | .infinity => 0x40
  | .positiveY => 0x80
  | .negativeY => 0

/-- `SWFlags::from_u8` (ark_serialize, external), reached from
`crates/bls-crypto/src/bls/public.rs:140`: bit 7 is the sign, bit 6 infinity, both together are
refused. -/
def SWFlags.fromU8 (b : UInt8) : Option SWFlags :=
  match b.toNat.testBit 7, b.toNat.testBit 6 with
  | true, true => none
  | false, true => some .infinity
  | true, false => some .positiveY
  | false, false => some .negativeY

/-- Byte format and order of a coordinate field (the `ToBytes`, `FromBytes` and `Ord` instances of
ark_ff, external), used at `crates/bls-snark-sys/src/serialization.rs:175-176,200-201`. `read` is
applied to exactly `size` bytes. -/
structure CoordCodec (F : Type*) where
  size : ℕ
  write : F → Bytes
  read : Bytes → Option F
  gt : F → F → Bool

/-- `Fq::write` (ark_ff, external): the canonical representative, 48 bytes little-endian; the
inverse of the read at `crates/bls-snark-sys/src/serialization.rs:175`. -/
def fqWrite (x : Fq) : Bytes := leBytes 48 x.val

/-- `Fq::read` (ark_ff, external) on 48 bytes, called at
`crates/bls-snark-sys/src/serialization.rs:175-176`: values not below the modulus are refused. -/
def fqRead (bs : Bytes) : Option Fq :=
  if leValue bs < FQ_MODULUS then some ((leValue bs : ℕ) : Fq) else none

/-- The base field, see `CoordCodec`; `crates/bls-snark-sys/src/serialization.rs:175-176`. -/
def fqCodec : CoordCodec Fq where
  size := 48
  write := fqWrite
  read := fqRead
  gt a b := decide (b.val < a.val)

/-- The quadratic extension, see `CoordCodec`; `crates/bls-snark-sys/src/serialization.rs:200-201`:
`c0` then `c1`; compared by `c1` first (ark_ff, external). -/
def fq2Codec : CoordCodec Fq2 where
  size := 96
  write x := fqWrite x.re ++ fqWrite x.im
  read bs := (fqRead (bs.take 48)).bind fun c0 => (fqRead (bs.drop 48)).map fun c1 => ⟨c0, c1⟩
  gt a b := if a.im = b.im then decide (b.re.val < a.re.val) else decide (b.im.val < a.im.val)

section
variable {F : Type*} [Field F] (C : CoordCodec F)

/-- `serialize_with_flags` (ark_ff, external), reached from
`crates/bls-crypto/src/bls/public.rs:125`: the flags are or-ed into the last byte. -/
def serializeWithFlags (x : F) (f : SWFlags) : Bytes :=
  let bs := C.write x
  bs.dropLast ++ [bs.getLastD 0 ||| f.mask]

/-- `deserialize_with_flags` (ark_ff, external), reached from
`crates/bls-crypto/src/bls/public.rs:140`: reads `size` bytes of the stream, strips the flags. -/
def deserializeWithFlags (stream : Bytes) : Outcome SerError ((F × SWFlags) × Bytes) :=
  if stream.length < C.size then .err .endOfInput
  else
    let chunk := stream.take C.size
    let last := chunk.getLastD 0
    match SWFlags.fromU8 last with
    | none => .err .unexpectedFlags
    | some f =>
      match C.read (chunk.dropLast ++ [last &&& ~~~ f.mask]) with
      | none => .err .invalidData
      | some x => .ok ((x, f), stream.drop C.size)

/-- `GroupAffine::serialize` (ark_ec, external), called at
`crates/bls-crypto/src/bls/public.rs:125` and `bls/signature.rs:33`. -/
def serializeAffine [DecidableEq F] : AffinePoint F → Bytes
  | .infinity => serializeWithFlags C 0 .infinity
  | .finite x y => serializeWithFlags C x (if C.gt y (-y) then .positiveY else .negativeY)

/-- `GroupAffine::serialize_uncompressed` (ark_ec, external), called at
`crates/bls-crypto/src/bls/public.rs:129` and `bls/signature.rs:37`: infinity has coordinates
`(0, 1)`. -/
def serializeAffineUncompressed : AffinePoint F → Bytes
  | .infinity => C.write 0 ++ serializeWithFlags C 1 .infinity
  | .finite x y => C.write x ++ serializeWithFlags C y .negativeY

/-- `GroupAffine::get_point_from_x` (ark_ec, external) for `y ^ 2 = x ^ 3 + b`, reached from
`crates/bls-crypto/src/bls/public.rs:140`. -/
def curvePointFromX (sqrt : F → Option F) (b : F) (x : F) (greatest : Bool) :
    Option (AffinePoint F) :=
  (sqrt (x * x * x + b)).map fun y =>
    .finite x (if xor (C.gt (-y) y) greatest then y else -y)

/-- `GroupAffine::deserialize` (ark_ec, external), called at
`crates/bls-crypto/src/bls/public.rs:140`, `bls/signature.rs:48` and
`crates/bls-snark-sys/src/snark/epoch_block.rs:191`.  With the infinity flag the coordinate is
ignored.  `inSubgroup` is `is_in_correct_subgroup_assuming_on_curve` (external). -/
def deserializeAffine (sqrt : F → Option F) (b : F) (inSubgroup : AffinePoint F → Bool)
    (stream : Bytes) : Outcome SerError (AffinePoint F × Bytes) :=
  (deserializeWithFlags C stream).bind fun r =>
    if r.1.2 = .infinity then .ok (.infinity, r.2)
    else match curvePointFromX C sqrt b r.1.1 (r.1.2 == .positiveY) with
      | none => .err .invalidData
      | some p => if inSubgroup p then .ok (p, r.2) else .err .invalidData

variable [DecidableEq F]

/-- The curve `y ^ 2 = x ^ 3 + b`; G1 and G2 are of this form (ark_bls12_377, external), see
`g1Curve`, `g2Curve` and `crates/bls-crypto/src/bls/public.rs:15-16`. -/
def shortCurve (b : F) : WeierstrassCurve.Affine F := { a₁ := 0, a₂ := 0, a₃ := 0, a₄ := 0, a₆ := b }

variable {b : F}

/-- `into_affine` (ark_ec, external), `crates/bls-crypto/src/bls/public.rs:125`. -/
def pointAffine : (shortCurve b).Point → AffinePoint F
  | .zero => .infinity
  | .some x y _ => .finite x y

open Classical in
/-- `into_projective` (ark_ec, external), `crates/bls-crypto/src/bls/public.rs:140`.  Coordinates
not on the curve are not group elements; they are sent to infinity here (`deserialize` never yields
them). -/
noncomputable def affinePoint : AffinePoint F → (shortCurve b).Point
  | .infinity => 0
  | .finite x y => if h : (shortCurve b).Nonsingular x y then .some x y h else 0

open Classical in
/-- `is_in_correct_subgroup_assuming_on_curve` (ark_ec, external), reached from
`crates/bls-crypto/src/bls/public.rs:140`: multiplication by the group order gives infinity. -/
noncomputable def inOrderR (p : AffinePoint F) : Bool :=
  decide (FR_MODULUS • (affinePoint p : (shortCurve b).Point) = 0)

end

/-- `PublicKey::serialize`, `crates/bls-crypto/src/bls/public.rs:124-126`. -/
def serializePublicKey (pk : G2Point) : Bytes :=
  serializeAffine fq2Codec (pointAffine (b := g2CoeffB) pk)

/-- `PublicKey::serialize_uncompressed`, `crates/bls-crypto/src/bls/public.rs:128-130`. -/
def serializePublicKeyUncompressed (pk : G2Point) : Bytes :=
  serializeAffineUncompressed fq2Codec (pointAffine (b := g2CoeffB) pk)

/-- `PublicKey::deserialize`, `crates/bls-crypto/src/bls/public.rs:138-142` (the same two steps at
`crates/bls-snark-sys/src/snark/epoch_block.rs:191-192`): the key and the rest of the stream. -/
noncomputable def deserializePublicKey (sqrt : Fq2 → Option Fq2) (stream : Bytes) :
    Outcome SerError (G2Point × Bytes) :=
  (deserializeAffine fq2Codec sqrt g2CoeffB (inOrderR (b := g2CoeffB)) stream).map fun r =>
    (affinePoint (b := g2CoeffB) r.1, r.2)

/-- `Signature::serialize`, `crates/bls-crypto/src/bls/signature.rs:32-34`. -/
def serializeSignature (s : G1Point) : Bytes :=
  serializeAffine fqCodec (pointAffine (b := (1 : Fq)) s)

/-- `Signature::serialize_uncompressed`, `crates/bls-crypto/src/bls/signature.rs:36-38`. -/
def serializeSignatureUncompressed (s : G1Point) : Bytes :=
  serializeAffineUncompressed fqCodec (pointAffine (b := (1 : Fq)) s)

/-- `Signature::deserialize`, `crates/bls-crypto/src/bls/signature.rs:46-50`. -/
noncomputable def deserializeSignature (sqrt : Fq → Option Fq) (stream : Bytes) :
    Outcome SerError (G1Point × Bytes) :=
  (deserializeAffine fqCodec sqrt 1 (inOrderR (b := (1 : Fq))) stream).map fun r =>
    (affinePoint (b := (1 : Fq)) r.1, r.2)

/-- `PrivateKey::serialize` (derived, `crates/bls-crypto/src/bls/secret.rs:11-12`): the canonical
representative, 32 bytes little-endian (ark_ff, external). -/
def serializePrivateKey (sk : ZMod FR_MODULUS) : Bytes := leBytes 32 sk.val

/-- `PrivateKey::deserialize` (derived, `crates/bls-crypto/src/bls/secret.rs:11-12`): 32 bytes
below the group order (ark_ff, external). -/
def deserializePrivateKey (stream : Bytes) : Outcome SerError (ZMod FR_MODULUS × Bytes) :=
  if stream.length < 32 then .err .endOfInput
  else if leValue (stream.take 32) < FR_MODULUS then
    .ok (((leValue (stream.take 32) : ℕ) : ZMod FR_MODULUS), stream.drop 32)
  else .err .invalidData

end Verif
