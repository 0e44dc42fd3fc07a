import Verif.Model.HashToCurve
import Verif.Model.Serialize
import Verif.Lemmas.G2Order

/-!
# Hashing to any curve of the family, and to G2

`TryAndIncrement` and `TryAndIncrementCIP22` are generic in the curve `P: SWModelParameters`
(`crates/bls-crypto/src/hash_to_curve/try_and_increment.rs:43-61`); the tests use G1 and G2
(`hash_to_curve/mod.rs:181-203,490-513`).  Here is the generic code; at G1 it is
`Verif/Model/HashToCurve.lean` (`C94_generic_g1`).
-/

namespace Verif

/-- What the generic code uses of `P: SWModelParameters` (ark_ec, external), for a curve
`y ^ 2 = x ^ 3 + b`: `GroupAffine::<P>::zero().serialized_size()` and
`P::BaseField::from_random_bytes_with_flags` (`crates/bls-crypto/src/hash_to_curve/try_and_increment.rs:93`,
`mod.rs:147`), the order of the field (`mod.rs:151`, within `get_point_from_x`) and `b`. -/
structure HashCurve (F : Type*) where
  numBytes : ℕ
  decode : Bytes → Option (F × YSignFlags)
  codec : CoordCodec F
  b : F

section
variable {F : Type*} [Field F] [DecidableEq F] (K : HashCurve F)

/-- `from_random_bytes::<P>`, `crates/bls-crypto/src/hash_to_curve/mod.rs:146-156`. -/
def fromRandomBytesAt (sqrt : F → Option F) (bytes : Bytes) : Option (AffinePoint F) :=
  (K.decode bytes).bind fun (x, flags) =>
    if x = 0 ∧ flags.isInfinity = true then some .infinity
    else match flags.isPositive with
      | some yIsPositive => curvePointFromX K.codec sqrt K.b x yIsPositive
      | none => none

/-- The bit move under the `compat` feature, `num_bytes` being `n`:
`crates/bls-crypto/src/hash_to_curve/try_and_increment.rs:106-120` (identical at
`try_and_increment_cip22.rs:102-115`). -/
def compatMoveAt (n : ℕ) (candidate : Bytes) : Outcome BLSError Bytes :=
  if candidate.length < n then .panic
  else
    let candidate := candidate.take n
    let last := candidate.getD (n - 1) 0
    let positiveFlag : Bool := last &&& 2 != 0
    if positiveFlag then
      .ok (candidate.set (n - 1) (last ||| (YSignFlags.positiveY false).u8Bitmask))
    else
      .ok (candidate.set (n - 1) (last &&& ~~~(YSignFlags.positiveY false).u8Bitmask))

variable {G : Type*} [Zero G] [DecidableEq G] (compat : Bool)

/-- What an iteration does with the digest, at any curve:
`crates/bls-crypto/src/hash_to_curve/try_and_increment.rs:105-135` (identical at
`try_and_increment_cip22.rs:101-130`). -/
def processCandidateAt (sqrt : F → Option F) (scale : AffinePoint F → G) (candidate : Bytes) :
    Outcome BLSError (Option G) :=
  (if compat then compatMoveAt K.numBytes candidate else .ok candidate).bind fun candidate =>
  if candidate.length < K.numBytes then .panic
  else match fromRandomBytesAt K sqrt (candidate.take K.numBytes) with
    | some p =>
      let scaled := scale p
      if scaled = 0 then .ok none else .ok (some scaled)
    | none => .ok none

variable (h : Hasher) (sqrt : F → Option F) (scale : AffinePoint F → G)

/-- `TryAndIncrement::<_, P>::hash_with_attempt`,
`crates/bls-crypto/src/hash_to_curve/try_and_increment.rs:87-139`. -/
def hashWithAttemptAt (domain message extra : Bytes) : Outcome BLSError (G × ℕ) :=
  let hashBytes := hashLength K.numBytes
  tryLoop (fun c =>
    (h.hash domain ([UInt8.ofNat c] ++ extra ++ message) hashBytes).bind
      (processCandidateAt K compat sqrt scale)) (List.range NUM_TRIES)

/-- `TryAndIncrementCIP22::<_, P>::hash_with_attempt_cip22`,
`crates/bls-crypto/src/hash_to_curve/try_and_increment_cip22.rs:81-134`. -/
def hashWithAttemptCip22At (domain message extra : Bytes) : Outcome BLSError (G × ℕ) :=
  let hashBytes := hashLength K.numBytes
  (h.crh domain message hashBytes).bind fun innerHash =>
  tryLoop (fun c =>
    (h.xof domain ([UInt8.ofNat c] ++ extra ++ innerHash) hashBytes).bind
      (processCandidateAt K compat sqrt scale)) (List.range NUM_TRIES)

end

/-- The parameters of G1 (`ark_bls12_377::g1::Parameters`, external), used at
`crates/bls-crypto/src/hash_to_curve/try_and_increment.rs:31,37`. -/
def g1HashCurve : HashCurve Fq where
  numBytes := NUM_BYTES
  decode := fqFromRandomBytesWithFlags
  codec := fqCodec
  b := 1

/-- `from_random_bytes` of the 377-bit field (ark_ff, external), reached from
`crates/bls-crypto/src/hash_to_curve/mod.rs:147` at G2: as `fqFromRandomBytesWithFlags`, without flags. -/
def fqFromRandomBytes (bytes : Bytes) : Option Fq :=
  let buffer := (bytes ++ List.replicate 49 0).take 49
  let v := leValue ((buffer.take 47) ++ [buffer.getD 47 0 &&& 1])
  if v < FQ_MODULUS then some (v : Fq) else none

/-- `from_random_bytes_with_flags` of the quadratic extension (ark_ff, external), called at
`crates/bls-crypto/src/hash_to_curve/mod.rs:147`: the first half is `c0`, the second `c1` with the flags. -/
def fq2FromRandomBytesWithFlags (bytes : Bytes) : Option (Fq2 × YSignFlags) :=
  let splitAt := bytes.length / 2
  (fqFromRandomBytes (bytes.take splitAt)).bind fun c0 =>
    (fqFromRandomBytesWithFlags (bytes.drop splitAt)).map fun (c1, flags) => (⟨c0, c1⟩, flags)

/-- The parameters of G2 (`ark_bls12_377::g2::Parameters`, external), used at
`crates/bls-crypto/src/hash_to_curve/mod.rs:196,202,509`. -/
def g2HashCurve : HashCurve Fq2 where
  numBytes := 96
  decode := fq2FromRandomBytesWithFlags
  codec := fq2Codec
  b := g2CoeffB

open Classical in
/-- `scale_by_cofactor` of G2 (ark_ec, external), called at
`crates/bls-crypto/src/hash_to_curve/try_and_increment.rs:130`.  Coordinates not on the curve (never
produced by decoding) are sent to infinity. -/
noncomputable def g2Scale : AffinePoint Fq2 → G2Point
  | .infinity => 0
  | .finite x y => if h : g2Curve.Nonsingular x y then G2_COFACTOR • (WeierstrassCurve.Affine.Point.some x y h) else 0

end Verif
