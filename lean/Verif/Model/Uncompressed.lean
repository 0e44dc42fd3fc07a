import Verif.Model.Serialize
import Verif.Model.Jacobian

/-!
# Uncompressed keys and signatures

`PublicKey::deserialize_uncompressed` and `Signature::deserialize_uncompressed` delegate to
`GroupAffine::deserialize_uncompressed` (ark_ec, external, version 0.1), which reads both coordinates
and then multiplies by the group order; it does not look at the curve's equation.  As the coordinates
read need not lie on the curve, the results are representations and not elements of the group.
-/

namespace Verif

section
variable {F : Type*} [Field F] [DecidableEq F]

/-- `add_assign_mixed` (ark_ec, external; formulas madd-2007-bl), reached from
`crates/bls-crypto/src/bls/public.rs:146`. -/
def arkAddMixed (p : JacRep F) : AffinePoint F → JacRep F
  | .infinity => p
  | .finite x y =>
    if p.z = 0 then ⟨x, y, 1⟩
    else
      let z1z1 := p.z ^ 2
      let u2 := x * z1z1
      let s2 := y * p.z * z1z1
      if p.x = u2 ∧ p.y = s2 then arkDouble p
      else
        let h := u2 - p.x
        let hh := h ^ 2
        let i := 4 * hh
        let j := h * i
        let r := 2 * (s2 - p.y)
        let v := p.x * i
        let x3 := r ^ 2 - j - 2 * v
        ⟨x3, r * (v - x3) - 2 * (p.y * j), (p.z + h) ^ 2 - z1z1 - hh⟩

/-- `mul_bits` (ark_ec, external), reached from `crates/bls-crypto/src/bls/public.rs:146`: double and
add, most significant bit first. -/
def arkMulBits (q : AffinePoint F) (bits : List Bool) : JacRep F :=
  bits.foldl (fun res b => if b then arkAddMixed (arkDouble res) q else arkDouble res) arkZero

/-- `is_in_correct_subgroup_assuming_on_curve` (ark_ec, external) as it is computed, reached from
`crates/bls-crypto/src/bls/public.rs:146` and `bls/signature.rs:54`; the order is iterated over as
four 64-bit limbs. -/
def arkInSubgroup (q : AffinePoint F) : Bool :=
  decide ((arkMulBits q ((List.range 256).reverse.map FR_MODULUS.testBit)).z = 0)

/-- `into_projective` (ark_ec, external), `crates/bls-crypto/src/bls/public.rs:146` and
`bls/signature.rs:54`. -/
def affineProjective : AffinePoint F → JacRep F
  | .infinity => arkZero
  | .finite x y => ⟨x, y, 1⟩

variable (C : CoordCodec F)

/-- `deserialize` of a coordinate (ark_ff, external), reached from
`crates/bls-crypto/src/bls/public.rs:146`.  Every value not below the modulus is `invalidData` here;
with the top bit set ark reports unexpected flags. -/
def deserializeCoord (stream : Bytes) : Outcome SerError (F × Bytes) :=
  if stream.length < C.size then .err .endOfInput
  else match C.read (stream.take C.size) with
    | none => .err .invalidData
    | some x => .ok (x, stream.drop C.size)

/-- `GroupAffine::deserialize_uncompressed` (ark_ec, external), called at
`crates/bls-crypto/src/bls/public.rs:146` and `bls/signature.rs:54`.  Of the flags in `y` only
infinity is looked at. -/
def deserializeAffineUncompressed (stream : Bytes) : Outcome SerError (AffinePoint F × Bytes) :=
  (deserializeCoord C stream).bind fun rx =>
    (deserializeWithFlags C rx.2).bind fun ry =>
      let p : AffinePoint F := if ry.1.2 = .infinity then .infinity else .finite rx.1 ry.1.1
      if arkInSubgroup p then .ok (p, ry.2) else .err .invalidData

end

/-- `PublicKey::deserialize_uncompressed`, `crates/bls-crypto/src/bls/public.rs:144-148`. -/
def deserializePublicKeyUncompressed (stream : Bytes) : Outcome SerError (JacRep Fq2 × Bytes) :=
  (deserializeAffineUncompressed fq2Codec stream).map fun r => (affineProjective r.1, r.2)

/-- `Signature::deserialize_uncompressed`, `crates/bls-crypto/src/bls/signature.rs:52-56`. -/
def deserializeSignatureUncompressed (stream : Bytes) : Outcome SerError (JacRep Fq × Bytes) :=
  (deserializeAffineUncompressed fqCodec stream).map fun r => (affineProjective r.1, r.2)

end Verif
