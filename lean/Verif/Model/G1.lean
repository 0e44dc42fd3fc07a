import Verif.Model.HashToCurve
import Mathlib.AlgebraicGeometry.EllipticCurve.Affine.Point

/-!
# The group G1 concretely

The curve group of BLS12-377 G1 as Mathlib's group of points of a Weierstrass curve, used to
discharge the assumptions on `scale` made by the hash-to-curve theorems.
-/

namespace Verif

open WeierstrassCurve

/-- The curve `y ^ 2 = x ^ 3 + 1` over the base field (`ark_bls12_377::g1::Parameters`, external:
`COEFF_A = 0`, `COEFF_B = 1`); used at
`crates/bls-crypto/src/hash_to_curve/try_and_increment.rs:31,37`. -/
def g1Curve : WeierstrassCurve.Affine Fq := { a₁ := 0, a₂ := 0, a₃ := 0, a₄ := 0, a₆ := 1 }

/-- The group of points (`ark_bls12_377::G1Projective`, external, up to projective equivalence; used at
`crates/bls-crypto/src/hash_to_curve/try_and_increment.rs:130`). -/
abbrev G1Point := g1Curve.Point

/-- The cofactor of G1 (`ark_bls12_377::g1::Parameters::COFACTOR`, external), behind `scale_by_cofactor` at
`crates/bls-crypto/src/hash_to_curve/try_and_increment.rs:130`. -/
def G1_COFACTOR : ℕ := 0x170b5d44300000000000000000000000

open Classical in
/-- `scale_by_cofactor` (ark_ec, external), called at
`crates/bls-crypto/src/hash_to_curve/try_and_increment.rs:129`: multiplication by the cofactor.
Coordinates not on the curve (never produced by decoding) are sent to infinity. -/
noncomputable def g1Scale : AffinePoint Fq → G1Point
  | .infinity => 0
  | .finite x y => if h : g1Curve.Nonsingular x y then G1_COFACTOR • (Affine.Point.some x y h) else 0

end Verif
