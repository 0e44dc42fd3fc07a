import Verif.Model.Jacobian
import Verif.Model.Uncompressed

/-!
# Batch normalization

`batch_normalization_into_affine` (ark_ec, external), called at `crates/bls-crypto/src/bls/public.rs:58` and
`crates/bls-crypto/src/bls/signature.rs:82`, with `batch_inversion` (ark_ff, external): one inversion for all points.
The sources are not in /repo; this is the algorithm of the version that /repo depends on, as far as known here.
-/

namespace Verif

section
variable {F : Type*} [Field F] [DecidableEq F]

/-- The first pass of `batch_inversion` (ark_ff, external; behind `crates/bls-crypto/src/bls/public.rs:58`): the
products of all prefixes and the last one. -/
def batchProducts : F → List F → List F × F
  | tmp, [] => ([], tmp)
  | tmp, f :: fs => ((tmp * f) :: (batchProducts (tmp * f) fs).1, (batchProducts (tmp * f) fs).2)

/-- The second pass of `batch_inversion` (ark_ff, external; behind `crates/bls-crypto/src/bls/public.rs:58`), over the
reversed elements and products; zeros are skipped, and the loop ends with the products. -/
def batchBack : F → List F → List F → List F
  | _, [], _ => []
  | tmp, f :: fs, ss =>
    if f = 0 then f :: batchBack tmp fs ss
    else
      match ss with
      | [] => f :: fs
      | s :: ss => (tmp * s) :: batchBack (tmp * f) fs ss

/-- `batch_inversion` (ark_ff, external; behind `crates/bls-crypto/src/bls/public.rs:58`); the inverse of the product is
unwrapped. -/
def batchInversion (v : List F) : Outcome Unit (List F) :=
  let r := batchProducts 1 (v.filter fun f => f ≠ 0)
  if r.2 = 0 then .panic
  else .ok (batchBack r.2⁻¹ v.reverse (r.1.reverse.tail ++ [1])).reverse

/-- One step of `batch_normalization` (ark_ec, external; behind `crates/bls-crypto/src/bls/public.rs:58`): points at
infinity and normalized ones stay. -/
def normalizeWith (g : JacRep F) (z : F) : JacRep F :=
  if g.z = 0 ∨ g.z = 1 then g else ⟨g.x * (z * z), g.y * (z * z * z), 1⟩

/-- `From<GroupProjective> for GroupAffine` (ark_ec, external; behind `crates/bls-crypto/src/bls/public.rs:58`). -/
def jacIntoAffine (g : JacRep F) : AffinePoint F :=
  if g.z = 0 then .infinity
  else if g.z = 1 then .finite g.x g.y
  else
    let z := g.z⁻¹
    .finite (g.x * (z * z)) (g.y * (z * z * z))

/-- `batch_normalization_into_affine` (ark_ec, external; called at `crates/bls-crypto/src/bls/public.rs:58` and
`crates/bls-crypto/src/bls/signature.rs:82`). -/
def batchNormalization (v : List (JacRep F)) : Outcome Unit (List (AffinePoint F)) :=
  (batchInversion (v.map JacRep.z)).map fun zs => (List.zipWith normalizeWith v zs).map jacIntoAffine

end

end Verif
