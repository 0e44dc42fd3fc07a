import Verif.Model.Sqrt
import Verif.Model.G2

/-!
# The square root of the quadratic extension

`SquareRootField::sqrt` for `QuadExtField` (ark_ff, external), with which public keys are decompressed
(`crates/bls-crypto/src/bls/public.rs:138-142`).  The source of ark_ff is not in /repo; this is the
complex method, as far as known here: versions before 0.4 look for a root of an element of the base field in the base
field only, later ones also among the multiples of `u`.  `Cargo.lock`
has a revision of 0.1.0.
-/

namespace Verif

/-- `norm` of the quadratic extension (ark_ff, external; behind `crates/bls-crypto/src/bls/public.rs:138-142`). -/
def fq2Norm (a : Fq2) : Fq := a.re * a.re - (-5) * (a.im * a.im)

/-- The last steps of `sqrt` of the quadratic extension (ark_ff, external; behind
`crates/bls-crypto/src/bls/public.rs:138-142`), given the root of `delta`, which is the first coordinate; two
`expect`s. -/
def fq2SqrtLast (a : Fq2) : Option Fq → Outcome Unit (Option Fq2)
  | none => .panic
  | some c0 => if c0 = 0 then .panic else .ok (some ⟨c0, a.im * 2⁻¹ * c0⁻¹⟩)

/-- `delta` (ark_ff, external; behind `crates/bls-crypto/src/bls/public.rs:138-142`). -/
def fq2SqrtDelta (a : Fq2) (alpha : Fq) : Fq :=
  let delta := (alpha + a.re) * 2⁻¹
  if legendreSymbol delta = .quadraticNonResidue then delta - alpha else delta

/-- The steps from the root of the norm on (ark_ff, external; behind `crates/bls-crypto/src/bls/public.rs:138-142`),
with the `expect` of that root. -/
def fq2SqrtComplex (a : Fq2) : Option Fq → Outcome Unit (Option Fq2)
  | none => .panic
  | some alpha => fq2SqrtLast a (fqSqrt (fq2SqrtDelta a alpha))

/-- `sqrt` of the quadratic extension (ark_ff, external; behind `crates/bls-crypto/src/bls/public.rs:138-142`);
`later` chooses the version. -/
def fq2SqrtRun (later : Bool) (a : Fq2) : Outcome Unit (Option Fq2) :=
  if a.im = 0 then
    if later = true ∧ legendreSymbol a.re ≠ .quadraticResidue then
      .ok ((fqSqrt (a.re * (-5)⁻¹)).map fun r => ⟨0, r⟩)
    else .ok ((fqSqrt a.re).map fun r => ⟨r, 0⟩)
  else
    match legendreSymbol (fq2Norm a) with
    | .zero => .ok (some a)
    | .quadraticNonResidue => .ok none
    | .quadraticResidue => fq2SqrtComplex a (fqSqrt (fq2Norm a))

/-- The square root that decompresses public keys (`crates/bls-crypto/src/bls/public.rs:138-142`). -/
def fq2Sqrt (later : Bool) (a : Fq2) : Option Fq2 := (fq2SqrtRun later a).ended

end Verif
