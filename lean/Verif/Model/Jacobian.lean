import Verif.Model.Cache
import Verif.Lemmas.ScalarMul

/-!
# Jacobian arithmetic

The arithmetic on representations that `ark_ec` (external) does for public keys, on a curve
`y ^ 2 = x ^ 3 + b`.  `(x, y, z)` denotes `(x / z ^ 2, y / z ^ 3)`, or zero if `z = 0`.
-/

namespace Verif

open WeierstrassCurve

section
variable {F : Type*} [Field F] [DecidableEq F]

/-- `GroupProjective::zero` (ark_ec, external), `crates/bls-crypto/src/bls/cache.rs:35,43`. -/
def arkZero : JacRep F := ⟨1, 1, 0⟩

/-- `Neg for GroupProjective` (ark_ec, external), inside the subtraction at
`crates/bls-crypto/src/bls/cache.rs:75`. -/
def arkNeg (a : JacRep F) : JacRep F := if a.z = 0 then a else ⟨a.x, -a.y, a.z⟩

/-- `double_in_place` for `COEFF_A = 0` (ark_ec, external; formulas dbl-2009-l), inside the addition
at `crates/bls-crypto/src/bls/cache.rs:80`. -/
def arkDouble (p : JacRep F) : JacRep F :=
  if p.z = 0 then p
  else
    let a := p.x ^ 2
    let b := p.y ^ 2
    let c := b ^ 2
    let d := 2 * ((p.x + b) ^ 2 - a - c)
    let e := a + 2 * a
    let f := e ^ 2
    let x := f - d - d
    ⟨x, (d - x) * e - 8 * c, 2 * (p.z * p.y)⟩

/-- `AddAssign for GroupProjective` (ark_ec, external; formulas add-2007-bl),
`crates/bls-crypto/src/bls/cache.rs:80` and `crates/bls-crypto/src/bls/public.rs:55`. -/
def arkAdd (p q : JacRep F) : JacRep F :=
  if p.z = 0 then q
  else if q.z = 0 then p
  else
    let z1z1 := p.z ^ 2
    let z2z2 := q.z ^ 2
    let u1 := p.x * z2z2
    let u2 := q.x * z1z1
    let s1 := p.y * q.z * z2z2
    let s2 := q.y * p.z * z1z1
    if u1 = u2 ∧ s1 = s2 then arkDouble p
    else
      let h := u2 - u1
      let i := (2 * h) ^ 2
      let j := h * i
      let r := 2 * (s2 - s1)
      let v := u1 * i
      let x := r ^ 2 - j - 2 * v
      ⟨x, r * (v - x) - 2 * (s1 * j), ((p.z + q.z) ^ 2 - z1z1 - z2z2) * h⟩

/-- `SubAssign for GroupProjective` (ark_ec, external), `crates/bls-crypto/src/bls/cache.rs:75`,
`crates/bls-snark-sys/src/signatures.rs:472-474`. -/
def arkSub (p q : JacRep F) : JacRep F := arkAdd p (arkNeg q)

/-- The triple denotes a point (holds for every key the code can make;
`crates/bls-crypto/src/bls/public.rs:15-16`). -/
def JacRep.On (b : F) (k : JacRep F) : Prop := k.z = 0 ∨ k.y ^ 2 = k.x ^ 3 + b * k.z ^ 6

instance (b : F) (k : JacRep F) : Decidable (k.On b) := by unfold JacRep.On; infer_instance

variable {W : WeierstrassCurve.Affine F} {b : F}

/-- The denoted element (`into_affine`, ark_ec, external), as compared at
`crates/bls-crypto/src/bls/public.rs:15-16`; triples off the curve are sent to zero. -/
def jacPoint (hW : ∀ x y, W.Nonsingular x y ↔ y ^ 2 = x ^ 3 + b) (k : JacRep F) : W.Point :=
  if h : k.z ≠ 0 ∧ (k.y / k.z ^ 3) ^ 2 = (k.x / k.z ^ 2) ^ 3 + b then
    .some _ _ ((hW _ _).mpr h.2)
  else 0

/-- Addition made total on triples off the curve, which count as zero; on the curve it is
`arkAdd` (`crates/bls-crypto/src/bls/cache.rs:80`). -/
def addOn (b : F) (p q : JacRep F) : JacRep F :=
  if p.On b then if q.On b then arkAdd p q else p else if q.On b then q else arkZero

end

end Verif
