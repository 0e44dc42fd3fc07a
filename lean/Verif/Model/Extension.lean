import Verif.Model.G2
import Verif.Model.Inverse

/-!
# The quadratic extension of the field library

Multiplication, squaring and the inverse of `Fq2` (ark_ff `QuadExtField` with the parameters of ark_bls12_377, external),
in which the coordinates of public keys are computed, `crates/bls-crypto/src/bls/public.rs:26`.  The sources are not in
/repo; these are the algorithms of the versions that /repo depends on, as far as known here.
-/

namespace Verif

/-- `mul_fp_by_nonresidue` (ark_bls12_377, external; behind `crates/bls-crypto/src/bls/public.rs:26`): two doublings
and a subtraction. -/
def mulByNonresidue (x : Fq) : Fq :=
  let y := -(x + x)
  let y := y + y
  y - x

/-- `mul_assign` of `QuadExtField` (ark_ff, external; behind `crates/bls-crypto/src/bls/public.rs:26`): three
multiplications. -/
def extMul (a b : Fq2) : Fq2 :=
  let v0 := a.re * b.re
  let v1 := a.im * b.im
  ⟨v0 + mulByNonresidue v1, (a.im + a.re) * (b.re + b.im) - v0 - v1⟩

/-- `square_in_place` of `QuadExtField` (ark_ff, external; behind `crates/bls-crypto/src/bls/public.rs:26`): two
multiplications. -/
def extSquare (a : Fq2) : Fq2 :=
  let v0 := a.re - a.im
  let v3 := a.re - mulByNonresidue a.im
  let v2 := a.re * a.im
  let v0 := v0 * v3
  ⟨v0 + (v2 + mulByNonresidue v2), v2 + v2⟩

/-- The element that a Montgomery form of six limbs returned by `inverse` stands for (ark_ff, external;
`crates/bls-gadgets/src/y_to_bit.rs:104`). -/
def decodeInverse : Outcome Unit (Option ℕ) → Option Fq
  | .ok (some y) => some ((y : Fq) * ((2 ^ 384 : ℕ) : Fq)⁻¹)
  | _ => none

/-- `inverse` of the base field (ark_ff, external; called at `crates/bls-gadgets/src/y_to_bit.rs:104`) as a function of
elements: through the Montgomery forms of six limbs, with enough rounds. -/
def fqInverse (x : Fq) : Option Fq :=
  decodeInverse (arkInverse FQ_MODULUS (((2 ^ 384 : ℕ) : Fq) * ((2 ^ 384 : ℕ) : Fq)).val 755
    (x * ((2 ^ 384 : ℕ) : Fq)).val)

/-- `inverse` of `QuadExtField` (ark_ff, external; behind the normalization of points, `crates/bls-crypto/src/bls/public.rs:58`),
`inverse` being that of the base field. -/
def extInverse (inverse : Fq → Option Fq) (a : Fq2) : Option Fq2 :=
  if a.re = 0 ∧ a.im = 0 then none
  else
    let v1 := a.im * a.im
    let v0 := a.re * a.re - mulByNonresidue v1
    (inverse v0).map fun v => ⟨a.re * v, -(a.im * v)⟩

end Verif
