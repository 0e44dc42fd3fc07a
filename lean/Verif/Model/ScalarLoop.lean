import Verif.Model.Jacobian
import Verif.Model.Montgomery
import Verif.Lemmas.Primes

/-!
# Scalar multiplication of the curve library

`ProjectiveCurve::mul` (ark_ec, external), which makes public keys (`crates/bls-crypto/src/bls/public.rs:26`) and
signatures (`crates/bls-crypto/src/bls/secret.rs:66`): double and add over the bits of the limbs.  The source of ark_ec
is not in /repo; this is the algorithm of the version that /repo depends on, as far as known here.
-/

namespace Verif

/-- The bits of a list of limbs of `w` bits, lowest first (`BitIteratorBE`, ark_ff, external, runs over them backwards;
behind `crates/bls-crypto/src/bls/public.rs:26`). -/
def limbBits (w : ℕ) (limbs : List ℕ) : List Bool := limbs.flatMap fun l => (List.range w).map l.testBit

/-- `BitIteratorBE::without_leading_zeros` (ark_ff, external; behind `crates/bls-crypto/src/bls/public.rs:26`). -/
def bitsWithoutLeadingZeros (w : ℕ) (limbs : List ℕ) : List Bool := (limbBits w limbs).reverse.dropWhile fun b => !b

section
variable {F : Type*} [Field F] [DecidableEq F]

/-- The loop of `mul`: `res.double_in_place(); if b { res += self }` (ark_ec, external; behind
`crates/bls-crypto/src/bls/public.rs:26`). -/
def arkMulLoop (base : JacRep F) : List Bool → JacRep F → JacRep F
  | [], r => r
  | b :: bs, r => arkMulLoop base bs (if b then arkAdd (arkDouble r) base else arkDouble r)

/-- `ProjectiveCurve::mul` (ark_ec, external; called at `crates/bls-crypto/src/bls/public.rs:26` and
`crates/bls-crypto/src/bls/secret.rs:66`) with limbs of `w` bits. -/
def arkMul (w : ℕ) (base : JacRep F) (limbs : List ℕ) : JacRep F :=
  arkMulLoop base (bitsWithoutLeadingZeros w limbs) arkZero

/-- `base.mul(k.into_repr())`, `crates/bls-crypto/src/bls/public.rs:26`, for an exponent of the scalar field given by its
Montgomery form of four limbs; the long number is the constant `INV` of that field. -/
def arkMulForm (base : JacRep F) (form : ℕ) : JacRep F :=
  arkMul 64 base (limbsOf (2 ^ 64) 4 (montIntoRepr (2 ^ 64) FR_MODULUS 725501752471715839 4 form))

end

end Verif
