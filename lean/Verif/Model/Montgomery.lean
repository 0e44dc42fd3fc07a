import Verif.Basic
import Mathlib.Data.ZMod.Basic

/-!
# Montgomery arithmetic of the field library

Multiplication, `into_repr` and `from_repr` of prime fields (ark_ff, external).  The code calls `into_repr` at
`crates/bls-crypto/src/bls/public.rs:26,59` and `crates/bls-crypto/src/bls/signature.rs:83`, and `from_repr` at
`crates/bls-gadgets/src/y_to_bit.rs:131`; every product of field elements is such a multiplication.  The source of ark_ff
is not in /repo; this is the algorithm of the version that /repo depends on, as far as known here.  `W` is the base of
the limbs (2^64) and `n` their number.  One round over the limbs is one operation on the number they denote; the carry out
of the highest limb is dropped, as in the code.
-/

namespace Verif

/-- The `n` lowest limbs of a number, `BigInteger` (ark_ff, external; returned by `into_repr` at
`crates/bls-crypto/src/bls/public.rs:26`). -/
def limbsOf (W : ℕ) : ℕ → ℕ → List ℕ
  | 0, _ => []
  | n + 1, x => x % W :: limbsOf W n (x / W)

/-- `k = r[0] * INV` (wrapping), then `r + k * p` shifted by one limb (ark_ff, external; behind
`crates/bls-crypto/src/bls/public.rs:26`). -/
def montStep (W p inv t : ℕ) : ℕ := (t + t % W * inv % W * p) / W

/-- The loop of `mul_assign` over the limbs of the right factor (ark_ff, external; behind
`crates/bls-gadgets/src/y_to_bit.rs:131`), the variant without a carry limb. -/
def montMulLoop (W p inv n a : ℕ) : List ℕ → ℕ → ℕ
  | [], r => r
  | b :: bs, r => montMulLoop W p inv n a bs (montStep W p inv (r + a * b) % W ^ n)

/-- `reduce` (ark_ff, external; behind `crates/bls-gadgets/src/y_to_bit.rs:131`): at most one subtraction. -/
def reduceOnce (p r : ℕ) : ℕ := if r < p then r else r - p

/-- `mul_assign` (ark_ff, external; behind `crates/bls-gadgets/src/y_to_bit.rs:131`) on Montgomery forms. -/
def montMul (W p inv n a b : ℕ) : ℕ := reduceOnce p (montMulLoop W p inv n a (limbsOf W n b) 0)

/-- `into_repr` (ark_ff, external; called at `crates/bls-crypto/src/bls/public.rs:26,59` and
`crates/bls-crypto/src/bls/signature.rs:83`) of a Montgomery form: no subtraction at the end. -/
def montIntoRepr (W p inv : ℕ) : ℕ → ℕ → ℕ
  | 0, r => r
  | n + 1, r => montIntoRepr W p inv n (montStep W p inv r)

/-- `from_repr` (ark_ff, external; called at `crates/bls-gadgets/src/y_to_bit.rs:131` and
`crates/bls-gadgets/src/hash_to_group.rs:284`), `r2` being the constant `R2`. -/
def montFromRepr (W p inv n r2 x : ℕ) : Option ℕ :=
  if x = 0 then some 0 else if x < p then some (montMul W p inv n x r2) else none

end Verif
