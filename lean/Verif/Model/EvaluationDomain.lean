import Verif.Model.Groth16
import Mathlib.Data.Nat.Log

/-!
# The domains of the proof system

`GeneralEvaluationDomain::new` (ark_poly, external), which ark_groth16 calls for the setups of
`crates/epoch-snark/src/api/setup.rs:42-43` and the proofs of `crates/epoch-snark/src/api/prover.rs:78,112`.  Neither of
the two fields has a small subgroup in arkworks, so that the domain is always of radix two.
-/

namespace Verif

section

variable {p : ℕ}

/-- `get_root_of_unity` (ark_ff, external; behind `crates/epoch-snark/src/api/setup.rs:42-43`): the root of order
`2^s` that the field stores, squared down to order `2^j`. -/
def rootOfUnity (g : ZMod p) (s j : ℕ) : ZMod p := (g ^ ((p - 1) / 2 ^ s)) ^ 2 ^ (s - j)

/-- `Radix2EvaluationDomain::new(n)` (ark_poly, external; behind `crates/epoch-snark/src/api/setup.rs:42-43`) for a
field with generator `g` and two-adicity `s`: the next power of two, if the field has a root of this order. -/
def radix2Domain (g : ZMod p) (s n : ℕ) : Option (EvalDomain (ZMod p)) :=
  if s < Nat.clog 2 n then none
  else some ⟨2 ^ Nat.clog 2 n, rootOfUnity g s (Nat.clog 2 n), g⟩

/-- The domain that the setup and the prover work on (`crates/epoch-snark/src/api/setup.rs:42-43`).  Where arkworks
returns `PolynomialDegreeTooLarge`, this is an empty domain, with which `generateParameters` is an error. -/
def setupDomain (g : ZMod p) (s n : ℕ) : EvalDomain (ZMod p) := (radix2Domain g s n).getD ⟨0, 0, 0⟩

end

end Verif
