import Verif.Basic
import Mathlib.Data.ZMod.Basic

/-!
# The inverse of the field library

`Field::inverse` for prime fields (ark_ff, external), which the gadgets call at `crates/bls-gadgets/src/y_to_bit.rs:104`:
the binary Euclidean algorithm on the Montgomery form.  The source of ark_ff is not in /repo; this is the algorithm of
the version that /repo depends on, as far as known here.  The `while` loops are given a number of rounds; running out of
them is the error.  Numbers are unbounded here: in the code `b + p` fits into the limbs, as the modulus has spare bits.
-/

namespace Verif

/-- Half of a residue (ark_ff, external; behind `crates/bls-gadgets/src/y_to_bit.rs:104`): the modulus is added to odd
ones first. -/
def halveMod (p b : ℕ) : ℕ := if b % 2 = 0 then b / 2 else (b + p) / 2

/-- `while u.is_even() { u.div2(); .. }` (ark_ff, external; behind `crates/bls-gadgets/src/y_to_bit.rs:104`). -/
def stripEven (p : ℕ) : ℕ → ℕ → ℕ → Outcome Unit (ℕ × ℕ)
  | 0, _, _ => .err ()
  | n + 1, u, b => if u % 2 = 0 then stripEven p n (u / 2) (halveMod p b) else .ok (u, b)

/-- `sub_assign` of residues (ark_ff, external; behind `crates/bls-gadgets/src/y_to_bit.rs:104`). -/
def subResidue (p b c : ℕ) : ℕ := if b < c then b + p - c else b - c

/-- `while u != one && v != one { .. }` (ark_ff, external; behind `crates/bls-gadgets/src/y_to_bit.rs:104`). -/
def inverseLoop (p inner : ℕ) : ℕ → (u v b c : ℕ) → Outcome Unit ℕ
  | 0, _, _, _, _ => .err ()
  | n + 1, u, v, b, c =>
    if u = 1 then .ok b
    else if v = 1 then .ok c
    else
      (stripEven p inner u b).bind fun ub =>
        (stripEven p inner v c).bind fun vc =>
          if vc.1 < ub.1 then inverseLoop p inner n (ub.1 - vc.1) vc.1 (subResidue p ub.2 vc.2) vc.2
          else inverseLoop p inner n ub.1 (vc.1 - ub.1) ub.2 (subResidue p vc.2 ub.2)

/-- `inverse` (ark_ff, external; called at `crates/bls-gadgets/src/y_to_bit.rs:104`) of the element with Montgomery form
`a`, `k` being the square of the Montgomery constant. -/
def arkInverse (p k rounds a : ℕ) : Outcome Unit (Option ℕ) :=
  if a = 0 then .ok none else (inverseLoop p rounds rounds a p k 0).map some

/-- `self.value()?.inverse().unwrap_or_else(F::zero)`, `crates/bls-gadgets/src/y_to_bit.rs:104`, on Montgomery forms. -/
def isEqZeroInverse (p k rounds a : ℕ) : Outcome Unit ℕ := (arkInverse p k rounds a).map fun o => o.getD 0

end Verif
