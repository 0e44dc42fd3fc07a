import Verif.Model.HashToCurve

/-!
# The square root of the field library

`SquareRootField::sqrt` for prime fields (ark_ff, external), which `get_point_from_x` calls
(`crates/bls-crypto/src/hash_to_curve/mod.rs:304`, and the copy of it in ark_ec behind line 151): the Legendre
symbol, then Tonelli and Shanks.  The source of ark_ff is not in /repo; this is the algorithm of the version that
/repo depends on, as far as known here.  The two `while` loops are given a number of rounds; running out of them is the
error.
-/

namespace Verif

section
variable {p : ℕ}

/-- `LegendreSymbol` (ark_ff, external; behind `crates/bls-crypto/src/hash_to_curve/mod.rs:304`). -/
inductive LegendreSymbol where
  | zero
  | quadraticResidue
  | quadraticNonResidue
  deriving DecidableEq, Repr

/-- `legendre` (ark_ff, external; behind `crates/bls-crypto/src/hash_to_curve/mod.rs:304`): the power to half of
`p - 1`, compared with zero and one. -/
def legendreSymbol (a : ZMod p) : LegendreSymbol :=
  let s := a ^ ((p - 1) / 2)
  if s = 0 then .zero else if s = 1 then .quadraticResidue else .quadraticNonResidue

/-- `while !b2k.is_one() { b2k.square_in_place(); k += 1 }` (ark_ff, external; behind
`crates/bls-crypto/src/hash_to_curve/mod.rs:304`). -/
def sqrtInner : ℕ → ZMod p → ℕ → Outcome Unit ℕ
  | 0, _, _ => .err ()
  | n + 1, b2k, k => if b2k = 1 then .ok k else sqrtInner n (b2k * b2k) (k + 1)

/-- `for _ in 0..j { w.square_in_place() }` (ark_ff, external; behind
`crates/bls-crypto/src/hash_to_curve/mod.rs:304`). -/
def squareTimes : ℕ → ZMod p → ZMod p
  | 0, w => w
  | j + 1, w => squareTimes j (w * w)

/-- `while !b.is_one() { .. }` (ark_ff, external; behind `crates/bls-crypto/src/hash_to_curve/mod.rs:304`).  The
subtraction `v - k - 1` panics if it underflows. -/
def sqrtLoop (inner : ℕ) : ℕ → (z b x : ZMod p) → (v : ℕ) → Outcome Unit (ZMod p)
  | 0, _, _, _, _ => .err ()
  | n + 1, z, b, x, v =>
    if b = 1 then .ok x
    else
      (sqrtInner inner b 0).bind fun k =>
        if v < k + 1 then .panic
        else
          let w := squareTimes (v - k - 1) z
          let z := w * w
          sqrtLoop inner n z (b * z) (x * w) k

/-- `sqrt` (ark_ff, external; called at `crates/bls-crypto/src/hash_to_curve/mod.rs:304`) of a field with generator
`g` and two-adicity `s`, with at most `rounds` rounds of each loop. -/
def arkSqrt (g : ZMod p) (s rounds : ℕ) (a : ZMod p) : Outcome Unit (Option (ZMod p)) :=
  match legendreSymbol a with
  | .zero => .ok (some a)
  | .quadraticNonResidue => .ok none
  | .quadraticResidue =>
    let t := (p - 1) / 2 ^ s
    let z := g ^ t
    let w := a ^ ((t - 1) / 2)
    let x := w * a
    let b := x * w
    (sqrtLoop rounds rounds z b x s).map fun x => if x * x = a then some x else none

end

/-- The result of a computation that has ended (not code from /repo; the value used at
`crates/bls-crypto/src/hash_to_curve/mod.rs:304`). -/
def Outcome.ended {α : Type*} : Outcome Unit (Option α) → Option α
  | .ok r => r
  | _ => none

/-- The square root of the base field of G1: generator 15 and two-adicity 46 (ark_bls12_377, external; used at
`crates/bls-crypto/src/hash_to_curve/mod.rs:304`). -/
def fqSqrt (a : Fq) : Option Fq := (arkSqrt 15 46 47 a).ended

end Verif
