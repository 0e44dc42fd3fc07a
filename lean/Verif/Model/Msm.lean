import Verif.Model.Serialize
import Mathlib.Data.Nat.Log

/-!
# Multi-scalar multiplication

`VariableBaseMSM::multi_scalar_mul` (ark_ec, external), called at `crates/bls-crypto/src/bls/public.rs:61-64` and
`crates/bls-crypto/src/bls/signature.rs:85-88`: the bucket method of Pippenger.  The source of ark_ec is not in /repo;
this is the algorithm of the version that /repo depends on, as far as known here.  The windows, which the code processes
in parallel, are independent of each other.
-/

namespace Verif

/-- `ln_without_floats` (ark_ec, external; behind `crates/bls-crypto/src/bls/public.rs:61-64`): `log2` rounds up. -/
def lnWithoutFloats (a : ℕ) : ℕ := Nat.clog 2 a * 69 / 100

/-- The size of the windows (ark_ec, external; behind `crates/bls-crypto/src/bls/public.rs:61-64`). -/
def msmWindow (size : ℕ) : ℕ := if size < 32 then 3 else lnWithoutFloats size + 2

/-- `(0..num_bits).step_by(c)` (ark_ec, external; behind `crates/bls-crypto/src/bls/public.rs:61-64`). -/
def msmStarts (numBits c : ℕ) : List ℕ := (List.range' 0 ((numBits + c - 1) / c)).map fun i => i * c

section
variable {G : Type*} [AddCommGroup G]

/-- `buckets[i].add_assign_mixed(base)` (ark_ec, external; behind `crates/bls-crypto/src/bls/public.rs:61-64`): panics
out of range. -/
def addToBucket (buckets : List G) (i : ℕ) (base : G) : Outcome Unit (List G) :=
  match buckets[i]? with
  | none => .panic
  | some b => .ok (buckets.set i (b + base))

/-- The loop over scalars and bases for the window that starts at bit `w` (ark_ec, external; behind
`crates/bls-crypto/src/bls/public.rs:61-64`): a scalar one is added in the first window, the digit of any other is taken
from its lowest limb of 64 bits after a shift and chooses a bucket. -/
def msmScatter (c w : ℕ) : G → List G → List (ℕ × G) → Outcome Unit (G × List G)
  | res, buckets, [] => .ok (res, buckets)
  | res, buckets, (s, base) :: rest =>
    if s = 1 then msmScatter c w (if w = 0 then res + base else res) buckets rest
    else
      let d := s / 2 ^ w % 2 ^ 64 % 2 ^ c
      if d ≠ 0 then (addToBucket buckets (d - 1) base).bind fun buckets => msmScatter c w res buckets rest
      else msmScatter c w res buckets rest

/-- `running_sum += b; res += running_sum` over the reversed buckets (ark_ec, external; behind
`crates/bls-crypto/src/bls/public.rs:61-64`). -/
def msmSumBuckets (res : G) (buckets : List G) : G :=
  (buckets.reverse.foldl (fun (st : G × G) b => (st.1 + b, st.2 + (st.1 + b))) (0, res)).2

/-- One window (ark_ec, external; behind `crates/bls-crypto/src/bls/public.rs:61-64`). -/
def msmWindowSum (c : ℕ) (pairs : List (ℕ × G)) (w : ℕ) : Outcome Unit G :=
  (msmScatter c w 0 (List.replicate (2 ^ c - 1) 0) pairs).map fun st => msmSumBuckets st.1 st.2

/-- `lowest + rest.rev().fold(..)` with `c` doublings in each step (ark_ec, external; behind
`crates/bls-crypto/src/bls/public.rs:61-64`); `window_sums.first().unwrap()` panics without windows. -/
def msmCombine (c : ℕ) : List G → Outcome Unit G
  | [] => .panic
  | lowest :: rest => .ok (lowest + rest.reverse.foldl (fun total s => (fun t => t + t)^[c] (total + s)) 0)

/-- `multi_scalar_mul` (ark_ec, external; called at `crates/bls-crypto/src/bls/public.rs:61-64` and
`crates/bls-crypto/src/bls/signature.rs:85-88`) with scalars of `numBits` bits. -/
def pippenger (numBits : ℕ) (bases : List G) (scalars : List ℕ) : Outcome Unit G :=
  let size := min bases.length scalars.length
  let pairs := ((scalars.take size).zip (bases.take size)).filter fun p => p.1 ≠ 0
  let c := msmWindow size
  (Outcome.mapM (msmWindowSum c pairs) (msmStarts numBits c)).bind (msmCombine c)

end

end Verif
