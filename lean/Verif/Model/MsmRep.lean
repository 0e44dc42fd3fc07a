import Verif.Model.Msm
import Verif.Model.Normalize
import Verif.Model.Montgomery
import Verif.Lemmas.Primes

/-!
# The bucket method on representations

The same loops as in `Model/Msm`, with the Jacobian formulas that ark_ec (external) runs in them instead of the operations
of the group: mixed additions of the affine bases, additions of the buckets, doublings between windows.
-/

namespace Verif

section
variable {F : Type*} [Field F] [DecidableEq F]

/-- `buckets[i].add_assign_mixed(base)` (ark_ec, external; behind `crates/bls-crypto/src/bls/public.rs:61-64`): panics
out of range. -/
def addToBucketRep (buckets : List (JacRep F)) (i : ℕ) (base : AffinePoint F) : Outcome Unit (List (JacRep F)) :=
  match buckets[i]? with
  | none => .panic
  | some b => .ok (buckets.set i (arkAddMixed b base))

/-- The loop over scalars and bases of one window (ark_ec, external; behind
`crates/bls-crypto/src/bls/public.rs:61-64`), see `msmScatter`. -/
def msmScatterRep (c w : ℕ) : JacRep F → List (JacRep F) → List (ℕ × AffinePoint F) →
    Outcome Unit (JacRep F × List (JacRep F))
  | res, buckets, [] => .ok (res, buckets)
  | res, buckets, (s, base) :: rest =>
    if s = 1 then msmScatterRep c w (if w = 0 then arkAddMixed res base else res) buckets rest
    else
      let d := s / 2 ^ w % 2 ^ 64 % 2 ^ c
      if d ≠ 0 then (addToBucketRep buckets (d - 1) base).bind fun buckets => msmScatterRep c w res buckets rest
      else msmScatterRep c w res buckets rest

/-- `running_sum += b; res += running_sum` over the reversed buckets (ark_ec, external; behind
`crates/bls-crypto/src/bls/public.rs:61-64`). -/
def msmSumBucketsRep (res : JacRep F) (buckets : List (JacRep F)) : JacRep F :=
  (buckets.reverse.foldl (fun (st : JacRep F × JacRep F) b => (arkAdd st.1 b, arkAdd st.2 (arkAdd st.1 b)))
    (arkZero, res)).2

/-- One window (ark_ec, external; behind `crates/bls-crypto/src/bls/public.rs:61-64`). -/
def msmWindowSumRep (c : ℕ) (pairs : List (ℕ × AffinePoint F)) (w : ℕ) : Outcome Unit (JacRep F) :=
  (msmScatterRep c w arkZero (List.replicate (2 ^ c - 1) arkZero) pairs).map fun st => msmSumBucketsRep st.1 st.2

/-- `lowest + rest.rev().fold(..)` with `c` doublings in each step (ark_ec, external; behind
`crates/bls-crypto/src/bls/public.rs:61-64`); `window_sums.first().unwrap()` panics without windows. -/
def msmCombineRep (c : ℕ) : List (JacRep F) → Outcome Unit (JacRep F)
  | [] => .panic
  | lowest :: rest =>
    .ok (arkAdd lowest (rest.reverse.foldl (fun total s => arkDouble^[c] (arkAdd total s)) arkZero))

/-- `multi_scalar_mul` (ark_ec, external; called at `crates/bls-crypto/src/bls/public.rs:61-64` and
`crates/bls-crypto/src/bls/signature.rs:85-88`) with scalars of `numBits` bits. -/
def pippengerRep (numBits : ℕ) (bases : List (AffinePoint F)) (scalars : List ℕ) : Outcome Unit (JacRep F) :=
  let size := min bases.length scalars.length
  let pairs := ((scalars.take size).zip (bases.take size)).filter fun p => p.1 ≠ 0
  let c := msmWindow size
  (Outcome.mapM (msmWindowSumRep c pairs) (msmStarts numBits c)).bind (msmCombineRep c)

/-- `PublicKey::batch` and `Signature::batch`, `crates/bls-crypto/src/bls/public.rs:51-65` and
`crates/bls-crypto/src/bls/signature.rs:76-90`, from representations to a representation; the exponents of the scalar
field (253 bits) are given by their Montgomery forms of four limbs, the long number is the constant `INV`. -/
def batchRep (points : List (JacRep F)) (forms : List ℕ) : Outcome Unit (Option (JacRep F)) :=
  if points.length ≠ forms.length then .ok none
  else
    (batchNormalization points).bind fun bases =>
      (pippengerRep 253 bases (forms.map (montIntoRepr (2 ^ 64) FR_MODULUS 725501752471715839 4))).map some

end

end Verif
