import Verif.Model.HashGadget
import Verif.Model.EpochCircuit

/-!
# Curve variables of the circuit, in coordinates

The circuit models of `Model/Gadgets`, `Model/EpochCircuit` and `Model/HashGadget` add points.  The
constraints (`ProjectiveVar`, ark_r1cs_std 0.1, external) are about homogeneous coordinates
`(x : y : z)` on `y ^ 2 z = x ^ 3 + b z ^ 3` and use formulas that are not correct on all inputs.
Here they are written out for `COEFF_A = 0`.
-/

namespace Verif

open WeierstrassCurve

/-- The values of the coordinates of a `ProjectiveVar` (ark_r1cs_std, external), built at
`crates/epoch-snark/src/gadgets/epochs.rs:274`. -/
@[ext]
structure ProjVar (F : Type*) where
  x : F
  y : F
  z : F
deriving DecidableEq

section
variable {F : Type*} [Field F]

/-- `ProjectiveVar::zero` (ark_r1cs_std, external), `crates/bls-gadgets/src/bls.rs:145,150,163`. -/
def ProjVar.zero : ProjVar F := ⟨0, 1, 0⟩

/-- The triple that is no point; it is not built by the code but can be assigned by a prover
(`crates/epoch-snark/src/gadgets/epoch_data.rs:194-198`). -/
def ProjVar.null : ProjVar F := ⟨0, 0, 0⟩

/-- What `new_variable_omit_prime_order_check` (ark_r1cs_std, external) enforces for a witness,
`crates/epoch-snark/src/gadgets/epoch_data.rs:194-198`,
`crates/bls-gadgets/src/hash_to_group.rs:266-297`: `z (y ^ 2 - b z ^ 2) = x x ^ 2`. -/
def ProjVar.OnCurve (b : F) (p : ProjVar F) : Prop :=
  p.z * (p.y ^ 2 - b * p.z ^ 2) = p.x * p.x ^ 2

/-- Addition of two variables (ark_r1cs_std, external; algorithm 1 of Renes, Costello and Batina,
https://eprint.iacr.org/2015/1060, with `a = 0`), `crates/bls-gadgets/src/bls.rs:151,167` and inside
`scalar_mul_le` at `crates/bls-gadgets/src/hash_to_group.rs:339`. -/
def circuitAdd (b : F) (p q : ProjVar F) : ProjVar F :=
  let threeB := 2 * b + b
  let xx := p.x * q.x
  let yy := p.y * q.y
  let zz := p.z * q.z
  let xyPairs := (p.x + p.y) * (q.x + q.y) - (xx + yy)
  let xzPairs := (p.x + p.z) * (q.x + q.z) - (xx + zz)
  let yzPairs := (p.y + p.z) * (q.y + q.z) - (yy + zz)
  let bzz3 := zz * threeB
  let yyMinus := yy - bzz3
  let yyPlus := yy + bzz3
  let xx3 := 2 * xx + xx
  let b3xz := xzPairs * threeB
  ⟨yyMinus * xyPairs - yzPairs * b3xz, yyPlus * yyMinus + xx3 * b3xz, yyPlus * yzPairs + xyPairs * xx3⟩

/-- `double_in_place` (ark_r1cs_std, external; algorithm 3 of Renes, Costello and Batina with
`a = 0`), inside `scalar_mul_le` at `crates/bls-gadgets/src/hash_to_group.rs:339`. -/
def circuitDouble (b : F) (p : ProjVar F) : ProjVar F :=
  let threeB := 2 * b + b
  let xx := p.x ^ 2
  let yy := p.y ^ 2
  let zz := p.z ^ 2
  let xy2 := 2 * (p.x * p.y)
  let xz2 := 2 * (p.x * p.z)
  let bzz3 := zz * threeB
  let yyMinus := yy - bzz3
  let yyPlus := yy + bzz3
  let yFrag := yyPlus * yyMinus
  let xFrag := yyMinus * xy2
  let bxz3 := xz2 * threeB
  let xx3 := 2 * xx + xx
  let yz2 := 2 * (p.y * p.z)
  ⟨xFrag - bxz3 * yz2, yFrag + xx3 * bxz3, 2 * (2 * (yz2 * yy))⟩

/-- `negate` (ark_r1cs_std, external), `crates/bls-gadgets/src/bls.rs:210`. -/
def circuitNeg (p : ProjVar F) : ProjVar F := ⟨p.x, -p.y, p.z⟩

/-- The sum of two variables in the circuit (ark_r1cs_std, external),
`crates/bls-gadgets/src/bls.rs:151,167`: the formulas, except that an operand which is the constant
zero may be dropped while the constraints are generated. -/
def CircuitSum (b : F) (p q r : ProjVar F) : Prop :=
  r = circuitAdd b p q ∨ (p = ProjVar.zero ∧ r = q) ∨ (q = ProjVar.zero ∧ r = p)

/-- `is_eq` (ark_r1cs_std, external), inside `conditional_enforce_not_equal` at
`crates/bls-gadgets/src/bls.rs:148`. -/
def circuitEq (p q : ProjVar F) : Prop :=
  (p.z = 0 ∧ q.z = 0) ∨ (p.x * q.z = q.x * p.z ∧ p.y * q.z = q.y * p.z)

/-- The loop of `enforce_aggregated_pubkeys`, `crates/bls-gadgets/src/bls.rs:146-152`, as a relation
between the keys with their bits, the aggregate so far and the result. -/
def AggregatedLoopVar (b : F) (padding : ProjVar F) :
    List (ProjVar F × Bool) → ProjVar F → ProjVar F → Prop
  | [], acc, out => out = acc
  | (pk, bit) :: rest, acc, out =>
    ¬ (circuitEq pk padding ∧ bit = true) ∧
    ∃ acc', CircuitSum b acc (if bit then pk else ProjVar.zero) acc' ∧
      AggregatedLoopVar b padding rest acc' out

/-- The loop of `enforce_aggregated_all_pubkeys`, `crates/bls-gadgets/src/bls.rs:164-168`. -/
def AggregatedAllVar (b : F) : List (ProjVar F) → ProjVar F → ProjVar F → Prop
  | [], acc, out => out = acc
  | pk :: rest, acc, out => ∃ acc', CircuitSum b acc pk acc' ∧ AggregatedAllVar b rest acc' out

/-- `scalar_mul_le` (ark_r1cs_std, external: double and add from the least significant bit, with
constant bits), called at `crates/bls-gadgets/src/hash_to_group.rs:339`. -/
def ScalarMulLe (b : F) : List Bool → ProjVar F → ProjVar F → ProjVar F → Prop
  | [], res, _, out => out = res
  | bit :: bits, res, multiple, out =>
    ∃ tmp, CircuitSum b res multiple tmp ∧
      ScalarMulLe b bits (if bit then tmp else res) (circuitDouble b multiple) out

/-- The point part of `to_affine` (ark_r1cs_std, external), inside `prepare_g1` and `prepare_g2` at
`crates/epoch-snark/src/gadgets/epochs.rs:251,259` and `crates/bls-gadgets/src/bls.rs:201,211`: the
flag for infinity and the affine coordinates, with the inverse as a witness. -/
def ToAffineC (p : ProjVar F) (infinity : Bool) (zInv : F) (out : F × F) : Prop :=
  (infinity = true ↔ p.z = 0) ∧ (infinity = false → p.z * zInv = 1) ∧
  out = if infinity then (0, 1) else (p.x * zInv, p.y * zInv)

end

/-- The bits of the cofactor, `crates/bls-gadgets/src/hash_to_group.rs:334-336`: `BitIteratorLE`
(ark_ff, external) over the two 64-bit limbs. -/
def cofactorBits : List Bool := (List.range 128).map G1_COFACTOR.testBit

/-- `scale_by_cofactor_g1`, `crates/bls-gadgets/src/hash_to_group.rs:326-341`, as a relation. -/
def ScaleByCofactorG1 (p out : ProjVar Fq) : Prop :=
  ScalarMulLe 1 cofactorBits ProjVar.zero p out

/-- The coordinates of a key, `crates/epoch-snark/src/gadgets/epoch_data.rs:194-198`. -/
def G2Var.coords (v : G2Var) : ProjVar Fq2 := ⟨v.x, v.y, v.z⟩

/-- The coordinates of a hashed point, `crates/bls-gadgets/src/hash_to_group.rs:266-297`. -/
def G1Var.coords (v : G1Var) : ProjVar Fq := ⟨v.x, v.y, v.z⟩

end Verif
