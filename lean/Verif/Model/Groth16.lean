import Verif.Model.Bls
import Mathlib.LinearAlgebra.Lagrange
import Mathlib.RingTheory.RootsOfUnity.PrimitiveRoots

/-!
# Groth16

The proof system behind `crates/epoch-snark/src/api/{setup,prover,verifier}.rs`.  The implementation
is ark_groth16 (external): the definitions here follow its generator, prover and verifier step by step,
and cite the places that call them.  Fast Fourier transforms are written as interpolation and
evaluation, multiplication by several scalars as `multiScalarMul`.
-/

open Polynomial

namespace Verif

/-- The constraint system which `generate_constraints` of a circuit builds
(`crates/epoch-snark/src/gadgets/epochs.rs:82-312`; ark_relations, external): `k` public inputs after
the constant one, `w` witnesses and `m` constraints, each the product of two linear combinations and
its value. -/
structure R1cs (F : Type*) (k w m : ℕ) where
  a : Fin m → Fin (k + 1) ⊕ Fin w → F
  b : Fin m → Fin (k + 1) ⊕ Fin w → F
  c : Fin m → Fin (k + 1) ⊕ Fin w → F

/-- `EvaluationDomain` (ark_poly, external), chosen inside `generate_random_parameters`
(`crates/epoch-snark/src/api/setup.rs:42-43`): the powers of a root of unity, and the coset on which the
quotient is computed. -/
structure EvalDomain (F : Type*) where
  size : ℕ
  root : F
  shift : F

/-- The randomness of `generate_random_parameters`, `crates/epoch-snark/src/api/setup.rs:42-43`: four
scalars, the point at which polynomials are evaluated, and the two generators. -/
structure Trapdoor (F G1 G2 : Type*) where
  alpha : F
  beta : F
  gamma : F
  delta : F
  tau : F
  g1 : G1
  g2 : G2

/-- `VerifyingKey` (ark_groth16, external), `crates/epoch-snark/src/api/verifier.rs:24`. -/
structure GrothVk (G1 G2 : Type*) where
  alphaG1 : G1
  betaG2 : G2
  gammaG2 : G2
  deltaG2 : G2
  gammaAbcG1 : List G1

/-- `ProvingKey` (ark_groth16, external), `crates/epoch-snark/src/api/setup.rs:19-20`. -/
structure GrothPk (G1 G2 : Type*) where
  vk : GrothVk G1 G2
  betaG1 : G1
  deltaG1 : G1
  aQuery : List G1
  bG1Query : List G1
  bG2Query : List G2
  hQuery : List G1
  lQuery : List G1

/-- `Proof` (ark_groth16, external), `crates/epoch-snark/src/api/verifier.rs:27`. -/
@[ext] structure GrothProof (G1 G2 : Type*) where
  a : G1
  b : G2
  c : G1

section
variable {F : Type*} [Field F] {k w m : ℕ}

/-- The assignment of a circuit: the constant one, the public inputs, the witnesses
(ark_relations, external; `crates/epoch-snark/src/api/prover.rs:78`). -/
def fullAssignment (x : Fin k → F) (wit : Fin w → F) : Fin (k + 1) ⊕ Fin w → F :=
  Sum.elim (Fin.cons 1 x) wit

/-- The value of a linear combination, `evaluate_constraint` (ark_groth16, external;
`crates/epoch-snark/src/api/prover.rs:78`). -/
def linComb (row z : Fin (k + 1) ⊕ Fin w → F) : F := ∑ i, row i * z i

/-- `is_satisfied` (ark_relations, external), `crates/epoch-snark/src/api/prover.rs:78`: every
constraint holds. -/
def R1cs.Satisfied (M : R1cs F k w m) (z : Fin (k + 1) ⊕ Fin w → F) : Prop :=
  ∀ j, linComb (M.a j) z * linComb (M.b j) z = linComb (M.c j) z

/-- The points of the domain (ark_poly, external; `crates/epoch-snark/src/api/setup.rs:42-43`). -/
def EvalDomain.point (D : EvalDomain F) (j : Fin D.size) : F := D.root ^ (j : ℕ)

/-- The points of the coset (ark_poly, external; `crates/epoch-snark/src/api/prover.rs:78`). -/
def EvalDomain.cosetPoint (D : EvalDomain F) (j : Fin D.size) : F := D.shift * D.root ^ (j : ℕ)

/-- What a domain is chosen to be (ark_poly, external; `crates/epoch-snark/src/api/setup.rs:42-43`): the
root has the order of the domain, and the coset does not meet it. -/
structure EvalDomain.Valid (D : EvalDomain F) : Prop where
  root : IsPrimitiveRoot D.root D.size
  shift_ne : D.shift ≠ 0
  shift_pow : D.shift ^ D.size ≠ 1

/-- The rows of the first matrix on the domain: the constraints, one row for each public input, and
zeros (`instance_map_with_evaluation`, ark_groth16, external; `crates/epoch-snark/src/api/setup.rs:42-43`). -/
def R1cs.rowA (M : R1cs F k w m) (N : ℕ) (j : Fin N) (i : Fin (k + 1) ⊕ Fin w) : F :=
  if h : (j : ℕ) < m then M.a ⟨j, h⟩ i
  else match i with
    | .inl i => if (j : ℕ) = m + i then 1 else 0
    | .inr _ => 0

/-- The rows of the other two matrices: the constraints and zeros (the same function of ark_groth16,
external; `crates/epoch-snark/src/api/setup.rs:42-43`). -/
def padRows (rows : Fin m → Fin (k + 1) ⊕ Fin w → F) (N : ℕ) (j : Fin N)
    (i : Fin (k + 1) ⊕ Fin w) : F :=
  if h : (j : ℕ) < m then rows ⟨j, h⟩ i else 0

open Classical in
/-- The values at `t` of the polynomials of the variables, from the Lagrange coefficients
(`instance_map_with_evaluation`, ark_groth16, external; `crates/epoch-snark/src/api/setup.rs:42-43`). -/
noncomputable def qapAt (D : EvalDomain F) (rows : Fin D.size → Fin (k + 1) ⊕ Fin w → F) (t : F)
    (i : Fin (k + 1) ⊕ Fin w) : F :=
  ∑ j, (Lagrange.basis Finset.univ D.point j).eval t * rows j i

open Classical in
/-- The polynomial with the values of the linear combinations on the domain (`ifft_in_place`, ark_poly,
external; `crates/epoch-snark/src/api/prover.rs:78`). -/
noncomputable def rowPoly (D : EvalDomain F) (rows : Fin D.size → Fin (k + 1) ⊕ Fin w → F)
    (z : Fin (k + 1) ⊕ Fin w → F) : F[X] :=
  Lagrange.interpolate Finset.univ D.point fun j => linComb (rows j) z

open Classical in
/-- `witness_map` (ark_groth16, external; `crates/epoch-snark/src/api/prover.rs:78`): the polynomial with
the values of the quotient on the coset. -/
noncomputable def witnessMap (M : R1cs F k w m) (D : EvalDomain F)
    (z : Fin (k + 1) ⊕ Fin w → F) : F[X] :=
  let a := rowPoly D (M.rowA D.size) z
  let b := rowPoly D (padRows M.b D.size) z
  let c := rowPoly D (padRows M.c D.size) z
  Lagrange.interpolate Finset.univ D.cosetPoint fun j =>
    let p := D.cosetPoint j
    (a.eval p * b.eval p - c.eval p) / (p ^ D.size - 1)

end

section
variable {r : ℕ} [Fact r.Prime] {k w m : ℕ} {G1 G2 GT : Type*} [AddCommGroup G1]
  [Module (ZMod r) G1] [AddCommGroup G2] [Module (ZMod r) G2] [CommGroup GT] [DecidableEq GT]

/-- `β a_i + α b_i + c_i` (`generate_parameters`, ark_groth16, external;
`crates/epoch-snark/src/api/setup.rs:42-43`). -/
noncomputable def Trapdoor.abc (td : Trapdoor (ZMod r) G1 G2) (M : R1cs (ZMod r) k w m)
    (D : EvalDomain (ZMod r)) (i : Fin (k + 1) ⊕ Fin w) : ZMod r :=
  td.beta * qapAt D (M.rowA D.size) td.tau i + td.alpha * qapAt D (padRows M.b D.size) td.tau i +
    qapAt D (padRows M.c D.size) td.tau i

/-- A list with an entry for every variable, the public inputs first (ark_relations, external;
`crates/epoch-snark/src/api/setup.rs:42-43`). -/
def listVars {A : Type*} (f : Fin (k + 1) ⊕ Fin w → A) : List A :=
  List.ofFn (fun i => f (.inl i)) ++ List.ofFn fun i => f (.inr i)

/-- `generate_parameters` (ark_groth16, external) as called by `generate_random_parameters` at
`crates/epoch-snark/src/api/setup.rs:42-43`, on the constraint system of the circuit.  An error if the
domain is too small or if `γ` or `δ` has no inverse. -/
noncomputable def generateParameters (M : R1cs (ZMod r) k w m) (D : EvalDomain (ZMod r))
    (td : Trapdoor (ZMod r) G1 G2) : Outcome Unit (GrothPk G1 G2) :=
  if D.size < m + (k + 1) then .err ()
  else if td.gamma = 0 then .err ()
  else if td.delta = 0 then .err ()
  else .ok
    { vk :=
        { alphaG1 := td.alpha • td.g1
          betaG2 := td.beta • td.g2
          gammaG2 := td.gamma • td.g2
          deltaG2 := td.delta • td.g2
          gammaAbcG1 := List.ofFn fun i => (td.abc M D (.inl i) * td.gamma⁻¹) • td.g1 }
      betaG1 := td.beta • td.g1
      deltaG1 := td.delta • td.g1
      aQuery := listVars fun i => qapAt D (M.rowA D.size) td.tau i • td.g1
      bG1Query := listVars fun i => qapAt D (padRows M.b D.size) td.tau i • td.g1
      bG2Query := listVars fun i => qapAt D (padRows M.b D.size) td.tau i • td.g2
      hQuery := (List.range (D.size - 1)).map fun i =>
        ((td.tau ^ D.size - 1) * td.delta⁻¹ * td.tau ^ i) • td.g1
      lQuery := List.ofFn fun i => (td.abc M D (.inr i) * td.delta⁻¹) • td.g1 }

/-- `calculate_coeff` (ark_groth16, external; `crates/epoch-snark/src/api/prover.rs:78`): the first entry
of the query belongs to the constant one. -/
def calculateCoeff {G : Type*} [AddCommGroup G] [Module (ZMod r) G] (initial : G) (query : List G)
    (vkParam : G) (assignment : List (ZMod r)) : G :=
  initial + query.headD 0 + multiScalarMul query.tail assignment + vkParam

/-- `create_proof` (ark_groth16, external; `crates/epoch-snark/src/api/prover.rs:78`) with blinding factors
`rr` and `s`, on the constraint system and the assignment of the circuit. -/
noncomputable def createProof (M : R1cs (ZMod r) k w m) (D : EvalDomain (ZMod r))
    (pk : GrothPk G1 G2) (x : Fin k → ZMod r) (wit : Fin w → ZMod r) (rr s : ZMod r) :
    GrothProof G1 G2 :=
  let h := witnessMap M D (fullAssignment x wit)
  let hAcc := multiScalarMul pk.hQuery (List.ofFn fun i : Fin D.size => h.coeff i)
  let lAuxAcc := multiScalarMul pk.lQuery (List.ofFn wit)
  let assignment := List.ofFn x ++ List.ofFn wit
  let gA := calculateCoeff (rr • pk.deltaG1) pk.aQuery pk.vk.alphaG1 assignment
  let g1B := if rr = 0 then 0 else
    calculateCoeff (s • pk.deltaG1) pk.bG1Query pk.betaG1 assignment
  let g2B := calculateCoeff (s • pk.vk.deltaG2) pk.bG2Query pk.vk.betaG2 assignment
  { a := gA
    b := g2B
    c := s • gA + rr • g1B - s • rr • pk.deltaG1 + lAuxAcc + hAcc }

/-- `create_proof_no_zk`, called at `crates/epoch-snark/src/api/prover.rs:78` and `112`: no blinding
(ark_groth16, external). -/
noncomputable def createProofNoZk (M : R1cs (ZMod r) k w m) (D : EvalDomain (ZMod r))
    (pk : GrothPk G1 G2) (x : Fin k → ZMod r) (wit : Fin w → ZMod r) : GrothProof G1 G2 :=
  createProof M D pk x wit 0 0

/-- `prepare_inputs` (ark_groth16, external; `crates/epoch-snark/src/api/verifier.rs:35`). -/
def prepareInputs (vk : GrothVk G1 G2) (inputs : List (ZMod r)) : Outcome Unit G1 :=
  if inputs.length + 1 ≠ vk.gammaAbcG1.length then .err ()
  else .ok (vk.gammaAbcG1.headD 0 + multiScalarMul vk.gammaAbcG1.tail inputs)

/-- `verify_proof(&prepare_verifying_key(vk), proof, inputs)`,
`crates/epoch-snark/src/api/verifier.rs:35` (ark_groth16, external). -/
def verifyProof (P : Pairing r G1 G2 GT) (vk : GrothVk G1 G2) (proof : GrothProof G1 G2)
    (inputs : List (ZMod r)) : Outcome Unit Bool :=
  (prepareInputs vk inputs).map fun gIc =>
    decide (productOfPairings P [(proof.a, proof.b), (gIc, -vk.gammaG2), (proof.c, -vk.deltaG2)] =
      P.e vk.alphaG1 vk.betaG2)

end

end Verif
