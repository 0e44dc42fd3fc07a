import Verif.Model.Synthesis
import Verif.Model.Groth16

/-!
# The proof system on the constraints of the gadgets

`generate_random_parameters` and `create_proof` (ark_groth16, external) run `generate_constraints` of a
circuit, in setup mode and with values, and read the matrices off the constraint system
(`crates/bls-gadgets/src/bitmap.rs:117-143`, `crates/bls-snark-sys/src/snark/epoch_block.rs:289-316`).
Here they do so for the programs of `Model/Synthesis.lean`.  Simplification: `create_proof` asserts that
the system is satisfied in debug builds only; this is left out.
-/

namespace Verif

/-- The variable of a column of the matrices (`get_index_unchecked`, ark_relations, external), behind
`crates/bls-gadgets/src/bitmap.rs:123,140`: the constant one, the public inputs, the witnesses. -/
def columnVar {k w : ℕ} : Fin (k + 1) ⊕ Fin w → R1Var
  | .inl i => if (i : ℕ) = 0 then .one else .inst (i - 1)
  | .inr i => .wit i

section

variable {r : ℕ}

/-- A row of a matrix: the coefficients of a linear combination, added up per variable (`make_row`,
ark_relations, external), behind `crates/bls-gadgets/src/bitmap.rs:123,140`. -/
def rowOf {k w : ℕ} (l : LinComb r) (i : Fin (k + 1) ⊕ Fin w) : ZMod r :=
  ((l.filter fun t => t.2 = columnVar i).map Prod.fst).sum

/-- The matrices of a list of constraints (`to_matrices`, ark_relations, external), behind
`crates/bls-gadgets/src/bitmap.rs:123,140`. -/
def matricesOf (k w : ℕ) (ks : List (R1Constraint r)) : R1cs (ZMod r) k w ks.length :=
  { a := fun j => rowOf ks[j].a
    b := fun j => rowOf ks[j].b
    c := fun j => rowOf ks[j].c }

/-- The matrices of a constraint system (`to_matrices`, ark_relations, external), behind
`crates/bls-gadgets/src/bitmap.rs:123,140`. -/
def ConstraintSystem.matrices (cs : ConstraintSystem r) :
    R1cs (ZMod r) cs.numInst cs.numWit cs.constraints.length :=
  matricesOf cs.numInst cs.numWit cs.constraints

/-- The values of the public inputs (`instance_assignment`, ark_relations, external), behind
`crates/bls-gadgets/src/bitmap.rs:140`. -/
def ConstraintSystem.inputs (cs : ConstraintSystem r) : Fin cs.numInst → ZMod r :=
  fun i => cs.instVals.getD i 0

/-- The values of the witnesses (`witness_assignment`, ark_relations, external), behind
`crates/bls-gadgets/src/bitmap.rs:140`. -/
def ConstraintSystem.witnesses (cs : ConstraintSystem r) : Fin cs.numWit → ZMod r :=
  fun i => cs.witVals.getD i 0

/-- The domain has at least a point for every constraint, public input and the constant one
(ark_groth16, external), behind `crates/bls-gadgets/src/bitmap.rs:123`. -/
def ConstraintSystem.domainSize (cs : ConstraintSystem r) : ℕ := cs.constraints.length + (cs.numInst + 1)

variable [Fact r.Prime] {G1 G2 : Type*} [AddCommGroup G1] [Module (ZMod r) G1] [AddCommGroup G2]
  [Module (ZMod r) G2]

/-- `generate_random_parameters` on a circuit (ark_groth16, external),
`crates/bls-gadgets/src/bitmap.rs:117-124`, `crates/bls-snark-sys/src/snark/epoch_block.rs:313-314`:
the constraints are generated in setup mode.  `domain` gives the domain for a size (ark_poly, external),
`td` is the randomness. -/
noncomputable def circuitSetup {α : Type} (g : Synth r α) (domain : ℕ → EvalDomain (ZMod r))
    (td : Trapdoor (ZMod r) G1 G2) : Outcome Unit (GrothPk G1 G2) :=
  match g (.new r true) with
  | .ok s => generateParameters s.2.matrices (domain s.2.domainSize) td
  | .err _ => .err ()
  | .panic => .panic

/-- `create_random_proof` on a circuit (ark_groth16, external), `crates/bls-gadgets/src/bitmap.rs:140`,
and with `rr = s = 0` `create_proof_no_zk`, `crates/bls-snark-sys/src/snark/epoch_block.rs:315-316`: the
constraints are generated with values. -/
noncomputable def circuitProve {α : Type} (g : Synth r α) (domain : ℕ → EvalDomain (ZMod r))
    (pk : GrothPk G1 G2) (rr s : ZMod r) : Outcome Unit (GrothProof G1 G2) :=
  match g (.new r false) with
  | .ok t => .ok (createProof t.2.matrices (domain t.2.domainSize) pk t.2.inputs t.2.witnesses rr s)
  | .err _ => .err ()
  | .panic => .panic

end

end Verif
