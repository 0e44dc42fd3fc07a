import Verif.Model.EpochCircuit

/-!
# Synthesis of the gadgets into rank-1 constraints

`Model/Gadgets.lean` gives the meaning of each gadget as a predicate.  Here the gadgets are the
programs they are in the code: they allocate variables in a constraint system, compute the values of
the witnesses when the system is not in setup mode, and emit constraints
`⟨a, z⟩ * ⟨b, z⟩ = ⟨c, z⟩`.

The constraint system and the operations of `FpVar` and `Boolean` belong to ark_relations and
ark_r1cs_std (external, not in /repo).  They are written out here as those crates define them, down to
the number of constraints, which the tests of /repo assert (`y_to_bit.rs:211,251`).  Simplifications:
a linear combination is kept inline instead of behind an index (`SymbolicLc`); the value cached in an
allocated variable is read back from the assignment of the system.
-/

namespace Verif

/-- `Variable` (ark_relations, external), used at `crates/bls-gadgets/src/y_to_bit.rs:80,114,151`. -/
inductive R1Var where
  | one
  | inst (i : ℕ)
  | wit (i : ℕ)
  deriving DecidableEq

/-- `LinearCombination` (ark_relations, external), used at `crates/bls-gadgets/src/bitmap.rs:35,45-47`. -/
abbrev LinComb (p : ℕ) := List (ZMod p × R1Var)

/-- The three linear combinations of `enforce_constraint` (ark_relations, external), used at
`crates/bls-gadgets/src/y_to_bit.rs:79-83`. -/
structure R1Constraint (p : ℕ) where
  a : LinComb p
  b : LinComb p
  c : LinComb p

/-- `ConstraintSystem` (ark_relations, external), used at `crates/bls-gadgets/src/bitmap.rs:32`: the
mode, the numbers of variables, the assignment (empty in setup mode) and the constraints.  `numInst`
does not count the constant one. -/
structure ConstraintSystem (p : ℕ) where
  setup : Bool
  numInst : ℕ
  numWit : ℕ
  instVals : List (ZMod p)
  witVals : List (ZMod p)
  constraints : List (R1Constraint p)

/-- `ConstraintSystem::new`, `crates/bls-gadgets/src/bitmap.rs:136`, in either mode. -/
def ConstraintSystem.new (p : ℕ) (setup : Bool) : ConstraintSystem p :=
  { setup := setup, numInst := 0, numWit := 0, instVals := [], witVals := [], constraints := [] }

/-- The errors of synthesis met here (`SynthesisError`, ark_relations, external),
`crates/epoch-snark/src/gadgets/pack.rs:32`. -/
inductive SynthErr where
  | assignmentMissing
  | missingCS
  deriving DecidableEq

section

variable {p : ℕ}

/-- Value of a linear combination under an assignment of the variables (`assigned_value`,
ark_relations, external), read at `crates/bls-gadgets/src/y_to_bit.rs:95`. -/
def evalLc (ρ : R1Var → ZMod p) (l : LinComb p) : ZMod p := (l.map fun t => t.1 * ρ t.2).sum

/-- One constraint holds (`is_satisfied`, ark_relations, external),
`crates/bls-gadgets/src/bitmap.rs:139`. -/
def R1Constraint.Holds (ρ : R1Var → ZMod p) (k : R1Constraint p) : Prop :=
  evalLc ρ k.a * evalLc ρ k.b = evalLc ρ k.c

/-- All constraints hold (`is_satisfied`, ark_relations, external),
`crates/bls-gadgets/src/bitmap.rs:139`. -/
def ConstraintSystem.Sat (cs : ConstraintSystem p) (ρ : R1Var → ZMod p) : Prop :=
  ∀ k ∈ cs.constraints, k.Holds ρ

/-- The assignment of a constraint system (`instance_assignment`, `witness_assignment`, ark_relations,
external), `crates/bls-gadgets/src/bitmap.rs:139`. -/
def ConstraintSystem.rho (cs : ConstraintSystem p) : R1Var → ZMod p
  | .one => 1
  | .inst i => cs.instVals.getD i 0
  | .wit i => cs.witVals.getD i 0

/-- A fallible program building a constraint system: every gadget of `crates/bls-gadgets/src` takes the
system by reference and returns a `Result` (`crates/bls-gadgets/src/y_to_bit.rs:25,30,32`). -/
def Synth (p : ℕ) (α : Type) : Type :=
  ConstraintSystem p → Outcome SynthErr (α × ConstraintSystem p)

/-- Nothing emitted (`Ok(x)`, `crates/bls-gadgets/src/y_to_bit.rs:124`). -/
def Synth.pure {α : Type} (x : α) : Synth p α := fun cs => .ok (x, cs)

/-- The `?` operator between two steps, `crates/bls-gadgets/src/y_to_bit.rs:63-64`. -/
def Synth.bind {α β : Type} (g : Synth p α) (f : α → Synth p β) : Synth p β :=
  fun cs => (g cs).bind fun r => f r.1 r.2

/-- An error returned, `crates/epoch-snark/src/gadgets/pack.rs:32`. -/
def Synth.fail {α : Type} (e : SynthErr) : Synth p α := fun _ => .err e

/-- A failed assertion or an index out of range, `crates/epoch-snark/src/gadgets/pack.rs:45`. -/
def Synth.panic {α : Type} : Synth p α := fun _ => .panic

instance synthMonad : Monad (Synth p) where
  pure := Synth.pure
  bind := Synth.bind

/-- A loop collecting results, `crates/bls-gadgets/src/bitmap.rs:106-110`. -/
def Synth.mapM {α β : Type} (f : α → Synth p β) : List α → Synth p (List β)
  | [] => Synth.pure []
  | a :: as => do
    let b ← f a
    let bs ← Synth.mapM f as
    Synth.pure (b :: bs)

/-- A loop without results, `crates/epoch-snark/src/gadgets/pack.rs:44-46`. -/
def Synth.forM {α : Type} (f : α → Synth p Unit) : List α → Synth p Unit
  | [] => Synth.pure ()
  | a :: as => do
    f a
    Synth.forM f as

/-- `new_witness_variable` (ark_relations, external), behind `FpVar::new_witness` at
`crates/bls-gadgets/src/y_to_bit.rs:103,137`: in setup mode the closure is not called. -/
def newWitness (f : ConstraintSystem p → Outcome SynthErr (ZMod p)) : Synth p R1Var := fun cs =>
  if cs.setup then .ok (.wit cs.numWit, { cs with numWit := cs.numWit + 1 })
  else (f cs).map fun v =>
    (.wit cs.numWit, { cs with numWit := cs.numWit + 1, witVals := cs.witVals ++ [v] })

/-- `new_input_variable` (ark_relations, external), behind `FpVar::new_input` at
`crates/epoch-snark/src/gadgets/pack.rs:26`. -/
def newInput (f : ConstraintSystem p → Outcome SynthErr (ZMod p)) : Synth p R1Var := fun cs =>
  if cs.setup then .ok (.inst cs.numInst, { cs with numInst := cs.numInst + 1 })
  else (f cs).map fun v =>
    (.inst cs.numInst, { cs with numInst := cs.numInst + 1, instVals := cs.instVals ++ [v] })

/-- `enforce_constraint` (ark_relations, external), `crates/bls-gadgets/src/y_to_bit.rs:79`. -/
def enforce (a b c : LinComb p) : Synth p Unit := fun cs =>
  .ok ((), { cs with constraints := cs.constraints ++ [⟨a, b, c⟩] })

/-- `FpVar::value` of an allocated variable (ark_r1cs_std, external),
`crates/bls-gadgets/src/y_to_bit.rs:95`: missing in setup mode. -/
def lcValue (l : LinComb p) (cs : ConstraintSystem p) : Outcome SynthErr (ZMod p) :=
  if cs.setup then .err .assignmentMissing else .ok (evalLc cs.rho l)

/-- A variable as a linear combination (`LinearCombination::from`, `lc!() + v`),
`crates/bls-gadgets/src/y_to_bit.rs:109,153`. -/
def lcVar (v : R1Var) : LinComb p := [(1, v)]

/-- Product of a linear combination and a constant, `crates/bls-gadgets/src/y_to_bit.rs:152`. -/
def lcScale (k : ZMod p) (l : LinComb p) : LinComb p := l.map fun t => (k * t.1, t.2)

/-- Difference of two linear combinations, `crates/bls-gadgets/src/y_to_bit.rs:80`. -/
def lcSub (l m : LinComb p) : LinComb p := l ++ lcScale (-1) m

/-- `FpVar` (ark_r1cs_std, external), matched at `crates/bls-gadgets/src/y_to_bit.rs:92-94,132-134`. -/
inductive FpV (p : ℕ) where
  | constant (v : ZMod p)
  | var (l : LinComb p)

/-- `FpVar::value` (ark_r1cs_std, external), `crates/bls-gadgets/src/y_to_bit.rs:54-55`. -/
def FpV.value (x : FpV p) (cs : ConstraintSystem p) : Outcome SynthErr (ZMod p) :=
  match x with
  | .constant v => .ok v
  | .var l => lcValue l cs

/-- `Boolean` (ark_r1cs_std, external), used at `crates/bls-gadgets/src/y_to_bit.rs:49`: a constant, an
allocated bit or the negation of one. -/
inductive BoolV where
  | constant (b : Bool)
  | is (v : R1Var)
  | not (v : R1Var)

/-- `Boolean::lc` (ark_r1cs_std, external), `crates/bls-gadgets/src/y_to_bit.rs:80-82`. -/
def BoolV.lc : BoolV → LinComb p
  | .constant b => if b then lcVar .one else []
  | .is v => lcVar v
  | .not v => lcSub (lcVar .one) (lcVar v)

/-- `Boolean::value` (ark_r1cs_std, external), `crates/bls-gadgets/src/bitmap.rs:51`. -/
def BoolV.value (p : ℕ) (b : BoolV) (cs : ConstraintSystem p) : Outcome SynthErr Bool :=
  match b with
  | .constant b => .ok b
  | _ => (lcValue b.lc cs).map fun v => decide (v = 1)

/-- `Boolean::not` (ark_r1cs_std, external), inside the comparison used at
`crates/bls-gadgets/src/y_to_bit.rs:157`. -/
def BoolV.neg : BoolV → BoolV
  | .constant b => .constant (!b)
  | .is v => .not v
  | .not v => .is v

/-- `Boolean::new_witness` (ark_r1cs_std, external), `crates/bls-gadgets/src/y_to_bit.rs:49,95,135`: a
witness and the constraint `(1 - b) * b = 0`. -/
def boolWitness (f : ConstraintSystem p → Outcome SynthErr Bool) : Synth p BoolV := do
  let v ← newWitness fun cs => (f cs).map bit
  enforce (lcSub (lcVar .one) (lcVar v)) (lcVar v) []
  Synth.pure (.is v)

/-- `Boolean::and` (ark_r1cs_std, external), `crates/bls-gadgets/src/y_to_bit.rs:77`: no constraint if
one side is constant, otherwise a new variable `r` with `a * b = r`.  The variants `and`, `and_not` and
`nor` of the crate differ in the linear combinations only. -/
def boolAnd (a b : BoolV) : Synth p BoolV :=
  match a, b with
  | .constant false, _ => Synth.pure (.constant false)
  | .constant true, x => Synth.pure x
  | _, .constant false => Synth.pure (.constant false)
  | x, .constant true => Synth.pure x
  | a, b => do
    let v ← newWitness fun cs =>
      (a.value p cs).bind fun x => (b.value p cs).map fun y => bit (x && y)
    enforce a.lc b.lc (lcVar v)
    Synth.pure (.is v)

/-- `Boolean::or` (ark_r1cs_std, external), inside the comparison used at
`crates/bls-gadgets/src/y_to_bit.rs:157`, as `¬(¬a ∧ ¬b)`; it is only met there with a constant on the
left, which costs nothing. -/
def boolOr (a b : BoolV) : Synth p BoolV :=
  match a, b with
  | .constant false, x => Synth.pure x
  | .constant true, _ => Synth.pure (.constant true)
  | x, .constant false => Synth.pure x
  | _, .constant true => Synth.pure (.constant true)
  | a, b => do
    let r ← boolAnd a.neg b.neg
    Synth.pure r.neg

/-- `Boolean::kary_and` (ark_r1cs_std, external), inside the comparison used at
`crates/bls-gadgets/src/y_to_bit.rs:157`: a fold from the first bit. -/
def karyAnd (first : BoolV) : List BoolV → Synth p BoolV
  | [] => Synth.pure first
  | b :: bs => do
    let r ← boolAnd first b
    karyAnd r bs

/-- `Boolean::enforce_kary_nand` on two bits (ark_r1cs_std, external), inside the comparison used at
`crates/bls-gadgets/src/y_to_bit.rs:157`. -/
def enforceNand (a b : BoolV) : Synth p Unit := do
  let r ← boolAnd a b
  match r with
  | .constant true => Synth.fail .assignmentMissing
  | .constant false => Synth.pure ()
  | r => enforce r.lc (lcVar .one) []

/-- `enforce_equal` of two bits (ark_r1cs_std, external), `crates/epoch-snark/src/gadgets/pack.rs:45`:
two constants are compared at once, otherwise the difference is zero. -/
def boolEnforceEqual (a b : BoolV) : Synth p Unit :=
  match a, b with
  | .constant x, .constant y => if x = y then Synth.pure () else Synth.fail .assignmentMissing
  | a, b => enforce (lcSub a.lc b.lc) (lcVar .one) []

/-- Number of bits of a number, `Fp::MODULUS_BITS` at `crates/epoch-snark/src/gadgets/pack.rs:45`. -/
def bitLength (n : ℕ) : ℕ := if n = 0 then 0 else n.log2 + 1

/-- `BitIteratorBE::without_leading_zeros` (ark_ff, external), inside the comparison used at
`crates/bls-gadgets/src/y_to_bit.rs:157`. -/
def natBitsBe (n : ℕ) : List Bool := ((List.range (bitLength n)).map n.testBit).reverse

/-- The loop over pairs of a bit of the bound and a bit of the number, most significant first, of
`enforce_smaller_or_equal_than_le` (ark_r1cs_std, external), used at
`crates/bls-gadgets/src/y_to_bit.rs:157`.  `lastRun` is set while the number agrees with the bound up to
the end of the last run of ones; `currentRun` are the bits of the number since. -/
def smallerLoop : List (Bool × BoolV) → BoolV → List BoolV → Synth p (List BoolV)
  | [], _, currentRun => Synth.pure currentRun
  | (true, a) :: rest, lastRun, currentRun => smallerLoop rest lastRun (currentRun ++ [a])
  | (false, a) :: rest, lastRun, [] => do
    enforceNand lastRun a
    smallerLoop rest lastRun []
  | (false, a) :: rest, lastRun, c :: cs => do
    let run ← karyAnd c (cs ++ [lastRun])
    enforceNand run a
    smallerLoop rest run []

/-- The bits above the bound are or'ed, `enforce_smaller_or_equal_than_le` (ark_r1cs_std, external),
used at `crates/bls-gadgets/src/y_to_bit.rs:157`. -/
def orAll (acc : BoolV) : List BoolV → Synth p BoolV
  | [] => Synth.pure acc
  | b :: bs => do
    let r ← boolOr acc b
    orAll r bs

/-- `Boolean::enforce_smaller_or_equal_than_le` (ark_r1cs_std, external), used at
`crates/bls-gadgets/src/y_to_bit.rs:157`: bits least significant first.  The iterator must be exhausted
at the end, or an assertion fails (fewer bits than the bound simply end the loop). -/
def enforceSmallerOrEqualLe (bits : List BoolV) (bound : ℕ) : Synth p (List BoolV) := do
  let n := bitLength bound
  if n < bits.length then do
    let r ← orAll (.constant false) (bits.drop n)
    boolEnforceEqual r (.constant false)
    smallerLoop ((natBitsBe bound).zip (bits.take n).reverse) (.constant true) []
  else
    smallerLoop ((natBitsBe bound).zip bits.reverse) (.constant true) []

/-- The linear combination of bits and powers of two of `to_non_unique_bits_le` (ark_r1cs_std,
external), used at `crates/bls-gadgets/src/y_to_bit.rs:157`. -/
def packLc (coeff : ZMod p) : List BoolV → LinComb p
  | [] => []
  | b :: bs => lcScale coeff b.lc ++ packLc (coeff + coeff) bs

/-- `AllocatedFp::to_non_unique_bits_le` (ark_r1cs_std, external), used at
`crates/bls-gadgets/src/y_to_bit.rs:157`: one bit per bit of the modulus, least significant first, and one
constraint `0 * 0 = Σ 2^i b_i - x`. -/
def toNonUniqueBitsLe (x : LinComb p) : Synth p (List BoolV) := do
  let bits ← Synth.mapM (fun i => boolWitness fun cs => (lcValue x cs).map fun v => v.val.testBit i)
    (List.range (bitLength p))
  enforce [] [] (lcSub (packLc 1 bits) x)
  Synth.pure bits

/-- `Boolean::enforce_in_field_le` (ark_r1cs_std, external), behind `to_bits_be` at
`crates/epoch-snark/src/gadgets/pack.rs:42`: at most the modulus minus one; the final run is empty, or an
assertion fails. -/
def enforceInFieldLe (bits : List BoolV) : Synth p Unit := do
  let run ← enforceSmallerOrEqualLe bits (p - 1)
  if run.isEmpty then Synth.pure () else Synth.panic

/-- `AllocatedFp::to_bits_le` (ark_r1cs_std, external), behind `to_bits_be` at
`crates/epoch-snark/src/gadgets/pack.rs:42`. -/
def toBitsLe (x : LinComb p) : Synth p (List BoolV) := do
  let bits ← toNonUniqueBitsLe x
  enforceInFieldLe bits
  Synth.pure bits

/-- `enforce_smaller_or_equal_than_mod_minus_one_div_two` of an allocated variable (ark_r1cs_std,
external), `crates/bls-gadgets/src/y_to_bit.rs:157`. -/
def enforceLeHalf (x : LinComb p) : Synth p Unit := do
  let bits ← toNonUniqueBitsLe x
  let _ ← enforceSmallerOrEqualLe bits (halfOf p)
  Synth.pure ()

/-- `enforce_cmp(.., Less, true)` of allocated variables (ark_r1cs_std, external),
`crates/bls-gadgets/src/bitmap.rs:60`: `a < b + 1`, by the low bit of `2 (a - (b + 1))`. -/
def enforceCmpLe (a b : LinComb p) : Synth p Unit := do
  let b' := b ++ lcVar .one
  enforceLeHalf a
  enforceLeHalf b'
  let bits ← toBitsLe (lcScale 2 (lcSub a b'))
  match bits with
  | [] => Synth.panic
  | low :: _ => enforce low.lc (lcVar .one) (lcVar .one)

/-- `FpVar::is_eq_zero`, `crates/bls-gadgets/src/y_to_bit.rs:91-127`. -/
def isEqZero (el : FpV p) : Synth p BoolV :=
  match el with
  | .constant v => Synth.pure (.constant (decide (v = 0)))
  | .var l => do
    let b ← boolWitness fun cs => (lcValue l cs).map fun v => decide (v = 0)
    let inv ← newWitness fun cs => (lcValue l cs).map fun v => v⁻¹
    enforce l (lcVar inv) (lcSub (lcVar .one) b.lc)
    enforce l b.lc []
    Synth.pure b

/-- `FpVar::normalize`, `crates/bls-gadgets/src/y_to_bit.rs:130-162`. -/
def normalize (el : FpV p) : Synth p BoolV :=
  match el with
  | .constant v => Synth.pure (.constant (decide (v.val > halfOf p)))
  | .var l => do
    let b ← boolWitness fun cs => (lcValue l cs).map fun v => decide (v.val > halfOf p)
    let adjusted ← newWitness fun cs => (lcValue l cs).map fun v =>
      if v.val > halfOf p then v - (halfOf p : ZMod p) else v
    enforce (lcVar .one) (l ++ lcScale (-(halfOf p : ZMod p)) b.lc) (lcVar adjusted)
    enforceLeHalf (lcVar adjusted)
    Synth.pure b

/-- `y_to_bit` of a point of G1, `crates/bls-gadgets/src/y_to_bit.rs:35-42`, on its coordinate `y`. -/
def yToBitG1 (y : FpV p) : Synth p BoolV := normalize y

/-- `y_to_bit` of a point of G2, `crates/bls-gadgets/src/y_to_bit.rs:44-87`, on the two coordinates of
`y`. -/
def yToBitG2 (c0 c1 : FpV p) : Synth p BoolV := do
  let yBit ← boolWitness fun cs => (c1.value cs).bind fun v1 => (c0.value cs).map fun v0 =>
    decide (v1.val > halfOf p) || (decide (v1 = 0) && decide (v0.val > halfOf p))
  let c0Bit ← normalize c0
  let c1Bit ← normalize c1
  let eqBit ← isEqZero c1
  let bc ← boolAnd eqBit c0Bit
  enforce (lcSub (lcVar .one) c1Bit.lc) bc.lc (lcSub yBit.lc c1Bit.lc)
  Synth.pure yBit

/-- The linear combination of `crates/bls-gadgets/src/bitmap.rs:24-28,42-47`. -/
def occurrencesLinComb (value : Bool) : List BoolV → LinComb p
  | [] => []
  | b :: bs =>
    (if !value then lcVar .one else []) ++ lcScale (if !value then -1 else 1) b.lc ++
      occurrencesLinComb value bs

/-- A bit is backed by a variable: its `cs()` is not `None` (ark_r1cs_std, external),
`crates/bls-gadgets/src/bitmap.rs:32`. -/
def BoolV.isVar : BoolV → Bool
  | .constant _ => false
  | _ => true

/-- The count of `crates/bls-gadgets/src/bitmap.rs:33,49-53`, skipped in setup mode. -/
def countBits (overflowChecks value : Bool) (bits : List BoolV) (cs : ConstraintSystem p) :
    Outcome SynthErr UInt8 :=
  if cs.setup then .ok 0
  else (Outcome.mapM (fun b => b.value p cs) bits).bind fun vs =>
    match countWitness overflowChecks value vs 0 with
    | .ok c => .ok c
    | .err _ => .panic
    | .panic => .panic

/-- `enforce_maximum_occurrences_in_bitmap`, `crates/bls-gadgets/src/bitmap.rs:20-75`, for an allocated
maximum.  A bitmap without an allocated bit has no constraint system, and the allocation of line 57
fails.  Simplification: all bits are read before they are counted; both fail in the same cases. -/
def maxOccurrences (overflowChecks : Bool) (bitmap : List BoolV) (maxOcc : LinComb p) (value : Bool) :
    Synth p Unit := fun cs =>
  (countBits overflowChecks value bitmap cs).bind fun count =>
    if bitmap.any BoolV.isVar then
      (do
        let occurrences ← newWitness fun _ => .ok (count.toNat : ZMod p)
        enforceCmpLe (lcVar occurrences) maxOcc
        enforce (occurrencesLinComb value bitmap) (lcVar .one) (lcVar occurrences)
        : Synth p Unit) cs
    else .err .missingCS

/-- The closure of `MultipackGadget::pack`, `crates/epoch-snark/src/gadgets/pack.rs:30-41`. -/
def packValue (chunk : List BoolV) (cs : ConstraintSystem p) : Outcome SynthErr (ZMod p) :=
  (Outcome.mapM (fun b => b.value p cs) chunk).bind fun vs =>
    let v := fromBitsBe vs
    if v < p then .ok (v : ZMod p) else .err .assignmentMissing

/-- One chunk of `MultipackGadget::pack`, `crates/epoch-snark/src/gadgets/pack.rs:25-48`.  The index of
line 45 underflows, a panic, when the chunk is longer than the modulus has bits. -/
def packChunk (input : Bool) (chunk : List BoolV) : Synth p (LinComb p) := do
  let v ← (if input then newInput else newWitness) (packValue chunk)
  let bitsLe ← toBitsLe (lcVar v)
  if bitsLe.length < chunk.length then Synth.panic else do
    Synth.forM (fun t => boolEnforceEqual t.1 t.2)
      ((bitsLe.reverse.drop (bitsLe.length - chunk.length)).zip chunk)
    Synth.pure (lcVar v)

/-- `MultipackGadget::pack`, `crates/epoch-snark/src/gadgets/pack.rs:14-51`. -/
def multipack (input : Bool) (elementSize : ℕ) (bits : List BoolV) : Synth p (List (LinComb p)) :=
  Synth.mapM (packChunk input) (chunks elementSize bits)

/-- `TestCircuit::generate_constraints`, `crates/bls-snark-sys/src/snark/test_helpers.rs:14-58`: a square
root, and four more witnesses. -/
def testCircuit (x : Option (ZMod p)) : Synth p Unit := do
  let missing := fun (f : ZMod p → ZMod p) (_ : ConstraintSystem p) =>
    match x with
    | some v => Outcome.ok (f v)
    | none => Outcome.err SynthErr.assignmentMissing
  let w ← newWitness (missing id)
  let out ← newInput (missing fun v => v * v)
  enforce (lcVar w) (lcVar w) (lcVar out)
  Synth.forM (fun _ => do
    let _ ← newWitness (missing id)
    Synth.pure ()) (List.range 4)

/-- `BitmapGadget::generate_constraints`, `crates/bls-gadgets/src/bitmap.rs:101-115`: a bitmap of
witnesses, a maximum, and the gadget.  Outside setup mode an absent bit panics (lines 109). -/
def bitmapCircuit (overflowChecks : Bool) (bitmap : List (Option Bool)) (maxOcc : ℕ) (value : Bool) :
    Synth p Unit := do
  let bits ← Synth.mapM (fun b => boolWitness fun _ => Outcome.unwrap b) bitmap
  let m ← newWitness fun _ => .ok (maxOcc : ZMod p)
  maxOccurrences overflowChecks bits (lcVar m) value

/-- Multiplication of two allocated variables (`FpVar::mul`, ark_r1cs_std, external), in the allocation
of points at `crates/bls-gadgets/src/y_to_bit.rs:200-204`: one witness, one constraint. -/
def fpMul (x y : LinComb p) : Synth p (LinComb p) := do
  let v ← newWitness fun cs => (lcValue x cs).bind fun a => (lcValue y cs).map fun b => a * b
  enforce x y (lcVar v)
  Synth.pure (lcVar v)

/-- `FpVar::mul_equals` (ark_r1cs_std, external), in the allocation of points at
`crates/bls-gadgets/src/y_to_bit.rs:200-204`. -/
def fpMulEquals (x y z : LinComb p) : Synth p Unit := enforce x y z

/-- A variable of the quadratic extension (`QuadExtVar`, ark_r1cs_std, external), the coordinates of
`crates/bls-gadgets/src/y_to_bit.rs:54-55`. -/
structure Fp2V (p : ℕ) where
  c0 : LinComb p
  c1 : LinComb p

/-- Difference (`QuadExtVar`, ark_r1cs_std, external), in the allocation of points at
`crates/bls-gadgets/src/y_to_bit.rs:233-237`. -/
def Fp2V.sub (x y : Fp2V p) : Fp2V p := ⟨lcSub x.c0 y.c0, lcSub x.c1 y.c1⟩

/-- Product with a constant of the extension `c0 + c1 u`, `u ^ 2 = nr` (`QuadExtVar`, ark_r1cs_std,
external), in the allocation of points at `crates/bls-gadgets/src/y_to_bit.rs:233-237`: no constraint. -/
def Fp2V.scale (nr k0 k1 : ZMod p) (x : Fp2V p) : Fp2V p :=
  ⟨lcScale k0 x.c0 ++ lcScale (nr * k1) x.c1, lcScale k1 x.c0 ++ lcScale k0 x.c1⟩

/-- Product (`QuadExtVar`, ark_r1cs_std, external), in the allocation of points at
`crates/bls-gadgets/src/y_to_bit.rs:233-237`: Karatsuba, three constraints. -/
def fp2Mul (nr : ZMod p) (x y : Fp2V p) : Synth p (Fp2V p) := do
  let v0 ← fpMul x.c0 y.c0
  let v1 ← fpMul x.c1 y.c1
  let t ← fpMul (x.c0 ++ x.c1) (y.c0 ++ y.c1)
  Synth.pure ⟨v0 ++ lcScale nr v1, lcSub (lcSub t v0) v1⟩

/-- Square (`QuadExtVar`, ark_r1cs_std, external), in the allocation of points at
`crates/bls-gadgets/src/y_to_bit.rs:233-237`: two constraints. -/
def fp2Square (nr : ZMod p) (x : Fp2V p) : Synth p (Fp2V p) := do
  let v0 ← fpMul x.c0 x.c1
  let t ← fpMul (x.c0 ++ x.c1) (x.c0 ++ lcScale nr x.c1)
  Synth.pure ⟨lcSub t (lcScale (1 + nr) v0), lcScale 2 v0⟩

/-- `mul_equals` (`QuadExtVar`, ark_r1cs_std, external), in the allocation of points at
`crates/bls-gadgets/src/y_to_bit.rs:233-237`: three constraints. -/
def fp2MulEquals (nr : ZMod p) (x y z : Fp2V p) : Synth p Unit := do
  let v1 ← fpMul x.c1 y.c1
  fpMulEquals x.c0 y.c0 (lcSub z.c0 (lcScale nr v1))
  fpMulEquals (x.c0 ++ x.c1) (y.c0 ++ y.c1) (z.c1 ++ z.c0 ++ lcScale (1 - nr) v1)

/-- `FpVar::new_witness` (ark_r1cs_std, external), `crates/bls-gadgets/src/y_to_bit.rs:137`. -/
def fpWitness (f : ConstraintSystem p → Outcome SynthErr (ZMod p)) : Synth p (LinComb p) := do
  let v ← newWitness f
  Synth.pure (lcVar v)

/-- `new_variable_omit_prime_order_check` of a point of G1 as a witness (`ProjectiveVar`, ark_r1cs_std,
external), `crates/bls-gadgets/src/y_to_bit.rs:200-204`, on `y ^ 2 = x ^ 3 + b`: three coordinates, then
`z (y ^ 2 - b z ^ 2) = x x ^ 2`. -/
def allocPointG1 (b : ZMod p) (x y z : ConstraintSystem p → Outcome SynthErr (ZMod p)) :
    Synth p (LinComb p × LinComb p × LinComb p) := do
  let vx ← fpWitness x
  let vy ← fpWitness y
  let vz ← fpWitness z
  let y2 ← fpMul vy vy
  let z2 ← fpMul vz vz
  let x2 ← fpMul vx vx
  let x3 ← fpMul x2 vx
  fpMulEquals vz (lcSub y2 (lcScale b z2)) x3
  Synth.pure (vx, vy, vz)

/-- A witness of the extension (`QuadExtVar`, ark_r1cs_std, external), in the allocation of points at
`crates/bls-gadgets/src/y_to_bit.rs:233-237`. -/
def fp2Witness (f : ConstraintSystem p → Outcome SynthErr (ZMod p × ZMod p)) : Synth p (Fp2V p) := do
  let a ← fpWitness fun cs => (f cs).map Prod.fst
  let b ← fpWitness fun cs => (f cs).map Prod.snd
  Synth.pure ⟨a, b⟩

/-- `new_variable_omit_prime_order_check` of a point of G2 as a witness (`ProjectiveVar`, ark_r1cs_std,
external), `crates/bls-gadgets/src/y_to_bit.rs:233-237`, on `y ^ 2 = x ^ 3 + (b0 + b1 u)`. -/
def allocPointG2 (nr b0 b1 : ZMod p)
    (x y z : ConstraintSystem p → Outcome SynthErr (ZMod p × ZMod p)) :
    Synth p (Fp2V p × Fp2V p × Fp2V p) := do
  let vx ← fp2Witness x
  let vy ← fp2Witness y
  let vz ← fp2Witness z
  let y2 ← fp2Square nr vy
  let z2 ← fp2Square nr vz
  let x2 ← fp2Square nr vx
  let x3 ← fp2Mul nr x2 vx
  fp2MulEquals nr vz (Fp2V.sub y2 (z2.scale nr b0 b1)) x3
  Synth.pure (vx, vy, vz)

/-- The circuit of the test `test_y_to_bit_g1`, `crates/bls-gadgets/src/y_to_bit.rs:191-216`: a point
allocated as a witness, and its sign. -/
def yToBitG1Circuit (b : ZMod p) (pt : ZMod p × ZMod p × ZMod p) : Synth p BoolV := do
  let v ← allocPointG1 b (fun _ => .ok pt.1) (fun _ => .ok pt.2.1) (fun _ => .ok pt.2.2)
  yToBitG1 (.var v.2.1)

/-- The circuit of the tests `test_y_to_bit_g2` and `test_y_to_bit_g2_edge`,
`crates/bls-gadgets/src/y_to_bit.rs:222-298`. -/
def yToBitG2Circuit (nr b0 b1 : ZMod p) (pt : (ZMod p × ZMod p) × (ZMod p × ZMod p) × (ZMod p × ZMod p)) :
    Synth p BoolV := do
  let v ← allocPointG2 nr b0 b1 (fun _ => .ok pt.1) (fun _ => .ok pt.2.1) (fun _ => .ok pt.2.2)
  yToBitG2 (.var v.2.1.c0) (.var v.2.1.c1)

end

end Verif
