import Verif.Model.Synthesis

/-!
# The aggregation gadgets as programs that emit constraints

`enforce_aggregated_pubkeys`, `enforce_aggregated_all_pubkeys` and `enforce_bitmap` of
`crates/bls-gadgets/src/bls.rs` for allocated keys and bits and a constant padding key, as both callers
have it (`crates/epoch-snark/src/gadgets/single_update.rs:110-121`,
`crates/bls-gadgets/src/bls.rs:393`).  The operations on curve points are those of ark_r1cs_std
(external), as in `Model/CircuitCurve.lean`.  Parameters: the extension `u ^ 2 = nr` and the coefficient
`b0 + b1 u` of the curve; `drop` tells whether the addition drops an operand that is the constant zero,
which depends on the version of ark_r1cs_std.
-/

namespace Verif

section

variable {p : ℕ}

/-- A constant as a linear combination (`AllocatedFp::new_constant`, ark_r1cs_std, external), for the
constants of `crates/bls-gadgets/src/bls.rs:148,150`. -/
def lcConst (c : ZMod p) : LinComb p := [(c, .one)]

/-- `AllocatedFp::is_eq` (ark_r1cs_std, external), inside `conditional_enforce_not_equal` at
`crates/bls-gadgets/src/bls.rs:148`: a bit for "not equal", a multiplier, and two constraints. -/
def fpIsEq (a b : LinComb p) : Synth p BoolV := do
  let ne ← boolWitness fun cs => (lcValue a cs).bind fun x => (lcValue b cs).map fun y => decide (x ≠ y)
  let m ← newWitness fun cs => (ne.value p cs).bind fun t =>
    if t then (lcValue a cs).bind fun x => (lcValue b cs).map fun y => (x - y)⁻¹ else .ok 1
  enforce (lcSub a b) (lcVar m) ne.lc
  enforce (lcSub a b) ne.neg.lc []
  Synth.pure ne.neg

/-- `QuadExtVar::is_eq` (ark_r1cs_std, external), inside `conditional_enforce_not_equal` at
`crates/bls-gadgets/src/bls.rs:148`. -/
def fp2IsEq (x y : Fp2V p) : Synth p BoolV := do
  let b0 ← fpIsEq x.c0 y.c0
  let b1 ← fpIsEq x.c1 y.c1
  boolAnd b0 b1

/-- `FpVar::conditionally_select` (ark_r1cs_std, external), inside `select` at
`crates/bls-gadgets/src/bls.rs:150`: `cond * (t - f) = r - f`. -/
def fpSelect (cond : BoolV) (t f : LinComb p) : Synth p (LinComb p) :=
  match cond with
  | .constant true => Synth.pure t
  | .constant false => Synth.pure f
  | cond => do
    let r ← newWitness fun cs => (cond.value p cs).bind fun c => if c then lcValue t cs else lcValue f cs
    enforce cond.lc (lcSub t f) (lcSub (lcVar r) f)
    Synth.pure (lcVar r)

/-- `QuadExtVar::conditionally_select` (ark_r1cs_std, external), inside `select` at
`crates/bls-gadgets/src/bls.rs:150`. -/
def fp2Select (cond : BoolV) (t f : Fp2V p) : Synth p (Fp2V p) := do
  let c0 ← fpSelect cond t.c0 f.c0
  let c1 ← fpSelect cond t.c1 f.c1
  Synth.pure ⟨c0, c1⟩

/-- Sum (`QuadExtVar`, ark_r1cs_std, external), in the addition at `crates/bls-gadgets/src/bls.rs:151`. -/
def Fp2V.add (x y : Fp2V p) : Fp2V p := ⟨x.c0 ++ y.c0, x.c1 ++ y.c1⟩

/-- A constant of the extension, for the constants of `crates/bls-gadgets/src/bls.rs:148,150`. -/
def Fp2V.const (c0 c1 : ZMod p) : Fp2V p := ⟨lcConst c0, lcConst c1⟩

/-- A point of G2 as a variable (`G2Var`, ark_bls12_377, external), `crates/bls-gadgets/src/bls.rs:138`:
the homogeneous coordinates `(x, y, z)`. -/
abbrev G2V (p : ℕ) := Fp2V p × Fp2V p × Fp2V p

/-- `ProjectiveVar::is_eq` (ark_r1cs_std, external) with the constant point `(x : y : 1)`, inside
`conditional_enforce_not_equal` at `crates/bls-gadgets/src/bls.rs:148`: equal by coordinates, or both
zero; the constant is not zero. -/
def g2IsEqConst (nr : ZMod p) (x y : ZMod p × ZMod p) (v : G2V p) : Synth p BoolV := do
  let xEqual ← fp2IsEq (v.1.scale nr 1 0) (v.2.2.scale nr x.1 x.2)
  let yEqual ← fp2IsEq (v.2.1.scale nr 1 0) (v.2.2.scale nr y.1 y.2)
  let coordinatesEqual ← boolAnd xEqual yEqual
  let isZero ← fp2IsEq v.2.2 (Fp2V.const 0 0)
  let bothZero ← boolAnd isZero (.constant false)
  boolOr bothZero coordinatesEqual

/-- `conditional_enforce_not_equal` with the padding key, `crates/bls-gadgets/src/bls.rs:147-148`. -/
def enforceNotPadding (nr : ZMod p) (x y : ZMod p × ZMod p) (v : G2V p) (bit : BoolV) :
    Synth p Unit := do
  let e ← g2IsEqConst nr x y v
  let both ← karyAnd e [bit]
  boolEnforceEqual both (.constant false)

/-- `bit.select(pk, zero)`, `crates/bls-gadgets/src/bls.rs:149-150`.  Simplification: for a constant bit
`false`, which no caller passes, the result would be the constant zero. -/
def g2SelectZero (bit : BoolV) (v : G2V p) : Synth p (G2V p) := do
  let x ← fp2Select bit v.1 (Fp2V.const 0 0)
  let y ← fp2Select bit v.2.1 (Fp2V.const 1 0)
  let z ← fp2Select bit v.2.2 (Fp2V.const 0 0)
  Synth.pure (x, y, z)

/-- The second half of the addition of two points (ark_r1cs_std, external),
`crates/bls-gadgets/src/bls.rs:151,167`, from the products of the coordinates. -/
def g2AddRest (nr b0 b1 : ZMod p) (xx yy zz xy xz yz : Fp2V p) : Synth p (G2V p) := do
  let xyPairs := xy.sub (xx.add yy)
  let xzPairs := xz.sub (xx.add zz)
  let yzPairs := yz.sub (yy.add zz)
  let bzz3 := zz.scale nr (2 * b0 + b0) (2 * b1 + b1)
  let yyMinus := yy.sub bzz3
  let yyPlus := yy.add bzz3
  let xx3 := (xx.add xx).add xx
  let b3xz := xzPairs.scale nr (2 * b0 + b0) (2 * b1 + b1)
  let x0 ← fp2Mul nr yyMinus xyPairs
  let x1 ← fp2Mul nr yzPairs b3xz
  let y0 ← fp2Mul nr yyPlus yyMinus
  let y1 ← fp2Mul nr xx3 b3xz
  let z0 ← fp2Mul nr yyPlus yzPairs
  let z1 ← fp2Mul nr xyPairs xx3
  Synth.pure (x0.sub x1, y0.add y1, z0.add z1)

/-- Addition of two allocated points (ark_r1cs_std, external), `crates/bls-gadgets/src/bls.rs:151,167`:
twelve products in the extension. -/
def g2Add (nr b0 b1 : ZMod p) (u v : G2V p) : Synth p (G2V p) := do
  let xx ← fp2Mul nr u.1 v.1
  let yy ← fp2Mul nr u.2.1 v.2.1
  let zz ← fp2Mul nr u.2.2 v.2.2
  let xy ← fp2Mul nr (u.1.add u.2.1) (v.1.add v.2.1)
  let xz ← fp2Mul nr (u.1.add u.2.2) (v.1.add v.2.2)
  let yz ← fp2Mul nr (u.2.1.add u.2.2) (v.2.1.add v.2.2)
  g2AddRest nr b0 b1 xx yy zz xy xz yz

/-- `+=` of `crates/bls-gadgets/src/bls.rs:151,167`; `none` is the constant zero of lines 145 and 163,
which is dropped or enters the formulas as the constant `(0, 1, 0)`, with which products are linear. -/
def g2AddAssign (drop : Bool) (nr b0 b1 : ZMod p) (acc : Option (G2V p)) (v : G2V p) :
    Synth p (G2V p) :=
  match acc with
  | some u => g2Add nr b0 b1 u v
  | none =>
    if drop then Synth.pure v
    else g2AddRest nr b0 b1 (v.1.scale nr 0 0) (v.2.1.scale nr 1 0) (v.2.2.scale nr 0 0)
      ((v.1.add v.2.1).scale nr 1 0) ((v.1.add v.2.2).scale nr 0 0) ((v.2.1.add v.2.2).scale nr 1 0)

/-- The loop of `enforce_aggregated_pubkeys`, `crates/bls-gadgets/src/bls.rs:146-152`. -/
def aggregateLoop (drop : Bool) (nr b0 b1 : ZMod p) (x y : ZMod p × ZMod p) :
    List (G2V p × BoolV) → Option (G2V p) → Synth p (Option (G2V p))
  | [], acc => Synth.pure acc
  | (pk, bit) :: rest, acc => do
    enforceNotPadding nr x y pk bit
    let adder ← g2SelectZero bit pk
    let acc' ← g2AddAssign drop nr b0 b1 acc adder
    aggregateLoop drop nr b0 b1 x y rest (some acc')

/-- `enforce_aggregated_pubkeys`, `crates/bls-gadgets/src/bls.rs:137-155`; `(x, y)` is the padding key,
`none` the constant zero. -/
def enforceAggregatedPubkeysV (drop : Bool) (nr b0 b1 : ZMod p) (x y : ZMod p × ZMod p)
    (pubKeys : List (G2V p)) (bitmap : List BoolV) : Synth p (Option (G2V p)) :=
  if bitmap.length ≠ pubKeys.length then Synth.panic
  else aggregateLoop drop nr b0 b1 x y (pubKeys.zip bitmap) none

/-- The loop of `enforce_aggregated_all_pubkeys`, `crates/bls-gadgets/src/bls.rs:164-168`. -/
def aggregateAllLoop (drop : Bool) (nr b0 b1 : ZMod p) :
    List (G2V p) → Option (G2V p) → Synth p (Option (G2V p))
  | [], acc => Synth.pure acc
  | pk :: rest, acc => do
    let acc' ← g2AddAssign drop nr b0 b1 acc pk
    aggregateAllLoop drop nr b0 b1 rest (some acc')

/-- `enforce_aggregated_all_pubkeys`, `crates/bls-gadgets/src/bls.rs:160-171`. -/
def enforceAggregatedAllPubkeysV (drop : Bool) (nr b0 b1 : ZMod p) (pubKeys : List (G2V p)) :
    Synth p (Option (G2V p)) := aggregateAllLoop drop nr b0 b1 pubKeys none

/-- `enforce_bitmap`, `crates/bls-gadgets/src/bls.rs:179-193`, without the message hash, which is passed
through. -/
def enforceBitmapV (overflowChecks drop : Bool) (nr b0 b1 : ZMod p) (x y : ZMod p × ZMod p)
    (pubKeys : List (G2V p)) (bitmap : List BoolV) (maximumNonSigners : LinComb p) :
    Synth p (Option (G2V p)) := do
  maxOccurrences overflowChecks bitmap maximumNonSigners false
  enforceAggregatedPubkeysV drop nr b0 b1 x y pubKeys bitmap

end

end Verif
