import Verif.Model.SynthesisEpochs
import Verif.Model.CircuitCurve

/-!
# Synthesis of hashing to G1 into rank-1 constraints

`hash_bits_to_g1` (`crates/epoch-snark/src/gadgets/epoch_data.rs`) with `enforce_hash_to_group`,
`pedersen_hash`, `hash_to_bits`, `hash_to_group` and `scale_by_cofactor_g1`
(`crates/bls-gadgets/src/hash_to_group.rs`), as the program it is.  The Bowe-Hopwood-Pedersen and BLAKE2s
gadgets are parameters (`HashGadgets`), as are the native functions that compute the values of witnesses
(`HashNative`).

Simplifications: values that the code computes once before it allocates several witnesses
(`epoch_data.rs:275-291`, `hash_to_group.rs:232-241`) are computed in the closure of each witness; the
`cs()` of a list of constants is not modelled.
-/

namespace Verif

section

variable {p : ℕ}

/-- The second half of the addition of two points of G1 (ark_r1cs_std, external), inside `scalar_mul_le`
at `crates/bls-gadgets/src/hash_to_group.rs:339`, from the products of the coordinates. -/
def g1AddRest (b : ZMod p) (xx yy zz xy xz yz : LinComb p) : Synth p (G1V p) := do
  let xyPairs := lcSub xy (xx ++ yy)
  let xzPairs := lcSub xz (xx ++ zz)
  let yzPairs := lcSub yz (yy ++ zz)
  let bzz3 := lcScale (2 * b + b) zz
  let yyMinus := lcSub yy bzz3
  let yyPlus := yy ++ bzz3
  let xx3 := (xx ++ xx) ++ xx
  let b3xz := lcScale (2 * b + b) xzPairs
  let x0 ← fpMul yyMinus xyPairs
  let x1 ← fpMul yzPairs b3xz
  let y0 ← fpMul yyPlus yyMinus
  let y1 ← fpMul xx3 b3xz
  let z0 ← fpMul yyPlus yzPairs
  let z1 ← fpMul xyPairs xx3
  Synth.pure (lcSub x0 x1, y0 ++ y1, z0 ++ z1)

/-- Addition of two points of G1 (ark_r1cs_std, external), inside `scalar_mul_le` at
`crates/bls-gadgets/src/hash_to_group.rs:339`: twelve products. -/
def g1Add (b : ZMod p) (u v : G1V p) : Synth p (G1V p) := do
  let xx ← fpMul u.1 v.1
  let yy ← fpMul u.2.1 v.2.1
  let zz ← fpMul u.2.2 v.2.2
  let xy ← fpMul (u.1 ++ u.2.1) (v.1 ++ v.2.1)
  let xz ← fpMul (u.1 ++ u.2.2) (v.1 ++ v.2.2)
  let yz ← fpMul (u.2.1 ++ u.2.2) (v.2.1 ++ v.2.2)
  g1AddRest b xx yy zz xy xz yz

/-- `double_in_place` (ark_r1cs_std, external), inside `scalar_mul_le` at
`crates/bls-gadgets/src/hash_to_group.rs:339`. -/
def g1Double (b : ZMod p) (v : G1V p) : Synth p (G1V p) := do
  let xx ← fpMul v.1 v.1
  let yy ← fpMul v.2.1 v.2.1
  let zz ← fpMul v.2.2 v.2.2
  let xy ← fpMul v.1 v.2.1
  let xz ← fpMul v.1 v.2.2
  let yz ← fpMul v.2.1 v.2.2
  let xy2 := xy ++ xy
  let xz2 := xz ++ xz
  let yz2 := yz ++ yz
  let bzz3 := lcScale (2 * b + b) zz
  let yyMinus := lcSub yy bzz3
  let yyPlus := yy ++ bzz3
  let bxz3 := lcScale (2 * b + b) xz2
  let xx3 := (xx ++ xx) ++ xx
  let yFrag ← fpMul yyPlus yyMinus
  let xFrag ← fpMul yyMinus xy2
  let x1 ← fpMul bxz3 yz2
  let y1 ← fpMul xx3 bxz3
  let z ← fpMul yz2 yy
  Synth.pure (lcSub xFrag x1, yFrag ++ y1, lcScale 2 (lcScale 2 z))

/-- `res + multiple` in `scalar_mul_le` (ark_r1cs_std, external),
`crates/bls-gadgets/src/hash_to_group.rs:339`; `none` is the constant zero, which is dropped or enters the
formulas as the constant `(0, 1, 0)`, with which products are linear. -/
def g1AddAssign (drop : Bool) (b : ZMod p) (acc : Option (G1V p)) (v : G1V p) : Synth p (G1V p) :=
  match acc with
  | some u => g1Add b u v
  | none =>
    if drop then Synth.pure v
    else g1AddRest b (lcScale 0 v.1) (lcScale 1 v.2.1) (lcScale 0 v.2.2)
      (lcScale 1 (v.1 ++ v.2.1)) (lcScale 0 (v.1 ++ v.2.2)) (lcScale 1 (v.2.1 ++ v.2.2))

/-- `scalar_mul_le` (ark_r1cs_std, external) with constant bits,
`crates/bls-gadgets/src/hash_to_group.rs:339`: each round adds, selects without constraints and
doubles. -/
def scalarMulLeV (drop : Bool) (b : ZMod p) : List Bool → Option (G1V p) → G1V p →
    Synth p (Option (G1V p))
  | [], res, _ => Synth.pure res
  | bit :: bits, res, multiple => do
    let tmp ← g1AddAssign drop b res multiple
    let multiple' ← g1Double b multiple
    scalarMulLeV drop b bits (if bit then some tmp else res) multiple'

/-- The coordinates of the result of `scalar_mul_le`, `crates/bls-gadgets/src/hash_to_group.rs:339-340`:
the constant zero is `(0, 1, 0)`. -/
def G1V.ofOption : Option (G1V p) → G1V p
  | some v => v
  | none => ([], lcConst 1, [])

/-- `scale_by_cofactor_g1`, `crates/bls-gadgets/src/hash_to_group.rs:326-341`. -/
def scaleByCofactorV (drop : Bool) (v : G1V p) : Synth p (G1V p) := do
  let r ← scalarMulLeV drop 1 cofactorBits none v
  Synth.pure (G1V.ofOption r)

/-- The values of bits, `crates/bls-gadgets/src/hash_to_group.rs:235-238,277-280`. -/
def bitValues (p : ℕ) (bits : List BoolV) (cs : ConstraintSystem p) : Outcome SynthErr (List Bool) :=
  Outcome.mapM (fun b => b.value p cs) bits

/-- The padding loop of `crates/bls-gadgets/src/hash_to_group.rs:169-175`. -/
def padToBytesV (bits : List BoolV) : List BoolV :=
  bits ++ List.replicate (8 * ((bits.length + 7) / 8) - bits.length) (.constant false)

/-- Packing in bytes, each a list of eight bits,
`crates/epoch-snark/src/gadgets/epoch_data.rs:245-262` (and `247,263-273`). -/
def packBytesV (bits : List BoolV) : List (List BoolV) :=
  (chunks 8 bits.reverse).map fun chunk =>
    chunk ++ List.replicate (8 - chunk.length) (.constant false)

end

/-- The gadgets called: `pedersen` is `BHHash::evaluate` (ark_crypto_primitives, external) with the `x`
coordinate of the result, `crates/bls-gadgets/src/hash_to_group.rs:162-168`; `blake` is
`evaluate_blake2s_with_parameters` (ark_crypto_primitives, external), `216-226`. -/
structure HashGadgets where
  pedersen : List (List BoolV) → Synth FQ_MODULUS (LinComb FQ_MODULUS)
  blake : List BoolV → Bytes → Synth FQ_MODULUS (List BoolV)

/-- The native functions called for values: `attempt` is the counter found by `hash_with_attempt_cip22`,
`crates/epoch-snark/src/gadgets/epoch_data.rs:287-290`; `xof` is the XOF of `DirectHasher`,
`crates/bls-gadgets/src/hash_to_group.rs:240`; `sqrt` the square root in `get_point_from_x`, `289`. -/
structure HashNative where
  attempt : Bytes → Bytes → Outcome SynthErr ℕ
  xof : Bytes → Outcome BLSError Bytes
  sqrt : Fq → Option Fq

/-- The native functions of the code, `crates/epoch-snark/src/gadgets/epoch_data.rs:287-290` and
`crates/bls-gadgets/src/hash_to_group.rs:240`; errors of the former become an error of synthesis (its kind
is simplified). -/
noncomputable def hashNative (compat : Bool) (B : Blake2s) (pedersen : Bytes → Outcome BLSError Bytes)
    (sqrt : Fq → Option Fq) : HashNative where
  attempt message extra :=
    letI : DecidableEq G1Point := Classical.decEq _
    match hashWithAttemptCip22 compat (compositeHasher B pedersen) sqrt g1Scale SIG_DOMAIN message
        extra with
    | .ok r => .ok r.2
    | .err _ => .err .assignmentMissing
    | .panic => .panic
  xof message := directXof B SIG_DOMAIN message 64
  sqrt := sqrt

/-- `pedersen_hash`, `crates/bls-gadgets/src/hash_to_group.rs:148-177`. -/
def pedersenBitsV (G : HashGadgets) (input : List (List BoolV)) :
    Synth FQ_MODULUS (List BoolV) := do
  let x ← G.pedersen input
  let bits ← toBitsLe x
  Synth.pure (padToBytesV bits)

/-- Value of one bit of the output of `hash_to_bits` without constraints,
`crates/bls-gadgets/src/hash_to_group.rs:232-247`: the XOF is unwrapped. -/
def xofBitValue (N : HashNative) (message : List BoolV) (i : ℕ) (cs : ConstraintSystem FQ_MODULUS) :
    Outcome SynthErr Bool :=
  (bitValues FQ_MODULUS message cs).bind fun m =>
    match N.xof (bitsLeToBytesLe m) with
    | .ok h => .ok ((bytesLeToBitsLe h 512).getD i false)
    | _ => .panic

/-- `hash_to_bits`, `crates/bls-gadgets/src/hash_to_group.rs:192-250`. -/
def hashToBitsV (G : HashGadgets) (N : HashNative) (message : List BoolV) (hashLength : UInt16)
    (personalization : Bytes) (generate : Bool) : Synth FQ_MODULUS (List BoolV) :=
  if generate then
    if hashLength % 256 ≠ 0 then Synth.panic
    else do
      let blocks ← Synth.mapM (fun i => G.blake message
        (blake2xsParams hashLength (UInt32.ofNat i) personalization).parameters)
        (List.range (hashLength / 256).toNat)
      Synth.pure blocks.flatten
  else Synth.mapM (fun i => boolWitness (xofBitValue N message i)) (List.range 512)

/-- Value of the point allocated in `hash_to_group`, `crates/bls-gadgets/src/hash_to_group.rs:269-295`:
read from the XOF bits; the code reads only those it needs. -/
def groupPointValue (N : HashNative) (compat : Bool) (xofBits : List BoolV)
    (cs : ConstraintSystem FQ_MODULUS) : Outcome SynthErr G1Var :=
  (bitValues FQ_MODULUS xofBits cs).bind fun bits =>
    match hashToGroupWitness N.sqrt compat bits with
    | .ok w => .ok w.point
    | .err _ => .err .assignmentMissing
    | .panic => .panic

/-- `hash_to_group` after the bits have been sliced, `crates/bls-gadgets/src/hash_to_group.rs:266-321`. -/
def hashToGroupRest (N : HashNative) (compat drop : Bool) (xofBits : List BoolV) (signBit : BoolV) :
    Synth FQ_MODULUS (G1V FQ_MODULUS) := do
  let v ← allocPointG1 1 (fun cs => (groupPointValue N compat xofBits cs).map (·.x))
    (fun cs => (groupPointValue N compat xofBits cs).map (·.y))
    (fun cs => (groupPointValue N compat xofBits cs).map (·.z))
  let bits ← toBitsLe v.1
  let yBit ← yToBitG1 (.var v.2.1)
  Synth.forM (fun ab => boolEnforceEqual ab.1 ab.2) (bits.zip (xofBits.take X_BITS))
  boolEnforceEqual yBit signBit
  scaleByCofactorV drop v

/-- `hash_to_group`, `crates/bls-gadgets/src/hash_to_group.rs:256-322`: slicing or indexing too few bits
panics. -/
def hashToGroupV (N : HashNative) (compat drop : Bool) (xofBits : List BoolV) :
    Synth FQ_MODULUS (G1V FQ_MODULUS) :=
  if xofBits.length < X_BITS then Synth.panic
  else match xofBits[SIGN_BIT_POSITION compat]? with
    | none => Synth.panic
    | some signBit => hashToGroupRest N compat drop xofBits signBit

/-- `enforce_hash_to_group`, `crates/bls-gadgets/src/hash_to_group.rs:105-145`. -/
def enforceHashToGroupV (G : HashGadgets) (N : HashNative) (compat drop : Bool)
    (counter : List BoolV) (message extra : List (List BoolV)) (generate : Bool) :
    Synth FQ_MODULUS (HashV FQ_MODULUS) := do
  let crhBits ← pedersenBitsV G message
  let xofBits ← hashToBitsV G N (counter ++ extra.flatten ++ crhBits) 512 SIG_DOMAIN generate
  let hash ← hashToGroupV N compat drop xofBits
  Synth.pure ⟨hash, crhBits, xofBits⟩

/-- Value of one bit of the counter, `crates/epoch-snark/src/gadgets/epoch_data.rs:275-293`: the attempt
found natively, cast to a byte. -/
def counterBitValue (N : HashNative) (epochBits extraBits : List BoolV) (i : ℕ)
    (cs : ConstraintSystem FQ_MODULUS) : Outcome SynthErr Bool :=
  (bitValues FQ_MODULUS epochBits cs).bind fun ts =>
    (bitValues FQ_MODULUS extraBits cs).bind fun us =>
      (N.attempt (packBytes ts) (packBytes us)).map fun c => (UInt8.ofNat c).toNat.testBit i

/-- `hash_bits_to_g1`, `crates/epoch-snark/src/gadgets/epoch_data.rs:238-301`: the counter is a witness
byte, eight bits. -/
def hashBitsToG1V (G : HashGadgets) (N : HashNative) (compat drop generate : Bool)
    (epochBits extraBits : List BoolV) : Synth FQ_MODULUS (HashV FQ_MODULUS) := do
  let counter ← Synth.mapM (fun i => boolWitness (counterBitValue N epochBits extraBits i))
    (List.range 8)
  enforceHashToGroupV G N compat drop counter (packBytesV epochBits) (packBytesV extraBits) generate

/-- The outer gadgets with the hash of `crates/epoch-snark/src/gadgets/epoch_data.rs:238-301` as its
constraints and the BLAKE2s gadget they share (`epochs.rs:317-361`). -/
def OuterGadgets.withHash {H : Type} (O : OuterGadgets H)
    (pedersen : List (List BoolV) → Synth FQ_MODULUS (LinComb FQ_MODULUS)) (N : HashNative)
    (compat drop : Bool) : OuterGadgets H :=
  { O with hash := hashBitsToG1V ⟨pedersen, O.blake⟩ N compat drop }

end Verif
