import Verif.Model.Encoding

/-!
# Gadgets of `crates/bls-gadgets`

A gadget is modelled as a predicate on the values of its variables: the conjunction of the
constraints it emits.  Inputs and witnesses are explicit arguments; a witness takes any value (an
adversarial prover), and a separate definition gives the value the code assigns to it.

`Boolean` variables are values of type `Bool`: their allocation enforces `b * (1 - b) = 0`
(ark_r1cs_std, external), and their linear combination is `0` or `1` (`bit`).
-/

namespace Verif

section

variable {p : ℕ}

/-- `Boolean::lc` (ark_r1cs_std, external), used at `crates/bls-gadgets/src/bitmap.rs:47`. -/
def bit (b : Bool) : ZMod p := if b then 1 else 0

/-- `modulus_minus_one_div_two` (ark_ff, external), `crates/bls-gadgets/src/y_to_bit.rs:131`. -/
def halfOf (p : ℕ) : ℕ := (p - 1) / 2

/-- `FpVar` (ark_r1cs_std, external), matched at `crates/bls-gadgets/src/y_to_bit.rs:92-94,132-134`:
a constant or an allocated variable. -/
inductive FpVar (p : ℕ) where
  | constant (v : ZMod p)
  | var (v : ZMod p)

/-- Value of a variable (`FpVar::value`, external), `crates/bls-gadgets/src/y_to_bit.rs:95`. -/
def FpVar.value : FpVar p → ZMod p
  | .constant v => v
  | .var v => v

/-- Constraints of `is_eq_zero`, `crates/bls-gadgets/src/y_to_bit.rs:91-127`; `b` is the returned
bit and `inv` the witness of `103-105`.  A constant emits none and returns a constant bit. -/
def isEqZeroC (el : FpVar p) (inv : ZMod p) (b : Bool) : Prop :=
  match el with
  | .constant v => b = decide (v = 0)
  | .var v =>
    v * inv = 1 - bit b ∧
    v * bit b = 0

/-- Assignment of the witnesses of `is_eq_zero`, `crates/bls-gadgets/src/y_to_bit.rs:95,103-105`
(in Lean, as for `unwrap_or_else(F::zero)`, the inverse of zero is zero). -/
def isEqZeroWitness (el : FpVar p) : ZMod p × Bool :=
  (el.value⁻¹, decide (el.value = 0))

/-- `FpVar::enforce_smaller_or_equal_than_mod_minus_one_div_two` (ark_r1cs_std, external), used at
`crates/bls-gadgets/src/y_to_bit.rs:157`: the canonical representative is at most `(p - 1) / 2`. -/
def leHalfC (v : ZMod p) : Prop := v.val ≤ halfOf p

/-- Constraints of `normalize`, `crates/bls-gadgets/src/y_to_bit.rs:130-162`; `b` is the returned
bit and `adjusted` the witness of `137-143`. -/
def normalizeC (el : FpVar p) (adjusted : ZMod p) (b : Bool) : Prop :=
  match el with
  | .constant v => b = decide (v.val > halfOf p)
  | .var v =>
    1 * (v + bit b * (-(halfOf p : ZMod p))) = adjusted ∧
    leHalfC adjusted

/-- Assignment of the witnesses of `normalize`, `crates/bls-gadgets/src/y_to_bit.rs:135-143`. -/
def normalizeWitness (el : FpVar p) : ZMod p × Bool :=
  (if el.value.val > halfOf p then el.value - (halfOf p : ZMod p) else el.value,
   decide (el.value.val > halfOf p))

/-- Witnesses of the sign gadget of a G2 point, `crates/bls-gadgets/src/y_to_bit.rs:44-87`. -/
structure YBitWitness (p : ℕ) where
  /-- `y_bit`, `y_to_bit.rs:49-60` -/
  yBit : Bool
  /-- bit and `adjusted` of `y_to_bit.rs:63` -/
  c0Bit : Bool
  c0Adjusted : ZMod p
  /-- bit and `adjusted` of `y_to_bit.rs:64` -/
  c1Bit : Bool
  c1Adjusted : ZMod p
  /-- bit and `inv` of `y_to_bit.rs:76` -/
  eqBit : Bool
  eqInv : ZMod p

/-- Constraints of `y_to_bit` for G2, `crates/bls-gadgets/src/y_to_bit.rs:44-87`, on the two
coordinates of `y`; the returned bit is `w.yBit`. -/
def yToBitG2C (c0 c1 : FpVar p) (w : YBitWitness p) : Prop :=
  normalizeC c0 w.c0Adjusted w.c0Bit ∧
  normalizeC c1 w.c1Adjusted w.c1Bit ∧
  isEqZeroC c1 w.eqInv w.eqBit ∧
  (1 - bit w.c1Bit) * bit (w.eqBit && w.c0Bit) = (bit w.yBit - bit w.c1Bit : ZMod p)

/-- Assignment of the witnesses, `crates/bls-gadgets/src/y_to_bit.rs:49-76`. -/
def yToBitG2Witness (c0 c1 : FpVar p) : YBitWitness p where
  yBit := decide (c1.value.val > halfOf p) ||
    (decide (c1.value = 0) && decide (c0.value.val > halfOf p))
  c0Bit := (normalizeWitness c0).2
  c0Adjusted := (normalizeWitness c0).1
  c1Bit := (normalizeWitness c1).2
  c1Adjusted := (normalizeWitness c1).1
  eqBit := (isEqZeroWitness c1).2
  eqInv := (isEqZeroWitness c1).1

/-- Constraints of `y_to_bit` for G1, `crates/bls-gadgets/src/y_to_bit.rs:35-42`. -/
def yToBitG1C (y : FpVar p) (adjusted : ZMod p) (b : Bool) : Prop := normalizeC y adjusted b

/-- `FpVar::enforce_cmp(.., Less, true)` (ark_r1cs_std, external), used at
`crates/bls-gadgets/src/bitmap.rs:60`: with `b' = b + 1`, both `a` and `b'` are at most
`(p - 1) / 2` and the low bit of `2 (a - b')` is set. -/
def enforceCmpLeC (a b : ZMod p) : Prop :=
  leHalfC a ∧ leHalfC (b + 1) ∧ (2 * (a - (b + 1))).val.testBit 0 = true

/-- The linear combination of `crates/bls-gadgets/src/bitmap.rs:24-28,42-47`. -/
def occurrencesLc (value : Bool) : List Bool → ZMod p
  | [] => 0
  | b :: bs =>
    (if !value then 1 else 0) + bit b * (if !value then -1 else 1) + occurrencesLc value bs

/-- Constraints of `enforce_maximum_occurrences_in_bitmap`,
`crates/bls-gadgets/src/bitmap.rs:20-75`; `occurrences` is the witness of line 57. -/
def maxOccurrencesC (bitmap : List Bool) (maxOccurrences : ZMod p) (value : Bool)
    (occurrences : ZMod p) : Prop :=
  enforceCmpLeC occurrences maxOccurrences ∧
  occurrencesLc value bitmap * 1 = occurrences

/-- The counter of `crates/bls-gadgets/src/bitmap.rs:33,49-53`, a `u8`.  With overflow checks the
addition panics at 256, without them it wraps. -/
def countWitness (overflowChecks : Bool) (value : Bool) : List Bool → UInt8 → Outcome Unit UInt8
  | [], acc => .ok acc
  | b :: bs, acc =>
    if b = value then
      if overflowChecks && acc.toNat == 255 then .panic
      else countWitness overflowChecks value bs (acc + 1)
    else countWitness overflowChecks value bs acc

/-- Assignment of the witness of `enforce_maximum_occurrences_in_bitmap`,
`crates/bls-gadgets/src/bitmap.rs:57`. -/
def maxOccurrencesWitness (overflowChecks : Bool) (bitmap : List Bool) (value : Bool) :
    Outcome Unit (ZMod p) :=
  (countWitness overflowChecks value bitmap 0).map fun c => (c.toNat : ZMod p)

end

section

variable {G2 : Type*} [AddCommGroup G2]

/-- The loop of `enforce_aggregated_pubkeys`, `crates/bls-gadgets/src/bls.rs:145-152`: constraints
and aggregate.  `conditional_enforce_not_equal`, `select` and the addition of curve variables
(ark_r1cs_std, external) are the operations on the points. -/
def aggregatedLoop (padding : G2) : List (G2 × Bool) → G2 → Prop × G2
  | [], acc => (True, acc)
  | (pk, b) :: rest, acc =>
    let adder := if b then pk else 0
    let r := aggregatedLoop padding rest (acc + adder)
    ((b = true → pk ≠ padding) ∧ r.1, r.2)

/-- `enforce_aggregated_pubkeys`, `crates/bls-gadgets/src/bls.rs:137-155`. -/
def enforceAggregatedPubkeys (pubKeys : List G2) (bitmap : List Bool) (padding : G2) :
    Outcome Unit (Prop × G2) :=
  if bitmap.length = pubKeys.length then
    .ok (aggregatedLoop padding (pubKeys.zip bitmap) 0)
  else .panic

/-- `enforce_aggregated_all_pubkeys`, `crates/bls-gadgets/src/bls.rs:160-171`. -/
def enforceAggregatedAllPubkeys (pubKeys : List G2) : G2 :=
  pubKeys.foldl (fun acc pk => acc + pk) 0

/-- `enforce_bitmap`, `crates/bls-gadgets/src/bls.rs:179-192`: constraints, message hash and
aggregate key.  `occurrences` is the witness of the threshold gadget. -/
def enforceBitmap {p : ℕ} {G1 : Type*} (pubKeys : List G2) (bitmap : List Bool) (messageHash : G1)
    (maximumNonSigners : ZMod p) (padding : G2) (occurrences : ZMod p) :
    Outcome Unit (Prop × G1 × G2) :=
  (enforceAggregatedPubkeys pubKeys bitmap padding).map fun r =>
    (maxOccurrencesC bitmap maximumNonSigners false occurrences ∧ r.1, messageHash, r.2)

variable {G1 GT : Type*} [AddCommGroup G1] [CommGroup GT]

/-- `enforce_bls_equation`, `crates/bls-gadgets/src/bls.rs:222-231`.  `e` is the pairing gadget
(`product_of_pairings`, external, which fails on slices of different lengths). -/
def enforceBlsEquation (e : G1 → G2 → GT) (g1 : List G1) (g2 : List G2) : Outcome Unit Prop :=
  if g1.length = g2.length then .ok (((g1.zip g2).map fun x => e x.1 x.2).prod = 1) else .err ()

/-- `batch_verify_prepared`, `crates/bls-gadgets/src/bls.rs:109-129`, with
`prepare_signature_neg_generator` (`197-214`); preparing a point does not change its value. -/
def batchVerifyPrepared (e : G1 → G2 → GT) (gen : G2) (aggregatedPubKeys : List G2)
    (messageHashes : List G1) (aggregatedSignature : G1) : Outcome Unit Prop :=
  enforceBlsEquation e (aggregatedSignature :: messageHashes) (-gen :: aggregatedPubKeys)

/-- `batch_verify`, `crates/bls-gadgets/src/bls.rs:85-105`. -/
def gadgetBatchVerify (e : G1 → G2 → GT) (gen : G2) (aggregatedPubKeys : List G2)
    (messageHashes : List G1) (aggregatedSignature : G1) : Outcome Unit Prop :=
  batchVerifyPrepared e gen aggregatedPubKeys messageHashes aggregatedSignature

/-- `verify`, `crates/bls-gadgets/src/bls.rs:42-77`. -/
def gadgetVerify {p : ℕ} (e : G1 → G2 → GT) (gen : G2) (pubKeys : List G2) (bitmap : List Bool)
    (messageHash signature : G1) (maximumNonSigners : ZMod p) (padding : G2)
    (occurrences : ZMod p) : Outcome Unit Prop :=
  (enforceBitmap pubKeys bitmap messageHash maximumNonSigners padding occurrences).bind fun r =>
    (enforceBlsEquation e [signature, r.2.1] [-gen, r.2.2]).map fun eqn => r.1 ∧ eqn

end

end Verif
