import Verif.Model.G1
import Verif.Model.Prover

/-!
# Hashing to G1 in the circuit, and the helper proof

Models `crates/bls-gadgets/src/hash_to_group.rs`, `hash_bits_to_g1` of
`crates/epoch-snark/src/gadgets/epoch_data.rs`, `crates/epoch-snark/src/gadgets/hash_to_bits.rs` and
`generate_hash_helper` of `crates/epoch-snark/src/api/prover.rs`.

Parameters: `K` is the BLAKE2s gadget, `pedX` the `x` coordinate computed by the Bowe-Hopwood-Pedersen
gadget (ark_crypto_primitives, external), `alloc` what `new_variable_omit_prime_order_check`
(ark_r1cs_std, external) enforces on a witness point.
-/

namespace Verif

open WeierstrassCurve

/-- `blake2xs_params`, `crates/bls-gadgets/src/hash_to_group.rs:57-75`. -/
def blake2xsParams (hashLength : UInt16) (offset : UInt32) (personalization : Bytes) :
    Blake2sBlock where
  digestLength := 32
  keyLength := 0
  fanOut := 0
  depth := 0
  leafLength := 32
  nodeOffset := offset
  xofDigestLength := hashLength / 8
  nodeDepth := 0
  innerLength := 32
  salt := List.replicate 8 0
  personalization := personalization

/-- The blocks of `hash_to_bits` when constraints are generated,
`crates/bls-gadgets/src/hash_to_group.rs:208-230`: the output bits are a function of the message
bits. -/
def hashToBitsBlake (K : Blake2sCore) (message : List Bool) (hashLength : UInt16)
    (personalization : Bytes) : Outcome Unit (List Bool) :=
  if hashLength % 256 ≠ 0 then .panic
  else .ok ((List.range (hashLength / 256).toNat).flatMap fun i =>
    K.evaluate message (blake2xsParams hashLength (UInt32.ofNat i) personalization).parameters)

/-- Constraints of `hash_to_bits`, `crates/bls-gadgets/src/hash_to_group.rs:192-250`, on its output
`xof`: without `generate` these are 512 fresh witnesses (`232-246`), whatever the message and
the requested length. -/
def hashToBitsC (K : Blake2sCore) (message : List Bool) (hashLength : UInt16)
    (personalization : Bytes) (generate : Bool) (xof : List Bool) : Outcome Unit Prop :=
  if generate then (hashToBitsBlake K message hashLength personalization).map fun o => xof = o
  else .ok (xof.length = 512)

/-- Values of the output of `hash_to_bits`, `crates/bls-gadgets/src/hash_to_group.rs:192-250`: the
blocks, or the native XOF (`236-240`, unwrapped). -/
def hashToBitsWitness (K : Blake2sCore) (B : Blake2s) (message : List Bool) (hashLength : UInt16)
    (personalization : Bytes) (generate : Bool) : Outcome Unit (List Bool) :=
  if generate then hashToBitsBlake K message hashLength personalization
  else match directXof B personalization (bitsLeToBytesLe message) 64 with
    | .ok hashResult => .ok (bytesLeToBitsLe hashResult 512)
    | _ => .panic

/-- The padding loop of `crates/bls-gadgets/src/hash_to_group.rs:169-175`. -/
def padToBytes (bits : List Bool) : List Bool :=
  bits ++ List.replicate (8 * ((bits.length + 7) / 8) - bits.length) false

/-- `HashToGroupGadget::pedersen_hash`, `crates/bls-gadgets/src/hash_to_group.rs:148-177`: the 377
bits of the `x` coordinate, least significant first, padded to a multiple of 8.  The errors of the
parameter setup are left out. -/
def pedersenBits (pedX : Bytes → Fq) (input : Bytes) : List Bool :=
  padToBytes (fieldBitsBe 377 (pedX input)).reverse

/-- A `G1Var` (`ProjectiveVar`, ark_r1cs_std, external): homogeneous projective coordinates; `x` and
`y` are read at `crates/bls-gadgets/src/hash_to_group.rs:304-307`. -/
structure G1Var where
  x : Fq
  y : Fq
  z : Fq

open Classical in
/-- The curve point a `G1Var` denotes, as for `G2Var.point`
(`crates/bls-gadgets/src/hash_to_group.rs:318` multiplies it by the cofactor). -/
noncomputable def G1Var.point (v : G1Var) : G1Point :=
  if h : v.z ≠ 0 ∧ g1Curve.Nonsingular (v.x / v.z) (v.y / v.z) then .some _ _ h.2 else 0

/-- `SIGN_BIT_POSITION`, `crates/bls-gadgets/src/hash_to_group.rs:38-44`. -/
def SIGN_BIT_POSITION (compat : Bool) : ℕ := if compat then 377 else 383

/-- `X_BITS`, `crates/bls-gadgets/src/hash_to_group.rs:47`. -/
def X_BITS : ℕ := 377

/-- Witnesses of `hash_to_group`, `crates/bls-gadgets/src/hash_to_group.rs:266-297`: the point, and
the bit and `adjusted` of its sign gadget (`307`). -/
structure GroupVars where
  point : G1Var
  yBit : Bool
  adjusted : Fq

/-- `HashToGroupGadget::hash_to_group`, `crates/bls-gadgets/src/hash_to_group.rs:256-322`, with
`scale_by_cofactor_g1` (`326-341`): constraints and result.  Slicing and indexing too few bits
panics; only as many bits of `x` are compared as both lists have (`zip`, `313`). -/
noncomputable def hashToGroup (alloc : G1Var → Prop) (compat : Bool) (xofBits : List Bool)
    (w : GroupVars) : Outcome Unit (Prop × G1Point) :=
  if xofBits.length < X_BITS then .panic
  else match xofBits[SIGN_BIT_POSITION compat]? with
    | none => .panic
    | some signBit =>
      let xBits := xofBits.take X_BITS
      let compressedPoint := (fieldBitsBe 377 w.point.x).reverse
      .ok (alloc w.point ∧ yToBitG1C (.var w.point.y) w.adjusted w.yBit ∧
          (∀ ab ∈ compressedPoint.zip xBits, ab.1 = ab.2) ∧ w.yBit = signBit,
        G1_COFACTOR • w.point.point)

/-- Values of the witnesses of `hash_to_group`,
`crates/bls-gadgets/src/hash_to_group.rs:266-297`.  `from_bits_le` of 377 bits is a number, and
`from_repr` fails for numbers not below the modulus. -/
def hashToGroupWitness (sqrt : Fq → Option Fq) (compat : Bool) (xofBits : List Bool) :
    Outcome Unit GroupVars :=
  if xofBits.length < X_BITS then .panic
  else match xofBits[SIGN_BIT_POSITION compat]? with
    | none => .panic
    | some signBit =>
      let big := fromBitsBe (xofBits.take X_BITS).reverse
      if big < FQ_MODULUS then
        match getPointFromX sqrt (big : Fq) signBit with
        | some (.finite x y) =>
          .ok ⟨⟨x, y, 1⟩, (normalizeWitness (.var y)).2, (normalizeWitness (.var y)).1⟩
        | some .infinity =>
          .ok ⟨⟨0, 1, 0⟩, (normalizeWitness (.var (1 : Fq))).2, (normalizeWitness (.var (1 : Fq))).1⟩
        | none => .err ()
      else .err ()

/-- `UInt8::to_bits_le` (ark_r1cs_std, external), used at
`crates/bls-gadgets/src/hash_to_group.rs:125,129`: a byte is held as its eight bits. -/
def byteBits (b : UInt8) : List Bool := (List.range 8).map b.toNat.testBit

/-- The message of the XOF, `crates/bls-gadgets/src/hash_to_group.rs:124-132`. -/
def xofInput (counter : UInt8) (extra : Bytes) (crhBits : List Bool) : List Bool :=
  byteBits counter ++ extra.flatMap byteBits ++ crhBits

/-- Witnesses of `hash_bits_to_g1`, `crates/epoch-snark/src/gadgets/epoch_data.rs:238-301`: the
counter (`293`), the XOF bits and those of `hash_to_group`. -/
structure HashVars where
  counter : UInt8
  xofBits : List Bool
  group : GroupVars

/-- `HashToGroupGadget::enforce_hash_to_group`,
`crates/bls-gadgets/src/hash_to_group.rs:105-145`: constraints and results. -/
noncomputable def enforceHashToGroup (alloc : G1Var → Prop) (compat : Bool) (K : Blake2sCore)
    (pedX : Bytes → Fq) (message extra : Bytes) (generate : Bool) (w : HashVars) :
    Outcome Unit (Prop × HashOut G1Point) :=
  let crhBits := pedersenBits pedX message
  let input := xofInput w.counter extra crhBits
  (hashToBitsC K input 512 SIG_DOMAIN generate w.xofBits).bind fun xofC =>
    (hashToGroup alloc compat w.xofBits w.group).map fun r =>
      (xofC ∧ r.1, ⟨r.2, crhBits, w.xofBits⟩)

/-- `UInt8::from_bits_le` (ark_r1cs_std, external), used at
`crates/epoch-snark/src/gadgets/epoch_data.rs:261,271`: the byte with the given eight bits. -/
def uint8FromBitsLe (bits : List Bool) : UInt8 := UInt8.ofNat (fromBitsBe bits.reverse)

/-- Packing in bytes, `crates/epoch-snark/src/gadgets/epoch_data.rs:245-262` (and `247,263-273`). -/
def packBytes (bits : List Bool) : Bytes :=
  (chunks 8 bits.reverse).map fun chunk =>
    uint8FromBitsLe (chunk ++ List.replicate (8 - chunk.length) false)

/-- `hash_bits_to_g1`, `crates/epoch-snark/src/gadgets/epoch_data.rs:238-301`: constraints and
results.  Nothing constrains the counter. -/
noncomputable def hashBitsToG1 (alloc : G1Var → Prop) (compat : Bool) (K : Blake2sCore)
    (pedX : Bytes → Fq) (generate : Bool) (epochBits extraBits : List Bool) (w : HashVars) :
    Outcome Unit (Prop × HashOut G1Point) :=
  enforceHashToGroup alloc compat K pedX (packBytes epochBits) (packBytes extraBits) generate w

/-- What the circuit enforces between the bits of an epoch and the hash: some witnesses satisfy
the constraints of `hash_bits_to_g1`, `crates/epoch-snark/src/gadgets/epoch_data.rs:238-301`. -/
def hashBitsToG1C (alloc : G1Var → Prop) (compat : Bool) (K : Blake2sCore) (pedX : Bytes → Fq)
    (generate : Bool) (epochBits extraBits : List Bool) (out : HashOut G1Point) : Prop :=
  ∃ w sat, hashBitsToG1 alloc compat K pedX generate epochBits extraBits w = .ok (sat, out) ∧ sat

/-- Values assigned to the witnesses of `hash_bits_to_g1`,
`crates/epoch-snark/src/gadgets/epoch_data.rs:275-300`: the counter is the one found natively by
`COMPOSITE_HASH_TO_G1_CIP22`, cast to a byte. -/
noncomputable def hashBitsToG1Witness (compat : Bool) (K : Blake2sCore) (B : Blake2s)
    (pedersen : Bytes → Outcome BLSError Bytes) (pedX : Bytes → Fq) (sqrt : Fq → Option Fq)
    (generate : Bool) (epochBits extraBits : List Bool) : Outcome Unit HashVars :=
  letI : DecidableEq G1Point := Classical.decEq _
  match hashWithAttemptCip22 compat (compositeHasher B pedersen) sqrt g1Scale SIG_DOMAIN
      (packBytes epochBits) (packBytes extraBits) with
  | .err _ => .err ()
  | .panic => .panic
  | .ok (_, counter) =>
    let input := xofInput (UInt8.ofNat counter) (packBytes extraBits)
      (pedersenBits pedX (packBytes epochBits))
    (hashToBitsWitness K B input 512 SIG_DOMAIN generate).bind fun xofBits =>
      (hashToGroupWitness sqrt compat xofBits).map fun g => ⟨UInt8.ofNat counter, xofBits, g⟩

/-- The outputs computed from those values, `crates/epoch-snark/src/gadgets/epoch_data.rs:293-300`. -/
noncomputable def hashBitsToG1Out (compat : Bool) (K : Blake2sCore) (B : Blake2s)
    (pedersen : Bytes → Outcome BLSError Bytes) (pedX : Bytes → Fq) (sqrt : Fq → Option Fq)
    (generate : Bool) (epochBits extraBits : List Bool) : Outcome Unit (HashOut G1Point) :=
  (hashBitsToG1Witness compat K B pedersen pedX sqrt generate epochBits extraBits).map fun w =>
    ⟨G1_COFACTOR • w.group.point.point, pedersenBits pedX (packBytes epochBits), w.xofBits⟩

/-! ## The helper -/

/-- The bits and digests of `HashToBits::generate_constraints`,
`crates/epoch-snark/src/gadgets/hash_to_bits.rs:43-53`: concatenated messages and concatenated XOF
bits.  `messages` are witnesses. -/
def helperBits (K : Blake2sCore) (messages : List (List Bool)) :
    Outcome Unit (List Bool × List Bool) :=
  (Outcome.mapM (fun m => hashToBitsBlake K m 512 SIG_DOMAIN) messages).map fun hs =>
    (messages.flatten, hs.flatten)

/-- Constraints of `HashToBits::generate_constraints`,
`crates/epoch-snark/src/gadgets/hash_to_bits.rs:35-69`, over the 253-bit scalar field with
`CAPACITY = 252`; the public inputs are `messagesIn` followed by `xofIn`. -/
def helperCircuit (K : Blake2sCore) (messages : List (List Bool))
    (messagesIn xofIn : List (ZMod FR_MODULUS)) : Outcome Unit Prop :=
  (helperBits K messages).map fun b =>
    multipackC 253 252 b.1 messagesIn ∧ multipackC 253 252 b.2 xofIn

/-- The messages the prover gives to the helper circuit, `generate_hash_helper`,
`crates/epoch-snark/src/api/prover.rs:85-109`: for each real transition the CRH of the epoch bytes,
as 384 bits, **most significant first**.  Both `unwrap`s panic on errors. -/
noncomputable def helperMessages {G1 : Type*} (gen2 : G2Point)
    (pedersen : Bytes → Outcome BLSError Bytes) (transitions : List (EpochTransition G1)) :
    Outcome Unit (List (List Bool)) :=
  Outcome.mapM (fun t =>
    match pedersen (t.block.encodeInnerToBytes gen2).1 with
    | .ok crhBytes => .ok (bytesLeToBitsBe crhBytes 384)
    | _ => .panic) transitions

end Verif
