import Verif.Model.Hashers
import Verif.Lemmas.Primes

/-!
# Hashing to the curve by try-and-increment

Models `crates/bls-crypto/src/hash_to_curve/{mod,try_and_increment,try_and_increment_cip22}.rs`
instantiated at G1 of BLS12-377 (`y ^ 2 = x ^ 3 + 1` over the 377-bit prime field), which is the
only instantiation the crate exports (`try_and_increment.rs:30-38`).

Parameters: the byte hasher, the field square root `sqrt` (ark_ff, external) and multiplication by
the cofactor `scale` (`scale_by_cofactor`, ark_ec, external).
-/

namespace Verif

/-- The base field of G1 (external type `ark_bls12_377::Fq`; used at
`crates/bls-crypto/src/hash_to_curve/mod.rs:146`). -/
abbrev Fq := ZMod FQ_MODULUS

/-- `YSignFlags`, `crates/bls-crypto/src/hash_to_curve/mod.rs:77-81`; the Boolean says whether the
point at infinity is meant. -/
inductive YSignFlags where
  | positiveY (infinity : Bool)
  | negativeY (infinity : Bool)
  deriving DecidableEq, Repr

namespace YSignFlags

/-- `crates/bls-crypto/src/hash_to_curve/mod.rs:85-91`. -/
def fromYSign (isPositive : Bool) : YSignFlags :=
  if isPositive then positiveY false else negativeY false

/-- `crates/bls-crypto/src/hash_to_curve/mod.rs:94-99`. -/
def isInfinity : YSignFlags → Bool
  | positiveY true => true
  | negativeY true => true
  | _ => false

/-- `crates/bls-crypto/src/hash_to_curve/mod.rs:102-107`. -/
def isPositive : YSignFlags → Option Bool
  | positiveY _ => some true
  | negativeY _ => some false

/-- `Default`, `crates/bls-crypto/src/hash_to_curve/mod.rs:110-116`. -/
def default : YSignFlags := negativeY false

/-- `u8_bitmask`, `crates/bls-crypto/src/hash_to_curve/mod.rs:122-133`. -/
def u8Bitmask (f : YSignFlags) : UInt8 :=
  let mask : UInt8 := match f with
    | positiveY true | negativeY true => (0 : UInt8) ||| ((1 : UInt8) <<< 6)
    | _ => 0
  match f with
    | positiveY false | positiveY true => mask ||| ((1 : UInt8) <<< 7)
    | _ => mask

/-- `from_u8`, `crates/bls-crypto/src/hash_to_curve/mod.rs:136-143`. -/
def fromU8 (value : UInt8) : Option YSignFlags :=
  let xSign : Bool := (value >>> 7) &&& 1 == 1
  let isInfinity : Bool := (value >>> 6) &&& 1 == 1
  if xSign then some (positiveY isInfinity) else some (negativeY isInfinity)

end YSignFlags

/-- `GroupAffine` (ark_ec, external): the point at infinity or a pair of coordinates, as built at
`crates/bls-crypto/src/hash_to_curve/mod.rs:149,151`. -/
inductive AffinePoint (F : Type*) where
  | infinity
  | finite (x y : F)
  deriving DecidableEq, Repr

/-- `GroupAffine::serialized_size` of a G1 point (ark_ec, external): 48 bytes; used at
`crates/bls-crypto/src/hash_to_curve/try_and_increment.rs:93`. -/
def NUM_BYTES : ℕ := 48

/-- `from_random_bytes_with_flags` of the 377-bit field (ark_ff, external), called at
`crates/bls-crypto/src/hash_to_curve/mod.rs:147`: the bytes are copied into a zeroed 49-byte
buffer, the flags are the two top bits of byte 47, everything at or above bit 377 is masked away,
and the rest is rejected unless it is below the modulus. -/
def fqFromRandomBytesWithFlags (bytes : Bytes) : Option (Fq × YSignFlags) :=
  let buffer := (bytes ++ List.replicate 49 0).take 49
  let last := buffer.getD 47 0
  let flags := last &&& 0xC0
  let v := leValue ((buffer.take 47) ++ [last &&& 1])
  if v < FQ_MODULUS then (YSignFlags.fromU8 flags).map fun f => ((v : Fq), f) else none

/-- `GroupAffine::get_point_from_x` (ark_ec, external; the copy at
`crates/bls-crypto/src/hash_to_curve/mod.rs:295-310` is identical), for `y ^ 2 = x ^ 3 + 1`.
Field elements are compared as integers in `[0, q)`. -/
def getPointFromX (sqrt : Fq → Option Fq) (x : Fq) (greatest : Bool) : Option (AffinePoint Fq) :=
  (sqrt (x * x * x + 0 * x + 1)).map fun y =>
    let negy := -y
    let y := if xor (decide (y.val < negy.val)) greatest then y else negy
    .finite x y

/-- `from_random_bytes`, `crates/bls-crypto/src/hash_to_curve/mod.rs:146-156`. -/
def fromRandomBytes (sqrt : Fq → Option Fq) (bytes : Bytes) : Option (AffinePoint Fq) :=
  (fqFromRandomBytesWithFlags bytes).bind fun (x, flags) =>
    if x = 0 ∧ flags.isInfinity = true then some .infinity
    else match flags.isPositive with
      | some yIsPositive => getPointFromX sqrt x yIsPositive
      | none => none

/-- The bit move done under the `compat` feature,
`crates/bls-crypto/src/hash_to_curve/try_and_increment.rs:106-120` (identical at
`try_and_increment_cip22.rs:102-115`).  Slicing or indexing past the end panics. -/
def compatMove (candidate : Bytes) : Outcome BLSError Bytes :=
  if candidate.length < NUM_BYTES then .panic
  else
    let candidate := candidate.take NUM_BYTES
    let last := candidate.getD (NUM_BYTES - 1) 0
    let positiveFlag : Bool := last &&& 2 != 0
    if positiveFlag then
      .ok (candidate.set (NUM_BYTES - 1) (last ||| (YSignFlags.positiveY false).u8Bitmask))
    else
      .ok (candidate.set (NUM_BYTES - 1) (last &&& ~~~(YSignFlags.positiveY false).u8Bitmask))

/-- Everything an iteration does with the digest:
`crates/bls-crypto/src/hash_to_curve/try_and_increment.rs:105-135` (identical at
`try_and_increment_cip22.rs:101-130`).  `compat` is the cargo feature; `none` means "try the next
counter". -/
def processCandidate {G : Type*} [Zero G] [DecidableEq G] (compat : Bool)
    (sqrt : Fq → Option Fq) (scale : AffinePoint Fq → G) (candidate : Bytes) :
    Outcome BLSError (Option G) :=
  (if compat then compatMove candidate else .ok candidate).bind fun candidate =>
  if candidate.length < NUM_BYTES then .panic
  else match fromRandomBytes sqrt (candidate.take NUM_BYTES) with
    | some p =>
      let scaled := scale p
      if scaled = 0 then .ok none else .ok (some scaled)
    | none => .ok none

/-- The counter loop of `crates/bls-crypto/src/hash_to_curve/try_and_increment.rs:98-138` (same
shape at `try_and_increment_cip22.rs:92-133`), over the counters still to be tried. -/
def tryLoop {G : Type*} (attempt : ℕ → Outcome BLSError (Option G)) :
    List ℕ → Outcome BLSError (G × ℕ)
  | [] => .err .hashToCurveError
  | c :: cs => (attempt c).bind fun
    | some g => .ok (g, c)
    | none => tryLoop attempt cs

/-- `NUM_TRIES`, `crates/bls-crypto/src/hash_to_curve/try_and_increment.rs:27` (and
`try_and_increment_cip22.rs:27`). -/
def NUM_TRIES : ℕ := 255

section
variable {G : Type*} [Zero G] [DecidableEq G] (compat : Bool) (h : Hasher)
  (sqrt : Fq → Option Fq) (scale : AffinePoint Fq → G)

/-- `TryAndIncrement::hash_with_attempt`,
`crates/bls-crypto/src/hash_to_curve/try_and_increment.rs:87-139`.  Timers and traces omitted. -/
def hashWithAttempt (domain message extra : Bytes) : Outcome BLSError (G × ℕ) :=
  let hashBytes := hashLength NUM_BYTES
  tryLoop (fun c =>
    (h.hash domain ([UInt8.ofNat c] ++ extra ++ message) hashBytes).bind
      (processCandidate compat sqrt scale)) (List.range NUM_TRIES)

/-- `TryAndIncrement::hash`, `crates/bls-crypto/src/hash_to_curve/try_and_increment.rs:70-79`. -/
def tryAndIncrement (domain message extra : Bytes) : Outcome BLSError G :=
  (hashWithAttempt compat h sqrt scale domain message extra).map Prod.fst

/-- `TryAndIncrementCIP22::hash_with_attempt_cip22`,
`crates/bls-crypto/src/hash_to_curve/try_and_increment_cip22.rs:81-134`. -/
def hashWithAttemptCip22 (domain message extra : Bytes) : Outcome BLSError (G × ℕ) :=
  let hashBytes := hashLength NUM_BYTES
  (h.crh domain message hashBytes).bind fun innerHash =>
  tryLoop (fun c =>
    (h.xof domain ([UInt8.ofNat c] ++ extra ++ innerHash) hashBytes).bind
      (processCandidate compat sqrt scale)) (List.range NUM_TRIES)

/-- `TryAndIncrementCIP22::hash`,
`crates/bls-crypto/src/hash_to_curve/try_and_increment_cip22.rs:64-72`. -/
def tryAndIncrementCip22 (domain message extra : Bytes) : Outcome BLSError G :=
  (hashWithAttemptCip22 compat h sqrt scale domain message extra).map Prod.fst

end

/-- Decoding step of the previously deployed logic, kept as the reference function of the test
suite: `crates/bls-crypto/src/hash_to_curve/mod.rs:344-359`. -/
def legacyDecode (sqrt : Fq → Option Fq) (hash : Bytes) : Option (AffinePoint Fq) :=
  let bytes := hash.take NUM_BYTES
  let last := bytes.getD (NUM_BYTES - 1) 0
  let greatest : Bool := last &&& 2 == 2
  let v := leValue (bytes.set (NUM_BYTES - 1) (last &&& 1))
  if v < FQ_MODULUS then getPointFromX sqrt (v : Fq) greatest else none

/-- The rest of an iteration of the deployed logic,
`crates/bls-crypto/src/hash_to_curve/mod.rs:345,356-373`. -/
def legacyProcess {G : Type*} [Zero G] [DecidableEq G] (sqrt : Fq → Option Fq)
    (scale : AffinePoint Fq → G) (hash : Bytes) : Outcome BLSError (Option G) :=
  if hash.length < NUM_BYTES then .panic
  else match legacyDecode sqrt hash with
    | none => .ok none
    | some p => if scale p = 0 then .ok none else .ok (some (scale p))

/-- `compat_hasher`, `crates/bls-crypto/src/hash_to_curve/mod.rs:312-376`: 256 tries, legacy
decoding. -/
def legacyHashWithAttempt {G : Type*} [Zero G] [DecidableEq G] (h : Hasher)
    (sqrt : Fq → Option Fq) (scale : AffinePoint Fq → G) (domain message extra : Bytes) :
    Outcome BLSError (G × ℕ) :=
  tryLoop (fun c =>
    (h.hash domain ([UInt8.ofNat c] ++ extra ++ message) 64).bind (legacyProcess sqrt scale))
    (List.range 256)

end Verif
