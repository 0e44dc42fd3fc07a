import Verif.Model.Serialize
import Verif.Model.Cache
import Verif.Model.Hashers

/-!
# The C interface (`crates/bls-snark-sys`)

An entry point receives pointers to its outputs.  The memory they point to is the state `σ` of the
computation: every write is an explicit step, so that what an early return leaves behind is
visible.  Inputs behind pointers (`&*ptr`, `slice::from_raw_parts(ptr, len)`) are passed as values;
that the pointers are valid and the `c_int` lengths non-negative is the caller's contract.  Where
the code itself computes addresses, memory is modelled (`Memory`).  Logging is omitted.
-/

namespace Verif

/-- Body of an entry point: may write its outputs, return early with `Err`, or panic
(the closures passed to `convert_result_to_bool`, `crates/bls-snark-sys/src/lib.rs:21`). -/
def FfiM (σ ε α : Type*) := σ → Outcome ε α × σ

namespace FfiM

variable {σ ε α β : Type*}

/-- Sequencing with `?`, as in all closures of `crates/bls-snark-sys/src/signatures.rs:32-505`. -/
def bind (m : FfiM σ ε α) (f : α → FfiM σ ε β) : FfiM σ ε β := fun s =>
  match m s with
  | (.ok a, s') => f a s'
  | (.err e, s') => (.err e, s')
  | (.panic, s') => (.panic, s')

/-- A call that does not touch the outputs, e.g. `crates/bls-snark-sys/src/signatures.rs:60`. -/
def lift (x : Outcome ε α) : FfiM σ ε α := fun s => (x, s)

/-- A write through an output pointer, e.g. `crates/bls-snark-sys/src/signatures.rs:66`. -/
def write (f : σ → σ) : FfiM σ ε Unit := fun s => (.ok (), f s)

end FfiM

/-- `convert_result_to_bool`, `crates/bls-snark-sys/src/lib.rs:21-27`: the value returned to C and
the outputs left behind.  A panic is not caught. -/
def convertResultToBool {σ ε α : Type*} (f : FfiM σ ε α) : FfiM σ Unit Bool := fun s =>
  match f s with
  | (.err _, s') => (.ok false, s')
  | (.ok _, s') => (.ok true, s')
  | (.panic, s') => (.panic, s')

/-- `Result::is_ok` on a call that may panic, e.g. `crates/bls-snark-sys/src/signatures.rs:264`. -/
def resultIsOk {ε ε' α : Type*} : Outcome ε α → Outcome ε' Bool
  | .ok _ => .ok true
  | .err _ => .ok false
  | .panic => .panic

/-- The pair `*mut *mut u8`, `*mut c_int` through which byte strings are returned, e.g.
`crates/bls-snark-sys/src/signatures.rs:96-97`; `none` means not written. -/
structure BytesOut where
  bytes : Option Bytes
  len : Option Int32
  deriving DecidableEq

/-- Handing a vector to the caller, e.g. `crates/bls-snark-sys/src/signatures.rs:106-111`: the
length is cast to `c_int`. -/
def BytesOut.of (v : Bytes) : BytesOut := ⟨some v, some (Int32.ofNat v.length)⟩

/-- The three lazily initialised hash-to-curve instances used by the interface,
`crates/bls-snark-sys/src/signatures.rs:5,9`; each returns the point and the counter. -/
structure HashEnv (G1 : Type*) where
  directAttempt : Bytes → Bytes → Bytes → Outcome BLSError (G1 × ℕ)
  compositeAttempt : Bytes → Bytes → Bytes → Outcome BLSError (G1 × ℕ)
  cip22Attempt : Bytes → Bytes → Bytes → Outcome BLSError (G1 × ℕ)

namespace HashEnv
variable {G1 : Type*} (E : HashEnv G1)

/-- `DIRECT_HASH_TO_G1.hash`, `crates/bls-crypto/src/hash_to_curve/try_and_increment.rs:70-79`. -/
def direct : HashToG1 G1 := fun d m e => (E.directAttempt d m e).map Prod.fst

/-- `COMPOSITE_HASH_TO_G1.hash`,
`crates/bls-crypto/src/hash_to_curve/try_and_increment.rs:70-79`. -/
def composite : HashToG1 G1 := fun d m e => (E.compositeAttempt d m e).map Prod.fst

/-- `COMPOSITE_HASH_TO_G1_CIP22.hash`,
`crates/bls-crypto/src/hash_to_curve/try_and_increment_cip22.rs:64-72`. -/
def cip22 : HashToG1 G1 := fun d m e => (E.cip22Attempt d m e).map Prod.fst

end HashEnv

/-! ## signatures.rs -/

section
variable {r : ℕ} {G1 G2 GT : Type*} [AddCommGroup G1] [Module (ZMod r) G1]
  [AddCommGroup G2] [Module (ZMod r) G2] [CommGroup GT] [DecidableEq GT]
  (P : Pairing r G1 G2 GT) (E : HashEnv G1)

/-- `generate_private_key`, `crates/bls-snark-sys/src/signatures.rs:19-25`; `drawn` is the key drawn
from the thread's random generator (external). -/
def ffiGeneratePrivateKey (drawn : ZMod r) : FfiM (Option (ZMod r)) Unit Bool :=
  (FfiM.write fun _ => some drawn).bind fun _ => FfiM.lift (.ok true)

/-- `private_key_to_public_key`, `crates/bls-snark-sys/src/signatures.rs:28-41`. -/
def ffiPrivateKeyToPublicKey (sk : ZMod r) : FfiM (Option G2) Unit Bool :=
  convertResultToBool (ε := Unit) <|
    let publicKey := toPublic P sk
    FfiM.write fun _ => some publicKey

/-- `sign_message`, `crates/bls-snark-sys/src/signatures.rs:44-71`. -/
def ffiSignMessage (sk : ZMod r) (message extra : Bytes) (useComposite useCip22 : Bool) :
    FfiM (Option G1) Unit Bool :=
  convertResultToBool <|
    (FfiM.lift (match useComposite, useCip22 with
      | true, true => sign sk message extra E.cip22
      | false, true => .err .hashToCurveError
      | true, false => sign sk message extra E.composite
      | false, false => sign sk message extra E.direct)).bind fun signature =>
    FfiM.write fun _ => some signature

/-- `sign_pop`, `crates/bls-snark-sys/src/signatures.rs:74-90`. -/
def ffiSignPop (sk : ZMod r) (message : Bytes) : FfiM (Option G1) Unit Bool :=
  convertResultToBool <|
    (FfiM.lift (signPop sk message E.direct)).bind fun signature =>
    FfiM.write fun _ => some signature

/-- `hash_direct`, `crates/bls-snark-sys/src/signatures.rs:93-114`; `writeAffine` is
`into_affine().write` (external). -/
def ffiHashDirect (writeAffine : G1 → Bytes) (message : Bytes) (usePop : Bool) :
    FfiM BytesOut Unit Bool :=
  convertResultToBool <|
    let domain := if usePop then POP_DOMAIN else SIG_DOMAIN
    (FfiM.lift (E.direct domain message [])).bind fun hash =>
    FfiM.write fun _ => BytesOut.of (writeAffine hash)

/-- `hash_direct_with_attempt`, `crates/bls-snark-sys/src/signatures.rs:117-140`. -/
def ffiHashDirectWithAttempt (writeAffine : G1 → Bytes) (message : Bytes) (usePop : Bool) :
    FfiM (BytesOut × Option Int32) Unit Bool :=
  convertResultToBool <|
    let domain := if usePop then POP_DOMAIN else SIG_DOMAIN
    (FfiM.lift (E.directAttempt domain message [])).bind fun hc =>
    FfiM.write fun _ => (BytesOut.of (writeAffine hc.1), some (Int32.ofNat hc.2))

/-- `hash_composite`, `crates/bls-snark-sys/src/signatures.rs:143-166`; `writeProjective` is
`write` of the projective point (external). -/
def ffiHashComposite (writeProjective : G1 → Bytes) (message extra : Bytes) :
    FfiM BytesOut Unit Bool :=
  convertResultToBool <|
    (FfiM.lift (E.composite SIG_DOMAIN message extra)).bind fun hash =>
    FfiM.write fun _ => BytesOut.of (writeProjective hash)

/-- `hash_crh`, `crates/bls-snark-sys/src/signatures.rs:169-189`; `composite` is
`COMPOSITE_HASHER`. -/
def ffiHashCrh (composite : Hasher) (message : Bytes) (hashBytes : ℕ) : FfiM BytesOut Unit Bool :=
  convertResultToBool <|
    (FfiM.lift (composite.crh SIG_DOMAIN message hashBytes)).bind fun hash =>
    FfiM.write fun _ => BytesOut.of hash

/-- `hash_direct_first_step`, `crates/bls-snark-sys/src/signatures.rs:192-212`; `direct` is
`DirectHasher`. -/
def ffiHashDirectFirstStep (direct : Hasher) (message : Bytes) (hashBytes : ℕ) :
    FfiM BytesOut Unit Bool :=
  convertResultToBool <|
    (FfiM.lift (direct.hash SIG_DOMAIN message hashBytes)).bind fun hash =>
    FfiM.write fun _ => BytesOut.of hash

/-- `hash_composite_cip22`, `crates/bls-snark-sys/src/signatures.rs:215-241`: the counter is cast to
a byte. -/
def ffiHashCompositeCip22 (writeProjective : G1 → Bytes) (message extra : Bytes) :
    FfiM (BytesOut × Option UInt8) Unit Bool :=
  convertResultToBool <|
    (FfiM.lift (E.cip22Attempt SIG_DOMAIN message extra)).bind fun hc =>
    FfiM.write fun _ => (BytesOut.of (writeProjective hc.1), some (UInt8.ofNat hc.2))

/-- `verify_signature`, `crates/bls-snark-sys/src/signatures.rs:244-277`. -/
def ffiVerifySignature (pk : G2) (message extra : Bytes) (sig : G1)
    (useComposite useCip22 : Bool) : FfiM (Option Bool) Unit Bool :=
  convertResultToBool <|
    (FfiM.lift (match useComposite, useCip22 with
      | true, true => resultIsOk (verify P pk message extra sig E.cip22)
      | false, true => .err BLSError.hashToCurveError
      | true, false => resultIsOk (verify P pk message extra sig E.composite)
      | false, false => resultIsOk (verify P pk message extra sig E.direct))).bind fun verified =>
    FfiM.write fun _ => some verified

/-- `Message`, `crates/bls-snark-sys/src/utils.rs:10-18`. -/
structure FfiMessage (G1 G2 : Type*) where
  data : Bytes
  extra : Bytes
  publicKey : G2
  sig : G1

/-- `batch_verify_signature`, `crates/bls-snark-sys/src/signatures.rs:290-333`. -/
def ffiBatchVerifySignature (messages : List (FfiMessage G1 G2)) (useComposite useCip22 : Bool) :
    FfiM (Option Bool) Unit Bool :=
  convertResultToBool <|
    let asig := aggregateSignatures (messages.map fun m => m.sig)
    let pubkeys := messages.map fun m => m.publicKey
    let msgs := messages.map fun m => (m.data, m.extra)
    (FfiM.lift (match useComposite, useCip22 with
      | true, true => resultIsOk (batchVerify P asig pubkeys SIG_DOMAIN msgs E.cip22)
      | false, true => .err BLSError.hashToCurveError
      | true, false => resultIsOk (batchVerify P asig pubkeys SIG_DOMAIN msgs E.composite)
      | false, false => resultIsOk (batchVerify P asig pubkeys SIG_DOMAIN msgs E.direct))).bind
      fun verified =>
    FfiM.write fun _ => some verified

/-- `BatchMessageFFI`, `crates/bls-snark-sys/src/utils.rs:61-72`, with its pointers followed
(`signatures.rs:359-374`). -/
structure BatchMessage (G1 G2 : Type*) where
  data : Bytes
  extra : Bytes
  publicKeys : List G2
  signatures : List G1

/-- The loop body of `batch_verify_strict`, `crates/bls-snark-sys/src/signatures.rs:359-390`; `rng`
is the randomness drawn by `Batch::verify`. -/
def strictResult (batch : BatchMessage G1 G2) (useComposite useCip22 : Bool)
    (rng : ℕ → ℕ → UInt8) : Outcome BLSError Bool :=
  let context := (batch.publicKeys.zip batch.signatures).foldl
    (fun c e => c.add e.1 e.2) (Batch.new batch.data batch.extra)
  match useComposite, useCip22 with
  | true, true => resultIsOk (context.verify P E.cip22 rng)
  | false, true => .ok false
  | true, false => resultIsOk (context.verify P E.composite rng)
  | false, false => resultIsOk (context.verify P E.direct rng)

/-- The loop of `batch_verify_strict`, `crates/bls-snark-sys/src/signatures.rs:356-396`: `index` and
`allValid` are its variables, the outputs are the array at `out_results`. -/
def strictLoop (useComposite useCip22 : Bool) (rng : ℕ → ℕ → ℕ → UInt8) :
    List (BatchMessage G1 G2) → ℕ → Bool → FfiM (ℕ → Bool) BLSError Bool
  | [], _, allValid => FfiM.lift (.ok allValid)
  | batch :: rest, index, allValid =>
    (FfiM.lift (strictResult P E batch useComposite useCip22 (rng index))).bind fun result =>
    let allValid := if !result then false else allValid
    (FfiM.write fun results => Function.update results index result).bind fun _ =>
    strictLoop useComposite useCip22 rng rest (index + 1) allValid

/-- `batch_verify_strict`, `crates/bls-snark-sys/src/signatures.rs:343-404`. -/
def ffiBatchVerifyStrict (batches : List (BatchMessage G1 G2)) (useComposite useCip22 : Bool)
    (rng : ℕ → ℕ → ℕ → UInt8) : FfiM (ℕ → Bool) Unit Bool :=
  convertResultToBool <|
    (strictLoop P E useComposite useCip22 rng batches 0 true).bind fun allValid =>
    FfiM.lift (if !allValid then .err BLSError.verificationFailed else .ok ())

/-- `verify_pop`, `crates/bls-snark-sys/src/signatures.rs:407-425`. -/
def ffiVerifyPop (pk : G2) (message : Bytes) (sig : G1) : FfiM (Option Bool) Unit Bool :=
  convertResultToBool (ε := BLSError) <|
    (FfiM.lift (resultIsOk (verifyPop P pk message sig E.direct))).bind fun verified =>
    FfiM.write fun _ => some verified

/-- `aggregate_signatures`, `crates/bls-snark-sys/src/signatures.rs:485-505`. -/
def ffiAggregateSignatures (signatures : List G1) : FfiM (Option G1) Unit Bool :=
  convertResultToBool (ε := BLSError) <|
    let aggregated := aggregateSignatures signatures
    FfiM.write fun _ => some aggregated

end

section
variable {F : Type*} [DecidableEq F] {G : Type*} [AddCommGroup G] (ops : CurveOps F G)

/-- `aggregate_public_keys`, `crates/bls-snark-sys/src/signatures.rs:428-451`.  The state holds the
output and the global cache (`cache.rs:5-6`); the lock is never poisoned (no call panics while
holding it, see C17). -/
def ffiAggregatePublicKeys (publicKeys : List (JacRep F)) (hy : F → ℕ)
    (sh1 sh2 : List (JacRep F) → List (JacRep F)) :
    FfiM (Option (JacRep F) × PublicKeyCache F) Unit Bool :=
  convertResultToBool (ε := BLSError) <|
    FfiM.bind (fun s => let res := s.2.aggregate ops publicKeys hy sh1 sh2
      (.ok res.1, (s.1, res.2))) fun aggregated =>
    FfiM.write fun s => (some aggregated, s.2)

/-- `aggregate_public_keys_subtract`, `crates/bls-snark-sys/src/signatures.rs:454-482`. -/
def ffiAggregatePublicKeysSubtract (agg : JacRep F) (publicKeys : List (JacRep F)) (hy : F → ℕ)
    (sh1 sh2 : List (JacRep F) → List (JacRep F)) :
    FfiM (Option (JacRep F) × PublicKeyCache F) Unit Bool :=
  convertResultToBool (ε := BLSError) <|
    FfiM.bind (fun s => let res := s.2.aggregate ops publicKeys hy sh1 sh2
      (.ok res.1, (s.1, res.2))) fun toSubtract =>
    let prepared := ops.sub agg toSubtract
    FfiM.write fun s => (some prepared, s.2)

/-- `deserialize_public_key_cached`, `crates/bls-snark-sys/src/serialization.rs:44-60`. -/
def ffiDeserializePublicKeyCached (deser : Bytes → Outcome BLSError (JacRep F)) (bytes : Bytes) :
    FfiM (Option (JacRep F) × PublicKeyCache F) Unit Bool :=
  convertResultToBool (ε := BLSError) <|
    FfiM.bind (fun s => let res := s.2.deserialize deser bytes
      (res.1, (s.1, res.2))) fun key =>
    FfiM.write fun s => (some key, s.2)

end

/-! ## serialization.rs -/

/-- `From<SerializationError> for BLSError`, `crates/bls-crypto/src/lib.rs:110-112`. -/
def liftSer {α : Type*} : Outcome SerError α → Outcome BLSError α
  | .ok a => .ok a
  | .err _ => .err .serializationError
  | .panic => .panic

section
variable {T : Type*}

/-- `deserialize`, `crates/bls-snark-sys/src/serialization.rs:107-122`, behind
`deserialize_private_key` (13-23), `deserialize_public_key` (35-41) and `deserialize_signature`
(81-87).  Bytes after the object are ignored. -/
def ffiDeserialize (deser : Bytes → Outcome SerError (T × Bytes)) (bytes : Bytes) :
    FfiM (Option T) Unit Bool :=
  convertResultToBool <|
    (FfiM.lift (liftSer (deser bytes))).bind fun key =>
    FfiM.write fun _ => some key.1

/-- `serialize`, `crates/bls-snark-sys/src/serialization.rs:124-142` and `serialize_uncompressed`,
`144-162` (the same code around the other format); writing into a vector does not fail. -/
def ffiSerialize (ser : T → Bytes) (obj : T) : FfiM BytesOut Unit Bool :=
  convertResultToBool (ε := BLSError) <|
    let objBytes := ser obj
    FfiM.write fun _ => BytesOut.of objBytes

end

/-- A slice `&v[a..b]`: panics out of bounds (`crates/bls-snark-sys/src/serialization.rs:175`). -/
def sliceRange {ε : Type*} (v : Bytes) (a b : ℕ) : Outcome ε Bytes :=
  if b ≤ v.length then .ok ((v.take b).drop a) else .panic

/-- `compress_signature`, `crates/bls-snark-sys/src/serialization.rs:167-189`.  `affine` is not
checked to be on the curve. -/
def ffiCompressSignature (signature : Bytes) : FfiM BytesOut Unit Bool :=
  convertResultToBool (ε := BLSError) <|
    (FfiM.lift ((sliceRange signature 0 48).bind fun s => Outcome.unwrap (fqRead s))).bind fun x =>
    (FfiM.lift ((sliceRange signature 48 96).bind fun s => Outcome.unwrap (fqRead s))).bind fun y =>
    let affine := AffinePoint.finite x y
    let objBytes := serializeAffine fqCodec affine
    FfiM.write fun _ => BytesOut.of objBytes

/-- `compress_pubkey`, `crates/bls-snark-sys/src/serialization.rs:192-216`. -/
def ffiCompressPubkey (pubkey : Bytes) : FfiM BytesOut Unit Bool :=
  convertResultToBool (ε := BLSError) <|
    (FfiM.lift ((sliceRange pubkey 0 96).bind fun s => Outcome.unwrap (fq2Codec.read s))).bind fun x =>
    (FfiM.lift ((sliceRange pubkey 96 192).bind fun s => Outcome.unwrap (fq2Codec.read s))).bind fun y =>
    let affine := AffinePoint.finite x y
    let objBytes := serializeAffine fq2Codec affine
    FfiM.write fun _ => BytesOut.of objBytes

/-! ## Memory: utils.rs and snark/epoch_block.rs -/

/-- The address space as seen by the interface; address 0 is the null pointer
(`crates/bls-snark-sys/src/snark/epoch_block.rs:205`). -/
abbrev Memory := ℕ → UInt8

/-- `slice::from_raw_parts(ptr, len)` (std, external), e.g.
`crates/bls-snark-sys/src/utils.rs:95`. -/
def Memory.slice (mem : Memory) (ptr len : ℕ) : Bytes := (List.range len).map fun i => mem (ptr + i)

/-- `Buffer`, `crates/bls-snark-sys/src/utils.rs:77-82`. -/
structure Buffer where
  ptr : ℕ
  len : ℕ
  deriving DecidableEq

/-- A byte slice `&[u8]`: where it is and how long (`crates/bls-snark-sys/src/utils.rs:84`). -/
structure SliceRef where
  addr : ℕ
  len : ℕ
  deriving DecidableEq

/-- `From<&[u8]> for Buffer`, `crates/bls-snark-sys/src/utils.rs:84-91`: `&src[0]` panics when the
slice is empty. -/
def bufferFrom (src : SliceRef) : Outcome Unit Buffer :=
  if 0 < src.len then .ok ⟨src.addr, src.len⟩ else .panic

/-- `From<&Buffer> for &[u8]`, `crates/bls-snark-sys/src/utils.rs:93-97`. -/
def sliceFrom (b : Buffer) : SliceRef := ⟨b.ptr, b.len⟩

/-- The bytes of a slice (`crates/bls-snark-sys/src/utils.rs:95`). -/
def SliceRef.bytes (mem : Memory) (s : SliceRef) : Bytes := mem.slice s.addr s.len

/-- `Message` with its slices by reference, `crates/bls-snark-sys/src/utils.rs:10-18`. -/
structure MessageRef (PK Sig : Type*) where
  data : SliceRef
  extra : SliceRef
  publicKey : PK
  sig : Sig

/-- `MessageFFI`, `crates/bls-snark-sys/src/utils.rs:23-32`. -/
structure MessageFFI (PK Sig : Type*) where
  data : Buffer
  extra : Buffer
  publicKey : PK
  sig : Sig

/-- `From<&Message> for MessageFFI`, `crates/bls-snark-sys/src/utils.rs:47-56`. -/
def messageToFfi {PK Sig : Type*} (m : MessageRef PK Sig) : Outcome Unit (MessageFFI PK Sig) :=
  (bufferFrom m.data).bind fun data =>
  (bufferFrom m.extra).bind fun extra =>
  .ok ⟨data, extra, m.publicKey, m.sig⟩

/-- `From<&MessageFFI> for Message`, `crates/bls-snark-sys/src/utils.rs:34-45`. -/
def messageFromFfi {PK Sig : Type*} (m : MessageFFI PK Sig) : MessageRef PK Sig :=
  ⟨sliceFrom m.data, sliceFrom m.extra, m.publicKey, m.sig⟩

/-- `PUBKEY_BYTES`, `crates/bls-snark-sys/src/snark/epoch_block.rs:14`. -/
def PUBKEY_BYTES : ℕ := 96

/-- `serialize_pubkeys`, `crates/bls-snark-sys/src/snark/epoch_block.rs:173-179`. -/
def serializePubkeys (pubkeys : List G2Point) : Bytes :=
  pubkeys.foldl (fun v p => v ++ serializePublicKey p) []

/-- The loop of `read_pubkeys`, `crates/bls-snark-sys/src/snark/epoch_block.rs:190-194`. -/
noncomputable def readPubkeysLoop (sqrt : Fq2 → Option Fq2) : ℕ → Bytes → List G2Point →
    Outcome SerError (List G2Point)
  | 0, _, pubkeys => .ok pubkeys
  | n + 1, data, pubkeys =>
    (deserializePublicKey sqrt data).bind fun kd => readPubkeysLoop sqrt n kd.2 (pubkeys ++ [kd.1])

/-- `read_pubkeys`, `crates/bls-snark-sys/src/snark/epoch_block.rs:187-196` (and
`read_serialized_pubkeys`, `168-170`). -/
noncomputable def readPubkeys (sqrt : Fq2 → Option Fq2) (mem : Memory) (ptr num : ℕ) :
    Outcome SerError (List G2Point) :=
  readPubkeysLoop sqrt num (mem.slice ptr (num * PUBKEY_BYTES)) []

/-- `read_epoch_entropy`, `crates/bls-snark-sys/src/snark/epoch_block.rs:204-210`. -/
def readEpochEntropy (mem : Memory) (ptr : ℕ) : Option Bytes :=
  if ptr = 0 then none else some (mem.slice ptr ENTROPY_BYTES)

/-- `EpochBlockFFI`, `crates/bls-snark-sys/src/snark/epoch_block.rs:110-127`. -/
structure EpochBlockFFI where
  index : UInt16
  round : UInt8
  epochEntropy : ℕ
  parentEntropy : ℕ
  pubkeys : ℕ
  pubkeysNum : ℕ
  maximumNonSigners : UInt32
  maximumValidators : ℕ

/-- `TryFrom<&EpochBlockFFI> for EpochBlock`,
`crates/bls-snark-sys/src/snark/epoch_block.rs:129-146`. -/
noncomputable def epochBlockFromFfi (sqrt : Fq2 → Option Fq2) (mem : Memory) (src : EpochBlockFFI) :
    Outcome SerError EpochBlock :=
  (readPubkeys sqrt mem src.pubkeys src.pubkeysNum).bind fun pubkeys =>
  let epochEntropy := readEpochEntropy mem src.epochEntropy
  let parentEntropy := readEpochEntropy mem src.parentEntropy
  .ok { index := src.index, round := src.round, epochEntropy := epochEntropy,
        parentEntropy := parentEntropy, maximumNonSigners := src.maximumNonSigners,
        maximumValidators := src.maximumValidators, newPublicKeys := pubkeys }

/-- `encode_epoch_block_to_bytes_cip22`,
`crates/bls-snark-sys/src/snark/epoch_block.rs:17-66`. -/
noncomputable def ffiEncodeEpochBlockCip22 (gen : G2Point) (mem : Memory) (index : UInt16)
    (round : UInt8) (epochEntropy parentEntropy : ℕ) (maximumNonSigners maximumValidators : UInt32)
    (keys : List G2Point) : FfiM (BytesOut × BytesOut) Unit Bool :=
  convertResultToBool (ε := SerError) <|
    let block : EpochBlock :=
      { index := index, round := round, epochEntropy := readEpochEntropy mem epochEntropy,
        parentEntropy := readEpochEntropy mem parentEntropy,
        maximumNonSigners := maximumNonSigners, maximumValidators := maximumValidators.toNat,
        newPublicKeys := keys }
    let encoded := block.encodeInnerToBytes gen
    FfiM.write fun _ => (BytesOut.of encoded.1, BytesOut.of encoded.2)

/-- `encode_epoch_block_to_bytes`, `crates/bls-snark-sys/src/snark/epoch_block.rs:69-105`. -/
noncomputable def ffiEncodeEpochBlock (index : UInt16) (maximumNonSigners : UInt32)
    (keys : List G2Point) : FfiM BytesOut Unit Bool :=
  convertResultToBool (ε := SerError) <|
    let block : EpochBlock :=
      { index := index, round := 0, epochEntropy := none, parentEntropy := none,
        maximumNonSigners := maximumNonSigners, maximumValidators := keys.length,
        newPublicKeys := keys }
    FfiM.write fun _ => BytesOut.of block.encodeToBytes

/-- Errors of `verify`, `crates/bls-snark-sys/src/snark/mod.rs:38-43`
(`From<EncodingError> for VerificationError`, `crates/epoch-snark/src/api/verifier.rs:17-18`). -/
def liftEnc {α : Type*} : Outcome SerError α → Outcome VerificationError α
  | .ok a => .ok a
  | .err _ => .err .epochEncodingError
  | .panic => .panic

/-- `verify`, `crates/bls-snark-sys/src/snark/mod.rs:23-45`; `readVk`, `readProof` are
`read_slice` (`epoch_block.rs:154-160`) with the deserialisers of ark_groth16 (external). -/
noncomputable def ffiVerify {VK Proof : Type*} (readVk : Bytes → Outcome SerError VK)
    (readProof : Bytes → Outcome SerError Proof)
    (groth16 : VK → Proof → List Fq → Outcome Unit Bool) (sqrt : Fq2 → Option Fq2) (gen : G2Point)
    (B : Blake2s) (mem : Memory) (vkPtr vkLen proofPtr proofLen : ℕ)
    (first last : EpochBlockFFI) : FfiM Unit Unit Bool :=
  convertResultToBool <| FfiM.lift <|
    (liftEnc (epochBlockFromFfi sqrt mem first)).bind fun first =>
    (liftEnc (epochBlockFromFfi sqrt mem last)).bind fun last =>
    (liftEnc (readVk (mem.slice vkPtr vkLen))).bind fun vk =>
    (liftEnc (readProof (mem.slice proofPtr proofLen))).bind fun proof =>
    verifyEpochs groth16 gen B vk first last proof

end Verif
