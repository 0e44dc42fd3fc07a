import Verif.Model.Ffi

/-!
# Sessions of the C interface

The heap objects behind the pointers that `crates/bls-snark-sys` hands out, and sequences of calls
by a client.  Dereferencing a pointer that is not a live object of the right type, or freeing it, is
undefined behaviour: the run stops with `.err ()`.  Sizes and alignment of objects are not
modelled; that `shrink_to_fit` makes capacity and length of a vector equal is assumed, as the code
does.
-/

namespace Verif

/-- What `Box::into_raw` and `std::mem::forget` leave on the heap,
`crates/bls-snark-sys/src/signatures.rs:22,36,66`, `serialization.rs:117,138`.  Simplified: an empty
vector is an object like any other (in Rust it owns no memory). -/
inductive HeapObj (K F G1 : Type*) where
  | privateKey (sk : K)
  | publicKey (pk : JacRep F)
  | signature (sig : G1)
  | vec (bytes : Bytes)

/-- The state of the process as far as the interface is concerned: live objects by address, and the
global cache (`crates/bls-snark-sys/src/cache.rs:5-6`). -/
structure World (K F G1 : Type*) where
  heap : ℕ → Option (HeapObj K F G1)
  cache : PublicKeyCache F

/-- What the caller of an entry point sees: the returned boolean, the pointer written to the output
(if any), the length written beside it when it points to a vector
(`crates/bls-snark-sys/src/serialization.rs:134-137`), and the booleans written (`out_verified`,
`verified`, `out_results`). -/
structure Obs where
  ret : Bool
  out : Option ℕ
  len : Option Int32
  flags : List Bool
  deriving DecidableEq

/-- A message of `batch_verify_signature`, `crates/bls-snark-sys/src/utils.rs:23-32`: buffers and
two pointers. -/
structure MessageH where
  data : Bytes
  extra : Bytes
  publicKey : ℕ
  sig : ℕ

/-- A message of `batch_verify_strict`, `crates/bls-snark-sys/src/utils.rs:61-72`. -/
structure BatchMessageH where
  data : Bytes
  extra : Bytes
  publicKeys : List ℕ
  signatures : List ℕ

/-- The entry points that take buffers only and return a vector: `hash_direct`,
`hash_direct_with_attempt`, `hash_composite`, `hash_crh`, `hash_direct_first_step`,
`hash_composite_cip22` (`crates/bls-snark-sys/src/signatures.rs:93-241`), `compress_signature`,
`compress_pubkey` (`serialization.rs:167-216`). -/
inductive ByteCall where
  | hashDirect (message : Bytes) (usePop : Bool)
  | hashDirectWithAttempt (message : Bytes) (usePop : Bool)
  | hashComposite (message extra : Bytes)
  | hashCrh (message : Bytes) (hashBytes : ℕ)
  | hashDirectFirstStep (message : Bytes) (hashBytes : ℕ)
  | hashCompositeCip22 (message extra : Bytes)
  | compressSignature (bytes : Bytes)
  | compressPubkey (bytes : Bytes)

/-- The entry points of `crates/bls-snark-sys/src/signatures.rs:19-505` and
`serialization.rs:13-266`; object arguments are pointers, buffers are given by their contents.
Random draws and iteration orders are arguments.  The entry points under `snark/` are in
`Model/FullSession`. -/
inductive LibCall (K F : Type*) where
  | generatePrivateKey (drawn : K)
  | privateKeyToPublicKey (sk : ℕ)
  | signMessage (sk : ℕ) (message extra : Bytes) (useComposite useCip22 : Bool)
  | signPop (sk : ℕ) (message : Bytes)
  | bytes (call : ByteCall)
  | verifySignature (pk : ℕ) (message extra : Bytes) (sig : ℕ) (useComposite useCip22 : Bool)
  | verifyPop (pk : ℕ) (message : Bytes) (sig : ℕ)
  | batchVerifySignature (messages : List MessageH) (useComposite useCip22 : Bool)
  | batchVerifyStrict (batches : List BatchMessageH) (useComposite useCip22 : Bool)
      (rng : ℕ → ℕ → ℕ → UInt8)
  | aggregateSignatures (sigs : List ℕ)
  | aggregatePublicKeys (pks : List ℕ) (hy : F → ℕ) (sh1 sh2 : List (JacRep F) → List (JacRep F))
  | aggregatePublicKeysSubtract (agg : ℕ) (pks : List ℕ) (hy : F → ℕ)
      (sh1 sh2 : List (JacRep F) → List (JacRep F))
  | deserializePrivateKey (bytes : Bytes)
  | deserializePublicKey (bytes : Bytes)
  | deserializePublicKeyCached (bytes : Bytes)
  | deserializeSignature (bytes : Bytes)
  | serializePrivateKey (sk : ℕ)
  | serializePublicKey (pk : ℕ) (compressed : Bool)
  | serializeSignature (sig : ℕ) (compressed : Bool)
  | destroyPrivateKey (p : ℕ)
  | destroyPublicKey (p : ℕ)
  | destroySignature (p : ℕ)
  | freeVec (p : ℕ) (len : Int32)

section
variable {K F G1 : Type*}

/-- `&*ptr` at type `PrivateKey`, e.g. `crates/bls-snark-sys/src/signatures.rs:33`; undefined unless
such an object lives there. -/
def World.getSk (w : World K F G1) (p : ℕ) : Outcome Unit K :=
  match w.heap p with
  | some (.privateKey k) => .ok k
  | _ => .err ()

/-- `&*ptr` at type `PublicKey`, e.g. `crates/bls-snark-sys/src/signatures.rs:256`. -/
def World.getPk (w : World K F G1) (p : ℕ) : Outcome Unit (JacRep F) :=
  match w.heap p with
  | some (.publicKey k) => .ok k
  | _ => .err ()

/-- `&*ptr` at type `Signature`, e.g. `crates/bls-snark-sys/src/signatures.rs:260`. -/
def World.getSig (w : World K F G1) (p : ℕ) : Outcome Unit G1 :=
  match w.heap p with
  | some (.signature s) => .ok s
  | _ => .err ()

/-- `*out = Box::into_raw(Box::new(object))`, e.g. `crates/bls-snark-sys/src/signatures.rs:22`: the
allocator's address is `at`. -/
def World.alloc (w : World K F G1) (at' : ℕ) (o : HeapObj K F G1) : World K F G1 :=
  { w with heap := Function.update w.heap at' (some o) }

/-- An entry point that allocates what it returns: run it and store what it wrote, e.g.
`crates/bls-snark-sys/src/signatures.rs:65-67`. -/
def World.produce (w : World K F G1) (at' : ℕ) (len : Option Int32) :
    Outcome Unit Bool × Option (HeapObj K F G1) → Outcome Unit (Obs × World K F G1)
  | (.ok b, some o) => .ok (⟨b, some at', len, []⟩, w.alloc at' o)
  | (.ok b, none) => .ok (⟨b, none, len, []⟩, w)
  | (.err _, _) => .panic
  | (.panic, _) => .panic

/-- The same for vectors, `crates/bls-snark-sys/src/serialization.rs:133-138`. -/
def World.produceVec (w : World K F G1) (at' : ℕ) (res : Outcome Unit Bool × BytesOut) :
    Outcome Unit (Obs × World K F G1) :=
  w.produce at' res.2.len (res.1, res.2.bytes.map .vec)

/-- `len as usize` for a `c_int` on a 64-bit target, `crates/bls-snark-sys/src/serialization.rs:240`:
sign extension. -/
def usizeOfInt32 (n : Int32) : ℕ := (n.toInt % 2 ^ 64).toNat

/-- An entry point that writes booleans, e.g. `crates/bls-snark-sys/src/signatures.rs:273-276`. -/
def World.report (w : World K F G1) :
    Outcome Unit Bool × List Bool → Outcome Unit (Obs × World K F G1)
  | (.ok b, fs) => .ok (⟨b, none, none, fs⟩, w)
  | (.err _, _) => .panic
  | (.panic, _) => .panic

/-- `destroy_private_key`, `destroy_public_key`, `destroy_signature`, `free_vec`,
`crates/bls-snark-sys/src/serialization.rs:224-266`: null is refused, anything else is handed to
`Box::from_raw` or `Vec::from_raw_parts`, which is undefined unless `ok` holds of a live object. -/
def World.free (w : World K F G1) (p : ℕ) (ok : HeapObj K F G1 → Bool) :
    Outcome Unit (Obs × World K F G1) :=
  if p = 0 then .ok (⟨false, none, none, []⟩, w)
  else match w.heap p with
    | some o => if ok o then
        .ok (⟨true, none, none, []⟩, { w with heap := Function.update w.heap p none })
      else .err ()
    | none => .err ()

end

/-- What the entry points need of the rest of the library: hashing, the two ways of writing
points (`crates/bls-snark-sys/src/signatures.rs:105,156`), the scalar multiple of the
generator as a representation (`crates/bls-crypto/src/bls/secret.rs:70-72`), and the serialisers
(`crates/bls-crypto/src/bls/{public,signature}.rs`, derived for `PrivateKey`). -/
structure LibEnv (r : ℕ) (F G1 G2 : Type*) where
  hash : HashEnv G1
  compositeHasher : Hasher
  directHasher : Hasher
  writeAffine : G1 → Bytes
  writeProjective : G1 → Bytes
  toPublicRep : ZMod r → JacRep F
  serSk : ZMod r → Bytes
  deSk : Bytes → Outcome SerError (ZMod r × Bytes)
  serPk : Bool → G2 → Bytes
  dePk : Bytes → Outcome SerError (JacRep F × Bytes)
  serSig : Bool → G1 → Bytes
  deSig : Bytes → Outcome SerError (G1 × Bytes)

section
variable {r : ℕ} {F G1 G2 GT : Type*} [DecidableEq F] [AddCommGroup G1] [Module (ZMod r) G1]
  [AddCommGroup G2] [Module (ZMod r) G2] [CommGroup GT] [DecidableEq GT]
  (P : Pairing r G1 G2 GT) (ops : CurveOps F G2) (L : LibEnv r F G1 G2)

/-- The bodies of `ByteCall`, `crates/bls-snark-sys/src/signatures.rs:93-241`,
`serialization.rs:167-216`.  Simplified: the attempt counter that two of them also write is left
out here and added in `Model/FullSession`. -/
def ByteCall.run : ByteCall → Outcome Unit Bool × BytesOut
  | .hashDirect m pop => ffiHashDirect L.hash L.writeAffine m pop ⟨none, none⟩
  | .hashDirectWithAttempt m pop =>
    let res := ffiHashDirectWithAttempt L.hash L.writeAffine m pop (⟨none, none⟩, none)
    (res.1, res.2.1)
  | .hashComposite m e =>
    let res := ffiHashComposite L.hash L.writeProjective m e ⟨none, none⟩
    (res.1, res.2)
  | .hashCrh m n => ffiHashCrh L.compositeHasher m n ⟨none, none⟩
  | .hashDirectFirstStep m n => ffiHashDirectFirstStep L.directHasher m n ⟨none, none⟩
  | .hashCompositeCip22 m e =>
    let res := ffiHashCompositeCip22 L.hash L.writeProjective m e (⟨none, none⟩, none)
    (res.1, res.2.1)
  | .compressSignature b => ffiCompressSignature b ⟨none, none⟩
  | .compressPubkey b => ffiCompressPubkey b ⟨none, none⟩

/-- One call; `at'` is the address the allocator would return (only used by calls that allocate).
The bodies are those of `Model/Ffi`; `crates/bls-snark-sys/src/signatures.rs:19-505`,
`crates/bls-snark-sys/src/serialization.rs:13-266`. -/
def LibCall.step (w : World (ZMod r) F G1) (at' : ℕ) :
    LibCall (ZMod r) F → Outcome Unit (Obs × World (ZMod r) F G1)
  | .generatePrivateKey drawn =>
    let res := ffiGeneratePrivateKey drawn none
    w.produce at' none (res.1, res.2.map .privateKey)
  | .privateKeyToPublicKey p =>
    (w.getSk p).bind fun sk => w.produce at' none (.ok true, some (.publicKey (L.toPublicRep sk)))
  | .signMessage p m e uc u22 =>
    (w.getSk p).bind fun sk =>
    let res := ffiSignMessage L.hash sk m e uc u22 none
    w.produce at' none (res.1, res.2.map .signature)
  | .signPop p m =>
    (w.getSk p).bind fun sk =>
    let res := ffiSignPop L.hash sk m none
    w.produce at' none (res.1, res.2.map .signature)
  | .bytes call =>
    w.produceVec at' (call.run L)
  | .verifySignature p m e s uc u22 =>
    (w.getPk p).bind fun pk => (w.getSig s).bind fun sig =>
    let res := ffiVerifySignature P L.hash (ops.pt pk) m e sig uc u22 none
    w.report (res.1, res.2.toList)
  | .verifyPop p m s =>
    (w.getPk p).bind fun pk => (w.getSig s).bind fun sig =>
    let res := ffiVerifyPop P L.hash (ops.pt pk) m sig none
    w.report (res.1, res.2.toList)
  | .batchVerifySignature ms uc u22 =>
    (Outcome.mapM (fun m => (w.getPk m.publicKey).bind fun pk => (w.getSig m.sig).map fun sig =>
      (⟨m.data, m.extra, ops.pt pk, sig⟩ : FfiMessage G1 G2)) ms).bind fun ms =>
    let res := ffiBatchVerifySignature P L.hash ms uc u22 none
    w.report (res.1, res.2.toList)
  | .batchVerifyStrict bs uc u22 rng =>
    (Outcome.mapM (fun b => (Outcome.mapM w.getPk b.publicKeys).bind fun pks =>
      (Outcome.mapM w.getSig b.signatures).map fun sigs =>
      (⟨b.data, b.extra, pks.map ops.pt, sigs⟩ : BatchMessage G1 G2)) bs).bind fun ms =>
    let res := ffiBatchVerifyStrict P L.hash ms uc u22 rng (fun _ => false)
    w.report (res.1, (List.range bs.length).map res.2)
  | .aggregateSignatures ps =>
    (Outcome.mapM w.getSig ps).bind fun sigs =>
    let res := ffiAggregateSignatures sigs none
    w.produce at' none (res.1, res.2.map .signature)
  | .aggregatePublicKeys ps hy sh1 sh2 =>
    (Outcome.mapM w.getPk ps).bind fun pks =>
    let res := ffiAggregatePublicKeys ops pks hy sh1 sh2 (none, w.cache)
    ({ w with cache := res.2.2 } : World (ZMod r) F G1).produce at' none (res.1, res.2.1.map .publicKey)
  | .aggregatePublicKeysSubtract p ps hy sh1 sh2 =>
    (w.getPk p).bind fun agg => (Outcome.mapM w.getPk ps).bind fun pks =>
    let res := ffiAggregatePublicKeysSubtract ops agg pks hy sh1 sh2 (none, w.cache)
    ({ w with cache := res.2.2 } : World (ZMod r) F G1).produce at' none (res.1, res.2.1.map .publicKey)
  | .deserializePrivateKey b =>
    let res := ffiDeserialize L.deSk b none
    w.produce at' none (res.1, res.2.map .privateKey)
  | .deserializePublicKey b =>
    let res := ffiDeserialize L.dePk b none
    w.produce at' none (res.1, res.2.map .publicKey)
  | .deserializePublicKeyCached b =>
    let res := ffiDeserializePublicKeyCached (fun b => liftSer ((L.dePk b).map Prod.fst)) b
      (none, w.cache)
    ({ w with cache := res.2.2 } : World (ZMod r) F G1).produce at' none (res.1, res.2.1.map .publicKey)
  | .deserializeSignature b =>
    let res := ffiDeserialize L.deSig b none
    w.produce at' none (res.1, res.2.map .signature)
  | .serializePrivateKey p =>
    (w.getSk p).bind fun sk =>
    let res := ffiSerialize L.serSk sk ⟨none, none⟩
    w.produceVec at' res
  | .serializePublicKey p c =>
    (w.getPk p).bind fun pk =>
    let res := ffiSerialize (L.serPk c) (ops.pt pk) ⟨none, none⟩
    w.produceVec at' res
  | .serializeSignature p c =>
    (w.getSig p).bind fun sig =>
    let res := ffiSerialize (L.serSig c) sig ⟨none, none⟩
    w.produceVec at' res
  | .destroyPrivateKey p => w.free p fun | .privateKey _ => true | _ => false
  | .destroyPublicKey p => w.free p fun | .publicKey _ => true | _ => false
  | .destroySignature p => w.free p fun | .signature _ => true | _ => false
  | .freeVec p len => w.free p fun | .vec b => b.length = usizeOfInt32 len | _ => false

/-- A session of calls of `crates/bls-snark-sys/src/signatures.rs:18-505` and
`crates/bls-snark-sys/src/serialization.rs:12-266`, in order, each with the allocator's choice; stops at undefined
behaviour (`.err ()`) or a panic. -/
def runLib (w : World (ZMod r) F G1) : List (ℕ × LibCall (ZMod r) F) →
    Outcome Unit (List Obs × World (ZMod r) F G1)
  | [] => .ok ([], w)
  | c :: rest => (c.2.step P ops L w c.1).bind fun s => (runLib s.2 rest).map fun t => (s.1 :: t.1, t.2)

/-- The allocator's contract along a run (`Box::into_raw(Box::new(key))`, e.g.
`crates/bls-snark-sys/src/signatures.rs:22`): it returns addresses that are neither null nor in use. -/
def AllocOk (w : World (ZMod r) F G1) : List (ℕ × LibCall (ZMod r) F) → Prop
  | [] => True
  | c :: rest => c.1 ≠ 0 ∧ w.heap c.1 = none ∧
    ∀ s, c.2.step P ops L w c.1 = .ok s → AllocOk s.2 rest

end

end Verif
