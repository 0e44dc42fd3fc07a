import Verif.Model.Session

/-!
# Sessions of the whole C interface

`Model/Session` with the entry points under `snark/` and with every output of every entry point:
the second vector of the CIP22 encoder and the counters of the two hash entry points that return
one.
-/

namespace Verif

/-- What the caller of an entry point sees: `Obs`, the counter (`out_attempt`, a `c_int` in
`crates/bls-snark-sys/src/signatures.rs:122`, a `u8` in `signatures.rs:222`), and the
second vector with its length (`out_extra_data_bytes`, `out_extra_data_len`,
`crates/bls-snark-sys/src/snark/epoch_block.rs:28-29`). -/
structure FullObs where
  main : Obs
  attempt : Option ℤ
  extraOut : Option ℕ
  extraLen : Option Int32
  deriving DecidableEq

/-- All entry points of the crate: those of `LibCall`, the two encoders
(`crates/bls-snark-sys/src/snark/epoch_block.rs:16-105`; the keys are pointers to objects, the
entropies pointers into the caller's memory), and `verify`
(`crates/bls-snark-sys/src/snark/mod.rs:23-45`; all arguments in the caller's memory, whose
contents at the time of the call are given). -/
inductive FullCall (K F : Type*) where
  | lib (call : LibCall K F)
  | encodeEpochBlockCip22 (mem : Memory) (index : UInt16) (round : UInt8)
      (epochEntropy parentEntropy : ℕ) (maximumNonSigners maximumValidators : UInt32)
      (keys : List ℕ)
  | encodeEpochBlock (index : UInt16) (maximumNonSigners : UInt32) (keys : List ℕ)
  | verify (mem : Memory) (vkPtr vkLen proofPtr proofLen : ℕ) (first last : EpochBlockFFI)

/-- What the entry points under `snark/` need besides: the generator of G2 (padding,
`crates/epoch-snark/src/epoch_block.rs:94-96`), the deserialisers and the verifier of ark_groth16
(external), square roots and Blake2s as in `ffiVerify`
(`crates/bls-snark-sys/src/snark/mod.rs:23-45`), and the point a key stands for. -/
structure SnarkEnv (VK Proof G2 : Type*) where
  point : G2 → G2Point
  gen : G2Point
  readVk : Bytes → Outcome SerError VK
  readProof : Bytes → Outcome SerError Proof
  groth16 : VK → Proof → List Fq → Outcome Unit Bool
  sqrt : Fq2 → Option Fq2
  blake : Blake2s

section
variable {K F G1 : Type*}

/-- Two vectors handed to the caller, `crates/bls-snark-sys/src/snark/epoch_block.rs:54-63`; the
allocator's addresses are `at1` and `at2`. -/
def World.produceTwo (w : World K F G1) (at1 at2 : ℕ) :
    Outcome Unit Bool × BytesOut × BytesOut → Outcome Unit (FullObs × World K F G1)
  | (.ok b, ⟨some v, lv⟩, ⟨some x, lx⟩) =>
    .ok (⟨⟨b, some at1, lv, []⟩, none, some at2, lx⟩, (w.alloc at1 (.vec v)).alloc at2 (.vec x))
  | (.ok b, _, _) => .ok (⟨⟨b, none, none, []⟩, none, none, none⟩, w)
  | (.err _, _, _) => .panic
  | (.panic, _, _) => .panic

end

section
variable {r : ℕ} {F G1 G2 GT VK Proof : Type*} [DecidableEq F] [AddCommGroup G1]
  [Module (ZMod r) G1] [AddCommGroup G2] [Module (ZMod r) G2] [CommGroup GT] [DecidableEq GT]
  (P : Pairing r G1 G2 GT) (ops : CurveOps F G2) (L : LibEnv r F G1 G2)
  (S : SnarkEnv VK Proof G2)

/-- The counter an entry point writes, `crates/bls-snark-sys/src/signatures.rs:135` and `236`. -/
def ByteCall.attempt : ByteCall → Option ℤ
  | .hashDirectWithAttempt m pop =>
    (ffiHashDirectWithAttempt L.hash L.writeAffine m pop (⟨none, none⟩, none)).2.2.map Int32.toInt
  | .hashCompositeCip22 m e =>
    (ffiHashCompositeCip22 L.hash L.writeProjective m e (⟨none, none⟩, none)).2.2.map
      fun a => (a.toNat : ℤ)
  | _ => none

/-- The same for all entry points: only hash entry points write a counter,
`crates/bls-snark-sys/src/signatures.rs:135` and `236`. -/
def LibCall.attempt : LibCall (ZMod r) F → Option ℤ
  | .bytes c => c.attempt L
  | _ => none

/-- One call; `at'` are the addresses the allocator would return first and second.
`crates/bls-snark-sys/src/{signatures,serialization}.rs`, `snark/epoch_block.rs:16-105`,
`snark/mod.rs:23-45`; the bodies are those of `Model/Ffi`. -/
noncomputable def FullCall.step (w : World (ZMod r) F G1) (at' : ℕ × ℕ) :
    FullCall (ZMod r) F → Outcome Unit (FullObs × World (ZMod r) F G1)
  | .lib c => (c.step P ops L w at'.1).map fun s => (⟨s.1, c.attempt L, none, none⟩, s.2)
  | .encodeEpochBlockCip22 mem index round ee pe ns mv keys =>
    (Outcome.mapM w.getPk keys).bind fun pks =>
    w.produceTwo at'.1 at'.2 (ffiEncodeEpochBlockCip22 S.gen mem index round ee pe ns mv
      (pks.map fun k => S.point (ops.pt k)) (⟨none, none⟩, ⟨none, none⟩))
  | .encodeEpochBlock index ns keys =>
    (Outcome.mapM w.getPk keys).bind fun pks =>
    (w.produceVec at'.1 (ffiEncodeEpochBlock index ns (pks.map fun k => S.point (ops.pt k))
      ⟨none, none⟩)).map fun s => (⟨s.1, none, none, none⟩, s.2)
  | .verify mem vkPtr vkLen proofPtr proofLen first last =>
    (w.report ((ffiVerify S.readVk S.readProof S.groth16 S.sqrt S.gen S.blake mem vkPtr vkLen
      proofPtr proofLen first last ()).1, [])).map fun s => (⟨s.1, none, none, none⟩, s.2)

/-- A session: calls in order, each with the allocator's choices, as `runLib`
(`crates/bls-snark-sys/src/signatures.rs:18-505`, `crates/bls-snark-sys/src/serialization.rs:12-266`, `snark/`). -/
noncomputable def runFull (w : World (ZMod r) F G1) : List ((ℕ × ℕ) × FullCall (ZMod r) F) →
    Outcome Unit (List FullObs × World (ZMod r) F G1)
  | [] => .ok ([], w)
  | c :: rest => (c.2.step P ops L S w c.1).bind fun s =>
    (runFull s.2 rest).map fun t => (s.1 :: t.1, t.2)

/-- The allocator's contract along a run: the addresses are distinct, not null and not in use
(std's allocator, external; `Box::into_raw(Box::new(key))`, e.g. `crates/bls-snark-sys/src/signatures.rs:22`). -/
def AllocOkFull (w : World (ZMod r) F G1) : List ((ℕ × ℕ) × FullCall (ZMod r) F) → Prop
  | [] => True
  | c :: rest => (c.1.1 ≠ 0 ∧ c.1.2 ≠ 0 ∧ c.1.1 ≠ c.1.2 ∧
      w.heap c.1.1 = none ∧ w.heap c.1.2 = none) ∧
    ∀ s, c.2.step P ops L S w c.1 = .ok s → AllocOkFull s.2 rest

end

end Verif
