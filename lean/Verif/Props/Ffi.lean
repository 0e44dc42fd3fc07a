import Verif.Model.Ffi
import Verif.Props.Batch

/-!
# Properties of the C interface: C55, C56, C57, C67
-/

set_option linter.unusedSectionVars false

namespace Verif

section
variable {r : ℕ} [NeZero r] {G1 G2 GT : Type*} [AddCommGroup G1] [Module (ZMod r) G1]
  [AddCommGroup G2] [Module (ZMod r) G2] [CommGroup GT] [DecidableEq GT]
  (P : Pairing r G1 G2 GT) (E : HashEnv G1)

/-- Specification: the hash selected by a pair of flags (composite, CIP22), if any. -/
def flagHash : Bool → Bool → Option (HashToG1 G1)
  | true, true => some fun d m e => (E.cip22Attempt d m e).map Prod.fst
  | true, false => some fun d m e => (E.compositeAttempt d m e).map Prod.fst
  | false, false => some fun d m e => (E.directAttempt d m e).map Prod.fst
  | false, true => none

theorem flagHash_cases (c k : Bool) (H : HashToG1 G1) (h : flagHash E c k = some H) :
    (c = true ∧ k = true ∧ H = E.cip22) ∨ (c = true ∧ k = false ∧ H = E.composite) ∨
      (c = false ∧ k = false ∧ H = E.direct) := by
  cases c <;> cases k
  · exact .inr (.inr ⟨rfl, rfl, (Option.some.inj h).symm⟩)
  · cases h
  · exact .inr (.inl ⟨rfl, rfl, (Option.some.inj h).symm⟩)
  · exact .inl ⟨rfl, rfl, (Option.some.inj h).symm⟩

/-! ## C55 -/

/-- C55: `sign_message` returns true and writes the signature for the selected hash, or returns
false and writes nothing. -/
theorem C55_sign (sk : ZMod r) (msg extra : Bytes) (c k : Bool) (H : HashToG1 G1)
    (hH : flagHash E c k = some H) (out : Option G1) :
    (∀ sig, sign sk msg extra H = .ok sig →
      ffiSignMessage E sk msg extra c k out = (.ok true, some sig)) ∧
    (∀ e, sign sk msg extra H = .err e →
      ffiSignMessage E sk msg extra c k out = (.ok false, out)) ∧
    (sign sk msg extra H = .panic → ffiSignMessage E sk msg extra c k out = (.panic, out)) := by
  rcases flagHash_cases E c k H hH with ⟨rfl, rfl, rfl⟩ | ⟨rfl, rfl, rfl⟩ | ⟨rfl, rfl, rfl⟩
  all_goals
    refine ⟨fun s hs => ?_, fun e he => ?_, fun hp => ?_⟩ <;>
    simp only [ffiSignMessage, convertResultToBool, FfiM.bind, FfiM.lift, FfiM.write, *]

/-- C55: `verify_signature` returns true and reports whether verification with the selected hash
succeeded; a wrong signature is `verified = false`, not an error. -/
theorem C55_verify (pk : G2) (msg extra : Bytes) (sig : G1) (c k : Bool) (H : HashToG1 G1)
    (hH : flagHash E c k = some H) (out : Option Bool) :
    (verify P pk msg extra sig H = .ok () →
      ffiVerifySignature P E pk msg extra sig c k out = (.ok true, some true)) ∧
    (∀ e, verify P pk msg extra sig H = .err e →
      ffiVerifySignature P E pk msg extra sig c k out = (.ok true, some false)) ∧
    (verify P pk msg extra sig H = .panic →
      ffiVerifySignature P E pk msg extra sig c k out = (.panic, out)) := by
  rcases flagHash_cases E c k H hH with ⟨rfl, rfl, rfl⟩ | ⟨rfl, rfl, rfl⟩ | ⟨rfl, rfl, rfl⟩
  all_goals
    refine ⟨fun s => ?_, fun e he => ?_, fun hp => ?_⟩ <;>
    simp only [ffiVerifySignature, convertResultToBool, FfiM.bind, FfiM.lift, FfiM.write, resultIsOk, *]

/-- C55: what `sign_message` writes is the one signature that `verify_signature` reports as
verified, for the same flags. -/
theorem C55_agree (sk : ZMod r) (msg extra : Bytes) (c k : Bool) (out : Option G1)
    (hs : (ffiSignMessage E sk msg extra c k out).1 = .ok true) :
    ∃ sig, (ffiSignMessage E sk msg extra c k out).2 = some sig ∧
      ∀ (sig' : G1) (out' : Option Bool),
        (sig' = sig →
          ffiVerifySignature P E (toPublic P sk) msg extra sig' c k out' = (.ok true, some true)) ∧
        (sig' ≠ sig →
          ffiVerifySignature P E (toPublic P sk) msg extra sig' c k out' =
            (.ok true, some false)) := by
  cases hf : flagHash E c k with
  | none =>
    cases c <;> cases k <;> simp [flagHash] at hf
    simp [ffiSignMessage, convertResultToBool, FfiM.bind, FfiM.lift] at hs
  | some H =>
    obtain ⟨h1, h2, h3⟩ := C55_sign E sk msg extra c k H hf out
    cases hsig : sign sk msg extra H with
    | err e => rw [h2 e hsig] at hs; simp at hs
    | panic => rw [h3 hsig] at hs; simp at hs
    | ok sig =>
      refine ⟨sig, by rw [h1 sig hsig], fun sig' out' => ?_⟩
      have hv := C01_sign_verify P sk msg extra H sig hsig sig'
      have hw := C55_verify P E (toPublic P sk) msg extra sig' c k H hf out'
      exact ⟨fun e => hw.1 (hv.1 e), fun e => hw.2.1 _ (hv.2 e)⟩

/-- C55: the flag pair (non-composite, CIP22) is refused by both, and nothing is written. -/
theorem C55_bad_flags (sk : ZMod r) (pk : G2) (msg extra : Bytes) (sig : G1) (out : Option G1)
    (out' : Option Bool) :
    ffiSignMessage E sk msg extra false true out = (.ok false, out) ∧
    ffiVerifySignature P E pk msg extra sig false true out' = (.ok false, out') := ⟨rfl, rfl⟩

/-- C55: `verified` is the pairing equation for the selected hash. -/
theorem C55_verified_exact (pk : G2) (msg extra : Bytes) (sig : G1) (c k : Bool)
    (H : HashToG1 G1) (hH : flagHash E c k = some H) (h : G1) (hh : H SIG_DOMAIN msg extra = .ok h)
    (out : Option Bool) :
    ∃ b : Bool, ffiVerifySignature P E pk msg extra sig c k out = (.ok true, some b) ∧
      (b = true ↔ P.e sig (-P.g2) * P.e h pk = 1) := by
  have hv := C02_verify_exact P pk msg extra sig H h hh
  have hw := C55_verify P E pk msg extra sig c k H hH out
  by_cases he : P.e sig (-P.g2) * P.e h pk = 1
  · exact ⟨true, hw.1 (hv.1 he), by simp [he]⟩
  · exact ⟨false, hw.2.1 _ (hv.2 he), by simp [he]⟩

/-- C55: when the hash fails, signing returns false but verification returns true with
`verified = false`: the caller cannot tell a hashing failure from a wrong signature. -/
theorem C55_hash_failure (sk : ZMod r) (pk : G2) (msg extra : Bytes) (sig : G1) (c k : Bool)
    (H : HashToG1 G1) (hH : flagHash E c k = some H) (e : BLSError)
    (hh : H SIG_DOMAIN msg extra = .err e) (out : Option G1) (out' : Option Bool) :
    ffiSignMessage E sk msg extra c k out = (.ok false, out) ∧
    ffiVerifySignature P E pk msg extra sig c k out' = (.ok true, some false) := by
  have := C01_hash_error P sk msg extra H e hh
  exact ⟨(C55_sign E sk msg extra c k H hH out).2.1 e this.1,
    (C55_verify P E pk msg extra sig c k H hH out').2.1 e (this.2 pk sig)⟩

/-- C55: proofs of possession always use the direct hash, and agree in the same way. -/
theorem C55_pop (sk : ZMod r) (msg : Bytes) (out : Option G1)
    (hs : (ffiSignPop E sk msg out).1 = .ok true) :
    ∃ sig, (ffiSignPop E sk msg out).2 = some sig ∧
      ∀ (sig' : G1) (out' : Option Bool), ∃ b : Bool,
        ffiVerifyPop P E (toPublic P sk) msg sig' out' = (.ok true, some b) ∧
        (b = true ↔ sig' = sig) := by
  cases hsig : signPop sk msg E.direct with
  | err e => simp [ffiSignPop, convertResultToBool, FfiM.bind, FfiM.lift, hsig] at hs
  | panic => simp [ffiSignPop, convertResultToBool, FfiM.bind, FfiM.lift, hsig] at hs
  | ok sig =>
    refine ⟨sig, by simp [ffiSignPop, convertResultToBool, FfiM.bind, FfiM.lift, FfiM.write, hsig],
      fun sig' out' => ?_⟩
    have hv := C03_pop_verify P sk msg E.direct sig hsig sig'
    cases hr : verifyPop P (toPublic P sk) msg sig' E.direct with
    | ok u =>
      refine ⟨true, ?_, by rw [← hv, hr]; simp⟩
      simp [ffiVerifyPop, convertResultToBool, FfiM.bind, FfiM.lift, FfiM.write, hr, resultIsOk]
    | err e =>
      refine ⟨false, ?_, by rw [← hv, hr]; simp⟩
      simp [ffiVerifyPop, convertResultToBool, FfiM.bind, FfiM.lift, FfiM.write, hr, resultIsOk]
    | panic =>
      exfalso
      unfold signPop signMessage at hsig
      unfold verifyPop verifySig at hr
      cases hh : E.direct POP_DOMAIN msg [] with
      | ok h => rw [hh] at hr; simp only [Outcome.bind_ok] at hr; split at hr <;> cases hr
      | err e => simp [hh] at hsig
      | panic => simp [hh] at hsig

/-- C55: `batch_verify_signature` reports exactly the screening equation over the selected hash:
`e(Σ sigᵢ, -g₂) · Π e(hᵢ, pkᵢ) = 1`; refused flags write nothing. -/
theorem C55_batch_verify (ms : List (FfiMessage G1 G2)) (c k : Bool) (out : Option Bool) :
    (∀ H, flagHash E c k = some H → ∀ hs,
      List.Forall₂ (fun m h => H SIG_DOMAIN m.data m.extra = .ok h) ms hs →
      ∃ b : Bool, ffiBatchVerifySignature P E ms c k out = (.ok true, some b) ∧
        (b = true ↔ P.e (ms.map fun m => m.sig).sum (-P.g2) *
          ((hs.zip (ms.map fun m => m.publicKey)).map fun x => P.e x.1 x.2).prod = 1)) ∧
    (flagHash E c k = none → ffiBatchVerifySignature P E ms c k out = (.ok false, out)) := by
  constructor
  · intro H hH hs hf
    have key : ∀ H' : HashToG1 G1, H' = H → ∃ b : Bool,
        resultIsOk (ε' := BLSError) (batchVerify P (aggregateSignatures (ms.map fun m => m.sig))
          (ms.map fun m => m.publicKey) SIG_DOMAIN (ms.map fun m => (m.data, m.extra)) H') = .ok b ∧
        (b = true ↔ P.e (ms.map fun m => m.sig).sum (-P.g2) *
          ((hs.zip (ms.map fun m => m.publicKey)).map fun x => P.e x.1 x.2).prod = 1) := by
      rintro H' rfl
      have hm : Outcome.mapM (fun m : Bytes × Bytes => H' SIG_DOMAIN m.1 m.2)
          (ms.map fun m => (m.data, m.extra)) = .ok hs := by
        rw [Outcome.mapM_eq_ok_iff, List.forall₂_map_left_iff]
        exact hf
      have hl := hf.length_eq
      unfold batchVerify batchVerifyHashes
      rw [if_neg (by simp), hm, Outcome.bind_ok, if_neg (by simp [hl]), aggregateSignatures_eq_sum]
      have hp : productOfPairings P (((ms.map fun m => m.sig).sum, -P.g2) ::
          hs.zip (ms.map fun m => m.publicKey)) =
          P.e (ms.map fun m => m.sig).sum (-P.g2) *
            ((hs.zip (ms.map fun m => m.publicKey)).map fun x => P.e x.1 x.2).prod := by
        simp [productOfPairings]
      rw [hp]
      split
      · rename_i he; exact ⟨true, rfl, by simp [he]⟩
      · rename_i he; exact ⟨false, rfl, by simp [he]⟩
    cases c <;> cases k <;> simp only [flagHash, Option.some.injEq, reduceCtorEq] at hH
    · obtain ⟨b, hb, hb'⟩ := key E.direct hH
      refine ⟨b, ?_, hb'⟩
      simp only [ffiBatchVerifySignature, convertResultToBool, FfiM.bind, FfiM.lift, FfiM.write, hb]
    · obtain ⟨b, hb, hb'⟩ := key E.composite hH
      refine ⟨b, ?_, hb'⟩
      simp only [ffiBatchVerifySignature, convertResultToBool, FfiM.bind, FfiM.lift, FfiM.write, hb]
    · obtain ⟨b, hb, hb'⟩ := key E.cip22 hH
      refine ⟨b, ?_, hb'⟩
      simp only [ffiBatchVerifySignature, convertResultToBool, FfiM.bind, FfiM.lift, FfiM.write, hb]
  · intro h
    cases c <;> cases k <;> simp [flagHash] at h
    rfl

end

/-! ## C56 -/

/-- Specification: a call that does not return true leaves all outputs as they were. -/
def WritesOnlyOnSuccess {σ : Type*} (f : FfiM σ Unit Bool) : Prop :=
  ∀ out, (f out).1 ≠ .ok true → (f out).2 = out

theorem writesOnly_write {σ ε : Type*} (g : σ → σ) :
    WritesOnlyOnSuccess (convertResultToBool (ε := ε) (FfiM.write g)) := by
  intro out h
  simp [convertResultToBool, FfiM.write] at h

theorem writesOnly_lift_write {σ ε α : Type*} (x : Outcome ε α) (g : α → σ → σ) :
    WritesOnlyOnSuccess (convertResultToBool ((FfiM.lift x).bind fun a => FfiM.write (g a))) := by
  intro out h
  cases x <;> simp [convertResultToBool, FfiM.bind, FfiM.lift, FfiM.write] at h ⊢

theorem writesOnly_lift_lift_write {σ ε α β : Type*} (x : Outcome ε α) (y : α → Outcome ε β)
    (g : α → β → σ → σ) :
    WritesOnlyOnSuccess (convertResultToBool ((FfiM.lift x).bind fun a =>
      (FfiM.lift (y a)).bind fun b => FfiM.write (g a b))) := by
  intro out h
  cases x with
  | ok a =>
    cases hy : y a <;> simp [convertResultToBool, FfiM.bind, FfiM.lift, FfiM.write, hy] at h ⊢
  | err e => simp [convertResultToBool, FfiM.bind, FfiM.lift]
  | panic => simp [convertResultToBool, FfiM.bind, FfiM.lift]

theorem lift_write_no_panic {σ α : Type*} (x : Outcome BLSError α) (g : α → σ → σ) (out : σ)
    (hx : x ≠ .panic) :
    (convertResultToBool ((FfiM.lift x).bind fun a => FfiM.write (g a)) out).1 ≠ .panic := by
  cases x <;> simp [convertResultToBool, FfiM.bind, FfiM.lift, FfiM.write] at hx ⊢

section
variable {r : ℕ} [NeZero r] {G1 G2 GT : Type*} [AddCommGroup G1] [Module (ZMod r) G1]
  [AddCommGroup G2] [Module (ZMod r) G2] [CommGroup GT] [DecidableEq GT]
  (P : Pairing r G1 G2 GT) (E : HashEnv G1)

/-- C56 for the entry points of `signatures.rs` (all but `batch_verify_strict`; the two that use
the key cache follow). -/
theorem C56_signatures (sk : ZMod r) (pk : G2) (msg extra : Bytes) (sig : G1) (sigs : List G1)
    (ms : List (FfiMessage G1 G2)) (c k : Bool) (w : G1 → Bytes) (hc hd : Hasher) (n : ℕ) :
    WritesOnlyOnSuccess (ffiPrivateKeyToPublicKey P sk) ∧
    WritesOnlyOnSuccess (ffiSignMessage E sk msg extra c k) ∧
    WritesOnlyOnSuccess (ffiSignPop E sk msg) ∧
    WritesOnlyOnSuccess (ffiHashDirect E w msg c) ∧
    WritesOnlyOnSuccess (ffiHashDirectWithAttempt E w msg c) ∧
    WritesOnlyOnSuccess (ffiHashComposite E w msg extra) ∧
    WritesOnlyOnSuccess (ffiHashCrh hc msg n) ∧
    WritesOnlyOnSuccess (ffiHashDirectFirstStep hd msg n) ∧
    WritesOnlyOnSuccess (ffiHashCompositeCip22 E w msg extra) ∧
    WritesOnlyOnSuccess (ffiVerifySignature P E pk msg extra sig c k) ∧
    WritesOnlyOnSuccess (ffiBatchVerifySignature P E ms c k) ∧
    WritesOnlyOnSuccess (ffiVerifyPop P E pk msg sig) ∧
    WritesOnlyOnSuccess (ffiAggregateSignatures sigs) :=
  ⟨writesOnly_write _, writesOnly_lift_write _ _, writesOnly_lift_write _ _,
    writesOnly_lift_write _ _, writesOnly_lift_write _ _, writesOnly_lift_write _ _,
    writesOnly_lift_write _ _, writesOnly_lift_write _ _, writesOnly_lift_write _ _,
    writesOnly_lift_write _ _, writesOnly_lift_write _ _, writesOnly_lift_write _ _,
    writesOnly_write _⟩

/-- C56 for the entry points of `serialization.rs` and `snark/epoch_block.rs`. -/
theorem C56_serialization {T : Type*} (deser : Bytes → Outcome SerError (T × Bytes)) (ser : T → Bytes)
    (obj : T) (bytes : Bytes) (gen : G2Point) (mem : Memory) (index : UInt16) (round : UInt8)
    (ee pe : ℕ) (mns mv : UInt32) (keys : List G2Point) :
    WritesOnlyOnSuccess (ffiDeserialize deser bytes) ∧
    WritesOnlyOnSuccess (ffiSerialize ser obj) ∧
    WritesOnlyOnSuccess (ffiCompressSignature bytes) ∧
    WritesOnlyOnSuccess (ffiCompressPubkey bytes) ∧
    WritesOnlyOnSuccess (ffiEncodeEpochBlockCip22 gen mem index round ee pe mns mv keys) ∧
    WritesOnlyOnSuccess (ffiEncodeEpochBlock index mns keys) :=
  ⟨writesOnly_lift_write _ _, writesOnly_write _, writesOnly_lift_lift_write _ _ _,
    writesOnly_lift_lift_write _ _ _, writesOnly_write _, writesOnly_write _⟩

/-- C56 for the entry points that use the key cache: the output is written exactly when true is
returned (the cache itself may change in any case). -/
theorem C56_cached {F : Type*} [DecidableEq F] {G : Type*} [AddCommGroup G] (ops : CurveOps F G)
    (deser : Bytes → Outcome BLSError (JacRep F)) (bytes : Bytes) (agg : JacRep F)
    (keys : List (JacRep F)) (hy : F → ℕ) (sh1 sh2 : List (JacRep F) → List (JacRep F))
    (out : Option (JacRep F)) (cache : PublicKeyCache F) :
    ((ffiDeserializePublicKeyCached deser bytes (out, cache)).1 ≠ .ok true →
      (ffiDeserializePublicKeyCached deser bytes (out, cache)).2.1 = out) ∧
    (∀ key, (cache.deserialize deser bytes).1 = .ok key →
      (ffiDeserializePublicKeyCached deser bytes (out, cache)).1 = .ok true ∧
      (ffiDeserializePublicKeyCached deser bytes (out, cache)).2.1 = some key) ∧
    (ffiAggregatePublicKeys ops keys hy sh1 sh2 (out, cache)).1 = .ok true ∧
    (ffiAggregatePublicKeys ops keys hy sh1 sh2 (out, cache)).2.1 =
      some (cache.aggregate ops keys hy sh1 sh2).1 ∧
    (ffiAggregatePublicKeysSubtract ops agg keys hy sh1 sh2 (out, cache)).1 = .ok true ∧
    (ffiAggregatePublicKeysSubtract ops agg keys hy sh1 sh2 (out, cache)).2.1 =
      some (ops.sub agg (cache.aggregate ops keys hy sh1 sh2).1) := by
  refine ⟨?_, ?_, rfl, rfl, rfl, rfl⟩
  · intro h
    unfold ffiDeserializePublicKeyCached at h ⊢
    cases hd : (cache.deserialize deser bytes).1 <;>
      simp [convertResultToBool, FfiM.bind, FfiM.write, hd] at h ⊢
  · intro key h
    unfold ffiDeserializePublicKeyCached
    simp [convertResultToBool, FfiM.bind, FfiM.write, h]

/-! ### `batch_verify_strict` -/

theorem strictLoop_spec (c k : Bool) (rng : ℕ → ℕ → ℕ → UInt8) (res : ℕ → Bool)
    (batches : List (BatchMessage G1 G2)) (index : ℕ) (allValid : Bool) (out : ℕ → Bool)
    (h : ∀ (i : ℕ) (hi : i < batches.length),
      strictResult P E batches[i] c k (rng (index + i)) = .ok (res (index + i))) :
    ∃ b : Bool, strictLoop P E c k rng batches index allValid out =
      (.ok b, fun j => if index ≤ j ∧ j < index + batches.length then res j else out j) ∧
      (b = true ↔ allValid = true ∧ ∀ i < batches.length, res (index + i) = true) := by
  induction batches generalizing index allValid out with
  | nil =>
    refine ⟨allValid, ?_, by simp⟩
    simp only [strictLoop, FfiM.lift, List.length_nil, Nat.add_zero]
    congr 1
    funext j
    rw [if_neg (by omega)]
  | cons batch rest ih =>
    have h0 := h 0 (by simp)
    simp only [List.getElem_cons_zero, Nat.add_zero] at h0
    obtain ⟨b, hb, hb'⟩ := ih (index + 1) (if !res index then false else allValid)
      (Function.update out index (res index)) (by
        intro i hi
        have := h (i + 1) (by simp; omega)
        simp only [List.getElem_cons_succ] at this
        rw [show index + 1 + i = index + (i + 1) by omega]
        exact this)
    refine ⟨b, ?_, ?_⟩
    · simp only [strictLoop, FfiM.bind, FfiM.lift, FfiM.write, h0]
      rw [hb]
      congr 1
      funext j
      simp only [List.length_cons]
      by_cases hj : j = index
      · subst hj
        rw [if_neg (by omega), if_pos (by omega), Function.update_self]
      · rw [Function.update_of_ne hj]
        by_cases hj2 : index + 1 ≤ j ∧ j < index + 1 + rest.length
        · rw [if_pos hj2, if_pos (by omega)]
        · rw [if_neg hj2, if_neg (by omega)]
    · rw [hb']
      have hif : ((if !res index then false else allValid) = true) ↔
          (res index = true ∧ allValid = true) := by
        cases res index <;> simp
      rw [hif]
      constructor
      · rintro ⟨⟨h1, h2⟩, h3⟩
        refine ⟨h2, fun i hi => ?_⟩
        cases i with
        | zero => simpa using h1
        | succ i =>
          have := h3 i (by simp at hi; omega)
          rwa [show index + 1 + i = index + (i + 1) by omega] at this
      · rintro ⟨h2, h3⟩
        refine ⟨⟨by simpa using h3 0 (by simp), h2⟩, fun i hi => ?_⟩
        have := h3 (i + 1) (by simp; omega)
        rwa [show index + (i + 1) = index + 1 + i by omega] at this

/-- Specification: the result `batch_verify_strict` should report for one batch: did the
random-exponent check of all pairs of the batch pass? -/
def BatchPasses (b : BatchMessage G1 G2) (c k : Bool) (rng : ℕ → ℕ → UInt8) : Prop :=
  ∃ H, flagHash E c k = some H ∧
    (Batch.mk (b.publicKeys.zip b.signatures) b.data b.extra).verify P H rng = .ok ()

theorem strictResult_spec (hr : 2 ^ 248 < r) (b : BatchMessage G1 G2) (c k : Bool)
    (rng : ℕ → ℕ → UInt8)
    (hp : ∀ H, flagHash E c k = some H → H SIG_DOMAIN b.data b.extra ≠ .panic) :
    ∃ res : Bool, strictResult P E b c k rng = .ok res ∧
      (res = true ↔ BatchPasses P E b c k rng) := by
  have hctx : (b.publicKeys.zip b.signatures).foldl (fun c e => Batch.add c e.1 e.2)
      (Batch.new b.data b.extra) = ⟨b.publicKeys.zip b.signatures, b.data, b.extra⟩ := by
    have := C08_add_order b.data b.extra (b.publicKeys.zip b.signatures)
    cases h : (b.publicKeys.zip b.signatures).foldl (fun c e => Batch.add c e.1 e.2)
      (Batch.new b.data b.extra) with
    | mk entries message extraData =>
      rw [h] at this
      simp only at this
      rw [this.1, this.2.1, this.2.2]
  have key : ∀ H : HashToG1 G1, flagHash E c k = some H → ∃ res : Bool,
      resultIsOk (ε' := BLSError)
        ((Batch.mk (b.publicKeys.zip b.signatures) b.data b.extra).verify P H rng) = .ok res ∧
      (res = true ↔ BatchPasses P E b c k rng) := by
    intro H hH
    have hnp := C08_no_panic P hr (Batch.mk (b.publicKeys.zip b.signatures) b.data b.extra) H
      (hp H hH) rng
    cases hv : (Batch.mk (b.publicKeys.zip b.signatures) b.data b.extra).verify P H rng with
    | ok u => exact ⟨true, rfl, by simp only [true_iff]; exact ⟨H, hH, hv⟩⟩
    | err e =>
      refine ⟨false, rfl, ?_⟩
      simp only [Bool.false_eq_true, false_iff]
      rintro ⟨H', hH', hv'⟩
      rw [hH] at hH'
      cases hH'
      rw [hv] at hv'
      cases hv'
    | panic => exact absurd hv hnp
  unfold strictResult
  rw [hctx]
  cases c <;> cases k
  · exact key E.direct rfl
  · refine ⟨false, rfl, ?_⟩
    simp only [Bool.false_eq_true, false_iff]
    rintro ⟨H, hH, _⟩
    cases hH
  · exact key E.composite rfl
  · exact key E.cip22 rfl

/-- C56 for `batch_verify_strict`: every result is written, nothing beyond the array is, and the
return value is true exactly when all results are. -/
theorem C56_strict (hr : 2 ^ 248 < r) (batches : List (BatchMessage G1 G2)) (c k : Bool)
    (rng : ℕ → ℕ → ℕ → UInt8) (out : ℕ → Bool)
    (hp : ∀ H, flagHash E c k = some H → ∀ b ∈ batches, H SIG_DOMAIN b.data b.extra ≠ .panic) :
    ∃ (ret : Bool) (res : ℕ → Bool),
      ffiBatchVerifyStrict P E batches c k rng out = (.ok ret, res) ∧
      (∀ (i : ℕ) (hi : i < batches.length),
        (res i = true ↔ BatchPasses P E batches[i] c k (rng i))) ∧
      (∀ i, batches.length ≤ i → res i = out i) ∧
      (ret = true ↔ ∀ i < batches.length, res i = true) := by
  have hres : ∀ i, ∃ v : Bool, ∀ hi : i < batches.length,
      strictResult P E batches[i] c k (rng i) = .ok v ∧
        (v = true ↔ BatchPasses P E batches[i] c k (rng i)) := by
    intro i
    by_cases hi : i < batches.length
    · obtain ⟨v, hv⟩ := strictResult_spec P E hr batches[i] c k (rng i)
        (fun H hH => hp H hH _ (List.getElem_mem hi))
      exact ⟨v, fun _ => hv⟩
    · exact ⟨false, fun h => absurd h hi⟩
  choose res hres using hres
  obtain ⟨b, hb, hb'⟩ := strictLoop_spec P E c k rng res batches 0 true out (by
    intro i hi
    rw [Nat.zero_add]
    exact (hres i hi).1)
  refine ⟨b, fun j => if 0 ≤ j ∧ j < 0 + batches.length then res j else out j, ?_, ?_, ?_, ?_⟩
  · unfold ffiBatchVerifyStrict
    simp only [convertResultToBool, FfiM.bind, hb, FfiM.lift]
    cases b <;> rfl
  · intro i hi
    simp only []
    rw [if_pos (by omega)]
    exact (hres i hi).2
  · intro i hi
    simp only []
    rw [if_neg (by omega)]
  · rw [hb']
    simp only [true_and, Nat.zero_add]
    constructor
    · intro h i hi; rw [if_pos (by omega)]; exact h i hi
    · intro h i hi
      have := h i hi
      rwa [if_pos (by omega)] at this

/-- C56: with refused flags, `batch_verify_strict` does write: false for every batch. -/
theorem C56_strict_bad_flags (hr : 2 ^ 248 < r) (batches : List (BatchMessage G1 G2))
    (rng : ℕ → ℕ → ℕ → UInt8) (out : ℕ → Bool) :
    ∃ res : ℕ → Bool, ffiBatchVerifyStrict P E batches false true rng out =
        (.ok batches.isEmpty, res) ∧ ∀ i < batches.length, res i = false := by
  obtain ⟨ret, res, h1, h2, h3, h4⟩ := C56_strict P E hr batches false true rng out
    (fun H hH => by cases hH)
  have hf : ∀ i < batches.length, res i = false := by
    intro i hi
    cases hv : res i
    · rfl
    · obtain ⟨H, hH, _⟩ := (h2 i hi).mp hv
      cases hH
  refine ⟨res, ?_, hf⟩
  rw [h1]
  have : ret = batches.isEmpty := by
    cases batches with
    | nil => simpa using h4
    | cons b bs =>
      cases hret : ret
      · rfl
      · have := h4.mp hret 0 (by simp)
        rw [hf 0 (by simp)] at this
        cases this
  rw [this]

/-! ## C57 -/

/-- C57: with as many keys as signatures, a wrong pair anywhere in batch `j` makes the reported
result false for all but a `2 ^ -128` fraction of the random draws (whatever the other batches and
draws are). -/
theorem C57_sound [Fact r.Prime] (hr : 2 ^ 248 < r) (batches : List (BatchMessage G1 G2)) (c k : Bool)
    (rng : ℕ → ℕ → ℕ → UInt8) (out : ℕ → Bool)
    (hp : ∀ H, flagHash E c k = some H → ∀ b ∈ batches, H SIG_DOMAIN b.data b.extra ≠ .panic)
    (j : ℕ) (hj : j < batches.length)
    (hlen : batches[j].publicKeys.length = batches[j].signatures.length)
    (i : ℕ) (hi : i < batches[j].publicKeys.length)
    (hbad : ∀ H, flagHash E c k = some H →
      verify P batches[j].publicKeys[i] batches[j].data batches[j].extra
        (batches[j].signatures[i]'(hlen ▸ hi)) H ≠ .ok ())
    (kk : ℕ) (hkk : kk = byteCountFromTargetBatchSize batches[j].publicKeys.length 128) :
    (Finset.univ.filter fun t : Fin batches[j].publicKeys.length → Fin kk → UInt8 =>
      (ffiBatchVerifyStrict P E batches c k
        (Function.update rng j (tableRng t)) out).2 j = true).card * 2 ^ 128 ≤
    Fintype.card (Fin batches[j].publicKeys.length → Fin kk → UInt8) := by
  cases hH : flagHash E c k with
  | none =>
    have : (Finset.univ.filter fun t : Fin batches[j].publicKeys.length → Fin kk → UInt8 =>
      (ffiBatchVerifyStrict P E batches c k
        (Function.update rng j (tableRng t)) out).2 j = true) = ∅ := by
      rw [Finset.filter_eq_empty_iff]
      intro t _ hcon
      obtain ⟨ret, res, h1, h2, _, _⟩ := C56_strict P E hr batches c k
        (Function.update rng j (tableRng t)) out hp
      rw [h1] at hcon
      obtain ⟨H, hH', _⟩ := (h2 j hj).mp hcon
      rw [hH] at hH'
      cases hH'
    rw [this]
    simp
  | some H =>
    set b : Batch G1 G2 := ⟨batches[j].publicKeys.zip batches[j].signatures, batches[j].data,
      batches[j].extra⟩ with hb
    have hel : b.entries.length = batches[j].publicKeys.length := by
      simp [hb, hlen]
    have hbad' : ∃ e ∈ b.entries, verify P e.1 b.message b.extraData e.2 H ≠ .ok () := by
      refine ⟨(batches[j].publicKeys[i], batches[j].signatures[i]'(hlen ▸ hi)), ?_, hbad H hH⟩
      have : (batches[j].publicKeys.zip batches[j].signatures)[i]'(by simp; omega) =
          (batches[j].publicKeys[i], batches[j].signatures[i]'(hlen ▸ hi)) := by simp
      rw [← this]
      exact List.getElem_mem _
    have hC := C09_security_bound P hr b H hbad' kk (by rw [hkk, hel]; rfl)
    rw [hel] at hC
    refine le_trans (Nat.mul_le_mul_right _ (Finset.card_le_card ?_)) hC
    intro t ht
    rw [Finset.mem_filter] at ht ⊢
    refine ⟨Finset.mem_univ _, ?_⟩
    obtain ⟨ret, res, h1, h2, _, _⟩ := C56_strict P E hr batches c k
      (Function.update rng j (tableRng t)) out hp
    rw [h1] at ht
    obtain ⟨H', hH', hv⟩ := (h2 j hj).mp ht.2
    rw [hH] at hH'
    cases hH'
    rw [Function.update_self] at hv
    exact hv

/-- C57: valid pairs always pass. -/
theorem C57_complete (hr : 2 ^ 248 < r) (batches : List (BatchMessage G1 G2)) (c k : Bool)
    (rng : ℕ → ℕ → ℕ → UInt8) (out : ℕ → Bool) (H : HashToG1 G1) (hH : flagHash E c k = some H)
    (hok : ∀ b ∈ batches, ∃ h, H SIG_DOMAIN b.data b.extra = .ok h)
    (hv : ∀ b ∈ batches, ∀ e ∈ b.publicKeys.zip b.signatures,
      verify P e.1 b.data b.extra e.2 H = .ok ()) :
    ∃ res, ffiBatchVerifyStrict P E batches c k rng out = (.ok true, res) ∧
      ∀ i < batches.length, res i = true := by
  obtain ⟨ret, res, h1, h2, _, h4⟩ := C56_strict P E hr batches c k rng out (by
    intro H' hH' b hb
    rw [hH] at hH'
    cases hH'
    obtain ⟨h, hh⟩ := hok b hb
    rw [hh]
    simp)
  have hall : ∀ i < batches.length, res i = true := by
    intro i hi
    rw [h2 i hi]
    exact ⟨H, hH, C08_batch_complete P hr _ H (hok _ (List.getElem_mem hi))
      (hv _ (List.getElem_mem hi)) (rng i)⟩
  exact ⟨res, by rw [h1, h4.mpr hall], hall⟩

/-- C57, violation: surplus signatures are ignored, and so are surplus keys. -/
theorem C57_violation_surplus (keys : List G2) (sigs : List G1) (hl : keys.length = sigs.length)
    (data extra : Bytes) (moreKeys : List G2) (moreSigs : List G1) (c k : Bool)
    (rng : ℕ → ℕ → ℕ → UInt8) (out : ℕ → Bool) :
    ffiBatchVerifyStrict P E [⟨data, extra, keys, sigs ++ moreSigs⟩] c k rng out =
      ffiBatchVerifyStrict P E [⟨data, extra, keys, sigs⟩] c k rng out ∧
    ffiBatchVerifyStrict P E [⟨data, extra, keys ++ moreKeys, sigs⟩] c k rng out =
      ffiBatchVerifyStrict P E [⟨data, extra, keys, sigs⟩] c k rng out := by
  have h1 : keys.zip (sigs ++ moreSigs) = keys.zip sigs := by
    have := List.zip_append (r₁ := []) (r₂ := moreSigs) hl
    simpa using this
  have h2 : (keys ++ moreKeys).zip sigs = keys.zip sigs := by
    have := List.zip_append (r₁ := moreKeys) (r₂ := []) hl
    simpa using this
  unfold ffiBatchVerifyStrict
  simp only [strictLoop, strictResult, h1, h2, and_self]

/-- C57, violation: a batch of keys without any signature verifies. -/
theorem C57_violation_empty (hr : 2 ^ 248 < r) (keys : List G2) (data extra : Bytes) (c k : Bool)
    (H : HashToG1 G1) (hH : flagHash E c k = some H) (h : G1)
    (hh : H SIG_DOMAIN data extra = .ok h) (rng : ℕ → ℕ → ℕ → UInt8) (out : ℕ → Bool) :
    ∃ res, ffiBatchVerifyStrict P E [⟨data, extra, keys, []⟩] c k rng out = (.ok true, res) ∧
      res 0 = true := by
  obtain ⟨res, h1, h2⟩ := C57_complete P E hr [⟨data, extra, keys, []⟩] c k rng out H hH
    (by intro b hb; simp at hb; subst hb; exact ⟨h, hh⟩)
    (by intro b hb; simp at hb; subst hb; simp)
  exact ⟨res, h1, h2 0 (by simp)⟩

/-! ## C67 -/

/-- C67: none of the entry points of `signatures.rs` panics, provided hashing does not. -/
theorem C67_signatures (hr : 2 ^ 248 < r)
    (hE : ∀ d m e, E.directAttempt d m e ≠ .panic ∧ E.compositeAttempt d m e ≠ .panic ∧
      E.cip22Attempt d m e ≠ .panic)
    (sk : ZMod r) (pk : G2) (msg extra : Bytes) (sig : G1) (ms : List (FfiMessage G1 G2))
    (batches : List (BatchMessage G1 G2)) (c k : Bool) (rng : ℕ → ℕ → ℕ → UInt8) (w : G1 → Bytes)
    (o1 : Option G1) (o2 : Option Bool) (o3 : ℕ → Bool) (o4 : BytesOut) (o5 : Option Int32)
    (o6 : Option UInt8) :
    (ffiSignMessage E sk msg extra c k o1).1 ≠ .panic ∧
    (ffiSignPop E sk msg o1).1 ≠ .panic ∧
    (ffiVerifySignature P E pk msg extra sig c k o2).1 ≠ .panic ∧
    (ffiVerifyPop P E pk msg sig o2).1 ≠ .panic ∧
    (ffiBatchVerifySignature P E ms c k o2).1 ≠ .panic ∧
    (ffiBatchVerifyStrict P E batches c k rng o3).1 ≠ .panic ∧
    (ffiHashDirect E w msg c o4).1 ≠ .panic ∧
    (ffiHashDirectWithAttempt E w msg c (o4, o5)).1 ≠ .panic ∧
    (ffiHashComposite E w msg extra o4).1 ≠ .panic ∧
    (ffiHashCompositeCip22 E w msg extra (o4, o6)).1 ≠ .panic := by
  have hmap : ∀ x : Outcome BLSError (G1 × ℕ), x ≠ .panic → x.map Prod.fst ≠ .panic := by
    intro x hx; cases x <;> simp at hx ⊢
  have hdir : ∀ d m e, E.direct d m e ≠ .panic := fun d m e => hmap _ (hE d m e).1
  have hcom : ∀ d m e, E.composite d m e ≠ .panic := fun d m e => hmap _ (hE d m e).2.1
  have hcip : ∀ d m e, E.cip22 d m e ≠ .panic := fun d m e => hmap _ (hE d m e).2.2
  have hsign : ∀ (H : HashToG1 G1) d m e, (∀ d m e, H d m e ≠ .panic) →
      signMessage sk d m e H ≠ .panic := by
    intro H d m e hH
    unfold signMessage
    have := hH d m e
    cases h : H d m e <;> simp [h] at this ⊢
  have hver : ∀ (H : HashToG1 G1) d m e (pk : G2) (sig : G1), (∀ d m e, H d m e ≠ .panic) →
      verifySig P pk d m e sig H ≠ .panic := by
    intro H d m e pk sig hH
    unfold verifySig
    have := hH d m e
    cases h : H d m e with
    | ok a => simp only [Outcome.bind_ok]; split <;> simp
    | err a => simp
    | panic => exact absurd h this
  have hres : ∀ {α : Type} (x : Outcome BLSError α), x ≠ .panic →
      resultIsOk (ε' := BLSError) x ≠ .panic := by
    intro α x hx; cases x <;> simp [resultIsOk] at hx ⊢
  have hbat : ∀ (H : HashToG1 G1), (∀ d m e, H d m e ≠ .panic) → ∀ (s : G1) (pks : List G2)
      (msgs : List (Bytes × Bytes)), batchVerify P s pks SIG_DOMAIN msgs H ≠ .panic := by
    intro H hH s pks msgs
    unfold batchVerify
    split
    · simp
    · have hm : ∀ l : List (Bytes × Bytes),
          Outcome.mapM (fun m => H SIG_DOMAIN m.1 m.2) l ≠ .panic := by
        intro l
        induction l with
        | nil => simp
        | cons a as ih =>
          rw [Outcome.mapM_cons]
          have := hH SIG_DOMAIN a.1 a.2
          cases h : H SIG_DOMAIN a.1 a.2 with
          | ok v =>
            cases h2 : Outcome.mapM (fun m : Bytes × Bytes => H SIG_DOMAIN m.1 m.2) as <;>
              simp [h2] at ih ⊢
          | err e => simp
          | panic => exact absurd h this
      have := hm msgs
      cases h : Outcome.mapM (fun m : Bytes × Bytes => H SIG_DOMAIN m.1 m.2) msgs with
      | ok v =>
        simp only [Outcome.bind_ok, batchVerifyHashes]
        split
        · simp
        · split <;> simp
      | err e => simp
      | panic => exact absurd h this
  refine ⟨?_, ?_, ?_, ?_, ?_, ?_, ?_, ?_, ?_, ?_⟩
  · apply lift_write_no_panic
    cases c <;> cases k
    · exact hsign _ _ _ _ hdir
    · simp
    · exact hsign _ _ _ _ hcom
    · exact hsign _ _ _ _ hcip
  · exact lift_write_no_panic _ _ _ (hsign _ _ _ _ hdir)
  · apply lift_write_no_panic
    cases c <;> cases k
    · exact hres _ (hver _ _ _ _ _ _ hdir)
    · simp
    · exact hres _ (hver _ _ _ _ _ _ hcom)
    · exact hres _ (hver _ _ _ _ _ _ hcip)
  · exact lift_write_no_panic _ _ _ (hres _ (hver _ _ _ _ _ _ hdir))
  · apply lift_write_no_panic
    cases c <;> cases k
    · exact hres _ (hbat _ hdir _ _ _)
    · simp
    · exact hres _ (hbat _ hcom _ _ _)
    · exact hres _ (hbat _ hcip _ _ _)
  · obtain ⟨ret, res, h1, _⟩ := C56_strict P E hr batches c k rng o3 (by
      intro H hH b _
      rcases flagHash_cases E c k H hH with ⟨rfl, rfl, rfl⟩ | ⟨rfl, rfl, rfl⟩ | ⟨rfl, rfl, rfl⟩
      · exact hcip _ _ _
      · exact hcom _ _ _
      · exact hdir _ _ _)
    rw [h1]
    simp
  · exact lift_write_no_panic _ _ _ (hdir _ _ _)
  · exact lift_write_no_panic _ _ _ (hE _ _ _).1
  · exact lift_write_no_panic _ _ _ (hcom _ _ _)
  · exact lift_write_no_panic _ _ _ (hE _ _ _).2.2

end

/-! ## Concrete cases -/

/-- Example hashes (not code from /repo): three different functions, the direct one failing on the
empty message. -/
def exampleEnv : HashEnv (ZMod FR_MODULUS) where
  directAttempt _ m _ := if m = [] then .err .hashToCurveError else .ok (3, 1)
  compositeAttempt _ _ _ := .ok (5, 2)
  cip22Attempt _ _ _ := .ok (11, 4)

/-- Signing with the three accepted flag pairs gives three different signatures. -/
example : ffiSignMessage exampleEnv (2 : ZMod FR_MODULUS) [1] [] true true none = (.ok true, some 22) ∧
    ffiSignMessage exampleEnv (2 : ZMod FR_MODULUS) [1] [] true false none = (.ok true, some 10) ∧
    ffiSignMessage exampleEnv (2 : ZMod FR_MODULUS) [1] [] false false none = (.ok true, some 6) ∧
    ffiSignMessage exampleEnv (2 : ZMod FR_MODULUS) [] [] false false (some 9) = (.ok false, some 9) := by
  refine ⟨?_, ?_, ?_, ?_⟩ <;> decide +kernel

/-- The hypothesis of C55_agree holds for a key and a message. -/
example : (ffiSignMessage exampleEnv (2 : ZMod FR_MODULUS) [1] [] true true none).1 = .ok true := by decide +kernel

/-- The hypothesis of C55_pop. -/
example : (ffiSignPop exampleEnv (2 : ZMod FR_MODULUS) [1] none).1 = .ok true := by decide +kernel

/-- A hash failure (hypothesis of C55_hash_failure). -/
example : flagHash exampleEnv false false = some exampleEnv.direct ∧
    exampleEnv.direct SIG_DOMAIN [] [] = .err .hashToCurveError := ⟨rfl, rfl⟩

/-- C56 is about calls that fail: this one does. -/
example : (ffiSignMessage exampleEnv (2 : ZMod FR_MODULUS) [] [] false false (some 9)).1 ≠ .ok true := by
  decide +kernel

/-- A forged batch: two keys, no signature, accepted (C57). -/
example : ∃ res, ffiBatchVerifyStrict (toyPairing FR_MODULUS) exampleEnv
    [⟨[1], [], [7, 8], []⟩] true true (fun _ _ _ => 0) (fun _ => false) = (.ok true, res) ∧
    res 0 = true :=
  have : NeZero FR_MODULUS := ⟨FR_prime.ne_zero⟩
  C57_violation_empty _ exampleEnv (by decide +kernel) [7, 8] [1] [] true true exampleEnv.cip22 rfl
    11 rfl _ _

/-- A batch with a wrong pair (hypotheses of C57_sound): key 7 does not sign `1`. -/
example : ∀ H, flagHash exampleEnv true true = some H →
    verify (toyPairing FR_MODULUS) (7 : ZMod FR_MODULUS) [1] [] 1 H ≠ .ok () := by
  have : NeZero FR_MODULUS := ⟨FR_prime.ne_zero⟩
  intro H hH
  have hg : (7 : ZMod FR_MODULUS) = (7 : ZMod FR_MODULUS) • (toyPairing FR_MODULUS).g2 := by
    simp [toyPairing]
  rw [hg, Ne, C02_verify_dlog]
  rintro ⟨h, hh, h2⟩
  simp only [flagHash, Option.some.injEq] at hH
  subst hH
  simp only [exampleEnv, Outcome.map_ok, Outcome.ok.injEq] at hh
  subst hh
  revert h2
  decide +kernel

/-- The example hashes never panic (hypothesis of C67). -/
example : ∀ d m e, exampleEnv.directAttempt d m e ≠ .panic ∧
    exampleEnv.compositeAttempt d m e ≠ .panic ∧ exampleEnv.cip22Attempt d m e ≠ .panic := by
  intro d m e
  refine ⟨?_, by simp [exampleEnv], by simp [exampleEnv]⟩
  simp only [exampleEnv]
  split <;> simp

end Verif
