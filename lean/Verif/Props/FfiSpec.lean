import Verif.Props.FfiData
import Verif.Props.Ffi
import Verif.Props.HashToCurve
import Verif.Props.Encoding

/-!
# Properties C71 to C73: what the entry points of the C interface compute

The specifications relate entry points to one another (a hash entry point to the signing entry
point it must agree with), or to the mathematical content of the other properties.
-/

set_option linter.unusedSectionVars false

namespace Verif

/-- Specification: a pair of output pointers holds the byte string `v`, with its length as long as
that fits a `c_int`. -/
def BytesOut.Holds (o : BytesOut) (v : Bytes) : Prop :=
  o.bytes = some v ∧ ∃ n, o.len = some n ∧ (v.length < 2 ^ 31 → n.toInt = v.length)

theorem holds_of (v : Bytes) : (BytesOut.of v).Holds v :=
  ⟨rfl, _, rfl, fun h => Int32.toInt_ofNat_of_lt h⟩

theorem BytesOut.Holds.unique {o : BytesOut} {v w : Bytes} (hv : o.Holds v) (hw : o.Holds w) :
    v = w := Option.some.inj (hv.1.symm.trans hw.1)

theorem lift_write_eq {σ ε α : Type*} (x : Outcome ε α) (g : α → σ → σ) (s : σ) :
    convertResultToBool ((FfiM.lift x).bind fun a => FfiM.write (g a)) s =
      match x with
      | .ok a => (.ok true, g a s)
      | .err _ => (.ok false, s)
      | .panic => (.panic, s) := by
  cases x <;> rfl

/-- Specification: a hash entry point and a family of signing calls (one per secret key) agree.
Either there is an element `h` such that the hash output satisfies `R h` and every key `sk` signs
with `sk • h`, or both return false and write nothing, or both panic. -/
def HashAgrees {r : ℕ} {G1 σ : Type*} [AddCommGroup G1] [Module (ZMod r) G1]
    (hash : FfiM σ Unit Bool) (R : G1 → σ → Prop) (signer : ZMod r → FfiM (Option G1) Unit Bool) :
    Prop :=
  (∃ h, (∀ out, ∃ o, hash out = (.ok true, o) ∧ R h o) ∧
    ∀ sk out, signer sk out = (.ok true, some (sk • h))) ∨
  ((∀ out, hash out = (.ok false, out)) ∧ ∀ sk out, signer sk out = (.ok false, out)) ∨
  ((∀ out, hash out = (.panic, out)) ∧ ∀ sk out, signer sk out = (.panic, out))

section
variable {r : ℕ} [NeZero r] {G1 G2 GT : Type*} [AddCommGroup G1] [Module (ZMod r) G1]
  [AddCommGroup G2] [Module (ZMod r) G2] [CommGroup GT] [DecidableEq GT]
  (P : Pairing r G1 G2 GT) (E : HashEnv G1)

/-! ## C71 -/

theorem hashAgrees_of {σ : Type*} (x : Outcome BLSError (G1 × ℕ)) (hash : FfiM σ Unit Bool)
    (R : G1 → σ → Prop) (signer : ZMod r → FfiM (Option G1) Unit Bool)
    (hok : ∀ h c, x = .ok (h, c) → (∀ out, ∃ o, hash out = (.ok true, o) ∧ R h o) ∧
      ∀ sk out, signer sk out = (.ok true, some (sk • h)))
    (herr : ∀ e, x = .err e → (∀ out, hash out = (.ok false, out)) ∧
      ∀ sk out, signer sk out = (.ok false, out))
    (hpanic : x = .panic → (∀ out, hash out = (.panic, out)) ∧
      ∀ sk out, signer sk out = (.panic, out)) : HashAgrees hash R signer := by
  cases hx : x with
  | ok hc => exact .inl ⟨hc.1, hok hc.1 hc.2 hx⟩
  | err e => exact .inr (.inl (herr e hx))
  | panic => exact .inr (.inr (hpanic hx))

/-- C71: `hash_direct` returns the element that is signed: by `sign_message` with neither flag, or
by `sign_pop` when `use_pop` is set. -/
theorem C71_direct (w : G1 → Bytes) (msg : Bytes) :
    HashAgrees (r := r) (ffiHashDirect E w msg false) (fun h o => o.Holds (w h))
      (fun sk => ffiSignMessage E sk msg [] false false) ∧
    HashAgrees (r := r) (ffiHashDirect E w msg true) (fun h o => o.Holds (w h))
      (fun sk => ffiSignPop E sk msg) := by
  constructor
  · refine hashAgrees_of (E.directAttempt SIG_DOMAIN msg []) _ _ _ (fun h c hx => ?_)
      (fun e hx => ?_) (fun hx => ?_) <;>
    · simp only [ffiHashDirect, ffiSignMessage, lift_write_eq, sign, signMessage, HashEnv.direct, hx,
        Bool.false_eq_true, if_false]
      simp [Outcome.map, Outcome.bind, signRaw, holds_of]
  · refine hashAgrees_of (E.directAttempt POP_DOMAIN msg []) _ _ _ (fun h c hx => ?_)
      (fun e hx => ?_) (fun hx => ?_) <;>
    · simp only [ffiHashDirect, ffiSignPop, lift_write_eq, signPop, signMessage, HashEnv.direct, hx,
        if_true]
      simp [Outcome.map, Outcome.bind, signRaw, holds_of]

/-- C71: `hash_composite` and `hash_composite_cip22` return the element that `sign_message` signs
with the composite flag, and with both flags. -/
theorem C71_composite (w : G1 → Bytes) (msg extra : Bytes) :
    HashAgrees (r := r) (ffiHashComposite E w msg extra) (fun h o => o.Holds (w h))
      (fun sk => ffiSignMessage E sk msg extra true false) ∧
    HashAgrees (r := r) (ffiHashCompositeCip22 E w msg extra) (fun h o => o.1.Holds (w h))
      (fun sk => ffiSignMessage E sk msg extra true true) := by
  constructor
  · refine hashAgrees_of (E.compositeAttempt SIG_DOMAIN msg extra) _ _ _ (fun h c hx => ?_)
      (fun e hx => ?_) (fun hx => ?_) <;>
    · simp only [ffiHashComposite, ffiSignMessage, lift_write_eq, sign, signMessage,
        HashEnv.composite, hx]
      simp [Outcome.map, Outcome.bind, signRaw, holds_of]
  · refine hashAgrees_of (E.cip22Attempt SIG_DOMAIN msg extra) _ _ _ (fun h c hx => ?_)
      (fun e hx => ?_) (fun hx => ?_) <;>
    · simp only [ffiHashCompositeCip22, ffiSignMessage, lift_write_eq, sign, signMessage,
        HashEnv.cip22, hx]
      simp [Outcome.map, Outcome.bind, signRaw, holds_of]

/-- C71: `hash_direct_with_attempt` returns what `hash_direct` returns, and also a counter. -/
theorem C71_with_attempt (w : G1 → Bytes) (msg : Bytes) (pop : Bool) (out : BytesOut)
    (att : Option Int32) :
    (ffiHashDirectWithAttempt E w msg pop (out, att)).1 = (ffiHashDirect E w msg pop out).1 ∧
    (ffiHashDirectWithAttempt E w msg pop (out, att)).2.1 = (ffiHashDirect E w msg pop out).2 ∧
    ((ffiHashDirect E w msg pop out).1 = .ok true →
      (ffiHashDirectWithAttempt E w msg pop (out, att)).2.2.isSome) ∧
    ((ffiHashDirect E w msg pop out).1 ≠ .ok true →
      (ffiHashDirectWithAttempt E w msg pop (out, att)).2.2 = att) := by
  simp only [ffiHashDirectWithAttempt, ffiHashDirect, lift_write_eq, HashEnv.direct]
  cases E.directAttempt (if pop then POP_DOMAIN else SIG_DOMAIN) msg [] <;>
    simp [Outcome.map]

end

section
variable {G : Type*} [AddCommGroup G] [DecidableEq G]

/-- Specification: a byte-returning entry point succeeds with `v`. -/
def Returns (f : FfiM BytesOut Unit Bool) (v : Bytes) : Prop :=
  ∀ out, ∃ o, f out = (.ok true, o) ∧ o.Holds v

theorem firstStep_returns {h : Hasher} {m d : Bytes} {n : ℕ} (hd : h.hash SIG_DOMAIN m n = .ok d) :
    Returns (ffiHashDirectFirstStep h m n) d := fun out => by
  simp only [ffiHashDirectFirstStep, lift_write_eq, hd]
  exact ⟨_, rfl, holds_of d⟩

theorem crh_returns {h : Hasher} {m d : Bytes} {n : ℕ} (hd : h.crh SIG_DOMAIN m n = .ok d) :
    Returns (ffiHashCrh h m n) d := fun out => by
  simp only [ffiHashCrh, lift_write_eq, hd]
  exact ⟨_, rfl, holds_of d⟩

/-- C71: the attempt reported by `hash_direct_with_attempt` is the counter that was used.  It is a
number below 255; prefixing it to the message and calling `hash_direct_first_step` for 64 bytes
gives a digest that yields the returned element; for every smaller counter that call gives a digest
that yields none. -/
theorem C71_attempt_direct (compat : Bool) (B : Blake2s) {sqrt : Fq → Option Fq}
    (hs : SqrtSpec sqrt) (scale : AffinePoint Fq → G) (E : HashEnv G)
    (hE : E.directAttempt = hashWithAttempt compat (directHasher B) sqrt scale) (w : G → Bytes)
    (msg : Bytes) (out : BytesOut × Option Int32)
    (ht : (ffiHashDirectWithAttempt E w msg false out).1 = .ok true) :
    ∃ (g : G) (a : Int32) (c : UInt8) (d : Bytes),
      (ffiHashDirectWithAttempt E w msg false out).2.1.Holds (w g) ∧
      (ffiHashDirectWithAttempt E w msg false out).2.2 = some a ∧
      a.toInt = c.toNat ∧ c.toNat < 255 ∧
      Returns (ffiHashDirectFirstStep (directHasher B) (c :: msg) 64) d ∧
      Yields compat scale d g ∧
      ∀ c' : UInt8, c' < c → ∃ d',
        Returns (ffiHashDirectFirstStep (directHasher B) (c' :: msg) 64) d' ∧
        Useless compat scale d' := by
  simp only [ffiHashDirectWithAttempt, lift_write_eq, hE] at ht ⊢
  cases hx : hashWithAttempt compat (directHasher B) sqrt scale
      (if false = true then POP_DOMAIN else SIG_DOMAIN) msg [] with
  | err e => rw [hx] at ht; simp at ht
  | panic => rw [hx] at ht; simp at ht
  | ok gc =>
    obtain ⟨g, c⟩ := gc
    obtain ⟨hc, ⟨d, hd, hy⟩, hu⟩ := (C18_ok_iff compat (directHasher B) hs scale _ _ _ g c).mp hx
    have hcn : (UInt8.ofNat c).toNat = c := UInt8.toNat_ofNat_of_lt' (by norm_num [UInt8.size]; omega)
    refine ⟨g, Int32.ofNat c, UInt8.ofNat c, d, holds_of _, rfl, ?_, by omega,
      firstStep_returns hd, hy, fun c' hc' => ?_⟩
    · rw [Int32.toInt_ofNat_of_lt (by omega), hcn]
    · have hlt : c'.toNat < c := by have := UInt8.lt_iff_toNat_lt.mp hc'; omega
      obtain ⟨d', hd', hu'⟩ := hu c'.toNat hlt
      rw [UInt8.ofNat_toNat] at hd'
      exact ⟨d', firstStep_returns hd', hu'⟩

/-- C71: the byte written by `hash_composite_cip22` is the counter that was used, uncut.  `hash_crh`
of the message (for any requested length) gives an inner hash; expanding counter, extra data and
inner hash to 64 bytes gives a digest that yields the returned element; no smaller counter does. -/
theorem C71_attempt_cip22 (compat : Bool) (B : Blake2s) (pedersen : Bytes → Outcome BLSError Bytes)
    {sqrt : Fq → Option Fq} (hs : SqrtSpec sqrt) (scale : AffinePoint Fq → G) (E : HashEnv G)
    (hE : E.cip22Attempt = hashWithAttemptCip22 compat (compositeHasher B pedersen) sqrt scale)
    (w : G → Bytes) (msg extra : Bytes) (out : BytesOut × Option UInt8)
    (ht : (ffiHashCompositeCip22 E w msg extra out).1 = .ok true) :
    ∃ (g : G) (c : UInt8) (inner d : Bytes),
      (ffiHashCompositeCip22 E w msg extra out).2.1.Holds (w g) ∧
      (ffiHashCompositeCip22 E w msg extra out).2.2 = some c ∧ c.toNat < 255 ∧
      (∀ n, Returns (ffiHashCrh (compositeHasher B pedersen) msg n) inner) ∧
      directXof B SIG_DOMAIN (c :: (extra ++ inner)) 64 = .ok d ∧ Yields compat scale d g ∧
      ∀ c' : UInt8, c' < c → ∃ d', directXof B SIG_DOMAIN (c' :: (extra ++ inner)) 64 = .ok d' ∧
        Useless compat scale d' := by
  simp only [ffiHashCompositeCip22, lift_write_eq, hE] at ht ⊢
  cases hx : hashWithAttemptCip22 compat (compositeHasher B pedersen) sqrt scale SIG_DOMAIN msg
      extra with
  | err e => rw [hx] at ht; simp at ht
  | panic => rw [hx] at ht; simp at ht
  | ok gc =>
    obtain ⟨g, c⟩ := gc
    obtain ⟨inner, hi, hc, ⟨d, hd, hy⟩, hu⟩ :=
      (C19_ok_iff compat (compositeHasher B pedersen) hs scale _ _ _ g c).mp hx
    have hcn : (UInt8.ofNat c).toNat = c := UInt8.toNat_ofNat_of_lt' (by norm_num [UInt8.size]; omega)
    refine ⟨g, UInt8.ofNat c, inner, d, holds_of _, rfl, by omega, fun n => crh_returns hi, hd, hy,
      fun c' hc' => ?_⟩
    have hlt : c'.toNat < c := by have := UInt8.lt_iff_toNat_lt.mp hc'; omega
    obtain ⟨d', hd', hu'⟩ := hu c'.toNat hlt
    rw [UInt8.ofNat_toNat] at hd'
    exact ⟨d', hd', hu'⟩

/-- C71: what `hash_composite` returns, step by step: `hash_crh` of counter, extra data and message,
expanded to 64 bytes, for the least counter that is usable. -/
theorem C71_steps_composite (compat : Bool) (B : Blake2s)
    (pedersen : Bytes → Outcome BLSError Bytes)
    {sqrt : Fq → Option Fq} (hs : SqrtSpec sqrt) (scale : AffinePoint Fq → G) (E : HashEnv G)
    (hE : E.compositeAttempt = hashWithAttempt compat (compositeHasher B pedersen) sqrt scale)
    (w : G → Bytes) (msg extra : Bytes) (out : BytesOut)
    (ht : (ffiHashComposite E w msg extra out).1 = .ok true) :
    ∃ (g : G) (c : UInt8) (inner d : Bytes),
      (ffiHashComposite E w msg extra out).2.Holds (w g) ∧ c.toNat < 255 ∧
      (∀ n, Returns (ffiHashCrh (compositeHasher B pedersen) (c :: (extra ++ msg)) n) inner) ∧
      directXof B SIG_DOMAIN inner 64 = .ok d ∧ Yields compat scale d g ∧
      ∀ c' : UInt8, c' < c → ∃ inner' d',
        (∀ n, Returns (ffiHashCrh (compositeHasher B pedersen) (c' :: (extra ++ msg)) n) inner') ∧
        directXof B SIG_DOMAIN inner' 64 = .ok d' ∧ Useless compat scale d' := by
  simp only [ffiHashComposite, lift_write_eq, HashEnv.composite, hE] at ht ⊢
  cases hx : hashWithAttempt compat (compositeHasher B pedersen) sqrt scale SIG_DOMAIN msg
      extra with
  | err e => rw [hx] at ht; simp [Outcome.map] at ht
  | panic => rw [hx] at ht; simp [Outcome.map] at ht
  | ok gc =>
    obtain ⟨g, c⟩ := gc
    obtain ⟨hc, ⟨d, hd, hy⟩, hu⟩ :=
      (C18_ok_iff compat (compositeHasher B pedersen) hs scale _ _ _ g c).mp hx
    have hcn : (UInt8.ofNat c).toNat = c := UInt8.toNat_ofNat_of_lt' (by norm_num [UInt8.size]; omega)
    unfold Hasher.hash at hd
    obtain ⟨inner, hi, hd⟩ := (Outcome.bind_eq_ok_iff _ _ _).mp hd
    refine ⟨g, UInt8.ofNat c, inner, d, holds_of _, by omega, fun n => crh_returns hi, hd, hy,
      fun c' hc' => ?_⟩
    have hlt : c'.toNat < c := by have := UInt8.lt_iff_toNat_lt.mp hc'; omega
    obtain ⟨d', hd', hu'⟩ := hu c'.toNat hlt
    rw [UInt8.ofNat_toNat] at hd'
    unfold Hasher.hash at hd'
    obtain ⟨inner', hi', hd'⟩ := (Outcome.bind_eq_ok_iff _ _ _).mp hd'
    exact ⟨inner', d', fun n => crh_returns hi', hd', hu'⟩

end

/-! ## C72 -/

theorem liftEnc_ok_iff {α : Type*} (x : Outcome SerError α) (a : α) :
    liftEnc x = .ok a ↔ x = .ok a := by
  cases x <;> simp [liftEnc]

theorem liftEnc_panic_iff {α : Type*} (x : Outcome SerError α) :
    liftEnc x = .panic ↔ x = .panic := by
  cases x <;> simp [liftEnc]

theorem Outcome.bind_ne_panic {ε α β : Type*} {x : Outcome ε α} {f : α → Outcome ε β}
    (hx : x ≠ .panic) (hf : ∀ a, f a ≠ .panic) : x.bind f ≠ .panic := by
  cases x with
  | ok a => exact hf a
  | err e => simp
  | panic => exact absurd rfl hx

section
variable {VK Proof : Type*} (readVk : Bytes → Outcome SerError VK)
  (readProof : Bytes → Outcome SerError Proof)
  (groth16 : VK → Proof → List Fq → Outcome Unit Bool) (sqrt : Fq2 → Option Fq2) (gen : G2Point)
  (B : Blake2s) (mem : Memory) (vkPtr vkLen proofPtr proofLen : ℕ) (first last : EpochBlockFFI)

/-- C72: `verify` returns true exactly when the keys of both blocks, the verification key and the
proof decode, and the proof system accepts the proof for the public inputs of the two blocks as
described by the structures. -/
theorem C72_accepts_iff :
    (ffiVerify readVk readProof groth16 sqrt gen B mem vkPtr vkLen proofPtr proofLen first last
        ()).1 = .ok true ↔
      ∃ (f l : EpochBlock) (vk : VK) (proof : Proof),
        (readPubkeys sqrt mem first.pubkeys first.pubkeysNum = .ok f.newPublicKeys ∧
          f.index = first.index ∧ f.round = first.round ∧
          f.maximumNonSigners = first.maximumNonSigners ∧
          f.maximumValidators = first.maximumValidators ∧
          (f.epochEntropy = if first.epochEntropy = 0 then none
            else some ((List.range 16).map fun i => mem (first.epochEntropy + i))) ∧
          (f.parentEntropy = if first.parentEntropy = 0 then none
            else some ((List.range 16).map fun i => mem (first.parentEntropy + i)))) ∧
        (readPubkeys sqrt mem last.pubkeys last.pubkeysNum = .ok l.newPublicKeys ∧
          l.index = last.index ∧ l.round = last.round ∧
          l.maximumNonSigners = last.maximumNonSigners ∧
          l.maximumValidators = last.maximumValidators ∧
          (l.epochEntropy = if last.epochEntropy = 0 then none
            else some ((List.range 16).map fun i => mem (last.epochEntropy + i))) ∧
          (l.parentEntropy = if last.parentEntropy = 0 then none
            else some ((List.range 16).map fun i => mem (last.parentEntropy + i)))) ∧
        readVk ((List.range vkLen).map fun i => mem (vkPtr + i)) = .ok vk ∧
        readProof ((List.range proofLen).map fun i => mem (proofPtr + i)) = .ok proof ∧
        groth16 vk proof (publicInputs gen B f l) = .ok true := by
  simp only [← (C58_block sqrt mem first).1, ← (C58_block sqrt mem last).1, ← C34_accepts_iff]
  have key : ∀ x : Outcome VerificationError Unit,
      (convertResultToBool (FfiM.lift x) ()).1 = .ok true ↔ x = .ok () := by
    intro x; cases x <;> simp [convertResultToBool, FfiM.lift]
  unfold ffiVerify
  rw [key]
  simp only [Outcome.bind_eq_ok_iff, liftEnc_ok_iff]
  constructor
  · rintro ⟨f, h1, l, h2, vk, h3, p, h4, h5⟩
    exact ⟨f, l, vk, p, h1, h2, h3, h4, h5⟩
  · rintro ⟨f, l, vk, p, h1, h2, h3, h4, h5⟩
    exact ⟨f, h1, l, h2, vk, h3, p, h4, h5⟩

/-- C72: in all other cases it returns false; it panics only if the external decoders or the proof
system do. -/
theorem C72_no_panic (h1 : ∀ b, readVk b ≠ .panic) (h2 : ∀ b, readProof b ≠ .panic)
    (h3 : ∀ vk p l, groth16 vk p l ≠ .panic) :
    ∃ b : Bool, (ffiVerify readVk readProof groth16 sqrt gen B mem vkPtr vkLen proofPtr proofLen
      first last ()).1 = .ok b := by
  have hb : ∀ src, epochBlockFromFfi sqrt mem src ≠ .panic := fun src =>
    (C67_deserialize (fun _ => none) sqrt [] mem src).2.2.2
  have key : ∀ x : Outcome VerificationError Unit, x ≠ .panic →
      ∃ b : Bool, (convertResultToBool (FfiM.lift x) ()).1 = .ok b := by
    intro x hx; cases x <;> simp [convertResultToBool, FfiM.lift] at hx ⊢
  unfold ffiVerify
  refine key _ (Outcome.bind_ne_panic ?_ fun f => Outcome.bind_ne_panic ?_ fun l =>
    Outcome.bind_ne_panic ?_ fun vk => Outcome.bind_ne_panic ?_ fun p => ?_)
  · exact fun h => hb _ ((liftEnc_panic_iff _).mp h)
  · exact fun h => hb _ ((liftEnc_panic_iff _).mp h)
  · exact fun h => h1 _ ((liftEnc_panic_iff _).mp h)
  · exact fun h => h2 _ ((liftEnc_panic_iff _).mp h)
  · exact fun h => h3 _ _ _ ((C34_rejects groth16 gen B vk f l p).2.mp h)

/-- C72: called on keys that were serialised into memory (`serialize_pubkeys`), `verify` decides
exactly the proof for the blocks with those keys. -/
theorem C72_serialized {sqrt : Fq2 → Option Fq2} (hs : RootSpec sqrt) (f l : EpochBlock)
    (hf : ∀ k ∈ f.newPublicKeys, FR_MODULUS • k = 0) (hl : ∀ k ∈ l.newPublicKeys, FR_MODULUS • k = 0)
    (hfm : mem.slice first.pubkeys (serializePubkeys f.newPublicKeys).length =
      serializePubkeys f.newPublicKeys)
    (hlm : mem.slice last.pubkeys (serializePubkeys l.newPublicKeys).length =
      serializePubkeys l.newPublicKeys)
    (hff : first = ⟨f.index, f.round, first.epochEntropy, first.parentEntropy, first.pubkeys,
      f.newPublicKeys.length, f.maximumNonSigners, f.maximumValidators⟩)
    (hlf : last = ⟨l.index, l.round, last.epochEntropy, last.parentEntropy, last.pubkeys,
      l.newPublicKeys.length, l.maximumNonSigners, l.maximumValidators⟩)
    (hfe : f.epochEntropy = if first.epochEntropy = 0 then none
      else some ((List.range 16).map fun i => mem (first.epochEntropy + i)))
    (hfp : f.parentEntropy = if first.parentEntropy = 0 then none
      else some ((List.range 16).map fun i => mem (first.parentEntropy + i)))
    (hle : l.epochEntropy = if last.epochEntropy = 0 then none
      else some ((List.range 16).map fun i => mem (last.epochEntropy + i)))
    (hlp : l.parentEntropy = if last.parentEntropy = 0 then none
      else some ((List.range 16).map fun i => mem (last.parentEntropy + i)))
    (vk : VK) (proof : Proof)
    (hvk : readVk ((List.range vkLen).map fun i => mem (vkPtr + i)) = .ok vk)
    (hpr : readProof ((List.range proofLen).map fun i => mem (proofPtr + i)) = .ok proof) :
    (ffiVerify readVk readProof groth16 sqrt gen B mem vkPtr vkLen proofPtr proofLen first last
        ()).1 = .ok true ↔ groth16 vk proof (publicInputs gen B f l) = .ok true := by
  have e1 := (C58_block sqrt mem first).1 f
  have e2 := (C58_block sqrt mem last).1 l
  have d1 : epochBlockFromFfi sqrt mem first = .ok f := e1.mpr ⟨by
      rw [congrArg EpochBlockFFI.pubkeysNum hff]
      exact C58_roundtrip hs _ hf mem _ hfm,
    (congrArg EpochBlockFFI.index hff).symm, (congrArg EpochBlockFFI.round hff).symm,
    (congrArg EpochBlockFFI.maximumNonSigners hff).symm,
    (congrArg EpochBlockFFI.maximumValidators hff).symm, hfe, hfp⟩
  have d2 : epochBlockFromFfi sqrt mem last = .ok l := e2.mpr ⟨by
      rw [congrArg EpochBlockFFI.pubkeysNum hlf]
      exact C58_roundtrip hs _ hl mem _ hlm,
    (congrArg EpochBlockFFI.index hlf).symm, (congrArg EpochBlockFFI.round hlf).symm,
    (congrArg EpochBlockFFI.maximumNonSigners hlf).symm,
    (congrArg EpochBlockFFI.maximumValidators hlf).symm, hle, hlp⟩
  rw [C72_accepts_iff]
  simp only [← (C58_block sqrt mem first).1, ← (C58_block sqrt mem last).1]
  constructor
  · rintro ⟨f', l', vk', p', h1, h2, h3, h4, h5⟩
    rw [d1] at h1; rw [d2] at h2; rw [hvk] at h3; rw [hpr] at h4
    cases h1; cases h2; cases h3; cases h4
    exact h5
  · intro h
    exact ⟨f, l, vk, proof, d1, d2, hvk, hpr, h⟩

end

/-! ## C73 -/

section
variable {r : ℕ} [NeZero r] {G1 G2 GT : Type*} [AddCommGroup G1] [Module (ZMod r) G1]
  [AddCommGroup G2] [Module (ZMod r) G2] [CommGroup GT] [DecidableEq GT]
  (P : Pairing r G1 G2 GT) (E : HashEnv G1)

/-- C73: `generate_private_key` always succeeds and hands out the key drawn;
`private_key_to_public_key` always succeeds; for every pair of accepted flags, under the key it
hands out `verify_signature` reports exactly the output of `sign_message` as verified. -/
theorem C73_keys (drawn : ZMod r) (o1 : Option (ZMod r)) (o2 : Option G2) :
    ffiGeneratePrivateKey drawn o1 = (.ok true, some drawn) ∧
    ∃ pk, ffiPrivateKeyToPublicKey P drawn o2 = (.ok true, some pk) ∧
      ∀ msg extra c k out sig, ffiSignMessage E drawn msg extra c k out = (.ok true, some sig) →
        ∀ sig' out', ∃ b : Bool,
          ffiVerifySignature P E pk msg extra sig' c k out' = (.ok true, some b) ∧
          (b = true ↔ sig' = sig) := by
  refine ⟨rfl, toPublic P drawn, rfl, fun msg extra c k out sig hs sig' out' => ?_⟩
  obtain ⟨s, h1, h2⟩ := C55_agree P E drawn msg extra c k out (by rw [hs])
  rw [hs] at h1
  cases h1
  by_cases he : sig' = sig
  · exact ⟨true, (h2 sig' out').1 he, by simp [he]⟩
  · exact ⟨false, (h2 sig' out').2 he, by simp [he]⟩

/-- C73: signatures of one message by any keys, written by `sign_message`, put together by
`aggregate_signatures`: the result is the only signature that `verify_signature` reports as verified
under the sum of the keys handed out by `private_key_to_public_key`. -/
theorem C73_aggregate (ks : List (ZMod r × G2 × G1)) (hne : ks ≠ []) (msg extra : Bytes)
    (c k : Bool) (outS : Option G1) (outK : Option G2)
    (hk : ∀ x ∈ ks, ffiPrivateKeyToPublicKey P x.1 outK = (.ok true, some x.2.1) ∧
      ffiSignMessage E x.1 msg extra c k outS = (.ok true, some x.2.2)) (out : Option G1) :
    ∃ asig, ffiAggregateSignatures (ks.map fun x => x.2.2) out = (.ok true, some asig) ∧
      ∀ sig' out', ∃ b : Bool,
        ffiVerifySignature P E (ks.map fun x => x.2.1).sum msg extra sig' c k out' =
          (.ok true, some b) ∧ (b = true ↔ sig' = asig) := by
  refine ⟨aggregateSignatures (ks.map fun x => x.2.2), rfl, fun sig' out' => ?_⟩
  cases hf : flagHash E c k with
  | none =>
    obtain ⟨x, hx⟩ := List.exists_mem_of_ne_nil ks hne
    have := (hk x hx).2
    cases c <;> cases k <;> simp [flagHash] at hf
    simp [ffiSignMessage, convertResultToBool, FfiM.bind, FfiM.lift] at this
  | some H =>
    have hsign : ∀ x ∈ ks, sign x.1 msg extra H = .ok x.2.2 := by
      intro x hx
      have h := (hk x hx).2
      obtain ⟨h1, h2, h3⟩ := C55_sign E x.1 msg extra c k H hf outS
      cases hs : sign x.1 msg extra H with
      | ok s => rw [h1 s hs] at h; simp only [Prod.mk.injEq, Option.some.injEq, true_and] at h; rw [h]
      | err e => rw [h2 e hs] at h; simp at h
      | panic => rw [h3 hs] at h; simp at h
    have hpk : ∀ x ∈ ks, x.2.1 = toPublic P x.1 := by
      intro x hx
      have h := (hk x hx).1
      simp only [ffiPrivateKeyToPublicKey, convertResultToBool, FfiM.write, Prod.mk.injEq,
        Option.some.injEq, true_and] at h
      exact h.symm
    have hh : ∃ h, H SIG_DOMAIN msg extra = .ok h := by
      obtain ⟨x, hx⟩ := List.exists_mem_of_ne_nil ks hne
      have := hsign x hx
      unfold sign signMessage at this
      rw [Outcome.bind_eq_ok_iff] at this
      exact ⟨_, this.choose_spec.1⟩
    have hall : List.Forall₂ (fun sk sig => sign sk msg extra H = .ok sig) (ks.map Prod.fst)
        (ks.map fun x => x.2.2) := by
      rw [List.forall₂_map_left_iff, List.forall₂_map_right_iff, List.forall₂_same]
      exact hsign
    have hv := C04_aggregate_verify P (ks.map Prod.fst) msg extra H _ hall hh sig'
    have hsum : aggregatePublicKeys ((ks.map Prod.fst).map (toPublic P)) =
        (ks.map fun x => x.2.1).sum := by
      rw [aggregatePublicKeys_eq_sum, List.map_map]
      congr 1
      exact List.map_congr_left fun x hx => (hpk x hx).symm
    rw [hsum] at hv
    obtain ⟨h, hh⟩ := hh
    obtain ⟨b, hb, hbe⟩ := C55_verified_exact P E (ks.map fun x => x.2.1).sum msg extra sig' c k H
      hf h hh out'
    have hex := C02_verify_exact P (ks.map fun x => x.2.1).sum msg extra sig' H h hh
    refine ⟨b, hb, hbe.trans ⟨fun e => hv.mp (hex.1 e), fun e => ?_⟩⟩
    by_contra hcon
    rw [hv.mpr e] at hex
    exact absurd (hex.2 hcon) (by simp)

end

/-- C73: `encode_epoch_block_to_bytes_cip22`, called with the fields of a structure that `verify`
would accept as block `b`, returns two byte strings; they are the ones `b` is hashed by: hashing the
block (whatever the hash) is hashing them, in this order, in the signature domain. -/
theorem C73_encode_cip22 (sqrt : Fq2 → Option Fq2) (gen : G2Point) (mem : Memory)
    (src : EpochBlockFFI) (b : EpochBlock) (hb : epochBlockFromFfi sqrt mem src = .ok b)
    (mv : UInt32) (hmv : mv.toNat = src.maximumValidators) (out : BytesOut × BytesOut) :
    ∃ o inner extra,
      ffiEncodeEpochBlockCip22 gen mem src.index src.round src.epochEntropy src.parentEntropy
        src.maximumNonSigners mv b.newPublicKeys out = (.ok true, o) ∧
      o.1.Holds inner ∧ o.2.Holds extra ∧ b.encodeInnerToBytes gen = (inner, extra) ∧
      ∀ {G : Type} (H : HashToG1 G), b.hashToG1 gen H = H SIG_DOMAIN inner extra := by
  obtain ⟨-, h2, h3, h4, h5, h6, h7⟩ := ((C58_block sqrt mem src).1 b).mp hb
  refine ⟨_, _, _, rfl, holds_of _, holds_of _, ?_, fun H => ?_⟩
  · cases b
    simp only at h2 h3 h4 h5 h6 h7
    subst h2 h3 h4 h5 h6 h7
    rw [hmv]
    rfl
  · cases b
    simp only at h2 h3 h4 h5 h6 h7
    subst h2 h3 h4 h5 h6 h7
    rw [hmv]
    rfl

/-- C73: `encode_epoch_block_to_bytes` returns the legacy encoding of every block with that index,
threshold and keys, and of no other. -/
theorem C73_encode_legacy (index : UInt16) (mns : UInt32) (keys : List G2Point) (out : BytesOut) :
    ∃ o, ffiEncodeEpochBlock index mns keys out = (.ok true, o) ∧
      ∀ b : EpochBlock, o.Holds b.encodeToBytes ↔
        b.index = index ∧ b.maximumNonSigners = mns ∧ b.newPublicKeys = keys := by
  refine ⟨_, rfl, fun b => ⟨fun h => ?_, ?_⟩⟩
  · exact (C32_legacy_iff _ _).mp (h.unique (holds_of _))
  · rintro ⟨rfl, rfl, rfl⟩
    exact holds_of _

/-! ## Concrete cases -/

/-- A BLAKE2s that shows its input, except that blocks with an odd node offset are zero. -/
def evenBlake2s : Blake2s where
  run p m := if p.nodeOffset % 2 = 1 then List.replicate p.hashLength 0
    else (m ++ List.replicate p.hashLength 0).take p.hashLength
  length_run p m := by split <;> simp

theorem yields_one64 : Yields true toyScale (1 :: List.replicate 63 0) 1 := by
  obtain ⟨_, h2, P, h3, h4⟩ := yields_one
  exact ⟨by decide, h2, P, by rwa [show first48 (1 :: List.replicate 63 0) =
    first48 (1 :: List.replicate 47 0) by decide +kernel], h4⟩

theorem useless_zero64 : Useless true toyScale (List.replicate 64 0) := by
  obtain ⟨_, h⟩ := zeros_useless
  exact ⟨by decide, by rwa [show first48 (List.replicate 64 0) =
    first48 (List.replicate 48 0) by decide +kernel]⟩

/-- Hash functions built as in the code, over that BLAKE2s and an identity inner hash. -/
noncomputable def builtEnv : HashEnv (ZMod 7) where
  directAttempt := hashWithAttempt true (directHasher evenBlake2s) someSqrt toyScale
  compositeAttempt := hashWithAttempt true (compositeHasher evenBlake2s .ok) someSqrt toyScale
  cip22Attempt := hashWithAttemptCip22 true (compositeHasher evenBlake2s .ok) someSqrt toyScale

/-- All three hash the empty message with counter 1: counter 0 is useless. -/
theorem builtEnv_spec : builtEnv.directAttempt SIG_DOMAIN [] [] = .ok (1, 1) ∧
    builtEnv.compositeAttempt SIG_DOMAIN [] [] = .ok (1, 1) ∧
    builtEnv.cip22Attempt SIG_DOMAIN [] [] = .ok (1, 1) := by
  have d0 : (directHasher evenBlake2s).hash SIG_DOMAIN [0] 64 = .ok (List.replicate 64 0) := by
    decide +kernel
  have d1 : (directHasher evenBlake2s).hash SIG_DOMAIN [1] 64 = .ok (1 :: List.replicate 63 0) := by
    decide +kernel
  have x0 : directXof evenBlake2s SIG_DOMAIN [0] 64 = .ok (List.replicate 64 0) := by
    decide +kernel
  have x1 : directXof evenBlake2s SIG_DOMAIN [1] 64 = .ok (1 :: List.replicate 63 0) := by
    decide +kernel
  have e0 : UInt8.ofNat 0 :: (([] : Bytes) ++ []) = [0] := rfl
  have e1 : UInt8.ofNat 1 :: (([] : Bytes) ++ []) = [1] := rfl
  have hash_eq : ∀ m, (compositeHasher evenBlake2s .ok).hash SIG_DOMAIN m 64 =
    directXof evenBlake2s SIG_DOMAIN m 64 := fun _ => rfl
  refine ⟨?_, ?_, ?_⟩
  · simp only [builtEnv]
    rw [C18_ok_iff true (directHasher evenBlake2s) someSqrt_spec toyScale SIG_DOMAIN [] [] 1 1]
    refine ⟨by norm_num, ⟨_, by rw [e1]; exact d1, yields_one64⟩, fun c hc => ⟨_, ?_, useless_zero64⟩⟩
    obtain rfl : c = 0 := by omega
    rw [e0]; exact d0
  · simp only [builtEnv]
    rw [C18_ok_iff true (compositeHasher evenBlake2s .ok) someSqrt_spec toyScale SIG_DOMAIN [] [] 1 1]
    refine ⟨by norm_num, ⟨_, by rw [e1, hash_eq]; exact x1, yields_one64⟩,
      fun c hc => ⟨_, ?_, useless_zero64⟩⟩
    obtain rfl : c = 0 := by omega
    rw [e0, hash_eq]; exact x0
  · simp only [builtEnv]
    rw [C19_ok_iff true (compositeHasher evenBlake2s .ok) someSqrt_spec toyScale SIG_DOMAIN [] [] 1 1]
    refine ⟨[], rfl, by norm_num, ⟨_, by rw [e1]; exact x1, yields_one64⟩,
      fun c hc => ⟨_, ?_, useless_zero64⟩⟩
    obtain rfl : c = 0 := by omega
    rw [e0]; exact x0

/-- The hypotheses of C71 hold there (with the signing side: key 3 signs 3); the attempts written
are 1. -/
example (w : ZMod 7 → Bytes) :
    ffiHashDirectWithAttempt builtEnv w [] false (⟨none, none⟩, none) =
      (.ok true, (BytesOut.of (w 1), some 1)) ∧
    ffiHashCompositeCip22 builtEnv w [] [] (⟨none, none⟩, none) =
      (.ok true, (BytesOut.of (w 1), some 1)) ∧
    ffiHashComposite builtEnv w [] [] ⟨none, none⟩ = (.ok true, BytesOut.of (w 1)) ∧
    ffiSignMessage builtEnv (3 : ZMod 7) [] [] false false none = (.ok true, some 3) := by
  obtain ⟨h1, h2, h3⟩ := builtEnv_spec
  refine ⟨?_, ?_, ?_, ?_⟩
  · simp only [ffiHashDirectWithAttempt, lift_write_eq, Bool.false_eq_true, if_false, h1]
    rfl
  · simp only [ffiHashCompositeCip22, lift_write_eq, h3]
    rfl
  · simp only [ffiHashComposite, lift_write_eq, HashEnv.composite, h2]
    rfl
  · simp only [ffiSignMessage, lift_write_eq, sign, signMessage, HashEnv.direct, h1]
    rfl

/-- C71_direct on `exampleEnv`: a message for which both succeed, and one for which both fail. -/
example (w : ZMod FR_MODULUS → Bytes) :
    ffiHashDirect exampleEnv w [1] false ⟨none, none⟩ = (.ok true, BytesOut.of (w 3)) ∧
    ffiHashDirect exampleEnv w [] true ⟨none, none⟩ = (.ok false, ⟨none, none⟩) ∧
    ffiSignPop exampleEnv (2 : ZMod FR_MODULUS) [] none = (.ok false, none) := ⟨rfl, rfl, rfl⟩

/-- A block with two keys in `exampleMemory`, an entropy of sixteen sevens and a null one. -/
def exampleBlockFfi : EpochBlockFFI where
  index := 5
  round := 1
  epochEntropy := 16
  parentEntropy := 0
  pubkeys := 1000
  pubkeysNum := 2
  maximumNonSigners := 1
  maximumValidators := 3

/-- The block it describes. -/
noncomputable def exampleBlock : EpochBlock where
  index := 5
  round := 1
  epochEntropy := some (List.replicate 16 7)
  parentEntropy := none
  maximumNonSigners := 1
  maximumValidators := 3
  newPublicKeys := [g2Generator, g2Generator]

theorem exampleMemory_low (p n : ℕ) (h : p + n ≤ 1000) :
    ((List.range n).map fun i => exampleMemory (p + i)) = List.replicate n 7 := by
  rw [List.eq_replicate_iff]
  refine ⟨by simp, fun b hb => ?_⟩
  obtain ⟨i, hi, rfl⟩ := List.mem_map.mp hb
  have := List.mem_range.mp hi
  unfold exampleMemory
  exact if_neg (by omega)

/-- The hypotheses of C72 hold: with a verification key of three bytes and a proof of two, and a
proof system that accepts when the inputs are the right ones, `verify` returns true; with one that
rejects everything it returns false. -/
example (B : Blake2s) :
    (ffiVerify (fun b => if b.length = 3 then .ok b else .err .invalidData)
      (fun b => if b.length = 2 then .ok b else .err .invalidData)
      (fun vk p l => .ok (decide (vk = [7, 7, 7] ∧ p = [7, 7] ∧
        l = publicInputs g2Generator B exampleBlock exampleBlock)))
      someSqrt2 g2Generator B exampleMemory 100 3 200 2 exampleBlockFfi exampleBlockFfi ()).1 =
      .ok true ∧
    (ffiVerify (fun b => if b.length = 3 then .ok b else .err .invalidData)
      (fun b => if b.length = 2 then .ok b else .err .invalidData) (fun _ _ _ => .ok false)
      someSqrt2 g2Generator B exampleMemory 100 3 200 2 exampleBlockFfi exampleBlockFfi ()).1 ≠
      .ok true := by
  have hk : ∀ k ∈ exampleBlock.newPublicKeys, FR_MODULUS • k = 0 := by
    simp [exampleBlock, g2Generator_order]
  have hent : exampleBlock.epochEntropy = if exampleBlockFfi.epochEntropy = 0 then none
      else some ((List.range 16).map fun i => exampleMemory (exampleBlockFfi.epochEntropy + i)) := by
    rw [if_neg (by decide), exampleMemory_low _ _ (by decide)]
    rfl
  constructor
  · rw [C72_serialized _ _ _ g2Generator B exampleMemory 100 3 200 2 exampleBlockFfi exampleBlockFfi
      someSqrt2_spec exampleBlock exampleBlock hk hk exampleMemory_spec exampleMemory_spec rfl rfl
      hent rfl hent rfl [7, 7, 7] [7, 7] (by rw [exampleMemory_low _ _ (by decide)]; rfl)
      (by rw [exampleMemory_low _ _ (by decide)]; rfl)]
    simp
  · intro h
    have := (C72_serialized _ _ _ g2Generator B exampleMemory 100 3 200 2 exampleBlockFfi
      exampleBlockFfi someSqrt2_spec exampleBlock exampleBlock hk hk exampleMemory_spec
      exampleMemory_spec rfl rfl hent rfl hent rfl [7, 7, 7] [7, 7]
      (by rw [exampleMemory_low _ _ (by decide)]; rfl)
      (by rw [exampleMemory_low _ _ (by decide)]; rfl)).mp h
    simp at this

/-- The hypothesis of C73_encode_cip22 holds for that block. -/
example : epochBlockFromFfi someSqrt2 exampleMemory exampleBlockFfi = .ok exampleBlock := by
  have hr : readPubkeys someSqrt2 exampleMemory 1000 2 = .ok [g2Generator, g2Generator] :=
    C58_roundtrip someSqrt2_spec [g2Generator, g2Generator] (by simp [g2Generator_order])
      exampleMemory 1000 exampleMemory_spec
  refine ((C58_block _ _ _).1 _).mpr ⟨hr, rfl, rfl, rfl, rfl, ?_, rfl⟩
  rw [if_neg (by decide), exampleMemory_low _ _ (by decide)]
  rfl

/-- The hypotheses of C73_keys and C73_aggregate hold for two keys over `exampleEnv`. -/
example : ∀ x ∈ [((2 : ZMod FR_MODULUS), (2 : ZMod FR_MODULUS), (22 : ZMod FR_MODULUS)), (5, 5, 55)],
    ffiPrivateKeyToPublicKey (toyPairing FR_MODULUS) x.1 none = (.ok true, some x.2.1) ∧
    ffiSignMessage exampleEnv x.1 [1] [] true true none = (.ok true, some x.2.2) := by
  intro x hx
  rcases List.mem_cons.mp hx with rfl | hx
  · exact ⟨by decide +kernel, by decide +kernel⟩
  · rw [List.mem_singleton.mp hx]
    exact ⟨by decide +kernel, by decide +kernel⟩

/-! ## The rest of C67 -/

/-- C67: the other entry points return true, or false, and do not panic: keys, aggregation (after any
use of the cache), the cached deserialiser, the serialisers, the encoders, and the two hashes that
do not map to the curve, provided the hasher does not panic.  (`verify` is `C72_no_panic`.) -/
theorem C67_rest {r : ℕ} {G1 G2 GT F G : Type*} [AddCommGroup G1] [Module (ZMod r) G1]
    [AddCommGroup G2] [Module (ZMod r) G2] [CommGroup GT] [DecidableEq GT] [DecidableEq F]
    [AddCommGroup G] (P : Pairing r G1 G2 GT) (ops : CurveOps F G) (sk : ZMod r) (sigs : List G1)
    (agg : JacRep F) (keys : List (JacRep F)) (hy : F → ℕ)
    (sh1 sh2 : List (JacRep F) → List (JacRep F)) (cache : PublicKeyCache F)
    (deser : Bytes → Outcome BLSError (JacRep F)) (hd : ∀ bs, deser bs ≠ .panic) (bs : Bytes)
    (h : Hasher) (msg : Bytes) (n : ℕ) (gen : G2Point) (mem : Memory) (index : UInt16)
    (round : UInt8) (ee pe : ℕ) (ns mv : UInt32) (pks : List G2Point) (pk : G2Point) (s : G1Point)
    (k : ZMod FR_MODULUS) (o0 : Option (ZMod r)) (o1 : Option G2) (o2 : Option G1)
    (o3 : Option (JacRep F)) (o4 o5 : BytesOut) :
    (ffiGeneratePrivateKey sk o0).1 = .ok true ∧
    (ffiPrivateKeyToPublicKey P sk o1).1 = .ok true ∧
    (ffiAggregateSignatures sigs o2).1 = .ok true ∧
    (ffiAggregatePublicKeys ops keys hy sh1 sh2 (o3, cache)).1 = .ok true ∧
    (ffiAggregatePublicKeysSubtract ops agg keys hy sh1 sh2 (o3, cache)).1 = .ok true ∧
    (ffiDeserializePublicKeyCached deser bs (o3, cache)).1 ≠ .panic ∧
    (ffiSerialize serializePrivateKey k o4).1 = .ok true ∧
    (ffiSerialize serializePublicKey pk o4).1 = .ok true ∧
    (ffiSerialize serializePublicKeyUncompressed pk o4).1 = .ok true ∧
    (ffiSerialize serializeSignature s o4).1 = .ok true ∧
    (ffiSerialize serializeSignatureUncompressed s o4).1 = .ok true ∧
    (ffiEncodeEpochBlockCip22 gen mem index round ee pe ns mv pks (o4, o5)).1 = .ok true ∧
    (ffiEncodeEpochBlock index ns pks o4).1 = .ok true ∧
    ((ffiHashCrh h msg n o4).1 = .panic ↔ h.crh SIG_DOMAIN msg n = .panic) ∧
    ((ffiHashDirectFirstStep h msg n o4).1 = .panic ↔ h.hash SIG_DOMAIN msg n = .panic) := by
  refine ⟨rfl, rfl, rfl, rfl, rfl, ?_, rfl, rfl, rfl, rfl, rfl, rfl, rfl, ?_, ?_⟩
  · unfold ffiDeserializePublicKeyCached PublicKeyCache.deserialize
    have := hd bs
    simp only [convertResultToBool, FfiM.bind, FfiM.write]
    cases lruGet cache.de bs with
    | mk g de =>
      cases g with
      | some key => simp
      | none =>
        cases hb : deser bs with
        | panic => exact absurd hb this
        | err e => simp
        | ok key => simp
  · simp only [ffiHashCrh, lift_write_eq]
    cases h.crh SIG_DOMAIN msg n <;> simp
  · simp only [ffiHashDirectFirstStep, lift_write_eq]
    cases h.hash SIG_DOMAIN msg n <;> simp

/-- A deserialiser as in the hypothesis: that of public keys, here with one representation per
outcome. -/
example : ∀ bs, liftSer ((deserializePublicKey someSqrt2 bs).map fun _ => (⟨1, 1, 0⟩ : JacRep Fq2)) ≠
    .panic := fun bs => by
  have h := deserialize_point_no_panic fq2Codec_laws someSqrt2 bs (b := g2CoeffB)
  change deserializePublicKey someSqrt2 bs ≠ .panic at h
  cases hd : deserializePublicKey someSqrt2 bs with
  | panic => exact absurd hd h
  | err e => simp [liftSer]
  | ok a => simp [liftSer]

end Verif
