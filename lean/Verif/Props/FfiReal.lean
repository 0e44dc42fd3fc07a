import Verif.Model.Library
import Verif.Props.Pedersen
import Verif.Props.Fixtures

/-!
# Property C100: the C interface over the hashes of the library

Elsewhere the entry points are proved right for any three hashes.  Here the hashes are those of the
library, and the calls that panic are determined exactly.
-/

set_option linter.unusedSectionVars false

namespace Verif

/-- Specification: the composite hash cannot take this message.  Without CIP22 the counter and the
extra data are hashed with the message, with CIP22 the message alone. -/
def TooLong (composite cip22 : Bool) (message extra : Bytes) : Prop :=
  composite = true ∧ 19530 < if cip22 then message.length else 1 + extra.length + message.length

/-! ## The hashes -/

theorem xof64 (B : Blake2s) (domain m : Bytes) (hd : domain.length ≤ 8) :
    ∃ out, directXof B domain m 64 = .ok out ∧ out.length = 64 := by
  refine ⟨_, directXof_ok B domain _ hd 64 (by norm_num), ?_⟩
  rw [List.length_flatten, List.map_map]
  conv_rhs => rw [← blockLen_sum 64]
  congr 1
  exact List.map_congr_left fun i _ => B.length_run _ _

/-- **C100.** Building the composite hasher does not panic: the calls of `init` and the first use of a
hash succeed. -/
theorem C100_init (B : Blake2s) : ∃ seed : Bytes, seed.length = 32 ∧
    ∀ {M : Type} [AddCommGroup M] (draw : Bytes → ℕ → M) (x : M → Fq),
      libraryComposite B draw x =
        .ok (compositeHasher B (pedersenCrh x (crhGenerators (draw seed)))) ∧
      ffiInit B draw x () = (.ok (), ()) := by
  obtain ⟨seed, h1, h2⟩ := C85_setup B
  refine ⟨seed, h1, fun draw x => ?_⟩
  have h : libraryComposite B draw x =
      .ok (compositeHasher B (pedersenCrh x (crhGenerators (draw seed)))) := by
    simp only [libraryComposite, newComposite, h2 draw, Outcome.bind_ok]
  refine ⟨h, ?_⟩
  simp only [ffiInit, h, FfiM.lift, FfiM.bind]

section
variable {M : Type} [AddCommGroup M] {G : Type*} [AddCommGroup G] [DecidableEq G]

theorem compositeAttempt_panic (compat : Bool) (B : Blake2s) (x : M → Fq) (base : ℕ → M)
    {sqrt : Fq → Option Fq} (hs : SqrtSpec sqrt) (scale : AffinePoint Fq → G)
    (domain message extra : Bytes) (hd : domain.length ≤ 8) :
    hashWithAttempt compat (compositeHasher B (pedersenCrh x (crhGenerators base))) sqrt scale domain
      message extra = .panic ↔ 19530 < 1 + extra.length + message.length := by
  have hlen : ∀ c : ℕ, (UInt8.ofNat c :: (extra ++ message)).length =
      1 + extra.length + message.length := by
    intro c; simp only [List.length_cons, List.length_append]; omega
  rw [C18_panic_iff compat _ hs]
  constructor
  · rintro ⟨c, _, h, _⟩
    by_contra hlt
    have hfit := pedersenCrh_fits x base (msg := UInt8.ofNat c :: (extra ++ message))
      (by rw [hlen]; omega)
    obtain ⟨out, ho, hl⟩ := xof64 B domain
      (leBytes 48 (pedersenX x base (UInt8.ofNat c :: (extra ++ message))).val) hd
    have hh : (compositeHasher B (pedersenCrh x (crhGenerators base))).hash domain
        (UInt8.ofNat c :: (extra ++ message)) 64 = .ok out := by
      simp only [Hasher.hash, compositeHasher, hfit, Outcome.bind_ok, ho]
    rw [hh] at h
    rcases h with h | ⟨d, h, h'⟩
    · cases h
    · cases h; omega
  · intro h
    refine ⟨0, by norm_num, .inl ?_, fun c hc => absurd hc (by omega)⟩
    simp only [Hasher.hash, compositeHasher]
    rw [(C85_panic x base _).1.mpr (by rw [hlen]; exact h)]
    rfl

theorem cip22Attempt_panic (compat : Bool) (B : Blake2s) (x : M → Fq) (base : ℕ → M)
    {sqrt : Fq → Option Fq} (hs : SqrtSpec sqrt) (scale : AffinePoint Fq → G)
    (domain message extra : Bytes) (hd : domain.length ≤ 8) :
    hashWithAttemptCip22 compat (compositeHasher B (pedersenCrh x (crhGenerators base))) sqrt scale
      domain message extra = .panic ↔ 19530 < message.length := by
  rw [C19_panic_iff compat _ hs, ← (C85_panic x base message).1]
  simp only [compositeHasher]
  constructor
  · rintro (h | ⟨inner, _, c, _, h, _⟩)
    · exact h
    · obtain ⟨out, ho, hl⟩ := xof64 B domain (UInt8.ofNat c :: (extra ++ inner)) hd
      rw [ho] at h
      rcases h with h | ⟨d, h, h'⟩
      · cases h
      · cases h; omega
  · exact .inl

variable (compat : Bool) (B : Blake2s) (draw : Bytes → ℕ → M) (x : M → Fq)
  {sqrt : Fq → Option Fq} (hs : SqrtSpec sqrt) (scale : AffinePoint Fq → G)

include hs

/-- **C100.** The three hashes of the library, with any domain of at most 8 bytes: the direct one never
panics, the composite ones panic on too long messages and on no others. -/
theorem C100_hashes (domain message extra : Bytes) (hd : domain.length ≤ 8) :
    (libraryEnv compat B draw x sqrt scale).directAttempt domain message extra ≠ .panic ∧
    ((libraryEnv compat B draw x sqrt scale).compositeAttempt domain message extra = .panic ↔
      19530 < 1 + extra.length + message.length) ∧
    ((libraryEnv compat B draw x sqrt scale).cip22Attempt domain message extra = .panic ↔
      19530 < message.length) := by
  obtain ⟨seed, _, h⟩ := C100_init B
  have h := (h draw x).1
  refine ⟨?_, ?_, ?_⟩
  · rcases C18_direct_total compat B hs scale domain message extra hd with ⟨g, c, h, _⟩ | h
    · intro e; simp only [libraryEnv] at e; rw [h] at e; cases e
    · intro e; simp only [libraryEnv] at e; rw [h] at e; cases e
  · simp only [libraryEnv, h, Outcome.bind_ok]
    exact compositeAttempt_panic compat B x _ hs scale domain message extra hd
  · simp only [libraryEnv, h, Outcome.bind_ok]
    exact cip22Attempt_panic compat B x _ hs scale domain message extra hd

/-- **C100.** The only error of the three hashes is `HashToCurveError`. -/
theorem C100_errors (domain message extra : Bytes) (hd : domain.length ≤ 8) (e : BLSError) :
    ((libraryEnv compat B draw x sqrt scale).directAttempt domain message extra = .err e →
      e = .hashToCurveError) ∧
    ((libraryEnv compat B draw x sqrt scale).compositeAttempt domain message extra = .err e →
      e = .hashToCurveError) ∧
    ((libraryEnv compat B draw x sqrt scale).cip22Attempt domain message extra = .err e →
      e = .hashToCurveError) := by
  obtain ⟨seed, _, h⟩ := C100_init B
  have h := (h draw x).1
  refine ⟨fun he => ?_, fun he => ?_, fun he => ?_⟩
  · rcases C18_direct_total compat B hs scale domain message extra hd with ⟨g, c, h, _⟩ | h
    · simp only [libraryEnv] at he; rw [h] at he; cases he
    · simp only [libraryEnv] at he; rw [h] at he; cases he; rfl
  · simp only [libraryEnv, h, Outcome.bind_ok] at he
    rcases (C18_err_iff compat _ hs scale domain message extra e).mp he with ⟨c, _, h1, _⟩ | h1
    · exfalso
      simp only [Hasher.hash, compositeHasher] at h1
      cases hp : pedersenCrh x (crhGenerators (draw seed)) (UInt8.ofNat c :: (extra ++ message)) with
      | ok d =>
        rw [hp, Outcome.bind_ok] at h1
        obtain ⟨out, ho, _⟩ := xof64 B domain d hd
        rw [ho] at h1; cases h1
      | err e' => exact (C85_panic x (draw seed) _).2 e' hp
      | panic => rw [hp] at h1; cases h1
    · exact h1.1
  · simp only [libraryEnv, h, Outcome.bind_ok] at he
    rcases (C19_err_iff compat _ hs scale domain message extra e).mp he with h1 |
      ⟨inner, _, ⟨c, _, h1, _⟩ | h1⟩
    · exact absurd h1 ((C85_panic x (draw seed) message).2 e)
    · obtain ⟨out, ho, _⟩ := xof64 B domain (UInt8.ofNat c :: (extra ++ inner)) hd
      simp only [compositeHasher] at h1
      rw [ho] at h1; cases h1
    · exact h1.1

theorem flagHash_panic {c k : Bool} {H : HashToG1 G}
    (hH : flagHash (libraryEnv compat B draw x sqrt scale) c k = some H) (message extra : Bytes) :
    H SIG_DOMAIN message extra = .panic ↔ TooLong c k message extra := by
  obtain ⟨h1, h2, h3⟩ := C100_hashes compat B draw x hs scale SIG_DOMAIN message extra (by decide)
  have hmap : ∀ o : Outcome BLSError (G × ℕ), o.map Prod.fst = .panic ↔ o = .panic := by
    intro o; cases o <;> simp
  generalize libraryEnv compat B draw x sqrt scale = E at *
  rcases flagHash_cases E c k H hH with ⟨rfl, rfl, rfl⟩ | ⟨rfl, rfl, rfl⟩ | ⟨rfl, rfl, rfl⟩
  · simp only [HashEnv.cip22, hmap, TooLong, h3]; simp
  · simp only [HashEnv.composite, hmap, TooLong, h2]; simp
  · simp only [HashEnv.direct, hmap, TooLong]; simp [h1]

end

/-! ## The entry points -/

section
variable {M : Type} [AddCommGroup M] {r : ℕ} [NeZero r] {G1 G2 GT : Type*} [AddCommGroup G1]
  [DecidableEq G1] [Module (ZMod r) G1] [AddCommGroup G2] [Module (ZMod r) G2] [CommGroup GT]
  [DecidableEq GT] (P : Pairing r G1 G2 GT)
  (compat : Bool) (B : Blake2s) (draw : Bytes → ℕ → M) (x : M → Fq)
  {sqrt : Fq → Option Fq} (hs : SqrtSpec sqrt) (scale : AffinePoint Fq → G1)

include hs

omit hs in
theorem lift_write_panic {σ ε α : Type*} (o : Outcome ε α) (g : α → σ → σ) (s : σ) :
    (convertResultToBool ((FfiM.lift o).bind fun a => FfiM.write (g a)) s).1 = .panic ↔ o = .panic := by
  cases o <;> simp [lift_write_eq]

omit hs in
theorem sign_panic (sk : ZMod r) (domain message extra : Bytes) (H : HashToG1 G1) :
    signMessage sk domain message extra H = .panic ↔ H domain message extra = .panic := by
  unfold signMessage
  cases H domain message extra <;> simp

omit hs in
theorem verify_panic (pk : G2) (domain message extra : Bytes) (sig : G1) (H : HashToG1 G1) :
    resultIsOk (ε' := BLSError) (verifySig P pk domain message extra sig H) = .panic ↔
      H domain message extra = .panic := by
  unfold verifySig
  cases H domain message extra with
  | ok h => simp only [Outcome.bind_ok]; split <;> simp [resultIsOk]
  | err e => simp [resultIsOk]
  | panic => simp [resultIsOk]

/-- **C100.** `sign_message` and `verify_signature` panic exactly on messages that are too long for the
hash selected by the flags. -/
theorem C100_messages (sk : ZMod r) (pk : G2) (sig : G1) (message extra : Bytes) (c k : Bool)
    (out : Option G1) (out' : Option Bool) :
    ((ffiSignMessage (libraryEnv compat B draw x sqrt scale) sk message extra c k out).1 = .panic ↔
      TooLong c k message extra) ∧
    ((ffiVerifySignature P (libraryEnv compat B draw x sqrt scale) pk message extra sig c k out').1 =
      .panic ↔ TooLong c k message extra) := by
  unfold ffiSignMessage ffiVerifySignature
  rw [lift_write_panic, lift_write_panic]
  cases c <;> cases k
  · simp only [sign, verify, sign_panic, verify_panic]
    have := flagHash_panic compat B draw x hs scale (c := false) (k := false) rfl message extra
    exact ⟨this, this⟩
  · simp [TooLong]
  · simp only [sign, verify, sign_panic, verify_panic]
    have := flagHash_panic compat B draw x hs scale (c := true) (k := false) rfl message extra
    exact ⟨this, this⟩
  · simp only [sign, verify, sign_panic, verify_panic]
    have := flagHash_panic compat B draw x hs scale (c := true) (k := true) rfl message extra
    exact ⟨this, this⟩

/-- **C100.** Proofs of possession and the direct hash never panic, whatever the message. -/
theorem C100_direct (sk : ZMod r) (pk : G2) (sig : G1) (message : Bytes) (usePop : Bool)
    (w : G1 → Bytes) (out : Option G1) (out' : Option Bool) (out1 : BytesOut)
    (out2 : BytesOut × Option Int32) :
    (ffiSignPop (libraryEnv compat B draw x sqrt scale) sk message out).1 ≠ .panic ∧
    (ffiVerifyPop P (libraryEnv compat B draw x sqrt scale) pk message sig out').1 ≠ .panic ∧
    (ffiHashDirect (libraryEnv compat B draw x sqrt scale) w message usePop out1).1 ≠ .panic ∧
    (ffiHashDirectWithAttempt (libraryEnv compat B draw x sqrt scale) w message usePop out2).1 ≠
      .panic := by
  have hd : ∀ domain : Bytes, domain.length ≤ 8 →
      (libraryEnv compat B draw x sqrt scale).directAttempt domain message [] ≠ .panic :=
    fun domain hd => (C100_hashes compat B draw x hs scale domain message [] hd).1
  have hd' : ∀ domain : Bytes, domain.length ≤ 8 →
      (libraryEnv compat B draw x sqrt scale).direct domain message [] ≠ .panic := by
    intro domain h e
    refine hd domain h ?_
    unfold HashEnv.direct at e
    cases ho : (libraryEnv compat B draw x sqrt scale).directAttempt domain message [] with
    | ok v => rw [ho] at e; cases e
    | err v => rw [ho] at e; cases e
    | panic => rfl
  have hpop : (if usePop = true then POP_DOMAIN else SIG_DOMAIN).length ≤ 8 := by
    cases usePop <;> decide
  refine ⟨?_, ?_, ?_, ?_⟩
  · unfold ffiSignPop signPop
    rw [Ne, lift_write_panic, sign_panic]
    exact hd' _ (by decide)
  · unfold ffiVerifyPop verifyPop
    rw [Ne, lift_write_panic, verify_panic]
    exact hd' _ (by decide)
  · unfold ffiHashDirect
    simp only []
    rw [Ne, lift_write_panic]
    exact hd' _ hpop
  · unfold ffiHashDirectWithAttempt
    simp only []
    rw [Ne, lift_write_panic]
    exact hd _ hpop

/-- **C100.** The composite hashes panic exactly on messages that are too long. -/
theorem C100_composite (message extra : Bytes) (w : G1 → Bytes) (out : BytesOut)
    (out' : BytesOut × Option UInt8) :
    ((ffiHashComposite (libraryEnv compat B draw x sqrt scale) w message extra out).1 = .panic ↔
      19530 < 1 + extra.length + message.length) ∧
    ((ffiHashCompositeCip22 (libraryEnv compat B draw x sqrt scale) w message extra out').1 = .panic ↔
      19530 < message.length) := by
  obtain ⟨_, h2, h3⟩ := C100_hashes compat B draw x hs scale SIG_DOMAIN message extra (by decide)
  refine ⟨?_, ?_⟩
  · unfold ffiHashComposite
    rw [lift_write_panic, ← h2, HashEnv.composite]
    cases (libraryEnv compat B draw x sqrt scale).compositeAttempt SIG_DOMAIN message extra <;> simp
  · unfold ffiHashCompositeCip22
    rw [lift_write_panic, h3]

omit hs in
theorem mapM_eq_panic_iff {ε α β : Type*} (f : α → Outcome ε β) (l : List α) :
    Outcome.mapM f l = .panic ↔
      ∃ pre a post, l = pre ++ a :: post ∧ f a = .panic ∧ ∀ y ∈ pre, ∃ b, f y = .ok b := by
  induction l with
  | nil => simp
  | cons a as ih =>
    rw [Outcome.mapM_cons]
    cases hfa : f a with
    | ok b =>
      simp only [Outcome.bind_ok]
      have hm : (Outcome.mapM f as).map (fun bs => b :: bs) = .panic ↔ Outcome.mapM f as = .panic := by
        cases Outcome.mapM f as <;> simp
      rw [hm, ih]
      constructor
      · rintro ⟨pre, y, post, rfl, hy, hpre⟩
        refine ⟨a :: pre, y, post, rfl, hy, fun z hz => ?_⟩
        rcases List.mem_cons.1 hz with rfl | hz
        · exact ⟨b, hfa⟩
        · exact hpre z hz
      · rintro ⟨pre, y, post, heq, hy, hpre⟩
        cases pre with
        | nil => simp only [List.nil_append, List.cons.injEq] at heq; rw [heq.1, hy] at hfa; cases hfa
        | cons p ps =>
          simp only [List.cons_append, List.cons.injEq] at heq
          exact ⟨ps, y, post, heq.2, hy, fun z hz => hpre z (List.mem_cons_of_mem _ hz)⟩
    | err e =>
      simp only [Outcome.bind_err, reduceCtorEq, false_iff]
      rintro ⟨pre, y, post, heq, hy, hpre⟩
      cases pre with
      | nil => simp only [List.nil_append, List.cons.injEq] at heq; rw [heq.1, hy] at hfa; cases hfa
      | cons p ps =>
        simp only [List.cons_append, List.cons.injEq] at heq
        obtain ⟨b, hb⟩ := hpre p List.mem_cons_self
        rw [← heq.1, hfa] at hb; cases hb
    | panic => simp only [Outcome.bind_panic, true_iff]; exact ⟨[], a, as, rfl, hfa, by simp⟩

/-- **C100.** `batch_verify_signature` panics exactly if a message is too long and all messages before
it hash: hashing stops at the first error. -/
theorem C100_batch (messages : List (FfiMessage G1 G2)) (c k : Bool) (out : Option Bool) :
    (ffiBatchVerifySignature P (libraryEnv compat B draw x sqrt scale) messages c k out).1 = .panic ↔
      ∃ H, flagHash (libraryEnv compat B draw x sqrt scale) c k = some H ∧
        ∃ pre m post, messages = pre ++ m :: post ∧ TooLong c k m.data m.extra ∧
          ∀ y ∈ pre, ∃ h, H SIG_DOMAIN y.data y.extra = .ok h := by
  have key : ∀ H : HashToG1 G1, flagHash (libraryEnv compat B draw x sqrt scale) c k = some H →
      (resultIsOk (ε' := BLSError) (batchVerify P (aggregateSignatures (messages.map fun m => m.sig))
        (messages.map fun m => m.publicKey) SIG_DOMAIN (messages.map fun m => (m.data, m.extra)) H) =
        .panic ↔ ∃ H, flagHash (libraryEnv compat B draw x sqrt scale) c k = some H ∧
        ∃ pre m post, messages = pre ++ m :: post ∧ TooLong c k m.data m.extra ∧
          ∀ y ∈ pre, ∃ h, H SIG_DOMAIN y.data y.extra = .ok h) := by
    intro H hH
    have hmap : Outcome.mapM (fun m : Bytes × Bytes => H SIG_DOMAIN m.1 m.2)
        (messages.map fun m => (m.data, m.extra)) =
        Outcome.mapM (fun m : FfiMessage G1 G2 => H SIG_DOMAIN m.data m.extra) messages := by
      induction messages with
      | nil => rfl
      | cons m ms ih => rw [List.map_cons, Outcome.mapM_cons, Outcome.mapM_cons, ih]
    have hb : resultIsOk (ε' := BLSError) (batchVerify P
        (aggregateSignatures (messages.map fun m => m.sig)) (messages.map fun m => m.publicKey)
        SIG_DOMAIN (messages.map fun m => (m.data, m.extra)) H) = .panic ↔
        Outcome.mapM (fun m : FfiMessage G1 G2 => H SIG_DOMAIN m.data m.extra) messages = .panic := by
      unfold batchVerify
      rw [if_neg (by simp), hmap]
      cases Outcome.mapM (fun m : FfiMessage G1 G2 => H SIG_DOMAIN m.data m.extra) messages with
      | ok v =>
        simp only [Outcome.bind_ok, batchVerifyHashes]
        split
        · simp [resultIsOk]
        · split <;> simp [resultIsOk]
      | err e => simp [resultIsOk]
      | panic => simp [resultIsOk]
    rw [hb, mapM_eq_panic_iff]
    constructor
    · rintro ⟨pre, m, post, h1, h2, h3⟩
      exact ⟨H, hH, pre, m, post, h1,
        (flagHash_panic compat B draw x hs scale hH m.data m.extra).mp h2, h3⟩
    · rintro ⟨H', hH', pre, m, post, h1, h2, h3⟩
      rw [hH] at hH'
      cases hH'
      exact ⟨pre, m, post, h1, (flagHash_panic compat B draw x hs scale hH m.data m.extra).mpr h2, h3⟩
  unfold ffiBatchVerifySignature
  simp only []
  rw [lift_write_panic]
  cases c <;> cases k
  · exact key _ rfl
  · simp [flagHash]
  · exact key _ rfl
  · exact key _ rfl

theorem strictResult_panic (hr : 2 ^ 248 < r) (b : BatchMessage G1 G2) (c k : Bool)
    (rng : ℕ → ℕ → UInt8) :
    strictResult P (libraryEnv compat B draw x sqrt scale) b c k rng = .panic ↔
      TooLong c k b.data b.extra := by
  constructor
  · intro h
    by_contra hn
    obtain ⟨v, hv, _⟩ := strictResult_spec P (libraryEnv compat B draw x sqrt scale) hr b c k rng
      fun H hH => fun hp => hn ((flagHash_panic compat B draw x hs scale hH b.data b.extra).mp hp)
    rw [h] at hv
    cases hv
  · intro h
    obtain ⟨e1, e2, e3⟩ := C08_add_order b.data b.extra (b.publicKeys.zip b.signatures)
    have key : ∀ H : HashToG1 G1, flagHash (libraryEnv compat B draw x sqrt scale) c k = some H →
        resultIsOk (ε' := BLSError) (((b.publicKeys.zip b.signatures).foldl
          (fun c e => Batch.add c e.1 e.2) (Batch.new b.data b.extra)).verify P H rng) = .panic := by
      intro H hH
      have hp := (flagHash_panic compat B draw x hs scale hH b.data b.extra).mpr h
      rw [Batch.verify_eq P hr, e2, e3]
      unfold verify
      rw [verify_panic, hp]
    have hc := h.1
    subst hc
    unfold strictResult
    cases k
    · exact key _ rfl
    · exact key _ rfl

omit hs in
theorem strictLoop_panic (E : HashEnv G1) (c k : Bool) (rng : ℕ → ℕ → ℕ → UInt8) (res : ℕ → Bool)
    (pre : List (BatchMessage G1 G2)) (b : BatchMessage G1 G2) (post : List (BatchMessage G1 G2))
    (index : ℕ) (allValid : Bool) (out : ℕ → Bool)
    (h : ∀ (i : ℕ) (hi : i < pre.length),
      strictResult P E pre[i] c k (rng (index + i)) = .ok (res (index + i)))
    (hb : strictResult P E b c k (rng (index + pre.length)) = .panic) :
    strictLoop P E c k rng (pre ++ b :: post) index allValid out =
      (.panic, fun j => if index ≤ j ∧ j < index + pre.length then res j else out j) := by
  induction pre generalizing index allValid out with
  | nil =>
    rw [List.length_nil, Nat.add_zero] at hb
    simp only [List.nil_append, strictLoop, FfiM.lift, FfiM.bind, hb, List.length_nil, Nat.add_zero]
    congr 1
    funext j
    rw [if_neg (by omega)]
  | cons p ps ih =>
    have h0 := h 0 (by simp)
    simp only [List.getElem_cons_zero, Nat.add_zero] at h0
    have h1 : ∀ (i : ℕ) (hi : i < ps.length),
        strictResult P E ps[i] c k (rng (index + 1 + i)) = .ok (res (index + 1 + i)) := by
      intro i hi
      have := h (i + 1) (by simpa using hi)
      simp only [List.getElem_cons_succ] at this
      rw [show index + 1 + i = index + (i + 1) by omega]
      exact this
    have h2 : strictResult P E b c k (rng (index + 1 + ps.length)) = .panic := by
      rw [show index + 1 + ps.length = index + (p :: ps).length by simp; omega]
      exact hb
    simp only [List.cons_append, strictLoop, FfiM.bind, FfiM.lift, h0, FfiM.write]
    rw [ih (index + 1) _ _ h1 h2]
    congr 1
    funext j
    simp only [List.length_cons, Function.update_apply]
    by_cases hj : j = index
    · subst hj
      rw [if_neg (by omega), if_pos rfl, if_pos (by omega)]
    · rw [if_neg hj]
      by_cases hj2 : index + 1 ≤ j ∧ j < index + 1 + ps.length
      · rw [if_pos hj2, if_pos (by omega)]
      · rw [if_neg hj2, if_neg (by omega)]

/-- **C100.** `batch_verify_strict` panics exactly if the message of some batch is too long: a batch
that fails does not stop the loop.  The results written before are those of the batches before the
first such batch; the rest of the array is untouched. -/
theorem C100_strict (hr : 2 ^ 248 < r) (batches : List (BatchMessage G1 G2)) (c k : Bool)
    (rng : ℕ → ℕ → ℕ → UInt8) (out : ℕ → Bool) :
    ((ffiBatchVerifyStrict P (libraryEnv compat B draw x sqrt scale) batches c k rng out).1 = .panic ↔
      ∃ b ∈ batches, TooLong c k b.data b.extra) ∧
    ∀ (j : ℕ) (hj : j < batches.length), TooLong c k batches[j].data batches[j].extra →
      (∀ (i : ℕ) (hi : i < j), ¬ TooLong c k (batches[i]'(hi.trans hj)).data
        (batches[i]'(hi.trans hj)).extra) →
      ∃ res, ffiBatchVerifyStrict P (libraryEnv compat B draw x sqrt scale) batches c k rng out =
          (.panic, res) ∧
        (∀ (i : ℕ) (hi : i < j), (res i = true ↔ BatchPasses P (libraryEnv compat B draw x sqrt scale)
          (batches[i]'(hi.trans hj)) c k (rng i))) ∧
        ∀ i, j ≤ i → res i = out i := by
  have part : ∀ (j : ℕ) (hj : j < batches.length), TooLong c k batches[j].data batches[j].extra →
      (∀ (i : ℕ) (hi : i < j), ¬ TooLong c k (batches[i]'(hi.trans hj)).data
        (batches[i]'(hi.trans hj)).extra) →
      ∃ res, ffiBatchVerifyStrict P (libraryEnv compat B draw x sqrt scale) batches c k rng out =
          (.panic, res) ∧
        (∀ (i : ℕ) (hi : i < j), (res i = true ↔ BatchPasses P (libraryEnv compat B draw x sqrt scale)
          (batches[i]'(hi.trans hj)) c k (rng i))) ∧
        ∀ i, j ≤ i → res i = out i := by
    intro j hj hlong hshort
    have hres : ∀ i, ∃ v : Bool, ∀ hi : i < j,
        strictResult P (libraryEnv compat B draw x sqrt scale) (batches[i]'(hi.trans hj)) c k (rng i) =
          .ok v ∧ (v = true ↔ BatchPasses P (libraryEnv compat B draw x sqrt scale)
          (batches[i]'(hi.trans hj)) c k (rng i)) := by
      intro i
      by_cases hi : i < j
      · obtain ⟨v, hv⟩ := strictResult_spec P (libraryEnv compat B draw x sqrt scale) hr
          (batches[i]'(hi.trans hj)) c k (rng i) fun H hH hp =>
            hshort i hi ((flagHash_panic compat B draw x hs scale hH _ _).mp hp)
        exact ⟨v, fun _ => hv⟩
      · exact ⟨false, fun h => absurd h hi⟩
    choose res hres using hres
    have hsplit : batches = batches.take j ++ batches[j] :: batches.drop (j + 1) := by
      rw [List.getElem_cons_drop, List.take_append_drop]
    have hlen : (batches.take j).length = j := by rw [List.length_take]; omega
    have hloop := strictLoop_panic P (libraryEnv compat B draw x sqrt scale) c k rng res
      (batches.take j) batches[j] (batches.drop (j + 1)) 0 true out
      (by
        intro i hi
        rw [hlen] at hi
        rw [Nat.zero_add, List.getElem_take]
        exact (hres i hi).1)
      (by
        rw [hlen, Nat.zero_add]
        exact (strictResult_panic P compat B draw x hs scale hr _ c k _).mpr hlong)
    rw [← hsplit, hlen] at hloop
    refine ⟨fun i => if 0 ≤ i ∧ i < 0 + j then res i else out i, ?_, ?_, ?_⟩
    · unfold ffiBatchVerifyStrict
      simp only [convertResultToBool, FfiM.bind, hloop]
    · intro i hi
      simp only []
      rw [if_pos (by omega)]
      exact (hres i hi).2
    · intro i hi
      simp only []
      rw [if_neg (by omega)]
  refine ⟨⟨fun h => ?_, ?_⟩, part⟩
  · by_contra hn
    obtain ⟨ret, res, h1, _⟩ := C56_strict P (libraryEnv compat B draw x sqrt scale) hr batches c k rng
      out fun H hH b hb hp => hn ⟨b, hb, (flagHash_panic compat B draw x hs scale hH _ _).mp hp⟩
    rw [h1] at h
    cases h
  · rintro ⟨b, hb, hlong⟩
    classical
    have hex : ∃ j, ∃ hj : j < batches.length, TooLong c k batches[j].data batches[j].extra := by
      obtain ⟨j, hj, rfl⟩ := List.getElem_of_mem hb
      exact ⟨j, hj, hlong⟩
    obtain ⟨hj, hlong'⟩ := Nat.find_spec hex
    obtain ⟨res, h1, _⟩ := part _ hj hlong' fun i hi hl => Nat.find_min hex hi ⟨hi.trans hj, hl⟩
    rw [h1]

end

/-! ## Concrete cases -/

/-- The library over a toy BLAKE2s, integers as points of the CRH (with a constant coordinate) and the
integers modulo 7 as G1. -/
noncomputable def smallEnv : HashEnv (ZMod 7) :=
  libraryEnv (M := ℤ) true evenBlake2s (fun _ i => i) (fun _ => 1) someSqrt toyScale

/-- A message of 19530 bytes `m`: signing panics with the composite hash without CIP22
(the counter makes it too long), and with no other flags; with one byte more it panics with CIP22 too,
and the direct hash takes both. -/
theorem smallEnv_sign (sk : ZMod 7) (m : Bytes) (hm : m.length = 19530) :
    (ffiSignMessage smallEnv sk m [] true false none).1 = .panic ∧
    (ffiSignMessage smallEnv sk m [] true true none).1 ≠ .panic ∧
    (ffiSignMessage smallEnv sk m [] false false none).1 ≠ .panic ∧
    (ffiSignMessage smallEnv sk (1 :: m) [] true true none).1 = .panic ∧
    (ffiSignMessage smallEnv sk (1 :: m) [] false false none).1 ≠ .panic := by
  have h := fun m c k => (C100_messages (M := ℤ) (toyPairing 7) true evenBlake2s (fun _ i => i)
    (fun _ => 1) someSqrt_spec toyScale sk 0 0 m [] c k none none).1
  refine ⟨(h _ _ _).mpr ?_, fun e => ?_, fun e => ?_, (h _ _ _).mpr ?_, fun e => ?_⟩
  · simp [TooLong, hm]
  · simpa [TooLong, hm] using (h _ _ _).mp e
  · simpa [TooLong] using (h _ _ _).mp e
  · simp [TooLong, hm]
  · simpa [TooLong] using (h _ _ _).mp e

example := smallEnv_sign 3 (List.replicate 19530 0) List.length_replicate

/-- Signing succeeds there too: the empty message with the direct hash. -/
example : ffiSignMessage smallEnv (3 : ZMod 7) [] [] false false none = (.ok true, some 3) := by
  have h : smallEnv.directAttempt SIG_DOMAIN [] [] = .ok (1, 1) := builtEnv_spec.1
  unfold ffiSignMessage
  simp only [lift_write_eq, sign, signMessage, HashEnv.direct, h, Outcome.map_ok, Outcome.bind_ok, signRaw]
  rfl

theorem smallEnv_composite : smallEnv.composite SIG_DOMAIN [] [] = .ok 1 := by
  obtain ⟨seed, _, h⟩ := C100_init evenBlake2s
  have h := (h (M := ℤ) (fun _ i => i) (fun _ => 1)).1
  have hx : directXof evenBlake2s SIG_DOMAIN (leBytes 48 (1 : Fq).val) 64 =
      .ok (1 :: List.replicate 63 0) := by
    have h1 : (1 : Fq).val = 1 := by decide +kernel
    rw [h1]
    decide +kernel
  have hok : smallEnv.compositeAttempt SIG_DOMAIN [] [] = .ok (1, 0) := by
    simp only [smallEnv, libraryEnv, h, Outcome.bind_ok]
    rw [C18_ok_iff true _ someSqrt_spec toyScale SIG_DOMAIN [] [] 1 0]
    refine ⟨by norm_num, ⟨_, ?_, yields_one64⟩, fun c hc => absurd hc (by omega)⟩
    have hfit := pedersenCrh_fits (M := ℤ) (fun _ => (1 : Fq)) (fun i => (i : ℤ))
      (msg := UInt8.ofNat 0 :: (([] : Bytes) ++ [])) (by decide)
    simp only [Hasher.hash, compositeHasher]
    rw [hfit, Outcome.bind_ok]
    exact hx
  simp only [HashEnv.composite, hok, Outcome.map_ok]

/-- A batch whose second message is too long, while the first one hashes: the verification panics. -/
example (pk s : ZMod 7) (m : Bytes) (hm : m.length = 19530) :
    (ffiBatchVerifySignature (toyPairing 7) smallEnv [⟨[], [], pk, s⟩,
      ⟨[], m, pk, s⟩] true false none).1 = .panic := by
  refine (C100_batch (M := ℤ) (toyPairing 7) true evenBlake2s (fun _ i => i)
    (fun _ => 1) someSqrt_spec toyScale _ true false none).mpr ⟨_, rfl,
      [⟨[], [], pk, s⟩], ⟨[], m, pk, s⟩, [], rfl, by simp [TooLong, hm], ?_⟩
  intro y hy
  rw [List.mem_singleton.mp hy]
  exact ⟨1, smallEnv_composite⟩

/-- Three strict batches, the second too long: the call panics, the first result is written and the
other two are not. -/
example (rng : ℕ → ℕ → ℕ → UInt8) (scale : AffinePoint Fq → ZMod FR_MODULUS) (out : ℕ → Bool)
    (m : Bytes) (hm : m.length = 19531) :
    ∃ res, ffiBatchVerifyStrict (toyPairing FR_MODULUS) (libraryEnv (M := ℤ) true evenBlake2s
        (fun _ i => i) (fun _ => 1) someSqrt scale)
        [⟨[], [], [], []⟩, ⟨m, [], [], []⟩, ⟨[], [], [], []⟩] true true rng out =
        (.panic, res) ∧ res 1 = out 1 ∧ res 2 = out 2 := by
  obtain ⟨res, h1, _, h3⟩ := (C100_strict (M := ℤ) (toyPairing FR_MODULUS) true evenBlake2s
    (fun _ i => i) (fun _ => 1) someSqrt_spec scale (by norm_num [FR_MODULUS])
    [⟨[], [], [], []⟩, ⟨m, [], [], []⟩, ⟨[], [], [], []⟩] true true rng out).2
    1 (by simp) (by simp [TooLong, hm]) (by
      intro i hi
      obtain rfl : i = 0 := by omega
      simp [TooLong])
  exact ⟨res, h1, h3 1 le_rfl, h3 2 (by omega)⟩

end Verif
