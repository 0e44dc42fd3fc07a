import Verif.Model.Session
import Verif.Lemmas.Cache
import Verif.Props.Jacobian
import Verif.Props.Scheme
import Verif.Lemmas.Toy
import Mathlib.Data.Set.Card

/-!
# C82: all sessions of the C interface

Ownership of the objects behind the pointers, for every sequence of calls, and refinement of an
ideal library that has no cache and whose keys are group elements.
-/

set_option linter.unusedSectionVars false

namespace Verif

section shape
variable {K F G1 : Type*}

/-- What running a body on unwritten outputs can leave: success with an object, failure without, or
a panic. -/
def CleanRes {β : Type*} (res : Outcome Unit Bool × Option β) : Prop :=
  (∃ o, res = (.ok true, some o)) ∨ res = (.ok false, none) ∨ res.1 = .panic

theorem CleanRes.map {β γ : Type*} (f : β → γ) {res : Outcome Unit Bool × Option β}
    (h : CleanRes res) : CleanRes (res.1, res.2.map f) := by
  rcases h with ⟨o, rfl⟩ | rfl | h
  · exact .inl ⟨f o, rfl⟩
  · exact .inr (.inl rfl)
  · exact .inr (.inr h)

/-- `f?` followed by a write. -/
theorem convert_cases {σ ε α : Type*} (x : Outcome ε α) (g : α → σ → σ) (s : σ) :
    convertResultToBool ((FfiM.lift x).bind fun a => FfiM.write (g a)) s =
      match x with
      | .ok a => (.ok true, g a s)
      | .err _ => (.ok false, s)
      | .panic => (.panic, s) := by
  cases x <;> rfl

theorem clean_convert {ε α β : Type*} (x : Outcome ε α) (g : α → β) :
    CleanRes (convertResultToBool ((FfiM.lift x).bind fun a => FfiM.write fun _ => some (g a)) none)
    := by
  cases x with
  | ok a => exact .inl ⟨g a, rfl⟩
  | err e => exact .inr (.inl rfl)
  | panic => exact .inr (.inr rfl)

/-- The effect of a call on the heap: it allocates one object at the fresh address, or frees the
object it was asked to free, or leaves the heap alone. -/
def Effect (w w' : World K F G1) (at' : ℕ) (target : Option ℕ) (o : Obs) : Prop :=
  (o.ret = true ∧ o.out = some at' ∧ target = none ∧
    ∃ x, w'.heap = Function.update w.heap at' (some x)) ∨
  (o.out = none ∧ w'.heap = w.heap ∧ (target = none ∨ o.ret = false)) ∨
  (o.ret = true ∧ o.out = none ∧ ∃ p, target = some p ∧ p ≠ 0 ∧ w.heap p ≠ none ∧
    w'.heap = Function.update w.heap p none)

theorem produce_effect (w w0 : World K F G1) (hw : w.heap = w0.heap) (at' : ℕ) (len : Option Int32)
    {res : Outcome Unit Bool × Option (HeapObj K F G1)} (h : CleanRes res) {s}
    (e : w.produce at' len res = .ok s) : Effect w0 s.2 at' none s.1 := by
  rcases h with ⟨o, rfl⟩ | rfl | h
  · cases e
    exact .inl ⟨rfl, rfl, rfl, o, by rw [← hw]; rfl⟩
  · cases e
    exact .inr (.inl ⟨rfl, hw, .inl rfl⟩)
  · obtain ⟨a, b⟩ := res
    cases h
    cases e

theorem report_effect (w : World K F G1) (at' : ℕ) {res : Outcome Unit Bool × List Bool} {s}
    (e : w.report res = .ok s) : Effect w s.2 at' none s.1 := by
  obtain ⟨a, b⟩ := res
  cases a with
  | ok a => cases e; exact .inr (.inl ⟨rfl, rfl, .inl rfl⟩)
  | err a => cases e
  | panic => cases e

theorem free_effect (w : World K F G1) (at' p : ℕ) (ok : HeapObj K F G1 → Bool) {s}
    (e : w.free p ok = .ok s) : Effect w s.2 at' (some p) s.1 := by
  unfold World.free at e
  by_cases hp : p = 0
  · rw [if_pos hp] at e
    cases e
    exact .inr (.inl ⟨rfl, rfl, .inr rfl⟩)
  · rw [if_neg hp] at e
    cases ho : w.heap p with
    | none => rw [ho] at e; cases e
    | some o =>
      rw [ho] at e
      simp only [] at e
      by_cases hk : ok o = true
      · rw [if_pos hk] at e
        cases e
        exact .inr (.inr ⟨rfl, rfl, p, rfl, hp, by rw [ho]; exact nofun, rfl⟩)
      · rw [if_neg hk] at e
        cases e

end shape

/-- The pointer a destructor is given. -/
def LibCall.target {K F : Type*} : LibCall K F → Option ℕ
  | .destroyPrivateKey p | .destroyPublicKey p | .destroySignature p | .freeVec p _ => some p
  | _ => none

section
variable {r : ℕ} {F G1 G2 GT : Type*} [DecidableEq F] [AddCommGroup G1] [Module (ZMod r) G1]
  [AddCommGroup G2] [Module (ZMod r) G2] [CommGroup GT] [DecidableEq GT]
  (P : Pairing r G1 G2 GT) (ops : CurveOps F G2) (L : LibEnv r F G1 G2)

/-- The same for vectors: pointer and length are written together. -/
def CleanVec (res : Outcome Unit Bool × BytesOut) : Prop :=
  (∃ b, res = (.ok true, BytesOut.of b)) ∨ res = (.ok false, ⟨none, none⟩) ∨ res.1 = .panic

theorem CleanVec.clean {res : Outcome Unit Bool × BytesOut} (h : CleanVec res) :
    CleanRes (res.1, res.2.bytes) := by
  rcases h with ⟨b, rfl⟩ | rfl | h
  · exact .inl ⟨b, rfl⟩
  · exact .inr (.inl rfl)
  · exact .inr (.inr h)

theorem cleanVec_convert {ε α : Type*} (x : Outcome ε α) (g : α → Bytes) :
    CleanVec (convertResultToBool ((FfiM.lift x).bind fun a =>
      FfiM.write fun _ => BytesOut.of (g a)) ⟨none, none⟩) := by
  cases x with
  | ok a => exact .inl ⟨g a, rfl⟩
  | err e => exact .inr (.inl rfl)
  | panic => exact .inr (.inr rfl)

theorem ByteCall.clean (c : ByteCall) : CleanVec (c.run L) := by
  cases c with
  | hashDirect m pop => exact cleanVec_convert _ _
  | hashDirectWithAttempt m pop =>
    simp only [ByteCall.run, ffiHashDirectWithAttempt, convert_cases]
    cases L.hash.directAttempt (if pop = true then POP_DOMAIN else SIG_DOMAIN) m [] with
    | ok a => exact .inl ⟨_, rfl⟩
    | err e => exact .inr (.inl rfl)
    | panic => exact .inr (.inr rfl)
  | hashComposite m e => exact cleanVec_convert _ _
  | hashCrh m n => exact cleanVec_convert _ _
  | hashDirectFirstStep m n => exact cleanVec_convert _ _
  | hashCompositeCip22 m e =>
    simp only [ByteCall.run, ffiHashCompositeCip22, convert_cases]
    cases L.hash.cip22Attempt SIG_DOMAIN m e with
    | ok a => exact .inl ⟨_, rfl⟩
    | err e => exact .inr (.inl rfl)
    | panic => exact .inr (.inr rfl)
  | compressSignature b =>
    simp only [ByteCall.run, ffiCompressSignature, convertResultToBool, FfiM.bind, FfiM.lift]
    cases (sliceRange b 0 48).bind fun s => Outcome.unwrap (fqRead s) with
    | ok x =>
      cases ((sliceRange b 48 96).bind fun s => Outcome.unwrap (fqRead s) : Outcome BLSError _) with
      | ok y => exact .inl ⟨_, rfl⟩
      | err e => exact .inr (.inl rfl)
      | panic => exact .inr (.inr rfl)
    | err e => exact .inr (.inl rfl)
    | panic => exact .inr (.inr rfl)
  | compressPubkey b =>
    simp only [ByteCall.run, ffiCompressPubkey, convertResultToBool, FfiM.bind, FfiM.lift]
    cases (sliceRange b 0 96).bind fun s => Outcome.unwrap (fq2Codec.read s) with
    | ok x =>
      cases ((sliceRange b 96 192).bind fun s => Outcome.unwrap (fq2Codec.read s) :
        Outcome BLSError _) with
      | ok y => exact .inl ⟨_, rfl⟩
      | err e => exact .inr (.inl rfl)
      | panic => exact .inr (.inr rfl)
    | err e => exact .inr (.inl rfl)
    | panic => exact .inr (.inr rfl)

theorem step_effect (w : World (ZMod r) F G1) (at' : ℕ) (c : LibCall (ZMod r) F) {s}
    (e : c.step P ops L w at' = .ok s) : Effect w s.2 at' c.target s.1 := by
  cases c with
  | generatePrivateKey d => exact produce_effect w w rfl at' none (.inl ⟨_, rfl⟩) e
  | privateKeyToPublicKey p =>
    obtain ⟨sk, -, e⟩ := (Outcome.bind_eq_ok_iff _ _ _).1 e
    exact produce_effect w w rfl at' none (.inl ⟨_, rfl⟩) e
  | signMessage p m x uc u22 =>
    obtain ⟨sk, -, e⟩ := (Outcome.bind_eq_ok_iff _ _ _).1 e
    exact produce_effect w w rfl at' none ((clean_convert _ _).map _) e
  | signPop p m =>
    obtain ⟨sk, -, e⟩ := (Outcome.bind_eq_ok_iff _ _ _).1 e
    exact produce_effect w w rfl at' none ((clean_convert _ _).map _) e
  | bytes b => exact produce_effect w w rfl at' _ ((b.clean L).clean.map _) e
  | verifySignature p m x sg uc u22 =>
    obtain ⟨pk, -, e⟩ := (Outcome.bind_eq_ok_iff _ _ _).1 e
    obtain ⟨sig, -, e⟩ := (Outcome.bind_eq_ok_iff _ _ _).1 e
    exact report_effect w at' e
  | verifyPop p m sg =>
    obtain ⟨pk, -, e⟩ := (Outcome.bind_eq_ok_iff _ _ _).1 e
    obtain ⟨sig, -, e⟩ := (Outcome.bind_eq_ok_iff _ _ _).1 e
    exact report_effect w at' e
  | batchVerifySignature ms uc u22 =>
    obtain ⟨ms, -, e⟩ := (Outcome.bind_eq_ok_iff _ _ _).1 e
    exact report_effect w at' e
  | batchVerifyStrict bs uc u22 rng =>
    obtain ⟨ms, -, e⟩ := (Outcome.bind_eq_ok_iff _ _ _).1 e
    exact report_effect w at' e
  | aggregateSignatures ps =>
    obtain ⟨sigs, -, e⟩ := (Outcome.bind_eq_ok_iff _ _ _).1 e
    exact produce_effect w w rfl at' none (.inl ⟨_, rfl⟩) e
  | aggregatePublicKeys ps hy sh1 sh2 =>
    obtain ⟨pks, -, e⟩ := (Outcome.bind_eq_ok_iff _ _ _).1 e
    exact produce_effect _ w (by rfl) at' none (.inl ⟨_, rfl⟩) e
  | aggregatePublicKeysSubtract p ps hy sh1 sh2 =>
    obtain ⟨agg, -, e⟩ := (Outcome.bind_eq_ok_iff _ _ _).1 e
    obtain ⟨pks, -, e⟩ := (Outcome.bind_eq_ok_iff _ _ _).1 e
    exact produce_effect _ w (by rfl) at' none (.inl ⟨_, rfl⟩) e
  | deserializePrivateKey b =>
    exact produce_effect w w rfl at' none ((clean_convert _ _).map _) e
  | deserializePublicKey b => exact produce_effect w w rfl at' none ((clean_convert _ _).map _) e
  | deserializePublicKeyCached b =>
    refine produce_effect _ w (by rfl) at' none ?_ e
    simp only [ffiDeserializePublicKeyCached, convertResultToBool, FfiM.bind]
    cases (w.cache.deserialize (fun b => liftSer ((L.dePk b).map Prod.fst)) b).1 with
    | ok a => exact .inl ⟨_, rfl⟩
    | err e => exact .inr (.inl rfl)
    | panic => exact .inr (.inr rfl)
  | deserializeSignature b => exact produce_effect w w rfl at' none ((clean_convert _ _).map _) e
  | serializePrivateKey p =>
    obtain ⟨sk, -, e⟩ := (Outcome.bind_eq_ok_iff _ _ _).1 e
    exact produce_effect w w rfl at' _ (.inl ⟨_, rfl⟩) e
  | serializePublicKey p c =>
    obtain ⟨sk, -, e⟩ := (Outcome.bind_eq_ok_iff _ _ _).1 e
    exact produce_effect w w rfl at' _ (.inl ⟨_, rfl⟩) e
  | serializeSignature p c =>
    obtain ⟨sk, -, e⟩ := (Outcome.bind_eq_ok_iff _ _ _).1 e
    exact produce_effect w w rfl at' _ (.inl ⟨_, rfl⟩) e
  | destroyPrivateKey p => exact free_effect w at' p _ e
  | destroyPublicKey p => exact free_effect w at' p _ e
  | destroySignature p => exact free_effect w at' p _ e
  | freeVec p len => exact free_effect w at' p _ e

/-- **C82.** Frame: in any session, an object that is live and that no call of the session is asked
to free is live and unchanged at the end, whatever else was called. -/
theorem C82_frame (tr : List (ℕ × LibCall (ZMod r) F)) (w w' : World (ZMod r) F G1) (obs : List Obs)
    (ha : AllocOk P ops L w tr) (e : runLib P ops L w tr = .ok (obs, w')) (p : ℕ)
    (o : HeapObj (ZMod r) F G1) (ho : w.heap p = some o)
    (hp : ∀ c ∈ tr, c.2.target ≠ some p) : w'.heap p = some o := by
  induction tr generalizing w obs with
  | nil => cases e; exact ho
  | cons c rest ih =>
    obtain ⟨s, hs, e⟩ := (Outcome.bind_eq_ok_iff _ _ _).1 e
    obtain ⟨t, ht, e⟩ := (Outcome.map_eq_ok_iff _ _ _).1 e
    cases e
    refine ih s.2 t.1 (ha.2.2 s hs) ht ?_ fun c' h => hp c' (List.mem_cons_of_mem _ h)
    rcases step_effect P ops L w c.1 c.2 hs with ⟨-, -, -, x, hx⟩ | ⟨-, hx, -⟩ |
      ⟨-, -, q, hq, -, -, hx⟩
    · rw [hx, Function.update_of_ne, ho]
      rintro rfl
      rw [ha.2.1] at ho
      cases ho
    · rw [hx, ho]
    · rw [hx, Function.update_of_ne, ho]
      rintro rfl
      exact hp c List.mem_cons_self hq

/-- **C82.** A call that returns false writes no pointer and leaves every object as it was. -/
theorem C82_failure (w : World (ZMod r) F G1) (at' : ℕ) (c : LibCall (ZMod r) F) (o : Obs)
    (w' : World (ZMod r) F G1) (e : c.step P ops L w at' = .ok (o, w')) (hf : o.ret = false) :
    o.out = none ∧ w'.heap = w.heap := by
  rcases step_effect P ops L w at' c e with ⟨h, -⟩ | ⟨h1, h2, -⟩ | ⟨h, -⟩
  · exact absurd (hf.symm.trans h) (by decide)
  · exact ⟨h1, h2⟩
  · exact absurd (hf.symm.trans h) (by decide)

/-- Successful calls of destructors in a session with its observations. -/
def freedCount {K : Type*} (tr : List (ℕ × LibCall K F)) (obs : List Obs) : ℕ :=
  (tr.zip obs).countP fun x => x.1.2.target.isSome && x.2.ret

/-- **C82.** Accounting: in any session, objects live before plus pointers returned is objects live
after plus destructor calls that returned true.  So nothing leaks inside the library, and a client
that frees each returned pointer once leaves no object behind. -/
theorem C82_accounting (tr : List (ℕ × LibCall (ZMod r) F)) (w w' : World (ZMod r) F G1)
    (obs : List Obs) (hfin : {p | w.heap p ≠ none}.Finite) (ha : AllocOk P ops L w tr)
    (e : runLib P ops L w tr = .ok (obs, w')) :
    {p | w'.heap p ≠ none}.Finite ∧
    {p | w'.heap p ≠ none}.ncard + freedCount tr obs =
      {p | w.heap p ≠ none}.ncard + obs.countP fun o => o.out.isSome := by
  induction tr generalizing w obs with
  | nil => cases e; exact ⟨hfin, rfl⟩
  | cons c rest ih =>
    obtain ⟨s, hs, e⟩ := (Outcome.bind_eq_ok_iff _ _ _).1 e
    obtain ⟨t, ht, e⟩ := (Outcome.map_eq_ok_iff _ _ _).1 e
    cases e
    simp only [freedCount, List.zip_cons_cons, List.countP_cons]
    rcases step_effect P ops L w c.1 c.2 hs with ⟨h1, h2, h3, x, hx⟩ | ⟨h1, hx, h3⟩ |
      ⟨h1, h2, q, hq, -, hl, hx⟩
    · have hset : {p | s.2.heap p ≠ none} = insert c.1 {p | w.heap p ≠ none} := by
        ext p
        by_cases hp : p = c.1
        · subst hp; simp [hx]
        · simp [hx, hp]
      have hn : c.1 ∉ {p | w.heap p ≠ none} := by simp [ha.2.1]
      obtain ⟨i1, i2⟩ := ih s.2 t.1 (hset ▸ hfin.insert _) (ha.2.2 s hs) ht
      rw [hset, Set.ncard_insert_of_notMem hn hfin] at i2
      refine ⟨i1, ?_⟩
      simp only [freedCount] at i2
      simp only [h2, h3, Option.isSome_none, Option.isSome_some, Bool.false_and]
      simp only [Bool.false_eq_true, if_false, if_true]
      omega
    · have hset : {p | s.2.heap p ≠ none} = {p | w.heap p ≠ none} := by rw [hx]
      obtain ⟨i1, i2⟩ := ih s.2 t.1 (hset ▸ hfin) (ha.2.2 s hs) ht
      rw [hset] at i2
      refine ⟨i1, ?_⟩
      simp only [freedCount] at i2
      have h0 : (c.2.target.isSome && s.1.ret) = false := by
        rcases h3 with h | h <;> simp [h]
      simp only [h0, h1, Option.isSome_none, Bool.false_eq_true, if_false]
      omega
    · have hset : {p | s.2.heap p ≠ none} = {p | w.heap p ≠ none} \ {q} := by
        ext p
        by_cases hp : p = q
        · subst hp; simp [hx]
        · simp [hx, hp]
      have hq' : q ∈ {p | w.heap p ≠ none} := hl
      obtain ⟨i1, i2⟩ := ih s.2 t.1 (hset ▸ hfin.sdiff) (ha.2.2 s hs) ht
      have hc := Set.ncard_sdiff_singleton_add_one hq' hfin
      rw [hset] at i2
      refine ⟨i1, ?_⟩
      simp only [freedCount] at i2
      simp only [h1, h2, hq, Option.isSome_none, Option.isSome_some, Bool.true_and,
        Bool.false_eq_true, if_false, if_true]
      omega

/-! ## Undefined behaviour, exactly -/

/-- The four types of objects the interface hands out pointers to. -/
inductive Kind | privateKey | publicKey | signature | vec
  deriving DecidableEq

/-- The type of an object. -/
def HeapObj.kind {K : Type*} : HeapObj K F G1 → Kind
  | .privateKey _ => .privateKey
  | .publicKey _ => .publicKey
  | .signature _ => .signature
  | .vec _ => .vec

/-- The pointers to objects in the arguments of a call, with the types its signature declares. -/
def LibCall.args {K : Type*} : LibCall K F → List (ℕ × Kind)
  | .generatePrivateKey _ | .bytes _ | .deserializePrivateKey _ | .deserializePublicKey _
  | .deserializePublicKeyCached _ | .deserializeSignature _ => []
  | .privateKeyToPublicKey p | .signMessage p _ _ _ _ | .signPop p _ | .serializePrivateKey p
  | .destroyPrivateKey p => [(p, .privateKey)]
  | .serializePublicKey p _ | .destroyPublicKey p => [(p, .publicKey)]
  | .serializeSignature p _ | .destroySignature p => [(p, .signature)]
  | .freeVec p _ => [(p, .vec)]
  | .verifySignature p _ _ s _ _ | .verifyPop p _ s => [(p, .publicKey), (s, .signature)]
  | .batchVerifySignature ms _ _ =>
    ms.flatMap fun m => [(m.publicKey, .publicKey), (m.sig, .signature)]
  | .batchVerifyStrict bs _ _ _ => bs.flatMap fun b =>
    b.publicKeys.map (·, .publicKey) ++ b.signatures.map (·, .signature)
  | .aggregateSignatures ps => ps.map (·, .signature)
  | .aggregatePublicKeys ps _ _ _ => ps.map (·, .publicKey)
  | .aggregatePublicKeysSubtract p ps _ _ _ => (p, .publicKey) :: ps.map (·, .publicKey)

/-- A live object of the declared type is at the pointer. -/
def World.Live {K : Type*} (w : World K F G1) (a : ℕ × Kind) : Prop :=
  ∃ o, w.heap a.1 = some o ∧ o.kind = a.2

/-- An outcome is undefined behaviour exactly when `h` fails. -/
def UbUnless {α : Type*} (x : Outcome Unit α) (h : Prop) : Prop :=
  (x = .err () ↔ ¬ h) ∧ (¬ h ∨ ∃ a, x = .ok a)

omit [DecidableEq F] [AddCommGroup G1] [Module (ZMod r) G1] in
theorem getSk_ub (w : World (ZMod r) F G1) (p : ℕ) :
    UbUnless (w.getSk p) (w.Live (p, .privateKey)) := by
  unfold UbUnless World.getSk World.Live
  rcases h : w.heap p with _ | ⟨_ | _ | _ | _⟩ <;> simp [HeapObj.kind]

omit [DecidableEq F] [AddCommGroup G1] [Module (ZMod r) G1] in
theorem getPk_ub (w : World (ZMod r) F G1) (p : ℕ) :
    UbUnless (w.getPk p) (w.Live (p, .publicKey)) := by
  unfold UbUnless World.getPk World.Live
  rcases h : w.heap p with _ | ⟨_ | _ | _ | _⟩ <;> simp [HeapObj.kind]

omit [DecidableEq F] [AddCommGroup G1] [Module (ZMod r) G1] in
theorem getSig_ub (w : World (ZMod r) F G1) (p : ℕ) :
    UbUnless (w.getSig p) (w.Live (p, .signature)) := by
  unfold UbUnless World.getSig World.Live
  rcases h : w.heap p with _ | ⟨_ | _ | _ | _⟩ <;> simp [HeapObj.kind]

theorem UbUnless.bind {α β : Type*} {x : Outcome Unit α} {f : α → Outcome Unit β} {h h' : Prop}
    (hx : UbUnless x h) (hf : ∀ a, x = .ok a → (f a = .err () ↔ ¬ h')) :
    x.bind f = .err () ↔ ¬ (h ∧ h') := by
  obtain ⟨h1, h2⟩ := hx
  cases x with
  | ok a =>
    have : h := by by_contra hc; exact absurd (h1.2 hc) nofun
    have e := hf a rfl
    simp only [Outcome.bind_ok]
    rw [e]
    tauto
  | err e =>
    have : ¬ h := h1.1 rfl
    exact ⟨fun _ hc => this hc.1, fun _ => rfl⟩
  | panic =>
    rcases h2 with h2 | ⟨a, ha⟩
    · exact absurd (h1.2 h2) nofun
    · cases ha

theorem UbUnless.bind' {α β : Type*} {x : Outcome Unit α} {f : α → Outcome Unit β} {h h' : Prop}
    (hx : UbUnless x h) (hf : ∀ a, x = .ok a → UbUnless (f a) h') : UbUnless (x.bind f) (h ∧ h') := by
  refine ⟨hx.bind fun a ha => (hf a ha).1, ?_⟩
  rcases hx.2 with h | ⟨a, ha⟩
  · exact .inl fun hc => h hc.1
  · rcases (hf a ha).2 with h | ⟨b, hb⟩
    · exact .inl fun hc => h hc.2
    · exact .inr ⟨b, by rw [ha]; exact hb⟩

theorem UbUnless.map {α β : Type*} {x : Outcome Unit α} {f : α → β} {h : Prop}
    (hx : UbUnless x h) : UbUnless (x.map f) h := by
  obtain ⟨h1, h2⟩ := hx
  cases x with
  | ok a => exact ⟨⟨nofun, fun hc => absurd (h1.2 hc) nofun⟩, .inr ⟨_, rfl⟩⟩
  | err e => exact ⟨⟨fun _ => h1.1 rfl, fun _ => rfl⟩, .inl (h1.1 rfl)⟩
  | panic => exact ⟨⟨nofun, fun hc => absurd (h1.2 hc) nofun⟩, .inl (h2.resolve_right nofun)⟩

theorem UbUnless.mapM {α β : Type*} {f : α → Outcome Unit β} {h : α → Prop}
    (hf : ∀ a, UbUnless (f a) (h a)) (l : List α) : UbUnless (Outcome.mapM f l) (∀ a ∈ l, h a) := by
  induction l with
  | nil => exact ⟨⟨nofun, fun hc => absurd (fun a ha => absurd ha (by simp)) hc⟩, .inr ⟨[], rfl⟩⟩
  | cons a as ih =>
    rw [Outcome.mapM_cons, List.forall_mem_cons]
    exact (hf a).bind' fun b _ => ih.map

omit [DecidableEq F] [AddCommGroup G1] [Module (ZMod r) G1] in
theorem produce_ne_err (w : World (ZMod r) F G1) (at' : ℕ) (len : Option Int32)
    (res : Outcome Unit Bool × Option (HeapObj (ZMod r) F G1)) :
    w.produce at' len res = .err () ↔ ¬ True := by
  obtain ⟨a, b⟩ := res
  cases a <;> cases b <;> simp [World.produce]

omit [DecidableEq F] [AddCommGroup G1] [Module (ZMod r) G1] in
theorem report_ne_err (w : World (ZMod r) F G1) (res : Outcome Unit Bool × List Bool) :
    w.report res = .err () ↔ ¬ True := by
  obtain ⟨a, b⟩ := res
  cases a <;> simp [World.report]

omit [DecidableEq F] [AddCommGroup G1] [Module (ZMod r) G1] in
theorem free_ub (w : World (ZMod r) F G1) (p : ℕ) (ok : HeapObj (ZMod r) F G1 → Bool) :
    w.free p ok = .err () ↔ p ≠ 0 ∧ ¬ ∃ o, w.heap p = some o ∧ ok o = true := by
  unfold World.free
  by_cases hp : p = 0
  · simp [hp]
  · rw [if_neg hp]
    cases h : w.heap p with
    | none => simp [hp]
    | some o => by_cases hk : ok o = true <;> simp [hk, hp]

/-- **C82.** Undefined behaviour, exactly: a call that is not a destructor is undefined if and only
if one of the pointers it is given is not a live object of the declared type.  This includes null,
freed pointers and pointers of another type; none of them is checked. -/
theorem C82_ub (w : World (ZMod r) F G1) (at' : ℕ) (c : LibCall (ZMod r) F)
    (hc : c.target = none) :
    c.step P ops L w at' = .err () ↔ ¬ ∀ a ∈ c.args, w.Live a := by
  have nil : ¬ True ↔ ¬ ∀ a ∈ ([] : List (ℕ × Kind)), w.Live a := by simp
  have one : ∀ a : ℕ × Kind, (∀ b ∈ [a], w.Live b) ↔ w.Live a ∧ True := by simp
  cases c with
  | generatePrivateKey d =>
    simp only [LibCall.step, LibCall.args]
    exact (produce_ne_err w at' _ _).trans nil
  | privateKeyToPublicKey p =>
    rw [LibCall.args, one]; exact (getSk_ub w p).bind fun a _ => produce_ne_err ..
  | signMessage p m x uc u22 =>
    rw [LibCall.args, one]; exact (getSk_ub w p).bind fun a _ => produce_ne_err ..
  | signPop p m =>
    rw [LibCall.args, one]; exact (getSk_ub w p).bind fun a _ => produce_ne_err ..
  | bytes b => exact (produce_ne_err w at' _ _).trans nil
  | verifySignature p m x sg uc u22 =>
    rw [LibCall.args, List.forall_mem_cons, one]
    exact (getPk_ub w p).bind fun a _ => (getSig_ub w sg).bind fun b _ => report_ne_err ..
  | verifyPop p m sg =>
    rw [LibCall.args, List.forall_mem_cons, one]
    exact (getPk_ub w p).bind fun a _ => (getSig_ub w sg).bind fun b _ => report_ne_err ..
  | batchVerifySignature ms uc u22 =>
    have h := (UbUnless.mapM (fun m : MessageH => (getPk_ub w m.publicKey).bind' fun pk _ =>
      (getSig_ub w m.sig).map (f := fun sig =>
        (⟨m.data, m.extra, ops.pt pk, sig⟩ : FfiMessage G1 G2))) ms).bind (h' := True)
      (f := fun ms => let res := ffiBatchVerifySignature P L.hash ms uc u22 none
        w.report (res.1, res.2.toList)) fun a _ => report_ne_err ..
    refine h.trans (not_congr ?_)
    simp [LibCall.args, List.mem_flatMap, or_imp, forall_and]
    grind
  | batchVerifyStrict bs uc u22 rng =>
    have h := (UbUnless.mapM (fun b : BatchMessageH =>
      (UbUnless.mapM (getPk_ub w) b.publicKeys).bind' fun pks _ =>
      (UbUnless.mapM (getSig_ub w) b.signatures).map (f := fun sigs =>
        (⟨b.data, b.extra, pks.map ops.pt, sigs⟩ : BatchMessage G1 G2))) bs).bind (h' := True)
      (f := fun ms => let res := ffiBatchVerifyStrict P L.hash ms uc u22 rng (fun _ => false)
        w.report (res.1, (List.range bs.length).map res.2)) fun a _ => report_ne_err ..
    refine h.trans (not_congr ?_)
    simp [LibCall.args, List.mem_flatMap, or_imp, forall_and]
    grind
  | aggregateSignatures ps =>
    have h := (UbUnless.mapM (getSig_ub w) ps).bind (h' := True)
      (f := fun sigs => let res := ffiAggregateSignatures sigs none
        w.produce at' none (res.1, res.2.map .signature)) fun a _ => produce_ne_err ..
    refine h.trans (not_congr ?_)
    simp [LibCall.args]
  | aggregatePublicKeys ps hy sh1 sh2 =>
    have h := (UbUnless.mapM (getPk_ub w) ps).bind (h' := True)
      (f := fun pks => let res := ffiAggregatePublicKeys ops pks hy sh1 sh2 (none, w.cache)
        ({ w with cache := res.2.2 } : World (ZMod r) F G1).produce at' none
          (res.1, res.2.1.map .publicKey)) fun a _ => produce_ne_err ..
    refine h.trans (not_congr ?_)
    simp [LibCall.args]
  | aggregatePublicKeysSubtract p ps hy sh1 sh2 =>
    have h := (getPk_ub w p).bind (f := fun agg => (Outcome.mapM w.getPk ps).bind fun pks =>
        let res := ffiAggregatePublicKeysSubtract ops agg pks hy sh1 sh2 (none, w.cache)
        ({ w with cache := res.2.2 } : World (ZMod r) F G1).produce at' none
          (res.1, res.2.1.map .publicKey)) fun agg _ =>
      (UbUnless.mapM (getPk_ub w) ps).bind (h' := True) fun a _ => produce_ne_err ..
    refine h.trans (not_congr ?_)
    simp [LibCall.args]
  | deserializePrivateKey b => exact (produce_ne_err w at' _ _).trans nil
  | deserializePublicKey b => exact (produce_ne_err w at' _ _).trans nil
  | deserializePublicKeyCached b =>
    exact (produce_ne_err ⟨w.heap, _⟩ at' _ _).trans nil
  | deserializeSignature b => exact (produce_ne_err w at' _ _).trans nil
  | serializePrivateKey p =>
    rw [LibCall.args, one]; exact (getSk_ub w p).bind fun a _ => produce_ne_err ..
  | serializePublicKey p c =>
    rw [LibCall.args, one]; exact (getPk_ub w p).bind fun a _ => produce_ne_err ..
  | serializeSignature p c =>
    rw [LibCall.args, one]; exact (getSig_ub w p).bind fun a _ => produce_ne_err ..
  | destroyPrivateKey p => cases hc
  | destroyPublicKey p => cases hc
  | destroySignature p => cases hc
  | freeVec p len => cases hc

theorem usize_eq (n : ℕ) (len : Int32) : n = usizeOfInt32 len ↔ (n : ℤ) = len.toInt % 2 ^ 64 := by
  unfold usizeOfInt32
  omega

/-- **C82.** Destructors: undefined if and only if the pointer is neither null nor a live object of
the declared type, or it is a vector and the length given is not its length.  In particular a second
call with the same pointer is undefined, not refused. -/
theorem C82_ub_free (w : World (ZMod r) F G1) (at' p : ℕ) (len : Int32) :
    ((LibCall.destroyPrivateKey p).step P ops L w at' = .err () ↔
      p ≠ 0 ∧ ¬ w.Live (p, .privateKey)) ∧
    ((LibCall.destroyPublicKey p).step P ops L w at' = .err () ↔
      p ≠ 0 ∧ ¬ w.Live (p, .publicKey)) ∧
    ((LibCall.destroySignature p).step P ops L w at' = .err () ↔
      p ≠ 0 ∧ ¬ w.Live (p, .signature)) ∧
    ((LibCall.freeVec p len).step P ops L w at' = .err () ↔
      p ≠ 0 ∧ ¬ ∃ b : Bytes, w.heap p = some (.vec b) ∧ (b.length : ℤ) = len.toInt % 2 ^ 64) := by
  refine ⟨(free_ub ..).trans ?_, (free_ub ..).trans ?_, (free_ub ..).trans ?_,
    (free_ub ..).trans ?_⟩
  · rcases h : w.heap p with _ | ⟨_ | _ | _ | _⟩ <;> simp [World.Live, h, HeapObj.kind]
  · rcases h : w.heap p with _ | ⟨_ | _ | _ | _⟩ <;> simp [World.Live, h, HeapObj.kind]
  · rcases h : w.heap p with _ | ⟨_ | _ | _ | _⟩ <;> simp [World.Live, h, HeapObj.kind]
  · rcases h : w.heap p with _ | ⟨_ | _ | _ | b⟩ <;> simp [usize_eq]

/-! ## Refinement of an ideal library -/

/-- Objects of the ideal library: public keys are group elements; `decoded` records that the key came
from a deserialisation. -/
inductive IdealObj (K G1 G2 : Type*) where
  | privateKey (sk : K)
  | publicKey (pk : G2) (decoded : Bool)
  | signature (sig : G1)
  | vec (bytes : Bytes)

variable [DecidableEq G2]

namespace Ideal

/-- The ideal library's state: objects by pointer, no cache. -/
abbrev State (r : ℕ) (G1 G2 : Type*) := ℕ → Option (IdealObj (ZMod r) G1 G2)

variable (a : State r G1 G2)

/-- The private key at a pointer. -/
def sk (p : ℕ) : Outcome Unit (ZMod r) :=
  match a p with | some (.privateKey k) => .ok k | _ => .err ()

/-- The public key at a pointer. -/
def pk (p : ℕ) : Outcome Unit G2 :=
  match a p with | some (.publicKey k _) => .ok k | _ => .err ()

/-- The public key at a pointer, if it was deserialised. -/
def decodedPk (p : ℕ) : Outcome Unit G2 :=
  match a p with | some (.publicKey k true) => .ok k | _ => .err ()

/-- The signature at a pointer. -/
def sig (p : ℕ) : Outcome Unit G1 :=
  match a p with | some (.signature s) => .ok s | _ => .err ()

/-- Return true and a new object, or false and nothing. -/
def deliver (at' : ℕ) (len : Option Int32) {ε : Type*} :
    Outcome ε (IdealObj (ZMod r) G1 G2) → Outcome Unit (Obs × State r G1 G2)
  | .ok o => .ok (⟨true, some at', len, []⟩, Function.update a at' (some o))
  | .err _ => .ok (⟨false, none, none, []⟩, a)
  | .panic => .panic

/-- Return a vector and its length. -/
def deliverVec (at' : ℕ) (b : Bytes) : Outcome Unit (Obs × State r G1 G2) :=
  deliver a at' (some (Int32.ofNat b.length)) (ε := Unit) (.ok (.vec b))

/-- Return an answer. -/
def answer (flags : List Bool) : Outcome Unit Bool → Outcome Unit (Obs × State r G1 G2)
  | .ok b => .ok (⟨b, none, none, flags⟩, a)
  | _ => .panic

/-- Free an object. -/
def free (p : ℕ) (ok : IdealObj (ZMod r) G1 G2 → Bool) : Outcome Unit (Obs × State r G1 G2) :=
  if p = 0 then .ok (⟨false, none, none, []⟩, a)
  else match a p with
    | some o => if ok o then .ok (⟨true, none, none, []⟩, Function.update a p none) else .err ()
    | none => .err ()

/-- The hash the two flags select. -/
def hashOf (uc u22 : Bool) : HashToG1 G1 :=
  match uc, u22 with
  | true, true => L.hash.cip22
  | false, true => fun _ _ _ => .err .hashToCurveError
  | true, false => L.hash.composite
  | false, false => L.hash.direct

/-- One call of the ideal library.  Keys are aggregated as a set of points and only if they were
deserialised; deserialising with and without cache is the same. -/
def step (at' : ℕ) : LibCall (ZMod r) F → Outcome Unit (Obs × State r G1 G2)
  | .generatePrivateKey d => deliver a at' none (ε := Unit) (.ok (.privateKey d))
  | .privateKeyToPublicKey p =>
    (sk a p).bind fun k => deliver a at' none (ε := Unit) (.ok (.publicKey (k • P.g2) false))
  | .signMessage p m e uc u22 => (sk a p).bind fun k =>
    deliver a at' none ((hashOf L uc u22 SIG_DOMAIN m e).map fun h => .signature (k • h))
  | .signPop p m => (sk a p).bind fun k =>
    deliver a at' none ((L.hash.direct POP_DOMAIN m []).map fun h => .signature (k • h))
  | .bytes c =>
    match c.run L with
    | (.ok true, ⟨some b, _⟩) => deliverVec a at' b
    | (.ok _, _) => deliver a at' none (.err ())
    | _ => .panic
  | .verifySignature p m e s uc u22 => (pk a p).bind fun k => (sig a s).bind fun s =>
    let res := ffiVerifySignature P L.hash k m e s uc u22 none
    answer a res.2.toList res.1
  | .verifyPop p m s => (pk a p).bind fun k => (sig a s).bind fun s =>
    let res := ffiVerifyPop P L.hash k m s none
    answer a res.2.toList res.1
  | .batchVerifySignature ms uc u22 =>
    (Outcome.mapM (fun m => (pk a m.publicKey).bind fun k => (sig a m.sig).map fun s =>
      (⟨m.data, m.extra, k, s⟩ : FfiMessage G1 G2)) ms).bind fun ms =>
    let res := ffiBatchVerifySignature P L.hash ms uc u22 none
    answer a res.2.toList res.1
  | .batchVerifyStrict bs uc u22 rng =>
    (Outcome.mapM (fun b => (Outcome.mapM (pk a) b.publicKeys).bind fun ks =>
      (Outcome.mapM (sig a) b.signatures).map fun ss =>
      (⟨b.data, b.extra, ks, ss⟩ : BatchMessage G1 G2)) bs).bind fun ms =>
    let res := ffiBatchVerifyStrict P L.hash ms uc u22 rng (fun _ => false)
    answer a ((List.range bs.length).map res.2) res.1
  | .aggregateSignatures ps => (Outcome.mapM (sig a) ps).bind fun ss =>
    deliver a at' none (ε := Unit) (.ok (.signature ss.sum))
  | .aggregatePublicKeys ps _ _ _ => (Outcome.mapM (decodedPk a) ps).bind fun ks =>
    deliver a at' none (ε := Unit) (.ok (.publicKey ks.dedup.sum false))
  | .aggregatePublicKeysSubtract p ps _ _ _ => (pk a p).bind fun k =>
    (Outcome.mapM (decodedPk a) ps).bind fun ks =>
    deliver a at' none (ε := Unit) (.ok (.publicKey (k - ks.dedup.sum) false))
  | .deserializePrivateKey b =>
    deliver a at' none ((L.deSk b).map fun k => .privateKey k.1)
  | .deserializePublicKey b | .deserializePublicKeyCached b =>
    deliver a at' none ((L.dePk b).map fun k => .publicKey (ops.pt k.1) true)
  | .deserializeSignature b =>
    deliver a at' none ((L.deSig b).map fun s => .signature s.1)
  | .serializePrivateKey p => (sk a p).bind fun k => deliverVec a at' (L.serSk k)
  | .serializePublicKey p c => (pk a p).bind fun k => deliverVec a at' (L.serPk c k)
  | .serializeSignature p c => (sig a p).bind fun s => deliverVec a at' (L.serSig c s)
  | .destroyPrivateKey p => free a p fun | .privateKey _ => true | _ => false
  | .destroyPublicKey p => free a p fun | .publicKey _ _ => true | _ => false
  | .destroySignature p => free a p fun | .signature _ => true | _ => false
  | .freeVec p len => free a p fun | .vec b => b.length = usizeOfInt32 len | _ => false

/-- A session of the ideal library. -/
def run (a : State r G1 G2) : List (ℕ × LibCall (ZMod r) F) →
    Outcome Unit (List Obs × State r G1 G2)
  | [] => .ok ([], a)
  | c :: rest => (step P ops L a c.1 c.2).bind fun s =>
    (run s.2 rest).map fun t => (s.1 :: t.1, t.2)

end Ideal

/-- Iteration orders are permutations. -/
def LibCall.Fair {K : Type*} : LibCall K F → Prop
  | .aggregatePublicKeys _ _ sh1 sh2 | .aggregatePublicKeysSubtract _ _ _ sh1 sh2 =>
    (∀ l, (sh1 l).Perm l) ∧ ∀ l, (sh2 l).Perm l
  | _ => True

/-- Objects of the library and of the ideal library that correspond. -/
def ObjRel (canon : JacRep F → Prop) : HeapObj (ZMod r) F G1 → IdealObj (ZMod r) G1 G2 → Prop
  | .privateKey k, .privateKey k' => k = k'
  | .publicKey k, .publicKey k' d => ops.pt k = k' ∧ (d = true → canon k)
  | .signature s, .signature s' => s = s'
  | .vec b, .vec b' => b = b'
  | _, _ => False

/-- States that correspond: the same pointers are live, with corresponding objects, and the cache is
in a reachable state. -/
def StateRel (canon : JacRep F → Prop) (w : World (ZMod r) F G1) (a : Ideal.State r G1 G2) : Prop :=
  (∀ p, Option.Rel (ObjRel ops canon) (w.heap p) (a p)) ∧
  CacheInv ops (fun b => liftSer ((L.dePk b).map Prod.fst)) w.cache

variable {canon : JacRep F → Prop} {w : World (ZMod r) F G1} {a : Ideal.State r G1 G2}

theorem rel_sk (h : StateRel ops L canon w a) {p k} (e : Ideal.sk a p = .ok k) :
    w.getSk p = .ok k := by
  have hp := h.1 p
  unfold Ideal.sk at e
  unfold World.getSk
  generalize w.heap p = x at *
  generalize a p = y at *
  rcases hp with @⟨x, y, hxy⟩ | _
  · cases x <;> cases y <;> simp_all [ObjRel]
  · cases e

theorem rel_sig (h : StateRel ops L canon w a) {p k} (e : Ideal.sig a p = .ok k) :
    w.getSig p = .ok k := by
  have hp := h.1 p
  unfold Ideal.sig at e
  unfold World.getSig
  generalize w.heap p = x at *
  generalize a p = y at *
  rcases hp with @⟨x, y, hxy⟩ | _
  · cases x <;> cases y <;> simp_all [ObjRel]
  · cases e

theorem rel_pk (h : StateRel ops L canon w a) {p k} (e : Ideal.pk a p = .ok k) :
    ∃ k', w.getPk p = .ok k' ∧ ops.pt k' = k := by
  have hp := h.1 p
  unfold Ideal.pk at e
  unfold World.getPk
  generalize w.heap p = x at *
  generalize a p = y at *
  rcases hp with @⟨x, y, hxy⟩ | _
  · cases x <;> cases y <;> simp_all [ObjRel]
  · cases e

theorem rel_decodedPk (h : StateRel ops L canon w a) {p k} (e : Ideal.decodedPk a p = .ok k) :
    ∃ k', w.getPk p = .ok k' ∧ ops.pt k' = k ∧ canon k' := by
  have hp := h.1 p
  unfold Ideal.decodedPk at e
  unfold World.getPk
  generalize w.heap p = x at *
  generalize a p = y at *
  rcases hp with @⟨x, y, hxy⟩ | _
  · cases x <;> cases y <;> simp_all [ObjRel]
    rename_i d
    cases d <;> simp_all
  · cases e

theorem rel_mapM {α β γ : Type*} {f : α → Outcome Unit β} {g : α → Outcome Unit γ}
    {R : γ → β → Prop} (h : ∀ x y, f x = .ok y → ∃ z, g x = .ok z ∧ R z y) (l : List α)
    (l' : List β) (e : Outcome.mapM f l = .ok l') :
    ∃ zs, Outcome.mapM g l = .ok zs ∧ List.Forall₂ R zs l' := by
  rw [Outcome.mapM_eq_ok_iff] at e
  induction e with
  | nil => exact ⟨[], rfl, .nil⟩
  | cons hx _ ih =>
    obtain ⟨z, hz, hr⟩ := h _ _ hx
    obtain ⟨zs, hzs, hrs⟩ := ih
    exact ⟨z :: zs, by rw [Outcome.mapM_cons, hz, Outcome.bind_ok, hzs]; rfl, .cons hr hrs⟩

theorem rel_mapM_eq {α β : Type*} {f g : α → Outcome Unit β}
    (h : ∀ x y, f x = .ok y → g x = .ok y) (l : List α) (l' : List β)
    (e : Outcome.mapM f l = .ok l') : Outcome.mapM g l = .ok l' := by
  obtain ⟨zs, h1, h2⟩ := rel_mapM (R := Eq) (fun x y hy => ⟨y, h x y hy, rfl⟩) l l' e
  rw [List.forall₂_eq_eq_eq] at h2
  rw [h1, h2]

/-- What a body left, against what the ideal library delivers. -/
def ResRel (canon : JacRep F → Prop) {ε : Type*}
    (res : Outcome Unit Bool × Option (HeapObj (ZMod r) F G1))
    (x : Outcome ε (IdealObj (ZMod r) G1 G2)) : Prop :=
  match x with
  | .ok o => ∃ o', res = (.ok true, some o') ∧ ObjRel ops canon o' o
  | .err _ => res = (.ok false, none)
  | .panic => True

theorem rel_update (h : StateRel ops L canon w a) (at' : ℕ)
    {o' : Option (HeapObj (ZMod r) F G1)} {o : Option (IdealObj (ZMod r) G1 G2)}
    (ho : Option.Rel (ObjRel ops canon) o' o) :
    StateRel ops L canon { w with heap := Function.update w.heap at' o' }
      (Function.update a at' o) := by
  refine ⟨fun p => ?_, h.2⟩
  by_cases hp : p = at'
  · subst hp
    simpa using ho
  · simpa [Function.update_of_ne hp] using h.1 p

theorem rel_deliver (h : StateRel ops L canon w a) (at' : ℕ) (len : Option Int32) {ε : Type*}
    {res : Outcome Unit Bool × Option (HeapObj (ZMod r) F G1)}
    {x : Outcome ε (IdealObj (ZMod r) G1 G2)} (hr : ResRel ops canon res x)
    (hl : (∃ e, x = .err e) → len = none) {s} (e : Ideal.deliver a at' len x = .ok s) :
    ∃ w', w.produce at' len res = .ok (s.1, w') ∧ StateRel ops L canon w' s.2 := by
  cases x with
  | ok o =>
    obtain ⟨o', rfl, ho⟩ := hr
    cases e
    exact ⟨_, rfl, rel_update ops L h at' (.some ho)⟩
  | err x =>
    have hr : res = (.ok false, none) := hr
    subst hr
    cases e
    exact ⟨w, by rw [hl ⟨x, rfl⟩]; rfl, h⟩
  | panic => cases e

theorem rel_deliver_ok (h : StateRel ops L canon w a) (at' : ℕ) (len : Option Int32)
    {o' : HeapObj (ZMod r) F G1} {o : IdealObj (ZMod r) G1 G2} (ho : ObjRel ops canon o' o) {s}
    (e : Ideal.deliver a at' len (ε := Unit) (.ok o) = .ok s) :
    ∃ w', w.produce at' len (.ok true, some o') = .ok (s.1, w') ∧ StateRel ops L canon w' s.2 := by
  cases e
  exact ⟨_, rfl, rel_update ops L h at' (.some ho)⟩

theorem map_of_forall₂ {α β : Type*} {f : α → β} {l : List α} {l' : List β}
    (h : List.Forall₂ (fun x y => f x = y) l l') : l.map f = l' := by
  induction h with
  | nil => rfl
  | cons hx _ ih => rw [List.map_cons, hx, ih]

theorem rel_deliverVec (h : StateRel ops L canon w a) (at' : ℕ) (b : Bytes) {s}
    (e : Ideal.deliverVec a at' b = .ok s) :
    ∃ w', w.produceVec at' (.ok true, BytesOut.of b) = .ok (s.1, w') ∧
      StateRel ops L canon w' s.2 :=
  rel_deliver_ok ops L h at' _ (o' := .vec b) (o := .vec b) rfl e

theorem rel_answer (h : StateRel ops L canon w a) {b : Outcome Unit Bool} {fs : List Bool} {s}
    (e : Ideal.answer a fs b = .ok s) :
    ∃ w', w.report (b, fs) = .ok (s.1, w') ∧ StateRel ops L canon w' s.2 := by
  cases b with
  | ok b => cases e; exact ⟨w, rfl, h⟩
  | err b => cases e
  | panic => cases e

theorem rel_free (h : StateRel ops L canon w a) (p : ℕ) {ok' : HeapObj (ZMod r) F G1 → Bool}
    {ok : IdealObj (ZMod r) G1 G2 → Bool} (hk : ∀ o' o, ObjRel ops canon o' o → ok' o' = ok o) {s}
    (e : Ideal.free a p ok = .ok s) :
    ∃ w', w.free p ok' = .ok (s.1, w') ∧ StateRel ops L canon w' s.2 := by
  unfold Ideal.free at e
  unfold World.free
  by_cases hp : p = 0
  · rw [if_pos hp] at e ⊢
    cases e
    exact ⟨w, rfl, h⟩
  · rw [if_neg hp] at e ⊢
    have hr := h.1 p
    have hu : StateRel ops L canon { w with heap := Function.update w.heap p none }
      (Function.update a p none) := rel_update ops L h p .none
    generalize w.heap p = x at hr ⊢
    generalize a p = y at hr e
    rcases hr with @⟨x, y, hxy⟩ | _
    · simp only [] at e ⊢
      rw [hk x y hxy]
      by_cases ho : ok y = true
      · rw [if_pos ho] at e ⊢
        cases e
        exact ⟨_, rfl, hu⟩
      · rw [if_neg ho] at e
        cases e
    · cases e

theorem resRel_convert {ε ε' α : Type*} {x : Outcome ε α} {y : Outcome ε' (IdealObj (ZMod r) G1 G2)}
    {β : Type*} (g : α → β) (c : β → HeapObj (ZMod r) F G1)
    (hok : ∀ v, x = .ok v → ∃ o, y = .ok o ∧ ObjRel ops canon (c (g v)) o)
    (herr : ∀ v, x = .err v → ∃ v', y = .err v') (hp : x = .panic → y = .panic) :
    ResRel ops canon
      ((convertResultToBool ((FfiM.lift x).bind fun a => FfiM.write fun _ => some (g a)) none).1,
       (convertResultToBool ((FfiM.lift x).bind fun a =>
        FfiM.write fun _ => some (g a)) none).2.map c) y := by
  cases x with
  | ok v =>
    obtain ⟨o, rfl, ho⟩ := hok v rfl
    exact ⟨_, rfl, ho⟩
  | err v =>
    obtain ⟨v', rfl⟩ := herr v rfl
    rfl
  | panic => rw [hp rfl]; trivial

theorem resRel_sign (sk : ZMod r) (H : HashToG1 G1) (d m e : Bytes) :
    ResRel ops canon (F := F)
      ((convertResultToBool ((FfiM.lift (signMessage sk d m e H)).bind fun a =>
        FfiM.write fun _ => some a) none).1,
       (convertResultToBool ((FfiM.lift (signMessage sk d m e H)).bind fun a =>
        FfiM.write fun _ => some a) none).2.map .signature)
      ((H d m e).map fun h => (.signature (sk • h) : IdealObj (ZMod r) G1 G2)) := by
  unfold signMessage
  cases H d m e with
  | ok h => exact ⟨_, rfl, rfl⟩
  | err e => rfl
  | panic => trivial

theorem resRel_deser {T : Type*} (x : Outcome SerError (T × Bytes)) (c : T → HeapObj (ZMod r) F G1)
    (c' : T → IdealObj (ZMod r) G1 G2) (hc : ∀ t rest, x = .ok (t, rest) → ObjRel ops canon (c t) (c' t)) :
    ResRel ops canon
      ((convertResultToBool ((FfiM.lift (liftSer x)).bind fun a =>
        FfiM.write fun _ => some a.1) none).1,
       (convertResultToBool ((FfiM.lift (liftSer x)).bind fun a =>
        FfiM.write fun _ => some a.1) none).2.map c)
      (x.map fun t => c' t.1) := by
  cases x with
  | ok t => exact ⟨_, rfl, hc t.1 t.2 rfl⟩
  | err e => rfl
  | panic => trivial

/-- Canonical keys are equal as representations when they are the same point. -/
def CanonInj (canon : JacRep F → Prop) : Prop :=
  ∀ k k', canon k → canon k' → ops.pt k = ops.pt k' → k = k'

theorem dedup_sum_of_canon (hinj : CanonInj ops canon) {ks : List (JacRep F)} {ps : List G2}
    (h : List.Forall₂ (fun k p => ops.pt k = p ∧ canon k) ks ps) :
    (ks.dedup.map ops.pt).sum = ps.dedup.sum := by
  have hps : ps = ks.map ops.pt := by
    induction h with
    | nil => rfl
    | cons hx _ ih => rw [List.map_cons, hx.1, ← ih]
  have hk : ∀ k ∈ ks, canon k := by
    clear hps
    induction h with
    | nil => simp
    | cons hx _ ih => exact List.forall_mem_cons.2 ⟨hx.2, ih⟩
  rw [hps]
  clear h hps
  congr 1
  induction ks with
  | nil => rfl
  | cons k ks ih =>
    have ih' := ih fun k' h => hk k' (List.mem_cons_of_mem _ h)
    have hiff : ops.pt k ∈ ks.map ops.pt ↔ k ∈ ks := by
      refine ⟨fun h => ?_, List.mem_map_of_mem⟩
      obtain ⟨k', hk', e⟩ := List.mem_map.mp h
      rwa [hinj k' k (hk k' (List.mem_cons_of_mem _ hk')) (hk k List.mem_cons_self) e] at hk'
    rw [List.map_cons]
    by_cases h : k ∈ ks
    · rw [List.dedup_cons_of_mem h, List.dedup_cons_of_mem (hiff.mpr h)]
      exact ih'
    · rw [List.dedup_cons_of_notMem h, List.dedup_cons_of_notMem (fun h' => h (hiff.mp h')),
        List.map_cons, ih']

theorem lib_step_refines (hinj : CanonInj ops canon)
    (hde : ∀ b k rest, L.dePk b = .ok (k, rest) → canon k)
    (hpub : ∀ k, ops.pt (L.toPublicRep k) = k • P.g2)
    (h : StateRel ops L canon w a) (at' : ℕ) (c : LibCall (ZMod r) F) (hf : c.Fair) {s}
    (e : Ideal.step P ops L a at' c = .ok s) :
    ∃ w', c.step P ops L w at' = .ok (s.1, w') ∧ StateRel ops L canon w' s.2 := by
  cases c with
  | generatePrivateKey d => exact rel_deliver_ok ops L h at' none (o' := .privateKey d) (o := .privateKey d) rfl e
  | privateKeyToPublicKey p =>
    obtain ⟨k, hk, e⟩ := (Outcome.bind_eq_ok_iff _ _ _).1 e
    simp only [LibCall.step, rel_sk ops L h hk, Outcome.bind_ok]
    exact rel_deliver_ok ops L h at' none
      (o' := .publicKey (L.toPublicRep k)) (o := .publicKey (k • P.g2) false) ⟨hpub k, nofun⟩ e
  | signMessage p m x uc u22 =>
    obtain ⟨k, hk, e⟩ := (Outcome.bind_eq_ok_iff _ _ _).1 e
    simp only [LibCall.step, rel_sk ops L h hk, Outcome.bind_ok]
    refine rel_deliver ops L h at' none ?_ (fun _ => rfl) e
    cases uc <;> cases u22
    · exact resRel_sign ops k L.hash.direct SIG_DOMAIN m x
    · rfl
    · exact resRel_sign ops k L.hash.composite SIG_DOMAIN m x
    · exact resRel_sign ops k L.hash.cip22 SIG_DOMAIN m x
  | signPop p m =>
    obtain ⟨k, hk, e⟩ := (Outcome.bind_eq_ok_iff _ _ _).1 e
    simp only [LibCall.step, rel_sk ops L h hk, Outcome.bind_ok]
    exact rel_deliver ops L h at' none (resRel_sign ops k L.hash.direct POP_DOMAIN m []) (fun _ => rfl) e
  | bytes b =>
    simp only [Ideal.step] at e
    simp only [LibCall.step]
    rcases b.clean L with ⟨v, hv⟩ | hv | hv
    · rw [hv] at e ⊢
      exact rel_deliverVec ops L h at' v e
    · rw [hv] at e ⊢
      exact rel_deliver ops L h at' none (res := (.ok false, none)) (x := .err ()) rfl (fun _ => rfl) e
    · generalize b.run L = res at *
      obtain ⟨x, y⟩ := res
      cases hv
      cases e
  | verifySignature p m x sg uc u22 =>
    obtain ⟨k, hk, e⟩ := (Outcome.bind_eq_ok_iff _ _ _).1 e
    obtain ⟨g, hg, e⟩ := (Outcome.bind_eq_ok_iff _ _ _).1 e
    obtain ⟨k', hk', rfl⟩ := rel_pk ops L h hk
    simp only [LibCall.step, hk', rel_sig ops L h hg, Outcome.bind_ok]
    exact rel_answer ops L h e
  | verifyPop p m sg =>
    obtain ⟨k, hk, e⟩ := (Outcome.bind_eq_ok_iff _ _ _).1 e
    obtain ⟨g, hg, e⟩ := (Outcome.bind_eq_ok_iff _ _ _).1 e
    obtain ⟨k', hk', rfl⟩ := rel_pk ops L h hk
    simp only [LibCall.step, hk', rel_sig ops L h hg, Outcome.bind_ok]
    exact rel_answer ops L h e
  | batchVerifySignature ms uc u22 =>
    obtain ⟨l, hl, e⟩ := (Outcome.bind_eq_ok_iff _ _ _).1 e
    have hl' := rel_mapM_eq (g := fun m : MessageH => (w.getPk m.publicKey).bind fun pk =>
      (w.getSig m.sig).map fun sig => (⟨m.data, m.extra, ops.pt pk, sig⟩ : FfiMessage G1 G2)) (by
        intro m y hy
        obtain ⟨k, hk, hy⟩ := (Outcome.bind_eq_ok_iff _ _ _).1 hy
        obtain ⟨g, hg, rfl⟩ := (Outcome.map_eq_ok_iff _ _ _).1 hy
        obtain ⟨k', hk', rfl⟩ := rel_pk ops L h hk
        simp only [hk', rel_sig ops L h hg, Outcome.bind_ok, Outcome.map_ok]) ms l hl
    simp only [LibCall.step]
    rw [hl', Outcome.bind_ok]
    exact rel_answer ops L h e
  | batchVerifyStrict bs uc u22 rng =>
    obtain ⟨l, hl, e⟩ := (Outcome.bind_eq_ok_iff _ _ _).1 e
    have hl' := rel_mapM_eq (g := fun b : BatchMessageH => (Outcome.mapM w.getPk b.publicKeys).bind
      fun pks => (Outcome.mapM w.getSig b.signatures).map fun sigs =>
      (⟨b.data, b.extra, pks.map ops.pt, sigs⟩ : BatchMessage G1 G2)) (by
        intro m y hy
        obtain ⟨k, hk, hy⟩ := (Outcome.bind_eq_ok_iff _ _ _).1 hy
        obtain ⟨g, hg, rfl⟩ := (Outcome.map_eq_ok_iff _ _ _).1 hy
        obtain ⟨k', hk', hr⟩ := rel_mapM (fun x y hy => rel_pk ops L h hy) _ _ hk
        have hg' := rel_mapM_eq (fun x y hy => rel_sig ops L h hy) _ _ hg
        have hkk : k'.map ops.pt = k := map_of_forall₂ hr
        simp only [hk', hg', Outcome.bind_ok, Outcome.map_ok, hkk]) bs l hl
    simp only [LibCall.step]
    rw [hl', Outcome.bind_ok]
    exact rel_answer ops L h e
  | aggregateSignatures ps =>
    obtain ⟨l, hl, e⟩ := (Outcome.bind_eq_ok_iff _ _ _).1 e
    simp only [LibCall.step, rel_mapM_eq (fun x y hy => rel_sig ops L h hy) _ _ hl, Outcome.bind_ok]
    exact rel_deliver_ok ops L h at' none (o' := .signature (aggregateSignatures l))
      (o := .signature l.sum) (foldl_add_eq_sum l) e
  | aggregatePublicKeys ps hy sh1 sh2 =>
    obtain ⟨l, hl, e⟩ := (Outcome.bind_eq_ok_iff _ _ _).1 e
    obtain ⟨ks, hks, hr⟩ := rel_mapM (fun x y hy => rel_decodedPk ops L h hy) _ _ hl
    obtain ⟨hs, hc⟩ := aggregate_spec ops _ w.cache h.2 ks hy sh1 sh2 hf.1 hf.2
    simp only [LibCall.step, hks, Outcome.bind_ok]
    exact rel_deliver_ok ops L (w := ⟨w.heap, (w.cache.aggregate ops ks hy sh1 sh2).2⟩) ⟨h.1, hc⟩ at'
      none (o' := .publicKey (w.cache.aggregate ops ks hy sh1 sh2).1)
      (o := .publicKey l.dedup.sum false) ⟨hs.trans (dedup_sum_of_canon ops hinj hr), nofun⟩ e
  | aggregatePublicKeysSubtract p ps hy sh1 sh2 =>
    obtain ⟨k, hk, e⟩ := (Outcome.bind_eq_ok_iff _ _ _).1 e
    obtain ⟨l, hl, e⟩ := (Outcome.bind_eq_ok_iff _ _ _).1 e
    obtain ⟨k', hk', rfl⟩ := rel_pk ops L h hk
    obtain ⟨ks, hks, hr⟩ := rel_mapM (fun x y hy => rel_decodedPk ops L h hy) _ _ hl
    obtain ⟨hs, hc⟩ := aggregate_spec ops _ w.cache h.2 ks hy sh1 sh2 hf.1 hf.2
    simp only [LibCall.step, hk', hks, Outcome.bind_ok]
    refine rel_deliver_ok ops L (w := ⟨w.heap, (w.cache.aggregate ops ks hy sh1 sh2).2⟩) ⟨h.1, hc⟩ at'
      none (o' := .publicKey (ops.sub k' (w.cache.aggregate ops ks hy sh1 sh2).1))
      (o := .publicKey (ops.pt k' - l.dedup.sum) false) ⟨(ops.pt_sub _ _).trans ?_, nofun⟩ e
    rw [hs, dedup_sum_of_canon ops hinj hr]
  | deserializePrivateKey b =>
    exact rel_deliver ops L h at' none
      (resRel_deser ops (L.deSk b) .privateKey .privateKey fun t rest _ => rfl) (fun _ => rfl) e
  | deserializePublicKey b =>
    exact rel_deliver ops L h at' none (resRel_deser ops (L.dePk b) .publicKey
      (fun k => .publicKey (ops.pt k) true) fun t rest ht => ⟨rfl, fun _ => hde b t rest ht⟩)
      (fun _ => rfl) e
  | deserializePublicKeyCached b =>
    obtain ⟨hs, hc⟩ := deserialize_spec ops _ w.cache h.2 b
    simp only [Ideal.step] at e
    simp only [LibCall.step, ffiDeserializePublicKeyCached, convertResultToBool, FfiM.bind]
    generalize w.cache.deserialize (fun b => liftSer ((L.dePk b).map Prod.fst)) b = d at hs hc ⊢
    obtain ⟨x, c'⟩ := d
    simp only [] at hs hc
    subst hs
    have h' : StateRel ops L canon (⟨w.heap, c'⟩ : World (ZMod r) F G1) a := ⟨h.1, hc⟩
    cases hb : L.dePk b with
    | ok k =>
      rw [hb] at e
      exact rel_deliver ops L h' at' none (res := (.ok true, some (.publicKey k.1)))
        (x := (.ok (.publicKey (ops.pt k.1) true) : Outcome SerError (IdealObj (ZMod r) G1 G2)))
        ⟨_, rfl, rfl, fun _ => hde b k.1 k.2 hb⟩ (fun _ => rfl) e
    | err x =>
      rw [hb] at e
      exact rel_deliver ops L h' at' none (res := (.ok false, none))
        (x := (.err x : Outcome SerError (IdealObj (ZMod r) G1 G2))) rfl (fun _ => rfl) e
    | panic => rw [hb] at e; cases e
  | deserializeSignature b =>
    exact rel_deliver ops L h at' none
      (resRel_deser ops (L.deSig b) .signature .signature fun t rest _ => rfl) (fun _ => rfl) e
  | serializePrivateKey p =>
    obtain ⟨k, hk, e⟩ := (Outcome.bind_eq_ok_iff _ _ _).1 e
    simp only [LibCall.step, rel_sk ops L h hk, Outcome.bind_ok]
    exact rel_deliverVec ops L h at' _ e
  | serializePublicKey p c =>
    obtain ⟨k, hk, e⟩ := (Outcome.bind_eq_ok_iff _ _ _).1 e
    obtain ⟨k', hk', rfl⟩ := rel_pk ops L h hk
    simp only [LibCall.step, hk', Outcome.bind_ok]
    exact rel_deliverVec ops L h at' _ e
  | serializeSignature p c =>
    obtain ⟨k, hk, e⟩ := (Outcome.bind_eq_ok_iff _ _ _).1 e
    simp only [LibCall.step, rel_sig ops L h hk, Outcome.bind_ok]
    exact rel_deliverVec ops L h at' _ e
  | destroyPrivateKey p =>
    exact rel_free ops L h p (by intro o' o ho; cases o' <;> cases o <;> simp_all [ObjRel]) e
  | destroyPublicKey p =>
    exact rel_free ops L h p (by intro o' o ho; cases o' <;> cases o <;> simp_all [ObjRel]) e
  | destroySignature p =>
    exact rel_free ops L h p (by intro o' o ho; cases o' <;> cases o <;> simp_all [ObjRel]) e
  | freeVec p len =>
    exact rel_free ops L h p (by intro o' o ho; cases o' <;> cases o <;> simp_all [ObjRel]) e

/-- **C82.** Refinement: whenever the ideal library, which has no cache and whose keys are group
elements, runs a session to the end, the library with its cache, representations and heap runs it
with the same observations, without undefined behaviour or panic, whatever the iteration orders. -/
theorem C82_refines (hinj : CanonInj ops canon)
    (hde : ∀ b k rest, L.dePk b = .ok (k, rest) → canon k)
    (hpub : ∀ k, ops.pt (L.toPublicRep k) = k • P.g2)
    (tr : List (ℕ × LibCall (ZMod r) F)) (hf : ∀ c ∈ tr, c.2.Fair) (hy : F → ℕ) (obs : List Obs)
    (a' : Ideal.State r G1 G2) (e : Ideal.run P ops L (fun _ => none) tr = .ok (obs, a')) :
    ∃ w', runLib P ops L ⟨fun _ => none, PublicKeyCache.new ops hy⟩ tr = .ok (obs, w') ∧
      StateRel ops L canon w' a' := by
  have h0 : StateRel ops L canon (⟨fun _ => none, PublicKeyCache.new ops hy⟩ :
      World (ZMod r) F G1) (fun _ => none) := ⟨fun _ => .none, CacheInv.new ops _ hy⟩
  generalize (⟨fun _ => none, PublicKeyCache.new ops hy⟩ : World (ZMod r) F G1) = w at *
  generalize (fun _ => none : Ideal.State r G1 G2) = a at *
  induction tr generalizing w a obs with
  | nil => cases e; exact ⟨w, rfl, h0⟩
  | cons c rest ih =>
    obtain ⟨s, hs, e⟩ := (Outcome.bind_eq_ok_iff _ _ _).1 e
    obtain ⟨t, ht, e⟩ := (Outcome.map_eq_ok_iff _ _ _).1 e
    cases e
    obtain ⟨w1, h1, r1⟩ := lib_step_refines P ops L hinj hde hpub h0 c.1 c.2 (hf c List.mem_cons_self) hs
    obtain ⟨w2, h2, r2⟩ := ih (fun c' h => hf c' (List.mem_cons_of_mem _ h)) t.1 w1 s.2 ht r1
    exact ⟨w2, by rw [runLib, h1, Outcome.bind_ok]; simp only []; rw [h2]; rfl, r2⟩

/-! ## Keys that were not deserialised -/

/-- **C82** (violation without deserialisation). Two live handles to the same key in different
representations, as `private_key_to_public_key` and `deserialize_public_key` may return: their
aggregate is twice the key, where two equal deserialised keys would count once. -/
theorem C82_duplicate (deser : Bytes → Outcome BLSError (JacRep F)) (w : World (ZMod r) F G1)
    (hc : CacheInv ops deser w.cache) (p q at' : ℕ) (k k' : JacRep F)
    (hp : w.heap p = some (.publicKey k)) (hq : w.heap q = some (.publicKey k')) (hne : k ≠ k')
    (heq : ops.pt k = ops.pt k') (hy : F → ℕ) (sh1 sh2 : List (JacRep F) → List (JacRep F))
    (h1 : ∀ l, (sh1 l).Perm l) (h2 : ∀ l, (sh2 l).Perm l) :
    ∃ w' k2, (LibCall.aggregatePublicKeys [p, q] hy sh1 sh2).step P ops L w at' =
      .ok (⟨true, some at', none, []⟩, w') ∧ w'.heap at' = some (.publicKey k2) ∧
      ops.pt k2 = ops.pt k + ops.pt k := by
  have g1 : w.getPk p = .ok k := by unfold World.getPk; rw [hp]
  have g2 : w.getPk q = .ok k' := by unfold World.getPk; rw [hq]
  have hs := (aggregate_spec ops deser w.cache hc [k, k'] hy sh1 sh2 h1 h2).1
  refine ⟨World.alloc ⟨w.heap, (w.cache.aggregate ops [k, k'] hy sh1 sh2).2⟩ at'
    (.publicKey (w.cache.aggregate ops [k, k'] hy sh1 sh2).1),
    (w.cache.aggregate ops [k, k'] hy sh1 sh2).1, ?_, ?_, ?_⟩
  · simp only [LibCall.step, Outcome.mapM_cons, Outcome.mapM_nil, g1, g2, Outcome.bind_ok,
      Outcome.map_ok]
    rfl
  · exact Function.update_self ..
  · rw [hs, List.dedup_cons_of_notMem (by simpa using hne), List.dedup_cons_of_notMem (by simp)]
    simp [heq]

end

/-! ## The curve -/

section restrict
variable {F G : Type*} [AddCommGroup G]

open Classical in
/-- Arithmetic on representations, seen as arithmetic in a subgroup: representations of other
elements are read as zero. -/
noncomputable def CurveOps.restrict (ops : CurveOps F G) (S : AddSubgroup G) : CurveOps F S where
  pt k := if h : ops.pt k ∈ S then ⟨ops.pt k, h⟩ else 0
  zero := ops.zero
  add a b := ops.add (if ops.pt a ∈ S then a else ops.zero) (if ops.pt b ∈ S then b else ops.zero)
  sub a b := ops.sub (if ops.pt a ∈ S then a else ops.zero) (if ops.pt b ∈ S then b else ops.zero)
  pt_zero := by simp [ops.pt_zero]
  pt_add a b := by
    by_cases ha : ops.pt a ∈ S <;> by_cases hb : ops.pt b ∈ S <;>
      simp [ha, hb, ops.pt_add, ops.pt_zero, S.add_mem]
  pt_sub a b := by
    by_cases ha : ops.pt a ∈ S <;> by_cases hb : ops.pt b ∈ S <;>
      simp [ha, hb, ops.pt_sub, ops.pt_zero, S.sub_mem] <;> rfl

theorem CurveOps.restrict_pt (ops : CurveOps F G) (S : AddSubgroup G) {k : JacRep F}
    (h : ops.pt k ∈ S) : (((ops.restrict S).pt k : S) : G) = ops.pt k := by
  simp [CurveOps.restrict, h]

end restrict

/-- Keys as deserialisation returns them, in the subgroup. -/
def CanonKey (k : JacRep Fq2) : Prop := k.Canonical ∧ g2Ops.pt k ∈ G2r

open Classical in
/-- **C82.** The refinement for BLS12-377: with the curve's arithmetic and the repository's
deserialisation of keys (which checks the subgroup), for every pairing, hash, serialisation of the
other objects and representation of the multiples of the generator. -/
theorem C82_curve {GT : Type*} [CommGroup GT] [DecidableEq GT] (C : CurvePairing GT)
    (sqrt : Fq2 → Option Fq2) (hs : RootSpec sqrt) (L : LibEnv FR_MODULUS Fq2 G1r G2r)
    (hL : ∀ b, L.dePk b = (deserializePublicKey sqrt b).map fun k => (intoProjective k.1, k.2))
    (hpub : ∀ k, (g2Ops.restrict G2r).pt (L.toPublicRep k) = k • C.toPairing.g2)
    (tr : List (ℕ × LibCall (ZMod FR_MODULUS) Fq2)) (hf : ∀ c ∈ tr, c.2.Fair) (hy : Fq2 → ℕ)
    (obs : List Obs) (a' : Ideal.State FR_MODULUS G1r G2r)
    (e : Ideal.run C.toPairing (g2Ops.restrict G2r) L (fun _ => none) tr = .ok (obs, a')) :
    ∃ w', runLib C.toPairing (g2Ops.restrict G2r) L
        ⟨fun _ => none, PublicKeyCache.new (g2Ops.restrict G2r) hy⟩ tr = .ok (obs, w') ∧
      StateRel (g2Ops.restrict G2r) L CanonKey w' a' := by
  refine C82_refines C.toPairing (g2Ops.restrict G2r) L (canon := CanonKey) ?_ ?_ hpub tr hf hy obs a' e
  · intro k k' hk hk' h
    refine (C81_canonical k k' hk.1 hk'.1).mp ?_
    rw [← g2Ops.restrict_pt G2r hk.2, ← g2Ops.restrict_pt G2r hk'.2, h]
  · intro b k rest h
    rw [hL] at h
    obtain ⟨x, hx, h⟩ := (Outcome.map_eq_ok_iff _ _ _).1 h
    cases h
    have hp := C81_into_projective x.1
    refine ⟨hp.2.1, ?_⟩
    rw [hp.1]
    exact ((C66_public_key_iff hs _ _ _).mp hx).1

/-! ## Concrete cases -/

/-- Example arithmetic (not code from /repo): the first coordinate is the group element, addition
changes the second, so one element has many representations. -/
def sessOps : CurveOps (ZMod 7) (ZMod 7) where
  pt k := k.x
  zero := ⟨0, 0, 1⟩
  add a b := ⟨a.x + b.x, a.y + b.y + 1, 1⟩
  sub a b := ⟨a.x - b.x, a.y - b.y + 1, 1⟩
  pt_zero := rfl
  pt_add _ _ := rfl
  pt_sub _ _ := rfl

/-- Example environment (not code from /repo): one byte per object; deserialised keys have second
coordinate zero, computed ones do not. -/
def toyLib : LibEnv 7 (ZMod 7) (ZMod 7) (ZMod 7) where
  hash := ⟨fun _ m _ => if m = [] then .err .hashToCurveError else .ok (3, 1),
    fun _ _ _ => .ok (5, 2), fun _ _ _ => .ok (4, 4)⟩
  compositeHasher := ⟨fun _ m _ => .ok m, fun _ m _ => .ok m⟩
  directHasher := ⟨fun _ m _ => .ok m, fun _ m _ => .ok m⟩
  writeAffine g := [UInt8.ofNat g.val]
  writeProjective g := [UInt8.ofNat g.val]
  toPublicRep s := ⟨s, 3, 1⟩
  serSk s := [UInt8.ofNat s.val]
  deSk | b :: rest => .ok ((b.toNat : ZMod 7), rest) | [] => .err .endOfInput
  serPk _ g := [UInt8.ofNat g.val]
  dePk | b :: rest => .ok (⟨(b.toNat : ZMod 7), 0, 1⟩, rest) | [] => .err .endOfInput
  serSig _ g := [UInt8.ofNat g.val]
  deSig | b :: rest => .ok ((b.toNat : ZMod 7), rest) | [] => .err .endOfInput

/-- The empty process. -/
def toyStart : World (ZMod 7) (ZMod 7) (ZMod 7) := ⟨fun _ => none, PublicKeyCache.new sessOps fun _ => 0⟩

/-- A client: make a key, sign, fail to sign the empty message, verify, write the key, read it back
twice (once through the cache), aggregate the copies, verify against the aggregate, free everything;
address 5 is used again after it was freed. -/
def toySession : List (ℕ × LibCall (ZMod 7) (ZMod 7)) :=
  [(1, .generatePrivateKey 2), (2, .privateKeyToPublicKey 1), (3, .signMessage 1 [9] [] false false),
   (4, .signMessage 1 [] [] false false), (4, .verifySignature 2 [9] [] 3 false false),
   (5, .serializePublicKey 2 true), (6, .freeVec 5 1), (5, .deserializePublicKey [2]),
   (6, .deserializePublicKeyCached [2]), (7, .aggregatePublicKeys [5, 6] (fun _ => 0) id id),
   (8, .verifySignature 7 [9] [] 3 false false), (8, .destroyPrivateKey 1), (8, .destroyPublicKey 0),
   (8, .destroyPublicKey 2), (8, .destroySignature 3), (8, .destroyPublicKey 5),
   (8, .destroyPublicKey 6), (8, .destroyPublicKey 7)]

/-- What the client of `toySession` sees. -/
def toyObs : List Obs :=
  [⟨true, some 1, none, []⟩, ⟨true, some 2, none, []⟩, ⟨true, some 3, none, []⟩,
   ⟨false, none, none, []⟩, ⟨true, none, none, [true]⟩, ⟨true, some 5, some 1, []⟩,
   ⟨true, none, none, []⟩, ⟨true, some 5, none, []⟩, ⟨true, some 6, none, []⟩,
   ⟨true, some 7, none, []⟩, ⟨true, none, none, [true]⟩, ⟨true, none, none, []⟩,
   ⟨false, none, none, []⟩, ⟨true, none, none, []⟩, ⟨true, none, none, []⟩, ⟨true, none, none, []⟩,
   ⟨true, none, none, []⟩, ⟨true, none, none, []⟩]

/-- The session runs in both libraries with the same observations (hypotheses and conclusion of
C82_refines), and seven pointers were returned and seven freed (C82_accounting). -/
example : (Ideal.run (toyPairing 7) sessOps toyLib (fun _ => none) toySession).map Prod.fst =
      .ok toyObs ∧
    (runLib (toyPairing 7) sessOps toyLib toyStart toySession).map Prod.fst = .ok toyObs ∧
    freedCount toySession toyObs = 7 ∧ toyObs.countP (fun o => o.out.isSome) = 7 := by
  refine ⟨?_, ?_, ?_, ?_⟩ <;> decide +kernel

/-- The remaining hypotheses of C82_refines. -/
example : CanonInj sessOps (fun k => k.y = 0 ∧ k.z = 1) ∧
    (∀ b k rest, toyLib.dePk b = .ok (k, rest) → k.y = 0 ∧ k.z = 1) ∧
    (∀ k, sessOps.pt (toyLib.toPublicRep k) = k • (toyPairing 7).g2) ∧
    ∀ c ∈ toySession, c.2.Fair := by
  refine ⟨?_, ?_, fun k => (mul_one k).symm, ?_⟩
  · rintro ⟨x, y, z⟩ ⟨x', y', z'⟩ ⟨h1, h2⟩ ⟨h3, h4⟩ h
    have h : x = x' := h
    simp_all
  · intro b k rest h
    cases b with
    | nil => cases h
    | cons b bs => cases h; exact ⟨rfl, rfl⟩
  · simp [toySession, LibCall.Fair]

/-- The allocator's contract holds along a session (hypothesis of C82_frame and C82_accounting). -/
example : AllocOk (toyPairing 7) sessOps toyLib toyStart
    [(1, .generatePrivateKey 2), (2, .privateKeyToPublicKey 1), (3, .destroyPrivateKey 1),
     (1, .deserializeSignature [4])] := by
  refine ⟨by decide, rfl, fun s hs => ?_⟩
  cases hs
  refine ⟨by decide, rfl, fun s hs => ?_⟩
  cases hs
  refine ⟨by decide, rfl, fun s hs => ?_⟩
  cases hs
  exact ⟨by decide, rfl, fun s hs => trivial⟩

/-- Freeing twice, freeing with a wrong length, and using a signature as a key are undefined. -/
example : (runLib (toyPairing 7) sessOps toyLib toyStart
      [(1, .generatePrivateKey 2), (2, .destroyPrivateKey 1), (2, .destroyPrivateKey 1)]).map Prod.fst
        = .err () ∧
    (runLib (toyPairing 7) sessOps toyLib toyStart
      [(1, .bytes (.hashCrh [1, 2] 2)), (2, .freeVec 1 1)]).map Prod.fst = .err () ∧
    (runLib (toyPairing 7) sessOps toyLib toyStart
      [(1, .deserializeSignature [4]), (2, .serializePublicKey 1 true)]).map Prod.fst = .err () := by
  refine ⟨?_, ?_, ?_⟩ <;> decide +kernel

/-- The same key computed and deserialised, aggregated: a signature by it no longer verifies against
the aggregate (an instance of C82_duplicate). -/
example : (runLib (toyPairing 7) sessOps toyLib toyStart
      [(1, .generatePrivateKey 2), (2, .privateKeyToPublicKey 1), (3, .deserializePublicKey [2]),
       (4, .aggregatePublicKeys [2, 3] (fun _ => 0) id id), (5, .serializePublicKey 2 true),
       (6, .serializePublicKey 3 true), (7, .signMessage 1 [9] [] false false),
       (8, .verifySignature 4 [9] [] 7 false false)]).map (fun s => s.1.map Obs.flags) =
    .ok [[], [], [], [], [], [], [], [false]] := by decide +kernel

/-- The hypotheses of C82_duplicate about the two keys. -/
example : (⟨2, 3, 1⟩ : JacRep (ZMod 7)) ≠ ⟨2, 0, 1⟩ ∧
    sessOps.pt ⟨2, 3, 1⟩ = sessOps.pt ⟨2, 0, 1⟩ := ⟨by decide, rfl⟩

/-- The hypotheses of C82_curve: there is such an environment, for the pairing by logarithms. -/
example (sqrt : Fq2 → Option Fq2) (E : LibEnv FR_MODULUS Fq2 G1r G2r) :
    let L : LibEnv FR_MODULUS Fq2 G1r G2r := { E with
      dePk := fun b => (deserializePublicKey sqrt b).map fun k => (intoProjective k.1, k.2)
      toPublicRep := fun k => intoProjective ((k • logPairing.toPairing.g2 : G2r) : G2Point) }
    ∀ k, (g2Ops.restrict G2r).pt (L.toPublicRep k) = k • logPairing.toPairing.g2 := by
  intro L k
  have h := (C81_into_projective ((k • logPairing.toPairing.g2 : G2r) : G2Point)).1
  refine Subtype.ext ((g2Ops.restrict_pt G2r ?_).trans h)
  change g2Ops.pt (intoProjective _) ∈ G2r
  rw [h]
  exact Subtype.property _

end Verif
