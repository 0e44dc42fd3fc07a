import Verif.Model.FullSession
import Verif.Props.Session
import Verif.Props.CInt
import Verif.Props.Ffi

/-!
# C104: sessions of the whole C interface

C82 with the entry points under `snark/`, the second vector of the CIP22 encoder and the counters,
and a rule a client can follow from what it sees alone that excludes undefined behaviour.
-/

set_option linter.unusedSectionVars false

namespace Verif

/-- The pointer a destructor is given. -/
def FullCall.target {K F : Type*} : FullCall K F → Option ℕ
  | .lib c => c.target
  | _ => none

/-- The pointers to objects in the arguments of a call, with the types its signature declares. -/
def FullCall.args {K F : Type*} : FullCall K F → List (ℕ × Kind)
  | .lib c => c.args
  | .encodeEpochBlockCip22 _ _ _ _ _ _ _ keys | .encodeEpochBlock _ _ keys =>
    keys.map (·, .publicKey)
  | .verify .. => []

section
variable {r : ℕ} {F G1 G2 GT VK Proof : Type*} [DecidableEq F] [AddCommGroup G1]
  [Module (ZMod r) G1] [AddCommGroup G2] [Module (ZMod r) G2] [CommGroup GT] [DecidableEq GT]
  (P : Pairing r G1 G2 GT) (ops : CurveOps F G2) (L : LibEnv r F G1 G2)
  (S : SnarkEnv VK Proof G2)

/-- Effect of a call on the heap: as in C82, or two objects allocated. -/
def FullEffect (w w' : World (ZMod r) F G1) (at' : ℕ × ℕ) (target : Option ℕ) (o : FullObs) : Prop :=
  (Effect w w' at'.1 target o.main ∧ o.extraOut = none) ∨
  (o.main.ret = true ∧ o.main.out = some at'.1 ∧ o.extraOut = some at'.2 ∧ target = none ∧
    ∃ x y, w'.heap = Function.update (Function.update w.heap at'.1 (some x)) at'.2 (some y))

theorem full_step_effect (w : World (ZMod r) F G1) (at' : ℕ × ℕ) (c : FullCall (ZMod r) F) {s}
    (e : c.step P ops L S w at' = .ok s) : FullEffect w s.2 at' c.target s.1 := by
  cases c with
  | lib c =>
    obtain ⟨t, ht, rfl⟩ := (Outcome.map_eq_ok_iff _ _ _).1 e
    exact .inl ⟨step_effect P ops L w at'.1 c ht, rfl⟩
  | encodeEpochBlockCip22 mem index round ee pe ns mv keys =>
    obtain ⟨pks, -, e⟩ := (Outcome.bind_eq_ok_iff _ _ _).1 e
    cases e
    exact .inr ⟨rfl, rfl, rfl, rfl, _, _, rfl⟩
  | encodeEpochBlock index ns keys =>
    obtain ⟨pks, -, e⟩ := (Outcome.bind_eq_ok_iff _ _ _).1 e
    obtain ⟨t, ht, rfl⟩ := (Outcome.map_eq_ok_iff _ _ _).1 e
    exact .inl ⟨produce_effect w w rfl at'.1 _ (.inl ⟨_, rfl⟩) ht, rfl⟩
  | verify mem vp vl pp pl first last =>
    obtain ⟨t, ht, rfl⟩ := (Outcome.map_eq_ok_iff _ _ _).1 e
    exact .inl ⟨report_effect w at'.1 ht, rfl⟩

/-- **C104.** Frame: in any session of the whole interface, an object that is live and that no call
is asked to free is live and unchanged at the end. -/
theorem C104_frame (tr : List ((ℕ × ℕ) × FullCall (ZMod r) F)) (w w' : World (ZMod r) F G1)
    (obs : List FullObs) (ha : AllocOkFull P ops L S w tr)
    (e : runFull P ops L S w tr = .ok (obs, w')) (p : ℕ) (o : HeapObj (ZMod r) F G1)
    (ho : w.heap p = some o) (hp : ∀ c ∈ tr, c.2.target ≠ some p) : w'.heap p = some o := by
  induction tr generalizing w obs with
  | nil => cases e; exact ho
  | cons c rest ih =>
    obtain ⟨s, hs, e⟩ := (Outcome.bind_eq_ok_iff _ _ _).1 e
    obtain ⟨t, ht, e⟩ := (Outcome.map_eq_ok_iff _ _ _).1 e
    cases e
    refine ih s.2 t.1 (ha.2 s hs) ht ?_ fun c' h => hp c' (List.mem_cons_of_mem _ h)
    obtain ⟨-, -, -, hf1, hf2⟩ := ha.1
    have n1 : p ≠ c.1.1 := by rintro rfl; rw [hf1] at ho; cases ho
    have n2 : p ≠ c.1.2 := by rintro rfl; rw [hf2] at ho; cases ho
    rcases full_step_effect P ops L S w c.1 c.2 hs with
      ⟨⟨-, -, -, x, hx⟩ | ⟨-, hx, -⟩ | ⟨-, -, q, hq, -, -, hx⟩, -⟩ | ⟨-, -, -, -, x, y, hx⟩
    · rw [hx, Function.update_of_ne n1, ho]
    · rw [hx, ho]
    · rw [hx, Function.update_of_ne, ho]
      rintro rfl
      exact hp c List.mem_cons_self hq
    · rw [hx, Function.update_of_ne n2, Function.update_of_ne n1, ho]

theorem byteCall_attempt (c : ByteCall) : (c.run L).1 = .ok false → c.attempt L = none := by
  cases c with
  | hashDirectWithAttempt m pop =>
    simp only [ByteCall.run, ByteCall.attempt, ffiHashDirectWithAttempt, convert_cases]
    cases L.hash.directAttempt (if pop = true then POP_DOMAIN else SIG_DOMAIN) m [] with
    | ok a => exact nofun
    | err e => exact fun _ => rfl
    | panic => exact nofun
  | hashCompositeCip22 m e =>
    simp only [ByteCall.run, ByteCall.attempt, ffiHashCompositeCip22, convert_cases]
    cases L.hash.cip22Attempt SIG_DOMAIN m e with
    | ok a => exact nofun
    | err e => exact fun _ => rfl
    | panic => exact nofun
  | _ => exact fun _ => rfl

/-- **C104.** A call that returns false writes no pointer and no counter, and leaves every object as
it was. -/
theorem C104_failure (w : World (ZMod r) F G1) (at' : ℕ × ℕ) (c : FullCall (ZMod r) F) (o : FullObs)
    (w' : World (ZMod r) F G1) (e : c.step P ops L S w at' = .ok (o, w')) (hf : o.main.ret = false) :
    o.main.out = none ∧ o.extraOut = none ∧ o.attempt = none ∧ w'.heap = w.heap := by
  have hatt : o.attempt = none := by
    cases c with
    | lib c =>
      obtain ⟨t, ht, ho⟩ := (Outcome.map_eq_ok_iff _ _ _).1 e
      cases ho
      cases c with
      | bytes b =>
        refine byteCall_attempt L b ?_
        rcases b.clean L with ⟨v, hv⟩ | hv | hv
        · simp only [LibCall.step, World.produceVec, hv] at ht
          cases ht
          cases hf
        · rw [hv]
        · simp only [LibCall.step, World.produceVec] at ht
          generalize b.run L = res at *
          obtain ⟨x, y⟩ := res
          simp only [] at hv
          subst hv
          cases ht
      | _ => rfl
    | encodeEpochBlockCip22 mem index round ee pe ns mv keys =>
      obtain ⟨pks, -, e⟩ := (Outcome.bind_eq_ok_iff _ _ _).1 e
      cases e
      rfl
    | encodeEpochBlock index ns keys =>
      obtain ⟨pks, -, e⟩ := (Outcome.bind_eq_ok_iff _ _ _).1 e
      obtain ⟨t, ht, ho⟩ := (Outcome.map_eq_ok_iff _ _ _).1 e
      cases ho
      rfl
    | verify mem vp vl pp pl first last =>
      obtain ⟨t, ht, ho⟩ := (Outcome.map_eq_ok_iff _ _ _).1 e
      cases ho
      rfl
  rcases full_step_effect P ops L S w at' c e with
    ⟨⟨h, -⟩ | ⟨h1, h2, -⟩ | ⟨h, -⟩, h3⟩ | ⟨h, -⟩
  · exact absurd (hf.symm.trans h) (by decide)
  · exact ⟨h1, h3, hatt, h2⟩
  · exact absurd (hf.symm.trans h) (by decide)
  · exact absurd (hf.symm.trans h) (by decide)

/-- **C104.** The counters: `hash_direct_with_attempt` and `hash_composite_cip22` write one exactly
when they return true, and it is the hash's counter cast to 32 and to 8 bits. -/
theorem C104_attempt (w : World (ZMod r) F G1) (at' : ℕ × ℕ) (m e : Bytes) (pop : Bool) (g : G1)
    (n : ℕ) :
    (L.hash.directAttempt (if pop then POP_DOMAIN else SIG_DOMAIN) m [] = .ok (g, n) →
      ∃ w', (FullCall.lib (.bytes (.hashDirectWithAttempt m pop))).step P ops L S w at' =
        .ok (⟨⟨true, some at'.1, some (Int32.ofNat (L.writeAffine g).length), []⟩,
          some (Int32.ofNat n).toInt, none, none⟩, w') ∧
        w'.heap at'.1 = some (.vec (L.writeAffine g))) ∧
    (L.hash.cip22Attempt SIG_DOMAIN m e = .ok (g, n) →
      ∃ w', (FullCall.lib (.bytes (.hashCompositeCip22 m e))).step P ops L S w at' =
        .ok (⟨⟨true, some at'.1, some (Int32.ofNat (L.writeProjective g).length), []⟩,
          some ((n % 256 : ℕ) : ℤ), none, none⟩, w') ∧
        w'.heap at'.1 = some (.vec (L.writeProjective g))) := by
  constructor
  · intro h
    refine ⟨w.alloc at'.1 (.vec (L.writeAffine g)), ?_, Function.update_self ..⟩
    simp only [FullCall.step, LibCall.step, LibCall.attempt, ByteCall.run, ByteCall.attempt,
      ffiHashDirectWithAttempt, convert_cases, h]
    rfl
  · intro h
    refine ⟨w.alloc at'.1 (.vec (L.writeProjective g)), ?_, Function.update_self ..⟩
    simp only [FullCall.step, LibCall.step, LibCall.attempt, ByteCall.run, ByteCall.attempt,
      ffiHashCompositeCip22, convert_cases, h]
    have : ((UInt8.ofNat n).toNat : ℤ) = ((n % 256 : ℕ) : ℤ) := by simp
    simp only [Option.map_some, this]
    rfl

/-- Successful calls of destructors in a session with its observations. -/
def freedCountFull {K : Type*} (tr : List ((ℕ × ℕ) × FullCall K F)) (obs : List FullObs) : ℕ :=
  (tr.zip obs).countP fun x => x.1.2.target.isSome && x.2.main.ret

/-- Pointers returned in a session. -/
def returnedCount (obs : List FullObs) : ℕ :=
  obs.countP (fun o => o.main.out.isSome) + obs.countP (fun o => o.extraOut.isSome)

/-- **C104.** Accounting for the whole interface: objects live before plus pointers returned is
objects live after plus destructor calls that returned true. -/
theorem C104_accounting (tr : List ((ℕ × ℕ) × FullCall (ZMod r) F)) (w w' : World (ZMod r) F G1)
    (obs : List FullObs) (hfin : {p | w.heap p ≠ none}.Finite)
    (ha : AllocOkFull P ops L S w tr) (e : runFull P ops L S w tr = .ok (obs, w')) :
    {p | w'.heap p ≠ none}.Finite ∧
    {p | w'.heap p ≠ none}.ncard + freedCountFull tr obs =
      {p | w.heap p ≠ none}.ncard + returnedCount obs := by
  induction tr generalizing w obs with
  | nil => cases e; exact ⟨hfin, rfl⟩
  | cons c rest ih =>
    obtain ⟨s, hs, e⟩ := (Outcome.bind_eq_ok_iff _ _ _).1 e
    obtain ⟨t, ht, e⟩ := (Outcome.map_eq_ok_iff _ _ _).1 e
    cases e
    obtain ⟨-, -, hne, hf1, hf2⟩ := ha.1
    simp only [freedCountFull, returnedCount, List.zip_cons_cons, List.countP_cons]
    rcases full_step_effect P ops L S w c.1 c.2 hs with
      ⟨⟨h1, h2, h3, x, hx⟩ | ⟨h1, hx, h3⟩ | ⟨h1, h2, q, hq, -, hl, hx⟩, h4⟩ |
      ⟨h1, h2, h4, h3, x, y, hx⟩
    · have hset : {p | s.2.heap p ≠ none} = insert c.1.1 {p | w.heap p ≠ none} := by
        ext p
        by_cases hp : p = c.1.1
        · subst hp; simp [hx]
        · simp [hx, hp]
      have hn : c.1.1 ∉ {p | w.heap p ≠ none} := by simp [hf1]
      obtain ⟨i1, i2⟩ := ih s.2 t.1 (hset ▸ hfin.insert _) (ha.2 s hs) ht
      rw [hset, Set.ncard_insert_of_notMem hn hfin] at i2
      refine ⟨i1, ?_⟩
      simp only [freedCountFull, returnedCount] at i2
      simp only [h2, h3, h4, Option.isSome_none, Option.isSome_some, Bool.false_and]
      simp only [Bool.false_eq_true, if_false, if_true]
      omega
    · have hset : {p | s.2.heap p ≠ none} = {p | w.heap p ≠ none} := by rw [hx]
      obtain ⟨i1, i2⟩ := ih s.2 t.1 (hset ▸ hfin) (ha.2 s hs) ht
      rw [hset] at i2
      refine ⟨i1, ?_⟩
      simp only [freedCountFull, returnedCount] at i2
      have h0 : (c.2.target.isSome && s.1.main.ret) = false := by
        rcases h3 with h | h <;> simp [h]
      simp only [h0, h1, h4, Option.isSome_none, Bool.false_eq_true, if_false]
      omega
    · have hset : {p | s.2.heap p ≠ none} = {p | w.heap p ≠ none} \ {q} := by
        ext p
        by_cases hp : p = q
        · subst hp; simp [hx]
        · simp [hx, hp]
      have hq' : q ∈ {p | w.heap p ≠ none} := hl
      obtain ⟨i1, i2⟩ := ih s.2 t.1 (hset ▸ hfin.sdiff) (ha.2 s hs) ht
      have hc := Set.ncard_sdiff_singleton_add_one hq' hfin
      rw [hset] at i2
      refine ⟨i1, ?_⟩
      simp only [freedCountFull, returnedCount] at i2
      simp only [h1, h2, h4, hq, Option.isSome_none, Option.isSome_some, Bool.true_and,
        Bool.false_eq_true, if_false, if_true]
      omega
    · have hset : {p | s.2.heap p ≠ none} = insert c.1.2 (insert c.1.1 {p | w.heap p ≠ none}) := by
        ext p
        by_cases hp : p = c.1.2
        · subst hp; simp [hx]
        · by_cases hp' : p = c.1.1
          · subst hp'; simp [hx, hp]
          · simp [hx, hp, hp']
      have hn1 : c.1.1 ∉ {p | w.heap p ≠ none} := by simp [hf1]
      have hn2 : c.1.2 ∉ insert c.1.1 {p | w.heap p ≠ none} := by simp [hf2, hne.symm]
      obtain ⟨i1, i2⟩ := ih s.2 t.1 (hset ▸ (hfin.insert _).insert _) (ha.2 s hs) ht
      rw [hset, Set.ncard_insert_of_notMem hn2 (hfin.insert _),
        Set.ncard_insert_of_notMem hn1 hfin] at i2
      refine ⟨i1, ?_⟩
      simp only [freedCountFull, returnedCount] at i2
      simp only [h2, h3, h4, Option.isSome_none, Option.isSome_some, Bool.false_and]
      simp only [Bool.false_eq_true, if_false, if_true]
      omega

theorem map_err_iff {α β : Type*} (x : Outcome Unit α) (f : α → β) :
    x.map f = .err () ↔ x = .err () := by
  cases x <;> simp [Outcome.map]

/-- **C104.** Undefined behaviour, exactly, for the whole interface: a call that is not a destructor
is undefined if and only if one of the object pointers it is given is not a live object of the
declared type. -/
theorem C104_ub (w : World (ZMod r) F G1) (at' : ℕ × ℕ) (c : FullCall (ZMod r) F)
    (hc : c.target = none) :
    c.step P ops L S w at' = .err () ↔ ¬ ∀ a ∈ c.args, w.Live a := by
  cases c with
  | lib c => exact (map_err_iff _ _).trans (C82_ub P ops L w at'.1 c hc)
  | encodeEpochBlockCip22 mem index round ee pe ns mv keys =>
    have h := (UbUnless.mapM (getPk_ub w) keys).bind (h' := True) (f := fun pks =>
      w.produceTwo at'.1 at'.2 (ffiEncodeEpochBlockCip22 S.gen mem index round ee pe ns mv
      (pks.map fun k => S.point (ops.pt k)) (⟨none, none⟩, ⟨none, none⟩)))
      fun a _ => ⟨nofun, fun h => absurd trivial h⟩
    refine h.trans (not_congr ?_)
    simp [FullCall.args]
  | encodeEpochBlock index ns keys =>
    have h := (UbUnless.mapM (getPk_ub w) keys).bind (h' := True) (f := fun pks =>
      (w.produceVec at'.1 (ffiEncodeEpochBlock index ns (pks.map fun k => S.point (ops.pt k))
      ⟨none, none⟩)).map fun s => ((⟨s.1, none, none, none⟩ : FullObs), s.2))
      fun a _ => (map_err_iff _ _).trans (produce_ne_err ..)
    refine h.trans (not_congr ?_)
    simp [FullCall.args]
  | verify mem vp vl pp pl first last =>
    refine (map_err_iff _ _).trans ((report_ne_err ..).trans ?_)
    simp [FullCall.args]

/-- **C104.** Sessions that use no entry point under `snark/` are those of C82, with the counters
added. -/
theorem C104_embeds (tr : List ((ℕ × ℕ) × LibCall (ZMod r) F)) (w : World (ZMod r) F G1) :
    (runFull P ops L S w (tr.map fun c => (c.1, .lib c.2))).map
        (fun s => (s.1.map FullObs.main, s.2)) =
      runLib P ops L w (tr.map fun c => (c.1.1, c.2)) := by
  induction tr generalizing w with
  | nil => rfl
  | cons c rest ih =>
    simp only [List.map_cons, runFull, runLib, FullCall.step]
    cases h : c.2.step P ops L w c.1.1 with
    | ok s =>
      simp only [Outcome.map_ok, Outcome.bind_ok]
      rw [← ih s.2]
      cases runFull P ops L S s.2 (rest.map fun c => (c.1, .lib c.2)) <;> rfl
    | err e => rfl
    | panic => rfl

/-- **C104.** The encoders: given live keys, both return true and hand out vectors whose contents are
the encodings of the block with the points of these keys, in order. -/
theorem C104_encode (w : World (ZMod r) F G1) (at' : ℕ × ℕ) (hne : at'.1 ≠ at'.2)
    (keys : List ℕ) (pks : List (JacRep F))
    (hk : List.Forall₂ (fun p k => w.heap p = some (.publicKey k)) keys pks)
    (mem : Memory) (index : UInt16) (round : UInt8) (ee pe : ℕ) (ns mv : UInt32) :
    let block : EpochBlock :=
      { index := index, round := round, epochEntropy := readEpochEntropy mem ee,
        parentEntropy := readEpochEntropy mem pe, maximumNonSigners := ns,
        maximumValidators := mv.toNat, newPublicKeys := pks.map fun k => S.point (ops.pt k) }
    (∃ o w', (FullCall.encodeEpochBlockCip22 mem index round ee pe ns mv keys).step P ops L S w at' =
        .ok (o, w') ∧ o.main.ret = true ∧ o.main.out = some at'.1 ∧ o.extraOut = some at'.2 ∧
      w'.heap at'.1 = some (.vec (block.encodeInnerToBytes S.gen).1) ∧
      w'.heap at'.2 = some (.vec (block.encodeInnerToBytes S.gen).2)) ∧
    ∃ o w', (FullCall.encodeEpochBlock index ns keys).step P ops L S w at' = .ok (o, w') ∧
      o.main.ret = true ∧ o.main.out = some at'.1 ∧ o.extraOut = none ∧
      w'.heap at'.1 = some (.vec block.encodeToBytes) := by
  have hm : Outcome.mapM w.getPk keys = .ok pks := by
    rw [Outcome.mapM_eq_ok_iff]
    refine hk.imp fun p k h => ?_
    unfold World.getPk
    rw [h]
  intro block
  constructor
  · simp only [FullCall.step, hm, Outcome.bind_ok]
    refine ⟨_, _, rfl, rfl, rfl, rfl, ?_, Function.update_self ..⟩
    exact (Function.update_of_ne hne _ _).trans (Function.update_self ..)
  · simp only [FullCall.step, hm, Outcome.bind_ok]
    exact ⟨_, _, rfl, rfl, rfl, rfl, Function.update_self ..⟩

/-! ## A rule for clients -/

/-- What a client writes down about a pointer it was given: the type of the object, and for a vector
the length reported with it. -/
inductive Entry where
  | object (k : Kind)
  | vector (len : Int32)
  deriving DecidableEq

/-- The type of the objects an entry point returns. -/
def LibCall.result {K : Type*} : LibCall K F → Kind
  | .generatePrivateKey _ | .deserializePrivateKey _ => .privateKey
  | .privateKeyToPublicKey _ | .aggregatePublicKeys .. | .aggregatePublicKeysSubtract ..
  | .deserializePublicKey _ | .deserializePublicKeyCached _ => .publicKey
  | .signMessage .. | .signPop .. | .aggregateSignatures _ | .deserializeSignature _ => .signature
  | _ => .vec

/-- The type of the objects an entry point returns. -/
def FullCall.result {K : Type*} : FullCall K F → Kind
  | .lib c => c.result
  | _ => .vec

/-- The entry for a returned pointer. -/
def entryOf (k : Kind) (len : Option Int32) : Option Entry :=
  match k, len with
  | .vec, some n => some (.vector n)
  | .vec, none => none
  | k, _ => some (.object k)

/-- The client's books: pointers it was given and has not freed. -/
abbrev Books := ℕ → Option Entry

/-- Bookkeeping from the call and what the client sees. -/
def Books.note {K : Type*} (b : Books) (c : FullCall K F) (o : FullObs) : Books :=
  let b := match o.main.out with
    | some p => Function.update b p (entryOf c.result o.main.len)
    | none => b
  let b := match o.extraOut with
    | some p => Function.update b p (entryOf .vec o.extraLen)
    | none => b
  match c.target, o.main.ret with
  | some p, true => Function.update b p none
  | _, _ => b

/-- The rule: object arguments are pointers in the books under the declared type; what is freed is
null or in the books, and a vector is freed with the length reported with it. -/
def Books.Allows {K : Type*} (b : Books) : FullCall K F → Prop
  | .lib (.destroyPrivateKey p) => p = 0 ∨ b p = some (.object .privateKey)
  | .lib (.destroyPublicKey p) => p = 0 ∨ b p = some (.object .publicKey)
  | .lib (.destroySignature p) => p = 0 ∨ b p = some (.object .signature)
  | .lib (.freeVec p len) => p = 0 ∨ b p = some (.vector len)
  | c => ∀ a ∈ c.args, b a.1 = some (.object a.2)

/-- A session that follows the rule, judged call by call from the books. -/
def Follows (w : World (ZMod r) F G1) (b : Books) : List ((ℕ × ℕ) × FullCall (ZMod r) F) → Prop
  | [] => True
  | c :: rest => b.Allows c.2 ∧
    ∀ s, c.2.step P ops L S w c.1 = .ok s → Follows s.2 (b.note c.2 s.1) rest

/-- No vector of 2 GiB or more is ever made. -/
def SmallVecs (w : World (ZMod r) F G1) : List ((ℕ × ℕ) × FullCall (ZMod r) F) → Prop
  | [] => True
  | c :: rest => ∀ s, c.2.step P ops L S w c.1 = .ok s →
    (∀ p v, s.2.heap p = some (.vec v) → v.length < 2 ^ 31) ∧ SmallVecs s.2 rest

/-- An entry is true of an object. -/
def Entry.Describes {K : Type*} (o : HeapObj K F G1) : Entry → Prop
  | .object k => o.kind = k
  | .vector len => ∃ v, o = .vec v ∧ len = Int32.ofNat v.length ∧ v.length < 2 ^ 31

/-- What the books say is true. -/
def BooksTrue (w : World (ZMod r) F G1) (b : Books) : Prop :=
  ∀ p x, b p = some x → ∃ o, w.heap p = some o ∧ x.Describes o

theorem usize_of_small {n : ℕ} (h : n < 2 ^ 31) : n = usizeOfInt32 (Int32.ofNat n) := by
  rw [usize_eq, Int32.toInt_ofNat_of_lt h]
  omega

theorem produce_result {K : Type*} (w : World K F G1) (at' : ℕ) (len : Option Int32)
    {res : Outcome Unit Bool × Option (HeapObj K F G1)} {s} (e : w.produce at' len res = .ok s)
    {p : ℕ} (hp : s.1.out = some p) (k : Kind) (hk : ∀ o, res.2 = some o → o.kind = k) :
    p = at' ∧ s.1.len = len ∧ ∃ o, res.2 = some o ∧ o.kind = k ∧
      s.2.heap = Function.update w.heap at' (some o) := by
  obtain ⟨a, b⟩ := res
  cases a with
  | ok a =>
    cases b with
    | some o =>
      cases e
      cases hp
      exact ⟨rfl, rfl, o, rfl, hk o rfl, rfl⟩
    | none => cases e; cases hp
  | err a => cases e
  | panic => cases e

/-- What a call that returns a pointer has put there. -/
def Made {K : Type*} (w w' : World K F G1) (at' p : ℕ) (k : Kind) (len : Option Int32) : Prop :=
  p = at' ∧ ∃ o, w'.heap = Function.update w.heap at' (some o) ∧ o.kind = k ∧
    ∀ v, o = .vec v → len = some (Int32.ofNat v.length)

theorem produce_made {K : Type*} (w w0 : World K F G1) (hw : w.heap = w0.heap) (at' : ℕ)
    (len : Option Int32) {res : Outcome Unit Bool × Option (HeapObj K F G1)} {s}
    (e : w.produce at' len res = .ok s) {p : ℕ} (hp : s.1.out = some p) (k : Kind) (hv : k ≠ .vec)
    (hk : ∀ o, res.2 = some o → o.kind = k) : Made w0 s.2 at' p k s.1.len := by
  obtain ⟨h1, h2, o, h3, h4, h5⟩ := produce_result w at' len e hp k hk
  refine ⟨h1, o, by rw [h5, hw], h4, ?_⟩
  rintro v rfl
  exact absurd h4.symm hv

theorem produceVec_made {K : Type*} (w : World K F G1) (at' : ℕ) {res : Outcome Unit Bool × BytesOut}
    (hc : CleanVec res) {s} (e : w.produceVec at' res = .ok s) {p : ℕ} (hp : s.1.out = some p) :
    Made w s.2 at' p .vec s.1.len := by
  rcases hc with ⟨b, rfl⟩ | rfl | h
  · cases e
    cases hp
    exact ⟨rfl, .vec b, rfl, rfl, by rintro v h; cases h; rfl⟩
  · cases e
    cases hp
  · obtain ⟨x, y⟩ := res
    cases h
    cases e

theorem lib_made (w : World (ZMod r) F G1) (at' : ℕ) (c : LibCall (ZMod r) F) {s}
    (e : c.step P ops L w at' = .ok s) {p : ℕ} (hp : s.1.out = some p) :
    Made w s.2 at' p c.result s.1.len := by
  have hrep : ∀ {res : Outcome Unit Bool × List Bool} {s : Obs × World (ZMod r) F G1},
      w.report res = .ok s → s.1.out = some p → False := by
    rintro ⟨a, b⟩ s e hp
    cases a with
    | ok a => cases e; cases hp
    | err a => cases e
    | panic => cases e
  have hfree : ∀ {q : ℕ} {ok : HeapObj (ZMod r) F G1 → Bool} {s : Obs × World (ZMod r) F G1},
      w.free q ok = .ok s → s.1.out = some p → False := by
    intro q ok s e hp
    rcases free_effect w at' q ok e with ⟨-, -, h, -⟩ | ⟨h, -⟩ | ⟨-, h, -⟩
    · cases h
    · rw [h] at hp; cases hp
    · rw [h] at hp; cases hp
  cases c with
  | generatePrivateKey d =>
    exact produce_made w w rfl at' none (res := (.ok true, some (.privateKey d))) e hp .privateKey
      nofun (by rintro o h; cases h; rfl)
  | privateKeyToPublicKey q =>
    obtain ⟨sk, -, e⟩ := (Outcome.bind_eq_ok_iff _ _ _).1 e
    exact produce_made w w rfl at' none e hp .publicKey nofun (by rintro o h; cases h; rfl)
  | signMessage q m x uc u22 =>
    obtain ⟨sk, -, e⟩ := (Outcome.bind_eq_ok_iff _ _ _).1 e
    exact produce_made w w rfl at' none e hp .signature nofun (fun o h => by
      obtain ⟨a, -, rfl⟩ := Option.map_eq_some_iff.mp h; rfl)
  | signPop q m =>
    obtain ⟨sk, -, e⟩ := (Outcome.bind_eq_ok_iff _ _ _).1 e
    exact produce_made w w rfl at' none e hp .signature nofun (fun o h => by
      obtain ⟨a, -, rfl⟩ := Option.map_eq_some_iff.mp h; rfl)
  | bytes b => exact produceVec_made w at' (b.clean L) e hp
  | verifySignature q m x sg uc u22 =>
    obtain ⟨pk, -, e⟩ := (Outcome.bind_eq_ok_iff _ _ _).1 e
    obtain ⟨sig, -, e⟩ := (Outcome.bind_eq_ok_iff _ _ _).1 e
    exact (hrep e hp).elim
  | verifyPop q m sg =>
    obtain ⟨pk, -, e⟩ := (Outcome.bind_eq_ok_iff _ _ _).1 e
    obtain ⟨sig, -, e⟩ := (Outcome.bind_eq_ok_iff _ _ _).1 e
    exact (hrep e hp).elim
  | batchVerifySignature ms uc u22 =>
    obtain ⟨ms, -, e⟩ := (Outcome.bind_eq_ok_iff _ _ _).1 e
    exact (hrep e hp).elim
  | batchVerifyStrict bs uc u22 rng =>
    obtain ⟨ms, -, e⟩ := (Outcome.bind_eq_ok_iff _ _ _).1 e
    exact (hrep e hp).elim
  | aggregateSignatures ps =>
    obtain ⟨sigs, -, e⟩ := (Outcome.bind_eq_ok_iff _ _ _).1 e
    exact produce_made w w rfl at' none e hp .signature nofun (by
      rintro o h; cases h; rfl)
  | aggregatePublicKeys ps hy sh1 sh2 =>
    obtain ⟨pks, -, e⟩ := (Outcome.bind_eq_ok_iff _ _ _).1 e
    exact produce_made _ w (by rfl) at' none e hp .publicKey nofun (by
      rintro o h; cases h; rfl)
  | aggregatePublicKeysSubtract q ps hy sh1 sh2 =>
    obtain ⟨agg, -, e⟩ := (Outcome.bind_eq_ok_iff _ _ _).1 e
    obtain ⟨pks, -, e⟩ := (Outcome.bind_eq_ok_iff _ _ _).1 e
    exact produce_made _ w (by rfl) at' none e hp .publicKey nofun (by
      rintro o h; cases h; rfl)
  | deserializePrivateKey b =>
    exact produce_made w w rfl at' none e hp .privateKey nofun (fun o h => by
      obtain ⟨a, -, rfl⟩ := Option.map_eq_some_iff.mp h; rfl)
  | deserializePublicKey b =>
    exact produce_made w w rfl at' none e hp .publicKey nofun (fun o h => by
      obtain ⟨a, -, rfl⟩ := Option.map_eq_some_iff.mp h; rfl)
  | deserializePublicKeyCached b =>
    exact produce_made _ w (by rfl) at' none e hp .publicKey nofun (fun o h => by
      obtain ⟨a, -, rfl⟩ := Option.map_eq_some_iff.mp h; rfl)
  | deserializeSignature b =>
    exact produce_made w w rfl at' none e hp .signature nofun (fun o h => by
      obtain ⟨a, -, rfl⟩ := Option.map_eq_some_iff.mp h; rfl)
  | serializePrivateKey q =>
    obtain ⟨sk, -, e⟩ := (Outcome.bind_eq_ok_iff _ _ _).1 e
    exact produceVec_made w at' (.inl ⟨_, rfl⟩) e hp
  | serializePublicKey q c =>
    obtain ⟨sk, -, e⟩ := (Outcome.bind_eq_ok_iff _ _ _).1 e
    exact produceVec_made w at' (.inl ⟨_, rfl⟩) e hp
  | serializeSignature q c =>
    obtain ⟨sk, -, e⟩ := (Outcome.bind_eq_ok_iff _ _ _).1 e
    exact produceVec_made w at' (.inl ⟨_, rfl⟩) e hp
  | destroyPrivateKey q => exact (hfree e hp).elim
  | destroyPublicKey q => exact (hfree e hp).elim
  | destroySignature q => exact (hfree e hp).elim
  | freeVec q len => exact (hfree e hp).elim

/-- An object made by a call is as the client notes it down. -/
theorem entry_true {o : HeapObj (ZMod r) F G1} {k : Kind} {len : Option Int32} (hk : o.kind = k)
    (hl : ∀ v, o = .vec v → len = some (Int32.ofNat v.length))
    (hsmall : ∀ v, o = .vec v → v.length < 2 ^ 31) {x : Entry} (h : entryOf k len = some x) :
    x.Describes o := by
  subst hk
  cases o with
  | vec v =>
    rw [hl v rfl] at h
    cases h
    exact ⟨v, rfl, rfl, hsmall v rfl⟩
  | privateKey k => cases h; rfl
  | publicKey k => cases h; rfl
  | signature k => cases h; rfl

theorem books_step (w : World (ZMod r) F G1) (b : Books) (at' : ℕ × ℕ) (c : FullCall (ZMod r) F)
    (hfree : at'.1 ≠ at'.2) (hb : BooksTrue w b) {s} (e : c.step P ops L S w at' = .ok s)
    (hsmall : ∀ p v, s.2.heap p = some (.vec v) → v.length < 2 ^ 31) :
    BooksTrue s.2 (b.note c s.1) := by
  have key : ∀ (t : Obs × World (ZMod r) F G1) (att : Option ℤ), s = (⟨t.1, att, none, none⟩, t.2) →
      Effect w t.2 at'.1 c.target t.1 →
      (∀ p, t.1.out = some p → Made w t.2 at'.1 p c.result t.1.len) →
      BooksTrue s.2 (b.note c s.1) := by
    rintro t att rfl heff hmade p x hx
    rcases heff with ⟨h1, h2, h3, -⟩ | ⟨h1, h2, h3⟩ | ⟨h1, h2, q, h3, h4, h5, h6⟩
    · obtain ⟨-, o, h4, h5, h6⟩ := hmade _ h2
      simp only [Books.note, h2, h3] at hx
      by_cases hp : p = at'.1
      · subst hp
        rw [Function.update_self] at hx
        have ho : t.2.heap at'.1 = some o := by rw [h4, Function.update_self]
        exact ⟨o, ho, entry_true h5 h6 (fun v hv => hsmall at'.1 v (by rw [← hv]; exact ho)) hx⟩
      · rw [Function.update_of_ne hp] at hx
        obtain ⟨o', ho', hm⟩ := hb p x hx
        exact ⟨o', by rw [h4, Function.update_of_ne hp, ho'], hm⟩
    · have hx : b p = some x := by
        simp only [Books.note, h1] at hx
        rcases h3 with h3 | h3
        · rw [h3] at hx; exact hx
        · rw [h3] at hx
          cases ht : c.target <;> rw [ht] at hx <;> exact hx
      obtain ⟨o', ho', hm⟩ := hb p x hx
      exact ⟨o', by rw [h2, ho'], hm⟩
    · simp only [Books.note, h1, h2, h3] at hx
      by_cases hp : p = q
      · subst hp
        rw [Function.update_self] at hx
        cases hx
      · rw [Function.update_of_ne hp] at hx
        obtain ⟨o', ho', hm⟩ := hb p x hx
        exact ⟨o', by rw [h6, Function.update_of_ne hp, ho'], hm⟩
  cases c with
  | lib c =>
    obtain ⟨t, ht, hs⟩ := (Outcome.map_eq_ok_iff _ _ _).1 e
    exact key t _ hs.symm (step_effect P ops L w at'.1 c ht) fun p hp => lib_made P ops L w at'.1 c ht hp
  | encodeEpochBlockCip22 mem index round ee pe ns mv keys =>
    obtain ⟨pks, -, e⟩ := (Outcome.bind_eq_ok_iff _ _ _).1 e
    cases e
    intro p x hx
    simp only [Books.note, FullCall.target, FullCall.result] at hx
    by_cases hp : p = at'.2
    · subst hp
      rw [Function.update_self] at hx
      exact ⟨_, Function.update_self .., entry_true (k := .vec) rfl
        (by rintro v h; cases h; rfl)
        (fun v hv => hsmall at'.2 v (by rw [← hv]; exact Function.update_self ..)) hx⟩
    · rw [Function.update_of_ne hp] at hx
      by_cases hp1 : p = at'.1
      · subst hp1
        rw [Function.update_self] at hx
        have ho : ∀ (x y : Option (HeapObj (ZMod r) F G1)),
            Function.update (Function.update w.heap at'.1 x) at'.2 y at'.1 = x := fun x y =>
          (Function.update_of_ne hfree _ _).trans (Function.update_self ..)
        exact ⟨_, ho _ _, entry_true (k := .vec) rfl (by rintro v h; cases h; rfl)
          (fun v hv => hsmall at'.1 v (by rw [← hv]; exact ho _ _)) hx⟩
      · rw [Function.update_of_ne hp1] at hx
        obtain ⟨o', ho', hm⟩ := hb p x hx
        exact ⟨o', (Function.update_of_ne hp _ _).trans
          ((Function.update_of_ne hp1 _ _).trans ho'), hm⟩
  | encodeEpochBlock index ns keys =>
    obtain ⟨pks, -, e⟩ := (Outcome.bind_eq_ok_iff _ _ _).1 e
    obtain ⟨t, ht, hs⟩ := (Outcome.map_eq_ok_iff _ _ _).1 e
    exact key t _ hs.symm (produce_effect w w rfl at'.1 _ (.inl ⟨_, rfl⟩) ht)
      fun p hp => produceVec_made w at'.1 (.inl ⟨_, rfl⟩) ht hp
  | verify mem vp vl pp pl first last =>
    obtain ⟨t, ht, hs⟩ := (Outcome.map_eq_ok_iff _ _ _).1 e
    refine key t _ hs.symm (report_effect w at'.1 ht) fun p hp => ?_
    rcases report_effect w at'.1 ht with ⟨-, h, -⟩ | ⟨h, -⟩ | ⟨-, h, -⟩
    · have : ∀ {res : Outcome Unit Bool × List Bool}, w.report res = .ok t → t.1.out = none := by
        rintro ⟨a, b⟩ e
        cases a with
        | ok a => cases e; rfl
        | err a => cases e
        | panic => cases e
      rw [this ht] at hp
      cases hp
    · rw [h] at hp; cases hp
    · rw [h] at hp; cases hp

theorem allows_defined (w : World (ZMod r) F G1) (b : Books) (at' : ℕ × ℕ)
    (c : FullCall (ZMod r) F) (hb : BooksTrue w b) (hc : b.Allows c) :
    c.step P ops L S w at' ≠ .err () := by
  have hlive : ∀ p k, b p = some (.object k) → w.Live (p, k) := fun p k h => hb p _ h
  have gen : c.target = none → (∀ a ∈ c.args, b a.1 = some (.object a.2)) →
      c.step P ops L S w at' ≠ .err () := fun ht h hu =>
    (C104_ub P ops L S w at' c ht).mp hu fun a ha => hlive a.1 a.2 (h a ha)
  cases c with
  | lib c =>
    cases c with
    | destroyPrivateKey p =>
      intro hu
      obtain ⟨h0, hn⟩ := ((C82_ub_free P ops L w at'.1 p 0).1).mp ((map_err_iff _ _).mp hu)
      exact hn (hlive _ _ (hc.resolve_left h0))
    | destroyPublicKey p =>
      intro hu
      obtain ⟨h0, hn⟩ := ((C82_ub_free P ops L w at'.1 p 0).2.1).mp ((map_err_iff _ _).mp hu)
      exact hn (hlive _ _ (hc.resolve_left h0))
    | destroySignature p =>
      intro hu
      obtain ⟨h0, hn⟩ := ((C82_ub_free P ops L w at'.1 p 0).2.2.1).mp ((map_err_iff _ _).mp hu)
      exact hn (hlive _ _ (hc.resolve_left h0))
    | freeVec p len =>
      intro hu
      obtain ⟨h0, hn⟩ := ((C82_ub_free P ops L w at'.1 p len).2.2.2).mp ((map_err_iff _ _).mp hu)
      obtain ⟨o, ho, v, rfl, rfl, hv⟩ := hb p _ (hc.resolve_left h0)
      exact hn ⟨v, ho, (usize_eq _ _).mp (usize_of_small hv)⟩
    | _ => exact gen rfl hc
  | _ => exact gen rfl hc

/-- **C104.** The rule suffices: a client that passes only pointers it was given and has not freed,
at the types they were given with, and frees vectors with the lengths reported, never causes
undefined behaviour, whatever it calls in whatever order and whatever the allocator does, provided
no vector reaches 2 GiB (C87 has vectors that do).  The books are kept from what the client sees. -/
theorem C104_rule (tr : List ((ℕ × ℕ) × FullCall (ZMod r) F)) (w : World (ZMod r) F G1) (b : Books)
    (hb : BooksTrue w b) (ha : AllocOkFull P ops L S w tr) (hf : Follows P ops L S w b tr)
    (hv : SmallVecs P ops L S w tr) : runFull P ops L S w tr ≠ .err () := by
  induction tr generalizing w b with
  | nil => exact nofun
  | cons c rest ih =>
    intro hu
    rw [runFull] at hu
    cases hs : c.2.step P ops L S w c.1 with
    | ok s =>
      rw [hs, Outcome.bind_ok, map_err_iff] at hu
      obtain ⟨v1, v2⟩ := hv s hs
      exact ih s.2 (b.note c.2 s.1) (books_step P ops L S w b c.1 c.2 ha.1.2.2.1 hb hs v1)
        (ha.2 s hs) (hf.2 s hs) v2 hu
    | err e => exact allows_defined P ops L S w b c.1 c.2 hb hf.1 (by rw [hs])
    | panic => rw [hs] at hu; cases hu

/-- **C104.** With empty books the rule can be started in any state of the process. -/
theorem C104_rule_start (tr : List ((ℕ × ℕ) × FullCall (ZMod r) F)) (w : World (ZMod r) F G1)
    (ha : AllocOkFull P ops L S w tr) (hf : Follows P ops L S w (fun _ => none) tr)
    (hv : SmallVecs P ops L S w tr) : runFull P ops L S w tr ≠ .err () :=
  C104_rule P ops L S tr w (fun _ => none) (fun _ _ h => by cases h) ha hf hv

/-- **C104.** The bound on vectors is needed: a vector of 2 GiB or more (at most the 2^63 - 1 bytes
Rust allows) released with the length that was reported with it is undefined behaviour. -/
theorem C104_large_vec (w : World (ZMod r) F G1) (at' : ℕ × ℕ) (p : ℕ) (v : Bytes) (hp : p ≠ 0)
    (hw : w.heap p = some (.vec v)) (h : v.length < 2 ^ 63) :
    (FullCall.lib (.freeVec p (Int32.ofNat v.length))).step P ops L S w at' = .err () ↔
      2 ^ 31 ≤ v.length := by
  refine (map_err_iff _ _).trans ((C82_ub_free P ops L w at'.1 p _).2.2.2.trans ?_)
  have h2 := (C87_length_out v h).2
  rw [usize_eq] at h2
  constructor
  · rintro ⟨-, hn⟩
    by_contra hc
    exact hn ⟨v, hw, h2.mpr (by omega)⟩
  · intro hl
    refine ⟨hp, ?_⟩
    rintro ⟨b, hb, he⟩
    rw [hw] at hb
    cases hb
    have := h2.mp he
    omega

/-! ## Refinement of an ideal library -/

variable [DecidableEq G2]

namespace Ideal

/-- One call of the ideal library of C82, extended: the encoders write the encodings of the block
whose keys are the group elements behind the pointers. -/
noncomputable def fullStep (a : State r G1 G2) (at' : ℕ × ℕ) :
    FullCall (ZMod r) F → Outcome Unit (FullObs × State r G1 G2)
  | .lib c => (step P ops L a at'.1 c).map fun s => (⟨s.1, c.attempt L, none, none⟩, s.2)
  | .encodeEpochBlockCip22 mem index round ee pe ns mv keys =>
    (Outcome.mapM (pk a) keys).bind fun ks =>
    let block : EpochBlock :=
      { index := index, round := round, epochEntropy := readEpochEntropy mem ee,
        parentEntropy := readEpochEntropy mem pe, maximumNonSigners := ns,
        maximumValidators := mv.toNat, newPublicKeys := ks.map S.point }
    let enc := block.encodeInnerToBytes S.gen
    .ok (⟨⟨true, some at'.1, some (Int32.ofNat enc.1.length), []⟩, none, some at'.2,
        some (Int32.ofNat enc.2.length)⟩,
      Function.update (Function.update a at'.1 (some (.vec enc.1))) at'.2 (some (.vec enc.2)))
  | .encodeEpochBlock index ns keys =>
    (Outcome.mapM (pk a) keys).bind fun ks =>
    let block : EpochBlock :=
      { index := index, round := 0, epochEntropy := none, parentEntropy := none,
        maximumNonSigners := ns, maximumValidators := ks.length, newPublicKeys := ks.map S.point }
    (deliverVec a at'.1 block.encodeToBytes).map fun s => (⟨s.1, none, none, none⟩, s.2)
  | .verify mem vkPtr vkLen proofPtr proofLen first last =>
    (answer a [] (ffiVerify S.readVk S.readProof S.groth16 S.sqrt S.gen S.blake mem vkPtr vkLen
      proofPtr proofLen first last ()).1).map fun s => (⟨s.1, none, none, none⟩, s.2)

/-- A session of the ideal library. -/
noncomputable def fullRun (a : State r G1 G2) : List ((ℕ × ℕ) × FullCall (ZMod r) F) →
    Outcome Unit (List FullObs × State r G1 G2)
  | [] => .ok ([], a)
  | c :: rest => (fullStep P ops L S a c.1 c.2).bind fun s =>
    (fullRun s.2 rest).map fun t => (s.1 :: t.1, t.2)

end Ideal

/-- Iteration orders are permutations. -/
def FullCall.Fair {K : Type*} : FullCall K F → Prop
  | .lib c => c.Fair
  | _ => True

variable {canon : JacRep F → Prop} {w : World (ZMod r) F G1} {a : Ideal.State r G1 G2}

theorem full_step_refines (hinj : CanonInj ops canon)
    (hde : ∀ b k rest, L.dePk b = .ok (k, rest) → canon k)
    (hpub : ∀ k, ops.pt (L.toPublicRep k) = k • P.g2)
    (h : StateRel ops L canon w a) (at' : ℕ × ℕ) (c : FullCall (ZMod r) F) (hf : c.Fair) {s}
    (e : Ideal.fullStep P ops L S a at' c = .ok s) :
    ∃ w', c.step P ops L S w at' = .ok (s.1, w') ∧ StateRel ops L canon w' s.2 := by
  have hkeys : ∀ (keys : List ℕ) (ks : List G2), Outcome.mapM (Ideal.pk a) keys = .ok ks →
      ∃ pks, Outcome.mapM w.getPk keys = .ok pks ∧
        (pks.map fun k => S.point (ops.pt k)) = ks.map S.point ∧ pks.length = ks.length := by
    intro keys ks hks
    obtain ⟨pks, h1, h2⟩ := rel_mapM (fun x y hy => rel_pk ops L h hy) _ _ hks
    have h3 : pks.map ops.pt = ks := map_of_forall₂ h2
    exact ⟨pks, h1, by rw [← h3, List.map_map]; rfl, by rw [← h3, List.length_map]⟩
  cases c with
  | lib c =>
    obtain ⟨t, ht, rfl⟩ := (Outcome.map_eq_ok_iff _ _ _).1 e
    obtain ⟨w', h1, h2⟩ := lib_step_refines P ops L hinj hde hpub h at'.1 c hf ht
    exact ⟨w', by rw [FullCall.step, h1, Outcome.map_ok], h2⟩
  | encodeEpochBlockCip22 mem index round ee pe ns mv keys =>
    obtain ⟨ks, hks, e⟩ := (Outcome.bind_eq_ok_iff _ _ _).1 e
    obtain ⟨pks, h1, h2, -⟩ := hkeys keys ks hks
    cases e
    simp only [FullCall.step, h1, Outcome.bind_ok, h2]
    have hv : ∀ b : Bytes, Option.Rel (ObjRel (G2 := G2) ops canon)
        (some (HeapObj.vec b : HeapObj (ZMod r) F G1)) (some (.vec b)) := fun b => .some rfl
    exact ⟨_, rfl, rel_update ops L (rel_update ops L h at'.1 (hv _)) at'.2 (hv _)⟩
  | encodeEpochBlock index ns keys =>
    obtain ⟨ks, hks, e⟩ := (Outcome.bind_eq_ok_iff _ _ _).1 e
    obtain ⟨pks, h1, h2, h3⟩ := hkeys keys ks hks
    obtain ⟨t, ht, rfl⟩ := (Outcome.map_eq_ok_iff _ _ _).1 e
    obtain ⟨w', h4, h5⟩ := rel_deliverVec ops L h at'.1 _ ht
    refine ⟨w', ?_, h5⟩
    simp only [FullCall.step, h1, Outcome.bind_ok, h2]
    have hb : ffiEncodeEpochBlock index ns (ks.map S.point) ⟨none, none⟩ =
        (.ok true, BytesOut.of (EpochBlock.encodeToBytes
          { index := index, round := 0, epochEntropy := none, parentEntropy := none,
            maximumNonSigners := ns, maximumValidators := ks.length,
            newPublicKeys := ks.map S.point })) := by
      rw [ffiEncodeEpochBlock]
      simp only [List.length_map]
      rfl
    rw [hb, h4, Outcome.map_ok]
  | verify mem vp vl pp pl first last =>
    obtain ⟨t, ht, rfl⟩ := (Outcome.map_eq_ok_iff _ _ _).1 e
    obtain ⟨w', h4, h5⟩ := rel_answer ops L h ht
    exact ⟨w', by rw [FullCall.step, h4, Outcome.map_ok], h5⟩

/-- **C104.** Refinement for the whole interface: whenever the ideal library runs a session to the
end, the library, started in a corresponding state, runs it with the same observations, without
undefined behaviour or panic, whatever the iteration orders. -/
theorem C104_refines (hinj : CanonInj ops canon)
    (hde : ∀ b k rest, L.dePk b = .ok (k, rest) → canon k)
    (hpub : ∀ k, ops.pt (L.toPublicRep k) = k • P.g2) (h0 : StateRel ops L canon w a)
    (tr : List ((ℕ × ℕ) × FullCall (ZMod r) F)) (hf : ∀ c ∈ tr, c.2.Fair) (obs : List FullObs)
    (a' : Ideal.State r G1 G2) (e : Ideal.fullRun P ops L S a tr = .ok (obs, a')) :
    ∃ w', runFull P ops L S w tr = .ok (obs, w') ∧ StateRel ops L canon w' a' := by
  induction tr generalizing w a obs with
  | nil => cases e; exact ⟨w, rfl, h0⟩
  | cons c rest ih =>
    obtain ⟨s, hs, e⟩ := (Outcome.bind_eq_ok_iff _ _ _).1 e
    obtain ⟨t, ht, e⟩ := (Outcome.map_eq_ok_iff _ _ _).1 e
    cases e
    obtain ⟨w1, h1, r1⟩ := full_step_refines P ops L S hinj hde hpub h0 c.1 c.2
      (hf c List.mem_cons_self) hs
    obtain ⟨w2, h2, r2⟩ := ih r1 (fun c' h => hf c' (List.mem_cons_of_mem _ h)) t.1 ht
    exact ⟨w2, by rw [runFull, h1, Outcome.bind_ok]; simp only []; rw [h2]; rfl, r2⟩

/-! ## Signing an epoch block through the interface -/

/-- A validator's handles: its private key, its public key, and the address its signature will get. -/
structure Signer (K : Type*) where
  sk : ℕ
  key : K
  pk : ℕ
  out : ℕ

/-- Every signer signs the same message with CIP22 hashing. -/
def signCalls (v x : Bytes) (l : List (Signer (ZMod r))) : List ((ℕ × ℕ) × FullCall (ZMod r) F) :=
  l.map fun s => ((s.out, 0), .lib (.signMessage s.sk v x true true))

theorem fullRun_append (t1 t2 : List ((ℕ × ℕ) × FullCall (ZMod r) F)) (a : Ideal.State r G1 G2) :
    Ideal.fullRun P ops L S a (t1 ++ t2) = (Ideal.fullRun P ops L S a t1).bind fun s =>
      (Ideal.fullRun P ops L S s.2 t2).map fun t => (s.1 ++ t.1, t.2) := by
  induction t1 generalizing a with
  | nil =>
    simp only [List.nil_append, Ideal.fullRun, Outcome.bind_ok]
    cases Ideal.fullRun P ops L S a t2 <;> rfl
  | cons c t1 ih =>
    simp only [List.cons_append, Ideal.fullRun]
    cases Ideal.fullStep P ops L S a c.1 c.2 with
    | ok s =>
      simp only [Outcome.bind_ok, ih s.2]
      cases Ideal.fullRun P ops L S s.2 t1 with
      | ok t =>
        simp only [Outcome.bind_ok, Outcome.map_ok]
        cases Ideal.fullRun P ops L S t.2 t2 <;> rfl
      | err e => rfl
      | panic => rfl
    | err e => rfl
    | panic => rfl

theorem sign_run (v x : Bytes) (h : G1) (hh : L.hash.cip22 SIG_DOMAIN v x = .ok h)
    (l : List (Signer (ZMod r))) (a : Ideal.State r G1 G2)
    (hsk : ∀ s ∈ l, a s.sk = some (.privateKey s.key)) (hout : (l.map Signer.out).Nodup)
    (hfr : ∀ s ∈ l, ∀ t ∈ l, t.sk ≠ s.out) :
    ∃ obs a', Ideal.fullRun P ops L S a (signCalls v x l) = .ok (obs, a') ∧
      (∀ s ∈ l, a' s.out = some (.signature (s.key • h))) ∧
      ∀ p, (∀ s ∈ l, p ≠ s.out) → a' p = a p := by
  induction l generalizing a with
  | nil => exact ⟨[], a, rfl, by simp, fun _ _ => rfl⟩
  | cons s l ih =>
    rw [List.map_cons, List.nodup_cons] at hout
    obtain ⟨obs, a', h1, h2, h3⟩ := ih
      (Function.update a s.out (some (.signature (s.key • h))))
      (fun t ht => by
        rw [Function.update_of_ne (hfr s List.mem_cons_self t (List.mem_cons_of_mem _ ht))]
        exact hsk t (List.mem_cons_of_mem _ ht)) hout.2
      (fun t ht u hu => hfr t (List.mem_cons_of_mem _ ht) u (List.mem_cons_of_mem _ hu))
    have hstep : Ideal.fullStep P ops L S a (s.out, 0) (.lib (.signMessage s.sk v x true true)) =
        .ok (⟨⟨true, some s.out, none, []⟩, none, none, none⟩,
          Function.update a s.out (some (.signature (s.key • h)))) := by
      have hk : Ideal.sk a s.sk = .ok s.key := by
        unfold Ideal.sk
        rw [hsk s List.mem_cons_self]
      simp only [Ideal.fullStep, Ideal.step, hk, Outcome.bind_ok, Ideal.hashOf, hh, Outcome.map_ok]
      rfl
    refine ⟨⟨⟨true, some s.out, none, []⟩, none, none, none⟩ :: obs, a', ?_, ?_, ?_⟩
    · have e : signCalls v x (s :: l) =
          (((s.out, 0), .lib (.signMessage s.sk v x true true)) :
            (ℕ × ℕ) × FullCall (ZMod r) F) :: signCalls v x l := rfl
      rw [e, Ideal.fullRun, hstep, Outcome.bind_ok]
      simp only []
      rw [h1]
      rfl
    · intro t ht
      rcases List.mem_cons.mp ht with rfl | ht
      · rw [h3 t.out fun u hu e => hout.1 (List.mem_map.mpr ⟨u, hu, e.symm⟩), Function.update_self]
      · exact h2 t ht
    · intro p hp
      rw [h3 p fun u hu => hp u (List.mem_cons_of_mem _ hu),
        Function.update_of_ne (hp s List.mem_cons_self)]

/-- The session by which validators sign an epoch block: encode it from the handles of the new keys,
sign the two vectors with each private key, aggregate the signatures and the public keys, verify. -/
def epochSession (mem : Memory) (index : UInt16) (round : UInt8) (ee pe : ℕ) (ns mv : UInt32)
    (keys : List ℕ) (v x : Bytes) (l : List (Signer (ZMod r))) (pv px pA pB : ℕ) (hy : F → ℕ)
    (sh1 sh2 : List (JacRep F) → List (JacRep F)) : List ((ℕ × ℕ) × FullCall (ZMod r) F) :=
  ((pv, px), .encodeEpochBlockCip22 mem index round ee pe ns mv keys) :: (signCalls v x l ++
    [((pA, 0), .lib (.aggregateSignatures (l.map Signer.out))),
     ((pB, 0), .lib (.aggregatePublicKeys (l.map Signer.pk) hy sh1 sh2)),
     ((0, 0), .lib (.verifySignature pB v x pA true true))])

theorem ideal_flow [NeZero r] (a : Ideal.State r G1 G2) (mem : Memory) (index : UInt16) (round : UInt8)
    (ee pe : ℕ) (ns mv : UInt32) (keys : List ℕ) (ks : List G2)
    (hk : List.Forall₂ (fun p k => ∃ d, a p = some (.publicKey k d)) keys ks) 
    (v x : Bytes) (block : EpochBlock)
    (hb : block =
      { index := index, round := round, epochEntropy := readEpochEntropy mem ee,
        parentEntropy := readEpochEntropy mem pe, maximumNonSigners := ns,
        maximumValidators := mv.toNat, newPublicKeys := ks.map S.point })
    (hvx : block.encodeInnerToBytes S.gen = (v, x)) (h : G1)
    (hh : L.hash.cip22 SIG_DOMAIN v x = .ok h) (l : List (Signer (ZMod r)))
    (hsk : ∀ s ∈ l, a s.sk = some (.privateKey s.key))
    (hpk : ∀ s ∈ l, a s.pk = some (.publicKey (s.key • P.g2) true))
    (hd : (l.map fun s => s.key • P.g2).Nodup) (pv px pA pB : ℕ)
    (hfresh : ∀ p ∈ pv :: px :: pA :: pB :: l.map Signer.out, a p = none)
    (hnd : (pv :: px :: pA :: pB :: l.map Signer.out).Nodup) (hy : F → ℕ)
    (sh1 sh2 : List (JacRep F) → List (JacRep F)) :
    ∃ obs a', Ideal.fullRun P ops L S a
        (epochSession mem index round ee pe ns mv keys v x l pv px pA pB hy sh1 sh2) =
          .ok (obs ++ [⟨⟨true, none, none, [true]⟩, none, none, none⟩], a') ∧
      a' pv = some (.vec v) ∧ a' px = some (.vec x) ∧
      a' pA = some (.signature ((l.map Signer.key).sum • h)) ∧
      ∃ d, a' pB = some (.publicKey ((l.map Signer.key).sum • P.g2) d) := by
  simp only [List.nodup_cons, List.mem_cons, not_or] at hnd
  obtain ⟨⟨n1, n2, n3, n4⟩, ⟨n5, n6, n7⟩, ⟨n8, n9⟩, n10, hout⟩ := hnd
  have fr : ∀ p q, p ∈ pv :: px :: pA :: pB :: l.map Signer.out → (∃ o, a q = some o) → q ≠ p := by
    rintro p q hp ⟨o, ho⟩ rfl
    rw [hfresh q hp] at ho
    cases ho
  have m1 : pv ∈ pv :: px :: pA :: pB :: l.map Signer.out := by simp
  have m2 : px ∈ pv :: px :: pA :: pB :: l.map Signer.out := by simp
  have m3 : pA ∈ pv :: px :: pA :: pB :: l.map Signer.out := by simp
  have m4 : ∀ s ∈ l, s.out ∈ pv :: px :: pA :: pB :: l.map Signer.out := fun s hs => by
    simp only [List.mem_cons]
    exact .inr (.inr (.inr (.inr (List.mem_map_of_mem hs))))
  -- encoding
  have hks : Outcome.mapM (Ideal.pk a) keys = .ok ks := by
    rw [Outcome.mapM_eq_ok_iff]
    refine hk.imp fun p k hp => ?_
    obtain ⟨d, hp⟩ := hp
    unfold Ideal.pk
    rw [hp]
  let a1 : Ideal.State r G1 G2 :=
    Function.update (Function.update a pv (some (.vec v))) px (some (.vec x))
  have ha1 : ∀ p, p ≠ pv → p ≠ px → a1 p = a p := fun p h1 h2 => by
    simp only [a1]
    rw [Function.update_of_ne h2, Function.update_of_ne h1]
  have e1 : ∃ o, Ideal.fullStep P ops L S a (pv, px)
      (.encodeEpochBlockCip22 mem index round ee pe ns mv keys) = .ok (o, a1) := by
    simp only [Ideal.fullStep, hks, Outcome.bind_ok, ← hb, hvx]
    exact ⟨_, rfl⟩
  obtain ⟨o1, e1⟩ := e1
  -- signing
  obtain ⟨obs, a2, e2, hs2, hk2⟩ := sign_run P ops L S v x h hh l a1
    (fun s hs => by
      rw [ha1 _ (fr _ _ m1 ⟨_, hsk s hs⟩) (fr _ _ m2 ⟨_, hsk s hs⟩)]
      exact hsk s hs) hout
    (fun s hs t ht => fr _ _ (m4 s hs) ⟨_, hsk t ht⟩)
  -- aggregation of signatures
  let a3 : Ideal.State r G1 G2 :=
    Function.update a2 pA (some (.signature ((l.map Signer.key).sum • h)))
  have hsum : (l.map fun s => s.key • h).sum = (l.map Signer.key).sum • h := by
    clear * -
    induction l with
    | nil => simp
    | cons s l ih => simp only [List.map_cons, List.sum_cons, ih, add_smul]
  have hsum2 : (l.map fun s => s.key • P.g2).sum = (l.map Signer.key).sum • P.g2 := by
    clear * -
    induction l with
    | nil => simp
    | cons s l ih => simp only [List.map_cons, List.sum_cons, ih, add_smul]
  have e3 : Ideal.fullStep P ops L S a2 (pA, 0)
      (.lib (.aggregateSignatures (l.map Signer.out))) =
      .ok (⟨⟨true, some pA, none, []⟩, none, none, none⟩, a3) := by
    have hm : Outcome.mapM (Ideal.sig a2) (l.map Signer.out) = .ok (l.map fun s => s.key • h) := by
      rw [Outcome.mapM_eq_ok_iff, List.forall₂_map_left_iff, List.forall₂_map_right_iff,
        List.forall₂_same]
      intro s hs
      unfold Ideal.sig
      rw [hs2 s hs]
    simp only [Ideal.fullStep, Ideal.step, hm, Outcome.bind_ok, hsum]
    rfl
  -- aggregation of keys
  let a4 : Ideal.State r G1 G2 :=
    Function.update a3 pB (some (.publicKey ((l.map Signer.key).sum • P.g2) false))
  have e4 : Ideal.fullStep P ops L S a3 (pB, 0)
      (.lib (.aggregatePublicKeys (l.map Signer.pk) hy sh1 sh2)) =
      .ok (⟨⟨true, some pB, none, []⟩, none, none, none⟩, a4) := by
    have hm : Outcome.mapM (Ideal.decodedPk a3) (l.map Signer.pk) =
        .ok (l.map fun s => s.key • P.g2) := by
      rw [Outcome.mapM_eq_ok_iff, List.forall₂_map_left_iff, List.forall₂_map_right_iff,
        List.forall₂_same]
      intro s hs
      have : a3 s.pk = some (.publicKey (s.key • P.g2) true) := by
        simp only [a3]
        rw [Function.update_of_ne (fr _ _ m3 ⟨_, hpk s hs⟩),
          hk2 _ fun t ht => fr _ _ (m4 t ht) ⟨_, hpk s hs⟩,
          ha1 _ (fr _ _ m1 ⟨_, hpk s hs⟩) (fr _ _ m2 ⟨_, hpk s hs⟩)]
        exact hpk s hs
      unfold Ideal.decodedPk
      rw [this]
    simp only [Ideal.fullStep, Ideal.step, hm, Outcome.bind_ok, hd.dedup, hsum2]
    rfl
  have hA : a4 pA = some (.signature ((l.map Signer.key).sum • h)) := by
    simp only [a4, a3]
    rw [Function.update_of_ne n8, Function.update_self]
  have hB : a4 pB = some (.publicKey ((l.map Signer.key).sum • P.g2) false) := by
    simp only [a4, Function.update_self]
  -- verification
  have e5 : Ideal.fullStep P ops L S a4 (0, 0) (.lib (.verifySignature pB v x pA true true)) =
      .ok (⟨⟨true, none, none, [true]⟩, none, none, none⟩, a4) := by
    have h1 : Ideal.pk a4 pB = .ok ((l.map Signer.key).sum • P.g2) := by
      unfold Ideal.pk
      rw [hB]
    have h2 : Ideal.sig a4 pA = .ok ((l.map Signer.key).sum • h) := by
      unfold Ideal.sig
      rw [hA]
    have hv := (C02_verify_dlog P ((l.map Signer.key).sum) v x ((l.map Signer.key).sum • h)
      L.hash.cip22).mpr ⟨h, hh, rfl⟩
    have hw := (C55_verify P L.hash ((l.map Signer.key).sum • P.g2) v x
      ((l.map Signer.key).sum • h) true true L.hash.cip22 rfl none).1 hv
    simp only [Ideal.fullStep, Ideal.step, h1, h2, Outcome.bind_ok, hw]
    rfl
  have n4' : ∀ s ∈ l, pv ≠ s.out := fun s hs e => n4 (List.mem_map.mpr ⟨s, hs, e.symm⟩)
  have n7' : ∀ s ∈ l, px ≠ s.out := fun s hs e => n7 (List.mem_map.mpr ⟨s, hs, e.symm⟩)
  refine ⟨o1 :: (obs ++ [⟨⟨true, some pA, none, []⟩, none, none, none⟩,
    ⟨⟨true, some pB, none, []⟩, none, none, none⟩]), a4, ?_, ?_, ?_, hA, false, hB⟩
  · rw [epochSession, Ideal.fullRun, e1, Outcome.bind_ok]
    simp only []
    rw [fullRun_append, e2, Outcome.bind_ok]
    simp only [Ideal.fullRun, e3, e4, e5, Outcome.bind_ok, Outcome.map_ok, List.cons_append,
      List.append_assoc, List.nil_append]
  · simp only [a4, a3]
    rw [Function.update_of_ne n3, Function.update_of_ne n2, hk2 _ n4']
    simp only [a1]
    rw [Function.update_of_ne n1, Function.update_self]
  · simp only [a4, a3]
    rw [Function.update_of_ne n6, Function.update_of_ne n5, hk2 _ n7']
    simp only [a1, Function.update_self]

theorem signCalls_fair (v x : Bytes) (l : List (Signer (ZMod r))) :
    ∀ c ∈ (signCalls v x l : List ((ℕ × ℕ) × FullCall (ZMod r) F)), c.2.Fair := by
  intro c hc
  obtain ⟨s, -, rfl⟩ := List.mem_map.mp hc
  trivial

/-- **C104.** Signing an epoch block through the interface.  In any state in which the new keys and
the signers' keys are live (the public keys deserialised and distinct), the session that encodes the
block from the handles, signs the two vectors it got with every private key, aggregates the
signatures and the public keys and verifies, runs to the end, and the last call reports `true`.  The
message is the encoding of the block with the points behind the handles. -/
theorem C104_epoch_session [NeZero r] (hinj : CanonInj ops canon)
    (hde : ∀ b k rest, L.dePk b = .ok (k, rest) → canon k)
    (hpub : ∀ k, ops.pt (L.toPublicRep k) = k • P.g2) (h0 : StateRel ops L canon w a)
    (mem : Memory) (index : UInt16) (round : UInt8)
    (ee pe : ℕ) (ns mv : UInt32) (keys : List ℕ) (ks : List G2)
    (hk : List.Forall₂ (fun p k => ∃ d, a p = some (.publicKey k d)) keys ks)
    (v x : Bytes) (block : EpochBlock)
    (hb : block =
      { index := index, round := round, epochEntropy := readEpochEntropy mem ee,
        parentEntropy := readEpochEntropy mem pe, maximumNonSigners := ns,
        maximumValidators := mv.toNat, newPublicKeys := ks.map S.point })
    (hvx : block.encodeInnerToBytes S.gen = (v, x)) (h : G1)
    (hh : L.hash.cip22 SIG_DOMAIN v x = .ok h) (l : List (Signer (ZMod r)))
    (hsk : ∀ s ∈ l, a s.sk = some (.privateKey s.key))
    (hpk : ∀ s ∈ l, a s.pk = some (.publicKey (s.key • P.g2) true))
    (hd : (l.map fun s => s.key • P.g2).Nodup) (pv px pA pB : ℕ)
    (hfresh : ∀ p ∈ pv :: px :: pA :: pB :: l.map Signer.out, a p = none)
    (hnd : (pv :: px :: pA :: pB :: l.map Signer.out).Nodup) (hy : F → ℕ)
    (sh1 sh2 : List (JacRep F) → List (JacRep F)) (hs1 : ∀ l, (sh1 l).Perm l)
    (hs2 : ∀ l, (sh2 l).Perm l) :
    ∃ obs w', runFull P ops L S w
        (epochSession mem index round ee pe ns mv keys v x l pv px pA pB hy sh1 sh2) =
          .ok (obs ++ [⟨⟨true, none, none, [true]⟩, none, none, none⟩], w') ∧
      w'.heap pv = some (.vec v) ∧ w'.heap px = some (.vec x) ∧
      w'.heap pA = some (.signature ((l.map Signer.key).sum • h)) ∧
      ∃ k, w'.heap pB = some (.publicKey k) ∧ ops.pt k = (l.map Signer.key).sum • P.g2 := by
  obtain ⟨obs, a', e, h1, h2, h3, d, h4⟩ := ideal_flow P ops L S a mem index round ee pe ns mv keys
    ks hk v x block hb hvx h hh l hsk hpk hd pv px pA pB hfresh hnd hy sh1 sh2
  obtain ⟨w', hw, hr⟩ := C104_refines P ops L S hinj hde hpub h0 _ (by
    intro c hc
    simp only [epochSession, List.mem_cons, List.mem_append, List.not_mem_nil, or_false] at hc
    rcases hc with rfl | hc | rfl | rfl | rfl
    · trivial
    · exact signCalls_fair v x l c hc
    · trivial
    · exact ⟨hs1, hs2⟩
    · trivial) _ a' e
  have get : ∀ p o, a' p = some o → ∃ o', w'.heap p = some o' ∧ ObjRel ops canon o' o := by
    intro p o hp
    have := hr.1 p
    rw [hp] at this
    cases hq : w'.heap p with
    | none => rw [hq] at this; cases this
    | some o' => rw [hq] at this; cases this; exact ⟨o', rfl, ‹_›⟩
  refine ⟨obs, w', hw, ?_, ?_, ?_, ?_⟩
  · obtain ⟨o, ho, hr⟩ := get pv _ h1
    cases o <;> simp only [ObjRel] at hr
    rw [ho, hr]
  · obtain ⟨o, ho, hr⟩ := get px _ h2
    cases o <;> simp only [ObjRel] at hr
    rw [ho, hr]
  · obtain ⟨o, ho, hr⟩ := get pA _ h3
    cases o <;> simp only [ObjRel] at hr
    rw [ho, hr]
  · obtain ⟨o, ho, hr⟩ := get pB _ h4
    cases o <;> simp only [ObjRel] at hr
    exact ⟨_, ho, hr.1⟩

end

open Classical in
/-- **C104.** The refinement of the whole interface for BLS12-377, as C82_curve: with the curve's
arithmetic and the repository's deserialisation of keys, for every pairing, hash, serialisation of
the other objects, Groth16 verifier and representation of the multiples of the generator, from the
start of the process. -/
theorem C104_curve {GT VK Proof : Type*} [CommGroup GT] [DecidableEq GT] (C : CurvePairing GT)
    (sqrt : Fq2 → Option Fq2) (hs : RootSpec sqrt) (L : LibEnv FR_MODULUS Fq2 G1r G2r)
    (S : SnarkEnv VK Proof G2r)
    (hL : ∀ b, L.dePk b = (deserializePublicKey sqrt b).map fun k => (intoProjective k.1, k.2))
    (hpub : ∀ k, (g2Ops.restrict G2r).pt (L.toPublicRep k) = k • C.toPairing.g2)
    (tr : List ((ℕ × ℕ) × FullCall (ZMod FR_MODULUS) Fq2)) (hf : ∀ c ∈ tr, c.2.Fair) (hy : Fq2 → ℕ)
    (obs : List FullObs) (a' : Ideal.State FR_MODULUS G1r G2r)
    (e : Ideal.fullRun C.toPairing (g2Ops.restrict G2r) L S (fun _ => none) tr = .ok (obs, a')) :
    ∃ w', runFull C.toPairing (g2Ops.restrict G2r) L S
        ⟨fun _ => none, PublicKeyCache.new (g2Ops.restrict G2r) hy⟩ tr = .ok (obs, w') ∧
      StateRel (g2Ops.restrict G2r) L CanonKey w' a' := by
  refine C104_refines C.toPairing (g2Ops.restrict G2r) L S (canon := CanonKey) ?_ ?_ hpub
    ⟨fun _ => .none, CacheInv.new _ _ hy⟩ tr hf obs a' e
  · intro k k' hk hk' h
    refine (C81_canonical k k' hk.1 hk'.1).mp ?_
    rw [← g2Ops.restrict_pt G2r hk.2, ← g2Ops.restrict_pt G2r hk'.2, h]
  · intro b k rest h
    rw [hL] at h
    obtain ⟨x, hx, h⟩ := (Outcome.map_eq_ok_iff _ _ _).1 h
    cases h
    have hp := C81_into_projective x.1
    refine ⟨hp.2.1, ?_⟩
    rw [hp.1]
    exact ((C66_public_key_iff hs _ _ _).mp hx).1

/-! ## Concrete cases -/

/-- Example environment (not code from /repo): keys stand for multiples of the generator, a verifying
key or proof is any non-empty buffer, every proof of even length is accepted. -/
noncomputable def toySnark : SnarkEnv Unit Bytes (ZMod 7) where
  point k := k.val • g2Generator
  gen := g2Generator
  readVk b := if b = [] then .err .endOfInput else .ok ()
  readProof b := if b = [] then .err .endOfInput else .ok b
  groth16 _ p _ := .ok (p.length % 2 = 0)
  sqrt _ := none
  blake := showBlake2s

/-- The caller's memory in the examples. -/
def toyMem : Memory := fun p => UInt8.ofNat p

/-- The block that `toyFull` encodes: one key, room for three. -/
noncomputable def fullBlock : EpochBlock where
  index := 5
  round := 1
  epochEntropy := readEpochEntropy toyMem 32
  parentEntropy := none
  maximumNonSigners := 1
  maximumValidators := 3
  newPublicKeys := [toySnark.point 2]

/-- A client of the whole interface: make a key, encode a block with it, free the two vectors with
the lengths reported, fail to verify a proof, free the keys. -/
noncomputable def toyFull : List ((ℕ × ℕ) × FullCall (ZMod 7) (ZMod 7)) :=
  [((1, 2), .lib (.generatePrivateKey 2)), ((2, 3), .lib (.privateKeyToPublicKey 1)),
   ((3, 4), .encodeEpochBlockCip22 toyMem 5 1 32 0 1 3 [2]), ((5, 6), .lib (.freeVec 3 316)),
   ((3, 5), .lib (.freeVec 4 7)), ((3, 5), .verify toyMem 0 0 0 0 ⟨0, 0, 0, 0, 0, 0, 0, 0⟩
     ⟨0, 0, 0, 0, 0, 0, 0, 0⟩), ((3, 5), .lib (.destroyPrivateKey 1)),
   ((3, 5), .lib (.destroyPublicKey 2))]

theorem fullBlock_lengths : (fullBlock.encodeInnerToBytes g2Generator).1.length = 316 ∧
    (fullBlock.encodeInnerToBytes g2Generator).2.length = 7 :=
  C29_lengths g2Generator fullBlock (readEpochEntropy_canonical toyMem 32)
    (readEpochEntropy_canonical toyMem 0)

/-- The steps of `toyFull` up to the encoder. -/
theorem toyFull_encode : ∃ o w', runFull (toyPairing 7) sessOps toyLib toySnark toyStart
      (toyFull.take 3) = .ok (o, w') ∧
    o.map FullObs.main = [⟨true, some 1, none, []⟩, ⟨true, some 2, none, []⟩,
      ⟨true, some 3, some 316, []⟩] ∧
    o.map FullObs.extraOut = [none, none, some 4] ∧ o.map FullObs.extraLen = [none, none, some 7] ∧
    w'.heap 3 = some (.vec (fullBlock.encodeInnerToBytes g2Generator).1) := by
  refine ⟨_, _, rfl, ?_, rfl, ?_, rfl⟩
  · have h := fullBlock_lengths.1
    change [_, _, (⟨true, some 3, some (Int32.ofNat
      (fullBlock.encodeInnerToBytes g2Generator).1.length), []⟩ : Obs)] = _
    rw [h]
    rfl
  · have h := fullBlock_lengths.2
    change [none, none, some (Int32.ofNat
      (fullBlock.encodeInnerToBytes g2Generator).2.length)] = _
    rw [h]
    rfl

/-- Hypotheses of C104_rule and C104_rule_start (allocator, rule, sizes), and of C104_frame and
C104_accounting: the whole of `toyFull`. -/
theorem toyFull_follows : AllocOkFull (toyPairing 7) sessOps toyLib toySnark toyStart toyFull ∧
    Follows (toyPairing 7) sessOps toyLib toySnark toyStart (fun _ => none) toyFull ∧
    SmallVecs (toyPairing 7) sessOps toyLib toySnark toyStart toyFull := by
  have free : ∀ (w : World (ZMod 7) (ZMod 7) (ZMod 7)) (at' : ℕ × ℕ) (p : ℕ) (len : Int32) (v : Bytes)
      (s : FullObs × World (ZMod 7) (ZMod 7) (ZMod 7)), w.heap p = some (.vec v) → p ≠ 0 →
      v.length = usizeOfInt32 len →
      (FullCall.lib (.freeVec p len)).step (toyPairing 7) sessOps toyLib toySnark w at' = .ok s →
      s = (⟨⟨true, none, none, []⟩, none, none, none⟩,
        { w with heap := Function.update w.heap p none }) := by
    intro w at' p len v s h1 h2 h3 e
    simp only [FullCall.step, LibCall.step, World.free, if_neg h2, h1, h3, decide_true, if_true,
      Outcome.map_ok] at e
    cases e
    rfl
  refine ⟨?_, ?_, ?_⟩
  · refine ⟨by decide, fun s hs => ?_⟩
    cases hs
    refine ⟨by decide, fun s hs => ?_⟩
    cases hs
    refine ⟨by decide, fun s hs => ?_⟩
    cases hs
    refine ⟨⟨by decide, by decide, by decide, rfl, rfl⟩, fun s hs => ?_⟩
    cases free _ _ _ _ _ _ rfl (by decide) fullBlock_lengths.1 hs
    refine ⟨⟨by decide, by decide, by decide, rfl, rfl⟩, fun s hs => ?_⟩
    cases free _ _ _ _ _ _ rfl (by decide) fullBlock_lengths.2 hs
    refine ⟨⟨by decide, by decide, by decide, rfl, rfl⟩, fun s hs => ?_⟩
    cases hs
    refine ⟨⟨by decide, by decide, by decide, rfl, rfl⟩, fun s hs => ?_⟩
    cases hs
    exact ⟨⟨by decide, by decide, by decide, rfl, rfl⟩, fun s hs => trivial⟩
  · refine ⟨by simp [Books.Allows, FullCall.args, LibCall.args], fun s hs => ?_⟩
    cases hs
    refine ⟨by simp [Books.Allows, FullCall.args, LibCall.args]; rfl, fun s hs => ?_⟩
    cases hs
    refine ⟨by simp [Books.Allows, FullCall.args]; rfl, fun s hs => ?_⟩
    cases hs
    have h1 : some (Entry.vector (Int32.ofNat
        (fullBlock.encodeInnerToBytes g2Generator).1.length)) = some (.vector 316) := by
      rw [fullBlock_lengths.1]
      rfl
    have h2 : some (Entry.vector (Int32.ofNat
        (fullBlock.encodeInnerToBytes g2Generator).2.length)) = some (.vector 7) := by
      rw [fullBlock_lengths.2]
      rfl
    refine ⟨.inr h1, fun s hs => ?_⟩
    cases free _ _ _ _ _ _ rfl (by decide) fullBlock_lengths.1 hs
    refine ⟨.inr h2, fun s hs => ?_⟩
    cases free _ _ _ _ _ _ rfl (by decide) fullBlock_lengths.2 hs
    refine ⟨by simp [Books.Allows, FullCall.args], fun s hs => ?_⟩
    cases hs
    refine ⟨.inr rfl, fun s hs => ?_⟩
    cases hs
    exact ⟨.inr rfl, fun s hs => trivial⟩
  · have up : ∀ (f : ℕ → Option (HeapObj (ZMod 7) (ZMod 7) (ZMod 7))) (q : ℕ)
        (x : Option (HeapObj (ZMod 7) (ZMod 7) (ZMod 7))),
        (∀ p v, f p = some (.vec v) → v.length < 2 ^ 31) →
        (∀ v, x = some (.vec v) → v.length < 2 ^ 31) →
        ∀ p v, Function.update f q x p = some (.vec v) → v.length < 2 ^ 31 := by
      intro f q x h1 h2 p v hv
      by_cases hp : p = q
      · subst hp
        rw [Function.update_self] at hv
        exact h2 v hv
      · rw [Function.update_of_ne hp] at hv
        exact h1 p v hv
    have b0 : ∀ p v, toyStart.heap p = some (.vec v) → v.length < 2 ^ 31 := fun p v h => by cases h
    have b1 := up _ 1 (some (.privateKey 2)) b0 (fun v h => by cases h)
    have b2 := up _ 2 (some (.publicKey ⟨2, 3, 1⟩)) b1 (fun v h => by cases h)
    have b3 := up _ 3 (some (.vec (fullBlock.encodeInnerToBytes g2Generator).1)) b2
      (fun v h => by cases h; rw [fullBlock_lengths.1]; decide)
    have b4 := up _ 4 (some (.vec (fullBlock.encodeInnerToBytes g2Generator).2)) b3
      (fun v h => by cases h; rw [fullBlock_lengths.2]; decide)
    have b5 := up _ 3 none b4 (fun v h => by cases h)
    have b6 := up _ 4 none b5 (fun v h => by cases h)
    have b7 := up _ 1 none b6 (fun v h => by cases h)
    have b8 := up _ 2 none b7 (fun v h => by cases h)
    intro s hs
    cases hs
    refine ⟨b1, fun s hs => ?_⟩
    cases hs
    refine ⟨b2, fun s hs => ?_⟩
    cases hs
    refine ⟨b4, fun s hs => ?_⟩
    cases free _ _ _ _ _ _ rfl (by decide) fullBlock_lengths.1 hs
    refine ⟨b5, fun s hs => ?_⟩
    cases free _ _ _ _ _ _ rfl (by decide) fullBlock_lengths.2 hs
    refine ⟨b6, fun s hs => ?_⟩
    cases hs
    refine ⟨b6, fun s hs => ?_⟩
    cases hs
    refine ⟨b7, fun s hs => ?_⟩
    cases hs
    exact ⟨b8, trivial⟩

/-- So the session is defined throughout. -/
example : runFull (toyPairing 7) sessOps toyLib toySnark toyStart toyFull ≠ .err () :=
  C104_rule_start (toyPairing 7) sessOps toyLib toySnark toyFull toyStart toyFull_follows.1
    toyFull_follows.2.1 toyFull_follows.2.2

/-- C104_failure on the call that fails in `toyFull`: an empty verifying key. -/
example (w : World (ZMod 7) (ZMod 7) (ZMod 7)) : ∃ o w', (FullCall.verify toyMem 0 0 0 0
      ⟨0, 0, 0, 0, 0, 0, 0, 0⟩ ⟨0, 0, 0, 0, 0, 0, 0, 0⟩).step (toyPairing 7) sessOps toyLib toySnark
        w (1, 2) = .ok (o, w') ∧ o.main.ret = false ∧ o.main.out = none ∧ w'.heap = w.heap :=
  ⟨_, _, rfl, rfl, rfl, rfl⟩

/-- Not following the rule: encoding with a signature's pointer is undefined (C104_ub). -/
example : (FullCall.encodeEpochBlock 5 1 [1]).step (toyPairing 7) sessOps toyLib toySnark
      (toyStart.alloc 1 (.signature 4)) (2, 3) = .err () ∧
    ¬ (toyStart.alloc 1 (.signature 4)).Live (1, Kind.publicKey) := by
  refine ⟨rfl, ?_⟩
  rintro ⟨o, ho, hk⟩
  cases ho
  cases hk

/-- The counters (C104_attempt): the toy hash reports 4. -/
example (w : World (ZMod 7) (ZMod 7) (ZMod 7)) : ∃ w',
    (FullCall.lib (.bytes (.hashCompositeCip22 [1] [2]))).step (toyPairing 7) sessOps toyLib toySnark
      w (1, 2) = .ok (⟨⟨true, some 1, some 1, []⟩, some 4, none, none⟩, w') :=
  ⟨_, rfl⟩

/-- The hypothesis of C104_large_vec: a vector of 2^31 bytes. -/
example : (FullCall.lib (.freeVec 1 (Int32.ofNat (2 ^ 31)))).step (toyPairing 7) sessOps toyLib
    toySnark (toyStart.alloc 1 (.vec (List.replicate (2 ^ 31) 0))) (2, 3) = .err () := by
  have h := (C104_large_vec (toyPairing 7) sessOps toyLib toySnark
    (toyStart.alloc 1 (.vec (List.replicate (2 ^ 31) 0))) (2, 3) 1 (List.replicate (2 ^ 31) 0)
    (by decide) rfl (by rw [List.length_replicate]; norm_num)).mpr
    (by rw [List.length_replicate])
  rwa [List.length_replicate] at h

/-- The state in which two validators sign: private keys 2 and 3 at 1 and 3, their public keys,
deserialised, at 2 and 4. -/
def signWorld : World (ZMod 7) (ZMod 7) (ZMod 7) :=
  (((toyStart.alloc 1 (.privateKey 2)).alloc 2 (.publicKey ⟨2, 0, 1⟩)).alloc 3
    (.privateKey 3)).alloc 4 (.publicKey ⟨3, 0, 1⟩)

/-- The same state of the ideal library. -/
def signState : Ideal.State 7 (ZMod 7) (ZMod 7) :=
  Function.update (Function.update (Function.update (Function.update (fun _ => none)
    1 (some (.privateKey 2))) 2 (some (.publicKey 2 true))) 3 (some (.privateKey 3)))
    4 (some (.publicKey 3 true))

/-- C104_epoch_session applied: the new keys are both public keys, both validators sign. -/
example : ∃ obs w' v x, runFull (toyPairing 7) sessOps toyLib toySnark signWorld
      (epochSession toyMem 5 1 32 0 1 3 [2, 4] v x [⟨1, 2, 2, 10⟩, ⟨3, 3, 4, 11⟩] 6 7 8 9
        (fun _ => 0) id List.reverse) =
        .ok (obs ++ [⟨⟨true, none, none, [true]⟩, none, none, none⟩], w') ∧
      w'.heap 6 = some (.vec v) ∧ w'.heap 8 = some (.signature 6) := by
  have : NeZero (7 : ℕ) := ⟨by decide⟩
  have hrel : StateRel sessOps toyLib (fun k => k.y = 0 ∧ k.z = 1) signWorld signState := by
    have h0 : StateRel sessOps toyLib (fun k => k.y = 0 ∧ k.z = 1) toyStart
        (fun _ => none : Ideal.State 7 (ZMod 7) (ZMod 7)) :=
      ⟨fun _ => .none, CacheInv.new sessOps _ _⟩
    have h1 := rel_update sessOps toyLib h0 1 (o' := some (.privateKey 2))
      (o := some (.privateKey 2)) (.some rfl)
    have h2 := rel_update sessOps toyLib h1 2 (o' := some (.publicKey ⟨2, 0, 1⟩))
      (o := some (.publicKey 2 true)) (.some ⟨rfl, fun _ => ⟨rfl, rfl⟩⟩)
    have h3 := rel_update sessOps toyLib h2 3 (o' := some (.privateKey 3))
      (o := some (.privateKey 3)) (.some rfl)
    exact rel_update sessOps toyLib h3 4 (o' := some (.publicKey ⟨3, 0, 1⟩))
      (o := some (.publicKey 3 true)) (.some ⟨rfl, fun _ => ⟨rfl, rfl⟩⟩)
  obtain ⟨obs, w', h1, h2, -, h3, -⟩ := C104_epoch_session (toyPairing 7) sessOps toyLib toySnark
    (canon := fun k => k.y = 0 ∧ k.z = 1)
    (by
      rintro ⟨x, y, z⟩ ⟨x', y', z'⟩ ⟨h1, h2⟩ ⟨h3, h4⟩ h
      have h : x = x' := h
      simp_all)
    (by
      intro b k rest h
      cases b with
      | nil => cases h
      | cons b bs => cases h; exact ⟨rfl, rfl⟩)
    (fun k => (mul_one k).symm) hrel toyMem 5 1 32 0 1 3 [2, 4] [2, 3]
    (.cons ⟨true, rfl⟩ (.cons ⟨true, rfl⟩ .nil)) _ _ _ rfl rfl 4 rfl
    [⟨1, 2, 2, 10⟩, ⟨3, 3, 4, 11⟩] (by simp [signState]) (by simp [signState]; decide)
    (by decide) 6 7 8 9 (by simp [signState]) (by decide) (fun _ => 0) id List.reverse
    (fun _ => .refl _) (fun l => l.reverse_perm)
  exact ⟨obs, w', _, _, h1, h2, h3⟩

end Verif
