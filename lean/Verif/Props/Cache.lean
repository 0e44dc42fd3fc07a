import Verif.Lemmas.Cache
import Verif.Model.Bls
import Verif.Lemmas.Bls
import Mathlib.Algebra.BigOperators.Group.Finset.Basic

/-! # Properties C13 - C17, C59: the public key cache -/

set_option linter.unusedSectionVars false

namespace Verif

variable {F : Type*} [DecidableEq F] {G : Type*} [AddCommGroup G] (ops : CurveOps F G)
variable {ε : Type*} (deser : Bytes → Outcome ε (JacRep F))

/-! ## Specification: what each call must return, without any state -/

/-- Specification: the sum of the distinct representations of a key list. -/
def distinctSum (keys : List (JacRep F)) : G := (keys.dedup.map ops.pt).sum

/-- Specification: what a caller must observe, stated without a cache. -/
def CacheCall.expected : CacheCall F → Outcome ε (Option G)
  | .aggregate keys _ _ _ => .ok (some (distinctSum ops keys))
  | .deserialize data => (deser data).map fun k => some (ops.pt k)
  | .clear _ => .ok none
  | .aggregateSubtract agg keys _ _ _ => .ok (some (ops.pt agg - distinctSum ops keys))

/-- What a caller observes of a returned key: the group element (or the error). -/
def observe (o : Outcome ε (Option (JacRep F))) : Outcome ε (Option G) :=
  o.map (Option.map ops.pt)

/-! ## The refinement theorem -/

theorem step_refines (c : PublicKeyCache F) (hc : CacheInv ops deser c) (call : CacheCall F)
    (hf : call.Fair) :
    observe ops (call.step ops deser c).1 = call.expected ops deser ∧
      CacheInv ops deser (call.step ops deser c).2 := by
  cases call with
  | aggregate keys hy sh1 sh2 =>
    obtain ⟨h1, h2⟩ := aggregate_spec ops deser c hc keys hy sh1 sh2 hf.1 hf.2
    refine ⟨?_, h2⟩
    simp [CacheCall.step, observe, CacheCall.expected, h1, distinctSum]
  | deserialize data =>
    obtain ⟨h1, h2⟩ := deserialize_spec ops deser c hc data
    refine ⟨?_, h2⟩
    simp only [CacheCall.step, observe, CacheCall.expected, h1]
    cases deser data <;> rfl
  | clear hy =>
    exact ⟨rfl, CacheInv.new ops deser hy⟩
  | aggregateSubtract agg keys hy sh1 sh2 =>
    obtain ⟨h1, h2⟩ := aggregate_spec ops deser c hc keys hy sh1 sh2 hf.1 hf.2
    refine ⟨?_, h2⟩
    simp [CacheCall.step, observe, CacheCall.expected, h1, distinctSum, ops.pt_sub]

theorem run_refines (c : PublicKeyCache F) (hc : CacheInv ops deser c) (calls : List (CacheCall F))
    (hf : ∀ call ∈ calls, call.Fair) :
    (runCalls ops deser c calls).1.map (observe ops) = calls.map (CacheCall.expected ops deser) ∧
      CacheInv ops deser (runCalls ops deser c calls).2 := by
  induction calls generalizing c with
  | nil => exact ⟨rfl, hc⟩
  | cons call calls ih =>
    obtain ⟨h1, h2⟩ := step_refines ops deser c hc call (hf call (by simp))
    obtain ⟨h3, h4⟩ := ih _ h2 (fun x hx => hf x (List.mem_cons_of_mem _ hx))
    refine ⟨?_, h4⟩
    simp only [runCalls, List.map_cons]
    rw [h1]
    exact congrArg _ h3

/-- C13, C15, C17, C59 (master statement): on a new cache, every history of calls returns, call by
call, exactly what the stateless specification says, for all hash seeds and iteration orders. -/
theorem C13_history_independence (hy : F → ℕ) (calls : List (CacheCall F))
    (hf : ∀ call ∈ calls, call.Fair) :
    (runCalls ops deser (PublicKeyCache.new ops hy) calls).1.map (observe ops) =
      calls.map (CacheCall.expected ops deser) :=
  (run_refines ops deser _ (CacheInv.new ops deser hy) calls hf).1

/-- C13: after any history, `aggregate(keys)` is the sum of the distinct representations in
`keys`. -/
theorem C13_aggregate (hy : F → ℕ) (calls : List (CacheCall F)) (hf : ∀ call ∈ calls, call.Fair)
    (keys : List (JacRep F)) (hy' : F → ℕ) (sh1 sh2 : List (JacRep F) → List (JacRep F))
    (h1 : ∀ l, (sh1 l).Perm l) (h2 : ∀ l, (sh2 l).Perm l) :
    ops.pt ((runCalls ops deser (PublicKeyCache.new ops hy) calls).2.aggregate ops keys hy' sh1
      sh2).1 = (keys.dedup.map ops.pt).sum :=
  (aggregate_spec ops deser _ (run_refines ops deser _ (CacheInv.new ops deser hy) calls hf).2
    keys hy' sh1 sh2 h1 h2).1

/-! ## C14 -/

/-- C14: for lists without repeated representations the cache agrees with
`PublicKey::aggregate`, after any history. -/
theorem C14_agrees_nodup (hy : F → ℕ) (calls : List (CacheCall F))
    (hf : ∀ call ∈ calls, call.Fair) (keys : List (JacRep F)) (hn : keys.Nodup) (hy' : F → ℕ)
    (sh1 sh2 : List (JacRep F) → List (JacRep F))
    (h1 : ∀ l, (sh1 l).Perm l) (h2 : ∀ l, (sh2 l).Perm l) :
    ops.pt ((runCalls ops deser (PublicKeyCache.new ops hy) calls).2.aggregate ops keys hy' sh1
      sh2).1 = aggregatePublicKeys (keys.map ops.pt) := by
  rw [C13_aggregate ops deser hy calls hf keys hy' sh1 sh2 h1 h2, hn.dedup,
    aggregatePublicKeys_eq_sum]

/-- C14 (violation): a repeated non-zero key is counted once by the cache and twice by
`PublicKey::aggregate`, in every reachable state. -/
theorem C14_violation (hy : F → ℕ) (calls : List (CacheCall F))
    (hf : ∀ call ∈ calls, call.Fair) (k : JacRep F) (hk : ops.pt k ≠ 0) (hy' : F → ℕ)
    (sh1 sh2 : List (JacRep F) → List (JacRep F))
    (h1 : ∀ l, (sh1 l).Perm l) (h2 : ∀ l, (sh2 l).Perm l) :
    ops.pt ((runCalls ops deser (PublicKeyCache.new ops hy) calls).2.aggregate ops [k, k] hy' sh1
      sh2).1 ≠ aggregatePublicKeys ([k, k].map ops.pt) := by
  rw [C13_aggregate ops deser hy calls hf _ hy' sh1 sh2 h1 h2, aggregatePublicKeys_eq_sum]
  have : [k, k].dedup = [k] := by
    simp
  rw [this]
  simp [hk]

/-- C14: the exact discrepancy: plain aggregation exceeds the cached one by the repeated
occurrences. -/
theorem C14_discrepancy (hy : F → ℕ) (calls : List (CacheCall F))
    (hf : ∀ call ∈ calls, call.Fair) (keys : List (JacRep F)) (hy' : F → ℕ)
    (sh1 sh2 : List (JacRep F) → List (JacRep F))
    (h1 : ∀ l, (sh1 l).Perm l) (h2 : ∀ l, (sh2 l).Perm l) :
    aggregatePublicKeys (keys.map ops.pt) -
      ops.pt ((runCalls ops deser (PublicKeyCache.new ops hy) calls).2.aggregate ops keys hy' sh1
        sh2).1 = (keys.dedup.map fun k => (keys.count k - 1) • ops.pt k).sum := by
  rw [C13_aggregate ops deser hy calls hf _ hy' sh1 sh2 h1 h2, aggregatePublicKeys_eq_sum,
    sub_eq_iff_eq_add]
  have hsum : ∀ l : List (JacRep F), (∀ k ∈ l, 1 ≤ keys.count k) →
      (l.map fun k => (keys.count k - 1) • ops.pt k).sum + (l.map ops.pt).sum =
        (l.map fun k => keys.count k • ops.pt k).sum := by
    intro l hl
    induction l with
    | nil => simp
    | cons k l ih =>
      have h3 := ih fun k' hk' => hl k' (List.mem_cons_of_mem _ hk')
      have h4 := hl k (by simp)
      have h5 : keys.count k = keys.count k - 1 + 1 := by omega
      simp only [List.map_cons, List.sum_cons, ← h3]
      conv_rhs => rw [h5, succ_nsmul]
      abel
  rw [hsum _ fun k hk => List.count_pos_iff.2 (List.mem_dedup.1 hk)]
  rw [Finset.sum_list_map_count, ← List.sum_toFinset _ (List.nodup_dedup keys)]
  have : keys.dedup.toFinset = keys.toFinset := by ext k; simp
  rw [this]

/-- C14: the cache agrees with `PublicKey::aggregate` exactly when the surplus occurrences of the
repeated keys sum to zero. -/
theorem C14_agrees_iff (hy : F → ℕ) (calls : List (CacheCall F))
    (hf : ∀ call ∈ calls, call.Fair) (keys : List (JacRep F)) (hy' : F → ℕ)
    (sh1 sh2 : List (JacRep F) → List (JacRep F))
    (h1 : ∀ l, (sh1 l).Perm l) (h2 : ∀ l, (sh2 l).Perm l) :
    ops.pt ((runCalls ops deser (PublicKeyCache.new ops hy) calls).2.aggregate ops keys hy' sh1
      sh2).1 = aggregatePublicKeys (keys.map ops.pt) ↔
      (keys.dedup.map fun k => (keys.count k - 1) • ops.pt k).sum = 0 := by
  rw [← C14_discrepancy ops deser hy calls hf keys hy' sh1 sh2 h1 h2, sub_eq_zero, eq_comm]

/-! ## C15 -/

/-- C15: after any history, `deserialize` returns exactly the result (representation or error) of a
direct deserialisation, and leaves the aggregate state untouched. -/
theorem C15_deserialize_transparent (hy : F → ℕ) (calls : List (CacheCall F))
    (hf : ∀ call ∈ calls, call.Fair) (data : Bytes) :
    let c := (runCalls ops deser (PublicKeyCache.new ops hy) calls).2
    (c.deserialize deser data).1 = deser data ∧
      (c.deserialize deser data).2.keys = c.keys ∧
      (c.deserialize deser data).2.combined = c.combined := by
  have hc := (run_refines ops deser _ (CacheInv.new ops deser hy) calls hf).2
  refine ⟨(deserialize_spec ops deser _ hc data).1, ?_⟩
  unfold PublicKeyCache.deserialize
  generalize lruGet _ data = g
  obtain ⟨o, de⟩ := g
  cases o with
  | some k => exact ⟨rfl, rfl⟩
  | none =>
    simp only []
    cases deser data <;> exact ⟨rfl, rfl⟩

/-- C15: in every reachable state the deserialisation cache has at most 512 entries, no two for the
same bytes, and every entry is a successful deserialisation (errors are never cached). -/
theorem C15_cache_bounded (hy : F → ℕ) (calls : List (CacheCall F))
    (hf : ∀ call ∈ calls, call.Fair) :
    let de := (runCalls ops deser (PublicKeyCache.new ops hy) calls).2.de
    de.length ≤ 512 ∧ (de.map Prod.fst).Nodup ∧ ∀ e ∈ de, deser e.1 = .ok e.2 := by
  have hc := (run_refines ops deser _ (CacheInv.new ops deser hy) calls hf).2
  exact ⟨hc.de_len, hc.de_nodup, hc.de_ok⟩

/-- C15: a successful deserialisation is served from the cache by the next call: the entry is
present at the front. -/
theorem C15_hit (c : PublicKeyCache F) (data : Bytes) (k : JacRep F)
    (h : (c.deserialize deser data).1 = .ok k) :
    (c.deserialize deser data).2.de.head? = some (data, k) := by
  unfold PublicKeyCache.deserialize at *
  cases hg : (lruGet c.de data).1 with
  | some k' =>
    obtain ⟨hmem, hde⟩ := lruGet_some hg
    have hpair : lruGet c.de data = (some k', (data, k') :: c.de.filter (fun e' => e'.1 ≠ data)) :=
      Prod.ext hg hde
    rw [hpair] at h ⊢
    simp only [Outcome.ok.injEq] at h
    simp [h]
  | none =>
    obtain ⟨hde, hnot⟩ := lruGet_none hg
    have hpair : lruGet c.de data = (none, c.de) := Prod.ext hg hde
    rw [hpair] at h ⊢
    simp only [] at h ⊢
    cases hd : deser data with
    | ok k' => simp only [hd, Outcome.ok.injEq] at h; simp [lruPut, h]
    | err e => simp [hd] at h
    | panic => simp [hd] at h

/-! ## C16 -/

/-- C16: the `HashSet` contract: keys that compare equal hash equally (for any hash function), and
denote the same point. -/
theorem C16_hash_contract (a b : JacRep F) (hy : F → ℕ) (h : wrappedEq a b = true) :
    wrappedHash hy a = wrappedHash hy b ∧ ops.pt a = ops.pt b := by
  rw [wrappedEq_iff] at h; subst h; exact ⟨rfl, rfl⟩

/-- C16: `WrappedPublicKey` equality is an equivalence relation (as `Eq` requires). -/
theorem C16_equivalence : (∀ a : JacRep F, wrappedEq a a = true) ∧
    (∀ a b : JacRep F, wrappedEq a b = true → wrappedEq b a = true) ∧
    (∀ a b c : JacRep F, wrappedEq a b = true → wrappedEq b c = true → wrappedEq a c = true) := by
  refine ⟨fun a => (wrappedEq_iff a a).2 rfl, fun a b h => ?_, fun a b c h1 h2 => ?_⟩
  · rw [wrappedEq_iff] at *; exact h.symm
  · rw [wrappedEq_iff] at *; exact h1.trans h2

/-- C16: one point in two different representations is counted twice. -/
theorem C16_two_representations (hy : F → ℕ) (calls : List (CacheCall F))
    (hf : ∀ call ∈ calls, call.Fair) (a b : JacRep F) (hab : a ≠ b) (hpt : ops.pt a = ops.pt b)
    (hy' : F → ℕ) (sh1 sh2 : List (JacRep F) → List (JacRep F))
    (h1 : ∀ l, (sh1 l).Perm l) (h2 : ∀ l, (sh2 l).Perm l) :
    ops.pt ((runCalls ops deser (PublicKeyCache.new ops hy) calls).2.aggregate ops [a, b] hy' sh1
      sh2).1 = ops.pt a + ops.pt a := by
  rw [C13_aggregate ops deser hy calls hf _ hy' sh1 sh2 h1 h2]
  have : [a, b].dedup = [a, b] := List.Nodup.dedup (by simp [hab])
  rw [this]; simp [hpt]

/-! ## C17 -/

/-- The outputs of thread `i` in a tagged trace of outputs. -/
def threadOutputs {α : Type*} (i : ℕ) (tr : List (ℕ × α)) : List α :=
  tr.filterMap fun x => if x.1 = i then some x.2 else none

theorem interleave_thread {α : Type*} {progs : List (List α)} {tr : List (ℕ × α)}
    (h : Interleave progs tr) (i : ℕ) (p : List α) (hp : progs[i]? = some p) :
    threadOutputs i tr = p := by
  induction h generalizing p with
  | done progs h => 
    have := h p (List.mem_of_getElem? hp)
    subst this; rfl
  | step progs j a q tr hj _ ih =>
    by_cases hij : j = i
    · subst hij
      rw [hj] at hp
      have hp : a :: q = p := Option.some.inj hp
      subst hp
      have hlt : j < progs.length := (List.getElem?_eq_some_iff.1 hj).1
      have := ih q (by simp [hlt])
      simp [threadOutputs] at this ⊢
      exact this
    · have := ih p (by rw [List.getElem?_set_ne hij]; exact hp)
      simp [threadOutputs, hij] at this ⊢
      exact this

theorem interleave_mem {α : Type*} {progs : List (List α)} {tr : List (ℕ × α)}
    (h : Interleave progs tr) (x : ℕ × α) (hx : x ∈ tr) : ∃ p ∈ progs, x.2 ∈ p := by
  induction h with
  | done => simp at hx
  | step progs j a q tr hj _ ih =>
    have hmem := List.mem_of_getElem? hj
    rcases List.mem_cons.1 hx with rfl | hx
    · exact ⟨_, hmem, by simp⟩
    · obtain ⟨p, hp, hxp⟩ := ih hx
      rcases List.mem_or_eq_of_mem_set hp with hp | rfl
      · exact ⟨p, hp, hxp⟩
      · exact ⟨_, hmem, List.mem_cons_of_mem _ hxp⟩

/-- C17: for every number of threads, every program of each thread and every interleaving of their
critical sections, each thread observes exactly what it would observe running alone on a new
cache. -/
theorem C17_threads (hy hy' : F → ℕ) (progs : List (List (CacheCall F)))
    (hf : ∀ p ∈ progs, ∀ call ∈ p, call.Fair) (tr : List (ℕ × CacheCall F))
    (htr : Interleave progs tr) (i : ℕ) (p : List (CacheCall F)) (hp : progs[i]? = some p) :
    threadOutputs i ((tr.map Prod.fst).zip
        ((runCalls ops deser (PublicKeyCache.new ops hy) (tr.map Prod.snd)).1.map (observe ops))) =
      (runCalls ops deser (PublicKeyCache.new ops hy') p).1.map (observe ops) := by
  rw [C13_history_independence ops deser hy, C13_history_independence ops deser hy']
  · rw [← interleave_thread htr i p hp]
    clear htr hf hp
    induction tr with
    | nil => rfl
    | cons x tr ih =>
      by_cases hx : x.1 = i
      · simp only [threadOutputs, List.map_cons, List.zip_cons_cons, List.filterMap_cons, hx,
          if_true] at ih ⊢
        rw [ih]
      · simp only [threadOutputs, List.map_cons, List.zip_cons_cons, List.filterMap_cons, hx,
          if_false] at ih ⊢
        rw [ih]
  · intro call hc
    exact hf p (List.mem_of_getElem? hp) call hc
  · intro call hc
    obtain ⟨x, hx, rfl⟩ := List.mem_map.1 hc
    obtain ⟨p, hp, hxp⟩ := interleave_mem htr x hx
    exact hf p hp _ hxp

/-! ## C59 -/

/-- C59: if `agg` denotes the plain aggregate of a duplicate-free key list that splits (up to
order) into `removed` and `rest`, then `aggregate_public_keys_subtract(agg, removed)` denotes the
plain aggregate of `rest`, after any history of calls. -/
theorem C59_subtract (hy : F → ℕ) (calls : List (CacheCall F)) (hf : ∀ call ∈ calls, call.Fair)
    (agg : JacRep F) (keys removed rest : List (JacRep F)) (hn : keys.Nodup)
    (hsplit : keys.Perm (removed ++ rest))
    (hagg : ops.pt agg = aggregatePublicKeys (keys.map ops.pt)) (hy' : F → ℕ)
    (sh1 sh2 : List (JacRep F) → List (JacRep F))
    (h1 : ∀ l, (sh1 l).Perm l) (h2 : ∀ l, (sh2 l).Perm l) :
    observe ops ((CacheCall.aggregateSubtract agg removed hy' sh1 sh2).step ops deser
      (runCalls ops deser (PublicKeyCache.new ops hy) calls).2).1 =
      .ok (some (aggregatePublicKeys (rest.map ops.pt))) := by
  have hc := (run_refines ops deser _ (CacheInv.new ops deser hy) calls hf).2
  rw [(step_refines ops deser _ hc (.aggregateSubtract agg removed hy' sh1 sh2) ⟨h1, h2⟩).1]
  have hr : removed.Nodup := (List.nodup_append.1 (hsplit.nodup_iff.1 hn)).1
  simp only [CacheCall.expected, distinctSum, hr.dedup, hagg, aggregatePublicKeys_eq_sum]
  rw [(hsplit.map ops.pt).sum_eq]
  simp

/-- C59 (violation for repeated keys): subtracting a key that was aggregated (plainly) twice
removes only one occurrence. -/
theorem C59_violation_repeated (hy : F → ℕ) (agg k : JacRep F) (hk : ops.pt k ≠ 0)
    (hagg : ops.pt agg = aggregatePublicKeys ([k, k].map ops.pt)) :
    observe ops ((CacheCall.aggregateSubtract agg [k, k] hy id id).step ops deser
      (PublicKeyCache.new ops hy)).1 ≠ .ok (some 0) := by
  rw [(step_refines ops deser _ (CacheInv.new ops deser hy) (.aggregateSubtract agg [k, k] hy id id)
    ⟨fun _ => .rfl, fun _ => .rfl⟩).1]
  have : [k, k].dedup = [k] := by simp
  simp [CacheCall.expected, distinctSum, this, hagg, aggregatePublicKeys_eq_sum, hk]

/-! ## Non-vacuity: a concrete cache -/

/-- Example arithmetic (not code from /repo): over the integers, `(x, y, z)` denotes `x * z`, so
`(a, y, 1)` and `(-a, y, -1)` are two representations of one element. -/
def toyOps : CurveOps ℤ ℤ where
  pt k := k.x * k.z
  zero := ⟨0, 1, 1⟩
  add a b := ⟨a.x * a.z + b.x * b.z, 5, 1⟩
  sub a b := ⟨a.x * a.z - b.x * b.z, 6, 1⟩
  pt_zero := by simp
  pt_add := by intro a b; simp
  pt_sub := by intro a b; simp

/-- Example deserialiser (not code from /repo): one byte denotes itself, everything else fails. -/
def toyDeser : Bytes → Outcome Unit (JacRep ℤ)
  | [b] => .ok ⟨b.toNat, 0, 1⟩
  | _ => .err ()

/-- A history touching every operation, with a repeated key, a shared point in two representations,
a repeated and a failing deserialisation, and reversed iteration orders. -/
def exampleCalls : List (CacheCall ℤ) :=
  [.aggregate [⟨3, 0, 1⟩, ⟨4, 0, 1⟩, ⟨3, 0, 1⟩] (fun y => y.toNat) List.reverse id,
   .deserialize [7], .deserialize [7], .deserialize [],
   .aggregate [⟨4, 0, 1⟩, ⟨5, 0, 1⟩, ⟨-5, 0, -1⟩] (fun _ => 0) id List.reverse,
   .aggregateSubtract ⟨20, 0, 1⟩ [⟨4, 0, 1⟩] (fun _ => 0) id id,
   .clear (fun _ => 3),
   .aggregate [⟨4, 0, 1⟩] (fun _ => 0) id id]

/-- The example history satisfies the hypotheses of C13, C15, C17. -/
example : ∀ call ∈ exampleCalls, call.Fair := by
  have hrev : ∀ l : List (JacRep ℤ), l.reverse.Perm l := fun l => List.reverse_perm l
  simp [exampleCalls, CacheCall.Fair, hrev]

/-- The values observed on the example history (a repeated key counted once, one point in two
representations counted twice). -/
example : (runCalls toyOps toyDeser (PublicKeyCache.new toyOps fun _ => 0) exampleCalls).1.map
      (observe toyOps) =
    [.ok (some 7), .ok (some 7), .ok (some 7), .err (), .ok (some 14), .ok (some 16), .ok none,
      .ok (some 4)] := by decide +kernel

/-- C14/C59 hypotheses: a non-zero key. C16: two representations of one point. -/
example : toyOps.pt ⟨3, 0, 1⟩ ≠ 0 ∧ (⟨5, 0, 1⟩ : JacRep ℤ) ≠ ⟨-5, 0, -1⟩ ∧
    toyOps.pt ⟨5, 0, 1⟩ = toyOps.pt ⟨-5, 0, -1⟩ := by decide

/-- C17 hypotheses: a genuine interleaving of two non-empty programs. -/
example : Interleave [[1, 2], [3]] [(0, 1), (1, 3), (0, 2)] :=
  .step _ 0 1 [2] _ rfl (.step _ 1 3 [] _ rfl (.step _ 0 2 [] _ rfl (.done _ (by simp))))

/-! ## The theorems applied to concrete data -/

theorem exampleCalls_fair : ∀ call ∈ exampleCalls, call.Fair := by
  have hrev : ∀ l : List (JacRep ℤ), l.reverse.Perm l := fun l => List.reverse_perm l
  simp [exampleCalls, CacheCall.Fair, hrev]

/-- The cache after the example history. -/
def exampleCache : PublicKeyCache ℤ :=
  (runCalls toyOps toyDeser (PublicKeyCache.new toyOps fun _ => 0) exampleCalls).2

/-- `C13_history_independence`. -/
example : (runCalls toyOps toyDeser (PublicKeyCache.new toyOps fun _ => 0) exampleCalls).1.map (observe toyOps) =
    exampleCalls.map (CacheCall.expected toyOps toyDeser) :=
  C13_history_independence _ _ _ _ exampleCalls_fair

/-- `C14_agrees_nodup`, `C14_violation`, `C14_agrees_iff` (keys that cancel) and `C16_two_representations`, after the
example history, with the iteration orders reversed. -/
example : toyOps.pt (exampleCache.aggregate toyOps [⟨3, 0, 1⟩, ⟨8, 0, 1⟩] (fun _ => 2) List.reverse id).1 =
      aggregatePublicKeys [3, 8] ∧
    toyOps.pt (exampleCache.aggregate toyOps [⟨3, 0, 1⟩, ⟨3, 0, 1⟩] (fun _ => 2) List.reverse id).1 ≠
      aggregatePublicKeys [3, 3] ∧
    toyOps.pt (exampleCache.aggregate toyOps [⟨3, 0, 1⟩, ⟨3, 0, 1⟩, ⟨-3, 0, 1⟩, ⟨-3, 0, 1⟩] (fun _ => 2)
      List.reverse id).1 = aggregatePublicKeys [3, 3, -3, -3] ∧
    toyOps.pt (exampleCache.aggregate toyOps [⟨5, 0, 1⟩, ⟨-5, 0, -1⟩] (fun _ => 2) List.reverse id).1 = 5 + 5 :=
  ⟨C14_agrees_nodup toyOps toyDeser _ _ exampleCalls_fair [⟨3, 0, 1⟩, ⟨8, 0, 1⟩] (by decide) _ _ _
      List.reverse_perm fun _ => .rfl,
    C14_violation toyOps toyDeser _ _ exampleCalls_fair ⟨3, 0, 1⟩ (by decide) _ _ _ List.reverse_perm
      fun _ => .rfl,
    (C14_agrees_iff toyOps toyDeser _ _ exampleCalls_fair
      [⟨3, 0, 1⟩, ⟨3, 0, 1⟩, ⟨-3, 0, 1⟩, ⟨-3, 0, 1⟩] _ _ _ List.reverse_perm fun _ => .rfl).2 (by decide),
    C16_two_representations toyOps toyDeser _ _ exampleCalls_fair ⟨5, 0, 1⟩ ⟨-5, 0, -1⟩ (by decide)
      (by decide) _ _ _ List.reverse_perm fun _ => .rfl⟩

/-- `C14_discrepancy`: of a key given three times two are missing. -/
example : aggregatePublicKeys [3, 3, 3, 8] -
    toyOps.pt (exampleCache.aggregate toyOps [⟨3, 0, 1⟩, ⟨3, 0, 1⟩, ⟨3, 0, 1⟩, ⟨8, 0, 1⟩] (fun _ => 2) id id).1 = 6 :=
  C14_discrepancy toyOps toyDeser _ _ exampleCalls_fair [⟨3, 0, 1⟩, ⟨3, 0, 1⟩, ⟨3, 0, 1⟩, ⟨8, 0, 1⟩] _ id id
    (fun _ => .rfl) fun _ => .rfl

/-- `C15_deserialize_transparent`, `C15_cache_bounded`, `C15_hit`. -/
example : (exampleCache.deserialize toyDeser [9]).1 = toyDeser [9] ∧ exampleCache.de.length ≤ 512 ∧
    (exampleCache.deserialize toyDeser [9]).2.de.head? = some ([9], ⟨9, 0, 1⟩) :=
  ⟨(C15_deserialize_transparent toyOps toyDeser _ _ exampleCalls_fair [9]).1,
    (C15_cache_bounded toyOps toyDeser _ _ exampleCalls_fair).1,
    C15_hit toyDeser exampleCache [9] ⟨9, 0, 1⟩ (by decide +kernel)⟩

/-- `C17_threads`: two threads, the second with a repeated key, one of their interleavings. -/
example : threadOutputs 1 (([0, 1, 0]).zip ((runCalls toyOps toyDeser (PublicKeyCache.new toyOps fun _ => 0)
      [.deserialize [7], .aggregate [⟨3, 0, 1⟩, ⟨3, 0, 1⟩] (fun _ => 1) id id, .clear fun _ => 4]).1.map
      (observe toyOps))) =
    (runCalls toyOps toyDeser (PublicKeyCache.new toyOps fun _ => 8)
      [.aggregate [⟨3, 0, 1⟩, ⟨3, 0, 1⟩] (fun _ => 1) id id]).1.map (observe toyOps) :=
  C17_threads toyOps toyDeser (fun _ => 0) (fun _ => 8)
    [[.deserialize [7], .clear fun _ => 4], [.aggregate [⟨3, 0, 1⟩, ⟨3, 0, 1⟩] (fun _ => 1) id id]]
    (by simp [CacheCall.Fair])
    [(0, .deserialize [7]), (1, .aggregate [⟨3, 0, 1⟩, ⟨3, 0, 1⟩] (fun _ => 1) id id), (0, .clear fun _ => 4)]
    (.step _ 0 _ [.clear fun _ => 4] _ rfl (.step _ 1 _ [] _ rfl (.step _ 0 _ [] _ rfl (.done _ (by simp)))))
    1 _ rfl

/-- `C59_subtract` and `C59_violation_repeated`. -/
example : observe toyOps ((CacheCall.aggregateSubtract ⟨15, 0, 1⟩ [⟨4, 0, 1⟩] (fun _ => 0) id id).step toyOps toyDeser
      exampleCache).1 = .ok (some (aggregatePublicKeys [3, 8])) ∧
    observe toyOps ((CacheCall.aggregateSubtract ⟨6, 0, 1⟩ [⟨3, 0, 1⟩, ⟨3, 0, 1⟩] (fun _ => 0) id id).step toyOps
      toyDeser (PublicKeyCache.new toyOps fun _ => 0)).1 ≠ .ok (some 0) :=
  ⟨C59_subtract toyOps toyDeser _ _ exampleCalls_fair ⟨15, 0, 1⟩ [⟨3, 0, 1⟩, ⟨4, 0, 1⟩, ⟨8, 0, 1⟩] [⟨4, 0, 1⟩]
      [⟨3, 0, 1⟩, ⟨8, 0, 1⟩] (by decide) (by decide) (by decide) _ id id (fun _ => .rfl) fun _ => .rfl,
    C59_violation_repeated toyOps toyDeser _ ⟨6, 0, 1⟩ ⟨3, 0, 1⟩ (by decide) (by decide)⟩

end Verif
