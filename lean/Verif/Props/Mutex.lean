import Verif.Model.Mutex
import Verif.Props.Cache

/-!
# C84: concurrent use of the key cache

C17 takes every call as one step.  Here a call takes several moves, between which other threads may
move; the mutex makes every schedule equivalent to an interleaving of whole calls.
-/

set_option linter.unusedSectionVars false

namespace Verif

variable {F : Type*} [DecidableEq F] {G : Type*} [AddCommGroup G] (ops : CurveOps F G)
variable {ε : Type*} (deser : Bytes → Outcome ε (JacRep F))

/-- Upper bound on the moves a thread still has to make for the call it is in. -/
def Pc.rank : Pc ε F → ℕ
  | .start => 5
  | .entered => 4
  | .summed _ _ => 3
  | .missed => 3
  | .storedKeys _ => 2
  | .decoded _ => 2
  | .finish _ => 1

/-- Running alone inside the critical section, the call ends with the result `o` and the cache `c'`. -/
inductive Leads (call : CacheCall F) (o : Outcome ε (Option (JacRep F))) (c' : PublicKeyCache F) :
    Pc ε F → PublicKeyCache F → Prop
  | here : Leads call o c' (.finish o) c'
  | next (pc : Pc ε F) (c : PublicKeyCache F) (hs : pc ≠ .start) (hf : ∀ o, pc ≠ .finish o)
      (hr : (call.advance ops deser pc c).1.rank < pc.rank)
      (h : Leads call o c' (call.advance ops deser pc c).1 (call.advance ops deser pc c).2) :
      Leads call o c' pc c

theorem leads_entered (call : CacheCall F) (c : PublicKeyCache F) :
    Leads ops deser call (call.step ops deser c).1 (call.step ops deser c).2 .entered c := by
  cases call with
  | aggregate keys hy sh1 sh2 =>
    refine .next _ _ (by simp) (by simp) (by simp [CacheCall.advance, Pc.rank]) ?_
    refine .next _ _ (by simp [CacheCall.advance]) (by simp [CacheCall.advance])
      (by simp [CacheCall.advance, Pc.rank]) ?_
    refine .next _ _ (by simp [CacheCall.advance]) (by simp [CacheCall.advance])
      (by simp [CacheCall.advance, Pc.rank]) ?_
    exact .here
  | deserialize data =>
    have hstep : ∀ o de', lruGet c.de data = (o, de') →
        (CacheCall.deserialize data).advance ops deser (.entered : Pc ε F) c =
        (match o with
          | some k => (.finish (.ok (some k)), { c with de := de' })
          | none => (.missed, { c with de := de' })) := by
      intro o de' h
      simp only [CacheCall.advance, h]
      cases o <;> rfl
    have hcall : ∀ o de', lruGet c.de data = (o, de') →
        (CacheCall.deserialize data).step ops deser c =
        (match o with
          | some k => (.ok (some k), { c with de := de' })
          | none => match deser data with
            | .ok k => (.ok (some k), { c with de := lruPut de' data k })
            | .err e => (.err e, { c with de := de' })
            | .panic => (.panic, { c with de := de' })) := by
      intro o de' h
      simp only [CacheCall.step, PublicKeyCache.deserialize, h]
      cases o with
      | some k => rfl
      | none => cases deser data <;> rfl
    rcases hg : lruGet c.de data with ⟨o, de'⟩
    have h1 := hstep _ _ hg
    rw [hcall _ _ hg]
    cases o with
    | some k =>
      simp only [] at h1
      refine .next _ _ (by simp) (by simp) (by rw [h1]; simp [Pc.rank]) ?_
      rw [h1]
      exact .here
    | none =>
      simp only [] at h1
      refine .next _ _ (by simp) (by simp) (by rw [h1]; simp [Pc.rank]) ?_
      rw [h1]
      have h2 : (CacheCall.deserialize data).advance ops deser (.missed : Pc ε F)
          { c with de := de' } = (match deser data with
            | .ok k => (.decoded k, { c with de := de' })
            | .err e => (.finish (.err e), { c with de := de' })
            | .panic => (.finish .panic, { c with de := de' })) := by
        simp only [CacheCall.advance]
        cases deser data <;> rfl
      cases hd : deser data with
      | ok k =>
        rw [hd] at h2
        simp only [] at h2 ⊢
        refine .next _ _ (by simp) (by simp) (by rw [h2]; simp [Pc.rank]) ?_
        rw [h2]
        refine .next _ _ (by simp) (by simp) (by simp [CacheCall.advance, Pc.rank]) ?_
        exact .here
      | err e =>
        rw [hd] at h2
        simp only [] at h2 ⊢
        refine .next _ _ (by simp) (by simp) (by rw [h2]; simp [Pc.rank]) ?_
        rw [h2]
        exact .here
      | panic =>
        rw [hd] at h2
        simp only [] at h2 ⊢
        refine .next _ _ (by simp) (by simp) (by rw [h2]; simp [Pc.rank]) ?_
        rw [h2]
        exact .here
  | clear hy =>
    refine .next _ _ (by simp) (by simp) (by simp [CacheCall.advance, Pc.rank]) ?_
    exact .here
  | aggregateSubtract agg keys hy sh1 sh2 =>
    refine .next _ _ (by simp) (by simp) (by simp [CacheCall.advance, Pc.rank]) ?_
    refine .next _ _ (by simp [CacheCall.advance]) (by simp [CacheCall.advance])
      (by simp [CacheCall.advance, Pc.rank]) ?_
    refine .next _ _ (by simp [CacheCall.advance]) (by simp [CacheCall.advance])
      (by simp [CacheCall.advance, Pc.rank]) ?_
    exact .here

theorem runCalls_concat (c : PublicKeyCache F) (calls : List (CacheCall F)) (call : CacheCall F) :
    runCalls ops deser c (calls ++ [call]) =
      ((runCalls ops deser c calls).1 ++
        [(call.step ops deser (runCalls ops deser c calls).2).1],
        (call.step ops deser (runCalls ops deser c calls).2).2) := by
  induction calls generalizing c with
  | nil => rfl
  | cons a calls ih =>
    simp only [List.cons_append, runCalls]
    rw [ih]

theorem runCalls_length (c : PublicKeyCache F) (calls : List (CacheCall F)) :
    (runCalls ops deser c calls).1.length = calls.length := by
  induction calls generalizing c with
  | nil => rfl
  | cons a calls ih => simp only [runCalls, List.length_cons]; rw [ih]

theorem threadOutputs_concat {α : Type*} (i j : ℕ) (tr : List (ℕ × α)) (a : α) :
    threadOutputs i (tr ++ [(j, a)]) =
      if j = i then threadOutputs i tr ++ [a] else threadOutputs i tr := by
  unfold threadOutputs
  rw [List.filterMap_append]
  by_cases h : j = i <;> simp [h]

theorem step_ne_panic (hd : ∀ data, deser data ≠ .panic) (call : CacheCall F)
    (c : PublicKeyCache F) : (call.step ops deser c).1 ≠ .panic := by
  cases call with
  | aggregate => simp [CacheCall.step]
  | clear => simp [CacheCall.step]
  | aggregateSubtract => simp [CacheCall.step]
  | deserialize data =>
    simp only [CacheCall.step, PublicKeyCache.deserialize]
    rcases lruGet c.de data with ⟨_ | k, de'⟩
    · simp only []
      have := hd data
      revert this
      cases deser data <;> simp [Outcome.map]
    · simp [Outcome.map]

/-- The state `s` is reached from the programs `progs` by the completed calls `tr`, tagged with their
threads, one after the other, plus part of at most one further call, by the holder of the lock. -/
structure Lin (hy : F → ℕ) (progs : List (List (CacheCall F))) (s : MutexState ε F)
    (tr : List (ℕ × CacheCall F)) : Prop where
  len : s.threads.length = progs.length
  thread : ∀ i t, s.threads[i]? = some t →
    progs[i]? = some (threadOutputs i tr ++ t.todo) ∧
    t.out = threadOutputs i ((tr.map Prod.fst).zip
      (runCalls ops deser (PublicKeyCache.new ops hy) (tr.map Prod.snd)).1)
  free : s.holder = none →
    s.cache = (runCalls ops deser (PublicKeyCache.new ops hy) (tr.map Prod.snd)).2
  held : ∀ h, s.holder = some h → ∃ t call rest, s.threads[h]? = some t ∧ t.todo = call :: rest ∧
    Leads ops deser call
      (call.step ops deser (runCalls ops deser (PublicKeyCache.new ops hy) (tr.map Prod.snd)).2).1
      (call.step ops deser (runCalls ops deser (PublicKeyCache.new ops hy) (tr.map Prod.snd)).2).2
      t.pc s.cache
  others : ∀ i t, s.threads[i]? = some t → s.holder ≠ some i → t.pc = .start
  clean : s.poisoned = false
  tags : ∀ x ∈ tr, x.1 < progs.length

theorem Lin.init (hy : F → ℕ) (progs : List (List (CacheCall F))) :
    Lin ops deser hy progs (MutexState.init ops hy progs) [] where
  len := by simp [MutexState.init]
  thread := by
    intro i t h
    simp only [MutexState.init, List.getElem?_map, Option.map_eq_some_iff] at h
    obtain ⟨p, hp, rfl⟩ := h
    exact ⟨by simpa [threadOutputs] using hp, rfl⟩
  free := fun _ => rfl
  held := by intro h hh; cases hh
  others := by
    intro i t h _
    simp only [MutexState.init, List.getElem?_map, Option.map_eq_some_iff] at h
    obtain ⟨p, _, rfl⟩ := h
    rfl
  clean := rfl
  tags := by simp

theorem Leads.cases_finish {call : CacheCall F} {o o' : Outcome ε (Option (JacRep F))}
    {c c' : PublicKeyCache F} (h : Leads ops deser call o c' (.finish o') c) : o' = o ∧ c = c' := by
  cases h with
  | here => exact ⟨rfl, rfl⟩
  | next _ _ _ hf => exact absurd rfl (hf o')

theorem Leads.cases_next {call : CacheCall F} {o : Outcome ε (Option (JacRep F))} {pc : Pc ε F}
    {c c' : PublicKeyCache F} (h : Leads ops deser call o c' pc c) (hf : ∀ o, pc ≠ .finish o) :
    (call.advance ops deser pc c).1.rank < pc.rank ∧
      Leads ops deser call o c' (call.advance ops deser pc c).1 (call.advance ops deser pc c).2 := by
  cases h with
  | here => exact absurd rfl (hf o)
  | next _ _ _ _ hr h => exact ⟨hr, h⟩

theorem Leads.ne_start {call : CacheCall F} {o : Outcome ε (Option (JacRep F))} {pc : Pc ε F}
    {c c' : PublicKeyCache F} (h : Leads ops deser call o c' pc c) : pc ≠ .start := by
  cases h with
  | here => simp
  | next _ _ hs => exact hs

/-- The moves a thread can make. -/
theorem move_cases {s s' : MutexState ε F} {i : ℕ} (hm : s.move ops deser i = some s') :
    ∃ t call rest, s.threads[i]? = some t ∧ t.todo = call :: rest ∧
      ((t.pc = .start ∧ s.holder = none ∧ s.poisoned = true ∧
          s' = { s with threads := s.threads.set i { t with todo := [], out := t.out ++ [.panic] } }) ∨
        (t.pc = .start ∧ s.holder = none ∧ s.poisoned = false ∧
          s' = { s with holder := some i, threads := s.threads.set i { t with pc := .entered } }) ∨
        (t.pc = .finish .panic ∧ s' = { s with
          holder := none
          poisoned := true
          threads := s.threads.set i ⟨[], .start, t.out ++ [.panic]⟩ }) ∨
        (∃ o, t.pc = .finish o ∧ o ≠ .panic ∧ s' = { s with
          holder := none
          threads := s.threads.set i ⟨rest, .start, t.out ++ [o]⟩ }) ∨
        (t.pc ≠ .start ∧ (∀ o, t.pc ≠ .finish o) ∧ s' = { s with
          cache := (call.advance ops deser t.pc s.cache).2
          threads := s.threads.set i { t with pc := (call.advance ops deser t.pc s.cache).1 } })) := by
  unfold MutexState.move at hm
  cases ht : s.threads[i]? with
  | none => rw [ht] at hm; cases hm
  | some t =>
    rw [ht] at hm
    simp only [] at hm
    cases htodo : t.todo with
    | nil => rw [htodo] at hm; cases hm
    | cons call rest =>
      rw [htodo] at hm
      simp only [] at hm
      refine ⟨t, call, rest, rfl, htodo, ?_⟩
      cases hpc : t.pc with
      | start =>
        rw [hpc] at hm
        simp only [] at hm
        cases hh : s.holder with
        | some j => rw [hh] at hm; simp at hm
        | none =>
          rw [hh] at hm
          cases hp : s.poisoned with
          | true =>
            rw [hp] at hm
            simp only [Option.isSome_none, Bool.false_eq_true, if_false, if_true,
              Option.some.injEq] at hm
            exact Or.inl ⟨rfl, rfl, rfl, by rw [← hm, ← hpc]⟩
          | false =>
            rw [hp] at hm
            simp only [Option.isSome_none, Bool.false_eq_true, if_false, Option.some.injEq] at hm
            exact Or.inr (Or.inl ⟨rfl, rfl, rfl, by rw [← hm, ← hp, htodo]⟩)
      | finish o =>
        rw [hpc] at hm
        cases o with
        | panic => exact Or.inr (Or.inr (Or.inl ⟨rfl, (Option.some.inj hm).symm⟩))
        | ok v =>
          exact Or.inr (Or.inr (Or.inr (Or.inl ⟨_, rfl, by simp, (Option.some.inj hm).symm⟩)))
        | err e =>
          exact Or.inr (Or.inr (Or.inr (Or.inl ⟨_, rfl, by simp, (Option.some.inj hm).symm⟩)))
      | _ =>
        rw [hpc] at hm
        exact Or.inr (Or.inr (Or.inr (Or.inr ⟨by simp, by simp, by
          rw [htodo]; exact (Option.some.inj hm).symm⟩)))

theorem set_cases {α : Type*} {l : List α} {i j : ℕ} {a u : α} (h : (l.set i a)[j]? = some u) :
    (j = i ∧ u = a) ∨ (j ≠ i ∧ l[j]? = some u) := by
  by_cases hj : i = j
  · subst hj
    have hlt : i < l.length := by
      have := (List.getElem?_eq_some_iff.1 h).1
      simpa using this
    rw [List.getElem?_set_self hlt] at h
    exact Or.inl ⟨rfl, (Option.some.inj h).symm⟩
  · rw [List.getElem?_set_ne hj] at h
    exact Or.inr ⟨Ne.symm hj, h⟩

theorem set_self {α : Type*} {l : List α} {i : ℕ} {t a : α} (h : l[i]? = some t) :
    (l.set i a)[i]? = some a :=
  List.getElem?_set_self (List.getElem?_eq_some_iff.1 h).1

theorem Lin.move (hd : ∀ data, deser data ≠ .panic) {hy : F → ℕ}
    {progs : List (List (CacheCall F))} {s s' : MutexState ε F} {tr : List (ℕ × CacheCall F)}
    (h : Lin ops deser hy progs s tr) {i : ℕ} (hm : s.move ops deser i = some s') :
    ∃ tr', Lin ops deser hy progs s' tr' := by
  obtain ⟨t, call, rest, ht, htodo, hc⟩ := move_cases ops deser hm
  have holds : t.pc ≠ .start → s.holder = some i := by
    intro hpc
    by_contra hne
    exact hpc (h.others i t ht hne)
  have inside : t.pc ≠ .start → Leads ops deser call
      (call.step ops deser (runCalls ops deser (PublicKeyCache.new ops hy) (tr.map Prod.snd)).2).1
      (call.step ops deser (runCalls ops deser (PublicKeyCache.new ops hy) (tr.map Prod.snd)).2).2
      t.pc s.cache := by
    intro hpc
    obtain ⟨t', call', rest', ht', htodo', hl⟩ := h.held i (holds hpc)
    rw [ht] at ht'
    cases ht'
    rw [htodo] at htodo'
    cases htodo'
    exact hl
  rcases hc with ⟨_, _, hp, _⟩ | ⟨hpc, hh, hp, rfl⟩ | ⟨hpc, _⟩ | ⟨o, hpc, ho, rfl⟩ | ⟨h1, h2, rfl⟩
  · rw [h.clean] at hp; cases hp
  · refine ⟨tr, by simp [h.len], ?_, by simp, ?_, ?_, h.clean, h.tags⟩
    · intro j u hu
      rcases set_cases hu with ⟨rfl, rfl⟩ | ⟨_, hu⟩
      · exact h.thread _ t ht
      · exact h.thread j u hu
    · intro j hj
      cases hj
      refine ⟨_, call, rest, set_self ht, htodo, ?_⟩
      rw [← h.free hh]
      exact leads_entered ops deser call s.cache
    · intro j u hu hj
      rcases set_cases hu with ⟨rfl, rfl⟩ | ⟨_, hu⟩
      · exact absurd rfl hj
      · exact h.others j u hu (by rw [hh]; simp)
  · have := (Leads.cases_finish ops deser (hpc ▸ inside (by rw [hpc]; simp))).1
    exact absurd this.symm (step_ne_panic ops deser hd _ _)
  · have hi := holds (by rw [hpc]; simp)
    obtain ⟨e1, e2⟩ := Leads.cases_finish ops deser (hpc ▸ inside (by rw [hpc]; simp))
    have hzip : ((tr ++ [(i, call)]).map Prod.fst).zip (runCalls ops deser
        (PublicKeyCache.new ops hy) ((tr ++ [(i, call)]).map Prod.snd)).1 =
        (tr.map Prod.fst).zip (runCalls ops deser (PublicKeyCache.new ops hy)
          (tr.map Prod.snd)).1 ++ [(i, o)] := by
      simp only [List.map_append, List.map_cons, List.map_nil]
      rw [runCalls_concat, ← e1, List.zip_append (by simp [runCalls_length])]
      rfl
    refine ⟨tr ++ [(i, call)], by simp [h.len], ?_, ?_, by simp, ?_, h.clean, ?_⟩
    · intro j u hu
      rw [hzip, threadOutputs_concat, threadOutputs_concat]
      rcases set_cases hu with ⟨rfl, rfl⟩ | ⟨hne, hu⟩
      · obtain ⟨p1, p2⟩ := h.thread _ t ht
        rw [if_pos rfl, if_pos rfl, ← p2, p1, htodo]
        simp
      · rw [if_neg (Ne.symm hne), if_neg (Ne.symm hne)]
        exact h.thread j u hu
    · intro _
      simp only [List.map_append, List.map_cons, List.map_nil]
      rw [runCalls_concat]
      exact e2
    · intro j u hu _
      rcases set_cases hu with ⟨rfl, rfl⟩ | ⟨hne, hu⟩
      · rfl
      · exact h.others j u hu (by rw [hi]; simpa using Ne.symm hne)
    · intro x hx
      rcases List.mem_append.1 hx with hx | hx
      · exact h.tags x hx
      · rw [List.mem_singleton.1 hx, ← h.len]
        exact (List.getElem?_eq_some_iff.1 ht).1
  · have hi := holds h1
    refine ⟨tr, by simp [h.len], ?_, ?_, ?_, ?_, h.clean, h.tags⟩
    · intro j u hu
      rcases set_cases hu with ⟨rfl, rfl⟩ | ⟨_, hu⟩
      · exact h.thread _ t ht
      · exact h.thread j u hu
    · intro hn
      exact absurd (hi.symm.trans hn) (by simp)
    · intro j hj
      obtain rfl : i = j := Option.some.inj (hi.symm.trans hj)
      refine ⟨_, call, rest, set_self ht, htodo, ?_⟩
      exact (Leads.cases_next ops deser (inside h1) h2).2
    · intro j u hu hj
      rcases set_cases hu with ⟨rfl, rfl⟩ | ⟨_, hu⟩
      · exact absurd hi hj
      · exact h.others j u hu hj

theorem exec_cons (s : MutexState ε F) (i : ℕ) (schedule : List ℕ) :
    s.exec ops deser (i :: schedule) = ((s.move ops deser i).getD s).exec ops deser schedule := rfl

theorem Lin.exec (hd : ∀ data, deser data ≠ .panic) {hy : F → ℕ}
    {progs : List (List (CacheCall F))} (schedule : List ℕ) {s : MutexState ε F}
    {tr : List (ℕ × CacheCall F)} (h : Lin ops deser hy progs s tr) :
    ∃ tr', Lin ops deser hy progs (s.exec ops deser schedule) tr' := by
  induction schedule generalizing s tr with
  | nil => exact ⟨tr, h⟩
  | cons i schedule ih =>
    rw [exec_cons]
    cases hm : s.move ops deser i with
    | none => exact ih h
    | some s' =>
      obtain ⟨tr', h'⟩ := h.move ops deser hd hm
      exact ih h'

theorem interleave_of_threads {α : Type*} (tr : List (ℕ × α)) (progs : List (List α))
    (ht : ∀ x ∈ tr, x.1 < progs.length) (h : ∀ i p, progs[i]? = some p → p = threadOutputs i tr) :
    Interleave progs tr := by
  induction tr generalizing progs with
  | nil =>
    refine .done _ fun p hp => ?_
    obtain ⟨i, hi, rfl⟩ := List.getElem_of_mem hp
    exact h i _ (List.getElem?_eq_getElem hi)
  | cons x tr ih =>
    obtain ⟨j, a⟩ := x
    have hj : j < progs.length := ht _ List.mem_cons_self
    have hp : progs[j]? = some (a :: threadOutputs j tr) := by
      rw [List.getElem?_eq_getElem hj, h j _ (List.getElem?_eq_getElem hj)]
      simp [threadOutputs]
    refine .step _ j a (threadOutputs j tr) tr hp (ih _ ?_ ?_)
    · intro x hx
      simpa using ht x (List.mem_cons_of_mem _ hx)
    · intro i p hi
      rcases set_cases hi with ⟨rfl, rfl⟩ | ⟨hne, hi⟩
      · rfl
      · rw [h i p hi]
        simp [threadOutputs, Ne.symm hne]

/-- C84: if deserialisation never panics, then after every schedule the threads have received, and the
cache contains, what they would after some sequence of whole calls, in which the calls of each thread
are the first ones of its program, in order; the mutex is not poisoned.  (If the lock is held, the
cache may be in the middle of a call; the results are still those.) -/
theorem C84_linearizable (hd : ∀ data, deser data ≠ .panic) (hy : F → ℕ)
    (progs : List (List (CacheCall F))) (schedule : List ℕ) :
    let s := (MutexState.init ops hy progs).exec ops deser schedule
    ∃ tr : List (ℕ × CacheCall F),
      let seq := runCalls ops deser (PublicKeyCache.new ops hy) (tr.map Prod.snd)
      s.poisoned = false ∧ (s.holder = none → s.cache = seq.2) ∧
        s.threads.length = progs.length ∧ ∀ (i : ℕ) (t : CacheThread ε F) (p : List (CacheCall F)),
          s.threads[i]? = some t → progs[i]? = some p →
          p = threadOutputs i tr ++ t.todo ∧
            t.out = threadOutputs i ((tr.map Prod.fst).zip seq.1) := by
  obtain ⟨tr, h⟩ := Lin.exec ops deser hd schedule (Lin.init ops deser hy progs)
  refine ⟨tr, h.clean, h.free, h.len, fun i t p ht hp => ?_⟩
  obtain ⟨h1, h2⟩ := h.thread i t ht
  exact ⟨Option.some.inj (hp.symm.trans h1), h2⟩

/-- C84: when all threads are done, the sequence is an interleaving of their programs. -/
theorem C84_interleaving (hd : ∀ data, deser data ≠ .panic) (hy : F → ℕ)
    (progs : List (List (CacheCall F))) (schedule : List ℕ)
    (hdone : ∀ t ∈ ((MutexState.init (ε := ε) ops hy progs).exec ops deser schedule).threads,
      t.todo = []) :
    let s := (MutexState.init ops hy progs).exec ops deser schedule
    ∃ tr : List (ℕ × CacheCall F), Interleave progs tr ∧
      let seq := runCalls ops deser (PublicKeyCache.new ops hy) (tr.map Prod.snd)
      s.cache = seq.2 ∧ ∀ (i : ℕ) (t : CacheThread ε F), s.threads[i]? = some t →
        t.out = threadOutputs i ((tr.map Prod.fst).zip seq.1) := by
  obtain ⟨tr, h⟩ := Lin.exec ops deser hd schedule (Lin.init ops deser hy progs)
  refine ⟨tr, ?_, h.free ?_, fun i t ht => (h.thread i t ht).2⟩
  · refine interleave_of_threads tr progs h.tags fun i p hp => ?_
    have hi : i < ((MutexState.init (ε := ε) ops hy progs).exec ops deser schedule).threads.length := by
      rw [h.len]; exact (List.getElem?_eq_some_iff.1 hp).1
    have ht := List.getElem?_eq_getElem hi
    obtain ⟨h1, _⟩ := h.thread i _ ht
    rw [hdone _ (List.getElem_mem hi), List.append_nil, hp] at h1
    exact Option.some.inj h1
  · cases hh : ((MutexState.init (ε := ε) ops hy progs).exec ops deser schedule).holder with
    | none => rfl
    | some j =>
      obtain ⟨t, call, rest, ht, htodo, _⟩ := h.held j hh
      rw [hdone t (List.mem_of_getElem? ht)] at htodo
      cases htodo

theorem threadOutputs_map {α β : Type*} (f : α → β) (i : ℕ) (tr : List (ℕ × α)) :
    (threadOutputs i tr).map f = threadOutputs i ((tr.map Prod.fst).zip ((tr.map Prod.snd).map f)) := by
  induction tr with
  | nil => rfl
  | cons x tr ih =>
    by_cases hx : x.1 = i
    · simp only [threadOutputs, List.map_cons, List.zip_cons_cons, List.filterMap_cons, hx,
        if_true] at ih ⊢
      rw [ih]
    · simp only [threadOutputs, List.map_cons, List.zip_cons_cons, List.filterMap_cons, hx,
        if_false] at ih ⊢
      rw [ih]

theorem threadOutputs_zip_map {α β : Type*} (f : α → β) (i : ℕ) (tags : List ℕ) (l : List α) :
    (threadOutputs i (tags.zip l)).map f = threadOutputs i (tags.zip (l.map f)) := by
  induction tags generalizing l with
  | nil => rfl
  | cons x tags ih =>
    cases l with
    | nil => rfl
    | cons a l =>
      have := ih l
      by_cases hx : x = i
      · simp only [threadOutputs, List.map_cons, List.zip_cons_cons, List.filterMap_cons, hx,
          if_true] at this ⊢
        rw [this]
      · simp only [threadOutputs, List.map_cons, List.zip_cons_cons, List.filterMap_cons, hx,
          if_false] at this ⊢
        rw [this]

theorem mem_threadOutputs {α : Type*} {tr : List (ℕ × α)} {x : ℕ × α} (h : x ∈ tr) :
    x.2 ∈ threadOutputs x.1 tr :=
  List.mem_filterMap.2 ⟨x, h, if_pos rfl⟩

/-- C84: under every schedule, at every moment, the results a thread has received so far denote what
its own calls denote, in order, whatever the other threads do. -/
theorem C84_observed (hd : ∀ data, deser data ≠ .panic) (hy : F → ℕ)
    (progs : List (List (CacheCall F))) (hf : ∀ p ∈ progs, ∀ call ∈ p, call.Fair)
    (schedule : List ℕ) (i : ℕ) (t : CacheThread ε F) (p : List (CacheCall F))
    (ht : ((MutexState.init ops hy progs).exec ops deser schedule).threads[i]? = some t)
    (hp : progs[i]? = some p) :
    t.out.map (observe ops) = (p.take t.out.length).map (CacheCall.expected ops deser) ∧
      p.length = t.out.length + t.todo.length := by
  obtain ⟨tr, h⟩ := Lin.exec ops deser hd schedule (Lin.init ops deser hy progs)
  obtain ⟨h1, h2⟩ := h.thread i t ht
  have h1 := Option.some.inj (hp.symm.trans h1)
  have hfair : ∀ call ∈ tr.map Prod.snd, call.Fair := by
    intro call hc
    obtain ⟨x, hx, rfl⟩ := List.mem_map.1 hc
    have hlt : x.1 < ((MutexState.init (ε := ε) ops hy progs).exec ops deser
        schedule).threads.length := by rw [h.len]; exact h.tags x hx
    have hq := (h.thread x.1 _ (List.getElem?_eq_getElem hlt)).1
    exact hf _ (List.mem_of_getElem? hq) _ (List.mem_append_left _ (mem_threadOutputs hx))
  have hout : t.out.map (observe ops) =
      (threadOutputs i tr).map (CacheCall.expected ops deser) := by
    rw [h2, threadOutputs_zip_map, threadOutputs_map,
      (run_refines ops deser _ (CacheInv.new ops deser hy) _ hfair).1]
  have hlen : t.out.length = (threadOutputs i tr).length := by
    simpa using congrArg List.length hout
  rw [hlen, h1, List.take_left]
  exact ⟨hout, by simp⟩

/-! ## Without any assumption on deserialisation -/

/-- At most the holder of the lock is inside a call, and it is in the middle of one. -/
structure Excl (s : MutexState ε F) : Prop where
  held : ∀ h, s.holder = some h → ∃ t call rest o c', s.threads[h]? = some t ∧
    t.todo = call :: rest ∧ Leads ops deser call o c' t.pc s.cache
  others : ∀ i t, s.threads[i]? = some t → s.holder ≠ some i → t.pc = .start
  dead : s.poisoned = true → s.holder = none

theorem Excl.init (hy : F → ℕ) (progs : List (List (CacheCall F))) :
    Excl ops deser (MutexState.init (ε := ε) ops hy progs) where
  held := by intro h hh; cases hh
  others := (Lin.init ops deser hy progs).others
  dead := fun _ => rfl

theorem Excl.inside {s : MutexState ε F} (h : Excl ops deser s) {i : ℕ} {t : CacheThread ε F}
    (ht : s.threads[i]? = some t) (hpc : t.pc ≠ .start) :
    s.holder = some i ∧ ∃ call rest o c', t.todo = call :: rest ∧
      Leads ops deser call o c' t.pc s.cache := by
  have hi : s.holder = some i := by
    by_contra hne
    exact hpc (h.others i t ht hne)
  obtain ⟨t', call, rest, o, c', ht', htodo, hl⟩ := h.held i hi
  rw [ht] at ht'
  cases ht'
  exact ⟨hi, call, rest, o, c', htodo, hl⟩

theorem Excl.move {s s' : MutexState ε F} (h : Excl ops deser s) {i : ℕ}
    (hm : s.move ops deser i = some s') : Excl ops deser s' := by
  obtain ⟨t, call, rest, ht, htodo, hc⟩ := move_cases ops deser hm
  rcases hc with ⟨hpc, hh, hp, rfl⟩ | ⟨hpc, hh, hp, rfl⟩ | ⟨hpc, rfl⟩ | ⟨o, hpc, ho, rfl⟩ |
    ⟨h1, h2, rfl⟩
  · refine ⟨fun j hj => absurd (hh.symm.trans hj) (by simp), ?_, fun _ => hh⟩
    intro j u hu _
    rcases set_cases hu with ⟨rfl, rfl⟩ | ⟨_, hu⟩
    · exact hpc
    · exact h.others j u hu (by rw [hh]; simp)
  · refine ⟨?_, ?_, fun hp' => absurd (hp.symm.trans hp') (by simp)⟩
    · intro j hj
      cases hj
      exact ⟨_, call, rest, _, _, set_self ht, htodo, leads_entered ops deser call s.cache⟩
    · intro j u hu hj
      rcases set_cases hu with ⟨rfl, rfl⟩ | ⟨_, hu⟩
      · exact absurd rfl hj
      · exact h.others j u hu (by rw [hh]; simp)
  · have hi := (h.inside ops deser ht (by rw [hpc]; simp)).1
    refine ⟨by simp, ?_, fun _ => rfl⟩
    intro j u hu _
    rcases set_cases hu with ⟨rfl, rfl⟩ | ⟨hne, hu⟩
    · rfl
    · exact h.others j u hu (by rw [hi]; simpa using Ne.symm hne)
  · have hi := (h.inside ops deser ht (by rw [hpc]; simp)).1
    refine ⟨by simp, ?_, fun _ => rfl⟩
    intro j u hu _
    rcases set_cases hu with ⟨rfl, rfl⟩ | ⟨hne, hu⟩
    · rfl
    · exact h.others j u hu (by rw [hi]; simpa using Ne.symm hne)
  · obtain ⟨hi, call', rest', o, c', htodo', hl⟩ := h.inside ops deser ht h1
    rw [htodo] at htodo'
    cases htodo'
    refine ⟨?_, ?_, h.dead⟩
    · intro j hj
      obtain rfl : i = j := Option.some.inj (hi.symm.trans hj)
      exact ⟨_, call, rest, o, c', set_self ht, htodo, (hl.cases_next ops deser h2).2⟩
    · intro j u hu hj
      rcases set_cases hu with ⟨rfl, rfl⟩ | ⟨_, hu⟩
      · exact absurd hi hj
      · exact h.others j u hu hj

theorem Excl.exec {s : MutexState ε F} (schedule : List ℕ) (h : Excl ops deser s) :
    Excl ops deser (s.exec ops deser schedule) := by
  induction schedule generalizing s with
  | nil => exact h
  | cons i schedule ih =>
    rw [exec_cons]
    cases hm : s.move ops deser i with
    | none => exact ih h
    | some s' => exact ih (h.move ops deser hm)

/-- C84: under every schedule, two threads are never both inside a call; a thread inside a call holds
the lock. -/
theorem C84_exclusion (hy : F → ℕ) (progs : List (List (CacheCall F))) (schedule : List ℕ)
    (i j : ℕ) (t u : CacheThread ε F)
    (ht : ((MutexState.init ops hy progs).exec ops deser schedule).threads[i]? = some t)
    (hu : ((MutexState.init ops hy progs).exec ops deser schedule).threads[j]? = some u)
    (hti : t.pc ≠ .start) (huj : u.pc ≠ .start) :
    i = j ∧ ((MutexState.init (ε := ε) ops hy progs).exec ops deser schedule).holder = some i := by
  have h := (Excl.init ops deser (ε := ε) hy progs).exec ops deser schedule
  have h1 := (h.inside ops deser ht hti).1
  have h2 := (h.inside ops deser hu huj).1
  exact ⟨Option.some.inj (h1.symm.trans h2), h1⟩

theorem move_isSome {s : MutexState ε F} {i : ℕ} {t : CacheThread ε F}
    (ht : s.threads[i]? = some t) (htodo : t.todo ≠ [])
    (h : t.pc ≠ .start ∨ s.holder = none) : (s.move ops deser i).isSome := by
  unfold MutexState.move
  rw [ht]
  obtain ⟨todo, pc, out⟩ := t
  cases todo with
  | nil => exact absurd rfl htodo
  | cons call rest =>
    cases pc with
    | start =>
      have hh : s.holder = none := h.resolve_left (by simp)
      cases hp : s.poisoned <;> simp [hh]
    | finish o => cases o <;> rfl
    | _ => rfl

theorem Excl.progress {s : MutexState ε F} (h : Excl ops deser s)
    (hw : ∃ t ∈ s.threads, t.todo ≠ []) :
    ∃ i < s.threads.length, (s.move ops deser i).isSome := by
  cases hh : s.holder with
  | none =>
    obtain ⟨t, hm, htodo⟩ := hw
    obtain ⟨i, hi, rfl⟩ := List.getElem_of_mem hm
    exact ⟨i, hi, move_isSome ops deser (List.getElem?_eq_getElem hi) htodo (Or.inr hh)⟩
  | some j =>
    obtain ⟨t, call, rest, o, c', ht, htodo, hl⟩ := h.held j hh
    exact ⟨j, (List.getElem?_eq_some_iff.1 ht).1,
      move_isSome ops deser ht (by rw [htodo]; simp) (Or.inl (hl.ne_start ops deser))⟩

/-- C84: no deadlock: after every schedule, if a thread has calls left then some thread can move. -/
theorem C84_progress (hy : F → ℕ) (progs : List (List (CacheCall F))) (schedule : List ℕ)
    (hw : ∃ t ∈ ((MutexState.init (ε := ε) ops hy progs).exec ops deser schedule).threads,
      t.todo ≠ []) :
    ∃ i, (((MutexState.init (ε := ε) ops hy progs).exec ops deser schedule).move ops deser
      i).isSome := by
  obtain ⟨i, _, h⟩ := ((Excl.init ops deser hy progs).exec ops deser schedule).progress ops deser hw
  exact ⟨i, h⟩

/-! ### Termination -/

/-- Upper bound on the moves a thread still has to make. -/
def CacheThread.weight (t : CacheThread ε F) : ℕ :=
  match t.todo with
  | [] => 0
  | _ :: rest => 5 * rest.length + t.pc.rank

/-- Upper bound on the moves all threads still have to make. -/
def MutexState.weight (s : MutexState ε F) : ℕ := (s.threads.map CacheThread.weight).sum

theorem sum_set_lt {α : Type*} (w : α → ℕ) {l : List α} {i : ℕ} {t a : α} (h : l[i]? = some t)
    (hw : w a < w t) : ((l.set i a).map w).sum < (l.map w).sum := by
  induction l generalizing i with
  | nil => simp at h
  | cons b l ih =>
    cases i with
    | zero =>
      simp only [List.getElem?_cons_zero, Option.some.injEq] at h
      subst h
      simpa using hw
    | succ i =>
      simp only [List.getElem?_cons_succ] at h
      simpa using ih h

theorem rank_pos (pc : Pc ε F) : 0 < pc.rank := by cases pc <;> simp [Pc.rank]

theorem weight_start (todo : List (CacheCall F)) (out : List (Outcome ε (Option (JacRep F)))) :
    CacheThread.weight (⟨todo, .start, out⟩ : CacheThread ε F) = 5 * todo.length := by
  cases todo with
  | nil => rfl
  | cons a todo => simp [CacheThread.weight, Pc.rank]; ring

theorem Excl.weight_lt {s s' : MutexState ε F} (h : Excl ops deser s) {i : ℕ}
    (hm : s.move ops deser i = some s') : s'.weight < s.weight := by
  obtain ⟨t, call, rest, ht, htodo, hc⟩ := move_cases ops deser hm
  have hw : t.weight = 5 * rest.length + t.pc.rank := by simp [CacheThread.weight, htodo]
  have hpos := rank_pos t.pc
  rcases hc with ⟨hpc, hh, hp, rfl⟩ | ⟨hpc, hh, hp, rfl⟩ | ⟨hpc, rfl⟩ | ⟨o, hpc, ho, rfl⟩ |
    ⟨h1, h2, rfl⟩
  · refine sum_set_lt _ ht ?_
    simp only [CacheThread.weight] at hw ⊢
    omega
  · refine sum_set_lt _ ht ?_
    rw [hw, hpc]
    simp [CacheThread.weight, htodo, Pc.rank]
  · refine sum_set_lt _ ht ?_
    rw [weight_start, hw]
    simp only [List.length_nil]
    omega
  · refine sum_set_lt _ ht ?_
    rw [weight_start, hw]
    omega
  · obtain ⟨hi, call', rest', o, c', htodo', hl⟩ := h.inside ops deser ht h1
    rw [htodo] at htodo'
    cases htodo'
    refine sum_set_lt _ ht ?_
    rw [hw]
    simp only [CacheThread.weight, htodo]
    exact Nat.add_lt_add_left (hl.cases_next ops deser h2).1 _

theorem weight_init (hy : F → ℕ) (progs : List (List (CacheCall F))) :
    (MutexState.init (ε := ε) ops hy progs).weight = 5 * (progs.map List.length).sum := by
  simp only [MutexState.weight, MutexState.init]
  induction progs with
  | nil => rfl
  | cons p progs ih =>
    simp only [List.map_cons, List.sum_cons] at ih ⊢
    rw [ih, weight_start]
    ring

theorem Excl.moves_le {s : MutexState ε F} (h : Excl ops deser s) (schedule : List ℕ) :
    s.moves ops deser schedule + (s.exec ops deser schedule).weight ≤ s.weight := by
  induction schedule generalizing s with
  | nil => simp [MutexState.moves, MutexState.exec]
  | cons i schedule ih =>
    rw [exec_cons]
    simp only [MutexState.moves]
    cases hm : s.move ops deser i with
    | none => exact ih h
    | some s' =>
      have h1 := ih (h.move ops deser hm)
      have h2 := h.weight_lt ops deser hm
      simp only [Option.getD_some] at h1 ⊢
      omega

/-- C84: no livelock: under every schedule at most five moves are made per call. -/
theorem C84_moves_bounded (hy : F → ℕ) (progs : List (List (CacheCall F))) (schedule : List ℕ) :
    (MutexState.init (ε := ε) ops hy progs).moves ops deser schedule ≤
      5 * (progs.map List.length).sum := by
  have := (Excl.init ops deser (ε := ε) hy progs).moves_le ops deser schedule
  rw [weight_init] at this
  omega

theorem Excl.round_lt {s : MutexState ε F} (h : Excl ops deser s) (round : List ℕ)
    (hr : ∃ i ∈ round, (s.move ops deser i).isSome) :
    (s.exec ops deser round).weight < s.weight := by
  induction round with
  | nil => simp at hr
  | cons j round ih =>
    rw [exec_cons]
    cases hm : s.move ops deser j with
    | none =>
      refine ih ?_
      obtain ⟨i, hi, hs⟩ := hr
      rcases List.mem_cons.1 hi with rfl | hi
      · rw [hm] at hs; cases hs
      · exact ⟨i, hi, hs⟩
    | some s' =>
      have h1 := (h.move ops deser hm).moves_le ops deser round
      have h2 := h.weight_lt ops deser hm
      simp only [Option.getD_some]
      omega

theorem move_length {s s' : MutexState ε F} {i : ℕ} (hm : s.move ops deser i = some s') :
    s'.threads.length = s.threads.length := by
  obtain ⟨t, call, rest, ht, htodo, hc⟩ := move_cases ops deser hm
  rcases hc with ⟨_, _, _, rfl⟩ | ⟨_, _, _, rfl⟩ | ⟨_, rfl⟩ | ⟨_, _, _, rfl⟩ | ⟨_, _, rfl⟩ <;> simp

theorem exec_length (s : MutexState ε F) (schedule : List ℕ) :
    (s.exec ops deser schedule).threads.length = s.threads.length := by
  induction schedule generalizing s with
  | nil => rfl
  | cons i schedule ih =>
    rw [exec_cons, ih]
    cases hm : s.move ops deser i with
    | none => rfl
    | some s' => exact move_length ops deser hm

theorem exec_append (s : MutexState ε F) (a b : List ℕ) :
    s.exec ops deser (a ++ b) = (s.exec ops deser a).exec ops deser b := by
  simp [MutexState.exec]

theorem Excl.completes (rounds : List (List ℕ)) {s : MutexState ε F} (h : Excl ops deser s)
    (hr : ∀ round ∈ rounds, ∀ i < s.threads.length, i ∈ round) (hlen : s.weight ≤ rounds.length) :
    ∀ t ∈ (s.exec ops deser rounds.flatten).threads, t.todo = [] := by
  induction rounds generalizing s with
  | nil =>
    intro t ht
    by_contra hne
    have ht : t ∈ s.threads := ht
    have hpos : 0 < t.weight := by
      cases htodo : t.todo with
      | nil => exact absurd htodo hne
      | cons call rest =>
        simp only [CacheThread.weight, htodo]
        exact Nat.lt_of_lt_of_le (rank_pos t.pc) (Nat.le_add_left _ _)
    have hle : t.weight ≤ s.weight :=
      List.single_le_sum (by simp) _ (List.mem_map_of_mem ht)
    simp only [List.length_nil] at hlen
    omega
  | cons round rounds ih =>
    rw [List.flatten_cons, exec_append]
    refine ih (h.exec ops deser round) ?_ ?_
    · intro r hmem i hi
      rw [exec_length] at hi
      exact hr r (List.mem_cons_of_mem _ hmem) i hi
    · by_cases hw : ∃ t ∈ s.threads, t.todo ≠ []
      · obtain ⟨i, hi, hs⟩ := h.progress ops deser hw
        have := h.round_lt ops deser round ⟨i, hr round List.mem_cons_self i hi, hs⟩
        simp only [List.length_cons] at hlen
        omega
      · have h0 : s.weight = 0 := by
          refine List.sum_eq_zero fun w hwm => ?_
          obtain ⟨t, ht, rfl⟩ := List.mem_map.1 hwm
          have : t.todo = [] := by
            by_contra hne
            exact hw ⟨t, ht, hne⟩
          simp [CacheThread.weight, this]
        have := h.moves_le ops deser round
        omega

/-- C84: no starvation: every schedule that gives each thread a chance once per round makes all calls
within five rounds per call. -/
theorem C84_completes (hy : F → ℕ) (progs : List (List (CacheCall F))) (rounds : List (List ℕ))
    (hr : ∀ round ∈ rounds, ∀ i < progs.length, i ∈ round)
    (hlen : 5 * (progs.map List.length).sum ≤ rounds.length) :
    ∀ t ∈ ((MutexState.init (ε := ε) ops hy progs).exec ops deser rounds.flatten).threads,
      t.todo = [] := by
  refine (Excl.init ops deser hy progs).completes ops deser rounds ?_ ?_
  · simpa [MutexState.init] using hr
  · rw [weight_init]; exact hlen

/-! ### Poisoning -/

theorem Excl.dead_exec {s : MutexState ε F} (h : Excl ops deser s) (hp : s.poisoned = true)
    (schedule : List ℕ) :
    (s.exec ops deser schedule).poisoned = true ∧ (s.exec ops deser schedule).cache = s.cache ∧
      ∀ (i : ℕ) (t t' : CacheThread ε F), s.threads[i]? = some t →
        (s.exec ops deser schedule).threads[i]? = some t' →
        t' = t ∨ (t.todo ≠ [] ∧ t'.todo = [] ∧ t'.out = t.out ++ [.panic]) := by
  induction schedule generalizing s with
  | nil =>
    refine ⟨hp, rfl, fun i t t' ht ht' => Or.inl ?_⟩
    exact Option.some.inj (ht'.symm.trans ht)
  | cons j schedule ih =>
    rw [exec_cons]
    cases hm : s.move ops deser j with
    | none => exact ih h hp
    | some s' =>
      simp only [Option.getD_some]
      have h' := h.move ops deser hm
      obtain ⟨u, call, rest, hu, htodo, hc⟩ := move_cases ops deser hm
      have hstart : u.pc = .start := h.others j u hu (by rw [h.dead hp]; simp)
      rcases hc with ⟨_, _, _, rfl⟩ | ⟨_, _, hp', _⟩ | ⟨hpc, _⟩ | ⟨o, hpc, _⟩ | ⟨h1, _⟩
      · obtain ⟨h1, h2, h3⟩ := ih h' hp
        refine ⟨h1, h2, fun i t t' ht ht' => ?_⟩
        by_cases hij : i = j
        · subst hij
          rw [hu] at ht
          cases ht
          rcases h3 i _ t' (set_self hu) ht' with rfl | ⟨h4, _⟩
          · exact Or.inr ⟨by rw [htodo]; simp, rfl, rfl⟩
          · exact absurd rfl h4
        · exact h3 i t t' (by rw [List.getElem?_set_ne (Ne.symm hij)]; exact ht) ht'
      · rw [hp] at hp'; cases hp'
      · rw [hstart] at hpc; cases hpc
      · rw [hstart] at hpc; cases hpc
      · exact absurd hstart h1

/-- C84: once the mutex is poisoned it stays so, the cache is never touched again, and every thread
that makes another call, of whatever kind, panics in it. -/
theorem C84_poison (hy : F → ℕ) (progs : List (List (CacheCall F))) (before after : List ℕ)
    (hp : ((MutexState.init (ε := ε) ops hy progs).exec ops deser before).poisoned = true) :
    let s := (MutexState.init (ε := ε) ops hy progs).exec ops deser before
    let s' := (MutexState.init (ε := ε) ops hy progs).exec ops deser (before ++ after)
    s'.poisoned = true ∧ s'.cache = s.cache ∧ ∀ (i : ℕ) (t t' : CacheThread ε F),
      s.threads[i]? = some t → s'.threads[i]? = some t' →
        t' = t ∨ (t.todo ≠ [] ∧ t'.todo = [] ∧ t'.out = t.out ++ [.panic]) := by
  intro s s'
  have := ((Excl.init ops deser hy progs).exec ops deser before).dead_exec ops deser hp after
  rwa [← exec_append] at this

/-- C84: a panicking deserialisation of a key that is not cached, made while nobody holds the lock,
poisons the mutex. -/
theorem C84_panic_poisons (s : MutexState ε F) (i : ℕ) (data : Bytes) (rest : List (CacheCall F))
    (out : List (Outcome ε (Option (JacRep F))))
    (ht : s.threads[i]? = some ⟨.deserialize data :: rest, .start, out⟩) (hh : s.holder = none)
    (hmiss : (lruGet s.cache.de data).1 = none) (hd : deser data = .panic) :
    (s.exec ops deser [i, i, i, i]).poisoned = true := by
  rcases hg : lruGet s.cache.de data with ⟨o, de'⟩
  rw [hg] at hmiss
  simp only at hmiss
  subst hmiss
  cases hp : s.poisoned with
  | true =>
    have m1 : s.move ops deser i = some { s with
        threads := s.threads.set i ⟨[], .start, out ++ [.panic]⟩ } := by
      unfold MutexState.move
      rw [ht]
      simp [hh, hp]
    have m2 : MutexState.move ops deser { s with
        threads := s.threads.set i ⟨[], .start, out ++ [.panic]⟩ } i = none := by
      unfold MutexState.move
      rw [set_self ht]
    simp only [MutexState.exec, List.foldl_cons, List.foldl_nil, m1, m2, Option.getD_some,
      Option.getD_none]
    exact hp
  | false =>
    have m1 : s.move ops deser i = some { s with
        holder := some i
        threads := s.threads.set i ⟨.deserialize data :: rest, .entered, out⟩ } := by
      unfold MutexState.move
      rw [ht]
      simp [hh, hp]
    have m2 : MutexState.move ops deser { s with
        holder := some i
        threads := s.threads.set i ⟨.deserialize data :: rest, .entered, out⟩ } i = some { s with
        cache := { s.cache with de := de' }
        holder := some i
        threads := s.threads.set i ⟨.deserialize data :: rest, .missed, out⟩ } := by
      unfold MutexState.move
      rw [set_self ht]
      simp only [CacheCall.advance, hg, List.set_set]
    have m3 : MutexState.move ops deser { s with
        cache := { s.cache with de := de' }
        holder := some i
        threads := s.threads.set i ⟨.deserialize data :: rest, .missed, out⟩ } i = some { s with
        cache := { s.cache with de := de' }
        holder := some i
        threads := s.threads.set i ⟨.deserialize data :: rest, .finish .panic, out⟩ } := by
      unfold MutexState.move
      rw [set_self ht]
      simp only [CacheCall.advance, hd, List.set_set]
    have m4 : MutexState.move ops deser { s with
        cache := { s.cache with de := de' }
        holder := some i
        threads := s.threads.set i ⟨.deserialize data :: rest, .finish .panic, out⟩ } i =
        some { s with
        cache := { s.cache with de := de' }
        holder := none
        poisoned := true
        threads := s.threads.set i ⟨[], .start, out ++ [.panic]⟩ } := by
      unfold MutexState.move
      rw [set_self ht]
      simp only [List.set_set]
    simp only [MutexState.exec, List.foldl_cons, List.foldl_nil, m1, m2, m3, m4, Option.getD_some]

/-! ## Example: two threads, moves of the two interleaved -/

/-- Thread 0 aggregates two keys and deserialises a key; thread 1 aggregates other keys and subtracts. -/
def exampleProgs : List (List (CacheCall ℤ)) :=
  [[.aggregate [⟨3, 0, 1⟩, ⟨4, 0, 1⟩] (fun _ => 0) id List.reverse, .deserialize [7]],
    [.aggregate [⟨3, 0, 1⟩, ⟨9, 0, 1⟩] (fun _ => 0) List.reverse id,
      .aggregateSubtract ⟨20, 0, 1⟩ [⟨4, 0, 1⟩] (fun _ => 0) id id]]

example : ∀ p ∈ exampleProgs, ∀ call ∈ p, call.Fair := by
  have hrev : ∀ l : List (JacRep ℤ), l.reverse.Perm l := fun l => List.reverse_perm l
  simp [exampleProgs, CacheCall.Fair, hrev]

example : ∀ data, toyDeser data ≠ .panic := by
  intro data
  unfold toyDeser
  split <;> simp

/-- A schedule in which each thread tries to move in the middle of the other's calls. -/
def exampleSchedule : List ℕ :=
  [0, 0, 1, 0, 1, 0, 0, 1, 0, 1, 0, 1, 1, 0, 1, 0, 1, 0, 0, 1, 0, 0, 1, 1, 1, 0, 1, 1]

/-- The results and the final state of the lock in this schedule. -/
example : let s := (MutexState.init toyOps (fun _ => 0) exampleProgs).exec toyOps toyDeser exampleSchedule
    s.threads.map (fun t => (t.todo.length, t.out.map (observe toyOps))) =
      [(0, [.ok (some 7), .ok (some 7)]), (0, [.ok (some 12), .ok (some 16)])] ∧
      s.holder = none ∧ s.poisoned = false ∧ toyOps.pt s.cache.combined = 4 := by decide +kernel

/-- In the middle of this schedule thread 0 is between the two assignments of `aggregate`: the stored
keys and the stored sum do not belong together. -/
example : let s := (MutexState.init toyOps (fun _ => 0) exampleProgs).exec toyOps toyDeser [0, 0, 1, 0, 1]
    s.holder = some 0 ∧ s.cache.keys.elems.length = 2 ∧ toyOps.pt s.cache.combined = 0 := by
  decide +kernel

/-- The hypotheses of `C84_completes`: twenty rounds of two threads. -/
example : (∀ round ∈ List.replicate 20 [0, 1], ∀ i < exampleProgs.length, i ∈ round) ∧
    5 * (exampleProgs.map List.length).sum ≤ (List.replicate 20 [0, 1]).length := by decide

/-- A deserialiser that panics on the empty string (not code from /repo). -/
def panicDeser : Bytes → Outcome Unit (JacRep ℤ)
  | [] => .panic
  | data => toyDeser data

/-- Thread 0 makes the deserialiser panic. -/
def panicProgs : List (List (CacheCall ℤ)) :=
  [[.deserialize []], [.aggregate [⟨3, 0, 1⟩] (fun _ => 0) id id, .deserialize [7]]]

/-- Its panic poisons the mutex and the other thread's aggregation panics. -/
example : let s := (MutexState.init toyOps (fun _ => 0) panicProgs).exec toyOps panicDeser [0, 0, 1, 0, 0, 1, 1]
    s.poisoned = true ∧ s.threads.map (fun t => t.out.map (observe toyOps)) = [[.panic], [.panic]] := by
  decide +kernel

/-! ### The theorems applied to concrete data -/

theorem toyDeser_total : ∀ data, toyDeser data ≠ .panic := by
  intro data
  unfold toyDeser
  split <;> simp

/-- `C84_interleaving` on the example schedule. -/
example : ∃ tr : List (ℕ × CacheCall ℤ), Interleave exampleProgs tr :=
  let ⟨tr, h, _⟩ := C84_interleaving toyOps toyDeser toyDeser_total (fun _ => 0) exampleProgs exampleSchedule
    (by decide +kernel)
  ⟨tr, h⟩

/-- `C84_observed`: what thread 1 has seen after the example schedule. -/
example (t : CacheThread Unit ℤ)
    (ht : ((MutexState.init toyOps (fun _ => 0) exampleProgs).exec toyOps toyDeser exampleSchedule).threads[1]? =
      some t) : exampleProgs[1]?.map List.length = some (t.out.length + t.todo.length) := by
  obtain ⟨p, hp⟩ : ∃ p, exampleProgs[1]? = some p := ⟨_, rfl⟩
  rw [hp, Option.map_some, (C84_observed toyOps toyDeser toyDeser_total _ exampleProgs (by
    have hrev : ∀ l : List (JacRep ℤ), l.reverse.Perm l := fun l => List.reverse_perm l
    simp [exampleProgs, CacheCall.Fair, hrev]) exampleSchedule 1 t p ht hp).2]

/-- `C84_exclusion`: in the middle of the example schedule thread 0 is inside, so no other is. -/
example (j : ℕ) (u : CacheThread Unit ℤ)
    (hu : ((MutexState.init toyOps (fun _ => 0) exampleProgs).exec toyOps toyDeser [0, 0, 1, 0, 1]).threads[j]? =
      some u) (huj : u.pc ≠ .start) : 0 = j := by
  obtain ⟨t, ht, hti⟩ : ∃ t, ((MutexState.init toyOps (fun _ => 0) exampleProgs).exec toyOps toyDeser
      [0, 0, 1, 0, 1]).threads[0]? = some t ∧ t.pc ≠ .start :=
    ⟨_, rfl, by intro h; cases h⟩
  exact (C84_exclusion toyOps toyDeser (fun _ => 0) exampleProgs [0, 0, 1, 0, 1] 0 j t u ht hu hti huj).1

/-- `C84_progress`, in the middle of the example schedule. -/
example : ∃ i, (((MutexState.init toyOps (fun _ => 0) exampleProgs).exec toyOps toyDeser [0, 0, 1, 0, 1]).move
    toyOps toyDeser i).isSome :=
  C84_progress toyOps toyDeser (fun _ => 0) exampleProgs [0, 0, 1, 0, 1] (by decide +kernel)

/-- `C84_panic_poisons` and `C84_poison`: thread 0 panics inside; whatever is scheduled later, the lock stays
poisoned. -/
example (after : List ℕ) : ((MutexState.init toyOps (fun _ => 0) panicProgs).exec toyOps panicDeser
    ([0, 0, 0, 0] ++ after)).poisoned = true :=
  (C84_poison toyOps panicDeser (fun _ => 0) panicProgs [0, 0, 0, 0] after
    (C84_panic_poisons toyOps panicDeser _ 0 [] [] [] rfl rfl rfl rfl)).1

end Verif
