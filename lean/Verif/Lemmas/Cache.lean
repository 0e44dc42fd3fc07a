import Verif.Model.Cache
import Mathlib.Data.List.Dedup
import Mathlib.Data.List.Perm.Basic
import Mathlib.Algebra.BigOperators.Group.List.Basic
import Mathlib.Data.List.Permutation
import Mathlib.Tactic.Abel

/-! Helper lemmas about the public key cache. -/

set_option linter.unusedSectionVars false

namespace Verif

variable {F : Type*} [DecidableEq F] {G : Type*} [AddCommGroup G]

theorem wrappedEq_iff (a b : JacRep F) : wrappedEq a b = true ↔ a = b := by
  cases a; cases b; simp [wrappedEq, and_assoc]

theorem KeySet.contains_iff (s : KeySet F) (k : JacRep F) :
    s.contains k = true ↔ k ∈ s.elems := by
  simp only [KeySet.contains, List.any_eq_true, Bool.and_eq_true, decide_eq_true_eq, wrappedEq_iff]
  constructor
  · rintro ⟨k', hk', _, rfl⟩; exact hk'
  · intro h; exact ⟨k, h, rfl, rfl⟩

theorem KeySet.insert_foldl (s : KeySet F) (hs : s.elems.Nodup) (ks : List (JacRep F)) :
    (ks.foldl KeySet.insert s).elems.Nodup ∧
      ∀ k, k ∈ (ks.foldl KeySet.insert s).elems ↔ k ∈ s.elems ∨ k ∈ ks := by
  induction ks generalizing s with
  | nil => simp [hs]
  | cons k ks ih =>
    have h1 : (s.insert k).elems.Nodup ∧ ∀ k', k' ∈ (s.insert k).elems ↔ k' ∈ s.elems ∨ k' = k := by
      unfold KeySet.insert
      split
      · rename_i h
        rw [KeySet.contains_iff] at h
        refine ⟨hs, fun k' => ⟨Or.inl, ?_⟩⟩
        rintro (h' | rfl)
        · exact h'
        · exact h
      · rename_i h
        rw [KeySet.contains_iff] at h
        refine ⟨?_, fun k' => by simp⟩
        simp only [List.nodup_append, hs, List.nodup_singleton, true_and, List.mem_singleton]
        intro a ha b hb
        rw [hb]; rintro rfl; exact h ha
    obtain ⟨h2, h3⟩ := ih (s.insert k) h1.1
    refine ⟨h2, fun k' => ?_⟩
    simp only [List.foldl_cons]
    rw [h3, h1.2, List.mem_cons]
    tauto

/-- The set built from a key list is a rearrangement of the list without repetitions. -/
theorem KeySet.ofList_perm (hy : F → ℕ) (ks : List (JacRep F)) :
    (ks.foldl KeySet.insert ⟨[], hy⟩).elems.Perm ks.dedup := by
  obtain ⟨h1, h2⟩ := KeySet.insert_foldl (⟨[], hy⟩ : KeySet F) List.nodup_nil ks
  rw [List.perm_ext_iff_of_nodup h1 (List.nodup_dedup ks)]
  intro k; rw [h2]; simp

variable (ops : CurveOps F G)

theorem foldl_sub (l : List (JacRep F)) (c : JacRep F) :
    ops.pt (l.foldl ops.sub c) = ops.pt c - (l.map ops.pt).sum := by
  induction l generalizing c with
  | nil => simp
  | cons k l ih => simp only [List.foldl_cons, ih, ops.pt_sub, List.map_cons, List.sum_cons]; abel

theorem foldl_add (l : List (JacRep F)) (c : JacRep F) :
    ops.pt (l.foldl ops.add c) = ops.pt c + (l.map ops.pt).sum := by
  induction l generalizing c with
  | nil => simp
  | cons k l ih => simp only [List.foldl_cons, ih, ops.pt_add, List.map_cons, List.sum_cons]; abel

theorem sum_split (l : List (JacRep F)) (p : JacRep F → Bool) (f : JacRep F → G) :
    (l.map f).sum = ((l.filter p).map f).sum + ((l.filter fun k => !p k).map f).sum := by
  rw [← List.sum_append, ← List.map_append]
  exact ((List.filter_append_perm p l).map f).sum_eq.symm

/-- Replacing `old` by `new` through the two differences. -/
theorem sum_exchange (old new : KeySet F) (ho : old.elems.Nodup) (hn : new.elems.Nodup)
    (f : JacRep F → G) :
    (old.elems.map f).sum - ((old.elems.filter fun k => !new.contains k).map f).sum +
      ((new.elems.filter fun k => !old.contains k).map f).sum = (new.elems.map f).sum := by
  rw [sum_split old.elems new.contains f, sum_split new.elems old.contains f]
  have hp : (old.elems.filter new.contains).Perm (new.elems.filter old.contains) := by
    rw [List.perm_ext_iff_of_nodup (ho.filter _) (hn.filter _)]
    intro k
    simp only [List.mem_filter, KeySet.contains_iff]
    tauto
  rw [(hp.map f).sum_eq]
  abel

/-- Invariant of the cache in every reachable state. -/
structure CacheInv {ε : Type*} (deser : Bytes → Outcome ε (JacRep F)) (c : PublicKeyCache F) :
    Prop where
  nodup : c.keys.elems.Nodup
  sum : ops.pt c.combined = (c.keys.elems.map ops.pt).sum
  de_ok : ∀ e ∈ c.de, deser e.1 = .ok e.2
  de_len : c.de.length ≤ LRU_CAP
  de_nodup : (c.de.map Prod.fst).Nodup

variable {ε : Type*} (deser : Bytes → Outcome ε (JacRep F))

theorem CacheInv.new (hy : F → ℕ) : CacheInv ops deser (PublicKeyCache.new ops hy) := by
  refine ⟨?_, ?_, ?_, ?_, ?_⟩ <;> simp [PublicKeyCache.new, ops.pt_zero]

theorem aggregate_spec (c : PublicKeyCache F) (hc : CacheInv ops deser c) (keys : List (JacRep F))
    (hy : F → ℕ) (sh1 sh2 : List (JacRep F) → List (JacRep F)) (h1 : ∀ l, (sh1 l).Perm l)
    (h2 : ∀ l, (sh2 l).Perm l) :
    ops.pt (c.aggregate ops keys hy sh1 sh2).1 = (keys.dedup.map ops.pt).sum ∧
    CacheInv ops deser (c.aggregate ops keys hy sh1 sh2).2 := by
  have hset := KeySet.insert_foldl (⟨[], hy⟩ : KeySet F) List.nodup_nil keys
  have hperm := KeySet.ofList_perm hy keys
  have hsum : ops.pt (c.aggregate ops keys hy sh1 sh2).1 =
      ((keys.foldl KeySet.insert ⟨[], hy⟩).elems.map ops.pt).sum := by
    simp only [PublicKeyCache.aggregate, KeySet.difference]
    rw [foldl_add, foldl_sub, hc.sum, ((h1 _).map ops.pt).sum_eq, ((h2 _).map ops.pt).sum_eq]
    exact sum_exchange c.keys _ hc.nodup hset.1 ops.pt
  refine ⟨hsum.trans (hperm.map ops.pt).sum_eq, ?_⟩
  exact ⟨hset.1, hsum, hc.de_ok, hc.de_len, hc.de_nodup⟩

theorem lruGet_none {l : List (Bytes × JacRep F)} {d : Bytes} (h : (lruGet l d).1 = none) :
    (lruGet l d).2 = l ∧ ∀ e ∈ l, e.1 ≠ d := by
  unfold lruGet at *
  cases hf : l.find? (fun e => e.1 = d) with
  | some e => simp [hf] at h
  | none =>
    simp only [true_and]
    intro e he
    have := List.find?_eq_none.1 hf e he
    simpa using this

theorem lruGet_some {l : List (Bytes × JacRep F)} {d : Bytes} {k : JacRep F}
    (h : (lruGet l d).1 = some k) :
    (d, k) ∈ l ∧ (lruGet l d).2 = (d, k) :: l.filter (fun e' => e'.1 ≠ d) := by
  unfold lruGet at *
  cases hf : l.find? (fun e => e.1 = d) with
  | none => simp [hf] at h
  | some e =>
    simp only [hf] at h ⊢
    have h1 := List.find?_some hf
    have h2 := List.mem_of_find?_eq_some hf
    simp only [decide_eq_true_eq] at h1
    obtain ⟨a, b⟩ := e
    simp only [Option.some.injEq] at h h1
    subst h h1
    exact ⟨h2, rfl⟩

theorem filter_map_fst_nodup {l : List (Bytes × JacRep F)} (h : (l.map Prod.fst).Nodup) (d : Bytes) :
    (((l.filter fun e' => e'.1 ≠ d)).map Prod.fst).Nodup ∧
      d ∉ ((l.filter fun e' => e'.1 ≠ d)).map Prod.fst := by
  refine ⟨h.sublist (List.filter_sublist.map _), ?_⟩
  simp

theorem filter_length_lt {l : List (Bytes × JacRep F)} {d : Bytes} {k : JacRep F}
    (h : (d, k) ∈ l) : (l.filter fun e' => e'.1 ≠ d).length < l.length := by
  rw [List.length_filter_lt_length_iff_exists]
  exact ⟨(d, k), h, by simp⟩

theorem deserialize_spec (c : PublicKeyCache F) (hc : CacheInv ops deser c) (data : Bytes) :
    (c.deserialize deser data).1 = deser data ∧ CacheInv ops deser (c.deserialize deser data).2 := by
  unfold PublicKeyCache.deserialize
  cases hg : (lruGet c.de data).1 with
  | some k =>
    obtain ⟨hmem, hde⟩ := lruGet_some hg
    have hpair : lruGet c.de data = (some k, (data, k) :: c.de.filter (fun e' => e'.1 ≠ data)) := by
      rw [← hg, ← hde]
    rw [hpair]
    refine ⟨(hc.de_ok _ hmem).symm, hc.nodup, hc.sum, ?_, ?_, ?_⟩
    · intro e he
      rcases List.mem_cons.1 he with rfl | he
      · exact hc.de_ok _ hmem
      · exact hc.de_ok _ (List.mem_of_mem_filter he)
    · have := filter_length_lt hmem
      have := hc.de_len
      simp only [List.length_cons]; omega
    · have := filter_map_fst_nodup hc.de_nodup data
      simp only [List.map_cons, List.nodup_cons]
      exact ⟨this.2, this.1⟩
  | none =>
    obtain ⟨hde, hnot⟩ := lruGet_none hg
    have hpair : lruGet c.de data = (none, c.de) := Prod.ext hg hde
    rw [hpair]
    simp only []
    cases hd : deser data with
    | err e => exact ⟨rfl, hc.nodup, hc.sum, hc.de_ok, hc.de_len, hc.de_nodup⟩
    | panic => exact ⟨rfl, hc.nodup, hc.sum, hc.de_ok, hc.de_len, hc.de_nodup⟩
    | ok k =>
      refine ⟨rfl, hc.nodup, hc.sum, ?_, ?_, ?_⟩
      · intro e he
        rcases List.mem_cons.1 he with rfl | he
        · exact hd
        · exact hc.de_ok _ (List.mem_of_mem_filter (List.mem_of_mem_take he))
      · simp only [lruPut, List.length_cons, List.length_take, LRU_CAP]; omega
      · have := filter_map_fst_nodup hc.de_nodup data
        simp only [lruPut, List.map_cons, List.nodup_cons]
        refine ⟨fun h => this.2 ?_, this.1.sublist ((List.take_sublist _ _).map _)⟩
        exact (List.take_sublist _ _).map _ |>.subset h

end Verif
