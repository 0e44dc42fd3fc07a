import Verif.Lemmas.Jacobian
import Verif.Lemmas.G2Order
import Verif.Props.Cache

/-!
# C81: the key cache with the arithmetic it is used with

The formulas of ark_ec are the group law, so C13-C17 apply to them.  Keys that were deserialised
are determined by their point; results of earlier aggregations are not, and which representation
they have depends on the iteration order of a hash set.
-/

set_option linter.unusedSectionVars false
set_option maxRecDepth 100000

namespace Verif

open WeierstrassCurve

theorem g2_short : Short g2Curve := ⟨rfl, rfl, rfl, rfl⟩

/-- Arithmetic on G2 representations (ark_ec, external), used by the cache,
`crates/bls-crypto/src/bls/cache.rs:35,43,75,80`. -/
noncomputable def g2Ops : CurveOps Fq2 G2Point := arkOps g2_nonsingular_iff g2_short g2_good.two

/-- **C81.** The Jacobian formulas (add-2007-bl, dbl-2009-l) with the case distinctions of ark_ec
compute sums and differences of the denoted points, for all representations of points, and stay on
the curve. -/
theorem C81_formulas (p q : JacRep Fq2) (hp : p.On g2CoeffB) (hq : q.On g2CoeffB) :
    g2Ops.pt (arkAdd p q) = g2Ops.pt p + g2Ops.pt q ∧
    g2Ops.pt (arkSub p q) = g2Ops.pt p - g2Ops.pt q ∧
    (arkAdd p q).On g2CoeffB ∧ (arkSub p q).On g2CoeffB ∧
    g2Ops.add p q = arkAdd p q ∧ g2Ops.sub p q = arkSub p q := by
  obtain ⟨hn, hon⟩ := jacPoint_neg g2_nonsingular_iff g2_short q
  have h1 := jacPoint_add g2_nonsingular_iff g2_short g2_good.two hp hq
  have h2 := jacPoint_add g2_nonsingular_iff g2_short g2_good.two hp (hon.mp hq)
  refine ⟨h1.1, ?_, h1.2, h2.2, ?_, ?_⟩
  · rw [sub_eq_add_neg]
    exact h2.1.trans (congrArg (_ + ·) hn)
  · change addOn g2CoeffB p q = _
    rw [addOn, if_pos hp, if_pos hq]
  · change addOn g2CoeffB p (arkNeg q) = _
    rw [addOn, if_pos hp, if_pos (hon.mp hq)]
    rfl

/-- Every point has a representation with `z = 1`, or is zero: what deserialisation returns
(`into_projective`, ark_ec, external; `crates/bls-crypto/src/bls/public.rs:15-16`). -/
def JacRep.Canonical (k : JacRep Fq2) : Prop := k.On g2CoeffB ∧ (k.z = 1 ∨ k = arkZero)

/-- **C81.** Deserialised keys are equal as representations exactly when they are the same point. -/
theorem C81_canonical (a b : JacRep Fq2) (ha : a.Canonical) (hb : b.Canonical) :
    g2Ops.pt a = g2Ops.pt b ↔ a = b := by
  refine ⟨fun h => ?_, fun h => by rw [h]⟩
  obtain ⟨ha1, ha2⟩ := ha
  obtain ⟨hb1, hb2⟩ := hb
  have e1 : ∀ k : JacRep Fq2, k.On g2CoeffB → k.z = 1 → ∃ h, g2Ops.pt k = .some k.x k.y h := by
    intro k hk hz
    have hz0 : k.z ≠ 0 := by rw [hz]; exact one_ne_zero
    obtain ⟨h, e⟩ := jacPoint_isPoint g2_nonsingular_iff hz0 (hk.resolve_left hz0)
    simp only [hz, one_pow, div_one] at h e
    exact ⟨h, e⟩
  have e0 : g2Ops.pt arkZero = 0 := g2Ops.pt_zero
  rcases ha2 with za | rfl <;> rcases hb2 with zb | rfl
  · obtain ⟨h1, p1⟩ := e1 a ha1 za
    obtain ⟨h2, p2⟩ := e1 b hb1 zb
    rw [p1, p2] at h
    injection h with hx hy
    cases a; cases b
    simp_all
  · obtain ⟨h1, p1⟩ := e1 a ha1 za
    rw [p1, e0] at h
    cases h
  · obtain ⟨h2, p2⟩ := e1 b hb1 zb
    rw [p2, e0] at h
    cases h
  · rfl

/-- `From<GroupAffine> for GroupProjective` (ark_ec, external), applied to what deserialisation reads,
`crates/bls-crypto/src/bls/public.rs:15-16`. -/
noncomputable def intoProjective : G2Point → JacRep Fq2
  | .zero => arkZero
  | .some x y _ => ⟨x, y, 1⟩

/-- **C81.** Every key has exactly one representation as deserialisation returns it. -/
theorem C81_into_projective (P : G2Point) : g2Ops.pt (intoProjective P) = P ∧
    (intoProjective P).Canonical ∧
    ∀ k : JacRep Fq2, k.Canonical → g2Ops.pt k = P → k = intoProjective P := by
  have h : g2Ops.pt (intoProjective P) = P ∧ (intoProjective P).Canonical := by
    cases P with
    | zero => exact ⟨g2Ops.pt_zero, Or.inl rfl, Or.inr rfl⟩
    | some x y hn =>
      have he := (g2_nonsingular_iff x y).mp hn
      have hk := isPoint_jacPoint g2_nonsingular_iff (k := ⟨x, y, 1⟩) one_ne_zero (P := .some x y hn)
        (by simp only [one_pow, div_one]; exact ⟨hn, rfl⟩)
      exact ⟨hk.1, hk.2, Or.inl rfl⟩
  exact ⟨h.1, h.2, fun k hk e => (C81_canonical k _ hk h.2).mp (e.trans h.1.symm)⟩

open Classical in
/-- **C81.** After any history of the cache, aggregating deserialised keys gives the sum of the
distinct points among them. -/
theorem C81_deserialized {ε : Type*} (deser : Bytes → Outcome ε (JacRep Fq2)) (hy : Fq2 → ℕ)
    (calls : List (CacheCall Fq2)) (hf : ∀ call ∈ calls, call.Fair) (keys : List (JacRep Fq2))
    (hk : ∀ k ∈ keys, k.Canonical) (hy' : Fq2 → ℕ) (sh1 sh2 : List (JacRep Fq2) → List (JacRep Fq2))
    (h1 : ∀ l, (sh1 l).Perm l) (h2 : ∀ l, (sh2 l).Perm l) :
    g2Ops.pt ((runCalls g2Ops deser (PublicKeyCache.new g2Ops hy) calls).2.aggregate g2Ops keys hy'
      sh1 sh2).1 = (keys.map g2Ops.pt).dedup.sum := by
  rw [C13_aggregate g2Ops deser hy calls hf keys hy' sh1 sh2 h1 h2]
  congr 1
  clear hf
  induction keys with
  | nil => rfl
  | cons k ks ih =>
    have ih' := ih fun k' h => hk k' (List.mem_cons_of_mem _ h)
    have hiff : g2Ops.pt k ∈ ks.map g2Ops.pt ↔ k ∈ ks := by
      refine ⟨fun h => ?_, List.mem_map_of_mem⟩
      obtain ⟨k', hk', e⟩ := List.mem_map.mp h
      rw [(C81_canonical k' k (hk k' (List.mem_cons_of_mem _ hk')) (hk k List.mem_cons_self)).mp e]
        at hk'
      exact hk'
    rw [List.map_cons]
    by_cases h : k ∈ ks
    · rw [List.dedup_cons_of_mem h, List.dedup_cons_of_mem (hiff.mpr h)]
      exact ih'
    · rw [List.dedup_cons_of_notMem h, List.dedup_cons_of_notMem (fun h' => h (hiff.mp h')),
        List.map_cons, ih']

/-- The generator and its double, as deserialisation returns them. -/
def keyG : JacRep Fq2 := ⟨g2GenX, g2GenY, 1⟩

/-- See `keyG`. -/
def key2G : JacRep Fq2 :=
  ⟨⟨219564603530812897662626723532119871126025986455221517258692924146720701350966061579326121792267180830577562566009,
    184624156959816253153212691059252753251414060022257016743873452235807427608305571427957272308982089732460045225308⟩,
   ⟨183390023131802300769587703273946623618493162536337034672377497825442095098047279060444611635423015435359400970794,
    137006181065015237533186569405795438258126659550846636415327489699198493880440637650517929480195536789466736841218⟩, 1⟩

theorem keyG_canonical : keyG.Canonical := ⟨by decide +kernel, Or.inl rfl⟩

theorem key2G_canonical : key2G.Canonical := ⟨by decide +kernel, Or.inl rfl⟩

/-- The calls of the violation: `aggregate [k1, k2]`, `aggregate []`, `aggregate [k1, k2]`; the last
one adds the keys in the order `sh`. -/
def sessionCalls (k1 k2 : JacRep Fq2) (sh : List (JacRep Fq2) → List (JacRep Fq2)) :
    List (CacheCall Fq2) :=
  [.aggregate [k1, k2] (fun _ => 0) id id, .aggregate [] (fun _ => 0) id id,
   .aggregate [k1, k2] (fun _ => 0) id sh]

section
variable {F G : Type*} [DecidableEq F] [AddCommGroup G] (ops : CurveOps F G)

/-- What those calls return, and the cache they leave. -/
def session (k1 k2 : JacRep F) (sh : List (JacRep F) → List (JacRep F)) :
    JacRep F × JacRep F × PublicKeyCache F :=
  let r1 := (PublicKeyCache.new ops fun _ => 0).aggregate ops [k1, k2] (fun _ => 0) id id
  let r2 := r1.2.aggregate ops [] (fun _ => 0) id id
  let r3 := r2.2.aggregate ops [k1, k2] (fun _ => 0) id sh
  (r1.1, r3.1, r3.2)

end

theorem g2Ops_pt_ne_zero {k : JacRep Fq2} (hon : k.On g2CoeffB) (hz : k.z ≠ 0) :
    g2Ops.pt k ≠ 0 := by
  obtain ⟨h, e⟩ := jacPoint_isPoint g2_nonsingular_iff hz (hon.resolve_left hz)
  intro h0
  cases e.symm.trans h0

theorem session_id : (session g2Ops keyG key2G id).1 = (session g2Ops keyG key2G id).2.1 := by
  decide +kernel

theorem session_reverse :
    (session g2Ops keyG key2G List.reverse).1 ≠ (session g2Ops keyG key2G List.reverse).2.1 := by
  decide +kernel

theorem session_a : (session g2Ops keyG key2G id).1.On g2CoeffB ∧
    (session g2Ops keyG key2G id).1.z ≠ 0 := by
  decide +kernel

theorem sessionCalls_fair (k1 k2 : JacRep Fq2) (sh : List (JacRep Fq2) → List (JacRep Fq2))
    (hsh : ∀ l, (sh l).Perm l) : ∀ call ∈ sessionCalls k1 k2 sh, call.Fair := by
  intro call hc
  simp only [sessionCalls, List.mem_cons, List.not_mem_nil, or_false] at hc
  rcases hc with rfl | rfl | rfl
  · exact ⟨fun _ => .refl _, fun _ => .refl _⟩
  · exact ⟨fun _ => .refl _, fun _ => .refl _⟩
  · exact ⟨fun _ => .refl _, hsh⟩

theorem session_run {ε : Type*} (ops : CurveOps Fq2 G2Point)
    (deser : Bytes → Outcome ε (JacRep Fq2)) (k1 k2 : JacRep Fq2)
    (sh : List (JacRep Fq2) → List (JacRep Fq2)) :
    ∃ o, runCalls ops deser (PublicKeyCache.new ops fun _ => 0) (sessionCalls k1 k2 sh) =
      ([.ok (some (session ops k1 k2 sh).1), o, .ok (some (session ops k1 k2 sh).2.1)],
        (session ops k1 k2 sh).2.2) :=
  ⟨_, rfl⟩

theorem session_pt (ops : CurveOps Fq2 G2Point) (k1 k2 : JacRep Fq2)
    (sh : List (JacRep Fq2) → List (JacRep Fq2)) (hsh : ∀ l, (sh l).Perm l) :
    ops.pt (session ops k1 k2 sh).1 = ([k1, k2].dedup.map ops.pt).sum ∧
    ops.pt (session ops k1 k2 sh).2.1 = ([k1, k2].dedup.map ops.pt).sum := by
  let deser : Bytes → Outcome Unit (JacRep Fq2) := fun _ => .panic
  exact ⟨C13_aggregate ops deser (fun _ => 0) [] (by simp) _ _ _ _ (fun _ => .refl _)
      (fun _ => .refl _),
    C13_aggregate ops deser (fun _ => 0) [.aggregate [k1, k2] (fun _ => 0) id id,
      .aggregate [] (fun _ => 0) id id] (fun c hc =>
        sessionCalls_fair k1 k2 id (fun _ => .refl _) c (by
          simp only [sessionCalls, List.mem_cons, List.not_mem_nil, or_false] at hc ⊢
          tauto)) _ _ _ _ (fun _ => .refl _) hsh⟩

theorem session_final (ops : CurveOps Fq2 G2Point) (k1 k2 : JacRep Fq2)
    (sh : List (JacRep Fq2) → List (JacRep Fq2)) (hsh : ∀ l, (sh l).Perm l) (hy' : Fq2 → ℕ)
    (sh1 sh2 : List (JacRep Fq2) → List (JacRep Fq2)) (h1 : ∀ l, (sh1 l).Perm l)
    (h2 : ∀ l, (sh2 l).Perm l) (a : JacRep Fq2) (b : JacRep Fq2) :
    ops.pt ((session ops k1 k2 sh).2.2.aggregate ops [a, b] hy' sh1 sh2).1 =
      ([a, b].dedup.map ops.pt).sum :=
  C13_aggregate ops (fun _ => (.panic : Outcome Unit (JacRep Fq2))) (fun _ => 0)
    (sessionCalls k1 k2 sh) (sessionCalls_fair k1 k2 sh hsh) _ hy' sh1 sh2 h1 h2

/-- **C81 (violation).** The same sequence of calls on the same keys, differing only in the order in
which one hash set is iterated (which is random), ends in different results: for `k` and `k'`
returned by two aggregations of the same two keys, `aggregate [k, k']` is the aggregate in one run
and twice the aggregate in the other.  So results of `aggregate_public_keys` must not be aggregated
again. -/
theorem C81_nondeterministic {ε : Type*} (deser : Bytes → Outcome ε (JacRep Fq2)) :
    ∃ (k1 k2 : JacRep Fq2) (a : G2Point), k1.Canonical ∧ k2.Canonical ∧ a ≠ a + a ∧
      ∀ (hy' : Fq2 → ℕ) (sh1 sh2 : List (JacRep Fq2) → List (JacRep Fq2)),
      (∀ l, (sh1 l).Perm l) → (∀ l, (sh2 l).Perm l) →
      ∀ p ∈ [(id, a), (List.reverse, a + a)], (∀ call ∈ sessionCalls k1 k2 p.1, call.Fair) ∧
        let run := runCalls g2Ops deser (PublicKeyCache.new g2Ops fun _ => 0)
          (sessionCalls k1 k2 p.1)
        ∃ k k' o, run.1 = [.ok (some k), o, .ok (some k')] ∧ g2Ops.pt k = a ∧ g2Ops.pt k' = a ∧
          g2Ops.pt (run.2.aggregate g2Ops [k, k'] hy' sh1 sh2).1 = p.2 := by
  have e1 := session_id
  have e2 := session_reverse
  obtain ⟨hon, hz⟩ := session_a
  have hne : g2Ops.pt (session g2Ops keyG key2G id).1 ≠ 0 :=
    g2Ops_pt_ne_zero hon hz
  have c1 := keyG_canonical
  have c2 := key2G_canonical
  clear hon hz
  generalize keyG = k1 at *
  generalize key2G = k2 at *
  have hid : ∀ l : List (JacRep Fq2), (id l).Perm l := fun _ => .refl _
  obtain ⟨p1, p2⟩ := session_pt g2Ops k1 k2 id hid
  obtain ⟨q1, q2⟩ := session_pt g2Ops k1 k2 List.reverse List.reverse_perm
  refine ⟨k1, k2, ([k1, k2].dedup.map g2Ops.pt).sum, c1, c2, fun h => hne ?_, ?_⟩
  · rw [p1]; simpa using h
  intro hy' sh1 sh2 h1 h2 p hp
  simp only [List.mem_cons, List.not_mem_nil, or_false] at hp
  rcases hp with rfl | rfl
  · refine ⟨sessionCalls_fair _ _ id hid, ?_⟩
    obtain ⟨o, ho⟩ := session_run g2Ops deser k1 k2 id
    refine ⟨_, _, o, by rw [ho], p1, p2, ?_⟩
    rw [ho]
    refine (session_final g2Ops k1 k2 id hid hy' sh1 sh2 h1 h2 _ _).trans ?_
    rw [← e1]
    simpa using p1
  · refine ⟨sessionCalls_fair _ _ _ List.reverse_perm, ?_⟩
    obtain ⟨o, ho⟩ := session_run g2Ops deser k1 k2 List.reverse
    refine ⟨_, _, o, by rw [ho], q1, q2, ?_⟩
    rw [ho]
    refine (session_final g2Ops k1 k2 _ List.reverse_perm hy' sh1 sh2 h1 h2 _ _).trans ?_
    rw [List.Nodup.dedup (l := [(session g2Ops k1 k2 List.reverse).1,
      (session g2Ops k1 k2 List.reverse).2.1]) (by simp [e2])]
    simp only [List.map_cons, List.map_nil, List.sum_cons, List.sum_nil, add_zero]
    rw [q1, q2]

/-- `C81_deserialized` and `C81_formulas` apply to the generator and its double. -/
example : g2Ops.pt (arkAdd keyG key2G) = g2Ops.pt keyG + g2Ops.pt key2G :=
  (C81_formulas keyG key2G keyG_canonical.1 key2G_canonical.1).1

/-- Two representations of one point, neither equal to the other. -/
example : g2Ops.pt keyG = g2Ops.pt ⟨4 * g2GenX, 8 * g2GenY, 2⟩ ∧
    keyG ≠ ⟨4 * g2GenX, 8 * g2GenY, 2⟩ := by
  refine ⟨?_, by decide +kernel⟩
  have h2 : (2 : Fq2) ≠ 0 := g2_good.two
  have e : keyG.On g2CoeffB := keyG_canonical.1
  have h := jacPoint_of g2_nonsingular_iff (k := keyG) one_ne_zero
    (e.resolve_left one_ne_zero)
  refine h.trans ?_
  have hb : (⟨4 * g2GenX, 8 * g2GenY, 2⟩ : JacRep Fq2).On g2CoeffB := by decide +kernel
  refine Eq.trans ?_ (jacPoint_of g2_nonsingular_iff (k := ⟨4 * g2GenX, 8 * g2GenY, 2⟩) h2
    (hb.resolve_left h2)).symm
  congr 1
  · simp only [keyG]; field_simp; norm_num
  · simp only [keyG]; field_simp; norm_num

end Verif
