import Verif.Lemmas.CircuitCurve
import Mathlib.GroupTheory.OrderOfElement

/-!
# Property C86: curve arithmetic inside the circuit
-/

set_option exponentiation.threshold 800
set_option linter.unusedSectionVars false

namespace Verif

open WeierstrassCurve

theorem g1_short : Short g1Curve := ⟨rfl, rfl, rfl, rfl⟩

theorem g2_short' : Short g2Curve := ⟨rfl, rfl, rfl, rfl⟩

theorem fq_two_ne : (2 : Fq) ≠ 0 := by decide +kernel

theorem fq_three_ne : (3 : Fq) ≠ 0 := by decide +kernel

theorem fq2_natCast_ne {n : ℕ} (h : (n : Fq) ≠ 0) : (n : Fq2) ≠ 0 := by
  intro e
  apply h
  have e' := congrArg QuadraticAlgebra.re e
  simpa using e'

theorem fq2_two_ne : (2 : Fq2) ≠ 0 := by
  have := fq2_natCast_ne (n := 2) (by decide +kernel)
  simpa using this

theorem fq2_three_ne : (3 : Fq2) ≠ 0 := by
  have := fq2_natCast_ne (n := 3) (by decide +kernel)
  simpa using this

theorem g2CoeffB_ne : g2CoeffB ≠ 0 := by
  have := g2CoeffB_not_cube 0
  simpa using this

theorem g2_no_orderTwo (T : G2Point) : ¬ OrderTwo T := by
  have hodd : Odd (Nat.card G2Point) := by
    rw [← Nat.not_even_iff_odd, even_iff_two_dvd]
    exact g2_card_odd
  exact not_orderTwo_of_odd hodd (card_nsmul_eq_zero' )


/-! ### Each operation -/

/-- C86: on G1, for all coordinates that denote points, the addition formulas give coordinates of the
sum, except when the points differ by an element of order two; then they give `(0, 0, 0)`. -/
theorem C86_add_g1 (p q : ProjVar Fq) (P Q : G1Point) (hp : Denotes p P) (hq : Denotes q Q) :
    (OrderTwo (P - Q) → circuitAdd 1 p q = ⟨0, 0, 0⟩) ∧
    (¬ OrderTwo (P - Q) → Denotes (circuitAdd 1 p q) (P + Q)) := by
  rcases circuitAdd_denotes g1_short g1_nonsingular_iff fq_two_ne fq_three_ne one_ne_zero hp hq with
    ⟨h, e⟩ | ⟨h, e⟩
  · exact ⟨fun _ => e, fun h' => absurd h h'⟩
  · exact ⟨fun h' => absurd h' h, fun _ => e⟩

/-- C86: on G2 there is no exception. -/
theorem C86_add_g2 (p q : ProjVar Fq2) (P Q : G2Point) (hp : Denotes p P) (hq : Denotes q Q) :
    Denotes (circuitAdd g2CoeffB p q) (P + Q) := by
  rcases circuitAdd_denotes g2_short' g2_nonsingular_iff fq2_two_ne fq2_three_ne g2CoeffB_ne hp hq with
    ⟨h, _⟩ | ⟨_, e⟩
  · exact absurd h (g2_no_orderTwo _)
  · exact e

/-- C86: doubling on G1 has no exception. -/
theorem C86_double (p : ProjVar Fq) (P : G1Point) (hp : Denotes p P) :
    Denotes (circuitDouble 1 p) (P + P) :=
  circuitDouble_denotes g1_short g1_nonsingular_iff fq_two_ne fq_three_ne one_ne_zero hp

/-- C86: negation and comparison of keys. -/
theorem C86_neg_eq (p q : ProjVar Fq2) (P Q : G2Point) (hp : Denotes p P) (hq : Denotes q Q) :
    Denotes (circuitNeg p) (-P) ∧ (circuitEq p q ↔ P = Q) :=
  ⟨circuitNeg_denotes g2_short' hp, circuitEq_denotes hp hq⟩

/-- C86: the check at allocation admits the coordinates of points and `(0, 0, 0)`, nothing else;
coordinates of points denote `G2Var.point` / `G1Var.point` of the circuit models. -/
theorem C86_alloc (v : G2Var) (w : G1Var) :
    (v.coords.OnCurve g2CoeffB ↔ v.coords = ⟨0, 0, 0⟩ ∨ Denotes v.coords v.point) ∧
    (w.coords.OnCurve 1 ↔ w.coords = ⟨0, 0, 0⟩ ∨ Denotes w.coords w.point) := by
  constructor
  · constructor
    · intro h
      by_cases h0 : v.coords = ⟨0, 0, 0⟩
      · exact Or.inl h0
      · obtain ⟨P, hP⟩ := (denotes_iff g2_nonsingular_iff v.coords).mpr ⟨h, h0⟩
        right
        have e : v.point = P := hP.point _
        rwa [e]
    · rintro (h | h)
      · rw [h]
        simp [ProjVar.OnCurve]
      · exact ((denotes_iff g2_nonsingular_iff v.coords).mp ⟨_, h⟩).1
  · constructor
    · intro h
      by_cases h0 : w.coords = ⟨0, 0, 0⟩
      · exact Or.inl h0
      · obtain ⟨P, hP⟩ := (denotes_iff g1_nonsingular_iff w.coords).mpr ⟨h, h0⟩
        right
        have e : w.point = P := hP.point _
        rwa [e]
    · rintro (h | h)
      · rw [h]
        simp [ProjVar.OnCurve]
      · exact ((denotes_iff g1_nonsingular_iff w.coords).mp ⟨_, h⟩).1

theorem circuitEq_null {F : Type*} [Field F] (q : ProjVar F) : circuitEq ProjVar.null q := by
  right
  simp [ProjVar.null]

theorem circuitSum_null {F : Type*} [Field F] {b : F} {p q r : ProjVar F}
    (h : p = ProjVar.null ∨ q = ProjVar.null) (hs : CircuitSum b p q r) : r = ProjVar.null := by
  have hz : (ProjVar.zero : ProjVar F) ≠ ProjVar.null := fun e => one_ne_zero (congrArg ProjVar.y e)
  rcases hs with rfl | ⟨rfl, rfl⟩ | ⟨rfl, rfl⟩
  · rcases h with rfl | rfl
    · ext <;> simp [circuitAdd, ProjVar.null]
    · ext <;> simp [circuitAdd, ProjVar.null]
  · exact h.resolve_left hz
  · exact h.resolve_right hz

theorem g2_sum {p q r : ProjVar Fq2} {P Q : G2Point} (hp : Denotes p P) (hq : Denotes q Q)
    (h : CircuitSum g2CoeffB p q r) : Denotes r (P + Q) :=
  circuitSum_denotes g2_short' g2_nonsingular_iff fq2_two_ne fq2_three_ne g2CoeffB_ne hp hq
    (g2_no_orderTwo _) h

/-! ### Aggregation of keys -/

theorem aggregated_aux {padding : ProjVar Fq2} {Q : G2Point} (hQ : Denotes padding Q)
    (keys : List (G2Var × Bool)) (hk : ∀ k ∈ keys, k.1.coords.OnCurve g2CoeffB) :
    ∀ (acc : ProjVar Fq2) (A : G2Point), Denotes acc A →
    ((∃ out, AggregatedLoopVar g2CoeffB padding (keys.map fun k => (k.1.coords, k.2)) acc out) ↔
      ∀ k ∈ keys, k.2 = true → k.1.coords ≠ ⟨0, 0, 0⟩ ∧ k.1.point ≠ Q) ∧
    ∀ out, AggregatedLoopVar g2CoeffB padding (keys.map fun k => (k.1.coords, k.2)) acc out →
      Denotes out (A + ((keys.filter (·.2)).map (·.1.point)).sum) := by
  induction keys with
  | nil =>
    intro acc A hA
    refine ⟨⟨fun _ => by simp, fun _ => ⟨acc, rfl⟩⟩, ?_⟩
    rintro out rfl
    simpa using hA
  | cons k ks ih =>
    intro acc A hA
    obtain ⟨v, bit⟩ := k
    have hv := (C86_alloc v ⟨0, 0, 0⟩).1.mp (hk _ List.mem_cons_self)
    have hks : ∀ k ∈ ks, k.1.coords.OnCurve g2CoeffB := fun k h => hk k (List.mem_cons_of_mem _ h)
    simp only [List.map_cons, AggregatedLoopVar]
    cases bit with
    | false =>
      have step : ∀ acc', CircuitSum g2CoeffB acc ProjVar.zero acc' → Denotes acc' A := by
        intro acc' h
        have := g2_sum hA denotes_zero h
        rwa [add_zero] at this
      constructor
      · constructor
        · rintro ⟨out, _, acc', hs, hr⟩ k hk' hb
          rcases List.mem_cons.mp hk' with rfl | hk'
          · cases hb
          · exact ((ih hks acc' A (step acc' hs)).1.mp ⟨out, hr⟩) k hk' hb
        · intro h
          obtain ⟨out, hr⟩ := (ih hks (circuitAdd g2CoeffB acc ProjVar.zero) A
            (step _ (Or.inl rfl))).1.mpr fun k hk' => h k (List.mem_cons_of_mem _ hk')
          exact ⟨out, by simp, _, Or.inl rfl, hr⟩
      · rintro out ⟨_, acc', hs, hr⟩
        have := (ih hks acc' A (step acc' hs)).2 out hr
        simpa using this
    | true =>
      constructor
      · constructor
        · rintro ⟨out, hne, acc', hs, hr⟩
          have hnn : v.coords ≠ ⟨0, 0, 0⟩ := by
            intro e
            apply hne
            refine ⟨?_, rfl⟩
            rw [e]
            exact circuitEq_null padding
          have hd := hv.resolve_left hnn
          have hst := g2_sum hA hd hs
          intro k hk' hb
          rcases List.mem_cons.mp hk' with rfl | hk'
          · refine ⟨hnn, fun e => hne ⟨(circuitEq_denotes hd hQ).mpr e, rfl⟩⟩
          · exact ((ih hks acc' _ hst).1.mp ⟨out, hr⟩) k hk' hb
        · intro h
          obtain ⟨hnn, hpad⟩ := h (v, true) List.mem_cons_self rfl
          have hd := hv.resolve_left hnn
          have hst := g2_sum hA hd (Or.inl rfl : CircuitSum g2CoeffB acc v.coords _)
          obtain ⟨out, hr⟩ := (ih hks _ _ hst).1.mpr fun k hk' => h k (List.mem_cons_of_mem _ hk')
          exact ⟨out, fun e => hpad ((circuitEq_denotes hd hQ).mp e.1), _, Or.inl rfl, hr⟩
      · rintro out ⟨hne, acc', hs, hr⟩
        have hnn : v.coords ≠ ⟨0, 0, 0⟩ := by
          intro e
          apply hne
          refine ⟨?_, rfl⟩
          rw [e]
          exact circuitEq_null padding
        have hd := hv.resolve_left hnn
        have hst := g2_sum hA hd hs
        have := (ih hks acc' _ hst).2 out hr
        simpa [add_assoc] using this

/-- C86: `enforce_aggregated_pubkeys` on coordinates.  For all keys that passed allocation and every
bitmap the constraints are satisfiable exactly if every signer's coordinates denote a point that is
not the padding key, and then the result denotes the sum of the signers' points. -/
theorem C86_aggregate (keys : List (G2Var × Bool)) (padding : G2Var)
    (hk : ∀ k ∈ keys, k.1.coords.OnCurve g2CoeffB) (hp : Denotes padding.coords padding.point) :
    ((∃ out, AggregatedLoopVar g2CoeffB padding.coords (keys.map fun k => (k.1.coords, k.2))
        ProjVar.zero out) ↔
      ∀ k ∈ keys, k.2 = true → k.1.coords ≠ ⟨0, 0, 0⟩ ∧ k.1.point ≠ padding.point) ∧
    ∀ out, AggregatedLoopVar g2CoeffB padding.coords (keys.map fun k => (k.1.coords, k.2))
        ProjVar.zero out →
      Denotes out ((keys.filter (·.2)).map (·.1.point)).sum := by
  have h := aggregated_aux hp keys hk ProjVar.zero 0 denotes_zero
  simpa using h

theorem aggregatedLoop_spec {G : Type*} [AddCommGroup G] (Q : G) (keys : List (G × Bool)) :
    ∀ acc, ((aggregatedLoop Q keys acc).1 ↔ ∀ k ∈ keys, k.2 = true → k.1 ≠ Q) ∧
      (aggregatedLoop Q keys acc).2 = acc + ((keys.filter (·.2)).map (·.1)).sum := by
  induction keys with
  | nil => intro acc; simp [aggregatedLoop]
  | cons k ks ih =>
    intro acc
    obtain ⟨g, bit⟩ := k
    simp only [aggregatedLoop]
    refine ⟨?_, ?_⟩
    · rw [(ih _).1]
      simp
    · rw [(ih _).2]
      cases bit <;> simp [add_assoc]

/-- C86: hence the model of `enforce_aggregated_pubkeys` on points (`aggregatedLoop`, C40) is what the
constraints on coordinates say: satisfiable constraints satisfy the model, with the same aggregate;
and the converse holds when the signers' coordinates denote points. -/
theorem C86_aggregate_model (keys : List (G2Var × Bool)) (padding : G2Var)
    (hk : ∀ k ∈ keys, k.1.coords.OnCurve g2CoeffB) (hp : Denotes padding.coords padding.point) :
    (∀ out, AggregatedLoopVar g2CoeffB padding.coords (keys.map fun k => (k.1.coords, k.2))
        ProjVar.zero out →
      (aggregatedLoop padding.point (keys.map fun k => (k.1.point, k.2)) 0).1 ∧
      Denotes out (aggregatedLoop padding.point (keys.map fun k => (k.1.point, k.2)) 0).2) ∧
    ((aggregatedLoop padding.point (keys.map fun k => (k.1.point, k.2)) 0).1 →
      (∀ k ∈ keys, k.2 = true → k.1.coords ≠ ⟨0, 0, 0⟩) →
      ∃ out, AggregatedLoopVar g2CoeffB padding.coords (keys.map fun k => (k.1.coords, k.2))
        ProjVar.zero out) := by
  obtain ⟨h1, h2⟩ := C86_aggregate keys padding hk hp
  obtain ⟨m1, m2⟩ := aggregatedLoop_spec padding.point (keys.map fun k => (k.1.point, k.2)) 0
  have e : ((keys.map fun k => (k.1.point, k.2)).filter (·.2)).map (·.1) =
      (keys.filter (·.2)).map (·.1.point) := by
    rw [List.filter_map, List.map_map]
    rfl
  rw [e, zero_add] at m2
  constructor
  · intro out ho
    refine ⟨m1.mpr ?_, m2 ▸ h2 out ho⟩
    intro k hk' hb
    obtain ⟨k', hm', rfl⟩ := List.mem_map.mp hk'
    exact ((h1.mp ⟨out, ho⟩) k' hm' hb).2
  · intro hm hn
    apply h1.mpr
    intro k hk' hb
    exact ⟨hn k hk' hb, m1.mp hm (k.1.point, k.2) (List.mem_map.mpr ⟨k, hk', rfl⟩) hb⟩

theorem aggregatedAll_null (keys : List (ProjVar Fq2)) (out : ProjVar Fq2)
    (h : AggregatedAllVar g2CoeffB keys ProjVar.null out) : out = ProjVar.null := by
  induction keys with
  | nil => exact h
  | cons k ks ih =>
    obtain ⟨acc', hs, hr⟩ := h
    rw [circuitSum_null (Or.inl rfl) hs] at hr
    exact ih hr

theorem aggregatedAll_aux (keys : List G2Var) (hk : ∀ k ∈ keys, k.coords.OnCurve g2CoeffB)
    (out : ProjVar Fq2) : ∀ (acc : ProjVar Fq2) (A : G2Point), Denotes acc A →
    AggregatedAllVar g2CoeffB (keys.map (·.coords)) acc out →
    ((∀ k ∈ keys, k.coords ≠ ⟨0, 0, 0⟩) ∧ Denotes out (A + (keys.map (·.point)).sum)) ∨
    (¬ (∀ k ∈ keys, k.coords ≠ ⟨0, 0, 0⟩) ∧ out = ProjVar.null) := by
  induction keys with
  | nil =>
    rintro acc A hA rfl
    left
    simpa using hA
  | cons k ks ih =>
    rintro acc A hA ⟨acc', hs, hr⟩
    by_cases h0 : k.coords = ⟨0, 0, 0⟩
    · right
      refine ⟨fun h => h k List.mem_cons_self h0, ?_⟩
      rw [circuitSum_null (Or.inr h0) hs] at hr
      exact aggregatedAll_null _ _ hr
    · have hd := ((C86_alloc k ⟨0, 0, 0⟩).1.mp (hk _ List.mem_cons_self)).resolve_left h0
      rcases ih (fun k h => hk k (List.mem_cons_of_mem _ h)) acc' _ (g2_sum hA hd hs) hr with
        ⟨hn, h⟩ | ⟨hn, h⟩
      · left
        refine ⟨?_, by simpa [add_assoc] using h⟩
        intro k' hk'
        rcases List.mem_cons.mp hk' with rfl | hk'
        · exact h0
        · exact hn k' hk'
      · right
        exact ⟨fun h' => hn fun k' hk' => h' k' (List.mem_cons_of_mem _ hk'), h⟩

/-- C86: `enforce_aggregated_all_pubkeys` on coordinates.  The division by `z` that follows it
(`epochs.rs:271-272`) is possible exactly if all keys denote points and their sum is not zero; and the
result denotes the sum. -/
theorem C86_aggregate_all (keys : List G2Var) (hk : ∀ k ∈ keys, k.coords.OnCurve g2CoeffB)
    (out : ProjVar Fq2)
    (h : AggregatedAllVar g2CoeffB (keys.map (·.coords)) ProjVar.zero out) :
    ((∀ k ∈ keys, k.coords ≠ ⟨0, 0, 0⟩) → Denotes out (keys.map (·.point)).sum) ∧
    (out.z ≠ 0 ↔ (∀ k ∈ keys, k.coords ≠ ⟨0, 0, 0⟩) ∧ (keys.map (·.point)).sum ≠ 0) := by
  rcases aggregatedAll_aux keys hk out ProjVar.zero 0 denotes_zero h with ⟨hn, hd⟩ | ⟨hn, rfl⟩
  · rw [zero_add] at hd
    refine ⟨fun _ => hd, ?_⟩
    rw [hd.z_iff]
    exact ⟨fun h => ⟨hn, h⟩, fun h => h.2⟩
  · refine ⟨fun h => absurd h hn, ?_⟩
    exact ⟨fun h => absurd rfl h, fun h => absurd h.1 hn⟩

/-! ### Clearing the cofactor -/

/-- The odd part of the cofactor, and the order of what is left after 92 doublings. -/
theorem cofactorBits_eq : cofactorBits = List.replicate 92 false ++ (List.range 36).map
    (0x170b5d443 : ℕ).testBit := by decide +kernel

theorem scaleByCofactor_denotes {p out : ProjVar Fq} {P : G1Point} (hp : Denotes p P)
    (h : ScaleByCofactorG1 p out) : Denotes out (G1_COFACTOR • P) := by
  unfold ScaleByCofactorG1 at h
  rw [cofactorBits_eq] at h
  obtain ⟨m', hm, h'⟩ := scalarMulLe_skip g1_short g1_nonsingular_iff fq_two_ne fq_three_ne
    one_ne_zero 92 _ _ _ _ P hp h
  have hodd : Odd (0x170b5d443 * FR_MODULUS) := by decide +kernel
  have hk : (0x170b5d443 * FR_MODULUS) • (2 ^ 92 • P) = 0 := by
    rw [← mul_nsmul, show 2 ^ 92 * (0x170b5d443 * FR_MODULUS) = Nat.card G1Point by
      rw [g1_card]; decide +kernel]
    exact card_nsmul_eq_zero'
  have := scalarMulLe_odd g1_short g1_nonsingular_iff fq_two_ne fq_three_ne one_ne_zero hodd _
    _ _ _ 0 _ denotes_zero hm (nsmul_zero _) hk h'
  rw [zero_add, ← mul_nsmul, show natOfBitsLe ((List.range 36).map (0x170b5d443 : ℕ).testBit) =
    0x170b5d443 by decide +kernel, show 2 ^ 92 * 0x170b5d443 = G1_COFACTOR by decide +kernel] at this
  exact this

theorem circuitDouble_null {F : Type*} [Field F] (b : F) :
    circuitDouble b ProjVar.null = ProjVar.null := by
  ext <;> simp [circuitDouble, ProjVar.null]

theorem scalarMul_null {F : Type*} [Field F] {b : F} (bits : List Bool) :
    ∀ (res out : ProjVar F), ScalarMulLe b bits res ProjVar.null out → (true ∈ bits ∨ res = ProjVar.null) →
      out = ProjVar.null := by
  induction bits with
  | nil =>
    rintro res out rfl h
    simpa using h
  | cons bit bits ih =>
    rintro res out ⟨tmp, hs, h⟩ hb
    rw [circuitDouble_null] at h
    refine ih _ out h ?_
    cases bit with
    | true => right; exact circuitSum_null (Or.inr rfl) hs
    | false => simpa using hb

theorem scaleNull {out : ProjVar Fq}
    (h : ScalarMulLe 1 cofactorBits ProjVar.zero (⟨0, 0, 0⟩ : ProjVar Fq) out) : out = ProjVar.null :=
  scalarMul_null _ _ _ h (Or.inl (by decide +kernel))

/-- C86: for every witness that passed allocation, whatever its order, `scale_by_cofactor_g1` returns
coordinates that prepare (`to_affine`) to the affine coordinates of cofactor times the point: no
addition that counts meets an exception. -/
theorem C86_cofactor (v : G1Var) (hv : v.coords.OnCurve 1) :
    (∃ out, ScaleByCofactorG1 v.coords out) ∧
    ∀ out, ScaleByCofactorG1 v.coords out →
      (v.coords ≠ ⟨0, 0, 0⟩ → Denotes out (G1_COFACTOR • v.point)) ∧
      ∀ xy, (∃ infinity zInv, ToAffineC out infinity zInv xy) ↔
        xy = affineOf (G1_COFACTOR • v.point) := by
  refine ⟨scalarMulLe_exists _ _ _, fun out h => ?_⟩
  rcases (C86_alloc ⟨0, 0, 0⟩ v).2.mp hv with h0 | hd
  · refine ⟨fun h => absurd h0 h, fun xy => ?_⟩
    have hp : v.point = 0 := by
      unfold G1Var.point
      rw [dif_neg]
      rintro ⟨hz, _⟩
      exact hz (congrArg ProjVar.z h0)
    unfold ScaleByCofactorG1 at h
    rw [h0] at h
    rw [scaleNull h, null_toAffine, hp, nsmul_zero]
    rfl
  · have hden := scaleByCofactor_denotes hd h
    exact ⟨fun _ => hden, hden.toAffine⟩

/-! ### Concrete cases -/

/-- The point of order two of G1. -/
def twoTorsion : G1Var := ⟨-1, 0, 1⟩

theorem twoTorsion_on : twoTorsion.coords.OnCurve 1 := by
  unfold ProjVar.OnCurve
  decide +kernel

theorem twoTorsion_denotes : Denotes twoTorsion.coords twoTorsion.point :=
  ((C86_alloc ⟨0, 0, 0⟩ twoTorsion).2.mp twoTorsion_on).resolve_left (by decide +kernel)

/-- The exception of the formulas exists on G1: zero plus the point of order two. -/
theorem C86_exception : OrderTwo ((0 : G1Point) - twoTorsion.point) ∧
    circuitAdd 1 ProjVar.zero twoTorsion.coords = ⟨0, 0, 0⟩ ∧
    ScalarMulLe 1 [true] ProjVar.zero twoTorsion.coords ⟨0, 0, 0⟩ := by
  have e : circuitAdd 1 ProjVar.zero twoTorsion.coords = ⟨0, 0, 0⟩ := by decide +kernel
  refine ⟨?_, e, ⟨⟨0, 0, 0⟩, Or.inl e.symm, rfl⟩⟩
  by_contra h
  have := (C86_add_g1 _ _ _ _ denotes_zero twoTorsion_denotes).2 h
  rw [e] at this
  exact this.ne_null rfl

/-- Nevertheless clearing the cofactor is exact for it. -/
example : ∃ out, ScaleByCofactorG1 twoTorsion.coords out ∧
    Denotes out (G1_COFACTOR • twoTorsion.point) := by
  obtain ⟨⟨out, h⟩, h'⟩ := C86_cofactor twoTorsion twoTorsion_on
  exact ⟨out, h, (h' out h).1 (by decide +kernel)⟩

/-- The padding key, with coordinates as `epoch_block.rs:94-96` has it. -/
def genVar : G2Var := ⟨g2GenX, g2GenY, 1⟩

theorem genVar_on : genVar.coords.OnCurve g2CoeffB := by
  unfold ProjVar.OnCurve
  have h := g2Gen_equation
  simp only [genVar, G2Var.coords]
  linear_combination h

theorem genVar_denotes : Denotes genVar.coords genVar.point :=
  ((C86_alloc genVar ⟨0, 0, 0⟩).1.mp genVar_on).resolve_left fun e =>
    one_ne_zero (congrArg ProjVar.z e)

/-- Minus the generator, with `z = 2`. -/
def negGenVar : G2Var := ⟨2 * g2GenX, -2 * g2GenY, 2⟩

theorem negGenVar_denotes : Denotes negGenVar.coords (-genVar.point) := by
  obtain ⟨c, hc, e⟩ := circuitNeg_denotes g2_short' genVar_denotes
  refine ⟨2 * c, mul_ne_zero fq2_two_ne hc, ?_⟩
  rw [← scale_scale, ← e]
  ext <;> simp only [negGenVar, G2Var.coords, genVar, circuitNeg, ProjVar.scale, mul_one, mul_neg,
    neg_mul]

theorem negGenVar_on : negGenVar.coords.OnCurve g2CoeffB :=
  ((denotes_iff g2_nonsingular_iff _).mp ⟨_, negGenVar_denotes⟩).1

theorem negGenVar_point : negGenVar.point = -genVar.point :=
  (((C86_alloc negGenVar ⟨0, 0, 0⟩).1.mp negGenVar_on).resolve_left
    negGenVar_denotes.ne_null).unique negGenVar_denotes

theorem genVar_point_ne : genVar.point ≠ 0 := genVar_denotes.z_iff.mp one_ne_zero

/-- Aggregating the same key twice (equal operands, where incomplete formulas fail), next to a
non-signer with the null triple: the result denotes minus twice the generator. -/
example : ∃ out, AggregatedLoopVar g2CoeffB genVar.coords
    [(negGenVar.coords, true), (ProjVar.null, false), (negGenVar.coords, true)] ProjVar.zero out ∧
    Denotes out (-genVar.point + -genVar.point) := by
  have hne : -genVar.point ≠ genVar.point := by
    intro h
    apply g2_no_orderTwo genVar.point
    refine ⟨genVar_point_ne, ?_⟩
    nth_rw 1 [← h]
    exact neg_add_cancel _
  have hk : ∀ k ∈ [(negGenVar, true), ((⟨0, 0, 0⟩ : G2Var), false), (negGenVar, true)],
      k.1.coords.OnCurve g2CoeffB := by
    intro k hk
    simp only [List.mem_cons, List.not_mem_nil, or_false] at hk
    rcases hk with rfl | rfl | rfl
    · exact negGenVar_on
    · simp [ProjVar.OnCurve, G2Var.coords]
    · exact negGenVar_on
  obtain ⟨h1, h2⟩ := C86_aggregate [(negGenVar, true), (⟨0, 0, 0⟩, false), (negGenVar, true)] genVar
    hk genVar_denotes
  obtain ⟨out, ho⟩ := h1.mpr (by
    intro k hk hb
    simp only [List.mem_cons, List.not_mem_nil, or_false] at hk
    rcases hk with rfl | rfl | rfl
    · exact ⟨negGenVar_denotes.ne_null, negGenVar_point ▸ hne⟩
    · cases hb
    · exact ⟨negGenVar_denotes.ne_null, negGenVar_point ▸ hne⟩)
  refine ⟨out, ho, ?_⟩
  have := h2 out ho
  simpa [negGenVar_point] using this

/-- A null triple among the keys of the last epoch: the aggregate cannot be divided by `z`. -/
example (out : ProjVar Fq2)
    (h : AggregatedAllVar g2CoeffB [genVar.coords, ProjVar.null] ProjVar.zero out) : out.z = 0 := by
  have := (C86_aggregate_all [genVar, ⟨0, 0, 0⟩] (by
    intro k hk
    simp only [List.mem_cons, List.not_mem_nil, or_false] at hk
    rcases hk with rfl | rfl
    · exact genVar_on
    · simp [ProjVar.OnCurve, G2Var.coords]) out h).2
  by_contra hz
  exact (this.mp hz).1 ⟨0, 0, 0⟩ (by simp) rfl

end Verif
