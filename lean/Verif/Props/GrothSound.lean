import Verif.Lemmas.GrothSound
import Verif.Props.Groth16

/-!
# C108: what an accepted proof means

Soundness of the proof system against provers that combine the elements of the published key linearly,
which is what a prover can do with group elements it cannot take apart.
-/

open Polynomial

namespace Verif

/-- The coefficients with which a prover combines the elements of a proving key into an element of the
first group. -/
structure G1Strategy (F : Type*) (k w N : ℕ) where
  alpha : F
  beta : F
  delta : F
  a : Fin (k + 1) ⊕ Fin w → F
  b : Fin (k + 1) ⊕ Fin w → F
  abc : Fin (k + 1) → F
  l : Fin w → F
  h : Fin (N - 1) → F

/-- The same for the second group. -/
structure G2Strategy (F : Type*) (k w : ℕ) where
  beta : F
  gamma : F
  delta : F
  b : Fin (k + 1) ⊕ Fin w → F

section
variable {r : ℕ} [Fact r.Prime] {k w m N : ℕ} {G1 G2 GT : Type*} [AddCommGroup G1]
  [Module (ZMod r) G1] [AddCommGroup G2] [Module (ZMod r) G2] [CommGroup GT] [DecidableEq GT]

/-- The element: every published element of the first group is used. -/
def G1Strategy.combine (s : G1Strategy (ZMod r) k w N) (pk : GrothPk G1 G2) : G1 :=
  s.alpha • pk.vk.alphaG1 + s.beta • pk.betaG1 + s.delta • pk.deltaG1 +
    multiScalarMul pk.aQuery (listVars s.a) + multiScalarMul pk.bG1Query (listVars s.b) +
    multiScalarMul pk.vk.gammaAbcG1 (List.ofFn s.abc) + multiScalarMul pk.lQuery (List.ofFn s.l) +
    multiScalarMul pk.hQuery (List.ofFn s.h)

/-- The same for the second group. -/
def G2Strategy.combine (s : G2Strategy (ZMod r) k w) (pk : GrothPk G1 G2) : G2 :=
  s.beta • pk.vk.betaG2 + s.gamma • pk.vk.gammaG2 + s.delta • pk.vk.deltaG2 +
    multiScalarMul pk.bG2Query (listVars s.b)

/-- The randomness of the setup as five scalars. -/
def Trapdoor.ofScalars (v : Fin 5 → ZMod r) (g1 : G1) (g2 : G2) : Trapdoor (ZMod r) G1 G2 :=
  ⟨v 0, v 1, v 2, v 3, v 4, g1, g2⟩

open Classical in
/-- The polynomial of a variable. -/
noncomputable def varPoly {F : Type*} [Field F] (D : EvalDomain F)
    (rows : Fin D.size → Fin (k + 1) ⊕ Fin w → F) (i : Fin (k + 1) ⊕ Fin w) : F[X] :=
  ∑ j, C (rows j i) * Lagrange.basis Finset.univ D.point j

theorem eval_varPoly {F : Type*} [Field F] (D : EvalDomain F)
    (rows : Fin D.size → Fin (k + 1) ⊕ Fin w → F) (i : Fin (k + 1) ⊕ Fin w) (t : F) :
    (varPoly D rows i).eval t = qapAt D rows t i := by
  unfold varPoly qapAt
  rw [eval_finsetSum]
  exact Finset.sum_congr rfl fun j _ => by rw [eval_mul, eval_C, mul_comm]

theorem sum_varPoly {F : Type*} [Field F] (D : EvalDomain F)
    (rows : Fin D.size → Fin (k + 1) ⊕ Fin w → F) (z : Fin (k + 1) ⊕ Fin w → F) :
    ∑ i, C (z i) * varPoly D rows i = rowPoly D rows z := by
  unfold varPoly rowPoly linComb
  rw [Lagrange.interpolate_apply]
  simp only [map_sum, Finset.mul_sum, Finset.sum_mul]
  rw [Finset.sum_comm]
  exact Finset.sum_congr rfl fun i _ => Finset.sum_congr rfl fun j _ => by rw [C_mul]; ring

theorem natDegree_varPoly {F : Type*} [Field F] {D : EvalDomain F} (hD : D.Valid)
    (rows : Fin D.size → Fin (k + 1) ⊕ Fin w → F) (i : Fin (k + 1) ⊕ Fin w) :
    (varPoly D rows i).natDegree ≤ D.size - 1 := by
  unfold varPoly
  refine natDegree_sum_le_of_forall_le _ _ fun j _ => ?_
  refine natDegree_C_mul_le _ _ |>.trans ?_
  rw [Lagrange.natDegree_basis hD.point_inj.injOn (Finset.mem_univ j), Finset.card_univ,
    Fintype.card_fin]

section
variable (M : R1cs (ZMod r) k w m) (D : EvalDomain (ZMod r))

/-- The three polynomials of a combination of variables. -/
noncomputable def tripleI (c : Fin (k + 1) → ZMod r) : Fin 3 → (ZMod r)[X] :=
  ![∑ i, C (c i) * varPoly D (M.rowA D.size) (.inl i), ∑ i, C (c i) * varPoly D (padRows M.b D.size) (.inl i),
    ∑ i, C (c i) * varPoly D (padRows M.c D.size) (.inl i)]

noncomputable def tripleW (c : Fin w → ZMod r) (h : Fin (D.size - 1) → ZMod r) : Fin 3 → (ZMod r)[X] :=
  ![∑ i, C (c i) * varPoly D (M.rowA D.size) (.inr i), ∑ i, C (c i) * varPoly D (padRows M.b D.size) (.inr i),
    ∑ i, C (c i) * varPoly D (padRows M.c D.size) (.inr i) + (X ^ D.size - 1) * ∑ i, C (h i) * X ^ (i : ℕ)]

noncomputable def polyPart (a b : Fin (k + 1) ⊕ Fin w → ZMod r) : (ZMod r)[X] :=
  ∑ i, C (a i) * varPoly D (M.rowA D.size) i + ∑ i, C (b i) * varPoly D (padRows M.b D.size) i

noncomputable def strategyCoeffs (sa sc : G1Strategy (ZMod r) k w D.size) (sb : G2Strategy (ZMod r) k w)
    (x : Fin k → ZMod r) : GrothCoeffs (ZMod r)[X] where
  a := ![C sa.alpha, C sa.beta, C sa.delta]
  ap := polyPart M D sa.a sa.b
  ai := tripleI M D sa.abc
  aw := tripleW M D sa.l sa.h
  b := ![C sb.beta, C sb.gamma, C sb.delta]
  bp := polyPart M D (fun _ => 0) sb.b
  c := ![C sc.alpha, C sc.beta, C sc.delta]
  cp := polyPart M D sc.a sc.b
  ci := tripleI M D sc.abc
  cw := tripleW M D sc.l sc.h
  z := tripleI M D (Fin.cons 1 x)

end

theorem msm_listVars {G : Type*} [AddCommGroup G] [Module (ZMod r) G]
    (f : Fin (k + 1) ⊕ Fin w → G) (c : Fin (k + 1) ⊕ Fin w → ZMod r) :
    multiScalarMul (listVars f) (listVars c) = ∑ i, c i • f i := by
  unfold listVars
  rw [msm_append _ _ _ _ (by simp), msm_ofFn, msm_ofFn, Fintype.sum_sum_type]

/-- The value of a combination in the first group, times `γ δ`. -/
theorem combine_g1 {M : R1cs (ZMod r) k w m} {D : EvalDomain (ZMod r)}
    {td : Trapdoor (ZMod r) G1 G2} {pk : GrothPk G1 G2} (h : generateParameters M D td = .ok pk)
    (s : G1Strategy (ZMod r) k w D.size) :
    ∃ c, s.combine pk = c • td.g1 ∧
      td.gamma * td.delta * c = combo td.alpha td.beta td.gamma td.delta
        ((fun p => p.eval td.tau) ∘ ![C s.alpha, C s.beta, C s.delta])
        ((polyPart M D s.a s.b).eval td.tau) ((fun p => p.eval td.tau) ∘ tripleI M D s.abc)
        ((fun p => p.eval td.tau) ∘ tripleW M D s.l s.h) := by
  obtain ⟨hN, hg, hd⟩ := generateParameters_ok h
  unfold generateParameters at h
  rw [if_neg (by omega), if_neg hg, if_neg hd] at h
  cases h
  have hr : multiScalarMul ((List.range (D.size - 1)).map fun i =>
      ((td.tau ^ D.size - 1) * td.delta⁻¹ * td.tau ^ i) • td.g1) (List.ofFn s.h) =
      ((td.tau ^ D.size - 1) * (∑ i, s.h i * td.tau ^ (i : ℕ)) * td.delta⁻¹) • td.g1 := by
    have : (List.range (D.size - 1)).map (fun i =>
        ((td.tau ^ D.size - 1) * td.delta⁻¹ * td.tau ^ i) • td.g1) =
        List.ofFn fun i : Fin (D.size - 1) =>
          ((td.tau ^ D.size - 1) * td.delta⁻¹ * td.tau ^ (i : ℕ)) • td.g1 := by
      rw [List.ofFn_eq_map, ← List.map_coe_finRange_eq_range, List.map_map]
      rfl
    rw [this, msm_ofFn, sum_smul_smul, Finset.mul_sum, Finset.sum_mul]
    congr 1
    exact Finset.sum_congr rfl fun i _ => by ring
  refine ⟨s.alpha * td.alpha + s.beta * td.beta + s.delta * td.delta +
    (∑ i, s.a i * qapAt D (M.rowA D.size) td.tau i) +
    (∑ i, s.b i * qapAt D (padRows M.b D.size) td.tau i) +
    (∑ i, s.abc i * td.abc M D (.inl i)) * td.gamma⁻¹ + (∑ i, s.l i * td.abc M D (.inr i)) * td.delta⁻¹ +
    (td.tau ^ D.size - 1) * (∑ i, s.h i * td.tau ^ (i : ℕ)) * td.delta⁻¹, ?_, ?_⟩
  · unfold G1Strategy.combine
    simp only [msm_listVars, msm_ofFn, sum_smul_smul]
    rw [hr]
    simp only [← mul_assoc, ← Finset.sum_mul]
    module
  · have e1 : ∀ {ι : Type} [Fintype ι] (c : ι → ZMod r) (v : ι → Fin (k + 1) ⊕ Fin w),
        ∑ i, c i * td.abc M D (v i) =
        td.beta * ∑ i, c i * qapAt D (M.rowA D.size) td.tau (v i) +
        td.alpha * ∑ i, c i * qapAt D (padRows M.b D.size) td.tau (v i) +
        ∑ i, c i * qapAt D (padRows M.c D.size) td.tau (v i) := by
      intro ι _ c v
      rw [Finset.mul_sum, Finset.mul_sum, ← Finset.sum_add_distrib, ← Finset.sum_add_distrib]
      exact Finset.sum_congr rfl fun i _ => by unfold Trapdoor.abc; ring
    rw [e1 s.abc .inl, e1 s.l .inr]
    unfold combo polyPart tripleI tripleW
    simp only [Function.comp_apply, Matrix.cons_val, eval_C, eval_add, eval_finsetSum, eval_mul,
      eval_varPoly, eval_sub, eval_pow, eval_X, eval_one]
    field_simp
    ring

theorem combine_g2 {M : R1cs (ZMod r) k w m} {D : EvalDomain (ZMod r)}
    {td : Trapdoor (ZMod r) G1 G2} {pk : GrothPk G1 G2} (h : generateParameters M D td = .ok pk)
    (s : G2Strategy (ZMod r) k w) :
    s.combine pk = (s.beta * td.beta + s.gamma * td.gamma + s.delta * td.delta +
      (polyPart M D (fun _ => 0) s.b).eval td.tau) • td.g2 := by
  obtain ⟨hN, hg, hd⟩ := generateParameters_ok h
  unfold generateParameters at h
  rw [if_neg (by omega), if_neg hg, if_neg hd] at h
  cases h
  unfold G2Strategy.combine polyPart
  simp only [msm_listVars, sum_smul_smul, eval_add, eval_finsetSum, eval_mul, eval_C, eval_varPoly,
    zero_mul, Finset.sum_const_zero, zero_add]
  module

/-- A combination is accepted exactly at the zeros of its polynomial. -/
theorem accepted_iff_zero (P : Pairing r G1 G2 GT) {M : R1cs (ZMod r) k w m}
    {D : EvalDomain (ZMod r)} {g1 : G1} {g2 : G2} (h1 : g1 ≠ 0) (h2 : g2 ≠ 0) {v : Fin 5 → ZMod r}
    {pk : GrothPk G1 G2} (h : generateParameters M D (Trapdoor.ofScalars v g1 g2) = .ok pk)
    (sa sc : G1Strategy (ZMod r) k w D.size) (sb : G2Strategy (ZMod r) k w) (x : Fin k → ZMod r) :
    verifyProof P pk.vk ⟨sa.combine pk, sb.combine pk, sc.combine pk⟩ (List.ofFn x) = .ok true ↔
      MvPolynomial.eval v (strategyCoeffs M D sa sc sb x).poly = 0 := by
  obtain ⟨hN, hg, hd⟩ := generateParameters_ok h
  obtain ⟨a, ha, ha'⟩ := combine_g1 h sa
  obtain ⟨c, hc, hc'⟩ := combine_g1 h sc
  rw [ha, hc, combine_g2 h sb]
  set td := Trapdoor.ofScalars v g1 g2 with htd
  rw [verifyProof_iff P h h2, smul_smul, smul_smul, ← add_smul,
    (smul_left_injective (ZMod r) (show td.g1 ≠ 0 from h1)).eq_iff, eval_poly]
  have hst : td.statement M D x = td.beta * (tripleI M D (Fin.cons 1 x) 0).eval td.tau +
      td.alpha * (tripleI M D (Fin.cons 1 x) 1).eval td.tau +
      (tripleI M D (Fin.cons 1 x) 2).eval td.tau := by
    unfold Trapdoor.statement tripleI
    simp only [Matrix.cons_val, eval_finsetSum, eval_mul, eval_C, eval_varPoly]
    rw [Finset.mul_sum, Finset.mul_sum, ← Finset.sum_add_distrib, ← Finset.sum_add_distrib]
    exact Finset.sum_congr rfl fun i _ => by unfold Trapdoor.abc; ring
  unfold GrothCoeffs.form strategyCoeffs
  have v0 : v 0 = td.alpha := rfl
  have v1 : v 1 = td.beta := rfl
  have v2 : v 2 = td.gamma := rfl
  have v3 : v 3 = td.delta := rfl
  have v4 : v 4 = td.tau := rfl
  simp only [v0, v1, v2, v3, v4]
  rw [← ha', ← hc', hst]
  simp only [Matrix.cons_val, eval_C]
  have hgd : td.gamma * td.delta ≠ 0 := mul_ne_zero hg hd
  rw [← sub_eq_zero, ← mul_eq_zero_iff_left hgd]
  constructor
  · intro h; linear_combination h
  · intro h; linear_combination h

theorem natDegree_combination {D : EvalDomain (ZMod r)} (hD : D.Valid) {ι : Type} [Fintype ι]
    (rows : Fin D.size → Fin (k + 1) ⊕ Fin w → ZMod r) (c : ι → ZMod r)
    (v : ι → Fin (k + 1) ⊕ Fin w) :
    (∑ i, C (c i) * varPoly D rows (v i)).natDegree ≤ D.size - 1 :=
  natDegree_sum_le_of_forall_le _ _ fun _ _ =>
    (natDegree_C_mul_le _ _).trans (natDegree_varPoly hD rows _)

theorem natDegree_triple (a b c : ZMod r) (j : Fin 3) :
    (![C a, C b, C c] j : (ZMod r)[X]).natDegree ≤ 0 := by
  fin_cases j <;> simp

theorem natDegree_polyPart {M : R1cs (ZMod r) k w m} {D : EvalDomain (ZMod r)} (hD : D.Valid)
    (a b : Fin (k + 1) ⊕ Fin w → ZMod r) : (polyPart M D a b).natDegree ≤ D.size - 1 :=
  natDegree_add_le_of_degree_le (natDegree_combination hD _ a id) (natDegree_combination hD _ b id)

theorem natDegree_tripleI {M : R1cs (ZMod r) k w m} {D : EvalDomain (ZMod r)} (hD : D.Valid)
    (c : Fin (k + 1) → ZMod r) (j : Fin 3) : (tripleI M D c j).natDegree ≤ D.size - 1 := by
  fin_cases j
  · exact natDegree_combination hD _ c .inl
  · exact natDegree_combination hD _ c .inl
  · exact natDegree_combination hD _ c .inl

theorem natDegree_quotientPart {D : EvalDomain (ZMod r)} (hN : 1 ≤ D.size)
    (h : Fin (D.size - 1) → ZMod r) :
    ((X ^ D.size - 1) * ∑ i, C (h i) * X ^ (i : ℕ) : (ZMod r)[X]).natDegree ≤ 2 * (D.size - 1) := by
  by_cases h1 : D.size - 1 = 0
  · have : ∑ i : Fin (D.size - 1), C (h i) * X ^ (i : ℕ) = (0 : (ZMod r)[X]) :=
      Finset.sum_eq_zero fun i _ => absurd i.2 (by omega)
    rw [this, mul_zero]; simp
  have hnd : (X ^ D.size - 1 : (ZMod r)[X]).natDegree = D.size := by
    simpa using natDegree_X_pow_sub_C (n := D.size) (r := (1 : ZMod r))
  have : (∑ i, C (h i) * X ^ (i : ℕ) : (ZMod r)[X]).natDegree ≤ D.size - 2 :=
    natDegree_sum_le_of_forall_le _ _ fun i _ =>
      (natDegree_C_mul_X_pow_le _ _).trans (by have := i.2; omega)
  refine natDegree_mul_le.trans ?_
  omega

theorem strategy_degree {M : R1cs (ZMod r) k w m} {D : EvalDomain (ZMod r)} (hD : D.Valid)
    (hN : 1 ≤ D.size) (sa sc : G1Strategy (ZMod r) k w D.size) (sb : G2Strategy (ZMod r) k w)
    (x : Fin k → ZMod r) : (strategyCoeffs M D sa sc sb x).poly.totalDegree ≤ 3 * D.size + 1 := by
  have h2 : ∀ l h, (tripleW M D l h 2).natDegree ≤ 2 * (D.size - 1) := fun l h =>
    natDegree_add_le_of_degree_le ((natDegree_combination hD _ l .inr).trans (by omega))
      (natDegree_quotientPart hN h)
  have h0 : ∀ l h, (tripleW M D l h 0).natDegree ≤ D.size - 1 := fun l h =>
    natDegree_combination hD (M.rowA D.size) l .inr
  have h1 : ∀ l h, (tripleW M D l h 1).natDegree ≤ D.size - 1 := fun l h =>
    natDegree_combination hD (padRows M.b D.size) l .inr
  have := poly_degree (strategyCoeffs M D sa sc sb x) (n := D.size - 1)
    (natDegree_triple sa.alpha sa.beta sa.delta)
    (natDegree_polyPart hD sa.a sa.b) (natDegree_tripleI hD sa.abc) (h0 sa.l sa.h) (h1 sa.l sa.h)
    (h2 sa.l sa.h) (natDegree_triple sb.beta sb.gamma sb.delta)
    (natDegree_polyPart hD (fun _ => 0) sb.b)
    (natDegree_triple sc.alpha sc.beta sc.delta) (natDegree_polyPart hD sc.a sc.b)
    (natDegree_tripleI hD sc.abc) (h0 sc.l sc.h) (h1 sc.l sc.h) (h2 sc.l sc.h)
    (natDegree_tripleI hD (Fin.cons 1 x))
  omega

/-- **C108.** A prover who combines the elements of the published key linearly, with coefficients
chosen before the setup draws its randomness, either holds values that satisfy the constraints for the
public inputs — the coefficients of its third element — or is accepted for at most `(3 N + 1) r ^ 4` of
the `r ^ 5` choices of the setup, where `N` is the size of the domain. -/
theorem C108_sound (P : Pairing r G1 G2 GT) {M : R1cs (ZMod r) k w m} {D : EvalDomain (ZMod r)}
    (hD : D.Valid) (hN : m + k < D.size) {g1 : G1} {g2 : G2} (h1 : g1 ≠ 0) (h2 : g2 ≠ 0)
    (sa sc : G1Strategy (ZMod r) k w D.size) (sb : G2Strategy (ZMod r) k w) (x : Fin k → ZMod r)
    (hx : ¬ M.Satisfied (fullAssignment x sc.l)) :
    ∃ lucky : Finset (Fin 5 → ZMod r), lucky.card ≤ (3 * D.size + 1) * r ^ 4 ∧
      ∀ v ∉ lucky, ∀ pk, generateParameters M D (Trapdoor.ofScalars v g1 g2) = .ok pk →
        verifyProof P pk.vk ⟨sa.combine pk, sb.combine pk, sc.combine pk⟩ (List.ofFn x) =
          .ok false := by
  classical
  have hne : (strategyCoeffs M D sa sc sb x).poly ≠ 0 := by
    intro h0
    have h := poly_eq_zero _ h0
    apply hx
    rw [← dvd_iff_satisfied hD M (by omega)]
    have e : ∀ rows : Fin D.size → Fin (k + 1) ⊕ Fin w → ZMod r,
        ∑ i, C ((Fin.cons 1 x : Fin (k + 1) → ZMod r) i) * varPoly D rows (.inl i) +
          ∑ i, C (sc.l i) * varPoly D rows (.inr i) = rowPoly D rows (fullAssignment x sc.l) := by
      intro rows
      rw [← sum_varPoly, Fintype.sum_sum_type]
      rfl
    refine ⟨∑ i, C (sc.h i) * X ^ (i : ℕ), ?_⟩
    simp only [strategyCoeffs, tripleI, tripleW, Matrix.cons_val] at h
    rw [e, e, ← add_assoc, e] at h
    rw [h]; ring
  refine ⟨Finset.univ.filter fun v => MvPolynomial.eval v (strategyCoeffs M D sa sc sb x).poly = 0,
    ?_, fun v hv pk hpk => ?_⟩
  · have := card_zeros_le hne (strategy_degree hD (by omega) sa sc sb x)
    rwa [ZMod.card] at this
  · obtain ⟨b, hb⟩ := (C105_inputs P hpk ⟨sa.combine pk, sb.combine pk, sc.combine pk⟩
      (List.ofFn x)).2 (by simp)
    rw [hb]
    cases b with
    | false => rfl
    | true =>
      rw [accepted_iff_zero P h1 h2 hpk] at hb
      exact absurd (Finset.mem_filter.mpr ⟨Finset.mem_univ v, hb⟩) hv

/-- **C108.** The algorithm of the prover, with any blinding factors, run on values that do not satisfy the
constraints — it does not check them in a release build — makes a proof that is rejected, but for as few
choices of the setup. -/
theorem C108_unsatisfied_blinded (P : Pairing r G1 G2 GT) {M : R1cs (ZMod r) k w m}
    {D : EvalDomain (ZMod r)} (hD : D.Valid) (hN : m + k < D.size) {g1 : G1} {g2 : G2} (h1 : g1 ≠ 0)
    (h2 : g2 ≠ 0) (x : Fin k → ZMod r) (wit : Fin w → ZMod r)
    (hx : ¬ M.Satisfied (fullAssignment x wit)) (rr s : ZMod r) :
    ∃ lucky : Finset (Fin 5 → ZMod r), lucky.card ≤ (3 * D.size + 1) * r ^ 4 ∧
      ∀ v ∉ lucky, ∀ pk, generateParameters M D (Trapdoor.ofScalars v g1 g2) = .ok pk →
        verifyProof P pk.vk (createProof M D pk x wit rr s) (List.ofFn x) = .ok false := by
  obtain ⟨lucky, hc, hl⟩ := C108_sound P hD hN h1 h2
    ⟨1, 0, rr, fullAssignment x wit, fun _ => 0, fun _ => 0, fun _ => 0, fun _ => 0⟩
    ⟨s, rr, s * rr, fun i => s * fullAssignment x wit i, fun i => rr * fullAssignment x wit i,
      fun _ => 0, wit, fun i => (witnessMap M D (fullAssignment x wit)).coeff i⟩
    ⟨1, 0, s, fullAssignment x wit⟩ x hx
  refine ⟨lucky, hc, fun v hv pk hpk => ?_⟩
  rw [← hl v hv pk hpk]
  congr 1
  obtain ⟨hN', hg, hd⟩ := generateParameters_ok hpk
  unfold generateParameters at hpk
  rw [if_neg (by omega), if_neg hg, if_neg hd] at hpk
  cases hpk
  unfold createProof G1Strategy.combine G2Strategy.combine
  have h0 : ∀ (n N : ℕ) (f : ℕ → G1), n ≤ N →
      multiScalarMul ((List.range n).map f) (List.ofFn fun _ : Fin N => (0 : ZMod r)) = 0 := by
    intro n N f hn
    rw [msm_range f (fun _ => 0) n N hn]
    simp
  simp only [calculateCoeff_eq, msm_listVars, msm_ofFn, zero_smul, Finset.sum_const_zero,
    one_smul, add_zero]
  rw [h0 _ _ _ le_rfl, msm_range _ (fun i => (witnessMap M D (fullAssignment x wit)).coeff i) _ _ le_rfl,
    msm_range _ (fun i => (witnessMap M D (fullAssignment x wit)).coeff i) _ _ (by omega)]
  refine GrothProof.ext ?_ ?_ ?_
  · simp only []
    abel
  · simp only []
    abel
  · simp only [mul_smul, ← Finset.smul_sum]
    split
    · next h =>
      subst h
      simp only [zero_smul, smul_zero, smul_add, add_zero, sub_zero, zero_add]
      abel
    · simp only [smul_add, smul_comm rr s]
      abel

/-- **C108.** The same for the prover of the code, without blinding. -/
theorem C108_unsatisfied (P : Pairing r G1 G2 GT) {M : R1cs (ZMod r) k w m}
    {D : EvalDomain (ZMod r)} (hD : D.Valid) (hN : m + k < D.size) {g1 : G1} {g2 : G2} (h1 : g1 ≠ 0)
    (h2 : g2 ≠ 0) (x : Fin k → ZMod r) (wit : Fin w → ZMod r)
    (hx : ¬ M.Satisfied (fullAssignment x wit)) :
    ∃ lucky : Finset (Fin 5 → ZMod r), lucky.card ≤ (3 * D.size + 1) * r ^ 4 ∧
      ∀ v ∉ lucky, ∀ pk, generateParameters M D (Trapdoor.ofScalars v g1 g2) = .ok pk →
        verifyProof P pk.vk (createProofNoZk M D pk x wit) (List.ofFn x) = .ok false :=
  C108_unsatisfied_blinded P hD hN h1 h2 x wit hx 0 0

end

/-! ## Concrete cases -/

/-- `2 * 2 = 6` is not proved by the proof of the code, but for at most `13 * 101 ^ 4` of the `101 ^ 5`
choices of the setup. -/
example : ∃ lucky : Finset (Fin 5 → ZMod 101), lucky.card ≤ 13 * 101 ^ 4 ∧
    ∀ v ∉ lucky, ∀ pk : GrothPk (ZMod 101) (ZMod 101),
      generateParameters productSystem fourDomain (Trapdoor.ofScalars v 7 8) = .ok pk →
      verifyProof (toyPairing 101) pk.vk (createProofNoZk productSystem fourDomain pk ![6] ![2, 2]) [6] =
        .ok false :=
  C108_unsatisfied (toyPairing 101) fourDomain_valid (by decide) (by decide) (by decide) ![6] ![2, 2]
    (by rw [productSystem_iff]; decide)

/-- Nor with the blinding factors 3 and 5. -/
example : ∃ lucky : Finset (Fin 5 → ZMod 101), lucky.card ≤ 13 * 101 ^ 4 ∧
    ∀ v ∉ lucky, ∀ pk : GrothPk (ZMod 101) (ZMod 101),
      generateParameters productSystem fourDomain (Trapdoor.ofScalars v 7 8) = .ok pk →
      verifyProof (toyPairing 101) pk.vk (createProof productSystem fourDomain pk ![6] ![2, 2] 3 5) [6] =
        .ok false :=
  C108_unsatisfied_blinded (toyPairing 101) fourDomain_valid (by decide) (by decide) (by decide) ![6]
    ![2, 2] (by rw [productSystem_iff]; decide) 3 5

/-- Nor by `α + δ`, `β + γ` and the element of the first witness: its coefficients are those of `1 * 0`. -/
example : ∃ lucky : Finset (Fin 5 → ZMod 101), lucky.card ≤ 13 * 101 ^ 4 ∧
    ∀ v ∉ lucky, ∀ pk : GrothPk (ZMod 101) (ZMod 101),
      generateParameters productSystem fourDomain (Trapdoor.ofScalars v 7 8) = .ok pk →
      verifyProof (toyPairing 101) pk.vk
        ⟨(⟨1, 0, 1, 0, 0, 0, 0, 0⟩ : G1Strategy (ZMod 101) 1 2 4).combine pk,
          (⟨1, 1, 0, 0⟩ : G2Strategy (ZMod 101) 1 2).combine pk,
          (⟨0, 0, 0, 0, 0, 0, ![1, 0], 0⟩ : G1Strategy (ZMod 101) 1 2 4).combine pk⟩ [6] = .ok false :=
  C108_sound (toyPairing 101) fourDomain_valid (by decide) (by decide) (by decide) _ _ _ ![6]
    (by rw [productSystem_iff]; decide)

end Verif
