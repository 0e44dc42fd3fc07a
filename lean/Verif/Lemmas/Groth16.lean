import Verif.Model.Groth16
import Verif.Lemmas.Bls
import Mathlib.RingTheory.RootsOfUnity.Basic
import Mathlib.Algebra.BigOperators.Fin
import Mathlib.Tactic.LinearCombination
import Mathlib.Tactic.Module

/-! Helper lemmas about Groth16. -/

open Polynomial

namespace Verif

section
variable {F : Type*} [Field F] {k w m : ℕ}

theorem EvalDomain.Valid.point_inj {D : EvalDomain F} (hD : D.Valid) : Function.Injective D.point :=
  fun i j h => Fin.ext (hD.root.pow_inj i.2 j.2 h)

theorem EvalDomain.Valid.coset_inj {D : EvalDomain F} (hD : D.Valid) :
    Function.Injective D.cosetPoint :=
  fun _ _ h => hD.point_inj (mul_left_cancel₀ hD.shift_ne h)

theorem EvalDomain.point_pow {D : EvalDomain F} (hD : D.Valid) (j : Fin D.size) :
    D.point j ^ D.size = 1 := by
  unfold EvalDomain.point
  rw [← pow_mul, mul_comm, pow_mul, hD.root.pow_eq_one, one_pow]

theorem EvalDomain.coset_pow {D : EvalDomain F} (hD : D.Valid) (j : Fin D.size) :
    D.cosetPoint j ^ D.size - 1 ≠ 0 := by
  have : D.cosetPoint j = D.shift * D.point j := rfl
  rw [this, mul_pow, EvalDomain.point_pow hD, mul_one, sub_ne_zero]
  exact hD.shift_pow

/-- The polynomial that vanishes on the domain. -/
theorem nodal_domain {D : EvalDomain F} (hD : D.Valid) (hN : D.size ≠ 0) :
    Lagrange.nodal Finset.univ D.point = X ^ D.size - 1 := by
  have hm : (X ^ D.size - 1 : F[X]).Monic := by
    simpa using monic_X_pow_sub_C (1 : F) hN
  have hd : (X ^ D.size - 1 : F[X]).degree = D.size := by
    simpa using degree_X_pow_sub_C (Nat.pos_of_ne_zero hN) (1 : F)
  have hn : (Lagrange.nodal Finset.univ D.point).degree = D.size := by
    rw [Lagrange.degree_nodal, Finset.card_univ, Fintype.card_fin]
  refine Polynomial.eq_of_degree_sub_lt_of_eval_index_eq (s := Finset.univ) (v := D.point)
    (hD.point_inj.injOn) ?_ fun j _ => ?_
  · rw [Finset.card_univ, Fintype.card_fin]
    refine lt_of_lt_of_eq (degree_sub_lt_left (hn.trans hd.symm) ?_ ?_) hn
    · exact Lagrange.nodal_ne_zero
    · rw [Lagrange.nodal_monic.leadingCoeff, hm.leadingCoeff]
  · rw [Lagrange.eval_nodal_at_node (Finset.mem_univ j)]
    simp [EvalDomain.point_pow hD]

theorem dvd_of_domain {D : EvalDomain F} (hD : D.Valid) (hN : D.size ≠ 0) {f : F[X]}
    (hf : ∀ j, f.eval (D.point j) = 0) : (X ^ D.size - 1) ∣ f := by
  rw [← nodal_domain hD hN, Lagrange.nodal_eq]
  refine Finset.prod_dvd_of_coprime (fun i _ j _ hij => ?_) fun j _ => dvd_iff_isRoot.mpr (hf j)
  exact isCoprime_X_sub_C_of_isUnit_sub
    ((sub_ne_zero.mpr fun h => hij (hD.point_inj h)).isUnit)

theorem eval_rowPoly (D : EvalDomain F) (rows : Fin D.size → Fin (k + 1) ⊕ Fin w → F)
    (z : Fin (k + 1) ⊕ Fin w → F) (t : F) :
    (rowPoly D rows z).eval t = ∑ i, z i * qapAt D rows t i := by
  unfold rowPoly qapAt linComb
  rw [Lagrange.interpolate_apply, eval_finsetSum]
  simp only [eval_mul, eval_C, Finset.mul_sum, Finset.sum_mul]
  rw [Finset.sum_comm]
  exact Finset.sum_congr rfl fun i _ => Finset.sum_congr rfl fun j _ => by ring

theorem rowPoly_point {D : EvalDomain F} (hD : D.Valid)
    (rows : Fin D.size → Fin (k + 1) ⊕ Fin w → F) (z : Fin (k + 1) ⊕ Fin w → F) (j : Fin D.size) :
    (rowPoly D rows z).eval (D.point j) = linComb (rows j) z :=
  Lagrange.eval_interpolate_at_node _ hD.point_inj.injOn (Finset.mem_univ j)

theorem rowPoly_degree {D : EvalDomain F} (hD : D.Valid)
    (rows : Fin D.size → Fin (k + 1) ⊕ Fin w → F) (z : Fin (k + 1) ⊕ Fin w → F) :
    (rowPoly D rows z).degree < D.size := by
  have := Lagrange.degree_interpolate_lt (r := fun j => linComb (rows j) z) (s := Finset.univ)
    (v := D.point) hD.point_inj.injOn
  rwa [Finset.card_univ, Fintype.card_fin] at this

theorem linComb_padRows (rows : Fin m → Fin (k + 1) ⊕ Fin w → F) (N : ℕ) (j : Fin N)
    (z : Fin (k + 1) ⊕ Fin w → F) :
    linComb (padRows rows N j) z = if h : (j : ℕ) < m then linComb (rows ⟨j, h⟩) z else 0 := by
  unfold linComb padRows
  split <;> simp

theorem linComb_rowA (M : R1cs F k w m) (N : ℕ) (j : Fin N) (h : (j : ℕ) < m)
    (z : Fin (k + 1) ⊕ Fin w → F) : linComb (M.rowA N j) z = linComb (M.a ⟨j, h⟩) z := by
  unfold linComb R1cs.rowA
  simp [h]

/-- On the domain the product of the first two polynomials is the third exactly if the constraints
hold. -/
theorem domain_iff_satisfied {D : EvalDomain F} (hD : D.Valid) (M : R1cs F k w m) (hm : m ≤ D.size)
    (z : Fin (k + 1) ⊕ Fin w → F) :
    (∀ j, (rowPoly D (M.rowA D.size) z * rowPoly D (padRows M.b D.size) z -
      rowPoly D (padRows M.c D.size) z).eval (D.point j) = 0) ↔ M.Satisfied z := by
  simp only [eval_sub, eval_mul, rowPoly_point hD, linComb_padRows, sub_eq_zero]
  constructor
  · intro h j
    have := h ⟨j, lt_of_lt_of_le j.2 hm⟩
    simpa [linComb_rowA M D.size ⟨j, lt_of_lt_of_le j.2 hm⟩ j.2] using this
  · intro h j
    split
    · rename_i hj
      rw [linComb_rowA M D.size j hj]
      exact h _
    · simp

/-- The quotient exists exactly if the constraints hold. -/
theorem dvd_iff_satisfied {D : EvalDomain F} (hD : D.Valid) (M : R1cs F k w m)
    (hm : m < D.size) (z : Fin (k + 1) ⊕ Fin w → F) :
    (X ^ D.size - 1) ∣ (rowPoly D (M.rowA D.size) z * rowPoly D (padRows M.b D.size) z -
      rowPoly D (padRows M.c D.size) z) ↔ M.Satisfied z := by
  rw [← domain_iff_satisfied hD M hm.le]
  refine ⟨fun ⟨q, hq⟩ j => ?_, dvd_of_domain hD (by omega)⟩
  rw [hq]
  simp [EvalDomain.point_pow hD]

/-- What the prover computes on the coset is the quotient, and its last coefficient is zero. -/
theorem witnessMap_spec {D : EvalDomain F} (hD : D.Valid) (M : R1cs F k w m) (hm : m < D.size)
    {z : Fin (k + 1) ⊕ Fin w → F} (hz : M.Satisfied z) :
    (X ^ D.size - 1) * witnessMap M D z =
      rowPoly D (M.rowA D.size) z * rowPoly D (padRows M.b D.size) z -
        rowPoly D (padRows M.c D.size) z ∧
    ∀ i, D.size - 1 ≤ i → (witnessMap M D z).coeff i = 0 := by
  have hN : D.size ≠ 0 := by omega
  obtain ⟨q, hq⟩ := (dvd_iff_satisfied hD M hm z).mpr hz
  set f := rowPoly D (M.rowA D.size) z * rowPoly D (padRows M.b D.size) z -
    rowPoly D (padRows M.c D.size) z with hf
  have hmonic : (X ^ D.size - 1 : F[X]).Monic := by simpa using monic_X_pow_sub_C (1 : F) hN
  have hnd : (X ^ D.size - 1 : F[X]).natDegree = D.size := by
    simpa using natDegree_X_pow_sub_C (n := D.size) (r := (1 : F))
  have deg : ∀ rows : Fin D.size → Fin (k + 1) ⊕ Fin w → F,
      (rowPoly D rows z).natDegree ≤ D.size - 1 := by
    intro rows
    have := rowPoly_degree hD rows z
    by_cases h0 : rowPoly D rows z = 0
    · simp [h0]
    · rw [degree_eq_natDegree h0] at this
      have : (rowPoly D rows z).natDegree < D.size := by exact_mod_cast this
      omega
  have hqd : q = 0 ∨ q.natDegree + 1 < D.size := by
    by_cases h0 : q = 0
    · exact Or.inl h0
    right
    have h1 : f.natDegree = D.size + q.natDegree := by
      rw [hq, hmonic.natDegree_mul' h0, hnd]
    have h2 : f.natDegree ≤ (D.size - 1) + (D.size - 1) := by
      refine (natDegree_sub_le _ _).trans (max_le ?_ ?_)
      · exact natDegree_mul_le.trans (Nat.add_le_add (deg _) (deg _))
      · exact (deg _).trans (by omega)
    omega
  have hw : witnessMap M D z = q := by
    symm
    refine Lagrange.eq_interpolate_of_eval_eq _ hD.coset_inj.injOn ?_ fun j _ => ?_
    · rw [Finset.card_univ, Fintype.card_fin]
      by_cases h0 : q = 0
      · rw [h0, degree_zero]; exact WithBot.bot_lt_coe _
      · rw [degree_eq_natDegree h0]
        exact_mod_cast (by have := hqd.resolve_left h0; omega : q.natDegree < D.size)
    · have he := congrArg (Polynomial.eval (D.cosetPoint j)) hq
      rw [hf] at he
      simp only [eval_sub, eval_mul, eval_pow, eval_X, eval_one] at he
      simp only []
      rw [he, mul_div_cancel_left₀ _ (EvalDomain.coset_pow hD j)]
  rw [hw]
  refine ⟨hq.symm, fun i hi => ?_⟩
  rcases hqd with h0 | h0
  · rw [h0, coeff_zero]
  · exact coeff_eq_zero_of_natDegree_lt (by omega)

end

section
variable {r : ℕ} {G : Type*} [AddCommGroup G] [Module (ZMod r) G]

theorem msm_ofFn {n : ℕ} (f : Fin n → G) (g : Fin n → ZMod r) :
    multiScalarMul (List.ofFn f) (List.ofFn g) = ∑ i, g i • f i := by
  induction n with
  | zero => simp [multiScalarMul]
  | succ n ih =>
    rw [List.ofFn_succ, List.ofFn_succ, multiScalarMul, ih, Fin.sum_univ_succ]

theorem msm_append (bs bs' : List G) (xs xs' : List (ZMod r)) (h : bs.length = xs.length) :
    multiScalarMul (bs ++ bs') (xs ++ xs') = multiScalarMul bs xs + multiScalarMul bs' xs' := by
  induction bs generalizing xs with
  | nil =>
    cases xs with
    | nil => simp [multiScalarMul]
    | cons x xs => cases h
  | cons b bs ih =>
    cases xs with
    | nil => cases h
    | cons x xs =>
      simp only [List.cons_append, multiScalarMul]
      rw [ih xs (by simpa using h), add_assoc]

/-- The shorter list decides: powers times coefficients. -/
theorem msm_range (f : ℕ → G) (g : ℕ → ZMod r) (n N : ℕ) (h : n ≤ N) :
    multiScalarMul ((List.range n).map f) (List.ofFn fun i : Fin N => g i) =
      ∑ i ∈ Finset.range n, g i • f i := by
  induction n generalizing f g N with
  | zero => simp [multiScalarMul]
  | succ n ih =>
    obtain ⟨N, rfl⟩ : ∃ N', N = N' + 1 := ⟨N - 1, by omega⟩
    rw [List.range_succ_eq_map, List.map_cons, List.map_map, List.ofFn_succ, multiScalarMul,
      Finset.sum_range_succ']
    have := ih (f ∘ Nat.succ) (fun i => g (i + 1)) N (by omega)
    simp only [Fin.val_zero, Fin.val_succ] at this ⊢
    rw [this, add_comm]
    rfl

end

section
variable {r : ℕ} [Fact r.Prime] {k w m : ℕ} {G1 G2 GT : Type*} [AddCommGroup G1]
  [Module (ZMod r) G1] [AddCommGroup G2] [Module (ZMod r) G2] [CommGroup GT] [DecidableEq GT]

theorem calculateCoeff_eq {G : Type*} [AddCommGroup G] [Module (ZMod r) G] (initial p : G)
    (q : Fin (k + 1) ⊕ Fin w → G) (x : Fin k → ZMod r) (wit : Fin w → ZMod r) :
    calculateCoeff initial (listVars q) p (List.ofFn x ++ List.ofFn wit) =
      initial + ∑ i, fullAssignment x wit i • q i + p := by
  unfold calculateCoeff listVars
  rw [List.ofFn_succ]
  simp only [List.cons_append, List.headD_cons, List.tail_cons]
  rw [msm_append _ _ _ _ (by simp), msm_ofFn, msm_ofFn, Fintype.sum_sum_type, Fin.sum_univ_succ]
  simp only [fullAssignment, Sum.elim_inl, Sum.elim_inr, Fin.cons_zero, Fin.cons_succ, one_smul]
  abel

theorem sum_smul_smul {R G n : Type*} [CommRing R] [AddCommGroup G] [Module R G] [Fintype n]
    (f g : n → R) (P : G) : ∑ i, f i • g i • P = (∑ i, f i * g i) • P := by
  rw [Finset.sum_smul]
  exact Finset.sum_congr rfl fun i _ => smul_smul _ _ _

/-- What `generateParameters` returns. -/
theorem generateParameters_ok {M : R1cs (ZMod r) k w m} {D : EvalDomain (ZMod r)}
    {td : Trapdoor (ZMod r) G1 G2} {pk : GrothPk G1 G2} (h : generateParameters M D td = .ok pk) :
    m + (k + 1) ≤ D.size ∧ td.gamma ≠ 0 ∧ td.delta ≠ 0 := by
  unfold generateParameters at h
  split at h
  · cases h
  split at h
  · cases h
  split at h
  · cases h
  exact ⟨by omega, by assumption, by assumption⟩

theorem generateParameters_iff {M : R1cs (ZMod r) k w m} {D : EvalDomain (ZMod r)}
    {td : Trapdoor (ZMod r) G1 G2} (h1 : m + (k + 1) ≤ D.size) (h2 : td.gamma ≠ 0)
    (h3 : td.delta ≠ 0) : ∃ pk, generateParameters M D td = .ok pk := by
  unfold generateParameters
  rw [if_neg (by omega), if_neg h2, if_neg h3]
  exact ⟨_, rfl⟩

omit [DecidableEq GT] in
theorem Pairing.e_inj (P : Pairing r G1 G2 GT) {Q : G2} (hQ : Q ≠ 0) {A B : G1} :
    P.e A Q = P.e B Q ↔ A = B := by
  have : NeZero r := ⟨(Fact.out : r.Prime).ne_zero⟩
  refine ⟨fun h => ?_, fun h => by rw [h]⟩
  obtain ⟨s, rfl⟩ := P.span2 Q
  have hs : s ≠ 0 := by
    rintro rfl
    exact hQ (zero_smul _ _)
  rw [← P.smul_swap, ← P.smul_swap] at h
  have := P.e_g2_inj h
  have := congrArg (s⁻¹ • ·) this
  simpa [smul_smul, inv_mul_cancel₀ hs] using this

/-- The sum of the statement's part: `Σ z_i (β a_i + α b_i + c_i)` over the public inputs. -/
noncomputable def Trapdoor.statement (td : Trapdoor (ZMod r) G1 G2) (M : R1cs (ZMod r) k w m)
    (D : EvalDomain (ZMod r)) (x : Fin k → ZMod r) : ZMod r :=
  ∑ i : Fin (k + 1), (Fin.cons 1 x : Fin (k + 1) → ZMod r) i * td.abc M D (.inl i)

/-- The verification equation, in the group. -/
theorem verifyProof_eq (P : Pairing r G1 G2 GT) {M : R1cs (ZMod r) k w m} {D : EvalDomain (ZMod r)}
    {td : Trapdoor (ZMod r) G1 G2} {pk : GrothPk G1 G2} (h : generateParameters M D td = .ok pk)
    (x : Fin k → ZMod r) (A C : G1) (b : ZMod r) :
    verifyProof P pk.vk ⟨A, b • td.g2, C⟩ (List.ofFn x) =
      .ok (decide (P.e (b • A) td.g2 =
        P.e ((td.alpha * td.beta + td.statement M D x) • td.g1 + td.delta • C) td.g2)) := by
  have : NeZero r := ⟨(Fact.out : r.Prime).ne_zero⟩
  obtain ⟨_, hg, _⟩ := generateParameters_ok h
  unfold generateParameters at h
  rw [if_neg (by omega), if_neg (by assumption), if_neg (by assumption)] at h
  cases h
  unfold verifyProof prepareInputs
  rw [if_neg (by simp)]
  simp only [Outcome.map_ok, productOfPairings, List.map_cons, List.map_nil, List.prod_cons,
    List.prod_nil, mul_one, Outcome.ok.injEq, List.ofFn_succ, List.headD_cons, List.tail_cons,
    msm_ofFn, P.neg_right]
  rw [← P.smul_swap, ← P.smul_swap, ← P.smul_swap, ← P.smul_swap]
  have hs : td.gamma • ((td.abc M D (.inl 0) * td.gamma⁻¹) • td.g1 +
      ∑ i : Fin k, x i • (td.abc M D (.inl i.succ) * td.gamma⁻¹) • td.g1) =
      td.statement M D x • td.g1 := by
    unfold Trapdoor.statement
    rw [Fin.sum_univ_succ, Finset.sum_congr rfl fun i _ => smul_smul (x i) _ td.g1,
      ← Finset.sum_smul, ← add_smul, smul_smul]
    congr 1
    simp only [Fin.cons_zero, Fin.cons_succ, one_mul, ← mul_assoc]
    rw [← Finset.sum_mul, ← add_mul, mul_comm td.gamma, mul_assoc, inv_mul_cancel₀ hg, mul_one]
  rw [hs, add_smul, P.add_left, P.add_left, smul_smul td.beta, mul_comm td.beta]
  congr 1
  rw [eq_iff_iff, ← mul_inv, mul_inv_eq_iff_eq_mul, mul_assoc]

theorem verifyProof_iff (P : Pairing r G1 G2 GT) {M : R1cs (ZMod r) k w m}
    {D : EvalDomain (ZMod r)} {td : Trapdoor (ZMod r) G1 G2} {pk : GrothPk G1 G2}
    (h : generateParameters M D td = .ok pk) (hg : td.g2 ≠ 0)
    (x : Fin k → ZMod r) (A C : G1) (b : ZMod r) :
    verifyProof P pk.vk ⟨A, b • td.g2, C⟩ (List.ofFn x) = .ok true ↔
      b • A = (td.alpha * td.beta + td.statement M D x) • td.g1 + td.delta • C := by
  rw [verifyProof_eq P h, Outcome.ok.injEq, decide_eq_true_iff, P.e_inj hg]

/-- The elements of the prover's proof. -/
theorem createProof_eq {M : R1cs (ZMod r) k w m} {D : EvalDomain (ZMod r)} (hD : D.Valid)
    {td : Trapdoor (ZMod r) G1 G2} {pk : GrothPk G1 G2} (h : generateParameters M D td = .ok pk)
    {x : Fin k → ZMod r} {wit : Fin w → ZMod r} (hz : M.Satisfied (fullAssignment x wit))
    (rr s : ZMod r) :
    createProof M D pk x wit rr s =
      let z := fullAssignment x wit
      let U := ∑ i, z i * qapAt D (M.rowA D.size) td.tau i
      let V := ∑ i, z i * qapAt D (padRows M.b D.size) td.tau i
      let W := ∑ i, z i * qapAt D (padRows M.c D.size) td.tau i
      ⟨(td.alpha + U + rr * td.delta) • td.g1, (td.beta + V + s * td.delta) • td.g2,
        (s * (td.alpha + U + rr * td.delta) + rr * (td.beta + V + s * td.delta) - rr * s * td.delta +
          (∑ i, wit i * td.abc M D (.inr i)) * td.delta⁻¹ + (U * V - W) * td.delta⁻¹) • td.g1⟩ := by
  obtain ⟨hN, hg, hd⟩ := generateParameters_ok h
  unfold generateParameters at h
  rw [if_neg (by omega), if_neg (by assumption), if_neg (by assumption)] at h
  cases h
  unfold createProof
  simp only [calculateCoeff_eq, msm_ofFn]
  rw [msm_range (fun i => ((td.tau ^ D.size - 1) * td.delta⁻¹ * td.tau ^ i) • td.g1)
    (fun i => (witnessMap M D (fullAssignment x wit)).coeff i) _ _ (by omega)]
  obtain ⟨hq, hdeg⟩ := witnessMap_spec hD M (by omega) hz
  have ht := congrArg (Polynomial.eval td.tau) hq
  simp only [eval_mul, eval_sub, eval_pow, eval_X, eval_one, eval_rowPoly] at ht
  have hsum : (witnessMap M D (fullAssignment x wit)).eval td.tau =
      ∑ i ∈ Finset.range (D.size - 1), (witnessMap M D (fullAssignment x wit)).coeff i *
        td.tau ^ i := by
    obtain ⟨n, hn⟩ : ∃ n, D.size = n + 1 := ⟨D.size - 1, by omega⟩
    have h0 : (witnessMap M D (fullAssignment x wit)).natDegree < n + 1 := by
      rw [Nat.lt_succ_iff, natDegree_le_iff_coeff_eq_zero]
      exact fun i hi => hdeg i (by omega)
    rw [eval_eq_sum_range' h0, Finset.sum_range_succ, hdeg n (by omega), hn]
    simp
  rw [← ht, hsum]
  simp only [sum_smul_smul]
  refine GrothProof.ext ?_ ?_ ?_
  · simp only []
    module
  · simp only []
    module
  · have hB : rr • (if rr = 0 then (0 : G1) else s • td.delta • td.g1 +
        (∑ i, fullAssignment x wit i * qapAt D (padRows M.b D.size) td.tau i) • td.g1 +
          td.beta • td.g1) = rr • (s • td.delta • td.g1 +
        (∑ i, fullAssignment x wit i * qapAt D (padRows M.b D.size) td.tau i) • td.g1 +
          td.beta • td.g1) := by
      split
      · rename_i h0; rw [h0, zero_smul, zero_smul]
      · rfl
    have hh : ∀ n : ℕ, ∑ i ∈ Finset.range n, (witnessMap M D (fullAssignment x wit)).coeff i •
        ((td.tau ^ D.size - 1) * td.delta⁻¹ * td.tau ^ i) • td.g1 =
        ((td.tau ^ D.size - 1) * (∑ i ∈ Finset.range n,
          (witnessMap M D (fullAssignment x wit)).coeff i * td.tau ^ i) * td.delta⁻¹) • td.g1 := by
      intro n
      rw [Finset.mul_sum, Finset.sum_mul, Finset.sum_smul]
      exact Finset.sum_congr rfl fun i _ => by rw [smul_smul]; congr 1; ring
    have hl : ∑ i, wit i * (td.abc M D (.inr i) * td.delta⁻¹) =
        (∑ i, wit i * td.abc M D (.inr i)) * td.delta⁻¹ := by
      rw [Finset.sum_mul]
      exact Finset.sum_congr rfl fun i _ => by ring
    simp only []
    rw [hB, hh, hl]
    module

end

end Verif
