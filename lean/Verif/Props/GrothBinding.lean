import Verif.Props.SynthesisHelper
import Verif.Props.GrothEpochs

/-!
# C121: what a proof is accepted for

A proof that the verifier (`crates/epoch-snark/src/api/verifier.rs:21-40`) accepts for two lists of public inputs
shows a linear relation between published elements of the key.  For any two fixed lists, and whatever the
circuit is, this happens for few setups only; so a proof of two blocks is no proof of two others, and the helper
proof of the prover is no proof of what the epoch circuit expects.  For every list of inputs there are others,
though, with the same verdict on every proof.
-/

set_option linter.unusedSectionVars false
set_option exponentiation.threshold 800

namespace Verif

open Polynomial

section

variable {r : ℕ} [Fact r.Prime] {k w m : ℕ} {G1 G2 GT : Type*} [AddCommGroup G1] [Module (ZMod r) G1]
  [AddCommGroup G2] [Module (ZMod r) G2] [CommGroup GT] [DecidableEq GT]

theorem verifyProof_ok {P : Pairing r G1 G2 GT} {vk : GrothVk G1 G2} {proof : GrothProof G1 G2}
    {xs : List (ZMod r)} {b : Bool} (h : verifyProof P vk proof xs = .ok b) :
    ∃ g, prepareInputs vk xs = .ok g ∧
      b = decide (productOfPairings P [(proof.a, proof.b), (g, -vk.gammaG2), (proof.c, -vk.deltaG2)] =
        P.e vk.alphaG1 vk.betaG2) := by
  unfold verifyProof at h
  rw [Outcome.map_eq_ok_iff] at h
  obtain ⟨g, h1, h2⟩ := h
  exact ⟨g, h1, h2.symm⟩

/-- **C121.** A proof accepted for some inputs is accepted for others exactly if the verifier computes the same
element of the first group from both. -/
theorem C121_prepared (P : Pairing r G1 G2 GT) {vk : GrothVk G1 G2} (hγ : vk.gammaG2 ≠ 0)
    {proof : GrothProof G1 G2} {xs ys : List (ZMod r)} (h : verifyProof P vk proof xs = .ok true) :
    verifyProof P vk proof ys = .ok true ↔ prepareInputs vk ys = prepareInputs vk xs := by
  obtain ⟨g, hg, hb⟩ := verifyProof_ok h
  constructor
  · intro h'
    obtain ⟨g', hg', hb'⟩ := verifyProof_ok h'
    rw [hg, hg']
    congr 1
    have e1 := of_decide_eq_true hb.symm
    have e2 := of_decide_eq_true hb'.symm
    simp only [productOfPairings, List.map_cons, List.map_nil, List.prod_cons, List.prod_nil, mul_one,
      P.neg_right] at e1 e2
    have e3 := e2.trans e1.symm
    rw [mul_right_inj, mul_left_inj, inv_inj, P.e_inj hγ] at e3
    exact e3
  · intro e
    unfold verifyProof
    rw [e, hg, Outcome.map_ok, ← hb]

theorem msm_sub {G : Type*} [AddCommGroup G] [Module (ZMod r) G] (bs : List G) {xs ys : List (ZMod r)}
    (h : xs.length = ys.length) :
    multiScalarMul bs (List.zipWith (· - ·) xs ys) = multiScalarMul bs xs - multiScalarMul bs ys := by
  induction bs generalizing xs ys with
  | nil => simp [multiScalarMul]
  | cons b bs ih =>
    cases xs with
    | nil => cases ys with
      | nil => simp [multiScalarMul]
      | cons => simp at h
    | cons x xs => cases ys with
      | nil => simp at h
      | cons y ys =>
        simp only [List.zipWith_cons_cons, multiScalarMul]
        rw [ih (by simpa using h), sub_smul]
        abel

/-- **C121.** Whoever has a proof that is accepted for two different lists of inputs has a linear relation between
the elements of the key, with a coefficient that is not zero. -/
theorem C121_relation (P : Pairing r G1 G2 GT) {vk : GrothVk G1 G2} (hγ : vk.gammaG2 ≠ 0)
    {proof : GrothProof G1 G2} {xs ys : List (ZMod r)} (hne : xs ≠ ys)
    (hx : verifyProof P vk proof xs = .ok true) (hy : verifyProof P vk proof ys = .ok true) :
    multiScalarMul vk.gammaAbcG1.tail (List.zipWith (· - ·) xs ys) = 0 ∧
      (List.zipWith (· - ·) xs ys).length + 1 = vk.gammaAbcG1.length ∧
      ∃ d ∈ List.zipWith (· - ·) xs ys, d ≠ 0 := by
  have e := (C121_prepared P hγ hx).1 hy
  obtain ⟨g, hg, _⟩ := verifyProof_ok hx
  rw [hg] at e
  unfold prepareInputs at e hg
  split at e
  · cases e
  rename_i l2
  split at hg
  · cases hg
  rename_i l1
  have hl : xs.length = ys.length := by omega
  cases hg
  simp only [Outcome.ok.injEq, add_right_inj] at e
  refine ⟨by rw [msm_sub _ hl, e, sub_self], by rw [List.length_zipWith]; omega, ?_⟩
  by_contra hall
  push Not at hall
  apply hne
  clear * - hl hall
  induction xs generalizing ys with
  | nil => cases ys with
    | nil => rfl
    | cons => simp at hl
  | cons x xs ih => cases ys with
    | nil => simp at hl
    | cons y ys =>
      rw [List.zipWith_cons_cons, List.forall_mem_cons] at hall
      rw [sub_eq_zero.1 hall.1, ih (by simpa using hl) hall.2]

/-- The coefficients of the difference of two lists of inputs: none for the constant. -/
def inputDifference (x y : Fin k → ZMod r) : Fin (k + 1) ⊕ Fin w → ZMod r :=
  Sum.elim (Fin.cons 0 fun i => x i - y i) 0

theorem statement_sub {td : Trapdoor (ZMod r) G1 G2} {M : R1cs (ZMod r) k w m} {D : EvalDomain (ZMod r)}
    (x y : Fin k → ZMod r) :
    td.statement M D x - td.statement M D y =
      td.beta * (rowPoly D (M.rowA D.size) (inputDifference x y)).eval td.tau +
      td.alpha * (rowPoly D (padRows M.b D.size) (inputDifference x y)).eval td.tau +
      (rowPoly D (padRows M.c D.size) (inputDifference x y)).eval td.tau := by
  have key : td.statement M D x - td.statement M D y =
      ∑ i, inputDifference (w := w) x y i * td.abc M D i := by
    unfold Trapdoor.statement
    rw [← Finset.sum_sub_distrib, Fintype.sum_sum_type]
    have h0 : ∑ i : Fin w, inputDifference (w := w) x y (.inr i) * td.abc M D (.inr i) = 0 :=
      Finset.sum_eq_zero fun i _ => by simp [inputDifference]
    rw [h0, add_zero]
    refine Finset.sum_congr rfl fun i _ => ?_
    rw [← sub_mul]
    congr 1
    refine Fin.cases ?_ (fun j => ?_) i
    · simp [inputDifference]
    · simp [inputDifference]
  rw [key, eval_rowPoly, eval_rowPoly, eval_rowPoly, Finset.mul_sum, Finset.mul_sum, ← Finset.sum_add_distrib,
    ← Finset.sum_add_distrib]
  exact Finset.sum_congr rfl fun i _ => by unfold Trapdoor.abc; ring

theorem natDegree_rowPoly {D : EvalDomain (ZMod r)} (hD : D.Valid) (hN : 1 ≤ D.size)
    (rows : Fin D.size → Fin (k + 1) ⊕ Fin w → ZMod r) (z : Fin (k + 1) ⊕ Fin w → ZMod r) :
    (rowPoly D rows z).natDegree ≤ D.size - 1 := by
  have := rowPoly_degree hD rows z
  by_cases h : rowPoly D rows z = 0
  · rw [h]; simp
  · rw [degree_eq_natDegree h] at this
    have : (rowPoly D rows z).natDegree < D.size := by exact_mod_cast this
    omega

/-- The row that ark_groth16 adds for an input separates two lists that differ there. -/
theorem difference_point {M : R1cs (ZMod r) k w m} {D : EvalDomain (ZMod r)} (hD : D.Valid)
    (hN : m + k < D.size) {x y : Fin k → ZMod r} (i : Fin k) :
    (rowPoly D (M.rowA D.size) (inputDifference x y)).eval (D.point ⟨m + (i + 1), by omega⟩) = x i - y i := by
  rw [rowPoly_point hD]
  unfold linComb R1cs.rowA
  rw [Fintype.sum_sum_type]
  simp only [show ¬ m + ((i : ℕ) + 1) < m by omega, dite_false, zero_mul, Finset.sum_const_zero, add_zero,
    Nat.add_left_cancel_iff, ite_mul, one_mul]
  rw [Finset.sum_eq_single i.succ]
  · simp [inputDifference]
  · intro b _ hb
    rw [if_neg]
    intro h
    apply hb
    ext
    rw [Fin.val_succ, h]
  · intro h; exact absurd (Finset.mem_univ _) h

/-- **C121.** Let two lists of public inputs differ, in any constraint system.  For all but `N q ^ 4` of the `q ^ 5`
choices of the setup there is no proof at all (honest or not, whoever made it and knowing what they may) that
is accepted for both. -/
theorem C121_binding (P : Pairing r G1 G2 GT) (M : R1cs (ZMod r) k w m) {D : EvalDomain (ZMod r)} (hD : D.Valid)
    (hN : m + k < D.size) {g1 : G1} {g2 : G2} (h1 : g1 ≠ 0) (h2 : g2 ≠ 0) {x y : Fin k → ZMod r} (hne : x ≠ y) :
    ∃ lucky : Finset (Fin 5 → ZMod r), lucky.card ≤ D.size * r ^ 4 ∧
      ∀ v ∉ lucky, ∀ pk, generateParameters M D (Trapdoor.ofScalars v g1 g2) = .ok pk →
        ∀ proof, verifyProof P pk.vk proof (List.ofFn x) = .ok true →
          verifyProof P pk.vk proof (List.ofFn y) = .ok false := by
  have : NeZero r := ⟨(Fact.out : r.Prime).ne_zero⟩
  classical
  set f := rowPoly D (M.rowA D.size) (inputDifference x y) with hf
  set g := rowPoly D (padRows M.b D.size) (inputDifference (w := w) x y) with hg
  set h := rowPoly D (padRows M.c D.size) (inputDifference (w := w) x y) with hh
  set p : MvPolynomial (Fin 5) (ZMod r) := MvPolynomial.X 1 * aeval (MvPolynomial.X 4) f +
    MvPolynomial.X 0 * aeval (MvPolynomial.X 4) g + aeval (MvPolynomial.X 4) h with hp
  have hev : ∀ v, MvPolynomial.eval v p = v 1 * f.eval (v 4) + v 0 * g.eval (v 4) + h.eval (v 4) := by
    intro v
    have ha : ∀ q : (ZMod r)[X], MvPolynomial.eval v (aeval (MvPolynomial.X 4) q) = q.eval (v 4) := by
      intro q
      rw [← MvPolynomial.coe_aeval_eq_eval, RingHom.coe_coe, ← aeval_algHom_apply, MvPolynomial.aeval_X,
        coe_aeval_eq_eval]
    rw [hp, map_add, map_add, map_mul, map_mul, MvPolynomial.eval_X, MvPolynomial.eval_X, ha, ha, ha]
  have hp0 : p ≠ 0 := by
    obtain ⟨i, hi⟩ := Function.ne_iff.1 hne
    intro h0
    set t := D.point ⟨m + (i + 1), by omega⟩
    have hft : f.eval t = x i - y i := difference_point hD hN i
    have e0 := hev ![0, 0, 0, 0, t]
    have e1 := hev ![0, 1, 0, 0, t]
    rw [h0, map_zero] at e0 e1
    simp at e0 e1
    rw [← e0, add_zero, hft] at e1
    exact hi (sub_eq_zero.1 e1.symm)
  have hdeg : p.totalDegree ≤ D.size := by
    have hX : ∀ i : Fin 5, (MvPolynomial.X i : MvPolynomial (Fin 5) (ZMod r)).totalDegree ≤ 1 :=
      fun i => (MvPolynomial.totalDegree_X i).le
    have hn := fun rows => natDegree_rowPoly (w := w) hD (by omega) rows (inputDifference x y)
    refine totalDegree_add_le' (totalDegree_add_le' ?_ ?_) ((totalDegree_aeval _ (hn _)).trans (by omega))
    all_goals exact totalDegree_mul_le' 1 (hX _) (totalDegree_aeval _ (hn _)) (by omega)
  refine ⟨Finset.univ.filter fun v => MvPolynomial.eval v p = 0, ?_, fun v hv pk hpk proof hx => ?_⟩
  · have := card_zeros_le hp0 hdeg
    rwa [ZMod.card] at this
  · obtain ⟨b, hb⟩ := (C105_inputs P hpk proof (List.ofFn y)).2 (by simp)
    cases b with
    | false => exact hb
    | true =>
      exfalso
      apply hv
      rw [Finset.mem_filter, hev]
      refine ⟨Finset.mem_univ _, ?_⟩
      obtain ⟨A, Bp, C⟩ := proof
      obtain ⟨s, hs⟩ := P.span2 Bp
      obtain ⟨s', hs'⟩ := P.span2 g2
      have hs0 : s' ≠ 0 := by
        rintro rfl
        exact h2 (by rw [hs', zero_smul])
      have hB : Bp = (s * s'⁻¹) • (Trapdoor.ofScalars v g1 g2).g2 := by
        change Bp = (s * s'⁻¹) • g2
        rw [hs', smul_smul, mul_assoc, inv_mul_cancel₀ hs0, mul_one, hs]
      rw [hB] at hx hb
      have e1 := (verifyProof_iff P hpk h2 x A C _).1 hx
      have e2 := (verifyProof_iff P hpk h2 y A C _).1 hb
      rw [e1, add_left_inj] at e2
      have e3 := sub_eq_zero.2 e2
      rw [← sub_smul] at e3
      have e4 := (smul_eq_zero.1 e3).resolve_right h1
      rw [add_sub_add_left_eq_sub, statement_sub] at e4
      exact e4

/-- **C121** for a program of a circuit, and lists of inputs. -/
theorem C121_circuit (P : Pairing r G1 G2 GT) {α : Type} {g : Synth r α} {u : α × ConstraintSystem r}
    (hu : g (.new r true) = .ok u) {domain : ℕ → EvalDomain (ZMod r)}
    (hD : (domain u.2.domainSize).Valid) (hN : u.2.domainSize ≤ (domain u.2.domainSize).size)
    {g1 : G1} {g2 : G2} (h1 : g1 ≠ 0) (h2 : g2 ≠ 0) {xs ys : List (ZMod r)} (hne : xs ≠ ys)
    (hl : xs.length = ys.length) :
    ∃ lucky : Finset (Fin 5 → ZMod r), lucky.card ≤ (domain u.2.domainSize).size * r ^ 4 ∧
      ∀ v ∉ lucky, ∀ pk, circuitSetup g domain (Trapdoor.ofScalars v g1 g2) = .ok pk →
        ∀ proof, verifyProof P pk.vk proof xs = .ok true → verifyProof P pk.vk proof ys = .ok false := by
  have hset : ∀ v pk, circuitSetup g domain (Trapdoor.ofScalars v g1 g2) = .ok pk →
      generateParameters u.2.matrices (domain u.2.domainSize) (Trapdoor.ofScalars v g1 g2) = .ok pk := by
    intro v pk hpk
    obtain ⟨u', hu', hpk⟩ := circuitSetup_ok hpk
    rw [hu] at hu'
    cases hu'
    exact hpk
  by_cases hk : xs.length = u.2.numInst
  · obtain ⟨x, rfl⟩ : ∃ x : Fin u.2.numInst → ZMod r, List.ofFn x = xs := by
      rw [← hk]; exact ⟨xs.get, List.ofFn_get _⟩
    obtain ⟨y, rfl⟩ : ∃ y : Fin u.2.numInst → ZMod r, List.ofFn y = ys := by
      rw [← hk, hl]; exact ⟨ys.get, List.ofFn_get _⟩
    unfold ConstraintSystem.domainSize at hN
    obtain ⟨lucky, c, hv⟩ := C121_binding P u.2.matrices hD (by unfold ConstraintSystem.domainSize; omega) h1 h2
      (x := x) (y := y) (fun e => hne (by rw [e]))
    exact ⟨lucky, c, fun v hn pk hpk => hv v hn pk (hset v pk hpk)⟩
  · refine ⟨∅, by simp, fun v _ pk hpk proof hx => ?_⟩
    rw [(C105_inputs P (hset v pk hpk) proof xs).1 hk] at hx
    cases hx

/-- **C121.** With two or more public inputs no setup binds a proof to its inputs without a computational
assumption: for all inputs there are others with the same verdict on every proof.  `c i` are the scalars of the
elements of the key, so whoever made the setup finds them. -/
theorem C121_unavoidable (P : Pairing r G1 G2 GT) {vk : GrothVk G1 G2} {g1 : G1} {c0 c1 c2 : ZMod r}
    {rest : List G1} (hvk : vk.gammaAbcG1 = c0 • g1 :: c1 • g1 :: c2 • g1 :: rest) (x1 x2 : ZMod r)
    (xs : List (ZMod r)) :
    ∃ y1 y2, (x1 :: x2 :: xs) ≠ y1 :: y2 :: xs ∧
      ∀ proof, verifyProof P vk proof (y1 :: y2 :: xs) = verifyProof P vk proof (x1 :: x2 :: xs) := by
  have key : ∀ y1 y2, y1 * c1 + y2 * c2 = x1 * c1 + x2 * c2 →
      ∀ proof, verifyProof P vk proof (y1 :: y2 :: xs) = verifyProof P vk proof (x1 :: x2 :: xs) := by
    intro y1 y2 h proof
    unfold verifyProof prepareInputs
    simp only [hvk, List.length_cons, List.tail_cons, List.headD_cons, multiScalarMul, smul_smul]
    have e : ∀ a b : ZMod r, c0 • g1 + ((a * c1) • g1 + ((b * c2) • g1 + multiScalarMul rest xs)) =
        c0 • g1 + ((a * c1 + b * c2) • g1 + multiScalarMul rest xs) := by
      intro a b
      rw [add_smul, add_assoc]
    rw [e, e, h]
  by_cases h : c1 = 0
  · refine ⟨x1 + 1, x2, by simp, key _ _ (by rw [h]; ring)⟩
  · refine ⟨x1 - c2 * c1⁻¹, x2 + 1, by simp, key _ _ ?_⟩
    have := mul_inv_cancel₀ h
    linear_combination -c2 * this

end

section

variable {G1 G2 GT : Type*} [AddCommGroup G1] [Module (ZMod FQ_MODULUS) G1] [AddCommGroup G2]
  [Module (ZMod FQ_MODULUS) G2] [CommGroup GT] [DecidableEq GT]

/-- **C121** for the verifier of epochs: a proof is not a proof of other blocks.  Let the first blocks or the last
blocks of two claims have different encodings (C30 says what these determine).  Then either a collision of the
digest has been given, or, for all but `N q ^ 4` of the `q ^ 5` choices of the setup, no proof that is accepted for
the one claim is accepted for the other.  The circuit may be any. -/
theorem C121_epochs (P : Pairing FQ_MODULUS G1 G2 GT) {α : Type} {g : Synth FQ_MODULUS α}
    {u : α × ConstraintSystem FQ_MODULUS} (hu : g (.new FQ_MODULUS true) = .ok u)
    {domain : ℕ → EvalDomain (ZMod FQ_MODULUS)} (hD : (domain u.2.domainSize).Valid)
    (hN : u.2.domainSize ≤ (domain u.2.domainSize).size) {g1 : G1} {g2 : G2} (h1 : g1 ≠ 0) (h2 : g2 ≠ 0)
    (gen : G2Point) (B : Blake2s) {first last first' last' : EpochBlock}
    (hne : first.encodeFirstToBytes gen ≠ first'.encodeFirstToBytes gen ∨
      last.encodeLastToBytes gen ≠ last'.encodeLastToBytes gen) :
    EdgeCollision B (first.encodeFirstToBytes gen) (first'.encodeFirstToBytes gen) ∨
    EdgeCollision B (last.encodeLastToBytes gen) (last'.encodeLastToBytes gen) ∨
    ∃ lucky : Finset (Fin 5 → ZMod FQ_MODULUS),
      lucky.card ≤ (domain u.2.domainSize).size * FQ_MODULUS ^ 4 ∧
      ∀ v ∉ lucky, ∀ pk, circuitSetup g domain (Trapdoor.ofScalars v g1 g2) = .ok pk →
        ∀ proof, verifyEpochs (verifyProof P) gen B pk.vk first last proof = .ok () →
          verifyEpochs (verifyProof P) gen B pk.vk first' last' proof = .err .verificationFailed := by
  by_cases he : publicInputs gen B first last = publicInputs gen B first' last'
  · obtain ⟨e1, e2⟩ := C34_public_inputs_injective gen B first last first' last' he
    rcases hne with h | h
    · left
      refine ⟨h, ?_⟩
      rw [hashToBits_eq, hashToBits_eq]
      exact congrArg (bytesLeToBitsLe · 256) e1
    · right; left
      refine ⟨h, ?_⟩
      rw [hashToBits_eq, hashToBits_eq]
      exact congrArg (bytesLeToBitsLe · 256) e2
  · right; right
    obtain ⟨lucky, c, hv⟩ := C121_circuit P hu hD hN h1 h2 he rfl
    refine ⟨lucky, c, fun v hn pk hpk proof hx => ?_⟩
    rw [C34_accepts_iff] at hx
    rw [(C34_rejects ..).1]
    exact hv v hn pk hpk proof hx

end

theorem crhXofInputs_inj {crhs crhs' xofs xofs' : List (List Bool)} (h1 : ∀ m ∈ crhs, m.length = 384)
    (h1' : ∀ m ∈ crhs', m.length = 384) (hl : crhs.length = crhs'.length)
    (h : crhXofInputs crhs xofs = crhXofInputs crhs' xofs') : crhs = crhs' := by
  have flen : ∀ {l : List (List Bool)}, (∀ m ∈ l, m.length = 384) → l.flatten.length = 384 * l.length := by
    intro l h
    rw [List.length_flatten, List.map_congr_left (g := fun _ => 384) h]
    simp [mul_comm]
  have hf : crhs.flatten.length = crhs'.flatten.length := by rw [flen h1, flen h1', hl]
  unfold crhXofInputs at h
  rw [List.map_append, List.map_append] at h
  have := (List.append_inj h (by
    unfold leChunks
    simp only [List.length_map]
    rw [chunks_length (by norm_num), chunks_length (by norm_num), hf])).1
  have h3 := (C83_unique (bits := crhs.flatten) rfl).2 rfl
  rw [this] at h3
  exact flatten_inj_of_length h1 h1' hl ((C83_unique hf).1 h3)

section

variable {blake : List BoolV → Bytes → Synth FR_MODULUS (List BoolV)} {K : Blake2sCore}
  {A1 A2 AT : Type} [AddCommGroup A1] [Module (ZMod FR_MODULUS) A1] [AddCommGroup A2]
  [Module (ZMod FR_MODULUS) A2] [CommGroup AT] [DecidableEq AT]

/-- **C121**, the helper proof: the prover's helper for some messages is accepted by the verifier of the helper with
the inputs of these messages, and with other CRHs (and whatever XOFs) it is rejected, for all but `N q ^ 4` of the
`q ^ 5` choices of the setup. -/
theorem C121_helper (P : Pairing FR_MODULUS A1 A2 AT) (hb : BlakeRunsAt blake K)
    (hk : ∀ m b, KeepsInputs (blake m b)) (hS : ∀ m b, Alike (blake m b) (blake m b)) {n : ℕ}
    {u : (List (LinComb FR_MODULUS) × List (LinComb FR_MODULUS)) × ConstraintSystem FR_MODULUS}
    (hu : (HashToBits.empty 377 n).generateConstraints blake (.new FR_MODULUS true) = .ok u)
    {domain : ℕ → EvalDomain (ZMod FR_MODULUS)} (hD : (domain u.2.domainSize).Valid)
    (hN : u.2.domainSize ≤ (domain u.2.domainSize).size) {g1 : A1} {g2 : A2} (h1 : g1 ≠ 0) (h2 : g2 ≠ 0)
    {messages crhs xofs : List (List Bool)} (hn : messages.length = n) (hl : ∀ m ∈ messages, m.length = 384)
    (hn' : crhs.length = n) (hl' : ∀ m ∈ crhs, m.length = 384) (hx' : xofs.length = n)
    (hxl : ∀ m ∈ xofs, m.length = 512) (hne : messages ≠ crhs) :
    ∃ lucky : Finset (Fin 5 → ZMod FR_MODULUS), lucky.card ≤ (domain u.2.domainSize).size * FR_MODULUS ^ 4 ∧
      ∀ v ∉ lucky, ∀ pk, circuitSetup ((HashToBits.empty 377 n).generateConstraints blake) domain
          (Trapdoor.ofScalars v g1 g2) = .ok pk →
        ∀ rr z, ∃ proof, circuitProve (HashToBits.generateConstraints blake ⟨messages.map (·.map some)⟩) domain pk
            rr z = .ok proof ∧
          verifyProof P pk.vk proof (crhXofInputs crhs xofs) = .ok false := by
  obtain ⟨xs, hx⟩ := helper_hashes K messages
  have hxs : ∀ m ∈ xs, m.length = 512 := by
    clear * - hx
    induction hx with
    | nil => simp
    | @cons m _ _ _ h1 _ ih =>
      obtain ⟨o, h2, h3⟩ := hashToBitsBlake_length K m
      rw [h1] at h2
      cases h2
      exact List.forall_mem_cons.2 ⟨h3, ih⟩
  have flen : ∀ {k : ℕ} {l : List (List Bool)}, (∀ m ∈ l, m.length = k) → l.flatten.length = k * l.length := by
    intro k l h
    rw [List.length_flatten, List.map_congr_left (g := fun _ => k) h]
    simp [mul_comm]
  have hlen : (crhXofInputs messages xs).length = (crhXofInputs crhs xofs).length := by
    unfold crhXofInputs leChunks
    simp only [List.length_map, List.length_append]
    rw [chunks_length (by norm_num), chunks_length (by norm_num), chunks_length (by norm_num),
      chunks_length (by norm_num), flen hl, flen hl', flen hxs, flen hxl, hn, hn', hx', ← hx.length_eq, hn]
  obtain ⟨lucky, c, hv⟩ := C121_circuit P hu hD hN h1 h2
    (fun e => hne (crhXofInputs_inj hl hl' (hn.trans hn'.symm) e)) hlen
  refine ⟨lucky, c, fun v hnv pk hpk rr z => ?_⟩
  obtain ⟨proof, p1, p2⟩ := C120_complete P hb hk hS hn hl hx
    (fun u' hu' => by rw [hu] at hu'; cases hu'; exact hD) hpk rr z
  exact ⟨proof, p1, hv v hnv pk hpk proof p2⟩

/-- **C121**, the helper of `generate_hash_helper` (`crates/epoch-snark/src/api/prover.rs:85-117`), whose messages are
the CRHs in reverse: unless every CRH reads the same in both directions, its proof is rejected with the inputs
that the epoch circuit computes from these CRHs, whatever XOFs go with them, for all but few setups. -/
theorem C121_prover_helper (P : Pairing FR_MODULUS A1 A2 AT) (hb : BlakeRunsAt blake K)
    (hk : ∀ m b, KeepsInputs (blake m b)) (hS : ∀ m b, Alike (blake m b) (blake m b)) {M : Type*} [AddCommGroup M]
    {gen2 : G2Point} {pedX : Bytes → Fq} {pedersen : Bytes → Outcome BLSError Bytes}
    (hped : ∀ m, pedersen m = .ok (leBytes 48 (pedX m).val)) {ts : List (EpochTransition M)}
    {ms : List (List Bool)} (hms : helperMessages gen2 pedersen ts = .ok ms)
    {u : (List (LinComb FR_MODULUS) × List (LinComb FR_MODULUS)) × ConstraintSystem FR_MODULUS}
    (hu : (HashToBits.empty 377 ts.length).generateConstraints blake (.new FR_MODULUS true) = .ok u)
    {domain : ℕ → EvalDomain (ZMod FR_MODULUS)} (hD : (domain u.2.domainSize).Valid)
    (hN : u.2.domainSize ≤ (domain u.2.domainSize).size) {g1 : A1} {g2 : A2} (h1 : g1 ≠ 0) (h2 : g2 ≠ 0)
    {t : EpochTransition M} (ht : t ∈ ts) {i : ℕ} (hi : i < 384)
    (hpal : (pedX (packBytes (t.block.encodeInnerToBitsCip22 gen2).1)).val.testBit i ≠
      (pedX (packBytes (t.block.encodeInnerToBitsCip22 gen2).1)).val.testBit (383 - i))
    {xofs : List (List Bool)} (hx' : xofs.length = ts.length) (hxl : ∀ m ∈ xofs, m.length = 512) :
    ∃ lucky : Finset (Fin 5 → ZMod FR_MODULUS), lucky.card ≤ (domain u.2.domainSize).size * FR_MODULUS ^ 4 ∧
      ∀ v ∉ lucky, ∀ pk, circuitSetup ((HashToBits.empty 377 ts.length).generateConstraints blake) domain
          (Trapdoor.ofScalars v g1 g2) = .ok pk →
        ∀ rr z, ∃ proof, circuitProve (HashToBits.generateConstraints blake ⟨ms.map (·.map some)⟩) domain pk
            rr z = .ok proof ∧
          verifyProof P pk.vk proof (crhXofInputs (ts.map fun t => pedersenBits pedX
            (packBytes (t.block.encodeInnerToBitsCip22 gen2).1)) xofs) = .ok false := by
  obtain ⟨ms', m1, m2, m3, _⟩ := C53_helper_input (gen2 := gen2) hped ts
  rw [hms] at m1
  cases m1
  have hplen : ∀ m, (pedersenBits pedX m).length = 384 := by
    intro m
    rw [pedersenBits_eq, flatMap_unpack_length, leBytes_length]
  refine C121_helper P hb hk hS hu hD hN h1 h2 (by rw [m2, List.length_map]) (fun m hm => (m3 m hm).1)
    (by rw [List.length_map]) ?_ hx' hxl fun e => ?_
  · intro m hm
    obtain ⟨t, _, rfl⟩ := List.mem_map.1 hm
    exact hplen _
  · rw [m2] at e
    have hr := List.map_inj_left.1 e t ht
    set m := packBytes (t.block.encodeInnerToBitsCip22 gen2).1
    have hval : ofBitsLE (pedersenBits pedX m) = (pedX m).val := by
      rw [pedersenBits_eq, flatMap_unpack_value, leBytes48_value]
    have hbit : ∀ i < 384, (pedersenBits pedX m)[i]? = some ((pedX m).val.testBit i) := by
      intro i hi
      rw [← hval, ofBitsLE_testBit, List.getD_eq_getElem?_getD,
        List.getElem?_eq_getElem (by rw [hplen]; exact hi)]
      rfl
    apply hpal
    have e1 := hbit i hi
    rw [← hr, List.getElem?_reverse (by rw [hplen]; exact hi), hplen, hbit _ (by omega)] at e1
    exact (Option.some.inj e1).symm

end

/-! ## Concrete cases -/

/-- C121: with the system of a product, a proof for the inputs 2 and 3 exists for every setup, and but for
`8 q ^ 4` setups no proof for them is one for 3 and 2. -/
example : (∀ v pk, generateParameters inputSystem eightDomain (Trapdoor.ofScalars v (7 : Fq) (8 : Fq)) = .ok pk →
      ∃ proof, verifyProof (toyPairing FQ_MODULUS) pk.vk proof (List.ofFn ![2, 3]) = .ok true) ∧
    ∃ lucky : Finset (Fin 5 → ZMod FQ_MODULUS), lucky.card ≤ 8 * FQ_MODULUS ^ 4 ∧
      ∀ v ∉ lucky, ∀ pk, generateParameters inputSystem eightDomain (Trapdoor.ofScalars v (7 : Fq) (8 : Fq)) = .ok pk →
        ∀ proof, verifyProof (toyPairing FQ_MODULUS) pk.vk proof (List.ofFn ![2, 3]) = .ok true →
          verifyProof (toyPairing FQ_MODULUS) pk.vk proof (List.ofFn ![3, 2]) = .ok false := by
  refine ⟨fun v pk h => ⟨_, C105_complete _ eightDomain_valid h (inputSystem_satisfied _) 0 0⟩, ?_⟩
  refine C121_binding _ inputSystem eightDomain_valid (by decide) (by decide +kernel) (by decide +kernel) fun e => ?_
  have : (2 : Fq) = 3 := congrFun e 0
  exact absurd this (by decide +kernel)

/-- C121, with an element of the key that is zero: a proof for 2, 9 is accepted for 2, 10 also; the relation has the
coefficients 0 and -1. -/
example : ∃ (vk : GrothVk Fq Fq) (proof : GrothProof Fq Fq), vk.gammaG2 ≠ 0 ∧
    verifyProof (toyPairing FQ_MODULUS) vk proof [2, 9] = .ok true ∧
    verifyProof (toyPairing FQ_MODULUS) vk proof [2, 10] = .ok true ∧
    multiScalarMul vk.gammaAbcG1.tail [(0 : Fq), -1] = 0 := by
  refine ⟨⟨1, 1, 1, 1, [1, 5, 0]⟩, ⟨12, 1, 0⟩, by decide +kernel, ?_, ?_, ?_⟩
  · decide +kernel
  · decide +kernel
  · decide +kernel

/-- C121: the key with the scalars 1, 5, 6. -/
example (proof : GrothProof Fq Fq) (vk : GrothVk Fq Fq)
    (hvk : vk.gammaAbcG1 = (1 : Fq) • (1 : Fq) :: (5 : Fq) • (1 : Fq) :: (6 : Fq) • (1 : Fq) :: []) :
    ∃ y1 y2 : Fq, [2, 9] ≠ [y1, y2] ∧
      verifyProof (toyPairing FQ_MODULUS) vk proof [y1, y2] = verifyProof (toyPairing FQ_MODULUS) vk proof [2, 9] := by
  obtain ⟨y1, y2, h1, h2⟩ := C121_unavoidable (toyPairing FQ_MODULUS) hvk 2 9 []
  exact ⟨y1, y2, h1, h2 proof⟩

/-- Example circuit (not code from /repo): two public inputs. -/
def twoInputs (a b : Fq) : Synth FQ_MODULUS R1Var := do
  let _ ← newInput fun _ => .ok a
  newInput fun _ => .ok b

/-- C121: whatever the digest, the blocks 4 and 6 are proved with every setup, and a proof of the blocks 4 and 6 is not
one of 4 and 7. -/
example (B : Blake2s) (a b : Fq)
    (hab : publicInputs g2Generator B (chainBlock [toyKey] 0 4) (chainBlock [toyKey] 0 6) = [a, b]) :
    (∀ v pk, circuitSetup (twoInputs a b) (fun _ => eightDomain) (Trapdoor.ofScalars v (7 : Fq) (8 : Fq)) = .ok pk →
      ∃ proof, verifyEpochs (verifyProof (toyPairing FQ_MODULUS)) g2Generator B pk.vk (chainBlock [toyKey] 0 4)
        (chainBlock [toyKey] 0 6) proof = .ok ()) ∧
    (EdgeCollision B ((chainBlock [toyKey] 0 4).encodeFirstToBytes g2Generator)
        ((chainBlock [toyKey] 0 4).encodeFirstToBytes g2Generator) ∨
      EdgeCollision B ((chainBlock [toyKey] 0 6).encodeLastToBytes g2Generator)
        ((chainBlock [toyKey] 0 7).encodeLastToBytes g2Generator) ∨
      ∃ lucky : Finset (Fin 5 → ZMod FQ_MODULUS), lucky.card ≤ 8 * FQ_MODULUS ^ 4 ∧
        ∀ v ∉ lucky, ∀ pk, circuitSetup (twoInputs a b) (fun _ => eightDomain)
            (Trapdoor.ofScalars v (7 : Fq) (8 : Fq)) = .ok pk →
          ∀ proof, verifyEpochs (verifyProof (toyPairing FQ_MODULUS)) g2Generator B pk.vk (chainBlock [toyKey] 0 4)
              (chainBlock [toyKey] 0 6) proof = .ok () →
            verifyEpochs (verifyProof (toyPairing FQ_MODULUS)) g2Generator B pk.vk (chainBlock [toyKey] 0 4)
              (chainBlock [toyKey] 0 7) proof = .err .verificationFailed) := by
  have hu : twoInputs a b (.new FQ_MODULUS true) = .ok (.inst 1, ⟨true, 2, 0, [], [], []⟩) := rfl
  constructor
  · intro v pk hpk
    obtain ⟨u, hu', hpk⟩ := circuitSetup_ok hpk
    rw [hu] at hu'
    cases hu'
    have := C105_complete (toyPairing FQ_MODULUS) eightDomain_valid hpk (x := ![a, b]) (wit := fun _ => 0)
      (fun j => j.elim0) 0 0
    have hab' : publicInputs g2Generator B (chainBlock [toyKey] 0 4) (chainBlock [toyKey] 0 6) =
      List.ofFn ![a, b] := hab
    rw [← hab', ← C34_accepts_iff] at this
    exact ⟨_, this⟩
  · refine C121_epochs (toyPairing FQ_MODULUS) (domain := fun _ => eightDomain) (g1 := 7) (g2 := 8) hu
      eightDomain_valid (by decide) (by decide +kernel) (by decide +kernel) g2Generator B (.inr fun e => ?_)
    have := ((C30_last_iff g2Generator _ _ rfl rfl).1 e).1
    exact absurd this (by decide)

/-- C121: the helper of the prover for one transition whose CRH is 5, with the digest that copies. -/
example (t : EpochTransition G1Point) (domain : ℕ → EvalDomain (ZMod FR_MODULUS)) (hD : ∀ k, (domain k).Valid) :
    ∃ ms, helperMessages g2Generator (fun _ => .ok (leBytes 48 5)) [t] = .ok ms ∧
    ∃ u, (HashToBits.empty 377 1).generateConstraints copyBlake (.new FR_MODULUS true) = .ok u ∧
    (u.2.domainSize ≤ (domain u.2.domainSize).size → ∃ lucky : Finset (Fin 5 → ZMod FR_MODULUS),
      lucky.card ≤ (domain u.2.domainSize).size * FR_MODULUS ^ 4 ∧
      ∀ v ∉ lucky, ∀ pk, circuitSetup ((HashToBits.empty 377 1).generateConstraints copyBlake) domain
          (Trapdoor.ofScalars v (7 : ZMod FR_MODULUS) (8 : ZMod FR_MODULUS)) = .ok pk →
        ∀ rr z, ∃ proof, circuitProve (HashToBits.generateConstraints copyBlake ⟨ms.map (·.map some)⟩) domain pk
            rr z = .ok proof ∧
          verifyProof (toyPairing FR_MODULUS) pk.vk proof (crhXofInputs ([t].map fun t => pedersenBits (fun _ => 5)
            (packBytes (t.block.encodeInnerToBitsCip22 g2Generator).1)) [List.replicate 512 true]) = .ok false) := by
  have hped : ∀ m : Bytes, (fun _ => .ok (leBytes 48 5) : Bytes → Outcome BLSError Bytes) m =
      .ok (leBytes 48 ((fun _ => 5 : Bytes → Fq) m).val) := fun _ => by
    have : (5 : Fq).val = 5 := by decide +kernel
    simp only [this]
  obtain ⟨ms, h1, h2, h3, _⟩ := C53_helper_input (gen2 := g2Generator) hped [t]
  have hl : ∀ m ∈ ms, m.length = 384 := fun m hm => (h3 m hm).1
  obtain ⟨u, _, hu, _⟩ := C120_setup (h0 := HashToBits.empty 377 1) (messages := ms) copyBlake_runs
    (fun _ _ => keeps_pure _) (fun _ _ => alike_pure _) (fun _ _ => follows_pure _)
    (fun m hm => by rw [hl m hm]; decide) (empty_lengths (by rw [h2]; rfl) hl)
  refine ⟨ms, h1, u, hu, fun hN => ?_⟩
  refine C121_prover_helper (toyPairing FR_MODULUS) copyBlake_runs (fun _ _ => keeps_pure _)
    (fun _ _ => alike_pure _) hped h1 hu (hD _) hN (by decide +kernel) (by decide +kernel)
    (List.mem_singleton.2 rfl) (i := 0) (by norm_num) ?_ rfl ?_
  · have : (5 : Fq).val = 5 := by decide +kernel
    simp only [this]
    decide
  · intro m hm
    rw [List.mem_singleton.1 hm, List.length_replicate]

end Verif
