import Verif.Lemmas.Groth16
import Verif.Lemmas.Toy

/-!
# C105, C106, C107: the proof system

Groth16 as the setup, the prover and the verifier use it.
-/

open Polynomial

namespace Verif

section
variable {r : ℕ} [Fact r.Prime] {k w m : ℕ} {G1 G2 GT : Type*} [AddCommGroup G1]
  [Module (ZMod r) G1] [AddCommGroup G2] [Module (ZMod r) G2] [CommGroup GT] [DecidableEq GT]
  (P : Pairing r G1 G2 GT) {M : R1cs (ZMod r) k w m} {D : EvalDomain (ZMod r)}
  {td : Trapdoor (ZMod r) G1 G2} {pk : GrothPk G1 G2}

/-! ## C105: honest proofs are accepted -/

omit [AddCommGroup G1] [Module (ZMod r) G1] [AddCommGroup G2] [Module (ZMod r) G2] in
theorem statement_add (x : Fin k → ZMod r) (wit : Fin w → ZMod r) :
    td.statement M D x + ∑ i, wit i * td.abc M D (.inr i) =
      td.beta * (∑ i, fullAssignment x wit i * qapAt D (M.rowA D.size) td.tau i) +
      td.alpha * (∑ i, fullAssignment x wit i * qapAt D (padRows M.b D.size) td.tau i) +
      ∑ i, fullAssignment x wit i * qapAt D (padRows M.c D.size) td.tau i := by
  have : td.statement M D x + ∑ i, wit i * td.abc M D (.inr i) =
      ∑ i, fullAssignment x wit i * td.abc M D i := by
    rw [Fintype.sum_sum_type]
    rfl
  rw [this, Finset.mul_sum, Finset.mul_sum, ← Finset.sum_add_distrib, ← Finset.sum_add_distrib]
  exact Finset.sum_congr rfl fun i _ => by unfold Trapdoor.abc; ring

/-- **C105.** The setup fails exactly if the domain has less points than there are constraints and public
inputs (with the constant), or if one of the two scalars that are inverted is zero. -/
theorem C105_setup (M : R1cs (ZMod r) k w m) (D : EvalDomain (ZMod r))
    (td : Trapdoor (ZMod r) G1 G2) :
    ((∃ pk, generateParameters M D td = .ok pk) ↔
      m + k < D.size ∧ td.gamma ≠ 0 ∧ td.delta ≠ 0) ∧
    generateParameters M D td ≠ .panic := by
  refine ⟨⟨fun ⟨pk, h⟩ => ?_, fun ⟨h1, h2, h3⟩ => generateParameters_iff (by omega) h2 h3⟩, ?_⟩
  · obtain ⟨h1, h2, h3⟩ := generateParameters_ok h
    exact ⟨by omega, h2, h3⟩
  · unfold generateParameters
    split
    · intro h; cases h
    split
    · intro h; cases h
    split
    · intro h; cases h
    · intro h; cases h

/-- **C105.** A proof made from values that satisfy the constraints is accepted for its public inputs,
whatever the randomness of the setup and the blinding factors were (zero in the code). -/
theorem C105_complete (hD : D.Valid) (h : generateParameters M D td = .ok pk)
    {x : Fin k → ZMod r} {wit : Fin w → ZMod r} (hz : M.Satisfied (fullAssignment x wit))
    (rr s : ZMod r) :
    verifyProof P pk.vk (createProof M D pk x wit rr s) (List.ofFn x) = .ok true := by
  obtain ⟨_, hg, hd⟩ := generateParameters_ok h
  rw [createProof_eq hD h hz]
  simp only []
  rw [verifyProof_eq P h, Outcome.ok.injEq, decide_eq_true_iff]
  congr 1
  rw [smul_smul, smul_smul, ← add_smul]
  congr 1
  have hs := statement_add (td := td) (M := M) (D := D) x wit
  set U := ∑ i, fullAssignment x wit i * qapAt D (M.rowA D.size) td.tau i
  set V := ∑ i, fullAssignment x wit i * qapAt D (padRows M.b D.size) td.tau i
  set W := ∑ i, fullAssignment x wit i * qapAt D (padRows M.c D.size) td.tau i
  have hc : td.delta * td.delta⁻¹ = 1 := mul_inv_cancel₀ hd
  linear_combination (-1 : ZMod r) * hs - ((∑ i, wit i * td.abc M D (.inr i)) + U * V - W) * hc

/-- **C105.** With another number of public inputs than the key was made for, verification ends with an
error, whatever the proof is; otherwise it always gives an answer. -/
theorem C105_inputs (h : generateParameters M D td = .ok pk) (proof : GrothProof G1 G2)
    (inputs : List (ZMod r)) :
    (inputs.length ≠ k → verifyProof P pk.vk proof inputs = .err ()) ∧
    (inputs.length = k → ∃ b, verifyProof P pk.vk proof inputs = .ok b) := by
  obtain ⟨_, hg, hd⟩ := generateParameters_ok h
  unfold generateParameters at h
  rw [if_neg (by omega), if_neg hg, if_neg hd] at h
  cases h
  unfold verifyProof prepareInputs
  constructor
  · intro hk
    rw [if_pos (by simpa using hk)]
    rfl
  · intro hk
    rw [if_neg (by simpa using hk)]
    exact ⟨_, rfl⟩

/-! ## C106: accepted proofs can be altered, and forged by whoever made the setup -/

/-- **C106.** From a proof anybody makes another which is accepted exactly if the first is: no secret
enters, and the key may be any. -/
theorem C106_altered (vk : GrothVk G1 G2) (proof : GrothProof G1 G2) (inputs : List (ZMod r))
    {ρ : ZMod r} (hρ : ρ ≠ 0) (η : ZMod r) :
    verifyProof P vk ⟨ρ • proof.a, ρ⁻¹ • proof.b + η • vk.deltaG2, proof.c + (η * ρ) • proof.a⟩ inputs =
      verifyProof P vk proof inputs := by
  have : NeZero r := ⟨(Fact.out : r.Prime).ne_zero⟩
  unfold verifyProof
  cases prepareInputs vk inputs with
  | err x => rfl
  | panic => rfl
  | ok g =>
    simp only [Outcome.map_ok, productOfPairings, List.map_cons, List.map_nil, List.prod_cons,
      List.prod_nil, mul_one, P.neg_right, P.add_left, P.add_right]
    rw [← P.smul_swap, ← P.smul_swap, smul_smul, smul_smul, inv_mul_cancel₀ hρ, one_smul]
    congr 3
    rw [mul_inv, mul_assoc, mul_left_comm (P.e ((η * ρ) • proof.a) vk.deltaG2),
      mul_left_comm (P.e ((η * ρ) • proof.a) vk.deltaG2)]
    rw [mul_comm (P.e proof.c vk.deltaG2)⁻¹,
      mul_inv_cancel, one_mul]

/-- **C106.** These are `(r - 1) r` different proofs, if the first element and the `δ` of the key are not
zero. -/
theorem C106_different {vk : GrothVk G1 G2} (hδ : vk.deltaG2 ≠ 0) {proof : GrothProof G1 G2}
    (ha : proof.a ≠ 0) :
    Function.Injective fun p : (ZMod r)ˣ × ZMod r =>
      (⟨(p.1 : ZMod r) • proof.a, (p.1 : ZMod r)⁻¹ • proof.b + p.2 • vk.deltaG2,
        proof.c + (p.2 * p.1) • proof.a⟩ : GrothProof G1 G2) := by
  rintro ⟨ρ, η⟩ ⟨ρ', η'⟩ h
  simp only [GrothProof.mk.injEq] at h
  obtain ⟨h1, h2, _⟩ := h
  have e1 : (ρ : ZMod r) = ρ' := smul_left_injective _ ha h1
  rw [e1] at h2
  have e2 : η = η' := smul_left_injective _ hδ (add_left_cancel h2)
  rw [Units.ext e1, e2]

/-- **C106.** For every choice of the first two elements exactly one third element is accepted, for
every statement, true or false. -/
theorem C106_third (h : generateParameters M D td = .ok pk) (hg2 : td.g2 ≠ 0) (x : Fin k → ZMod r)
    (A : G1) (B : G2) :
    ∃! C, verifyProof P pk.vk ⟨A, B, C⟩ (List.ofFn x) = .ok true := by
  obtain ⟨_, hg, hd⟩ := generateParameters_ok h
  obtain ⟨b, rfl⟩ : ∃ b : ZMod r, B = b • td.g2 := by
    obtain ⟨s, hs⟩ := P.span2 td.g2
    obtain ⟨t, ht⟩ := P.span2 B
    have h0 : s ≠ 0 := by
      rintro rfl
      exact hg2 (by rw [hs, zero_smul])
    refine ⟨t * s⁻¹, ?_⟩
    rw [hs, smul_smul, mul_assoc, inv_mul_cancel₀ h0, mul_one, ht]
  refine ⟨td.delta⁻¹ • (b • A - (td.alpha * td.beta + td.statement M D x) • td.g1), ?_, ?_⟩
  · simp only []
    rw [verifyProof_iff P h hg2, smul_smul, mul_inv_cancel₀ hd, one_smul]
    abel
  · intro C hC
    rw [verifyProof_iff P h hg2] at hC
    rw [hC, add_sub_cancel_left, smul_smul, inv_mul_cancel₀ hd, one_smul]

/-- **C106.** So every statement has the same number of accepted proofs: one for each pair of
group elements. -/
theorem C106_count [Fintype G1] [Fintype G2] [DecidableEq G1] [DecidableEq G2]
    (h : generateParameters M D td = .ok pk)
    (hg2 : td.g2 ≠ 0) (x : Fin k → ZMod r) :
    (Finset.univ.filter fun p : G1 × G2 × G1 =>
      verifyProof P pk.vk ⟨p.1, p.2.1, p.2.2⟩ (List.ofFn x) = .ok true).card =
      Fintype.card G1 * Fintype.card G2 := by
  rw [← Fintype.card_prod, ← Finset.card_univ]
  choose C hC hu using C106_third P h hg2 x
  refine Finset.card_nbij' (fun p => (p.1, p.2.1)) (fun p => (p.1, p.2, C p.1 p.2)) ?_ ?_ ?_ ?_
  · intro p _; exact Finset.mem_coe.mpr (Finset.mem_univ _)
  · intro p _
    simp only [Finset.coe_filter, Finset.mem_univ, true_and, Set.mem_ofPred_eq]
    exact hC _ _
  · rintro ⟨a, b, c⟩ hp
    simp only [Finset.coe_filter, Finset.mem_univ, true_and, Set.mem_ofPred_eq] at hp
    simp only [← hu a b c hp]
  · intro p _; rfl

/-- What somebody who knows the randomness of the setup computes: no witness enters. -/
noncomputable def Trapdoor.forge (td : Trapdoor (ZMod r) G1 G2) (M : R1cs (ZMod r) k w m)
    (D : EvalDomain (ZMod r)) (x : Fin k → ZMod r) (a b : ZMod r) : GrothProof G1 G2 :=
  ⟨a • td.g1, b • td.g2,
    ((a * b - td.alpha * td.beta - td.statement M D x) * td.delta⁻¹) • td.g1⟩

/-- **C106.** Whoever kept the randomness of the setup proves any statement. -/
theorem C106_trapdoor (h : generateParameters M D td = .ok pk) (x : Fin k → ZMod r) (a b : ZMod r) :
    verifyProof P pk.vk (td.forge M D x a b) (List.ofFn x) = .ok true := by
  obtain ⟨_, hg, hd⟩ := generateParameters_ok h
  unfold Trapdoor.forge
  rw [verifyProof_eq P h, Outcome.ok.injEq, decide_eq_true_iff]
  congr 1
  rw [smul_smul, smul_smul, ← add_smul]
  congr 1
  have hc : td.delta * td.delta⁻¹ = 1 := mul_inv_cancel₀ hd
  linear_combination (-1 : ZMod r) * (a * b - td.alpha * td.beta - td.statement M D x) * hc

/-! ## C107: the proofs of the code tell witnesses apart -/

/-- **C107.** With random blinding factors a proof would not depend on the witness at all: each proof
comes from as many pairs of factors, whichever witness it is made from, and from as many as it has
when forged without any. -/
theorem C107_blinded (hD : D.Valid) (h : generateParameters M D td = .ok pk)
    {x : Fin k → ZMod r} {wit : Fin w → ZMod r} (hz : M.Satisfied (fullAssignment x wit))
    [DecidableEq (GrothProof G1 G2)] (proof : GrothProof G1 G2) :
    (Finset.univ.filter fun f : ZMod r × ZMod r => createProof M D pk x wit f.1 f.2 = proof).card =
      (Finset.univ.filter fun f : ZMod r × ZMod r => td.forge M D x f.1 f.2 = proof).card := by
  have : NeZero r := ⟨(Fact.out : r.Prime).ne_zero⟩
  obtain ⟨_, hg, hd⟩ := generateParameters_ok h
  set U := ∑ i, fullAssignment x wit i * qapAt D (M.rowA D.size) td.tau i with hU
  set V := ∑ i, fullAssignment x wit i * qapAt D (padRows M.b D.size) td.tau i with hV
  have key : ∀ rr s, createProof M D pk x wit rr s =
      td.forge M D x (td.alpha + U + rr * td.delta) (td.beta + V + s * td.delta) := by
    intro rr s
    rw [createProof_eq hD h hz]
    simp only []
    unfold Trapdoor.forge
    refine GrothProof.ext rfl rfl ?_
    simp only []
    congr 1
    have hs := statement_add (td := td) (M := M) (D := D) x wit
    rw [← hU, ← hV] at hs ⊢
    have hc : td.delta * td.delta⁻¹ = 1 := mul_inv_cancel₀ hd
    have hs' : td.statement M D x = td.beta * U + td.alpha * V +
        (∑ i, fullAssignment x wit i * qapAt D (padRows M.c D.size) td.tau i) -
          ∑ i, wit i * td.abc M D (.inr i) := by linear_combination hs
    rw [hs']
    linear_combination (-(s * (td.alpha + U + rr * td.delta) + rr * (td.beta + V))) * hc
  have hdd : ∀ c e : ZMod r, c + (e - c) * td.delta⁻¹ * td.delta = e := by
    intro c e
    rw [mul_assoc, inv_mul_cancel₀ hd]; ring
  have hdd' : ∀ c e : ZMod r, (c + e * td.delta - c) * td.delta⁻¹ = e := by
    intro c e
    rw [add_sub_cancel_left, mul_assoc, mul_inv_cancel₀ hd, mul_one]
  refine Finset.card_nbij'
    (fun f => (td.alpha + U + f.1 * td.delta, td.beta + V + f.2 * td.delta))
    (fun f => ((f.1 - (td.alpha + U)) * td.delta⁻¹, (f.2 - (td.beta + V)) * td.delta⁻¹)) ?_ ?_ ?_ ?_
  · intro f hf
    simp only [Finset.coe_filter, Finset.mem_univ, true_and, Set.mem_ofPred_eq] at hf ⊢
    rw [← key]; exact hf
  · intro f hf
    simp only [Finset.coe_filter, Finset.mem_univ, true_and, Set.mem_ofPred_eq] at hf ⊢
    rw [key, hdd, hdd]; exact hf
  · intro f _
    simp only [hdd']
  · intro f _
    simp only [hdd]

/-- **C107.** The code does not blind: two witnesses that differ in the value of the left (or of the
right) side of some constraint give different proofs, unless the setup drew one of at most `N - 1`
bad points, where `N` is the size of the domain. -/
theorem C107_distinguished (hD : D.Valid) (td : Trapdoor (ZMod r) G1 G2) (hg1 : td.g1 ≠ 0)
    (hg2 : td.g2 ≠ 0) (hN : m + k < D.size) (hγ : td.gamma ≠ 0) (hδ : td.delta ≠ 0)
    {x : Fin k → ZMod r} {wit wit' : Fin w → ZMod r} (hz : M.Satisfied (fullAssignment x wit))
    (hz' : M.Satisfied (fullAssignment x wit'))
    (hne : ∃ j, linComb (M.a j) (fullAssignment x wit) ≠ linComb (M.a j) (fullAssignment x wit') ∨
      linComb (M.b j) (fullAssignment x wit) ≠ linComb (M.b j) (fullAssignment x wit')) :
    ∃ bad : Finset (ZMod r), bad.card ≤ D.size - 1 ∧ ∀ τ ∉ bad,
      ∃ pk, generateParameters M D { td with tau := τ } = .ok pk ∧
        createProofNoZk M D pk x wit ≠ createProofNoZk M D pk x wit' := by
  classical
  have hm : m < D.size := by omega
  have main : ∀ rows : Fin D.size → Fin (k + 1) ⊕ Fin w → ZMod r,
      (∃ j, linComb (rows j) (fullAssignment x wit) ≠ linComb (rows j) (fullAssignment x wit')) →
      ∃ bad : Finset (ZMod r), bad.card ≤ D.size - 1 ∧ ∀ τ ∉ bad,
        ∑ i, fullAssignment x wit i * qapAt D rows τ i ≠
          ∑ i, fullAssignment x wit' i * qapAt D rows τ i := by
    rintro rows ⟨j, hj⟩
    set f := rowPoly D rows (fullAssignment x wit) - rowPoly D rows (fullAssignment x wit') with hf
    have h0 : f ≠ 0 := by
      intro h0
      have := congrArg (Polynomial.eval (D.point j)) h0
      rw [hf, eval_sub, rowPoly_point hD, rowPoly_point hD, eval_zero, sub_eq_zero] at this
      exact hj this
    have hd : f.degree < D.size := lt_of_le_of_lt (degree_sub_le _ _)
      (max_lt (rowPoly_degree hD _ _) (rowPoly_degree hD _ _))
    refine ⟨f.roots.toFinset, ?_, fun τ hτ heq => hτ ?_⟩
    · have h1 := (Multiset.toFinset_card_le f.roots).trans (card_roots' f)
      rw [degree_eq_natDegree h0] at hd
      have : f.natDegree < D.size := by exact_mod_cast hd
      omega
    · rw [Multiset.mem_toFinset, mem_roots h0, IsRoot.def, hf, eval_sub, eval_rowPoly, eval_rowPoly,
        heq, sub_self]
  obtain ⟨j, hj⟩ := hne
  rcases hj with hj | hj
  · obtain ⟨bad, hc, hb⟩ := main (M.rowA D.size) ⟨⟨j, by omega⟩, by
      rw [linComb_rowA M D.size ⟨j, by omega⟩ j.2, linComb_rowA M D.size ⟨j, by omega⟩ j.2]
      exact hj⟩
    refine ⟨bad, hc, fun τ hτ => ?_⟩
    obtain ⟨pk, hpk⟩ := generateParameters_iff (M := M) (D := D) (td := { td with tau := τ })
      (by omega) hγ hδ
    refine ⟨pk, hpk, fun heq => hb τ hτ ?_⟩
    unfold createProofNoZk at heq
    rw [createProof_eq hD hpk hz, createProof_eq hD hpk hz'] at heq
    have := smul_left_injective _ hg1 (congrArg GrothProof.a heq)
    simpa using this
  · obtain ⟨bad, hc, hb⟩ := main (padRows M.b D.size) ⟨⟨j, by omega⟩, by
      rw [linComb_padRows, linComb_padRows, dif_pos j.2, dif_pos j.2]
      exact hj⟩
    refine ⟨bad, hc, fun τ hτ => ?_⟩
    obtain ⟨pk, hpk⟩ := generateParameters_iff (M := M) (D := D) (td := { td with tau := τ })
      (by omega) hγ hδ
    refine ⟨pk, hpk, fun heq => hb τ hτ ?_⟩
    unfold createProofNoZk at heq
    rw [createProof_eq hD hpk hz, createProof_eq hD hpk hz'] at heq
    have := smul_left_injective _ hg2 (congrArg GrothProof.b heq)
    simpa using this

end

/-! ## Concrete cases

A constraint system for a product `w₀ w₁ = x` over the field of 101 elements, on the domain of the fourth roots of
unity. -/

theorem prime_101 : Nat.Prime 101 := by decide +kernel

instance fact_101 : Fact (Nat.Prime 101) := ⟨prime_101⟩

/-- Example system (not code from /repo): the product of the two witnesses is the public input. -/
def productSystem : R1cs (ZMod 101) 1 2 1 where
  a _ := Sum.elim 0 ![1, 0]
  b _ := Sum.elim 0 ![0, 1]
  c _ := Sum.elim ![0, 1] 0

/-- Example domain (not code from /repo): 1, 10, -1, -10. -/
def fourDomain : EvalDomain (ZMod 101) := ⟨4, 10, 2⟩

theorem fourDomain_valid : fourDomain.Valid where
  root := IsPrimitiveRoot.mk_of_lt 10 (by decide) (by decide) fun l h1 h2 => by
    have h2' : l < 4 := h2
    interval_cases l <;> decide
  shift_ne := by decide
  shift_pow := by decide

/-- Example randomness (not code from /repo). -/
def toyTrapdoor : Trapdoor (ZMod 101) (ZMod 101) (ZMod 101) := ⟨2, 3, 4, 5, 6, 7, 8⟩

theorem productSystem_iff (x : Fin 1 → ZMod 101) (wit : Fin 2 → ZMod 101) :
    productSystem.Satisfied (fullAssignment x wit) ↔ wit 0 * wit 1 = x 0 := by
  simp [R1cs.Satisfied, linComb, productSystem, fullAssignment, Fintype.sum_sum_type, Fin.sum_univ_two]

theorem toy_key : ∃ pk, generateParameters productSystem fourDomain toyTrapdoor = .ok pk :=
  (C105_setup _ _ _).1.mpr ⟨by decide, by decide, by decide⟩

/-- A domain of four points is large enough for one constraint and one input; with `γ = 0` there is no
key. -/
example : (∃ pk, generateParameters productSystem fourDomain toyTrapdoor = .ok pk) ∧
    ¬ ∃ pk, generateParameters productSystem fourDomain { toyTrapdoor with gamma := 0 } = .ok pk :=
  ⟨toy_key, fun h => ((C105_setup _ _ _).1.mp h).2.1 rfl⟩

/-- `2 * 3 = 6` is proved, with and without blinding; two inputs are an error. -/
example : ∃ pk, generateParameters productSystem fourDomain toyTrapdoor = .ok pk ∧
    verifyProof (toyPairing 101) pk.vk (createProofNoZk productSystem fourDomain pk ![6] ![2, 3]) [6] =
      .ok true ∧
    verifyProof (toyPairing 101) pk.vk (createProof productSystem fourDomain pk ![6] ![2, 3] 9 10) [6] =
      .ok true ∧
    ∀ proof, verifyProof (toyPairing 101) pk.vk proof [6, 7] = .err () := by
  obtain ⟨pk, h⟩ := toy_key
  have hs : productSystem.Satisfied (fullAssignment ![6] ![2, 3]) := by
    rw [productSystem_iff]; decide
  exact ⟨pk, h, C105_complete _ fourDomain_valid h hs 0 0, C105_complete _ fourDomain_valid h hs 9 10,
    fun proof => (C105_inputs _ h proof [6, 7]).1 (by decide)⟩

/-- Another proof of `2 * 3 = 6`, made without the witnesses. -/
example : ∃ pk, generateParameters productSystem fourDomain toyTrapdoor = .ok pk ∧ ∀ proof,
    verifyProof (toyPairing 101) pk.vk ⟨3 • proof.a, (3 : ZMod 101)⁻¹ • proof.b + (5 : ZMod 101) • pk.vk.deltaG2,
      proof.c + (5 * 3 : ZMod 101) • proof.a⟩ [6] = verifyProof (toyPairing 101) pk.vk proof [6] := by
  obtain ⟨pk, h⟩ := toy_key
  refine ⟨pk, h, fun proof => ?_⟩
  have := C106_altered (toyPairing 101) pk.vk proof [6] (ρ := 3) (by decide) 5
  rw [← this]
  congr 2
  exact (Nat.cast_smul_eq_nsmul (ZMod 101) 3 proof.a).symm

/-- For a key with `δ = 5` and a proof whose first element is 2, all alterations differ. -/
example : Function.Injective fun p : (ZMod 101)ˣ × ZMod 101 =>
    (⟨(p.1 : ZMod 101) • (2 : ZMod 101), (p.1 : ZMod 101)⁻¹ • (3 : ZMod 101) + p.2 • (40 : ZMod 101),
      (4 : ZMod 101) + (p.2 * p.1) • (2 : ZMod 101)⟩ : GrothProof (ZMod 101) (ZMod 101)) :=
  C106_different (vk := ⟨14, 24, 32, 40, []⟩) (proof := ⟨2, 3, 4⟩) (by decide) (by decide)

/-- For each of the statements `w₀ w₁ = x` exactly one third element completes 1, 1, and there are
`101 * 101` proofs of each; one who knows the randomness makes them. -/
example : ∃ pk, generateParameters productSystem fourDomain toyTrapdoor = .ok pk ∧ ∀ x : ZMod 101,
    (∃! C, verifyProof (toyPairing 101) pk.vk ⟨1, 1, C⟩ [x] = .ok true) ∧
    (Finset.univ.filter fun p : ZMod 101 × ZMod 101 × ZMod 101 =>
      verifyProof (toyPairing 101) pk.vk ⟨p.1, p.2.1, p.2.2⟩ [x] = .ok true).card = 101 * 101 ∧
    verifyProof (toyPairing 101) pk.vk (toyTrapdoor.forge productSystem fourDomain ![x] 1 1) [x] =
      .ok true := by
  obtain ⟨pk, h⟩ := toy_key
  refine ⟨pk, h, fun x => ⟨C106_third (toyPairing 101) h (by decide) ![x] 1 1, ?_,
    C106_trapdoor (toyPairing 101) h ![x] 1 1⟩⟩
  have := C106_count (toyPairing 101) h (by decide) ![x]
  rw [ZMod.card] at this
  exact this

/-- Blinded proofs of `2 * 3 = 6` and of `1 * 6 = 6` are the same, each as often. -/
example : ∃ pk, generateParameters productSystem fourDomain toyTrapdoor = .ok pk ∧
    ∀ [DecidableEq (GrothProof (ZMod 101) (ZMod 101))] (proof : GrothProof (ZMod 101) (ZMod 101)),
      (Finset.univ.filter fun f : ZMod 101 × ZMod 101 =>
        createProof productSystem fourDomain pk ![6] ![2, 3] f.1 f.2 = proof).card =
      (Finset.univ.filter fun f : ZMod 101 × ZMod 101 =>
        createProof productSystem fourDomain pk ![6] ![1, 6] f.1 f.2 = proof).card := by
  obtain ⟨pk, h⟩ := toy_key
  refine ⟨pk, h, fun proof => ?_⟩
  rw [C107_blinded fourDomain_valid h ((productSystem_iff _ _).mpr (by decide)),
    C107_blinded fourDomain_valid h ((productSystem_iff _ _).mpr (by decide))]

/-- Those of the code differ, for all but three points. -/
example : ∃ bad : Finset (ZMod 101), bad.card ≤ 3 ∧ ∀ τ ∉ bad,
    ∃ pk, generateParameters productSystem fourDomain { toyTrapdoor with tau := τ } = .ok pk ∧
      createProofNoZk productSystem fourDomain pk ![6] ![2, 3] ≠
        createProofNoZk productSystem fourDomain pk ![6] ![1, 6] :=
  C107_distinguished fourDomain_valid toyTrapdoor (by decide) (by decide) (by decide) (by decide) (by decide)
    ((productSystem_iff _ _).mpr (by decide)) ((productSystem_iff _ _).mpr (by decide))
    ⟨0, Or.inl (by simp [linComb, productSystem, fullAssignment, Fintype.sum_sum_type, Fin.sum_univ_two]; decide)⟩

end Verif
