import Verif.Lemmas.Groth16
import Mathlib.Algebra.MonoidAlgebra.Basic
import Mathlib.Algebra.MvPolynomial.SchwartzZippel
import Mathlib.FieldTheory.Finite.Basic

/-! Helper lemmas for C108: the verification equation as a polynomial in the randomness of the setup. -/

open AddMonoidAlgebra

namespace Verif

/-- Elements that are combinations of the elements of a key: the coefficients of the three scalars, the
polynomials, and the sums over the elements with denominator `γ` and `δ`, in the order `β`, `α`, 1. -/
structure GrothCoeffs (R : Type*) where
  a : Fin 3 → R
  ap : R
  ai : Fin 3 → R
  aw : Fin 3 → R
  b : Fin 3 → R
  bp : R
  c : Fin 3 → R
  cp : R
  ci : Fin 3 → R
  cw : Fin 3 → R
  z : Fin 3 → R

/-- An element of the first group times `γ δ`. -/
def combo {S : Type*} [CommRing S] (α β γ δ : S) (a : Fin 3 → S) (p : S) (i w : Fin 3 → S) : S :=
  γ * δ * (a 0 * α + a 1 * β + a 2 * δ + p) + δ * (β * i 0 + α * i 1 + i 2) +
    γ * (β * w 0 + α * w 1 + w 2)

/-- The verification equation times `γ δ`. -/
def GrothCoeffs.form {R S : Type*} [CommRing S] (f : R → S) (α β γ δ : S) (g : GrothCoeffs R) : S :=
  combo α β γ δ (f ∘ g.a) (f g.ap) (f ∘ g.ai) (f ∘ g.aw) *
    (f (g.b 0) * β + f (g.b 1) * γ + f (g.b 2) * δ + f g.bp) -
  γ * δ * (α * β + β * f (g.z 0) + α * f (g.z 1) + f (g.z 2)) -
  δ * combo α β γ δ (f ∘ g.c) (f g.cp) (f ∘ g.ci) (f ∘ g.cw)

theorem map_form {R S T : Type*} [CommRing S] [CommRing T] (φ : S →+* T) (f : R → S) (α β γ δ : S)
    (g : GrothCoeffs R) :
    φ (g.form f α β γ δ) = g.form (fun x => φ (f x)) (φ α) (φ β) (φ γ) (φ δ) := by
  unfold GrothCoeffs.form combo
  simp only [map_add, map_sub, map_mul, Function.comp_apply]

/-- Polynomials in four variables with coefficients in `R`. -/
abbrev Mon (R : Type*) [CommRing R] := AddMonoidAlgebra R (ℕ × ℕ × ℕ × ℕ)

theorem form_coeff {R : Type*} [CommRing R] [IsDomain R] (g : GrothCoeffs R)
    (h : g.form (S := Mon R) (fun x => single 0 x) (single (1, 0, 0, 0) 1) (single (0, 1, 0, 0) 1)
      (single (0, 0, 1, 0) 1) (single (0, 0, 0, 1) 1) = 0) :
    (g.z 0 + g.cw 0) * (g.z 1 + g.cw 1) = g.z 2 + g.cw 2 := by
  unfold GrothCoeffs.form combo at h
  simp only [mul_add, add_mul, single_mul_single, Function.comp_apply, one_mul, mul_one,
    Prod.mk_add_mk, zero_add, add_zero, sub_eq_zero] at h
  have co : ∀ e, _ := fun e => congrArg (fun f => f.coeff e) h
  simp only [coeff_sub, coeff_add, Finsupp.sub_apply, Finsupp.add_apply, coeff_single,
    Finsupp.single_apply] at co
  have h1 := co (1, 1, 1, 1)
  have h2 := co (1, 1, 0, 1)
  have h3 := co (0, 2, 0, 1)
  have h4 := co (0, 1, 0, 1)
  have h5 := co (1, 1, 1, 0)
  have h6 := co (0, 2, 1, 0)
  have h7 := co (0, 1, 1, 0)
  have h8 := co (0, 2, 1, 1)
  have h9 := co (1, 0, 1, 1)
  have h10 := co (0, 1, 1, 1)
  have h11 := co (0, 0, 1, 1)
  clear co h
  simp only [Prod.mk.injEq, Nat.reduceAdd, zero_ne_one, one_ne_zero,
    OfNat.ofNat_ne_zero, OfNat.zero_ne_ofNat, OfNat.ofNat_ne_one, OfNat.one_ne_ofNat, and_true,
    and_false, if_true, if_false, add_zero, zero_add, sub_zero,
    and_self, sub_eq_zero] at h1 h2 h3 h4 h5 h6 h7 h8 h9 h10 h11
  have hb : g.b 0 ≠ 0 := by
    intro h0
    rw [h0, mul_zero] at h1
    exact zero_ne_one h1
  have k2 := (mul_eq_zero.mp h2).resolve_right hb
  have k3 := (mul_eq_zero.mp h3).resolve_right hb
  have k5 := (mul_eq_zero.mp h5).resolve_right hb
  have k6 := (mul_eq_zero.mp h6).resolve_right hb
  have k8 := (mul_eq_zero.mp h8).resolve_right hb
  rw [k3, zero_mul, add_zero] at h4
  rw [k6, zero_mul, add_zero] at h7
  have k4 := (mul_eq_zero.mp h4).resolve_right hb
  have k7 := (mul_eq_zero.mp h7).resolve_right hb
  rw [k2, k5] at h9
  rw [k3, k6, k8] at h10
  rw [k4, k7] at h11
  linear_combination (-(g.z 1 + g.cw 1)) * h10 - g.ap * g.b 0 * h9 + h11 + g.ap * g.bp * h1

section
variable {F : Type*} [Field F]

/-- The equation as a polynomial in `α`, `β`, `γ`, `δ`, `τ`. -/
noncomputable def GrothCoeffs.poly (g : GrothCoeffs (Polynomial F)) : MvPolynomial (Fin 5) F :=
  g.form (fun p => Polynomial.aeval (MvPolynomial.X 4) p) (MvPolynomial.X 0) (MvPolynomial.X 1)
    (MvPolynomial.X 2) (MvPolynomial.X 3)

theorem eval_poly (g : GrothCoeffs (Polynomial F)) (v : Fin 5 → F) :
    MvPolynomial.eval v g.poly = g.form (fun p => p.eval (v 4)) (v 0) (v 1) (v 2) (v 3) := by
  unfold GrothCoeffs.poly
  rw [map_form]
  congr 1
  · funext p
    have := Polynomial.aeval_algHom_apply (MvPolynomial.aeval v : MvPolynomial (Fin 5) F →ₐ[F] F)
      (MvPolynomial.X 4) p
    rw [MvPolynomial.aeval_X] at this
    rw [← Polynomial.coe_aeval_eq_eval, this]
    rfl
  all_goals simp

theorem poly_eq_zero (g : GrothCoeffs (Polynomial F)) (h : g.poly = 0) :
    (g.z 0 + g.cw 0) * (g.z 1 + g.cw 1) = g.z 2 + g.cw 2 := by
  apply form_coeff
  let φ : MvPolynomial (Fin 5) F →ₐ[F] Mon (Polynomial F) := MvPolynomial.aeval
    ![single (1, 0, 0, 0) 1, single (0, 1, 0, 0) 1, single (0, 0, 1, 0) 1, single (0, 0, 0, 1) 1,
      single 0 Polynomial.X]
  have h' := congrArg (φ : MvPolynomial (Fin 5) F →+* Mon (Polynomial F)) h
  unfold GrothCoeffs.poly at h'
  rw [map_form, map_zero] at h'
  rw [← h']
  congr 1
  · funext p
    have h1 := Polynomial.aeval_algHom_apply φ (MvPolynomial.X 4) p
    have h2 := Polynomial.aeval_algHom_apply
      (AddMonoidAlgebra.singleZeroAlgHom : Polynomial F →ₐ[F] Mon (Polynomial F)) Polynomial.X p
    rw [Polynomial.aeval_X_left_apply] at h2
    have h3 : φ (MvPolynomial.X 4) = single 0 Polynomial.X := by simp [φ]
    rw [h3] at h1
    exact h2.symm.trans h1
  all_goals simp [φ]

theorem totalDegree_aeval (p : Polynomial F) {n : ℕ} (h : p.natDegree ≤ n) :
    (Polynomial.aeval (MvPolynomial.X 4 : MvPolynomial (Fin 5) F) p).totalDegree ≤ n := by
  rw [Polynomial.aeval_eq_sum_range]
  refine (MvPolynomial.totalDegree_finsetSum _ _).trans (Finset.sup_le fun i hi => ?_)
  refine (MvPolynomial.totalDegree_smul_le _ _).trans ?_
  rw [MvPolynomial.totalDegree_X_pow]
  rw [Finset.mem_range] at hi
  omega

theorem totalDegree_add_le' {p q : MvPolynomial (Fin 5) F} {n : ℕ} (hp : p.totalDegree ≤ n)
    (hq : q.totalDegree ≤ n) : (p + q).totalDegree ≤ n :=
  (MvPolynomial.totalDegree_add p q).trans (max_le hp hq)

theorem totalDegree_sub_le' {p q : MvPolynomial (Fin 5) F} {n : ℕ} (hp : p.totalDegree ≤ n)
    (hq : q.totalDegree ≤ n) : (p - q).totalDegree ≤ n :=
  (MvPolynomial.totalDegree_sub p q).trans (max_le hp hq)

theorem totalDegree_mul_le' {p q : MvPolynomial (Fin 5) F} (a : ℕ) {b n : ℕ}
    (hp : p.totalDegree ≤ a) (hq : q.totalDegree ≤ b) (h : a + b ≤ n) : (p * q).totalDegree ≤ n :=
  (MvPolynomial.totalDegree_mul p q).trans (by omega)

/-- The degree of an element of the first group times `γ δ`. -/
theorem combo_degree (a i w : Fin 3 → MvPolynomial (Fin 5) F) (p : MvPolynomial (Fin 5) F) {n : ℕ}
    (ha : ∀ j, (a j).totalDegree ≤ 0) (hp : p.totalDegree ≤ n) (hi : ∀ j, (i j).totalDegree ≤ n)
    (hw0 : (w 0).totalDegree ≤ n) (hw1 : (w 1).totalDegree ≤ n)
    (hw2 : (w 2).totalDegree ≤ 2 * n) :
    (combo (MvPolynomial.X 0) (MvPolynomial.X 1) (MvPolynomial.X 2) (MvPolynomial.X 3)
      a p i w).totalDegree ≤ 2 * n + 3 := by
  have hX : ∀ j, (MvPolynomial.X j : MvPolynomial (Fin 5) F).totalDegree ≤ 1 := fun j => by
    rw [MvPolynomial.totalDegree_X]
  unfold combo
  refine totalDegree_add_le' (totalDegree_add_le' ?_ ?_) ?_
  · refine totalDegree_mul_le' 2 (totalDegree_mul_le' 1 (hX _) (hX _) le_rfl) (b := n + 1) ?_ (by omega)
    refine totalDegree_add_le' (totalDegree_add_le' (totalDegree_add_le' ?_ ?_) ?_) (by omega)
    all_goals exact totalDegree_mul_le' 0 (ha _) (hX _) (by omega)
  · refine totalDegree_mul_le' 1 (hX _) (b := n + 1) ?_ (by omega)
    refine totalDegree_add_le' (totalDegree_add_le' ?_ ?_) ((hi _).trans (by omega))
    all_goals exact totalDegree_mul_le' 1 (hX _) (hi _) (by omega)
  · refine totalDegree_mul_le' 1 (hX _) (b := 2 * n + 1) ?_ (by omega)
    refine totalDegree_add_le' (totalDegree_add_le' ?_ ?_) (hw2.trans (by omega))
    · exact totalDegree_mul_le' 1 (hX _) hw0 (by omega)
    · exact totalDegree_mul_le' 1 (hX _) hw1 (by omega)

theorem poly_degree (g : GrothCoeffs (Polynomial F)) {n : ℕ} (ha : ∀ j, (g.a j).natDegree ≤ 0)
    (hap : g.ap.natDegree ≤ n) (hai : ∀ j, (g.ai j).natDegree ≤ n) (haw0 : (g.aw 0).natDegree ≤ n)
    (haw1 : (g.aw 1).natDegree ≤ n) (haw2 : (g.aw 2).natDegree ≤ 2 * n)
    (hb : ∀ j, (g.b j).natDegree ≤ 0) (hbp : g.bp.natDegree ≤ n) (hc : ∀ j, (g.c j).natDegree ≤ 0)
    (hcp : g.cp.natDegree ≤ n) (hci : ∀ j, (g.ci j).natDegree ≤ n) (hcw0 : (g.cw 0).natDegree ≤ n)
    (hcw1 : (g.cw 1).natDegree ≤ n) (hcw2 : (g.cw 2).natDegree ≤ 2 * n)
    (hz : ∀ j, (g.z j).natDegree ≤ n) : g.poly.totalDegree ≤ 3 * n + 4 := by
  have hX : ∀ j, (MvPolynomial.X j : MvPolynomial (Fin 5) F).totalDegree ≤ 1 := fun j => by
    rw [MvPolynomial.totalDegree_X]
  unfold GrothCoeffs.poly GrothCoeffs.form
  refine totalDegree_sub_le' (totalDegree_sub_le' ?_ ?_) ?_
  · refine totalDegree_mul_le' (2 * n + 3) (combo_degree _ _ _ _ (fun j => totalDegree_aeval _ (ha j))
      (totalDegree_aeval _ hap) (fun j => totalDegree_aeval _ (hai j)) (totalDegree_aeval _ haw0)
      (totalDegree_aeval _ haw1) (totalDegree_aeval _ haw2)) (b := n + 1) ?_ (by omega)
    refine totalDegree_add_le' (totalDegree_add_le' (totalDegree_add_le' ?_ ?_) ?_)
      ((totalDegree_aeval _ hbp).trans (by omega))
    all_goals exact totalDegree_mul_le' 0 (totalDegree_aeval _ (hb _)) (hX _) (by omega)
  · refine totalDegree_mul_le' 2 (totalDegree_mul_le' 1 (hX _) (hX _) le_rfl) (b := n + 2) ?_ (by omega)
    refine totalDegree_add_le' (totalDegree_add_le' (totalDegree_add_le' ?_ ?_) ?_)
      ((totalDegree_aeval _ (hz _)).trans (by omega))
    · exact totalDegree_mul_le' 1 (hX _) (hX _) (by omega)
    all_goals exact totalDegree_mul_le' 1 (hX _) (totalDegree_aeval _ (hz _)) (by omega)
  · exact totalDegree_mul_le' 1 (hX _) (combo_degree _ _ _ _ (fun j => totalDegree_aeval _ (hc j))
      (totalDegree_aeval _ hcp) (fun j => totalDegree_aeval _ (hci j)) (totalDegree_aeval _ hcw0)
      (totalDegree_aeval _ hcw1) (totalDegree_aeval _ hcw2)) (by omega)

theorem card_zeros_le [Fintype F] [DecidableEq F] {p : MvPolynomial (Fin 5) F} (hp : p ≠ 0) {d : ℕ}
    (hd : p.totalDegree ≤ d) :
    (Finset.univ.filter fun v : Fin 5 → F => MvPolynomial.eval v p = 0).card ≤
      d * Fintype.card F ^ 4 := by
  have h := MvPolynomial.schwartz_zippel_totalDegree hp (Finset.univ : Finset F)
  rw [Fintype.piFinset_univ, Finset.card_univ] at h
  have hq : (0 : ℚ≥0) < (Fintype.card F : ℚ≥0) := by exact_mod_cast Fintype.card_pos
  rw [div_le_iff₀ (by positivity), div_mul_eq_mul_div, pow_succ, ← mul_assoc,
    mul_div_cancel_right₀ _ hq.ne'] at h
  have h' : (Finset.univ.filter fun v : Fin 5 → F => MvPolynomial.eval v p = 0).card ≤
      p.totalDegree * Fintype.card F ^ 4 := by exact_mod_cast h
  exact h'.trans (Nat.mul_le_mul_right _ hd)

end

end Verif
