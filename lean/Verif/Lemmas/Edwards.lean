import Verif.Model.Pedersen
import Verif.Lemmas.Fq2
import Mathlib.Tactic.FieldSimp
import Mathlib.Tactic.LinearCombination
import Mathlib.Algebra.Ring.Parity

/-! The Edwards curve of the CRH and its `x` coordinate (helper lemmas). -/

set_option exponentiation.threshold 800

namespace Verif

open WeierstrassCurve

theorem edD_nonresidue (r : Fq) : r * r ≠ ED_D := by
  have h := nonresidue_of_pow 79743 377 (by decide +kernel) (by decide +kernel) r
  exact_mod_cast h

theorem neg_edD_nonresidue (r : Fq) : r * r ≠ -ED_D := by
  have h := nonresidue_of_pow (FQ_MODULUS - 79743) 377 (by decide +kernel) (by decide +kernel) r
  have e : ((FQ_MODULUS - 79743 : ℕ) : Fq) = -ED_D := by decide +kernel
  rwa [e] at h

theorem ed_two_ne_zero : (2 : Fq) ≠ 0 := by decide +kernel
theorem edD1_ne_zero : ED_D + 1 ≠ 0 := by decide +kernel

theorem ed_equation {u v : Fq} (h : edCurve.Nonsingular u v) :
    v ^ 2 = u ^ 3 + 2 * (ED_D - 1) * u ^ 2 + (ED_D + 1) ^ 2 * u := by
  have h1 := (Affine.equation_iff ..).mp h.1
  simp only [edCurve] at h1
  linear_combination h1

theorem ed_nonsingular_zero : edCurve.Nonsingular 0 0 := by
  rw [Affine.nonsingular_iff]
  refine ⟨(Affine.equation_iff ..).mpr (by simp [edCurve]), Or.inl ?_⟩
  simp only [edCurve]
  have := pow_ne_zero 2 edD1_ne_zero
  intro e
  exact this (by linear_combination -e)

/-- The point of order two. -/
def edT : EdPoint := .some 0 0 ed_nonsingular_zero

theorem ed_v_ne_zero {u v : Fq} (h : edCurve.Nonsingular u v) (hu : u ≠ 0) : v ≠ 0 := by
  rintro rfl
  have e := ed_equation h
  have e2 : u * (u ^ 2 + 2 * (ED_D - 1) * u + (ED_D + 1) ^ 2) = 0 := by linear_combination -e
  have e3 := (mul_eq_zero.mp e2).resolve_left hu
  apply neg_edD_nonresidue ((u + (ED_D - 1)) / 2)
  have h2 := ed_two_ne_zero
  field_simp
  linear_combination e3

theorem ed_u_ne {u v : Fq} (h : edCurve.Nonsingular u v) : u - (ED_D + 1) ≠ 0 := by
  intro e
  have hu : u = ED_D + 1 := by linear_combination e
  subst hu
  have h1 := ed_equation h
  apply edD_nonresidue (v / (2 * (ED_D + 1)))
  have h2 := ed_two_ne_zero
  have h3 := edD1_ne_zero
  field_simp
  linear_combination h1

/-- The coordinates satisfy the equation of the Edwards curve. -/
theorem ed_on_curve (P : EdPoint) :
    -edX P ^ 2 + edY P ^ 2 = 1 + ED_D * edX P ^ 2 * edY P ^ 2 := by
  rcases P with _ | ⟨u, v, h⟩
  · simp [edX, edY]
  · have hm := ed_u_ne h
    have h1 := ed_equation h
    simp only [edX, edY]
    by_cases hu : u = 0
    · subst hu
      have h3 := edD1_ne_zero
      have : (0 - (ED_D + 1) : Fq) ≠ 0 := hm
      field_simp
      ring
    · have hv := ed_v_ne_zero h hu
      field_simp
      linear_combination (4 * u * (ED_D + 1)) * h1

theorem edT_ne_zero : edT ≠ 0 := Affine.Point.some_ne_zero _

theorem two_edT : edT + edT = 0 := by
  apply Affine.Point.add_of_Y_eq rfl
  simp [Affine.negY, edCurve]

theorem odd_edT (n : ℕ) (hn : Odd n) : n • edT = edT := by
  obtain ⟨k, rfl⟩ := hn
  rw [add_nsmul, mul_nsmul, two_nsmul, two_edT, nsmul_zero, zero_add, one_nsmul]

/-- Points with the same `x` are equal, or add up to the point of order two. -/
theorem edX_eq {P Q : EdPoint} (h : edX P = edX Q) : P = Q ∨ P + Q = edT := by
  have hz : ∀ R : EdPoint, edX R = 0 → R = 0 ∨ R = edT := by
    intro R hR
    rcases R with _ | ⟨u, v, hn⟩
    · exact Or.inl rfl
    · right
      simp only [edX] at hR
      have hu : u = 0 := by
        by_contra hu
        have hv := ed_v_ne_zero hn hu
        have := ed_two_ne_zero
        exact (div_ne_zero (mul_ne_zero this hu) hv) hR
      subst hu
      have hv : v = 0 := by
        have := ed_equation hn
        exact pow_eq_zero_iff (two_ne_zero) |>.mp (by rw [this]; ring)
      subst hv
      rfl
  by_cases h0 : edX P = 0
  · rcases hz P h0 with rfl | rfl <;> rcases hz Q (h ▸ h0) with rfl | rfl
    · exact Or.inl rfl
    · exact Or.inr (zero_add _)
    · exact Or.inr (add_zero _)
    · exact Or.inl rfl
  · rcases P with _ | ⟨u, v, hP⟩
    · exact absurd rfl h0
    rcases Q with _ | ⟨u', v', hQ⟩
    · exact absurd h h0
    simp only [edX] at h h0
    have hu : u ≠ 0 := by rintro rfl; simp at h0
    have hu' : u' ≠ 0 := by rintro rfl; rw [h] at h0; simp at h0
    have hv := ed_v_ne_zero hP hu
    have hv' := ed_v_ne_zero hQ hu'
    have e := ed_equation hP
    have e' := ed_equation hQ
    have h2 := ed_two_ne_zero
    have hx : u * v' = u' * v := by
      rw [div_eq_div_iff hv hv'] at h
      exact mul_left_cancel₀ h2 (by linear_combination h)
    by_cases hne : u = u'
    · left
      subst hne
      have : v' = v := mul_left_cancel₀ hu hx
      subst this
      rfl
    · right
      -- both abscissae are roots of one quadratic whose roots have product `(d + 1)²`
      have hq : (u - u') * (u * u' - (ED_D + 1) ^ 2) = 0 := by
        apply mul_left_cancel₀ (mul_ne_zero hu hu')
        rw [mul_zero]
        linear_combination -(u * v' + u' * v) * hx + u ^ 2 * e' - u' ^ 2 * e
      have c := (mul_eq_zero.mp hq).resolve_left (sub_ne_zero.mpr hne)
      have hl : edCurve.slope u u' v v' = v / u := by
        rw [Affine.slope_of_X_ne hne, div_eq_div_iff (sub_ne_zero.mpr hne) hu]
        linear_combination -hx
      have ex : edCurve.addX u u' (edCurve.slope u u' v v') = 0 := by
        rw [hl]
        simp only [Affine.addX, edCurve]
        field_simp
        linear_combination e - u * c
      have ey : edCurve.addY u u' v (edCurve.slope u u' v v') = 0 := by
        simp only [Affine.addY, Affine.negAddY, Affine.negY, ex]
        rw [hl]
        simp only [edCurve]
        field_simp
        ring
      rw [Affine.Point.add_of_X_ne hne]
      simp only [ex, ey, edT]

/-- On points of odd order the `x` coordinate is injective. -/
theorem edX_inj {n : ℕ} (hn : Odd n) {P Q : EdPoint} (hP : n • P = 0) (hQ : n • Q = 0)
    (h : edX P = edX Q) : P = Q := by
  rcases edX_eq h with e | e
  · exact e
  · exfalso
    apply edT_ne_zero
    rw [← odd_edT n hn, ← e, nsmul_add, hP, hQ, add_zero]

end Verif
