import Verif.Model.G1
import Mathlib.Tactic.FieldSimp

/-! The points with `x = 0` are killed by the cofactor. -/

namespace Verif

open WeierstrassCurve

theorem g1_nonsingular (x y : Fq) (h : y * y = x ^ 3 + 1) : g1Curve.Nonsingular x y := by
  rw [Affine.nonsingular_iff]
  refine ⟨?_, ?_⟩
  · rw [Affine.equation_iff]
    simp only [g1Curve]
    linear_combination h
  · simp only [g1Curve]
    by_contra hc
    push Not at hc
    obtain ⟨h1, h2⟩ := hc
    have two : (2 : Fq) ≠ 0 := by decide +kernel
    have three : (3 : Fq) ≠ 0 := by decide +kernel
    have hy : y = 0 := by
      have : 2 * y = 0 := by linear_combination h2
      exact (mul_eq_zero.mp this).resolve_left two
    have hx : x = 0 := by
      have : 3 * x ^ 2 = 0 := by linear_combination -h1
      exact pow_eq_zero_iff (two_ne_zero) |>.mp ((mul_eq_zero.mp this).resolve_left three)
    rw [hx, hy] at h
    norm_num at h

theorem three_torsion (y : Fq) (hy : y * y = 1) (h : g1Curve.Nonsingular 0 y) :
    3 • (Affine.Point.some 0 y h) = 0 := by
  have hne : y ≠ g1Curve.negY 0 y := by
    simp only [Affine.negY, g1Curve]
    intro e
    have two : (2 : Fq) ≠ 0 := by decide +kernel
    have : 2 * y = 0 := by linear_combination e
    have := (mul_eq_zero.mp this).resolve_left two
    rw [this] at hy
    norm_num at hy
  have hs : g1Curve.slope 0 0 y y = 0 := by
    rw [Affine.slope_of_Y_ne rfl hne]
    simp [g1Curve]
  have e : Affine.Point.some 0 y h + Affine.Point.some 0 y h = - Affine.Point.some 0 y h := by
    rw [Affine.Point.add_self_of_Y_ne hne, Affine.Point.neg_some]
    have e1 : g1Curve.addX 0 0 (g1Curve.slope 0 0 y y) = 0 := by
      rw [hs]; simp [Affine.addX, g1Curve]
    have e2 : g1Curve.addY 0 0 y (g1Curve.slope 0 0 y y) = g1Curve.negY 0 y := by
      rw [hs]; simp [Affine.addY, Affine.negAddY, Affine.addX, Affine.negY, g1Curve]
    simp only [e1, e2]
  rw [show (3 : ℕ) = 2 + 1 from rfl, add_smul, two_smul, one_smul, e]
  exact neg_add_cancel _

theorem g1Scale_zero_x (y : Fq) (hy : y * y = 1) : g1Scale (.finite 0 y) = 0 := by
  by_cases h : g1Curve.Nonsingular 0 y
  · have : G1_COFACTOR = 10210416944986806409150114866739019776 * 3 := by
      unfold G1_COFACTOR; norm_num
    simp only [g1Scale, dif_pos h]
    rw [this, mul_smul, three_torsion y hy h]
    exact nsmul_zero _
  · simp only [g1Scale, dif_neg h]

end Verif
