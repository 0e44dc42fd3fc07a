import Verif.Lemmas.Edwards

/-! The group of the model is that of the Edwards addition law (helper; the law is that of
ark_ed_on_bw6_761, external). -/

set_option exponentiation.threshold 800

namespace Verif

open WeierstrassCurve

theorem edX_neg (P : EdPoint) : edX (-P) = -edX P ∧ edY (-P) = edY P := by
  rcases P with _ | ⟨u, v, h⟩
  · exact ⟨neg_zero.symm, rfl⟩
  · rw [Affine.Point.neg_some]
    simp only [edX, edY, Affine.negY, edCurve]
    refine ⟨?_, trivial⟩
    rw [show (-v - 0 * u - 0 : Fq) = -v by ring, div_neg]

/-- Adding the point of order two changes both signs. -/
theorem ed_add_T (Q : EdPoint) : edX (edT + Q) = -edX Q ∧ edY (edT + Q) = -edY Q := by
  have hm := edD1_ne_zero
  rcases Q with _ | ⟨u, v, h⟩
  · rw [← Affine.Point.zero_def, add_zero]
    refine ⟨by rw [show edX 0 = 0 from rfl]; simp [edX, edT], ?_⟩
    rw [show edY 0 = 1 from rfl]
    simp only [edY, edT]
    rw [zero_add, zero_sub, div_neg, div_self hm]
  · by_cases hu : u = 0
    · subst hu
      have hv : v = 0 := by
        have := ed_equation h
        exact pow_eq_zero_iff (two_ne_zero) |>.mp (by rw [this]; ring)
      subst hv
      have : edT + Affine.Point.some 0 0 h = 0 := two_edT
      rw [this]
      refine ⟨by rw [show edX 0 = 0 from rfl]; simp [edX], ?_⟩
      rw [show edY 0 = 1 from rfl]
      simp only [edY]
      rw [zero_add, zero_sub, div_neg, div_self hm, neg_neg]
    · have hv := ed_v_ne_zero h hu
      have e := ed_equation h
      have hne : (0 : Fq) ≠ u := fun x => hu x.symm
      have hl : edCurve.slope 0 u 0 v = v / u := by
        rw [Affine.slope_of_X_ne hne]
        field_simp
        ring
      have ex : edCurve.addX 0 u (edCurve.slope 0 u 0 v) = (ED_D + 1) ^ 2 / u := by
        rw [hl]
        simp only [Affine.addX, edCurve]
        field_simp
        linear_combination e
      have ey : edCurve.addY 0 u 0 (edCurve.slope 0 u 0 v) = -((ED_D + 1) ^ 2 * v / u ^ 2) := by
        simp only [Affine.addY, Affine.negAddY, Affine.negY, ex]
        rw [hl]
        simp only [edCurve]
        field_simp
        ring
      have hs : edT + Affine.Point.some u v h = Affine.Point.some _ _ _ :=
        Affine.Point.add_of_X_ne (h₁ := ed_nonsingular_zero) (h₂ := h) hne
      have hum := ed_u_ne h
      rw [hs]
      simp only [edX, edY, ex, ey]
      constructor
      · field_simp
      · have h1 : (ED_D + 1) ^ 2 / u - (ED_D + 1) ≠ 0 := by
          rw [show (ED_D + 1) ^ 2 / u - (ED_D + 1) = -((ED_D + 1) * (u - (ED_D + 1))) / u by
            field_simp; ring]
          exact div_ne_zero (neg_ne_zero.mpr (mul_ne_zero hm hum)) hu
        rw [← neg_div, div_eq_div_iff h1 hum]
        field_simp
        ring

/-- From cleared denominators to the law for `x`. -/
theorem ed_law_x {d m u v u' v' X Y : Fq} (hv : v ≠ 0) (hv' : v' ≠ 0) (hY : Y ≠ 0)
    (hu : u - m ≠ 0) (hu' : u' - m ≠ 0)
    (h : 2 * X * (v * v' * (u - m) * (u' - m) + d * 4 * u * u' * (u + m) * (u' + m)) =
      Y * (2 * u * v' * (u - m) * (u' + m) + 2 * u' * v * (u + m) * (u' - m))) :
    2 * X / Y * (1 + d * (2 * u / v) * (2 * u' / v') * ((u + m) / (u - m)) * ((u' + m) / (u' - m))) =
      2 * u / v * ((u' + m) / (u' - m)) + (u + m) / (u - m) * (2 * u' / v') := by
  have hA : 1 + d * (2 * u / v) * (2 * u' / v') * ((u + m) / (u - m)) * ((u' + m) / (u' - m)) =
      (v * v' * (u - m) * (u' - m) + d * 4 * u * u' * (u + m) * (u' + m)) /
        (v * v' * (u - m) * (u' - m)) := by
    field_simp; ring
  have hC : 2 * u / v * ((u' + m) / (u' - m)) + (u + m) / (u - m) * (2 * u' / v') =
      (2 * u * v' * (u - m) * (u' + m) + 2 * u' * v * (u + m) * (u' - m)) /
        (v * v' * (u - m) * (u' - m)) := by
    field_simp
  rw [hA, hC, div_mul_div_comm, h, mul_div_mul_left _ _ hY]

/-- From cleared denominators to the law for `y`. -/
theorem ed_law_y {d m u v u' v' X : Fq} (hv : v ≠ 0) (hv' : v' ≠ 0)
    (hX : X - m ≠ 0) (hu : u - m ≠ 0) (hu' : u' - m ≠ 0)
    (h : (X + m) * (v * v' * (u - m) * (u' - m) - d * 4 * u * u' * (u + m) * (u' + m)) =
      (X - m) * (v * v' * (u + m) * (u' + m) + 4 * u * u' * (u - m) * (u' - m))) :
    (X + m) / (X - m) *
        (1 - d * (2 * u / v) * (2 * u' / v') * ((u + m) / (u - m)) * ((u' + m) / (u' - m))) =
      (u + m) / (u - m) * ((u' + m) / (u' - m)) + 2 * u / v * (2 * u' / v') := by
  have hA : 1 - d * (2 * u / v) * (2 * u' / v') * ((u + m) / (u - m)) * ((u' + m) / (u' - m)) =
      (v * v' * (u - m) * (u' - m) - d * 4 * u * u' * (u + m) * (u' + m)) /
        (v * v' * (u - m) * (u' - m)) := by
    field_simp; ring
  have hC : (u + m) / (u - m) * ((u' + m) / (u' - m)) + 2 * u / v * (2 * u' / v') =
      (v * v' * (u + m) * (u' + m) + 4 * u * u' * (u - m) * (u' - m)) /
        (v * v' * (u - m) * (u' - m)) := by
    field_simp; ring
  rw [hA, hC, div_mul_div_comm, h, mul_div_mul_left _ _ hX]

/-- The chord, cleared of denominators. -/
theorem ed_chord {u v u' v' X Y l : Fq}
    (e : v ^ 2 = u ^ 3 + 2 * (ED_D - 1) * u ^ 2 + (ED_D + 1) ^ 2 * u)
    (e' : v' ^ 2 = u' ^ 3 + 2 * (ED_D - 1) * u' ^ 2 + (ED_D + 1) ^ 2 * u')
    (hne : u - u' ≠ 0) (hl : l * (u - u') = v - v')
    (hX : X = l ^ 2 - 2 * (ED_D - 1) - u - u') (hY : Y = -(l * (X - u) + v)) :
    2 * X * (v * v' * (u - (ED_D + 1)) * (u' - (ED_D + 1)) +
        ED_D * 4 * u * u' * (u + (ED_D + 1)) * (u' + (ED_D + 1))) =
      Y * (2 * u * v' * (u - (ED_D + 1)) * (u' + (ED_D + 1)) +
        2 * u' * v * (u + (ED_D + 1)) * (u' - (ED_D + 1))) ∧
    (X + (ED_D + 1)) * (v * v' * (u - (ED_D + 1)) * (u' - (ED_D + 1)) -
        ED_D * 4 * u * u' * (u + (ED_D + 1)) * (u' + (ED_D + 1))) =
      (X - (ED_D + 1)) * (v * v' * (u + (ED_D + 1)) * (u' + (ED_D + 1)) +
        4 * u * u' * (u - (ED_D + 1)) * (u' - (ED_D + 1))) := by
  have hX2 : X * (u - u') ^ 2 = (v - v') ^ 2 - (2 * (ED_D - 1) + u + u') * (u - u') ^ 2 := by
    rw [hX, ← hl]; ring
  have hY3 : Y * (u - u') ^ 3 =
      -((v - v') * (((v - v') ^ 2 - (2 * (ED_D - 1) + u + u') * (u - u') ^ 2) - u * (u - u') ^ 2) +
        v * (u - u') ^ 3) := by
    rw [hY, ← hX2, ← hl]; ring
  generalize ED_D = ED_D at *
  constructor
  · apply mul_left_cancel₀ (pow_ne_zero 3 hne)
    linear_combination
      2 * (u - u') * (v * v' * (u - (ED_D + 1)) * (u' - (ED_D + 1)) +
        ED_D * 4 * u * u' * (u + (ED_D + 1)) * (u' + (ED_D + 1))) * hX2 -
      (2 * u * v' * (u - (ED_D + 1)) * (u' + (ED_D + 1)) +
        2 * u' * v * (u + (ED_D + 1)) * (u' - (ED_D + 1))) * hY3 +
      ((-2) * u' * v' ^ 2 + 2 * u' ^ 2 * v' ^ 2 + (-4) * u' ^ 3 + 8 * u' ^ 4 + (-4) * u' ^ 5 + 4 *
      v * u' * v' + (-4) * v * u' ^ 2 * v' + (-2) * v ^ 2 * u' + 2 * v ^ 2 * u' ^ 2 + 2 * u * v' ^
      2 + (-2) * u * u' + 10 * u * u' ^ 2 + 10 * u * u' ^ 2 * v' ^ 2 + (-18) * u * u' ^ 3 + 14 * u
      * u' ^ 4 + (-4) * u * u' ^ 5 + 4 * u * v * u' * v' + (-8) * u * v * u' ^ 2 * v' + (-2) * u *
      v ^ 2 * u' + 2 * u * v ^ 2 * u' ^ 2 + (-2) * u ^ 2 * v' ^ 2 + (-2) * u ^ 2 * u' + (-10) * u
      ^ 2 * u' * v' ^ 2 + 10 * u ^ 2 * u' ^ 2 + (-14) * u ^ 2 * u' ^ 3 + 6 * u ^ 2 * u' ^ 4 + 4 *
      u ^ 2 * v * u' * v' + (-4) * ED_D * u' * v' ^ 2 + 2 * ED_D * u' ^ 2 * v' ^ 2 + (-4) * ED_D *
      u' ^ 3 + 8 * ED_D * u' ^ 4 + (-4) * ED_D * u' ^ 5 + 8 * ED_D * v * u' * v' + (-4) * ED_D * v
      * u' ^ 2 * v' + (-4) * ED_D * v ^ 2 * u' + 2 * ED_D * v ^ 2 * u' ^ 2 + 4 * ED_D * u * v' ^ 2
      + (-8) * ED_D * u * u' + 6 * ED_D * u * u' ^ 2 + (-20) * ED_D * u * u' ^ 3 + 6 * ED_D * u *
      u' ^ 4 + 4 * ED_D * u * v * u' * v' + (-2) * ED_D * u * v ^ 2 * u' + (-2) * ED_D * u ^ 2 *
      v' ^ 2 + 2 * ED_D * u ^ 2 * u' + 4 * ED_D * u ^ 2 * u' ^ 2 + (-6) * ED_D * u ^ 2 * u' ^ 3 +
      8 * ED_D * u ^ 3 * u' + 8 * ED_D * u ^ 3 * u' ^ 2 + (-2) * ED_D ^ 2 * u' * v' ^ 2 + 4 * ED_D
      ^ 2 * u' ^ 3 + 4 * ED_D ^ 2 * v * u' * v' + (-2) * ED_D ^ 2 * v ^ 2 * u' + 2 * ED_D ^ 2 * u
      * v' ^ 2 + (-12) * ED_D ^ 2 * u * u' + (-18) * ED_D ^ 2 * u * u' ^ 2 + (-2) * ED_D ^ 2 * u *
      u' ^ 3 + 10 * ED_D ^ 2 * u ^ 2 * u' + (-6) * ED_D ^ 2 * u ^ 2 * u' ^ 2 + 8 * ED_D ^ 2 * u ^
      3 * u' + 4 * ED_D ^ 3 * u' ^ 3 + (-8) * ED_D ^ 3 * u * u' + (-14) * ED_D ^ 3 * u * u' ^ 2 +
      6 * ED_D ^ 3 * u ^ 2 * u' + (-2) * ED_D ^ 4 * u * u') * e +
      (2 * u * v' ^ 2 + 2 * u * u' * v' ^ 2 + 4 * u * u' ^ 2 + (-4) * u * v * v' + (-4) * u * v *
      u' * v' + (-4) * u * v * u' ^ 2 * v' + 2 * u ^ 2 + (-2) * u ^ 2 * v' ^ 2 + (-6) * u ^ 2 * u'
      + (-2) * u ^ 2 * u' * v' ^ 2 + (-4) * u ^ 2 * u' ^ 2 + 4 * u ^ 2 * v * v' + 8 * u ^ 2 * v *
      u' * v' + (-2) * u ^ 3 + 6 * u ^ 3 * u' + (-4) * u ^ 3 * u' ^ 2 + (-2) * u ^ 4 + 6 * u ^ 4 *
      u' + 4 * u ^ 4 * u' ^ 2 + 2 * u ^ 5 + (-6) * u ^ 5 * u' + 4 * ED_D * u * v' ^ 2 + 2 * ED_D *
      u * u' * v' ^ 2 + 4 * ED_D * u * u' ^ 2 + (-8) * ED_D * u * u' ^ 3 + (-8) * ED_D * u * v *
      v' + (-4) * ED_D * u * v * u' * v' + 8 * ED_D * u ^ 2 + (-2) * ED_D * u ^ 2 * v' ^ 2 + (-2)
      * ED_D * u ^ 2 * u' + 16 * ED_D * u ^ 2 * u' ^ 2 + (-8) * ED_D * u ^ 2 * u' ^ 3 + 4 * ED_D *
      u ^ 2 * v * v' + (-6) * ED_D * u ^ 3 + (-4) * ED_D * u ^ 3 * u' + 28 * ED_D * u ^ 3 * u' ^ 2
      + (-4) * ED_D * u ^ 4 + (-26) * ED_D * u ^ 4 * u' + 2 * ED_D * u ^ 5 + 2 * ED_D ^ 2 * u * v'
      ^ 2 + (-4) * ED_D ^ 2 * u * u' ^ 2 + (-8) * ED_D ^ 2 * u * u' ^ 3 + (-4) * ED_D ^ 2 * u * v
      * v' + 12 * ED_D ^ 2 * u ^ 2 + 14 * ED_D ^ 2 * u ^ 2 * u' + 20 * ED_D ^ 2 * u ^ 2 * u' ^ 2 +
      (-6) * ED_D ^ 2 * u ^ 3 + (-10) * ED_D ^ 2 * u ^ 3 * u' + (-2) * ED_D ^ 2 * u ^ 4 + (-4) *
      ED_D ^ 3 * u * u' ^ 2 + 8 * ED_D ^ 3 * u ^ 2 + 10 * ED_D ^ 3 * u ^ 2 * u' + (-2) * ED_D ^ 3
      * u ^ 3 + 2 * ED_D ^ 4 * u ^ 2) * e'
  · apply mul_left_cancel₀ (pow_ne_zero 2 hne)
    linear_combination
      ((v * v' * (u - (ED_D + 1)) * (u' - (ED_D + 1)) -
        ED_D * 4 * u * u' * (u + (ED_D + 1)) * (u' + (ED_D + 1))) -
      (v * v' * (u + (ED_D + 1)) * (u' + (ED_D + 1)) +
        4 * u * u' * (u - (ED_D + 1)) * (u' - (ED_D + 1)))) * hX2 +
      (4 * u' * v' ^ 2 + (-2) * v * u' * v' + 4 * u * v' ^ 2 + (-4) * u * u' + 4 * u * u' ^ 2 +
      (-2) * u * v * v' + 4 * u ^ 2 * u' + (-4) * u ^ 2 * u' ^ 2 + 4 * ED_D * u' * v' ^ 2 + (-2) *
      ED_D * v * u' * v' + 4 * ED_D * u * v' ^ 2 + (-12) * ED_D * u * u' + (-2) * ED_D * u * v *
      v' + (-4) * ED_D * u ^ 2 * u' ^ 2 + (-12) * ED_D ^ 2 * u * u' + (-4) * ED_D ^ 2 * u * u' ^ 2
      + (-4) * ED_D ^ 2 * u ^ 2 * u' + (-4) * ED_D ^ 3 * u * u') * e +
      ((-2) * v * u' * v' + 4 * u * u' ^ 2 + (-2) * u * v * v' + 4 * u ^ 2 + (-4) * u ^ 2 * u' +
      (-4) * u ^ 2 * u' ^ 2 + (-8) * u ^ 3 + 4 * u ^ 3 * u' + 4 * u ^ 4 + (-2) * ED_D * v * u' *
      v' + (-2) * ED_D * u * v * v' + 12 * ED_D * u ^ 2 + (-4) * ED_D * u ^ 2 * u' ^ 2 + 4 * ED_D
      * u ^ 3 * u' + 4 * ED_D * u ^ 4 + (-4) * ED_D ^ 2 * u * u' ^ 2 + 12 * ED_D ^ 2 * u ^ 2 + 4 *
      ED_D ^ 2 * u ^ 2 * u' + 8 * ED_D ^ 2 * u ^ 3 + 4 * ED_D ^ 3 * u ^ 2) * e'

/-- The tangent, cleared of denominators. -/
theorem ed_tangent {u v X Y l : Fq}
    (e : v ^ 2 = u ^ 3 + 2 * (ED_D - 1) * u ^ 2 + (ED_D + 1) ^ 2 * u)
    (hv : 2 * v ≠ 0) (hl : l * (2 * v) = 3 * u ^ 2 + 4 * (ED_D - 1) * u + (ED_D + 1) ^ 2)
    (hX : X = l ^ 2 - 2 * (ED_D - 1) - u - u) (hY : Y = -(l * (X - u) + v)) :
    2 * X * (v * v * (u - (ED_D + 1)) * (u - (ED_D + 1)) +
        ED_D * 4 * u * u * (u + (ED_D + 1)) * (u + (ED_D + 1))) =
      Y * (2 * u * v * (u - (ED_D + 1)) * (u + (ED_D + 1)) +
        2 * u * v * (u + (ED_D + 1)) * (u - (ED_D + 1))) ∧
    (X + (ED_D + 1)) * (v * v * (u - (ED_D + 1)) * (u - (ED_D + 1)) -
        ED_D * 4 * u * u * (u + (ED_D + 1)) * (u + (ED_D + 1))) =
      (X - (ED_D + 1)) * (v * v * (u + (ED_D + 1)) * (u + (ED_D + 1)) +
        4 * u * u * (u - (ED_D + 1)) * (u - (ED_D + 1))) := by
  have hX2 : X * (2 * v) ^ 2 = (3 * u ^ 2 + 4 * (ED_D - 1) * u + (ED_D + 1) ^ 2) ^ 2 -
      (2 * (ED_D - 1) + 2 * u) * 4 * v ^ 2 := by
    rw [hX, ← hl]; ring
  have hY3 : Y * (2 * v) ^ 3 =
      -((3 * u ^ 2 + 4 * (ED_D - 1) * u + (ED_D + 1) ^ 2) *
        (((3 * u ^ 2 + 4 * (ED_D - 1) * u + (ED_D + 1) ^ 2) ^ 2 -
          (2 * (ED_D - 1) + 2 * u) * 4 * v ^ 2) - 4 * u * v ^ 2) + 8 * v ^ 4) := by
    rw [hY, ← hX2, ← hl]; ring
  generalize ED_D = ED_D at *
  constructor
  · apply mul_left_cancel₀ (pow_ne_zero 3 hv)
    linear_combination
      2 * (2 * v) * (v * v * (u - (ED_D + 1)) * (u - (ED_D + 1)) +
        ED_D * 4 * u * u * (u + (ED_D + 1)) * (u + (ED_D + 1))) * hX2 -
      (2 * u * v * (u - (ED_D + 1)) * (u + (ED_D + 1)) +
        2 * u * v * (u + (ED_D + 1)) * (u - (ED_D + 1))) * hY3 +
      (4 * v + 32 * v ^ 3 + (-40) * u * v + (-128) * u * v ^ 3 + 140 * u ^ 2 * v + 96 * u ^ 2 * v ^
      3 + (-176) * u ^ 3 * v + (-36) * u ^ 4 * v + 216 * u ^ 5 * v + (-108) * u ^ 6 * v + 24 *
      ED_D * v + 32 * ED_D * v ^ 3 + (-136) * ED_D * u * v + (-128) * ED_D * u * v ^ 3 + 176 *
      ED_D * u ^ 2 * v + 32 * ED_D * u ^ 2 * v ^ 3 + (-16) * ED_D * u ^ 3 * v + 312 * ED_D * u ^ 4
      * v + (-360) * ED_D * u ^ 5 * v + 60 * ED_D ^ 2 * v + (-32) * ED_D ^ 2 * v ^ 3 + (-144) *
      ED_D ^ 2 * u * v + (-56) * ED_D ^ 2 * u ^ 2 * v + (-16) * ED_D ^ 2 * u ^ 3 * v + (-420) *
      ED_D ^ 2 * u ^ 4 * v + 80 * ED_D ^ 3 * v + (-32) * ED_D ^ 3 * v ^ 3 + (-16) * ED_D ^ 3 * u *
      v + (-80) * ED_D ^ 3 * u ^ 2 * v + (-176) * ED_D ^ 3 * u ^ 3 * v + 60 * ED_D ^ 4 * v + 56 *
      ED_D ^ 4 * u * v + 12 * ED_D ^ 4 * u ^ 2 * v + 24 * ED_D ^ 5 * v + 24 * ED_D ^ 5 * u * v + 4
      * ED_D ^ 6 * v) * e
  · apply mul_left_cancel₀ (pow_ne_zero 2 hv)
    linear_combination
      ((v * v * (u - (ED_D + 1)) * (u - (ED_D + 1)) -
        ED_D * 4 * u * u * (u + (ED_D + 1)) * (u + (ED_D + 1))) -
      (v * v * (u + (ED_D + 1)) * (u + (ED_D + 1)) +
        4 * u * u * (u - (ED_D + 1)) * (u - (ED_D + 1)))) * hX2 +
      (8 * v ^ 2 + 4 * u + (-32) * u * v ^ 2 + (-32) * u ^ 2 + 40 * u ^ 2 * v ^ 2 + 88 * u ^ 3 +
      (-96) * u ^ 4 + 36 * u ^ 5 + 24 * ED_D * v ^ 2 + 20 * ED_D * u + (-64) * ED_D * u ^ 2 + 40 *
      ED_D * u ^ 2 * v ^ 2 + 8 * ED_D * u ^ 3 + 36 * ED_D * u ^ 5 + 24 * ED_D ^ 2 * v ^ 2 + 40 *
      ED_D ^ 2 * u + 32 * ED_D ^ 2 * u * v ^ 2 + 8 * ED_D ^ 2 * u ^ 3 + 96 * ED_D ^ 2 * u ^ 4 + 8
      * ED_D ^ 3 * v ^ 2 + 40 * ED_D ^ 3 * u + 64 * ED_D ^ 3 * u ^ 2 + 88 * ED_D ^ 3 * u ^ 3 + 20
      * ED_D ^ 4 * u + 32 * ED_D ^ 4 * u ^ 2 + 4 * ED_D ^ 5 * u) * e

/-- The law for a sum that is neither of the two exceptional points. -/
theorem ed_law_some {u v u' v' X Y : Fq} {h : edCurve.Nonsingular u v}
    {h' : edCurve.Nonsingular u' v'} {h3 : edCurve.Nonsingular X Y} (hu : u ≠ 0) (hu' : u' ≠ 0)
    (hX : X ≠ 0)
    (k : 2 * X * (v * v' * (u - (ED_D + 1)) * (u' - (ED_D + 1)) +
        ED_D * 4 * u * u' * (u + (ED_D + 1)) * (u' + (ED_D + 1))) =
      Y * (2 * u * v' * (u - (ED_D + 1)) * (u' + (ED_D + 1)) +
        2 * u' * v * (u + (ED_D + 1)) * (u' - (ED_D + 1))) ∧
    (X + (ED_D + 1)) * (v * v' * (u - (ED_D + 1)) * (u' - (ED_D + 1)) -
        ED_D * 4 * u * u' * (u + (ED_D + 1)) * (u' + (ED_D + 1))) =
      (X - (ED_D + 1)) * (v * v' * (u + (ED_D + 1)) * (u' + (ED_D + 1)) +
        4 * u * u' * (u - (ED_D + 1)) * (u' - (ED_D + 1)))) :
    2 * X / Y * (1 + ED_D * (2 * u / v) * (2 * u' / v') * ((u + (ED_D + 1)) / (u - (ED_D + 1))) *
        ((u' + (ED_D + 1)) / (u' - (ED_D + 1)))) =
      2 * u / v * ((u' + (ED_D + 1)) / (u' - (ED_D + 1))) +
        (u + (ED_D + 1)) / (u - (ED_D + 1)) * (2 * u' / v') ∧
    (X + (ED_D + 1)) / (X - (ED_D + 1)) * (1 - ED_D * (2 * u / v) * (2 * u' / v') *
        ((u + (ED_D + 1)) / (u - (ED_D + 1))) * ((u' + (ED_D + 1)) / (u' - (ED_D + 1)))) =
      (u + (ED_D + 1)) / (u - (ED_D + 1)) * ((u' + (ED_D + 1)) / (u' - (ED_D + 1))) +
        2 * u / v * (2 * u' / v') :=
  ⟨ed_law_x (ed_v_ne_zero h hu) (ed_v_ne_zero h' hu') (ed_v_ne_zero h3 hX) (ed_u_ne h) (ed_u_ne h')
      k.1,
    ed_law_y (ed_v_ne_zero h hu) (ed_v_ne_zero h' hu') (ed_u_ne h3) (ed_u_ne h) (ed_u_ne h') k.2⟩

theorem ed_zero_or_T {u v : Fq} (h : edCurve.Nonsingular u v) (hu : u = 0) :
    Affine.Point.some u v h = edT := by
  subst hu
  have hv : v = 0 := by
    have := ed_equation h
    exact pow_eq_zero_iff (two_ne_zero) |>.mp (by rw [this]; ring)
  subst hv
  rfl

/-- The Edwards addition law. -/
theorem ed_add (P Q : EdPoint) :
    edX (P + Q) * (1 + ED_D * edX P * edX Q * edY P * edY Q) = edX P * edY Q + edY P * edX Q ∧
    edY (P + Q) * (1 - ED_D * edX P * edX Q * edY P * edY Q) = edY P * edY Q + edX P * edX Q := by
  have x0 : edX 0 = 0 := rfl
  have y0 : edY 0 = 1 := rfl
  have xT : edX edT = 0 := by simp [edX, edT]
  have yT : edY edT = -1 := by
    have := (ed_add_T 0).2
    rwa [add_zero, y0] at this
  by_cases hPT : P = edT
  · subst hPT
    rw [(ed_add_T Q).1, (ed_add_T Q).2, xT, yT]
    constructor <;> ring
  by_cases hQT : Q = edT
  · subst hQT
    rw [add_comm, (ed_add_T P).1, (ed_add_T P).2, xT, yT]
    constructor <;> ring
  by_cases hs0 : P + Q = 0
  · have hQ : Q = -P := by rw [eq_neg_iff_add_eq_zero, add_comm]; exact hs0
    have hc := ed_on_curve P
    rw [hs0, hQ, (edX_neg P).1, (edX_neg P).2, x0, y0]
    constructor
    · ring
    · linear_combination -hc
  by_cases hsT : P + Q = edT
  · have hQ : Q = edT + -P := by rw [← hsT]; abel
    have hc := ed_on_curve P
    rw [hsT, hQ, (ed_add_T _).1, (ed_add_T _).2, (edX_neg P).1, (edX_neg P).2, xT, yT]
    constructor
    · ring
    · linear_combination hc
  rcases P with _ | ⟨u, v, h⟩
  · rw [← Affine.Point.zero_def, zero_add, x0, y0]
    constructor <;> ring
  rcases Q with _ | ⟨u', v', h'⟩
  · rw [← Affine.Point.zero_def, add_zero, x0, y0]
    constructor <;> ring
  have hu : u ≠ 0 := fun e => hPT (ed_zero_or_T h e)
  have hu' : u' ≠ 0 := fun e => hQT (ed_zero_or_T h' e)
  have e := ed_equation h
  have e' := ed_equation h'
  have hv := ed_v_ne_zero h hu
  have h2 := ed_two_ne_zero
  have fin : ∀ (hxy : ¬(u = u' ∧ v = edCurve.negY u' v')) (l : Fq)
      (hl : edCurve.slope u u' v v' = l)
      (k : ∀ X Y : Fq, X = l ^ 2 - 2 * (ED_D - 1) - u - u' → Y = -(l * (X - u) + v) →
        2 * X * (v * v' * (u - (ED_D + 1)) * (u' - (ED_D + 1)) +
          ED_D * 4 * u * u' * (u + (ED_D + 1)) * (u' + (ED_D + 1))) =
        Y * (2 * u * v' * (u - (ED_D + 1)) * (u' + (ED_D + 1)) +
          2 * u' * v * (u + (ED_D + 1)) * (u' - (ED_D + 1))) ∧
        (X + (ED_D + 1)) * (v * v' * (u - (ED_D + 1)) * (u' - (ED_D + 1)) -
          ED_D * 4 * u * u' * (u + (ED_D + 1)) * (u' + (ED_D + 1))) =
        (X - (ED_D + 1)) * (v * v' * (u + (ED_D + 1)) * (u' + (ED_D + 1)) +
          4 * u * u' * (u - (ED_D + 1)) * (u' - (ED_D + 1)))),
      edX (.some u v h + .some u' v' h') *
          (1 + ED_D * (2 * u / v) * (2 * u' / v') * ((u + (ED_D + 1)) / (u - (ED_D + 1))) *
            ((u' + (ED_D + 1)) / (u' - (ED_D + 1)))) =
        2 * u / v * ((u' + (ED_D + 1)) / (u' - (ED_D + 1))) +
          (u + (ED_D + 1)) / (u - (ED_D + 1)) * (2 * u' / v') ∧
      edY (.some u v h + .some u' v' h') *
          (1 - ED_D * (2 * u / v) * (2 * u' / v') * ((u + (ED_D + 1)) / (u - (ED_D + 1))) *
            ((u' + (ED_D + 1)) / (u' - (ED_D + 1)))) =
        (u + (ED_D + 1)) / (u - (ED_D + 1)) * ((u' + (ED_D + 1)) / (u' - (ED_D + 1))) +
          2 * u / v * (2 * u' / v') := by
    intro hxy l hl k
    have hs := Affine.Point.add_some (h₁ := h) (h₂ := h') hxy
    rw [hs] at hsT ⊢
    have hns := Affine.nonsingular_add h h' hxy
    rw [hl] at hns
    simp only [hl] at hsT ⊢
    have hX0 : edCurve.addX u u' l ≠ 0 := fun e0 => hsT (ed_zero_or_T hns e0)
    exact ed_law_some (h := h) (h' := h') (h3 := hns) hu hu' hX0
      (k _ _ (by simp only [Affine.addX, edCurve]; ring)
        (by simp only [Affine.addY, Affine.negAddY, Affine.negY, edCurve]; ring))
  simp only [edX, edY] at fin ⊢
  by_cases hne : u = u'
  · subst hne
    have hvv : (v - v') * (v + v') = 0 := by linear_combination e - e'
    rcases mul_eq_zero.mp hvv with c | c
    · have hc : v' = v := by linear_combination -c
      subst hc
      have h2v : 2 * v' ≠ 0 := mul_ne_zero h2 hv
      have hy : v' ≠ edCurve.negY u v' := by
        simp only [Affine.negY, edCurve]
        intro e0
        exact h2v (by linear_combination e0)
      refine fin (fun hxy => hy hxy.2) _ rfl fun X Y hX hY =>
        ed_tangent e h2v ?_ hX hY
      rw [Affine.slope_of_Y_ne rfl hy]
      simp only [Affine.negY, edCurve]
      rw [show v' - (-v' - 0 * u - 0) = 2 * v' by ring, div_mul_cancel₀ _ h2v]
      ring
    · exfalso
      apply hs0
      apply Affine.Point.add_of_Y_eq rfl
      simp only [Affine.negY, edCurve]
      linear_combination c
  · refine fin (fun hxy => hne hxy.1) _ rfl fun X Y hX hY =>
      ed_chord e e' (sub_ne_zero.mpr hne) ?_ hX hY
    rw [Affine.slope_of_X_ne hne, div_mul_cancel₀ _ (sub_ne_zero.mpr hne)]

/-- A square root of `-1`. -/
def fqI : Fq :=
  216465761340224619389371505802605247630151569547285782856803747159100223055385581585702401816380679166954762214499

theorem fqI_sq : fqI * fqI = -1 := by decide +kernel

/-- `d x₁x₂y₁y₂` is not `±1` on the curve, because `d` is not a square. -/
theorem ed_eps {x y x' y' t : Fq} (h : -x ^ 2 + y ^ 2 = 1 + ED_D * x ^ 2 * y ^ 2)
    (h' : -x' ^ 2 + y' ^ 2 = 1 + ED_D * x' ^ 2 * y' ^ 2)
    (ht : ED_D * x * x' * y * y' = t) (ht1 : t ^ 2 = 1) : False := by
  have t0 : t ≠ 0 := by rintro rfl; simp at ht1
  have hI := fqI_sq
  have hx : x ≠ 0 := by rintro rfl; exact t0 (by rw [← ht]; ring)
  have hx' : x' ≠ 0 := by rintro rfl; exact t0 (by rw [← ht]; ring)
  have hy : y ≠ 0 := by rintro rfl; exact t0 (by rw [← ht]; ring)
  have main : ∀ s : Fq, s ^ 2 = 1 →
      (fqI * x + s * t * y) ^ 2 = ED_D * (x * y) ^ 2 * (fqI * x' + s * y') ^ 2 := by
    intro s hs
    subst ht
    linear_combination (x ^ 2 - ED_D * (x * y) ^ 2 * x' ^ 2) * hI +
      (y ^ 2 * (ED_D * x * x' * y * y') ^ 2 - ED_D * (x * y) ^ 2 * y' ^ 2) * hs +
      (y ^ 2 - 1) * ht1 + h - ED_D * x ^ 2 * y ^ 2 * h'
  have none : ∀ s : Fq, s ^ 2 = 1 → fqI * x' + s * y' = 0 := by
    intro s hs
    by_contra hne
    apply edD_nonresidue ((fqI * x + s * t * y) / (x * y * (fqI * x' + s * y')))
    rw [div_mul_div_comm, div_eq_iff (by
      have := mul_ne_zero (mul_ne_zero hx hy) hne
      exact mul_ne_zero this this)]
    linear_combination main s hs
  have a := none 1 (by ring)
  have b := none (-1) (by ring)
  have c : 2 * (fqI * x') = 0 := by linear_combination a + b
  rcases mul_eq_zero.mp c with c | c
  · exact ed_two_ne_zero c
  · rcases mul_eq_zero.mp c with c | c
    · rw [c] at hI
      simp at hI
    · exact hx' c

/-- The denominators of the law are never zero. -/
theorem ed_complete (P Q : EdPoint) :
    1 + ED_D * edX P * edX Q * edY P * edY Q ≠ 0 ∧ 1 - ED_D * edX P * edX Q * edY P * edY Q ≠ 0 := by
  have h := ed_on_curve P
  have h' := ed_on_curve Q
  constructor
  · intro c
    exact ed_eps h h' (t := -1) (by linear_combination c) (by ring)
  · intro c
    exact ed_eps h h' (t := 1) (by linear_combination -c) (by ring)

/-- Both coordinates together determine the point. -/
theorem edXY_inj {P Q : EdPoint} (hx : edX P = edX Q) (hy : edY P = edY Q) : P = Q := by
  rcases edX_eq hx with e | e
  · exact e
  · have hQ : Q = edT + -P := by rw [← e]; abel
    have h1 := (ed_add_T (-P)).2
    rw [← hQ, (edX_neg P).2] at h1
    have hy0 : edY P = 0 := by
      have : 2 * edY P = 0 := by rw [two_mul]; nth_rewrite 1 [hy]; rw [h1]; ring
      exact (mul_eq_zero.mp this).resolve_left ed_two_ne_zero
    rcases P with _ | ⟨u, v, h⟩
    · exact absurd hy0 one_ne_zero
    rcases Q with _ | ⟨u', v', h'⟩
    · exact absurd (hy.symm.trans hy0) one_ne_zero
    rw [hy0] at hy
    simp only [edX, edY] at hx hy hy0
    have c := (div_eq_zero_iff.mp hy0).resolve_right (ed_u_ne h)
    have c' := (div_eq_zero_iff.mp hy.symm).resolve_right (ed_u_ne h')
    have hu : u' = u := by linear_combination c' - c
    subst hu
    have hu0 : u' ≠ 0 := by
      rintro rfl
      exact edD1_ne_zero (by linear_combination c)
    rw [div_eq_div_iff (ed_v_ne_zero h hu0) (ed_v_ne_zero h' hu0)] at hx
    have hv : v' = v := mul_left_cancel₀ (mul_ne_zero ed_two_ne_zero hu0) hx
    subst hv
    rfl

/-- Every solution of the equation is a point. -/
theorem ed_surjective {x y : Fq} (h : -x ^ 2 + y ^ 2 = 1 + ED_D * x ^ 2 * y ^ 2) :
    ∃ P : EdPoint, edX P = x ∧ edY P = y := by
  have hm := edD1_ne_zero
  by_cases hx : x = 0
  · subst hx
    have : (y - 1) * (y + 1) = 0 := by linear_combination h
    rcases mul_eq_zero.mp this with c | c
    · exact ⟨0, rfl, by rw [show edY 0 = 1 from rfl]; linear_combination -c⟩
    · refine ⟨edT, by simp [edX, edT], ?_⟩
      have := (ed_add_T 0).2
      rw [add_zero] at this
      rw [this, show edY 0 = 1 from rfl]
      linear_combination -c
  · have hy : y - 1 ≠ 0 := by
      intro c
      have hy1 : y = 1 := by linear_combination c
      rw [hy1] at h
      have : (ED_D + 1) * x ^ 2 = 0 := by linear_combination -h
      exact (mul_ne_zero hm (pow_ne_zero 2 hx)) this
    have hy' : y + 1 ≠ 0 := by
      intro c
      have hy1 : y = -1 := by linear_combination c
      rw [hy1] at h
      have : (ED_D + 1) * x ^ 2 = 0 := by linear_combination -h
      exact (mul_ne_zero hm (pow_ne_zero 2 hx)) this
    have h2 := ed_two_ne_zero
    obtain ⟨u, hu⟩ : ∃ u, u = (ED_D + 1) * (y + 1) / (y - 1) := ⟨_, rfl⟩
    have hu0 : u ≠ 0 := hu ▸ div_ne_zero (mul_ne_zero hm hy') hy
    have hns : edCurve.Nonsingular u (2 * u / x) := by
      rw [Affine.nonsingular_iff]
      refine ⟨(Affine.equation_iff ..).mpr ?_, Or.inr ?_⟩
      · simp only [edCurve]
        rw [hu]
        field_simp
        linear_combination (4 * (ED_D + 1) ^ 2 * (y + 1)) * h
      · simp only [edCurve]
        intro c
        have : 2 * (2 * u / x) = 0 := by linear_combination c
        exact (mul_ne_zero h2 (div_ne_zero (mul_ne_zero h2 hu0) hx)) this
    refine ⟨.some _ _ hns, ?_, ?_⟩
    · simp only [edX]
      field_simp
    · simp only [edY]
      rw [div_eq_iff (ed_u_ne hns), hu]
      field_simp
      ring

end Verif
