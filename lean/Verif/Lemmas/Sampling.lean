import Verif.Model.Sampling
import Verif.Lemmas.EdCard
import Verif.Lemmas.EdwardsAdd
import Verif.Lemmas.HashToCurve

/-! Lemmas about drawing the bases of the CRH (helper; models nothing in /repo). -/

set_option exponentiation.threshold 1000

namespace Verif

open WeierstrassCurve

theorem ed_denominator_ne (x : Fq) : ED_D * (x * x) - 1 ≠ 0 := by
  intro h
  have hx : x ≠ 0 := by
    rintro rfl
    rw [mul_zero, mul_zero, zero_sub] at h
    exact one_ne_zero (neg_eq_zero.mp h)
  apply edD_nonresidue x⁻¹
  field_simp
  linear_combination -h

theorem edPointFromX_iff {sqrt : Fq → Option Fq} (hs : SqrtSpec sqrt) (x : Fq) (g : Bool) (p : Fq × Fq) :
    edPointFromX sqrt x g = some p ↔
      p.1 = x ∧ -p.1 ^ 2 + p.2 ^ 2 = 1 + ED_D * p.1 ^ 2 * p.2 ^ 2 ∧
        (if g then (-p.2).val ≤ p.2.val else p.2.val ≤ (-p.2).val) := by
  have hd := ed_denominator_ne x
  have hcurve : ∀ y : Fq, y * y = (ED_D * (x * x) - 1)⁻¹ * (-(x * x) - 1) ↔
      -x ^ 2 + y ^ 2 = 1 + ED_D * x ^ 2 * y ^ 2 := by
    intro y
    rw [eq_inv_mul_iff_mul_eq₀ hd]
    constructor <;> intro h <;> linear_combination -h
  unfold edPointFromX
  simp only [if_neg hd]
  cases hq : sqrt ((ED_D * (x * x) - 1)⁻¹ * (-(x * x) - 1)) with
  | none =>
    simp only [Option.map_none, reduceCtorEq, false_iff]
    rintro ⟨h1, h2, _⟩
    rw [h1] at h2
    exact hs.complete _ hq _ ((hcurve _).mpr h2)
  | some y =>
    have hy := hs.sound _ _ hq
    obtain ⟨c1, c2⟩ := val_neg_cases y g
    simp only [Option.map_some, Option.some.injEq]
    set w := (if xor (decide (y.val < (-y).val)) g then y else -y) with hw
    have hww : w * w = (ED_D * (x * x) - 1)⁻¹ * (-(x * x) - 1) := by
      rcases c1 with e | e <;> rw [e]
      · exact hy
      · rw [neg_mul_neg]; exact hy
    constructor
    · rintro rfl
      exact ⟨rfl, (hcurve _).mp hww, c2⟩
    · rintro ⟨h1, h2, h3⟩
      rw [h1] at h2
      exact Prod.ext h1.symm (root_unique hww ((hcurve _).mpr h2) c2 h3)

theorem edOfXY_spec {p : Fq × Fq} (h : -p.1 ^ 2 + p.2 ^ 2 = 1 + ED_D * p.1 ^ 2 * p.2 ^ 2) :
    edX (edOfXY p) = p.1 ∧ edY (edOfXY p) = p.2 := by
  have he := ed_surjective h
  unfold edOfXY
  rw [dif_pos he]
  exact he.choose_spec

theorem edOfXY_eq (P : EdPoint) : edOfXY (edX P, edY P) = P := by
  have h := edOfXY_spec (p := (edX P, edY P)) (ed_on_curve P)
  exact edXY_inj h.1 h.2

/-- Multiples by the cofactor are in the subgroup. -/
theorem ed_cofactor_order (P : EdPoint) : ED_ORDER • ED_COFACTOR • P = 0 := by
  rw [← mul_nsmul, show ED_COFACTOR * ED_ORDER = Nat.card EdPoint from ed_card.symm]
  exact card_nsmul_eq_zero'

theorem samplePoint_curve {sqrt : Fq → Option Fq} (hs : SqrtSpec sqrt) (w : ℕ → ℕ) (fuel pos : ℕ)
    {p : Fq × Fq} {pos' : ℕ} (h : samplePoint sqrt w fuel pos = some (p, pos')) :
    -p.1 ^ 2 + p.2 ^ 2 = 1 + ED_D * p.1 ^ 2 * p.2 ^ 2 := by
  induction fuel generalizing pos with
  | zero => simp [samplePoint] at h
  | succ fuel ih =>
    simp only [samplePoint] at h
    obtain ⟨r, h1, h2⟩ := Option.bind_eq_some_iff.mp h
    split at h2
    · rename_i p' hp
      simp only [Option.some.injEq, Prod.mk.injEq] at h2
      obtain ⟨rfl, rfl⟩ := h2
      exact ((edPointFromX_iff hs _ _ _).mp hp).2.1
    · exact ih _ h2

theorem sampleBases_curve {sqrt : Fq → Option Fq} (hs : SqrtSpec sqrt) (w : ℕ → ℕ) (fuel n pos : ℕ)
    {ps : List (Fq × Fq)} {pos' : ℕ} (h : sampleBases sqrt w fuel n pos = some (ps, pos')) :
    ps.length = n ∧ ∀ p ∈ ps, -p.1 ^ 2 + p.2 ^ 2 = 1 + ED_D * p.1 ^ 2 * p.2 ^ 2 := by
  induction n generalizing pos ps pos' with
  | zero =>
    simp only [sampleBases, Option.some.injEq, Prod.mk.injEq] at h
    obtain ⟨rfl, _⟩ := h
    exact ⟨rfl, fun p hp => absurd hp (List.not_mem_nil)⟩
  | succ n ih =>
    simp only [sampleBases] at h
    obtain ⟨r, h1, h2⟩ := Option.bind_eq_some_iff.mp h
    obtain ⟨s, h3, h4⟩ := Option.map_eq_some_iff.mp h2
    simp only [Prod.mk.injEq] at h4
    obtain ⟨rfl, rfl⟩ := h4
    obtain ⟨i1, i2⟩ := ih _ h3
    refine ⟨by rw [List.length_cons, i1], fun p hp => ?_⟩
    rcases List.mem_cons.mp hp with rfl | hp
    · exact samplePoint_curve hs w fuel pos h1
    · exact i2 p hp

/-- The result does not depend on which root the square root returns. -/
theorem edPointFromX_congr {sqrt sqrt' : Fq → Option Fq} (hs : SqrtSpec sqrt) (hs' : SqrtSpec sqrt')
    (x : Fq) (g : Bool) : edPointFromX sqrt x g = edPointFromX sqrt' x g := by
  apply Option.ext
  intro p
  rw [edPointFromX_iff hs, edPointFromX_iff hs']

theorem sampleFq_mono (w : ℕ → ℕ) (fuel k pos : ℕ) {r : Fq × ℕ} (h : sampleFq w fuel pos = some r) :
    sampleFq w (fuel + k) pos = some r := by
  induction fuel generalizing pos with
  | zero => simp [sampleFq] at h
  | succ fuel ih =>
    rw [Nat.add_right_comm]
    simp only [sampleFq] at h ⊢
    split at h
    · rename_i hc; rw [if_pos hc]; exact h
    · rename_i hc; rw [if_neg hc]; exact ih _ h

theorem samplePoint_mono (sqrt : Fq → Option Fq) (w : ℕ → ℕ) (fuel k pos : ℕ) {r : (Fq × Fq) × ℕ}
    (h : samplePoint sqrt w fuel pos = some r) : samplePoint sqrt w (fuel + k) pos = some r := by
  induction fuel generalizing pos with
  | zero => simp [samplePoint] at h
  | succ fuel ih =>
    rw [Nat.add_right_comm]
    simp only [samplePoint] at h ⊢
    obtain ⟨s, h1, h2⟩ := Option.bind_eq_some_iff.mp h
    have h3 := sampleFq_mono w _ k pos h1
    rw [Nat.add_right_comm] at h3
    rw [h3, Option.bind_some]
    split at h2
    · exact h2
    · exact ih _ h2

theorem sampleBases_mono (sqrt : Fq → Option Fq) (w : ℕ → ℕ) (fuel k n pos : ℕ)
    {r : List (Fq × Fq) × ℕ} (h : sampleBases sqrt w fuel n pos = some r) :
    sampleBases sqrt w (fuel + k) n pos = some r := by
  induction n generalizing pos r with
  | zero => exact h
  | succ n ih =>
    simp only [sampleBases] at h ⊢
    obtain ⟨s, h1, h2⟩ := Option.bind_eq_some_iff.mp h
    rw [samplePoint_mono sqrt w fuel k pos h1, Option.bind_some]
    obtain ⟨t, h3, h4⟩ := Option.map_eq_some_iff.mp h2
    rw [ih _ h3, Option.map_some, h4]

theorem sampleBases_append (sqrt : Fq → Option Fq) (w : ℕ → ℕ) (fuel m n pos pos' : ℕ)
    {ps : List (Fq × Fq)} (h : sampleBases sqrt w fuel m pos = some (ps, pos'))
    {r : List (Fq × Fq) × ℕ} (h' : sampleBases sqrt w fuel n pos' = some r) :
    sampleBases sqrt w fuel (m + n) pos = some (ps ++ r.1, r.2) := by
  induction m generalizing pos ps pos' with
  | zero =>
    simp only [sampleBases, Option.some.injEq, Prod.mk.injEq] at h
    obtain ⟨rfl, rfl⟩ := h
    rw [Nat.zero_add, h', List.nil_append]
  | succ m ih =>
    rw [Nat.add_right_comm]
    simp only [sampleBases] at h ⊢
    obtain ⟨s, h1, h2⟩ := Option.bind_eq_some_iff.mp h
    obtain ⟨t, h3, h4⟩ := Option.map_eq_some_iff.mp h2
    simp only [Prod.mk.injEq] at h4
    obtain ⟨rfl, rfl⟩ := h4
    rw [h1, Option.bind_some, ih _ _ h3 h', Option.map_some, List.cons_append]

/-! ## When the multiple by the cofactor vanishes -/

theorem ed_double (P : EdPoint) :
    edX (P + P) * (1 + ED_D * edX P ^ 2 * edY P ^ 2) = 2 * edX P * edY P ∧
    edY (P + P) * (1 - ED_D * edX P ^ 2 * edY P ^ 2) = edX P ^ 2 + edY P ^ 2 ∧
    1 + ED_D * edX P ^ 2 * edY P ^ 2 ≠ 0 ∧ 1 - ED_D * edX P ^ 2 * edY P ^ 2 ≠ 0 := by
  obtain ⟨h1, h2⟩ := ed_complete P P
  obtain ⟨h3, h4⟩ := ed_add P P
  have e : ED_D * edX P * edX P * edY P * edY P = ED_D * edX P ^ 2 * edY P ^ 2 := by ring
  rw [e] at h1 h2 h3 h4
  refine ⟨?_, ?_, h1, h2⟩
  · rw [h3]; ring
  · rw [h4]; ring

/-- A condition on the coordinates for the multiple by 8 to be a point other than zero. -/
theorem ed_cofactor_ne {P : EdPoint} (hx : edX P ≠ 0) (hy : edY P ≠ 0)
    (hs : edX P ^ 2 + edY P ^ 2 ≠ 0)
    (h4 : 4 * edX P ^ 2 * edY P ^ 2 * (1 - ED_D * edX P ^ 2 * edY P ^ 2) ^ 2 +
      (edX P ^ 2 + edY P ^ 2) ^ 2 * (1 + ED_D * edX P ^ 2 * edY P ^ 2) ^ 2 ≠ 0) :
    ED_COFACTOR • P ≠ 0 := by
  have h2 := ed_two_ne_zero
  obtain ⟨a1, a2, a3, a4⟩ := ed_double P
  have hx2 : edX (P + P) ≠ 0 := by
    intro e
    rw [e, zero_mul] at a1
    exact mul_ne_zero (mul_ne_zero h2 hx) hy a1.symm
  have hy2 : edY (P + P) ≠ 0 := by
    intro e
    rw [e, zero_mul] at a2
    exact hs a2.symm
  have hs2 : edX (P + P) ^ 2 + edY (P + P) ^ 2 ≠ 0 := by
    intro e
    apply h4
    have b1 : (edX (P + P) * (1 + ED_D * edX P ^ 2 * edY P ^ 2)) ^ 2 = (2 * edX P * edY P) ^ 2 := by
      rw [a1]
    have b2 : (edY (P + P) * (1 - ED_D * edX P ^ 2 * edY P ^ 2)) ^ 2 = (edX P ^ 2 + edY P ^ 2) ^ 2 := by
      rw [a2]
    rw [← b2]
    linear_combination -(1 - ED_D * edX P ^ 2 * edY P ^ 2) ^ 2 * b1 +
      (1 - ED_D * edX P ^ 2 * edY P ^ 2) ^ 2 * (1 + ED_D * edX P ^ 2 * edY P ^ 2) ^ 2 * e
  obtain ⟨c1, c2, c3, c4⟩ := ed_double (P + P)
  have hx4 : edX (P + P + (P + P)) ≠ 0 := by
    intro e
    rw [e, zero_mul] at c1
    exact mul_ne_zero (mul_ne_zero h2 hx2) hy2 c1.symm
  have hy4 : edY (P + P + (P + P)) ≠ 0 := by
    intro e
    rw [e, zero_mul] at c2
    exact hs2 c2.symm
  obtain ⟨d1, -, -, -⟩ := ed_double (P + P + (P + P))
  intro h8
  have e8 : P + P + (P + P) + (P + P + (P + P)) = 0 := by
    rw [← h8]
    simp only [ED_COFACTOR]
    abel
  rw [e8, show edX 0 = 0 from rfl, zero_mul] at d1
  exact mul_ne_zero (mul_ne_zero h2 hx4) hy4 d1.symm

end Verif
