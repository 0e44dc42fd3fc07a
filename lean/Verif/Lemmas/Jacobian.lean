import Verif.Model.Jacobian
import Mathlib.Tactic.FieldSimp
import Mathlib.Tactic.Ring

/-! The Jacobian formulas are the group law. -/

set_option linter.unusedSectionVars false

namespace Verif

open WeierstrassCurve

variable {F : Type*} [Field F] [DecidableEq F] {W : WeierstrassCurve.Affine F} {b : F}
  (hW : ∀ x y, W.Nonsingular x y ↔ y ^ 2 = x ^ 3 + b)

theorem affine_on_iff {k : JacRep F} (hz : k.z ≠ 0) :
    (k.y / k.z ^ 3) ^ 2 = (k.x / k.z ^ 2) ^ 3 + b ↔ k.y ^ 2 = k.x ^ 3 + b * k.z ^ 6 := by
  have h6 : k.z ^ 6 ≠ 0 := pow_ne_zero _ hz
  rw [div_pow, div_pow, ← pow_mul, ← pow_mul, div_eq_iff h6, add_mul, div_mul_cancel₀ _ h6]

theorem jacPoint_of {k : JacRep F} (hz : k.z ≠ 0) (h : k.y ^ 2 = k.x ^ 3 + b * k.z ^ 6) :
    jacPoint hW k = .some (k.x / k.z ^ 2) (k.y / k.z ^ 3)
      ((hW _ _).mpr ((affine_on_iff hz).mpr h)) := by
  unfold jacPoint
  rw [dif_pos ⟨hz, (affine_on_iff hz).mpr h⟩]

theorem jacPoint_zero {k : JacRep F} (hz : k.z = 0) : jacPoint hW k = 0 := by
  unfold jacPoint
  rw [dif_neg (fun h => h.1 hz)]

theorem jacPoint_off {k : JacRep F} (h : ¬ k.On b) : jacPoint hW k = 0 := by
  unfold jacPoint
  rw [dif_neg]
  rintro ⟨hz, he⟩
  exact h (Or.inr ((affine_on_iff hz).mp he))

theorem jacPoint_isPoint {k : JacRep F} (hz : k.z ≠ 0) (h : k.y ^ 2 = k.x ^ 3 + b * k.z ^ 6) :
    IsPoint (k.x / k.z ^ 2, k.y / k.z ^ 3) (jacPoint hW k) := ⟨_, jacPoint_of hW hz h⟩

theorem isPoint_jacPoint {k : JacRep F} (hz : k.z ≠ 0) {P : W.Point}
    (h : IsPoint (k.x / k.z ^ 2, k.y / k.z ^ 3) P) : jacPoint hW k = P ∧ k.On b := by
  obtain ⟨hn, rfl⟩ := h
  have he := (affine_on_iff hz).mp ((hW _ _).mp hn)
  exact ⟨jacPoint_of hW hz he, Or.inr he⟩

theorem jacPoint_neg (hS : Short W) (k : JacRep F) :
    jacPoint hW (arkNeg k) = -jacPoint hW k ∧ (k.On b ↔ (arkNeg k).On b) := by
  obtain ⟨a1, a2, a3, a4⟩ := hS
  by_cases hz : k.z = 0
  · simp only [arkNeg, hz, if_true]
    rw [jacPoint_zero hW hz]
    simp
  · have hon : k.On b ↔ (arkNeg k).On b := by
      simp only [arkNeg, hz, if_false, JacRep.On, neg_sq]
    refine ⟨?_, hon⟩
    by_cases h : k.On b
    · have he := h.resolve_left hz
      rw [jacPoint_of hW hz he]
      have hzn : (arkNeg k).z ≠ 0 := by
        unfold arkNeg
        rw [if_neg hz]
        exact hz
      have he' := (hon.mp h).resolve_left hzn
      rw [jacPoint_of hW hzn he', Affine.Point.neg_some]
      congr 1
      · simp only [arkNeg, hz, if_false]
      · simp only [arkNeg, hz, if_false, Affine.negY, a1, a3]
        ring
    · rw [jacPoint_off hW h, jacPoint_off hW (fun h' => h (hon.mpr h')), neg_zero]

theorem jacPoint_double (hS : Short W) (h2 : (2 : F) ≠ 0) {k : JacRep F} (hk : k.On b) :
    jacPoint hW (arkDouble k) = jacPoint hW k + jacPoint hW k ∧ (arkDouble k).On b := by
  by_cases hz : k.z = 0
  · simp only [arkDouble, hz, if_true]
    rw [jacPoint_zero hW hz]
    exact ⟨(add_zero _).symm, hk⟩
  · have he := hk.resolve_left hz
    by_cases hy : k.y = 0
    · have hz' : (arkDouble k).z = 0 := by simp [arkDouble, hz, hy]
      refine ⟨?_, Or.inl hz'⟩
      rw [jacPoint_zero hW hz', jacPoint_of hW hz he]
      symm
      apply Affine.Point.add_of_Y_eq rfl
      obtain ⟨a1, a2, a3, a4⟩ := hS
      simp [Affine.negY, a1, a3, hy]
    · have hz' : (arkDouble k).z ≠ 0 := by
        simp only [arkDouble, hz, if_false]
        exact mul_ne_zero h2 (mul_ne_zero hz hy)
      have hp := jacPoint_isPoint hW hz he
      have hs := dblStep_spec hS (l := 3 * k.x ^ 2 / (2 * k.y * k.z)) hp
        (q := ((arkDouble k).x / (arkDouble k).z ^ 2, (arkDouble k).y / (arkDouble k).z ^ 3)) (by
          unfold dblStep
          rw [if_pos]
          · simp only [arkDouble, hz, if_false, Option.some.injEq, Prod.mk.injEq]
            constructor
            · field_simp; ring
            · field_simp; ring
          · constructor
            · field_simp
            · exact mul_ne_zero h2 (div_ne_zero hy (pow_ne_zero _ hz)))
      exact isPoint_jacPoint hW hz' hs

/-- **The formulas of ark_ec are the group law**, and stay on the curve. -/
theorem jacPoint_add (hS : Short W) (h2 : (2 : F) ≠ 0) {p q : JacRep F} (hp : p.On b)
    (hq : q.On b) :
    jacPoint hW (arkAdd p q) = jacPoint hW p + jacPoint hW q ∧ (arkAdd p q).On b := by
  by_cases hz : p.z = 0
  · rw [jacPoint_zero hW hz, zero_add]
    simp only [arkAdd, hz, if_true]
    exact ⟨trivial, hq⟩
  by_cases hz2 : q.z = 0
  · rw [jacPoint_zero hW hz2, add_zero]
    simp only [arkAdd, hz, hz2, if_true, if_false]
    exact ⟨trivial, hp⟩
  have he := hp.resolve_left hz
  have he2 := hq.resolve_left hz2
  have ux : p.x * q.z ^ 2 = q.x * p.z ^ 2 ↔ p.x / p.z ^ 2 = q.x / q.z ^ 2 :=
    (div_eq_div_iff (pow_ne_zero _ hz) (pow_ne_zero _ hz2)).symm
  have uy : p.y * q.z * q.z ^ 2 = q.y * p.z * p.z ^ 2 ↔ p.y / p.z ^ 3 = q.y / q.z ^ 3 := by
    rw [div_eq_div_iff (pow_ne_zero _ hz) (pow_ne_zero _ hz2)]
    constructor <;> intro h <;> linear_combination h
  by_cases hc : p.x * q.z ^ 2 = q.x * p.z ^ 2 ∧ p.y * q.z * q.z ^ 2 = q.y * p.z * p.z ^ 2
  · have e : arkAdd p q = arkDouble p := by
      simp only [arkAdd, hz, hz2, if_false]
      rw [if_pos hc]
    have epq : jacPoint hW q = jacPoint hW p := by
      rw [jacPoint_of hW hz he, jacPoint_of hW hz2 he2]
      congr 1
      · exact (ux.mp hc.1).symm
      · exact (uy.mp hc.2).symm
    rw [e, epq]
    exact jacPoint_double hW hS h2 hp
  · have hx : (arkAdd p q).x = (2 * (q.y * p.z * p.z ^ 2 - p.y * q.z * q.z ^ 2)) ^ 2 -
        (q.x * p.z ^ 2 - p.x * q.z ^ 2) * (2 * (q.x * p.z ^ 2 - p.x * q.z ^ 2)) ^ 2 -
        2 * (p.x * q.z ^ 2 * (2 * (q.x * p.z ^ 2 - p.x * q.z ^ 2)) ^ 2) := by
      simp only [arkAdd, hz, hz2, if_false]
      rw [if_neg hc]
    have hy : (arkAdd p q).y = 2 * (q.y * p.z * p.z ^ 2 - p.y * q.z * q.z ^ 2) *
        (p.x * q.z ^ 2 * (2 * (q.x * p.z ^ 2 - p.x * q.z ^ 2)) ^ 2 - (arkAdd p q).x) -
        2 * (p.y * q.z * q.z ^ 2 * ((q.x * p.z ^ 2 - p.x * q.z ^ 2) *
          (2 * (q.x * p.z ^ 2 - p.x * q.z ^ 2)) ^ 2)) := by
      rw [hx]
      simp only [arkAdd, hz, hz2, if_false]
      rw [if_neg hc]
    have hzz : (arkAdd p q).z = 2 * p.z * q.z * (q.x * p.z ^ 2 - p.x * q.z ^ 2) := by
      simp only [arkAdd, hz, hz2, if_false]
      rw [if_neg hc]
      ring
    by_cases hh : p.x * q.z ^ 2 = q.x * p.z ^ 2
    · have hz' : (arkAdd p q).z = 0 := by rw [hzz, hh]; ring
      refine ⟨?_, Or.inl hz'⟩
      rw [jacPoint_zero hW hz', jacPoint_of hW hz he, jacPoint_of hW hz2 he2]
      symm
      have hxe := ux.mp hh
      have hye : p.y / p.z ^ 3 ≠ q.y / q.z ^ 3 := fun h => hc ⟨hh, uy.mpr h⟩
      apply Affine.Point.add_of_Y_eq hxe
      obtain ⟨a1, a2, a3, a4⟩ := hS
      have h1 := (affine_on_iff hz).mpr he
      have h3 := (affine_on_iff hz2).mpr he2
      rw [hxe, ← h3] at h1
      rcases sq_eq_sq_iff_eq_or_eq_neg.mp h1 with h | h
      · exact absurd h hye
      · rw [h]; simp [Affine.negY, a1, a3]
    · have hxne : p.x / p.z ^ 2 ≠ q.x / q.z ^ 2 := fun h => hh (ux.mpr h)
      have hd : q.x * p.z ^ 2 - p.x * q.z ^ 2 ≠ 0 := fun h => hh (sub_eq_zero.mp h).symm
      have hz' : (arkAdd p q).z ≠ 0 := by
        rw [hzz]
        exact mul_ne_zero (mul_ne_zero (mul_ne_zero h2 hz) hz2) hd
      have hs := addStep_spec hS
        (l := (q.y * p.z ^ 3 - p.y * q.z ^ 3) / (p.z * q.z * (q.x * p.z ^ 2 - p.x * q.z ^ 2)))
        (jacPoint_isPoint hW hz he) (jacPoint_isPoint hW hz2 he2)
        (r := ((arkAdd p q).x / (arkAdd p q).z ^ 2, (arkAdd p q).y / (arkAdd p q).z ^ 3)) (by
          unfold addStep
          rw [if_pos]
          · simp only [Option.some.injEq, Prod.mk.injEq]
            generalize hD : q.x * p.z ^ 2 - p.x * q.z ^ 2 = D at *
            have hqx : q.x = (D + p.x * q.z ^ 2) / p.z ^ 2 := by
              rw [eq_div_iff (pow_ne_zero _ hz)]; linear_combination hD
            rw [hzz, hy, hx, hqx]
            constructor
            · field_simp; ring
            · field_simp; ring
          · refine ⟨?_, hxne⟩
            generalize hD : q.x * p.z ^ 2 - p.x * q.z ^ 2 = D at *
            have hqx : q.x = (D + p.x * q.z ^ 2) / p.z ^ 2 := by
              rw [eq_div_iff (pow_ne_zero _ hz)]; linear_combination hD
            simp only [hqx]
            field_simp
            ring)
      exact isPoint_jacPoint hW hz' hs

/-- The arithmetic of ark_ec as an instance of what the cache assumes. -/
def arkOps (hS : Short W) (h2 : (2 : F) ≠ 0) : CurveOps F W.Point where
  pt := jacPoint hW
  zero := arkZero
  add := addOn b
  sub p q := addOn b p (arkNeg q)
  pt_zero := jacPoint_zero hW rfl
  pt_add p q := by
    unfold addOn
    by_cases hp : p.On b <;> by_cases hq : q.On b <;> simp only [hp, hq, if_true, if_false]
    · exact (jacPoint_add hW hS h2 hp hq).1
    · rw [jacPoint_off hW hq, add_zero]
    · rw [jacPoint_off hW hp, zero_add]
    · rw [jacPoint_off hW hq, jacPoint_off hW hp, add_zero]; exact jacPoint_zero hW rfl
  pt_sub p q := by
    obtain ⟨hn, hon⟩ := jacPoint_neg hW hS q
    rw [sub_eq_add_neg, ← hn]
    unfold addOn
    by_cases hp : p.On b <;> by_cases hq : (arkNeg q).On b <;> simp only [hp, hq, if_true, if_false]
    · exact (jacPoint_add hW hS h2 hp hq).1
    · rw [jacPoint_off hW hq, add_zero]
    · rw [jacPoint_off hW hp, zero_add]
    · rw [jacPoint_off hW hq, jacPoint_off hW hp, add_zero]; exact jacPoint_zero hW rfl

end Verif
