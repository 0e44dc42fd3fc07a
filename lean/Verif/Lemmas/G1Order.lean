import Verif.Lemmas.PointCount
import Verif.Lemmas.OrderExample
import Mathlib.GroupTheory.OrderOfElement
import Mathlib.GroupTheory.Perm.Cycle.Type

/-! The order of the group G1, and its subgroup of prime order (helper; models nothing in /repo). -/

namespace Verif

open WeierstrassCurve

theorem fq_ringChar : ringChar Fq ≠ 2 := by
  rw [ZMod.ringChar_zmod_n]
  decide +kernel

theorem g1_nonsingular_iff (x y : Fq) : g1Curve.Nonsingular x y ↔ y ^ 2 = x ^ 3 + 1 := by
  constructor
  · intro h
    have h1 := (Affine.equation_iff ..).mp h.1
    simp only [g1Curve] at h1
    linear_combination h1
  · intro h
    exact g1_nonsingular x y (by rw [← h]; ring)

instance : Finite G1Point := finite_points g1_nonsingular_iff

theorem g1Sub_addOrderOf : addOrderOf (G1_COFACTOR • onePoint) = FR_MODULUS := by
  have := Fact.mk FR_prime
  exact addOrderOf_eq_prime g1Sub_order cofactor_onePoint_ne.1

/-- The number of points of G1: cofactor times the prime order. -/
theorem g1_card : Nat.card G1Point = G1_COFACTOR * FR_MODULUS := by
  have hdvd : FR_MODULUS ∣ Nat.card G1Point := by
    rw [← g1Sub_addOrderOf]
    exact addOrderOf_dvd_natCard _
  refine card_points_unique fq_ringChar (b := 1) one_ne_zero g1_nonsingular_iff
    (ZMod.card FQ_MODULUS) hdvd
    (d := (G1_COFACTOR * FR_MODULUS : ℤ) - FQ_MODULUS - 1) (by ring) ?_ ?_ ?_
  all_goals
    unfold G1_COFACTOR FR_MODULUS FQ_MODULUS
    norm_num

theorem cofactor_coprime : Nat.Coprime G1_COFACTOR FR_MODULUS := by
  unfold G1_COFACTOR FR_MODULUS
  norm_num

end Verif
