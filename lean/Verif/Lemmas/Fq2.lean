import Verif.Model.HashToCurve
import Mathlib.Algebra.QuadraticAlgebra.Basic
import Mathlib.FieldTheory.Finite.Basic

/-! `-5` and `5` are non-residues modulo the base field prime. -/

namespace Verif

theorem nonresidue_of_pow (a : ℕ) (f : ℕ) (hf : (FQ_MODULUS - 1) / 2 < 2 ^ f)
    (h : powModAux f a ((FQ_MODULUS - 1) / 2) FQ_MODULUS 1 = FQ_MODULUS - 1) (r : Fq) :
    r * r ≠ (a : Fq) := by
  intro hr
  have h1 := powModAux_cast (m := FQ_MODULUS) (a := a) hf
  rw [h, ← hr, ← pow_two, ← pow_mul] at h1
  have e : 2 * ((FQ_MODULUS - 1) / 2) = FQ_MODULUS - 1 := by decide +kernel
  rw [e] at h1
  by_cases h0 : r = 0
  · rw [h0, zero_pow (by decide +kernel)] at h1
    rw [ZMod.natCast_eq_zero_iff] at h1
    revert h1
    decide +kernel
  · rw [ZMod.pow_card_sub_one_eq_one h0] at h1
    have : ((FQ_MODULUS - 1 : ℕ) : Fq) = ((1 : ℕ) : Fq) := by simpa using h1
    rw [ZMod.natCast_eq_natCast_iff] at this
    revert this
    unfold Nat.ModEq
    decide +kernel

theorem five_nonresidue (r : Fq) : r * r ≠ 5 := by
  have := nonresidue_of_pow 5 377 (by decide +kernel) (by decide +kernel) r
  exact_mod_cast this

theorem neg_five_nonresidue (r : Fq) : r * r ≠ -5 := by
  have h := nonresidue_of_pow (FQ_MODULUS - 5) 377 (by decide +kernel) (by decide +kernel) r
  have e : ((FQ_MODULUS - 5 : ℕ) : Fq) = -5 := by decide +kernel
  rwa [e] at h

end Verif
