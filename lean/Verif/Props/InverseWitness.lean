import Verif.Props.Inverse
import Verif.Model.Gadgets
import Verif.Lemmas.Primes

/-!
# C129: the witness of `is_eq_zero`

What the inverse of the field library gives is the witness that the constraints of `is_eq_zero` need, also for zero.
-/

namespace Verif

/-- **C129.** The inverse that `is_eq_zero` computes never fails, and the element of that Montgomery form satisfies the
two constraints together with the bit "is zero"; a wrong bit is not satisfied by it. -/
theorem C129_witness {p : ℕ} [Fact p.Prime] (hp : p ≠ 2) {R : ZMod p} (hR : R ≠ 0) (v : ZMod p) {bits rounds : ℕ}
    (hbits : p < 2 ^ bits) (hr : 2 * bits + 1 ≤ rounds) :
    ∃ y, isEqZeroInverse p (R * R).val rounds (v * R).val = .ok y ∧ y < p ∧
      ∀ inv : ZMod p, inv * R = (y : ℕ) → inv = (isEqZeroWitness (.var v)).1 ∧
        ∀ b, isEqZeroC (.var v) inv b ↔ b = decide (v = 0) := by
  have hpr : p.Prime := Fact.out
  unfold isEqZeroInverse
  rw [C129_inverse hp hR v hbits hr]
  have key : ∀ inv : ZMod p, inv = v⁻¹ → inv = (isEqZeroWitness (.var v)).1 ∧
      ∀ b, isEqZeroC (.var v) inv b ↔ b = decide (v = 0) := by
    rintro inv rfl
    refine ⟨rfl, fun b => ?_⟩
    by_cases hv : v = 0
    · cases b <;> simp [isEqZeroC, bit, hv]
    · cases b <;> simp [isEqZeroC, bit, hv]
  by_cases hv : v = 0
  · rw [if_pos hv]
    refine ⟨0, rfl, hpr.pos, fun inv h => key inv ?_⟩
    rw [Nat.cast_zero] at h
    rw [hv, inv_zero]
    exact (mul_eq_zero.1 h).resolve_right hR
  · rw [if_neg hv]
    refine ⟨(v⁻¹ * R).val, rfl, ZMod.val_lt _, fun inv h => key inv ?_⟩
    rw [ZMod.natCast_zmod_val] at h
    exact mul_right_cancel₀ hR h

theorem fq_lt_bits : FQ_MODULUS < 2 ^ 377 := by decide +kernel

theorem fq_montgomery_ne_zero : ((2 ^ 384 : ℕ) : ZMod FQ_MODULUS) ≠ 0 := by
  rw [Ne, ZMod.natCast_eq_zero_iff]
  intro h
  have h2 := (Nat.Prime.dvd_of_dvd_pow (Fact.out : Nat.Prime FQ_MODULUS) h)
  exact absurd (Nat.le_of_dvd (by norm_num) h2) (by norm_num [FQ_MODULUS])

/-- For the base field of BLS12-377, whose forms have six limbs, every inverse is found within 755 rounds. -/
theorem C129_base_field (v : ZMod FQ_MODULUS) :
    ∃ y, isEqZeroInverse FQ_MODULUS (((2 ^ 384 : ℕ) : ZMod FQ_MODULUS) * (2 ^ 384 : ℕ)).val 755
        (v * (2 ^ 384 : ℕ)).val = .ok y ∧ y < FQ_MODULUS ∧
      ∀ inv : ZMod FQ_MODULUS, inv * (2 ^ 384 : ℕ) = (y : ℕ) → ∀ b, isEqZeroC (.var v) inv b ↔ b = decide (v = 0) := by
  obtain ⟨y, e, hy, h⟩ := C129_witness (by norm_num [FQ_MODULUS]) fq_montgomery_ne_zero v fq_lt_bits (rounds := 755)
    (by norm_num)
  exact ⟨y, e, hy, fun inv hi => (h inv hi).2⟩

/-! ## Examples -/

/-- Modulo 13 with constant 3, the element 5 has form 2, and its inverse 8 has form 11. -/
example : isEqZeroInverse 13 9 9 (5 * 3 % 13) = .ok (8 * 3 % 13) := by decide +kernel

/-- Zero gets zero. -/
example : isEqZeroInverse 13 9 9 0 = .ok 0 := by decide +kernel

/-- The hypotheses of `C129_witness` are met there. -/
example (v : ZMod 13) :
    have : Fact (Nat.Prime 13) := ⟨by norm_num⟩
    ∃ y, isEqZeroInverse 13 ((3 : ZMod 13) * 3).val 9 (v * 3).val = .ok y ∧ y < 13 :=
  have : Fact (Nat.Prime 13) := ⟨by norm_num⟩
  (C129_witness (by norm_num) three_ne_zero_thirteen v (bits := 4) (by norm_num) le_rfl).imp fun _ h => ⟨h.1, h.2.1⟩

end Verif
