import Verif.Model.Extension
import Verif.Props.InverseWitness
import Verif.Lemmas.G2Order

/-!
# C132: arithmetic of the quadratic extension

The formulas with fewer multiplications give product, square and inverse in the extension by a root of -5.
-/

namespace Verif

theorem mulByNonresidue_eq (x : Fq) : mulByNonresidue x = -5 * x := by
  unfold mulByNonresidue
  ring

/-- **C132.** Three multiplications give the product. -/
theorem C132_mul (a b : Fq2) : extMul a b = a * b := by
  unfold extMul
  ext <;> dsimp only
  · rw [QuadraticAlgebra.re_mul, mulByNonresidue_eq]
    ring
  · rw [QuadraticAlgebra.im_mul]
    ring

/-- **C132.** Two multiplications give the square. -/
theorem C132_square (a : Fq2) : extSquare a = a * a := by
  unfold extSquare
  ext <;> dsimp only
  · rw [QuadraticAlgebra.re_mul, mulByNonresidue_eq, mulByNonresidue_eq]
    ring
  · rw [QuadraticAlgebra.im_mul]
    ring

/-- **C132.** The inverse of the base field, through Montgomery forms, is nothing exactly for zero. -/
theorem C132_base_inverse (x : Fq) : fqInverse x = if x = 0 then none else some x⁻¹ := by
  have h := C129_inverse (by norm_num [FQ_MODULUS]) fq_montgomery_ne_zero x fq_lt_bits (rounds := 755) (by norm_num)
  refine (congrArg decodeInverse h).trans ?_
  by_cases hx : x = 0
  · rw [if_pos hx, if_pos hx]
    rfl
  · rw [if_neg hx, if_neg hx]
    refine congrArg some ?_
    rw [ZMod.natCast_zmod_val]
    exact mul_inv_cancel_right₀ fq_montgomery_ne_zero _

/-- **C132.** The inverse of the extension, from one inverse of the base field, is nothing exactly for zero: the norm
of any other element is not zero. -/
theorem C132_inverse (a : Fq2) : extInverse fqInverse a = if a = 0 then none else some a⁻¹ := by
  unfold extInverse
  by_cases ha : a = 0
  · rw [if_pos ha, if_pos (by rw [ha]; exact ⟨rfl, rfl⟩)]
  · have h0 : ¬ (a.re = 0 ∧ a.im = 0) := fun h => ha (QuadraticAlgebra.ext h.1 h.2)
    rw [if_neg ha, if_neg h0]
    have hn : a * ⟨a.re, -a.im⟩ = (⟨a.re * a.re - mulByNonresidue (a.im * a.im), 0⟩ : Fq2) := by
      ext
      · rw [QuadraticAlgebra.re_mul, mulByNonresidue_eq]
        ring
      · rw [QuadraticAlgebra.im_mul]
        ring
    have hne : a.re * a.re - mulByNonresidue (a.im * a.im) ≠ 0 := by
      intro h
      rw [h] at hn
      rcases mul_eq_zero.1 (hn.trans rfl) with h | h
      · exact ha h
      · refine h0 ⟨congrArg QuadraticAlgebra.re h, ?_⟩
        exact neg_eq_zero.1 (congrArg QuadraticAlgebra.im h)
    dsimp only
    rw [C132_base_inverse, if_neg hne, Option.map_some]
    refine congrArg some (eq_inv_of_mul_eq_one_right ?_)
    ext
    · rw [QuadraticAlgebra.re_mul, QuadraticAlgebra.re_one]
      have := mul_inv_cancel₀ hne
      generalize (a.re * a.re - mulByNonresidue (a.im * a.im))⁻¹ = v at this ⊢
      rw [mulByNonresidue_eq] at this
      linear_combination this
    · rw [QuadraticAlgebra.im_mul, QuadraticAlgebra.im_one]
      ring

/-! ## Examples -/

/-- (2 + 3u)(5 + 7u) = 10 - 105 + 29u and (2 + 3u)² = -41 + 12u. -/
example : extMul ⟨2, 3⟩ ⟨5, 7⟩ = ⟨-95, 29⟩ ∧ extSquare ⟨2, 3⟩ = ⟨-41, 12⟩ := by decide +kernel

/-- The norm of 2 + 3u is 49. -/
example : extInverse (fun x => if x = 49 then some 1 else none) ⟨2, 3⟩ = some ⟨2, -3⟩ := by decide +kernel

end Verif
