import Verif.Lemmas.PointCount2
import Verif.Lemmas.Torsion
import Verif.Lemmas.OrderExample
import Verif.Lemmas.Serialize

/-! The order of the group G2 (helper; models nothing in /repo). -/

namespace Verif

open WeierstrassCurve

/-- Divide a representation by a prime that is a norm. -/
theorem descend_norm {q : ℤ} (hq : Prime q) {t s c a f : ℤ} (hts : t ^ 2 + 3 * s ^ 2 = 4 * q)
    (h : a ^ 2 + 3 * f ^ 2 = 4 * (q * c)) :
    ∃ X Y e : ℤ, (e = 1 ∨ e = -1) ∧ X ^ 2 + 3 * Y ^ 2 = 16 * c ∧ 4 * a = t * X + 3 * s * Y ∧
      4 * (e * f) = s * X - t * Y := by
  have hq0 : q ≠ 0 := hq.ne_zero
  -- with the right sign of `f`
  have key : ∀ f : ℤ, a ^ 2 + 3 * f ^ 2 = 4 * (q * c) → q ∣ a * s - f * t →
      ∃ X Y : ℤ, X ^ 2 + 3 * Y ^ 2 = 16 * c ∧ 4 * a = t * X + 3 * s * Y ∧
        4 * f = s * X - t * Y := by
    intro f h hd
    obtain ⟨Y, hY⟩ := hd
    have h1 : (a * t + 3 * f * s) ^ 2 = q * (q * (16 * c - 3 * Y ^ 2)) := by
      have e : (a * t + 3 * f * s) ^ 2 + 3 * (a * s - f * t) ^ 2 =
          (a ^ 2 + 3 * f ^ 2) * (t ^ 2 + 3 * s ^ 2) := by ring
      rw [h, hts, hY] at e
      linear_combination e
    have h2 : q ∣ a * t + 3 * f * s := hq.dvd_of_dvd_pow ⟨_, h1⟩
    obtain ⟨X, hX⟩ := h2
    refine ⟨X, Y, ?_, ?_, ?_⟩
    · rw [hX] at h1
      have : q * (q * (X ^ 2 + 3 * Y ^ 2)) = q * (q * (16 * c)) := by linear_combination h1
      exact mul_left_cancel₀ hq0 (mul_left_cancel₀ hq0 this)
    · apply mul_left_cancel₀ hq0
      linear_combination t * hX + 3 * s * hY - a * hts
    · apply mul_left_cancel₀ hq0
      linear_combination s * hX - t * hY - f * hts
  have hd : q ∣ (a * s - f * t) * (a * s + f * t) :=
    ⟨4 * (c * s ^ 2 - f ^ 2), by linear_combination s ^ 2 * h - f ^ 2 * hts⟩
  rcases hq.dvd_or_dvd hd with h1 | h1
  · obtain ⟨X, Y, e1, e2, e3⟩ := key f h h1
    exact ⟨X, Y, 1, Or.inl rfl, e1, e2, by rw [one_mul]; exact e3⟩
  · obtain ⟨X, Y, e1, e2, e3⟩ := key (-f) (by rw [neg_sq]; exact h) (by
      rw [neg_mul, sub_neg_eq_add]; exact h1)
    exact ⟨X, Y, -1, Or.inr rfl, e1, e2, by rw [← e3]; ring⟩

/-- All representations of four times the square of a prime that is a norm. -/
theorem norm_sq_cases {q : ℤ} (hq : Prime q) {t s a f : ℤ} (hts : t ^ 2 + 3 * s ^ 2 = 4 * q)
    (h : a ^ 2 + 3 * f ^ 2 = 4 * q ^ 2) :
    ∃ U V e : ℤ, (e = 1 ∨ e = -1) ∧ ((U = 8 ∨ U = -8) ∧ V = 0 ∨
      (U = 4 ∨ U = -4) ∧ (V = 4 ∨ V = -4)) ∧
      16 * a = t * (t * U + 3 * s * V) + 3 * s * (e * (s * U - t * V)) := by
  obtain ⟨X, Y, _, _, h1, h2, _⟩ := descend_norm hq (c := q) hts (by rw [h]; ring)
  obtain ⟨U, V, e, he, h3, h4, h5⟩ := descend_norm hq (c := 4) hts (a := X) (f := Y)
    (by rw [h1]; ring)
  refine ⟨U, V, e, he, ?_, ?_⟩
  · have hV : V ^ 2 ≤ 21 := by nlinarith [sq_nonneg U]
    have hU : U ^ 2 ≤ 64 := by nlinarith [sq_nonneg V]
    have b1 : -5 < V := by nlinarith
    have b2 : V < 5 := by nlinarith
    have b3 : -9 < U := by nlinarith
    have b4 : U < 9 := by nlinarith
    interval_cases V <;> interval_cases U <;> simp_all
  · have he2 : e * e = 1 := by rcases he with rfl | rfl <;> rfl
    linear_combination 4 * h2 + t * h4 + 3 * s * e * h5 - 12 * s * Y * he2

/-- The cofactor of G2. -/
def G2_COFACTOR : ℕ :=
  7923214915284317143930293550643874566881017850177945424769256759165301436616933228209277966774092486467289478618404761412630691835764674559376407658497

/-- The trace of Frobenius of G1. -/
def g1Trace : ℤ := 9586122913090633730

/-- The other side of the norm equation of the base field. -/
def g1Other : ℤ := 587269870971281361444171168277668240640243801025419411456

theorem g1_norm : g1Trace ^ 2 + 3 * g1Other ^ 2 = 4 * (FQ_MODULUS : ℤ) := by
  unfold g1Trace g1Other FQ_MODULUS
  norm_num

noncomputable instance : Fintype Fq2 :=
  Fintype.ofEquiv (Fq × Fq) (QuadraticAlgebra.equivProd (-5) 0).symm

theorem fq2_card : Fintype.card Fq2 = FQ_MODULUS ^ 2 := by
  rw [Fintype.card_congr (QuadraticAlgebra.equivProd (-5) 0), Fintype.card_prod, ZMod.card, pow_two]

theorem fq2_ringChar : ringChar Fq2 ≠ 2 := by
  intro h
  have h2 : ((2 : ℕ) : Fq2) = 0 := by
    rw [← h]
    exact ringChar.Nat.cast_ringChar
  exact g2_good.two (by exact_mod_cast h2)

theorem g2_nonsingular_iff (x y : Fq2) : g2Curve.Nonsingular x y ↔ y ^ 2 = x ^ 3 + g2CoeffB := by
  have := shortCurve_nonsingular g2_good x y
  rw [pow_two, pow_succ, pow_two]
  exact this

instance : Finite G2Point := finite_points g2_nonsingular_iff

/-- The point of order two on a cubic would need a cube root. -/
theorem g2CoeffB_not_cube (x : Fq2) : x ^ 3 + g2CoeffB ≠ 0 := by
  intro h
  have h1 : x ^ 3 = -g2CoeffB := by linear_combination h
  have h2 := congrArg QuadraticAlgebra.norm h1
  rw [map_pow] at h2
  have h3 : QuadraticAlgebra.norm (-g2CoeffB) =
      ((103465770405187637604261093477957413414557405101965864215953705066688187339336329109987555255829344049776128583271 : ℕ) : Fq) := by
    decide +kernel
  rw [h3] at h2
  have h4 := powModAux_cast (m := FQ_MODULUS) (f := 377) (a := 103465770405187637604261093477957413414557405101965864215953705066688187339336329109987555255829344049776128583271)
    (n := (FQ_MODULUS - 1) / 3) (by decide +kernel)
  rw [← h2, ← pow_mul] at h4
  have e : 3 * ((FQ_MODULUS - 1) / 3) = FQ_MODULUS - 1 := by decide +kernel
  rw [e, ZMod.pow_card_sub_one_eq_one] at h4
  · revert h4
    decide +kernel
  · intro h0
    rw [h0] at h2
    revert h2
    decide +kernel

theorem g2_card_odd : ¬ 2 ∣ Nat.card G2Point := by
  intro h
  have := Fact.mk Nat.prime_two
  obtain ⟨P, hP⟩ := exists_prime_addOrderOf_dvd_card' 2 h
  have h2 : P + P = 0 := by
    rw [← two_nsmul, ← hP]
    exact addOrderOf_nsmul_eq_zero P
  have h0 : P ≠ 0 := by
    rintro rfl
    rw [addOrderOf_zero] at hP
    omega
  cases P with
  | zero => exact h0 rfl
  | some x y hxy =>
    have e : Affine.Point.some x y hxy = -Affine.Point.some x y hxy := eq_neg_of_add_eq_zero_left h2
    rw [Affine.Point.neg_some, Affine.Point.some.injEq] at e
    have e := e.2
    simp only [Affine.negY, g2Curve] at e
    have hy : y = 0 := by
      have : (2 : Fq2) * y = 0 := by linear_combination e
      exact (mul_eq_zero.mp this).resolve_left g2_good.two
    subst hy
    have := (g2_nonsingular_iff x 0).mp hxy
    exact g2CoeffB_not_cube x (by rw [← this]; ring)

theorem g2Generator_ne_zero : g2Generator ≠ 0 := Affine.Point.some_ne_zero _

theorem g2Generator_addOrderOf : addOrderOf g2Generator = FR_MODULUS := by
  have := Fact.mk FR_prime
  exact addOrderOf_eq_prime g2Generator_order g2Generator_ne_zero

/-- The number of points of G2: cofactor times the prime order. -/
theorem g2_card : Nat.card G2Point = G2_COFACTOR * FR_MODULUS := by
  have hdvd : FR_MODULUS ∣ Nat.card G2Point := by
    rw [← g2Generator_addOrderOf]
    exact addOrderOf_dvd_natCard _
  have hodd := g2_card_odd
  have hc := card_points fq2_ringChar g2_nonsingular_iff
  obtain ⟨f, hf⟩ := cubicSum_norm fq2_ringChar (n := (FQ_MODULUS ^ 2 - 1) / 3)
    (by rw [fq2_card]; decide +kernel) g2_good.b
  rw [fq2_card] at hc hf
  generalize cubicSum Fq2 g2CoeffB = S at hc hf
  generalize Nat.card G2Point = N at *
  obtain ⟨U, V, e, he, hUV, hS⟩ := norm_sq_cases (Nat.prime_iff_prime_int.mp FQ_prime) g1_norm
    (by rw [hf]; push_cast; ring)
  have hN : 16 * (N : ℤ) = 16 * ((FQ_MODULUS : ℤ) ^ 2 + 1) + 16 * S := by
    rw [hc]; push_cast; ring
  rw [hS] at hN
  clear hS hc hf
  have hd : (FR_MODULUS : ℤ) ∣ 16 * (N : ℤ) := Dvd.dvd.mul_left (by exact_mod_cast hdvd) _
  have h32 : ¬ (32 : ℤ) ∣ 16 * (N : ℤ) := by
    intro h
    apply hodd
    omega
  have fin : 16 * (N : ℤ) = 16 * (G2_COFACTOR * FR_MODULUS : ℕ) → N = G2_COFACTOR * FR_MODULUS := by
    intro h
    exact_mod_cast mul_left_cancel₀ (by norm_num) h
  rw [hN] at hd h32 fin
  rcases he with rfl | rfl <;> rcases hUV with ⟨rfl | rfl, rfl⟩ | ⟨rfl | rfl, rfl | rfl⟩
  all_goals first
    | exact fin (by decide +kernel)
    | exact absurd hd (by decide +kernel)
    | exact absurd (by decide +kernel) h32

theorem g2_cofactor_coprime : Nat.Coprime G2_COFACTOR FR_MODULUS := by
  unfold G2_COFACTOR FR_MODULUS
  norm_num

/-- Every point of order dividing `r` is a multiple of the generator. -/
theorem g2_generated (P : G2Point) (h : FR_MODULUS • P = 0) : ∃ k < FR_MODULUS, P = k • g2Generator :=
  killed_generated g2_card g2_cofactor_coprime FR_prime g2Generator_order g2Generator_ne_zero h

end Verif
