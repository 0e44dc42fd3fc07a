import Mathlib.NumberTheory.LegendreSymbol.QuadraticChar.Basic
import Mathlib.AlgebraicGeometry.EllipticCurve.Affine.Point
import Mathlib.RingTheory.RootsOfUnity.Basic
import Mathlib.Tactic.LinearCombination
import Mathlib.Tactic.FieldSimp

/-!
# The number of points of `y ^ 2 = x ^ 3 + b`

An elementary bound on the number of points over a finite field, by the second moment of the
character sums of all the curves `y ^ 2 = x ^ 3 + b` (helper; models nothing in /repo).
-/

namespace Verif

open Finset

variable {F : Type*} [Field F] [Fintype F] [DecidableEq F]

/-- The character sum of the curve `y ^ 2 = x ^ 3 + b`. -/
noncomputable def cubicSum (F : Type*) [Field F] [Fintype F] [DecidableEq F] (b : F) : ℤ :=
  ∑ x : F, quadraticChar F (x ^ 3 + b)

theorem sum_quadraticChar_mul (hF : ringChar F ≠ 2) (u v : F) :
    ∑ b : F, quadraticChar F (u + b) * quadraticChar F (v + b) =
      if u = v then (Fintype.card F : ℤ) - 1 else -1 := by
  have hshift : ∑ b : F, quadraticChar F (u + b) * quadraticChar F (v + b) =
      ∑ b : F, quadraticChar F b * quadraticChar F (b + (v - u)) := by
    refine Fintype.sum_equiv (Equiv.addLeft u) _ _ fun b => ?_
    simp only [Equiv.coe_addLeft]
    congr 2
    ring
  rw [hshift]
  split
  · rename_i h
    subst h
    simp only [sub_self, add_zero]
    rw [← Finset.sum_erase_add _ _ (mem_univ (0 : F)), MulChar.map_zero, mul_zero, add_zero]
    have : ∀ x ∈ univ.erase (0 : F), quadraticChar F x * quadraticChar F x = 1 := by
      intro x hx
      rw [← pow_two]
      exact quadraticChar_sq_one (Finset.ne_of_mem_erase hx)
    rw [Finset.sum_congr rfl this, Finset.sum_const, Finset.card_erase_of_mem (mem_univ _),
      Finset.card_univ, nsmul_eq_mul, mul_one, Nat.cast_sub Fintype.card_pos, Nat.cast_one]
  · rename_i h
    have hc : v - u ≠ 0 := sub_ne_zero.mpr fun e => h e.symm
    generalize v - u = c at hc
    rw [← Finset.sum_erase_add _ _ (mem_univ (0 : F)), MulChar.map_zero, zero_mul, add_zero]
    have h1 : ∑ x ∈ univ.erase (0 : F), quadraticChar F x * quadraticChar F (x + c) =
        ∑ t ∈ univ.erase (1 : F), quadraticChar F t := by
      refine Finset.sum_bij (fun x _ => 1 + c / x) ?_ ?_ ?_ ?_
      · intro x hx
        have hx0 := Finset.ne_of_mem_erase hx
        refine Finset.mem_erase.mpr ⟨?_, mem_univ _⟩
        intro e
        have : c / x = 0 := by linear_combination e
        exact (div_ne_zero hc hx0) this
      · intro x hx y hy e
        have hx0 := Finset.ne_of_mem_erase hx
        have hy0 := Finset.ne_of_mem_erase hy
        have e : c / x = c / y := by linear_combination e
        rw [div_eq_div_iff hx0 hy0] at e
        exact (mul_left_cancel₀ hc e).symm
      · intro t ht
        have ht1 := sub_ne_zero.mpr (Finset.ne_of_mem_erase ht)
        refine ⟨c / (t - 1), Finset.mem_erase.mpr ⟨div_ne_zero hc ht1, mem_univ _⟩, ?_⟩
        field_simp
        ring
      · intro x hx
        have hx0 := Finset.ne_of_mem_erase hx
        have : x * (x + c) = x ^ 2 * (1 + c / x) := by field_simp
        rw [← map_mul, this, map_mul, quadraticChar_sq_one' hx0, one_mul]
    rw [h1]
    have h2 := quadraticChar_sum_zero hF
    rw [← Finset.sum_erase_add _ _ (mem_univ (1 : F)), map_one] at h2
    linarith

theorem card_cube_le (a : F) : (univ.filter fun y : F => y ^ 3 = a).card ≤ 3 := by
  have h : univ.filter (fun y : F => y ^ 3 = a) ⊆ (Polynomial.nthRoots 3 a).toFinset := by
    intro y hy
    rw [Multiset.mem_toFinset, Polynomial.mem_nthRoots (by norm_num)]
    exact (Finset.mem_filter.mp hy).2
  exact (Finset.card_le_card h).trans ((Multiset.toFinset_card_le _).trans
    (Polynomial.card_nthRoots 3 a))

/-- The second moment of the character sums. -/
theorem sum_cubicSum_sq_le (hF : ringChar F ≠ 2) :
    ∑ b : F, cubicSum F b ^ 2 ≤ 2 * (Fintype.card F : ℤ) ^ 2 := by
  have h1 : ∑ b : F, cubicSum F b ^ 2 = ∑ x : F, ∑ y : F, ∑ b : F,
      quadraticChar F (x ^ 3 + b) * quadraticChar F (y ^ 3 + b) := by
    have : ∀ b : F, cubicSum F b ^ 2 = ∑ x : F, ∑ y : F,
        quadraticChar F (x ^ 3 + b) * quadraticChar F (y ^ 3 + b) := by
      intro b
      unfold cubicSum
      rw [pow_two, Finset.sum_mul_sum]
    simp only [this]
    rw [Finset.sum_comm]
    exact Finset.sum_congr rfl fun x _ => Finset.sum_comm
  rw [h1]
  have h2 : ∀ x : F, ∑ y : F, ∑ b : F,
      quadraticChar F (x ^ 3 + b) * quadraticChar F (y ^ 3 + b) ≤ 2 * (Fintype.card F : ℤ) := by
    intro x
    simp only [sum_quadraticChar_mul hF]
    have h3 : ∀ y : F, (if x ^ 3 = y ^ 3 then (Fintype.card F : ℤ) - 1 else -1) =
        (if y ^ 3 = x ^ 3 then (Fintype.card F : ℤ) else 0) - 1 := by
      intro y
      by_cases h : x ^ 3 = y ^ 3
      · rw [if_pos h, if_pos h.symm]
      · rw [if_neg h, if_neg fun e => h e.symm, zero_sub]
    simp only [h3]
    rw [Finset.sum_sub_distrib, ← Finset.sum_filter, Finset.sum_const, Finset.sum_const,
      Finset.card_univ, nsmul_eq_mul, nsmul_eq_mul, mul_one]
    have h4 : (((univ.filter fun y : F => y ^ 3 = x ^ 3).card : ℕ) : ℤ) ≤ 3 := by
      exact_mod_cast card_cube_le (x ^ 3)
    have h5 : (0 : ℤ) ≤ Fintype.card F := Int.natCast_nonneg _
    nlinarith
  calc _ ≤ ∑ _x : F, 2 * (Fintype.card F : ℤ) := Finset.sum_le_sum fun x _ => h2 x
    _ = 2 * (Fintype.card F : ℤ) ^ 2 := by
      rw [Finset.sum_const, Finset.card_univ, nsmul_eq_mul]; ring

theorem cubicSum_twist (t b : F) (ht : t ≠ 0) :
    cubicSum F (t ^ 3 * b) = quadraticChar F t * cubicSum F b := by
  unfold cubicSum
  rw [Finset.mul_sum]
  refine (Fintype.sum_equiv (Equiv.mulLeft₀ t ht) _ _ fun x => ?_).symm
  simp only [Equiv.mulLeft₀_apply]
  have : (t * x) ^ 3 + t ^ 3 * b = t ^ 2 * (t * (x ^ 3 + b)) := by ring
  rw [this, map_mul, quadraticChar_sq_one' ht, one_mul, map_mul]

/-- A bound on the character sum, a little weaker than Hasse's. -/
theorem cubicSum_bound (hF : ringChar F ≠ 2) {b : F} (hb : b ≠ 0) :
    ((Fintype.card F : ℤ) - 1) * cubicSum F b ^ 2 ≤ 6 * (Fintype.card F : ℤ) ^ 2 := by
  have h1 : ∀ t ∈ univ.erase (0 : F), cubicSum F (t ^ 3 * b) ^ 2 = cubicSum F b ^ 2 := by
    intro t ht
    have ht0 := Finset.ne_of_mem_erase ht
    rw [cubicSum_twist t b ht0, mul_pow, quadraticChar_sq_one ht0, one_mul]
  have h2 : ((Fintype.card F : ℤ) - 1) * cubicSum F b ^ 2 =
      ∑ t ∈ univ.erase (0 : F), cubicSum F (t ^ 3 * b) ^ 2 := by
    rw [Finset.sum_congr rfl h1, Finset.sum_const, Finset.card_erase_of_mem (mem_univ _),
      Finset.card_univ, nsmul_eq_mul, Nat.cast_sub Fintype.card_pos, Nat.cast_one]
  have h3 : ∑ t ∈ univ.erase (0 : F), cubicSum F (t ^ 3 * b) ^ 2 ≤
      ∑ t : F, cubicSum F (t ^ 3 * b) ^ 2 :=
    Finset.sum_le_sum_of_subset_of_nonneg (Finset.erase_subset _ _) fun _ _ _ => sq_nonneg _
  have h4 : ∑ t : F, cubicSum F (t ^ 3 * b) ^ 2 ≤ 3 * ∑ c : F, cubicSum F c ^ 2 := by
    rw [← Finset.sum_fiberwise (s := univ) (g := fun t : F => t ^ 3 * b), Finset.mul_sum]
    refine Finset.sum_le_sum fun c _ => ?_
    rw [Finset.sum_congr rfl (g := fun _ => cubicSum F c ^ 2) (by
      intro t ht
      rw [(Finset.mem_filter.mp ht).2]), Finset.sum_const, nsmul_eq_mul]
    refine mul_le_mul_of_nonneg_right ?_ (sq_nonneg _)
    have h5 : univ.filter (fun t : F => t ^ 3 * b = c) = univ.filter (fun t : F => t ^ 3 = c / b) := by
      refine Finset.filter_congr fun t _ => ?_
      rw [eq_div_iff hb]
    rw [h5]
    exact_mod_cast card_cube_le (c / b)
  have h6 := sum_cubicSum_sq_le (F := F) hF
  linarith

/-- The affine points of `y ^ 2 = x ^ 3 + b`. -/
theorem card_affine (hF : ringChar F ≠ 2) (b : F) :
    ((univ.filter fun p : F × F => p.2 ^ 2 = p.1 ^ 3 + b).card : ℤ) =
      Fintype.card F + cubicSum F b := by
  have h1 : (univ.filter fun p : F × F => p.2 ^ 2 = p.1 ^ 3 + b).card =
      ∑ x : F, (univ.filter fun y : F => y ^ 2 = x ^ 3 + b).card := by
    rw [Finset.card_filter, Fintype.sum_prod_type]
    exact Finset.sum_congr rfl fun x _ => (Finset.card_filter _ _).symm
  have h2 : ∀ x : F, ((univ.filter fun y : F => y ^ 2 = x ^ 3 + b).card : ℤ) =
      quadraticChar F (x ^ 3 + b) + 1 := by
    intro x
    rw [← quadraticChar_card_sqrts hF]
    congr 2
    ext y
    simp
  rw [h1, Nat.cast_sum, Finset.sum_congr rfl fun x _ => h2 x, Finset.sum_add_distrib,
    Finset.sum_const, Finset.card_univ, nsmul_eq_mul, mul_one]
  unfold cubicSum
  ring

/-- The points of a short Weierstrass curve without singular points, as pairs and infinity. -/
noncomputable def pointEquiv {W : WeierstrassCurve.Affine F} {b : F}
    (hW : ∀ x y, W.Nonsingular x y ↔ y ^ 2 = x ^ 3 + b) :
    W.Point ≃ Option {p : F × F // p ∈ univ.filter fun p : F × F => p.2 ^ 2 = p.1 ^ 3 + b} where
  toFun P := match P with
    | .zero => none
    | .some x y h => some ⟨(x, y), Finset.mem_filter.mpr ⟨mem_univ _, (hW x y).mp h⟩⟩
  invFun o := match o with
    | none => .zero
    | some p => .some p.1.1 p.1.2 ((hW _ _).mpr (Finset.mem_filter.mp p.2).2)
  left_inv P := by cases P <;> rfl
  right_inv o := by rcases o with _ | ⟨⟨x, y⟩, h⟩ <;> rfl

/-- The number of points, by the character sum. -/
theorem card_points (hF : ringChar F ≠ 2) {W : WeierstrassCurve.Affine F} {b : F}
    (hW : ∀ x y, W.Nonsingular x y ↔ y ^ 2 = x ^ 3 + b) :
    (Nat.card W.Point : ℤ) = Fintype.card F + 1 + cubicSum F b := by
  rw [Nat.card_congr (pointEquiv hW), Nat.card_eq_fintype_card, Fintype.card_option,
    Fintype.card_coe, Nat.cast_add, card_affine hF b]
  push_cast
  ring

theorem finite_points {W : WeierstrassCurve.Affine F} {b : F}
    (hW : ∀ x y, W.Nonsingular x y ↔ y ^ 2 = x ^ 3 + b) : Finite W.Point :=
  Finite.of_equiv _ (pointEquiv hW).symm

/-- A multiple of `r` which is the number of points is the one close to the size of the field. -/
theorem card_points_unique (hF : ringChar F ≠ 2) {W : WeierstrassCurve.Affine F} {b : F} (hb : b ≠ 0)
    (hW : ∀ x y, W.Nonsingular x y ↔ y ^ 2 = x ^ 3 + b) {q r h : ℕ} (hq : Fintype.card F = q)
    (hr : r ∣ Nat.card W.Point) {d : ℤ} (hd : (h * r : ℤ) = q + 1 + d) (hlo : 0 ≤ (r : ℤ) - d)
    (hhi : 0 ≤ (r : ℤ) + d)
    (hgap : 6 * (q : ℤ) ^ 2 < (q - 1) * (r - d) ^ 2 ∧ 6 * (q : ℤ) ^ 2 < (q - 1) * (r + d) ^ 2) :
    Nat.card W.Point = h * r := by
  obtain ⟨k, hk⟩ := hr
  have h1 := card_points hF hW
  have h2 := cubicSum_bound (F := F) hF hb
  rw [hq] at h1 h2
  generalize cubicSum F b = S at h1 h2
  have hq1 : (0 : ℤ) ≤ q - 1 := by
    have : 0 < q := hq ▸ Fintype.card_pos
    omega
  have h3 : (r * k : ℤ) = q + 1 + S := by
    rw [← h1, hk]; push_cast; ring
  have hr0 : (0 : ℤ) ≤ r := Int.natCast_nonneg _
  have hkh : k = h := by
    rcases lt_trichotomy k h with hlt | heq | hgt
    · exfalso
      have h4 : (k : ℤ) + 1 ≤ h := by exact_mod_cast hlt
      have h5 : (r : ℤ) - d ≤ -S := by nlinarith
      have h6 : ((r : ℤ) - d) ^ 2 ≤ S ^ 2 := by nlinarith
      have h7 := mul_le_mul_of_nonneg_left h6 hq1
      linarith [hgap.1]
    · exact heq
    · exfalso
      have h4 : (h : ℤ) + 1 ≤ k := by exact_mod_cast hgt
      have h5 : (r : ℤ) + d ≤ S := by nlinarith
      have h6 : ((r : ℤ) + d) ^ 2 ≤ S ^ 2 := by nlinarith
      have h7 := mul_le_mul_of_nonneg_left h6 hq1
      linarith [hgap.2]
  rw [hk, hkh, mul_comm]

end Verif
