import Verif.Lemmas.PointCount
import Mathlib.RingTheory.IntegralDomain
import Mathlib.GroupTheory.SpecificGroups.Cyclic

/-!
# The exact shape of the number of points of `y ^ 2 = x ^ 3 + b`

Over a field of `Q` elements with `Q % 3 = 1` the character sum `S` of the curve satisfies
`S ^ 2 + 3 * f ^ 2 = 4 * Q` for an integer `f`: from the first and second moments of the character
sums of all such curves (helper; models nothing in /repo).
-/

namespace Verif

open Finset

variable {F : Type*} [Field F] [Fintype F] [DecidableEq F]

theorem card_cube_eq {n : ℕ} (hn : Fintype.card F = 3 * n + 1) {x : F} (hx : x ≠ 0) :
    (univ.filter fun y : F => y ^ 3 = x ^ 3).card = 3 := by
  obtain ⟨g, hg⟩ := IsCyclic.exists_generator (α := Fˣ)
  have ho : orderOf g = 3 * n := by
    rw [orderOf_eq_card_of_forall_mem_zpowers hg, Nat.card_eq_fintype_card, Fintype.card_units, hn,
      Nat.add_sub_cancel]
  have hn0 : 0 < n := by
    rcases Nat.eq_zero_or_pos n with rfl | h
    · have := Fintype.one_lt_card (α := F)
      omega
    · exact h
  set w : F := ((g ^ n : Fˣ) : F) with hw
  have hw3 : w ^ 3 = 1 := by
    rw [hw, ← Units.val_pow_eq_pow_val, ← pow_mul, mul_comm, ← ho, pow_orderOf_eq_one, Units.val_one]
  have hw1 : w ≠ 1 := by
    intro e
    have e' : g ^ n = 1 := Units.ext e
    have := orderOf_dvd_of_pow_eq_one e'
    rw [ho] at this
    have := Nat.le_of_dvd hn0 this
    omega
  have hw0 : w ≠ 0 := Units.ne_zero _
  refine le_antisymm (card_cube_le _) ?_
  have hsub : ({x, w * x, w ^ 2 * x} : Finset F) ⊆ univ.filter fun y : F => y ^ 3 = x ^ 3 := by
    intro y hy
    simp only [mem_insert, mem_singleton] at hy
    simp only [mem_filter, mem_univ, true_and]
    rcases hy with rfl | rfl | rfl
    · rfl
    · rw [mul_pow, hw3, one_mul]
    · rw [mul_pow, ← pow_mul, mul_comm 2 3, pow_mul, hw3, one_pow, one_mul]
  have hc : ({x, w * x, w ^ 2 * x} : Finset F).card = 3 := by
    have h1 : w * x ≠ x := fun e => hw1 (mul_right_cancel₀ hx (e.trans (one_mul x).symm))
    have h2 : w ^ 2 * x ≠ w * x := by
      intro e
      have e := mul_right_cancel₀ hx e
      rw [pow_two] at e
      exact hw1 (mul_left_cancel₀ hw0 (e.trans (mul_one w).symm))
    have h3 : w ^ 2 * x ≠ x := by
      intro e
      have e : w ^ 2 = 1 := mul_right_cancel₀ hx (e.trans (one_mul x).symm)
      apply hw1
      calc w = w ^ 3 := by rw [pow_succ, e, one_mul]
        _ = 1 := hw3
    rw [card_insert_of_notMem, card_insert_of_notMem, card_singleton]
    · simpa using h2.symm
    · simp only [mem_insert, mem_singleton, not_or]
      exact ⟨h1.symm, h3.symm⟩
  exact hc.symm.le.trans (card_le_card hsub)

/-- The second moment. -/
theorem sum_cubicSum_sq (hF : ringChar F ≠ 2) {n : ℕ} (hn : Fintype.card F = 3 * n + 1) :
    ∑ b : F, cubicSum F b ^ 2 = 6 * n * (Fintype.card F : ℤ) := by
  have h1 : ∑ b : F, cubicSum F b ^ 2 = ∑ x : F, ∑ y : F, ∑ b : F,
      quadraticChar F (x ^ 3 + b) * quadraticChar F (y ^ 3 + b) := by
    have : ∀ b : F, cubicSum F b ^ 2 = ∑ x : F, ∑ y : F,
        quadraticChar F (x ^ 3 + b) * quadraticChar F (y ^ 3 + b) := by
      intro b
      unfold cubicSum
      rw [pow_two, Finset.sum_mul_sum]
    simp only [this]
    rw [Finset.sum_comm]
    exact Finset.sum_congr rfl fun x _ => Finset.sum_comm
  rw [h1]
  have h2 : ∀ x : F, ∑ y : F, ∑ b : F,
      quadraticChar F (x ^ 3 + b) * quadraticChar F (y ^ 3 + b) =
        if x = 0 then 0 else 2 * (Fintype.card F : ℤ) := by
    intro x
    simp only [sum_quadraticChar_mul hF]
    have h3 : ∀ y : F, (if x ^ 3 = y ^ 3 then (Fintype.card F : ℤ) - 1 else -1) =
        (if y ^ 3 = x ^ 3 then (Fintype.card F : ℤ) else 0) - 1 := by
      intro y
      by_cases h : x ^ 3 = y ^ 3
      · rw [if_pos h, if_pos h.symm]
      · rw [if_neg h, if_neg fun e => h e.symm, zero_sub]
    simp only [h3]
    rw [Finset.sum_sub_distrib, ← Finset.sum_filter, Finset.sum_const, Finset.sum_const,
      Finset.card_univ, nsmul_eq_mul, nsmul_eq_mul, mul_one]
    split
    · rename_i hx
      subst hx
      have : (univ.filter fun y : F => y ^ 3 = 0 ^ 3) = {0} := by
        ext y
        simp
      rw [this, card_singleton]
      push_cast
      ring
    · rename_i hx
      rw [card_cube_eq hn hx]
      push_cast
      ring
  rw [Finset.sum_congr rfl fun x _ => h2 x, ← Finset.sum_erase_add _ _ (mem_univ (0 : F)), if_pos rfl,
    add_zero, Finset.sum_congr rfl (g := fun _ => 2 * (Fintype.card F : ℤ)) (fun x hx =>
      if_neg (Finset.ne_of_mem_erase hx)), Finset.sum_const, Finset.card_erase_of_mem (mem_univ _),
    Finset.card_univ, nsmul_eq_mul, hn, Nat.add_sub_cancel]
  push_cast
  ring

/-- The first moment, weighted with the character. -/
theorem sum_char_cubicSum (hF : ringChar F ≠ 2) :
    ∑ b : F, quadraticChar F b * cubicSum F b = 0 := by
  have h1 : ∑ b : F, quadraticChar F b * cubicSum F b = ∑ x : F, ∑ b : F,
      quadraticChar F (0 + b) * quadraticChar F (x ^ 3 + b) := by
    unfold cubicSum
    simp only [Finset.mul_sum, zero_add]
    exact Finset.sum_comm
  rw [h1]
  simp only [sum_quadraticChar_mul hF]
  rw [← Finset.sum_erase_add _ _ (mem_univ (0 : F)), if_pos (by ring),
    Finset.sum_congr rfl (g := fun _ => (-1 : ℤ)) (fun x hx =>
      if_neg fun e => Finset.ne_of_mem_erase hx (pow_eq_zero_iff (by norm_num) |>.mp e.symm)),
    Finset.sum_const, Finset.card_erase_of_mem (mem_univ _), Finset.card_univ, nsmul_eq_mul,
    Nat.cast_sub Fintype.card_pos]
  push_cast
  ring

theorem sum_by_generator {g : Fˣ} (hg : ∀ x, x ∈ Subgroup.zpowers g) {m : ℕ}
    (hm : Fintype.card F = m + 1) (f : F → ℤ) :
    ∑ b : F, f b = f 0 + ∑ k ∈ range m, f ((g ^ k : Fˣ) : F) := by
  have ho : orderOf g = m := by
    rw [orderOf_eq_card_of_forall_mem_zpowers hg, Nat.card_eq_fintype_card, Fintype.card_units, hm,
      Nat.add_sub_cancel]
  rw [← Finset.sum_erase_add _ _ (mem_univ (0 : F)), add_comm]
  congr 1
  symm
  refine Finset.sum_bij (fun k _ => ((g ^ k : Fˣ) : F)) ?_ ?_ ?_ ?_
  · intro k _
    exact mem_erase.mpr ⟨Units.ne_zero _, mem_univ _⟩
  · intro a ha b hb e
    have e := Units.ext e
    rw [mem_range, ← ho] at ha hb
    exact pow_injOn_Iio_orderOf ha hb e
  · intro b hb
    have hb0 := Finset.ne_of_mem_erase hb
    obtain ⟨k, hk⟩ := (Subgroup.mem_zpowers_iff.mp (hg (Units.mk0 b hb0)))
    have hf : IsOfFinOrder g := isOfFinOrder_of_finite g
    have h2 := hf.mem_powers_iff_mem_zpowers.mpr (hg (Units.mk0 b hb0))
    rw [hf.mem_powers_iff_mem_range_orderOf] at h2
    obtain ⟨k, hk, e⟩ := mem_image.mp h2
    refine ⟨k, ho ▸ hk, ?_⟩
    rw [e]
    rfl
  · intro _ _
    rfl

theorem sum_period {h : ℕ → ℤ} (hp : ∀ k, h (k + 3) = h k) (n : ℕ) :
    ∑ k ∈ range (3 * n), h k = n * (h 0 + h 1 + h 2) := by
  have hj : ∀ n j, h (3 * n + j) = h j := by
    intro n
    induction n with
    | zero => intro j; rw [mul_zero, zero_add]
    | succ n ih =>
      intro j
      rw [show 3 * (n + 1) + j = 3 * n + j + 3 by ring, hp, ih]
  induction n with
  | zero => simp
  | succ n ih =>
    rw [show 3 * (n + 1) = 3 * n + 1 + 1 + 1 by ring, sum_range_succ, sum_range_succ, sum_range_succ,
      ih, show 3 * n + 1 + 1 = 3 * n + 2 by ring, hj, hj, show 3 * n = 3 * n + 0 by ring, hj]
    push_cast
    ring

theorem generator_char (hF : ringChar F ≠ 2) {g : Fˣ} (hg : ∀ x, x ∈ Subgroup.zpowers g) :
    quadraticChar F (g : F) = -1 := by
  obtain ⟨a, ha⟩ := quadraticChar_exists_neg_one' hF
  have hf : IsOfFinOrder g := isOfFinOrder_of_finite g
  obtain ⟨k, hk⟩ := hf.mem_powers_iff_mem_zpowers.mpr (hg a)
  rcases quadraticChar_dichotomy (Units.ne_zero g) with h | h
  · exfalso
    rw [← hk, show ((g ^ k : Fˣ) : F) = (g : F) ^ k from Units.val_pow_eq_pow_val _ _, map_pow, h,
      one_pow] at ha
    norm_num at ha
  · exact h

/-- The character sum of a curve is one side of a representation of four times the number of elements
of the field. -/
theorem cubicSum_norm (hF : ringChar F ≠ 2) {n : ℕ} (hn : Fintype.card F = 3 * n + 1) {b : F}
    (hb : b ≠ 0) : ∃ f : ℤ, cubicSum F b ^ 2 + 3 * f ^ 2 = 4 * (Fintype.card F : ℤ) := by
  obtain ⟨g, hg⟩ := IsCyclic.exists_generator (α := Fˣ)
  have hχ := generator_char hF hg
  have hn0 : (n : ℤ) ≠ 0 := by
    rintro e
    have := Fintype.one_lt_card (α := F)
    have : n = 0 := by exact_mod_cast e
    omega
  set s : ℕ → ℤ := fun k => cubicSum F ((g ^ k : Fˣ) : F) with hs
  have hs3 : ∀ k, s (k + 3) = - s k := by
    intro k
    simp only [hs]
    rw [show ((g ^ (k + 3) : Fˣ) : F) = (g : F) ^ 3 * ((g ^ k : Fˣ) : F) by
      push_cast; ring, cubicSum_twist _ _ (Units.ne_zero g), hχ, neg_one_mul]
  have hcs0 : cubicSum F 0 = 0 := by
    have h := hg
    have e := cubicSum_twist (g : F) 0 (Units.ne_zero g)
    rw [mul_zero, hχ] at e
    linarith
  have m1 := sum_char_cubicSum (F := F) hF
  rw [sum_by_generator hg (m := 3 * n) hn, MulChar.map_zero, zero_mul, zero_add] at m1
  have e1 : ∀ k, quadraticChar F ((g ^ k : Fˣ) : F) = (-1) ^ k := by
    intro k
    rw [Units.val_pow_eq_pow_val, map_pow, hχ]
  simp only [e1] at m1
  rw [sum_period (h := fun k => (-1) ^ k * s k) (by
    intro k
    simp only [hs3]
    ring)] at m1
  have m1' := (mul_eq_zero.mp m1).resolve_left hn0
  have m2 := sum_cubicSum_sq (F := F) hF hn
  rw [sum_by_generator hg (m := 3 * n) hn, hcs0] at m2
  have m2' : ∑ k ∈ range (3 * n), s k ^ 2 = 6 * n * (Fintype.card F : ℤ) := by
    rw [← m2]
    simp only [hs]
    ring
  rw [sum_period (h := fun k => s k ^ 2) (by
    intro k
    simp only [hs3]
    ring)] at m2'
  have m3 : s 0 ^ 2 + s 1 ^ 2 + s 2 ^ 2 = 6 * (Fintype.card F : ℤ) :=
    mul_left_cancel₀ hn0 (by rw [m2']; ring)
  have m4 : s 1 = s 0 + s 2 := by linarith
  generalize (Fintype.card F : ℤ) = Q at m3 ⊢
  -- every one of the six sums
  have key : ∀ k, ∃ f : ℤ, s k ^ 2 + 3 * f ^ 2 = 4 * Q := by
    have fin : ∀ a v : ℤ, a ^ 2 + a * v + v ^ 2 = 3 * Q → ∃ f : ℤ, a ^ 2 + 3 * f ^ 2 = 4 * Q := by
      intro a v h
      have h1 : (2 * v + a) ^ 2 = 3 * (4 * Q - a ^ 2) := by linear_combination 4 * h
      have h2 : (3 : ℤ) ∣ 2 * v + a := Int.prime_three.dvd_of_dvd_pow ⟨_, h1⟩
      obtain ⟨f, hf⟩ := h2
      refine ⟨f, ?_⟩
      rw [hf] at h1
      linarith
    have base : ∀ j < 3, ∃ f : ℤ, s j ^ 2 + 3 * f ^ 2 = 4 * Q := by
      intro j hj
      interval_cases j
      · exact fin (s 0) (s 2) (by rw [m4] at m3; linarith)
      · exact fin (s 1) (-s 2) (by
          have : s 0 = s 1 - s 2 := by linarith
          rw [this] at m3; linarith)
      · exact fin (s 2) (s 0) (by rw [m4] at m3; linarith)
    intro k
    induction k using Nat.strong_induction_on with
    | _ k ih =>
      rcases Nat.lt_or_ge k 3 with h | h
      · exact base k h
      · obtain ⟨j, rfl⟩ := Nat.exists_eq_add_of_le' h
        obtain ⟨f, hf⟩ := ih j (by omega)
        exact ⟨f, by rw [hs3, neg_sq]; exact hf⟩
  have hf : IsOfFinOrder g := isOfFinOrder_of_finite g
  obtain ⟨k, hk⟩ := hf.mem_powers_iff_mem_zpowers.mpr (hg (Units.mk0 b hb))
  have := key k
  simp only [hs] at this
  rw [show g ^ k = Units.mk0 b hb from hk] at this
  exact this

end Verif
