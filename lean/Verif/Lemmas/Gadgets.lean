import Verif.Model.Gadgets

/-! Helper lemmas about the gadgets. -/

set_option linter.unusedSectionVars false

namespace Verif

section

variable {p : ℕ} [Fact p.Prime]

@[simp] theorem bit_true : (bit true : ZMod p) = 1 := rfl
@[simp] theorem bit_false : (bit false : ZMod p) = 0 := rfl

@[simp] theorem FpVar.value_var (v : ZMod p) : (FpVar.var v).value = v := (Eq.refl v).trans rfl
@[simp] theorem FpVar.value_constant (v : ZMod p) : (FpVar.constant v).value = v :=
  (Eq.refl v).trans rfl

/-- The last constraint of the sign gadget as a boolean function. -/
theorem bit_eqn_iff (a b o : Bool) :
    (1 - bit a) * bit b = (bit o - bit a : ZMod p) ↔ o = (a || b) := by
  have : (1 : ZMod p) ≠ 0 := one_ne_zero
  have h2 : (0 : ZMod p) ≠ 1 := zero_ne_one
  cases a <;> cases b <;> cases o <;> simp

theorem prime_half (hp : p ≠ 2) : p = 2 * halfOf p + 1 := by
  have hprime : p.Prime := Fact.out
  have h1 := hprime.eq_two_or_odd'
  rcases h1 with h1 | h1
  · exact absurd h1 hp
  · obtain ⟨k, hk⟩ := h1
    unfold halfOf
    omega

theorem val_sub_cases (a b : ZMod p) :
    (b.val ≤ a.val ∧ (a - b).val = a.val - b.val) ∨
      (a.val < b.val ∧ (a - b).val = p + a.val - b.val) := by
  have hprime : p.Prime := Fact.out
  have : NeZero p := ⟨hprime.ne_zero⟩
  by_cases h : b.val ≤ a.val
  · exact Or.inl ⟨h, ZMod.val_sub h⟩
  · right
    push Not at h
    refine ⟨h, ?_⟩
    have hb : b.val < p := ZMod.val_lt b
    have h0 : b - a ≠ 0 := by
      intro e
      rw [sub_eq_zero] at e
      subst e
      omega
    have : NeZero (b - a) := ⟨h0⟩
    rw [← neg_sub b a, ZMod.val_neg_of_ne_zero, ZMod.val_sub h.le]
    omega

theorem val_double (a : ZMod p) :
    (2 * a).val = if 2 * a.val < p then 2 * a.val else 2 * a.val - p := by
  have hprime : p.Prime := Fact.out
  have : NeZero p := ⟨hprime.ne_zero⟩
  have ha : a.val < p := ZMod.val_lt a
  rw [two_mul, ZMod.val_add]
  split
  · rw [Nat.mod_eq_of_lt (by omega)]; omega
  · rw [Nat.mod_eq_sub_mod (by omega), Nat.mod_eq_of_lt (by omega)]; omega

theorem val_half (hp : p ≠ 2) : ((halfOf p : ℕ) : ZMod p).val = halfOf p := by
  have := prime_half (p := p) hp
  exact ZMod.val_natCast_of_lt (by omega)

/-- The comparison: both operands in the lower half and compared as integers. -/
theorem enforceCmpLeC_iff (hp : p ≠ 2) (a b : ZMod p) :
    enforceCmpLeC a b ↔ a.val ≤ b.val ∧ b.val + 1 ≤ halfOf p := by
  have hprime : p.Prime := Fact.out
  have hne : NeZero p := ⟨hprime.ne_zero⟩
  have hpp := prime_half (p := p) hp
  have hb : b.val < p := ZMod.val_lt b
  have h2 : 2 ≤ p := hprime.two_le
  have hb1 : (b + 1).val = if b.val + 1 < p then b.val + 1 else 0 := by
    have h1 : (1 : ZMod p).val = 1 := ZMod.val_one'' (by omega)
    rw [ZMod.val_add, h1]
    split
    · rw [Nat.mod_eq_of_lt (by omega)]
    · rw [show b.val + 1 = p by omega, Nat.mod_self]
  unfold enforceCmpLeC leHalfC
  rw [val_double, Nat.testBit_zero]
  simp only [decide_eq_true_eq]
  have ha : a.val < p := ZMod.val_lt a
  by_cases h6 : b.val + 1 < p
  · rw [if_pos h6] at hb1
    rcases val_sub_cases a (b + 1) with ⟨h1, h2⟩ | ⟨h1, h2⟩
    · rw [h2, hb1]
      rw [hb1] at h1
      constructor
      · rintro ⟨h3, h4, h5⟩
        rw [if_pos (by omega)] at h5
        omega
      · rintro ⟨h3, h4⟩
        omega
    · rw [h2, hb1]
      rw [hb1] at h1
      constructor
      · rintro ⟨h3, h4, h5⟩
        omega
      · rintro ⟨h3, h4⟩
        refine ⟨by omega, by omega, ?_⟩
        rw [if_neg (by omega)]
        omega
  · rw [if_neg h6] at hb1
    rcases val_sub_cases a (b + 1) with ⟨h1, h2⟩ | ⟨h1, h2⟩
    · rw [h2, hb1]
      constructor
      · rintro ⟨h3, h4, h5⟩
        rw [if_pos (by omega)] at h5
        omega
      · rintro ⟨h3, h4⟩
        omega
    · omega

theorem occurrencesLc_eq (value : Bool) (bitmap : List Bool) :
    (occurrencesLc value bitmap : ZMod p) = ((bitmap.count value : ℕ) : ZMod p) := by
  induction bitmap with
  | nil => simp [occurrencesLc]
  | cons b bs ih =>
    rw [occurrencesLc, ih]
    cases value <;> cases b <;> simp [add_comm]

end

section

variable {G2 : Type*} [AddCommGroup G2]

theorem aggregatedLoop_eq (padding : G2) (l : List (G2 × Bool)) (acc : G2) :
    ((aggregatedLoop padding l acc).1 ↔ ∀ x ∈ l, x.2 = true → x.1 ≠ padding) ∧
      (aggregatedLoop padding l acc).2 = acc + ((l.filter (·.2)).map (·.1)).sum := by
  induction l generalizing acc with
  | nil => simp [aggregatedLoop]
  | cons x rest ih =>
    obtain ⟨pk, b⟩ := x
    simp only [aggregatedLoop]
    obtain ⟨h1, h2⟩ := ih (acc + if b then pk else 0)
    refine ⟨?_, ?_⟩
    · rw [h1]
      simp
    · rw [h2]
      cases b <;> simp [add_assoc]

theorem aggregatedAll_eq (l : List G2) : enforceAggregatedAllPubkeys l = l.sum := by
  unfold enforceAggregatedAllPubkeys
  rw [List.sum_eq_foldl]

end

end Verif
