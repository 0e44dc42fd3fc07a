import Verif.Model.Montgomery
import Verif.Lemmas.Primes
import Mathlib.Algebra.Field.ZMod
import Mathlib.Data.Nat.Digits.Defs
import Mathlib.Tactic.LinearCombination
import Mathlib.Tactic.Ring
import Mathlib.Tactic.NormNum.Prime

/-!
# C130: Montgomery arithmetic

Products, `into_repr` and `from_repr` are those of the integers modulo the modulus; no carry is lost if the modulus has
a spare bit, and one is lost for a modulus without.
-/

namespace Verif

section
variable {W p inv : ℕ}

theorem montStep_spec (hW : 0 < W) (hinv : (p * inv + 1) % W = 0) (t : ℕ) :
    ∃ q < W, W * montStep W p inv t = t + q * p := by
  refine ⟨t % W * inv % W, Nat.mod_lt _ hW, ?_⟩
  unfold montStep
  refine Nat.mul_div_cancel' ((ZMod.natCast_eq_zero_iff _ _).1 ?_)
  have h : ((p * inv + 1 : ℕ) : ZMod W) = 0 := (ZMod.natCast_eq_zero_iff _ _).2 (Nat.dvd_of_mod_eq_zero hinv)
  push_cast [ZMod.natCast_mod] at h ⊢
  linear_combination (t : ZMod W) * h

theorem montStep_cast (hW : 0 < W) (hinv : (p * inv + 1) % W = 0) (t : ℕ) :
    (W : ZMod p) * (montStep W p inv t : ℕ) = t := by
  obtain ⟨q, _, h⟩ := montStep_spec hW hinv t
  have := congrArg (Nat.cast : ℕ → ZMod p) h
  push_cast [ZMod.natCast_self] at this
  rw [this, mul_zero, add_zero]

theorem montStep_lt (hW : 0 < W) (hinv : (p * inv + 1) % W = 0) {t : ℕ} (ht : t < p) : montStep W p inv t < p := by
  obtain ⟨q, hq, h⟩ := montStep_spec hW hinv t
  have h1 : (q + 1) * p ≤ W * p := Nat.mul_le_mul_right p hq
  rw [Nat.add_mul, one_mul] at h1
  exact Nat.lt_of_mul_lt_mul_left (a := W) (by omega)

theorem montStep_lt_two (hW : 0 < W) (hinv : (p * inv + 1) % W = 0) {r a b : ℕ} (hr : r < 2 * p) (ha : a < p)
    (hb : b < W) : montStep W p inv (r + a * b) < 2 * p := by
  obtain ⟨q, hq, h⟩ := montStep_spec hW hinv (r + a * b)
  obtain ⟨w, rfl⟩ : ∃ w, W = w + 1 := ⟨W - 1, by omega⟩
  have h1 : q * p ≤ w * p := Nat.mul_le_mul_right p (by omega)
  have h2 : a * b ≤ p * w := Nat.mul_le_mul ha.le (by omega)
  rw [mul_comm p w] at h2
  refine Nat.lt_of_mul_lt_mul_left (a := w + 1) ?_
  have h3 : (w + 1) * (2 * p) = 2 * (w * p) + 2 * p := by ring
  omega

theorem limbsOf_lt (hW : 0 < W) (n x : ℕ) : ∀ b ∈ limbsOf W n x, b < W := by
  induction n generalizing x with
  | zero => intro b hb; cases hb
  | succ n ih =>
    intro b hb
    rcases List.mem_cons.1 hb with rfl | hb
    · exact Nat.mod_lt _ hW
    · exact ih _ b hb

theorem limbsOf_length (n x : ℕ) : (limbsOf W n x).length = n := by
  induction n generalizing x with
  | zero => rfl
  | succ n ih => exact congrArg (· + 1) (ih _)

theorem limbsOf_value (n x : ℕ) (hx : x < W ^ n) : Nat.ofDigits W (limbsOf W n x) = x := by
  induction n generalizing x with
  | zero =>
    rw [pow_zero] at hx
    exact (Nat.lt_one_iff.1 hx).symm
  | succ n ih =>
    have := ih (x / W) (Nat.div_lt_of_lt_mul (by rwa [← pow_succ']))
    unfold limbsOf
    rw [Nat.ofDigits_cons, this]
    exact Nat.mod_add_div x W

theorem montMulLoop_spec (hW : 0 < W) (hinv : (p * inv + 1) % W = 0) {n a : ℕ} (hn : 2 * p ≤ W ^ n) (ha : a < p)
    (bs : List ℕ) (hbs : ∀ b ∈ bs, b < W) (r : ℕ) (hr : r < 2 * p) :
    montMulLoop W p inv n a bs r < 2 * p ∧
      (W : ZMod p) ^ bs.length * (montMulLoop W p inv n a bs r : ℕ) = r + a * (Nat.ofDigits W bs : ℕ) := by
  induction bs generalizing r with
  | nil => exact ⟨hr, by simp [montMulLoop]⟩
  | cons b bs ih =>
    have hlt := montStep_lt_two hW hinv hr ha (hbs b (List.mem_cons_self))
    have hmod : montStep W p inv (r + a * b) % W ^ n = montStep W p inv (r + a * b) :=
      Nat.mod_eq_of_lt (hlt.trans_le hn)
    have hc := montStep_cast hW hinv (r + a * b)
    obtain ⟨h1, h2⟩ := ih (fun x hx => hbs x (List.mem_cons_of_mem _ hx)) _ hlt
    unfold montMulLoop
    rw [hmod]
    refine ⟨h1, ?_⟩
    rw [List.length_cons, pow_succ', mul_assoc, h2, Nat.ofDigits_cons]
    push_cast at hc ⊢
    linear_combination hc

/-- **C130.** If the modulus has a spare bit, the product of reduced forms is reduced, and is the product divided by
the Montgomery constant. -/
theorem C130_mul (hW : 0 < W) (hinv : (p * inv + 1) % W = 0) {n a b : ℕ} (hn : 2 * p ≤ W ^ n) (ha : a < p)
    (hb : b < p) :
    montMul W p inv n a b < p ∧ (W : ZMod p) ^ n * (montMul W p inv n a b : ℕ) = a * b := by
  obtain ⟨h1, h2⟩ := montMulLoop_spec hW hinv hn ha (limbsOf W n b) (limbsOf_lt hW n b) 0 (by omega)
  rw [limbsOf_length, limbsOf_value n b (by omega), Nat.cast_zero, zero_add] at h2
  unfold montMul reduceOnce
  split
  · exact ⟨by assumption, h2⟩
  · refine ⟨by omega, ?_⟩
    rw [Nat.cast_sub (by omega), ZMod.natCast_self, sub_zero, h2]

theorem montIntoRepr_spec (hW : 0 < W) (hinv : (p * inv + 1) % W = 0) (n r : ℕ) (hr : r < p) :
    montIntoRepr W p inv n r < p ∧ (W : ZMod p) ^ n * (montIntoRepr W p inv n r : ℕ) = r := by
  induction n generalizing r with
  | zero => exact ⟨hr, by simp [montIntoRepr]⟩
  | succ n ih =>
    obtain ⟨h1, h2⟩ := ih _ (montStep_lt hW hinv hr)
    unfold montIntoRepr
    refine ⟨h1, ?_⟩
    rw [pow_succ', mul_assoc, h2, montStep_cast hW hinv]

theorem mont_const_ne_zero [Fact p.Prime] (hinv : (p * inv + 1) % W = 0) (n : ℕ) : (W : ZMod p) ^ n ≠ 0 := by
  refine pow_ne_zero n fun h => ?_
  have h1 := ((ZMod.natCast_eq_zero_iff _ _).1 h).trans (Nat.dvd_of_mod_eq_zero hinv)
  have h2 := (Nat.dvd_add_right (Nat.dvd_mul_right p inv)).1 h1
  exact (Fact.out : p.Prime).one_lt.ne' (Nat.dvd_one.1 h2)

theorem eq_val_of_cast [NeZero p] {y : ℕ} (hy : y < p) {z : ZMod p} (h : (y : ZMod p) = z) : y = z.val := by
  rw [← h, ZMod.val_natCast, Nat.mod_eq_of_lt hy]

/-- **C130.** On Montgomery forms the multiplication is that of the field. -/
theorem C130_mul_forms [Fact p.Prime] (hW : 0 < W) (hinv : (p * inv + 1) % W = 0) {n : ℕ} (hn : 2 * p ≤ W ^ n)
    (x y : ZMod p) :
    montMul W p inv n (x * (W : ZMod p) ^ n).val (y * (W : ZMod p) ^ n).val = (x * y * (W : ZMod p) ^ n).val := by
  obtain ⟨h1, h2⟩ := C130_mul hW hinv hn (ZMod.val_lt (x * (W : ZMod p) ^ n)) (ZMod.val_lt (y * (W : ZMod p) ^ n))
  refine eq_val_of_cast h1 (mul_left_cancel₀ (mont_const_ne_zero hinv n) ?_)
  rw [h2, ZMod.natCast_zmod_val, ZMod.natCast_zmod_val]
  ring

/-- **C130.** `into_repr` of a form is the canonical representative, for any number of limbs: never the modulus itself,
although nothing is subtracted at the end. -/
theorem C130_into_repr [Fact p.Prime] (hW : 0 < W) (hinv : (p * inv + 1) % W = 0) (n : ℕ) (x : ZMod p) :
    montIntoRepr W p inv n (x * (W : ZMod p) ^ n).val = x.val := by
  obtain ⟨h1, h2⟩ := montIntoRepr_spec hW hinv n _ (ZMod.val_lt (x * (W : ZMod p) ^ n))
  refine eq_val_of_cast h1 (mul_left_cancel₀ (mont_const_ne_zero hinv n) ?_)
  rw [h2, ZMod.natCast_zmod_val, mul_comm]

/-- **C130.** `from_repr` accepts exactly the numbers below the modulus and returns the form of the element. -/
theorem C130_from_repr [Fact p.Prime] (hW : 0 < W) (hinv : (p * inv + 1) % W = 0) {n : ℕ} (hn : 2 * p ≤ W ^ n)
    (x : ℕ) :
    montFromRepr W p inv n ((W : ZMod p) ^ n * (W : ZMod p) ^ n).val x =
      if x < p then some ((x : ZMod p) * (W : ZMod p) ^ n).val else none := by
  have hp : 0 < p := (Fact.out : p.Prime).pos
  unfold montFromRepr
  by_cases hx : x = 0
  · rw [if_pos hx, hx, if_pos hp, Nat.cast_zero, zero_mul, ZMod.val_zero]
  · rw [if_neg hx]
    by_cases hlt : x < p
    · rw [if_pos hlt, if_pos hlt]
      obtain ⟨h1, h2⟩ := C130_mul hW hinv hn hlt (ZMod.val_lt ((W : ZMod p) ^ n * (W : ZMod p) ^ n))
      refine congrArg some (eq_val_of_cast h1 (mul_left_cancel₀ (mont_const_ne_zero hinv n) ?_))
      rw [h2, ZMod.natCast_zmod_val]
      ring
    · rw [if_neg hlt, if_neg hlt]

/-- **C130.** Any number below the modulus comes back from its form. -/
theorem C130_round_trip [Fact p.Prime] (hW : 0 < W) (hinv : (p * inv + 1) % W = 0) {n : ℕ} (hn : 2 * p ≤ W ^ n)
    (x : ℕ) :
    (montFromRepr W p inv n ((W : ZMod p) ^ n * (W : ZMod p) ^ n).val x).map (montIntoRepr W p inv n) =
      if x < p then some x else none := by
  rw [C130_from_repr hW hinv hn]
  split
  · rename_i h
    exact congrArg some ((C130_into_repr hW hinv n _).trans (by rw [ZMod.val_natCast, Nat.mod_eq_of_lt h]))
  · rfl

end

/-! ## The fields of BLS12-377 and examples -/

/-- `INV` of the base field, six limbs. -/
theorem fq_mont_inv : (FQ_MODULUS * 9586122913090633727 + 1) % 2 ^ 64 = 0 := by decide +kernel

/-- `INV` of the scalar field, four limbs. -/
theorem fr_mont_inv : (FR_MODULUS * 725501752471715839 + 1) % 2 ^ 64 = 0 := by decide +kernel

theorem fq_spare_bit : 2 * FQ_MODULUS ≤ (2 ^ 64) ^ 6 := by decide +kernel

theorem fr_spare_bit : 2 * FR_MODULUS ≤ (2 ^ 64) ^ 4 := by decide +kernel

/-- **C130.** Both fields of the code meet the hypotheses: products of forms with six limbs in the base field, and the
exponents of `batch` and the secret keys, four limbs, as `into_repr` returns them. -/
theorem C130_fields :
    (∀ x y : ZMod FQ_MODULUS, montMul (2 ^ 64) FQ_MODULUS 9586122913090633727 6 (x * ((2 ^ 64 : ℕ) : ZMod FQ_MODULUS) ^ 6).val
      (y * ((2 ^ 64 : ℕ) : ZMod FQ_MODULUS) ^ 6).val = (x * y * ((2 ^ 64 : ℕ) : ZMod FQ_MODULUS) ^ 6).val) ∧
    (∀ x y : ZMod FR_MODULUS, montMul (2 ^ 64) FR_MODULUS 725501752471715839 4 (x * ((2 ^ 64 : ℕ) : ZMod FR_MODULUS) ^ 4).val
      (y * ((2 ^ 64 : ℕ) : ZMod FR_MODULUS) ^ 4).val = (x * y * ((2 ^ 64 : ℕ) : ZMod FR_MODULUS) ^ 4).val) ∧
    (∀ x : ZMod FR_MODULUS,
      montIntoRepr (2 ^ 64) FR_MODULUS 725501752471715839 4 (x * ((2 ^ 64 : ℕ) : ZMod FR_MODULUS) ^ 4).val = x.val) :=
  ⟨C130_mul_forms (by norm_num) fq_mont_inv fq_spare_bit, C130_mul_forms (by norm_num) fr_mont_inv fr_spare_bit,
    C130_into_repr (by norm_num) fr_mont_inv 4⟩

/-- Modulo 13 with two limbs of base 8 (constant 64 = 12): 5 and 7 have forms 8 and 6, the product 9 has form 4. -/
example : montMul 8 13 3 2 (5 * 12 % 13) (7 * 12 % 13) = 9 * 12 % 13 ∧ montIntoRepr 8 13 3 2 (5 * 12 % 13) = 5 ∧
    montFromRepr 8 13 3 2 (12 * 12 % 13) 5 = some (5 * 12 % 13) ∧ montFromRepr 8 13 3 2 (12 * 12 % 13) 13 = none := by
  decide +kernel

/-- The hypotheses are met there. -/
example : 0 < 8 ∧ (13 * 3 + 1) % 8 = 0 ∧ 2 * 13 ≤ 8 ^ 2 := by decide

/-- Without a spare bit a carry is lost: modulo 13 with one limb of base 16 some product is wrong. -/
example : (13 * 11 + 1) % 16 = 0 ∧ ¬ 2 * 13 ≤ 16 ^ 1 ∧
    ∃ a < 13, ∃ b < 13, 16 * montMul 16 13 11 1 a b % 13 ≠ a * b % 13 := by
  decide +kernel

end Verif
