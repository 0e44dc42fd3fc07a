import Verif.Model.Sqrt
import Verif.Props.SynthesisSize
import Verif.Props.YSign
import Mathlib.NumberTheory.LegendreSymbol.Basic

/-!
# C125: the square root of the field library

Hashing to the curve assumes of the external square root that it returns a root exactly if there is one (`SqrtSpec`).
Here the algorithm of arkworks is shown to do so, within as many rounds as the two-adicity of the field.
-/

set_option exponentiation.threshold 800

namespace Verif

section
variable {p : ℕ}

theorem squareTimes_eq (j : ℕ) (w : ZMod p) : squareTimes j w = w ^ 2 ^ j := by
  induction j generalizing w with
  | zero => simp [squareTimes]
  | succ j ih => rw [squareTimes, ih, pow_succ', pow_mul, pow_two]

/-- The inner loop finds the number of squarings. -/
theorem sqrtInner_ok {n m : ℕ} {b : ZMod p} (hm : b ^ 2 ^ m = 1) (hn : m < n) (k : ℕ) :
    ∃ i ≤ m, sqrtInner n b k = .ok (k + i) ∧ b ^ 2 ^ i = 1 ∧ ∀ j < i, b ^ 2 ^ j ≠ 1 := by
  induction n generalizing b m k with
  | zero => omega
  | succ n ih =>
    unfold sqrtInner
    by_cases hb : b = 1
    · exact ⟨0, Nat.zero_le _, by simp [hb], by simp [hb], by omega⟩
    · rw [if_neg hb]
      cases m with
      | zero => exact absurd (by simpa using hm) hb
      | succ m =>
        have hp : ∀ j, (b * b) ^ 2 ^ j = b ^ 2 ^ (j + 1) := fun j => by rw [pow_succ', pow_mul, pow_two]
        obtain ⟨i, h1, h2, h3, h4⟩ := ih (b := b * b) (m := m) (by rw [hp]; exact hm) (by omega) (k + 1)
        refine ⟨i + 1, by omega, by rw [h2]; congr 1; omega, by rw [← hp]; exact h3, ?_⟩
        intro j hj
        cases j with
        | zero => simpa using hb
        | succ j => rw [← hp]; exact h4 j (by omega)

theorem eq_neg_one_of_sq [Fact p.Prime] {y : ZMod p} (h : y * y = 1) (h1 : y ≠ 1) : y = -1 := by
  have : (y - 1) * (y + 1) = 0 := by linear_combination h
  rcases mul_eq_zero.1 this with e | e
  · exact absurd (sub_eq_zero.1 e) h1
  · exact eq_neg_of_add_eq_zero_left e

/-- The outer loop returns a root, in fewer than `v` rounds. -/
theorem sqrtLoop_ok [Fact p.Prime] {a : ZMod p} {inner n v : ℕ} {z b x : ZMod p} (hv : v ≠ 0) (hz : z ^ 2 ^ (v - 1) = -1)
    (hb : b ^ 2 ^ (v - 1) = 1) (hx : x * x = a * b) (hi : v ≤ inner) (hn : v ≤ n) :
    ∃ y, sqrtLoop inner n z b x v = .ok y ∧ y * y = a := by
  induction n generalizing v z b x with
  | zero => omega
  | succ n ih =>
    unfold sqrtLoop
    by_cases h1 : b = 1
    · rw [if_pos h1]
      exact ⟨x, rfl, by rw [hx, h1, mul_one]⟩
    · rw [if_neg h1]
      obtain ⟨k, hk, e, k1, k2⟩ := sqrtInner_ok (n := inner) hb (by omega) 0
      have hk0 : k ≠ 0 := by rintro rfl; exact h1 (by simpa using k1)
      rw [e, Outcome.bind_ok, zero_add, if_neg (by omega)]
      dsimp only
      rw [squareTimes_eq]
      have hw : z ^ 2 ^ (v - k - 1) * z ^ 2 ^ (v - k - 1) = z ^ 2 ^ (v - k) := by
        rw [← pow_two, ← pow_mul, ← pow_succ]; congr 2; omega
      have hz' : (z ^ 2 ^ (v - k)) ^ 2 ^ (k - 1) = -1 := by
        rw [← pow_mul, ← pow_add, show v - k + (k - 1) = v - 1 by omega]; exact hz
      have hb' : b ^ 2 ^ (k - 1) = -1 := by
        refine eq_neg_one_of_sq ?_ (k2 _ (by omega))
        rw [← pow_two, ← pow_mul, ← pow_succ, show k - 1 + 1 = k by omega]; exact k1
      rw [hw]
      refine ih hk0 hz' ?_ ?_ (by omega) (by omega)
      · rw [mul_pow, hb', hz', neg_mul_neg, one_mul]
      · rw [← hw]
        linear_combination (z ^ 2 ^ (v - k - 1) * z ^ 2 ^ (v - k - 1)) * hx

/-- **C125.** In a field whose stored constants are right (`g` is no square, and `s` is the exact power of two in
`p - 1`), the library's square root never underflows and needs at most `s` rounds of either loop; it returns a root of
every square, and nothing otherwise. -/
theorem C125_sqrt [Fact p.Prime] {g : ZMod p} {s c : ℕ} (hs : s ≠ 0) (hc : p - 1 = 2 ^ s * c) (hodd : Odd c)
    (hg : ¬IsSquare g) {rounds : ℕ} (hr : s ≤ rounds) (a : ZMod p) :
    (∃ y, arkSqrt g s rounds a = .ok (some y) ∧ y * y = a) ∨
      arkSqrt g s rounds a = .ok none ∧ ∀ y, y * y ≠ a := by
  have h2 := (Fact.out : p.Prime).two_le
  obtain ⟨u, rfl⟩ := Nat.exists_eq_succ_of_ne_zero hs
  have hdiv : (p - 1) / 2 ^ (u + 1) = c := by rw [hc, Nat.mul_div_cancel_left _ (by positivity)]
  have hhalf : (p - 1) / 2 = c * 2 ^ u := by
    rw [hc, pow_succ, show 2 ^ u * 2 * c = 2 * (c * 2 ^ u) by ring, Nat.mul_div_cancel_left _ (by norm_num)]
  have hdouble : (p - 1) / 2 + (p - 1) / 2 = p - 1 := by
    rw [hhalf, hc, pow_succ]; ring
  have hg0 : g ≠ 0 := by rintro rfl; exact hg ⟨0, (mul_zero 0).symm⟩
  have hgn : g ^ ((p - 1) / 2) ≠ 1 := fun e => hg ((ZMod.euler_criterion p hg0).2 (by rwa [show p / 2 = (p - 1) / 2 by omega]))
  have hodd := Nat.odd_iff.1 hodd
  unfold arkSqrt legendreSymbol
  dsimp only
  by_cases ha : a = 0
  · refine Or.inl ⟨a, ?_, by rw [ha, mul_zero]⟩
    rw [if_pos (by rw [ha, zero_pow (by omega)])]
  rw [if_neg (pow_ne_zero _ ha)]
  by_cases h1 : a ^ ((p - 1) / 2) = 1
  · rw [if_pos h1]
    dsimp only
    rw [hdiv]
    have hpow : ∀ y : ZMod p, (y ^ c) ^ 2 ^ (u + 1 - 1) = y ^ ((p - 1) / 2) := fun y => by
      rw [← pow_mul, hhalf]; rfl
    have hca : a ^ ((c - 1) / 2) * a * a ^ ((c - 1) / 2) = a ^ c := by
      rw [mul_right_comm, ← pow_add, ← pow_succ]; congr 1; omega
    obtain ⟨y, e, hy⟩ := sqrtLoop_ok (a := a) (inner := rounds) (n := rounds) (v := u + 1) (z := g ^ c)
      (b := a ^ ((c - 1) / 2) * a * a ^ ((c - 1) / 2)) (x := a ^ ((c - 1) / 2) * a) (Nat.succ_ne_zero u)
      (by rw [hpow]
          exact eq_neg_one_of_sq (by rw [← pow_add, hdouble]; exact ZMod.pow_card_sub_one_eq_one hg0) hgn)
      (by rw [hca, hpow]; exact h1) (by ring) hr hr
    refine Or.inl ⟨y, ?_, hy⟩
    rw [e]
    simp [Outcome.map, hy]
  · rw [if_neg h1]
    refine Or.inr ⟨rfl, ?_⟩
    rintro y rfl
    have hy : y ≠ 0 := by rintro rfl; exact ha (mul_zero 0)
    exact h1 (by rw [mul_pow, ← pow_add, hdouble]; exact ZMod.pow_card_sub_one_eq_one hy)

end

theorem fq_odd : FQ_MODULUS - 1 = 2 ^ 46 * ((FQ_MODULUS - 1) / 2 ^ 46) ∧ (FQ_MODULUS - 1) / 2 ^ 46 % 2 = 1 := by
  decide +kernel

theorem not_isSquare_fq : ¬IsSquare (15 : Fq) := by
  rintro ⟨y, hy⟩
  refine twoAdic_fq.nonresidue ?_
  have hne : y ≠ 0 := by
    rintro rfl
    exact twoAdic_fq.ne_zero (by rw [hy, mul_zero])
  rw [hy, mul_pow, ← pow_add, show (FQ_MODULUS - 1) / 2 + (FQ_MODULUS - 1) / 2 = FQ_MODULUS - 1 by decide +kernel]
  exact ZMod.pow_card_sub_one_eq_one hne

theorem sqrtSpec_of {sqrt : Fq → Option Fq} {f : Fq → Outcome Unit (Option Fq)}
    (hf : ∀ a r, f a = .ok r → sqrt a = r)
    (h : ∀ a, (∃ y, f a = .ok (some y) ∧ y * y = a) ∨ f a = .ok none ∧ ∀ y, y * y ≠ a) : SqrtSpec sqrt := by
  refine ⟨fun v y e => ?_, fun v e => ?_⟩
  · rcases h v with ⟨y', e', hy⟩ | ⟨e', _⟩
    · rw [hf _ _ e'] at e; cases e; exact hy
    · rw [hf _ _ e'] at e; cases e
  · rcases h v with ⟨y', e', _⟩ | ⟨_, hy⟩
    · rw [hf _ _ e'] at e; cases e
    · exact hy

theorem fqSqrt_of_ok (a : Fq) (r : Option Fq) (h : arkSqrt 15 46 47 a = .ok r) : fqSqrt a = r := by
  exact congrArg Outcome.ended h

/-- **C125.** The square root of the base field of G1 is as hashing to the curve assumes. -/
theorem C125_fq : SqrtSpec fqSqrt :=
  sqrtSpec_of fqSqrt_of_ok fun a => C125_sqrt (by norm_num) fq_odd.1 (Nat.odd_iff.2 fq_odd.2) not_isSquare_fq (by norm_num) a

/-- **C125.** Hashing to the curve with the library's square root gives what it gives with any other that returns a root
exactly if there is one; so the properties of hashing need no assumption on it. -/
theorem C125_hash {G : Type*} [AddCommGroup G] [DecidableEq G] (compat : Bool) (h : Hasher) {sqrt : Fq → Option Fq}
    (hs : SqrtSpec sqrt) (scale : AffinePoint Fq → G) (domain message extra : Bytes) :
    hashWithAttempt compat h fqSqrt scale domain message extra =
      hashWithAttempt compat h sqrt scale domain message extra :=
  C18_sqrt_irrelevant compat h C125_fq hs scale domain message extra

/-! ## Examples -/

/-- The field with 17 elements has two-adicity 4, so that the loops take several rounds: the roots of all elements. -/
example : (List.range 17).map (fun n => arkSqrt (p := 17) 3 4 4 n) =
    ([some 0, some 1, some 6, none, some 2, none, none, none, some 12, some 14, none, none, none, some 8, none, some 7,
      some 4].map Outcome.ok) := by
  decide +kernel

theorem not_square_three : ∀ y : ZMod 17, 3 ≠ y * y := by decide +kernel

/-- That field meets the hypotheses of `C125_sqrt`. -/
example (a : ZMod 17) : (∃ y, arkSqrt 3 4 4 a = .ok (some y) ∧ y * y = a) ∨ arkSqrt 3 4 4 a = .ok none ∧ ∀ y, y * y ≠ a :=
  haveI : Fact (Nat.Prime 17) := ⟨by norm_num⟩
  C125_sqrt (c := 1) (by norm_num) (by norm_num) odd_one (fun ⟨y, hy⟩ => not_square_three y hy) le_rfl a

/-- With fewer rounds than the two-adicity, a loop would not end: the bound is needed. -/
example : arkSqrt (p := 17) 3 4 2 13 = .err () := by decide +kernel

/-- With a two-adicity that is too small, the subtraction underflows. -/
example : ∃ a : ZMod 17, arkSqrt (p := 17) 3 1 9 a = .panic := by decide +kernel

/-- The square root of two in the base field of G1, and an element without a root. -/
example : (∃ y, fqSqrt 2 = some y ∧ (y = sqrtTwo ∨ y = -sqrtTwo)) ∧ fqSqrt 15 = none := by
  constructor
  · cases h : fqSqrt 2 with
    | none => exact absurd sqrtTwo_sq (C125_fq.complete _ h _)
    | some y =>
      refine ⟨y, rfl, ?_⟩
      have e : (y - sqrtTwo) * (y + sqrtTwo) = 0 := by
        linear_combination C125_fq.sound _ _ h - sqrtTwo_sq
      rcases mul_eq_zero.1 e with e | e
      · exact Or.inl (sub_eq_zero.1 e)
      · exact Or.inr (eq_neg_of_add_eq_zero_left e)
  · cases h : fqSqrt 15 with
    | none => rfl
    | some y => exact absurd ⟨y, (C125_fq.sound _ _ h).symm⟩ not_isSquare_fq

end Verif
