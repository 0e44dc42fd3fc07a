import Mathlib.NumberTheory.LucasPrimality
import Mathlib.Data.Nat.Prime.Basic
import Mathlib.Data.List.Prime

/-! Pratt primality certificates evaluated by the kernel's natural-number arithmetic. -/

namespace Verif

/-- Binary exponentiation with fuel (helper for certificates; models nothing in /repo). -/
def powModAux : ℕ → ℕ → ℕ → ℕ → ℕ → ℕ
  | 0, _, _, _, acc => acc
  | f + 1, a, n, m, acc =>
    powModAux f (a * a % m) (n / 2) m (if n % 2 = 1 then acc * a % m else acc)

theorem powModAux_spec (f a n m acc : ℕ) (h : n < 2 ^ f) :
    powModAux f a n m acc ≡ acc * a ^ n [MOD m] := by
  induction f generalizing a n acc with
  | zero => simp at h; subst h; simp [powModAux]; rfl
  | succ f ih =>
    have hn : n / 2 < 2 ^ f := by omega
    refine (ih _ _ _ hn).trans ?_
    have h2 : (a * a % m) ^ (n / 2) ≡ a ^ (2 * (n / 2)) [MOD m] := by
      rw [pow_mul, pow_two]; exact (Nat.mod_modEq _ _).pow _
    have hnn : n = 2 * (n / 2) + n % 2 := by omega
    rcases Nat.mod_two_eq_zero_or_one n with h0 | h1
    · rw [h0] at hnn ⊢
      simp only [zero_ne_one, if_false]
      conv_rhs => rw [hnn]
      exact h2.mul_left acc
    · rw [h1] at hnn ⊢
      simp only [if_true]
      refine ((Nat.mod_modEq _ _).mul h2).trans ?_
      conv_rhs => rw [hnn, pow_succ]
      rw [Nat.mul_assoc, Nat.mul_comm a]

theorem powModAux_cast {f a n m : ℕ} (h : n < 2 ^ f) :
    ((powModAux f a n m 1 : ℕ) : ZMod m) = (a : ZMod m) ^ n := by
  have := (ZMod.natCast_eq_natCast_iff _ _ _).2 (powModAux_spec f a n m 1 h)
  simpa using this

/-- Certificate checker. -/
theorem pratt (p a f : ℕ) (facs : List ℕ) (hp : ∀ q ∈ facs, q.Prime) (hprod : facs.prod = p - 1)
    (hf : p - 1 < 2 ^ f) (h1 : powModAux f a (p - 1) p 1 = 1)
    (h2 : ∀ q ∈ facs, ¬ powModAux f a ((p - 1) / q) p 1 % p = 1 % p) : p.Prime := by
  refine lucas_primality p (a : ZMod p) ?_ ?_
  · rw [← powModAux_cast hf, h1]; simp
  · intro q hq hdvd hc
    have hmem : q ∈ facs := by
      rw [← hprod] at hdvd
      have hq' := hq
      obtain ⟨a, ha, hqa⟩ := (Prime.dvd_prod_iff hq.prime).1 hdvd
      rwa [(Nat.prime_dvd_prime_iff_eq hq (hp a ha)).1 hqa]
    refine h2 q hmem ?_
    have hlt : (p - 1) / q < 2 ^ f := lt_of_le_of_lt (Nat.div_le_self _ _) hf
    rw [← powModAux_cast hlt] at hc
    have : ((powModAux f a ((p - 1) / q) p 1 : ℕ) : ZMod p) = ((1 : ℕ) : ZMod p) := by
      rw [hc]; simp
    exact (ZMod.natCast_eq_natCast_iff _ _ _).1 this

end Verif
