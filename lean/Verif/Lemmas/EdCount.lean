import Verif.Lemmas.Sampling
import Mathlib.SetTheory.Cardinal.Finite
import Mathlib.GroupTheory.Perm.Cycle.Type
import Mathlib.GroupTheory.Coset.Card

/-! The subgroup of prime order of the Edwards curve, its size, and sizes of fibres (helper; models
nothing in /repo). -/

set_option exponentiation.threshold 1000

namespace Verif

open Finset

/-- The fibres of a surjective homomorphism all have the same size. -/
theorem card_fibre {G H : Type*} [AddCommGroup G] [AddCommGroup H] [Finite G] [Finite H] (f : G →+ H)
    (hf : Function.Surjective f) (h : H) : Nat.card H * Nat.card {g // f g = h} = Nat.card G := by
  have := Fintype.ofFinite H
  have e : ∀ h', Nat.card {g // f g = h'} = Nat.card {g // f g = h} := by
    intro h'
    obtain ⟨d, hd⟩ := hf (h - h')
    refine Nat.card_congr ⟨fun g => ⟨g.1 + d, by rw [map_add, g.2, hd, add_sub_cancel]⟩,
      fun g => ⟨g.1 - d, by rw [map_sub, g.2, hd, sub_sub_cancel]⟩, fun g => ?_, fun g => ?_⟩
    · simp
    · simp
  rw [← Nat.card_congr (Equiv.sigmaFiberEquiv f), Nat.card_sigma, sum_congr rfl fun h' _ => e h',
    sum_const, card_univ, Nat.card_eq_fintype_card, smul_eq_mul]

/-- The subgroup of prime order. -/
def edSubgroup : AddSubgroup EdPoint := (nsmulAddMonoidHom ED_ORDER).ker

theorem mem_edSubgroup {P : EdPoint} : P ∈ edSubgroup ↔ ED_ORDER • P = 0 := by
  unfold edSubgroup
  rw [AddMonoidHom.mem_ker]
  rfl

/-- Only zero is annihilated by the order and by a power of two. -/
theorem ed_torsion {P : EdPoint} (h : ED_ORDER • P = 0) (h8 : 8 • P = 0) : P = 0 := by
  have hc : Nat.Coprime ED_ORDER 8 := by decide +kernel
  have h1 := addOrderOf_dvd_of_nsmul_eq_zero h
  have h2 := addOrderOf_dvd_of_nsmul_eq_zero h8
  have h3 := Nat.dvd_gcd h1 h2
  rw [hc] at h3
  exact AddMonoid.addOrderOf_eq_one_iff.mp (Nat.dvd_one.mp h3)

theorem card_edSubgroup : Nat.card edSubgroup = ED_ORDER := by
  have hdvd : Nat.card edSubgroup ∣ 8 * ED_ORDER := ed_card ▸ edSubgroup.card_addSubgroup_dvd_card
  have hs : ED_ORDER ∣ Nat.card edSubgroup := by
    have := addOrderOf_dvd_natCard (⟨edBase, mem_edSubgroup.mpr edBase_order⟩ : edSubgroup)
    rwa [AddSubgroup.addOrderOf_mk, edBase_addOrderOf] at this
  obtain ⟨d, hd⟩ := hs
  have hpos : 0 < ED_ORDER := by decide +kernel
  have hd8 : d ∣ 8 := by
    rw [hd, mul_comm 8] at hdvd
    exact Nat.dvd_of_mul_dvd_mul_left hpos hdvd
  have hodd : ¬ 2 ∣ d := by
    intro h2
    have := Fact.mk Nat.prime_two
    obtain ⟨x, hx⟩ := exists_prime_addOrderOf_dvd_card' (G := edSubgroup) 2 (hd ▸ h2.mul_left _)
    have h0 : (x : EdPoint) = 0 := by
      apply ed_torsion (mem_edSubgroup.mp x.2)
      have h2x : 2 • x = 0 := hx ▸ addOrderOf_nsmul_eq_zero x
      have : 8 • x = 0 := by rw [show 8 = 4 * 2 from rfl, mul_nsmul', h2x, nsmul_zero]
      exact_mod_cast congrArg Subtype.val this
    have : x = 0 := Subtype.ext h0
    rw [this, addOrderOf_zero] at hx
    cases hx
  have hd1 : d = 1 := by
    have hle := Nat.le_of_dvd (by norm_num) hd8
    interval_cases d <;> revert hd8 hodd <;> decide
  rw [hd, hd1, mul_one]

/-- Multiplication by the cofactor, onto the subgroup. -/
def edClear : EdPoint →+ edSubgroup where
  toFun P := ⟨8 • P, mem_edSubgroup.mpr (ed_cofactor_order P)⟩
  map_zero' := Subtype.ext (nsmul_zero 8)
  map_add' P Q := Subtype.ext (nsmul_add P Q 8)

theorem edClear_surjective : Function.Surjective edClear := by
  have hinj : Function.Injective fun P : edSubgroup => edClear P := by
    intro P Q h
    have h : 8 • (P : EdPoint) = 8 • (Q : EdPoint) := congrArg Subtype.val h
    have h2 := ed_torsion (P := (P : EdPoint) - Q)
      (by rw [nsmul_sub, mem_edSubgroup.mp P.2, mem_edSubgroup.mp Q.2, sub_zero])
      (by rw [nsmul_sub, h, sub_self])
    exact Subtype.ext (sub_eq_zero.mp h2)
  intro B
  obtain ⟨P, hP⟩ := Finite.surjective_of_injective hinj B
  exact ⟨P, hP⟩

theorem card_clear (B : edSubgroup) : Nat.card {P : EdPoint // edClear P = B} = 8 := by
  have h := card_fibre edClear edClear_surjective B
  rw [ed_card, card_edSubgroup, mul_comm 8] at h
  exact Nat.eq_of_mul_eq_mul_left (by decide +kernel) h

/-- Combinations of elements of the subgroup. -/
def edCombination (n : ℕ) (c : ℕ → ℤ) : (Fin n → edSubgroup) →+ edSubgroup where
  toFun b := ∑ i : Fin n, c i • b i
  map_zero' := by simp
  map_add' b b' := by simp [sum_add_distrib]

theorem edCombination_surjective {n : ℕ} {c : ℕ → ℤ} {i : ℕ} (hi : i < n) (hc : ¬ (ED_ORDER : ℤ) ∣ c i) :
    Function.Surjective (edCombination n c) := by
  intro B
  have hcop : IsCoprime (c i) (ED_ORDER : ℤ) :=
    ((Nat.prime_iff_prime_int.mp ed_order_prime).coprime_iff_not_dvd.mpr hc).symm
  obtain ⟨u, v, huv⟩ := hcop
  have hB : ED_ORDER • B = 0 := Subtype.ext (mem_edSubgroup.mp B.2)
  refine ⟨Pi.single ⟨i, hi⟩ (u • B), ?_⟩
  change ∑ j : Fin n, c j • (Pi.single ⟨i, hi⟩ (u • B) : Fin n → edSubgroup) j = B
  rw [sum_eq_single ⟨i, hi⟩]
  · rw [Pi.single_eq_same, ← mul_zsmul, mul_comm]
    conv_rhs => rw [← one_zsmul B, ← huv, add_zsmul, mul_zsmul _ v, natCast_zsmul, hB, zsmul_zero, add_zero]
  · intro j _ hj
    rw [Pi.single_eq_of_ne hj, zsmul_zero]
  · intro h; exact absurd (mem_univ _) h

theorem card_combination {n : ℕ} {c : ℕ → ℤ} {i : ℕ} (hi : i < n) (hc : ¬ (ED_ORDER : ℤ) ∣ c i)
    (B : edSubgroup) : Nat.card {b // edCombination n c b = B} = ED_ORDER ^ (n - 1) := by
  have h := card_fibre (edCombination n c) (edCombination_surjective hi hc) B
  obtain ⟨k, rfl⟩ : ∃ k, n = k + 1 := ⟨n - 1, by omega⟩
  rw [Nat.card_fun, Nat.card_eq_fintype_card (α := Fin (k + 1)), Fintype.card_fin, card_edSubgroup,
    pow_succ, mul_comm (ED_ORDER ^ k)] at h
  exact Nat.eq_of_mul_eq_mul_left (by decide +kernel) h

end Verif
