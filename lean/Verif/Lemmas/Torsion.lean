import Mathlib.GroupTheory.OrderOfElement
import Mathlib.GroupTheory.Perm.Cycle.Type
import Mathlib.GroupTheory.Index
import Mathlib.Data.Set.Card

/-! Multiplication by the cofactor in a finite commutative group whose order is a cofactor times a
prime not dividing it (helper; models nothing in /repo). -/

set_option linter.unusedSectionVars false

namespace Verif

variable {A : Type*} [AddCommGroup A] [Finite A] {h r : ℕ}

theorem dvd_of_card_killed {B : Type*} [AddCommGroup B] [Finite B] {n p : ℕ} (hp : p.Prime)
    (hB : ∀ x : B, n • x = 0) (hd : p ∣ Nat.card B) : p ∣ n := by
  have := Fact.mk hp
  obtain ⟨x, hx⟩ := exists_prime_addOrderOf_dvd_card' p hd
  rw [← hx]
  exact addOrderOf_dvd_of_nsmul_eq_zero (hB x)

theorem coprime_card_killed {B : Type*} [AddCommGroup B] [Finite B] {n m : ℕ}
    (hB : ∀ x : B, n • x = 0) (hc : Nat.Coprime n m) : Nat.Coprime (Nat.card B) m := by
  rw [Nat.coprime_iff_gcd_eq_one]
  by_contra hne
  obtain ⟨p, hp, hd⟩ := Nat.exists_prime_and_dvd hne
  have h1 := dvd_of_card_killed hp hB (hd.trans (Nat.gcd_dvd_left _ _))
  have h2 := hd.trans (Nat.gcd_dvd_right _ _)
  have := Nat.dvd_gcd h1 h2
  rw [hc] at this
  exact hp.one_lt.ne' (Nat.dvd_one.mp this)

/-- Multiplication by `n`. -/
def mulHom (A : Type*) [AddCommGroup A] (n : ℕ) : A →+ A := nsmulAddMonoidHom n

theorem mulHom_apply (n : ℕ) (x : A) : mulHom A n x = n • x := rfl

theorem nsmul_nsmul_card (hA : Nat.card A = h * r) (P : A) : r • (h • P) = 0 := by
  rw [← mul_nsmul, ← hA]
  exact card_nsmul_eq_zero'

/-- The image of the cofactor is the part killed by `r`. -/
theorem killed_iff_scaled (hA : Nat.card A = h * r) (hc : Nat.Coprime h r) (hr : 1 < r) (P : A) :
    r • P = 0 ↔ ∃ Q, h • Q = P := by
  constructor
  · intro hP
    obtain ⟨a, -, ha⟩ := Nat.exists_mul_mod_eq_one_of_coprime hc hr
    refine ⟨a • P, ?_⟩
    have e : a * h = r * (h * a / r) + 1 := by
      rw [mul_comm a h, ← ha]
      exact (Nat.div_add_mod _ _).symm
    rw [← mul_nsmul, e, add_nsmul, one_nsmul, mul_nsmul, hP, nsmul_zero, zero_add]
  · rintro ⟨Q, rfl⟩
    exact nsmul_nsmul_card hA Q

theorem card_ker_range (hA : Nat.card A = h * r) (hc : Nat.Coprime h r) :
    Nat.card (mulHom A h).ker = h ∧ Nat.card (mulHom A h).range = r := by
  have hk : ∀ x : (mulHom A h).ker, h • x = 0 := fun x => Subtype.ext x.2
  have hg : ∀ x : (mulHom A h).range, r • x = 0 := by
    rintro ⟨_, Q, rfl⟩
    exact Subtype.ext (nsmul_nsmul_card hA Q)
  have c1 := coprime_card_killed hk hc
  have c2 := coprime_card_killed hg hc.symm
  have hm : Nat.card (mulHom A h).ker * Nat.card (mulHom A h).range = h * r := by
    rw [← AddSubgroup.index_ker, AddSubgroup.card_mul_index, hA]
  have d1 : Nat.card (mulHom A h).ker ∣ h := c1.dvd_of_dvd_mul_right (Dvd.intro _ hm)
  have d2 : h ∣ Nat.card (mulHom A h).ker :=
    c2.symm.dvd_of_dvd_mul_right (Dvd.intro _ hm.symm)
  have e1 := Nat.dvd_antisymm d1 d2
  refine ⟨e1, ?_⟩
  rw [e1] at hm
  have h0 : 0 < h := e1 ▸ Nat.card_pos
  exact Nat.eq_of_mul_eq_mul_left h0 hm

/-- Exactly `r` elements are killed by `r`. -/
theorem ncard_killed (hA : Nat.card A = h * r) (hc : Nat.Coprime h r) (hr : r.Prime) :
    {P : A | r • P = 0}.ncard = r := by
  have e : {P : A | r • P = 0} = ((mulHom A h).range : Set A) := by
    ext P
    rw [Set.mem_ofPred_eq, killed_iff_scaled hA hc hr.one_lt]
    rfl
  rw [e, ← (card_ker_range hA hc).2]
  exact (Nat.card_coe_set_eq _).symm

/-- Multiplication by the cofactor is `h`-to-one onto the elements killed by `r`. -/
theorem ncard_fibre (hA : Nat.card A = h * r) (hc : Nat.Coprime h r) (hr : r.Prime) {g : A}
    (hg : r • g = 0) : {P : A | h • P = g}.ncard = h := by
  obtain ⟨Q, rfl⟩ := (killed_iff_scaled hA hc hr.one_lt g).mp hg
  have e : {P : A | h • P = h • Q} = (fun K => K + Q) '' ((mulHom A h).ker : Set A) := by
    ext P
    simp only [Set.mem_ofPred_eq, Set.mem_image, SetLike.mem_coe, AddMonoidHom.mem_ker, mulHom_apply]
    constructor
    · intro hP
      exact ⟨P - Q, by rw [nsmul_sub, hP, sub_self], sub_add_cancel _ _⟩
    · rintro ⟨K, hK, rfl⟩
      rw [nsmul_add, hK, zero_add]
  rw [e, Set.ncard_image_of_injective _ (add_left_injective Q)]
  refine Eq.trans ?_ (card_ker_range hA hc).1
  exact (Nat.card_coe_set_eq _).symm

/-- Every non-zero element killed by `r` generates all of them. -/
theorem killed_generated (hA : Nat.card A = h * r) (hc : Nat.Coprime h r) (hr : r.Prime) {g P : A}
    (hg : r • g = 0) (h0 : g ≠ 0) (hP : r • P = 0) : ∃ k < r, P = k • g := by
  have := Fact.mk hr
  have ho : addOrderOf g = r := addOrderOf_eq_prime hg h0
  have hsub : ((fun k => k • g) '' ((Finset.range r : Finset ℕ) : Set ℕ)) ⊆ {P : A | r • P = 0} := by
    rintro _ ⟨k, -, rfl⟩
    simp only [Set.mem_ofPred_eq]
    rw [nsmul_left_comm, hg, nsmul_zero]
  have hcard : ((fun k => k • g) '' ((Finset.range r : Finset ℕ) : Set ℕ)).ncard = r := by
    rw [Set.InjOn.ncard_image, Set.ncard_coe_finset, Finset.card_range]
    intro a ha b hb e
    simp only [Finset.coe_range, Set.mem_Iio] at ha hb
    rw [← ho] at ha hb
    exact nsmul_injOn_Iio_addOrderOf ha hb e
  have heq := Set.eq_of_subset_of_ncard_le hsub (by rw [hcard, ncard_killed hA hc hr])
    (Set.toFinite _)
  have hm : P ∈ {P : A | r • P = 0} := hP
  rw [← heq] at hm
  obtain ⟨k, hk, rfl⟩ := hm
  exact ⟨k, by simpa using hk, rfl⟩

end Verif
