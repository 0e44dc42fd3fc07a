import Verif.Lemmas.Torsion
import Verif.Lemmas.G1Order
import Verif.Lemmas.HashGadget
import Verif.Props.HashToCurve

/-! Counting the digests that decode to a given group element (helper; models nothing in /repo). -/

set_option exponentiation.threshold 800

namespace Verif

open WeierstrassCurve

/-- Byte strings of a length correspond to the numbers below a power of 256. -/
theorem ncard_bytes (n : ℕ) (p : ℕ → Prop) :
    {d : Bytes | d.length = n ∧ p (leValue d)}.ncard = {N : ℕ | N < 256 ^ n ∧ p N}.ncard := by
  have e : {N : ℕ | N < 256 ^ n ∧ p N} = leValue '' {d : Bytes | d.length = n ∧ p (leValue d)} := by
    ext N
    simp only [Set.mem_ofPred_eq, Set.mem_image]
    constructor
    · rintro ⟨h1, h2⟩
      have hv : leValue (leBytes n N) = N := by rw [leBytes_value, Nat.mod_eq_of_lt h1]
      exact ⟨leBytes n N, ⟨leBytes_length _ _, by rw [hv]; exact h2⟩, hv⟩
    · rintro ⟨d, ⟨h1, h2⟩, rfl⟩
      exact ⟨h1 ▸ leValue_lt d, h2⟩
  rw [e, Set.InjOn.ncard_image]
  intro a ha b hb h
  exact leValue_inj (ha.1.trans hb.1.symm) h

theorem first48_of_64 (d : Bytes) (h : d.length = 64) : first48 d = leValue d % 2 ^ 384 := by
  unfold first48
  conv_rhs => rw [← List.take_append_drop 48 d, leValue_append]
  have hl : (d.take 48).length = 48 := by simp [h]
  have := leValue_lt (d.take 48)
  rw [hl] at this ⊢
  rw [show (256 : ℕ) ^ 48 = 2 ^ 384 by norm_num] at this ⊢
  rw [Nat.add_mul_mod_self_left, Nat.mod_eq_of_lt this]

/-- The numbers below `2 ^ n` with given low bits. -/
theorem ncard_low (a n v : ℕ) (han : a ≤ n) (hv : v < 2 ^ a) :
    {N : ℕ | N < 2 ^ n ∧ N % 2 ^ a = v}.ncard = 2 ^ (n - a) := by
  have hn : 2 ^ n = 2 ^ a * 2 ^ (n - a) := by rw [← pow_add]; congr 1; omega
  have e : {N : ℕ | N < 2 ^ n ∧ N % 2 ^ a = v} =
      (fun k => v + 2 ^ a * k) '' (Finset.range (2 ^ (n - a)) : Set ℕ) := by
    ext N
    simp only [Set.mem_ofPred_eq, Set.mem_image, Finset.coe_range, Set.mem_Iio]
    constructor
    · rintro ⟨h1, h2⟩
      refine ⟨N / 2 ^ a, ?_, ?_⟩
      · rw [Nat.div_lt_iff_lt_mul (by positivity), mul_comm, ← hn]
        exact h1
      · rw [← h2]
        exact Nat.mod_add_div _ _
    · rintro ⟨k, hk, rfl⟩
      refine ⟨?_, by rw [Nat.add_mul_mod_self_left, Nat.mod_eq_of_lt hv]⟩
      rw [hn]
      calc v + 2 ^ a * k < 2 ^ a + 2 ^ a * k := by omega
        _ = 2 ^ a * (k + 1) := by ring
        _ ≤ 2 ^ a * 2 ^ (n - a) := Nat.mul_le_mul_left _ hk
  rw [e, Set.InjOn.ncard_image, Set.ncard_coe_finset, Finset.card_range]
  intro k _ k' _ h
  have : 0 < 2 ^ a := by positivity
  exact Nat.eq_of_mul_eq_mul_left this (Nat.add_left_cancel h)

/-- The numbers below `2 ^ n` with given low bits and another given bit. -/
theorem ncard_low_bit (a s n v : ℕ) (b : Bool) (has : a ≤ s) (hsn : s < n) (hv : v < 2 ^ a) :
    {N : ℕ | N < 2 ^ n ∧ N % 2 ^ a = v ∧ N.testBit s = b}.ncard = 2 ^ (n - a - 1) := by
  have hfin : ∀ b, {N : ℕ | N < 2 ^ n ∧ N % 2 ^ a = v ∧ N.testBit s = b}.Finite := fun b =>
    (Set.finite_Iio (2 ^ n)).subset fun N h => h.1
  have hflip : ∀ b, {N : ℕ | N < 2 ^ n ∧ N % 2 ^ a = v ∧ N.testBit s = b}.ncard ≤
      {N : ℕ | N < 2 ^ n ∧ N % 2 ^ a = v ∧ N.testBit s = !b}.ncard := by
    intro b
    refine Set.ncard_le_ncard_of_injOn (fun N => N ^^^ 2 ^ s) ?_ ?_ (hfin _)
    · rintro N ⟨h1, h2, h3⟩
      refine ⟨Nat.xor_lt_two_pow h1 (Nat.pow_lt_pow_right (by norm_num) hsn), ?_, ?_⟩
      · rw [← h2]
        apply Nat.eq_of_testBit_eq
        intro i
        rw [Nat.testBit_mod_two_pow, Nat.testBit_mod_two_pow, Nat.testBit_xor]
        by_cases hi : i < a
        · rw [Nat.testBit_two_pow_of_ne (by omega)]
          simp
        · simp [hi]
      · rw [Nat.testBit_xor, h3, Nat.testBit_two_pow_self]
        simp
    · intro N _ N' _ h
      exact Nat.xor_left_inj.mp h
  have hboth : {N : ℕ | N < 2 ^ n ∧ N % 2 ^ a = v ∧ N.testBit s = true}.ncard +
      {N : ℕ | N < 2 ^ n ∧ N % 2 ^ a = v ∧ N.testBit s = false}.ncard = 2 ^ (n - a) := by
    rw [← ncard_low a n v (by omega) hv, ← Set.ncard_union_eq ?_ (hfin _) (hfin _)]
    · congr 1
      ext N
      simp only [Set.mem_union, Set.mem_ofPred_eq]
      cases N.testBit s <;> simp
    · rw [Set.disjoint_left]
      rintro N ⟨_, _, h⟩ ⟨_, _, h'⟩
      rw [h] at h'
      cases h'
  have h1 := hflip true
  have h2 := hflip false
  simp only [Bool.not_true, Bool.not_false] at h1 h2
  have h3 : 2 ^ (n - a) = 2 * 2 ^ (n - a - 1) := by
    rw [← pow_succ']; congr 1; omega
  cases b <;> omega

/-- Counting numbers by their low bits and one more bit. -/
theorem ncard_by_low_bit (a s n : ℕ) (has : a ≤ s) (hsn : s < n) (S : Set (ℕ × Bool))
    (hS : ∀ p ∈ S, p.1 < 2 ^ a) :
    {N : ℕ | N < 2 ^ n ∧ (N % 2 ^ a, N.testBit s) ∈ S}.ncard = S.ncard * 2 ^ (n - a - 1) := by
  classical
  have hSfin : S.Finite := by
    refine (((Set.finite_Iio (2 ^ a)).prod (Set.finite_univ (α := Bool)))).subset ?_
    rintro ⟨v, b⟩ h
    exact ⟨hS _ h, Set.mem_univ _⟩
  have hfin : {N : ℕ | N < 2 ^ n ∧ (N % 2 ^ a, N.testBit s) ∈ S}.Finite :=
    (Set.finite_Iio (2 ^ n)).subset fun N h => h.1
  rw [Set.ncard_eq_toFinset_card _ hfin, Set.ncard_eq_toFinset_card _ hSfin,
    Finset.card_eq_sum_card_fiberwise (f := fun N => (N % 2 ^ a, N.testBit s)) (t := hSfin.toFinset)
      (by
        intro N hN
        simp only [Set.Finite.coe_toFinset] at hN ⊢
        exact hN.2),
    Finset.sum_const_nat (m := 2 ^ (n - a - 1))]
  rintro ⟨v, b⟩ hp
  have hp' : (v, b) ∈ S := hSfin.mem_toFinset.mp hp
  rw [← ncard_low_bit a s n v b has hsn (hS _ hp'), ← Set.ncard_coe_finset]
  congr 1
  ext N
  simp only [Finset.coe_filter, Set.Finite.mem_toFinset, Set.mem_ofPred_eq, Prod.mk.injEq]
  constructor
  · rintro ⟨⟨h1, _⟩, h3⟩
    exact ⟨h1, h3⟩
  · rintro ⟨h1, h2, h3⟩
    exact ⟨⟨h1, by rw [h2, h3]; exact hp'⟩, h2, h3⟩

/-- The pairs of an abscissa and a sign bit that yield `g`. -/
def pairsOf (g : G1Point) : Set (ℕ × Bool) :=
  {p | p.1 < FQ_MODULUS ∧ ∃ y : Fq, y * y = (p.1 : Fq) ^ 3 + 1 ∧
    (if p.2 then (-y).val ≤ y.val else y.val ≤ (-y).val) ∧ g1Scale (.finite (p.1 : Fq) y) = g}

open Classical in
/-- The abscissa and sign of a point. -/
noncomputable def pairOf : G1Point → ℕ × Bool
  | .zero => (0, false)
  | .some x y _ => (x.val, decide ((-y).val ≤ y.val))

theorem ncard_pairsOf {g : G1Point} (h0 : g ≠ 0) :
    (pairsOf g).ncard = {P : G1Point | G1_COFACTOR • P = g}.ncard := by
  have key : ∀ x y (h : g1Curve.Nonsingular x y), G1_COFACTOR • (Affine.Point.some x y h) = g →
      y * y = x ^ 3 + 1 ∧ y ≠ 0 ∧ g1Scale (.finite x y) = g := by
    intro x y h e
    have e' : g1Scale (.finite x y) = g := by simp only [g1Scale, dif_pos h]; exact e
    refine ⟨by rw [← (g1_nonsingular_iff x y).mp h]; ring, ?_, e'⟩
    rintro rfl
    exact h0 (e'.symm.trans (g1Scale_zero_y x))
  have himg : pairsOf g = pairOf '' {P : G1Point | G1_COFACTOR • P = g} := by
    ext ⟨v, b⟩
    constructor
    · rintro ⟨h1, y, h2, h3, h4⟩
      simp only at h1 h2 h3 h4
      have hns := g1_nonsingular _ _ h2
      have h4' := h4
      simp only [g1Scale, dif_pos hns] at h4'
      refine ⟨.some _ _ hns, h4', ?_⟩
      obtain ⟨_, hy, _⟩ := key _ _ hns h4'
      simp only [pairOf, Prod.mk.injEq]
      refine ⟨ZMod.val_cast_of_lt h1, ?_⟩
      cases b with
      | true => simpa using h3
      | false =>
        simp only [Bool.false_eq_true, if_false] at h3
        simp only [decide_eq_false_iff_not, not_le]
        refine lt_of_le_of_ne h3 fun e => hy ?_
        have e2 : y = -y := ZMod.val_injective _ e
        have two : (2 : Fq) ≠ 0 := by decide +kernel
        have : 2 * y = 0 := by linear_combination e2
        exact (mul_eq_zero.mp this).resolve_left two
    · rintro ⟨P, hP, e⟩
      cases P with
      | zero => exact absurd (hP.symm.trans (nsmul_zero _)) h0
      | some x y h =>
        obtain ⟨h2, hy, h4⟩ := key x y h hP
        simp only [pairOf, Prod.mk.injEq] at e
        obtain ⟨rfl, rfl⟩ := e
        refine ⟨ZMod.val_lt x, y, by simp only [ZMod.natCast_zmod_val]; exact h2, ?_,
          by simp only [ZMod.natCast_zmod_val]; exact h4⟩
        by_cases hle : (-y).val ≤ y.val
        · simp [hle]
        · simp only [hle, decide_false, Bool.false_eq_true, if_false]
          exact (not_le.mp hle).le
  rw [himg, Set.InjOn.ncard_image]
  intro P hP Q hQ e
  cases P with
  | zero => exact absurd (hP.symm.trans (nsmul_zero _)) h0
  | some x y h =>
    cases Q with
    | zero => exact absurd (hQ.symm.trans (nsmul_zero _)) h0
    | some x' y' h' =>
      obtain ⟨a2, ay, _⟩ := key x y h hP
      obtain ⟨b2, by', _⟩ := key x' y' h' hQ
      simp only [pairOf, Prod.mk.injEq] at e
      obtain ⟨e1, e2⟩ := e
      have ex : x = x' := ZMod.val_injective _ e1
      subst ex
      have ey : y = y' := by
        refine root_unique (g := decide ((-y).val ≤ y.val)) a2 b2 ?_ ?_
        · by_cases hle : (-y).val ≤ y.val
          · simp [hle]
          · simp only [hle, decide_false, Bool.false_eq_true, if_false]
            exact (not_le.mp hle).le
        · rw [e2]
          by_cases hle : (-y').val ≤ y'.val
          · simp [hle]
          · simp only [hle, decide_false, Bool.false_eq_true, if_false]
            exact (not_le.mp hle).le
      subst ey
      rfl

theorem signBit_range (compat : Bool) : 377 ≤ signBit compat ∧ signBit compat < 384 := by
  cases compat <;> simp [signBit]

theorem yields_iff_pair (compat : Bool) {g : G1Point} (h0 : g ≠ 0) (d : Bytes)
    (hd : d.length = 64) :
    Yields compat g1Scale d g ↔
      (leValue d % 2 ^ 377, (leValue d).testBit (signBit compat)) ∈ pairsOf g := by
  obtain ⟨hs1, hs2⟩ := signBit_range compat
  have hm : first48 d % 2 ^ 377 = leValue d % 2 ^ 377 := by
    rw [first48_of_64 d hd, Nat.mod_mod_of_dvd]
    exact pow_dvd_pow 2 (by norm_num)
  have ht : (first48 d).testBit (signBit compat) = (leValue d).testBit (signBit compat) := by
    rw [first48_of_64 d hd, Nat.testBit_mod_two_pow]
    simp [hs2]
  unfold Yields
  constructor
  · rintro ⟨_, _, P, hP, e⟩
    cases P with
    | infinity => exact absurd e.symm h0
    | finite x y =>
      obtain ⟨h1, _, rfl, h4, h5⟩ := hP
      rw [hm] at h1 h4 e
      rw [ht] at h5
      exact ⟨h1, y, h4, h5, e⟩
  · rintro ⟨h1, y, h2, h3, h4⟩
    simp only at h1 h2 h3 h4
    refine ⟨by omega, h0, .finite _ y, ⟨?_, ?_, ?_, h2, ?_⟩, h4⟩
    · rw [hm]; exact h1
    · rintro ⟨hz, _⟩
      rw [hm] at hz
      rw [hz, Nat.cast_zero] at h2 h4
      exact h0 (h4.symm.trans (g1Scale_zero_x y (by rw [h2]; ring)))
    · rw [hm]
    · rw [ht]; exact h3

/-- The number of 64-byte digests yielding `g`. -/
theorem ncard_yields (compat : Bool) {g : G1Point} (hg : FR_MODULUS • g = 0) (h0 : g ≠ 0) :
    {d : Bytes | d.length = 64 ∧ Yields compat g1Scale d g}.ncard = G1_COFACTOR * 2 ^ 134 := by
  obtain ⟨hs1, hs2⟩ := signBit_range compat
  have e : {d : Bytes | d.length = 64 ∧ Yields compat g1Scale d g} =
      {d : Bytes | d.length = 64 ∧
        (leValue d % 2 ^ 377, (leValue d).testBit (signBit compat)) ∈ pairsOf g} := by
    ext d
    simp only [Set.mem_ofPred_eq]
    exact and_congr_right fun hd => yields_iff_pair compat h0 d hd
  rw [e, ncard_bytes 64 fun N => (N % 2 ^ 377, N.testBit (signBit compat)) ∈ pairsOf g,
    show (256 : ℕ) ^ 64 = 2 ^ 512 by norm_num,
    ncard_by_low_bit 377 (signBit compat) 512 hs1 (by omega) (pairsOf g), ncard_pairsOf h0,
    ncard_fibre g1_card cofactor_coprime FR_prime hg]
  rintro ⟨v, b⟩ ⟨h1, _⟩
  exact h1.trans (by unfold FQ_MODULUS; norm_num)

end Verif
