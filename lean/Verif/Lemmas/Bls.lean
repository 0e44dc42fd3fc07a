import Verif.Model.Bls
import Mathlib.Tactic.Abel
import Mathlib.Algebra.BigOperators.Group.List.Basic

/-! Helper lemmas about pairings and list sums. -/

namespace Verif

section
variable {r : ℕ} {G1 G2 GT : Type*} [AddCommGroup G1] [Module (ZMod r) G1]
  [AddCommGroup G2] [Module (ZMod r) G2] [CommGroup GT]

namespace Pairing
variable (P : Pairing r G1 G2 GT)

theorem zero_left (Q : G2) : P.e 0 Q = 1 := by
  have h := P.add_left 0 0 Q
  rw [add_zero] at h
  exact left_eq_mul.1 h

theorem zero_right (A : G1) : P.e A 0 = 1 := by
  have h := P.add_right A 0 0
  rw [add_zero] at h
  exact left_eq_mul.1 h

theorem neg_left (A : G1) (Q : G2) : P.e (-A) Q = (P.e A Q)⁻¹ := by
  have h := P.add_left (-A) A Q
  rw [neg_add_cancel, P.zero_left] at h
  exact eq_inv_of_mul_eq_one_left h.symm

theorem neg_right (A : G1) (Q : G2) : P.e A (-Q) = (P.e A Q)⁻¹ := by
  have h := P.add_right A (-Q) Q
  rw [neg_add_cancel, P.zero_right] at h
  exact eq_inv_of_mul_eq_one_left h.symm

theorem nsmul_left (n : ℕ) (A : G1) (Q : G2) : P.e (n • A) Q = P.e A Q ^ n := by
  induction n with
  | zero => simp [P.zero_left]
  | succ n ih => rw [succ_nsmul, P.add_left, ih, pow_succ]

theorem nsmul_right (n : ℕ) (A : G1) (Q : G2) : P.e A (n • Q) = P.e A Q ^ n := by
  induction n with
  | zero => simp [P.zero_right]
  | succ n ih => rw [succ_nsmul, P.add_right, ih, pow_succ]

theorem smul_swap [NeZero r] (s : ZMod r) (A : G1) (Q : G2) : P.e (s • A) Q = P.e A (s • Q) := by
  have h1 : s • A = s.val • A := by
    conv_lhs => rw [← ZMod.natCast_zmod_val s]
    exact Nat.cast_smul_eq_nsmul _ _ _
  have h2 : s • Q = s.val • Q := by
    conv_lhs => rw [← ZMod.natCast_zmod_val s]
    exact Nat.cast_smul_eq_nsmul _ _ _
  rw [h1, h2, P.nsmul_left, P.nsmul_right]

theorem e_g2_inj {A B : G1} (h : P.e A P.g2 = P.e B P.g2) : A = B := by
  have : P.e (A + -B) P.g2 = 1 := by rw [P.add_left, P.neg_left, h, mul_inv_cancel]
  have := P.nondeg _ this
  exact add_neg_eq_zero.1 this

/-- The two-pairing equation for a key with known discrete log. -/
theorem eq_one_iff [NeZero r] (sig h : G1) (s : ZMod r) :
    P.e sig (-P.g2) * P.e h (s • P.g2) = 1 ↔ sig = s • h := by
  rw [P.neg_right, ← P.smul_swap, inv_mul_eq_one]
  exact ⟨fun h => P.e_g2_inj h, fun h => by rw [h]⟩

end Pairing

theorem foldl_add_eq_sum {G : Type*} [AddCommGroup G] (l : List G) :
    l.foldl (· + ·) 0 = l.sum := by
  rw [List.sum_eq_foldl]

theorem aggregatePublicKeys_eq_sum (l : List G2) : aggregatePublicKeys l = l.sum :=
  foldl_add_eq_sum l

theorem aggregateSignatures_eq_sum (l : List G1) : aggregateSignatures l = l.sum :=
  foldl_add_eq_sum l

theorem productOfPairings_cons (P : Pairing r G1 G2 GT) (x : G1 × G2) (l : List (G1 × G2)) :
    productOfPairings P (x :: l) = P.e x.1 x.2 * productOfPairings P l := by
  simp [productOfPairings]

theorem productOfPairings_nil (P : Pairing r G1 G2 GT) :
    productOfPairings P [] = 1 := by
  simp [productOfPairings]

theorem productOfPairings_pair (P : Pairing r G1 G2 GT) (x y : G1 × G2) :
    productOfPairings P [x, y] = P.e x.1 x.2 * P.e y.1 y.2 := by
  simp [productOfPairings]

theorem productOfPairings_sig_iff [NeZero r] (P : Pairing r G1 G2 GT) (sig h : G1) (s : ZMod r) :
    productOfPairings P [(sig, -P.g2), (h, s • P.g2)] = 1 ↔ sig = s • h := by
  rw [productOfPairings_pair]; exact P.eq_one_iff sig h s

theorem verifySig_ok_iff [NeZero r] [DecidableEq GT] (P : Pairing r G1 G2 GT) (s : ZMod r)
    (dom msg extra : Bytes) (sig : G1) (H : HashToG1 G1) :
    verifySig P (s • P.g2) dom msg extra sig H = .ok () ↔
      ∃ h, H dom msg extra = .ok h ∧ sig = s • h := by
  unfold verifySig
  rw [Outcome.bind_eq_ok_iff]
  refine exists_congr fun h => and_congr_right fun _ => ?_
  rw [← productOfPairings_sig_iff P]
  split <;> simp [*]

theorem verifySig_failed [DecidableEq GT] (P : Pairing r G1 G2 GT) (pk : G2)
    (dom msg extra : Bytes) (sig : G1) (H : HashToG1 G1) (h : G1) (hH : H dom msg extra = .ok h)
    (hn : verifySig P pk dom msg extra sig H ≠ .ok ()) :
    verifySig P pk dom msg extra sig H = .err .verificationFailed := by
  unfold verifySig at *
  simp only [hH, Outcome.bind_ok] at *
  split at hn
  · simp at hn
  · rename_i h; rw [if_neg h]

theorem productOfPairings_eq_e [NeZero r] (P : Pairing r G1 G2 GT) (hs : List G1)
    (sks : List (ZMod r)) :
    productOfPairings P (hs.zip (sks.map (· • P.g2))) =
      P.e (List.zipWith (fun s h => s • h) sks hs).sum P.g2 := by
  induction hs generalizing sks with
  | nil => simp [productOfPairings_nil, P.zero_left]
  | cons h hs ih =>
    cases sks with
    | nil => simp [productOfPairings_nil, P.zero_left]
    | cons s sks =>
      simp only [List.map_cons, List.zip_cons_cons, productOfPairings_cons, ih,
        List.zipWith_cons_cons, List.sum_cons, P.add_left, P.smul_swap]

/-- Every list of public keys consists of multiples of the generator. -/
theorem Pairing.exists_dlogs (P : Pairing r G1 G2 GT) (pks : List G2) :
    ∃ sks : List (ZMod r), pks = sks.map (· • P.g2) := by
  induction pks with
  | nil => exact ⟨[], rfl⟩
  | cons q qs ih =>
    obtain ⟨s, hs⟩ := P.span2 q
    obtain ⟨ss, hss⟩ := ih
    exact ⟨s :: ss, by simp [← hss, ← hs]⟩

theorem multiScalarMul_eq_sum {G : Type*} [AddCommGroup G] [Module (ZMod r) G]
    (bs : List G) (xs : List (ZMod r)) :
    multiScalarMul bs xs = (List.zipWith (fun x b => x • b) xs bs).sum := by
  induction bs generalizing xs with
  | nil => simp [multiScalarMul]
  | cons b bs ih =>
    cases xs with
    | nil => simp [multiScalarMul]
    | cons x xs => simp [multiScalarMul, ih]

end
end Verif
