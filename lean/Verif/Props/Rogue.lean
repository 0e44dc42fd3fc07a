import Verif.Props.Bls
import Mathlib.Tactic.Module
import Mathlib.Tactic.NormNum.Prime

/-!
# Rogue keys and proofs of possession: C88

What an accepted aggregate says about one honest key when all the other keys were chosen by an
adversary, depending on it.
-/

set_option linter.unusedSectionVars false

namespace Verif

section
variable {r : ℕ} [NeZero r] {G1 G2 GT : Type*} [AddCommGroup G1] [Module (ZMod r) G1]
  [AddCommGroup G2] [Module (ZMod r) G2] [CommGroup GT] [DecidableEq GT]
  (P : Pairing r G1 G2 GT)

/-- **C88 (violated without proofs of possession).** Whatever keys the honest signers have, whoever
publishes one more key, computed from theirs and a secret `a` alone, can sign any message in the
name of all: the signature by `a` is accepted under the aggregate of all keys. -/
theorem C88_rogue (pks : List G2) (a : ZMod r) (msg extra : Bytes) (H : HashToG1 G1) (sig : G1)
    (hs : sign a msg extra H = .ok sig) :
    verify P (aggregatePublicKeys (pks ++ [toPublic P a - aggregatePublicKeys pks])) msg extra sig H =
      .ok () := by
  have : aggregatePublicKeys (pks ++ [toPublic P a - aggregatePublicKeys pks]) = toPublic P a := by
    simp [aggregatePublicKeys_eq_sum]
  rw [this]
  exact (C01_sign_verify P a msg extra H sig hs sig).1 rfl

/-- **C88.** If the secrets of all other signers are known, an aggregate is accepted if and only if
what remains after taking out their signatures is the honest signer's own signature: a forged
aggregate is a forged signature. -/
theorem C88_known_secrets (pk : G2) (sks : List (ZMod r)) (msg extra : Bytes) (H : HashToG1 G1)
    (sig : G1) :
    verify P (aggregatePublicKeys (pk :: sks.map (toPublic P))) msg extra sig H = .ok () ↔
      ∃ sigs, Outcome.mapM (fun sk => sign sk msg extra H) sks = .ok sigs ∧
        verify P pk msg extra (sig - aggregateSignatures sigs) H = .ok () := by
  obtain ⟨s, rfl⟩ := P.span2 pk
  rw [aggregatePublicKeys_eq_sum, List.sum_cons, toPublic_sum, ← add_smul]
  unfold verify
  simp only [verifySig_ok_iff]
  have key : ∀ h, H SIG_DOMAIN msg extra = .ok h → ∀ l : List (ZMod r),
      Outcome.mapM (fun sk => sign sk msg extra H) l = .ok (l.map (· • h)) := fun h hh l => by
    rw [Outcome.mapM_eq_ok_iff, List.forall₂_map_right_iff, List.forall₂_same]
    intro x _
    simp [sign, signMessage, hh, signRaw]
  have sum : ∀ (h : G1) (l : List (ZMod r)), aggregateSignatures (l.map (· • h)) = l.sum • h := by
    intro h l
    rw [aggregateSignatures_eq_sum]
    induction l with
    | nil => simp
    | cons a as ih => rw [List.map_cons, List.sum_cons, List.sum_cons, ih, add_smul]
  constructor
  · rintro ⟨h, hh, rfl⟩
    exact ⟨_, key h hh sks, h, hh, by rw [sum]; module⟩
  · rintro ⟨sigs, h1, h, hh, h2⟩
    rw [key h hh] at h1
    cases h1
    rw [sum, sub_eq_iff_eq_add] at h2
    exact ⟨h, hh, by rw [h2, add_smul]⟩

/-- **C88.** The same for different messages: with the secrets of all the other keys of a batch, an
accepted batch contains the honest signer's signature on the message it is listed with. -/
theorem C88_known_secrets_batch (pk : G2) (m : Bytes × Bytes) (sks : List (ZMod r))
    (msgs : List (Bytes × Bytes)) (hl : sks.length = msgs.length) (H : HashToG1 G1) (sig : G1) :
    batchVerify P sig (pk :: sks.map (toPublic P)) SIG_DOMAIN (m :: msgs) H = .ok () ↔
      ∃ sigs, Outcome.mapM (fun x : ZMod r × Bytes × Bytes => sign x.1 x.2.1 x.2.2 H)
          (sks.zip msgs) = .ok sigs ∧
        verify P pk m.1 m.2 (sig - aggregateSignatures sigs) H = .ok () := by
  obtain ⟨s, rfl⟩ := P.span2 pk
  have hc : s • P.g2 :: sks.map (toPublic P) = (s :: sks).map (toPublic P) := rfl
  have signs : ∀ hs : List G1,
      List.Forall₂ (fun (m : Bytes × Bytes) h => H SIG_DOMAIN m.1 m.2 = .ok h) msgs hs →
      Outcome.mapM (fun x : ZMod r × Bytes × Bytes => sign x.1 x.2.1 x.2.2 H) (sks.zip msgs) =
        .ok (List.zipWith (fun s h => s • h) sks hs) := by
    intro hs hH
    rw [Outcome.mapM_eq_ok_iff]
    clear hc
    induction hH generalizing sks with
    | nil => cases sks <;> simp
    | cons h1 h2 ih =>
      cases sks with
      | nil => simp
      | cons k ks =>
        simp only [List.zip_cons_cons, List.zipWith_cons_cons]
        refine .cons ?_ (ih ks (by simpa using hl))
        simp [sign, signMessage, h1, signRaw]
  unfold verify
  rw [hc]
  simp only [verifySig_ok_iff]
  constructor
  · intro hb
    have hb' := hb
    unfold batchVerify at hb'
    rw [if_neg (by simp [hl]), Outcome.bind_eq_ok_iff] at hb'
    obtain ⟨hs, hH, -⟩ := hb'
    rw [Outcome.mapM_eq_ok_iff] at hH
    cases hH with
    | cons h1 h2 =>
      rename_i h hs
      refine ⟨_, signs hs h2, h, h1, ?_⟩
      by_contra hne
      have := (C06_exact P sig (s :: sks) SIG_DOMAIN (m :: msgs) H (h :: hs) (by simp [hl])
        (.cons h1 h2)).2 (fun he => hne (by
          rw [he, aggregateSignatures_eq_sum]; simp))
      rw [hb] at this
      cases this
  · rintro ⟨sigs, h1, h, hh, h2⟩
    have : ∃ hs : List G1,
        List.Forall₂ (fun (m : Bytes × Bytes) h => H SIG_DOMAIN m.1 m.2 = .ok h) msgs hs := by
      rw [Outcome.mapM_eq_ok_iff] at h1
      clear hc signs
      clear h2
      induction msgs generalizing sks sigs with
      | nil => exact ⟨[], .nil⟩
      | cons m' ms ih =>
        cases sks with
        | nil => simp at hl
        | cons k ks =>
          rw [List.zip_cons_cons] at h1
          cases h1 with
          | cons h3 h4 =>
            obtain ⟨hs, hH⟩ := ih ks (by simpa using hl) _ h4
            simp only [sign, signMessage, Outcome.bind_eq_ok_iff] at h3
            obtain ⟨h', hh', -⟩ := h3
            exact ⟨h' :: hs, .cons hh' hH⟩
    obtain ⟨hs, hH⟩ := this
    rw [signs hs hH] at h1
    cases h1
    refine (C06_exact P sig (s :: sks) SIG_DOMAIN (m :: msgs) H (h :: hs) (by simp [hl])
      (.cons hh hH)).1 ?_
    rw [aggregateSignatures_eq_sum, sub_eq_iff_eq_add] at h2
    rw [h2]
    simp

end

section
variable {r : ℕ} [Fact r.Prime] {G1 G2 GT : Type*} [AddCommGroup G1] [Module (ZMod r) G1]
  [AddCommGroup G2] [Module (ZMod r) G2] [CommGroup GT] [DecidableEq GT]
  (P : Pairing r G1 G2 GT)

/-- **C88.** What a proof of possession adds.  For a key `a g + c pk` that depends on the honest key
(`c ≠ 0`), a proof of possession over any message is exactly a proof of possession by the honest key
over that message, up to a factor and a signature known to the adversary: so it cannot be made
without the honest signer, who proves possession over its own key only. -/
theorem C88_pop (pk : G2) (a c : ZMod r) (hc : c ≠ 0) (msg : Bytes) (H : HashToG1 G1) (sig : G1) :
    verifyPop P (toPublic P a + c • pk) msg sig H = .ok () ↔
      ∃ t, signPop a msg H = .ok t ∧ verifyPop P pk msg (c⁻¹ • (sig - t)) H = .ok () := by
  obtain ⟨s, rfl⟩ := P.span2 pk
  have e : toPublic P a + c • s • P.g2 = (a + c * s) • P.g2 := by
    unfold toPublic; rw [add_smul, mul_smul]
  rw [e]
  unfold verifyPop signPop signMessage signRaw
  simp only [verifySig_ok_iff]
  constructor
  · rintro ⟨h, hh, rfl⟩
    refine ⟨a • h, by rw [hh]; rfl, h, hh, ?_⟩
    rw [add_smul, add_sub_cancel_left, mul_smul, smul_smul, inv_mul_cancel₀ hc, one_smul]
  · rintro ⟨t, ht, h, hh, h2⟩
    rw [hh, Outcome.bind_ok] at ht
    cases ht
    refine ⟨h, hh, ?_⟩
    have := congrArg (fun x => c • x) h2
    simp only [smul_smul, mul_inv_cancel₀ hc, one_smul] at this
    rw [sub_eq_iff_eq_add] at this
    rw [this, add_smul, add_comm]

/-- **C88.** In particular the owner of the key of `C88_rogue` cannot show possession of it: a proof
of possession for it gives, with the adversary's secret, the honest signers' joint proof of
possession over the rogue key. -/
theorem C88_pop_rogue (pks : List G2) (a : ZMod r) (msg : Bytes) (H : HashToG1 G1) (sig : G1) :
    verifyPop P (toPublic P a - aggregatePublicKeys pks) msg sig H = .ok () ↔
      ∃ t, signPop a msg H = .ok t ∧
        verifyPop P (aggregatePublicKeys pks) msg (t - sig) H = .ok () := by
  have := C88_pop P (aggregatePublicKeys pks) a (-1) (by simp) msg H sig
  rw [neg_smul, one_smul, ← sub_eq_add_neg] at this
  rw [this]
  have e : ∀ t : G1, (-1 : ZMod r)⁻¹ • (sig - t) = t - sig := fun t => by
    rw [inv_neg, inv_one, neg_smul, one_smul, neg_sub]
  simp only [e]

end

/-- The hypotheses of `C88_rogue`: the honest keys belong to 3 and 5, the adversary signs with 7, and
nobody else signs. -/
example : sign (7 : ZMod 101) [1] [2] (toyHash 101) = .ok 67 ∧
    verify (toyPairing 101) (aggregatePublicKeys ([3, 5].map (toPublic (toyPairing 101)) ++
      [toPublic (toyPairing 101) 7 -
        aggregatePublicKeys ([3, 5].map (toPublic (toyPairing 101)))])) [1] [2] 67 (toyHash 101) =
      .ok () := by
  decide +kernel

/-- `C88_known_secrets`: the aggregate of 3 and 5 contains the signature of 3. -/
example : verify (toyPairing 101) (aggregatePublicKeys (3 :: [5].map (toPublic (toyPairing 101))))
      [1] [2] (72 + 19) (toyHash 101) = .ok () ∧
    Outcome.mapM (fun sk => sign sk [1] [2] (toyHash 101)) [(5 : ZMod 101)] = .ok [19] ∧
    verify (toyPairing 101) 3 [1] [2] (72 + 19 - 19) (toyHash 101) = .ok () := by
  decide +kernel

/-- `C88_known_secrets_batch`: two messages, the second signed by 5. -/
example : ∃ sigs, Outcome.mapM (fun x : ZMod 101 × Bytes × Bytes => sign x.1 x.2.1 x.2.2 (toyHash 101))
      ([5].zip [([3], [4])]) = .ok sigs ∧
    batchVerify (toyPairing 101) (72 + aggregateSignatures sigs)
      (3 :: [5].map (toPublic (toyPairing 101))) SIG_DOMAIN ([([1], [2]), ([3], [4])]) (toyHash 101) =
      .ok () :=
  ⟨[39], by decide +kernel⟩

/-- `C88_pop` and `C88_pop_rogue`: with honest secret 3 and rogue key `7 g - 3 g`. -/
example : haveI : Fact (Nat.Prime 101) := ⟨by norm_num⟩
    ∃ sig t, verifyPop (toyPairing 101) (toPublic (toyPairing 101) 7 - aggregatePublicKeys [3]) [9]
      sig (toyHash 101) = .ok () ∧ signPop (7 : ZMod 101) [9] (toyHash 101) = .ok t ∧
    verifyPop (toyPairing 101) 3 [9] (t - sig) (toyHash 101) = .ok () ∧ sig ≠ 0 :=
  ⟨4 * (leValue POP_DOMAIN + 9 : ℕ), 7 * (leValue POP_DOMAIN + 9 : ℕ), by decide +kernel⟩

end Verif
