import Verif.Lemmas.Bls
import Verif.Lemmas.Toy
import Mathlib.Algebra.BigOperators.Group.List.Lemmas

/-! # Properties C01 - C07, C12: signing, verification, aggregation -/

set_option linter.unusedSectionVars false

namespace Verif

section
variable {r : ℕ} [NeZero r] {G1 G2 GT : Type*} [AddCommGroup G1] [Module (ZMod r) G1]
  [AddCommGroup G2] [Module (ZMod r) G2] [CommGroup GT] [DecidableEq GT]
  (P : Pairing r G1 G2 GT)

/-! ## C01 -/

/-- C01 (success): the signature returned by `sign` is accepted by `verify` under the derived
public key, and it is the only accepted one; every other one is reported as
`VerificationFailed`. -/
theorem C01_sign_verify (sk : ZMod r) (msg extra : Bytes) (H : HashToG1 G1) (sig : G1)
    (hs : sign sk msg extra H = .ok sig) (sig' : G1) :
    (sig' = sig → verify P (toPublic P sk) msg extra sig' H = .ok ()) ∧
    (sig' ≠ sig → verify P (toPublic P sk) msg extra sig' H = .err .verificationFailed) := by
  unfold sign signMessage at hs
  rw [Outcome.bind_eq_ok_iff] at hs
  obtain ⟨h, hH, hs⟩ := hs
  simp only [Outcome.ok.injEq, signRaw] at hs
  subst hs
  constructor
  · intro hs; exact (verifySig_ok_iff P sk _ _ _ _ H).2 ⟨h, hH, hs⟩
  · intro hs
    refine verifySig_failed P _ _ _ _ _ H h hH fun hc => hs ?_
    obtain ⟨h', hh', h2⟩ := (verifySig_ok_iff P sk _ _ _ _ H).1 hc
    rw [hH] at hh'; cases hh'; exact h2

/-- C01 (failure): if hashing fails, `sign` and `verify` both return exactly that error, for every
key and signature. -/
theorem C01_hash_error (sk : ZMod r) (msg extra : Bytes) (H : HashToG1 G1) (e : BLSError)
    (hH : H SIG_DOMAIN msg extra = .err e) :
    sign sk msg extra H = .err e ∧ ∀ pk sig, verify P pk msg extra sig H = .err e := by
  simp [sign, signMessage, verify, verifySig, hH]

/-- C01: `sign` succeeds exactly when the hash does, and panics exactly when the hash does. -/
theorem C01_sign_total (sk : ZMod r) (msg extra : Bytes) (H : HashToG1 G1) :
    ((∃ sig, sign sk msg extra H = .ok sig) ↔ ∃ h, H SIG_DOMAIN msg extra = .ok h) ∧
    (sign sk msg extra H = .panic ↔ H SIG_DOMAIN msg extra = .panic) := by
  unfold sign signMessage
  cases hH : H SIG_DOMAIN msg extra <;> simp

/-- Non-vacuity for C01: a key, a message and a signature different from zero. -/
example : sign (5 : ZMod 7) [1] [2] (toyHash 7) = .ok 6 ∧
    verify (toyPairing 7) (toPublic (toyPairing 7) 5) [1] [2] 6 (toyHash 7) = .ok () ∧
    verify (toyPairing 7) (toPublic (toyPairing 7) 5) [1] [2] 4 (toyHash 7) =
      .err .verificationFailed ∧
    sign (5 : ZMod 7) [] [2] (toyFailingHash 7) = .err .hashToCurveError := by
  decide +kernel

/-! ## C02 -/

/-- C02: `verify` decides exactly the pairing equation for arbitrary group elements. -/
theorem C02_verify_exact (pk : G2) (msg extra : Bytes) (sig : G1) (H : HashToG1 G1) (h : G1)
    (hH : H SIG_DOMAIN msg extra = .ok h) :
    (P.e sig (-P.g2) * P.e h pk = 1 → verify P pk msg extra sig H = .ok ()) ∧
    (P.e sig (-P.g2) * P.e h pk ≠ 1 →
      verify P pk msg extra sig H = .err .verificationFailed) := by
  unfold verify verifySig
  simp only [hH, Outcome.bind_ok, productOfPairings_pair]
  exact ⟨fun h => by simp [h], fun h => by simp [h]⟩

/-- C02: in terms of the discrete log `s` of an arbitrary public key, exactly `s • hash` is
accepted. -/
theorem C02_verify_dlog (s : ZMod r) (msg extra : Bytes) (sig : G1) (H : HashToG1 G1) :
    verify P (s • P.g2) msg extra sig H = .ok () ↔
      ∃ h, H SIG_DOMAIN msg extra = .ok h ∧ sig = s • h := by
  exact verifySig_ok_iff P s _ _ _ _ H

/-- C02: every public key accepts at most one signature per message. -/
theorem C02_unique (pk : G2) (msg extra : Bytes) (sig sig' : G1) (H : HashToG1 G1)
    (h1 : verify P pk msg extra sig H = .ok ()) (h2 : verify P pk msg extra sig' H = .ok ()) :
    sig = sig' := by
  obtain ⟨s, rfl⟩ := P.span2 pk
  rw [C02_verify_dlog] at h1 h2
  obtain ⟨h, hh, rfl⟩ := h1
  obtain ⟨h', hh', rfl⟩ := h2
  rw [hh] at hh'; cases hh'; rfl

/-- C02: the identity key accepts exactly the identity signature, on every hashable message. -/
theorem C02_identity_key (msg extra : Bytes) (sig : G1) (H : HashToG1 G1) (h : G1)
    (hH : H SIG_DOMAIN msg extra = .ok h) :
    verify P (0 : G2) msg extra sig H = .ok () ↔ sig = 0 := by
  have := C02_verify_dlog P 0 msg extra sig H
  rw [zero_smul] at this
  rw [this]
  constructor
  · rintro ⟨h, _, rfl⟩; simp
  · rintro rfl; exact ⟨h, hH, by simp⟩

/-- Non-vacuity for C02: the identity key/signature pair verifies on a message, and another
signature does not. -/
example : toyHash 7 SIG_DOMAIN [1] [2] = .ok 4 ∧
    verify (toyPairing 7) 0 [1] [2] 0 (toyHash 7) = .ok () ∧
    verify (toyPairing 7) 0 [1] [2] 1 (toyHash 7) = .err .verificationFailed ∧
    verify (toyPairing 7) 3 [1] [2] 5 (toyHash 7) = .ok () := by decide +kernel

/-! ## C03 -/

/-- C03: the signing and possession domains are different, of equal length 8. -/
theorem C03_domains_distinct :
    SIG_DOMAIN ≠ POP_DOMAIN ∧ SIG_DOMAIN ≠ OUT_DOMAIN ∧ POP_DOMAIN ≠ OUT_DOMAIN ∧
      SIG_DOMAIN.length = 8 ∧ POP_DOMAIN.length = 8 ∧ OUT_DOMAIN.length = 8 := by decide

/-- C03: `sign_pop`/`verify_pop` agree: the proof of possession is the unique accepted one. -/
theorem C03_pop_verify (sk : ZMod r) (msg : Bytes) (H : HashToG1 G1) (sig : G1)
    (hs : signPop sk msg H = .ok sig) (sig' : G1) :
    verifyPop P (toPublic P sk) msg sig' H = .ok () ↔ sig' = sig := by
  unfold signPop signMessage at hs
  rw [Outcome.bind_eq_ok_iff] at hs
  obtain ⟨h, hH, hs⟩ := hs
  simp only [Outcome.ok.injEq, signRaw] at hs
  subst hs
  unfold verifyPop toPublic
  rw [verifySig_ok_iff]
  constructor
  · rintro ⟨h', hh', h2⟩; rw [hH] at hh'; cases hh'; exact h2
  · intro hs; exact ⟨h, hH, hs⟩

/-- C03: the possession functions depend on the hasher only through the POP domain with empty
extra data; the signature functions only through the SIG domain. -/
theorem C03_domain_dependence (H H' : HashToG1 G1) (sk : ZMod r) (pk : G2) (msg extra : Bytes)
    (sig : G1) :
    ((H POP_DOMAIN msg [] = H' POP_DOMAIN msg []) →
      signPop sk msg H = signPop sk msg H' ∧
      verifyPop P pk msg sig H = verifyPop P pk msg sig H') ∧
    ((H SIG_DOMAIN msg extra = H' SIG_DOMAIN msg extra) →
      sign sk msg extra H = sign sk msg extra H' ∧
      verify P pk msg extra sig H = verify P pk msg extra sig H') := by
  constructor <;> intro h <;> simp [signPop, sign, signMessage, verifyPop, verify, verifySig, h]

end

section
variable {r : ℕ} [Fact r.Prime] {G1 G2 GT : Type*} [AddCommGroup G1] [Module (ZMod r) G1]
  [AddCommGroup G2] [Module (ZMod r) G2] [CommGroup GT] [DecidableEq GT]
  (P : Pairing r G1 G2 GT)

/-- C03: under a non-zero key a value accepted both as possession proof (of `msg'`) and as message
signature (on `msg, extra`) forces the two domain-separated hashes to be the same point. -/
theorem C03_cross_acceptance (sk : ZMod r) (hsk : sk ≠ 0) (msg extra msg' : Bytes)
    (H : HashToG1 G1) (sig : G1)
    (h1 : verify P (toPublic P sk) msg extra sig H = .ok ())
    (h2 : verifyPop P (toPublic P sk) msg' sig H = .ok ()) :
    ∃ h, H SIG_DOMAIN msg extra = .ok h ∧ H POP_DOMAIN msg' [] = .ok h := by
  have hne : NeZero r := ⟨(Fact.out : r.Prime).ne_zero⟩
  unfold toPublic at h1 h2
  rw [C02_verify_dlog] at h1
  obtain ⟨h, hh, rfl⟩ := h1
  unfold verifyPop at h2
  rw [verifySig_ok_iff] at h2
  obtain ⟨h', hh', heq⟩ := h2
  have : h = h' := by
    have := congrArg (fun x => sk⁻¹ • x) heq
    simpa [smul_smul, inv_mul_cancel₀ hsk] using this
  subst this
  exact ⟨h, hh, hh'⟩

/-- Non-vacuity for C03: with the toy hash the two domains hash differently and a possession proof
is not a signature. -/
example : signPop (5 : ZMod 101) [1] (toyHash 101) = .ok 15 ∧
    sign (5 : ZMod 101) [1] [] (toyHash 101) = .ok 9 ∧
    verifyPop (toyPairing 101) (toPublic (toyPairing 101) 5) [1] 15 (toyHash 101) = .ok () ∧
    verify (toyPairing 101) (toPublic (toyPairing 101) 5) [1] [] 15 (toyHash 101) =
      .err .verificationFailed := by decide +kernel

end

section
variable {r : ℕ} [NeZero r] {G1 G2 GT : Type*} [AddCommGroup G1] [Module (ZMod r) G1]
  [AddCommGroup G2] [Module (ZMod r) G2] [CommGroup GT] [DecidableEq GT]
  (P : Pairing r G1 G2 GT)

/-! ## C04 -/

omit [NeZero r] in
theorem toPublic_sum (sks : List (ZMod r)) :
    (sks.map (toPublic P)).sum = sks.sum • P.g2 := by
  induction sks with
  | nil => simp
  | cons s ss ih => simp only [List.map_cons, List.sum_cons, ih, add_smul, toPublic]

/-- C04: if every signer of a list signs the message, the aggregate of the signatures is accepted
under the aggregate of the public keys, and is the only accepted signature. -/
theorem C04_aggregate_verify (sks : List (ZMod r)) (msg extra : Bytes) (H : HashToG1 G1)
    (sigs : List G1)
    (hs : List.Forall₂ (fun sk sig => sign sk msg extra H = .ok sig) sks sigs)
    (hh : ∃ h, H SIG_DOMAIN msg extra = .ok h) (sig' : G1) :
    verify P (aggregatePublicKeys (sks.map (toPublic P))) msg extra sig' H = .ok () ↔
      sig' = aggregateSignatures sigs := by
  rw [aggregatePublicKeys_eq_sum, aggregateSignatures_eq_sum, toPublic_sum, C02_verify_dlog]
  obtain ⟨h, hh⟩ := hh
  have hsum : sigs.sum = sks.sum • h := by
    induction hs with
    | nil => simp
    | cons h1 _ ih =>
      simp only [sign, signMessage, hh, Outcome.bind_ok, Outcome.ok.injEq, signRaw] at h1
      rw [List.sum_cons, List.sum_cons, ih, ← h1, add_smul]
  rw [hsum]
  constructor
  · rintro ⟨h', hh', rfl⟩; rw [hh] at hh'; cases hh'; rfl
  · rintro rfl; exact ⟨h, hh, rfl⟩

/-- Non-vacuity for C04: three signers, one repeated. -/
example : List.Forall₂ (fun sk sig => sign sk [1] [2] (toyHash 101) = .ok sig)
      [3, 5, (5 : ZMod 101)] [72, 19, (19 : ZMod 101)] ∧
    verify (toyPairing 101) (aggregatePublicKeys ([3, 5, 5].map (toPublic (toyPairing 101)))) [1] [2]
      (aggregateSignatures [72, 19, (19 : ZMod 101)]) (toyHash 101) = .ok () := by
  constructor
  · refine .cons ?_ (.cons ?_ (.cons ?_ .nil)) <;> decide +kernel
  · decide +kernel

/-! ## C05 -/

/-- C05: permuting the inputs does not change the aggregate. -/
theorem C05_aggregate_perm {l l' : List G2} (h : l.Perm l') :
    aggregatePublicKeys l = aggregatePublicKeys l' := by
  rw [aggregatePublicKeys_eq_sum, aggregatePublicKeys_eq_sum]; exact h.sum_eq

/-- C05: aggregating aggregates of groups equals aggregating everything. -/
theorem C05_aggregate_grouping (groups : List (List G2)) :
    aggregatePublicKeys (groups.map aggregatePublicKeys) = aggregatePublicKeys groups.flatten := by
  rw [aggregatePublicKeys_eq_sum, aggregatePublicKeys_eq_sum, List.sum_flatten]
  congr 1
  apply List.map_congr_left
  intro l _; exact aggregatePublicKeys_eq_sum l

/-- C05: permuting the inputs does not change the aggregate signature. -/
theorem C05_aggregate_sig_perm {l l' : List G1} (h : l.Perm l') :
    aggregateSignatures l = aggregateSignatures l' := by
  rw [aggregateSignatures_eq_sum, aggregateSignatures_eq_sum]; exact h.sum_eq

/-- C05: aggregating signature aggregates of groups equals aggregating everything. -/
theorem C05_aggregate_sig_grouping (groups : List (List G1)) :
    aggregateSignatures (groups.map aggregateSignatures) =
      aggregateSignatures groups.flatten := by
  rw [aggregateSignatures_eq_sum, aggregateSignatures_eq_sum, List.sum_flatten]
  congr 1
  apply List.map_congr_left
  intro l _; exact aggregateSignatures_eq_sum l

/-- Non-vacuity for C05 (also pins the value: the aggregate really is the sum). -/
example : aggregatePublicKeys [1, 2, (4 : ZMod 101)] = 7 ∧
    aggregatePublicKeys [4, 1, (2 : ZMod 101)] = 7 ∧
    aggregatePublicKeys [aggregatePublicKeys [1, 2], aggregatePublicKeys [(4 : ZMod 101)]] = 7 ∧
    [1, 2, (4 : ZMod 101)].Perm [4, 1, 2] := by
  refine ⟨?_, ?_, ?_, ?_⟩ <;> decide +kernel

/-- C05: the aggregate is the sum of its inputs (specification by Mathlib's `List.sum`). -/
theorem C05_aggregate_is_sum (l : List G2) (s : List G1) :
    aggregatePublicKeys l = l.sum ∧ aggregateSignatures s = s.sum :=
  ⟨aggregatePublicKeys_eq_sum l, aggregateSignatures_eq_sum s⟩

/-! ## C06 -/

/-- C06: different numbers of keys and messages are always refused, before anything is hashed. -/
theorem C06_uneven (sig : G1) (pks : List G2) (dom : Bytes) (msgs : List (Bytes × Bytes))
    (H : HashToG1 G1) (h : pks.length ≠ msgs.length) :
    batchVerify P sig pks dom msgs H = .err .unevenNumKeysMessages := by
  simp [batchVerify, h]

/-- C06: with even lengths, the error of the first failing hash is returned. -/
theorem C06_hash_error (sig : G1) (pks : List G2) (dom : Bytes) (pre post : List (Bytes × Bytes))
    (m : Bytes × Bytes) (H : HashToG1 G1) (e : BLSError)
    (hl : pks.length = (pre ++ m :: post).length)
    (hpre : ∀ x ∈ pre, ∃ h, H dom x.1 x.2 = .ok h) (hm : H dom m.1 m.2 = .err e) :
    batchVerify P sig pks dom (pre ++ m :: post) H = .err e := by
  have : Outcome.mapM (fun m : Bytes × Bytes => H dom m.1 m.2) (pre ++ m :: post) = .err e :=
    (Outcome.mapM_eq_err_iff _ _ _).2 ⟨pre, m, post, rfl, hm, hpre⟩
  simp only [batchVerify, hl, ne_eq, not_true_eq_false, if_false, this, Outcome.bind_err]

/-- C06: with even lengths and successful hashes, the signature is accepted exactly when it is the
sum of the individual signatures of the keys' discrete logs on their own messages. -/
theorem C06_exact (sig : G1) (sks : List (ZMod r)) (dom : Bytes) (msgs : List (Bytes × Bytes))
    (H : HashToG1 G1) (hs : List G1) (hl : sks.length = msgs.length)
    (hH : List.Forall₂ (fun m h => H dom m.1 m.2 = .ok h) msgs hs) :
    (sig = (List.zipWith (fun s h => s • h) sks hs).sum →
      batchVerify P sig (sks.map (toPublic P)) dom msgs H = .ok ()) ∧
    (sig ≠ (List.zipWith (fun s h => s • h) sks hs).sum →
      batchVerify P sig (sks.map (toPublic P)) dom msgs H = .err .verificationFailed) := by
  have hm := (Outcome.mapM_eq_ok_iff (fun m : Bytes × Bytes => H dom m.1 m.2) msgs hs).2 hH
  have hlen := hH.length_eq
  have key : productOfPairings P ((sig, -P.g2) :: hs.zip (sks.map (toPublic P))) = 1 ↔
      sig = (List.zipWith (fun s h => s • h) sks hs).sum := by
    rw [productOfPairings_cons]
    have : sks.map (toPublic P) = sks.map (· • P.g2) := rfl
    rw [this, productOfPairings_eq_e, P.neg_right, inv_mul_eq_one]
    exact ⟨fun h => P.e_g2_inj h, fun h => by rw [h]⟩
  have hl2 : sks.length = hs.length := hl.trans hlen
  constructor <;> intro h
  · rw [← key] at h
    simp [batchVerify, batchVerifyHashes, hl, hm, ← hlen, h]
  · rw [Ne, ← key] at h
    simp [batchVerify, batchVerifyHashes, hl, hm, ← hlen, h]

/-- C06: an aggregate of honest signatures on (possibly different) messages is accepted. -/
theorem C06_complete (sks : List (ZMod r)) (msgs : List (Bytes × Bytes)) (H : HashToG1 G1)
    (sigs : List G1) (hl : sks.length = msgs.length)
    (hs : List.Forall₂ (fun (x : ZMod r × (Bytes × Bytes)) sig =>
      sign x.1 x.2.1 x.2.2 H = .ok sig) (sks.zip msgs) sigs) :
    batchVerify P (aggregateSignatures sigs) (sks.map (toPublic P)) SIG_DOMAIN msgs H = .ok () := by
  have : ∃ hs' : List G1,
      List.Forall₂ (fun (m : Bytes × Bytes) h => H SIG_DOMAIN m.1 m.2 = .ok h) msgs hs' ∧
      sigs = List.zipWith (fun s h => s • h) sks hs' := by
    induction sks generalizing msgs sigs with
    | nil =>
      cases msgs with
      | nil => cases hs; exact ⟨[], .nil, rfl⟩
      | cons _ _ => simp at hl
    | cons s ss ih =>
      cases msgs with
      | nil => simp at hl
      | cons m ms =>
        simp only [List.zip_cons_cons] at hs
        cases hs with
        | cons h1 h2 =>
          obtain ⟨hs', h3, h4⟩ := ih ms _ (by simpa using hl) h2
          rename_i sig _
          simp only [sign, signMessage, Outcome.bind_eq_ok_iff, Outcome.ok.injEq] at h1
          obtain ⟨h, hh, hsig⟩ := h1
          exact ⟨h :: hs', .cons hh h3, by simp [← h4, ← hsig, signRaw]⟩
  obtain ⟨hs', h3, h4⟩ := this
  refine (C06_exact P _ sks SIG_DOMAIN msgs H hs' hl h3).1 ?_
  rw [aggregateSignatures_eq_sum, h4]

/-- C06: the lower-level `batch_verify_hashes` makes the same decision on given hashes. -/
theorem C06_hashes (sig : G1) (sks : List (ZMod r)) (hs : List G1) :
    (sks.length ≠ hs.length →
      batchVerifyHashes P sig (sks.map (toPublic P)) hs = .err .unevenNumKeysMessages) ∧
    (sks.length = hs.length → sig = (List.zipWith (fun s h => s • h) sks hs).sum →
      batchVerifyHashes P sig (sks.map (toPublic P)) hs = .ok ()) ∧
    (sks.length = hs.length → sig ≠ (List.zipWith (fun s h => s • h) sks hs).sum →
      batchVerifyHashes P sig (sks.map (toPublic P)) hs = .err .verificationFailed) := by
  have key : productOfPairings P ((sig, -P.g2) :: hs.zip (sks.map (toPublic P))) = 1 ↔
      sig = (List.zipWith (fun s h => s • h) sks hs).sum := by
    rw [productOfPairings_cons]
    have : sks.map (toPublic P) = sks.map (· • P.g2) := rfl
    rw [this, productOfPairings_eq_e, P.neg_right, inv_mul_eq_one]
    exact ⟨fun h => P.e_g2_inj h, fun h => by rw [h]⟩
  rw [Ne, Ne, ← key]
  unfold batchVerifyHashes
  refine ⟨fun h => ?_, fun h1 h2 => ?_, fun h1 h2 => ?_⟩
  · simp [h]
  · simp [h1, h2]
  · simp [h1, h2]

/-- Non-vacuity for C06: two signers, two messages; the second hash fails; uneven lists. -/
example :
    batchVerify (toyPairing 101) (3 * 24 + 5 * 25) [3, 5] SIG_DOMAIN [([1], [2]), ([2], [2])]
      (toyHash 101) = .ok () ∧
    toyHash 101 SIG_DOMAIN [1] [2] = .ok 24 ∧ toyHash 101 SIG_DOMAIN [2] [2] = .ok 25 ∧
    batchVerify (toyPairing 101) 0 [3, 5] SIG_DOMAIN [([1], [2]), ([], [2])]
      (toyFailingHash 101) = .err .hashToCurveError ∧
    batchVerify (toyPairing 101) 0 [3] SIG_DOMAIN [([], []), ([], [2])]
      (toyFailingHash 101) = .err .unevenNumKeysMessages := by decide +kernel

/-! ## C07 -/

/-- C07: whatever two honest keys and messages, shifting one signature by `d` and the other by `-d`
leaves the aggregate check unaffected, although for `d ≠ 0` both shifted signatures are
individually rejected.  (The per-signer property is violated; the exact guarantee is C06.) -/
theorem C07_screening_only (sk1 sk2 : ZMod r) (m1 m2 : Bytes × Bytes) (H : HashToG1 G1)
    (sig1 sig2 d : G1) (h1 : sign sk1 m1.1 m1.2 H = .ok sig1)
    (h2 : sign sk2 m2.1 m2.2 H = .ok sig2) (hd : d ≠ 0) :
    batchVerify P (aggregateSignatures [sig1 + d, sig2 - d]) [toPublic P sk1, toPublic P sk2]
      SIG_DOMAIN [m1, m2] H = .ok () ∧
    verify P (toPublic P sk1) m1.1 m1.2 (sig1 + d) H = .err .verificationFailed ∧
    verify P (toPublic P sk2) m2.1 m2.2 (sig2 - d) H = .err .verificationFailed := by
  refine ⟨?_, (C01_sign_verify P sk1 _ _ H sig1 h1 _).2 (by simpa using hd),
    (C01_sign_verify P sk2 _ _ H sig2 h2 _).2 (by simpa using hd)⟩
  have h := C06_complete P [sk1, sk2] [m1, m2] H [sig1, sig2] rfl (.cons h1 (.cons h2 .nil))
  have he : aggregateSignatures [sig1 + d, sig2 - d] = aggregateSignatures [sig1, sig2] := by
    rw [aggregateSignatures_eq_sum, aggregateSignatures_eq_sum]; simp
  rw [he]; exact h

/-- C07: the full per-signer guarantee is false: a concrete accepted batch with invalid parts. -/
theorem C07_per_signer_guarantee_fails :
    ¬ ∀ (pks : List (ZMod 101)) (msgs : List (Bytes × Bytes)) (sigs : List (ZMod 101)),
      batchVerify (toyPairing 101) (aggregateSignatures sigs) pks SIG_DOMAIN msgs (toyHash 101)
        = .ok () →
      ∀ i < sigs.length, ∀ pk m s, pks[i]? = some pk → msgs[i]? = some m → sigs[i]? = some s →
        verify (toyPairing 101) pk m.1 m.2 s (toyHash 101) = .ok () := by
  intro h
  have := h [3, 5] [([1], [2]), ([2], [2])] [3 * 24 + 1, 5 * 25 - 1] (by decide +kernel) 0
    (by decide) 3 ([1], [2]) (3 * 24 + 1) rfl rfl rfl
  revert this; decide +kernel

/-- C07: permuting the (key, message) pairs does not change the decision for hashed messages. -/
theorem C07_perm (sig : G1) (pairs pairs' : List (ZMod r × G1)) (hp : pairs.Perm pairs') :
    batchVerifyHashes P sig (pairs.map fun x => toPublic P x.1) (pairs.map Prod.snd) =
    batchVerifyHashes P sig (pairs'.map fun x => toPublic P x.1) (pairs'.map Prod.snd) := by
  have e : ∀ l : List (ZMod r × G1), l.map (fun x => toPublic P x.1) =
      (l.map Prod.fst).map (toPublic P) := by intro l; simp
  have e2 : ∀ l : List (ZMod r × G1),
      List.zipWith (fun s h => s • h) (l.map Prod.fst) (l.map Prod.snd) =
      l.map (fun x => x.1 • x.2) := by
    intro l; induction l with
    | nil => rfl
    | cons a l ih => simp [ih]
  rw [e, e]
  have l1 : (pairs.map Prod.fst).length = (pairs.map Prod.snd).length := by simp
  have l2 : (pairs'.map Prod.fst).length = (pairs'.map Prod.snd).length := by simp
  have hsum := (hp.map (fun x : ZMod r × G1 => x.1 • x.2)).sum_eq
  have k1 := (C06_hashes P sig (pairs.map Prod.fst) (pairs.map Prod.snd)).2
  have k2 := (C06_hashes P sig (pairs'.map Prod.fst) (pairs'.map Prod.snd)).2
  rw [e2] at k1 k2
  by_cases h : sig = (pairs.map (fun x => x.1 • x.2)).sum
  · rw [k1.1 l1 h, k2.1 l2 (h.trans hsum)]
  · rw [k1.2 l1 h, k2.2 l2 (fun h' => h (h'.trans hsum.symm))]

/-! ## C12 -/

omit [NeZero r] in
/-- C12: `PublicKey::batch` returns `None` exactly for uneven lengths and otherwise the linear
combination. -/
theorem C12_batch_pk (xs : List (ZMod r)) (pks : List G2) :
    (xs.length ≠ pks.length → batchPublicKeys xs pks = none) ∧
    (xs.length = pks.length →
      batchPublicKeys xs pks = some (List.zipWith (fun x b => x • b) xs pks).sum) := by
  unfold batchPublicKeys
  constructor
  · intro h; simp [Ne.symm h]
  · intro h; simp [h, multiScalarMul_eq_sum]

omit [NeZero r] in
/-- C12: `Signature::batch` likewise. -/
theorem C12_batch_sig (xs : List (ZMod r)) (sigs : List G1) :
    (xs.length ≠ sigs.length → batchSignatures xs sigs = none) ∧
    (xs.length = sigs.length →
      batchSignatures xs sigs = some (List.zipWith (fun x b => x • b) xs sigs).sum) := by
  unfold batchSignatures
  constructor
  · intro h; simp [Ne.symm h]
  · intro h; simp [h, multiScalarMul_eq_sum]

omit [NeZero r] in
theorem zipWith_smul_pub (xs sks : List (ZMod r)) :
    (List.zipWith (fun x b => x • b) xs (sks.map (toPublic P))).sum =
      (List.zipWith (fun x s => x * s) xs sks).sum • P.g2 := by
  induction xs generalizing sks with
  | nil => simp
  | cons x xs ih =>
    cases sks with
    | nil => simp
    | cons s ss => simp [ih, add_smul, toPublic, mul_smul]

/-- C12: combining valid (key, signature) pairs on one message with the same exponents gives a
valid pair. -/
theorem C12_batch_valid (xs sks : List (ZMod r)) (sigs : List G1) (msg extra : Bytes)
    (H : HashToG1 G1) (hh : ∃ h, H SIG_DOMAIN msg extra = .ok h)
    (hs : List.Forall₂ (fun sk sig => verify P (toPublic P sk) msg extra sig H = .ok ()) sks sigs)
    (hl : xs.length = sks.length) :
    ∃ bpk bsig, batchPublicKeys xs (sks.map (toPublic P)) = some bpk ∧
      batchSignatures xs sigs = some bsig ∧ verify P bpk msg extra bsig H = .ok () := by
  refine ⟨_, _, (C12_batch_pk xs _).2 (by simpa using hl),
    (C12_batch_sig xs _).2 (by rw [hl, hs.length_eq]), ?_⟩
  obtain ⟨h, hh⟩ := hh
  rw [zipWith_smul_pub, C02_verify_dlog]
  refine ⟨h, hh, ?_⟩
  clear hl
  induction hs generalizing xs with
  | nil => cases xs <;> simp
  | cons h1 _ ih =>
    cases xs with
    | nil => simp
    | cons x xs =>
      have h1' := (C02_verify_dlog P _ msg extra _ H).1 h1
      obtain ⟨h', hh', rfl⟩ := h1'
      rw [hh] at hh'; cases hh'
      simp [ih xs, add_smul, mul_smul]

/-- Non-vacuity for C12. -/
example : batchPublicKeys [2, (3 : ZMod 101)] [5, (7 : ZMod 101)] = some 31 ∧
    batchPublicKeys [(2 : ZMod 101)] [5, (7 : ZMod 101)] = none ∧
    batchSignatures [2, 3, (4 : ZMod 101)] [5, (7 : ZMod 101)] = none := by decide +kernel

end
/-! ## The theorems applied to concrete data -/

section
local instance factPrime101 : Fact (Nat.Prime 101) := ⟨by decide +kernel⟩

/-- `C01_sign_verify` and `C01_hash_error`. -/
example : verify (toyPairing 101) (toPublic (toyPairing 101) 5) [1] [2] 19 (toyHash 101) = .ok () ∧
    verify (toyPairing 101) 7 [] [2] 19 (toyFailingHash 101) = .err .hashToCurveError :=
  ⟨(C01_sign_verify (toyPairing 101) 5 [1] [2] (toyHash 101) 19 (by decide +kernel) 19).1 rfl,
    (C01_hash_error (toyPairing 101) 5 [] [2] (toyFailingHash 101) _ (by decide +kernel)).2 7 19⟩

/-- `C02_verify_exact`, `C02_unique`, `C02_identity_key`. -/
example : verify (toyPairing 101) 5 [1] [2] 18 (toyHash 101) = .err .verificationFailed ∧
    (∀ sig, verify (toyPairing 101) 5 [1] [2] sig (toyHash 101) = .ok () → sig = 19) ∧
    ∀ sig, verify (toyPairing 101) 0 [1] [2] sig (toyHash 101) = .ok () ↔ sig = 0 :=
  ⟨(C02_verify_exact (toyPairing 101) 5 [1] [2] 18 (toyHash 101) 24 (by decide +kernel)).2 (by decide +kernel),
    fun sig h => C02_unique (toyPairing 101) 5 [1] [2] sig 19 (toyHash 101) h (by decide +kernel),
    fun sig => C02_identity_key (toyPairing 101) [1] [2] sig (toyHash 101) 24 (by decide +kernel)⟩

/-- `C03_cross_acceptance`: under a hash that ignores its domain one value serves as signature and as proof of
possession, and the two hashes are indeed equal. -/
example : ∃ h, (fun _ m e => toyHash 101 [] m e : HashToG1 (ZMod 101)) SIG_DOMAIN [3] [] = .ok h ∧
    (fun _ m e => toyHash 101 [] m e : HashToG1 (ZMod 101)) POP_DOMAIN [3] [] = .ok h :=
  C03_cross_acceptance (toyPairing 101) 5 (by decide) [3] [] [3] (fun _ m e => toyHash 101 [] m e) 15 (by decide +kernel) (by decide +kernel)

/-- `C04_aggregate_verify`: three signers, one of them twice. -/
example (sig : ZMod 101) : verify (toyPairing 101)
      (aggregatePublicKeys ([3, 5, 5].map (toPublic (toyPairing 101)))) [1] [2] sig (toyHash 101) = .ok () ↔
    sig = aggregateSignatures [72, 19, 19] :=
  C04_aggregate_verify (toyPairing 101) [3, 5, 5] [1] [2] (toyHash 101) [72, 19, 19]
    (by refine .cons ?_ (.cons ?_ (.cons ?_ .nil)) <;> decide +kernel) ⟨24, by decide +kernel⟩ sig

/-- `C05_aggregate_perm` and `C05_aggregate_sig_perm`. -/
example : aggregatePublicKeys [1, 2, (4 : ZMod 101)] = aggregatePublicKeys [4, 1, 2] ∧
    aggregateSignatures [1, 2, (4 : ZMod 101)] = aggregateSignatures [4, 1, 2] :=
  ⟨C05_aggregate_perm (by decide), C05_aggregate_sig_perm (by decide)⟩

/-- `C06_uneven`, `C06_hash_error`, `C06_complete`. -/
example : batchVerify (toyPairing 101) 4 [3] SIG_DOMAIN [([1], [2]), ([2], [2])] (toyHash 101) =
      .err .unevenNumKeysMessages ∧
    batchVerify (toyPairing 101) 4 [3, 5, 6] SIG_DOMAIN ([([1], [2])] ++ ([], [2]) :: [([4], [])])
      (toyFailingHash 101) = .err .hashToCurveError ∧
    batchVerify (toyPairing 101) (aggregateSignatures [72, 24]) ([3, 5].map (toPublic (toyPairing 101)))
      SIG_DOMAIN [([1], [2]), ([2], [2])] (toyHash 101) = .ok () :=
  ⟨C06_uneven _ _ _ _ _ _ (by decide),
    C06_hash_error _ _ _ _ [([1], [2])] [([4], [])] ([], [2]) _ _ rfl
      (fun x hx => ⟨24, by rw [List.mem_singleton.mp hx]; decide +kernel⟩) (by decide +kernel),
    C06_complete (toyPairing 101) [3, 5] [([1], [2]), ([2], [2])] (toyHash 101) [72, 24] rfl
      (by refine .cons ?_ (.cons ?_ .nil) <;> decide +kernel)⟩

/-- `C07_screening_only`: two valid signatures, shifted against each other by 9. -/
example : batchVerify (toyPairing 101) (aggregateSignatures [72 + 9, 24 - 9])
      [toPublic (toyPairing 101) 3, toPublic (toyPairing 101) 5] SIG_DOMAIN [([1], [2]), ([2], [2])]
      (toyHash 101) = .ok () ∧
    verify (toyPairing 101) (toPublic (toyPairing 101) 3) [1] [2] (72 + 9) (toyHash 101) =
      .err .verificationFailed ∧
    verify (toyPairing 101) (toPublic (toyPairing 101) 5) [2] [2] (24 - 9) (toyHash 101) =
      .err .verificationFailed :=
  C07_screening_only (toyPairing 101) 3 5 ([1], [2]) ([2], [2]) (toyHash 101) 72 24 9 (by decide +kernel)
    (by decide +kernel) (by decide)

/-- `C07_perm`: three pairs of key and hash, rotated. -/
example (sig : ZMod 101) :
    batchVerifyHashes (toyPairing 101) sig [3, 5, 6] [10, 20, 30] =
      batchVerifyHashes (toyPairing 101) sig [6, 3, 5] [30, 10, 20] := by
  have h := C07_perm (toyPairing 101) sig [(3, 10), (5, 20), (6, 30)] [(6, 30), (3, 10), (5, 20)] (by decide)
  simpa [toPublic, toyPairing] using h

/-- `C12_batch_valid`: the pairs of the keys 3 and 5, combined with the exponents 2 and 9. -/
example : ∃ bpk bsig, batchPublicKeys [2, (9 : ZMod 101)] ([3, 5].map (toPublic (toyPairing 101))) = some bpk ∧
    batchSignatures [2, (9 : ZMod 101)] [72, (19 : ZMod 101)] = some bsig ∧
    verify (toyPairing 101) bpk [1] [2] bsig (toyHash 101) = .ok () :=
  C12_batch_valid (toyPairing 101) [2, 9] [3, 5] [72, 19] [1] [2] (toyHash 101) ⟨24, by decide +kernel⟩
    (by refine .cons ?_ (.cons ?_ .nil) <;> decide +kernel) rfl

end

end Verif
