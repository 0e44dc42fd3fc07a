import Verif.Props.Forge

/-!
# Forging aggregates over several messages: C95

As in `Verif/Props/Forge.lean`, for `Signature::batch_verify`, which the epochs of the chain are checked with:
one signature for several messages, each with its own aggregated key.
-/

set_option linter.unusedSectionVars false

namespace Verif

open Finset

/-- What a forger of a batch hands out: entries of a batch (key, message, extra data), one of which is for
an aggregate of the honest key with keys whose secrets it gives (`sks`) or for which it gives proofs of
possession (`others`).  The keys of the other entries are arbitrary. -/
structure BatchForgery (r : ℕ) (G1 G2 : Type*) where
  before : List (G2 × Bytes × Bytes)
  sks : List (ZMod r)
  others : List (G2 × Bytes × G1)
  msg : Bytes
  extra : Bytes
  after : List (G2 × Bytes × Bytes)
  sig : G1

/-- The input of the hash for which a batch contains a new signature. -/
def BatchForgery.query {r : ℕ} {G1 G2 : Type*} (F : BatchForgery r G1 G2) : HashQuery :=
  (SIG_DOMAIN, F.msg, F.extra)

/-- A forger of batches. -/
abbrev BatchForger (r : ℕ) (G1 G2 : Type*) := OracleForger (BatchForgery r G1 G2) G1

section
variable {r : ℕ} [Fact r.Prime] {G1 G2 GT : Type*} [AddCommGroup G1] [Module (ZMod r) G1]
  [AddCommGroup G2] [Module (ZMod r) G2] [CommGroup GT] [DecidableEq GT]
  (P : Pairing r G1 G2 GT)

/-- The entries of the batch, with the honest key `pk`. -/
def BatchForgery.entries (pk : G2) (F : BatchForgery r G1 G2) : List (G2 × Bytes × Bytes) :=
  F.before ++
    (aggregatePublicKeys (pk :: (F.sks.map (toPublic P) ++ F.others.map Prod.fst)), F.msg, F.extra) :: F.after

/-- A batch counts if the code accepts it, the proofs of possession are accepted and made for a message that
is not the honest signer's, and the message of the honest key occurs only once. -/
def AcceptedBatch (H : HashToG1 G1) (own : Bytes → Bool) (pk : G2) (F : BatchForgery r G1 G2) : Prop :=
  (∀ o ∈ F.others, own o.2.1 = false ∧ verifyPop P o.1 o.2.1 o.2.2 H = .ok ()) ∧
  (∀ x ∈ F.before ++ F.after, x.2 ≠ (F.msg, F.extra)) ∧
  batchVerify P F.sig ((F.entries P pk).map Prod.fst) SIG_DOMAIN ((F.entries P pk).map Prod.snd) H = .ok ()

/-- The forger wins against the secret `s` and the table `f`: its batch is accepted, and the honest signer
did not sign that input. -/
def WinsBatch (Q : Finset HashQuery) (own : Bytes → Bool) (A : G2 → BatchForger r G1 G2) (s : ZMod r)
    (f : Q → {h : G1 // h ≠ 0}) : Prop :=
  let R := attack Q (tableHash Q f) own s (A (toPublic P s)) [] []
  R.1.query ∉ R.2.2 ∧ AcceptedBatch P (tableHash Q f) own (toPublic P s) R.1

/-- The problem solved with a forger of batches: given `g1`, `s • g1`, `g2`, `s • g2` and `h`, find `U` and `V`
with `e U g2 = e h (s • g2) * e g1 V`.  With `V = 0` it is co-Diffie-Hellman. -/
def Solved (g1 : G1) (s : ZMod r) (h : G1) (S : G1 × G2) : Prop :=
  P.e S.1 P.g2 = P.e h (s • P.g2) * P.e g1 S.2

/-- What an entry with another message contributes. -/
def entryShare (Q : Finset HashQuery) (a : Q → (ZMod r)ˣ) (x : G2 × Bytes × Bytes) : G2 :=
  if hx : (SIG_DOMAIN, x.2) ∈ Q then ((a ⟨_, hx⟩ : (ZMod r)ˣ) : ZMod r) • x.1 else 0

/-- The solution contained in a batch. -/
def extractBatch (Q : Finset HashQuery) (h : G1) (a : Q → (ZMod r)ˣ) (F : BatchForgery r G1 G2) : G1 × G2 :=
  (F.sig - F.sks.sum • h - (F.others.map (popShare Q a)).sum,
    ((F.before ++ F.after).map (entryShare Q a)).sum)

/-- The solver against a forger of batches. -/
def batchSolver (Q : Finset HashQuery) (own : Bytes → Bool) (g1 X h : G1) (a : Q → (ZMod r)ˣ) (i : ℕ)
    (A : G2 → BatchForger r G1 G2) (Y : G2) : Option (HashQuery × G1 × G2) :=
  solverWith Q own g1 X h a i BatchForgery.query (extractBatch Q h a) (A Y)

/-- The value of a hash, if there is one. -/
def hashValue (o : Outcome BLSError G1) : G1 :=
  match o with
  | .ok h => h
  | _ => 0

theorem mapM_values (H : HashToG1 G1) (dom : Bytes) (l : List (G2 × Bytes × Bytes)) (hs : List G1)
    (h : Outcome.mapM (fun m : Bytes × Bytes => H dom m.1 m.2) (l.map Prod.snd) = .ok hs) :
    (∀ x ∈ l, ∃ v, H dom x.2.1 x.2.2 = .ok v) ∧ hs.length = l.length ∧
    productOfPairings P (hs.zip (l.map Prod.fst)) =
      (l.map fun x => P.e (hashValue (H dom x.2.1 x.2.2)) x.1).prod := by
  induction l generalizing hs with
  | nil =>
    simp only [List.map_nil, Outcome.mapM, Outcome.ok.injEq] at h
    subst h
    exact ⟨by simp, rfl, by simp [productOfPairings_nil]⟩
  | cons x l ih =>
    simp only [List.map_cons, Outcome.mapM, Outcome.bind_eq_ok_iff, Outcome.map_eq_ok_iff] at h
    obtain ⟨v, hv, vs, hvs, rfl⟩ := h
    obtain ⟨h1, h2, h3⟩ := ih vs hvs
    refine ⟨?_, by simp [h2], ?_⟩
    · intro y hy
      rcases List.mem_cons.mp hy with rfl | hy
      · exact ⟨v, hv⟩
      · exact h1 y hy
    · rw [List.map_cons, List.zip_cons_cons, productOfPairings_cons, h3, List.map_cons, List.prod_cons, hv]
      rfl

/-- What an accepted batch says. -/
theorem batch_ok (H : HashToG1 G1) (dom : Bytes) (l : List (G2 × Bytes × Bytes)) (sig : G1)
    (h : batchVerify P sig (l.map Prod.fst) dom (l.map Prod.snd) H = .ok ()) :
    (∀ x ∈ l, ∃ v, H dom x.2.1 x.2.2 = .ok v) ∧
      P.e sig P.g2 = (l.map fun x => P.e (hashValue (H dom x.2.1 x.2.2)) x.1).prod := by
  unfold batchVerify at h
  rw [if_neg (by simp), Outcome.bind_eq_ok_iff] at h
  obtain ⟨hs, hm, h⟩ := h
  obtain ⟨h1, h2, h3⟩ := mapM_values P H dom l hs hm
  refine ⟨h1, ?_⟩
  unfold batchVerifyHashes at h
  rw [if_neg (by simp [h2])] at h
  split at h
  · rename_i hp
    rw [productOfPairings_cons, h3, P.neg_right, inv_mul_eq_one] at hp
    exact hp
  · cases h

section
variable {Q : Finset HashQuery} {own : Bytes → Bool} {g1 : G1} {a : Q → (ZMod r)ˣ}
  {f : Q → {h : G1 // h ≠ 0}} {x₀ : Q} {s : ZMod r}

theorem acceptedBatch_mem {pk : G2} {F : BatchForgery r G1 G2}
    (h : AcceptedBatch P (tableHash Q f) own pk F) : F.query ∈ Q := by
  by_contra hx
  obtain ⟨v, hv⟩ := (batch_ok P _ _ _ _ h.2.2).1
    (aggregatePublicKeys (pk :: (F.sks.map (toPublic P) ++ F.others.map Prod.fst)), F.msg, F.extra)
    (by simp [BatchForgery.entries])
  have ht := tableHash_not_mem f hx
  simp only [BatchForgery.query] at ht
  rw [ht] at hv
  cases hv

/-- The entries with other messages, in one pairing. -/
theorem entries_share
    (hf : ∀ x : Q, x ≠ x₀ → (f x).1 = ((a x : (ZMod r)ˣ) : ZMod r) • simBase own g1 (f x₀).1 x.1)
    (l : List (G2 × Bytes × Bytes)) (hl : ∀ x ∈ l, (SIG_DOMAIN, x.2) ≠ x₀.1)
    (hv : ∀ x ∈ l, ∃ v, tableHash Q f SIG_DOMAIN x.2.1 x.2.2 = .ok v) :
    (l.map fun x => P.e (hashValue (tableHash Q f SIG_DOMAIN x.2.1 x.2.2)) x.1).prod =
      P.e g1 (l.map (entryShare Q a)).sum := by
  have : NeZero r := ⟨(Fact.out : r.Prime).ne_zero⟩
  induction l with
  | nil => simp [P.zero_right]
  | cons x l ih =>
    rw [List.map_cons, List.prod_cons, List.map_cons, List.sum_cons, P.add_right,
      ih (fun y hy => hl y (List.mem_cons_of_mem _ hy)) fun y hy => hv y (List.mem_cons_of_mem _ hy)]
    congr 1
    have hx : (SIG_DOMAIN, x.2) ∈ Q := by
      by_contra hx
      obtain ⟨v, hv⟩ := hv x List.mem_cons_self
      rw [tableHash_not_mem f hx] at hv
      cases hv
    have ht : tableHash Q f SIG_DOMAIN x.2.1 x.2.2 = .ok (f ⟨_, hx⟩).1 := tableHash_mem f hx
    have hne : (⟨(SIG_DOMAIN, x.2), hx⟩ : Q) ≠ x₀ := fun h => hl x List.mem_cons_self (congrArg Subtype.val h)
    rw [ht, hashValue, hf _ hne, simBase, show foreignPop own (SIG_DOMAIN, x.2) = false from
      sig_not_foreign own x.2.1 x.2.2, if_neg (by simp), entryShare, dif_pos hx, P.smul_swap]

theorem extractBatch_solved
    (hf : ∀ x : Q, x ≠ x₀ → (f x).1 = ((a x : (ZMod r)ˣ) : ZMod r) • simBase own g1 (f x₀).1 x.1)
    (F : BatchForgery r G1 G2) (hF : F.query = x₀.1)
    (h : AcceptedBatch P (tableHash Q f) own (toPublic P s) F) :
    Solved P g1 s (f x₀).1 (extractBatch Q (f x₀).1 a F) := by
  have : NeZero r := ⟨(Fact.out : r.Prime).ne_zero⟩
  obtain ⟨ho, hd, hv⟩ := h
  obtain ⟨T, h1, h2⟩ := popShares P hf (by rw [← hF]; rfl) F.others ho
  obtain ⟨h3, h4⟩ := batch_ok P _ _ _ _ hv
  have hq : tableHash Q f SIG_DOMAIN F.msg F.extra = .ok (f x₀).1 := by
    have h0 : tableHash Q f F.query.1 F.query.2.1 F.query.2.2 = .ok (f x₀).1 := by
      rw [hF]; exact tableHash_mem f x₀.2
    exact h0
  have hrest := entries_share P hf (F.before ++ F.after)
    (fun x hx h => hd x hx (Prod.mk.inj (h.trans hF.symm)).2)
    (fun x hx => h3 x (by
      rcases List.mem_append.mp hx with hx | hx
      · exact List.mem_append_left _ hx
      · exact List.mem_append_right _ (List.mem_cons_of_mem _ hx)))
  rw [List.map_append, List.prod_append] at hrest
  rw [BatchForgery.entries, List.map_append, List.prod_append, List.map_cons, List.prod_cons, hq,
    mul_left_comm, hrest, hashValue, aggregatePublicKeys_eq_sum, List.sum_cons, List.sum_append,
    toPublic_list_sum, h1, toPublic, ← add_smul, ← add_smul, ← P.smul_swap] at h4
  unfold Solved extractBatch
  simp only []
  rw [h2, ← P.smul_swap, sub_eq_add_neg, sub_eq_add_neg, P.add_left, P.add_left, h4, P.neg_left, P.neg_left]
  rw [show (s + (F.sks.sum + T)) • (f x₀).1 = s • (f x₀).1 + (F.sks.sum • (f x₀).1 + T • (f x₀).1) by module,
    P.add_left, P.add_left]
  generalize P.e (s • (f x₀).1) P.g2 = x1
  generalize P.e (F.sks.sum • (f x₀).1) P.g2 = x2
  generalize P.e (T • (f x₀).1) P.g2 = x3
  generalize P.e g1 _ = x4
  calc x1 * (x2 * x3) * x4 * x2⁻¹ * x3⁻¹ = x1 * x4 * (x2 * x2⁻¹) * (x3 * x3⁻¹) := by ac_rfl
    _ = x1 * x4 := by rw [mul_inv_cancel, mul_inv_cancel, mul_one, mul_one]

end

/-- **C95.** Forging batches reduces to the problem `Solved`.  Let a forger ask at most `q` questions, and
count its wins over all secrets `s` and all tables `f` of the hash.  Then the solver, which sees `s • g1`,
`s • g2` and a random `h`, and runs the forger once for each of `q + 1` guesses, solves the problem at least
that often, counted over all `s`, `h` and coins `a` (there are `r - 1` coins more). -/
theorem C95_reduction (Q : Finset HashQuery) (own : Bytes → Bool) (g1 : G1)
    (hspan : ∀ h : G1, ∃ c : ZMod r, h = c • g1) (A : G2 → BatchForger r G1 G2) (q : ℕ)
    (hA : ∀ pk, (A pk).Bounded q) :
    (r - 1) * Nat.card {t : ZMod r × (Q → {h : G1 // h ≠ 0}) // WinsBatch P Q own A t.1 t.2} ≤
      ∑ i ∈ range (q + 1), Nat.card {t : ZMod r × {h : G1 // h ≠ 0} × (Q → (ZMod r)ˣ) //
        ∃ x S, batchSolver Q own g1 (t.1 • g1) t.2.1.1 t.2.2 i A (t.1 • P.g2) = some (x, S) ∧
          Solved P g1 t.1 t.2.1.1 S} :=
  reduction_count Q own g1 hspan BatchForgery.query (fun h a => extractBatch Q h a)
    (fun s f F => AcceptedBatch P (tableHash Q f) own (toPublic P s) F) (Solved P g1)
    (fun s => A (toPublic P s)) q (fun _ => hA _) (fun _ _ _ hF => acceptedBatch_mem P hF)
    (fun _ _ _ _ F hf hx hF => extractBatch_solved P hf F hx hF)

/-- C95: solutions of the problem, in other words. -/
theorem C95_solved_iff (g1 : G1) (s : ZMod r) (h : G1) (U : G1) (V : G2) :
    Solved P g1 s h (U, V) ↔ ∃ v : ZMod r, V = v • P.g2 ∧ U = s • h + v • g1 := by
  have : NeZero r := ⟨(Fact.out : r.Prime).ne_zero⟩
  unfold Solved
  constructor
  · intro hs
    obtain ⟨v, rfl⟩ := P.span2 V
    refine ⟨v, rfl, P.e_g2_inj ?_⟩
    rw [hs, P.add_left, P.smul_swap, P.smul_swap]
  · rintro ⟨v, rfl, rfl⟩
    rw [P.add_left, P.smul_swap, P.smul_swap]

/-- C95: combining the given points does not solve the problem: whatever the coefficients, at most `2 r - 1` of the
`r ^ 2` pairs of a secret and a challenge are solved. -/
theorem C95_linear (g1 : G1) (h0 : g1 ≠ 0) (a0 a1 a2 b0 b1 : ZMod r) :
    Nat.card {t : ZMod r × ZMod r // Solved P g1 t.1 (t.2 • g1)
      (a0 • g1 + a1 • t.1 • g1 + a2 • t.2 • g1, b0 • P.g2 + b1 • t.1 • P.g2)} ≤ 2 * r - 1 := by
  classical
  have : NeZero r := ⟨(Fact.out : r.Prime).ne_zero⟩
  have key : ∀ t : ZMod r × ZMod r, Solved P g1 t.1 (t.2 • g1)
      (a0 • g1 + a1 • t.1 • g1 + a2 • t.2 • g1, b0 • P.g2 + b1 • t.1 • P.g2) →
      a0 + a1 * t.1 + a2 * t.2 = t.1 * t.2 + (b0 + b1 * t.1) := by
    rintro ⟨s, c⟩ h
    simp only at h ⊢
    unfold Solved at h
    simp only [] at h
    rw [← P.smul_swap, show b0 • P.g2 + b1 • s • P.g2 = (b0 + b1 * s) • P.g2 by module, ← P.smul_swap,
      ← P.add_left] at h
    have h := P.e_g2_inj h
    have h' : (a0 + a1 * s + a2 * c - (s * c + (b0 + b1 * s))) • g1 = 0 := by
      rw [sub_smul, sub_eq_zero]
      calc _ = a0 • g1 + a1 • s • g1 + a2 • c • g1 := by module
        _ = _ := by rw [h]; module
    exact sub_eq_zero.mp ((smul_eq_zero.mp h').resolve_right h0)
  let φ : {t : ZMod r × ZMod r // Solved P g1 t.1 (t.2 • g1)
      (a0 • g1 + a1 • t.1 • g1 + a2 • t.2 • g1, b0 • P.g2 + b1 • t.1 • P.g2)} →
      ZMod r ⊕ {s : ZMod r // s ≠ a2} := fun t =>
    if h : t.1.1 = a2 then Sum.inl t.1.2 else Sum.inr ⟨t.1.1, h⟩
  have hφ : Function.Injective φ := by
    rintro ⟨⟨s, c⟩, h⟩ ⟨⟨s', c'⟩, h'⟩ e
    have k := key _ h
    have k' := key _ h'
    simp only [φ] at e k k'
    by_cases hs : s = a2
    · by_cases hs' : s' = a2
      · rw [dif_pos hs, dif_pos hs', Sum.inl.injEq] at e
        subst e hs hs'
        rfl
      · rw [dif_pos hs, dif_neg hs'] at e
        cases e
    · by_cases hs' : s' = a2
      · rw [dif_neg hs, dif_pos hs'] at e
        cases e
      · rw [dif_neg hs, dif_neg hs', Sum.inr.injEq, Subtype.mk.injEq] at e
        subst e
        have : (s - a2) * (c - c') = 0 := by linear_combination k' - k
        rcases mul_eq_zero.mp this with h1 | h1
        · exact absurd (sub_eq_zero.mp h1) hs
        · have := sub_eq_zero.mp h1
          subst this
          rfl
  refine (Nat.card_le_card_of_injective φ hφ).trans (le_of_eq ?_)
  have hp := (Fact.out : r.Prime).pos
  rw [Nat.card_sum, Nat.card_zmod, Nat.card_eq_fintype_card, Fintype.card_subtype_compl, Fintype.card_subtype_eq,
    ZMod.card]
  omega

/-- C95: that the message occurs once is needed, and `batch_verify` does not check it: if a message is
repeated, a second key without proof of possession cancels the first, and nobody has to sign. -/
theorem C95_repeated (pk : G2) (c : ZMod r) (H : HashToG1 G1) (m e : Bytes) (h : G1)
    (hh : H SIG_DOMAIN m e = .ok h) :
    batchVerify P (c • h) [pk, c • P.g2 - pk] SIG_DOMAIN [(m, e), (m, e)] H = .ok () := by
  have : NeZero r := ⟨(Fact.out : r.Prime).ne_zero⟩
  have hp : productOfPairings P [(c • h, -P.g2), (h, pk), (h, c • P.g2 - pk)] = 1 := by
    rw [productOfPairings_cons, productOfPairings_cons, productOfPairings_cons, productOfPairings_nil, mul_one,
      ← P.add_right, P.neg_right, inv_mul_eq_one, P.smul_swap]
    congr 1
    module
  simp [batchVerify, batchVerifyHashes, Outcome.mapM, hh, hp, Outcome.map]

end

section
variable {GT : Type*} [CommGroup GT] [DecidableEq GT] (C : CurvePairing GT)

/-- **C95** for the groups of the code, as probabilities.  If for every guess the solver solves the problem with
probability at most `ε`, then a forger asking at most `q` questions wins with probability at most
`(q + 1) * ε`; for all forgers, all finite sets of hash inputs, all sets of honest addresses. -/
theorem C95_unforgeable (Q : Finset HashQuery) (own : Bytes → Bool)
    (A : G2r → BatchForger FR_MODULUS G1r G2r) (q : ℕ) (hA : ∀ pk, (A pk).Bounded q) (ε : ℚ)
    (hε : ∀ i ≤ q, (Nat.card {t : ZMod FR_MODULUS × {h : G1r // h ≠ 0} × (Q → (ZMod FR_MODULUS)ˣ) //
        ∃ x S, batchSolver Q own g1GenR (t.1 • g1GenR) t.2.1.1 t.2.2 i A (t.1 • g2GenR) = some (x, S) ∧
          Solved C.toPairing g1GenR t.1 t.2.1.1 S} : ℚ) /
      Nat.card (ZMod FR_MODULUS × {h : G1r // h ≠ 0} × (Q → (ZMod FR_MODULUS)ˣ)) ≤ ε) :
    (Nat.card {t : ZMod FR_MODULUS × (Q → {h : G1r // h ≠ 0}) // WinsBatch C.toPairing Q own A t.1 t.2} : ℚ) /
      Nat.card (ZMod FR_MODULUS × (Q → {h : G1r // h ≠ 0})) ≤ (q + 1) * ε :=
  probability_of_count Q q ε hε
    (C95_reduction C.toPairing Q own g1GenR (g1r_span g1GenR_ne_zero) A q hA)

end

/-! ### Examples -/

/-- A forger as in `exampleForger`, whose batch has another entry, with the key `4` and the message `[2]`. -/
def exampleBatchForger (pk : ZMod 7) : BatchForger 7 (ZMod 7) (ZMod 7) :=
  .hash (POP_DOMAIN, [9], []) fun b => .hash (SIG_DOMAIN, [1], [2]) fun h => .hash (SIG_DOMAIN, [2], []) fun h' =>
    match b, h, h' with
    | .ok b, .ok h, .ok h' => .output ⟨[(4, [2], [])], [2], [(3, [9], 3 * b)], [1], [2], [],
        4 * h' + (pk + 2 + 3) * h⟩
    | _, _, _ => .output ⟨[], [], [], [], [], [], 0⟩

/-- The inputs of the example. -/
def exampleBatchQueries : Finset HashQuery := {(SIG_DOMAIN, [1], [2]), (SIG_DOMAIN, [2], []), (POP_DOMAIN, [9], [])}

theorem exampleBatchForger_bounded (pk : ZMod 7) : (exampleBatchForger pk).Bounded 3 := by
  intro b h h'
  cases b <;> cases h <;> cases h' <;> trivial

/-- It wins against every secret and every table. -/
theorem exampleBatchForger_wins (s : ZMod 7) (f : exampleBatchQueries → {h : ZMod 7 // h ≠ 0}) :
    WinsBatch (toyPairing 7) exampleBatchQueries (fun m => m == [8]) exampleBatchForger s f := by
  have hq1 : (SIG_DOMAIN, [1], [2]) ∈ exampleBatchQueries := by decide +kernel
  have hq2 : (SIG_DOMAIN, [2], []) ∈ exampleBatchQueries := by decide +kernel
  have hq3 : (POP_DOMAIN, [9], []) ∈ exampleBatchQueries := by decide +kernel
  have h1 : tableHash exampleBatchQueries f SIG_DOMAIN [1] [2] = .ok (f ⟨_, hq1⟩).1 := dif_pos hq1
  have h2 : tableHash exampleBatchQueries f SIG_DOMAIN [2] [] = .ok (f ⟨_, hq2⟩).1 := dif_pos hq2
  have h3 : tableHash exampleBatchQueries f POP_DOMAIN [9] [] = .ok (f ⟨_, hq3⟩).1 := dif_pos hq3
  have hg : ∀ t : ZMod 7, t • (toyPairing 7).g2 = t := fun t => by simp [toyPairing]
  unfold WinsBatch
  simp only [exampleBatchForger, attack, h1, h2, h3]
  refine ⟨by simp, ?_, ?_, ?_⟩
  · intro o ho
    rw [List.mem_singleton] at ho
    subst ho
    refine ⟨rfl, ?_⟩
    have := (verifySig_ok_iff (toyPairing 7) 3 POP_DOMAIN [9] [] (3 * (f ⟨_, hq3⟩).1)
      (tableHash exampleBatchQueries f)).mpr ⟨_, h3, by simp⟩
    rw [hg] at this
    exact this
  · intro x hx
    simp only [List.append_nil, List.mem_singleton] at hx
    subst hx
    exact fun h => absurd (show ([2] : Bytes) = [1] from (Prod.mk.inj h).1) (by decide)
  · have h4 := (C06_exact (toyPairing 7) (4 * (f ⟨_, hq2⟩).1 + (s + 2 + 3) * (f ⟨_, hq1⟩).1) [4, s + (2 + 3)] SIG_DOMAIN
      [([2], []), ([1], [2])] (tableHash exampleBatchQueries f) [(f ⟨_, hq2⟩).1, (f ⟨_, hq1⟩).1] rfl
      (.cons h2 (.cons h1 .nil))).1 (by simp [add_assoc])
    have e2 : [4, s + (2 + 3)].map (toPublic (toyPairing 7)) = [4, s + (2 + 3)] := by
      simp only [List.map_cons, List.map_nil, toPublic, hg]
    rw [e2] at h4
    simp only [BatchForgery.entries, aggregatePublicKeys_eq_sum, List.map_cons, List.map_nil,
      List.sum_cons, List.sum_nil, List.cons_append, List.nil_append, toPublic, hg, add_zero]
    exact h4

/-- So it wins in all `7 * 6 ^ 3` cases, and the solver has at least as many successes, weighted. -/
example : (7 - 1) * (7 * 6 ^ 3) ≤
    ∑ i ∈ range 4, Nat.card {t : ZMod 7 × {h : ZMod 7 // h ≠ 0} × (exampleBatchQueries → (ZMod 7)ˣ) //
      ∃ x S, batchSolver exampleBatchQueries (fun m => m == [8]) (1 : ZMod 7) (t.1 • 1) t.2.1.1 t.2.2 i exampleBatchForger
        (t.1 • (toyPairing 7).g2) = some (x, S) ∧ Solved (toyPairing 7) 1 t.1 t.2.1.1 S} := by
  have h := C95_reduction (toyPairing 7) exampleBatchQueries (fun m => m == [8]) 1 (fun h => ⟨h, by simp⟩)
    exampleBatchForger 3 exampleBatchForger_bounded
  have hall : ∀ t : ZMod 7 × (exampleBatchQueries → {h : ZMod 7 // h ≠ 0}),
      WinsBatch (toyPairing 7) exampleBatchQueries (fun m => m == [8]) exampleBatchForger t.1 t.2 :=
    fun t => exampleBatchForger_wins t.1 t.2
  have hcard : Nat.card {t : ZMod 7 × (exampleBatchQueries → {h : ZMod 7 // h ≠ 0}) //
      WinsBatch (toyPairing 7) exampleBatchQueries (fun m => m == [8]) exampleBatchForger t.1 t.2} = 7 * 6 ^ 3 := by
    rw [Nat.card_congr (Equiv.subtypeUnivEquiv hall), Nat.card_prod, Nat.card_fun, Nat.card_zmod]
    have h1 : Nat.card {h : ZMod 7 // h ≠ 0} = 6 := by
      rw [Nat.card_eq_fintype_card]; decide
    have h2 : Nat.card exampleBatchQueries = 3 := by
      rw [Nat.card_eq_fintype_card, Fintype.card_coe]; decide +kernel
    rw [h1, h2]
  rw [hcard] at h
  exact h

/-- The solver at work: secret `5`, challenge `4` placed at question `1`; the solution is `5 * 4 + 5 = 4` and `5`, as
the other entry contributes `3 * 4 = 5`. -/
example : batchSolver exampleBatchQueries (fun m => m == [8]) (1 : ZMod 7) 5 4 (fun _ => Units.mkOfMulEqOne 3 5 (by decide)) 1
    exampleBatchForger 5 = some ((SIG_DOMAIN, [1], [2]), 4, 5) := by decide +kernel

/-- A repeated message: the key `3` of somebody else, the rogue key `5 - 3 = 2`, and the signature `5 * h`. -/
example : batchVerify (toyPairing 7) (5 * 4) [3, 5 - 3] SIG_DOMAIN [([1], [2]), ([1], [2])]
    (fun _ _ _ => .ok 4) = .ok () :=
  C95_repeated (toyPairing 7) 3 5 (fun _ _ _ => .ok 4) [1] [2] 4 rfl

end Verif
