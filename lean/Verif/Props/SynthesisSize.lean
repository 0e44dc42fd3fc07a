import Verif.Model.EvaluationDomain
import Verif.Props.SynthesisProgram

/-!
# C123: the size of the two circuits and the domains of their setups

Exact numbers of constraints and witnesses of the epoch circuit and of the helper circuit, in terms of those of the
gadgets of arkworks; the domains that arkworks chooses; and when a setup succeeds on them.
-/

set_option linter.unusedSectionVars false

namespace Verif

section

variable {p : ℕ} [Fact p.Prime]

theorem cost_mapM_all {α β : Type} {f : α → Synth p β} {n w : ℕ} {Q : β → Prop}
    (h : ∀ a, Cost (f a) n w Q) (l : List α) :
    Cost (Synth.mapM f l) (l.length * n) (l.length * w) fun r => r.length = l.length ∧ ∀ x ∈ r, Q x := by
  induction l with
  | nil => intro cs r hr; cases hr; exact ⟨by simp, by simp, rfl, by simp⟩
  | cons a as ih =>
    exact (h a).bind (fun _ hx => ih.bind (fun _ hy => cost_pure
      ⟨by simp only [List.length_cons, hy.1], List.forall_mem_cons.2 ⟨hx, hy.2⟩⟩) rfl rfl)
      (by simp [Nat.succ_mul, Nat.add_comm]) (by simp [Nat.succ_mul, Nat.add_comm])

theorem cost_frToBitsV_length (x : LinComb p) (n : ℕ) :
    Cost (frToBitsV x n) (toBitsCost p).1 (toBitsCost p).2 fun r => r.length = n := by
  refine (cost_toBitsLe x).bind (m := 0) (v := 0) (fun bits _ => ?_) rfl rfl
  intro cs r hr
  split at hr
  · cases hr
  · cases hr; exact ⟨rfl, rfl, by dsimp only; rw [List.length_take]; omega⟩

theorem cost_g2ToBitsV_length (v : Fp2V p × Fp2V p × Fp2V p) :
    Cost (g2ToBitsV v) (2 * (toBitsCost p).1 + (10 + 2 * (leHalfCost p).1))
      (2 * (toBitsCost p).2 + (8 + 2 * (leHalfCost p).2)) fun r => r.length = 2 * bitLength p + 1 :=
  (cost_toBitsLe _).bind (fun _ h0 => (cost_toBitsLe _).bind (fun _ h1 => (cost_yToBitG2 _ _).bind
    (fun _ _ => cost_pure (by simp [h0.1, h1.1]; omega)) rfl rfl) rfl rfl) (by omega) (by omega)

theorem cost_constrainBool (l : List (Option Bool)) :
    Cost (p := p) (constrainBool l) l.length l.length fun r => r.length = l.length ∧ ∀ b ∈ r, b.isVar = true := by
  have h := cost_mapM_all (p := p) (fun b : Option Bool => cost_boolWitness (getValue id b)) l
  rwa [Nat.mul_one] at h

theorem cost_newInput (f : ConstraintSystem p → Outcome SynthErr (ZMod p)) :
    Cost (newInput f) 0 0 fun _ => True := by
  intro cs r hr
  unfold newInput at hr
  split at hr
  · cases hr; exact ⟨rfl, rfl, trivial⟩
  · obtain ⟨v, _, rfl⟩ := (Outcome.map_eq_ok_iff _ _ _).1 hr
    exact ⟨rfl, rfl, trivial⟩

theorem cost_enforceAll {l : List (BoolV × BoolV)} (h : ∀ t ∈ l, t.1.isVar = true) :
    Cost (p := p) (Synth.forM (fun t => boolEnforceEqual t.1 t.2) l) l.length 0 fun _ => True := by
  induction l with
  | nil => exact cost_pure trivial
  | cons a as ih =>
    exact (cost_boolEnforceEqual (h a List.mem_cons_self)).bind
      (fun _ _ => ih fun t ht => h t (List.mem_cons_of_mem _ ht)) (by rw [List.length_cons]; omega) rfl

theorem cost_packChunk (chunk : List BoolV) :
    Cost (p := p) (packChunk true chunk) ((toBitsCost p).1 + chunk.length) (toBitsCost p).2 fun _ => True := by
  refine (cost_newInput _).bind (fun v _ => (cost_toBitsLe _).bind (m := chunk.length) (v := 0)
    (fun bits hb => ?_) rfl rfl) (by omega) (by omega)
  split
  · intro cs r hr; cases hr
  · rename_i hlt
    refine Cost.bind (n := chunk.length) (w := 0) (Q := fun _ => True) ?_ (fun _ _ => cost_pure trivial) rfl rfl
    have hz : ((bits.reverse.drop (bits.length - chunk.length)).zip chunk).length = chunk.length := by
      rw [List.length_zip, List.length_drop, List.length_reverse]; omega
    have := cost_enforceAll (p := p) (l := (bits.reverse.drop (bits.length - chunk.length)).zip chunk) fun t ht =>
      hb.2 _ (List.mem_reverse.1 (List.mem_of_mem_drop (List.of_mem_zip (a := t.1) (b := t.2) ht).1))
    rwa [hz] at this

theorem cost_packAll (l : List (List BoolV)) :
    Cost (p := p) (Synth.mapM (packChunk true) l) (l.length * (toBitsCost p).1 + (l.map List.length).sum)
      (l.length * (toBitsCost p).2) fun r => r.length = l.length := by
  induction l with
  | nil => intro cs r hr; cases hr; exact ⟨by simp, by simp, rfl⟩
  | cons a as ih =>
    exact (cost_packChunk a).bind (fun _ _ => ih.bind (fun _ hy => cost_pure
      (by simp only [List.length_cons, hy])) rfl rfl)
      (by simp only [List.length_cons, List.map_cons, List.sum_cons, Nat.succ_mul]; omega)
      (by simp only [List.length_cons, Nat.succ_mul]; omega)

/-- Packing into public inputs: every input is split into bits, every bit packed is compared. -/
theorem cost_multipack {n : ℕ} (hn : n ≠ 0) (bits : List BoolV) :
    Cost (p := p) (multipack true n bits) ((bits.length + n - 1) / n * (toBitsCost p).1 + bits.length)
      ((bits.length + n - 1) / n * (toBitsCost p).2) fun r => r.length = (bits.length + n - 1) / n := by
  have h := cost_packAll (p := p) (chunks n bits)
  rwa [← List.length_flatten, chunks_flatten hn, chunks_length hn] at h

theorem cost_g2Select {b : BoolV} (hb : b.isVar = true) (u v : G2V p) :
    Cost (g2Select b u v) 6 6 fun _ => True :=
  (cost_fp2Select hb _ _).bind (fun _ _ => (cost_fp2Select hb _ _).bind (fun _ _ =>
    (cost_fp2Select hb _ _).bind (fun _ _ => cost_pure trivial) rfl rfl) rfl rfl) rfl rfl

theorem cost_g1Select {b : BoolV} (hb : b.isVar = true) (u v : G1V p) :
    Cost (g1Select b u v) 3 3 fun _ => True :=
  (cost_fpSelect hb _ _).bind (fun _ _ => (cost_fpSelect hb _ _).bind (fun _ _ =>
    (cost_fpSelect hb _ _).bind (fun _ _ => cost_pure trivial) rfl rfl) rfl rfl) rfl rfl

theorem cost_fp2MulByInverse (nr : ZMod p) (x d : Fp2V p) :
    Cost (fp2MulByInverse nr x d) 6 6 fun _ => True :=
  Cost.bind ((cost_fp2Witness _).bind (fun _ _ => (cost_fp2MulEquals _ _ _ _).bind (fun _ _ =>
    cost_pure trivial) rfl rfl) rfl rfl) (fun _ _ => cost_fp2Mul _ _ _) rfl rfl

end

theorem toBitsCost_fr : toBitsCost FR_MODULUS = (672, 505) := by decide +kernel

/-- The lengths of the results of `to_bits`, for `n` keys. -/
structure EpochBitsV.Sized (e : EpochBitsV FQ_MODULUS) (n : ℕ) : Prop where
  epochBits : e.epochBits.length = 256 + 755 * n
  extraDataBits : e.extraDataBits.length = 56
  firstEpochBits : e.firstEpochBits.length = 176 + 755 * n
  lastEpochBits : e.lastEpochBits.length = 176 + 755 * n
  pubkeys : e.pubkeys.length = n

theorem flatMap_bits_length {l : List (G2V FQ_MODULUS × List BoolV)} (h : ∀ x ∈ l, x.2.length = 755) :
    (l.flatMap (·.2)).length = 755 * l.length := by
  induction l with
  | nil => rfl
  | cons a as ih =>
    rw [List.flatMap_cons, List.length_append, ih fun x hx => h x (List.mem_cons_of_mem _ hx),
      h a List.mem_cons_self, List.length_cons]
    omega

theorem cost_epochKey_length (pk : Option G2Point) : Cost (epochKey pk) 4008 3034 fun r => r.2.length = 755 :=
  (cost_allocPointG2 _ _ _ _ _ _).bind (fun _ _ => (cost_g2ToBitsV_length _).bind
    (fun _ h => cost_pure (by dsimp only; rw [h, bitLength_fq]))
    rfl rfl) (by simp only [toBitsCost_fq, leHalfCost_fq]) (by simp only [toBitsCost_fq, leHalfCost_fq])

theorem cost_epochToBits (d : EpochDataOpt) :
    Cost (epochToBits d) (4985 + 4008 * d.publicKeys.length) (3770 + 3034 * d.publicKeys.length)
      fun e => e.Sized d.publicKeys.length := by
  refine (cost_fpWitness _).bind (fun _ _ => (cost_frToBitsV_length _ _).bind (fun _ h1 =>
    (cost_fpWitness _).bind (fun _ _ => (cost_frToBitsV_length _ _).bind (fun _ h2 =>
    (cost_fpWitness _).bind (fun _ _ => (cost_frToBitsV_length _ _).bind (fun _ h3 =>
    (cost_fpWitness _).bind (fun _ _ => (cost_frToBitsV_length _ _).bind (fun _ h4 =>
    (cost_fpWitness _).bind (fun _ _ => (cost_frToBitsV_length _ _).bind (fun _ h5 =>
    (cost_mapM_all cost_epochKey_length _).bind (fun ks hk => cost_pure ?_) rfl rfl) rfl rfl) rfl rfl) rfl rfl)
      rfl rfl) rfl rfl) rfl rfl) rfl rfl) rfl rfl) rfl rfl)
      (by rw [toBitsCost_fq]; omega) (by rw [toBitsCost_fq]; omega)
  have hf := flatMap_bits_length hk.2
  rw [hk.1] at hf
  have hE : ENTROPY_BYTES = 16 := rfl
  constructor
  all_goals
    simp only [assembleBits, List.length_append, List.length_map, hf, h1, h2, h3, h4, h5, hE, hk.1]
    try omega

/-- What the gadgets of arkworks cost in a circuit of `n` validators and `k` epochs: numbers of constraints and
witnesses of the hash to G1, the preparation of a point of G1 and of G2, the pairing equation, the hashes of the
first and the last edge, and the verifier of the helper. -/
structure OuterGadgets.CostsAt {H : Type} (O : OuterGadgets H) (generate : Bool) (n k : ℕ)
    (hash p1 p2 verify first last groth : ℕ × ℕ) : Prop where
  hash : ∀ xs ys, xs.length = 256 + 755 * n → ys.length = 56 → Cost (O.hash generate xs ys) hash.1 hash.2
    fun r => generate = false → r.crhBits.length = 384 ∧ r.xofBits.length = 512
  prepareG1 : ∀ v, Cost (O.prepareG1 v) p1.1 p1.2 fun _ => True
  prepareG2 : ∀ v, Cost (O.prepareG2 v) p2.1 p2.2 fun _ => True
  verify : ∀ ks ms s, ks.length = k → ms.length = k → Cost (O.verify ks ms s) verify.1 verify.2 fun _ => True
  first : ∀ m, m.length = 8 * ((176 + 755 * n + 7) / 8) →
    Cost (O.blake m edgeParams.parameters) first.1 first.2 fun r => r.length = 256
  last : ∀ m, m.length = 8 * ((176 + 755 * (n + 1) + 7) / 8) →
    Cost (O.blake m edgeParams.parameters) last.1 last.2 fun r => r.length = 256
  groth : ∀ ins h, generate = false → ins.length = (384 * k + 251) / 252 + (512 * k + 251) / 252 →
    Cost (O.groth ins h) groth.1 groth.2 fun _ => True

section

variable {HP VK : Type} {O : OuterGadgets (HashToBitsHelper HP VK)} {generate : Bool} {n k : ℕ}
  {hash p1 p2 verify first last groth : ℕ × ℕ}

theorem cost_enforceBitmapV (oc drop : Bool) (x y : Fq × Fq) {keys : List (G2V FQ_MODULUS)} {bits : List BoolV}
    (hb : ∀ b ∈ bits, b.isVar = true) (m : LinComb FQ_MODULUS) :
    Cost (enforceBitmapV oc drop (-5) g2CoeffB.re g2CoeffB.im x y keys bits m)
      (2991 + (30 * keys.length + addsCost drop false keys.length))
      (2258 + (23 * keys.length + addsCost drop false keys.length)) fun _ => bits.length = keys.length := by
  refine (cost_maxOccurrences oc bits m false).bind (m := 30 * keys.length + addsCost drop false keys.length)
    (v := 23 * keys.length + addsCost drop false keys.length) (fun _ _ => ?_)
    (by simp only [leHalfCost_fq, toBitsCost_fq]) (by simp only [leHalfCost_fq, toBitsCost_fq])
  unfold enforceAggregatedPubkeysV
  split
  · intro cs r hr; cases hr
  · rename_i hl
    have hl : bits.length = keys.length := not_not.1 hl
    have := cost_aggregateLoop drop (-5) g2CoeffB.re g2CoeffB.im x y (l := keys.zip bits)
      (fun k hk => hb _ (List.of_mem_zip (a := k.1) (b := k.2) hk).2) none
    rw [List.length_zip, hl, min_self] at this
    exact this.mono fun _ _ => hl

theorem cost_constrainUpdateV (hO : O.CostsAt generate n k hash p1 p2 verify first last groth) (oc drop : Bool)
    (pad : (Fq × Fq) × (Fq × Fq)) {prev : PreviousV FQ_MODULUS} (hp : prev.pubkeys.length = n) {eb : BoolV}
    (he : eb.isVar = true) (u : SingleUpdateOpt) :
    Cost (constrainUpdateV O oc drop generate pad n prev eb u)
      (7985 + 4039 * n + addsCost drop false n + hash.1) (6033 + 3058 * n + addsCost drop false n + hash.2)
      fun r => r.1.1.Sized n ∧
        (generate = false → r.1.2.crhBits.length = 384 ∧ r.1.2.xofBits.length = 512) := by
  unfold constrainUpdateV
  split
  · intro cs r hr; cases hr
  · rename_i hn
    have hn : n = u.epochData.publicKeys.length := not_not.1 hn
    have h1 : Cost (constrainEpochV O generate prev.index u.epochData) (4989 + 4008 * n + hash.1)
        (3772 + 3034 * n + hash.2) fun r => r.1.Sized n ∧
          (generate = false → r.2.crhBits.length = 384 ∧ r.2.xofBits.length = 512) := by
      have hb := cost_epochToBits u.epochData
      rw [← hn] at hb
      have hnext : ∀ a b : LinComb FQ_MODULUS, Cost (enforceNextEpoch a b) 4 2 fun _ => True :=
        fun a b => (cost_isEqZero b).bind (fun _ _ => cost_enforce _ _ _) rfl rfl
      exact hb.bind (fun e h => (hnext _ _).bind (fun _ _ => (hO.hash _ _ h.epochBits h.extraDataBits).bind
        (fun _ hh => cost_pure ⟨h, hh⟩) rfl rfl) rfl rfl) (by omega) (by omega)
    have h2 : ∀ e : EpochBitsV FQ_MODULUS, Cost (constrainEntropyV prev.entropy eb e) 5 3 fun _ => True :=
      fun e => (cost_isEqZero _).bind (fun _ hz => (cost_boolAnd (isVar_neg hz) he).bind
        (fun _ _ => cost_enforce _ _ _) rfl rfl) rfl rfl
    intro cs r hr
    obtain ⟨e, a1, hr⟩ := synth_bind_ok.1 hr
    obtain ⟨w, a2, hr⟩ := synth_bind_ok.1 hr
    obtain ⟨bits, a3, hr⟩ := synth_bind_ok.1 hr
    obtain ⟨pk, a4, hr⟩ := synth_bind_ok.1 hr
    cases hr
    obtain ⟨b1, c1, q1⟩ := h1 _ _ a1
    obtain ⟨b2, c2, _⟩ := h2 _ _ _ a2
    obtain ⟨b3, c3, q3⟩ := cost_constrainBool _ _ _ a3
    obtain ⟨b4, c4, q4⟩ := cost_enforceBitmapV oc drop pad.1 pad.2 (keys := prev.pubkeys) q3.2 _ _ _ a4
    rw [hp] at b4 c4 q4
    exact ⟨by dsimp only; omega, by dsimp only; omega, q1⟩

theorem cost_nextPreviousV {b : BoolV} (hb : b.isVar = true) {e : EpochBitsV FQ_MODULUS} (he : e.pubkeys.length = n)
    {prev : PreviousV FQ_MODULUS} (hp : prev.pubkeys.length = n) :
    Cost (nextPreviousV b e prev) (3 + 6 * n) (3 + 6 * n) fun r => r.pubkeys.length = n := by
  have hm := cost_mapM_all (fun k : G2V FQ_MODULUS × G2V FQ_MODULUS => cost_g2Select hb k.1 k.2)
    (e.pubkeys.zip prev.pubkeys)
  rw [List.length_zip, he, hp, min_self] at hm
  exact (cost_fpSelect hb _ _).bind (fun _ _ => (cost_fpSelect hb _ _).bind (fun _ _ => hm.bind (fun _ h =>
    (cost_fpSelect hb _ _).bind (fun _ _ => cost_pure h.1) rfl rfl) rfl rfl) rfl rfl) (by omega) (by omega)

theorem cost_preparePairV (hO : O.CostsAt generate n k hash p1 p2 verify first last groth) (a : Fq × Fq)
    (d : (Fq × Fq) × (Fq × Fq)) {b : BoolV} (hb : b.isVar = true) (pk : Option (G2V FQ_MODULUS))
    (m : G1V FQ_MODULUS) :
    Cost (preparePairV O a d b pk m) (9 + p1.1 + p2.1) (9 + p1.2 + p2.2) fun _ => True :=
  (cost_g2Select hb _ _).bind (fun _ _ => (hO.prepareG2 _).bind (fun _ _ => (cost_g1Select hb _ _).bind
    (fun _ _ => (hO.prepareG1 _).bind (fun _ _ => cost_pure trivial) rfl rfl) rfl rfl) rfl rfl)
    (by omega) (by omega)

theorem cost_lastEpochV (drop : Bool) {keys : List (G2V FQ_MODULUS)} (hk : keys.length = n) {bits : List BoolV}
    (hl : bits.length = 176 + 755 * n) {b : BoolV} (hb : b.isVar = true) :
    Cost (lastEpochV drop keys bits b) (4009 + addsCost drop false n) (3030 + addsCost drop false n)
      fun r => r.length = 176 + 755 * (n + 1) := by
  have ha := cost_aggregateAllLoop drop (-5) g2CoeffB.re g2CoeffB.im keys none
  rw [hk] at ha
  refine ha.bind (fun _ _ => (cost_fp2MulByInverse _ _ _).bind (fun _ _ => (cost_fp2MulByInverse _ _ _).bind
    (fun _ _ => (cost_g2ToBitsV_length _).bind (fun _ h => (cost_boolEnforceEqual hb).bind (fun _ _ =>
      cost_pure ?_) rfl rfl) rfl rfl) rfl rfl) rfl rfl) ?_ ?_
  · rw [List.length_append, h, hl, bitLength_fq]; omega
  · simp only [toBitsCost_fq, leHalfCost_fq, Option.isSome_none]; omega
  · simp only [toBitsCost_fq, leHalfCost_fq, Option.isSome_none]; omega

/-- The loop over the epochs: the last round costs more. -/
theorem cost_epochsLoop (hO : O.CostsAt generate n k hash p1 p2 verify first last groth) (oc drop : Bool)
    (a : Fq × Fq) (d : (Fq × Fq) × (Fq × Fq)) {eb : BoolV} (he : eb.isVar = true) (us : List SingleUpdateOpt)
    (hne : us ≠ []) {prev : PreviousV FQ_MODULUS} (hp : prev.pubkeys.length = n) :
    Cost (epochsLoop O oc drop generate a d n eb us prev)
      (us.length * (8000 + 4045 * n + addsCost drop false n + hash.1 + p1.1 + p2.1) +
        (4009 + addsCost drop false n))
      (us.length * (6047 + 3064 * n + addsCost drop false n + hash.2 + p1.2 + p2.2) +
        (3030 + addsCost drop false n))
      fun r => r.lastEpochBits.length = 176 + 755 * (n + 1) ∧ r.aggregatedPublicKeys.length = us.length ∧
        r.messageHashes.length = us.length ∧
        (generate = false → r.crhBits.length = 384 * us.length ∧ r.xofBits.length = 512 * us.length) := by
  induction us generalizing prev with
  | nil => exact absurd rfl hne
  | cons u us ih =>
    intro cs r hr
    unfold epochsLoop at hr
    obtain ⟨c, a1, hr⟩ := synth_bind_ok.1 hr
    obtain ⟨z, a2, hr⟩ := synth_bind_ok.1 hr
    obtain ⟨prev', a3, hr⟩ := synth_bind_ok.1 hr
    obtain ⟨pair, a4, hr⟩ := synth_bind_ok.1 hr
    obtain ⟨lst, a5, hr⟩ := synth_bind_ok.1 hr
    obtain ⟨rest, a6, hr⟩ := synth_bind_ok.1 hr
    cases hr
    obtain ⟨b1, c1, q1⟩ := cost_constrainUpdateV hO oc drop d hp he u _ _ a1
    obtain ⟨b2, c2, q2⟩ := cost_isEqZero _ _ _ a2
    have hz := isVar_neg q2
    obtain ⟨b3, c3, q3⟩ := cost_nextPreviousV hz q1.1.pubkeys hp _ _ a3
    obtain ⟨b4, c4, _⟩ := cost_preparePairV hO _ _ hz _ _ _ _ a4
    cases us with
    | nil =>
      obtain ⟨b5, c5, q5⟩ := cost_lastEpochV drop q3 q1.1.lastEpochBits hz _ _ a5
      cases a6
      refine ⟨?_, ?_, q5, rfl, rfl, fun h => ⟨?_, ?_⟩⟩
      · simp only [List.length_cons, List.length_nil, zero_add, one_mul]; omega
      · simp only [List.length_cons, List.length_nil, zero_add, one_mul]; omega
      · simp [(q1.2 h).1]
      · simp [(q1.2 h).2]
    | cons u' us =>
      cases a5
      obtain ⟨b6, c6, q6, q7, q8, q9⟩ := ih (by simp) q3 _ _ a6
      refine ⟨?_, ?_, q6, ?_, ?_, fun h => ⟨?_, ?_⟩⟩
      · dsimp only at b6 ⊢
        rw [List.length_cons (a := u), Nat.succ_mul]
        omega
      · dsimp only at c6 ⊢
        rw [List.length_cons (a := u), Nat.succ_mul]
        omega
      · simp only [List.length_cons, q7]
      · simp only [List.length_cons, q8]
      · simp only [List.length_append, (q1.2 h).1, (q9 h).1, List.length_cons]; omega
      · simp only [List.length_append, (q1.2 h).2, (q9 h).2, List.length_cons]; omega

theorem cost_edges (hO : O.CostsAt generate n k hash p1 p2 verify first last groth) {b : EdgeBitsV}
    (h1 : b.firstEpochBits.length = 176 + 755 * n) (h2 : b.lastEpochBits.length = 176 + 755 * (n + 1)) :
    Cost (verifyEdgesV O b) (2506 + first.1 + last.1) (1506 + first.2 + last.2) fun r => r.length = 2 := by
  have e1 : Cost (edgeHashV O b.firstEpochBits) first.1 first.2 fun r => r.length = 256 :=
    hO.first _ (by rw [List.length_append, List.length_reverse, List.length_replicate, h1]; omega)
  have e2 : Cost (edgeHashV O b.lastEpochBits) last.1 last.2 fun r => r.length = 256 :=
    hO.last _ (by rw [List.length_append, List.length_reverse, List.length_replicate, h2]; omega)
  intro cs r hr
  obtain ⟨x, a1, hr⟩ := synth_bind_ok.1 hr
  obtain ⟨y, a2, hr⟩ := synth_bind_ok.1 hr
  obtain ⟨b1, c1, q1⟩ := e1 _ _ a1
  obtain ⟨b2, c2, q2⟩ := e2 _ _ a2
  obtain ⟨b3, c3, q3⟩ := cost_multipack (by norm_num) _ _ _ hr
  rw [List.length_append, q1, q2, toBitsCost_fq] at b3 c3
  rw [List.length_append, q1, q2] at q3
  exact ⟨by omega, by omega, q3⟩

/-- **C123.** The number of constraints and witnesses that a run of the whole circuit emits, in a setup and in a proof,
whatever the data, for `n + 1` validators and `k` epochs. -/
theorem C123_constraints {s : ValidatorSetUpdateOpt G1Point HP VK} {n k : ℕ}
    (hO : O.CostsAt s.hashHelper.isNone (n + 1) k hash p1 p2 verify first last groth) {oc drop : Bool} {a : Fq × Fq}
    {d : (Fq × Fq) × (Fq × Fq)} (hn : s.numValidators = n + 1)
    (h0 : s.initialEpoch.publicKeys.length = n + 1) (hk : s.epochs.length = k) (hk0 : k ≠ 0)
    {cs : ConstraintSystem FQ_MODULUS} {r : List (LinComb FQ_MODULUS) × ConstraintSystem FQ_MODULUS}
    (hr : generateConstraints O oc drop a d s cs = .ok r) :
    r.2.constraints.length = cs.constraints.length + 15516 + 4044 * n +
      k * (12045 + 4081 * n + (if drop then 0 else 18) + hash.1 + p1.1 + p2.1) + (if drop then 0 else 18) +
      verify.1 + first.1 + last.1 + (if s.hashHelper.isNone then 0 else groth.1) ∧
    r.2.numWit = cs.numWit + 11349 + 3070 * n +
      k * (9111 + 3100 * n + (if drop then 0 else 18) + hash.2 + p1.2 + p2.2) + (if drop then 0 else 18) +
      verify.2 + first.2 + last.2 + (if s.hashHelper.isNone then 0 else groth.2) ∧
    r.1.length = 2 := by
  have hadds : addsCost drop false (n + 1) = (if drop then 0 else 18) + 36 * n := by
    unfold addsCost addCost
    simp
  obtain ⟨b, a1, hr⟩ := synth_bind_ok.1 hr
  obtain ⟨f, e1, a1⟩ := synth_bind_ok.1 a1
  obtain ⟨z, e2, a1⟩ := synth_bind_ok.1 a1
  obtain ⟨l, e3, a1⟩ := synth_bind_ok.1 a1
  obtain ⟨v, e4, a1⟩ := synth_bind_ok.1 a1
  cases a1
  obtain ⟨b1, c1, q1⟩ := cost_epochToBits _ _ _ e1
  rw [h0] at b1 c1 q1
  obtain ⟨b2, c2, q2⟩ := cost_isEqZero _ _ _ e2
  rw [hn] at e3
  obtain ⟨b3, c3, q3, q4, q5, q6⟩ := cost_epochsLoop hO oc drop a d (isVar_neg q2) s.epochs
    (fun h => hk0 (by rw [← hk, h]; rfl)) q1.pubkeys _ _ e3
  rw [hk] at b3 c3 q4 q5 q6
  have hv : Cost (verifySignatureV O s.aggregatedSignature l.1.aggregatedPublicKeys l.1.messageHashes)
      (5 + verify.1) (7 + verify.2) fun _ => True :=
    (cost_allocPointG1 _ _ _ _).bind (fun _ _ => hO.verify _ _ _ q4 q5) rfl rfl
  obtain ⟨b4, c4, _⟩ := hv _ _ e4
  rw [hadds] at b3 c3
  have hm : k * (8000 + 4045 * (n + 1) + ((if drop then 0 else 18) + 36 * n) + hash.1 + p1.1 + p2.1) =
      k * (12045 + 4081 * n + (if drop then 0 else 18) + hash.1 + p1.1 + p2.1) := by congr 1; omega
  have hw : k * (6047 + 3064 * (n + 1) + ((if drop then 0 else 18) + 36 * n) + hash.2 + p1.2 + p2.2) =
      k * (9111 + 3100 * n + (if drop then 0 else 18) + hash.2 + p1.2 + p2.2) := by congr 1; omega
  rw [hm] at b3
  rw [hw] at c3
  dsimp only at hr
  cases hq : s.hashHelper with
  | none =>
    rw [hq] at hr
    obtain ⟨b5, c5, q5⟩ := cost_edges hO (b := ⟨_, _, _, _⟩) q1.firstEpochBits q3 _ _ hr
    simp only [Option.isNone_none, if_true]
    exact ⟨by omega, by omega, q5⟩
  | some x =>
    rw [hq] at hr
    obtain ⟨g, e5, hr⟩ := synth_bind_ok.1 hr
    have hg : s.hashHelper.isNone = false := by rw [hq]; rfl
    obtain ⟨b5, c5, _⟩ := hO.groth (leChunksV l.1.crhBits 252 ++ leChunksV l.1.xofBits 252) x hg (by
      rw [List.length_append, leChunksV, leChunksV, List.length_map, List.length_map, chunks_length (by norm_num),
        chunks_length (by norm_num), (q6 hg).1, (q6 hg).2]; rfl) _ _ e5
    obtain ⟨b6, c6, q7⟩ := cost_edges hO (b := ⟨_, _, _, _⟩) q1.firstEpochBits q3 _ _ hr
    simp only [Option.isNone_some, Bool.false_eq_true, if_false]
    exact ⟨by omega, by omega, q7⟩

end

/-- **C123.** The numbers of constraints, witnesses and public inputs of the helper circuit for messages of 384 bits,
for a BLAKE2s gadget of `blakeCost` constraints and witnesses. -/
theorem C123_helper_constraints {blake : List BoolV → Bytes → Synth FR_MODULUS (List BoolV)} {blakeCost : ℕ × ℕ}
    (hb : ∀ m b, m.length = 384 → Cost (blake m b) blakeCost.1 blakeCost.2 fun r => r.length = 256)
    {h : HashToBits} (hl : ∀ m ∈ h.messageBits, m.length = 384) {cs : ConstraintSystem FR_MODULUS}
    {r : (List (LinComb FR_MODULUS) × List (LinComb FR_MODULUS)) × ConstraintSystem FR_MODULUS}
    (hr : h.generateConstraints blake cs = .ok r) :
    r.2.constraints.length = cs.constraints.length + h.messageBits.length * (1280 + 2 * blakeCost.1) +
      672 * ((384 * h.messageBits.length + 251) / 252 + (512 * h.messageBits.length + 251) / 252) ∧
    r.2.numWit = cs.numWit + h.messageBits.length * (384 + 2 * blakeCost.2) +
      505 * ((384 * h.messageBits.length + 251) / 252 + (512 * h.messageBits.length + 251) / 252) ∧
    r.1.1.length = (384 * h.messageBits.length + 251) / 252 ∧
    r.1.2.length = (512 * h.messageBits.length + 251) / 252 := by
  have hrounds : ∀ l : List (List (Option Bool)), (∀ m ∈ l, m.length = 384) →
      Cost (Synth.mapM (helperRound blake) l) (l.length * (384 + 2 * blakeCost.1))
        (l.length * (384 + 2 * blakeCost.2)) fun r => (r.map (·.1)).flatten.length = 384 * l.length ∧
          (r.map (·.2)).flatten.length = 512 * l.length := by
    intro l hl
    induction l with
    | nil => intro cs r hr; cases hr; exact ⟨by simp, by simp, rfl, rfl⟩
    | cons m l ih =>
      have h1 : Cost (helperRound blake m) (384 + 2 * blakeCost.1) (384 + 2 * blakeCost.2)
          fun r => r.1.length = 384 ∧ r.2.length = 512 := by
        have hm := cost_constrainBool (p := FR_MODULUS) m
        rw [hl m List.mem_cons_self] at hm
        refine hm.bind (fun bits hbits => Cost.bind (n := 2 * blakeCost.1) (w := 2 * blakeCost.2)
          (Q := fun r => r.length = 512) ?_ (fun _ h => cost_pure ⟨hbits.1, h⟩) rfl rfl) rfl rfl
        unfold blakeBitsV
        rw [if_neg (by decide)]
        have hmm := cost_mapM_all (fun i : ℕ => hb bits
          (blake2xsParams 512 (UInt32.ofNat i) SIG_DOMAIN).parameters hbits.1)
          (List.range ((512 : UInt16) / 256).toNat)
        rw [List.length_range, show ((512 : UInt16) / 256).toNat = 2 by decide] at hmm
        refine hmm.bind (fun bl h => cost_pure ?_) rfl rfl
        rw [List.length_flatten, List.map_congr_left (g := fun _ => 256) h.2]
        simp [h.1]
      refine h1.bind (fun x hx => (ih fun m hm => hl m (List.mem_cons_of_mem _ hm)).bind
        (fun y hy => cost_pure ?_) rfl rfl) (by rw [List.length_cons]; ring)
        (by rw [List.length_cons]; ring)
      simp only [List.map_cons, List.flatten_cons, List.length_append, hx.1, hx.2, hy.1, hy.2, List.length_cons]
      omega
  obtain ⟨x, a1, hr⟩ := synth_bind_ok.1 hr
  obtain ⟨y, a2, hr⟩ := synth_bind_ok.1 hr
  obtain ⟨z, a3, hr⟩ := synth_bind_ok.1 hr
  cases hr
  obtain ⟨b1, c1, q1, q2⟩ := hrounds _ hl _ _ a1
  obtain ⟨b2, c2, p2⟩ := cost_multipack (by decide) _ _ _ a2
  obtain ⟨b3, c3, p3⟩ := cost_multipack (by decide) _ _ _ a3
  rw [q1, toBitsCost_fr] at b2 c2
  rw [q2, toBitsCost_fr] at b3 c3
  rw [q1] at p2
  rw [q2] at p3
  have hc : FR_CAPACITY = 252 := rfl
  simp only [hc, show ∀ m, m + 252 - 1 = m + 251 by omega] at b2 c2 b3 c3 p2 p3
  generalize h.messageBits.length = k at *
  have d1 : k * (384 + 2 * blakeCost.1) + 896 * k = k * (1280 + 2 * blakeCost.1) := by ring
  exact ⟨by dsimp only; omega, by dsimp only; omega, p2, p3⟩

/-! ## Domains -/

/-- A generator `g` and two-adicity `s` as arkworks stores them for a field: `2 ^ s` divides `p - 1`, `g` is not a
square, and its order does not divide `2 ^ s`. -/
structure TwoAdic (p : ℕ) (g : ZMod p) (s : ℕ) : Prop where
  pos : s ≠ 0
  dvd : 2 ^ s ∣ p - 1
  fermat : g ^ (p - 1) = 1
  nonresidue : g ^ ((p - 1) / 2) ≠ 1
  order : g ^ 2 ^ s ≠ 1

theorem TwoAdic.ne_zero {p : ℕ} [Fact p.Prime] {g : ZMod p} {s : ℕ} (h : TwoAdic p g s) : g ≠ 0 := by
  rintro rfl
  have := h.fermat
  rw [zero_pow (by have := (Fact.out : p.Prime).two_le; omega)] at this
  exact zero_ne_one this

theorem TwoAdic.primitive {p : ℕ} [Fact p.Prime] {g : ZMod p} {s : ℕ} (h : TwoAdic p g s) {j : ℕ} (hj : j ≤ s) :
    IsPrimitiveRoot (rootOfUnity g s j) (2 ^ j) := by
  obtain ⟨c, hc⟩ := h.dvd
  have h2 : 0 < 2 ^ s := by positivity
  have hdiv : (p - 1) / 2 ^ s = c := by rw [hc, Nat.mul_div_cancel_left _ h2]
  obtain ⟨t, rfl⟩ := Nat.exists_eq_succ_of_ne_zero h.pos
  have hhalf : (p - 1) / 2 = c * 2 ^ t := by
    rw [hc, pow_succ, show 2 ^ t * 2 * c = 2 * (c * 2 ^ t) by ring, Nat.mul_div_cancel_left _ (by norm_num)]
  have ho : orderOf (g ^ c) = 2 ^ (t + 1) := orderOf_eq_prime_pow
    (by rw [← pow_mul, ← hhalf]; exact h.nonresidue)
    (by rw [← pow_mul, mul_comm, ← hc]; exact h.fermat)
  have hp : IsPrimitiveRoot (g ^ c) (2 ^ (t + 1)) := ho ▸ IsPrimitiveRoot.orderOf _
  unfold rootOfUnity
  rw [hdiv]
  exact hp.pow (by positivity) (by rw [← pow_add]; congr 1; omega)

theorem TwoAdic.shift {p : ℕ} {g : ZMod p} {s : ℕ} (h : TwoAdic p g s) {j : ℕ} (hj : j ≤ s) : g ^ 2 ^ j ≠ 1 := by
  intro he
  refine h.order ?_
  rw [show s = j + (s - j) by omega, pow_add, pow_mul, he, one_pow]

/-- **C123.** The domain that arkworks chooses for `n` points: there is one exactly if `n` is at most the order of the
largest subgroup of this kind.  It is then valid, as C105, C118 and C122 assume of domains, its size is a
power of two, at least `n` and less than `2 * n`. -/
theorem C123_domain {p : ℕ} [Fact p.Prime] {g : ZMod p} {s : ℕ} (h : TwoAdic p g s) (n : ℕ) (hn : 1 < n) :
    (radix2Domain g s n = none ↔ 2 ^ s < n) ∧
    ∀ D, radix2Domain g s n = some D → D.Valid ∧ (∃ j, D.size = 2 ^ j) ∧ n ≤ D.size ∧ D.size < 2 * n := by
  unfold radix2Domain
  refine ⟨?_, fun D hD => ?_⟩
  · rw [← Nat.lt_clog_iff_pow_lt (by norm_num)]
    split <;> simp_all
  · split at hD
    · cases hD
    · rename_i hs
      cases hD
      have hs := not_lt.1 hs
      refine ⟨⟨h.primitive hs, h.ne_zero, h.shift hs⟩, ⟨_, rfl⟩, Nat.le_pow_clog (by norm_num) _, ?_⟩
      have h1 := Nat.pow_pred_clog_lt_self (b := 2) (by norm_num) hn
      have h2 := Nat.clog_pos (b := 2) (by norm_num) hn
      have h3 : 2 ^ Nat.clog 2 n = 2 * 2 ^ (Nat.clog 2 n).pred := by
        rw [← pow_succ']; congr 1; exact (Nat.succ_pred_eq_of_pos h2).symm
      dsimp only
      omega

/-- The generator of `ark_bls12_377::Fq`, the scalar field of BW6-761 (external constants). -/
theorem twoAdic_fq : TwoAdic FQ_MODULUS 15 46 := by
  have hp : ∀ n, n < 2 ^ 377 → ((powModAux 377 15 n FQ_MODULUS 1 : ℕ) : Fq) = (15 : Fq) ^ n := fun n h => by
    have := powModAux_cast (f := 377) (a := 15) (m := FQ_MODULUS) h
    exact_mod_cast this
  refine ⟨by norm_num, by decide +kernel, ?_, ?_, ?_⟩
  · rw [← hp _ (by decide +kernel)]; decide +kernel
  · rw [← hp _ (by decide +kernel)]; decide +kernel
  · rw [← hp _ (by decide +kernel)]; decide +kernel

/-- The generator of `ark_bls12_377::Fr` (external constants). -/
theorem twoAdic_fr : TwoAdic FR_MODULUS 22 47 := by
  have hp : ∀ n, n < 2 ^ 253 → ((powModAux 253 22 n FR_MODULUS 1 : ℕ) : ZMod FR_MODULUS) =
      (22 : ZMod FR_MODULUS) ^ n := fun n h => by
    have := powModAux_cast (f := 253) (a := 22) (m := FR_MODULUS) h
    exact_mod_cast this
  refine ⟨by norm_num, by decide +kernel, ?_, ?_, ?_⟩
  · rw [← hp _ (by decide +kernel)]; decide +kernel
  · rw [← hp _ (by decide +kernel)]; decide +kernel
  · rw [← hp _ (by decide +kernel)]; decide +kernel

/-- **C123.** Once the constraints of a circuit are generated, its setup on the domain of arkworks succeeds exactly
if the constraints, the public inputs and the constant one fit into the largest domain and neither `γ` nor `δ` is
zero; and the domain is then valid. -/
theorem C123_setup {p : ℕ} [Fact p.Prime] {G1 G2 : Type*} [AddCommGroup G1] [Module (ZMod p) G1] [AddCommGroup G2]
    [Module (ZMod p) G2] {g : ZMod p} {s : ℕ} (h : TwoAdic p g s) {α : Type} {circuit : Synth p α}
    {u : α × ConstraintSystem p} (hu : circuit (.new p true) = .ok u) (h0 : 0 < u.2.numInst + u.2.constraints.length)
    (td : Trapdoor (ZMod p) G1 G2) :
    ((∃ pk, circuitSetup circuit (setupDomain g s) td = .ok pk) ↔
      u.2.constraints.length + u.2.numInst + 1 ≤ 2 ^ s ∧ td.gamma ≠ 0 ∧ td.delta ≠ 0) ∧
    (u.2.constraints.length + u.2.numInst + 1 ≤ 2 ^ s → (setupDomain g s u.2.domainSize).Valid ∧
      u.2.domainSize ≤ (setupDomain g s u.2.domainSize).size) := by
  have hsz : u.2.domainSize = u.2.constraints.length + u.2.numInst + 1 := rfl
  obtain ⟨d1, d2⟩ := C123_domain h u.2.domainSize (by omega)
  have key : u.2.constraints.length + u.2.numInst + 1 ≤ 2 ^ s → (setupDomain g s u.2.domainSize).Valid ∧
      u.2.domainSize ≤ (setupDomain g s u.2.domainSize).size := by
    intro hle
    cases hD : radix2Domain g s u.2.domainSize with
    | none => exact absurd (d1.1 hD) (by omega)
    | some D =>
      obtain ⟨v1, _, v3, _⟩ := d2 D hD
      unfold setupDomain
      rw [hD]
      exact ⟨v1, v3⟩
  refine ⟨⟨?_, ?_⟩, key⟩
  · rintro ⟨pk, hpk⟩
    unfold circuitSetup at hpk
    rw [hu] at hpk
    dsimp only at hpk
    unfold generateParameters at hpk
    split at hpk
    · cases hpk
    · rename_i hlt
      split at hpk
      · cases hpk
      · rename_i hg
        split at hpk
        · cases hpk
        · rename_i hd
          refine ⟨?_, hg, hd⟩
          by_contra hbig
          have hnone := d1.2 (by omega)
          refine hlt ?_
          unfold setupDomain
          rw [hnone]
          exact Nat.lt_of_lt_of_le (Nat.succ_pos _) (Nat.le_add_left _ _)
  · rintro ⟨hle, hg, hd⟩
    obtain ⟨pk, hpk, _⟩ := generateParameters_total u.2.matrices (setupDomain g s u.2.domainSize) td
      (key hle).2 hg hd
    refine ⟨pk, ?_⟩
    unfold circuitSetup
    rw [hu]
    exact hpk

/-! ## Examples -/

theorem toyOuter_costs (n k : ℕ) : toyOuter.CostsAt true n k (0, 0) (0, 0) (0, 0) (0, 0) (0, 0) (0, 0) (0, 0) :=
  ⟨fun _ _ _ _ => cost_pure (nofun), fun _ => cost_pure trivial, fun _ => cost_pure trivial,
    fun _ _ _ _ _ => cost_pure trivial, fun _ _ => cost_pure List.length_replicate,
    fun _ _ => cost_pure List.length_replicate, fun _ _ h => nomatch h⟩

/-- The setup for one validator and five epochs with the toy gadgets has 75741 constraints, or 75849 if the first
additions to the constant zero are not dropped; its domain has 2^17 points, and the proof of an honest prover made
with its parameters is accepted. -/
example (oc oc' drop : Bool) : ∃ s u pk,
    proverCircuit (⟨1, sqrtTwo, 1⟩ : G1Var).point g2Generator 1 (chainBlock [toyKey] 0 4)
        ([nativeStep 5] ++ [nativeStep 6]) 5 = .ok s ∧
    generateConstraints toyOuter oc drop (1, sqrtTwo) ((g2GenX.re, g2GenX.im), (g2GenY.re, g2GenY.im))
      (ValidatorSetUpdateOpt.empty () 1 5 0 none) (.new FQ_MODULUS true) = .ok u ∧
    u.2.constraints.length = (if drop then 75741 else 75849) ∧
    (setupDomain (15 : Fq) 46 u.2.domainSize).size = 2 ^ 17 ∧
    circuitSetup (G1 := ZMod FQ_MODULUS) (G2 := ZMod FQ_MODULUS) (generateConstraints toyOuter oc drop (1, sqrtTwo)
      ((g2GenX.re, g2GenX.im), (g2GenY.re, g2GenY.im)) (ValidatorSetUpdateOpt.empty () 1 5 0 none))
      (setupDomain 15 46) (Trapdoor.ofScalars (fun _ => 3) 5 6) = .ok pk ∧
    ∃ proof, circuitProve (generateConstraints toyOuter oc' drop (1, sqrtTwo)
        ((g2GenX.re, g2GenX.im), (g2GenY.re, g2GenY.im)) (s.toOpt none)) (setupDomain 15 46) pk 0 0 = .ok proof ∧
      verifyEpochs (verifyProof (toyPairing FQ_MODULUS)) g2Generator (Blake2s.ofCore toyCore) pk.vk
        (chainBlock [toyKey] 0 4) (chainBlock [toyKey] 0 6) proof = .ok () := by
  obtain ⟨s, r, u, h1, h2, _, hu, _⟩ := toyOuter_setup oc oc' drop
  obtain ⟨c1, _, c3⟩ := C123_constraints (s := ValidatorSetUpdateOpt.empty () 1 5 0 none) (n := 0) (k := 5)
    (toyOuter_costs 1 5) rfl (by simp [ValidatorSetUpdateOpt.empty, EpochDataOpt.empty])
    (by simp [ValidatorSetUpdateOpt.empty]) (by norm_num) hu
  have hc : u.2.constraints.length = if drop then 75741 else 75849 := by
    rw [c1]
    cases drop <;> rfl
  have hi : u.2.numInst = 2 := by
    rw [(inputs_generateConstraints toyOuter_keeps hu).2, c3]
    rfl
  have hle : u.2.constraints.length + u.2.numInst + 1 ≤ 2 ^ 46 := by
    rw [hc, hi]; cases drop <;> norm_num
  have h3 : (3 : ZMod FQ_MODULUS) ≠ 0 := by decide +kernel
  obtain ⟨k1, k2⟩ := C123_setup (G1 := ZMod FQ_MODULUS) (G2 := ZMod FQ_MODULUS) twoAdic_fq hu (by omega)
    (Trapdoor.ofScalars (fun _ => 3) 5 6)
  obtain ⟨pk, hpk⟩ := k1.2 ⟨hle, h3, h3⟩
  refine ⟨s, u, pk, h1, hu, hc, ?_, hpk, ?_⟩
  · have hds : u.2.domainSize = if drop then 75744 else 75852 := by
      unfold ConstraintSystem.domainSize
      rw [hc, hi]; cases drop <;> rfl
    have hlog : Nat.clog 2 u.2.domainSize = 17 := by
      rw [hds]
      cases drop <;> decide +kernel
    unfold setupDomain radix2Domain
    rw [hlog]
    rfl
  · have h := C118_complete (O := toyOuter) (a := (1, sqrtTwo))
      (d := ((g2GenX.re, g2GenX.im), (g2GenY.re, g2GenY.im))) (toyPairing FQ_MODULUS) toyOuter_shaped
      onePoint_on genVar_denotes toyOuter_runs toyOuter_keeps
      oc' oc drop (Blake2s.ofCore_agree toyCore) (fun _ _ _ => (one_mul _).symm) (fun _ _ _ => (one_mul _).symm)
      none (n := 1) (by norm_num) (by decide +kernel) (max := 5)
      (toyOuter_gen.symm ▸ toyOuter_chain) (by decide)
      (fun _ => ⟨genVar_point_ne, by
        rw [toyOuter_gen]
        change g2Generator ∉ [toyKey]
        rw [List.mem_singleton]
        exact fun h => toyKey_ne_gen h.symm, _, rfl, rfl⟩)
      (by
        change [toyKey].sum ≠ 0
        rw [List.sum_singleton]
        exact toyKey_ne) (fun _ h => nomatch h) (toyOuter_gen.symm ▸ h1) h2
      (fun v hv => by
        rw [hu] at hv
        cases hv
        exact (k2 hle).1) hpk 0 0
    rw [toyOuter_gen] at h
    exact h

/-- The helper circuit on two messages, with the BLAKE2s gadget of the example of C122, has 8608 constraints. -/
example (m m' : List Bool) (h : m.length = 384) (h' : m'.length = 384) : ∃ K : Blake2sCore, ∃ r,
    HashToBits.generateConstraints (programBlake K) ⟨[m, m'].map (·.map some)⟩ (.new FR_MODULUS false) = .ok r ∧
    r.2.constraints.length = 8608 ∧ r.2.numWit = 5313 ∧ r.1.1.length = 4 ∧ r.1.2.length = 5 := by
  obtain ⟨K, hK, _⟩ := oneCore true
  obtain ⟨r, _, hr, _⟩ := C120_run (programBlake_runs hK) (fun _ _ => keeps_pure _) (messages := [m, m'])
    (by simp [h, h'])
  have hc := C123_helper_constraints (blakeCost := (0, 0))
    (fun _ b _ => cost_pure (by
      rw [List.length_map]; unfold Blake2sCore.evaluate
      rw [bytesLeToBitsLe_all _ 256 (by rw [K.length_digest]), flatMap_unpack_length, K.length_digest]))
    (by simp [h, h']) hr
  simp only [List.length_map, List.length_cons, List.length_nil] at hc
  exact ⟨K, r, hr, hc.1, hc.2.1, hc.2.2.1, hc.2.2.2⟩

end Verif
