import Verif.Props.LightClient

/-!
# C101: a light client that follows the chain by many proofs

A light client holds a block, and replaces it by every block it accepts.  What `verify` binds of the last block
is not what it reads of the first one (`encode_to_bits_cip22` takes the parent entropy of the first block and the
epoch entropy of the last), so that C93 does not apply to its own result.
-/

set_option exponentiation.threshold 800
set_option linter.unusedSectionVars false

namespace Verif

/-- A light client as in `crates/epoch-snark/src/api/verifier.rs:23-40`, called once for each update: the accepted
block becomes the first block of the next call.  (The loop is the user's; the code has only the call.) -/
noncomputable def syncEpochs {VK Proof : Type*} (groth16 : VK → Proof → List Fq → Outcome Unit Bool)
    (gen : G2Point) (B : Blake2s) (vk : VK) :
    EpochBlock → List (EpochBlock × Proof) → Outcome VerificationError EpochBlock
  | held, [] => .ok held
  | held, u :: us =>
    (verifyEpochs groth16 gen B vk held u.1 u.2).bind fun _ => syncEpochs groth16 gen B vk u.1 us

section

variable {G1 GT HP : Type*} [AddCommGroup G1] [CommGroup GT]

/-- **C101.** Let `chain` have honest quorums, let the proof system be sound for the proofs shown, with an extracted assignment in
which nothing is forged on the chain and all thresholds are in range, and let a light client that holds block
`i` accept any list of updates, one after the other.  Then each accepted block is a block of the chain, in index,
threshold, keys and epoch entropy, each at least one and at most `max` blocks after the one before; or one of the
extracted assignments, for an update and the block held before it, contains a collision. -/
theorem C101_sync {alloc : G2Var → Prop} (ha : AffineAllocG2 alloc)
    {hashC : Bool → List Bool → List Bool → HashOut G1 → Prop}
    {K : Blake2sCore} {B : Blake2s} (hB : Blake2sAgree K B)
    {groth : List (List Bool) → HP → Outcome Unit (Prop × Bool)} {e : G1 → G2Point → GT} {gen1 : G1}
    {gen2 : G2Point} {n max : ℕ} (hq : n < FQ_MODULUS) (hmax : 0 < max) {helper : Option HP}
    {VK Proof : Type*} {groth16 : VK → Proof → List Fq → Outcome Unit Bool} {vk : VK}
    {N : ℕ} {chain : ℕ → EpochBlock} {Honest : G2Point → Prop} {Signed : G2Point → Bytes → Bytes → Prop}
    (hc : HonestQuorums gen2 N chain Honest Signed) {extract : Proof → List Fq → CircuitVars G1}
    (us : List (EpochBlock × Proof))
    (hent : ∀ u ∈ us, EntropyOk u.1.epochEntropy ∧ EntropyOk u.1.parentEntropy)
    {i : ℕ} (hi : i < N) {first final : EpochBlock} (hh : Holds gen2 chain i first)
    (hsound : ∀ t ∈ (first :: us.map (·.1)).zip us, ∀ inputs, inputs = publicInputs gen2 B t.1 t.2.1 →
      groth16 vk t.2.2 inputs = .ok true → ∃ sat : Prop,
        epochCircuit alloc hashC K groth e gen1 gen2 n helper (extract t.2.2 inputs) inputs = .ok sat ∧ sat ∧
        (extract t.2.2 inputs).initial.keys.length = n ∧ (extract t.2.2 inputs).updates.length = max ∧
        ThresholdsInRange (extract t.2.2 inputs) ∧
        NotForgedOnChain gen2 N chain Honest Signed (extract t.2.2 inputs))
    (h : syncEpochs groth16 gen2 B vk first us = .ok final) :
    (∃ t ∈ (first :: us.map (·.1)).zip us, ∃ b,
      enforceEpochs alloc (hashC helper.isNone) e gen1 gen2 n (extract t.2.2 (publicInputs gen2 B t.1 t.2.1)) =
        .ok b ∧ EdgesCollide B gen2 b t.1 t.2.1) ∨
    ∃ js : List ℕ, (i :: js).IsChain (fun a b => a < b ∧ b ≤ a + max) ∧
      List.Forall₂ (fun u j => j < N ∧ Holds gen2 chain j u.1 ∧
        encodeEntropy u.1.epochEntropy = encodeEntropy (chain j).epochEntropy) us js ∧
      Holds gen2 chain (js.getLast?.getD i) final := by
  induction us generalizing i first with
  | nil =>
    simp only [syncEpochs, Outcome.ok.injEq] at h
    subst h
    exact Or.inr ⟨[], by simp, .nil, hh⟩
  | cons u us ih =>
    simp only [syncEpochs, Outcome.bind_eq_ok_iff] at h
    obtain ⟨⟨⟩, h1, h2⟩ := h
    rw [C34_accepts_iff] at h1
    obtain ⟨sat, s1, s2, s3, s4, s5, s6⟩ := hsound (first, u) (by simp) _ rfl h1
    obtain ⟨e1, e2⟩ := hent u List.mem_cons_self
    rcases C101_step ha hB hq s3 (by rintro h0; rw [h0] at s4; simp at s4; omega) hc hi hh e1 s1 s2 s5 s6 with
      ⟨b, hb, hcol⟩ | ⟨j, a1, a2, a3, a4, a5, a6, a7, -⟩
    · exact Or.inl ⟨(first, u), by simp, b, hb, hcol⟩
    · have hj : Holds gen2 chain j u.1 := ⟨a4, a5, a7, e2⟩
      rcases ih (fun v hv => hent v (List.mem_cons_of_mem _ hv)) a3 hj (fun t ht => hsound t (by
        rw [List.map_cons, List.zip_cons_cons]
        exact List.mem_cons_of_mem _ ht)) h2 with ⟨t, ht, hr⟩ | ⟨js, c1, c2, c3⟩
      · refine Or.inl ⟨t, ?_, hr⟩
        rw [List.map_cons, List.zip_cons_cons]
        exact List.mem_cons_of_mem _ ht
      · refine Or.inr ⟨j :: js, ?_, .cons ⟨a3, hj, a6⟩ c2, ?_⟩
        · rw [List.isChain_cons_cons]
          exact ⟨⟨a1, by rw [s4] at a2; exact a2⟩, c1⟩
        · rw [List.getLast?_cons]
          exact c3

/-- Bounds on the last element of such a list. -/
theorem chain_last_bounds (max : ℕ) (js : List ℕ) : ∀ i : ℕ,
    (i :: js).IsChain (fun a b => a < b ∧ b ≤ a + max) →
    i + js.length ≤ js.getLast?.getD i ∧ js.getLast?.getD i ≤ i + max * js.length := by
  induction js with
  | nil => intro i _; simp
  | cons j js ih =>
    intro i h
    rw [List.isChain_cons_cons] at h
    obtain ⟨⟨h1, h2⟩, h3⟩ := h
    obtain ⟨h4, h5⟩ := ih j h3
    rw [List.getLast?_cons, Option.getD_some, List.length_cons, Nat.mul_succ]
    omega

/-- **C101**, counted: without such a collision the client ends with a block of the chain at least as many blocks
further as it accepted updates, and at most `max` times as many; it cannot be made to accept more updates than
there are blocks after its own. -/
theorem C101_progress {alloc : G2Var → Prop} (ha : AffineAllocG2 alloc)
    {hashC : Bool → List Bool → List Bool → HashOut G1 → Prop}
    {K : Blake2sCore} {B : Blake2s} (hB : Blake2sAgree K B)
    {groth : List (List Bool) → HP → Outcome Unit (Prop × Bool)} {e : G1 → G2Point → GT} {gen1 : G1}
    {gen2 : G2Point} {n max : ℕ} (hq : n < FQ_MODULUS) (hmax : 0 < max) {helper : Option HP}
    {VK Proof : Type*} {groth16 : VK → Proof → List Fq → Outcome Unit Bool} {vk : VK}
    {N : ℕ} {chain : ℕ → EpochBlock} {Honest : G2Point → Prop} {Signed : G2Point → Bytes → Bytes → Prop}
    (hc : HonestQuorums gen2 N chain Honest Signed) {extract : Proof → List Fq → CircuitVars G1}
    (us : List (EpochBlock × Proof))
    (hent : ∀ u ∈ us, EntropyOk u.1.epochEntropy ∧ EntropyOk u.1.parentEntropy)
    {i : ℕ} (hi : i < N) {first final : EpochBlock} (hh : Holds gen2 chain i first)
    (hsound : ∀ t ∈ (first :: us.map (·.1)).zip us, ∀ inputs, inputs = publicInputs gen2 B t.1 t.2.1 →
      groth16 vk t.2.2 inputs = .ok true → ∃ sat : Prop,
        epochCircuit alloc hashC K groth e gen1 gen2 n helper (extract t.2.2 inputs) inputs = .ok sat ∧ sat ∧
        (extract t.2.2 inputs).initial.keys.length = n ∧ (extract t.2.2 inputs).updates.length = max ∧
        ThresholdsInRange (extract t.2.2 inputs) ∧
        NotForgedOnChain gen2 N chain Honest Signed (extract t.2.2 inputs))
    (h : syncEpochs groth16 gen2 B vk first us = .ok final)
    (hcol : ∀ t ∈ (first :: us.map (·.1)).zip us, ∀ b,
      enforceEpochs alloc (hashC helper.isNone) e gen1 gen2 n (extract t.2.2 (publicInputs gen2 B t.1 t.2.1)) =
        .ok b → ¬ EdgesCollide B gen2 b t.1 t.2.1) :
    final.index.toNat < N ∧ i + us.length ≤ final.index.toNat ∧ final.index.toNat ≤ i + max * us.length ∧
      final.maximumNonSigners = (chain final.index.toNat).maximumNonSigners ∧
      final.paddedKeys gen2 = (chain final.index.toNat).paddedKeys gen2 := by
  rcases C101_sync ha hB hq hmax hc us hent hi hh hsound h with ⟨t, ht, b, hb, hx⟩ | ⟨js, h1, h2, h3⟩
  · exact absurd hx (hcol t ht b hb)
  have hlt : js.getLast?.getD i < N := by
    cases hl : js.getLast? with
    | none => exact hi
    | some j =>
      have hj := List.mem_of_getLast? hl
      obtain ⟨k, hk, rfl⟩ := List.getElem_of_mem hj
      exact ((List.forall₂_iff_get.mp h2).2 k (by rw [h2.length_eq]; exact hk) hk).1
  have hidx : final.index.toNat = js.getLast?.getD i := by rw [h3.index, hc.index _ hlt]
  obtain ⟨b1, b2⟩ := chain_last_bounds max js i h1
  rw [← h2.length_eq] at b1 b2
  rw [hidx]
  exact ⟨hlt, b1, b2, h3.threshold, h3.keys⟩

/-! ### What the first block is not bound to -/

/-- **C101.** Of the block it starts from, the verifier reads neither the epoch entropy nor the round, and of the
block it accepts neither the parent entropy nor the round: any other values give the same answer. -/
theorem C101_not_read {VK Proof : Type*} (groth16 : VK → Proof → List Fq → Outcome Unit Bool) (gen : G2Point)
    (B : Blake2s) (vk : VK) (first last : EpochBlock) (proof : Proof) (epoch parent : Option Bytes)
    (round round' : UInt8) :
    verifyEpochs groth16 gen B vk { first with epochEntropy := epoch, round := round }
      { last with parentEntropy := parent, round := round' } proof =
    verifyEpochs groth16 gen B vk first last proof := rfl

theorem flatMap_of_forall₂ {ws : List (G2Var × YBitWitness FQ_MODULUS)} {ks : List G2Point}
    (h : List.Forall₂ (fun k pk => g2ToBits k.1 k.2 = encodePublicKey pk) ws ks) :
    (ws.flatMap fun k => g2ToBits k.1 k.2) = ks.flatMap encodePublicKey := by
  induction h with
  | nil => rfl
  | cons h1 _ ih => rw [List.flatMap_cons, List.flatMap_cons, h1, ih]

/-- **C101 (violated).** The parent entropy of the first block, which the public inputs do contain, means
nothing: whoever can satisfy the circuit from `first` to `last` can satisfy it from a block with **any** other
parent entropy (or presents a collision for the first edge), with the same updates, signature and helper. -/
theorem C101_parent_free {alloc : G2Var → Prop}
    {hashC : Bool → List Bool → List Bool → HashOut G1 → Prop}
    {K : Blake2sCore} {B : Blake2s} (hB : Blake2sAgree K B)
    {groth : List (List Bool) → HP → Outcome Unit (Prop × Bool)} {e : G1 → G2Point → GT} {gen1 : G1}
    {gen2 : G2Point} {n : ℕ} {helper : Option HP} {c : CircuitVars G1} {first last : EpochBlock} {sat : Prop}
    (hf : EntropyOk first.parentEntropy)
    (h : epochCircuit alloc hashC K groth e gen1 gen2 n helper c (publicInputs gen2 B first last) =
      .ok sat) (hs : sat) {parent : Option Bytes} (hp : EntropyOk parent) :
    EdgeCollision B (bitsBeToBytesLe c.initial.firstEpochBits) (first.encodeFirstToBytes gen2) ∨
    ∃ sat' : Prop, epochCircuit alloc hashC K groth e gen1 gen2 n helper
      { c with initial := { c.initial with parentEntropy := entropyToFr parent } }
      (publicInputs gen2 B { first with parentEntropy := parent } last) = .ok sat' ∧ sat' := by
  unfold epochCircuit at h
  rw [Outcome.bind_eq_ok_iff] at h
  obtain ⟨b, hb, h⟩ := h
  unfold EpochBits.verify at h
  simp only [Outcome.map_eq_ok_iff] at h
  obtain ⟨v, ⟨hv, hhelp, rfl⟩, rfl⟩ := h
  obtain ⟨hsat, hvs, hedge⟩ := hs
  -- the result of the changed assignment
  unfold enforceEpochs at hb
  rw [Outcome.bind_eq_ok_iff] at hb
  obtain ⟨r, hr, hb⟩ := hb
  rw [Outcome.map_eq_ok_iff] at hb
  obtain ⟨eqn, heqn, rfl⟩ := hb
  simp only [] at hsat hedge hhelp
  unfold verifyEdgesC at hedge
  rw [C50_edge_hash hB, C50_edge_hash hB] at hedge
  have hbits := C54_verifier (by
    unfold hashFirstLast
    simp only [List.length_append, hashToBits_length]) hedge (pack_hashFirstLast gen2 B first last)
  unfold hashFirstLast at hbits
  obtain ⟨k1, k2⟩ := List.append_inj hbits (by rw [hashToBits_length, hashToBits_length])
  simp only [] at k1 k2
  by_cases c1 : bitsBeToBytesLe c.initial.firstEpochBits = first.encodeFirstToBytes gen2
  swap
  · exact Or.inl ⟨c1, k1⟩
  right
  obtain ⟨m, -⟩ := edgeMatches_of_bits (w := c.initial) (x := c.initial.parentEntropy) (b := first)
    (gen2 := gen2) hf (rest := []) (rest' := []) rfl (by
      rw [List.append_nil, List.append_nil]; exact c1)
  have hnew : ({ c.initial with parentEntropy := entropyToFr parent } : EpochVars).firstEpochBits =
      ({ first with parentEntropy := parent } : EpochBlock).encodeToBitsCip22 gen2 .first := by
    have hk := flatMap_of_forall₂ m.keys
    unfold EpochVars.firstEpochBits EpochBlock.encodeToBitsCip22
    simp only [keyBits_eq, frToBits_entropy hp]
    rw [(frToBits_u16_iff _ _).mpr m.index, (frToBits_u32_iff _ _).mpr m.threshold]
    unfold EpochVars.keyBits
    simp only [hk]
    rfl
  have hverify : verifyEdgesC K
      { sat := r.sat
        firstEpochBits := ({ c.initial with parentEntropy := entropyToFr parent } : EpochVars).firstEpochBits
        lastEpochBits := r.lastEpochBits, crhBits := r.crhBits, xofBits := r.xofBits }
      (publicInputs gen2 B { first with parentEntropy := parent } last) := by
    unfold verifyEdgesC
    rw [C50_edge_hash hB, C50_edge_hash hB, hnew, k2]
    obtain ⟨packed, h2, h3⟩ := C54_complete (p := FQ_MODULUS) (n := 377) (size := 376) (by norm_num)
      (by norm_num) FQ_bounds.1.le (hashFirstLast gen2 B { first with parentEntropy := parent } last)
    have h4 : pack (hashFirstLast gen2 B { first with parentEntropy := parent } last) = .ok packed := h2
    rw [pack_hashFirstLast, Outcome.ok.injEq] at h4
    rw [h4]
    exact h3
  obtain ⟨b', henf, hsat', hf', hl', hc', hx'⟩ : ∃ b' : EpochBits, enforceEpochs alloc (hashC helper.isNone) e gen1
      gen2 n { c with initial := { c.initial with parentEntropy := entropyToFr parent } } = .ok b' ∧ b'.sat ∧
      b'.firstEpochBits =
        ({ c.initial with parentEntropy := entropyToFr parent } : EpochVars).firstEpochBits ∧
      b'.lastEpochBits = r.lastEpochBits ∧ b'.crhBits = r.crhBits ∧ b'.xofBits = r.xofBits := by
    unfold enforceEpochs
    have hr' : intermediateLoop alloc (hashC helper.isNone) gen1 gen2 n (!c.entropyZero.2) c.last c.updates
      { pubkeys := ({ c.initial with parentEntropy := entropyToFr parent } : EpochVars).pubkeys,
        index := c.initial.index, entropy := c.initial.epochEntropy,
        maximumNonSigners := c.initial.maximumNonSigners } = .ok r := hr
    simp only [hr', Outcome.bind_ok, heqn, Outcome.map_ok, Outcome.ok.injEq, exists_eq_left', and_true]
    exact hsat
  have hedge' : verifyEdgesC K b' (publicInputs gen2 B { first with parentEntropy := parent } last) := by
    unfold verifyEdgesC at hverify ⊢
    rw [hf', hl']
    exact hverify
  refine ⟨b'.sat ∧ hv ∧ verifyEdgesC K b' (publicInputs gen2 B { first with parentEntropy := parent } last), ?_,
    hsat', hvs, hedge'⟩
  unfold epochCircuit
  rw [henf, Outcome.bind_ok]
  unfold EpochBits.verify
  cases helper with
  | none =>
    simp only [Outcome.ok.injEq] at hhelp
    subst hhelp
    rfl
  | some p =>
    simp only [verifyHelperProof] at hhelp
    simp only [verifyHelperProof, hc', hx', hhelp]
    rfl

end

/-! ### Completeness -/

theorem predecessors_append {G1 : Type*} (b0 : EpochBlock) (ts : List (EpochTransition G1))
    (last : EpochTransition G1) (rest : List (EpochTransition G1)) :
    predecessors b0 (ts ++ [last] ++ rest) =
      predecessors b0 (ts ++ [last]) ++ predecessors last.block rest := by
  induction ts generalizing b0 with
  | nil => rfl
  | cons t ts ih =>
    have h := ih t.block
    simp only [predecessors, List.cons_append, List.map_cons, List.zip_cons_cons, List.cons.injEq,
      true_and] at h ⊢
    exact h

/-- A chain with linked entropies may be cut anywhere. -/
theorem native_cut [DecidableEq G1Point] {GT : Type*} [CommGroup GT] {compat : Bool} {B : Blake2s}
    {pedersen : Bytes → Outcome BLSError Bytes} {sqrt : Fq → Option Fq} {e : G1Point → G2Point → GT}
    {gen2 : G2Point} {n : ℕ} {b0 : EpochBlock} {ts : List (EpochTransition G1Point)}
    {last : EpochTransition G1Point} {rest : List (EpochTransition G1Point)}
    (h : NativeChain compat B pedersen sqrt e gen2 n b0 (ts ++ [last] ++ rest))
    (hlink : ∀ p ∈ predecessors b0 (ts ++ [last] ++ rest), p.2.block.parentEntropy = p.1.epochEntropy) :
    NativeChain compat B pedersen sqrt e gen2 n b0 (ts ++ [last]) ∧
      NativeChain compat B pedersen sqrt e gen2 n last.block rest := by
  rw [predecessors_append] at hlink
  obtain ⟨h1, h2, -, h4, h5, h6⟩ := h
  rw [predecessors_append] at h2 h4 h5 h6
  refine ⟨⟨fun b hb => h1 b ?_, fun p hp => h2 p (List.mem_append_left _ hp),
    fun _ p hp => hlink p (List.mem_append_left _ hp), fun p hp => h4 p (List.mem_append_left _ hp),
    fun p hp => h5 p (List.mem_append_left _ hp), fun p hp => h6 p (List.mem_append_left _ hp)⟩,
    fun b hb => h1 b ?_, fun p hp => h2 p (List.mem_append_right _ hp),
    fun _ p hp => hlink p (List.mem_append_right _ hp), fun p hp => h4 p (List.mem_append_right _ hp),
    fun p hp => h5 p (List.mem_append_right _ hp), fun p hp => h6 p (List.mem_append_right _ hp)⟩
  · rw [List.map_append, ← List.cons_append]
    exact List.mem_append_left _ hb
  · rw [List.mem_cons] at hb
    refine List.mem_cons_of_mem _ ?_
    rw [List.map_append, List.mem_append]
    rcases hb with rfl | hb
    · exact Or.inl (List.mem_map_of_mem (by simp))
    · exact Or.inr hb

/-- **C101**, completeness: take any natively valid chain with linked entropies, cut it in any way into pieces of
at least one and at most `max` transitions, and let the proof system be complete.  Then there are proofs for the
pieces with which a light client that holds the first block follows the chain to its end.  (A piece shorter than
`max` needs that the padding key is not among its keys and that the padding block can be hashed, as in C68.) -/
theorem C101_complete [DecidableEq G1Point] {HP GT : Type*} [CommGroup GT] {alloc1 : G1Var → Prop} {alloc2 : G2Var → Prop}
    (ha1 : AllocCompleteG1 alloc1) (ha2 : AllocComplete alloc2) (compat checks : Bool)
    {K : Blake2sCore} {B : Blake2s} (hB : Blake2sAgree K B) {sqrt : Fq → Option Fq}
    (hs : SqrtSpec sqrt) {pedX : Bytes → Fq} {pedersen : Bytes → Outcome BLSError Bytes}
    (groth : List (List Bool) → HP → Outcome Unit (Prop × Bool)) (helper : Option HP)
    (hgroth : ∀ p, helper = some p → ∀ i, ∃ r, groth i p = .ok r ∧ r.1)
    {e : G1Point → G2Point → GT} (hl : ∀ P P' Q, e (P + P') Q = e P Q * e P' Q)
    (hr : ∀ P Q Q', e P (Q + Q') = e P Q * e P Q') {gen1 : G1Point} {gen2 : G2Point} {n : ℕ}
    (hq : n < FQ_MODULUS) {max : ℕ} {VK Proof : Type}
    {groth16 : VK → Proof → List Fq → Outcome Unit Bool} {vk : VK}
    (hprove : ∀ (s : ValidatorSetUpdate G1Point) c inputs sat,
      CircuitVars.assign checks (hashBitsToG1Out compat K B pedersen pedX sqrt helper.isNone) s = .ok c →
      c.updates.length = max →
      epochCircuit alloc2 (hashBitsToG1C alloc1 compat K pedX) K groth e gen1 gen2 n helper c inputs = .ok sat →
      sat → ∃ proof, groth16 vk proof inputs = .ok true)
    (pieces : List (List (EpochTransition G1Point) × EpochTransition G1Point))
    (hsize : ∀ g ∈ pieces, g.1.length + 1 ≤ max)
    (hped : ∀ b ∈ dummyBlock gen2 n :: (pieces.flatMap fun g => g.1 ++ [g.2]).map (·.block),
      pedersen (b.encodeInnerToBytes gen2).1 = .ok (leBytes 48 (pedX (b.encodeInnerToBytes gen2).1).val))
    {b0 : EpochBlock}
    (chain : NativeChain compat B pedersen sqrt e gen2 n b0 (pieces.flatMap fun g => g.1 ++ [g.2]))
    (hlink : ∀ p ∈ predecessors b0 (pieces.flatMap fun g => g.1 ++ [g.2]),
      p.2.block.parentEntropy = p.1.epochEntropy)
    (hdummy : ∀ g ∈ pieces, g.1.length + 1 < max → gen2 ≠ 0 ∧
      (∀ b ∈ b0 :: (pieces.flatMap fun g => g.1 ++ [g.2]).map (·.block), gen2 ∉ b.newPublicKeys) ∧
      ∃ h attempt, nativeEpochHash compat B pedersen sqrt gen2 (dummyBlock gen2 n) = .ok (h, attempt))
    (hlast : ∀ g ∈ pieces, g.2.block.newPublicKeys.sum ≠ 0) :
    ∃ us : List (EpochBlock × Proof), us.map (·.1) = pieces.map (·.2.block) ∧
      syncEpochs groth16 gen2 B vk b0 us = .ok ((pieces.map (·.2.block)).getLast?.getD b0) := by
  induction pieces generalizing b0 with
  | nil => exact ⟨[], rfl, rfl⟩
  | cons g gs ih =>
    rw [List.flatMap_cons] at chain hlink hped
    obtain ⟨c1, c2⟩ := native_cut chain hlink
    obtain ⟨s, c, sat, -, r2, r3, r4, r5, -, -, -⟩ := C68_complete_helper ha1 ha2 compat checks hB hs groth helper
      (max := max) (fun p hp i _ => hgroth p hp i) hl hr (gen1 := gen1) hq
      (fun b hb => hped b (by
        rw [List.mem_cons] at hb ⊢
        rw [List.map_append, List.mem_append]
        exact hb.imp_right Or.inl)) c1 (hsize g List.mem_cons_self)
      (fun hlt => by
        obtain ⟨d1, d2, d3⟩ := hdummy g List.mem_cons_self hlt
        refine ⟨d1, ?_, d3⟩
        cases hx : (g.1.map (·.block)).getLast? with
        | none => exact d2 b0 List.mem_cons_self
        | some b =>
          refine d2 b (List.mem_cons_of_mem _ ?_)
          have := List.mem_of_getLast? hx
          rw [List.flatMap_cons, List.map_append, List.map_append]
          exact List.mem_append_left _ (List.mem_append_left _ this))
      (hlast g List.mem_cons_self)
    obtain ⟨proof, hproof⟩ := hprove s c _ sat r2 r5 r3 r4
    obtain ⟨us, u1, u2⟩ := ih (fun x hx => hsize x (List.mem_cons_of_mem _ hx))
      (fun b hb => hped b (by
        rw [List.mem_cons] at hb ⊢
        rw [List.map_append, List.mem_append]
        exact hb.imp_right Or.inr)) c2
      (fun p hp => hlink p (by rw [predecessors_append]; exact List.mem_append_right _ hp))
      (fun x hx hlt => by
        obtain ⟨d1, d2, d3⟩ := hdummy x (List.mem_cons_of_mem _ hx) hlt
        refine ⟨d1, fun b hb => d2 b (List.mem_cons_of_mem _ ?_), d3⟩
        rw [List.flatMap_cons, List.map_append, List.mem_append, List.map_append, List.mem_append]
        rw [List.mem_cons] at hb
        rcases hb with rfl | hb
        · exact Or.inl (Or.inr (by simp))
        · exact Or.inr hb)
      (fun x hx => hlast x (List.mem_cons_of_mem _ hx))
    refine ⟨(g.2.block, proof) :: us, by rw [List.map_cons, List.map_cons, u1], ?_⟩
    have hv : verifyEpochs groth16 gen2 B vk b0 g.2.block proof = .ok () := by
      rw [C34_accepts_iff]; exact hproof
    simp only [syncEpochs]
    rw [hv, Outcome.bind_ok, u2, List.map_cons, List.getLast?_cons]
    rfl

/-! ### A concrete run -/

/-- `toy_chain` from any index. -/
theorem toy_chain_at {i0 i1 i2 : UInt16} (h1 : i1.toNat = i0.toNat + 1) (h2 : i2.toNat = i1.toNat + 1) :
    HonestChain (G1 := ℤ) (fun _ _ h => h.messageHash = 1)
    (fun _ _ => .ok ⟨1, [], []⟩) toyE g2Generator 1 (fun _ => ⟨1, [], []⟩) (chainBlock [toyKey] 0 i0)
    ([chainStep [toyKey] 0 [true] i1] ++ [chainStep [toyKey] 0 [true] i2]) where
  blocks := by
    intro b hb
    have : ∃ i, b = chainBlock [toyKey] 0 i := by
      simp only [List.cons_append, List.nil_append, List.map_cons, List.map_nil, List.mem_cons,
        List.not_mem_nil, or_false] at hb
      rcases hb with rfl | rfl | rfl
      · exact ⟨i0, rfl⟩
      · exact ⟨i1, rfl⟩
      · exact ⟨i2, rfl⟩
    obtain ⟨i, rfl⟩ := this
    refine ⟨rfl, ?_, le_refl _, ?_, ?_⟩
    · intro pk hpk
      rw [List.mem_singleton.mp hpk]; exact toyKey_ne
    · intro b hb; simp only [chainBlock, Option.some.injEq] at hb; rw [← hb]; rfl
    · intro b hb; simp only [chainBlock, Option.some.injEq] at hb; rw [← hb]; rfl
  index := by
    intro p hp
    simp only [predecessors, List.cons_append, List.nil_append, List.map_cons, List.map_nil,
      List.zip_cons_cons, List.zip_nil_right, List.mem_cons, List.not_mem_nil, or_false] at hp
    rcases hp with rfl | rfl
    · exact h1
    · exact h2
  entropy := by
    intro _ p hp
    simp only [predecessors, List.cons_append, List.nil_append, List.map_cons, List.map_nil,
      List.zip_cons_cons, List.zip_nil_right, List.mem_cons, List.not_mem_nil, or_false] at hp
    rcases hp with rfl | rfl <;> rfl
  bitmap := by
    intro p hp
    simp only [predecessors, List.cons_append, List.nil_append, List.map_cons, List.map_nil,
      List.zip_cons_cons, List.zip_nil_right, List.mem_cons, List.not_mem_nil, or_false] at hp
    rcases hp with rfl | rfl <;> exact ⟨rfl, le_refl _, by change List.count false [true] < 256; decide⟩
  padding := by
    intro p hp
    simp only [predecessors, List.cons_append, List.nil_append, List.map_cons, List.map_nil,
      List.zip_cons_cons, List.zip_nil_right, List.mem_cons, List.not_mem_nil, or_false] at hp
    rcases hp with rfl | rfl <;>
    · intro x hx _
      change x ∈ [(toyKey, true)] at hx
      rw [List.mem_singleton.mp hx]
      exact toyKey_ne_gen
  hash := fun _ _ => ⟨rfl, rfl⟩
  signature := by
    intro p hp
    simp only [predecessors, List.cons_append, List.nil_append, List.map_cons, List.map_nil,
      List.zip_cons_cons, List.zip_nil_right, List.mem_cons, List.not_mem_nil, or_false] at hp
    rcases hp with rfl | rfl <;>
    · change toyE (-1) (-g2Generator) * toyE 1 [toyKey].sum = 1
      rw [List.sum_singleton]
      exact toy_signature

/-- The case of C93, from any block. -/
theorem toy_update (K : Blake2sCore) {i0 i1 i2 : UInt16} (e1 : i1.toNat = i0.toNat + 1)
    (e2 : i2.toNat = i1.toNat + 1) (hlt : i2.toNat < 7) : ∃ (c : CircuitVars ℤ) (sat : Prop),
    epochCircuit affineOnlyG2 (fun _ _ _ h => h.messageHash = 1) K (fun _ (_ : Unit) => .ok (True, true)) toyE 1
      g2Generator 1 none c (publicInputs g2Generator (Blake2s.ofCore K) (chainBlock [toyKey] 0 i0)
        (chainBlock [toyKey] 0 i2)) = .ok sat ∧ sat ∧ c.initial.keys.length = 1 ∧ c.updates.length = 5 ∧
    ThresholdsInRange c ∧ NotForged (fun pk => pk = toyKey) (fun pk m x => pk = toyKey ∧ ∃ j < 7,
      (chainBlock [toyKey] 0 (UInt16.ofNat j)).encodeInnerToBytes g2Generator = (m, x)) c := by
  have hinit := C46_complete affineOnlyG2 (fun _ _ h => h.messageHash = 1)
    (fun _ _ => .ok ⟨1, [], []⟩) true (gen1 := (1 : ℤ)) (max := 5) toyE_left toyE_right
    (fun _ _ h => ⟨rfl, h⟩) (by decide +kernel) (toy_chain_at e1 e2) (by simp)
    (by
      intro _
      refine ⟨?_, ?_, ⟨1, [], []⟩, rfl, rfl⟩
      · intro h; cases h
      · change g2Generator ∉ [toyKey]
        rw [List.mem_singleton]
        exact fun h => toyKey_ne_gen h.symm)
    (by
      change [toyKey].sum ≠ 0
      rw [List.sum_singleton]; exact toyKey_ne)
  obtain ⟨s, c, b, h1, h2, h3, h4, h5, h6, h7, h8⟩ := hinit
  have hci : c.initial = EpochVars.assign (toEpochData (chainBlock [toyKey] 0 i0)) := by
    obtain ⟨s', hs', _, e2, _⟩ := C48_shape (1 : ℤ) g2Generator 1 (chainBlock [toyKey] 0 i0)
      ([chainStep [toyKey] 0 [true] i1] ++ [chainStep [toyKey] 0 [true] i2]) 5 (by simp) (by simp)
    rw [h1] at hs'
    simp only [Outcome.ok.injEq] at hs'
    subst hs'
    unfold CircuitVars.assign at h2
    rw [Outcome.map_eq_ok_iff] at h2
    obtain ⟨_, _, rfl⟩ := h2
    simp only [e2]
  have hcirc : epochCircuit affineOnlyG2 (fun _ _ _ h => h.messageHash = 1) K
      (fun _ (_ : Unit) => .ok (True, true)) toyE 1 g2Generator 1 none c
      (publicInputs g2Generator (Blake2s.ofCore K) (chainBlock [toyKey] 0 i0) (chainBlock [toyKey] 0 i2)) =
      .ok (b.sat ∧ True ∧ verifyEdgesC K b (publicInputs g2Generator (Blake2s.ofCore K)
        (chainBlock [toyKey] 0 i0) (chainBlock [toyKey] 0 i2))) := by
    unfold epochCircuit
    rw [h3, Outcome.bind_ok]
    rfl
  have hreal : ∀ w ∈ c.real.map (·.epoch), ∃ i : UInt16, i.toNat < 7 ∧
      w = EpochVars.assign (toEpochData (chainBlock [toyKey] 0 i)) := by
    intro w hw
    rw [h8] at hw
    simp only [List.cons_append, List.nil_append, List.map_cons, List.map_nil, List.mem_cons,
      List.not_mem_nil, or_false] at hw
    rcases hw with rfl | rfl
    · exact ⟨i1, by omega, rfl⟩
    · exact ⟨i2, by omega, rfl⟩
  refine ⟨c, _, hcirc, ⟨h4, trivial, edges_complete (Blake2s.ofCore_agree K) h5 h6⟩, by rw [hci]; rfl, h7,
    ?_, ?_⟩
  · intro w hw
    rw [List.mem_cons] at hw
    have : ∃ i : UInt16, w = EpochVars.assign (toEpochData (chainBlock [toyKey] 0 i)) := by
      rcases hw with rfl | hw
      · exact ⟨i0, hci⟩
      · obtain ⟨i, _, h⟩ := hreal w hw
        exact ⟨i, h⟩
    obtain ⟨i, rfl⟩ := this
    change (0 : ZMod FQ_MODULUS).val < 2 ^ 32
    rw [ZMod.val_zero]
    norm_num
  · intro t ht x _ _ hx
    obtain ⟨i, hi, h⟩ := hreal t.2.epoch (List.mem_map_of_mem (List.of_mem_zip ht).2)
    refine ⟨hx, i.toNat, hi, ?_⟩
    obtain ⟨_, _, _, _, a1, a2⟩ := C49_bits g2Generator (chainBlock [toyKey] 0 i) (chain_entropy _ _ _).2
      (chain_entropy _ _ _).1 (le_refl 1)
    rw [h, a1, a2, UInt16.ofNat_toNat]

/-- The statement proved by an ideal proof system for the circuit of five updates, about the chain of
`toy_quorums`. -/
def ToyStatement (K : Blake2sCore) (inputs : List Fq) (c : CircuitVars ℤ) : Prop :=
  ∃ sat : Prop, epochCircuit affineOnlyG2 (fun _ _ _ h => h.messageHash = 1) K (fun _ (_ : Unit) => .ok (True, true))
      toyE 1 g2Generator 1 none c inputs = .ok sat ∧ sat ∧ c.initial.keys.length = 1 ∧ c.updates.length = 5 ∧
    ThresholdsInRange c ∧ NotForged (fun pk => pk = toyKey) (fun pk m x => pk = toyKey ∧ ∃ j < 7,
      (chainBlock [toyKey] 0 (UInt16.ofNat j)).encodeInnerToBytes g2Generator = (m, x)) c

/-- Concrete case for C101, for every BLAKE2s: an ideal proof system for the toy chain; a client that holds a block
that differs from block 0 in epoch entropy, parent entropy and round accepts blocks 2, 4 and 6, one after
the other, and C101 applies to the run. -/
example (K : Blake2sCore) (epoch : Option Bytes) (round : UInt8) {parent : Option Bytes} (hp : EntropyOk parent) :
    ∃ (groth16 : Unit → Unit → List Fq → Outcome Unit Bool) (extract : Unit → List Fq → CircuitVars ℤ),
      (∀ proof inputs, groth16 () proof inputs = .ok true → ToyStatement K inputs (extract proof inputs)) ∧
      syncEpochs groth16 g2Generator (Blake2s.ofCore K) ()
        { chainBlock [toyKey] 0 0 with epochEntropy := epoch, round := round }
        [(chainBlock [toyKey] 0 2, ()), (chainBlock [toyKey] 0 4, ()), (chainBlock [toyKey] 0 6, ())] =
          .ok (chainBlock [toyKey] 0 6) ∧
      Holds g2Generator (fun j => chainBlock [toyKey] 0 (UInt16.ofNat j)) 0
        { chainBlock [toyKey] 0 0 with epochEntropy := epoch, round := round, parentEntropy := parent } ∧
      ∀ us final, (∀ u ∈ us, EntropyOk u.1.epochEntropy ∧ EntropyOk u.1.parentEntropy) →
        syncEpochs groth16 g2Generator (Blake2s.ofCore K) ()
          { chainBlock [toyKey] 0 0 with epochEntropy := epoch, round := round, parentEntropy := parent } us =
            .ok final →
        (∃ t ∈ ({ chainBlock [toyKey] 0 0 with epochEntropy := epoch, round := round, parentEntropy := parent } ::
            us.map (·.1)).zip us, ∃ b,
          enforceEpochs affineOnlyG2 (fun _ _ h => h.messageHash = 1) toyE 1 g2Generator 1
            (extract t.2.2 (publicInputs g2Generator (Blake2s.ofCore K) t.1 t.2.1)) = .ok b ∧
            EdgesCollide (Blake2s.ofCore K) g2Generator b t.1 t.2.1) ∨
        final.index.toNat < 7 ∧ us.length ≤ final.index.toNat ∧ final.paddedKeys g2Generator = [toyKey] := by
  classical
  let groth16 : Unit → Unit → List Fq → Outcome Unit Bool :=
    fun _ _ inputs => .ok (decide (∃ c, ToyStatement K inputs c))
  obtain ⟨c0, -⟩ := toy_update K (i0 := 0) (i1 := 1) (i2 := 2) rfl rfl (by decide)
  let extract : Unit → List Fq → CircuitVars ℤ := fun _ inputs =>
    if h : ∃ c, ToyStatement K inputs c then h.choose else c0
  have hsound : ∀ proof inputs, groth16 () proof inputs = .ok true →
      ToyStatement K inputs (extract proof inputs) := by
    intro proof inputs h
    simp only [groth16, Outcome.ok.injEq, decide_eq_true_eq] at h
    simp only [extract, dif_pos h]
    exact h.choose_spec
  have hacc : ∀ {i0 i1 i2 : UInt16}, i1.toNat = i0.toNat + 1 → i2.toNat = i1.toNat + 1 → i2.toNat < 7 →
      verifyEpochs groth16 g2Generator (Blake2s.ofCore K) () (chainBlock [toyKey] 0 i0)
        (chainBlock [toyKey] 0 i2) () = .ok () := by
    intro i0 i1 i2 e1 e2 hlt
    rw [C34_accepts_iff]
    obtain ⟨c, sat, hc⟩ := toy_update K e1 e2 hlt
    simp only [groth16, Outcome.ok.injEq, decide_eq_true_eq]
    exact ⟨c, sat, hc⟩
  have hholds : Holds g2Generator (fun j => chainBlock [toyKey] 0 (UInt16.ofNat j)) 0
      { chainBlock [toyKey] 0 0 with epochEntropy := epoch, round := round, parentEntropy := parent } :=
    ⟨rfl, rfl, rfl, hp⟩
  refine ⟨groth16, extract, hsound, ?_, hholds, ?_⟩
  · simp only [syncEpochs]
    have h0 : verifyEpochs groth16 g2Generator (Blake2s.ofCore K) ()
        { chainBlock [toyKey] 0 0 with epochEntropy := epoch, round := round } (chainBlock [toyKey] 0 2) () =
          .ok () :=
      (C101_not_read groth16 g2Generator (Blake2s.ofCore K) () (chainBlock [toyKey] 0 0) (chainBlock [toyKey] 0 2)
        () epoch (chainBlock [toyKey] 0 2).parentEntropy round 1).trans (hacc (i1 := 1) rfl rfl (by decide))
    rw [h0, Outcome.bind_ok, hacc (i0 := 2) (i1 := 3) rfl rfl (by decide), Outcome.bind_ok,
      hacc (i0 := 4) (i1 := 5) rfl rfl (by decide), Outcome.bind_ok]
  · intro us final hent h
    by_cases hcol : ∃ t ∈ ({ chainBlock [toyKey] 0 0 with
          epochEntropy := epoch, round := round, parentEntropy := parent } :: us.map (·.1)).zip us, ∃ b,
        enforceEpochs affineOnlyG2 (fun _ _ h => h.messageHash = 1) toyE 1 g2Generator 1
          (extract t.2.2 (publicInputs g2Generator (Blake2s.ofCore K) t.1 t.2.1)) = .ok b ∧
          EdgesCollide (Blake2s.ofCore K) g2Generator b t.1 t.2.1
    · exact Or.inl hcol
    right
    obtain ⟨r1, r2, r3, r4, r5⟩ := C101_progress (hashC := fun _ _ _ h => h.messageHash = 1) (helper := none)
      (fun _ h => h) (Blake2s.ofCore_agree K) (max := 5) (by decide +kernel) (by norm_num) toy_quorums
      us hent (by norm_num) hholds
      (fun t _ inputs _ hg => by
        obtain ⟨sat, a1, a2, a3, a4, a5, a6⟩ := hsound t.2.2 inputs hg
        exact ⟨sat, a1, a2, a3, a4, a5, fun t ht _ _ _ => a6 t ht⟩) h
      (fun t ht b hb hx => hcol ⟨t, ht, b, hb, hx⟩)
    exact ⟨r1, by omega, r5⟩

/-- Concrete case for `C93_verifier`, for every BLAKE2s: the verifier, with an ideal proof system for the toy chain,
accepts block 6 after block 4. -/
example (K : Blake2sCore) : ∃ (groth16 : Unit → Unit → List Fq → Outcome Unit Bool) (c : CircuitVars ℤ),
    verifyEpochs groth16 g2Generator (Blake2s.ofCore K) () (chainBlock [toyKey] 0 4) (chainBlock [toyKey] 0 6) () =
      .ok () ∧
    ((∃ b, enforceEpochs affineOnlyG2 (fun _ _ h => h.messageHash = 1) toyE 1 g2Generator 1 c = .ok b ∧
        EdgesCollide (Blake2s.ofCore K) g2Generator b (chainBlock [toyKey] 0 4) (chainBlock [toyKey] 0 6)) ∨
      ∃ j, 4 < j ∧ j ≤ 4 + 5 ∧ j < 7 ∧ (6 : UInt16) = UInt16.ofNat j) := by
  classical
  obtain ⟨c, sat, hc⟩ := toy_update K (i0 := 4) (i1 := 5) (i2 := 6) rfl rfl (by decide)
  have hacc : verifyEpochs (fun (_ _ : Unit) inputs => .ok (decide (∃ c, ToyStatement K inputs c))) g2Generator
      (Blake2s.ofCore K) () (chainBlock [toyKey] 0 4) (chainBlock [toyKey] 0 6) () = .ok () := by
    rw [C34_accepts_iff]
    simp only [Outcome.ok.injEq, decide_eq_true_eq]
    exact ⟨c, sat, hc⟩
  refine ⟨_, c, hacc, ?_⟩
  rcases C93_verifier (hashC := fun _ _ _ h => h.messageHash = 1) (helper := none) (fun _ h => h)
    (Blake2s.ofCore_agree K) (max := 5) (by decide +kernel) (by norm_num) toy_quorums (i := 4) (by norm_num)
    (chain_entropy [toyKey] 0 6).2 (fun _ => ⟨sat, hc⟩) hacc with h | ⟨j, h1, h2, h3, h4, -⟩
  · exact Or.inl h
  · exact Or.inr ⟨j, h1, h2, h3, h4⟩

/-- Concrete case for `C101_parent_free`: the assignment for the blocks 4 and 6, moved to a block 4 with any other
parent entropy. -/
example (K : Blake2sCore) (parent : Bytes) (hp : parent.length = 16) : ∃ c : CircuitVars ℤ,
    EdgeCollision (Blake2s.ofCore K) (bitsBeToBytesLe c.initial.firstEpochBits)
      ((chainBlock [toyKey] 0 4).encodeFirstToBytes g2Generator) ∨
    ∃ sat : Prop, epochCircuit affineOnlyG2 (fun _ _ _ h => h.messageHash = 1) K
      (fun _ (_ : Unit) => .ok (True, true)) toyE 1 g2Generator 1 none
      { c with initial := { c.initial with parentEntropy := entropyToFr (some parent) } }
      (publicInputs g2Generator (Blake2s.ofCore K) { chainBlock [toyKey] 0 4 with parentEntropy := some parent }
        (chainBlock [toyKey] 0 6)) = .ok sat ∧ sat := by
  obtain ⟨c, sat, h1, h2, -⟩ := toy_update K (i0 := 4) (i1 := 5) (i2 := 6) rfl rfl (by decide)
  refine ⟨c, C101_parent_free (Blake2s.ofCore_agree K) (chain_entropy _ _ _).1 h1 h2 ?_⟩
  intro b hb
  rw [← Option.some.inj hb]
  exact hp

/-- Concrete case for `C101_complete`, for every bilinear map on the concrete groups: the chain of the blocks 4, 5
and 6, cut into two pieces, in a circuit of five updates, with the proof system that accepts exactly the
satisfiable inputs. -/
example [DecidableEq G1Point] {GT : Type*} [CommGroup GT] (compat : Bool)
    (e : G1Point → G2Point → GT) (hl : ∀ P P' Q, e (P + P') Q = e P Q * e P' Q)
    (hr : ∀ P Q Q', e P (Q + Q') = e P Q * e P Q') (gen1 : G1Point) :
    ∃ (K : Blake2sCore) (B : Blake2s) (groth16 : Unit → Unit → List Fq → Outcome Unit Bool),
      (∀ inputs, groth16 () () inputs = .ok true ↔ ∃ c sat,
        epochCircuit affineOnlyG2 (hashBitsToG1C affineOnly compat K fun _ => 5) K
          (fun _ (_ : Unit) => .ok (True, true)) e gen1 g2Generator 1 none c inputs = .ok sat ∧ sat) ∧
      syncEpochs groth16 g2Generator B () (chainBlock [toyKey] 0 4)
        [(chainBlock [toyKey] 0 5, ()), (chainBlock [toyKey] 0 6, ())] = .ok (chainBlock [toyKey] 0 6) := by
  classical
  obtain ⟨K, hconst, hK⟩ := exists_core' (fun _ => tinyDigest compat 1 false)
    fun m => tinyDigest_length _ _ _
  have hB := Blake2s.ofCore_agree K
  have hx := hK _ hB
  have hg0 : g1Scale (.finite 1 sqrtTwo) ≠ 0 := by
    rw [g1Scale_one]; exact cofactor_onePoint_ne.1
  have hnat : ∀ b, nativeEpochHash compat (Blake2s.ofCore K) (fun _ => .ok (leBytes 48 (5 : Fq).val))
      someSqrt g2Generator b = .ok (G1_COFACTOR • onePoint, 0) := by
    intro b
    unfold nativeEpochHash
    rw [C19_ok_iff compat _ someSqrt_spec]
    refine ⟨_, rfl, by norm_num, ⟨tinyDigest compat 1 false, hx _, ?_⟩,
      fun c' hc' => absurd hc' (by omega)⟩
    rw [← g1Scale_one]
    exact ⟨by rw [tinyDigest_length]; omega, hg0, _, (decodes_one compat).1, rfl⟩
  have hzero : ∀ Q, e 0 Q = 1 := by
    intro Q
    have := hl 0 0 Q
    rw [add_zero] at this
    exact mul_eq_left.mp this.symm
  have chain : NativeChain compat (Blake2s.ofCore K) (fun _ => .ok (leBytes 48 (5 : Fq).val)) someSqrt e
      g2Generator 1 (chainBlock [toyKey] 0 4) ([nativeStep 5] ++ [nativeStep 6]) := by
    have toy := toy_chain
    have hpred : ∀ p ∈ predecessors (chainBlock [toyKey] 0 4) ([nativeStep 5] ++ [nativeStep 6]),
        p = (chainBlock [toyKey] 0 4, nativeStep 5) ∨
        p = (chainBlock [toyKey] 0 5, nativeStep 6) := by
      intro p hp
      simp only [predecessors, List.cons_append, List.nil_append, List.map_cons, List.map_nil,
        List.zip_cons_cons, List.zip_nil_right, List.mem_cons, List.not_mem_nil, or_false] at hp
      exact hp
    refine ⟨toy.blocks, fun p hp => ?_, fun _ p hp => ?_, fun p hp => ?_, fun p hp => ?_,
      fun p hp => ?_⟩
    · rcases hpred p hp with rfl | rfl <;> rfl
    · rcases hpred p hp with rfl | rfl <;> rfl
    · rcases hpred p hp with rfl | rfl <;> exact ⟨rfl, le_refl _, by decide⟩
    · rcases hpred p hp with rfl | rfl <;>
      · intro x hx _
        change x ∈ [(toyKey, true)] at hx
        rw [List.mem_singleton.mp hx]
        exact toyKey_ne_gen
    · rcases hpred p hp with rfl | rfl <;>
      · refine ⟨_, _, hnat _, ?_⟩
        change e (-(G1_COFACTOR • onePoint)) (-g2Generator) *
          e (G1_COFACTOR • onePoint) [toyKey].sum = 1
        have hk : toyKey = -g2Generator := rfl
        rw [List.sum_singleton, hk, ← hl, neg_add_cancel, hzero]
  obtain ⟨groth16, hiff⟩ : ∃ groth16 : Unit → Unit → List Fq → Outcome Unit Bool, ∀ inputs,
      groth16 () () inputs = .ok true ↔ ∃ c sat,
        epochCircuit affineOnlyG2 (hashBitsToG1C affineOnly compat K fun _ => 5) K
          (fun _ (_ : Unit) => .ok (True, true)) e gen1 g2Generator 1 none c inputs = .ok sat ∧ sat :=
    ⟨fun _ _ inputs => .ok (decide (∃ c sat,
      epochCircuit affineOnlyG2 (hashBitsToG1C affineOnly compat K fun _ => 5) K
        (fun _ (_ : Unit) => .ok (True, true)) e gen1 g2Generator 1 none c inputs = .ok sat ∧ sat)),
      fun inputs => by rw [Outcome.ok.injEq, decide_eq_true_eq]⟩
  refine ⟨K, Blake2s.ofCore K, groth16, hiff, ?_⟩
  have hkey : ∀ i, g2Generator ∉ (chainBlock [toyKey] 0 i).newPublicKeys := by
    intro i
    change g2Generator ∉ [toyKey]
    rw [List.mem_singleton]
    exact fun h => toyKey_ne_gen h.symm
  have hsum : ∀ i, (chainBlock [toyKey] 0 i).newPublicKeys.sum ≠ 0 := by
    intro i
    change [toyKey].sum ≠ 0
    rw [List.sum_singleton]
    exact toyKey_ne
  obtain ⟨us, h1, h2⟩ := C101_complete (alloc1 := affineOnly) (alloc2 := affineOnlyG2) affineOnly_complete
    (fun _ _ h => ⟨rfl, h⟩) compat true hB someSqrt_spec (pedX := fun _ => 5)
    (pedersen := fun _ => .ok (leBytes 48 (5 : Fq).val)) (fun _ (_ : Unit) => .ok (True, true)) none
    (fun _ h => by cases h) hl hr (gen1 := gen1) (gen2 := g2Generator) (n := 1) (max := 5) (by decide +kernel)
    (groth16 := groth16) (vk := ())
    (fun _ c inputs sat _ _ h3 h4 => ⟨(), (hiff inputs).mpr ⟨c, sat, h3, h4⟩⟩)
    [([], nativeStep 5), ([], nativeStep 6)]
    (by
      intro g hg
      simp only [List.mem_cons, List.not_mem_nil, or_false] at hg
      rcases hg with rfl | rfl <;> simp)
    (fun _ _ => rfl) chain
    (by
      intro p hp
      simp only [predecessors, List.flatMap_cons, List.flatMap_nil, List.append_nil, List.cons_append,
        List.nil_append, List.map_cons, List.map_nil, List.zip_cons_cons, List.zip_nil_right, List.mem_cons,
        List.not_mem_nil, or_false] at hp
      rcases hp with rfl | rfl <;> rfl)
    (by
      intro g _ _
      refine ⟨(by intro h; cases h), fun b hb => ?_, _, _, hnat _⟩
      simp only [List.flatMap_cons, List.flatMap_nil, List.append_nil, List.cons_append,
        List.nil_append, List.map_cons, List.map_nil, List.mem_cons, List.not_mem_nil, or_false] at hb
      rcases hb with rfl | rfl | rfl
      · exact hkey 4
      · exact hkey 5
      · exact hkey 6)
    (by
      intro g hg
      simp only [List.mem_cons, List.not_mem_nil, or_false] at hg
      rcases hg with rfl | rfl
      · exact hsum 5
      · exact hsum 6)
  have hus : us = [(chainBlock [toyKey] 0 5, ()), (chainBlock [toyKey] 0 6, ())] := by
    match us, h1 with
    | [(a, ()), (b, ())], h1 =>
      simp only [List.map_cons, List.map_nil, List.cons.injEq, and_true] at h1
      rw [h1.1, h1.2]
      rfl
  rw [hus] at h2
  exact h2

end Verif
