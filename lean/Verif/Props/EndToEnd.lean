import Verif.Props.HashGadget
import Verif.Props.Prover
import Verif.Props.Setup
import Verif.Lemmas.OrderExample

/-!
# Properties C68 to C70: prover, circuit and verifier together
-/

set_option exponentiation.threshold 800
set_option linter.unusedSectionVars false

namespace Verif

/-! ## C68: completeness -/

section

variable {GT : Type*} [CommGroup GT] [DecidableEq G1Point]

/-- The native hash to G1 of an epoch block: `hash_with_attempt_cip22` of its two encodings. -/
noncomputable def nativeEpochHash (compat : Bool) (B : Blake2s)
    (pedersen : Bytes → Outcome BLSError Bytes) (sqrt : Fq → Option Fq) (gen2 : G2Point)
    (b : EpochBlock) : Outcome BLSError (G1Point × ℕ) :=
  hashWithAttemptCip22 compat (compositeHasher B pedersen) sqrt g1Scale SIG_DOMAIN
    (b.encodeInnerToBytes gen2).1 (b.encodeInnerToBytes gen2).2

/-- A chain of epochs whose aggregate signatures are valid natively. -/
structure NativeChain (compat : Bool) (B : Blake2s) (pedersen : Bytes → Outcome BLSError Bytes)
    (sqrt : Fq → Option Fq) (e : G1Point → G2Point → GT) (gen2 : G2Point) (n : ℕ) (b0 : EpochBlock)
    (ts : List (EpochTransition G1Point)) : Prop where
  /-- Blocks are for `n` finite keys, with entropies of sixteen bytes. -/
  blocks : ∀ b ∈ b0 :: ts.map (·.block), b.newPublicKeys.length = n ∧
    (∀ pk ∈ b.newPublicKeys, pk ≠ 0) ∧ b.maximumValidators ≤ n ∧
    EntropyOk b.epochEntropy ∧ EntropyOk b.parentEntropy
  /-- Indices increase by one. -/
  index : ∀ p ∈ predecessors b0 ts, p.2.block.index.toNat = p.1.index.toNat + 1
  /-- If the first epoch has non-zero entropy, entropies are linked. -/
  entropy : entropyBytes b0.epochEntropy ≠ List.replicate 16 0 →
    ∀ p ∈ predecessors b0 ts, p.2.block.parentEntropy = p.1.epochEntropy
  /-- One bit per key of the previous epoch, with few enough zeros. -/
  bitmap : ∀ p ∈ predecessors b0 ts, p.2.bitmap.length = n ∧
    p.2.bitmap.count false ≤ p.1.maximumNonSigners.toNat ∧ p.2.bitmap.count false < 256
  /-- Nobody signs with the padding key. -/
  padding : ∀ p ∈ predecessors b0 ts, ∀ x ∈ p.1.newPublicKeys.zip p.2.bitmap,
    x.2 = true → x.1 ≠ gen2
  /-- The aggregate signature verifies natively: for the native hash of the block and the sum of the
  signers' keys. -/
  signature : ∀ p ∈ predecessors b0 ts, ∃ g attempt,
    nativeEpochHash compat B pedersen sqrt gen2 p.2.block = .ok (g, attempt) ∧
    e p.2.aggregateSignature (-gen2) *
      e g (((p.1.newPublicKeys.zip p.2.bitmap).filter (·.2)).map (·.1)).sum = 1

theorem hash_out_lengths {compat : Bool} {K : Blake2sCore} {B : Blake2s} (hB : Blake2sAgree K B)
    {sqrt : Fq → Option Fq} {pedX : Bytes → Fq} {pedersen : Bytes → Outcome BLSError Bytes} {generate : Bool}
    {ts us : List Bool} {out : HashOut G1Point}
    (h : hashBitsToG1Out compat K B pedersen pedX sqrt generate ts us = .ok out) :
    out.crhBits.length = 384 ∧ out.xofBits.length = 512 := by
  unfold hashBitsToG1Out at h
  obtain ⟨w, hw, rfl⟩ := (Outcome.map_eq_ok_iff _ _ _).1 h
  refine ⟨?_, ?_⟩
  · change (pedersenBits pedX _).length = 384
    rw [pedersenBits_eq, flatMap_unpack_length, leBytes_length]
  · unfold hashBitsToG1Witness at hw
    split at hw
    · cases hw
    · cases hw
    · obtain ⟨x, hx, hw⟩ := (Outcome.bind_eq_ok_iff _ _ _).1 hw
      obtain ⟨g, _, rfl⟩ := (Outcome.map_eq_ok_iff _ _ _).1 hw
      change x.length = 512
      obtain ⟨d, h1, h2, h3⟩ := xof_bits hB (xofInput _ _ _)
      unfold hashToBitsWitness at hx
      rw [h3, h1] at hx
      have : x = bytesLeToBitsLe d 512 := by
        cases generate
        · exact (Outcome.ok.inj hx).symm
        · exact (Outcome.ok.inj hx).symm
      rw [this, bytesLeToBitsLe_all d 512 (by omega), flatMap_unpack_length, h2]

/-- The hashes that a prover assigns have 384 bits of the CRH and 512 bits of the XOF. -/
theorem assigned_lengths {compat checks generate : Bool} {K : Blake2sCore} {B : Blake2s} (hB : Blake2sAgree K B)
    {sqrt : Fq → Option Fq} {pedX : Bytes → Fq} {pedersen : Bytes → Outcome BLSError Bytes}
    {s : ValidatorSetUpdate G1Point} {c : CircuitVars G1Point}
    (h : CircuitVars.assign checks (hashBitsToG1Out compat K B pedersen pedX sqrt generate) s = .ok c) :
    ∀ u ∈ c.updates, u.hash.crhBits.length = 384 ∧ u.hash.xofBits.length = 512 := by
  unfold CircuitVars.assign at h
  obtain ⟨us, hus, rfl⟩ := (Outcome.map_eq_ok_iff _ _ _).1 h
  rw [Outcome.mapM_eq_ok_iff] at hus
  change ∀ u ∈ us, _
  clear h
  generalize s.epochs = es at hus
  induction hus with
  | nil => simp
  | cons h1 _ ih =>
    refine List.forall_mem_cons.2 ⟨?_, ih⟩
    unfold UpdateVars.assign at h1
    obtain ⟨o, ho, h1⟩ := (Outcome.bind_eq_ok_iff _ _ _).1 h1
    obtain ⟨_, _, rfl⟩ := (Outcome.map_eq_ok_iff _ _ _).1 h1
    exact hash_out_lengths hB ho

/-- C68: for every natively valid chain, the circuit the prover builds (with or without a helper, whose proof
may be any for which the constraints of the verifier gadget hold, with any number of dummies) and the values assigned to it satisfy all constraints for exactly the public
inputs the verifier computes from the first and the last block, which are those the prover assigns; so the
verifier accepts any proof which the proof system accepts for them. -/
theorem C68_complete_helper {HP : Type*} {alloc1 : G1Var → Prop} {alloc2 : G2Var → Prop}
    (ha1 : AllocCompleteG1 alloc1) (ha2 : AllocComplete alloc2) (compat checks : Bool)
    {K : Blake2sCore} {B : Blake2s} (hB : Blake2sAgree K B) {sqrt : Fq → Option Fq}
    (hs : SqrtSpec sqrt) {pedX : Bytes → Fq} {pedersen : Bytes → Outcome BLSError Bytes}
    (groth : List (List Bool) → HP → Outcome Unit (Prop × Bool)) (helper : Option HP)
    {max : ℕ} (hgroth : ∀ p, helper = some p → ∀ i, i.length = helperInputs max → ∃ r, groth i p = .ok r ∧ r.1)
    {e : G1Point → G2Point → GT} (hl : ∀ P P' Q, e (P + P') Q = e P Q * e P' Q)
    (hr : ∀ P Q Q', e P (Q + Q') = e P Q * e P Q') {gen1 : G1Point} {gen2 : G2Point} {n : ℕ}
    (hq : n < FQ_MODULUS) {b0 : EpochBlock} {ts : List (EpochTransition G1Point)}
    {last : EpochTransition G1Point}
    (hped : ∀ b ∈ dummyBlock gen2 n :: (ts ++ [last]).map (·.block),
      pedersen (b.encodeInnerToBytes gen2).1 = .ok (leBytes 48 (pedX (b.encodeInnerToBytes gen2).1).val))
    (chain : NativeChain compat B pedersen sqrt e gen2 n b0 (ts ++ [last]))
    (hsize : ts.length + 1 ≤ max)
    (hdummy : ts.length + 1 < max →
      gen2 ≠ 0 ∧ gen2 ∉ ((ts.map (·.block)).getLast?.getD b0).newPublicKeys ∧
      ∃ g attempt, nativeEpochHash compat B pedersen sqrt gen2 (dummyBlock gen2 n) = .ok (g, attempt))
    (hlast : last.block.newPublicKeys.sum ≠ 0) :
    ∃ s c sat, proverCircuit gen1 gen2 n b0 (ts ++ [last]) max = .ok s ∧
      CircuitVars.assign checks (hashBitsToG1Out compat K B pedersen pedX sqrt helper.isNone) s = .ok c ∧
      epochCircuit alloc2 (hashBitsToG1C alloc1 compat K pedX) K groth e gen1 gen2 n helper c
        (publicInputs gen2 B b0 last.block) = .ok sat ∧ sat ∧
      c.updates.length = max ∧
      c.real.map (·.epoch) = (ts ++ [last]).map (fun t => EpochVars.assign (toEpochData t.block)) ∧
      circuitInputs alloc2 (hashBitsToG1C alloc1 compat K pedX) K e gen1 gen2 n helper c =
        .ok (publicInputs gen2 B b0 last.block) ∧
      ∀ {VK Proof : Type} (groth16 : VK → Proof → List Fq → Outcome Unit Bool) (vk : VK)
        (proof : Proof),
        (∀ inputs sat, circuitInputs alloc2 (hashBitsToG1C alloc1 compat K pedX) K e gen1 gen2 n helper c =
            .ok inputs →
          epochCircuit alloc2 (hashBitsToG1C alloc1 compat K pedX) K groth e gen1 gen2 n
            helper c inputs = .ok sat → sat → groth16 vk proof inputs = .ok true) →
        verifyEpochs groth16 gen2 B vk b0 last.block proof = .ok () := by
  -- hashes assigned by the prover
  have hhash : ∀ b, pedersen (b.encodeInnerToBytes gen2).1 =
        .ok (leBytes 48 (pedX (b.encodeInnerToBytes gen2).1).val) →
      ∀ g a, nativeEpochHash compat B pedersen sqrt gen2 b = .ok (g, a) →
      ∃ out, hashBitsToG1Out compat K B pedersen pedX sqrt helper.isNone (b.encodeInnerToBitsCip22 gen2).1
          (b.encodeInnerToBitsCip22 gen2).2 = .ok out ∧ out.messageHash = g ∧
        hashBitsToG1C alloc1 compat K pedX helper.isNone (b.encodeInnerToBitsCip22 gen2).1
          (b.encodeInnerToBitsCip22 gen2).2 out := by
    intro b hp g a hn
    obtain ⟨out, w, sat, h1, h2, _, _, h3, h4⟩ := C51_native ha1 compat hB hs pedX pedersen helper.isNone
      (b.encodeInnerToBitsCip22 gen2).1 (b.encodeInnerToBitsCip22 gen2).2 hp g a hn
    exact ⟨out, h1, h2, w, sat, h3, h4⟩
  let H : EpochBlock → HashOut G1Point := fun b =>
    match hashBitsToG1Out compat K B pedersen pedX sqrt helper.isNone (b.encodeInnerToBitsCip22 gen2).1
      (b.encodeInnerToBitsCip22 gen2).2 with
    | .ok out => out
    | _ => ⟨0, [], []⟩
  have hped' : ∀ t ∈ ts ++ [last], pedersen (t.block.encodeInnerToBytes gen2).1 =
      .ok (leBytes 48 (pedX (t.block.encodeInnerToBytes gen2).1).val) := fun t ht =>
    hped _ (List.mem_cons_of_mem _ (List.mem_map_of_mem ht))
  have honest : HonestChain (hashBitsToG1C alloc1 compat K pedX helper.isNone)
      (hashBitsToG1Out compat K B pedersen pedX sqrt helper.isNone) e gen2 n H b0 (ts ++ [last]) := by
    refine ⟨chain.blocks, chain.index, chain.entropy, chain.bitmap, chain.padding, ?_, ?_⟩
    · intro t ht
      obtain ⟨a, ha⟩ := exists_predecessor (b0 := b0) ht
      obtain ⟨g, k, h1, _⟩ := chain.signature _ ha
      obtain ⟨out, h2, _, h3⟩ := hhash _ (hped' t ht) g k h1
      have : H t.block = out := by simp only [H, h2]
      rw [this]
      exact ⟨h2, h3⟩
    · intro p hp
      obtain ⟨g, k, h1, h2⟩ := chain.signature p hp
      obtain ⟨out, h3, h4, _⟩ := hhash _ (hped' p.2 (mem_predecessors_snd hp)) g k h1
      have : H p.2.block = out := by simp only [H, h3]
      rw [this, h4]
      exact h2
  obtain ⟨s, c, b, h1, h2, h3, h4, h5, h6, h7, h8⟩ := C46_complete alloc2
    (hashBitsToG1C alloc1 compat K pedX helper.isNone) (hashBitsToG1Out compat K B pedersen pedX sqrt helper.isNone)
    checks (gen1 := gen1) hl hr ha2 hq honest hsize
    (by
      intro hlt
      obtain ⟨g1, g2, g, a, g3⟩ := hdummy hlt
      obtain ⟨out, k1, _, k2⟩ := hhash _ (hped _ (by simp)) g a g3
      exact ⟨g1, g2, out, k1, k2⟩)
    hlast
  have hedge := edges_complete hB h5 h6
  obtain ⟨v, hv, hv'⟩ : ∃ v : Prop, b.verify K groth helper (publicInputs gen2 B b0 last.block) =
      .ok (v ∧ verifyEdgesC K b (publicInputs gen2 B b0 last.block)) ∧ v := by
    cases helper with
    | none => exact ⟨True, rfl, trivial⟩
    | some p =>
      obtain ⟨r, hr1, hr2⟩ := hgroth p rfl (leChunks b.crhBits 252 ++ leChunks b.xofBits 252)
        (by rw [← h7]; exact C75_expected_inputs h3 (assigned_lengths hB h2))
      refine ⟨r.1, ?_, hr2⟩
      simp only [EpochBits.verify, verifyHelperProof, hr1]
      rfl
  have hcirc : epochCircuit alloc2 (hashBitsToG1C alloc1 compat K pedX) K groth e gen1 gen2 n helper c
      (publicInputs gen2 B b0 last.block) =
        .ok (b.sat ∧ v ∧ verifyEdgesC K b (publicInputs gen2 B b0 last.block)) := by
    unfold epochCircuit
    rw [h3, Outcome.bind_ok, hv]
    rfl
  have hin : circuitInputs alloc2 (hashBitsToG1C alloc1 compat K pedX) K e gen1 gen2 n helper c =
      .ok (publicInputs gen2 B b0 last.block) := by
    unfold circuitInputs
    rw [h3, Outcome.bind_ok, C50_edge_hash hB, C50_edge_hash hB, h5, h6]
    exact pack_hashFirstLast gen2 B b0 last.block
  refine ⟨s, c, _, h1, h2, hcirc, ⟨h4, hv', hedge⟩, h7, h8, hin, ?_⟩
  intro VK Proof groth16 vk proof hg
  rw [C34_accepts_iff]
  exact hg _ _ hin hcirc ⟨h4, hv', hedge⟩

/-- C68: for every natively valid chain, the circuit the prover builds (without a helper, with any
number of dummies) and the values assigned to it satisfy all constraints for exactly the public
inputs the verifier computes from the first and the last block, which are those the prover assigns; so the verifier
accepts any proof which the proof system accepts for them. -/
theorem C68_complete {HP : Type*} {alloc1 : G1Var → Prop} {alloc2 : G2Var → Prop}
    (ha1 : AllocCompleteG1 alloc1) (ha2 : AllocComplete alloc2) (compat checks : Bool)
    {K : Blake2sCore} {B : Blake2s} (hB : Blake2sAgree K B) {sqrt : Fq → Option Fq}
    (hs : SqrtSpec sqrt) {pedX : Bytes → Fq} {pedersen : Bytes → Outcome BLSError Bytes}
    (groth : List (List Bool) → HP → Outcome Unit (Prop × Bool))
    {e : G1Point → G2Point → GT} (hl : ∀ P P' Q, e (P + P') Q = e P Q * e P' Q)
    (hr : ∀ P Q Q', e P (Q + Q') = e P Q * e P Q') {gen1 : G1Point} {gen2 : G2Point} {n : ℕ}
    (hq : n < FQ_MODULUS) {b0 : EpochBlock} {ts : List (EpochTransition G1Point)}
    {last : EpochTransition G1Point} {max : ℕ}
    (hped : ∀ b ∈ dummyBlock gen2 n :: (ts ++ [last]).map (·.block),
      pedersen (b.encodeInnerToBytes gen2).1 = .ok (leBytes 48 (pedX (b.encodeInnerToBytes gen2).1).val))
    (chain : NativeChain compat B pedersen sqrt e gen2 n b0 (ts ++ [last]))
    (hsize : ts.length + 1 ≤ max)
    (hdummy : ts.length + 1 < max →
      gen2 ≠ 0 ∧ gen2 ∉ ((ts.map (·.block)).getLast?.getD b0).newPublicKeys ∧
      ∃ g attempt, nativeEpochHash compat B pedersen sqrt gen2 (dummyBlock gen2 n) = .ok (g, attempt))
    (hlast : last.block.newPublicKeys.sum ≠ 0) :
    ∃ s c sat, proverCircuit gen1 gen2 n b0 (ts ++ [last]) max = .ok s ∧
      CircuitVars.assign checks (hashBitsToG1Out compat K B pedersen pedX sqrt true) s = .ok c ∧
      epochCircuit alloc2 (hashBitsToG1C alloc1 compat K pedX) K groth e gen1 gen2 n none c
        (publicInputs gen2 B b0 last.block) = .ok sat ∧ sat ∧
      c.updates.length = max ∧
      c.real.map (·.epoch) = (ts ++ [last]).map (fun t => EpochVars.assign (toEpochData t.block)) ∧
      circuitInputs alloc2 (hashBitsToG1C alloc1 compat K pedX) K e gen1 gen2 n (none : Option HP) c =
        .ok (publicInputs gen2 B b0 last.block) ∧
      ∀ {VK Proof : Type} (groth16 : VK → Proof → List Fq → Outcome Unit Bool) (vk : VK)
        (proof : Proof),
        (∀ inputs sat, circuitInputs alloc2 (hashBitsToG1C alloc1 compat K pedX) K e gen1 gen2 n
            (none : Option HP) c = .ok inputs →
          epochCircuit alloc2 (hashBitsToG1C alloc1 compat K pedX) K groth e gen1 gen2 n
            none c inputs = .ok sat → sat → groth16 vk proof inputs = .ok true) →
        verifyEpochs groth16 gen2 B vk b0 last.block proof = .ok () :=
  C68_complete_helper ha1 ha2 compat checks hB hs groth none (fun _ h => by cases h) hl hr hq hped chain
    hsize hdummy hlast

end

/-! ## C69: soundness -/

/-- Two different messages with the same digest under the hash of the public inputs. -/
def EdgeCollision (B : Blake2s) (x y : Bytes) : Prop := x ≠ y ∧ hashToBits B x = hashToBits B y

/-- The edges of an assignment and the encodings of two blocks are such a pair of messages.  (That there are
two messages with the same digest is clear by counting; here they are given.) -/
def EdgesCollide (B : Blake2s) (gen2 : G2Point) (b : EpochBits) (first last : EpochBlock) : Prop :=
  EdgeCollision B (bitsBeToBytesLe b.firstEpochBits) (first.encodeFirstToBytes gen2) ∨
  EdgeCollision B (bitsBeToBytesLe b.lastEpochBits) (last.encodeLastToBytes gen2)

theorem encodeEntropy_length {e : Option Bytes} (h : EntropyOk e) : (encodeEntropy e).length = 128 := by
  rw [← frToBits_entropy h, frToBits_length _ (by norm_num)]

theorem g2ToBits_length (v : G2Var) (w : YBitWitness FQ_MODULUS) : (g2ToBits v w).length = 755 := by
  simp [g2ToBits, fieldBitsBe]

theorem circuitKeyBits_length (w : EpochVars) : w.keyBits.length = 755 * w.keys.length := by
  unfold EpochVars.keyBits
  induction w.keys with
  | nil => rfl
  | cons k ks ih =>
    rw [List.flatMap_cons, List.length_append, g2ToBits_length, ih, List.length_cons]
    ring

theorem flatMap_encode_length (ks : List G2Point) :
    (ks.flatMap encodePublicKey).length = 755 * ks.length := by
  induction ks with
  | nil => rfl
  | cons k ks ih =>
    rw [List.flatMap_cons, List.length_append, encodePublicKey_length, ih, List.length_cons]
    ring

/-- Equal concatenations of 755-bit encodings, with as many keys, are equal key by key. -/
theorem keys_forall₂ {ws : List (G2Var × YBitWitness FQ_MODULUS)} {ks : List G2Point}
    (hl : ws.length = ks.length)
    (h : (ws.flatMap fun k => g2ToBits k.1 k.2) = ks.flatMap encodePublicKey) :
    List.Forall₂ (fun k pk => g2ToBits k.1 k.2 = encodePublicKey pk) ws ks := by
  induction ws generalizing ks with
  | nil =>
    cases ks with
    | nil => exact .nil
    | cons => simp at hl
  | cons w ws ih =>
    cases ks with
    | nil => simp at hl
    | cons k ks =>
      rw [List.flatMap_cons, List.flatMap_cons] at h
      obtain ⟨h1, h2⟩ := List.append_inj h (by rw [g2ToBits_length, encodePublicKey_length])
      exact .cons h1 (ih (by simpa using hl) h2)

/-- The fields of an epoch in the circuit are those of a block, as far as one of the public
encodings shows them: `entropy` is the parent's for the first block and its own for the last. -/
structure EdgeMatches (gen2 : G2Point) (w : EpochVars) (entropy : Fq) (b : EpochBlock)
    (blockEntropy : Option Bytes) : Prop where
  index : w.index.val % 2 ^ 16 = b.index.toNat
  threshold : w.maximumNonSigners.val % 2 ^ 32 = b.maximumNonSigners.toNat
  entropy : frToBits entropy 128 = encodeEntropy blockEntropy
  keys : List.Forall₂ (fun k pk => g2ToBits k.1 k.2 = encodePublicKey pk) w.keys
    (b.newPublicKeys ++ List.replicate (b.maximumValidators - b.newPublicKeys.length) gen2)

theorem edgeMatches_of_bits {gen2 : G2Point} {w : EpochVars} {x : Fq} {b : EpochBlock}
    {be : Option Bytes} (he : EntropyOk be) {rest rest' : List Bool}
    (hrest : rest.length = rest'.length)
    (h : bitsBeToBytesLe (frToBits w.index 16 ++ frToBits x 128 ++ frToBits w.maximumNonSigners 32 ++
        w.keyBits ++ rest) =
      bitsBeToBytesLe (encodeU16 b.index ++ encodeEntropy be ++ encodeU32 b.maximumNonSigners ++
        b.keyBits gen2 ++ rest')) :
    EdgeMatches gen2 w x b be ∧ rest = rest' := by
  have hl := congrArg List.length h
  rw [C26_bytes_length, C26_bytes_length] at hl
  have e1 := frToBits_length w.index (n := 16) (by norm_num)
  have e2 := frToBits_length x (n := 128) (by norm_num)
  have e3 := frToBits_length w.maximumNonSigners (n := 32) (by norm_num)
  have e4 := encodeU16_length b.index
  have e5 := encodeEntropy_length he
  have e6 := encodeU32_length b.maximumNonSigners
  have e7 := circuitKeyBits_length w
  have e8 : (b.keyBits gen2).length = 755 * (b.paddedKeys gen2).length := by
    rw [keyBits_eq, flatMap_encode_length]
  simp only [List.length_append, e1, e2, e3, e4, e5, e6, e7, e8, hrest] at hl
  have hk : w.keys.length = (b.paddedKeys gen2).length := by omega
  have hb := C26_injective (by
    simp only [List.length_append, e1, e2, e3, e4, e5, e6, e7, e8, hrest, hk]) h
  obtain ⟨hb, hr⟩ := List.append_inj' hb hrest
  obtain ⟨hb, hkb⟩ := List.append_inj' hb (by rw [e7, e8, hk])
  obtain ⟨hb, hm⟩ := List.append_inj' hb (by rw [e3, e6])
  obtain ⟨hi, hx⟩ := List.append_inj' hb (by rw [e2, e5])
  rw [keyBits_eq] at hkb
  exact ⟨⟨(frToBits_u16_iff _ _).mp hi, (frToBits_u32_iff _ _).mp hm, hx, keys_forall₂ hk hkb⟩, hr⟩

section

variable {G1 GT HP : Type*} [AddCommGroup G1] [CommGroup GT]

/-- C69, public inputs: if the circuit (with or without a helper) is satisfied for the inputs the
verifier computes from `first` and `last`, then either the two encodings of the circuit's edges give
an explicit collision of the hash, or the circuit's initial epoch and last update are `first` and
`last` in everything the encodings show, and `last` is at least one and at most as many epochs as
there are updates after `first`, counted modulo `2 ^ 16`. -/
theorem C69_edges {alloc : G2Var → Prop} {hashC : Bool → List Bool → List Bool → HashOut G1 → Prop}
    {K : Blake2sCore} {B : Blake2s} (hB : Blake2sAgree K B)
    {groth : List (List Bool) → HP → Outcome Unit (Prop × Bool)} {e : G1 → G2Point → GT} {gen1 : G1}
    {gen2 : G2Point} {n : ℕ} {helper : Option HP} {c : CircuitVars G1} {first last : EpochBlock}
    {sat : Prop} (hn : c.initial.keys.length = n) (hne : c.updates ≠ [])
    (hf : EntropyOk first.parentEntropy) (hl : EntropyOk last.epochEntropy)
    (h : epochCircuit alloc hashC K groth e gen1 gen2 n helper c (publicInputs gen2 B first last) =
      .ok sat) (hs : sat) :
    ∃ b, enforceEpochs alloc (hashC helper.isNone) e gen1 gen2 n c = .ok b ∧ b.sat ∧
      (EdgeCollision B (bitsBeToBytesLe b.firstEpochBits) (first.encodeFirstToBytes gen2) ∨
       EdgeCollision B (bitsBeToBytesLe b.lastEpochBits) (last.encodeLastToBytes gen2) ∨
       ∃ u, c.updates.getLast? = some u ∧
        EdgeMatches gen2 c.initial c.initial.parentEntropy first first.parentEntropy ∧
        EdgeMatches gen2 u.epoch u.epoch.epochEntropy last last.epochEntropy ∧
        1 ≤ c.real.length ∧ c.real.length ≤ c.updates.length ∧
        last.index.toNat = (first.index.toNat + c.real.length) % 2 ^ 16 ∧
        ∃ x y hxy w, (u.epoch.pubkeys.map G2Var.point).sum = .some x y hxy ∧
          g2ToBitsC ⟨x, y, 1⟩ w ∧
          g2ToBits ⟨x, y, 1⟩ w = encodePublicKey last.newPublicKeys.sum) := by
  unfold epochCircuit at h
  rw [Outcome.bind_eq_ok_iff] at h
  obtain ⟨b, hb, h⟩ := h
  unfold EpochBits.verify at h
  simp only [Outcome.map_eq_ok_iff] at h
  obtain ⟨v, ⟨hp, _, rfl⟩, rfl⟩ := h
  obtain ⟨hsat, _, hedge⟩ := hs
  refine ⟨b, hb, hsat, ?_⟩
  unfold verifyEdgesC at hedge
  rw [C50_edge_hash hB, C50_edge_hash hB] at hedge
  have hbits := C54_verifier (by
    unfold hashFirstLast
    simp only [List.length_append, hashToBits_length]) hedge (pack_hashFirstLast gen2 B first last)
  unfold hashFirstLast at hbits
  obtain ⟨h1, h2⟩ := List.append_inj hbits (by rw [hashToBits_length, hashToBits_length])
  by_cases c1 : bitsBeToBytesLe b.firstEpochBits = first.encodeFirstToBytes gen2
  swap
  · exact Or.inl ⟨c1, h1⟩
  by_cases c2 : bitsBeToBytesLe b.lastEpochBits = last.encodeLastToBytes gen2
  swap
  · exact Or.inr (Or.inl ⟨c2, h2⟩)
  right; right
  obtain ⟨k1, k2⟩ := C45_edges _ _ hn hb hsat
  have hu : c.updates.getLast? = some (c.updates.getLast hne) := List.getLast?_eq_some_getLast hne
  obtain ⟨_, _, x, y, hxy, w, k3, k4, k5⟩ := k2 _ hu
  obtain ⟨r1, r2⟩ := C43_encoded _ _ hn hne hb hsat
  rw [k1] at c1
  obtain ⟨m1, _⟩ := edgeMatches_of_bits (w := c.initial) (x := c.initial.parentEntropy) (b := first)
    (gen2 := gen2) hf (rest := []) (rest' := []) rfl (by
      rw [List.append_nil, List.append_nil]; exact c1)
  rw [k5] at c2
  obtain ⟨m2, m3⟩ := edgeMatches_of_bits (w := (c.updates.getLast hne).epoch)
    (x := (c.updates.getLast hne).epoch.epochEntropy) (b := last) (gen2 := gen2) hl
    (rest := g2ToBits ⟨x, y, 1⟩ w) (rest' := encodePublicKey last.newPublicKeys.sum)
    (by rw [g2ToBits_length, encodePublicKey_length]) c2
  refine ⟨_, hu, m1, m2, r1, List.length_filter_le _ _, ?_, x, y, hxy, w, k3, k4, m3⟩
  have t : ∀ (f : Fq) (rest : List Bool), (frToBits f 16 ++ rest).take 16 = frToBits f 16 := by
    intro f rest
    rw [List.take_append_of_le_length (by rw [frToBits_length _ (by norm_num)])]
    exact List.take_of_length_le (by rw [frToBits_length _ (by norm_num)])
  rw [k5, k1] at r2
  unfold EpochVars.lastEpochBits EpochVars.firstEpochBits at r2
  simp only [List.append_assoc, t, frToBits_value] at r2
  rw [m1.index, m2.index] at r2
  exact r2

end

/-- Allocation of a G2 point which only allows affine coordinates of points of the curve. -/
def AffineAllocG2 (alloc : G2Var → Prop) : Prop :=
  ∀ v, alloc v → v.z = 1 ∧ g2Curve.Nonsingular v.x v.y

/-- A finite key whose sign the circuit's gadget cannot misreport: no coordinate of `y` or `-y` is
`(q - 1) / 2`. -/
def ClearSign (pk : G2Point) : Prop :=
  ∃ x y h, pk = .some x y h ∧ ∀ a ∈ [y.re, y.im, (-y).re, (-y).im], a.val ≠ FQ_HALF

/-- The bits of an affine point determine it, if they are those of a key with a clear sign. -/
theorem point_of_bits {x y : Fq2} (h : g2Curve.Nonsingular x y) {w : YBitWitness FQ_MODULUS}
    (hc : g2ToBitsC ⟨x, y, 1⟩ w) {pk : G2Point} (hpk : ClearSign pk)
    (hb : g2ToBits ⟨x, y, 1⟩ w = encodePublicKey pk) : (.some x y h : G2Point) = pk := by
  obtain ⟨x', y', h', rfl, hy⟩ := hpk
  simp only [List.mem_cons, List.not_mem_nil, or_false, forall_eq_or_imp, forall_eq] at hy
  have hb' := hb
  unfold g2ToBits encodePublicKey at hb'
  simp only [intoAffine, fieldBitsBe_eq_encodeFq] at hb'
  obtain ⟨hb', _⟩ := List.append_inj' hb' rfl
  obtain ⟨hre, him⟩ := List.append_inj hb' (by rw [encodeFq_length, encodeFq_length])
  have inj : ∀ a a' : Fq, encodeFq a = encodeFq a' → a = a' := by
    intro a a' haa
    have := congrArg (fun l => ofBitsLE l.reverse) haa
    simp only [encodeFq_value] at this
    exact ZMod.val_injective _ this
  have hx : x = x' := QuadraticAlgebra.ext (inj _ _ hre) (inj _ _ him)
  have hyy : y * y = y' * y' := by rw [g2_equation h, g2_equation h', hx]
  have hclear : y.re.val ≠ FQ_HALF ∧ y.im.val ≠ FQ_HALF := by
    rcases mul_self_eq_mul_self_iff.mp hyy with e | e
    · rw [e]; exact ⟨hy.1, hy.2.1⟩
    · rw [e]; exact ⟨hy.2.2.1, hy.2.2.2⟩
  apply encodePublicKey_inj
  rw [← hb, C45_aggregate_encoding (hxy := h) hc hclear.1 hclear.2]

theorem points_of_bits {alloc : G2Var → Prop} (ha : AffineAllocG2 alloc) {w : EpochVars}
    (hw : w.toBitsC alloc) {ks : List G2Point} (hks : ∀ pk ∈ ks, ClearSign pk)
    (h : List.Forall₂ (fun k pk => g2ToBits k.1 k.2 = encodePublicKey pk) w.keys ks) :
    w.pubkeys.map G2Var.point = ks := by
  unfold EpochVars.pubkeys
  unfold EpochVars.toBitsC at hw
  generalize w.keys = ws at hw h
  induction h with
  | nil => rfl
  | @cons k pk ws ks h1 _ ih =>
    obtain ⟨a1, a2⟩ := hw k List.mem_cons_self
    obtain ⟨hz, hns⟩ := ha _ a1
    obtain ⟨⟨x, y, z⟩, kw⟩ := k
    simp only at hz hns a2 h1
    subst hz
    rw [List.map_cons, List.map_cons, ih (fun p hp => hks p (List.mem_cons_of_mem _ hp))
      (fun p hp => hw p (List.mem_cons_of_mem _ hp))]
    simp only [point_affine hns]
    rw [point_of_bits hns a2 (hks _ List.mem_cons_self) h1]

section

variable {GT HP : Type*} [CommGroup GT]

/-- C69: what a satisfied circuit without a helper means for the verifier's two blocks, if points are
allocated in affine form, and the keys have clear signs.  Either an explicit collision of the hash of
the public inputs is at hand, or:

* `last` is `k` epochs after `first`, for some `k ≥ 1`, modulo `2 ^ 16`;
* the signers of the first transition are among the padded keys of `first`;
* the keys of the last update are the padded keys of `last`, whose sum is that of its real keys;
* each transition is signed, in aggregate, by all but at most the (field valued) threshold of keys of
  the previous epoch, none of them the padding key, over a hash of its own two encodings, with
  **some** counter;
* thresholds agree with the blocks' modulo `2 ^ 32` only (`C42_violation`). -/
theorem C69_sound {alloc2 : G2Var → Prop} (ha2 : AffineAllocG2 alloc2) {alloc1 : G1Var → Prop}
    {compat : Bool} {K : Blake2sCore} {B : Blake2s} (hB : Blake2sAgree K B) {pedX : Bytes → Fq}
    {groth : List (List Bool) → HP → Outcome Unit (Prop × Bool)} {e : G1Point → G2Point → GT}
    {gen1 : G1Point} {gen2 : G2Point} {n : ℕ} (hq : n < FQ_MODULUS) {c : CircuitVars G1Point}
    {first last : EpochBlock} {sat : Prop} (hn : c.initial.keys.length = n) (hne : c.updates ≠ [])
    (hf : EntropyOk first.parentEntropy) (hl : EntropyOk last.epochEntropy)
    (hkf : ∀ pk ∈ gen2 :: first.newPublicKeys, ClearSign pk)
    (hkl : ∀ pk ∈ last.newPublicKeys.sum :: last.newPublicKeys, ClearSign pk)
    (h : epochCircuit alloc2 (hashBitsToG1C alloc1 compat K pedX) K groth e gen1 gen2 n none c
      (publicInputs gen2 B first last) = .ok sat) (hs : sat) :
    ∃ b, enforceEpochs alloc2 (hashBitsToG1C alloc1 compat K pedX true) e gen1 gen2 n c = .ok b ∧
      (EdgeCollision B (bitsBeToBytesLe b.firstEpochBits) (first.encodeFirstToBytes gen2) ∨
       EdgeCollision B (bitsBeToBytesLe b.lastEpochBits) (last.encodeLastToBytes gen2) ∨
       (1 ≤ c.real.length ∧ c.real.length ≤ c.updates.length ∧
        last.index.toNat = (first.index.toNat + c.real.length) % 2 ^ 16 ∧
        c.initial.maximumNonSigners.val % 2 ^ 32 = first.maximumNonSigners.toNat ∧
        c.initial.pubkeys.map G2Var.point = first.newPublicKeys ++
          List.replicate (first.maximumValidators - first.newPublicKeys.length) gen2 ∧
        (∃ u, c.real.getLast? = some u ∧
          u.epoch.maximumNonSigners.val % 2 ^ 32 = last.maximumNonSigners.toNat ∧
          u.epoch.pubkeys.map G2Var.point = last.newPublicKeys ++
            List.replicate (last.maximumValidators - last.newPublicKeys.length) gen2 ∧
          (u.epoch.pubkeys.map G2Var.point).sum = last.newPublicKeys.sum) ∧
        (∀ t ∈ c.transitions,
          t.2.bitmap.length = n ∧ t.2.bitmap.count false ≤ t.1.maximumNonSigners.val ∧
          (∀ x ∈ t.1.pubkeys.zip t.2.bitmap, x.2 = true → x.1.point ≠ gen2) ∧
          ∃ (counter : UInt8) (d : Bytes),
            directXof B SIG_DOMAIN (counter :: (bitsBeToBytesLe t.2.epoch.extraDataBits ++
              leBytes 48 (pedX (bitsBeToBytesLe t.2.epoch.epochBits)).val)) 64 = .ok d ∧
            GroupAccepts alloc1 compat (leValue d) t.2.hash.messageHash) ∧
        e c.signature (-gen2) *
          ((c.transitions.map fun t => e t.2.hash.messageHash
            (((t.1.pubkeys.zip t.2.bitmap).filter (·.2)).map (·.1.point)).sum).prod *
          e gen1 gen2 ^ (c.updates.length - c.real.length)) = 1)) := by
  obtain ⟨b, hb, hsat, hor⟩ := C69_edges hB hn hne hf hl h hs
  refine ⟨b, hb, ?_⟩
  rcases hor with h1 | h1 | ⟨u, hu, m1, m2, r1, r2, r3, x, y, hxy, w, k1, k2, k3⟩
  · exact Or.inl h1
  · exact Or.inr (Or.inl h1)
  right; right
  have spec := enforce_sound _ _ hn hb hsat
  obtain ⟨t1, t2⟩ := C45_transitions _ _ hn hq hb hsat
  have hgen := hkf gen2 List.mem_cons_self
  have pad : ∀ (ks : List G2Point) (k : ℕ), (∀ pk ∈ ks, ClearSign pk) →
      ∀ pk ∈ ks ++ List.replicate k gen2, ClearSign pk := by
    intro ks k hks pk hpk
    rcases List.mem_append.mp hpk with hpk | hpk
    · exact hks pk hpk
    · rw [List.eq_of_mem_replicate hpk]; exact hgen
  have p1 := points_of_bits ha2 spec.initial
    (pad _ _ fun pk hpk => hkf pk (List.mem_cons_of_mem _ hpk)) m1.keys
  have hum : u ∈ (steps c.initial c.updates).map (·.2) := by
    rw [steps_map_snd]; exact List.mem_of_getLast? hu
  obtain ⟨st, hst, rfl⟩ := List.mem_map.mp hum
  have p2 := points_of_bits ha2 (spec.steps st hst).bits
    (pad _ _ fun pk hpk => hkl pk (List.mem_cons_of_mem _ hpk)) m2.keys
  have hlast := (C45_edges _ _ hn hb hsat).2 _ hu
  refine ⟨r1, r2, r3, m1.threshold, p1, ⟨st.2, hlast.2.1, m2.threshold, p2, ?_⟩, ?_, t2⟩
  · rw [k1]
    exact point_of_bits hxy k2 (hkl _ List.mem_cons_self) k3
  · intro t ht
    obtain ⟨a1, a2, a3, a4, a5⟩ := t1 t ht
    obtain ⟨counter, d, d1, d2, _, _⟩ := (C52_exact alloc1 compat hB pedX _ _ _).mp a5
    exact ⟨by rw [a1, a2], a3, a4, counter, d, d1, d2⟩

/-! ## C70: padded last blocks -/

/-- C70 (violated): the verifier encodes the sum of the real keys of the last block, the circuit that
of all keys with padding.  So a last block with fewer keys than its `maximum_validators` cannot be
proved: every satisfying assignment exhibits a collision of the hash. -/
theorem C70_padded_last {alloc2 : G2Var → Prop} (ha2 : AffineAllocG2 alloc2)
    {alloc1 : G1Var → Prop} {compat : Bool} {K : Blake2sCore} {B : Blake2s} (hB : Blake2sAgree K B)
    {pedX : Bytes → Fq} {groth : List (List Bool) → HP → Outcome Unit (Prop × Bool)}
    {e : G1Point → G2Point → GT} {gen1 : G1Point} {gen2 : G2Point} {n : ℕ} (hq : n < FQ_MODULUS)
    {c : CircuitVars G1Point} {first last : EpochBlock} {sat : Prop}
    (hn : c.initial.keys.length = n) (hne : c.updates ≠ [])
    (hf : EntropyOk first.parentEntropy) (hl : EntropyOk last.epochEntropy)
    (hkf : ∀ pk ∈ gen2 :: first.newPublicKeys, ClearSign pk)
    (hkl : ∀ pk ∈ last.newPublicKeys.sum :: last.newPublicKeys, ClearSign pk)
    (hpad : (last.maximumValidators - last.newPublicKeys.length) • gen2 ≠ 0)
    (h : epochCircuit alloc2 (hashBitsToG1C alloc1 compat K pedX) K groth e gen1 gen2 n none c
      (publicInputs gen2 B first last) = .ok sat) (hs : sat) :
    ∃ b, enforceEpochs alloc2 (hashBitsToG1C alloc1 compat K pedX true) e gen1 gen2 n c = .ok b ∧
      (EdgeCollision B (bitsBeToBytesLe b.firstEpochBits) (first.encodeFirstToBytes gen2) ∨
       EdgeCollision B (bitsBeToBytesLe b.lastEpochBits) (last.encodeLastToBytes gen2)) := by
  obtain ⟨b, hb, hor⟩ := C69_sound ha2 hB hq hn hne hf hl hkf hkl h hs
  refine ⟨b, hb, ?_⟩
  rcases hor with h1 | h1 | ⟨_, _, _, _, _, ⟨u, _, _, h2, h3⟩, _⟩
  · exact Or.inl h1
  · exact Or.inr h1
  · rw [h2, List.sum_append, List.sum_replicate] at h3
    exact absurd (add_eq_left.mp h3) hpad

/-- C70: for the generator used, every padding of fewer than `r` keys is non-zero. -/
theorem C70_generator {k : ℕ} (h0 : 0 < k) (hk : k < FR_MODULUS) : k • g2Generator ≠ 0 := by
  intro h
  have ho : addOrderOf g2Generator = FR_MODULUS := by
    have : Fact FR_MODULUS.Prime := ⟨FR_prime⟩
    exact addOrderOf_eq_prime g2Generator_order (by intro h; cases h)
  have := addOrderOf_dvd_of_nsmul_eq_zero h
  rw [ho] at this
  exact absurd (Nat.le_of_dvd h0 this) (by omega)

end

/-! ## Concrete cases -/

/-- Allocation of G2 points in affine form: complete and affine. -/
def affineOnlyG2 (v : G2Var) : Prop := v.z = 1 ∧ g2Curve.Nonsingular v.x v.y

theorem genY_clear : (g2GenY.re.val ≠ FQ_HALF ∧ g2GenY.im.val ≠ FQ_HALF) ∧
    (-g2GenY.re).val ≠ FQ_HALF ∧ (-g2GenY.im).val ≠ FQ_HALF :=
  ⟨⟨by decide +kernel, by decide +kernel⟩, by decide +kernel, by decide +kernel⟩

theorem clearSign_gen : ClearSign g2Generator := by
  refine ⟨g2GenX, g2GenY, _, rfl, ?_⟩
  obtain ⟨⟨h1, h2⟩, h3, h4⟩ := genY_clear
  simp only [List.mem_cons, List.not_mem_nil, or_false, forall_eq_or_imp, forall_eq,
    QuadraticAlgebra.re_neg, QuadraticAlgebra.im_neg]
  exact ⟨h1, h2, h3, h4⟩

theorem clearSign_key : ClearSign toyKey := by
  refine ⟨g2GenX, -g2GenY, _, rfl, ?_⟩
  obtain ⟨⟨h1, h2⟩, h3, h4⟩ := genY_clear
  simp only [List.mem_cons, List.not_mem_nil, or_false, forall_eq_or_imp, forall_eq, neg_neg,
    QuadraticAlgebra.re_neg, QuadraticAlgebra.im_neg]
  exact ⟨h3, h4, h1, h2⟩

/-- A transition to block `i`, signed by the only validator, whose key is minus the generator. -/
noncomputable def nativeStep (i : UInt16) : EpochTransition G1Point where
  block := chainBlock [toyKey] 0 i
  aggregateSignature := -(G1_COFACTOR • onePoint)
  bitmap := [true]

/-- Concrete case for C68: for **every** bilinear pairing, blocks 4, 5 and 6 of one validator, in a
circuit of five updates (three dummies), for a BLAKE2s under which all messages hash to the same
element. -/
theorem native_chain_satisfies' [DecidableEq G1Point] {GT : Type*} [CommGroup GT] (compat : Bool)
    (e : G1Point → G2Point → GT) (hl : ∀ P P' Q, e (P + P') Q = e P Q * e P' Q)
    (hr : ∀ P Q Q', e P (Q + Q') = e P Q * e P Q') (gen1 : G1Point) :
    ∃ (K : Blake2sCore) (B : Blake2s) (c : CircuitVars G1Point) (sat : Prop),
      Blake2sAgree K B ∧ (∀ m m', hashToBits B m = hashToBits B m') ∧
      epochCircuit affineOnlyG2 (hashBitsToG1C affineOnly compat K fun _ => 5) K
        (fun _ (_ : Unit) => .ok (True, true)) e gen1 g2Generator 1 none c
        (publicInputs g2Generator B (chainBlock [toyKey] 0 4) (chainBlock [toyKey] 0 6)) = .ok sat ∧
      sat ∧ c.updates.length = 5 ∧ c.initial.keys.length = 1 ∧
      ∀ w ∈ c.initial :: c.real.map (·.epoch), w.maximumNonSigners = 0 := by
  obtain ⟨K, hconst, hK⟩ := exists_core' (fun _ => tinyDigest compat 1 false)
    fun m => tinyDigest_length _ _ _
  have hB := Blake2s.ofCore_agree K
  have hx := hK _ hB
  have hg0 : g1Scale (.finite 1 sqrtTwo) ≠ 0 := by
    rw [g1Scale_one]; exact cofactor_onePoint_ne.1
  have hnat : ∀ b, nativeEpochHash compat (Blake2s.ofCore K) (fun _ => .ok (leBytes 48 (5 : Fq).val))
      someSqrt g2Generator b = .ok (G1_COFACTOR • onePoint, 0) := by
    intro b
    unfold nativeEpochHash
    rw [C19_ok_iff compat _ someSqrt_spec]
    refine ⟨_, rfl, by norm_num, ⟨tinyDigest compat 1 false, hx _, ?_⟩,
      fun c' hc' => absurd hc' (by omega)⟩
    rw [← g1Scale_one]
    exact ⟨by rw [tinyDigest_length]; omega, hg0, _, (decodes_one compat).1, rfl⟩
  have hzero : ∀ Q, e 0 Q = 1 := by
    intro Q
    have := hl 0 0 Q
    rw [add_zero] at this
    exact mul_eq_left.mp this.symm
  have chain : NativeChain compat (Blake2s.ofCore K) (fun _ => .ok (leBytes 48 (5 : Fq).val)) someSqrt e
      g2Generator 1 (chainBlock [toyKey] 0 4) ([nativeStep 5] ++ [nativeStep 6]) := by
    have toy := toy_chain
    have hpred : ∀ p ∈ predecessors (chainBlock [toyKey] 0 4) ([nativeStep 5] ++ [nativeStep 6]),
        p = (chainBlock [toyKey] 0 4, nativeStep 5) ∨
        p = (chainBlock [toyKey] 0 5, nativeStep 6) := by
      intro p hp
      simp only [predecessors, List.cons_append, List.nil_append, List.map_cons, List.map_nil,
        List.zip_cons_cons, List.zip_nil_right, List.mem_cons, List.not_mem_nil, or_false] at hp
      exact hp
    refine ⟨toy.blocks, fun p hp => ?_, fun _ p hp => ?_, fun p hp => ?_, fun p hp => ?_,
      fun p hp => ?_⟩
    · rcases hpred p hp with rfl | rfl <;> rfl
    · rcases hpred p hp with rfl | rfl <;> rfl
    · rcases hpred p hp with rfl | rfl <;> exact ⟨rfl, le_refl _, by decide⟩
    · rcases hpred p hp with rfl | rfl <;>
      · intro x hx _
        change x ∈ [(toyKey, true)] at hx
        rw [List.mem_singleton.mp hx]
        exact toyKey_ne_gen
    · rcases hpred p hp with rfl | rfl <;>
      · refine ⟨_, _, hnat _, ?_⟩
        change e (-(G1_COFACTOR • onePoint)) (-g2Generator) *
          e (G1_COFACTOR • onePoint) [toyKey].sum = 1
        have hk : toyKey = -g2Generator := rfl
        rw [List.sum_singleton, hk, ← hl, neg_add_cancel, hzero]
  obtain ⟨s, c, sat, h1, h2, h3, h4, h5, h6, _⟩ := C68_complete (alloc1 := affineOnly)
    (alloc2 := affineOnlyG2) affineOnly_complete (fun _ _ h => ⟨rfl, h⟩) compat true hB someSqrt_spec
    (pedX := fun _ => 5) (fun _ (_ : Unit) => .ok (True, true)) hl hr (gen1 := gen1) (max := 5)
    (by decide +kernel) (fun _ _ => rfl) chain (by decide)
    (by
      intro _
      refine ⟨(by intro h; cases h), ?_, _, _, hnat _⟩
      change g2Generator ∉ [toyKey]
      rw [List.mem_singleton]
      exact fun h => toyKey_ne_gen h.symm)
    (by
      change [toyKey].sum ≠ 0
      rw [List.sum_singleton]; exact toyKey_ne)
  have hci : c.initial = EpochVars.assign (toEpochData (chainBlock [toyKey] 0 4)) := by
    obtain ⟨s', hs', _, e2, _⟩ := C48_shape gen1 g2Generator 1 (chainBlock [toyKey] 0 4)
      ([nativeStep 5] ++ [nativeStep 6]) 5 (by simp) (by simp)
    rw [h1] at hs'
    simp only [Outcome.ok.injEq] at hs'
    subst hs'
    unfold CircuitVars.assign at h2
    rw [Outcome.map_eq_ok_iff] at h2
    obtain ⟨_, _, rfl⟩ := h2
    simp only [e2]
  refine ⟨K, Blake2s.ofCore K, c, sat, hB, ?_, h3, h4, h5, by rw [hci]; rfl, ?_⟩
  · intro m m'
    rw [hashToBits_eq, hashToBits_eq]
    simp only [Blake2s.ofCore, hconst _ m m' rfl]
  · intro w hw
    rw [List.mem_cons] at hw
    rcases hw with rfl | hw
    · rw [hci]; rfl
    · rw [h6] at hw
      simp only [List.cons_append, List.nil_append, List.map_cons, List.map_nil, List.mem_cons,
        List.not_mem_nil, or_false] at hw
      rcases hw with rfl | rfl <;> rfl

theorem native_chain_satisfies [DecidableEq G1Point] {GT : Type*} [CommGroup GT] (compat : Bool)
    (e : G1Point → G2Point → GT) (hl : ∀ P P' Q, e (P + P') Q = e P Q * e P' Q)
    (hr : ∀ P Q Q', e P (Q + Q') = e P Q * e P Q') (gen1 : G1Point) :
    ∃ (K : Blake2sCore) (B : Blake2s) (c : CircuitVars G1Point) (sat : Prop),
      Blake2sAgree K B ∧ (∀ m m', hashToBits B m = hashToBits B m') ∧
      epochCircuit affineOnlyG2 (hashBitsToG1C affineOnly compat K fun _ => 5) K
        (fun _ (_ : Unit) => .ok (True, true)) e gen1 g2Generator 1 none c
        (publicInputs g2Generator B (chainBlock [toyKey] 0 4) (chainBlock [toyKey] 0 6)) = .ok sat ∧
      sat ∧ c.updates.length = 5 ∧ c.initial.keys.length = 1 := by
  obtain ⟨K, B, c, sat, h1, h2, h3, h4, h5, h6, _⟩ := native_chain_satisfies' compat e hl hr gen1
  exact ⟨K, B, c, sat, h1, h2, h3, h4, h5, h6⟩

theorem chain_entropy (keys : List G2Point) (m : UInt32) (i : UInt16) :
    EntropyOk (chainBlock keys m i).parentEntropy ∧ EntropyOk (chainBlock keys m i).epochEntropy := by
  constructor <;>
  · intro b hb; simp only [chainBlock, Option.some.injEq] at hb; rw [← hb]; rfl

theorem clear_gen_key : ∀ pk ∈ [g2Generator, toyKey], ClearSign pk := by
  intro pk hpk
  simp only [List.mem_cons, List.not_mem_nil, or_false] at hpk
  rcases hpk with rfl | rfl
  · exact clearSign_gen
  · exact clearSign_key

theorem clear_sum_key : ∀ pk ∈ [toyKey].sum :: [toyKey], ClearSign pk := by
  intro pk hpk
  rw [List.sum_singleton] at hpk
  simp only [List.mem_cons, List.not_mem_nil, or_false, or_self] at hpk
  rw [hpk]
  exact clearSign_key

/-- Concrete case for C69: the hypotheses hold for the assignment of `native_chain_satisfies`, with the keys of
the blocks. -/
example [DecidableEq G1Point] {GT : Type*} [CommGroup GT] (compat : Bool)
    (e : G1Point → G2Point → GT) (hl : ∀ P P' Q, e (P + P') Q = e P Q * e P' Q)
    (hr : ∀ P Q Q', e P (Q + Q') = e P Q * e P Q') (gen1 : G1Point) :
    ∃ (K : Blake2sCore) (B : Blake2s) (c : CircuitVars G1Point) (b : EpochBits),
      Blake2sAgree K B ∧
      enforceEpochs affineOnlyG2 (hashBitsToG1C affineOnly compat K (fun _ => 5) true) e gen1
        g2Generator 1 c = .ok b ∧
      (EdgeCollision B (bitsBeToBytesLe b.firstEpochBits)
          ((chainBlock [toyKey] 0 4).encodeFirstToBytes g2Generator) ∨
        EdgeCollision B (bitsBeToBytesLe b.lastEpochBits)
          ((chainBlock [toyKey] 0 6).encodeLastToBytes g2Generator) ∨
        c.initial.pubkeys.map G2Var.point = [toyKey]) := by
  obtain ⟨K, B, c, sat, hB, _, h1, h2, h3, h4⟩ := native_chain_satisfies compat e hl hr gen1
  obtain ⟨b, hb, hor⟩ := C69_sound (fun _ h => h) hB (by decide +kernel) h4
    (by intro h; rw [h] at h3; cases h3) (chain_entropy _ _ _).1 (chain_entropy _ _ _).2
    clear_gen_key clear_sum_key h1 h2
  refine ⟨K, B, c, b, hB, hb, ?_⟩
  rcases hor with h | h | ⟨_, _, _, _, h, _⟩
  · exact Or.inl h
  · exact Or.inr (Or.inl h)
  · exact Or.inr (Or.inr h)

/-- Concrete case for C70: block 6 with one key and `maximum_validators` two.  Under a BLAKE2s all of
whose messages collide the hypotheses hold, and the collision is found. -/
example [DecidableEq G1Point] {GT : Type*} [CommGroup GT] (compat : Bool)
    (e : G1Point → G2Point → GT) (hl : ∀ P P' Q, e (P + P') Q = e P Q * e P' Q)
    (hr : ∀ P Q Q', e P (Q + Q') = e P Q * e P Q') (gen1 : G1Point) :
    ∃ (K : Blake2sCore) (B : Blake2s) (c : CircuitVars G1Point) (b : EpochBits), Blake2sAgree K B ∧
      enforceEpochs affineOnlyG2 (hashBitsToG1C affineOnly compat K (fun _ => 5) true) e gen1
        g2Generator 1 c = .ok b ∧
      EdgesCollide B g2Generator b (chainBlock [toyKey] 0 4)
        { chainBlock [toyKey] 0 6 with maximumValidators := 2 } := by
  obtain ⟨K, B, c, sat, hB, hconst, h1, h2, h3, h4⟩ := native_chain_satisfies compat e hl hr gen1
  have hin : publicInputs g2Generator B (chainBlock [toyKey] 0 4) (chainBlock [toyKey] 0 6) =
      publicInputs g2Generator B (chainBlock [toyKey] 0 4)
        { chainBlock [toyKey] 0 6 with maximumValidators := 2 } := by
    have e1 := pack_hashFirstLast g2Generator B (chainBlock [toyKey] 0 4) (chainBlock [toyKey] 0 6)
    have e2 := pack_hashFirstLast g2Generator B (chainBlock [toyKey] 0 4)
      { chainBlock [toyKey] 0 6 with maximumValidators := 2 }
    unfold hashFirstLast at e1 e2
    rw [hconst (EpochBlock.encodeLastToBytes _ (chainBlock [toyKey] 0 6))
      ({ chainBlock [toyKey] 0 6 with maximumValidators := 2 }.encodeLastToBytes g2Generator),
      e2] at e1
    exact (Outcome.ok.inj e1).symm
  rw [hin] at h1
  have h1r : 1 < FR_MODULUS := FR_prime.one_lt
  obtain ⟨b, hb, hor⟩ := C70_padded_last (last := { chainBlock [toyKey] 0 6 with maximumValidators := 2 })
    (fun _ h => h) hB (by decide +kernel) h4
    (by intro h; rw [h] at h3; cases h3) (chain_entropy _ _ _).1 (chain_entropy [toyKey] 0 6).2
    clear_gen_key clear_sum_key
    (by
      change (2 - [toyKey].length) • g2Generator ≠ 0
      exact C70_generator (k := 1) one_pos h1r)
    h1 h2
  exact ⟨K, B, c, b, hB, hb, hor⟩

end Verif
