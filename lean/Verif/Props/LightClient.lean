import Verif.Props.EndToEnd

/-!
# C93: what a light client may conclude

A light client knows a block of the chain and accepts another one because of a proof.  The circuit and the
encodings are those of the code; who is honest, what was signed and what the chain is are hypotheses.
-/

set_option exponentiation.threshold 800
set_option linter.unusedSectionVars false

namespace Verif

/-- A chain of `N` epoch blocks with an honest quorum in each: `Honest` keys sign nothing but blocks of the
chain, and in each block there are more of them than non-signers are allowed. -/
structure HonestQuorums (gen2 : G2Point) (N : ℕ) (chain : ℕ → EpochBlock) (Honest : G2Point → Prop)
    (Signed : G2Point → Bytes → Bytes → Prop) : Prop where
  /-- At most `2 ^ 16 - 1` blocks, so that the index identifies the block. -/
  size : N < 2 ^ 16
  index : ∀ j < N, (chain j).index.toNat = j
  entropy : ∀ j < N, EntropyOk (chain j).epochEntropy ∧ EntropyOk (chain j).parentEntropy
  /-- No key at which the sign gadget is ambiguous. -/
  clear : ∀ j < N, ∀ pk ∈ gen2 :: (chain j).newPublicKeys, ClearSign pk
  quorum : ∀ j < N, ∀ [DecidablePred Honest],
    (chain j).maximumNonSigners.toNat < (chain j).newPublicKeys.countP (fun pk => decide (Honest pk))
  signs : ∀ pk m x, Honest pk → Signed pk m x → ∃ j < N, (chain j).encodeInnerToBytes gen2 = (m, x)

/-- Of more elements with a property than there are `false` bits, one is at a `true` bit. -/
theorem exists_at_true {α : Type*} (p : α → Bool) (ks : List α) (bs : List Bool)
    (hl : bs.length = ks.length) (h : bs.count false < ks.countP p) :
    ∃ x ∈ ks.zip bs, p x.1 = true ∧ x.2 = true := by
  induction ks generalizing bs with
  | nil => simp at h
  | cons k ks ih =>
    cases bs with
    | nil => simp at hl
    | cons b bs =>
      rw [List.countP_cons, List.count_cons] at h
      by_cases hk : p k = true ∧ b = true
      · exact ⟨(k, b), by simp, hk⟩
      · have : bs.count false < ks.countP p := by
          cases b
          · simp only [beq_self_eq_true, if_true] at h
            split at h <;> omega
          · have hk' : p k = false := by simpa using hk
            simpa [hk'] using h
        obtain ⟨x, hx, h1⟩ := ih bs (by simpa using hl) this
        exact ⟨x, by rw [List.zip_cons_cons]; exact List.mem_cons_of_mem _ hx, h1⟩

/-- The signed encoding of an epoch of the circuit is that of a block only if they agree. -/
theorem matches_of_inner {gen2 : G2Point} {w : EpochVars} {b : EpochBlock}
    (he : EntropyOk b.epochEntropy) (hp : EntropyOk b.parentEntropy)
    (h : b.encodeInnerToBytes gen2 = (bitsBeToBytesLe w.epochBits, bitsBeToBytesLe w.extraDataBits)) :
    EdgeMatches gen2 w w.epochEntropy b b.epochEntropy ∧
      frToBits w.parentEntropy 128 = encodeEntropy b.parentEntropy ∧ w.round.val % 2 ^ 8 = b.round.toNat := by
  unfold EpochBlock.encodeInnerToBytes EpochBlock.encodeInnerToBitsCip22 EpochVars.epochBits
    EpochVars.extraDataBits at h
  simp only [Prod.mk.injEq] at h
  obtain ⟨h1, h2⟩ := h
  have e1 := frToBits_length w.index (n := 16) (by norm_num)
  have e2 := frToBits_length w.round (n := 8) (by norm_num)
  have e3 := frToBits_length w.maximumNonSigners (n := 32) (by norm_num)
  have e4 := frToBits_length w.epochEntropy (n := 128) (by norm_num)
  have e5 := frToBits_length w.parentEntropy (n := 128) (by norm_num)
  have b1 := encodeU16_length b.index
  have b2 := encodeU8_length b.round
  have b3 := encodeU32_length b.maximumNonSigners
  have b4 := encodeEntropy_length he
  have b5 := encodeEntropy_length hp
  have k1 := circuitKeyBits_length w
  have k2 : (b.keyBits gen2).length = 755 * (b.paddedKeys gen2).length := by
    rw [keyBits_eq, flatMap_encode_length]
  have hx := C26_injective (by simp only [List.length_append, e1, e2, e3, b1, b2, b3]) h2
  obtain ⟨hx, hm⟩ := List.append_inj' hx (by rw [b3, e3])
  obtain ⟨hi, hr⟩ := List.append_inj' hx (by rw [b2, e2])
  have hl := congrArg List.length h1
  rw [C26_bytes_length, C26_bytes_length] at hl
  simp only [List.length_append, e4, e5, b4, b5, k1, k2] at hl
  have hk : w.keys.length = (b.paddedKeys gen2).length := by omega
  have hy := C26_injective (by simp only [List.length_append, e4, e5, b4, b5, k1, k2, hk]) h1
  obtain ⟨hy, hkb⟩ := List.append_inj' hy (by rw [k1, k2, hk])
  obtain ⟨ha, hb⟩ := List.append_inj' hy (by rw [e5, b5])
  rw [keyBits_eq] at hkb
  exact ⟨⟨(frToBits_u16_iff _ _).mp hi.symm, (frToBits_u32_iff _ _).mp hm.symm, ha.symm,
    keys_forall₂ hk hkb.symm⟩, hb.symm, (frToBits_u8_iff _ _).mp hr.symm⟩

/-- Following a relation along the transitions. -/
theorem follow_transitions {G1 : Type*} (R : EpochVars → ℕ → Prop) (N : ℕ) (us : List (UpdateVars G1))
    (a : EpochVars) (i : ℕ) (ha : R a i) (hi : i < N)
    (hstep : ∀ t ∈ (a :: us.map (·.epoch)).zip us, ∀ j < N, R t.1 j → j + 1 < N ∧ R t.2.epoch (j + 1)) :
    i + us.length < N ∧ ∀ k (hk : k < us.length), R us[k].epoch (i + k + 1) := by
  induction us generalizing a i with
  | nil => exact ⟨hi, fun k hk => absurd hk (by simp)⟩
  | cons u us ih =>
    obtain ⟨h1, h2⟩ := hstep (a, u) (by simp) i hi ha
    obtain ⟨h3, h4⟩ := ih u.epoch (i + 1) h2 h1 fun t ht => hstep t (by
      rw [List.map_cons, List.zip_cons_cons]; exact List.mem_cons_of_mem _ ht)
    refine ⟨by rw [List.length_cons]; omega, fun k hk => ?_⟩
    cases k with
    | zero => exact h2
    | succ k =>
      have := h4 k (by simpa using hk)
      rwa [show i + 1 + k + 1 = i + (k + 1) + 1 by omega] at this

section

variable {G1 GT HP : Type*} [AddCommGroup G1] [CommGroup GT]

/-- No signature was forged: every honest key among the signers of a transition did sign its encodings. -/
def NotForged (Honest : G2Point → Prop) (Signed : G2Point → Bytes → Bytes → Prop) (c : CircuitVars G1) : Prop :=
  ∀ t ∈ c.transitions, ∀ x ∈ t.1.pubkeys.zip t.2.bitmap, x.2 = true → Honest x.1.point →
    Signed x.1.point (bitsBeToBytesLe t.2.epoch.epochBits) (bitsBeToBytesLe t.2.epoch.extraDataBits)

/-- The same, only for transitions that start from a block of the chain. -/
def NotForgedOnChain (gen2 : G2Point) (N : ℕ) (chain : ℕ → EpochBlock) (Honest : G2Point → Prop)
    (Signed : G2Point → Bytes → Bytes → Prop) (c : CircuitVars G1) : Prop :=
  ∀ t ∈ c.transitions, ∀ j < N, t.1.pubkeys.map G2Var.point = (chain j).paddedKeys gen2 →
    ∀ x ∈ t.1.pubkeys.zip t.2.bitmap, x.2 = true → Honest x.1.point →
      Signed x.1.point (bitsBeToBytesLe t.2.epoch.epochBits) (bitsBeToBytesLe t.2.epoch.extraDataBits)

/-- The thresholds of an assignment fit into the 32 bits of them that are encoded. -/
def ThresholdsInRange (c : CircuitVars G1) : Prop :=
  ∀ w ∈ c.initial :: c.real.map (·.epoch), w.maximumNonSigners.val < 2 ^ 32

/-- What a light client that accepted block `j` of a chain knows of it: the held block has the index, the
threshold and the padded keys of the chain's block, and a parent entropy of the right length.  Neither the
epoch entropy nor the round, nor which parent entropy, is asked for. -/
structure Holds (gen2 : G2Point) (chain : ℕ → EpochBlock) (j : ℕ) (held : EpochBlock) : Prop where
  index : held.index = (chain j).index
  threshold : held.maximumNonSigners = (chain j).maximumNonSigners
  keys : held.paddedKeys gen2 = (chain j).paddedKeys gen2
  parent : EntropyOk held.parentEntropy

/-- **C101**, one step, and the core of C93: `first` is any block that agrees with block `i` of the chain in
index, threshold and keys (`Holds`), not only that block itself. -/
theorem C101_step {alloc : G2Var → Prop} (ha : AffineAllocG2 alloc)
    {hashC : Bool → List Bool → List Bool → HashOut G1 → Prop}
    {K : Blake2sCore} {B : Blake2s} (hB : Blake2sAgree K B)
    {groth : List (List Bool) → HP → Outcome Unit (Prop × Bool)} {e : G1 → G2Point → GT} {gen1 : G1}
    {gen2 : G2Point} {n : ℕ} (hq : n < FQ_MODULUS) {helper : Option HP} {c : CircuitVars G1}
    {first last : EpochBlock} {sat : Prop} (hn : c.initial.keys.length = n) (hne : c.updates ≠ [])
    {N : ℕ} {chain : ℕ → EpochBlock} {Honest : G2Point → Prop} {Signed : G2Point → Bytes → Bytes → Prop}
    (hc : HonestQuorums gen2 N chain Honest Signed) {i : ℕ} (hi : i < N)
    (hh : Holds gen2 chain i first)
    (hl : EntropyOk last.epochEntropy)
    (h : epochCircuit alloc hashC K groth e gen1 gen2 n helper c (publicInputs gen2 B first last) =
      .ok sat) (hs : sat)
    (hrange : ThresholdsInRange c) (hforge : NotForgedOnChain gen2 N chain Honest Signed c) :
    (∃ b, enforceEpochs alloc (hashC helper.isNone) e gen1 gen2 n c = .ok b ∧
      EdgesCollide B gen2 b first last) ∨
    ∃ j, i < j ∧ j ≤ i + c.updates.length ∧ j < N ∧
      last.index = (chain j).index ∧
      last.maximumNonSigners = (chain j).maximumNonSigners ∧
      encodeEntropy last.epochEntropy = encodeEntropy (chain j).epochEntropy ∧
      last.paddedKeys gen2 = (chain j).paddedKeys gen2 ∧
      last.encodeToBitsCip22 gen2 .last = (chain j).encodeToBitsCip22 gen2 .last := by
  classical
  obtain ⟨b, hb, hsat, hor⟩ := C69_edges hB hn hne hh.parent hl h hs
  rcases hor with h1 | h1 | ⟨u, hu, m1, m2, r1, r2, _⟩
  · exact Or.inl ⟨b, hb, Or.inl h1⟩
  · exact Or.inl ⟨b, hb, Or.inr h1⟩
  right
  have spec := enforce_sound _ _ hn hb hsat
  obtain ⟨t1, -⟩ := C45_transitions _ _ hn hq hb hsat
  -- what is carried along the chain
  let R : EpochVars → ℕ → Prop := fun w j =>
    w.maximumNonSigners.val < 2 ^ 32 ∧ w.toBitsC alloc ∧
    w.index.val % 2 ^ 16 = j ∧ w.maximumNonSigners.val % 2 ^ 32 = (chain j).maximumNonSigners.toNat ∧
    List.Forall₂ (fun k pk => g2ToBits k.1 k.2 = encodePublicKey pk) w.keys ((chain j).paddedKeys gen2)
  have hpad : ∀ j < N, ∀ pk ∈ (chain j).paddedKeys gen2, ClearSign pk := by
    intro j hj pk hpk
    rcases List.mem_append.mp hpk with hpk | hpk
    · exact hc.clear j hj pk (List.mem_cons_of_mem _ hpk)
    · rw [List.eq_of_mem_replicate hpk]; exact hc.clear j hj _ List.mem_cons_self
  have hstep : ∀ t ∈ (c.initial :: c.real.map (·.epoch)).zip c.real, ∀ j < N, R t.1 j →
      j + 1 < N ∧ R t.2.epoch (j + 1) ∧
        EdgeMatches gen2 t.2.epoch t.2.epoch.epochEntropy (chain (j + 1)) (chain (j + 1)).epochEntropy := by
    intro t ht j hj ⟨p1, p2, p3, p4, p5⟩
    obtain ⟨a1, a2, a3, -, -⟩ := t1 t ht
    obtain ⟨hm, hz⟩ := transitions_mem_steps ht
    have hpts := points_of_bits ha p2 (hpad j hj) p5
    -- an honest signer
    have hquorum : t.2.bitmap.count false <
        ((chain j).paddedKeys gen2).countP (fun pk => decide (Honest pk)) := by
      have := hc.quorum j hj
      rw [Nat.mod_eq_of_lt p1] at p4
      unfold EpochBlock.paddedKeys
      rw [List.countP_append]
      omega
    rw [← hpts] at hquorum
    obtain ⟨x, hx, hh, hbit⟩ := exists_at_true _ (t.1.pubkeys.map G2Var.point) t.2.bitmap (by
      rw [a1, List.length_map]; unfold EpochVars.pubkeys; rw [List.length_map]) hquorum
    rw [List.zip_map_left, List.mem_map] at hx
    obtain ⟨y, hy, rfl⟩ := hx
    have hsig := hforge t ht j hj hpts y hy hbit (by simpa using hh)
    obtain ⟨j', hj', henc⟩ := hc.signs _ _ _ (by simpa using hh) hsig
    obtain ⟨m, -, -⟩ := matches_of_inner (hc.entropy j' hj').1 (hc.entropy j' hj').2 henc
    -- the index
    have hidx : t.2.epoch.index.val = t.1.index.val + 1 := by
      have h1 := (spec.steps t hm).next hz
      rw [h1] at hz ⊢
      have hlt : t.1.index.val < FQ_MODULUS := ZMod.val_lt _
      have hone : (1 : Fq).val = 1 := by decide +kernel
      by_cases hc' : t.1.index.val + 1 = FQ_MODULUS
      · exfalso
        apply hz
        have : t.1.index = ((t.1.index.val : ℕ) : Fq) := (ZMod.natCast_zmod_val _).symm
        rw [this, show ((t.1.index.val : ℕ) : Fq) + 1 = ((t.1.index.val + 1 : ℕ) : Fq) by push_cast; rfl, hc']
        exact ZMod.natCast_self _
      · rw [ZMod.val_add, hone]
        exact Nat.mod_eq_of_lt (by omega)
    have hjj : j' = j + 1 := by
      have h1 := m.index
      rw [hc.index j' hj', hidx] at h1
      have := hc.size
      omega
    subst hjj
    refine ⟨hj', ⟨?_, (spec.steps t hm).bits, ?_, m.threshold, m.keys⟩, m⟩
    · apply hrange
      refine List.mem_cons_of_mem _ (List.mem_map_of_mem ?_)
      exact (List.of_mem_zip ht).2
    · rw [m.index, hc.index _ hj']
  have h0 : R c.initial i := ⟨hrange _ List.mem_cons_self, spec.initial, by rw [m1.index, hh.index, hc.index i hi],
    by rw [m1.threshold, hh.threshold], by rw [← hh.keys]; exact m1.keys⟩
  obtain ⟨f1, f2⟩ := follow_transitions R N c.real c.initial i h0 hi fun t ht j hj hr =>
    ⟨(hstep t ht j hj hr).1, (hstep t ht j hj hr).2.1⟩
  -- the last one
  have hlast := ((C45_edges _ _ hn hb hsat).2 _ hu).2.1
  have hul : c.real[c.real.length - 1]'(by omega) = u := by
    rw [List.getLast?_eq_getElem?, List.getElem?_eq_getElem (by omega)] at hlast
    exact Option.some.inj hlast
  have hM : EdgeMatches gen2 u.epoch u.epoch.epochEntropy (chain (i + c.real.length))
      (chain (i + c.real.length)).epochEntropy := by
    have hmem : ((c.initial :: c.real.map (·.epoch))[c.real.length - 1]'(by simp), u) ∈
        (c.initial :: c.real.map (·.epoch)).zip c.real := by
      rw [List.mem_iff_getElem]
      refine ⟨c.real.length - 1, by simp; omega, ?_⟩
      rw [List.getElem_zip, hul]
    have hR : R ((c.initial :: c.real.map (·.epoch))[c.real.length - 1]'(by simp)) (i + (c.real.length - 1)) := by
      rcases Nat.eq_zero_or_pos (c.real.length - 1) with hz | hz
      · simp only [hz, List.getElem_cons_zero, add_zero]; exact h0
      · obtain ⟨k, hk⟩ : ∃ k, c.real.length - 1 = k + 1 := ⟨c.real.length - 2, by omega⟩
        simp only [hk, List.getElem_cons_succ, List.getElem_map]
        have := f2 k (by omega)
        rwa [show i + (k + 1) = i + k + 1 by omega]
    have := (hstep _ hmem _ (by omega) hR).2.2
    rwa [show i + (c.real.length - 1) + 1 = i + c.real.length by omega] at this
  have hkeys : last.paddedKeys gen2 = (chain (i + c.real.length)).paddedKeys gen2 := by
    have k1 := m2.keys
    have k2 := hM.keys
    change List.Forall₂ _ _ (last.paddedKeys gen2) at k1
    change List.Forall₂ _ _ ((chain (i + c.real.length)).paddedKeys gen2) at k2
    generalize last.paddedKeys gen2 = l1 at *
    generalize (chain (i + c.real.length)).paddedKeys gen2 = l2 at *
    clear * - k1 k2
    generalize u.epoch.keys = ws at *
    induction k1 generalizing l2 with
    | nil => cases k2; rfl
    | cons g1 _ ih =>
      cases k2 with
      | cons g2 k2 => rw [encodePublicKey_inj (g1.symm.trans g2), ih _ k2]
  have hindex : last.index = (chain (i + c.real.length)).index :=
    UInt16.toNat_inj.mp (m2.index.symm.trans hM.index)
  have hthr : last.maximumNonSigners = (chain (i + c.real.length)).maximumNonSigners :=
    UInt32.toNat_inj.mp (m2.threshold.symm.trans hM.threshold)
  have hent : encodeEntropy last.epochEntropy = encodeEntropy (chain (i + c.real.length)).epochEntropy :=
    m2.entropy.symm.trans hM.entropy
  refine ⟨i + c.real.length, by omega, by omega, f1, hindex, hthr, hent, hkeys, ?_⟩
  unfold EpochBlock.encodeToBitsCip22
  simp only [keyBits_eq, hindex, hthr, hent, hkeys]

/-- **C93.** Let `chain` have honest quorums, and let the circuit be satisfied for the inputs the verifier
computes from `first`, block `i` of the chain, and `last`, whatever the hash gadget and the helper.  Assume
that no signature was forged in a transition from a block of the chain (C96), that points are allocated in
affine form, and that the thresholds of the assignment are below `2 ^ 32` (neither is enforced).  Then `last`
is a later block of the chain in everything that is encoded, or the edges of the assignment and the encodings of
the two blocks collide under the hash of the public inputs. -/
theorem C93_on_chain {alloc : G2Var → Prop} (ha : AffineAllocG2 alloc)
    {hashC : Bool → List Bool → List Bool → HashOut G1 → Prop}
    {K : Blake2sCore} {B : Blake2s} (hB : Blake2sAgree K B)
    {groth : List (List Bool) → HP → Outcome Unit (Prop × Bool)} {e : G1 → G2Point → GT} {gen1 : G1}
    {gen2 : G2Point} {n : ℕ} (hq : n < FQ_MODULUS) {helper : Option HP} {c : CircuitVars G1}
    {last : EpochBlock} {sat : Prop} (hn : c.initial.keys.length = n) (hne : c.updates ≠ [])
    {N : ℕ} {chain : ℕ → EpochBlock} {Honest : G2Point → Prop} {Signed : G2Point → Bytes → Bytes → Prop}
    (hc : HonestQuorums gen2 N chain Honest Signed) {i : ℕ} (hi : i < N)
    (hl : EntropyOk last.epochEntropy)
    (h : epochCircuit alloc hashC K groth e gen1 gen2 n helper c (publicInputs gen2 B (chain i) last) =
      .ok sat) (hs : sat)
    (hrange : ThresholdsInRange c) (hforge : NotForgedOnChain gen2 N chain Honest Signed c) :
    (∃ b, enforceEpochs alloc (hashC helper.isNone) e gen1 gen2 n c = .ok b ∧
      EdgesCollide B gen2 b (chain i) last) ∨
    ∃ j, i < j ∧ j ≤ i + c.updates.length ∧ j < N ∧
      last.index = (chain j).index ∧
      last.maximumNonSigners = (chain j).maximumNonSigners ∧
      encodeEntropy last.epochEntropy = encodeEntropy (chain j).epochEntropy ∧
      last.paddedKeys gen2 = (chain j).paddedKeys gen2 ∧
      last.encodeToBitsCip22 gen2 .last = (chain j).encodeToBitsCip22 gen2 .last :=
  C101_step ha hB hq hn hne hc hi ⟨rfl, rfl, rfl, (hc.entropy i hi).2⟩ hl h hs hrange hforge

/-- **C93**, if no signature at all was forged. -/
theorem C93_light_client {alloc : G2Var → Prop} (ha : AffineAllocG2 alloc)
    {hashC : Bool → List Bool → List Bool → HashOut G1 → Prop}
    {K : Blake2sCore} {B : Blake2s} (hB : Blake2sAgree K B)
    {groth : List (List Bool) → HP → Outcome Unit (Prop × Bool)} {e : G1 → G2Point → GT} {gen1 : G1}
    {gen2 : G2Point} {n : ℕ} (hq : n < FQ_MODULUS) {helper : Option HP} {c : CircuitVars G1}
    {last : EpochBlock} {sat : Prop} (hn : c.initial.keys.length = n) (hne : c.updates ≠ [])
    {N : ℕ} {chain : ℕ → EpochBlock} {Honest : G2Point → Prop} {Signed : G2Point → Bytes → Bytes → Prop}
    (hc : HonestQuorums gen2 N chain Honest Signed) {i : ℕ} (hi : i < N)
    (hl : EntropyOk last.epochEntropy)
    (h : epochCircuit alloc hashC K groth e gen1 gen2 n helper c (publicInputs gen2 B (chain i) last) =
      .ok sat) (hs : sat)
    (hrange : ThresholdsInRange c) (hforge : NotForged Honest Signed c) :
    (∃ b, enforceEpochs alloc (hashC helper.isNone) e gen1 gen2 n c = .ok b ∧
      EdgesCollide B gen2 b (chain i) last) ∨
    ∃ j, i < j ∧ j ≤ i + c.updates.length ∧ j < N ∧
      last.index = (chain j).index ∧
      last.maximumNonSigners = (chain j).maximumNonSigners ∧
      encodeEntropy last.epochEntropy = encodeEntropy (chain j).epochEntropy ∧
      last.paddedKeys gen2 = (chain j).paddedKeys gen2 ∧
      last.encodeToBitsCip22 gen2 .last = (chain j).encodeToBitsCip22 gen2 .last :=
  C93_on_chain ha hB hq hn hne hc hi hl h hs hrange fun t ht _ _ _ => hforge t ht

/-- **C93** for the verifier: if it accepts, and the proof system is sound for this proof (from it, if accepted,
a satisfying assignment `c` of the circuit is extracted, which is not forged or out of range), then `last` is a
later block of the chain, or the extracted assignment contains a collision. -/
theorem C93_verifier {alloc : G2Var → Prop} (ha : AffineAllocG2 alloc)
    {hashC : Bool → List Bool → List Bool → HashOut G1 → Prop}
    {K : Blake2sCore} {B : Blake2s} (hB : Blake2sAgree K B)
    {groth : List (List Bool) → HP → Outcome Unit (Prop × Bool)} {e : G1 → G2Point → GT} {gen1 : G1}
    {gen2 : G2Point} {n max : ℕ} (hq : n < FQ_MODULUS) (hmax : 0 < max) {helper : Option HP}
    {VK Proof : Type*} {groth16 : VK → Proof → List Fq → Outcome Unit Bool} {vk : VK} {proof : Proof}
    {N : ℕ} {chain : ℕ → EpochBlock} {Honest : G2Point → Prop} {Signed : G2Point → Bytes → Bytes → Prop}
    (hc : HonestQuorums gen2 N chain Honest Signed) {i : ℕ} (hi : i < N) {last : EpochBlock}
    (hl : EntropyOk last.epochEntropy) {c : CircuitVars G1}
    (hsound : groth16 vk proof (publicInputs gen2 B (chain i) last) = .ok true → ∃ sat : Prop,
      epochCircuit alloc hashC K groth e gen1 gen2 n helper c (publicInputs gen2 B (chain i) last) = .ok sat ∧ sat ∧
      c.initial.keys.length = n ∧ c.updates.length = max ∧
      ThresholdsInRange c ∧ NotForged Honest Signed c)
    (h : verifyEpochs groth16 gen2 B vk (chain i) last proof = .ok ()) :
    (∃ b, enforceEpochs alloc (hashC helper.isNone) e gen1 gen2 n
        c = .ok b ∧ EdgesCollide B gen2 b (chain i) last) ∨
    ∃ j, i < j ∧ j ≤ i + max ∧ j < N ∧
      last.index = (chain j).index ∧
      last.maximumNonSigners = (chain j).maximumNonSigners ∧
      encodeEntropy last.epochEntropy = encodeEntropy (chain j).epochEntropy ∧
      last.paddedKeys gen2 = (chain j).paddedKeys gen2 := by
  rw [C34_accepts_iff] at h
  obtain ⟨sat, h1, h2, h3, h4, h5, h6⟩ := hsound h
  rcases C93_light_client ha hB hq h3 (by rintro h0; rw [h0] at h4; simp at h4; omega) hc hi hl h1 h2 h5 h6 with
    h7 | ⟨j, a1, a2, a3, a4, a5, a6, a7, -⟩
  · exact Or.inl h7
  · exact Or.inr ⟨j, a1, by rw [h4] at a2; exact a2, a3, a4, a5, a6, a7⟩

/-- C93: the range of the thresholds cannot be left out.  From every block, whoever is honest, the circuit is
satisfied for every next block, of the same size, although **nobody** has signed anything. -/
theorem C93_deceived {alloc : G2Var → Prop} (halloc : AllocComplete alloc)
    {hashC : Bool → List Bool → List Bool → HashOut G1 → Prop}
    {K : Blake2sCore} {B : Blake2s} (hB : Blake2sAgree K B)
    {groth : List (List Bool) → HP → Outcome Unit (Prop × Bool)} {e : G1 → G2Point → GT}
    (hl : ∀ P P' Q, e (P + P') Q = e P Q * e P' Q) (hr : ∀ P Q Q', e P (Q + Q') = e P Q * e P Q')
    {gen1 : G1} {gen2 : G2Point} {n : ℕ} (k : ℕ) {b0 b1 dummy : EpochBlock} {h hd : HashOut G1}
    (hyp : Provable (hashC true) gen2 n b0 b1 dummy h hd) :
    ∃ (c : CircuitVars G1) (sat : Prop),
      epochCircuit alloc hashC K groth e gen1 gen2 n (none : Option HP) c (publicInputs gen2 B b0 b1) =
        .ok sat ∧ sat ∧ c.initial.keys.length = n ∧ c.updates.length = k + 1 ∧
      ∀ Honest, NotForged Honest (fun _ _ _ => False) c := by
  obtain ⟨c, b, h1, h2, h3, h4, h5, h6, h7, -⟩ := C42_violation alloc (hashC true) (e := e) (gen1 := gen1)
    hl hr halloc k hyp
  have hcirc : epochCircuit alloc hashC K groth e gen1 gen2 n (none : Option HP) c (publicInputs gen2 B b0 b1) =
      .ok (b.sat ∧ True ∧ verifyEdgesC K b (publicInputs gen2 B b0 b1)) := by
    have h1' : enforceEpochs alloc (hashC (none : Option HP).isNone) e gen1 gen2 n c = .ok b := h1
    unfold epochCircuit
    rw [h1', Outcome.bind_ok]
    rfl
  refine ⟨c, _, hcirc, ⟨h2, trivial, edges_complete hB h3 h4⟩, h5, h6, ?_⟩
  intro Honest t ht x hx hb _
  have hm : t.2.bitmap ∈ c.real.map (·.bitmap) := List.mem_map_of_mem (List.of_mem_zip ht).2
  rw [h7, List.mem_singleton] at hm
  rw [hm] at hx
  have := (List.of_mem_zip hx).2
  rw [List.mem_replicate] at this
  rw [this.2] at hb
  cases hb

end

/-! ### A concrete chain -/

/-- Seven blocks with one honest validator, who has signed all of them. -/
theorem toy_quorums : HonestQuorums g2Generator 7 (fun j => chainBlock [toyKey] 0 (UInt16.ofNat j))
    (fun pk => pk = toyKey) (fun pk m x => pk = toyKey ∧ ∃ j < 7,
      (chainBlock [toyKey] 0 (UInt16.ofNat j)).encodeInnerToBytes g2Generator = (m, x)) where
  size := by norm_num
  index := by
    intro j hj
    change (UInt16.ofNat j).toNat = j
    rw [UInt16.toNat_ofNat']
    exact Nat.mod_eq_of_lt (by omega)
  entropy := fun j _ => ⟨(chain_entropy _ _ _).2, (chain_entropy _ _ _).1⟩
  clear := fun j _ => clear_gen_key
  quorum := by
    intro j hj _
    change 0 < [toyKey].countP _
    simp
  signs := fun pk m x _ h => h.2

/-- Concrete case for C93, for every BLAKE2s: the prover's assignment for the blocks 4, 5 and 6, in a circuit
of five updates, meets all hypotheses. -/
example (K : Blake2sCore) : ∃ (c : CircuitVars ℤ) (sat : Prop),
    epochCircuit affineOnlyG2 (fun _ _ _ h => h.messageHash = 1) K (fun _ (_ : Unit) => .ok (True, true)) toyE 1
      g2Generator 1 none c (publicInputs g2Generator (Blake2s.ofCore K) (chainBlock [toyKey] 0 4)
        (chainBlock [toyKey] 0 6)) = .ok sat ∧ sat ∧ c.initial.keys.length = 1 ∧ c.updates.length = 5 ∧
    ThresholdsInRange c ∧ NotForged (fun pk => pk = toyKey) (fun pk m x => pk = toyKey ∧ ∃ j < 7,
      (chainBlock [toyKey] 0 (UInt16.ofNat j)).encodeInnerToBytes g2Generator = (m, x)) c := by
  have hinit := C46_complete affineOnlyG2 (fun _ _ h => h.messageHash = 1)
    (fun _ _ => .ok ⟨1, [], []⟩) true (gen1 := (1 : ℤ)) (max := 5) toyE_left toyE_right
    (fun _ _ h => ⟨rfl, h⟩) (by decide +kernel) toy_chain (by decide)
    (by
      intro _
      refine ⟨?_, ?_, ⟨1, [], []⟩, rfl, rfl⟩
      · intro h; cases h
      · change g2Generator ∉ [toyKey]
        rw [List.mem_singleton]
        exact fun h => toyKey_ne_gen h.symm)
    (by
      change [toyKey].sum ≠ 0
      rw [List.sum_singleton]; exact toyKey_ne)
  obtain ⟨s, c, b, h1, h2, h3, h4, h5, h6, h7, h8⟩ := hinit
  have hci : c.initial = EpochVars.assign (toEpochData (chainBlock [toyKey] 0 4)) := by
    obtain ⟨s', hs', _, e2, _⟩ := C48_shape (1 : ℤ) g2Generator 1 (chainBlock [toyKey] 0 4)
      ([chainStep [toyKey] 0 [true] 5] ++ [chainStep [toyKey] 0 [true] 6]) 5 (by simp) (by simp)
    rw [h1] at hs'
    simp only [Outcome.ok.injEq] at hs'
    subst hs'
    unfold CircuitVars.assign at h2
    rw [Outcome.map_eq_ok_iff] at h2
    obtain ⟨_, _, rfl⟩ := h2
    simp only [e2]
  have hcirc : epochCircuit affineOnlyG2 (fun _ _ _ h => h.messageHash = 1) K
      (fun _ (_ : Unit) => .ok (True, true)) toyE 1 g2Generator 1 none c
      (publicInputs g2Generator (Blake2s.ofCore K) (chainBlock [toyKey] 0 4) (chainBlock [toyKey] 0 6)) =
      .ok (b.sat ∧ True ∧ verifyEdgesC K b (publicInputs g2Generator (Blake2s.ofCore K)
        (chainBlock [toyKey] 0 4) (chainBlock [toyKey] 0 6))) := by
    unfold epochCircuit
    rw [h3, Outcome.bind_ok]
    rfl
  have hreal : ∀ w ∈ c.real.map (·.epoch), ∃ i : UInt16, i.toNat < 7 ∧
      w = EpochVars.assign (toEpochData (chainBlock [toyKey] 0 i)) := by
    intro w hw
    rw [h8] at hw
    simp only [List.cons_append, List.nil_append, List.map_cons, List.map_nil, List.mem_cons,
      List.not_mem_nil, or_false] at hw
    rcases hw with rfl | rfl
    · exact ⟨5, by decide, rfl⟩
    · exact ⟨6, by decide, rfl⟩
  refine ⟨c, _, hcirc, ⟨h4, trivial, edges_complete (Blake2s.ofCore_agree K) h5 h6⟩, by rw [hci]; rfl, h7,
    ?_, ?_⟩
  · intro w hw
    rw [List.mem_cons] at hw
    have : ∃ i : UInt16, w = EpochVars.assign (toEpochData (chainBlock [toyKey] 0 i)) := by
      rcases hw with rfl | hw
      · exact ⟨4, hci⟩
      · obtain ⟨i, _, h⟩ := hreal w hw
        exact ⟨i, h⟩
    obtain ⟨i, rfl⟩ := this
    change (0 : ZMod FQ_MODULUS).val < 2 ^ 32
    rw [ZMod.val_zero]
    norm_num
  · intro t ht x _ _ hx
    obtain ⟨i, hi, h⟩ := hreal t.2.epoch (List.mem_map_of_mem (List.of_mem_zip ht).2)
    refine ⟨hx, i.toNat, hi, ?_⟩
    obtain ⟨_, _, _, _, a1, a2⟩ := C49_bits g2Generator (chainBlock [toyKey] 0 i) (chain_entropy _ _ _).2
      (chain_entropy _ _ _).1 (le_refl 1)
    rw [h, a1, a2, UInt16.ofNat_toNat]

end Verif
