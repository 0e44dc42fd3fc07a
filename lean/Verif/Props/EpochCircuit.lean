import Verif.Lemmas.Forge

/-!
# Properties C41 - C45 and C47, C62: the epoch circuit
-/

set_option linter.unusedSectionVars false

namespace Verif

/-! ## C41 -/

/-- C41: in range, the in-circuit bits of index, round and threshold are the native encodings. -/
theorem C41_in_range (i : UInt16) (r : UInt8) (m : UInt32) :
    frToBits ((i.toNat : ℕ) : Fq) 16 = encodeU16 i ∧
    frToBits ((r.toNat : ℕ) : Fq) 8 = encodeU8 r ∧
    frToBits ((m.toNat : ℕ) : Fq) 32 = encodeU32 m :=
  ⟨frToBits_u16 i, frToBits_u8 r, frToBits_u32 m⟩

/-- C41: the same for entropy of sixteen bytes, or missing. -/
theorem C41_entropy (e : Option Bytes) (h : EntropyOk e) :
    frToBits (entropyToFr e) 128 = encodeEntropy e := frToBits_entropy h

/-- C41: exactly which witnesses encode to a given integer. -/
theorem C41_exact (x : Fq) (i : UInt16) (r : UInt8) (m : UInt32) :
    (frToBits x 16 = encodeU16 i ↔ x.val % 2 ^ 16 = i.toNat) ∧
    (frToBits x 8 = encodeU8 r ↔ x.val % 2 ^ 8 = r.toNat) ∧
    (frToBits x 32 = encodeU32 m ↔ x.val % 2 ^ 32 = m.toNat) :=
  ⟨frToBits_u16_iff x i, frToBits_u8_iff x r, frToBits_u32_iff x m⟩

/-- C41, violation: for every width used there are, for every value and every multiple `k` of the
range that still fits, other witnesses with the same encoding. -/
theorem C41_violation (w : ℕ) (hw : w ≤ 128) (v k : ℕ) (hv : v < 2 ^ w) (hk : 0 < k)
    (hfit : v + 2 ^ w * k < FQ_MODULUS) :
    frToBits ((v + 2 ^ w * k : ℕ) : Fq) w = frToBits ((v : ℕ) : Fq) w ∧
      ((v + 2 ^ w * k : ℕ) : Fq) ≠ ((v : ℕ) : Fq) := by
  have hp : 0 < 2 ^ w := by positivity
  have hpk : 0 < 2 ^ w * k := Nat.mul_pos hp hk
  refine ⟨?_, ?_⟩
  · rw [frToBits_eq_iff _ _ (by omega), fq_natCast_val hfit, fq_natCast_val (by omega)]
    simp
  · intro h
    have := congrArg ZMod.val h
    rw [fq_natCast_val hfit, fq_natCast_val (by omega)] at this
    omega

/-- Concrete case: a threshold of 3 and of `3 + 2 ^ 32` look the same. -/
example : frToBits ((3 + 2 ^ 32 * 1 : ℕ) : Fq) 32 = encodeU32 3 ∧
    ((3 + 2 ^ 32 * 1 : ℕ) : Fq) ≠ ((3 : ℕ) : Fq) := by
  have h := C41_violation 32 (by norm_num) 3 1 (by norm_num) (by norm_num) (by decide +kernel)
  exact ⟨h.1.trans (frToBits_u32 3), h.2⟩

/-! ## C43, C45: soundness -/

section

variable {G1 GT : Type*} [AddCommGroup G1] [CommGroup GT]
variable (alloc : G2Var → Prop) (hashC : List Bool → List Bool → HashOut G1 → Prop)
variable {e : G1 → G2Point → GT} {gen1 : G1} {gen2 : G2Point} {n : ℕ}

/-- The real (non-dummy) updates of an assignment: those with a non-zero index. -/
def CircuitVars.real (c : CircuitVars G1) : List (UpdateVars G1) :=
  c.updates.filter fun u => decide (u.epoch.index ≠ 0)

/-- Each real update with the real epoch before it (the initial epoch for the first). -/
def CircuitVars.transitions (c : CircuitVars G1) : List (EpochVars × UpdateVars G1) :=
  (c.initial :: c.real.map (·.epoch)).zip c.real

theorem transitions_mem_steps {c : CircuitVars G1} {t : EpochVars × UpdateVars G1}
    (ht : t ∈ c.transitions) : t ∈ steps c.initial c.updates ∧ t.2.epoch.index ≠ 0 := by
  have h : t ∈ (steps c.initial c.updates).filter (fun x => decide (x.2.epoch.index ≠ 0)) := by
    rw [steps_filter]; exact ht
  rw [List.mem_filter] at h
  exact ⟨h.1, by simpa using h.2⟩

/-- C45: in every satisfying assignment each real transition is signed by keys of the previous real
epoch, none of them the padding key, with at most as many exclusions as the (field valued)
threshold; its message is hashed; and the aggregate signature satisfies the product equation over
exactly the real transitions, each dummy contributing the pair of generators. -/
theorem C45_transitions {c : CircuitVars G1} {b : EpochBits} (hn : c.initial.keys.length = n)
    (hq : n < FQ_MODULUS)
    (h : enforceEpochs alloc hashC e gen1 gen2 n c = .ok b) (hs : b.sat) :
    (∀ t ∈ c.transitions,
      t.2.bitmap.length = t.1.keys.length ∧ t.1.keys.length = n ∧
      t.2.bitmap.count false ≤ t.1.maximumNonSigners.val ∧
      (∀ x ∈ t.1.pubkeys.zip t.2.bitmap, x.2 = true → x.1.point ≠ gen2) ∧
      hashC t.2.epoch.epochBits t.2.epoch.extraDataBits t.2.hash) ∧
    e c.signature (-gen2) *
      ((c.transitions.map fun t => e t.2.hash.messageHash
        (((t.1.pubkeys.zip t.2.bitmap).filter (·.2)).map (·.1.point)).sum).prod *
      e gen1 gen2 ^ (c.updates.length - c.real.length)) = 1 := by
  have spec := enforce_sound alloc hashC hn h hs
  have hlenn : ∀ x ∈ steps c.initial c.updates, x.1.keys.length = n := by
    have gen : ∀ (us : List (UpdateVars G1)) (a : EpochVars), a.keys.length = n →
        (∀ x ∈ steps a us, x.2.epoch.keys.length = n) → ∀ x ∈ steps a us, x.1.keys.length = n := by
      intro us
      induction us with
      | nil => intro a _ _ x hx; simp [steps] at hx
      | cons u us ih =>
        intro a ha hall x hx
        simp only [steps, List.mem_cons] at hx
        rcases hx with rfl | hx
        · exact ha
        · refine ih _ ?_ (fun y hy => hall y (by simp [steps, hy])) x hx
          split
          · exact ha
          · exact hall (a, u) (by simp [steps])
    exact gen _ _ hn fun x hx => (spec.steps x hx).nkeys
  refine ⟨?_, ?_⟩
  · intro t ht
    obtain ⟨hm, _⟩ := transitions_mem_steps ht
    have st := spec.steps t hm
    have hk := hlenn t hm
    refine ⟨st.nbits, hk, ?_, ?_, st.hash⟩
    · exact (C38_sound fq_ne_two _ _ _ _ (by rw [st.nbits, hk]; exact hq) st.occ).1
    · intro x hx hb
      refine st.padding (x.1.point, x.2) ?_ hb
      rw [List.zip_map_left, List.mem_map]
      exact ⟨x, hx, rfl⟩
  · have := spec.eqn
    unfold signerSum at this
    simp only [List.zip_map_left, List.filter_map, List.map_map] at this
    exact this

/-- C45: the exposed bits are those of the initial epoch and, if there is any update, those of the
last one, which is real, followed by the encoding of the (finite) sum of its keys. -/
theorem C45_edges {c : CircuitVars G1} {b : EpochBits} (hn : c.initial.keys.length = n)
    (h : enforceEpochs alloc hashC e gen1 gen2 n c = .ok b) (hs : b.sat) :
    b.firstEpochBits = c.initial.firstEpochBits ∧
    ∀ u, c.updates.getLast? = some u →
      u.epoch.index ≠ 0 ∧ c.real.getLast? = some u ∧
      ∃ x y hxy w, (u.epoch.pubkeys.map G2Var.point).sum = .some x y hxy ∧
        g2ToBitsC ⟨x, y, 1⟩ w ∧
        b.lastEpochBits = u.epoch.lastEpochBits ++ g2ToBits ⟨x, y, 1⟩ w := by
  have spec := enforce_sound alloc hashC hn h hs
  refine ⟨spec.firstBits, ?_⟩
  intro u hu
  obtain ⟨h1, ⟨h2, h3⟩, h4⟩ := spec.lastOk u hu
  rw [aggregatedAll_eq] at h3
  exact ⟨h1, getLast?_reals hu h1, _, _, h2, _, h3, h4, spec.lastBits u hu⟩

/-- C45: when the sign gadget is unambiguous (no coordinate at `(q - 1) / 2`), the appended bits are
the native encoding of the aggregate key. -/
theorem C45_aggregate_encoding {x y : Fq2} {hxy : g2Curve.Nonsingular x y}
    {w : YBitWitness FQ_MODULUS} (hc : g2ToBitsC ⟨x, y, 1⟩ w) (h0 : y.re.val ≠ FQ_HALF)
    (h1 : y.im.val ≠ FQ_HALF) : g2ToBits ⟨x, y, 1⟩ w = encodePublicKey (.some x y hxy) := by
  unfold g2ToBits encodePublicKey
  rw [fieldBitsBe_eq_encodeFq, fieldBitsBe_eq_encodeFq, C37_matches_encoding y w h0 h1 hc]
  rfl

/-- C43: the `k`-th real epoch has index `first + k`; no wrap around the field occurs. -/
theorem C43_indices {c : CircuitVars G1} {b : EpochBits} (hn : c.initial.keys.length = n)
    (h : enforceEpochs alloc hashC e gen1 gen2 n c = .ok b) (hs : b.sat) :
    ∀ k (hk : k < c.real.length),
      (c.real[k]).epoch.index.val = c.initial.index.val + (k + 1) := by
  have spec := enforce_sound alloc hashC hn h hs
  have hstep : ∀ t ∈ c.transitions, t.2.epoch.index = t.1.index + 1 ∧ t.2.epoch.index ≠ 0 := by
    intro t ht
    obtain ⟨hm, hz⟩ := transitions_mem_steps ht
    exact ⟨(spec.steps t hm).next hz, hz⟩
  have hval : ∀ t ∈ c.transitions, t.2.epoch.index.val = t.1.index.val + 1 := by
    intro t ht
    obtain ⟨h1, h2⟩ := hstep t ht
    rw [h1] at h2 ⊢
    have hlt : t.1.index.val < FQ_MODULUS := ZMod.val_lt _
    have hone : (1 : Fq).val = 1 := by decide +kernel
    by_cases hc : t.1.index.val + 1 = FQ_MODULUS
    · exfalso
      apply h2
      have : t.1.index = ((t.1.index.val : ℕ) : Fq) := (ZMod.natCast_zmod_val _).symm
      rw [this, show ((t.1.index.val : ℕ) : Fq) + 1 = ((t.1.index.val + 1 : ℕ) : Fq) by push_cast; rfl,
        hc]
      exact ZMod.natCast_self _
    · rw [ZMod.val_add, hone]
      exact Nat.mod_eq_of_lt (by omega)
  intro k hk
  induction k with
  | zero =>
    have hm : (c.initial, c.real[0]) ∈ c.transitions := by
      unfold CircuitVars.transitions
      rw [List.mem_iff_getElem]
      refine ⟨0, by simp [hk], by simp⟩
    exact hval _ hm
  | succ k ih =>
    have hm : ((c.real[k]).epoch, c.real[k + 1]) ∈ c.transitions := by
      unfold CircuitVars.transitions
      rw [List.mem_iff_getElem]
      refine ⟨k + 1, by simp [hk], by simp⟩
    rw [hval _ hm, ih (by omega)]
    omega

/-- C43: with any update there is a real transition, and the exposed last index is the exposed
first index plus the number of real transitions, modulo `2 ^ 16`. -/
theorem C43_encoded {c : CircuitVars G1} {b : EpochBits} (hn : c.initial.keys.length = n)
    (hne : c.updates ≠ [])
    (h : enforceEpochs alloc hashC e gen1 gen2 n c = .ok b) (hs : b.sat) :
    1 ≤ c.real.length ∧
    ofBitsLE (b.lastEpochBits.take 16) =
      (ofBitsLE (b.firstEpochBits.take 16) + c.real.length) % 2 ^ 16 := by
  obtain ⟨u, hu⟩ : ∃ u, c.updates.getLast? = some u :=
    ⟨c.updates.getLast hne, List.getLast?_eq_some_getLast hne⟩
  obtain ⟨hf, hl⟩ := C45_edges alloc hashC hn h hs
  obtain ⟨_, hr, x, y, hxy, w, _, _, hlb⟩ := hl u hu
  have hpos : 1 ≤ c.real.length := by
    rcases Nat.eq_zero_or_pos c.real.length with h0 | h0
    · rw [List.length_eq_zero_iff.mp h0] at hr; simp at hr
    · exact h0
  refine ⟨hpos, ?_⟩
  have hidx := C43_indices alloc hashC hn h hs (c.real.length - 1) (by omega)
  have hlast : c.real[c.real.length - 1]'(by omega) = u := by
    rw [List.getLast?_eq_getElem?] at hr
    rw [List.getElem?_eq_getElem (by omega)] at hr
    exact Option.some.inj hr
  rw [hlast] at hidx
  have take16 : ∀ (f : Fq) (rest : List Bool), (frToBits f 16 ++ rest).take 16 = frToBits f 16 := by
    intro f rest
    rw [List.take_append_of_le_length (by rw [frToBits_length _ (by norm_num)])]
    exact List.take_of_length_le (by rw [frToBits_length _ (by norm_num)])
  rw [hlb, hf]
  simp only [EpochVars.lastEpochBits, EpochVars.firstEpochBits, List.append_assoc, take16,
    frToBits_value]
  rw [hidx]
  omega

/-! ## C42, C44: soundness for in-range witnesses -/

/-- C42, sound part: if the threshold witness of the previous epoch is below `2 ^ 32`, the number of
non-signers is at most the encoded threshold. -/
theorem C42_in_range {c : CircuitVars G1} {b : EpochBits} (hn : c.initial.keys.length = n)
    (hq : n < FQ_MODULUS)
    (h : enforceEpochs alloc hashC e gen1 gen2 n c = .ok b) (hs : b.sat)
    {t : EpochVars × UpdateVars G1} (ht : t ∈ c.transitions) (m : UInt32)
    (hrange : t.1.maximumNonSigners.val < 2 ^ 32)
    (henc : frToBits t.1.maximumNonSigners 32 = encodeU32 m) :
    t.2.bitmap.count false ≤ m.toNat := by
  have h1 := ((C45_transitions alloc hashC hn hq h hs).1 t ht).2.2.1
  rw [frToBits_u32_iff, Nat.mod_eq_of_lt hrange] at henc
  omega

/-- C44, sound part: if the witness for the first epoch's own entropy is not zero, every real epoch
carries the entropy of the one before it. -/
theorem C44_enforced {c : CircuitVars G1} {b : EpochBits} (hn : c.initial.keys.length = n)
    (h : enforceEpochs alloc hashC e gen1 gen2 n c = .ok b) (hs : b.sat)
    (hent : c.initial.epochEntropy ≠ 0) :
    ∀ t ∈ c.transitions, t.2.epoch.parentEntropy = t.1.epochEntropy := by
  intro t ht
  have spec := enforce_sound alloc hashC hn h hs
  obtain ⟨hm, hz⟩ := transitions_mem_steps ht
  refine ((spec.steps t hm).entropy hz ?_).symm
  rw [isEqZero_bit spec.entropyZero]
  simp [hent]

/-! ## C42, C44: violations -/

/-- Hypotheses on the two blocks and the dummy epoch shared by the violations: full key lists of
finite keys, sixteen byte entropies, consecutive indices (modulo `2 ^ 16`), hashable messages, and a
finite aggregate of the last keys. -/
structure Provable (hashC : List Bool → List Bool → HashOut G1 → Prop) (gen2 : G2Point) (n : ℕ)
    (b0 b1 dummy : EpochBlock) (h hd : HashOut G1) : Prop where
  size : n < 2 ^ 32
  keys : b0.newPublicKeys.length = n ∧ b1.newPublicKeys.length = n ∧
    dummy.newPublicKeys.length = n
  finite : (∀ pk ∈ b0.newPublicKeys, pk ≠ 0) ∧ (∀ pk ∈ b1.newPublicKeys, pk ≠ 0) ∧
    ∀ pk ∈ dummy.newPublicKeys, pk ≠ 0
  validators : b0.maximumValidators ≤ n ∧ b1.maximumValidators ≤ n ∧ dummy.maximumValidators ≤ n
  entropies : EntropyOk b0.parentEntropy ∧ EntropyOk b1.epochEntropy ∧
    EntropyOk b1.parentEntropy ∧ EntropyOk dummy.epochEntropy ∧ EntropyOk dummy.parentEntropy
  index : b1.index.toNat = (b0.index.toNat + 1) % 2 ^ 16
  dummyIndex : dummy.index = 0
  hash : hashC (b1.encodeInnerToBitsCip22 gen2).1 (b1.encodeInnerToBitsCip22 gen2).2 h
  dummyHash : hashC (dummy.encodeInnerToBitsCip22 gen2).1 (dummy.encodeInnerToBitsCip22 gen2).2 hd
  last : b1.newPublicKeys.sum ≠ 0

/-- C42, violation: whatever threshold the first epoch encodes, the circuit has a satisfying
assignment leading to any next epoch **without a single signer**: all bits of the bitmap are false,
and the aggregate signature is just the generators of the dummy epochs.  The public bits are the
native encodings of the two blocks, so that nothing in the proof statement reveals it.  Holds for
every circuit size `k + 1`. -/
theorem C42_violation (hl : ∀ P P' Q, e (P + P') Q = e P Q * e P' Q)
    (hr : ∀ P Q Q', e P (Q + Q') = e P Q * e P Q') (halloc : AllocComplete alloc) (k : ℕ)
    {b0 b1 dummy : EpochBlock} {h hd : HashOut G1}
    (hyp : Provable hashC gen2 n b0 b1 dummy h hd) :
    ∃ (c : CircuitVars G1) (b : EpochBits),
      enforceEpochs alloc hashC e gen1 gen2 n c = .ok b ∧ b.sat ∧
      b.firstEpochBits = b0.encodeToBitsCip22 gen2 .first ∧
      b.lastEpochBits = b1.encodeLastToBits gen2 ∧
      c.initial.keys.length = n ∧ c.updates.length = k + 1 ∧
      c.real.map (·.bitmap) = [List.replicate n false] ∧ c.signature = k • gen1 := by
  have hfq : 2 ^ 70 < halfOf FQ_MODULUS := by decide +kernel
  have hfq2 := fq_gt_pow
  have hm := b0.maximumNonSigners.toNat_lt
  have hsz := hyp.size
  have hbound : 2 ^ 32 * n < 2 ^ 64 := by
    have : (2 : ℕ) ^ 64 = 2 ^ 32 * 2 ^ 32 := by norm_num
    rw [this]
    exact Nat.mul_lt_mul_of_pos_left hsz (by norm_num)
  have hv : ((b0.maximumNonSigners.toNat + 2 ^ 32 * n : ℕ) : Fq).val =
      b0.maximumNonSigners.toNat + 2 ^ 32 * n := fq_natCast_val (by omega)
  obtain ⟨c, b, h1, h2, h3, h4, h5, h6, h7, h8, h9⟩ := transition_exists (alloc := alloc)
    (hashC := hashC) (e := e) (gen1 := gen1) (gen2 := gen2) hl hr halloc (n := n) (k := k)
    (b0 := b0) (b1 := b1) (dummy := dummy)
    (m0 := ((b0.maximumNonSigners.toNat + 2 ^ 32 * n : ℕ) : Fq))
    (bitmap := List.replicate n false) (h := h) (hd := hd) (sig := 0)
    hyp.size hyp.keys.1 hyp.keys.2.1 hyp.keys.2.2 hyp.finite.1 hyp.finite.2.1 hyp.finite.2.2
    hyp.validators.1 hyp.validators.2.1 hyp.validators.2.2 hyp.entropies.1 hyp.entropies.2.1
    hyp.entropies.2.2.1 hyp.entropies.2.2.2.1 hyp.entropies.2.2.2.2 hyp.index hyp.dummyIndex
    (by rw [hv]; omega) (by rw [hv]; omega) (by simp)
    (by rw [hv]; simp only [List.count_replicate_self]; omega)
    (by
      intro x hx hb
      have := (List.of_mem_zip hx).2
      rw [List.mem_replicate] at this
      rw [this.2] at hb
      simp at hb)
    hyp.hash hyp.dummyHash
    (by
      have hnil : (b0.newPublicKeys.zip (List.replicate n false)).filter (·.2) = [] := by
        rw [List.filter_eq_nil_iff]
        intro x hx
        have := (List.of_mem_zip hx).2
        rw [List.mem_replicate] at this
        simp [this.2]
      rw [hnil, pairing_zero_left hl]
      simp [pairing_zero_right hr])
    hyp.last
  exact ⟨c, b, h1, h2, h3, h4, h5, h6, h7, by rw [h9, zero_add]⟩

/-- C44, violation: a prover who has a validly signed next block can get it accepted whatever its
parent entropy is, in particular when it differs from the (non-zero) entropy of the first block: the
witness for the first block's own entropy is set to zero, and it appears in no public bit. -/
theorem C44_violation (hl : ∀ P P' Q, e (P + P') Q = e P Q * e P' Q)
    (hr : ∀ P Q Q', e P (Q + Q') = e P Q * e P Q') (halloc : AllocComplete alloc) (k : ℕ)
    {b0 b1 dummy : EpochBlock} {h hd : HashOut G1} {bitmap : List Bool} {sig : G1}
    (hyp : Provable hashC gen2 n b0 b1 dummy h hd)
    (hbits : bitmap.length = n) (hcount : bitmap.count false ≤ b0.maximumNonSigners.toNat)
    (hpad : ∀ x ∈ b0.newPublicKeys.zip bitmap, x.2 = true → x.1 ≠ gen2)
    (hsig : e sig (-gen2) * e h.messageHash
      ((((b0.newPublicKeys.zip bitmap).filter (·.2)).map (·.1)).sum) = 1) :
    ∃ (c : CircuitVars G1) (b : EpochBits),
      enforceEpochs alloc hashC e gen1 gen2 n c = .ok b ∧ b.sat ∧
      b.firstEpochBits = b0.encodeToBitsCip22 gen2 .first ∧
      b.lastEpochBits = b1.encodeLastToBits gen2 ∧ c.updates.length = k + 1 ∧
      c.initial.keys.length = n ∧ c.real.map (·.bitmap) = [bitmap] ∧
      c.initial.maximumNonSigners.val = b0.maximumNonSigners.toNat := by
  have hfq : 2 ^ 70 < halfOf FQ_MODULUS := by decide +kernel
  have hm := b0.maximumNonSigners.toNat_lt
  have hv : ((b0.maximumNonSigners.toNat : ℕ) : Fq).val = b0.maximumNonSigners.toNat :=
    fq_natCast_val (u32_lt_fq _)
  obtain ⟨c, b, h1, h2, h3, h4, h5, h6, h7, h8, h9⟩ := transition_exists (alloc := alloc)
    (hashC := hashC) (e := e) (gen1 := gen1) (gen2 := gen2) hl hr halloc (n := n) (k := k)
    (b0 := b0) (b1 := b1) (dummy := dummy)
    (m0 := ((b0.maximumNonSigners.toNat : ℕ) : Fq))
    (bitmap := bitmap) (h := h) (hd := hd) (sig := sig)
    hyp.size hyp.keys.1 hyp.keys.2.1 hyp.keys.2.2 hyp.finite.1 hyp.finite.2.1 hyp.finite.2.2
    hyp.validators.1 hyp.validators.2.1 hyp.validators.2.2 hyp.entropies.1 hyp.entropies.2.1
    hyp.entropies.2.2.1 hyp.entropies.2.2.2.1 hyp.entropies.2.2.2.2 hyp.index hyp.dummyIndex
    (by rw [hv]; exact Nat.mod_eq_of_lt hm) (by rw [hv]; omega) hbits (by rw [hv]; exact hcount)
    hpad hyp.hash hyp.dummyHash hsig hyp.last
  exact ⟨c, b, h1, h2, h3, h4, h6, h5, h7, by rw [h8, hv]⟩

/-! ## C47 -/

/-- C47, violation: an update with an all-true bitmap, as the prover makes for dummies, cannot be
satisfied after an epoch one of whose keys is the padding key. -/
theorem C47_violation {c : CircuitVars G1} {b : EpochBits} (hn : c.initial.keys.length = n)
    {pre post : List (UpdateVars G1)} {d : UpdateVars G1} (hc : c.updates = pre ++ d :: post)
    (hd : d.bitmap = List.replicate n true)
    (hpad : gen2 ∈ (((pre.filter fun u => decide (u.epoch.index ≠ 0)).map (·.epoch)).getLast?.getD
      c.initial).pubkeys.map G2Var.point)
    (h : enforceEpochs alloc hashC e gen1 gen2 n c = .ok b) : ¬ b.sat := by
  intro hs
  have spec := enforce_sound alloc hashC hn h hs
  have key : ∀ (us : List (UpdateVars G1)) (a : EpochVars),
      (((us.filter fun u => decide (u.epoch.index ≠ 0)).map (·.epoch)).getLast?.getD a, d) ∈
        steps a (us ++ d :: post) := by
    intro us
    induction us with
    | nil => intro a; simp [steps]
    | cons u us ih =>
      intro a
      simp only [List.cons_append, steps, List.mem_cons]
      right
      have := ih (if u.epoch.index = 0 then a else u.epoch)
      by_cases hz : u.epoch.index = 0
      · simpa [hz] using this
      · simp only [hz, if_false] at this
        simp only [List.filter_cons, hz, ne_eq, not_false_eq_true, decide_true, if_true,
          List.map_cons]
        rw [List.getLast?_cons]
        simpa using this
  have hm := key pre c.initial
  rw [← hc] at hm
  have st := spec.steps _ hm
  obtain ⟨i, hi, hgi⟩ := List.getElem_of_mem hpad
  have hlen := st.nbits
  simp only [hd, List.length_replicate] at hlen
  have hi' : i < n := by
    simp only [EpochVars.pubkeys, List.length_map] at hi
    omega
  refine st.padding (gen2, true) ?_ rfl rfl
  rw [List.mem_iff_getElem]
  refine ⟨i, ?_, ?_⟩
  · simp only [List.length_zip, hd, List.length_replicate]
    omega
  · simp only [List.getElem_zip, hd, List.getElem_replicate]
    exact Prod.ext hgi rfl

end

/-! ## Concrete assignments

A pairing-like map on integers and the real curve: `e n Q = n • Q`, bilinear. -/

/-- `(n, Q) ↦ n • Q`, written multiplicatively. -/
noncomputable def toyE (k : ℤ) (Q : G2Point) : Multiplicative G2Point := Multiplicative.ofAdd (k • Q)

theorem toyE_left (P P' : ℤ) (Q : G2Point) : toyE (P + P') Q = toyE P Q * toyE P' Q := by
  unfold toyE; rw [add_zsmul]; rfl

theorem toyE_right (P : ℤ) (Q Q' : G2Point) : toyE P (Q + Q') = toyE P Q * toyE P Q' := by
  unfold toyE; rw [zsmul_add]; rfl

theorem negGen_ns : g2Curve.Nonsingular g2GenX (-g2GenY) :=
  g2_nonsingular (by rw [neg_mul_neg]; exact g2Gen_equation) (neg_ne_zero.mpr g2GenY_ne_zero)

/-- A validator key: minus the generator. -/
noncomputable def toyKey : G2Point := .some g2GenX (-g2GenY) negGen_ns

theorem toyKey_ne : toyKey ≠ 0 := by
  intro h; cases h

theorem toyKey_ne_gen : toyKey ≠ g2Generator := by
  intro h
  unfold toyKey g2Generator at h
  injection h with _ hy
  have h2 := congrArg QuadraticAlgebra.re hy
  rw [QuadraticAlgebra.re_neg] at h2
  revert h2
  decide +kernel

/-- A block with the given index and one validator. -/
noncomputable def toyBlock (i : UInt16) : EpochBlock where
  index := i
  round := 0
  epochEntropy := some (List.replicate 16 7)
  parentEntropy := some (List.replicate 16 9)
  maximumNonSigners := 0
  maximumValidators := 1
  newPublicKeys := [toyKey]

theorem toy_provable (i : UInt16) :
    Provable (G1 := ℤ) (fun _ _ h => h.messageHash = 1) g2Generator 1 (toyBlock i)
      (toyBlock (i + 1)) (toyBlock 0) ⟨1, [], []⟩ ⟨1, [], []⟩ where
  size := by norm_num
  keys := ⟨rfl, rfl, rfl⟩
  finite := by
    refine ⟨?_, ?_, ?_⟩ <;> · intro pk hpk; rw [List.mem_singleton.mp hpk]; exact toyKey_ne
  validators := ⟨le_refl _, le_refl _, le_refl _⟩
  entropies := by
    refine ⟨?_, ?_, ?_, ?_, ?_⟩ <;>
      · intro b hb; simp only [toyBlock, Option.some.injEq] at hb; rw [← hb]; rfl
  index := by
    change (i + 1).toNat = _
    rw [UInt16.toNat_add]; rfl
  dummyIndex := rfl
  hash := rfl
  dummyHash := rfl
  last := by
    change [toyKey].sum ≠ 0
    rw [List.sum_singleton]; exact toyKey_ne

/-- Concrete case for C42: one validator, a threshold of zero non-signers, three dummies; accepted
although nobody signed. -/
example : ∃ (c : CircuitVars ℤ) (b : EpochBits),
    enforceEpochs (fun v => v.z = 1) (fun _ _ h => h.messageHash = 1) toyE 1 g2Generator 1 c =
      .ok b ∧ b.sat ∧ b.firstEpochBits = (toyBlock 4).encodeToBitsCip22 g2Generator .first ∧
      c.real.map (·.bitmap) = [[false]] ∧ (toyBlock 4).maximumNonSigners = 0 := by
  obtain ⟨c, b, h1, h2, h3, _, _, _, h7, _⟩ := C42_violation (fun v => v.z = 1)
    (fun _ _ h => h.messageHash = 1) (gen1 := 1) toyE_left toyE_right (fun _ _ _ => rfl) 3
    (toy_provable 4)
  exact ⟨c, b, h1, h2, h3, h7, rfl⟩

/-- C43, the encoded index can wrap: from an epoch encoded with index 65535 the circuit accepts one
encoded with index 0, by a properly signed transition. -/
theorem C43_wraps : ∃ (c : CircuitVars ℤ) (b : EpochBits),
    enforceEpochs (fun v => v.z = 1) (fun _ _ h => h.messageHash = 1) toyE 1 g2Generator 1 c =
      .ok b ∧ b.sat ∧ b.firstEpochBits = (toyBlock 65535).encodeToBitsCip22 g2Generator .first ∧
      b.lastEpochBits = (toyBlock 0).encodeLastToBits g2Generator ∧ c.initial.keys.length = 1 ∧
      c.updates.length = 1 ∧ c.real.map (·.bitmap) = [[true]] := by
  obtain ⟨c, b, h1, h2, h3, h4, h5, h6, h7, _⟩ := C44_violation (fun v => v.z = 1)
    (fun _ _ h => h.messageHash = 1) (gen1 := 1) (bitmap := [true]) (sig := -1)
    toyE_left toyE_right (fun _ _ _ => rfl) 0 (toy_provable 65535) rfl (by decide)
    (by
      intro x hx _
      change x ∈ [(toyKey, true)] at hx
      rw [List.mem_singleton.mp hx]
      exact toyKey_ne_gen)
    (by
      change toyE (-1) (-g2Generator) * toyE 1 [toyKey].sum = 1
      have hk : toyKey = -g2Generator := rfl
      rw [List.sum_singleton, hk]
      unfold toyE
      rw [← ofAdd_add]
      simp)
  exact ⟨c, b, h1, h2, h3, h4, h6, h5, h7⟩

/-- Concrete case for C43 and C45: the assignment above meets their hypotheses; it has one real
transition and the indices add up modulo `2 ^ 16`. -/
example : ∃ (c : CircuitVars ℤ) (b : EpochBits), b.sat ∧ c.real.length = 1 ∧
    (∀ t ∈ c.transitions, t.2.bitmap.count false ≤ t.1.maximumNonSigners.val) ∧
    ofBitsLE (b.lastEpochBits.take 16) =
      (ofBitsLE (b.firstEpochBits.take 16) + 1) % 2 ^ 16 := by
  obtain ⟨c, b, h1, h2, _, _, h3, h4, h5⟩ := C43_wraps
  have hr : c.real.length = 1 := by simpa using congrArg List.length h5
  have h6 := C43_encoded _ _ h3 (by intro h; simp [h] at h4) h1 h2
  have h7 := C45_transitions _ _ h3 (by decide +kernel) h1 h2
  rw [hr] at h6
  exact ⟨c, b, h2, hr, fun t ht => (h7.1 t ht).2.2.1, h6.2⟩

/-- Concrete case for C44: the two blocks disagree on the entropy, the transition is signed and
accepted; the entropy of the first block is not zero. -/
example : (∃ (c : CircuitVars ℤ) (b : EpochBits),
    enforceEpochs (fun v => v.z = 1) (fun _ _ h => h.messageHash = 1) toyE 1 g2Generator 1 c =
      .ok b ∧ b.sat ∧ b.firstEpochBits = (toyBlock 65535).encodeToBitsCip22 g2Generator .first ∧
      b.lastEpochBits = (toyBlock 0).encodeLastToBits g2Generator) ∧
    (toyBlock 65535).epochEntropy ≠ (toyBlock 0).parentEntropy := by
  obtain ⟨c, b, h1, h2, h3, h4, _⟩ := C43_wraps
  exact ⟨⟨c, b, h1, h2, h3, h4⟩, by simp [toyBlock]⟩

/-! ## C62 -/

/-- The projective curve equation, all that is checked for coordinates on allocation if `z` is left
free. -/
def OnCurve (v : G2Var) : Prop := v.y ^ 2 * v.z = v.x ^ 3 + g2CoeffB * v.z ^ 3

/-- A primitive cube root of unity in the base field. -/
def omega : Fq :=
  80949648264912719408558363140637477264845294720710499478137287262712535938301461879813459410945

theorem omega_spec : omega ^ 3 = 1 ∧ omega ≠ 1 := by decide +kernel

/-- C62, sound part: with `z = 1` and away from the ambiguous sign, the bits determine the point. -/
theorem C62_affine_binds {x y x' y' : Fq2} (h : g2Curve.Nonsingular x y)
    (h' : g2Curve.Nonsingular x' y') {w w' : YBitWitness FQ_MODULUS}
    (hc : g2ToBitsC ⟨x, y, 1⟩ w) (hc' : g2ToBitsC ⟨x', y', 1⟩ w')
    (h0 : y.re.val ≠ FQ_HALF ∧ y.im.val ≠ FQ_HALF)
    (h0' : y'.re.val ≠ FQ_HALF ∧ y'.im.val ≠ FQ_HALF)
    (heq : g2ToBits ⟨x, y, 1⟩ w = g2ToBits ⟨x', y', 1⟩ w') :
    (⟨x, y, 1⟩ : G2Var).point = (⟨x', y', 1⟩ : G2Var).point := by
  rw [point_affine h, point_affine h']
  apply encodePublicKey_inj
  rw [← C45_aggregate_encoding hc h0.1 h0.2, ← C45_aggregate_encoding hc' h0'.1 h0'.2, heq]

theorem omega2_spec : (⟨omega, 0⟩ : Fq2) ^ 3 = 1 ∧ (⟨omega, 0⟩ : Fq2) ≠ 1 := by
  constructor
  · rw [pow_three]
    apply QuadraticAlgebra.ext
    · decide +kernel
    · decide +kernel
  · intro h
    have := congrArg QuadraticAlgebra.re h
    exact omega_spec.2 this

theorem g2_nonsingular_x {x y : Fq2} (h : y * y = x * x * x + g2CoeffB) (hx : x ≠ 0) :
    g2Curve.Nonsingular x y := by
  rw [WeierstrassCurve.Affine.nonsingular_iff]
  refine ⟨?_, Or.inl ?_⟩
  · rw [WeierstrassCurve.Affine.equation_iff]
    simp only [g2Curve]
    linear_combination h
  · simp only [g2Curve]
    intro e
    have h2 : (3 : Fq2) * x ^ 2 = 0 := by linear_combination -e
    rcases mul_eq_zero.mp h2 with h3 | h3
    · have := congrArg QuadraticAlgebra.re h3
      revert this
      have : ((3 : Fq2)).re = (3 : Fq) := by
        have e2 : (3 : Fq2) = 1 + 1 + 1 := by norm_num
        rw [e2, QuadraticAlgebra.re_add, QuadraticAlgebra.re_add, QuadraticAlgebra.re_one]
        norm_num
      rw [this]
      simp only [QuadraticAlgebra.re_zero]
      decide +kernel
    · exact hx (pow_eq_zero_iff (by norm_num) |>.mp h3)

/-- C62, violation: if allocation checks no more than the projective curve equation, then for
*every* finite key there are coordinates passing it, with honest sign witnesses, whose encoding is
that of the key but which denote a different finite point. -/
theorem C62_violation {x y : Fq2} (h : g2Curve.Nonsingular x y) :
    ∃ (v : G2Var), OnCurve v ∧ v.z ≠ 0 ∧ g2ToBitsC v (keyWitness v) ∧
      g2ToBits v (keyWitness v) = encodePublicKey (.some x y h) ∧
      v.point ≠ .some x y h ∧ v.point ≠ 0 := by
  obtain ⟨w3, w1⟩ := omega2_spec
  set W : Fq2 := ⟨omega, 0⟩ with hW
  have hW0 : W ≠ 0 := by rintro h0; rw [h0] at w3; norm_num at w3
  have heq := g2_equation h
  have hx := g2_x_ne_zero h
  obtain ⟨s, hs2, hover⟩ : ∃ s : Fq2, s ^ 2 = 1 ∧ isOverHalf (s * W * y) = isOverHalf y := by
    by_cases hy : isOverHalf (W * y) = isOverHalf y
    · exact ⟨1, by ring, by rw [one_mul]; exact hy⟩
    · have hy0 : W * y ≠ 0 := by
        intro h0
        rcases mul_eq_zero.mp h0 with h0 | h0
        · exact hW0 h0
        · rw [h0, mul_zero] at hy; exact hy rfl
      refine ⟨-1, by ring, ?_⟩
      rw [neg_one_mul, neg_mul, isOverHalf_neg _ hy0]
      cases h1 : isOverHalf (W * y) <;> cases h2 : isOverHalf y <;> simp_all
  have hs0 : s ≠ 0 := by rintro h0; rw [h0] at hs2; norm_num at hs2
  have e1 : s * W * y / W = s * y := by field_simp
  have hpt : g2Curve.Nonsingular (x / W) (s * W * y / W) := by
    rw [e1]
    refine g2_nonsingular_x ?_ (div_ne_zero hx hW0)
    have : s * y * (s * y) = s ^ 2 * (y * y) := by ring
    rw [this, hs2, one_mul, heq]
    have : x / W * (x / W) * (x / W) = x ^ 3 / W ^ 3 := by field_simp
    rw [this, w3, div_one]
  have hp : (⟨x, s * W * y, W⟩ : G2Var).point = .some _ _ hpt := G2Var.point_eq hW0 hpt
  refine ⟨⟨x, s * W * y, W⟩, ?_, hW0, keyWitness_c _, ?_, ?_, ?_⟩
  · unfold OnCurve
    simp only []
    have : (s * W * y) ^ 2 * W = s ^ 2 * W ^ 3 * (y * y) := by ring
    rw [this, hs2, w3, heq]
    ring
  · unfold g2ToBits encodePublicKey
    rw [keyWitness_bit, fieldBitsBe_eq_encodeFq, fieldBitsBe_eq_encodeFq]
    simp only [hover]
    rfl
  · rw [hp]
    intro hc
    injection hc with hcx _
    apply w1
    rw [div_eq_iff hW0] at hcx
    exact (mul_left_cancel₀ hx (by rw [mul_one]; exact hcx)).symm
  · rw [hp]
    intro hc; cases hc

/-- Concrete case: the padding key, which the circuit compares points with, shares its encoding with
a point it does not recognise as padding. -/
example : ∃ v : G2Var, OnCurve v ∧ g2ToBits v (keyWitness v) = encodePublicKey g2Generator ∧
    v.point ≠ g2Generator := by
  obtain ⟨v, h1, _, _, h2, h3, _⟩ := C62_violation
    (g2_nonsingular g2Gen_equation g2GenY_ne_zero)
  exact ⟨v, h1, h2, h3⟩

/-! ### The theorems applied to concrete data -/

/-- `C62_affine_binds`: no other affine point has the bits of the generator. -/
example {x y : Fq2} (h : g2Curve.Nonsingular x y) {w : YBitWitness FQ_MODULUS}
    (hc : g2ToBitsC ⟨x, y, 1⟩ w) (h0 : y.re.val ≠ FQ_HALF ∧ y.im.val ≠ FQ_HALF)
    (heq : g2ToBits ⟨x, y, 1⟩ w = g2ToBits ⟨g2GenX, g2GenY, 1⟩ (keyWitness ⟨g2GenX, g2GenY, 1⟩)) :
    (⟨x, y, 1⟩ : G2Var).point = (⟨g2GenX, g2GenY, 1⟩ : G2Var).point :=
  C62_affine_binds h (g2_nonsingular g2Gen_equation g2GenY_ne_zero) hc (keyWitness_c _) h0 (by decide +kernel) heq

end Verif
