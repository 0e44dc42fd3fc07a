import Verif.Lemmas.Prover

/-! Satisfying assignments of the epoch circuit with a single real transition. -/

set_option linter.unusedSectionVars false

namespace Verif

section

variable {G1 GT : Type*} [AddCommGroup G1] [CommGroup GT]
variable {alloc : G2Var → Prop} {hashC : List Bool → List Bool → HashOut G1 → Prop}

/-- An update with all witnesses determined by epoch, bitmap and hash. -/
def UpdateVars.fill (e : EpochVars) (bitmap : List Bool) (h : HashOut G1) : UpdateVars G1 where
  epoch := e
  bitmap := bitmap
  hash := h
  occurrences := ((bitmap.count false : ℕ) : Fq)
  nextZero := isEqZeroWitness (.var e.index)
  updateZero := isEqZeroWitness (.var e.index)
  loopZero := isEqZeroWitness (.var e.index)

theorem step_fill {gen2 : G2Point} {n : ℕ} {eb : Bool} {a e : EpochVars} {bitmap : List Bool}
    {h : HashOut G1} (nkeys : e.keys.length = n) (nbits : bitmap.length = a.keys.length)
    (hlen : bitmap.length < FQ_MODULUS)
    (bits : e.toBitsC alloc) (hash : hashC e.epochBits e.extraDataBits h)
    (next : e.index ≠ 0 → e.index = a.index + 1)
    (entropy : e.index ≠ 0 → eb = true → a.epochEntropy = e.parentEntropy)
    (threshold : bitmap.count false ≤ a.maximumNonSigners.val)
    (half : a.maximumNonSigners.val < halfOf FQ_MODULUS)
    (padding : ∀ x ∈ (a.pubkeys.map G2Var.point).zip bitmap, x.2 = true → x.1 ≠ gen2) :
    StepC alloc hashC gen2 n eb a (UpdateVars.fill e bitmap h) where
  nkeys := nkeys
  nbits := nbits
  bits := bits
  hash := hash
  nextZero := C35_complete _
  updateZero := C35_complete _
  loopZero := C35_complete _
  next := next
  entropy := entropy
  occ := C38_complete fq_ne_two bitmap a.maximumNonSigners false hlen threshold half
  padding := padding

theorem steps_dummies (a : EpochVars) {d : UpdateVars G1} (hd : d.epoch.index = 0) (k : ℕ)
    (us : List (UpdateVars G1)) :
    steps a (List.replicate k d ++ us) = List.replicate k (a, d) ++ steps a us := by
  induction k with
  | zero => rfl
  | succ k ih => simp [List.replicate_succ, steps, hd, ih]

theorem reals_dummies {d : UpdateVars G1} (hd : d.epoch.index = 0) (k : ℕ)
    (us : List (UpdateVars G1)) : reals (List.replicate k d ++ us) = reals us := by
  unfold reals
  rw [List.filter_append]
  simp [hd]

/-- A pairing is one on the left identity, and powers come out. -/
theorem pairing_zero_left {e : G1 → G2Point → GT}
    (hl : ∀ P P' Q, e (P + P') Q = e P Q * e P' Q) (Q : G2Point) : e 0 Q = 1 := by
  have := hl 0 0 Q
  rw [add_zero] at this
  exact left_eq_mul.mp this

theorem pairing_zero_right {e : G1 → G2Point → GT}
    (hr : ∀ P Q Q', e P (Q + Q') = e P Q * e P Q') (P : G1) : e P 0 = 1 := by
  have := hr P 0 0
  rw [add_zero] at this
  exact left_eq_mul.mp this

theorem pairing_neg_right {e : G1 → G2Point → GT}
    (hr : ∀ P Q Q', e P (Q + Q') = e P Q * e P Q') (P : G1) (Q : G2Point) :
    e P (-Q) = (e P Q)⁻¹ := by
  have := hr P Q (-Q)
  rw [add_neg_cancel, pairing_zero_right hr] at this
  exact (inv_eq_of_mul_eq_one_right this.symm).symm

theorem pairing_nsmul_left {e : G1 → G2Point → GT}
    (hl : ∀ P P' Q, e (P + P') Q = e P Q * e P' Q) (k : ℕ) (P : G1) (Q : G2Point) :
    e (k • P) Q = e P Q ^ k := by
  induction k with
  | zero => simp [pairing_zero_left hl]
  | succ k ih => rw [succ_nsmul, hl, ih, pow_succ]

/-- A satisfying assignment whose public bits are the native encodings of two given blocks, with any
number of dummy epochs.  The threshold and the entropy of the first epoch are chosen freely among
the values with the same encoding. -/
theorem transition_exists {e : G1 → G2Point → GT} {gen1 : G1} {gen2 : G2Point}
    (hl : ∀ P P' Q, e (P + P') Q = e P Q * e P' Q) (hr : ∀ P Q Q', e P (Q + Q') = e P Q * e P Q')
    (halloc : AllocComplete alloc) {n k : ℕ} {b0 b1 dummy : EpochBlock} {m0 : Fq}
    {bitmap : List Bool} {h hd : HashOut G1} {sig : G1}
    (hn : n < 2 ^ 32)
    (hk0 : b0.newPublicKeys.length = n) (hk1 : b1.newPublicKeys.length = n)
    (hkd : dummy.newPublicKeys.length = n)
    (hf0 : ∀ pk ∈ b0.newPublicKeys, pk ≠ 0) (hf1 : ∀ pk ∈ b1.newPublicKeys, pk ≠ 0)
    (hfd : ∀ pk ∈ dummy.newPublicKeys, pk ≠ 0)
    (hv0 : b0.maximumValidators ≤ n) (hv1 : b1.maximumValidators ≤ n)
    (hvd : dummy.maximumValidators ≤ n)
    (hp0 : EntropyOk b0.parentEntropy) (he1 : EntropyOk b1.epochEntropy)
    (hp1 : EntropyOk b1.parentEntropy) (hed : EntropyOk dummy.epochEntropy)
    (hpd : EntropyOk dummy.parentEntropy)
    (hidx : b1.index.toNat = (b0.index.toNat + 1) % 2 ^ 16) (hdidx : dummy.index = 0)
    (hm : m0.val % 2 ^ 32 = b0.maximumNonSigners.toNat) (hhalf : m0.val < halfOf FQ_MODULUS)
    (hbits : bitmap.length = n) (hcount : bitmap.count false ≤ m0.val)
    (hpad : ∀ x ∈ b0.newPublicKeys.zip bitmap, x.2 = true → x.1 ≠ gen2)
    (hhash : hashC (b1.encodeInnerToBitsCip22 gen2).1 (b1.encodeInnerToBitsCip22 gen2).2 h)
    (hdhash : hashC (dummy.encodeInnerToBitsCip22 gen2).1 (dummy.encodeInnerToBitsCip22 gen2).2 hd)
    (hsig : e sig (-gen2) * e h.messageHash
      ((((b0.newPublicKeys.zip bitmap).filter (·.2)).map (·.1)).sum) = 1)
    (hlast : b1.newPublicKeys.sum ≠ 0) :
    ∃ (c : CircuitVars G1) (b : EpochBits),
      enforceEpochs alloc hashC e gen1 gen2 n c = .ok b ∧ b.sat ∧
      b.firstEpochBits = b0.encodeToBitsCip22 gen2 .first ∧
      b.lastEpochBits = b1.encodeLastToBits gen2 ∧
      c.initial.keys.length = n ∧ c.updates.length = k + 1 ∧
      (reals c.updates).map (·.bitmap) = [bitmap] ∧
      c.initial.maximumNonSigners = m0 ∧ c.signature = sig + k • gen1 := by
  have hfq := fq_gt_pow
  have b0lt := b0.index.toNat_lt
  let a : EpochVars :=
    { EpochVars.assign (toEpochData b0) with maximumNonSigners := m0, epochEntropy := 0 }
  let v : EpochVars :=
    { EpochVars.assign (toEpochData b1) with index := ((b0.index.toNat + 1 : ℕ) : Fq) }
  let dv : EpochVars := EpochVars.assign (toEpochData dummy)
  let u := UpdateVars.fill v bitmap h
  let du := UpdateVars.fill dv bitmap hd
  have hdz : du.epoch.index = 0 := by
    change ((dummy.index.toNat : ℕ) : Fq) = 0
    rw [hdidx]; rfl
  have hidxv : v.index.val = b0.index.toNat + 1 := fq_natCast_val (by omega)
  have huz : u.epoch.index ≠ 0 := by
    intro hc
    have : v.index.val = 0 := by rw [show v.index = 0 from hc]; rfl
    omega
  have hapts : a.pubkeys.map G2Var.point = b0.newPublicKeys := assign_points (toEpochData b0)
  have hvpts : v.pubkeys.map G2Var.point = b1.newPublicKeys := assign_points (toEpochData b1)
  have hak : a.keys.length = n := (assign_keys_length (toEpochData b0)).trans hk0
  have hvk : v.keys.length = n := (assign_keys_length (toEpochData b1)).trans hk1
  have hdk : dv.keys.length = n := (assign_keys_length (toEpochData dummy)).trans hkd
  have hib := assign_innerBits gen2 he1 hp1 (by rw [hk1]; exact hv1)
  have hidb := assign_innerBits gen2 hed hpd (by rw [hkd]; exact hvd)
  have hidx16 : frToBits v.index 16 = encodeU16 b1.index := by
    rw [frToBits_u16_iff, hidxv, hidx]
  have hvbits : v.epochBits = (b1.encodeInnerToBitsCip22 gen2).1 :=
    congrArg Prod.fst hib
  have hvextra : v.extraDataBits = (b1.encodeInnerToBitsCip22 gen2).2 := by
    rw [← congrArg Prod.snd hib]
    simp only [EpochVars.extraDataBits]
    rw [hidx16]
    simp only [v, EpochVars.assign, toEpochData, frToBits_u16]
  have hlen : bitmap.length < FQ_MODULUS := by omega
  have hsum : signerSum a bitmap =
      (((b0.newPublicKeys.zip bitmap).filter (·.2)).map (·.1)).sum := by
    unfold signerSum; rw [hapts]
  obtain ⟨lx, ly, lh, hls⟩ : ∃ x y h, b1.newPublicKeys.sum = .some x y h := by
    cases hc : b1.newPublicKeys.sum with
    | zero => exact absurd hc hlast
    | some x y h => exact ⟨x, y, h, rfl⟩
  let c : CircuitVars G1 :=
    { initial := a
      entropyZero := isEqZeroWitness (.var a.epochEntropy)
      updates := List.replicate k du ++ [u]
      last := LastVars.assign b1.newPublicKeys.sum
      signature := sig + k • gen1 }
  have hreals : reals c.updates = [u] := by
    change reals (List.replicate k du ++ [u]) = [u]
    rw [reals_dummies hdz]
    simp [reals, huz]
  have hlastv : c.last = ⟨lx, ly, keyWitness ⟨lx, ly, 1⟩⟩ := by
    change LastVars.assign b1.newPublicKeys.sum = _
    rw [hls]; rfl
  obtain ⟨b, hb1, hb2, hb3⟩ := enforce_complete alloc hashC (e := e) (gen1 := gen1) (gen2 := gen2)
    (n := n) (c := c) hak
    (assign_toBitsC halloc (d := toEpochData b0) hf0)
    (C35_complete _)
    (by
      intro x hx
      change x ∈ steps a (List.replicate k du ++ [u]) at hx
      rw [steps_dummies a hdz] at hx
      simp only [List.mem_append, List.mem_replicate, steps, List.mem_singleton] at hx
      rcases hx with ⟨_, rfl⟩ | rfl
      · refine step_fill hdk (by rw [hbits, hak]) hlen (assign_toBitsC halloc (d := toEpochData dummy) hfd) ?_
          (fun hc => absurd hdz hc) (fun hc => absurd hdz hc) hcount hhalf ?_
        · rw [show dv.epochBits = (dummy.encodeInnerToBitsCip22 gen2).1 from congrArg Prod.fst hidb,
            show dv.extraDataBits = (dummy.encodeInnerToBitsCip22 gen2).2 from
              congrArg Prod.snd hidb]
          exact hdhash
        · rw [hapts]; exact hpad
      · refine step_fill hvk (by rw [hbits, hak]) hlen (assign_toBitsC halloc (d := toEpochData b1) hf1) ?_
          ?_ ?_ hcount hhalf ?_
        · rw [hvbits, hvextra]; exact hhash
        · intro _
          change ((b0.index.toNat + 1 : ℕ) : Fq) = ((b0.index.toNat : ℕ) : Fq) + 1
          push_cast; rfl
        · intro _ hcb
          change (!(isEqZeroWitness (.var (0 : Fq))).2) = true at hcb
          simp [isEqZeroWitness] at hcb
        · rw [hapts]; exact hpad)
    (by
      intro w hw
      change (List.replicate k du ++ [u]).getLast? = some w at hw
      rw [List.getLast?_append_of_ne_nil _ (by simp)] at hw
      simp only [List.getLast?_singleton, Option.some.injEq] at hw
      subst hw
      refine ⟨huz, ?_⟩
      rw [hlastv]
      refine ⟨⟨lh, ?_⟩, keyWitness_c _⟩
      rw [aggregatedAll_eq]
      change (v.pubkeys.map G2Var.point).sum = _
      rw [hvpts, hls])
    (by
      rw [hreals]
      change e (sig + k • gen1) (-gen2) * (([(a, u)].map fun t =>
        e t.2.hash.messageHash (signerSum t.1 t.2.bitmap)).prod *
        e gen1 gen2 ^ ((List.replicate k du ++ [u]).length - 1)) = 1
      simp only [List.map_cons, List.map_nil, List.prod_cons, List.prod_nil, mul_one,
        List.length_append, List.length_replicate, List.length_singleton, Nat.add_sub_cancel]
      change e (sig + k • gen1) (-gen2) * (e h.messageHash (signerSum a bitmap) * _) = 1
      rw [hsum, hl, pairing_nsmul_left hl, pairing_neg_right hr gen1]
      rw [mul_assoc, mul_left_comm, ← mul_assoc, ← mul_assoc, mul_assoc, mul_comm _ (e sig (-gen2)),
        ← mul_assoc]
      have h2 : ((e gen1 gen2)⁻¹ ^ k) * e gen1 gen2 ^ k = 1 := by
        rw [← mul_pow, inv_mul_cancel, one_pow]
      calc _ = (e sig (-gen2) * e h.messageHash
              ((((b0.newPublicKeys.zip bitmap).filter (·.2)).map (·.1)).sum)) *
              (((e gen1 gen2)⁻¹ ^ k) * e gen1 gen2 ^ k) := by ac_rfl
        _ = 1 := by rw [hsig, h2, one_mul])
  refine ⟨c, b, hb1, hb2, ?_, ?_, hak, ?_, ?_, rfl, rfl⟩
  · rw [hb3.firstBits, ← assign_firstBits gen2 hp0 (by rw [hk0]; exact hv0)]
    have e1 : frToBits c.initial.maximumNonSigners 32 =
        frToBits (EpochVars.assign (toEpochData b0)).maximumNonSigners 32 :=
      ((frToBits_u32_iff m0 _).mpr hm).trans (frToBits_u32 _).symm
    unfold EpochVars.firstEpochBits
    rw [e1]
    rfl
  · rw [hb3.lastBits u (by
      change (List.replicate k du ++ [u]).getLast? = some u
      rw [List.getLast?_append_of_ne_nil _ (by simp)]; rfl)]
    unfold EpochBlock.encodeLastToBits
    congr 1
    · rw [← assign_lastBits gen2 he1 (by rw [hk1]; exact hv1)]
      have e1 : frToBits u.epoch.index 16 =
          frToBits (EpochVars.assign (toEpochData b1)).index 16 :=
        hidx16.trans (frToBits_u16 b1.index).symm
      unfold EpochVars.lastEpochBits
      rw [e1]
      rfl
    · rw [hlastv, hls]
      exact g2ToBits_assign (.some lx ly lh)
  · simp [c]
  · rw [hreals]; rfl

end

end Verif
