import Verif.Lemmas.Chain
import Verif.Props.EpochCircuit

/-!
# Properties C46 - C49 and C65: the prover
-/

set_option linter.unusedSectionVars false

namespace Verif

section

variable {G1 GT : Type*} [AddCommGroup G1] [CommGroup GT]

/-! ## C48 -/

/-- C48: for a non-empty list of at most `max` transitions the circuit has exactly `max` updates:
the real ones in order with the dummies immediately before the last; the signature is the sum of the
signatures plus one generator per dummy. -/
theorem C48_shape (gen1 : G1) (gen2 : G2Point) (n : ℕ) (b0 : EpochBlock)
    (ts : List (EpochTransition G1)) (max : ℕ) (hne : ts ≠ []) (hmax : ts.length ≤ max) :
    ∃ s, proverCircuit gen1 gen2 n b0 ts max = .ok s ∧
      s.numValidators = n ∧ s.initialEpoch = toEpochData b0 ∧
      s.epochs.length = max ∧
      (∀ i (h : i < ts.length - 1), s.epochs[i]? = some (toUpdate (ts[i]'(by omega)))) ∧
      (∀ i, ts.length - 1 ≤ i → i < max - 1 → s.epochs[i]? = some (toDummyUpdate gen2 n)) ∧
      s.epochs[max - 1]? = some (toUpdate (ts.getLast hne)) ∧
      s.aggregatedSignature =
        (ts.map (·.aggregateSignature)).sum + (max - ts.length) • gen1 := by
  obtain ⟨pre, last, rfl⟩ : ∃ pre last, ts = pre ++ [last] :=
    ⟨ts.dropLast, ts.getLast hne, (List.dropLast_append_getLast hne).symm⟩
  unfold proverCircuit
  rw [proverEpochs_eq, Outcome.bind_ok]
  unfold proverSignature
  rw [if_neg (by omega)]
  simp only [Outcome.map_ok, List.length_append, List.length_singleton, List.sum_append,
    List.sum_replicate, List.sum_singleton, Outcome.ok.injEq, exists_eq_left']
  simp only [List.length_append, List.length_singleton] at hmax
  refine ⟨trivial, trivial, ?_, ?_, ?_, ?_, add_comm _ _⟩
  · simp; omega
  · intro i h
    rw [List.append_assoc, List.getElem?_append_left (by simp; omega), List.getElem?_map,
      List.getElem?_eq_getElem (by omega)]
    simp only [Option.map_some]
    rw [List.getElem_append_left]
  · intro i h1 h2
    rw [List.append_assoc, List.getElem?_append_right (by simp; omega),
      List.getElem?_append_left (by simp; omega), List.getElem?_replicate_of_lt (by simp; omega)]
  · rw [List.getElem?_append_right (by simp; omega)]
    simp only [List.length_append, List.length_map, List.length_replicate]
    rw [show max - 1 - (pre.length + (max - (pre.length + 1))) = 0 by omega]
    simp

/-- C48: no transitions panic unless the circuit size is zero. -/
theorem C48_empty (gen1 : G1) (gen2 : G2Point) (n : ℕ) (b0 : EpochBlock) (max : ℕ) :
    proverCircuit gen1 gen2 n b0 ([] : List (EpochTransition G1)) max =
      if 0 < max then .panic
      else .ok ⟨toEpochData b0, [], n, 0⟩ := by
  unfold proverCircuit proverEpochs proverSignature
  by_cases h : 0 < max
  · simp [h]
  · obtain rfl : max = 0 := by omega
    simp

/-- C48: more transitions than the circuit size panic. -/
theorem C48_too_many (gen1 : G1) (gen2 : G2Point) (n : ℕ) (b0 : EpochBlock)
    (ts : List (EpochTransition G1)) (max : ℕ) (h : max < ts.length) :
    proverCircuit gen1 gen2 n b0 ts max = .panic := by
  unfold proverCircuit proverEpochs proverSignature
  simp only [List.length_map]
  rw [if_neg (by omega), if_pos h]
  simp

/-- Concrete case: two transitions in a circuit of size four. -/
example (t u : EpochTransition ℤ) (b0 : EpochBlock) :
    ∃ s, proverCircuit 1 g2Generator 2 b0 [t, u] 4 = .ok s ∧
      s.epochs = [toUpdate t, toDummyUpdate g2Generator 2, toDummyUpdate g2Generator 2,
        toUpdate u] := by
  obtain ⟨s, h1, _, _, h2, h3, h4, h5, _⟩ := C48_shape 1 g2Generator 2 b0 [t, u] 4 (by simp)
    (by simp)
  refine ⟨s, h1, List.ext_getElem? fun i => ?_⟩
  match i with
  | 0 => exact h3 0 (by simp)
  | 1 => exact h4 1 (by simp) (by simp)
  | 2 => exact h4 2 (by simp) (by simp)
  | 3 => exact h5
  | k + 4 => rw [List.getElem?_eq_none (by omega), List.getElem?_eq_none (by simp)]

/-! ## C49 -/

/-- C49: the bits hashed in the circuit, and those exposed, are the native encodings; therefore so
are the bytes. -/
theorem C49_bits (gen : G2Point) (b : EpochBlock) (he : EntropyOk b.epochEntropy)
    (hp : EntropyOk b.parentEntropy) (h : b.maximumValidators ≤ b.newPublicKeys.length) :
    (EpochVars.assign (toEpochData b)).epochBits = (b.encodeInnerToBitsCip22 gen).1 ∧
    (EpochVars.assign (toEpochData b)).extraDataBits = (b.encodeInnerToBitsCip22 gen).2 ∧
    (EpochVars.assign (toEpochData b)).firstEpochBits = b.encodeToBitsCip22 gen .first ∧
    (EpochVars.assign (toEpochData b)).lastEpochBits = b.encodeToBitsCip22 gen .last ∧
    bitsBeToBytesLe (EpochVars.assign (toEpochData b)).epochBits = (b.encodeInnerToBytes gen).1 ∧
    bitsBeToBytesLe (EpochVars.assign (toEpochData b)).extraDataBits =
      (b.encodeInnerToBytes gen).2 := by
  have h1 := assign_innerBits gen he hp h
  have h2 := congrArg Prod.fst h1
  have h3 := congrArg Prod.snd h1
  refine ⟨h2, h3, assign_firstBits gen hp h, assign_lastBits gen he h, ?_, ?_⟩
  · simp only [] at h2
    rw [h2]; rfl
  · simp only [] at h3
    rw [h3]; rfl

/-- C49: any witness, honest or not, whose fields are those of the block modulo the encoded widths
and whose keys have the right encodings, gives the same bits. -/
theorem C49_witness (gen : G2Point) (b : EpochBlock) (w : EpochVars)
    (h : b.maximumValidators ≤ b.newPublicKeys.length)
    (hi : w.index.val % 2 ^ 16 = b.index.toNat)
    (hr : w.round.val % 2 ^ 8 = b.round.toNat)
    (hm : w.maximumNonSigners.val % 2 ^ 32 = b.maximumNonSigners.toNat)
    (he : frToBits w.epochEntropy 128 = encodeEntropy b.epochEntropy)
    (hp : frToBits w.parentEntropy 128 = encodeEntropy b.parentEntropy)
    (hk : List.Forall₂ (fun k pk => g2ToBits k.1 k.2 = encodePublicKey pk) w.keys
      b.newPublicKeys) :
    (w.epochBits, w.extraDataBits) = b.encodeInnerToBitsCip22 gen ∧
    w.firstEpochBits = b.encodeToBitsCip22 gen .first ∧
    w.lastEpochBits = b.encodeToBitsCip22 gen .last := by
  have hkb : w.keyBits = b.keyBits gen := by
    rw [keyBits_full gen h]
    unfold EpochVars.keyBits
    generalize w.keys = ks at hk
    generalize b.newPublicKeys = pks at hk
    induction hk with
    | nil => rfl
    | cons h1 _ ih => simp only [List.flatMap_cons, h1, ih]
  rw [← frToBits_u16_iff] at hi
  rw [← frToBits_u8_iff] at hr
  rw [← frToBits_u32_iff] at hm
  unfold EpochVars.epochBits EpochVars.extraDataBits EpochVars.firstEpochBits
    EpochVars.lastEpochBits EpochBlock.encodeInnerToBitsCip22 EpochBlock.encodeToBitsCip22
  simp only [hkb, hi, hr, hm, he, hp, and_self]

/-- Concrete case: `toyBlock 4` meets the hypotheses. -/
example : (EpochVars.assign (toEpochData (toyBlock 4))).firstEpochBits =
    (toyBlock 4).encodeToBitsCip22 g2Generator .first :=
  (C49_bits g2Generator (toyBlock 4) ((toy_provable 3).entropies.2.1)
    ((toy_provable 3).entropies.2.2.1) (le_refl _)).2.2.1

/-! ## C46 -/

/-- A chain of honest transitions from `b0`, in a circuit for `n` validators and `max`
transitions. `H` gives the hash of a block, as found by the prover's code `hashW` and accepted by
the constraints `hashC`. -/
structure HonestChain (hashC : List Bool → List Bool → HashOut G1 → Prop)
    (hashW : List Bool → List Bool → Outcome Unit (HashOut G1)) (e : G1 → G2Point → GT)
    (gen2 : G2Point) (n : ℕ) (H : EpochBlock → HashOut G1) (b0 : EpochBlock)
    (ts : List (EpochTransition G1)) : Prop where
  /-- Blocks are for `n` finite keys, with entropies of sixteen bytes. -/
  blocks : ∀ b ∈ b0 :: ts.map (·.block), b.newPublicKeys.length = n ∧
    (∀ pk ∈ b.newPublicKeys, pk ≠ 0) ∧ b.maximumValidators ≤ n ∧
    EntropyOk b.epochEntropy ∧ EntropyOk b.parentEntropy
  /-- Indices increase by one. -/
  index : ∀ p ∈ predecessors b0 ts, p.2.block.index.toNat = p.1.index.toNat + 1
  /-- If the first epoch has non-zero entropy, entropies are linked. -/
  entropy : entropyBytes b0.epochEntropy ≠ List.replicate 16 0 →
    ∀ p ∈ predecessors b0 ts, p.2.block.parentEntropy = p.1.epochEntropy
  /-- One bit per key of the previous epoch, with few enough zeros. -/
  bitmap : ∀ p ∈ predecessors b0 ts, p.2.bitmap.length = n ∧
    p.2.bitmap.count false ≤ p.1.maximumNonSigners.toNat ∧ p.2.bitmap.count false < 256
  /-- Nobody signs with the padding key. -/
  padding : ∀ p ∈ predecessors b0 ts, ∀ x ∈ p.1.newPublicKeys.zip p.2.bitmap,
    x.2 = true → x.1 ≠ gen2
  /-- Messages can be hashed. -/
  hash : ∀ t ∈ ts,
    hashW (t.block.encodeInnerToBitsCip22 gen2).1 (t.block.encodeInnerToBitsCip22 gen2).2 =
      .ok (H t.block) ∧
    hashC (t.block.encodeInnerToBitsCip22 gen2).1 (t.block.encodeInnerToBitsCip22 gen2).2
      (H t.block)
  /-- Each aggregate signature is valid for the signers of the previous epoch. -/
  signature : ∀ p ∈ predecessors b0 ts, e p.2.aggregateSignature (-gen2) *
    e (H p.2.block).messageHash
      (((p.1.newPublicKeys.zip p.2.bitmap).filter (·.2)).map (·.1)).sum = 1

/-- The epoch block the dummies encode. -/
def dummyBlock (gen2 : G2Point) (n : ℕ) : EpochBlock where
  index := 0
  round := 0
  epochEntropy := some (List.replicate ENTROPY_BYTES 0)
  parentEntropy := some (List.replicate ENTROPY_BYTES 0)
  maximumNonSigners := 0
  maximumValidators := n
  newPublicKeys := List.replicate n gen2

theorem updateAssign_ok {hashW : List Bool → List Bool → Outcome Unit (HashOut G1)}
    {checks : Bool} {s : SingleUpdate} {h : HashOut G1}
    (hh : hashW (EpochVars.assign s.epochData).epochBits
      (EpochVars.assign s.epochData).extraDataBits = .ok h)
    (hc : s.signedBitmap.count false < 256) :
    UpdateVars.assign checks hashW s =
      .ok (UpdateVars.fill (EpochVars.assign s.epochData) s.signedBitmap h) := by
  unfold UpdateVars.assign
  simp only [hh, Outcome.bind_ok]
  rw [C39_witness_small checks s.signedBitmap false hc]
  rfl

theorem pairing_sum_left {e : G1 → G2Point → GT}
    (hl : ∀ P P' Q, e (P + P') Q = e P Q * e P' Q) (l : List G1) (Q : G2Point) :
    e l.sum Q = (l.map fun P => e P Q).prod := by
  induction l with
  | nil => simp [pairing_zero_left hl]
  | cons P l ih => simp [hl, ih]

/-- C46: the prover's circuit for an honest chain, with any number of dummies, is satisfied by the
values the prover assigns, and exposes the native encodings of the first and last block. -/
theorem C46_complete (alloc : G2Var → Prop) (hashC : List Bool → List Bool → HashOut G1 → Prop)
    (hashW : List Bool → List Bool → Outcome Unit (HashOut G1)) (checks : Bool)
    {e : G1 → G2Point → GT} {gen1 : G1} {gen2 : G2Point} {n : ℕ}
    (hl : ∀ P P' Q, e (P + P') Q = e P Q * e P' Q) (hr : ∀ P Q Q', e P (Q + Q') = e P Q * e P Q')
    (halloc : AllocComplete alloc) (hq : n < FQ_MODULUS)
    {b0 : EpochBlock} {ts : List (EpochTransition G1)} {last : EpochTransition G1} {max : ℕ}
    {H : EpochBlock → HashOut G1}
    (chain : HonestChain hashC hashW e gen2 n H b0 (ts ++ [last]))
    (hsize : ts.length + 1 ≤ max)
    (hdummy : ts.length + 1 < max →
      gen2 ≠ 0 ∧ gen2 ∉ ((ts.map (·.block)).getLast?.getD b0).newPublicKeys ∧
      ∃ hd, hashW ((dummyBlock gen2 n).encodeInnerToBitsCip22 gen2).1
          ((dummyBlock gen2 n).encodeInnerToBitsCip22 gen2).2 = .ok hd ∧
        hashC ((dummyBlock gen2 n).encodeInnerToBitsCip22 gen2).1
          ((dummyBlock gen2 n).encodeInnerToBitsCip22 gen2).2 hd)
    (hlast : last.block.newPublicKeys.sum ≠ 0) :
    ∃ s c b, proverCircuit gen1 gen2 n b0 (ts ++ [last]) max = .ok s ∧
      CircuitVars.assign checks hashW s = .ok c ∧
      enforceEpochs alloc hashC e gen1 gen2 n c = .ok b ∧ b.sat ∧
      b.firstEpochBits = b0.encodeToBitsCip22 gen2 .first ∧
      b.lastEpochBits = last.block.encodeLastToBits gen2 ∧
      c.updates.length = max ∧
      c.real.map (·.epoch) = (ts ++ [last]).map fun t => EpochVars.assign (toEpochData t.block) := by
  -- the assigned updates
  let f : EpochTransition G1 → UpdateVars G1 := fun t =>
    UpdateVars.fill (EpochVars.assign (toEpochData t.block)) t.bitmap (H t.block)
  have hfq := fq_gt_pow
  have hhalf : 2 ^ 70 < halfOf FQ_MODULUS := by decide +kernel
  have hb : ∀ t ∈ ts ++ [last], t.block ∈ b0 :: (ts ++ [last]).map (·.block) := by
    intro t ht
    exact List.mem_cons_of_mem _ (List.mem_map_of_mem ht)
  have hinner : ∀ b ∈ b0 :: (ts ++ [last]).map (·.block),
      (EpochVars.assign (toEpochData b)).epochBits = (b.encodeInnerToBitsCip22 gen2).1 ∧
      (EpochVars.assign (toEpochData b)).extraDataBits = (b.encodeInnerToBitsCip22 gen2).2 := by
    intro b hbm
    obtain ⟨h1, h2, h3, h4, h5⟩ := chain.blocks b hbm
    have := assign_innerBits gen2 h4 h5 (by omega)
    exact ⟨congrArg Prod.fst this, congrArg Prod.snd this⟩
  have hupd : ∀ t ∈ ts ++ [last], UpdateVars.assign checks hashW (toUpdate t) = .ok (f t) := by
    intro t ht
    obtain ⟨h1, h2⟩ := hinner _ (hb t ht)
    obtain ⟨a, ha⟩ := exists_predecessor (b0 := b0) ht
    refine updateAssign_ok ?_ (chain.bitmap _ ha).2.2
    change hashW (EpochVars.assign (toEpochData t.block)).epochBits
      (EpochVars.assign (toEpochData t.block)).extraDataBits = _
    rw [h1, h2]
    exact (chain.hash t ht).1
  have hreal : ∀ t ∈ ts ++ [last], (f t).epoch.index ≠ 0 := by
    intro t ht hz
    obtain ⟨a, ha⟩ := exists_predecessor (b0 := b0) ht
    have := chain.index _ ha
    have hz' : ((t.block.index.toNat : ℕ) : Fq) = 0 := hz
    have := congrArg ZMod.val hz'
    rw [fq_natCast_val (u16_lt_fq _), ZMod.val_zero] at this
    simp only [] at *
    omega
  obtain ⟨s, hs, hs1, hs2, _, _, _, _, hs3⟩ := C48_shape gen1 gen2 n b0 (ts ++ [last]) max
    (by simp) (by simpa using hsize)
  have hepochs : s.epochs = ts.map toUpdate ++
      List.replicate (max - (ts.length + 1)) (toDummyUpdate gen2 n) ++ [toUpdate last] := by
    unfold proverCircuit at hs
    rw [proverEpochs_eq, Outcome.bind_ok, Outcome.map_eq_ok_iff] at hs
    obtain ⟨_, _, rfl⟩ := hs
    rfl
  obtain ⟨d, hdz, hdassign, hdstep⟩ : ∃ d : UpdateVars G1, d.epoch.index = 0 ∧
      (ts.length + 1 < max → UpdateVars.assign checks hashW (toDummyUpdate gen2 n) = .ok d) ∧
      (ts.length + 1 < max → ∀ eb, StepC alloc hashC gen2 n eb
        (EpochVars.assign (toEpochData ((ts.map (·.block)).getLast?.getD b0))) d) := by
    by_cases hlt : ts.length + 1 < max
    · obtain ⟨hg, hpad, hd, hw, hc⟩ := hdummy hlt
      have hea : EntropyOk (dummyBlock gen2 n).epochEntropy := by
        intro b hb; simp only [dummyBlock, Option.some.injEq] at hb; rw [← hb]; rfl
      have hpa : EntropyOk (dummyBlock gen2 n).parentEntropy := hea
      have hin := assign_innerBits gen2 hea hpa (by simp [dummyBlock])
      have h1 : (EpochVars.assign (toDummyUpdate gen2 n).epochData).epochBits =
        ((dummyBlock gen2 n).encodeInnerToBitsCip22 gen2).1 := congrArg Prod.fst hin
      have h2 : (EpochVars.assign (toDummyUpdate gen2 n).epochData).extraDataBits =
        ((dummyBlock gen2 n).encodeInnerToBitsCip22 gen2).2 := congrArg Prod.snd hin
      have hcount : (List.replicate n true).count false = 0 := by
        rw [List.count_eq_zero]; simp
      have hprev : (ts.map (·.block)).getLast?.getD b0 ∈ b0 :: (ts ++ [last]).map (·.block) := by
        have : ((ts.map (·.block)).getLast?.getD b0, last) ∈ predecessors b0 (ts ++ [last]) := by
          rw [predecessors_concat]; simp
        exact mem_predecessors_fst this
      obtain ⟨k1, k2, _, _, _⟩ := chain.blocks _ hprev
      have hz0 : (EpochVars.assign (toDummyUpdate gen2 n).epochData).index = 0 := by
        change (((0 : UInt16).toNat : ℕ) : Fq) = 0
        rfl
      refine ⟨UpdateVars.fill (EpochVars.assign (toDummyUpdate gen2 n).epochData)
        (List.replicate n true) hd, hz0, fun _ => ?_, fun _ eb => ?_⟩
      · exact updateAssign_ok (by rw [h1, h2]; exact hw) (by
          change (List.replicate n true).count false < 256
          omega)
      · refine step_fill ?_ ?_ (by rw [List.length_replicate]; exact hq) ?_ ?_
          (fun hc => absurd hz0 hc) (fun hc => absurd hz0 hc) (by omega) ?_ ?_
        · rw [assign_keys_length]; simp [toDummyUpdate]
        · rw [assign_keys_length, List.length_replicate]; exact k1.symm
        · refine assign_toBitsC halloc ?_
          intro pk hpk
          simp only [toDummyUpdate, List.mem_replicate] at hpk
          rw [hpk.2]; exact hg
        · rw [h1, h2]; exact hc
        · change (((_ : UInt32).toNat : ℕ) : Fq).val < _
          rw [fq_natCast_val (u32_lt_fq _)]
          have := UInt32.toNat_lt
            (toEpochData ((ts.map (·.block)).getLast?.getD b0)).maximumNonSigners
          omega
        · rw [assign_points]
          intro x hx _ he
          apply hpad
          rw [← he]
          exact (List.of_mem_zip hx).1
    · refine ⟨UpdateVars.fill (EpochVars.assign (toDummyUpdate gen2 n).epochData) []
        (H b0), ?_, fun h => absurd h hlt, fun h => absurd h hlt⟩
      change (((0 : UInt16).toNat : ℕ) : Fq) = 0
      rfl
  set k := max - (ts.length + 1) with hk
  let us : List (UpdateVars G1) := ts.map f ++ List.replicate k d ++ [f last]
  have hmap : Outcome.mapM (UpdateVars.assign checks hashW) s.epochs = .ok us := by
    rw [Outcome.mapM_eq_ok_iff, hepochs]
    refine List.rel_append (List.rel_append ?_ ?_) ?_
    · rw [List.forall₂_map_left_iff, List.forall₂_map_right_iff, List.forall₂_same]
      intro t ht
      exact hupd t (by simp [ht])
    · rw [List.forall₂_iff_get]
      refine ⟨by simp, ?_⟩
      intro i h1 h2
      simp only [List.length_replicate] at h1
      simp only [List.get_eq_getElem, List.getElem_replicate]
      exact hdassign (by omega)
    · exact List.Forall₂.cons (hupd last (by simp)) List.Forall₂.nil
  obtain ⟨lx, ly, lh, hls⟩ : ∃ x y h, last.block.newPublicKeys.sum = .some x y h := by
    cases hc : last.block.newPublicKeys.sum with
    | zero => exact absurd hc hlast
    | some x y h => exact ⟨x, y, h, rfl⟩
  let c : CircuitVars G1 :=
    { initial := EpochVars.assign (toEpochData b0)
      entropyZero := isEqZeroWitness (.var (EpochVars.assign (toEpochData b0)).epochEntropy)
      updates := us
      last := ⟨lx, ly, keyWitness ⟨lx, ly, 1⟩⟩
      signature := s.aggregatedSignature }
  have hassign : CircuitVars.assign checks hashW s = .ok c := by
    unfold CircuitVars.assign
    rw [hmap, Outcome.map_ok]
    have hg : s.epochs.getLast? = some (toUpdate last) := by rw [hepochs]; simp
    simp only [hg, hs2]
    have hla : LastVars.assign (toUpdate last).epochData.publicKeys.sum =
        ⟨lx, ly, keyWitness ⟨lx, ly, 1⟩⟩ := by
      change LastVars.assign last.block.newPublicKeys.sum = _
      rw [hls]; rfl
    rw [hla]
  have hreals : reals us = (ts ++ [last]).map f := by
    have h1 : reals us = reals (ts.map f) ++ reals (List.replicate k d ++ [f last]) := by
      simp only [us, reals, List.append_assoc, List.filter_append]
    rw [h1, reals_dummies hdz, reals_real, reals_real, List.map_append]
    · rfl
    · intro u hu
      rw [List.mem_singleton.mp hu]
      exact hreal last (by simp)
    · intro u hu
      obtain ⟨t, ht, rfl⟩ := List.mem_map.mp hu
      exact hreal t (by simp [ht])
  have hprevs : ((c.initial :: (reals us).map (·.epoch)).zip (reals us)) =
      (predecessors b0 (ts ++ [last])).map fun p =>
        (EpochVars.assign (toEpochData p.1), f p.2) := by
    rw [hreals]
    unfold predecessors
    have e1 : c.initial :: ((ts ++ [last]).map f).map (·.epoch) =
        (b0 :: (ts ++ [last]).map (·.block)).map fun b => EpochVars.assign (toEpochData b) := by
      simp only [List.map_cons, List.map_map]
      rfl
    rw [e1, List.zip_map]
    rfl
  have hfirst : c.initial.keys.length = n :=
    (assign_keys_length (toEpochData b0)).trans (chain.blocks b0 (by simp)).1
  -- honest steps
  have hstep : ∀ p ∈ predecessors b0 (ts ++ [last]),
      StepC alloc hashC gen2 n (!c.entropyZero.2) (EpochVars.assign (toEpochData p.1)) (f p.2) := by
    intro p hp
    have hm1 := mem_predecessors_fst hp
    have hm2 := mem_predecessors_snd hp
    obtain ⟨a1, a2, a3, a4, a5⟩ := chain.blocks _ hm1
    obtain ⟨t1, t2, t3, t4, t5⟩ := chain.blocks _ (hb _ hm2)
    obtain ⟨i1, i2⟩ := hinner _ (hb _ hm2)
    obtain ⟨m1, m2, _⟩ := chain.bitmap p hp
    have hmns : (EpochVars.assign (toEpochData p.1)).maximumNonSigners.val =
      p.1.maximumNonSigners.toNat := fq_natCast_val (u32_lt_fq _)
    refine step_fill ?_ ?_ (by omega) ?_ ?_ ?_ ?_ ?_ ?_ ?_
    · rw [assign_keys_length]; exact t1
    · rw [assign_keys_length, m1]; exact a1.symm
    · exact assign_toBitsC halloc t2
    · rw [i1, i2]; exact (chain.hash _ hm2).2
    · intro _
      change ((p.2.block.index.toNat : ℕ) : Fq) = ((p.1.index.toNat : ℕ) : Fq) + 1
      rw [chain.index p hp]
      push_cast; rfl
    · intro _ heb
      have hz : (EpochVars.assign (toEpochData b0)).epochEntropy ≠ 0 := by
        intro h0
        change (!(isEqZeroWitness (.var (EpochVars.assign (toEpochData b0)).epochEntropy)).2) = true
          at heb
        rw [h0] at heb
        simp [isEqZeroWitness] at heb
      have hz' : entropyBytes b0.epochEntropy ≠ List.replicate 16 0 :=
        (entropyToFr_ne_zero (chain.blocks b0 (by simp)).2.2.2.1).mp hz
      change entropyToFr p.1.epochEntropy = entropyToFr p.2.block.parentEntropy
      rw [chain.entropy hz' p hp]
    · rw [hmns]; exact m2
    · rw [hmns]
      have := p.1.maximumNonSigners.toNat_lt
      omega
    · rw [assign_points]
      exact chain.padding p hp
  have hallsteps : ∀ x ∈ steps c.initial us,
      StepC alloc hashC gen2 n (!c.entropyZero.2) x.1 x.2 := by
    intro x hx
    have hne : reals (ts.map f) = ts.map f := reals_real (by
      intro u hu
      obtain ⟨t, ht, rfl⟩ := List.mem_map.mp hu
      exact hreal t (by simp [ht]))
    have hp0 : ((reals (ts.map f)).map (·.epoch)).getLast?.getD c.initial =
        EpochVars.assign (toEpochData ((ts.map (·.block)).getLast?.getD b0)) := by
      rw [hne]
      have e1 : (ts.map f).map (·.epoch) =
          (ts.map (·.block)).map fun b => EpochVars.assign (toEpochData b) := by
        simp only [List.map_map]; rfl
      rw [e1, List.getLast?_map]
      cases (ts.map (·.block)).getLast? <;> rfl
    by_cases hz : x.2.epoch.index = 0
    · simp only [us, List.append_assoc] at hx
      rw [steps_append, List.mem_append, hp0, steps_dummies _ hdz, List.mem_append] at hx
      have hdone : ∀ y : UpdateVars G1, y ∈ (ts ++ [last]).map f → y.epoch.index ≠ 0 := by
        intro y hy
        obtain ⟨t, ht, rfl⟩ := List.mem_map.mp hy
        exact hreal t ht
      rcases hx with hx | hx | hx
      · have : x.2 ∈ (steps c.initial (ts.map f)).map (·.2) := List.mem_map_of_mem hx
        rw [steps_map_snd] at this
        exact absurd hz (hdone _ (by rw [List.map_append]; exact List.mem_append_left _ this))
      · rw [List.mem_replicate] at hx
        rw [hx.2]
        exact hdstep (by omega) _
      · simp only [steps, List.mem_singleton] at hx
        rw [hx] at hz
        exact absurd hz (hreal last (by simp))
    · have hm : x ∈ (steps c.initial us).filter (fun y => decide (y.2.epoch.index ≠ 0)) :=
        List.mem_filter.mpr ⟨hx, by simpa using hz⟩
      rw [steps_filter, hprevs, List.mem_map] at hm
      obtain ⟨p, hp, rfl⟩ := hm
      exact hstep p hp
  have hlen : us.length = max := by
    simp only [us, List.length_append, List.length_map, List.length_replicate,
      List.length_singleton]
    omega
  have hgl : us.getLast? = some (f last) := by simp [us]
  obtain ⟨b, hb1, hb2, hb3⟩ := enforce_complete alloc hashC (e := e) (gen1 := gen1) (gen2 := gen2)
    (n := n) (c := c) hfirst
    (assign_toBitsC halloc (d := toEpochData b0) (chain.blocks b0 (by simp)).2.1)
    (C35_complete _) hallsteps
    (by
      intro w hw
      change us.getLast? = some w at hw
      rw [hgl] at hw
      simp only [Option.some.injEq] at hw
      subst hw
      refine ⟨hreal last (by simp), ⟨lh, ?_⟩, keyWitness_c _⟩
      rw [aggregatedAll_eq]
      change ((EpochVars.assign (toEpochData last.block)).pubkeys.map G2Var.point).sum = _
      rw [assign_points]
      exact hls)
    (by
      change e s.aggregatedSignature (-gen2) *
        ((((c.initial :: (reals us).map (·.epoch)).zip (reals us)).map fun t =>
          e t.2.hash.messageHash (signerSum t.1 t.2.bitmap)).prod *
        e gen1 gen2 ^ (us.length - (reals us).length)) = 1
      rw [hprevs, hreals, hlen, hs3, hl, pairing_nsmul_left hl, pairing_neg_right hr gen1,
        pairing_sum_left hl]
      simp only [List.length_append, List.length_singleton, List.length_map, List.map_map]
      have hprod : ((ts ++ [last]).map ((fun P => e P (-gen2)) ∘ fun t => t.aggregateSignature)).prod *
          ((predecessors b0 (ts ++ [last])).map ((fun t => e t.2.hash.messageHash
            (signerSum t.1 t.2.bitmap)) ∘ fun p =>
              (EpochVars.assign (toEpochData p.1), f p.2))).prod = 1 := by
        have hts : (ts ++ [last]).map ((fun P => e P (-gen2)) ∘ fun t => t.aggregateSignature) =
            (predecessors b0 (ts ++ [last])).map fun p => e p.2.aggregateSignature (-gen2) := by
          conv_lhs => rw [← predecessors_snd b0 (ts ++ [last])]
          rw [List.map_map]
          rfl
        rw [hts, ← List.prod_map_mul]
        apply List.prod_eq_one
        intro x hx
        obtain ⟨p, hp, rfl⟩ := List.mem_map.mp hx
        have := chain.signature p hp
        simp only [Function.comp_apply, signerSum]
        rw [assign_points]
        exact this
      have h2 : ((e gen1 gen2)⁻¹ ^ (max - (ts.length + 1))) *
          e gen1 gen2 ^ (max - (ts.length + 1)) = 1 := by
        rw [← mul_pow, inv_mul_cancel, one_pow]
      rw [mul_mul_mul_comm, hprod, h2, one_mul])
  refine ⟨s, c, b, hs, hassign, hb1, hb2, ?_, ?_, hlen, ?_⟩
  · rw [hb3.firstBits]
    obtain ⟨b1, _, b3, _, b5⟩ := chain.blocks b0 (by simp)
    exact assign_firstBits gen2 b5 (by omega)
  · rw [hb3.lastBits (f last) hgl]
    unfold EpochBlock.encodeLastToBits
    obtain ⟨b1, _, b3, b4, _⟩ := chain.blocks last.block (hb last (by simp))
    congr 1
    · exact assign_lastBits gen2 b4 (by omega)
    · rw [hls]
      exact g2ToBits_assign (.some lx ly lh)
  · change (reals us).map (·.epoch) = _
    rw [hreals, List.map_map]
    rfl

/-! ## C47, at the level of the prover -/

/-- C47, violation: for an honest chain that needs dummies, if a key of the epoch before them is the
padding key, the prover's own assignment does not satisfy its circuit. -/
theorem C47_prover (alloc : G2Var → Prop) (hashC : List Bool → List Bool → HashOut G1 → Prop)
    (hashW : List Bool → List Bool → Outcome Unit (HashOut G1)) (checks : Bool)
    (e : G1 → G2Point → GT) (gen1 : G1) {gen2 : G2Point} {n : ℕ}
    {b0 : EpochBlock} {ts : List (EpochTransition G1)} {last : EpochTransition G1} {max : ℕ}
    {H : EpochBlock → HashOut G1}
    (chain : HonestChain hashC hashW e gen2 n H b0 (ts ++ [last]))
    (hsize : ts.length + 1 < max)
    (hpad : gen2 ∈ ((ts.map (·.block)).getLast?.getD b0).newPublicKeys)
    (hdummy : ∃ hd, hashW ((dummyBlock gen2 n).encodeInnerToBitsCip22 gen2).1
      ((dummyBlock gen2 n).encodeInnerToBitsCip22 gen2).2 = .ok hd) :
    ∃ s c b, proverCircuit gen1 gen2 n b0 (ts ++ [last]) max = .ok s ∧
      CircuitVars.assign checks hashW s = .ok c ∧
      enforceEpochs alloc hashC e gen1 gen2 n c = .ok b ∧ ¬ b.sat := by
  let f : EpochTransition G1 → UpdateVars G1 := fun t =>
    UpdateVars.fill (EpochVars.assign (toEpochData t.block)) t.bitmap (H t.block)
  have hb : ∀ t ∈ ts ++ [last], t.block ∈ b0 :: (ts ++ [last]).map (·.block) := by
    intro t ht
    exact List.mem_cons_of_mem _ (List.mem_map_of_mem ht)
  have hupd : ∀ t ∈ ts ++ [last], UpdateVars.assign checks hashW (toUpdate t) = .ok (f t) := by
    intro t ht
    obtain ⟨h1, h2, h3, h4, h5⟩ := chain.blocks _ (hb t ht)
    have hin := assign_innerBits gen2 h4 h5 (by omega)
    obtain ⟨a, ha⟩ := exists_predecessor (b0 := b0) ht
    refine updateAssign_ok ?_ (chain.bitmap _ ha).2.2
    change hashW (EpochVars.assign (toEpochData t.block)).epochBits
      (EpochVars.assign (toEpochData t.block)).extraDataBits = _
    have e1 : (EpochVars.assign (toEpochData t.block)).epochBits =
      (t.block.encodeInnerToBitsCip22 gen2).1 := congrArg Prod.fst hin
    have e2 : (EpochVars.assign (toEpochData t.block)).extraDataBits =
      (t.block.encodeInnerToBitsCip22 gen2).2 := congrArg Prod.snd hin
    rw [e1, e2]
    exact (chain.hash t ht).1
  have hreal : ∀ t ∈ ts ++ [last], (f t).epoch.index ≠ 0 := by
    intro t ht hz
    obtain ⟨a, ha⟩ := exists_predecessor (b0 := b0) ht
    have := chain.index _ ha
    have hz' : ((t.block.index.toNat : ℕ) : Fq) = 0 := hz
    have := congrArg ZMod.val hz'
    rw [fq_natCast_val (u16_lt_fq _), ZMod.val_zero] at this
    simp only [] at *
    omega
  obtain ⟨s, hs, hs1, hs2, _, _, _, _, hs3⟩ := C48_shape gen1 gen2 n b0 (ts ++ [last]) max
    (by simp) (by simp; omega)
  have hepochs : s.epochs = ts.map toUpdate ++
      List.replicate (max - (ts.length + 1)) (toDummyUpdate gen2 n) ++ [toUpdate last] := by
    unfold proverCircuit at hs
    rw [proverEpochs_eq, Outcome.bind_ok, Outcome.map_eq_ok_iff] at hs
    obtain ⟨_, _, rfl⟩ := hs
    rfl
  obtain ⟨hd, hw⟩ := hdummy
  let d : UpdateVars G1 := UpdateVars.fill (EpochVars.assign (toDummyUpdate gen2 n).epochData)
    (List.replicate n true) hd
  have hcount : (List.replicate n true).count false = 0 := by rw [List.count_eq_zero]; simp
  have hdassign : UpdateVars.assign checks hashW (toDummyUpdate gen2 n) = .ok d := by
    have hea : EntropyOk (dummyBlock gen2 n).epochEntropy := by
      intro b hb; simp only [dummyBlock, Option.some.injEq] at hb; rw [← hb]; rfl
    have hin := assign_innerBits gen2 (b := dummyBlock gen2 n) hea hea (by simp [dummyBlock])
    refine updateAssign_ok ?_ (by change (List.replicate n true).count false < 256; omega)
    have h1 : (EpochVars.assign (toDummyUpdate gen2 n).epochData).epochBits =
      ((dummyBlock gen2 n).encodeInnerToBitsCip22 gen2).1 := congrArg Prod.fst hin
    have h2 : (EpochVars.assign (toDummyUpdate gen2 n).epochData).extraDataBits =
      ((dummyBlock gen2 n).encodeInnerToBitsCip22 gen2).2 := congrArg Prod.snd hin
    rw [h1, h2]; exact hw
  obtain ⟨k, hk⟩ : ∃ k, max - (ts.length + 1) = k + 1 := ⟨max - (ts.length + 1) - 1, by omega⟩
  let us : List (UpdateVars G1) := ts.map f ++ List.replicate (k + 1) d ++ [f last]
  have hmap : Outcome.mapM (UpdateVars.assign checks hashW) s.epochs = .ok us := by
    rw [Outcome.mapM_eq_ok_iff, hepochs, hk]
    refine List.rel_append (List.rel_append ?_ ?_) ?_
    · rw [List.forall₂_map_left_iff, List.forall₂_map_right_iff, List.forall₂_same]
      intro t ht
      exact hupd t (by simp [ht])
    · rw [List.forall₂_iff_get]
      refine ⟨by simp, ?_⟩
      intro i h1 h2
      simp only [List.get_eq_getElem, List.getElem_replicate]
      exact hdassign
    · exact List.Forall₂.cons (hupd last (by simp)) List.Forall₂.nil
  have hassign : ∃ c, CircuitVars.assign checks hashW s = .ok c ∧
      c.initial = EpochVars.assign (toEpochData b0) ∧ c.updates = us := by
    unfold CircuitVars.assign
    rw [hmap, Outcome.map_ok, hs2]
    exact ⟨_, rfl, rfl, rfl⟩
  obtain ⟨c, hc, hci, hcu⟩ := hassign
  have hinit : c.initial.keys.length = n := by
    rw [hci, assign_keys_length]
    exact (chain.blocks b0 (by simp)).1
  obtain ⟨b, hbk⟩ := enforce_ok (alloc := alloc) (hashC := hashC) (e := e) (gen1 := gen1)
    (gen2 := gen2) (c := c) hinit (by
      rw [hcu]
      intro u hu
      simp only [us, List.mem_append, List.mem_map, List.mem_replicate, List.mem_singleton] at hu
      have hf : ∀ t ∈ ts ++ [last], (f t).epoch.keys.length = n ∧ (f t).bitmap.length = n := by
        intro t ht
        obtain ⟨a, ha⟩ := exists_predecessor (b0 := b0) ht
        exact ⟨(assign_keys_length _).trans (chain.blocks _ (hb t ht)).1, (chain.bitmap _ ha).1⟩
      rcases hu with (⟨t, ht, rfl⟩ | ⟨_, rfl⟩) | rfl
      · exact hf t (by simp [ht])
      · exact ⟨(assign_keys_length _).trans (by simp [toDummyUpdate]), by simp [d, UpdateVars.fill]⟩
      · exact hf last (by simp))
  refine ⟨s, c, b, hs, hc, hbk, ?_⟩
  refine C47_violation alloc hashC hinit (pre := ts.map f) (d := d)
    (post := List.replicate k d ++ [f last]) ?_ rfl ?_ hbk
  · rw [hcu]
    simp [us, List.replicate_succ]
  · have hne : (ts.map f).filter (fun u => decide (u.epoch.index ≠ 0)) = ts.map f :=
      reals_real (by
        intro u hu
        obtain ⟨t, ht, rfl⟩ := List.mem_map.mp hu
        exact hreal t (by simp [ht]))
    have hp0 : ((ts.map f).map (·.epoch)).getLast?.getD c.initial =
        EpochVars.assign (toEpochData ((ts.map (·.block)).getLast?.getD b0)) := by
      have e1 : (ts.map f).map (·.epoch) =
          (ts.map (·.block)).map fun b => EpochVars.assign (toEpochData b) := by
        simp only [List.map_map]; rfl
      rw [e1, List.getLast?_map, hci]
      cases (ts.map (·.block)).getLast? <;> rfl
    rw [hne, hp0, assign_points]
    exact hpad

/-! ## C65 -/

theorem constrainUpdate_cases (alloc : G2Var → Prop)
    (hashC : List Bool → List Bool → HashOut G1 → Prop) (gen2 : G2Point) (n : ℕ) (prev : Previous)
    (eb : Bool) (u : UpdateVars G1) :
    constrainUpdate alloc hashC gen2 n prev eb u = .panic ∨
      u.epoch.keys.length = n ∧ ∃ r, constrainUpdate alloc hashC gen2 n prev eb u = .ok r := by
  unfold constrainUpdate
  split
  · exact Or.inl rfl
  · rename_i h
    unfold enforceBitmap enforceAggregatedPubkeys
    split
    · right
      refine ⟨?_, _, rfl⟩
      simp only [ne_eq, not_not, EpochVars.pubkeys, List.length_map] at h
      exact h.symm
    · exact Or.inl rfl

theorem intermediateLoop_panics (alloc : G2Var → Prop)
    (hashC : List Bool → List Bool → HashOut G1 → Prop) (gen1 : G1) (gen2 : G2Point) (n : ℕ)
    (eb : Bool) (last : LastVars) (us : List (UpdateVars G1)) (prev : Previous)
    (h : ∃ u ∈ us, u.epoch.keys.length ≠ n) :
    intermediateLoop alloc hashC gen1 gen2 n eb last us prev = .panic := by
  induction us generalizing prev with
  | nil => simp at h
  | cons u us ih =>
    simp only [intermediateLoop]
    rcases constrainUpdate_cases alloc hashC gen2 n prev eb u with hp | ⟨hk, r, hr⟩
    · rw [hp]; rfl
    · obtain ⟨v, hv, hvk⟩ := h
      rcases List.mem_cons.mp hv with rfl | hv
      · exact absurd hk hvk
      · rw [hr, Outcome.bind_ok, ih _ ⟨v, hv, hvk⟩]; rfl

/-- C65: a transition to a block with fewer (or more) keys than the circuit has validators makes the
synthesis of the prover's circuit panic, whatever its `maximum_validators` is. -/
theorem C65_panics (alloc : G2Var → Prop) (hashC : List Bool → List Bool → HashOut G1 → Prop)
    (hashW : List Bool → List Bool → Outcome Unit (HashOut G1)) (checks : Bool)
    (e : G1 → G2Point → GT) (gen1 : G1) (gen2 : G2Point) (n : ℕ) (b0 : EpochBlock)
    (ts : List (EpochTransition G1)) (max : ℕ) (t : EpochTransition G1) (ht : t ∈ ts)
    (hk : t.block.newPublicKeys.length ≠ n) {s : ValidatorSetUpdate G1} {c : CircuitVars G1}
    (hs : proverCircuit gen1 gen2 n b0 ts max = .ok s)
    (hc : CircuitVars.assign checks hashW s = .ok c) :
    enforceEpochs alloc hashC e gen1 gen2 n c = .panic := by
  have hmem : toUpdate t ∈ s.epochs := by
    by_cases hmax : max < ts.length
    · rw [C48_too_many _ _ _ _ _ _ hmax] at hs; cases hs
    obtain ⟨pre, last, rfl⟩ : ∃ pre last, ts = pre ++ [last] := by
      have hne : ts ≠ [] := by rintro rfl; simp at ht
      exact ⟨ts.dropLast, ts.getLast hne, (List.dropLast_append_getLast hne).symm⟩
    unfold proverCircuit at hs
    rw [proverEpochs_eq, Outcome.bind_ok, Outcome.map_eq_ok_iff] at hs
    obtain ⟨_, _, rfl⟩ := hs
    simp only [List.mem_append, List.mem_singleton] at ht ⊢
    rcases ht with ht | rfl
    · exact Or.inl (Or.inl (List.mem_map_of_mem ht))
    · exact Or.inr rfl
  unfold CircuitVars.assign at hc
  rw [Outcome.map_eq_ok_iff] at hc
  obtain ⟨us, hus, rfl⟩ := hc
  rw [Outcome.mapM_eq_ok_iff] at hus
  obtain ⟨u, hu, hau⟩ : ∃ u ∈ us, UpdateVars.assign checks hashW (toUpdate t) = .ok u := by
    clear hs
    generalize s.epochs = es at hus hmem
    induction hus with
    | nil => simp at hmem
    | @cons a b l l' h1 _ ih =>
      rcases List.mem_cons.mp hmem with h | h
      · exact ⟨b, by simp, by rw [h]; exact h1⟩
      · obtain ⟨u, hu, h2⟩ := ih h
        exact ⟨u, by simp [hu], h2⟩
  have hke : u.epoch.keys.length = t.block.newPublicKeys.length := by
    unfold UpdateVars.assign at hau
    simp only [Outcome.bind_eq_ok_iff, Outcome.map_eq_ok_iff] at hau
    obtain ⟨_, _, _, _, rfl⟩ := hau
    exact assign_keys_length _
  unfold enforceEpochs
  rw [intermediateLoop_panics _ _ _ _ _ _ _ _ _ ⟨u, hu, by rw [hke]; exact hk⟩]
  rfl

/-- C65: if the first block has fewer keys than its `maximum_validators`, the bits exposed by the
circuit are not its native encoding (they are shorter), so that the verifier's inputs differ. -/
theorem C65_first_differs (gen : G2Point) (b : EpochBlock) (hp : EntropyOk b.parentEntropy)
    (h : b.newPublicKeys.length < b.maximumValidators) :
    (EpochVars.assign (toEpochData b)).firstEpochBits.length <
      (b.encodeToBitsCip22 gen .first).length := by
  unfold EpochVars.firstEpochBits EpochBlock.encodeToBitsCip22
  rw [assign_keyBits, keyBits_eq]
  unfold EpochBlock.paddedKeys
  simp only [EpochVars.assign, toEpochData, frToBits_u16, frToBits_u32, frToBits_entropy hp,
    List.flatMap_append, List.length_append]
  have : 0 < ((List.replicate (b.maximumValidators - b.newPublicKeys.length) gen).flatMap
      encodePublicKey).length := by
    obtain ⟨k, hk⟩ : ∃ k, b.maximumValidators - b.newPublicKeys.length = k + 1 :=
      ⟨b.maximumValidators - b.newPublicKeys.length - 1, by omega⟩
    rw [hk, List.replicate_succ, List.flatMap_cons, List.length_append, encodePublicKey_length]
    omega
  omega

end

/-! ## Concrete chains -/

/-- A block with the given keys and index; entropies are linked. -/
noncomputable def chainBlock (keys : List G2Point) (m : UInt32) (i : UInt16) : EpochBlock where
  index := i
  round := 1
  epochEntropy := some (List.replicate 16 7)
  parentEntropy := some (List.replicate 16 7)
  maximumNonSigners := m
  maximumValidators := keys.length
  newPublicKeys := keys

/-- A transition to such a block, signed by `toyKey`. -/
noncomputable def chainStep (keys : List G2Point) (m : UInt32) (bitmap : List Bool) (i : UInt16) :
    EpochTransition ℤ where
  block := chainBlock keys m i
  aggregateSignature := -1
  bitmap := bitmap

theorem toy_signature : toyE (-1) (-g2Generator) * toyE 1 toyKey = 1 := by
  have hk : toyKey = -g2Generator := rfl
  rw [hk]
  unfold toyE
  rw [← ofAdd_add]
  simp

/-- Two transitions by one validator. -/
theorem toy_chain : HonestChain (G1 := ℤ) (fun _ _ h => h.messageHash = 1)
    (fun _ _ => .ok ⟨1, [], []⟩) toyE g2Generator 1 (fun _ => ⟨1, [], []⟩) (chainBlock [toyKey] 0 4)
    ([chainStep [toyKey] 0 [true] 5] ++ [chainStep [toyKey] 0 [true] 6]) where
  blocks := by
    intro b hb
    have : ∃ i, b = chainBlock [toyKey] 0 i := by
      simp only [List.cons_append, List.nil_append, List.map_cons, List.map_nil, List.mem_cons,
        List.not_mem_nil, or_false] at hb
      rcases hb with rfl | rfl | rfl
      · exact ⟨4, rfl⟩
      · exact ⟨5, rfl⟩
      · exact ⟨6, rfl⟩
    obtain ⟨i, rfl⟩ := this
    refine ⟨rfl, ?_, le_refl _, ?_, ?_⟩
    · intro pk hpk
      rw [List.mem_singleton.mp hpk]; exact toyKey_ne
    · intro b hb; simp only [chainBlock, Option.some.injEq] at hb; rw [← hb]; rfl
    · intro b hb; simp only [chainBlock, Option.some.injEq] at hb; rw [← hb]; rfl
  index := by
    intro p hp
    simp only [predecessors, List.cons_append, List.nil_append, List.map_cons, List.map_nil,
      List.zip_cons_cons, List.zip_nil_right, List.mem_cons, List.not_mem_nil, or_false] at hp
    rcases hp with rfl | rfl <;> rfl
  entropy := by
    intro _ p hp
    simp only [predecessors, List.cons_append, List.nil_append, List.map_cons, List.map_nil,
      List.zip_cons_cons, List.zip_nil_right, List.mem_cons, List.not_mem_nil, or_false] at hp
    rcases hp with rfl | rfl <;> rfl
  bitmap := by
    intro p hp
    simp only [predecessors, List.cons_append, List.nil_append, List.map_cons, List.map_nil,
      List.zip_cons_cons, List.zip_nil_right, List.mem_cons, List.not_mem_nil, or_false] at hp
    rcases hp with rfl | rfl <;> exact ⟨rfl, le_refl _, by decide⟩
  padding := by
    intro p hp
    simp only [predecessors, List.cons_append, List.nil_append, List.map_cons, List.map_nil,
      List.zip_cons_cons, List.zip_nil_right, List.mem_cons, List.not_mem_nil, or_false] at hp
    rcases hp with rfl | rfl <;>
    · intro x hx _
      change x ∈ [(toyKey, true)] at hx
      rw [List.mem_singleton.mp hx]
      exact toyKey_ne_gen
  hash := fun _ _ => ⟨rfl, rfl⟩
  signature := by
    intro p hp
    simp only [predecessors, List.cons_append, List.nil_append, List.map_cons, List.map_nil,
      List.zip_cons_cons, List.zip_nil_right, List.mem_cons, List.not_mem_nil, or_false] at hp
    rcases hp with rfl | rfl <;>
    · change toyE (-1) (-g2Generator) * toyE 1 [toyKey].sum = 1
      rw [List.sum_singleton]
      exact toy_signature

/-- Concrete case for C46, C42 and C44 (sound parts): two honest transitions in a circuit of size
five; the assignment satisfies the circuit, which enforces the entropy link and the threshold. -/
example : ∃ (c : CircuitVars ℤ) (b : EpochBits),
    enforceEpochs (fun v => v.z = 1) (fun _ _ h => h.messageHash = 1) toyE 1 g2Generator 1 c =
      .ok b ∧ b.sat ∧ c.updates.length = 5 ∧ c.real.length = 2 ∧
    b.lastEpochBits = (chainBlock [toyKey] 0 6).encodeLastToBits g2Generator ∧
    (∀ t ∈ c.transitions, t.2.epoch.parentEntropy = t.1.epochEntropy) ∧
    ∀ t ∈ c.transitions, t.1 = c.initial → t.2.bitmap.count false ≤ 0 := by
  have hinit := C46_complete (fun v => v.z = 1) (fun _ _ h => h.messageHash = 1)
    (fun _ _ => .ok ⟨1, [], []⟩) true (gen1 := (1 : ℤ)) (max := 5) toyE_left toyE_right
    (fun _ _ _ => rfl) (by decide +kernel) toy_chain (by decide)
    (by
      intro _
      refine ⟨?_, ?_, ⟨1, [], []⟩, rfl, rfl⟩
      · intro h; cases h
      · change g2Generator ∉ [toyKey]
        rw [List.mem_singleton]
        exact fun h => toyKey_ne_gen h.symm)
    (by
      change [toyKey].sum ≠ 0
      rw [List.sum_singleton]; exact toyKey_ne)
  obtain ⟨s, c, b, h1, h2, h3, h4, h5, h6, h7, h8⟩ := hinit
  have hci : c.initial = EpochVars.assign (toEpochData (chainBlock [toyKey] 0 4)) := by
    obtain ⟨s', hs', _, e2, _⟩ := C48_shape (1 : ℤ) g2Generator 1 (chainBlock [toyKey] 0 4)
      ([chainStep [toyKey] 0 [true] 5] ++ [chainStep [toyKey] 0 [true] 6]) 5 (by simp) (by simp)
    rw [h1] at hs'
    simp only [Outcome.ok.injEq] at hs'
    subst hs'
    unfold CircuitVars.assign at h2
    rw [Outcome.map_eq_ok_iff] at h2
    obtain ⟨_, _, rfl⟩ := h2
    simp only [e2]
  have hk : c.initial.keys.length = 1 := by rw [hci]; rfl
  have hm : c.initial.maximumNonSigners.val = 0 := by rw [hci]; rfl
  refine ⟨c, b, h3, h4, h7, ?_, h6, ?_, ?_⟩
  · simpa using congrArg List.length h8
  · refine C44_enforced _ _ hk h3 h4 ?_
    rw [hci]
    change entropyToFr (some (List.replicate 16 7)) ≠ 0
    rw [entropyToFr_ne_zero (by intro b hb; simp only [Option.some.injEq] at hb; rw [← hb]; rfl)]
    decide
  · intro t ht hti
    exact C42_in_range _ _ hk (by decide +kernel) h3 h4 ht 0 (by rw [hti, hm]; norm_num)
      ((frToBits_u32_iff _ _).mpr (by rw [hti, hm]; rfl))

/-- Concrete case for C47: one validator and one padding key, one transition, circuit of size
three: the prover's assignment is not satisfying. -/
example : ∃ s c b, proverCircuit (1 : ℤ) g2Generator 2 (chainBlock [toyKey, g2Generator] 1 4)
      [chainStep [toyKey, g2Generator] 1 [true, false] 5] 3 = .ok s ∧
    CircuitVars.assign true (fun _ _ => .ok ⟨1, [], []⟩) s = .ok c ∧
    enforceEpochs (fun v => v.z = 1) (fun _ _ h => h.messageHash = 1) toyE 1 g2Generator 2 c =
      .ok b ∧ ¬ b.sat := by
  refine C47_prover (fun v => v.z = 1) (fun _ _ h => h.messageHash = 1)
    (fun _ _ => .ok ⟨1, [], []⟩) true toyE 1 (gen2 := g2Generator) (n := 2) (ts := [])
    (H := fun _ => ⟨1, [], []⟩) ?_ (by decide) ?_ ⟨_, rfl⟩
  · have hpre : ∀ p, p ∈ predecessors (chainBlock [toyKey, g2Generator] 1 4)
        ([] ++ [chainStep [toyKey, g2Generator] 1 [true, false] 5]) →
        p = (chainBlock [toyKey, g2Generator] 1 4,
          chainStep [toyKey, g2Generator] 1 [true, false] 5) := by
      intro p hp
      simpa [predecessors] using hp
    constructor
    · intro b hb
      have : ∃ i, b = chainBlock [toyKey, g2Generator] 1 i := by
        simp only [List.nil_append, List.map_cons, List.map_nil, List.mem_cons,
          List.not_mem_nil, or_false] at hb
        rcases hb with rfl | rfl
        · exact ⟨4, rfl⟩
        · exact ⟨5, rfl⟩
      obtain ⟨i, rfl⟩ := this
      refine ⟨rfl, ?_, le_refl _, ?_, ?_⟩
      · intro pk hpk
        simp only [chainBlock, List.mem_cons, List.not_mem_nil, or_false] at hpk
        rcases hpk with rfl | rfl
        · exact toyKey_ne
        · intro h; cases h
      · intro b hb; simp only [chainBlock, Option.some.injEq] at hb; rw [← hb]; rfl
      · intro b hb; simp only [chainBlock, Option.some.injEq] at hb; rw [← hb]; rfl
    · intro p hp; rw [hpre p hp]; rfl
    · intro _ p hp; rw [hpre p hp]; rfl
    · intro p hp; rw [hpre p hp]; exact ⟨rfl, le_refl _, by decide⟩
    · intro p hp; rw [hpre p hp]
      intro x hx hb
      change x ∈ [(toyKey, true), (g2Generator, false)] at hx
      simp only [List.mem_cons, List.not_mem_nil, or_false] at hx
      rcases hx with rfl | rfl
      · exact toyKey_ne_gen
      · simp at hb
    · intro _ _; exact ⟨rfl, rfl⟩
    · intro p hp; rw [hpre p hp]
      change toyE (-1) (-g2Generator) * toyE 1 [toyKey].sum = 1
      rw [List.sum_singleton]
      exact toy_signature
  · change g2Generator ∈ [toyKey, g2Generator]
    simp

/-- Concrete case for C65: one key in a circuit for two validators. -/
example : ∃ s c, proverCircuit (1 : ℤ) g2Generator 2 (chainBlock [toyKey] 0 4)
      [chainStep [toyKey] 0 [true] 5] 1 = .ok s ∧
    CircuitVars.assign true (fun _ _ => .ok ⟨1, [], []⟩) s = .ok c ∧
    enforceEpochs (fun v => v.z = 1) (fun _ _ h => h.messageHash = 1) toyE 1 g2Generator 2 c =
      .panic := by
  refine ⟨_, _, rfl, rfl, ?_⟩
  exact C65_panics _ _ (fun _ _ => .ok ⟨1, [], []⟩) true toyE 1 g2Generator 2
    (chainBlock [toyKey] 0 4) [chainStep [toyKey] 0 [true] 5] 1 (chainStep [toyKey] 0 [true] 5)
    (by simp) (by change ([toyKey] : List G2Point).length ≠ 2; simp) rfl rfl

end Verif
