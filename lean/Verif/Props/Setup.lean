import Verif.Model.Setup
import Verif.Props.Prover
import Verif.Props.HashGadget

/-!
# The setup, and the shape of the circuits: C74 and C75

C74: what `trusted_setup` runs the parameter generators on, in which order and with which failures.
C75: when the synthesis of the epoch circuit panics, and when the prover's circuits have the shape
of those of the setup.
-/

namespace Verif

set_option linter.unusedSectionVars false

/-! ## C74 -/

section

variable {G1 HP VK PC PB R ε : Type*}

/-- The epoch circuit of a setup without values, field by field: `n` keys and bitmap bits, all
unassigned, in each of `numEpochs` updates, no signature, and the given helper. -/
structure IsBlank (n numEpochs : ℕ) (helper : Option (HashToBitsHelper HP VK))
    (c : ValidatorSetUpdateOpt G1 HP VK) : Prop where
  validators : c.numValidators = n % 2 ^ 32
  initial : c.initialEpoch.index = none ∧ c.initialEpoch.round = none ∧
    c.initialEpoch.epochEntropy = none ∧ c.initialEpoch.parentEntropy = none
  initialKeys : c.initialEpoch.publicKeys.length = n ∧ ∀ k ∈ c.initialEpoch.publicKeys, k = none
  epochs : c.epochs.length = numEpochs
  updates : ∀ u ∈ c.epochs, u.epochData.index = none ∧ u.epochData.round = none ∧
    u.epochData.epochEntropy = none ∧ u.epochData.parentEntropy = none
  updateKeys : ∀ u ∈ c.epochs, u.epochData.publicKeys.length = n ∧
    ∀ k ∈ u.epochData.publicKeys, k = none
  bitmaps : ∀ u ∈ c.epochs, u.signedBitmap.length = n ∧ ∀ b ∈ u.signedBitmap, b = none
  signature : c.aggregatedSignature = none
  helper : c.hashHelper = helper

theorem isBlank_empty (dp : HP) (n numEpochs m : ℕ) (vk : Option VK) :
    IsBlank n numEpochs (vk.map fun k => ⟨dp, k⟩)
      (ValidatorSetUpdateOpt.empty (G1 := G1) dp n numEpochs m vk) where
  validators := by simp [ValidatorSetUpdateOpt.empty]
  initial := ⟨rfl, rfl, rfl, rfl⟩
  initialKeys := ⟨by simp [ValidatorSetUpdateOpt.empty, EpochDataOpt.empty], fun k hk =>
    List.eq_of_mem_replicate hk⟩
  epochs := by simp [ValidatorSetUpdateOpt.empty]
  updates := fun u hu => by
    rw [List.eq_of_mem_replicate hu]; exact ⟨rfl, rfl, rfl, rfl⟩
  updateKeys := fun u hu => by
    rw [List.eq_of_mem_replicate hu]
    exact ⟨by simp [SingleUpdateOpt.empty, EpochDataOpt.empty], fun k hk =>
      List.eq_of_mem_replicate hk⟩
  bitmaps := fun u hu => by
    rw [List.eq_of_mem_replicate hu]
    exact ⟨by simp [SingleUpdateOpt.empty], fun k hk => List.eq_of_mem_replicate hk⟩
  signature := rfl
  helper := rfl

/-- C74: without the two-proof technique only the epoch circuit is set up, on a blank circuit
without helper, with the untouched random generator; the helper's generator plays no role. -/
theorem C74_single (dp : HP) (vkOf : PB → VK) (genB : HashToBits → R → Outcome ε PB × R)
    (genC : ValidatorSetUpdateOpt G1 HP VK → R → Outcome ε PC × R) (n numEpochs m : ℕ) (rng : R) :
    ∃ c, IsBlank n numEpochs none c ∧ c.initialEpoch.maximumNonSigners = UInt32.ofNat m ∧
      (∀ u ∈ c.epochs, u.epochData.maximumNonSigners = UInt32.ofNat m) ∧
      (∀ genB', trustedSetup dp vkOf genB' genC n numEpochs m rng false =
        trustedSetup dp vkOf genB genC n numEpochs m rng false) ∧
      (trustedSetup dp vkOf genB genC n numEpochs m rng false).2 = (genC c rng).2 ∧
      ∀ p, (trustedSetup dp vkOf genB genC n numEpochs m rng false).1 = .ok p ↔
        (genC c rng).1 = .ok p.epochs ∧ p.hashToBits = none := by
  refine ⟨ValidatorSetUpdateOpt.empty dp n numEpochs m none, isBlank_empty dp n numEpochs m none,
    rfl, fun u hu => by rw [List.eq_of_mem_replicate hu]; rfl, fun _ => rfl, rfl, fun p => ?_⟩
  change ((genC _ rng).1.map fun e => (⟨e, none⟩ : SetupParameters PC PB)) = .ok p ↔ _
  rw [Outcome.map_eq_ok_iff]
  constructor
  · rintro ⟨e, he, rfl⟩; exact ⟨he, rfl⟩
  · rintro ⟨he, hp⟩; exact ⟨_, he, by cases p; cases hp; rfl⟩

/-- C74: with the two-proof technique the helper is set up first, for one message of 384 bits per
epoch; the epoch circuit is then set up, with the random generator the helper's setup left, on a
blank circuit which embeds the verifying key of exactly the helper parameters that are returned. -/
theorem C74_double (dp : HP) (vkOf : PB → VK) (genB : HashToBits → R → Outcome ε PB × R)
    (genC : ValidatorSetUpdateOpt G1 HP VK → R → Outcome ε PC × R) (n numEpochs m : ℕ) (rng : R) :
    ∃ h : HashToBits, h.messageBits.length = numEpochs ∧
      (∀ b ∈ h.messageBits, b.length = 384 ∧ ∀ x ∈ b, x = none) ∧
      (∀ p, (trustedSetup dp vkOf genB genC n numEpochs m rng true).1 = .ok p ↔
        ∃ pb c, (genB h rng).1 = .ok pb ∧ p.hashToBits = some pb ∧
          IsBlank n numEpochs (some ⟨dp, vkOf pb⟩) c ∧
          c.initialEpoch.maximumNonSigners = UInt32.ofNat m ∧
          (∀ u ∈ c.epochs, u.epochData.maximumNonSigners = UInt32.ofNat m) ∧
          (genC c (genB h rng).2).1 = .ok p.epochs) ∧
      (∀ x, (genB h rng).1 = .err x →
        trustedSetup dp vkOf genB genC n numEpochs m rng true = (.err x, (genB h rng).2)) ∧
      ((genB h rng).1 = .panic →
        trustedSetup dp vkOf genB genC n numEpochs m rng true = (.panic, (genB h rng).2)) := by
  refine ⟨HashToBits.empty 377 numEpochs, List.length_replicate, ?_, ?_, ?_, ?_⟩
  · intro b hb
    rw [List.eq_of_mem_replicate hb]
    exact ⟨List.length_replicate, fun x hx => List.eq_of_mem_replicate hx⟩
  · intro p
    unfold trustedSetup setup
    simp only [if_true]
    rcases hB : (genB (HashToBits.empty 377 numEpochs) rng).1 with pb | x | _
    · simp only [Outcome.map_ok]
      rw [Outcome.map_eq_ok_iff]
      constructor
      · rintro ⟨e, he, rfl⟩
        exact ⟨pb, _, rfl, rfl, isBlank_empty dp n numEpochs m (some (vkOf pb)), rfl,
          fun u hu => by rw [List.eq_of_mem_replicate hu]; rfl, he⟩
      · rintro ⟨pb', c, h1, h2, h3, h4, h5, h6⟩
        cases h1
        have hc : c = ValidatorSetUpdateOpt.empty dp n numEpochs m (some (vkOf pb)) := by
          have hd : ∀ d : EpochDataOpt, d.index = none → d.round = none → d.epochEntropy = none →
              d.parentEntropy = none → d.publicKeys.length = n → (∀ k ∈ d.publicKeys, k = none) →
              d.maximumNonSigners = UInt32.ofNat m → d = EpochDataOpt.empty n m := by
            rintro ⟨_, _, _, _, _, ks⟩ h1 h2 h3 h4 h5 h6 h7
            simp only at h1 h2 h3 h4 h5 h6 h7
            subst h1 h2 h3 h4 h7
            simp only [EpochDataOpt.empty]
            congr 1
            exact List.eq_replicate_iff.mpr ⟨h5, h6⟩
          obtain ⟨c1, c2, c3, c4, c5⟩ := c
          have e1 := hd c1 h3.initial.1 h3.initial.2.1 h3.initial.2.2.1 h3.initial.2.2.2
            h3.initialKeys.1 h3.initialKeys.2 h4
          have e2 : c2 = (UInt32.ofNat n).toNat := by
            rw [UInt32.toNat_ofNat']; exact h3.validators
          have e3 : c3 = List.replicate numEpochs (SingleUpdateOpt.empty n m) := by
            refine List.eq_replicate_iff.mpr ⟨h3.epochs, fun u hu => ?_⟩
            have f1 := hd u.epochData (h3.updates u hu).1 (h3.updates u hu).2.1
              (h3.updates u hu).2.2.1 (h3.updates u hu).2.2.2 (h3.updateKeys u hu).1
              (h3.updateKeys u hu).2 (h5 u hu)
            have f2 := List.eq_replicate_iff.mpr (h3.bitmaps u hu)
            obtain ⟨u1, u2⟩ := u
            simp only at f1 f2
            subst f1 f2
            rfl
          have e4 : c4 = none := h3.signature
          have e5 : c5 = some ⟨dp, vkOf pb⟩ := h3.helper
          subst e1 e2 e3 e4 e5
          rfl
        subst hc
        exact ⟨_, h6, by cases p; cases h2; rfl⟩
    · simp only [Outcome.map]
      constructor
      · intro h; cases h
      · rintro ⟨_, _, h, _⟩; cases h
    · simp only [Outcome.map]
      constructor
      · intro h; cases h
      · rintro ⟨_, _, h, _⟩; cases h
  · intro x hx
    unfold trustedSetup setup
    simp only [if_true, hx]
    rfl
  · intro hx
    unfold trustedSetup setup
    simp only [if_true, hx]
    rfl

/-- Concrete case: the generators count their calls and record what they are given; a setup for
three validators and two epochs makes two calls, with a helper for two messages of 384 bits whose
key (here the number 768 of its message bits) is embedded in the second circuit. -/
example : trustedSetup (G1 := ℤ) (ε := Unit) () (fun k : ℕ => k)
    (fun h r => (.ok (h.messageBits.map List.length).sum, r + 1))
    (fun c r => (.ok (c.numValidators, c.epochs.length, c.hashHelper.map (·.verifyingKey), r), r + 1))
    3 2 1 (0 : ℕ) true = (.ok ⟨(3, 2, some 768, 1), some 768⟩, 2) := by
  simp only [trustedSetup, setup, HashToBits.empty, List.map_replicate, List.length_replicate,
    List.sum_replicate]
  rfl

/-- Concrete case: a failing helper setup stops before the epoch circuit. -/
example : trustedSetup (G1 := ℤ) (HP := Unit) (PC := Unit) () (fun k : ℕ => k)
    (fun _ r => (.err "x", r + 1)) (fun _ r => (.panic, r + 10)) 3 2 1 (0 : ℕ) true =
    (.err "x", 1) := by
  rfl

end

/-! ## C75 -/

section

variable {G1 GT : Type*} [AddCommGroup G1] [CommGroup GT]

theorem constrainUpdate_panic_iff (alloc : G2Var → Prop)
    (hashC : List Bool → List Bool → HashOut G1 → Prop) (gen2 : G2Point) (n : ℕ) (prev : Previous)
    (eb : Bool) (u : UpdateVars G1) :
    (u.epoch.keys.length = n ∧ u.bitmap.length = prev.pubkeys.length →
      ∃ r, constrainUpdate alloc hashC gen2 n prev eb u = .ok r) ∧
    (¬ (u.epoch.keys.length = n ∧ u.bitmap.length = prev.pubkeys.length) →
      constrainUpdate alloc hashC gen2 n prev eb u = .panic) := by
  unfold constrainUpdate enforceBitmap enforceAggregatedPubkeys
  simp only [EpochVars.pubkeys, List.length_map]
  constructor
  · rintro ⟨h1, h2⟩
    rw [if_neg (by simp [h1]), if_pos h2]
    exact ⟨_, rfl⟩
  · intro h
    split
    · rfl
    · rename_i h1
      rw [if_neg (by
        intro h2
        simp only [ne_eq, not_not] at h1
        exact h ⟨h1.symm, h2⟩)]
      rfl

theorem intermediateLoop_shape (alloc : G2Var → Prop)
    (hashC : List Bool → List Bool → HashOut G1 → Prop) (gen1 : G1) (gen2 : G2Point) (n : ℕ)
    (eb : Bool) (last : LastVars) (us : List (UpdateVars G1)) (prev : Previous) :
    ((∀ u ∈ us, u.epoch.keys.length = n) ∧ (∀ u ∈ us.head?, u.bitmap.length = prev.pubkeys.length) ∧
        (∀ u ∈ us.tail, u.bitmap.length = min n prev.pubkeys.length) →
      ∃ r, intermediateLoop alloc hashC gen1 gen2 n eb last us prev = .ok r ∧
        r.aggregatedPublicKeys.length = us.length ∧ r.messageHashes.length = us.length ∧
        r.crhBits = us.flatMap (·.hash.crhBits) ∧ r.xofBits = us.flatMap (·.hash.xofBits)) ∧
    (¬ ((∀ u ∈ us, u.epoch.keys.length = n) ∧
        (∀ u ∈ us.head?, u.bitmap.length = prev.pubkeys.length) ∧
        (∀ u ∈ us.tail, u.bitmap.length = min n prev.pubkeys.length)) →
      intermediateLoop alloc hashC gen1 gen2 n eb last us prev = .panic) := by
  induction us generalizing prev with
  | nil => exact ⟨fun _ => ⟨_, rfl, rfl, rfl, rfl, rfl⟩, fun h => absurd (by simp) h⟩
  | cons u us ih =>
    simp only [intermediateLoop]
    obtain ⟨c1, c2⟩ := constrainUpdate_panic_iff alloc hashC gen2 n prev eb u
    obtain ⟨i1, i2⟩ := ih (prev.next (!u.loopZero.2) u.epoch)
    have hlen : u.epoch.keys.length = n →
        (prev.next (!u.loopZero.2) u.epoch).pubkeys.length = min n prev.pubkeys.length := by
      intro h
      simp [Previous.next, EpochVars.pubkeys, h]
    constructor
    · rintro ⟨h1, h2, h3⟩
      have hu := h1 u List.mem_cons_self
      obtain ⟨c, hc⟩ := c1 ⟨hu, h2 u rfl⟩
      have hl := hlen hu
      obtain ⟨r, hr, l1, l2, l3, l4⟩ := i1 ⟨fun v hv => h1 v (List.mem_cons_of_mem _ hv),
        fun v hv => by rw [hl]; exact h3 v (List.mem_of_mem_head? hv),
        fun v hv => by
          rw [hl, h3 v (List.mem_of_mem_tail hv)]
          omega⟩
      rw [hc, Outcome.bind_ok, hr]
      exact ⟨_, rfl, by simp [l1], by simp [l2], by simp [l3], by simp [l4]⟩
    · intro h
      by_cases hk : u.epoch.keys.length = n ∧ u.bitmap.length = prev.pubkeys.length
      · obtain ⟨c, hc⟩ := c1 hk
        have hl := hlen hk.1
        rw [hc, Outcome.bind_ok]
        suffices hh : intermediateLoop alloc hashC gen1 gen2 n eb last us
            (prev.next (!u.loopZero.2) u.epoch) = .panic by rw [hh]; rfl
        apply i2
        rintro ⟨h1, h2, h3⟩
        apply h
        refine ⟨fun v hv => ?_, fun v hv => ?_, fun v hv => ?_⟩
        · rcases List.mem_cons.mp hv with rfl | hv
          · exact hk.1
          · exact h1 v hv
        · cases hv; exact hk.2
        · simp only [List.tail_cons] at hv
          cases us with
          | nil => simp at hv
          | cons w us =>
            rcases List.mem_cons.mp hv with rfl | hv
            · rw [h2 v rfl, hl]
            · rw [h3 v hv, hl]; omega
      · rw [c2 hk]; rfl

/-- C75: when the synthesis of the epoch circuit panics, exactly, for any values at all: if some
update does not have as many keys as the circuit has validators, if the bitmap of the first update
does not have a bit for each key of the initial epoch, or that of a later update for each key carried
over.  It never returns an error before the helper is verified. -/
theorem C75_panic_iff (alloc : G2Var → Prop) (hashC : List Bool → List Bool → HashOut G1 → Prop)
    (e : G1 → G2Point → GT) (gen1 : G1) (gen2 : G2Point) (n : ℕ) (c : CircuitVars G1) :
    (enforceEpochs alloc hashC e gen1 gen2 n c = .panic ↔
      (∃ u ∈ c.updates, u.epoch.keys.length ≠ n) ∨
      (∃ u ∈ c.updates.head?, u.bitmap.length ≠ c.initial.keys.length) ∨
      ∃ u ∈ c.updates.tail, u.bitmap.length ≠ min n c.initial.keys.length) ∧
    enforceEpochs alloc hashC e gen1 gen2 n c ≠ .err () := by
  obtain ⟨i1, i2⟩ := intermediateLoop_shape alloc hashC gen1 gen2 n (!c.entropyZero.2) c.last
    c.updates ⟨c.initial.pubkeys, c.initial.index, c.initial.epochEntropy,
      c.initial.maximumNonSigners⟩
  simp only [EpochVars.pubkeys, List.length_map] at i1 i2
  unfold enforceEpochs
  by_cases h : (∀ u ∈ c.updates, u.epoch.keys.length = n) ∧
      (∀ u ∈ c.updates.head?, u.bitmap.length = c.initial.keys.length) ∧
      (∀ u ∈ c.updates.tail, u.bitmap.length = min n c.initial.keys.length)
  · obtain ⟨r, hr, l1, l2, _⟩ := i1 h
    simp only [EpochVars.pubkeys]
    rw [hr, Outcome.bind_ok]
    unfold batchVerifyPrepared enforceBlsEquation
    rw [if_pos (by simp [l1, l2])]
    obtain ⟨h1, h2, h3⟩ := h
    refine ⟨⟨fun hp => (by cases hp), ?_⟩, (by intro hp; cases hp)⟩
    rintro (⟨u, hu, hn⟩ | ⟨u, hu, hn⟩ | ⟨u, hu, hn⟩)
    · exact absurd (h1 u hu) hn
    · exact absurd (h2 u hu) hn
    · exact absurd (h3 u hu) hn
  · simp only [EpochVars.pubkeys]
    rw [i2 h]
    refine ⟨⟨fun _ => ?_, fun _ => rfl⟩, (by intro hp; cases hp)⟩
    by_contra hc
    push Not at hc
    exact h ⟨hc.1, hc.2.1, hc.2.2⟩

/-- Variables of a circuit which have the shape `s`: as many keys and bitmap bits. -/
def HasShape {VK : Type*} (c : CircuitVars G1) (s : CircuitShape VK) : Prop :=
  c.initial.keys.length = s.initialKeys ∧
  c.updates.map (fun u => (u.epoch.keys.length, u.bitmap.length)) = s.updates

/-- C75: the circuit of the setup is synthesised without panic for fewer than `2 ^ 32` validators,
whatever the variables are. -/
theorem C75_setup_synthesised {HP VK : Type*} (alloc : G2Var → Prop)
    (hashC : List Bool → List Bool → HashOut G1 → Prop) (e : G1 → G2Point → GT) (gen1 : G1)
    (gen2 : G2Point) (dp : HP) (n numEpochs m : ℕ) (vk : Option VK) (hn : n < 2 ^ 32)
    (c : CircuitVars G1) (hc : HasShape c
      (ValidatorSetUpdateOpt.empty (G1 := G1) dp n numEpochs m vk).shape) :
    ∃ b, enforceEpochs alloc hashC e gen1 gen2
      (ValidatorSetUpdateOpt.empty (G1 := G1) dp n numEpochs m vk).numValidators c = .ok b := by
  have hv : (ValidatorSetUpdateOpt.empty (G1 := G1) dp n numEpochs m vk).numValidators = n := by
    simp only [ValidatorSetUpdateOpt.empty, UInt32.toNat_ofNat']
    exact Nat.mod_eq_of_lt hn
  obtain ⟨h1, h2⟩ := hc
  have h1 : c.initial.keys.length = n := by
    rw [h1]
    simp [ValidatorSetUpdateOpt.shape, ValidatorSetUpdateOpt.empty, EpochDataOpt.empty]
  have h2 : ∀ u ∈ c.updates, u.epoch.keys.length = n ∧ u.bitmap.length = n := by
    intro u hu
    have : (u.epoch.keys.length, u.bitmap.length) ∈ c.updates.map
        (fun u => (u.epoch.keys.length, u.bitmap.length)) := List.mem_map_of_mem hu
    rw [h2] at this
    simp only [ValidatorSetUpdateOpt.shape, ValidatorSetUpdateOpt.empty, List.map_replicate] at this
    have := List.eq_of_mem_replicate this
    simp only [SingleUpdateOpt.empty, EpochDataOpt.empty, List.length_replicate,
      Prod.mk.injEq] at this
    exact this
  obtain ⟨p1, p2⟩ := C75_panic_iff alloc hashC e gen1 gen2
    (ValidatorSetUpdateOpt.empty (G1 := G1) dp n numEpochs m vk).numValidators c
  rcases hE : enforceEpochs alloc hashC e gen1 gen2
    (ValidatorSetUpdateOpt.empty (G1 := G1) dp n numEpochs m vk).numValidators c with b | x | _
  · exact ⟨b, rfl⟩
  · exact absurd hE p2
  · rw [hv] at p1 hE
    exfalso
    rcases p1.mp hE with ⟨u, hu, h⟩ | ⟨u, hu, h⟩ | ⟨u, hu, h⟩
    · exact h (h2 u hu).1
    · exact h (by rw [(h2 u (List.mem_of_mem_head? hu)).2, h1])
    · exact h (by rw [(h2 u (List.mem_of_mem_tail hu)).2, h1, min_self])

/-- C75: from `2 ^ 32` validators on, the truncation to 32 bits makes the circuit of the setup
panic (for at least one epoch). -/
theorem C75_setup_truncation {HP VK : Type*} (alloc : G2Var → Prop)
    (hashC : List Bool → List Bool → HashOut G1 → Prop) (e : G1 → G2Point → GT) (gen1 : G1)
    (gen2 : G2Point) (dp : HP) (n numEpochs m : ℕ) (vk : Option VK) (hn : 2 ^ 32 ≤ n)
    (hE : numEpochs ≠ 0) (c : CircuitVars G1) (hc : HasShape c
      (ValidatorSetUpdateOpt.empty (G1 := G1) dp n numEpochs m vk).shape) :
    enforceEpochs alloc hashC e gen1 gen2
      (ValidatorSetUpdateOpt.empty (G1 := G1) dp n numEpochs m vk).numValidators c = .panic := by
  obtain ⟨_, h2⟩ := hc
  simp only [ValidatorSetUpdateOpt.shape, ValidatorSetUpdateOpt.empty, List.map_replicate] at h2
  obtain ⟨k, rfl⟩ := Nat.exists_eq_succ_of_ne_zero hE
  obtain ⟨u, hu⟩ : ∃ u, u ∈ c.updates := by
    apply List.exists_mem_of_ne_nil
    rintro h
    rw [h] at h2
    simp at h2
  have : (u.epoch.keys.length, u.bitmap.length) ∈ c.updates.map
      (fun u => (u.epoch.keys.length, u.bitmap.length)) := List.mem_map_of_mem hu
  rw [h2] at this
  have := List.eq_of_mem_replicate this
  simp only [SingleUpdateOpt.empty, EpochDataOpt.empty, List.length_replicate,
    Prod.mk.injEq] at this
  refine (C75_panic_iff alloc hashC e gen1 gen2 _ c).1.mpr (Or.inl ⟨u, hu, ?_⟩)
  rw [this.1]
  simp only [ValidatorSetUpdateOpt.empty, UInt32.toNat_ofNat']
  have := Nat.mod_lt n (show 0 < 2 ^ 32 by norm_num)
  omega

/-- C75: the prover's epoch circuit has the shape of the circuit of a setup for `n` validators and
`numEpochs` epochs exactly if it is padded to `numEpochs` updates, every block has `n` keys and every
bitmap `n` bits, and the helper has the same key (or is absent on both sides).  The maximum number of
non-signers given to the setup plays no role. -/
theorem C75_shape_iff {HP VK : Type*} (gen1 : G1) (gen2 : G2Point) (dp : HP) (n numEpochs m : ℕ)
    (vk : Option VK) (hn : n < 2 ^ 32) (b0 : EpochBlock) (ts : List (EpochTransition G1)) (max : ℕ)
    (hne : ts ≠ []) (helper : Option (HashToBitsHelper HP VK)) {s : ValidatorSetUpdate G1}
    (hs : proverCircuit gen1 gen2 n b0 ts max = .ok s) :
    (s.toOpt helper).shape =
        (ValidatorSetUpdateOpt.empty (G1 := G1) dp n numEpochs m vk).shape ↔
      max = numEpochs ∧ b0.newPublicKeys.length = n ∧
      (∀ t ∈ ts, t.block.newPublicKeys.length = n ∧ t.bitmap.length = n) ∧
      helper.map (·.verifyingKey) = vk := by
  have hmax : ts.length ≤ max := by
    by_contra h
    rw [C48_too_many _ _ _ _ _ _ (by omega)] at hs
    cases hs
  obtain ⟨s', hs', h1, h2, h3, h4, h5, h6, _⟩ := C48_shape gen1 gen2 n b0 ts max hne hmax
  rw [hs] at hs'
  cases hs'
  have hvk : (vk.map fun k => (⟨dp, k⟩ : HashToBitsHelper HP VK)).map (·.verifyingKey) = vk := by
    cases vk <;> rfl
  have hupd : (s.epochs.map fun u => (u.epochData.publicKeys.length, u.signedBitmap.length)) =
      List.replicate numEpochs (n, n) ↔
      max = numEpochs ∧ ∀ t ∈ ts, t.block.newPublicKeys.length = n ∧ t.bitmap.length = n := by
    rw [List.eq_replicate_iff, List.length_map, h3]
    apply and_congr_right
    intro _
    have hpos : 0 < ts.length := List.length_pos_iff.mpr hne
    constructor
    · intro h t ht
      obtain ⟨i, hi, rfl⟩ := List.getElem_of_mem ht
      have hmem : toUpdate ts[i] ∈ s.epochs := by
        by_cases hi' : i < ts.length - 1
        · exact List.mem_of_getElem? (h4 i hi')
        · have : ts[i] = ts.getLast hne := by
            rw [List.getLast_eq_getElem]
            congr 1
            omega
          rw [this]
          exact List.mem_of_getElem? h6
      have := h _ (List.mem_map_of_mem hmem)
      simpa [toUpdate, toEpochData] using this
    · intro h p hp
      obtain ⟨u, hu, rfl⟩ := List.mem_map.mp hp
      obtain ⟨i, hi, rfl⟩ := List.getElem_of_mem hu
      have key : ∀ t ∈ ts, s.epochs[i] = toUpdate t →
          (s.epochs[i].epochData.publicKeys.length, s.epochs[i].signedBitmap.length) = (n, n) := by
        intro t ht e
        rw [e, Prod.mk.injEq]
        exact h t ht
      have hgi : s.epochs[i]? = some s.epochs[i] := List.getElem?_eq_getElem hi
      by_cases hi1 : i < ts.length - 1
      · have e := h4 i hi1
        rw [hgi] at e
        exact key _ (List.getElem_mem _) (Option.some.inj e)
      · by_cases hi2 : i < max - 1
        · have e := h5 i (by omega) hi2
          rw [hgi] at e
          rw [Option.some.inj e]
          simp [toDummyUpdate]
        · have : i = max - 1 := by omega
          subst this
          have e := h6
          rw [hgi] at e
          exact key _ (List.getLast_mem hne) (Option.some.inj e)
  have hlhs : (s.toOpt helper).shape = ⟨n, b0.newPublicKeys.length,
      s.epochs.map fun u => (u.epochData.publicKeys.length, u.signedBitmap.length),
      helper.map (·.verifyingKey)⟩ := by
    simp only [ValidatorSetUpdateOpt.shape, ValidatorSetUpdate.toOpt, h1, h2, EpochData.toOpt,
      toEpochData, List.length_map, List.map_map, SingleUpdate.toOpt, Function.comp_def]
  have hrhs : (ValidatorSetUpdateOpt.empty (G1 := G1) dp n numEpochs m vk).shape =
      ⟨n, n, List.replicate numEpochs (n, n), vk⟩ := by
    simp only [ValidatorSetUpdateOpt.shape, ValidatorSetUpdateOpt.empty, UInt32.toNat_ofNat',
      Nat.mod_eq_of_lt hn, EpochDataOpt.empty, SingleUpdateOpt.empty, List.map_replicate,
      List.length_replicate, hvk]
  rw [hlhs, hrhs, CircuitShape.mk.injEq, hupd]
  tauto

/-- C75: in particular the values do not matter: the shape is independent of the maximum number of
non-signers. -/
theorem C75_nonsigners {HP VK : Type*} (dp : HP) (n numEpochs m m' : ℕ) (vk : Option VK) :
    (ValidatorSetUpdateOpt.empty (G1 := G1) dp n numEpochs m vk).shape =
      (ValidatorSetUpdateOpt.empty (G1 := G1) dp n numEpochs m' vk).shape := by
  simp [ValidatorSetUpdateOpt.shape, ValidatorSetUpdateOpt.empty, EpochDataOpt.empty,
    SingleUpdateOpt.empty]

/-! ### The helper -/

/-- Number of public inputs of a helper for `k` epochs: 384 and 512 bits per epoch, in elements of
252 bits. -/
def helperInputs (k : ℕ) : ℕ := (384 * k + 251) / 252 + (512 * k + 251) / 252

theorem helperInputs_lt {j k : ℕ} (h : j < k) : helperInputs j < helperInputs k := by
  unfold helperInputs
  have h1 : (384 * j + 251) / 252 < (384 * k + 251) / 252 := by omega
  have h2 : (512 * j + 251) / 252 ≤ (512 * k + 251) / 252 := by omega
  omega

theorem helperMessages_lengths {gen2 : G2Point} {pedersen : Bytes → Outcome BLSError Bytes}
    (hlen : ∀ m d, pedersen m = .ok d → d.length = 48) {ts : List (EpochTransition G1)}
    {ms : List (List Bool)} (h : helperMessages gen2 pedersen ts = .ok ms) :
    ms.map List.length = List.replicate ts.length 384 := by
  unfold helperMessages at h
  rw [Outcome.mapM_eq_ok_iff] at h
  induction h with
  | nil => rfl
  | cons hd _ ih =>
    rw [List.map_cons, ih, List.length_cons, List.replicate_succ]
    congr 1
    split at hd
    · rename_i d hd'
      cases hd
      unfold bytesLeToBitsBe
      rw [List.length_reverse, List.length_take, flatMap_unpack_length, hlen _ _ hd']
      norm_num
    · cases hd

/-- C75 (violated): the helper circuit of the prover has one message per **transition**, without
padding; it has the shape of the helper circuit of the setup exactly if there are as many transitions
as epochs in the setup. -/
theorem C75_helper_shape_iff {gen2 : G2Point} {pedersen : Bytes → Outcome BLSError Bytes}
    (hlen : ∀ m d, pedersen m = .ok d → d.length = 48) (ts : List (EpochTransition G1))
    {h : HashToBits} (hh : proverHelperCircuit gen2 pedersen ts = .ok h) (numEpochs : ℕ) :
    h.shape = (HashToBits.empty 377 numEpochs).shape ↔ ts.length = numEpochs := by
  unfold proverHelperCircuit at hh
  rw [Outcome.map_eq_ok_iff] at hh
  obtain ⟨ms, hms, rfl⟩ := hh
  have h1 := helperMessages_lengths hlen hms
  have h2 : (⟨ms.map (·.map some)⟩ : HashToBits).shape = List.replicate ts.length 384 := by
    rw [← h1]
    simp [HashToBits.shape, Function.comp_def]
  have h3 : (HashToBits.empty 377 numEpochs).shape = List.replicate numEpochs 384 := by
    simp only [HashToBits.shape, HashToBits.empty, List.map_replicate, List.length_replicate]
  rw [h2, h3]
  constructor
  · intro h
    simpa using congrArg List.length h
  · rintro rfl; rfl

/-- C75: the number of public inputs of a satisfied helper circuit for `k` messages of 384 bits. -/
theorem C75_helper_inputs (K : Blake2sCore) {messages : List (List Bool)} {k : ℕ}
    (hk : messages.map List.length = List.replicate k 384) {mi xi : List (ZMod FR_MODULUS)}
    {sat : Prop} (h : helperCircuit K messages mi xi = .ok sat) (hs : sat) :
    mi.length + xi.length = helperInputs k := by
  unfold helperCircuit helperBits at h
  have hb : ∀ m : List Bool, ∃ o, hashToBitsBlake K m 512 SIG_DOMAIN = .ok o ∧ o.length = 512 := by
    intro m
    refine ⟨_, if_neg (by decide), ?_⟩
    rw [List.length_flatMap]
    have : ((512 : UInt16) / 256).toNat = 2 := by decide
    rw [this]
    have hl : ∀ a b, (K.evaluate a b).length = 256 := by
      intro a b
      unfold Blake2sCore.evaluate
      rw [bytesLeToBitsLe_all _ 256 (by rw [K.length_digest]), flatMap_unpack_length,
        K.length_digest]
    simp only [hl]
    rfl
  have hlen : messages.length = k := by simpa using congrArg List.length hk
  have hml : messages.flatten.length = 384 * k := by
    rw [List.length_flatten, hk, List.sum_replicate]
    simp [mul_comm]
  have hx : ∃ hs, Outcome.mapM (fun m => hashToBitsBlake K m 512 SIG_DOMAIN) messages = .ok hs ∧
      hs.flatten.length = 512 * k := by
    rw [← hlen]
    clear hk hlen hml h
    induction messages with
    | nil => exact ⟨[], rfl, rfl⟩
    | cons m ms ih =>
      obtain ⟨o, ho, hol⟩ := hb m
      obtain ⟨os, hos, hosl⟩ := ih
      refine ⟨o :: os, ?_, ?_⟩
      · rw [Outcome.mapM_eq_ok_iff] at hos ⊢
        exact List.Forall₂.cons ho hos
      · simp only [List.flatten_cons, List.length_append, hol, hosl, List.length_cons]
        ring
  obtain ⟨os, hos, hosl⟩ := hx
  rw [hos] at h
  simp only [Outcome.map_ok] at h
  cases h
  obtain ⟨h1, h2⟩ := hs
  rw [← h1.length_eq, ← h2.length_eq, chunks_length (by norm_num), chunks_length (by norm_num), hml,
    hosl]
  rfl

/-- C75: the epoch circuit gives the helper's verifier as many public inputs as a helper for all its
updates has, dummies included (384 CRH bits and 512 XOF bits each). -/
theorem C75_expected_inputs {alloc : G2Var → Prop}
    {hashC : List Bool → List Bool → HashOut G1 → Prop} {e : G1 → G2Point → GT} {gen1 : G1}
    {gen2 : G2Point} {n : ℕ} {c : CircuitVars G1} {b : EpochBits}
    (hb : enforceEpochs alloc hashC e gen1 gen2 n c = .ok b)
    (hl : ∀ u ∈ c.updates, u.hash.crhBits.length = 384 ∧ u.hash.xofBits.length = 512) :
    (leChunks b.crhBits 252 ++ leChunks b.xofBits 252).length = helperInputs c.updates.length := by
  have hbits : b.crhBits = c.updates.flatMap (·.hash.crhBits) ∧
      b.xofBits = c.updates.flatMap (·.hash.xofBits) := by
    obtain ⟨i1, i2⟩ := intermediateLoop_shape alloc hashC gen1 gen2 n (!c.entropyZero.2) c.last
      c.updates ⟨c.initial.pubkeys, c.initial.index, c.initial.epochEntropy,
        c.initial.maximumNonSigners⟩
    unfold enforceEpochs at hb
    by_cases h : (∀ u ∈ c.updates, u.epoch.keys.length = n) ∧
      (∀ u ∈ c.updates.head?, u.bitmap.length = c.initial.pubkeys.length) ∧
      (∀ u ∈ c.updates.tail, u.bitmap.length = min n c.initial.pubkeys.length)
    · obtain ⟨r, hr, _, _, l3, l4⟩ := i1 h
      rw [hr, Outcome.bind_ok, Outcome.map_eq_ok_iff] at hb
      obtain ⟨_, _, rfl⟩ := hb
      exact ⟨l3, l4⟩
    · rw [i2 h] at hb; cases hb
  have h1 : b.crhBits.length = 384 * c.updates.length := by
    rw [hbits.1, List.length_flatMap, List.map_congr_left (g := fun _ => 384)
      fun u hu => (hl u hu).1]
    simp [mul_comm]
  have h2 : b.xofBits.length = 512 * c.updates.length := by
    rw [hbits.2, List.length_flatMap, List.map_congr_left (g := fun _ => 512)
      fun u hu => (hl u hu).2]
    simp [mul_comm]
  simp only [leChunks, List.length_append, List.length_map]
  rw [chunks_length (by norm_num), chunks_length (by norm_num), h1, h2]
  rfl

/-- C75 (violated): a chain shorter than the circuit and a helper do not go together.  The helper
statement of the prover has fewer public inputs than the epoch circuit hands to the helper's verifier,
and its circuit does not have the shape of the setup's; so if the proving library refuses circuits
which do not have the shape its parameters were made for, `prove` fails for every padded chain. -/
theorem C75_padded_helper {HP VK PC PB Proof : Type*} (gen1 : G1) {gen2 : G2Point}
    {pedersen : Bytes → Outcome BLSError Bytes}
    (hlen : ∀ m d, pedersen m = .ok d → d.length = 48)
    {createProofB : HashToBits → PB → Outcome Unit HP}
    (createProofC : ValidatorSetUpdateOpt G1 HP VK → PC → Outcome Unit Proof) (vkOf : PB → VK)
    (epochs : PC) {params : PB} {max : ℕ}
    (hlib : ∀ h proof, createProofB h params = .ok proof →
      h.shape = (HashToBits.empty 377 max).shape)
    (n : ℕ) (b0 : EpochBlock) {ts : List (EpochTransition G1)} (h : ts.length < max) :
    helperInputs ts.length < helperInputs max ∧
    ∀ proof, prove gen1 gen2 pedersen createProofB createProofC vkOf ⟨epochs, some params⟩ n b0 ts
      max ≠ .ok proof := by
  refine ⟨helperInputs_lt h, fun proof hp => ?_⟩
  unfold prove generateHashHelper at hp
  rw [Outcome.bind_eq_ok_iff] at hp
  obtain ⟨es, _, hp⟩ := hp
  rw [Outcome.bind_eq_ok_iff] at hp
  obtain ⟨hh, h1, _⟩ := hp
  rw [Outcome.map_eq_ok_iff] at h1
  obtain ⟨hh', h1, _⟩ := h1
  rw [Outcome.bind_eq_ok_iff] at h1
  obtain ⟨circuit, h2, h3⟩ := h1
  rw [Outcome.map_eq_ok_iff] at h3
  obtain ⟨pf, h4, _⟩ := h3
  have := (C75_helper_shape_iff hlen ts h2 max).mp (hlib _ _ h4)
  omega

/-- C75: without a helper, or for a chain as long as the circuit, `prove` hands the proving library
circuits of the shape of the setup's, if every block has `n` keys and every bitmap `n` bits; with a
helper, the epoch circuit embeds the key of the helper parameters. -/
theorem C75_prove {HP VK PC PB Proof : Type*} {gen1 : G1} {gen2 : G2Point}
    {pedersen : Bytes → Outcome BLSError Bytes}
    (hlen : ∀ m d, pedersen m = .ok d → d.length = 48)
    {createProofB : HashToBits → PB → Outcome Unit HP}
    {createProofC : ValidatorSetUpdateOpt G1 HP VK → PC → Outcome Unit Proof} {vkOf : PB → VK}
    {parameters : SetupParameters PC PB} {max n : ℕ} {b0 : EpochBlock}
    {ts : List (EpochTransition G1)} {proof : Proof} (dp : HP) (m : ℕ) (hn : n < 2 ^ 32)
    (hne : ts ≠ []) (hb0 : b0.newPublicKeys.length = n)
    (hts : ∀ t ∈ ts, t.block.newPublicKeys.length = n ∧ t.bitmap.length = n)
    (hmax : parameters.hashToBits = none ∨ ts.length = max)
    (h : prove gen1 gen2 pedersen createProofB createProofC vkOf parameters n b0 ts max =
      .ok proof) :
    (∃ c, createProofC c parameters.epochs = .ok proof ∧
      c.shape = (ValidatorSetUpdateOpt.empty (G1 := G1) dp n max m
        (parameters.hashToBits.map vkOf)).shape) ∧
    ∀ params, parameters.hashToBits = some params → ∃ c pf, createProofB c params = .ok pf ∧
      c.shape = (HashToBits.empty 377 max).shape := by
  unfold prove at h
  rw [Outcome.bind_eq_ok_iff] at h
  obtain ⟨es, h1, h⟩ := h
  rw [Outcome.bind_eq_ok_iff] at h
  obtain ⟨hh, h2, h⟩ := h
  rw [Outcome.bind_eq_ok_iff] at h
  obtain ⟨asig, h3, h⟩ := h
  have hs : proverCircuit gen1 gen2 n b0 ts max = .ok ⟨toEpochData b0, es, n, asig⟩ := by
    unfold proverCircuit
    rw [h1, Outcome.bind_ok, h3]
    rfl
  have hkey : hh.map (·.verifyingKey) = parameters.hashToBits.map vkOf ∧
      ∀ params, parameters.hashToBits = some params → ∃ c pf, createProofB c params = .ok pf ∧
        c.shape = (HashToBits.empty 377 max).shape := by
    rcases hp : parameters.hashToBits with _ | params
    · rw [hp] at h2
      cases h2
      exact ⟨rfl, fun _ h => by cases h⟩
    · rw [hp] at h2 hmax
      simp only [Outcome.map_eq_ok_iff, generateHashHelper, Outcome.bind_eq_ok_iff] at h2
      obtain ⟨_, ⟨circuit, h4, pf, h5, rfl⟩, rfl⟩ := h2
      refine ⟨rfl, fun p hp' => ?_⟩
      cases hp'
      rcases hmax with hmax | hmax
      · cases hmax
      · exact ⟨circuit, pf, h5, (C75_helper_shape_iff hlen ts h4 max).mpr hmax⟩
  refine ⟨⟨_, h, ?_⟩, hkey.2⟩
  exact (C75_shape_iff gen1 gen2 dp n max m _ hn b0 ts max hne hh hs).mpr
    ⟨rfl, hb0, hts, hkey.1⟩

/-- Concrete case: one validator and two updates, the second with a bitmap of two bits: synthesis
panics, whatever the values are. -/
example (c : CircuitVars G1) (u v : UpdateVars G1) (hc : c.updates = [u, v])
    (h0 : c.initial.keys.length = 1) (h1 : v.bitmap.length = 2) (e : G1 → G2Point → GT) (gen1 : G1) :
    enforceEpochs (fun _ => True) (fun _ _ _ => True) e gen1 g2Generator 1 c = .panic :=
  (C75_panic_iff _ _ _ _ _ _ _).1.mpr (Or.inr (Or.inr ⟨v, by rw [hc]; simp, by rw [h0, h1]; decide⟩))

/-- Concrete case: one transition of one validator, padded to three, and without helper: the prover's
circuit has the shape of that of the setup, and `prove` returns the library's proof. -/
example : ∃ s : ValidatorSetUpdate ℤ,
    proverCircuit 1 g2Generator 1 (chainBlock [toyKey] 0 4) [chainStep [toyKey] 0 [true] 5] 3 =
      .ok s ∧
    (s.toOpt (none : Option (HashToBitsHelper Unit Unit))).shape =
      (ValidatorSetUpdateOpt.empty (G1 := ℤ) () 1 3 7 none).shape := by
  obtain ⟨s, hs, _⟩ := C48_shape (1 : ℤ) g2Generator 1 (chainBlock [toyKey] 0 4)
    [chainStep [toyKey] 0 [true] 5] 3 (by simp) (by simp)
  refine ⟨s, hs, ?_⟩
  refine (C75_shape_iff (1 : ℤ) g2Generator () 1 3 7 none (by norm_num) _ _ _ (by simp) none
    hs).mpr ⟨rfl, rfl, ?_, rfl⟩
  intro t ht
  cases List.mem_singleton.mp ht
  exact ⟨rfl, rfl⟩

/-- A proving library which refuses helper circuits of the wrong shape (for the concrete cases). -/
def strictCreateProof (h : HashToBits) (numEpochs : ℕ) : Outcome Unit ℕ :=
  if h.shape = (HashToBits.empty 377 numEpochs).shape then .ok 5 else .err ()

theorem strictCreateProof_shape (h : HashToBits) (k proof : ℕ)
    (hp : strictCreateProof h k = .ok proof) : h.shape = (HashToBits.empty 377 k).shape := by
  unfold strictCreateProof at hp
  split at hp
  · assumption
  · cases hp

/-- Concrete case: with that library and a helper set up for three epochs, a single transition cannot
be proven. -/
example (proof : ℕ) : prove (1 : ℤ) g2Generator (fun m => .ok (leBytes 48 m.length))
    strictCreateProof (fun (_ : ValidatorSetUpdateOpt ℤ ℕ ℕ) (_ : ℕ) => .ok 6) (fun k => k)
    ⟨0, some 3⟩ 1 (chainBlock [toyKey] 0 4) [chainStep [toyKey] 0 [true] 5] 3 ≠ .ok proof :=
  (C75_padded_helper (1 : ℤ) (by rintro m d h; cases h; exact leBytes_length _ _) _ _ _
    (fun h proof hp => strictCreateProof_shape h 3 proof hp) 1 _ (by simp)).2 proof

/-- Concrete case: with a helper for one epoch the same transition is proven, with circuits of the
shapes of the setup. -/
example : prove (1 : ℤ) g2Generator (fun m => .ok (leBytes 48 m.length))
    strictCreateProof (fun (_ : ValidatorSetUpdateOpt ℤ ℕ ℕ) (_ : ℕ) => .ok 6) (fun k => k)
    ⟨0, some 1⟩ 1 (chainBlock [toyKey] 0 4) [chainStep [toyKey] 0 [true] 5] 1 = .ok 6 := by
  have hlen : ∀ (m d : Bytes), (Outcome.ok (leBytes 48 m.length) : Outcome BLSError Bytes) = .ok d →
      d.length = 48 := by rintro m d h; cases h; exact leBytes_length _ _
  obtain ⟨h, hh⟩ : ∃ h, proverHelperCircuit g2Generator (fun m => .ok (leBytes 48 m.length))
      [chainStep [toyKey] 0 [true] 5] = .ok h := ⟨_, rfl⟩
  have hp : strictCreateProof h 1 = .ok 5 :=
    if_pos ((C75_helper_shape_iff hlen _ hh 1).mpr rfl)
  have he : ∃ es, proverEpochs g2Generator 1 [chainStep [toyKey] 0 [true] 5] 1 = .ok es := ⟨_, rfl⟩
  obtain ⟨es, he⟩ := he
  unfold prove generateHashHelper
  rw [he, Outcome.bind_ok, hh]
  simp only [Outcome.bind_ok, hp]
  rfl

end

end Verif
