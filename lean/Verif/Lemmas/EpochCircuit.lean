import Verif.Model.EpochCircuit
import Verif.Lemmas.Encoding
import Verif.Props.Gadgets

/-! Helper lemmas about the epoch circuit. -/

set_option linter.unusedSectionVars false

namespace Verif

theorem fqBitsLe_length (x : Fq) : (fqBitsLe x).length = 377 := by simp [fqBitsLe]

theorem fieldBitsBe_eq_encodeFq (x : Fq) : fieldBitsBe 377 x = encodeFq x := by
  have h := eq_range_map_testBit (encodeFq x).reverse
  rw [List.length_reverse, encodeFq_length, encodeFq_value] at h
  unfold fieldBitsBe
  rw [← h, List.reverse_reverse]

theorem fqBitsLe_value (x : Fq) : ofBitsLE (fqBitsLe x) = x.val := by
  have h : fqBitsLe x = (encodeFq x).reverse := by
    rw [← fieldBitsBe_eq_encodeFq, fieldBitsBe, List.reverse_reverse]; rfl
  rw [h, encodeFq_value]

theorem frToBits_length (x : Fq) {n : ℕ} (hn : n ≤ 377) : (frToBits x n).length = n := by
  unfold frToBits
  rw [List.length_take, fqBitsLe_length]
  omega

theorem frToBits_value (x : Fq) (n : ℕ) : ofBitsLE (frToBits x n) = x.val % 2 ^ n := by
  unfold frToBits
  rw [ofBitsLE_take, fqBitsLe_value]

/-- Two field elements have the same low bits exactly when they agree modulo the power of two. -/
theorem frToBits_eq_iff (x y : Fq) {n : ℕ} (hn : n ≤ 377) :
    frToBits x n = frToBits y n ↔ x.val % 2 ^ n = y.val % 2 ^ n := by
  constructor
  · intro h
    have := congrArg ofBitsLE h
    rwa [frToBits_value, frToBits_value] at this
  · intro h
    apply ofBitsLE_inj
    · rw [frToBits_length x hn, frToBits_length y hn]
    · rwa [frToBits_value, frToBits_value]

theorem fq_gt_pow : 2 ^ 128 < FQ_MODULUS := by decide +kernel

theorem fq_natCast_val {n : ℕ} (h : n < FQ_MODULUS) : ((n : ℕ) : Fq).val = n :=
  ZMod.val_natCast_of_lt h

theorem isEqZero_bit {v inv : Fq} {b : Bool} (h : isEqZeroC (.var v) inv b) :
    b = decide (v = 0) := by
  have := C35_sound (.var v) inv b h
  simp only [FpVar.value_var] at this
  by_cases hv : v = 0
  · simp [hv] at this ⊢; exact this
  · simp [hv] at this ⊢; exact this

/-! ### the loop -/

/-- Loop state after a real epoch. -/
def Previous.ofEpoch (a : EpochVars) : Previous where
  pubkeys := a.pubkeys
  index := a.index
  entropy := a.epochEntropy
  maximumNonSigners := a.maximumNonSigners

section

variable {G1 GT : Type*} [AddCommGroup G1] [CommGroup GT]
variable (alloc : G2Var → Prop) (hashC : List Bool → List Bool → HashOut G1 → Prop)

/-- Sum of the keys whose bit is set. -/
noncomputable def signerSum (a : EpochVars) (bitmap : List Bool) : G2Point :=
  ((((a.pubkeys.map G2Var.point).zip bitmap).filter (·.2)).map (·.1)).sum

/-- Each update with the last real epoch before it. -/
def steps (a : EpochVars) : List (UpdateVars G1) → List (EpochVars × UpdateVars G1)
  | [] => []
  | u :: us => (a, u) :: steps (if u.epoch.index = 0 then a else u.epoch) us

/-- The constraints of one iteration of the loop. -/
structure StepC (gen2 : G2Point) (n : ℕ) (entropyBit : Bool) (a : EpochVars) (u : UpdateVars G1) :
    Prop where
  nkeys : u.epoch.keys.length = n
  nbits : u.bitmap.length = a.keys.length
  bits : u.epoch.toBitsC alloc
  hash : hashC u.epoch.epochBits u.epoch.extraDataBits u.hash
  nextZero : isEqZeroC (.var u.epoch.index) u.nextZero.1 u.nextZero.2
  updateZero : isEqZeroC (.var u.epoch.index) u.updateZero.1 u.updateZero.2
  loopZero : isEqZeroC (.var u.epoch.index) u.loopZero.1 u.loopZero.2
  next : u.epoch.index ≠ 0 → u.epoch.index = a.index + 1
  entropy : u.epoch.index ≠ 0 → entropyBit = true → a.epochEntropy = u.epoch.parentEntropy
  occ : maxOccurrencesC u.bitmap a.maximumNonSigners false u.occurrences
  padding : ∀ x ∈ (a.pubkeys.map G2Var.point).zip u.bitmap, x.2 = true → x.1 ≠ gen2

theorem constrainUpdate_sound {gen2 : G2Point} {n : ℕ} {a : EpochVars} {eb : Bool}
    {u : UpdateVars G1} {r : Prop × G2Point}
    (h : constrainUpdate alloc hashC gen2 n (.ofEpoch a) eb u = .ok r) (hs : r.1)
    (hz : isEqZeroC (.var u.epoch.index) u.loopZero.1 u.loopZero.2) :
    StepC alloc hashC gen2 n eb a u ∧ r.2 = signerSum a u.bitmap := by
  unfold constrainUpdate at h
  split at h
  · simp at h
  rename_i hn
  simp only [ne_eq, not_not] at hn
  simp only [Outcome.map_eq_ok_iff] at h
  obtain ⟨m, hm, rfl⟩ := h
  unfold enforceBitmap at hm
  rw [Outcome.map_eq_ok_iff] at hm
  obtain ⟨g, hg, rfl⟩ := hm
  unfold enforceAggregatedPubkeys at hg
  split at hg
  swap
  · simp at hg
  rename_i hlen
  simp only [Outcome.ok.injEq] at hg
  obtain ⟨e1, e2⟩ := aggregatedLoop_eq gen2
    (((Previous.ofEpoch a).pubkeys.map G2Var.point).zip u.bitmap) 0
  obtain ⟨⟨h1, h2, h3⟩, h4, h5, h6, h7⟩ := hs
  have hu := isEqZero_bit h4
  have hx := isEqZero_bit h2.1
  refine ⟨⟨?_, ?_, h1, h3, h2.1, h4, hz, ?_, ?_, h6, ?_⟩, ?_⟩
  · rw [hn]; simp [EpochVars.pubkeys]
  · rw [hlen]; simp [Previous.ofEpoch, EpochVars.pubkeys]
  · intro hne
    exact h2.2 (by rw [hx]; simp [hne])
  · intro hne he
    exact h5 (by rw [hu, he]; simp [hne])
  · exact e1.mp (by rw [hg]; exact h7)
  · rw [← hg, e2, zero_add]; rfl

theorem constrainUpdate_complete {gen2 : G2Point} {n : ℕ} {a : EpochVars} {eb : Bool}
    {u : UpdateVars G1} (h : StepC alloc hashC gen2 n eb a u) :
    ∃ r, constrainUpdate alloc hashC gen2 n (.ofEpoch a) eb u = .ok r ∧ r.1 := by
  obtain ⟨e1, e2⟩ := aggregatedLoop_eq gen2
    (((Previous.ofEpoch a).pubkeys.map G2Var.point).zip u.bitmap) 0
  have hu := isEqZero_bit h.updateZero
  have hx := isEqZero_bit h.nextZero
  unfold constrainUpdate
  rw [if_neg (by simp [EpochVars.pubkeys, h.nkeys])]
  unfold enforceBitmap enforceAggregatedPubkeys
  rw [if_pos (by simp [Previous.ofEpoch, EpochVars.pubkeys, h.nbits])]
  simp only [Outcome.map_ok]
  refine ⟨_, rfl, ⟨h.bits, ⟨h.nextZero, ?_⟩, h.hash⟩, h.updateZero, ?_, h.occ, e1.mpr h.padding⟩
  · intro hb
    exact h.next (by rw [hx] at hb; simpa using hb)
  · intro hb
    rw [hu, Bool.and_eq_true] at hb
    exact h.entropy (by simpa using hb.1) hb.2

theorem next_ofEpoch {a e : EpochVars} {n : ℕ} (ha : a.keys.length = n) (he : e.keys.length = n)
    (b : Bool) :
    (Previous.ofEpoch a).next b e = .ofEpoch (if b = true then e else a) := by
  have h1 : (e.pubkeys.zip a.pubkeys).map (fun k : G2Var × G2Var => k.1) = e.pubkeys :=
    List.map_fst_zip (by simp [EpochVars.pubkeys, ha, he])
  have h2 : (e.pubkeys.zip a.pubkeys).map (fun k : G2Var × G2Var => k.2) = a.pubkeys :=
    List.map_snd_zip (by simp [EpochVars.pubkeys, ha, he])
  cases b
  · simp only [Previous.next, Previous.ofEpoch, Bool.false_eq_true, if_false]
    rw [h2]
  · simp only [Previous.next, Previous.ofEpoch, if_true]
    rw [h1]

/-- What the loop returns. -/
structure LoopShape (gen1 : G1) (gen2 : G2Point) (last : LastVars) (a : EpochVars)
    (us : List (UpdateVars G1)) (r : LoopOut G1) : Prop where
  keys : r.aggregatedPublicKeys =
    (steps a us).map fun x => if x.2.epoch.index = 0 then gen2 else signerSum x.1 x.2.bitmap
  hashes : r.messageHashes =
    us.map fun u => if u.epoch.index = 0 then gen1 else u.hash.messageHash
  crh : r.crhBits = us.flatMap fun u => u.hash.crhBits
  xof : r.xofBits = us.flatMap fun u => u.hash.xofBits
  lastBits : ∀ u, us.getLast? = some u →
    r.lastEpochBits = u.epoch.lastEpochBits ++ g2ToBits ⟨last.x, last.y, 1⟩ last.w
  noBits : us = [] → r.lastEpochBits = []

/-- The last epoch is real and its aggregate key finite. -/
def LastOk (last : LastVars) (us : List (UpdateVars G1)) : Prop :=
  ∀ u, us.getLast? = some u → u.epoch.index ≠ 0 ∧ lastApkC u.epoch.pubkeys last

theorem intermediateLoop_sound {gen1 : G1} {gen2 : G2Point} {n : ℕ} {eb : Bool} {last : LastVars}
    (us : List (UpdateVars G1)) {a : EpochVars} (ha : a.keys.length = n) {r : LoopOut G1}
    (h : intermediateLoop alloc hashC gen1 gen2 n eb last us (.ofEpoch a) = .ok r) (hs : r.sat) :
    (∀ x ∈ steps a us, StepC alloc hashC gen2 n eb x.1 x.2) ∧ LastOk last us ∧
      LoopShape gen1 gen2 last a us r := by
  induction us generalizing a r with
  | nil =>
    simp only [intermediateLoop, Outcome.ok.injEq] at h
    subst h
    refine ⟨by simp [steps], by simp [LastOk], ?_⟩
    constructor <;> simp [steps]
  | cons u us ih =>
    simp only [intermediateLoop, Outcome.bind_eq_ok_iff, Outcome.map_eq_ok_iff] at h
    obtain ⟨c, hc, s, hloop, rfl⟩ := h
    simp only [] at hs
    obtain ⟨s1, s2, s3, s4⟩ := hs
    obtain ⟨st, hagg⟩ := constrainUpdate_sound alloc hashC hc s1 s2
    have hb := isEqZero_bit s2
    rw [next_ofEpoch ha st.nkeys] at hloop s3
    have hnext : (if (!u.loopZero.2) = true then u.epoch else a) =
        if u.epoch.index = 0 then a else u.epoch := by
      rw [hb]
      by_cases hz : u.epoch.index = 0 <;> simp [hz]
    rw [hnext] at hloop s3
    have ha' : (if u.epoch.index = 0 then a else u.epoch).keys.length = n := by
      split
      · exact ha
      · exact st.nkeys
    obtain ⟨i1, i2, i3⟩ := ih ha' hloop s4
    have hl0 : us = [] → u.epoch.index ≠ 0 ∧ lastApkC u.epoch.pubkeys last := by
      intro e
      obtain ⟨t1, t2⟩ := s3 e
      have hz : u.epoch.index ≠ 0 := by rw [hb] at t2; simpa using t2
      rw [if_neg hz] at t1
      exact ⟨hz, t1⟩
    refine ⟨?_, ?_, ?_⟩
    · intro x hx
      simp only [steps, List.mem_cons] at hx
      rcases hx with rfl | hx
      · exact st
      · exact i1 x hx
    · intro v hv
      cases us with
      | nil =>
        simp at hv
        subst hv
        exact hl0 rfl
      | cons w ws => exact i2 v (by simpa using hv)
    · refine ⟨?_, ?_, ?_, ?_, ?_, ?_⟩
      · simp only [steps, List.map_cons, i3.keys, hagg, hb]
        by_cases hz : u.epoch.index = 0 <;> simp [hz]
      · simp only [List.map_cons, i3.hashes, hb]
        by_cases hz : u.epoch.index = 0 <;> simp [hz]
      · simp [i3.crh]
      · simp [i3.xof]
      · intro v hv
        cases us with
        | nil =>
          simp at hv
          subst hv
          simp
        | cons w ws =>
          simp only [List.isEmpty_cons, Bool.false_eq_true, if_false]
          exact i3.lastBits v (by simpa using hv)
      · intro e; simp at e

theorem intermediateLoop_complete {gen1 : G1} {gen2 : G2Point} {n : ℕ} {eb : Bool}
    {last : LastVars} (us : List (UpdateVars G1)) {a : EpochVars} (ha : a.keys.length = n)
    (h : ∀ x ∈ steps a us, StepC alloc hashC gen2 n eb x.1 x.2) (hl : LastOk last us) :
    ∃ r, intermediateLoop alloc hashC gen1 gen2 n eb last us (.ofEpoch a) = .ok r ∧ r.sat := by
  induction us generalizing a with
  | nil => exact ⟨_, rfl, trivial⟩
  | cons u us ih =>
    have st := h (a, u) (by simp [steps])
    have hb := isEqZero_bit st.loopZero
    obtain ⟨c, hc, s1⟩ := constrainUpdate_complete alloc hashC st
    have hnext : (if (!u.loopZero.2) = true then u.epoch else a) =
        if u.epoch.index = 0 then a else u.epoch := by
      rw [hb]
      by_cases hz : u.epoch.index = 0 <;> simp [hz]
    have ha' : (if u.epoch.index = 0 then a else u.epoch).keys.length = n := by
      split
      · exact ha
      · exact st.nkeys
    obtain ⟨s, hloop, s4⟩ := ih ha' (fun x hx => h x (by simp [steps, hx])) (by
      intro v hv
      cases us with
      | nil => simp at hv
      | cons w ws => exact hl v (by simpa using hv))
    simp only [intermediateLoop, hc, Outcome.bind_ok]
    rw [next_ofEpoch ha st.nkeys, hnext, hloop]
    refine ⟨_, rfl, s1, st.loopZero, ?_, s4⟩
    intro e
    subst e
    obtain ⟨hz, t⟩ := hl u (by simp)
    rw [if_neg hz]
    exact ⟨t, by rw [hb]; simpa using hz⟩

/-- The real epochs of the updates. -/
def reals (us : List (UpdateVars G1)) : List (UpdateVars G1) :=
  us.filter fun u => decide (u.epoch.index ≠ 0)

/-- Keeping the steps of real epochs pairs each real epoch with its predecessor. -/
theorem steps_filter (a : EpochVars) (us : List (UpdateVars G1)) :
    (steps a us).filter (fun x => decide (x.2.epoch.index ≠ 0)) =
      (a :: (reals us).map (·.epoch)).zip (reals us) := by
  induction us generalizing a with
  | nil => simp [steps, reals]
  | cons u us ih =>
    by_cases hz : u.epoch.index = 0
    · have h1 : reals (u :: us) = reals us := by simp [reals, hz]
      rw [h1]
      simp only [steps, List.filter_cons, hz, ne_eq, not_true_eq_false, decide_false,
        Bool.false_eq_true, if_false, if_true]
      exact ih a
    · have h1 : reals (u :: us) = u :: reals us := by simp [reals, hz]
      rw [h1]
      simp only [steps, List.filter_cons, hz, ne_eq, not_false_eq_true, decide_true, if_true,
        if_false, List.map_cons, List.zip_cons_cons]
      rw [← ih u.epoch]

theorem steps_map_snd (a : EpochVars) (us : List (UpdateVars G1)) :
    (steps a us).map (·.2) = us := by
  induction us generalizing a with
  | nil => rfl
  | cons u us ih => simp [steps, ih]

/-- The product over all steps is the product over real ones times the dummies' pairs. -/
theorem steps_prod (e : G1 → G2Point → GT) (gen1 : G1) (gen2 : G2Point) (a : EpochVars)
    (us : List (UpdateVars G1)) :
    (((us.map fun u => if u.epoch.index = 0 then gen1 else u.hash.messageHash).zip
      ((steps a us).map fun x => if x.2.epoch.index = 0 then gen2
        else signerSum x.1 x.2.bitmap)).map fun x => e x.1 x.2).prod =
    (((steps a us).filter fun x => decide (x.2.epoch.index ≠ 0)).map fun x =>
      e x.2.hash.messageHash (signerSum x.1 x.2.bitmap)).prod *
      e gen1 gen2 ^ (us.length - (reals us).length) := by
  induction us generalizing a with
  | nil => simp [steps, reals]
  | cons u us ih =>
    have hle : (reals us).length ≤ us.length := List.length_filter_le _ _
    by_cases hz : u.epoch.index = 0
    · have h1 : reals (u :: us) = reals us := by simp [reals, hz]
      rw [h1]
      simp only [steps, List.map_cons, hz, if_true, List.zip_cons_cons, List.prod_cons,
        List.filter_cons, ne_eq, not_true_eq_false, decide_false, Bool.false_eq_true, if_false,
        List.length_cons]
      rw [ih, Nat.succ_sub hle, pow_succ]
      simp only [ne_eq]
      rw [mul_comm (e gen1 gen2), mul_assoc]
    · have h1 : reals (u :: us) = u :: reals us := by simp [reals, hz]
      rw [h1]
      simp only [steps, List.map_cons, hz, if_false, List.zip_cons_cons, List.prod_cons,
        List.filter_cons, ne_eq, not_false_eq_true, decide_true, if_true, List.length_cons]
      rw [ih, Nat.add_sub_add_right]
      simp only [ne_eq, mul_assoc]

/-- Everything a satisfied `enforce` says. -/
structure EnforceSpec (e : G1 → G2Point → GT) (gen1 : G1) (gen2 : G2Point) (n : ℕ)
    (c : CircuitVars G1) (b : EpochBits) : Prop where
  initial : c.initial.toBitsC alloc
  entropyZero : isEqZeroC (.var c.initial.epochEntropy) c.entropyZero.1 c.entropyZero.2
  steps : ∀ x ∈ steps c.initial c.updates, StepC alloc hashC gen2 n (!c.entropyZero.2) x.1 x.2
  lastOk : LastOk c.last c.updates
  eqn : e c.signature (-gen2) *
    ((((c.initial :: (reals c.updates).map (·.epoch)).zip (reals c.updates)).map fun t =>
      e t.2.hash.messageHash (signerSum t.1 t.2.bitmap)).prod *
    e gen1 gen2 ^ (c.updates.length - (reals c.updates).length)) = 1
  firstBits : b.firstEpochBits = c.initial.firstEpochBits
  lastBits : ∀ u, c.updates.getLast? = some u →
    b.lastEpochBits = u.epoch.lastEpochBits ++ g2ToBits ⟨c.last.x, c.last.y, 1⟩ c.last.w
  noBits : c.updates = [] → b.lastEpochBits = []
  crh : b.crhBits = c.updates.flatMap fun u => u.hash.crhBits
  xof : b.xofBits = c.updates.flatMap fun u => u.hash.xofBits

theorem enforce_sound {e : G1 → G2Point → GT} {gen1 : G1} {gen2 : G2Point} {n : ℕ}
    {c : CircuitVars G1} {b : EpochBits} (hn : c.initial.keys.length = n)
    (h : enforceEpochs alloc hashC e gen1 gen2 n c = .ok b) (hs : b.sat) :
    EnforceSpec alloc hashC e gen1 gen2 n c b := by
  unfold enforceEpochs at h
  rw [Outcome.bind_eq_ok_iff] at h
  obtain ⟨r, hr, h⟩ := h
  rw [Outcome.map_eq_ok_iff] at h
  obtain ⟨eqn, he, rfl⟩ := h
  obtain ⟨s1, s2, s3, s4⟩ := hs
  obtain ⟨l1, l2, l3⟩ := intermediateLoop_sound alloc hashC c.updates hn hr s3
  refine ⟨s1, s2, l1, l2, ?_, rfl, l3.lastBits, l3.noBits, l3.crh, l3.xof⟩
  unfold batchVerifyPrepared enforceBlsEquation at he
  split at he
  · simp only [Outcome.ok.injEq] at he
    rw [← he] at s4
    rw [l3.keys, l3.hashes] at s4
    simp only [List.zip_cons_cons, List.map_cons, List.prod_cons] at s4
    rw [steps_prod, steps_filter] at s4
    exact s4
  · simp at he

theorem enforce_complete {e : G1 → G2Point → GT} {gen1 : G1} {gen2 : G2Point} {n : ℕ}
    {c : CircuitVars G1} (hn : c.initial.keys.length = n)
    (initial : c.initial.toBitsC alloc)
    (entropyZero : isEqZeroC (.var c.initial.epochEntropy) c.entropyZero.1 c.entropyZero.2)
    (hsteps : ∀ x ∈ steps c.initial c.updates,
      StepC alloc hashC gen2 n (!c.entropyZero.2) x.1 x.2)
    (lastOk : LastOk c.last c.updates)
    (eqn : e c.signature (-gen2) *
      ((((c.initial :: (reals c.updates).map (·.epoch)).zip (reals c.updates)).map fun t =>
        e t.2.hash.messageHash (signerSum t.1 t.2.bitmap)).prod *
      e gen1 gen2 ^ (c.updates.length - (reals c.updates).length)) = 1) :
    ∃ b, enforceEpochs alloc hashC e gen1 gen2 n c = .ok b ∧ b.sat ∧
      EnforceSpec alloc hashC e gen1 gen2 n c b := by
  obtain ⟨r, hr, s3⟩ := intermediateLoop_complete alloc hashC (gen1 := gen1) c.updates hn hsteps
    lastOk
  obtain ⟨l1, l2, l3⟩ := intermediateLoop_sound alloc hashC c.updates hn hr s3
  have hlen : (c.signature :: r.messageHashes).length = (-gen2 :: r.aggregatedPublicKeys).length := by
    rw [l3.keys, l3.hashes]
    have := congrArg List.length (steps_map_snd c.initial c.updates)
    simp only [List.length_map] at this
    simp [this]
  have hex : ∃ b, enforceEpochs alloc hashC e gen1 gen2 n c = .ok b ∧ b.sat := by
    have hr' : intermediateLoop alloc hashC gen1 gen2 n (!c.entropyZero.2) c.last c.updates
        { pubkeys := c.initial.pubkeys, index := c.initial.index,
          entropy := c.initial.epochEntropy,
          maximumNonSigners := c.initial.maximumNonSigners } = .ok r := hr
    unfold enforceEpochs
    rw [hr', Outcome.bind_ok]
    unfold batchVerifyPrepared enforceBlsEquation
    rw [if_pos hlen, Outcome.map_ok]
    refine ⟨_, rfl, initial, entropyZero, s3, ?_⟩
    rw [l3.keys, l3.hashes]
    simp only [List.zip_cons_cons, List.map_cons, List.prod_cons]
    rw [steps_prod, steps_filter]
    exact eqn
  obtain ⟨b, h1, h2⟩ := hex
  exact ⟨b, h1, h2, enforce_sound alloc hashC hn h1 h2⟩

theorem getLast?_reals {us : List (UpdateVars G1)} {u : UpdateVars G1}
    (h : us.getLast? = some u) (hu : u.epoch.index ≠ 0) : (reals us).getLast? = some u := by
  obtain ⟨ys, rfl⟩ := List.getLast?_eq_some_iff.mp h
  unfold reals
  rw [List.filter_append]
  simp [hu]

end

end Verif
