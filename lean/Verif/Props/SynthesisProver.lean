import Verif.Lemmas.SynthesisProver
import Verif.Lemmas.SynthesisInputs
import Verif.Lemmas.SynthesisSetup
import Verif.Props.SynthesisEpochs
import Verif.Props.SynthesisGroth
import Verif.Props.GrothEpochs
import Verif.Props.CircuitForge

/-!
# The prover's run of the whole circuit, and its proofs

C117: for an honest chain of epochs, the run of `generate_constraints` that proves succeeds, its own values
satisfy the constraints it emits, and its public inputs are those the verifier computes.

C118: hence the proof made from it is accepted, and proofs of other statements are not.
-/

set_option linter.unusedSectionVars false
set_option exponentiation.threshold 800

namespace Verif

section

variable {HP VK GT : Type} [CommGroup GT] {O : OuterGadgets (HashToBitsHelper HP VK)}
  {hashC : Bool → List Bool → List Bool → HashOut G1Point → Prop}
  {hashW : Bool → List Bool → List Bool → Outcome Unit (HashOut G1Point)}
  {e : G1Point → G2Point → GT} {K : Blake2sCore}
  {groth : VK → List (List Bool) → HP → Outcome Unit (Prop × Bool)}
  {isG1 : ConstraintSystem FQ_MODULUS → O.PG1 → G1Point → Prop}
  {isG2 : ConstraintSystem FQ_MODULUS → O.PG2 → G2Point → Prop}
  {a : Fq × Fq} {d : (Fq × Fq) × (Fq × Fq)}

theorem values_inputs {c : ConstraintSystem FQ_MODULUS} (hg : c.Good) (hs : c.setup = false)
    {ls : List (LinComb FQ_MODULUS)} (h1 : ls = (List.range ls.length).map fun i => lcVar (.inst (0 + i)))
    (h2 : c.numInst = 0 + ls.length) {vs : List Fq} (h : List.Forall₂ (LcAt c) ls vs) : c.instVals = vs := by
  have hl := hg.inst hs
  rw [h2, Nat.zero_add] at hl
  have hv := h.length_eq
  have hm : vs = ls.map (evalLc c.rho) := by
    clear h1 h2 hl hv
    induction h with
    | nil => rfl
    | cons h _ ih => rw [List.map_cons, ← ih, h.2 hs]
  rw [hm, h1, List.map_map]
  apply List.ext_getElem
  · simp [hl]
  · intro i h3 h4
    simp [ConstraintSystem.rho, List.getD_eq_getElem?_getD, List.getElem?_eq_getElem h3]

/-- C117: the run of the prover.  Whenever the values assigned satisfy the relation of the circuit,
`generate_constraints` succeeds, the values it assigns to its own variables satisfy all constraints it emits,
and the public inputs it allocates are the packed hashes. -/
theorem C117_run (ha : (⟨a.1, a.2, 1⟩ : G1Var).coords.OnCurve 1)
    (hd : Denotes (padVar d.1 d.2).coords (padVar d.1 d.2).point)
    (hO : O.RunsAt hashC hashW e (padVar d.1 d.2).point K groth isG1 isG2) (hk : O.Keeps) (oc drop : Bool)
    (s : ValidatorSetUpdate G1Point) (hne : ∀ u ∈ s.epochs, u.signedBitmap ≠ [])
    (helper : Option (HashToBitsHelper HP VK)) {c : CircuitVars G1Point}
    (hc : CircuitVars.assign oc (hashW helper.isNone) s = .ok c) {b : EpochBits}
    (hb : enforceEpochs OnG2 (hashC helper.isNone) e (⟨a.1, a.2, 1⟩ : G1Var).point (padVar d.1 d.2).point
      s.numValidators c = .ok b) (hsat : b.sat)
    (hh : ∀ x, helper = some x → ∃ P, verifyHelperProof (groth x.verifyingKey) b x.proof = .ok P ∧ P) :
    ∃ r vs, generateConstraints O oc drop a d (s.toOpt helper) (.new FQ_MODULUS false) = .ok r ∧
      multipackWitness 376 (edgeHash K b.firstEpochBits ++ edgeHash K b.lastEpochBits) = .ok vs ∧
      r.2.instVals = vs ∧ r.2.numInst = 2 ∧ r.2.Closed ∧ r.2.Sat r.2.rho := by
  obtain ⟨vs, hvs, _⟩ := C54_complete (p := FQ_MODULUS) (n := 377) (size := 376) (by norm_num)
    (by norm_num) FQ_bounds.1.le (edgeHash K b.firstEpochBits ++ edgeHash K b.lastEpochBits)
  obtain ⟨r, hr, hg, he, hls⟩ := step_generateConstraints ha hd hO oc drop (new_good FQ_MODULUS false) rfl s
    hne helper hc hb hsat hh hvs
  have hset : r.2.setup = false := he.setup
  obtain ⟨i1, i2⟩ := inputs_generateConstraints hk hr
  have hvals : r.2.instVals = vs := values_inputs hg hset i1 i2 hls
  refine ⟨r, vs, hr, hvs, hvals, ?_, hg.closed, hg.sat hset⟩
  rw [← hg.inst hset, hvals, C33_pack_length (pack_eq_witness _ ▸ hvs)]
  simp [length_edgeHash]

theorem onG2_complete : AllocComplete OnG2 := fun x y h => (ofPoint_good (.some x y h)).onG2

theorem bitmaps_prover {G1 : Type*} [AddCommGroup G1] {gen1 : G1} {gen2 : G2Point} {n : ℕ} (hn : n ≠ 0)
    {b0 : EpochBlock}
    {ts : List (EpochTransition G1)} {last : EpochTransition G1} {max : ℕ} {s : ValidatorSetUpdate G1}
    (hs : proverCircuit gen1 gen2 n b0 (ts ++ [last]) max = .ok s)
    (hb : ∀ t ∈ ts ++ [last], t.bitmap.length = n) :
    s.numValidators = n ∧ ∀ u ∈ s.epochs, u.signedBitmap ≠ [] := by
  unfold proverCircuit at hs
  rw [proverEpochs_eq, Outcome.bind_ok, Outcome.map_eq_ok_iff] at hs
  obtain ⟨_, _, rfl⟩ := hs
  refine ⟨rfl, fun u hu => ?_⟩
  rw [← List.length_pos_iff]
  simp only [List.mem_append, List.mem_map, List.mem_replicate, List.mem_singleton] at hu
  rcases hu with (⟨t, ht, rfl⟩ | ⟨_, rfl⟩) | rfl
  · have := hb t (List.mem_append_left _ ht)
    change 0 < t.bitmap.length
    omega
  · change 0 < (List.replicate n true).length
    rw [List.length_replicate]; omega
  · have := hb last (List.mem_append_right _ List.mem_cons_self)
    change 0 < last.bitmap.length
    omega

/-- C117: for an honest chain of epochs, with any number of dummies and with or without a helper, the run of
`generate_constraints` on the circuit of `prove` succeeds, its values satisfy its constraints, and its public
inputs are those that the verifier computes from the first and the last block. -/
theorem C117_honest (ha : (⟨a.1, a.2, 1⟩ : G1Var).coords.OnCurve 1)
    (hd : Denotes (padVar d.1 d.2).coords (padVar d.1 d.2).point)
    (hO : O.RunsAt hashC hashW e (padVar d.1 d.2).point K groth isG1 isG2) (hk : O.Keeps) (oc drop : Bool)
    {B : Blake2s} (hB : Blake2sAgree K B)
    (hl : ∀ P P' Q, e (P + P') Q = e P Q * e P' Q) (hr : ∀ P Q Q', e P (Q + Q') = e P Q * e P Q')
    (helper : Option (HashToBitsHelper HP VK))
    {n : ℕ} (hn : n ≠ 0) (hq : n < FQ_MODULUS) {b0 : EpochBlock} {ts : List (EpochTransition G1Point)}
    {last : EpochTransition G1Point} {max : ℕ} {H : EpochBlock → HashOut G1Point}
    (chain : HonestChain (hashC helper.isNone) (hashW helper.isNone) e (padVar d.1 d.2).point n H b0
      (ts ++ [last]))
    (hsize : ts.length + 1 ≤ max)
    (hdummy : ts.length + 1 < max → (padVar d.1 d.2).point ≠ 0 ∧
      (padVar d.1 d.2).point ∉ ((ts.map (·.block)).getLast?.getD b0).newPublicKeys ∧
      ∃ hd, hashW helper.isNone ((dummyBlock (padVar d.1 d.2).point n).encodeInnerToBitsCip22
          (padVar d.1 d.2).point).1
          ((dummyBlock (padVar d.1 d.2).point n).encodeInnerToBitsCip22 (padVar d.1 d.2).point).2 = .ok hd ∧
        hashC helper.isNone ((dummyBlock (padVar d.1 d.2).point n).encodeInnerToBitsCip22
          (padVar d.1 d.2).point).1
          ((dummyBlock (padVar d.1 d.2).point n).encodeInnerToBitsCip22 (padVar d.1 d.2).point).2 hd)
    (hlast : last.block.newPublicKeys.sum ≠ 0)
    (hh : ∀ x, helper = some x → ∀ s c b,
      proverCircuit (⟨a.1, a.2, 1⟩ : G1Var).point (padVar d.1 d.2).point n b0 (ts ++ [last]) max = .ok s →
      CircuitVars.assign oc (hashW helper.isNone) s = .ok c →
      enforceEpochs OnG2 (hashC helper.isNone) e (⟨a.1, a.2, 1⟩ : G1Var).point (padVar d.1 d.2).point n c = .ok b →
      ∃ P, verifyHelperProof (groth x.verifyingKey) b x.proof = .ok P ∧ P) :
    ∃ s r, proverCircuit (⟨a.1, a.2, 1⟩ : G1Var).point (padVar d.1 d.2).point n b0 (ts ++ [last]) max = .ok s ∧
      generateConstraints O oc drop a d (s.toOpt helper) (.new FQ_MODULUS false) = .ok r ∧
      pack (hashFirstLast (padVar d.1 d.2).point B b0 last.block) = .ok r.2.instVals ∧
      r.2.numInst = 2 ∧ r.2.Closed ∧ r.2.Sat r.2.rho := by
  obtain ⟨s, c, b, h1, h2, h3, h4, h5, h6, _, _⟩ := C46_complete OnG2 (hashC helper.isNone)
    (hashW helper.isNone) oc (gen1 := (⟨a.1, a.2, 1⟩ : G1Var).point) hl hr onG2_complete hq chain hsize hdummy hlast
  obtain ⟨k1, k2⟩ := bitmaps_prover hn h1 fun t ht => by
    obtain ⟨p, hp⟩ := exists_predecessor (b0 := b0) ht
    exact (chain.bitmap _ hp).1
  have hx := fun x hx => hh x hx s c b h1 h2 h3
  rw [← k1] at h3
  obtain ⟨r, vs, r1, r2, r3, r4, r5, r6⟩ := C117_run ha hd hO hk oc drop s k2 helper h2 h3 h4 hx
  refine ⟨s, r, h1, r1, ?_, r4, r5, r6⟩
  rw [r3, ← r2, pack_eq_witness, h5, h6, C50_edge_hash hB, C50_edge_hash hB]
  rfl

theorem sameCircuit_of_shape {s s' : ValidatorSetUpdateOpt G1Point HP VK} (h : s.shape = s'.shape) :
    SameCircuit s s' := by
  unfold ValidatorSetUpdateOpt.shape at h
  rw [CircuitShape.mk.injEq] at h
  obtain ⟨h1, h2, h3, h4⟩ := h
  refine ⟨h2, ?_, h1, ?_⟩
  · generalize s.epochs = us at h3
    generalize s'.epochs = us' at h3
    induction us generalizing us' with
    | nil =>
      cases us' with
      | nil => exact .nil
      | cons => cases h3
    | cons u us ih =>
      cases us' with
      | nil => cases h3
      | cons u' us' =>
        rw [List.map_cons, List.map_cons, List.cons.injEq, Prod.mk.injEq] at h3
        exact .cons h3.1 (ih _ h3.2)
  · cases ha : s.hashHelper <;> cases hb : s'.hashHelper <;> rw [ha, hb] at h4
    · trivial
    · cases h4
    · cases h4
    · exact Option.some.inj h4

/-- C117: the setup.  Where the prover's run of `generate_constraints` succeeds, so does the setup's, which has no
values, for data of the same shape; with the same variables, public inputs and constraints. -/
theorem C117_setup (hS : O.Shaped) (hU : O.SetsUp) {oc oc' drop : Bool}
    {s s0 : ValidatorSetUpdateOpt G1Point HP VK} (hshape : s0.shape = s.shape)
    {r : List (LinComb FQ_MODULUS) × ConstraintSystem FQ_MODULUS}
    (hr : generateConstraints O oc drop a d s (.new FQ_MODULUS false) = .ok r) :
    ∃ u, generateConstraints O oc' drop a d s0 (.new FQ_MODULUS true) = .ok u ∧ u.1 = r.1 ∧
      SameShape u.2 r.2 := by
  obtain ⟨u, hu, _⟩ := follows_generateConstraints hU oc oc' drop a d (sameCircuit_of_shape hshape.symm)
    (.new FQ_MODULUS false) (.new FQ_MODULUS true) r rfl rfl rfl hr
  exact ⟨u, hu, (alike_generateConstraints hS oc' oc drop a d (sameCircuit_of_shape hshape)).sameShape hu hr⟩

/-- The circuit exposes two public inputs if the digests have 256 bits. -/
theorem inputs_two (hblake : ∀ m b c t, O.blake m b c = .ok t → t.1.length = 256)
    {oc drop : Bool} {s : ValidatorSetUpdateOpt G1Point HP VK} {cs : ConstraintSystem FQ_MODULUS}
    {r : List (LinComb FQ_MODULUS) × ConstraintSystem FQ_MODULUS}
    (hr : generateConstraints O oc drop a d s cs = .ok r) : r.1.length = 2 := by
  have key : ∀ {b : EdgeBitsV} {c : ConstraintSystem FQ_MODULUS}
      {r : List (LinComb FQ_MODULUS) × ConstraintSystem FQ_MODULUS},
      verifyEdgesV O b c = .ok r → r.1.length = 2 := by
    intro b c r hr
    obtain ⟨x, hx, hr⟩ := synth_bind_ok.1 hr
    obtain ⟨y, hy, hr⟩ := synth_bind_ok.1 hr
    rw [(inputs_packAll hr).1, List.length_map, List.length_range, chunks_length (by norm_num),
      List.length_append, hblake _ _ _ _ hx, hblake _ _ _ _ hy]
  obtain ⟨x, hx, hr⟩ := synth_bind_ok.1 hr
  generalize s.hashHelper = q at hr
  cases q
  · exact key hr
  · obtain ⟨y, hy, hr⟩ := synth_bind_ok.1 hr
    exact key hr

variable {A1 A2 AT : Type*} [AddCommGroup A1] [Module (ZMod FQ_MODULUS) A1] [AddCommGroup A2]
  [Module (ZMod FQ_MODULUS) A2] [CommGroup AT] [DecidableEq AT]

/-- C118: the proofs of honest provers are accepted.  Let parameters be generated from the constraints that
`generate_constraints` emits for any data of the shape of the prover's circuit; then for an honest chain the
proof made from the prover's run exists and the verifier of epochs accepts it. -/
theorem C118_complete (P : Pairing FQ_MODULUS A1 A2 AT) (hS : O.Shaped)
    (ha : (⟨a.1, a.2, 1⟩ : G1Var).coords.OnCurve 1)
    (hd : Denotes (padVar d.1 d.2).coords (padVar d.1 d.2).point)
    (hO : O.RunsAt hashC hashW e (padVar d.1 d.2).point K groth isG1 isG2) (hk : O.Keeps) (oc oc' drop : Bool)
    {B : Blake2s} (hB : Blake2sAgree K B)
    (hl : ∀ P P' Q, e (P + P') Q = e P Q * e P' Q) (hr : ∀ P Q Q', e P (Q + Q') = e P Q * e P Q')
    (helper : Option (HashToBitsHelper HP VK))
    {n : ℕ} (hn : n ≠ 0) (hq : n < FQ_MODULUS) {b0 : EpochBlock} {ts : List (EpochTransition G1Point)}
    {last : EpochTransition G1Point} {max : ℕ} {H : EpochBlock → HashOut G1Point}
    (chain : HonestChain (hashC helper.isNone) (hashW helper.isNone) e (padVar d.1 d.2).point n H b0
      (ts ++ [last]))
    (hsize : ts.length + 1 ≤ max)
    (hdummy : ts.length + 1 < max → (padVar d.1 d.2).point ≠ 0 ∧
      (padVar d.1 d.2).point ∉ ((ts.map (·.block)).getLast?.getD b0).newPublicKeys ∧
      ∃ hd, hashW helper.isNone ((dummyBlock (padVar d.1 d.2).point n).encodeInnerToBitsCip22
          (padVar d.1 d.2).point).1
          ((dummyBlock (padVar d.1 d.2).point n).encodeInnerToBitsCip22 (padVar d.1 d.2).point).2 = .ok hd ∧
        hashC helper.isNone ((dummyBlock (padVar d.1 d.2).point n).encodeInnerToBitsCip22
          (padVar d.1 d.2).point).1
          ((dummyBlock (padVar d.1 d.2).point n).encodeInnerToBitsCip22 (padVar d.1 d.2).point).2 hd)
    (hlast : last.block.newPublicKeys.sum ≠ 0)
    (hh : ∀ x, helper = some x → ∀ s c b,
      proverCircuit (⟨a.1, a.2, 1⟩ : G1Var).point (padVar d.1 d.2).point n b0 (ts ++ [last]) max = .ok s →
      CircuitVars.assign oc (hashW helper.isNone) s = .ok c →
      enforceEpochs OnG2 (hashC helper.isNone) e (⟨a.1, a.2, 1⟩ : G1Var).point (padVar d.1 d.2).point n c = .ok b →
      ∃ P, verifyHelperProof (groth x.verifyingKey) b x.proof = .ok P ∧ P)
    {s : ValidatorSetUpdate G1Point}
    (hs : proverCircuit (⟨a.1, a.2, 1⟩ : G1Var).point (padVar d.1 d.2).point n b0 (ts ++ [last]) max = .ok s)
    {s0 : ValidatorSetUpdateOpt G1Point HP VK} (hshape : s0.shape = (s.toOpt helper).shape)
    {domain : ℕ → EvalDomain (ZMod FQ_MODULUS)}
    (hD : ∀ u, generateConstraints O oc' drop a d s0 (.new FQ_MODULUS true) = .ok u →
      (domain u.2.domainSize).Valid)
    {td : Trapdoor (ZMod FQ_MODULUS) A1 A2} {pk : GrothPk A1 A2}
    (hset : circuitSetup (generateConstraints O oc' drop a d s0) domain td = .ok pk) (rr z : ZMod FQ_MODULUS) :
    ∃ proof, circuitProve (generateConstraints O oc drop a d (s.toOpt helper)) domain pk rr z = .ok proof ∧
      verifyEpochs (verifyProof P) (padVar d.1 d.2).point B pk.vk b0 last.block proof = .ok () := by
  obtain ⟨s', r, h1, h2, h3, h4, h5, h6⟩ := C117_honest ha hd hO hk oc drop hB hl hr helper hn hq chain hsize
    hdummy hlast hh
  rw [hs] at h1
  cases h1
  have hal := alike_generateConstraints hS oc' oc drop a d (sameCircuit_of_shape hshape)
  obtain ⟨u, hu, _⟩ := circuitSetup_ok hset
  have hdom := hD u hu
  rw [sameShape_domainSize (hal.sameShape hu h2).2] at hdom
  have hlen : r.2.instVals.length = r.2.numInst := by
    rw [h4]
    rw [pack_hashFirstLast] at h3
    rw [← Outcome.ok.inj h3]
    rfl
  obtain ⟨proof, p1, p2⟩ := circuit_complete P hal hset h2 h5 hlen h6 hdom rr z
  refine ⟨proof, p1, ?_⟩
  rw [C34_accepts_iff]
  rw [pack_hashFirstLast] at h3
  rw [Outcome.ok.inj h3]
  exact p2

/-- C118: provers who combine the published elements linearly.  Let the parameters be generated from the
constraints of the whole circuit; then either the prover holds values of all variables of the circuit that show
what C45 and C69 say about the blocks, or the verifier of epochs rejects, for all but `(3 N + 1) q ^ 4` of the
`q ^ 5` choices of the setup. -/
theorem C118_sound (P : Pairing FQ_MODULUS A1 A2 AT) (hS : O.Shaped) (hk : O.Keeps)
    (hblake : ∀ m b c t, O.blake m b c = .ok t → t.1.length = 256)
    (ha : (⟨a.1, a.2, 1⟩ : G1Var).coords.OnCurve 1)
    (hd : Denotes (padVar d.1 d.2).coords (padVar d.1 d.2).point)
    {i1 : (R1Var → Fq) → O.PG1 → G1Point → Prop} {i2 : (R1Var → Fq) → O.PG2 → G2Point → Prop}
    (hO : ∀ ρ : R1Var → Fq, ρ .one = 1 →
      O.SoundAt ρ hashC e (padVar d.1 d.2).point K groth (i1 ρ) (i2 ρ))
    {B : Blake2s} (hB : Blake2sAgree K B) {oc drop : Bool} {s : ValidatorSetUpdateOpt G1Point HP VK}
    (hn : s.initialEpoch.publicKeys.length = s.numValidators) (hq : s.numValidators < FQ_MODULUS)
    (hne : s.epochs ≠ [])
    {u : List (LinComb FQ_MODULUS) × ConstraintSystem FQ_MODULUS}
    (hu : generateConstraints O oc drop a d s (.new FQ_MODULUS true) = .ok u) (hc : u.2.Closed)
    {domain : ℕ → EvalDomain (ZMod FQ_MODULUS)} (hD : (domain u.2.domainSize).Valid)
    (hN : u.2.domainSize ≤ (domain u.2.domainSize).size) {g1 : A1} {g2 : A2} (h1 : g1 ≠ 0) (h2 : g2 ≠ 0)
    {first last : EpochBlock} (hf : EntropyOk first.parentEntropy) (hl : EntropyOk last.epochEntropy)
    (sa sc : G1Strategy (ZMod FQ_MODULUS) u.2.numInst u.2.numWit (domain u.2.domainSize).size)
    (sb : G2Strategy (ZMod FQ_MODULUS) u.2.numInst u.2.numWit) :
    (∃ (c : CircuitVars G1Point) (b : EpochBits), c.updates.length = s.epochs.length ∧
      enforceEpochs OnG2 (hashC s.hashHelper.isNone) e (⟨a.1, a.2, 1⟩ : G1Var).point (padVar d.1 d.2).point
        s.numValidators c = .ok b ∧
      (∀ t ∈ c.transitions,
        t.2.epoch.index = t.1.index + 1 ∧
        t.2.bitmap.length = t.1.keys.length ∧ t.1.keys.length = s.numValidators ∧
        t.2.bitmap.count false ≤ t.1.maximumNonSigners.val ∧
        (∀ x ∈ t.1.pubkeys.zip t.2.bitmap, x.2 = true → x.1.point ≠ (padVar d.1 d.2).point) ∧
        hashC s.hashHelper.isNone t.2.epoch.epochBits t.2.epoch.extraDataBits t.2.hash) ∧
      e c.signature (-(padVar d.1 d.2).point) *
        ((c.transitions.map fun t => e t.2.hash.messageHash
          (((t.1.pubkeys.zip t.2.bitmap).filter (·.2)).map (·.1.point)).sum).prod *
        e (⟨a.1, a.2, 1⟩ : G1Var).point (padVar d.1 d.2).point ^
          (c.updates.length - c.real.length)) = 1 ∧
      (EdgesCollide B (padVar d.1 d.2).point b first last ∨
        ∃ w, c.updates.getLast? = some w ∧
          EdgeMatches (padVar d.1 d.2).point c.initial c.initial.parentEntropy first first.parentEntropy ∧
          EdgeMatches (padVar d.1 d.2).point w.epoch w.epoch.epochEntropy last last.epochEntropy ∧
          1 ≤ c.real.length ∧ c.real.length ≤ c.updates.length ∧
          last.index.toNat = (first.index.toNat + c.real.length) % 2 ^ 16)) ∨
    ∃ lucky : Finset (Fin 5 → ZMod FQ_MODULUS),
      lucky.card ≤ (3 * (domain u.2.domainSize).size + 1) * FQ_MODULUS ^ 4 ∧
      ∀ v ∉ lucky, ∀ pk, circuitSetup (generateConstraints O oc drop a d s) domain
          (Trapdoor.ofScalars v g1 g2) = .ok pk →
        verifyEpochs (verifyProof P) (padVar d.1 d.2).point B pk.vk first last
          ⟨sa.combine pk, sb.combine pk, sc.combine pk⟩ = .err .verificationFailed := by
  obtain ⟨i1', i2'⟩ := inputs_generateConstraints hk hu
  have htwo := inputs_two hblake hu
  have hnum : u.2.numInst = 2 := by rw [i2', htwo]; rfl
  obtain ⟨x, hx⟩ : ∃ x : Fin u.2.numInst → Fq,
      List.ofFn x = publicInputs (padVar d.1 d.2).point B first last := by
    rw [hnum]; exact exists_inputs _ B first last
  by_cases hsat : u.2.Sat (rhoOf x sc.l)
  · left
    obtain ⟨_, c, proof, Q, q1, q2, q3, q4, q5⟩ := C116_sound (ρ := rhoOf x sc.l) rfl hS ha hd (hO _ rfl) hu hsat
    have hin : u.1.map (evalLc (rhoOf x sc.l)) = publicInputs (padVar d.1 d.2).point B first last := by
      rw [← hx, i1', htwo, List.map_map]
      apply List.ext_getElem
      · simp [hnum]
      · intro i h3 h4
        simp only [List.length_ofFn] at h4
        simp [ConstraintSystem.new, rhoOf, h4]
    rw [hin] at q4
    have hi : c.initial.keys.length = s.numValidators := q1.trans hn
    have hupd : c.updates ≠ [] := by
      intro h
      have := q2.length_eq
      rw [h] at this
      exact hne (List.length_eq_zero_iff.1 this)
    obtain ⟨b, hb, hbs, hor⟩ := C69_edges hB hi hupd hf hl q4 q5
    rw [q3] at hb
    obtain ⟨t1, t2⟩ := C45_transitions _ _ hi hq hb hbs
    have spec := enforce_sound _ _ hi hb hbs
    refine ⟨c, b, q2.length_eq.symm, hb, fun t ht => ⟨?_, t1 t ht⟩, t2, ?_⟩
    · obtain ⟨hm, hz⟩ := transitions_mem_steps ht
      exact (spec.steps t hm).next hz
    · rcases hor with h | h | ⟨w, w1, w2, w3, w4, w5, w6, _⟩
      · exact .inl (.inl h)
      · exact .inl (.inr h)
      · exact .inr ⟨w, w1, w2, w3, w4, w5, w6⟩
  · right
    obtain ⟨lucky, hcard, hv⟩ := circuit_sound P hu hc hD hN h1 h2 sa sc sb x hsat
    refine ⟨lucky, hcard, fun v hn pk hpk => ?_⟩
    rw [(C34_rejects ..).1, ← hx]
    exact hv v hn pk hpk

end

/-! ## Examples -/

theorem toyOuter_keeps : toyOuter.Keeps :=
  ⟨fun _ _ _ => keeps_pure _, fun _ => keeps_pure _, fun _ => keeps_pure _, fun _ _ _ => keeps_pure _,
    fun _ _ => keeps_pure _, fun _ _ => keeps_pure _⟩

theorem toyOuter_setsUp : toyOuter.SetsUp :=
  ⟨fun _ _ _ => follows_pure _, fun _ => follows_pure _, fun _ => follows_pure _, fun _ _ _ => follows_pure _,
    fun _ _ => follows_pure _, fun _ _ _ _ => follows_pure _⟩

/-- The hash of the example gadgets. -/
noncomputable def outerHash : HashOut G1Point := ⟨(⟨1, sqrtTwo, 1⟩ : G1Var).point, [], []⟩

theorem toyOuter_runs : toyOuter.RunsAt (fun _ _ _ out => out = outerHash) (fun _ _ _ => .ok outerHash)
    (fun _ _ => (1 : Multiplicative ℤ)) genVar.point toyCore (fun _ _ _ => .ok (True, true))
    (fun c w P => ∃ k, G1At c w k ∧ k.point = P) (fun c w P => ∃ k, G2At c w k ∧ k.point = P) := by
  refine ⟨?_, ?_, ?_, ?_, ?_, ?_, ?_, ?_⟩
  · rintro a b w P ha he ⟨k, h, hk⟩
    exact ⟨k, h.ext ha he, hk⟩
  · rintro a b w P ha he ⟨k, h, hk⟩
    exact ⟨k, h.ext ha he, hk⟩
  · rintro cs b xs ys ts us out hg hs _ _ _ rfl
    refine step_pure hg ⟨⟨_, ?_, onePoint_on, rfl⟩, .nil, .nil⟩
    exact ⟨lcAt_const _ _, lcAt_const _ _, lcAt_const _ _⟩
  · exact fun hg _ h _ => step_pure hg ⟨_, h, rfl⟩
  · exact fun hg _ h _ => step_pure hg ⟨_, h, rfl⟩
  · exact fun hg _ _ _ _ _ _ _ => step_pure hg trivial
  · intro cs m ts b hg _ _ _
    refine step_pure hg ?_
    unfold Blake2sCore.evaluate toyCore
    dsimp only
    rw [toyCore_zero]
    exact forall₂_replicate (bitAt_constant _ _) 256
  · exact fun hg _ _ _ _ => step_pure hg trivial

theorem toyOuter_chain : HonestChain (G1 := G1Point) (fun _ _ out => out = outerHash) (fun _ _ => .ok outerHash)
    (fun _ _ => (1 : Multiplicative ℤ)) g2Generator 1 (fun _ => outerHash)
    (chainBlock [toyKey] 0 4) ([nativeStep 5] ++ [nativeStep 6]) :=
  ⟨log_chain.blocks, log_chain.index, log_chain.entropy, log_chain.bitmap, log_chain.padding,
    fun _ _ => ⟨rfl, rfl⟩, fun _ _ => one_mul _⟩

theorem genVar_point : genVar.point = g2Generator :=
  genVar_denotes.unique (ofPoint_denotes g2Generator)

theorem toyOuter_gen : (padVar (g2GenX.re, g2GenX.im) (g2GenY.re, g2GenY.im)).point = g2Generator := by
  rw [padVar_gen, genVar_point]

/-- The run for the blocks 4, 5 and 6, in a circuit of five updates. -/
theorem toyOuter_run (oc drop : Bool) :
    ∃ s r, proverCircuit (⟨1, sqrtTwo, 1⟩ : G1Var).point g2Generator 1 (chainBlock [toyKey] 0 4)
        ([nativeStep 5] ++ [nativeStep 6]) 5 = .ok s ∧
      generateConstraints toyOuter oc drop (1, sqrtTwo) ((g2GenX.re, g2GenX.im), (g2GenY.re, g2GenY.im))
        (s.toOpt none) (.new FQ_MODULUS false) = .ok r ∧
      pack (hashFirstLast g2Generator (Blake2s.ofCore toyCore) (chainBlock [toyKey] 0 4)
        (chainBlock [toyKey] 0 6)) = .ok r.2.instVals ∧
      r.2.numInst = 2 ∧ r.2.Closed ∧ r.2.Sat r.2.rho := by
  have h := C117_honest (O := toyOuter) (a := (1, sqrtTwo))
    (d := ((g2GenX.re, g2GenX.im), (g2GenY.re, g2GenY.im))) onePoint_on genVar_denotes toyOuter_runs toyOuter_keeps
    oc drop (Blake2s.ofCore_agree toyCore) (fun _ _ _ => (one_mul _).symm) (fun _ _ _ => (one_mul _).symm)
    none (n := 1) (by norm_num) (by decide +kernel) (max := 5)
    (toyOuter_gen.symm ▸ toyOuter_chain) (by decide)
    (fun _ => ⟨genVar_point_ne, by
      rw [toyOuter_gen]
      change g2Generator ∉ [toyKey]
      rw [List.mem_singleton]
      exact fun h => toyKey_ne_gen h.symm, _, rfl, rfl⟩)
    (by
      change [toyKey].sum ≠ 0
      rw [List.sum_singleton]
      exact toyKey_ne) (fun _ h => nomatch h)
  rw [toyOuter_gen] at h
  exact h

/-- C117: for the shape of this run, the setup of the parameters for one validator and five epochs succeeds and
emits the same constraints. -/
theorem toyOuter_setup (oc oc' drop : Bool) : ∃ s r u,
    proverCircuit (⟨1, sqrtTwo, 1⟩ : G1Var).point g2Generator 1 (chainBlock [toyKey] 0 4)
        ([nativeStep 5] ++ [nativeStep 6]) 5 = .ok s ∧
    (ValidatorSetUpdateOpt.empty (G1 := G1Point) () 1 5 0 none).shape =
      (s.toOpt (HP := Unit) (VK := Unit) none).shape ∧
    generateConstraints toyOuter oc' drop (1, sqrtTwo) ((g2GenX.re, g2GenX.im), (g2GenY.re, g2GenY.im))
        (s.toOpt none) (.new FQ_MODULUS false) = .ok r ∧
    generateConstraints toyOuter oc drop (1, sqrtTwo) ((g2GenX.re, g2GenX.im), (g2GenY.re, g2GenY.im))
      (ValidatorSetUpdateOpt.empty () 1 5 0 none) (.new FQ_MODULUS true) = .ok u ∧
    SameShape u.2 r.2 ∧ u.2.Closed := by
  obtain ⟨s, r, h1, h2, h3, h4, h5, h6⟩ := toyOuter_run oc' drop
  have hshape := (C75_shape_iff (HP := Unit) (VK := Unit) _ _ () 1 5 0 none (by norm_num) _ _ 5 (by simp) none h1).2
    ⟨rfl, rfl, by
      intro t ht
      simp only [List.cons_append, List.nil_append, List.mem_cons, List.not_mem_nil, or_false] at ht
      rcases ht with rfl | rfl <;> exact ⟨rfl, rfl⟩, rfl⟩
  obtain ⟨u, hu, hu1, hu2⟩ := C117_setup toyOuter_shaped toyOuter_setsUp (oc' := oc) hshape.symm h2
  exact ⟨s, r, u, h1, hshape.symm, h2, hu, hu2,
    SameShape.closed ⟨hu2.1.symm, hu2.2.1.symm, hu2.2.2.symm⟩ h5⟩

/-- C118, for honest provers: with whatever parameters the setup of this circuit returns, the proof from the run
for the blocks 4, 5 and 6 is accepted. -/
example (oc oc' drop : Bool) : ∃ s,
    proverCircuit (⟨1, sqrtTwo, 1⟩ : G1Var).point g2Generator 1 (chainBlock [toyKey] 0 4)
        ([nativeStep 5] ++ [nativeStep 6]) 5 = .ok s ∧
    ∀ (domain : ℕ → EvalDomain (ZMod FQ_MODULUS)) td pk rr z, (∀ k, (domain k).Valid) →
      circuitSetup (G1 := ZMod FQ_MODULUS) (G2 := ZMod FQ_MODULUS) (generateConstraints toyOuter oc drop (1, sqrtTwo)
        ((g2GenX.re, g2GenX.im), (g2GenY.re, g2GenY.im)) (ValidatorSetUpdateOpt.empty () 1 5 0 none)) domain td =
          .ok pk →
      ∃ proof, circuitProve (generateConstraints toyOuter oc' drop (1, sqrtTwo)
          ((g2GenX.re, g2GenX.im), (g2GenY.re, g2GenY.im)) (s.toOpt none)) domain pk rr z = .ok proof ∧
        verifyEpochs (verifyProof (toyPairing FQ_MODULUS)) g2Generator (Blake2s.ofCore toyCore) pk.vk
          (chainBlock [toyKey] 0 4) (chainBlock [toyKey] 0 6) proof = .ok () := by
  obtain ⟨s, r, u, h1, h2, _⟩ := toyOuter_setup oc oc' drop
  refine ⟨s, h1, fun domain td pk rr z hD hset => ?_⟩
  have h := C118_complete (O := toyOuter) (a := (1, sqrtTwo))
    (d := ((g2GenX.re, g2GenX.im), (g2GenY.re, g2GenY.im))) (toyPairing FQ_MODULUS) toyOuter_shaped
    onePoint_on genVar_denotes toyOuter_runs toyOuter_keeps
    oc' oc drop (Blake2s.ofCore_agree toyCore) (fun _ _ _ => (one_mul _).symm) (fun _ _ _ => (one_mul _).symm)
    none (n := 1) (by norm_num) (by decide +kernel) (max := 5)
    (toyOuter_gen.symm ▸ toyOuter_chain) (by decide)
    (fun _ => ⟨genVar_point_ne, by
      rw [toyOuter_gen]
      change g2Generator ∉ [toyKey]
      rw [List.mem_singleton]
      exact fun h => toyKey_ne_gen h.symm, _, rfl, rfl⟩)
    (by
      change [toyKey].sum ≠ 0
      rw [List.sum_singleton]
      exact toyKey_ne) (fun _ h => nomatch h) (toyOuter_gen.symm ▸ h1) h2 (fun _ _ => hD _) hset rr z
  rw [toyOuter_gen] at h
  exact h

/-- C118, for linear provers: the hypotheses on the gadgets and on the setup's run are met by this circuit, so for
every valid domain that is large enough and all blocks with entropies of sixteen bytes, it applies. -/
example (oc drop : Bool) (j : UInt16) : ∃ u,
    generateConstraints toyOuter oc drop (1, sqrtTwo) ((g2GenX.re, g2GenX.im), (g2GenY.re, g2GenY.im))
      (ValidatorSetUpdateOpt.empty () 1 5 0 none) (.new FQ_MODULUS true) = .ok u ∧
    ∀ (domain : ℕ → EvalDomain (ZMod FQ_MODULUS))
      (sa sc : G1Strategy (ZMod FQ_MODULUS) u.2.numInst u.2.numWit (domain u.2.domainSize).size)
      (sb : G2Strategy (ZMod FQ_MODULUS) u.2.numInst u.2.numWit),
      (domain u.2.domainSize).Valid → u.2.domainSize ≤ (domain u.2.domainSize).size →
    (∃ c : CircuitVars G1Point, c.updates.length = 5 ∧
      ∀ t ∈ c.transitions, t.2.epoch.index = t.1.index + 1 ∧ t.2.bitmap.length = 1) ∨
    ∃ lucky : Finset (Fin 5 → ZMod FQ_MODULUS),
      lucky.card ≤ (3 * (domain u.2.domainSize).size + 1) * FQ_MODULUS ^ 4 ∧
      ∀ v ∉ lucky, ∀ pk, circuitSetup (generateConstraints toyOuter oc drop (1, sqrtTwo)
          ((g2GenX.re, g2GenX.im), (g2GenY.re, g2GenY.im)) (ValidatorSetUpdateOpt.empty () 1 5 0 none)) domain
          (Trapdoor.ofScalars v (7 : ZMod FQ_MODULUS) (8 : ZMod FQ_MODULUS)) = .ok pk →
        verifyEpochs (verifyProof (toyPairing FQ_MODULUS)) g2Generator (Blake2s.ofCore toyCore) pk.vk
          (chainBlock [toyKey] 0 4) (chainBlock [toyKey] 0 j)
          ⟨sa.combine pk, sb.combine pk, sc.combine pk⟩ = .err .verificationFailed := by
  obtain ⟨s, r, u, _, _, _, hu, _, hc⟩ := toyOuter_setup oc oc drop
  refine ⟨u, hu, fun domain sa sc sb hD hN => ?_⟩
  have h := C118_sound (O := toyOuter) (a := (1, sqrtTwo))
    (d := ((g2GenX.re, g2GenX.im), (g2GenY.re, g2GenY.im))) (toyPairing FQ_MODULUS) toyOuter_shaped toyOuter_keeps
    (fun m b c t h => by rw [← Outcome.ok.inj h]; exact List.length_replicate) onePoint_on genVar_denotes (fun ρ h1 => toyOuter_sound h1)
    (Blake2s.ofCore_agree toyCore) (by rfl) (by decide +kernel) (by simp [ValidatorSetUpdateOpt.empty]) hu hc hD hN
    (g1 := (7 : ZMod FQ_MODULUS)) (g2 := (8 : ZMod FQ_MODULUS)) (by decide +kernel) (by decide +kernel)
    (chain_entropy [toyKey] 0 4).1 (chain_entropy [toyKey] 0 j).2 sa sc sb
  rw [toyOuter_gen] at h
  rcases h with ⟨c, b, h1, _, h3, _⟩ | h
  · refine .inl ⟨c, by rw [h1]; rfl, fun t ht => ?_⟩
    obtain ⟨k1, k2, k3, _⟩ := h3 t ht
    exact ⟨k1, by rw [k2, k3]; rfl⟩
  · exact .inr h

end Verif
