import Verif.Lemmas.SynthesisEpochs
import Verif.Props.EpochCircuit

/-!
# The constraints of the whole circuit

C116: the constraints that `generate_constraints` emits, taken as a system of rank-1 constraints on
numbered variables, force the relation of the circuit (`Model/EpochCircuit`).
-/

set_option linter.unusedSectionVars false

namespace Verif

theorem length_edgeHash (K : Blake2sCore) (bits : List Bool) : (edgeHash K bits).length = 256 := by
  unfold edgeHash Blake2sCore.evaluate
  rw [bytesLeToBitsLe_all _ 256 (by rw [K.length_digest]), flatMap_unpack_length, K.length_digest]

section

variable {HP VK GT : Type} [CommGroup GT] {O : OuterGadgets (HashToBitsHelper HP VK)} {ρ : R1Var → Fq}
  {hashC : Bool → List Bool → List Bool → HashOut G1Point → Prop}
  {e : G1Point → G2Point → GT} {K : Blake2sCore}
  {groth : VK → List (List Bool) → HP → Outcome Unit (Prop × Bool)}
  {isG1 : O.PG1 → G1Point → Prop} {isG2 : O.PG2 → G2Point → Prop}
  {g1 : Fq × Fq} {g2 : (Fq × Fq) × (Fq × Fq)} {oc drop : Bool}
  {s : ValidatorSetUpdateOpt G1Point HP VK}

/-- C116: every assignment that satisfies the constraints emitted by `generate_constraints`, in whatever
mode they were emitted, gives values of all variables of the circuit that satisfy its relation, with the
values of the returned public inputs. -/
theorem C116_sound (h1 : ρ .one = 1) (hS : O.Shaped)
    (hg1 : (⟨g1.1, g1.2, 1⟩ : G1Var).coords.OnCurve 1)
    (hg2 : Denotes (padVar g2.1 g2.2).coords (padVar g2.1 g2.2).point)
    (hO : O.SoundAt ρ hashC e (padVar g2.1 g2.2).point K groth isG1 isG2)
    {cs : ConstraintSystem FQ_MODULUS} {r : List (LinComb FQ_MODULUS) × ConstraintSystem FQ_MODULUS}
    (hr : generateConstraints O oc drop g1 g2 s cs = .ok r) (hs : r.2.Sat ρ) :
    r.1.length = 2 ∧ ∃ (c : CircuitVars G1Point) (proof : Option HP) (P : Prop),
      c.initial.keys.length = s.initialEpoch.publicKeys.length ∧
      List.Forall₂ (fun (u : SingleUpdateOpt) (w : UpdateVars G1Point) =>
        w.epoch.keys.length = s.numValidators ∧ w.bitmap.length = u.signedBitmap.length)
        s.epochs c.updates ∧
      proof.isNone = s.hashHelper.isNone ∧
      epochCircuit (fun k => k.coords.OnCurve g2CoeffB) hashC K (helperGroth groth s.hashHelper) e
        (⟨g1.1, g1.2, 1⟩ : G1Var).point (padVar g2.1 g2.2).point s.numValidators proof c
        (r.1.map (evalLc ρ)) = .ok P ∧ P := by
  obtain ⟨c, proof, P, a, b, d, f, g⟩ := sound_generateConstraints h1 hS hg1 hg2 hO oc drop s cs r hr hs
  refine ⟨?_, c, proof, P, a, b, d, f, g⟩
  unfold epochCircuit at f
  rw [Outcome.bind_eq_ok_iff] at f
  obtain ⟨eb, _, f⟩ := f
  rw [Outcome.map_eq_ok_iff] at f
  obtain ⟨v, hv, rfl⟩ := f
  unfold EpochBits.verify at hv
  rw [Outcome.map_eq_ok_iff] at hv
  obtain ⟨v', _, rfl⟩ := hv
  have hm := g.2.2
  unfold verifyEdgesC multipackC at hm
  have hl := hm.length_eq
  rw [List.length_map] at hl
  rw [← hl, chunks_length (by norm_num), List.length_append, length_edgeHash, length_edgeHash]

/-- C116, what a satisfied system of constraints means: the real transitions are signed by enough validators
of the epoch before, over the hash of the epoch, and the public inputs are the packed hashes of the first
and last epoch. -/
theorem C116_transitions (h1 : ρ .one = 1) (hS : O.Shaped)
    (hg1 : (⟨g1.1, g1.2, 1⟩ : G1Var).coords.OnCurve 1)
    (hg2 : Denotes (padVar g2.1 g2.2).coords (padVar g2.1 g2.2).point)
    (hO : O.SoundAt ρ hashC e (padVar g2.1 g2.2).point K groth isG1 isG2)
    {cs : ConstraintSystem FQ_MODULUS} {r : List (LinComb FQ_MODULUS) × ConstraintSystem FQ_MODULUS}
    (hr : generateConstraints O oc drop g1 g2 s cs = .ok r) (hs : r.2.Sat ρ)
    (hn : s.initialEpoch.publicKeys.length = s.numValidators) (hq : s.numValidators < FQ_MODULUS) :
    ∃ (c : CircuitVars G1Point) (lastBits : List Bool), c.updates.length = s.epochs.length ∧
      (∀ t ∈ c.transitions,
        t.2.epoch.index = t.1.index + 1 ∧
        t.2.bitmap.length = t.1.keys.length ∧ t.1.keys.length = s.numValidators ∧
        t.2.bitmap.count false ≤ t.1.maximumNonSigners.val ∧
        (∀ x ∈ t.1.pubkeys.zip t.2.bitmap, x.2 = true → x.1.point ≠ (padVar g2.1 g2.2).point) ∧
        hashC s.hashHelper.isNone t.2.epoch.epochBits t.2.epoch.extraDataBits t.2.hash) ∧
      e c.signature (-(padVar g2.1 g2.2).point) *
        ((c.transitions.map fun t => e t.2.hash.messageHash
          (((t.1.pubkeys.zip t.2.bitmap).filter (·.2)).map (·.1.point)).sum).prod *
        e (⟨g1.1, g1.2, 1⟩ : G1Var).point (padVar g2.1 g2.2).point ^
          (c.updates.length - c.real.length)) = 1 ∧
      (∀ u, c.updates.getLast? = some u → u.epoch.index ≠ 0 ∧
        ∃ x y hxy w, (u.epoch.pubkeys.map G2Var.point).sum = .some x y hxy ∧
          g2ToBitsC ⟨x, y, 1⟩ w ∧ lastBits = u.epoch.lastEpochBits ++ g2ToBits ⟨x, y, 1⟩ w) ∧
      multipackC 377 376 (edgeHash K c.initial.firstEpochBits ++ edgeHash K lastBits)
        (r.1.map (evalLc ρ)) := by
  obtain ⟨c, proof, P, a, b, d, f, g⟩ := sound_generateConstraints h1 hS hg1 hg2 hO oc drop s cs r hr hs
  unfold epochCircuit at f
  rw [Outcome.bind_eq_ok_iff] at f
  obtain ⟨eb, heb, f⟩ := f
  rw [Outcome.map_eq_ok_iff] at f
  obtain ⟨v, hv, rfl⟩ := f
  unfold EpochBits.verify at hv
  rw [Outcome.map_eq_ok_iff] at hv
  obtain ⟨v', _, rfl⟩ := hv
  rw [d] at heb
  have hi : c.initial.keys.length = s.numValidators := a.trans hn
  obtain ⟨t1, t2⟩ := C45_transitions _ _ hi hq heb g.1
  obtain ⟨e1, e2⟩ := C45_edges _ _ hi heb g.1
  have spec := enforce_sound _ _ hi heb g.1
  have hidx : ∀ t ∈ c.transitions, t.2.epoch.index = t.1.index + 1 := by
    intro t ht
    obtain ⟨hm, hz⟩ := transitions_mem_steps ht
    exact (spec.steps t hm).next hz
  have hm := g.2.2
  unfold verifyEdgesC at hm
  rw [e1] at hm
  exact ⟨c, eb.lastEpochBits, b.length_eq.symm, fun t ht => ⟨hidx t ht, t1 t ht⟩, t2,
    fun u hu => ⟨(e2 u hu).1, (e2 u hu).2.2⟩, hm⟩

/-- C116: circuits of the same size get the same constraints and public inputs, whatever the values, the
mode and the overflow checks: in particular setup and prover. -/
theorem C116_shape (hS : O.Shaped) {oc' : Bool} {s' : ValidatorSetUpdateOpt G1Point HP VK}
    (hinit : s.initialEpoch.publicKeys.length = s'.initialEpoch.publicKeys.length)
    (hepochs : List.Forall₂ (fun u u' : SingleUpdateOpt =>
      u.epochData.publicKeys.length = u'.epochData.publicKeys.length ∧
        u.signedBitmap.length = u'.signedBitmap.length) s.epochs s'.epochs)
    (hn : s.numValidators = s'.numValidators)
    (hvk : s.hashHelper.map (·.verifyingKey) = s'.hashHelper.map (·.verifyingKey))
    {cs cs' : ConstraintSystem FQ_MODULUS} (hi : cs.numInst = cs'.numInst) (hw : cs.numWit = cs'.numWit)
    (hcs : cs.constraints = cs'.constraints)
    {r r' : List (LinComb FQ_MODULUS) × ConstraintSystem FQ_MODULUS}
    (hr : generateConstraints O oc drop g1 g2 s cs = .ok r)
    (hr' : generateConstraints O oc' drop g1 g2 s' cs' = .ok r') :
    r.1 = r'.1 ∧ r.2.constraints = r'.2.constraints ∧ r.2.numInst = r'.2.numInst ∧
      r.2.numWit = r'.2.numWit := by
  have hsk : SameKey s.hashHelper s'.hashHelper := by
    cases ha : s.hashHelper <;> cases hb : s'.hashHelper <;> rw [ha, hb] at hvk
    · trivial
    · cases hvk
    · cases hvk
    · exact Option.some.inj hvk
  obtain ⟨k1, k2, k3, _, _, ext, e1, e2⟩ := alike_generateConstraints hS oc oc' drop g1 g2
    ⟨hinit, hepochs, hn, hsk⟩ cs cs' r r' hi hw hr hr'
  exact ⟨k1, by rw [e1, e2, hcs], k2, k3⟩

theorem epochsLoop_sizes {gh : Bool} {n : ℕ} {eb : BoolV} {us : List SingleUpdateOpt}
    {prev : PreviousV FQ_MODULUS} {cs : ConstraintSystem FQ_MODULUS}
    {r : LoopV O.PG1 O.PG2 × ConstraintSystem FQ_MODULUS}
    (hr : epochsLoop O oc drop gh g1 g2 n eb us prev cs = .ok r) :
    ∀ u ∈ us, u.epochData.publicKeys.length = n := by
  induction us generalizing prev cs r with
  | nil => intro u hu; cases hu
  | cons u us ih =>
    unfold epochsLoop at hr
    obtain ⟨x1, k1, hr⟩ := synth_bind_ok.1 hr
    obtain ⟨x2, k2, hr⟩ := synth_bind_ok.1 hr
    obtain ⟨x3, k3, hr⟩ := synth_bind_ok.1 hr
    obtain ⟨x4, k4, hr⟩ := synth_bind_ok.1 hr
    obtain ⟨x5, k5, hr⟩ := synth_bind_ok.1 hr
    obtain ⟨x6, k6, hr⟩ := synth_bind_ok.1 hr
    intro v hv
    rcases List.mem_cons.1 hv with rfl | hv
    · unfold constrainUpdateV at k1
      split at k1
      · cases k1
      · omega
    · exact ih k6 v hv

/-- C116: `generate_constraints` completes only if every epoch has the declared number of keys. -/
theorem C116_sizes {cs : ConstraintSystem FQ_MODULUS}
    {r : List (LinComb FQ_MODULUS) × ConstraintSystem FQ_MODULUS}
    (hr : generateConstraints O oc drop g1 g2 s cs = .ok r) :
    ∀ u ∈ s.epochs, u.epochData.publicKeys.length = s.numValidators := by
  obtain ⟨x1, k1, _⟩ := synth_bind_ok.1 hr
  obtain ⟨x2, k2, k1⟩ := synth_bind_ok.1 k1
  obtain ⟨x3, k3, k1⟩ := synth_bind_ok.1 k1
  obtain ⟨x4, k4, _⟩ := synth_bind_ok.1 k1
  exact epochsLoop_sizes k4

end

/-! ## Examples -/

/-- Gadgets for the examples: a constant hash, no pairing constraints. -/
def toyOuter : OuterGadgets (HashToBitsHelper Unit Unit) where
  PG1 := G1V FQ_MODULUS
  PG2 := G2V FQ_MODULUS
  hash := fun _ _ _ => Synth.pure ⟨G1V.constant (1, sqrtTwo), [], []⟩
  prepareG1 := Synth.pure
  prepareG2 := Synth.pure
  verify := fun _ _ _ => Synth.pure ()
  blake := fun _ _ => Synth.pure (List.replicate 256 (.constant false))
  groth := fun _ _ => Synth.pure ()

/-- A hash with zero digest, for the examples. -/
def toyCore : Blake2sCore := ⟨fun _ _ => List.replicate 32 0, fun _ _ => List.length_replicate ..⟩

theorem toyOuter_shaped : toyOuter.Shaped :=
  ⟨fun _ _ _ => alike_pure _, fun _ => alike_pure _, fun _ => alike_pure _, fun _ _ _ => alike_pure _,
    fun _ _ => alike_pure _, fun _ _ _ _ => alike_pure _⟩

theorem toyCore_zero : bytesLeToBitsLe (List.replicate 32 0) 256 = List.replicate 256 false := by
  decide +kernel

theorem onePoint_on : (⟨1, sqrtTwo, 1⟩ : G1Var).coords.OnCurve 1 := by
  unfold ProjVar.OnCurve
  have h := one_sqrtTwo_on
  simp only [G1Var.coords]
  linear_combination h

theorem toyOuter_sound {ρ : R1Var → Fq} (h1 : ρ .one = 1) : toyOuter.SoundAt ρ
    (fun _ _ _ out => out = ⟨(⟨1, sqrtTwo, 1⟩ : G1Var).point, [], []⟩)
    (fun _ _ => (1 : Multiplicative ℤ)) genVar.point toyCore (fun _ _ _ => .ok (True, true))
    (fun w P => (g1At ρ w).point = P) (fun w P => (keyAt ρ w).point = P) := by
  have hc : g1At ρ (G1V.constant (1, sqrtTwo)) = ⟨1, sqrtTwo, 1⟩ := by
    simp [g1At, G1V.constant, lcConst, evalLc, h1]
  refine ⟨?_, ?_, ?_, ?_, ?_, ?_⟩
  · intro b xs ys ts us _ _
    refine sound_pure ⟨_, rfl, ?_, ?_, .nil, .nil⟩
    · rw [hc]; exact onePoint_on
    · rw [hc]
  · exact fun v _ => sound_pure rfl
  · exact fun v _ => sound_pure rfl
  · intro ks ms s Ks Ms _ _ _
    refine sound_pure fun eqn h => ?_
    unfold batchVerifyPrepared enforceBlsEquation at h
    split at h
    · cases h
      exact List.prod_eq_one fun x hx => by
        obtain ⟨_, _, rfl⟩ := List.mem_map.1 hx
        rfl
    · cases h
  · intro m ts b _ _
    refine sound_pure ?_
    unfold Blake2sCore.evaluate toyCore
    dsimp only
    rw [toyCore_zero]
    exact forall₂_replicate ((bitIs_constant h1).2 rfl) 256
  · intro ins tss h _
    exact sound_pure ⟨(), _, rfl, trivial⟩

/-- The hypotheses of `C116_sound` and `C116_transitions` on gadgets and generators can be met. -/
example {ρ : R1Var → Fq} (h1 : ρ .one = 1) : toyOuter.Shaped ∧
    (⟨1, sqrtTwo, 1⟩ : G1Var).coords.OnCurve 1 ∧
    Denotes (padVar (g2GenX.re, g2GenX.im) (g2GenY.re, g2GenY.im)).coords
      (padVar (g2GenX.re, g2GenX.im) (g2GenY.re, g2GenY.im)).point ∧
    toyOuter.SoundAt ρ (fun _ _ _ out => out = ⟨(⟨1, sqrtTwo, 1⟩ : G1Var).point, [], []⟩)
      (fun _ _ => (1 : Multiplicative ℤ))
      (padVar (g2GenX.re, g2GenX.im) (g2GenY.re, g2GenY.im)).point toyCore
      (fun _ _ _ => .ok (True, true))
      (fun w P => (g1At ρ w).point = P) (fun w P => (keyAt ρ w).point = P) := by
  rw [padVar_gen]
  exact ⟨toyOuter_shaped, onePoint_on, genVar_denotes, toyOuter_sound h1⟩

end Verif
