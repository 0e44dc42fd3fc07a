import Verif.Model.SynthesisApi
import Verif.Props.SynthesisHash
import Verif.Props.SynthesisHelper

/-!
# C122: the whole program, on the constraints that are emitted

The end-to-end program (C99, C105) with the two circuits synthesised: the trusted setup generates both
constraint systems, the prover makes the proof of the helper and that of the epochs from its own runs, and the
verifier accepts.
-/

set_option linter.unusedSectionVars false
set_option exponentiation.threshold 800

namespace Verif

section

variable {HP VK GE : Type} [CommGroup GE] {O : OuterGadgets (HashToBitsHelper HP VK)}
  {hashC : Bool → List Bool → List Bool → HashOut G1Point → Prop}
  {hashW : Bool → List Bool → List Bool → Outcome Unit (HashOut G1Point)}
  {e : G1Point → G2Point → GE} {K : Blake2sCore}
  {groth : VK → List (List Bool) → HP → Outcome Unit (Prop × Bool)}
  {isG1 : ConstraintSystem FQ_MODULUS → O.PG1 → G1Point → Prop}
  {isG2 : ConstraintSystem FQ_MODULUS → O.PG2 → G2Point → Prop}
  {a : Fq × Fq} {d : (Fq × Fq) × (Fq × Fq)}

/-- The verifier gadget for the key of the helper, if there is one. -/
def optGroth (groth : VK → List (List Bool) → HP → Outcome Unit (Prop × Bool)) :
    Option VK → List (List Bool) → HP → Outcome Unit (Prop × Bool)
  | some vk => groth vk
  | none => fun _ _ => .ok (True, true)

theorem bitmaps_of_shape {s : ValidatorSetUpdate G1Point} {helper : Option (HashToBitsHelper HP VK)} {dp : HP}
    {n max f : ℕ} {vk : Option VK} (hn : n ≠ 0)
    (h : (s.toOpt helper).shape = (ValidatorSetUpdateOpt.empty (G1 := G1Point) dp n max f vk).shape) :
    ∀ u ∈ s.epochs, u.signedBitmap ≠ [] := by
  intro u hu hz
  have h3 := congrArg CircuitShape.updates h
  simp only [ValidatorSetUpdateOpt.shape, ValidatorSetUpdate.toOpt, ValidatorSetUpdateOpt.empty, List.map_map,
    List.map_replicate] at h3
  have hm : ((fun u : SingleUpdateOpt => (u.epochData.publicKeys.length, u.signedBitmap.length)) ∘
      SingleUpdate.toOpt) u ∈ List.map ((fun u : SingleUpdateOpt =>
        (u.epochData.publicKeys.length, u.signedBitmap.length)) ∘ SingleUpdate.toOpt) s.epochs :=
    List.mem_map_of_mem hu
  rw [h3] at hm
  have := congrArg Prod.snd (List.eq_of_mem_replicate hm)
  simp only [Function.comp_apply, SingleUpdate.toOpt, SingleUpdateOpt.empty, List.length_map, hz,
    List.length_replicate, List.length_nil] at this
  exact hn this.symm

/-- The relation of the circuit, satisfied by the values of a prover, gives the run. -/
theorem run_of_relation (ha : (⟨a.1, a.2, 1⟩ : G1Var).coords.OnCurve 1)
    (hd : Denotes (padVar d.1 d.2).coords (padVar d.1 d.2).point)
    (hO : O.RunsAt hashC hashW e (padVar d.1 d.2).point K groth isG1 isG2) (hk : O.Keeps) (oc drop : Bool)
    (s : ValidatorSetUpdate G1Point) (hne : ∀ u ∈ s.epochs, u.signedBitmap ≠ [])
    (helper : Option (HashToBitsHelper HP VK)) {c : CircuitVars G1Point} {inputs : List Fq} {sat : Prop}
    (hin : circuitInputs OnG2 hashC K e (⟨a.1, a.2, 1⟩ : G1Var).point (padVar d.1 d.2).point
      s.numValidators (helper.map (·.proof)) c = .ok inputs)
    (hc : CircuitVars.assign oc (hashW helper.isNone) s = .ok c)
    (hcirc : epochCircuit OnG2 hashC K (optGroth groth (helper.map (·.verifyingKey))) e
      (⟨a.1, a.2, 1⟩ : G1Var).point (padVar d.1 d.2).point s.numValidators (helper.map (·.proof)) c inputs = .ok sat)
    (hsat : sat) :
    ∃ r, generateConstraints O oc drop a d (s.toOpt helper) (.new FQ_MODULUS false) = .ok r ∧
      r.2.instVals = inputs ∧ r.2.numInst = 2 ∧ r.2.Closed ∧ r.2.Sat r.2.rho := by
  have hnone : (helper.map (·.proof)).isNone = helper.isNone := by cases helper <;> rfl
  unfold circuitInputs at hin
  unfold epochCircuit at hcirc
  rw [hnone] at hin hcirc
  obtain ⟨b, hb, hin⟩ := (Outcome.bind_eq_ok_iff _ _ _).1 hin
  rw [hb, Outcome.bind_ok] at hcirc
  obtain ⟨v, hv, rfl⟩ := (Outcome.map_eq_ok_iff _ _ _).1 hcirc
  unfold EpochBits.verify at hv
  obtain ⟨w, hw, rfl⟩ := (Outcome.map_eq_ok_iff _ _ _).1 hv
  obtain ⟨hs1, hs2, _⟩ := hsat
  have hh : ∀ x, helper = some x → ∃ P, verifyHelperProof (groth x.verifyingKey) b x.proof = .ok P ∧ P := by
    rintro x rfl
    exact ⟨w, hw, hs2⟩
  obtain ⟨r, vs, r1, r2, r3, r4, r5, r6⟩ := C117_run ha hd hO hk oc drop s hne helper hc hb hs1 hh
  rw [hin] at r2
  cases r2
  exact ⟨r, r1, r3, r4, r5, r6⟩

end

section

variable {M A1 A2 AT B1 B2 GE : Type} [AddCommGroup M] [AddCommGroup A1] [Module (ZMod FQ_MODULUS) A1]
  [AddCommGroup A2] [Module (ZMod FQ_MODULUS) A2] [CommGroup AT] [DecidableEq AT] [AddCommGroup B1]
  [Module (ZMod FR_MODULUS) B1] [AddCommGroup B2] [Module (ZMod FR_MODULUS) B2] [CommGroup GE]
  [DecidableEq G1Point] {blake : List BoolV → Bytes → Synth FR_MODULUS (List BoolV)} {K : Blake2sCore}

theorem generateParameters_total {r : ℕ} [Fact r.Prime] {G1 G2 : Type*} [AddCommGroup G1] [Module (ZMod r) G1]
    [AddCommGroup G2] [Module (ZMod r) G2] {k w m : ℕ} (S : R1cs (ZMod r) k w m) (D : EvalDomain (ZMod r))
    (td : Trapdoor (ZMod r) G1 G2) (h : m + (k + 1) ≤ D.size) (hg : td.gamma ≠ 0) (hd : td.delta ≠ 0) :
    ∃ pk, generateParameters S D td = .ok pk ∧ pk.vk.gammaAbcG1.length = k + 1 := by
  unfold generateParameters
  rw [if_neg (by omega), if_neg hg, if_neg hd]
  exact ⟨_, rfl, by simp⟩

theorem crhXofInputs_length {k : ℕ} {crhs xofs : List (List Bool)} (h1 : crhs.length = k)
    (h2 : ∀ m ∈ crhs, m.length = 384) (h3 : xofs.length = k) (h4 : ∀ m ∈ xofs, m.length = 512) :
    (crhXofInputs crhs xofs).length = helperInputs k := by
  have a1 : crhs.flatten.length = 384 * k := by
    rw [List.length_flatten, List.map_congr_left (g := fun _ => 384) h2]
    simp [h1, mul_comm]
  have a2 : xofs.flatten.length = 512 * k := by
    rw [List.length_flatten, List.map_congr_left (g := fun _ => 512) h4]
    simp [h3, mul_comm]
  simp only [crhXofInputs, leChunks, List.length_append, List.length_map]
  rw [chunks_length (by norm_num), chunks_length (by norm_num), a1, a2]
  rfl

/-- C122: the setup of the helper succeeds, for any number of epochs, if the domain is large enough and neither `γ`
nor `δ` is zero; its key expects as many public inputs as the epoch circuit supplies. -/
theorem C122_helper_setup (hb : BlakeRunsAt blake K) (hkb : ∀ m b, KeepsInputs (blake m b))
    (hSb : ∀ m b, Alike (blake m b) (blake m b)) (hUb : ∀ m b, SetupFollows (blake m b) (blake m b)) (max : ℕ)
    {domain : ℕ → EvalDomain (ZMod FR_MODULUS)}
    (hD : ∀ u, (HashToBits.empty 377 max).generateConstraints blake (.new FR_MODULUS true) = .ok u →
      u.2.domainSize ≤ (domain u.2.domainSize).size)
    (td : Trapdoor (ZMod FR_MODULUS) B1 B2) (hg : td.gamma ≠ 0) (hd : td.delta ≠ 0) :
    ∃ pk, circuitSetup ((HashToBits.empty 377 max).generateConstraints blake) domain td = .ok pk ∧
      pk.vk.gammaAbcG1.length = helperInputs max + 1 := by
  have hl : ∀ m ∈ List.replicate max (List.replicate 384 false), m.length = 384 := fun m hm => by
    rw [List.eq_of_mem_replicate hm, List.length_replicate]
  obtain ⟨u, r, hu, hr, _, hss, _⟩ := C120_setup (h0 := HashToBits.empty 377 max) hb hkb hSb hUb
    (messages := List.replicate max (List.replicate 384 false))
    (fun m hm => by rw [hl m hm]; decide) (empty_lengths (List.length_replicate ..) hl)
  obtain ⟨r', xofs, hr', hx, _, hi, _⟩ := C120_run hb hkb
    (messages := List.replicate max (List.replicate 384 false)) (fun m hm => by rw [hl m hm]; decide)
  rw [hr] at hr'
  cases hr'
  have hxl : ∀ m ∈ xofs, m.length = 512 := by
    clear * - hx
    generalize List.replicate max (List.replicate 384 false) = l at hx
    induction hx with
    | nil => simp
    | @cons m _ _ _ h1 _ ih =>
      obtain ⟨o, h2, h3⟩ := hashToBitsBlake_length K m
      rw [h1] at h2
      cases h2
      exact List.forall_mem_cons.2 ⟨h3, ih⟩
  rw [crhXofInputs_length (List.length_replicate ..) hl (hx.length_eq.symm.trans (List.length_replicate ..)) hxl,
    ← hss.1] at hi
  obtain ⟨pk, h1, h2⟩ := generateParameters_total u.2.matrices (domain u.2.domainSize) td (hD u hu) hg hd
  refine ⟨pk, ?_, by rw [h2, hi]⟩
  unfold circuitSetup
  rw [hu]
  exact h1

theorem circuitProve_total {r : ℕ} [Fact r.Prime] {G1 G2 : Type*} [AddCommGroup G1] [Module (ZMod r) G1]
    [AddCommGroup G2] [Module (ZMod r) G2] {α : Type} {g : Synth r α} {t : α × ConstraintSystem r}
    (h : g (.new r false) = .ok t) (domain : ℕ → EvalDomain (ZMod r)) (pk : GrothPk G1 G2) (rr s : ZMod r) :
    ∃ p, circuitProve g domain pk rr s = .ok p := by
  unfold circuitProve
  rw [h]
  exact ⟨_, rfl⟩

/-- A program that succeeds has made a proof from some circuit. -/
theorem endToEnd_circuit {HP VK PC PB R ε VKC Proof : Type*} {gen1 : G1Point} {B : Blake2s}
    {pedersen : Bytes → Outcome BLSError Bytes} {H : EpochBlock → Outcome BLSError G1Point}
    {defaultProof : HP} {vkOf : PB → VK} {vkOfC : PC → VKC}
    {generateB : HashToBits → R → Outcome ε PB × R}
    {generateC : ValidatorSetUpdateOpt G1Point HP VK → R → Outcome ε PC × R}
    {createProofB : HashToBits → PB → Outcome Unit HP}
    {createProofC : ValidatorSetUpdateOpt G1Point HP VK → PC → Outcome Unit Proof}
    {groth16 : VKC → Proof → List Fq → Outcome Unit Bool}
    {rng : ℕ → ZMod FR_MODULUS} {setupRng : R} {n f m max : ℕ} {helper : Bool}
    (h : endToEnd gen1 g2Generator B pedersen H defaultProof vkOf vkOfC generateB generateC createProofB
      createProofC groth16 rng setupRng n f m max helper = .ok ()) :
    ∃ circuit pc proof, createProofC circuit pc = .ok proof := by
  unfold endToEnd at h
  obtain ⟨params, _, h⟩ := (Outcome.bind_eq_ok_iff _ _ _).1 h
  obtain ⟨dd, _, h⟩ := (Outcome.bind_eq_ok_iff _ _ _).1 h
  obtain ⟨proof, hp, _⟩ := (Outcome.bind_eq_ok_iff _ _ _).1 h
  have hp' : ∀ o : Outcome Unit Proof, (o.unwrapResult : Outcome Unit Proof) = .ok proof → o = .ok proof := by
    intro o ho
    cases o with
    | ok x => exact ho
    | err x => cases ho
    | panic => cases ho
  have hp := hp' _ hp
  unfold prove at hp
  obtain ⟨ep, _, hp⟩ := (Outcome.bind_eq_ok_iff _ _ _).1 hp
  obtain ⟨hh, _, hp⟩ := (Outcome.bind_eq_ok_iff _ _ _).1 hp
  obtain ⟨sg, _, hp⟩ := (Outcome.bind_eq_ok_iff _ _ _).1 hp
  exact ⟨_, _, _, hp⟩

/-- **C122.** The end-to-end program succeeds on the constraints that the two circuits emit.  Both setups
generate their constraint systems, the prover runs both circuits on its values and makes both proofs, and the
verifier accepts: with and without helper, for every number of validators up to 206, of faults, of epochs up to
65535 and of dummies, and whatever is drawn, provided that the hashes succeed, no secret drawn is zero or one and
those of the last block do not sum to zero, that the domains are large enough and that neither `γ` nor `δ` is zero.  The
external gadgets have to be complete (`RunsAt`), and the one for the helper's proof has to accept any proof as a
witness for a key with the right number of inputs (its verdict is discarded, C53). -/
theorem C122_end_to_end (P : Pairing FQ_MODULUS A1 A2 AT)
    {O : OuterGadgets (HashToBitsHelper (GrothProof B1 B2) (GrothVk B1 B2))} {e : G1Point → G2Point → GE}
    {groth : GrothVk B1 B2 → List (List Bool) → GrothProof B1 B2 → Outcome Unit (Prop × Bool)}
    {isG1 : ConstraintSystem FQ_MODULUS → O.PG1 → G1Point → Prop}
    {isG2 : ConstraintSystem FQ_MODULUS → O.PG2 → G2Point → Prop}
    {a : Fq × Fq} {d : (Fq × Fq) × (Fq × Fq)} {B : Blake2s} {sqrt : Fq → Option Fq} {x : M → Fq} {base : ℕ → M}
    {compat : Bool} (hS : O.Shaped) (hU : O.SetsUp) (hk : O.Keeps)
    (ha : (⟨a.1, a.2, 1⟩ : G1Var).coords.OnCurve 1)
    (hd : Denotes (padVar d.1 d.2).coords (padVar d.1 d.2).point) (hgen : (padVar d.1 d.2).point = g2Generator)
    (hO : O.RunsAt (fun g ts us out => hashBitsToG1C OnG1 compat K (pedersenX x base) g ts us out)
      (fun g ts us => hashBitsToG1Out compat K B (pedersenCrh x (crhGenerators base)) (pedersenX x base) sqrt g ts us)
      e (padVar d.1 d.2).point K groth isG1 isG2)
    (hb : BlakeRunsAt blake K) (hkb : ∀ m b, KeepsInputs (blake m b))
    (hSb : ∀ m b, Alike (blake m b) (blake m b)) (hUb : ∀ m b, SetupFollows (blake m b) (blake m b))
    (hB : Blake2sAgree K B) (hs : SqrtSpec sqrt)
    (hl : ∀ P P' Q, e (P + P') Q = e P Q * e P' Q) (hr : ∀ P Q Q', e P (Q + Q') = e P Q * e P Q')
    (oc drop : Bool) (defaultProof : GrothProof B1 B2) (rng : ℕ → ZMod FR_MODULUS)
    (setupRng : SetupRng A1 A2 B1 B2) (hg1 : setupRng.1.gamma ≠ 0) (hd1 : setupRng.1.delta ≠ 0)
    (hg2 : setupRng.2.gamma ≠ 0) (hd2 : setupRng.2.delta ≠ 0) (n f m max : ℕ)
    (hn : n ≤ 206) (hf : f < 2 ^ 32) (hm0 : m ≠ 0) (hm : m < 2 ^ 16) (hmax : m ≤ max) (helper : Bool)
    {domainB : ℕ → EvalDomain (ZMod FR_MODULUS)} {domain : ℕ → EvalDomain (ZMod FQ_MODULUS)}
    (hDB : ∀ u, (HashToBits.empty 377 max).generateConstraints blake (.new FR_MODULUS true) = .ok u →
      u.2.domainSize ≤ (domainB u.2.domainSize).size)
    (hD : ∀ vk u, generateConstraints O oc drop a d (ValidatorSetUpdateOpt.empty defaultProof n max f vk)
        (.new FQ_MODULUS true) = .ok u →
      (domain u.2.domainSize).Valid ∧ u.2.domainSize ≤ (domain u.2.domainSize).size)
    (hgadget : ∀ vk p i, vk.gammaAbcG1.length = i.length + 1 → ∃ r, groth vk i p = .ok r ∧ r.1)
    (hhash : ∀ i < m, ∃ g, blockHash compat B (pedersenCrh x (crhGenerators base)) sqrt
      (fixtureBlock g2Generator rng n f (i + 1)) = .ok g)
    (hdummy : m < max → ∃ g, blockHash compat B (pedersenCrh x (crhGenerators base)) sqrt
      (dummyBlock g2Generator n) = .ok g)
    (h0 : ∀ i < n * (m + 1), rng i ≠ 0) (h1 : ∀ i < n * m, rng i ≠ 1)
    (hsum : (drawnSecrets rng n m).sum ≠ 0) :
    endToEnd (⟨a.1, a.2, 1⟩ : G1Var).point g2Generator B (pedersenCrh x (crhGenerators base))
      (blockHash compat B (pedersenCrh x (crhGenerators base)) sqrt) defaultProof (·.vk) (·.vk)
      (helperSetup blake domainB) (epochSetup O oc drop a d domain) (helperProve blake domainB)
      (epochProve O oc drop a d domain) (verifyProof P) rng setupRng n f m max helper = .ok () := by
  classical
  rw [hgen] at hO
  have hn0 : n ≠ 0 := by
    rintro rfl
    exact hsum (by simp [drawnSecrets])
  obtain ⟨pkB, hpkB, hlenB⟩ := C122_helper_setup hb hkb hSb hUb max hDB setupRng.1 hg1 hd1
  -- the proof of the helper
  have hcreate : ∀ ms : List (List Bool), (∀ b ∈ ms, b.length = 384) →
      ∃ p, helperProve blake domainB ⟨ms.map (·.map some)⟩ pkB = .ok p := by
    intro ms hms
    obtain ⟨r, _, hr, _⟩ := C120_run hb hkb (messages := ms) fun b h => by rw [hms b h]; decide
    exact circuitProve_total hr _ _ _ _
  have hgad : ∀ p i, i.length = helperInputs max → ∃ r, optGroth groth (some pkB.vk) i p = .ok r ∧ r.1 :=
    fun p i hi => hgadget _ _ _ (by rw [hlenB, hi])
  have hrun : ∀ vk (s : ValidatorSetUpdate G1Point)
      (hh : Option (HashToBitsHelper (GrothProof B1 B2) (GrothVk B1 B2))) c inputs sat,
      (s.toOpt hh).shape = (ValidatorSetUpdateOpt.empty (G1 := G1Point) defaultProof n max f vk).shape →
      circuitInputs OnG2 (hashBitsToG1C OnG1 compat K (pedersenX x base)) K e (⟨a.1, a.2, 1⟩ : G1Var).point
        g2Generator s.numValidators (hh.map (·.proof)) c = .ok inputs →
      CircuitVars.assign oc (hashBitsToG1Out compat K B (pedersenCrh x (crhGenerators base))
        (pedersenX x base) sqrt hh.isNone) s = .ok c →
      epochCircuit OnG2 (hashBitsToG1C OnG1 compat K (pedersenX x base)) K
        (optGroth groth (hh.map (·.verifyingKey))) e (⟨a.1, a.2, 1⟩ : G1Var).point g2Generator s.numValidators
        (hh.map (·.proof)) c inputs = .ok sat → sat →
      ∃ r, generateConstraints O oc drop a d (s.toOpt hh) (.new FQ_MODULUS false) = .ok r ∧
        r.2.instVals = inputs ∧ r.2.numInst = 2 ∧ r.2.Closed ∧ r.2.Sat r.2.rho := by
    intro vk s hh c inputs sat hshape hin hassign hcirc hsat
    rw [← hgen] at hin hcirc hO
    exact run_of_relation ha hd hO hk oc drop s (bitmaps_of_shape hn0 hshape) hh hin hassign hcirc hsat
  set vko : Option (GrothVk B1 B2) := if helper then some pkB.vk else none with hvko
  -- the setup of the epochs: there is a run of a prover of the same shape
  obtain ⟨pk, hpk⟩ : ∃ pk, circuitSetup (generateConstraints O oc drop a d
      (ValidatorSetUpdateOpt.empty defaultProof n max f vko)) domain setupRng.2 = .ok pk := by
    have htrial := C99_end_to_end (PC := Unit) (VKC := Unit) (ε := Unit)
      (Proof := List (LinComb FQ_MODULUS) × ConstraintSystem FQ_MODULUS) (R := SetupRng A1 A2 B1 B2)
      onG1_complete onG2_complete compat oc hB hs x base (optGroth groth) hl hr (⟨a.1, a.2, 1⟩ : G1Var).point
      defaultProof (·.vk) (fun _ => ()) (helperSetup blake domainB)
      (fun circuit r => (if circuit.shape =
          (ValidatorSetUpdateOpt.empty (G1 := G1Point) defaultProof n max f vko).shape then .ok () else .err (), r))
      (helperProve blake domainB)
      (fun circuit _ => if circuit.shape =
          (ValidatorSetUpdateOpt.empty (G1 := G1Point) defaultProof n max f vko).shape then
        (match generateConstraints O oc drop a d circuit (.new FQ_MODULUS false) with
          | .ok r => .ok r
          | _ => .err ()) else .err ())
      (fun _ _ _ => .ok true) rng setupRng n f m max hn hf hm0 hm hmax
      (by
        intro vk r pc hpc s hh c inputs sat hshape hin hassign hcirc hsat
        obtain ⟨t, ht, _⟩ := hrun vk s hh c inputs sat hshape hin hassign hcirc hsat
        dsimp only at hpc ⊢
        split at hpc
        · rename_i heq
          exact ⟨t, by rw [if_pos (hshape.trans heq), ht], rfl⟩
        · cases hpc)
      helper ⟨(), if helper then some pkB else none⟩
      (by cases helper <;> simp [trustedSetup, setup, helperSetup, hpkB, Outcome.map, hvko])
      (by
        intro pb hpb ms _ hms
        cases helper
        · cases hpb
        · cases hpb
          exact hcreate ms hms)
      (by
        intro pb hpb p i hi
        cases helper
        · cases hpb
        · cases hpb
          exact hgad p i hi) hhash hdummy h0 h1 hsum
    obtain ⟨circuit, _, t, ht⟩ := endToEnd_circuit htrial
    split at ht
    · rename_i heq
      obtain ⟨t', ht'⟩ : ∃ t', generateConstraints O oc drop a d circuit (.new FQ_MODULUS false) = .ok t' := by
        cases hg : generateConstraints O oc drop a d circuit (.new FQ_MODULUS false) with
        | ok t' => exact ⟨t', rfl⟩
        | err _ => rw [hg] at ht; cases ht
        | panic => rw [hg] at ht; cases ht
      obtain ⟨u, hu, _⟩ := C117_setup (oc' := oc) hS hU heq.symm ht'
      obtain ⟨pk, hpk, _⟩ := generateParameters_total u.2.matrices (domain u.2.domainSize) setupRng.2
        (hD vko u hu).2 hg2 hd2
      refine ⟨pk, ?_⟩
      unfold circuitSetup
      rw [hu]
      exact hpk
    · cases ht
  exact C99_end_to_end (PC := GrothPk A1 A2) (VKC := GrothVk A1 A2) (Proof := GrothProof A1 A2)
    (R := SetupRng A1 A2 B1 B2) (ε := Unit)
    onG1_complete onG2_complete compat oc hB hs x base (optGroth groth) hl hr (⟨a.1, a.2, 1⟩ : G1Var).point
    defaultProof (·.vk) (·.vk) (helperSetup blake domainB) (epochSetup O oc drop a d domain)
    (helperProve blake domainB) (epochProve O oc drop a d domain) (verifyProof P) rng setupRng n f m max
    hn hf hm0 hm hmax
    (by
      intro vk r pc hpc s hh c inputs sat hshape hin hassign hcirc hsat
      obtain ⟨t, t1, t2, t3, t4, t5⟩ := hrun vk s hh c inputs sat hshape hin hassign hcirc hsat
      have hal := alike_generateConstraints hS oc oc drop a d (sameCircuit_of_shape hshape.symm)
      simp only [epochSetup] at hpc
      simp only [epochProve]
      obtain ⟨u, hu, _⟩ := circuitSetup_ok hpc
      have hdom := (hD vk u hu).1
      rw [sameShape_domainSize (hal.sameShape hu t1).2] at hdom
      have := circuit_complete P hal hpc t1 t4 (by
        rw [t2, t3]; exact circuitInputs_length hin) t5 hdom 0 0
      rwa [t2] at this)
    helper ⟨pk, if helper then some pkB else none⟩
    (by
      rw [hvko] at hpk
      cases helper
      · simp only [Bool.false_eq_true, if_false] at hpk ⊢
        simp [trustedSetup, setup, epochSetup, hpk, Outcome.map]
      · simp only [if_true] at hpk ⊢
        simp [trustedSetup, setup, helperSetup, epochSetup, hpkB, hpk, Outcome.map])
    (by
      intro pb hpb ms _ hms
      cases helper
      · cases hpb
      · cases hpb
        exact hcreate ms hms)
    (by
      intro pb hpb p i hi
      cases helper
      · cases hpb
      · cases hpb
        exact hgad p i hi) hhash hdummy h0 h1 hsum

end

/-! ## Examples -/

/-- The gadgets of the example of C119 without the hash to G1, for helper proofs of any type. -/
def programBase (HP VK : Type) (K : Blake2sCore) : OuterGadgets (HashToBitsHelper HP VK) where
  PG1 := G1V FQ_MODULUS
  PG2 := G2V FQ_MODULUS
  hash := fun _ _ _ => Synth.pure ⟨G1V.constant (1, sqrtTwo), [], []⟩
  prepareG1 := Synth.pure
  prepareG2 := Synth.pure
  verify := fun _ _ _ => Synth.pure ()
  blake := (oneGadgets K).blake
  groth := fun _ _ => Synth.pure ()

/-- The gadgets of the example, with the Pedersen hash of the library on a group whose coordinates are all 5. -/
noncomputable def programOuter (HP VK : Type) (compat drop : Bool) (K : Blake2sCore) :
    OuterGadgets (HashToBitsHelper HP VK) :=
  (programBase HP VK K).withHash (oneGadgets K).pedersen
    (hashNative compat (Blake2s.ofCore K)
      (pedersenCrh (fun _ : ZMod 3 => (5 : Fq)) (crhGenerators fun _ => 1)) someSqrt) compat drop

theorem programOuter_runs (HP VK : Type) (compat drop : Bool) {K : Blake2sCore}
    (hK : ∀ b m m', K.digest b m = K.digest b m') :
    (programOuter HP VK compat drop K).RunsAt
      (fun g ts us out => hashBitsToG1C OnG1 compat K (pedersenX (fun _ : ZMod 3 => (5 : Fq)) fun _ => 1) g ts us out)
      (fun g ts us => hashBitsToG1Out compat K (Blake2s.ofCore K)
        (pedersenCrh (fun _ : ZMod 3 => (5 : Fq)) (crhGenerators fun _ => 1))
        (pedersenX (fun _ : ZMod 3 => (5 : Fq)) fun _ => 1) someSqrt g ts us)
      (fun _ _ => (1 : Multiplicative ℤ)) genVar.point K (fun _ _ _ => .ok (True, true))
      (fun c w P => ∃ k, G1At c w k ∧ k.point = P) (fun c w P => ∃ k, G2At c w k ∧ k.point = P) := by
  refine C119_circuit_runs (O := programBase HP VK K)
    (hashC := fun _ _ _ out => out = outerHash) (hashW := fun _ _ _ => .ok outerHash)
    (groth := fun _ _ _ => .ok (True, true)) (e := fun _ _ => (1 : Multiplicative ℤ)) (gen2 := genVar.point)
    (isG1 := fun c w P => ∃ k, G1At c w k ∧ k.point = P) (isG2 := fun c w P => ∃ k, G2At c w k ∧ k.point = P)
    ⟨?_, ?_, ?_, ?_, ?_, ?_, (oneGadgets_runs hK).blake, ?_⟩
    (oneGadgets_runs hK).pedersen (Blake2s.ofCore_agree K) someSqrt_spec fun m d h => ?_
  · rintro a b w P ha he ⟨k, h, hk⟩
    exact ⟨k, h.ext ha he, hk⟩
  · rintro a b w P ha he ⟨k, h, hk⟩
    exact ⟨k, h.ext ha he, hk⟩
  · rintro cs b xs ys ts us out hg hs _ _ _ rfl
    refine step_pure hg ⟨⟨_, ?_, onePoint_on, rfl⟩, .nil, .nil⟩
    exact ⟨lcAt_const _ _, lcAt_const _ _, lcAt_const _ _⟩
  · exact fun hg _ h _ => step_pure hg ⟨_, h, rfl⟩
  · exact fun hg _ h _ => step_pure hg ⟨_, h, rfl⟩
  · exact fun hg _ _ _ _ _ _ _ => step_pure hg trivial
  · exact fun hg _ _ _ _ => step_pure hg trivial
  · unfold pedersenCrh at h
    obtain ⟨g, _, rfl⟩ := (Outcome.map_eq_ok_iff _ _ _).1 h
    rfl

theorem programOuter_keeps (HP VK : Type) (compat drop : Bool) (K : Blake2sCore) :
    (programOuter HP VK compat drop K).Keeps :=
  C119_keeps (O := programBase HP VK K)
    ⟨fun _ _ _ => keeps_pure _, fun _ => keeps_pure _, fun _ => keeps_pure _, fun _ _ _ => keeps_pure _,
    fun _ _ => keeps_pure _, fun _ _ => keeps_pure _⟩ fun _ => keeps_pure _

theorem programOuter_shaped (HP VK : Type) (compat drop : Bool) (K : Blake2sCore) :
    (programOuter HP VK compat drop K).Shaped :=
  C119_shaped (O := programBase HP VK K)
    ⟨fun _ _ _ => alike_pure _, fun _ => alike_pure _, fun _ => alike_pure _, fun _ _ _ => alike_pure _,
    fun _ _ => alike_pure _, fun _ _ _ _ => alike_pure _⟩ fun _ => alike_pure _

theorem programOuter_setsUp (HP VK : Type) (compat drop : Bool) (K : Blake2sCore) :
    (programOuter HP VK compat drop K).SetsUp :=
  C119_setsUp (O := programBase HP VK K)
    ⟨fun _ _ _ => follows_pure _, fun _ => follows_pure _, fun _ => follows_pure _,
    fun _ _ _ => follows_pure _, fun _ _ => follows_pure _, fun _ _ _ _ => follows_pure _⟩ fun _ => follows_pure _

/-- The hash of the helper circuit in this example. -/
def programBlake (K : Blake2sCore) (_ : List BoolV) (b : Bytes) : Synth FR_MODULUS (List BoolV) :=
  Synth.pure ((K.evaluate [] b).map BoolV.constant)

theorem programBlake_runs {K : Blake2sCore} (hK : ∀ b m m', K.digest b m = K.digest b m') :
    BlakeRunsAt (programBlake K) K := fun _ _ ts b hg _ _ _ => step_pure hg (by
  rw [oneGadgets_evaluate hK ts]
  exact forall₂_map_constant (fun t => bitAt_constant _ t) _)

/-- C122: two transitions of four validators with one fault, in a circuit of twelve epochs, with and without the
helper, for every choice of domains that are large enough for the two circuits; all secrets drawn are 5. -/
theorem program_runs (compat oc drop drop' helper : Bool) : ∃ K : Blake2sCore,
    (∀ domainB : ℕ → EvalDomain (ZMod FR_MODULUS), (∀ k, k ≤ (domainB k).size) →
      ∃ pk, circuitSetup ((HashToBits.empty 377 12).generateConstraints (programBlake K)) domainB
        (Trapdoor.ofScalars (fun _ => 2) (7 : ZMod FR_MODULUS) (8 : ZMod FR_MODULUS)) = .ok pk ∧
        pk.vk.gammaAbcG1.length = helperInputs 12 + 1) ∧
    ∀ (domainB : ℕ → EvalDomain (ZMod FR_MODULUS)) (domain : ℕ → EvalDomain (ZMod FQ_MODULUS)),
    (∀ u, (HashToBits.empty 377 12).generateConstraints (programBlake K) (.new FR_MODULUS true) = .ok u →
      u.2.domainSize ≤ (domainB u.2.domainSize).size) →
    (∀ vk u, generateConstraints (programOuter (GrothProof (ZMod FR_MODULUS) (ZMod FR_MODULUS))
        (GrothVk (ZMod FR_MODULUS) (ZMod FR_MODULUS)) compat drop' K) oc drop (1, sqrtTwo)
        ((g2GenX.re, g2GenX.im), (g2GenY.re, g2GenY.im)) (ValidatorSetUpdateOpt.empty ⟨0, 0, 0⟩ 4 12 1 vk)
        (.new FQ_MODULUS true) = .ok u →
      (domain u.2.domainSize).Valid ∧ u.2.domainSize ≤ (domain u.2.domainSize).size) →
    endToEnd (⟨1, sqrtTwo, 1⟩ : G1Var).point g2Generator (Blake2s.ofCore K)
      (pedersenCrh (fun _ : ZMod 3 => (5 : Fq)) (crhGenerators fun _ => 1))
      (blockHash compat (Blake2s.ofCore K) (pedersenCrh (fun _ : ZMod 3 => (5 : Fq)) (crhGenerators fun _ => 1))
        someSqrt) (⟨0, 0, 0⟩ : GrothProof (ZMod FR_MODULUS) (ZMod FR_MODULUS)) (·.vk) (·.vk)
      (helperSetup (programBlake K) domainB)
      (epochSetup (programOuter _ _ compat drop' K) oc drop (1, sqrtTwo)
        ((g2GenX.re, g2GenX.im), (g2GenY.re, g2GenY.im)) domain)
      (helperProve (programBlake K) domainB)
      (epochProve (programOuter _ _ compat drop' K) oc drop (1, sqrtTwo)
        ((g2GenX.re, g2GenX.im), (g2GenY.re, g2GenY.im)) domain)
      (verifyProof (toyPairing FQ_MODULUS)) (fun _ => 5)
      (Trapdoor.ofScalars (fun _ => 2) 7 8, Trapdoor.ofScalars (fun _ => 3) 5 6) 4 1 2 12 helper = .ok () := by
  classical
  obtain ⟨K, hK, hX⟩ := oneCore compat
  have hB := Blake2s.ofCore_agree K
  have hx := hX _ hB
  have hg0 : g1Scale (.finite 1 sqrtTwo) ≠ 0 := by
    rw [g1Scale_one]; exact cofactor_onePoint_ne.1
  have hhash : ∀ b : EpochBlock, EntropyOk b.epochEntropy → EntropyOk b.parentEntropy →
      max b.newPublicKeys.length b.maximumValidators ≤ 206 →
      ∃ g, blockHash compat (Blake2s.ofCore K)
        (pedersenCrh (fun _ : ZMod 3 => (5 : Fq)) (crhGenerators fun _ => 1)) someSqrt b = .ok g := by
    intro b h1 h2 h3
    refine ⟨G1_COFACTOR • onePoint, ?_⟩
    unfold blockHash EpochBlock.hashToG1 tryAndIncrementCip22
    simp only [Outcome.map_eq_ok_iff]
    refine ⟨(_, 0), (C19_ok_iff compat _ someSqrt_spec _ _ _ _ _ _).mpr ⟨_,
      pedersenCrh_fits _ (fun _ => 1) (inner_fits h1 h2 h3), by norm_num,
      ⟨tinyDigest compat 1 false, hx _, ?_⟩, fun c' hc' => absurd hc' (by omega)⟩, rfl⟩
    rw [← g1Scale_one]
    exact ⟨by rw [tinyDigest_length]; omega, hg0, _, (decodes_one compat).1, rfl⟩
  have h5 : (5 : ZMod FR_MODULUS) ≠ 0 ∧ (5 : ZMod FR_MODULUS) ≠ 1 ∧ (20 : ZMod FR_MODULUS) ≠ 0 :=
    ⟨by decide +kernel, by decide +kernel, by decide +kernel⟩
  have h2 : (2 : ZMod FR_MODULUS) ≠ 0 := by decide +kernel
  have h3 : (3 : ZMod FQ_MODULUS) ≠ 0 := by decide +kernel
  refine ⟨K, fun domainB hD => C122_helper_setup (programBlake_runs hK) (fun _ _ => keeps_pure _)
    (fun _ _ => alike_pure _) (fun _ _ => follows_pure _) 12 (fun _ _ => hD _) _ h2 h2,
    fun domainB domain hDB hD => ?_⟩
  refine C122_end_to_end (toyPairing FQ_MODULUS) (a := (1, sqrtTwo))
    (d := ((g2GenX.re, g2GenX.im), (g2GenY.re, g2GenY.im))) (programOuter_shaped _ _ compat drop' K)
    (programOuter_setsUp _ _ compat drop' K) (programOuter_keeps _ _ compat drop' K) onePoint_on genVar_denotes
    toyOuter_gen (programOuter_runs _ _ compat drop' hK) (programBlake_runs hK) (fun _ _ => keeps_pure _)
    (fun _ _ => alike_pure _) (fun _ _ => follows_pure _) hB someSqrt_spec (fun _ _ _ => (one_mul _).symm)
    (fun _ _ _ => (one_mul _).symm) oc drop _ _ _ h2 h2 h3 h3 4 1 2 12 (by norm_num) (by norm_num) (by norm_num)
    (by norm_num) (by norm_num) helper hDB hD (fun _ _ _ _ => ⟨_, rfl, trivial⟩) (fun i _ => ?_) (fun _ => ?_)
    (fun _ _ => h5.1) (fun _ _ => h5.2.1) ?_
  · obtain ⟨c1, _, c3, c4⟩ := fixtureBlock_const g2Generator (fun _ => 5) 4 1 (i + 1)
    exact hhash _ c3 c4 (by rw [c1, fixtureBlock_keys, drawnKeys_length, max_self]; norm_num)
  · have hE : EntropyOk (some (List.replicate ENTROPY_BYTES 0)) := by
      intro b hb
      rw [← Option.some.inj hb, List.length_replicate]
      rfl
    exact hhash _ hE hE (by simp [dummyBlock])
  · have : (drawnSecrets (fun _ => (5 : ZMod FR_MODULUS)) 4 2).sum = 20 := by
      simp only [drawnSecrets]
      decide +kernel
    rw [this]
    exact h5.2.2

end Verif
