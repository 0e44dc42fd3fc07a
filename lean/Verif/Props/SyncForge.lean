import Verif.Props.LightSync
import Verif.Props.OracleChain

/-!
# C102: leading a light client away from the chain by many proofs means forging one batch

C101 assumes that nothing is forged in any of the assignments.  Here that is no assumption: whoever makes a light
client leave the chain, in however many updates, has forged a batch (as in C96 for one update); and how often
that happens is bounded as in C98, whatever the number of updates.
-/

set_option exponentiation.threshold 800
set_option linter.unusedSectionVars false

namespace Verif

open Finset

section
variable {GT HP : Type*} [CommGroup GT] [DecidableEq GT]

/-- **C102.** Let `chain` have honest quorums, with keys in the subgroup and different in each block, and let the
proof system be sound for the proofs shown, with extracted assignments whose thresholds are in range.  Let a light client that holds
block `i` accept any list of updates, one after the other.  Then each accepted block is a block of the chain,
later than the one before by at most `max`; or, for one of the updates and the block held before it, the extracted
assignment contains a collision of the edges, or a forgery: an honest key of a block of the chain, among the
signers of a transition that it did not sign, with the batch read off the assignment accepted for it. -/
theorem C102_deceived {alloc : G2Var → Prop} (ha : AffineAllocG2 alloc)
    {hashC : Bool → List Bool → List Bool → HashOut G1Point → Prop}
    {K : Blake2sCore} {B : Blake2s} (hB : Blake2sAgree K B)
    {groth : List (List Bool) → HP → Outcome Unit (Prop × Bool)} (F : FullPairing GT) {gen1 : G1Point}
    {n max : ℕ} (hq : n < FQ_MODULUS) (hmax : 0 < max) (hmax' : max ≤ 2 ^ 16) {helper : Option HP}
    {VK Proof : Type*} {groth16 : VK → Proof → List Fq → Outcome Unit Bool} {vk : VK}
    {N : ℕ} {chain : ℕ → EpochBlock} {Honest : G2Point → Prop} {Signed : G2Point → Bytes → Bytes → Prop}
    (hc : HonestQuorums g2Generator N chain Honest Signed)
    (hkeys : ∀ j < N, (chain j).newPublicKeys.Nodup ∧ ∀ k ∈ (chain j).newPublicKeys, k ∈ G2r)
    (H : HashToG1 G1r) {extract : Proof → List Fq → CircuitVars G1Point} {label : Proof → List Fq → Label}
    (us : List (EpochBlock × Proof))
    (hent : ∀ u ∈ us, EntropyOk u.1.epochEntropy ∧ EntropyOk u.1.parentEntropy)
    {i : ℕ} (hi : i < N) {first final : EpochBlock} (hh : Holds g2Generator chain i first)
    (hsound : ∀ t ∈ (first :: us.map (·.1)).zip us, ∀ inputs, inputs = publicInputs g2Generator B t.1 t.2.1 →
      groth16 vk t.2.2 inputs = .ok true → ∃ sat : Prop,
        epochCircuit alloc hashC K groth F.e gen1 g2Generator n helper (extract t.2.2 inputs) inputs = .ok sat ∧ sat ∧
        (extract t.2.2 inputs).initial.keys.length = n ∧ (extract t.2.2 inputs).updates.length = max ∧
        ThresholdsInRange (extract t.2.2 inputs) ∧ WitnessedHash (label t.2.2 inputs) H (extract t.2.2 inputs) ∧
        Faithful (label t.2.2 inputs) (extract t.2.2 inputs))
    (h : syncEpochs groth16 g2Generator B vk first us = .ok final) :
    (∃ t ∈ (first :: us.map (·.1)).zip us, ∃ b,
      enforceEpochs alloc (hashC helper.isNone) F.e gen1 g2Generator n
        (extract t.2.2 (publicInputs g2Generator B t.1 t.2.1)) = .ok b ∧ EdgesCollide B g2Generator b t.1 t.2.1) ∨
    (∃ s ∈ (first :: us.map (·.1)).zip us, ∃ before t after j pk,
      (extract s.2.2 (publicInputs g2Generator B s.1 s.2.1)).transitions = before ++ t :: after ∧ j < N ∧
      (pk : G2r).1 ∈ (chain j).newPublicKeys ∧ Honest pk.1 ∧ ¬ Signed pk.1 (messageOf t).1 (messageOf t).2 ∧
      ∀ (known : KnownKeys) (own : Bytes → Bool),
        (∀ k : G2r, k.1 ∈ (chain j).newPublicKeys → k ≠ pk → known.Right F.toCurve.toPairing H own k) →
        ∃ X, AcceptedBatch F.toCurve.toPairing H own pk X ∧
          X = forgedBatch (label s.2.2 (publicInputs g2Generator B s.1 s.2.1)) known gen1 pk
            (extract s.2.2 (publicInputs g2Generator B s.1 s.2.1)) before t after ∧
          X.query = (SIG_DOMAIN, label s.2.2 (publicInputs g2Generator B s.1 s.2.1) t)) ∨
    ∃ js : List ℕ, (i :: js).IsChain (fun a b => a < b ∧ b ≤ a + max) ∧
      List.Forall₂ (fun u j => j < N ∧ SameBlock u.1 (chain j)) us js ∧
      Holds g2Generator chain (js.getLast?.getD i) final := by
  induction us generalizing i first with
  | nil =>
    simp only [syncEpochs, Outcome.ok.injEq] at h
    subst h
    exact Or.inr (Or.inr ⟨[], by simp, .nil, hh⟩)
  | cons u us ih =>
    simp only [syncEpochs, Outcome.bind_eq_ok_iff] at h
    obtain ⟨⟨⟩, h1, h2⟩ := h
    rw [C34_accepts_iff] at h1
    obtain ⟨sat, s1, s2, s3, s4, s5, s6, s7⟩ := hsound (first, u) (by simp) _ rfl h1
    obtain ⟨e1, e2⟩ := hent u List.mem_cons_self
    have hne : (extract u.2 (publicInputs g2Generator B first u.1)).updates ≠ [] := by
      rintro h0; rw [h0] at s4; simp at s4; omega
    rcases forged_transition_held ha hB F hq s3 hne hc (fun j hj => (hkeys j hj).1) hi hh e1 s1 s2 s5 with
      ⟨b, hb, hcol⟩ | ⟨j, a1, a2, a3, a4, a5, a6, a7, -⟩ | ⟨t, ht, j, hj, pk, hpk, hho, hns, hsub, hnd⟩
    · exact Or.inl ⟨(first, u), by simp, b, hb, hcol⟩
    · have hj : Holds g2Generator chain j u.1 := ⟨a4, a5, a7, e2⟩
      have hz : ∀ {t}, t ∈ (u.1 :: us.map (·.1)).zip us → t ∈ (first :: (u :: us).map (·.1)).zip (u :: us) := by
        intro t ht
        rw [List.map_cons, List.zip_cons_cons]
        exact List.mem_cons_of_mem _ ht
      rcases ih (fun v hv => hent v (List.mem_cons_of_mem _ hv)) a3 hj (fun t ht => hsound t (hz ht)) h2 with
        ⟨t, ht, hr⟩ | ⟨s, hs, hr⟩ | ⟨js, c1, c2, c3⟩
      · exact Or.inl ⟨t, hz ht, hr⟩
      · exact Or.inr (Or.inl ⟨s, hz hs, hr⟩)
      · refine Or.inr (Or.inr ⟨j :: js, ?_, .cons ⟨a3, a4, a5, a6, a7⟩ c2, ?_⟩)
        · rw [List.isChain_cons_cons]
          exact ⟨⟨a1, by rw [s4] at a2; exact a2⟩, c1⟩
        · rw [List.getLast?_cons]
          exact c3
    · obtain ⟨b, hb, hsat, -⟩ := C69_edges hB s3 hne hh.parent e1 s1 s2
      obtain ⟨before, after, hta⟩ := List.append_of_mem ht
      refine Or.inr (Or.inl ⟨(first, u), by simp, before, t, after, j, ⟨pk, (hkeys j hj).2 _ (hsub _ hpk)⟩, hta, hj,
        hsub _ hpk, hho, hns, fun known own hknown => ⟨_, ?_, rfl, ?_⟩⟩)
      · exact (transition_batch F s3 hq hb hsat (by rw [s4]; exact hmax') H s6 s7 hta
          (fun p hp => (hkeys j hj).2 _ (hsub p hp)) hnd hpk known own fun k hk => hknown k (hsub _ hk)).1
      · exact (transition_batch F s3 hq hb hsat (by rw [s4]; exact hmax') H s6 s7 hta
          (fun p hp => (hkeys j hj).2 _ (hsub p hp)) hnd hpk known own fun k hk => hknown k (hsub _ hk)).2

end

/-! ## In the random-oracle model -/

/-- One update shown to the light client: the block, an assignment for the circuit, and the counters with which the
messages were hashed in it. -/
structure SyncStep where
  block : EpochBlock
  vars : CircuitVars G1Point
  counter : EpochVars × UpdateVars G1Point → UInt8

/-- What is hashed in each transition of an update. -/
def SyncStep.label (s : SyncStep) : Label := fun t => ((messageOf t).1, s.counter t :: (messageOf t).2)

/-- What the adversary hands out: a chain, the block that the light client holds, the updates, and what is known
about the keys that are not honest. -/
structure SyncDeception where
  /-- number of blocks -/
  size : ℕ
  chain : ℕ → EpochBlock
  first : ℕ
  start : EpochBlock
  steps : List SyncStep
  known : KnownKeys

section
variable {GT HP : Type*} [CommGroup GT] [DecidableEq GT] {m : ℕ}

/-- A light client that holds `held` accepts one update (`crates/epoch-snark/src/api/verifier.rs:23-40`, without the
proof system), and no collision of the hash of the edges was found. -/
structure StepAccepted (alloc : G2Var → Prop) (hashC : Bool → List Bool → List Bool → HashOut G1Point → Prop)
    (K : Blake2sCore) (B : Blake2s) (groth : List (List Bool) → HP → Outcome Unit (Prop × Bool))
    (F : FullPairing GT) (gen1 : G1Point) (n : ℕ) (helper : Option HP) (H : HashToG1 G1r) (held : EpochBlock)
    (s : SyncStep) : Prop where
  entropy : EntropyOk s.block.epochEntropy ∧ EntropyOk s.block.parentEntropy
  accepted : ∃ sat, epochCircuit alloc hashC K groth F.e gen1 g2Generator n helper s.vars
    (publicInputs g2Generator B held s.block) = .ok sat ∧ sat
  size : s.vars.initial.keys.length = n
  updates : s.vars.updates ≠ [] ∧ s.vars.updates.length ≤ 2 ^ 16
  range : ThresholdsInRange s.vars
  hashed : WitnessedHash s.label H s.vars
  edges : ∀ b, enforceEpochs alloc (hashC helper.isNone) F.e gen1 g2Generator n s.vars = .ok b →
    ¬ EdgesCollide B g2Generator b held s.block

/-- The adversary leads the light client away from the chain.  The honest keys are `pks`, and `T` says what they
signed. -/
structure LeadsAway (alloc : G2Var → Prop) (hashC : Bool → List Bool → List Bool → HashOut G1Point → Prop)
    (K : Blake2sCore) (B : Blake2s) (groth : List (List Bool) → HP → Outcome Unit (Prop × Bool))
    (F : FullPairing GT) (gen1 : G1Point) (n : ℕ) (helper : Option HP) (own : Fin m → Bytes → Bool)
    (H : HashToG1 G1r) (pks : Fin m → G2r) (d : SyncDeception) (T : Transcript m) : Prop where
  /-- The honest keys signed only blocks of the chain, under any counter, and are a quorum in each block. -/
  quorums : HonestQuorums g2Generator d.size d.chain (fun p => ∃ j, p = (pks j).1)
    (fun p msg x => ∃ j k, p = (pks j).1 ∧ (j, SIG_DOMAIN, msg, k :: x) ∈ T)
  keys : ∀ a < d.size, (d.chain a).newPublicKeys.Nodup ∧ ∀ k ∈ (d.chain a).newPublicKeys, k ∈ G2r
  /-- The other keys have proofs of possession that the code accepts, for addresses of nobody honest, or the
  adversary knows their secrets. -/
  known : ∀ a < d.size, ∀ k : G2r, k.1 ∈ (d.chain a).newPublicKeys → (∀ j, k ≠ pks j) →
    ∀ j, d.known.Right F.toCurve.toPairing H (own j) k
  first : d.first < d.size
  start : Holds g2Generator d.chain d.first d.start
  /-- Each update is accepted by the light client, which holds the block of the one before. -/
  accepted : ∀ x ∈ (d.start :: d.steps.map (·.block)).zip d.steps,
    StepAccepted alloc hashC K B groth F gen1 n helper H x.1 x.2
  /-- But the blocks are not, one after the other, later blocks of the chain. -/
  deceived : ¬ ∃ as : List ℕ, (d.first :: as).IsChain (· < ·) ∧
    List.Forall₂ (fun s a => a < d.size ∧ SameBlock s.block (d.chain a)) d.steps as

/-- A transition of an update from a block of the chain with signer `pk`, which did not sign it. -/
def SyncDeception.Forged (d : SyncDeception) (T : Transcript m) (j : Fin m) (pk : G2r) (s : SyncStep)
    (t : EpochVars × UpdateVars G1Point) : Prop :=
  pk.1 ∈ signersOf t ∧ (j, SIG_DOMAIN, s.label t) ∉ T ∧ (signersOf t).Nodup ∧
    ∃ a < d.size, ∀ p ∈ signersOf t, p ∈ (d.chain a).newPublicKeys

/-- The transitions of all updates, each with the update, what is before and what is after it. -/
def SyncDeception.places (d : SyncDeception) :
    List (SyncStep × List (EpochVars × UpdateVars G1Point) × (EpochVars × UpdateVars G1Point) ×
      List (EpochVars × UpdateVars G1Point)) :=
  d.steps.flatMap fun s => (splits s.vars.transitions).map fun x => (s, x)

open Classical in
/-- The forgery against signer `j`: the first forged transition of all updates is looked for. -/
noncomputable def SyncDeception.toForgery (P : Pairing FR_MODULUS G1r G2r GT) (gen1 : G1Point) (j : Fin m)
    (σ : Fin m → ZMod FR_MODULUS) (pk : G2r) (d : SyncDeception) (T : Transcript m) :
    BatchForgery FR_MODULUS G1r G2r :=
  match d.places.find? fun y => decide (d.Forged T j pk y.1 y.2.2.1) with
  | some y => forgedBatch y.1.label (d.known.withHonest P j σ) gen1 pk y.1.vars y.2.1 y.2.2.1 y.2.2.2
  | none => ⟨[], [], [], [], [], [], 0⟩

variable {alloc : G2Var → Prop} {hashC : Bool → List Bool → List Bool → HashOut G1Point → Prop}
  {K : Blake2sCore} {B : Blake2s} {groth : List (List Bool) → HP → Outcome Unit (Prop × Bool)}
  {F : FullPairing GT} {gen1 : G1Point} {n : ℕ} {helper : Option HP} {own : Fin m → Bytes → Bool}
  {H : HashToG1 G1r}

/-- The first update that leaves the chain contains a forged transition. -/
theorem leaves_chain (ha : AffineAllocG2 alloc) (hB : Blake2sAgree K B) (hq : n < FQ_MODULUS) {N : ℕ}
    {chain : ℕ → EpochBlock} {Honest : G2Point → Prop} {Signed : G2Point → Bytes → Bytes → Prop}
    (hc : HonestQuorums g2Generator N chain Honest Signed) (hkeys : ∀ j < N, (chain j).newPublicKeys.Nodup)
    (steps : List SyncStep) {i : ℕ} (hi : i < N) {start : EpochBlock} (hh : Holds g2Generator chain i start)
    (hacc : ∀ x ∈ (start :: steps.map (·.block)).zip steps,
      StepAccepted alloc hashC K B groth F gen1 n helper H x.1 x.2)
    (hdec : ¬ ∃ as : List ℕ, (i :: as).IsChain (· < ·) ∧
      List.Forall₂ (fun s a => a < N ∧ SameBlock s.block (chain a)) steps as) :
    ∃ s ∈ steps, ∃ t ∈ s.vars.transitions, ∃ j < N, ∃ pk ∈ signersOf t, Honest pk ∧
      ¬ Signed pk (messageOf t).1 (messageOf t).2 ∧
      (∀ p ∈ signersOf t, p ∈ (chain j).newPublicKeys) ∧ (signersOf t).Nodup := by
  induction steps generalizing i start with
  | nil => exact absurd ⟨[], by simp, .nil⟩ hdec
  | cons s steps ih =>
    rw [List.map_cons, List.zip_cons_cons] at hacc
    have hs := hacc _ List.mem_cons_self
    obtain ⟨sat, hcirc, hsat⟩ := hs.accepted
    rcases forged_transition_held ha hB F hq hs.size hs.updates.1 hc hkeys hi hh hs.entropy.1 hcirc hsat hs.range with
      ⟨b, hb, he⟩ | ⟨a, a1, -, a3, a4, a5, a6, a7, -⟩ | ⟨t, ht, hr⟩
    · exact absurd he (hs.edges b hb)
    · obtain ⟨s', hs', hr⟩ := ih a3 ⟨a4, a5, a7, hs.entropy.2⟩ (fun x hx => hacc x (List.mem_cons_of_mem _ hx)) (by
        rintro ⟨as, c1, c2⟩
        exact hdec ⟨a :: as, List.isChain_cons_cons.mpr ⟨a1, c1⟩, .cons ⟨a3, a4, a5, a6, a7⟩ c2⟩)
      exact ⟨s', List.mem_cons_of_mem _ hs', hr⟩
    · exact ⟨s, List.mem_cons_self, t, ht, hr⟩

/-- Every update was shown while some block was held. -/
theorem mem_zip_held {start : EpochBlock} {steps : List SyncStep} {s : SyncStep} (hs : s ∈ steps) :
    ∃ held, (held, s) ∈ (start :: steps.map (·.block)).zip steps := by
  induction steps generalizing start with
  | nil => cases hs
  | cons u steps ih =>
    rw [List.map_cons, List.zip_cons_cons]
    rcases List.mem_cons.mp hs with rfl | hs
    · exact ⟨start, List.mem_cons_self⟩
    · obtain ⟨held, h⟩ := ih (start := u.block) hs
      exact ⟨held, List.mem_cons_of_mem _ h⟩

/-- Whoever leads the light client away has forged a batch against one of the honest signers. -/
theorem sync_forgery (ha : AffineAllocG2 alloc) (hB : Blake2sAgree K B) (hq : n < FQ_MODULUS)
    {σ : Fin m → ZMod FR_MODULUS} {d : SyncDeception} {T : Transcript m}
    (h : LeadsAway alloc hashC K B groth F gen1 n helper own H (fun j => toPublic F.toCurve.toPairing (σ j)) d T) :
    ∃ j, ∀ σ' : Fin m → ZMod FR_MODULUS, (∀ i, i ≠ j → σ' i = σ i) →
      AcceptedBatch F.toCurve.toPairing H (own j) (toPublic F.toCurve.toPairing (σ j))
        (d.toForgery F.toCurve.toPairing gen1 j σ' (toPublic F.toCurve.toPairing (σ j)) T) ∧
      (j, (d.toForgery F.toCurve.toPairing gen1 j σ' (toPublic F.toCurve.toPairing (σ j)) T).query) ∉ T := by
  classical
  obtain ⟨s, hs, t, ht, a, ha', pk, hpk, ⟨j, rfl⟩, hns, hsub, hnd⟩ := leaves_chain ha hB hq h.quorums
    (fun a ha => (h.keys a ha).1) d.steps h.first h.start h.accepted h.deceived
  refine ⟨j, fun σ' hσ => ?_⟩
  have hF : d.Forged T j (toPublic F.toCurve.toPairing (σ j)) s t :=
    ⟨hpk, fun hT => hns ⟨j, _, rfl, hT⟩, hnd, a, ha', hsub⟩
  obtain ⟨before, after, hta⟩ := List.append_of_mem ht
  unfold SyncDeception.toForgery
  cases hf : d.places.find? fun y =>
      decide (d.Forged T j (toPublic F.toCurve.toPairing (σ j)) y.1 y.2.2.1) with
  | none =>
    rw [List.find?_eq_none] at hf
    exact absurd (decide_eq_true hF) (hf (s, before, t, after) (List.mem_flatMap.mpr
      ⟨s, hs, List.mem_map.mpr ⟨_, mem_splits.mpr hta, rfl⟩⟩))
  | some y =>
    obtain ⟨s, before, t, after⟩ := y
    obtain ⟨s', hs', hy⟩ := List.mem_flatMap.mp (List.mem_of_find?_eq_some hf)
    obtain ⟨x, hx, hxe⟩ := List.mem_map.mp hy
    rw [Prod.mk.injEq] at hxe
    obtain ⟨rfl, rfl⟩ := hxe
    have hmem := mem_splits.mp hx
    have hfd := List.find?_some hf
    simp only [decide_eq_true_eq] at hfd
    obtain ⟨f1, f2, f3, a, ha', f4⟩ := hfd
    obtain ⟨held, hheld⟩ := mem_zip_held (start := d.start) hs'
    have hst := h.accepted _ hheld
    obtain ⟨sat, hcirc, hsat⟩ := hst.accepted
    obtain ⟨b, hb, hbs⟩ : ∃ b, enforceEpochs alloc (hashC helper.isNone) F.e gen1 g2Generator n s'.vars = .ok b ∧
        b.sat := by
      unfold epochCircuit at hcirc
      rw [Outcome.bind_eq_ok_iff] at hcirc
      obtain ⟨b, hb, hcirc⟩ := hcirc
      unfold EpochBits.verify at hcirc
      simp only [Outcome.map_eq_ok_iff] at hcirc
      obtain ⟨v, -, rfl⟩ := hcirc
      exact ⟨b, hb, hsat.1⟩
    have main := transition_batch F hst.size hq hb hbs hst.updates.2 H hst.hashed (fun t _ t' _ he => by
        simp only [SyncStep.label, Prod.mk.injEq, List.cons.injEq] at he
        exact Prod.ext he.1 he.2.2) hmem (fun p hp => (h.keys a ha').2 _ (f4 p hp)) f3 f1
      (d.known.withHonest F.toCurve.toPairing j σ') (own j) (fun k hk hne => withHonest_right j σ' fun hk' =>
        h.known a ha' k (f4 _ hk) (fun i => by
          by_cases hi : i = j
          · rw [hi]; exact hne
          · rw [← hσ i hi]; exact hk' i hi) j)
    simp only []
    exact ⟨main.1, by rw [main.2]; exact f2⟩

variable (alloc K B groth F gen1 n helper own) in
/-- The adversary leads the light client away when the honest signers have the secrets `σ` and the hash has the
table `f`. -/
def WinsSync (hashC : HashToG1 G1r → Bool → List Bool → List Bool → HashOut G1Point → Prop) (Q : Finset HashQuery)
    (A : (Fin m → G2r) → Deceiver m SyncDeception G1r) (σ : Fin m → ZMod FR_MODULUS)
    (f : Q → {h : G1r // h ≠ 0}) : Prop :=
  let pks := fun j => toPublic F.toCurve.toPairing (σ j)
  let R := attackMany (tableHash Q f) own σ (A pks) []
  LeadsAway alloc (hashC (tableHash Q f)) K B groth F gen1 n helper own (tableHash Q f) pks R.1 R.2

variable (F gen1 own) in
/-- The forger of batches against the key of signer `j`, made from an adversary against the light client. -/
noncomputable def syncForger (A : (Fin m → G2r) → Deceiver m SyncDeception G1r) (j : Fin m)
    (σ : Fin m → ZMod FR_MODULUS) : G2r → BatchForger FR_MODULUS G1r G2r :=
  singleForger F.toCurve.toPairing own
    (fun j σ pk d T => d.toForgery F.toCurve.toPairing gen1 j σ pk T) A j σ

/-- **C102.** Whenever an adversary leads the light client away, by any number of updates, the forger of batches
made from it wins against one of the honest keys. -/
theorem C102_forger_wins (ha : AffineAllocG2 alloc) (hB : Blake2sAgree K B) (hq : n < FQ_MODULUS)
    {hashC : HashToG1 G1r → Bool → List Bool → List Bool → HashOut G1Point → Prop} {Q : Finset HashQuery}
    {A : (Fin m → G2r) → Deceiver m SyncDeception G1r} {σ : Fin m → ZMod FR_MODULUS} {f : Q → {h : G1r // h ≠ 0}}
    (h : WinsSync alloc K B groth F gen1 n helper own hashC Q A σ f) :
    ∃ j, ∀ u, WinsBatch F.toCurve.toPairing Q (own j) (syncForger F gen1 own A j (Function.update σ j u)) (σ j) f := by
  classical
  obtain ⟨j, hj⟩ := sync_forgery ha hB hq h
  refine ⟨j, fun u => ?_⟩
  have hσ : Function.update (Function.update σ j u) j (σ j) = σ := by
    rw [Function.update_idem, Function.update_eq_self]
  obtain ⟨h1, h2⟩ := hj (Function.update σ j u) fun i hi => Function.update_of_ne hi _ _
  unfold WinsBatch syncForger singleForger
  rw [update_public, hσ]
  obtain ⟨e1, e2⟩ := translate_attack Q (tableHash Q f) own j (Function.update σ j u) (σ j)
    (fun d T => d.toForgery F.toCurve.toPairing gen1 j (Function.update σ j u) (toPublic F.toCurve.toPairing (σ j)) T)
    (A fun i => toPublic F.toCurve.toPairing (σ i)) [] [] [] (by simp)
  rw [hσ] at e1 e2
  simp only []
  rw [e1]
  exact ⟨fun hx => h2 (e2 _ hx), h1⟩

/-- **C102.** The reduction of C98 for a light client that follows many proofs: the same count, whatever the
number of updates. -/
theorem C102_reduction (ha : AffineAllocG2 alloc) (hB : Blake2sAgree K B) (hq : n < FQ_MODULUS)
    (hashC : HashToG1 G1r → Bool → List Bool → List Bool → HashOut G1Point → Prop) (Q : Finset HashQuery)
    (A : (Fin m → G2r) → Deceiver m SyncDeception G1r) (q : ℕ) (hA : ∀ pks, (A pks).Bounded q) :
    (FR_MODULUS - 1) * (FR_MODULUS * Nat.card {t : (Fin m → ZMod FR_MODULUS) × (Q → {h : G1r // h ≠ 0}) //
        WinsSync alloc K B groth F gen1 n helper own hashC Q A t.1 t.2}) ≤
      ∑ j : Fin m, ∑ i ∈ range (q + 1), Nat.card {t : (Fin m → ZMod FR_MODULUS) × ZMod FR_MODULUS ×
          {h : G1r // h ≠ 0} × (Q → (ZMod FR_MODULUS)ˣ) //
        ∃ x S, batchSolver Q (own j) g1GenR (t.2.1 • g1GenR) t.2.2.1.1 t.2.2.2 i (syncForger F gen1 own A j t.1)
          (t.2.1 • g2GenR) = some (x, S) ∧ Solved F.toCurve.toPairing g1GenR t.2.1 t.2.2.1.1 S} :=
  many_count F.toCurve.toPairing Q own g1GenR (g1r_span g1GenR_ne_zero) (syncForger F gen1 own A) q
    (fun _ _ _ => translate_bounded _ _ _ _ _ _ (hA _)) (WinsSync alloc K B groth F gen1 n helper own hashC Q A)
    (fun _ _ h => C102_forger_wins ha hB hq h)

/-- **C102**, as probabilities.  If for every validator and every guess the solver solves the problem of C95 with
probability at most `ε`, an adversary asking at most `q` questions leads the light client away from the chain with
probability at most `m * (q + 1) * ε`, however many updates it shows. -/
theorem C102_light_client (ha : AffineAllocG2 alloc) (hB : Blake2sAgree K B) (hq : n < FQ_MODULUS)
    (hashC : HashToG1 G1r → Bool → List Bool → List Bool → HashOut G1Point → Prop) (Q : Finset HashQuery)
    (A : (Fin m → G2r) → Deceiver m SyncDeception G1r) (q : ℕ) (hA : ∀ pks, (A pks).Bounded q) (ε : ℚ)
    (hε : ∀ j : Fin m, ∀ i ≤ q, (Nat.card {t : (Fin m → ZMod FR_MODULUS) × ZMod FR_MODULUS ×
          {h : G1r // h ≠ 0} × (Q → (ZMod FR_MODULUS)ˣ) //
        ∃ x S, batchSolver Q (own j) g1GenR (t.2.1 • g1GenR) t.2.2.1.1 t.2.2.2 i (syncForger F gen1 own A j t.1)
          (t.2.1 • g2GenR) = some (x, S) ∧ Solved F.toCurve.toPairing g1GenR t.2.1 t.2.2.1.1 S} : ℚ) /
      Nat.card ((Fin m → ZMod FR_MODULUS) × ZMod FR_MODULUS × {h : G1r // h ≠ 0} × (Q → (ZMod FR_MODULUS)ˣ)) ≤ ε) :
    (Nat.card {t : (Fin m → ZMod FR_MODULUS) × (Q → {h : G1r // h ≠ 0}) //
        WinsSync alloc K B groth F gen1 n helper own hashC Q A t.1 t.2} : ℚ) /
      Nat.card ((Fin m → ZMod FR_MODULUS) × (Q → {h : G1r // h ≠ 0})) ≤ m * (q + 1) * ε :=
  many_probability Q (syncForger F gen1 own A) q (WinsSync alloc K B groth F gen1 n helper own hashC Q A)
    (C102_reduction ha hB hq hashC Q A q hA) ε hε

end

/-! ### A concrete case

The validator has signed the blocks 0 to 4.  A client that holds block 2 is shown block 4, honestly, and then block
6, by someone with the secret of the validator. -/

/-- The inputs of the hash in the example. -/
noncomputable def syncQueries : Finset HashQuery :=
  {blockQuery (chainBlock [toyKey] 0 3), blockQuery (chainBlock [toyKey] 0 4), blockQuery (chainBlock [toyKey] 0 5),
    blockQuery (chainBlock [toyKey] 0 6), blockQuery (dummyBlock g2Generator 1)}

/-- The table of the hash in the example. -/
noncomputable def syncTable : syncQueries → {h : G1r // h ≠ 0} := fun _ => ⟨g1GenR, g1GenR_ne_zero⟩

theorem sync_oracle {b : EpochBlock} (hb : blockQuery b ∈ syncQueries) :
    oracleHashC (tableHash syncQueries syncTable) (b.encodeInnerToBitsCip22 g2Generator).1
      (b.encodeInnerToBitsCip22 g2Generator).2 ⟨g1GenR.1, [], []⟩ := by
  refine ⟨0, ?_⟩
  rw [toG1r_coe]
  exact tableHash_mem syncTable hb

theorem sync_chain {i0 i1 i2 : UInt16} (e1 : i1.toNat = i0.toNat + 1) (e2 : i2.toNat = i1.toNat + 1)
    (q1 : blockQuery (chainBlock [toyKey] 0 i1) ∈ syncQueries)
    (q2 : blockQuery (chainBlock [toyKey] 0 i2) ∈ syncQueries) :
    HonestChain (G1 := G1Point) (oracleHashC (tableHash syncQueries syncTable))
    (fun _ _ => .ok ⟨g1GenR.1, [], []⟩) logFull.e g2Generator 1 (fun _ => ⟨g1GenR.1, [], []⟩)
    (chainBlock [toyKey] 0 i0)
    ([nativeStep i1] ++ [nativeStep i2]) where
  blocks := (toy_chain_at e1 e2).blocks
  index := by
    intro p hp
    simp only [predecessors, List.cons_append, List.nil_append, List.map_cons, List.map_nil,
      List.zip_cons_cons, List.zip_nil_right, List.mem_cons, List.not_mem_nil, or_false] at hp
    rcases hp with rfl | rfl
    · exact e1
    · exact e2
  entropy := by
    intro _ p hp
    simp only [predecessors, List.cons_append, List.nil_append, List.map_cons, List.map_nil,
      List.zip_cons_cons, List.zip_nil_right, List.mem_cons, List.not_mem_nil, or_false] at hp
    rcases hp with rfl | rfl <;> rfl
  bitmap := by
    intro p hp
    simp only [predecessors, List.cons_append, List.nil_append, List.map_cons, List.map_nil,
      List.zip_cons_cons, List.zip_nil_right, List.mem_cons, List.not_mem_nil, or_false] at hp
    rcases hp with rfl | rfl <;> exact ⟨rfl, le_refl _, by change List.count false [true] < 256; decide⟩
  padding := by
    intro p hp
    simp only [predecessors, List.cons_append, List.nil_append, List.map_cons, List.map_nil,
      List.zip_cons_cons, List.zip_nil_right, List.mem_cons, List.not_mem_nil, or_false] at hp
    rcases hp with rfl | rfl <;>
    · intro x hx _
      change x ∈ [(toyKey, true)] at hx
      rw [List.mem_singleton.mp hx]
      exact toyKey_ne_gen
  hash := by
    intro t ht
    refine ⟨rfl, sync_oracle ?_⟩
    simp only [List.cons_append, List.nil_append, List.mem_cons, List.not_mem_nil, or_false] at ht
    rcases ht with rfl | rfl
    · exact q1
    · exact q2
  signature := by
    intro p hp
    simp only [predecessors, List.cons_append, List.nil_append, List.map_cons, List.map_nil,
      List.zip_cons_cons, List.zip_nil_right, List.mem_cons, List.not_mem_nil, or_false] at hp
    rcases hp with rfl | rfl <;>
    · change logFull.e (-g1GenR.1) (-g2Generator) * logFull.e g1GenR.1 [toyKey].sum = 1
      have hk : toyKey = -g2Generator := rfl
      rw [List.sum_singleton, hk, ← logFull.add_left, neg_add_cancel, pairing_zero_left logFull.add_left]

theorem toyPublic : (toPublic logFull.toCurve.toPairing (-1)).1 = toyKey := by
  change ((-1 : ZMod FR_MODULUS) • g2GenR).1 = -g2Generator
  rw [neg_smul, one_smul]
  rfl

/-- The blocks `i1` and `i2` can be shown to a client that holds block `i0`, if their messages have a hash. -/
theorem sync_step (K : Blake2sCore) {i0 i1 i2 : UInt16} (e1 : i1.toNat = i0.toNat + 1) (e2 : i2.toNat = i1.toNat + 1)
    (q1 : blockQuery (chainBlock [toyKey] 0 i1) ∈ syncQueries)
    (q2 : blockQuery (chainBlock [toyKey] 0 i2) ∈ syncQueries) :
    ∃ s : SyncStep, s.block = chainBlock [toyKey] 0 i2 ∧ s.vars.updates.length = 5 ∧
      StepAccepted affineOnlyG2 (fun _ => oracleHashC (tableHash syncQueries syncTable)) K (Blake2s.ofCore K)
        (fun _ (_ : Unit) => .ok (True, true)) logFull g1GenR.1 1 none (tableHash syncQueries syncTable)
        (chainBlock [toyKey] 0 i0) s := by
  have hinit := C46_complete affineOnlyG2 (oracleHashC (tableHash syncQueries syncTable))
    (fun _ _ => .ok ⟨g1GenR.1, [], []⟩) true (gen1 := g1GenR.1) (max := 5) logFull.add_left logFull.add_right
    (fun _ _ h => ⟨rfl, h⟩) (by decide +kernel) (sync_chain e1 e2 q1 q2) (by simp)
    (by
      intro _
      refine ⟨?_, ?_, ⟨g1GenR.1, [], []⟩, rfl, sync_oracle (by unfold syncQueries; simp)⟩
      · intro h; cases h
      · change g2Generator ∉ [toyKey]
        rw [List.mem_singleton]
        exact fun h => toyKey_ne_gen h.symm)
    (by
      change [toyKey].sum ≠ 0
      rw [List.sum_singleton]; exact toyKey_ne)
  obtain ⟨s, c, b, h1, h2, h3, h4, h5, h6, h7, h8⟩ := hinit
  have hci : c.initial = EpochVars.assign (toEpochData (chainBlock [toyKey] 0 i0)) := by
    obtain ⟨s', hs', _, e2, _⟩ := C48_shape g1GenR.1 g2Generator 1 (chainBlock [toyKey] 0 i0)
      ([nativeStep i1] ++ [nativeStep i2]) 5 (by simp) (by simp)
    rw [h1] at hs'
    simp only [Outcome.ok.injEq] at hs'
    subst hs'
    unfold CircuitVars.assign at h2
    rw [Outcome.map_eq_ok_iff] at h2
    obtain ⟨_, _, rfl⟩ := h2
    simp only [e2]
  have hcirc : epochCircuit affineOnlyG2 (fun _ => oracleHashC (tableHash syncQueries syncTable)) K
      (fun _ (_ : Unit) => .ok (True, true)) logFull.e g1GenR.1 g2Generator 1 none c
      (publicInputs g2Generator (Blake2s.ofCore K) (chainBlock [toyKey] 0 i0) (chainBlock [toyKey] 0 i2)) =
      .ok (b.sat ∧ True ∧ verifyEdgesC K b (publicInputs g2Generator (Blake2s.ofCore K)
        (chainBlock [toyKey] 0 i0) (chainBlock [toyKey] 0 i2))) := by
    unfold epochCircuit
    rw [h3, Outcome.bind_ok]
    rfl
  have hn : c.initial.keys.length = 1 := by rw [hci]; rfl
  obtain ⟨counter, hcounter⟩ := C98_counters hn (by decide +kernel) h3 h4
  refine ⟨⟨chainBlock [toyKey] 0 i2, c, counter⟩, rfl, h7, chain_entropy [toyKey] 0 i2 |>.symm,
    ⟨_, hcirc, h4, trivial, edges_complete (Blake2s.ofCore_agree K) h5 h6⟩, hn, ⟨?_, ?_⟩, ?_, hcounter, ?_⟩
  · intro h0
    change c.updates = [] at h0
    rw [h0] at h7
    cases h7
  · change c.updates.length ≤ _
    rw [h7]
    norm_num
  · intro w hw
    have : ∃ i : UInt16, w = EpochVars.assign (toEpochData (chainBlock [toyKey] 0 i)) := by
      rw [List.mem_cons] at hw
      rcases hw with rfl | hw
      · exact ⟨i0, hci⟩
      · rw [h8] at hw
        simp only [List.cons_append, List.nil_append, List.map_cons, List.map_nil, List.mem_cons,
          List.not_mem_nil, or_false] at hw
        rcases hw with rfl | rfl
        · exact ⟨i1, rfl⟩
        · exact ⟨i2, rfl⟩
    obtain ⟨i, rfl⟩ := this
    change (0 : ZMod FQ_MODULUS).val < 2 ^ 32
    rw [ZMod.val_zero]
    norm_num
  · intro b' hb'
    have : b' = b := Outcome.ok.inj (hb'.symm.trans h3)
    subst this
    rintro (⟨hne, -⟩ | ⟨hne, -⟩)
    · exact hne (by rw [h5]; rfl)
    · exact hne (by rw [h6]; rfl)

theorem not_block_six {a : ℕ} (ha : a < 5) :
    ¬ SameBlock (chainBlock [toyKey] 0 6) (chainBlock [toyKey] 0 (UInt16.ofNat a)) := by
  rintro ⟨h, -⟩
  change (6 : UInt16) = UInt16.ofNat a at h
  have h' := congrArg UInt16.toNat h
  rw [UInt16.toNat_ofNat_of_lt' (by change a < 65536; omega)] at h'
  change 6 = a at h'
  omega

/-- The two updates. -/
theorem sync_deceived (K : Blake2sCore) : ∃ d : SyncDeception, d.steps.length = 2 ∧
    LeadsAway (m := 1) affineOnlyG2 (fun _ => oracleHashC (tableHash syncQueries syncTable)) K (Blake2s.ofCore K)
      (fun _ (_ : Unit) => .ok (True, true)) logFull g1GenR.1 1 none (fun _ msg => msg == [8])
      (tableHash syncQueries syncTable) (fun _ => toPublic logFull.toCurve.toPairing (-1)) d
      [(0, blockQuery (chainBlock [toyKey] 0 (UInt16.ofNat 4))),
        (0, blockQuery (chainBlock [toyKey] 0 (UInt16.ofNat 3)))] := by
  obtain ⟨s1, hb1, -, hs1⟩ := sync_step K (i0 := 2) (i1 := 3) (i2 := 4) rfl rfl
    (by unfold syncQueries; simp) (by unfold syncQueries; simp)
  obtain ⟨s2, hb2, -, hs2⟩ := sync_step K (i0 := 4) (i1 := 5) (i2 := 6) rfl rfl
    (by unfold syncQueries; simp) (by unfold syncQueries; simp)
  have hmem : toyKey ∈ G2r := by rw [← toyPublic]; exact (toPublic logFull.toCurve.toPairing (-1)).2
  refine ⟨⟨5, fun j => chainBlock [toyKey] 0 (UInt16.ofNat j), 2, chainBlock [toyKey] 0 2, [s1, s2],
    ⟨fun _ => none, fun _ => ([], 0)⟩⟩, rfl, ?_⟩
  constructor
  · have hH : (fun p => ∃ j : Fin 1, p = ((fun _ : Fin 1 => toPublic logFull.toCurve.toPairing (-1)) j).1) =
        fun p => p = toyKey := by
      funext p
      simp only [toyPublic, exists_const]
    rw [hH]
    refine ⟨short_quorums.size, short_quorums.index, short_quorums.entropy, short_quorums.clear,
      short_quorums.quorum, ?_⟩
    rintro pk msg x - ⟨j, k, -, hT⟩
    rw [List.mem_cons, List.mem_singleton] at hT
    unfold blockQuery at hT
    simp only [Prod.mk.injEq, List.cons.injEq] at hT
    rcases hT with hT | hT
    · exact ⟨4, by norm_num, Prod.ext hT.2.2.1.symm hT.2.2.2.2.symm⟩
    · exact ⟨3, by norm_num, Prod.ext hT.2.2.1.symm hT.2.2.2.2.symm⟩
  · intro a _
    refine ⟨List.nodup_singleton _, fun k hk => ?_⟩
    change k ∈ [toyKey] at hk
    rw [List.mem_singleton.mp hk]
    exact hmem
  · intro a _ k hk hne
    refine absurd (Subtype.ext ?_) (hne 0)
    change k.1 ∈ [toyKey] at hk
    rw [List.mem_singleton.mp hk, toyPublic]
  · norm_num
  · exact ⟨rfl, rfl, rfl, (chain_entropy [toyKey] 0 2).1⟩
  · intro x hx
    simp only [List.map_cons, List.map_nil, List.zip_cons_cons, List.zip_nil_right, List.mem_cons,
      List.not_mem_nil, or_false] at hx
    rcases hx with rfl | rfl
    · exact hs1
    · simp only [hb1]; exact hs2
  · rintro ⟨as, -, h⟩
    cases h with
    | cons _ h =>
      cases h with
      | cons h _ =>
        rw [hb2] at h
        exact not_block_six h.1 h.2

/-- Concrete case for C102 in the random-oracle model: an adversary that has the blocks 3 and 4 signed and then
leads the client away with the second of two updates, when the secret of the validator is `-1`.  So its wins are
counted, and the solver has successes. -/
example (K : Blake2sCore) : ∃ A : (Fin 1 → G2r) → Deceiver 1 SyncDeception G1r, (∀ pks, (A pks).Bounded 2) ∧
    WinsSync affineOnlyG2 K (Blake2s.ofCore K) (fun _ (_ : Unit) => .ok (True, true)) logFull g1GenR.1 1 none
      (fun _ msg => msg == [8]) (fun H _ => oracleHashC H) syncQueries A (fun _ => -1) syncTable ∧
    0 < ∑ j : Fin 1, ∑ i ∈ range 3, Nat.card {t : (Fin 1 → ZMod FR_MODULUS) × ZMod FR_MODULUS ×
          {h : G1r // h ≠ 0} × (syncQueries → (ZMod FR_MODULUS)ˣ) //
        ∃ x S, batchSolver syncQueries (fun msg => msg == [8]) g1GenR (t.2.1 • g1GenR) t.2.2.1.1 t.2.2.2 i
          (syncForger logFull g1GenR.1 (fun _ msg => msg == [8]) A j t.1)
          (t.2.1 • g2GenR) = some (x, S) ∧ Solved logFull.toCurve.toPairing g1GenR t.2.1 t.2.2.1.1 S} := by
  obtain ⟨d, -, hd⟩ := sync_deceived K
  let A : (Fin 1 → G2r) → Deceiver 1 SyncDeception G1r := fun _ =>
    .sign 0 (blockQuery (chainBlock [toyKey] 0 (UInt16.ofNat 3))).2.1
      (blockQuery (chainBlock [toyKey] 0 (UInt16.ofNat 3))).2.2 fun _ =>
    .sign 0 (blockQuery (chainBlock [toyKey] 0 (UInt16.ofNat 4))).2.1
      (blockQuery (chainBlock [toyKey] 0 (UInt16.ofNat 4))).2.2 fun _ => .output d
  have hA : ∀ pks, (A pks).Bounded 2 := fun _ _ _ => trivial
  have hw : WinsSync affineOnlyG2 K (Blake2s.ofCore K) (fun _ (_ : Unit) => .ok (True, true)) logFull g1GenR.1 1
      none (fun _ msg => msg == [8]) (fun H _ => oracleHashC H) syncQueries A (fun _ => -1) syncTable := hd
  refine ⟨A, hA, hw, ?_⟩
  have h := C102_reduction (groth := fun _ (_ : Unit) => .ok (True, true)) (F := logFull) (gen1 := g1GenR.1)
    (helper := none) (own := fun (_ : Fin 1) msg => msg == [8]) (alloc := affineOnlyG2) (fun _ h => h)
    (Blake2s.ofCore_agree K) (n := 1) (by decide +kernel) (fun H _ => oracleHashC H) syncQueries A 2 hA
  refine lt_of_lt_of_le ?_ h
  have hr := FR_prime.pos
  have hr' : 0 < FR_MODULUS - 1 := Nat.sub_pos_of_lt FR_prime.one_lt
  have := card_G1r.1
  have : NeZero FR_MODULUS := ⟨FR_prime.ne_zero⟩
  refine Nat.mul_pos hr' (Nat.mul_pos hr (Nat.card_pos_iff.mpr ⟨⟨⟨((fun _ => -1), syncTable), hw⟩⟩, inferInstance⟩))

/-- What an ideal proof system proves: there is an assignment, of five updates, and counters for its hashes. -/
def SyncStatement (K : Blake2sCore) (inputs : List Fq)
    (w : CircuitVars G1Point × (EpochVars × UpdateVars G1Point → UInt8)) : Prop :=
  ∃ sat : Prop, epochCircuit affineOnlyG2 (fun _ => oracleHashC (tableHash syncQueries syncTable)) K
      (fun _ (_ : Unit) => .ok (True, true)) logFull.e g1GenR.1 g2Generator 1 none w.1 inputs = .ok sat ∧ sat ∧
    w.1.initial.keys.length = 1 ∧ w.1.updates.length = 5 ∧ ThresholdsInRange w.1 ∧
    WitnessedHash (fun t => ((messageOf t).1, w.2 t :: (messageOf t).2)) (tableHash syncQueries syncTable) w.1

/-- Concrete case for C102 with a proof system: the client, which holds block 2, accepts block 4 and then block 6,
which is not on the chain; so there is a collision, or a forged batch against the validator, in one of the two
extracted assignments. -/
example (K : Blake2sCore) :
    ∃ (groth16 : Unit → Unit → List Fq → Outcome Unit Bool) (extract : Unit → List Fq → CircuitVars G1Point)
      (label : Unit → List Fq → Label),
      syncEpochs groth16 g2Generator (Blake2s.ofCore K) () (chainBlock [toyKey] 0 2)
        [(chainBlock [toyKey] 0 4, ()), (chainBlock [toyKey] 0 6, ())] = .ok (chainBlock [toyKey] 0 6) ∧
      ((∃ t ∈ [(chainBlock [toyKey] 0 2, chainBlock [toyKey] 0 4), (chainBlock [toyKey] 0 4, chainBlock [toyKey] 0 6)],
        ∃ b, enforceEpochs affineOnlyG2 (oracleHashC (tableHash syncQueries syncTable)) logFull.e g1GenR.1 g2Generator
          1 (extract () (publicInputs g2Generator (Blake2s.ofCore K) t.1 t.2)) = .ok b ∧
          EdgesCollide (Blake2s.ofCore K) g2Generator b t.1 t.2) ∨
      ∃ t ∈ [(chainBlock [toyKey] 0 2, chainBlock [toyKey] 0 4), (chainBlock [toyKey] 0 4, chainBlock [toyKey] 0 6)],
        ∃ before tr after pk, (pk : G2r).1 = toyKey ∧ ∀ known own,
          AcceptedBatch logFull.toCurve.toPairing (tableHash syncQueries syncTable) own pk
            (forgedBatch (label () (publicInputs g2Generator (Blake2s.ofCore K) t.1 t.2)) known g1GenR.1 pk
              (extract () (publicInputs g2Generator (Blake2s.ofCore K) t.1 t.2)) before tr after)) := by
  classical
  obtain ⟨s1, hb1, hu1, hs1⟩ := sync_step K (i0 := 2) (i1 := 3) (i2 := 4) rfl rfl
    (by unfold syncQueries; simp) (by unfold syncQueries; simp)
  obtain ⟨s2, hb2, hu2, hs2⟩ := sync_step K (i0 := 4) (i1 := 5) (i2 := 6) rfl rfl
    (by unfold syncQueries; simp) (by unfold syncQueries; simp)
  let groth16 : Unit → Unit → List Fq → Outcome Unit Bool :=
    fun _ _ inputs => .ok (decide (∃ w, SyncStatement K inputs w))
  let witness : List Fq → CircuitVars G1Point × (EpochVars × UpdateVars G1Point → UInt8) := fun inputs =>
    if h : ∃ w, SyncStatement K inputs w then h.choose else (s1.vars, s1.counter)
  have hsound : ∀ proof inputs, groth16 () proof inputs = .ok true → SyncStatement K inputs (witness inputs) := by
    intro proof inputs h
    simp only [groth16, Outcome.ok.injEq, decide_eq_true_eq] at h
    simp only [witness, dif_pos h]
    exact h.choose_spec
  have hacc : ∀ {held : EpochBlock} {s : SyncStep}, s.vars.updates.length = 5 →
      StepAccepted affineOnlyG2 (fun _ => oracleHashC (tableHash syncQueries syncTable)) K (Blake2s.ofCore K)
        (fun _ (_ : Unit) => .ok (True, true)) logFull g1GenR.1 1 none (tableHash syncQueries syncTable) held s →
      verifyEpochs groth16 g2Generator (Blake2s.ofCore K) () held s.block () = .ok () := by
    intro held s hu hs
    rw [C34_accepts_iff]
    simp only [groth16, Outcome.ok.injEq, decide_eq_true_eq]
    obtain ⟨sat, h1, h2⟩ := hs.accepted
    exact ⟨(s.vars, s.counter), sat, h1, h2, hs.size, hu, hs.range, hs.hashed⟩
  have hsync : syncEpochs groth16 g2Generator (Blake2s.ofCore K) () (chainBlock [toyKey] 0 2)
      [(chainBlock [toyKey] 0 4, ()), (chainBlock [toyKey] 0 6, ())] = .ok (chainBlock [toyKey] 0 6) := by
    have h1 := hacc hu1 hs1
    have h2 := hacc hu2 hs2
    rw [hb1] at h1
    rw [hb2] at h2
    simp only [syncEpochs]
    rw [h1, Outcome.bind_ok, h2, Outcome.bind_ok]
  refine ⟨groth16, fun _ inputs => (witness inputs).1,
    fun _ inputs t => ((messageOf t).1, (witness inputs).2 t :: (messageOf t).2), hsync, ?_⟩
  have hmem : toyKey ∈ G2r := by rw [← toyPublic]; exact (toPublic logFull.toCurve.toPairing (-1)).2
  rcases C102_deceived (alloc := affineOnlyG2) (fun _ h => h) (Blake2s.ofCore_agree K) logFull (n := 1) (max := 5)
      (by decide +kernel) (by norm_num) (by norm_num) short_quorums
      (fun j _ => ⟨List.nodup_singleton _, fun k hk => by
        change k ∈ [toyKey] at hk
        rw [List.mem_singleton.mp hk]; exact hmem⟩)
      (tableHash syncQueries syncTable) (extract := fun _ inputs => (witness inputs).1)
      (label := fun _ inputs t => ((messageOf t).1, (witness inputs).2 t :: (messageOf t).2))
      _ (by
        intro u hu
        simp only [List.mem_cons, List.not_mem_nil, or_false] at hu
        rcases hu with rfl | rfl <;> exact (chain_entropy [toyKey] 0 _).symm)
      (i := 2) (by norm_num) ⟨rfl, rfl, rfl, (chain_entropy [toyKey] 0 2).1⟩
      (fun t _ inputs _ h => by
        obtain ⟨sat, h1, h2, h3, h4, h5, h6⟩ := hsound t.2.2 inputs h
        refine ⟨sat, h1, h2, h3, h4, h5, h6, fun t _ t' _ he => ?_⟩
        simp only [Prod.mk.injEq, List.cons.injEq] at he
        exact Prod.ext he.1 he.2.2)
      hsync with
    ⟨t, ht, b, hb⟩ | ⟨t, ht, before, tr, after, j, pk, -, hj, hpk, -, -, hX⟩ | ⟨js, -, h, -⟩
  · left
    simp only [List.map_cons, List.map_nil, List.zip_cons_cons, List.zip_nil_right, List.mem_cons,
      List.not_mem_nil, or_false] at ht
    exact ⟨(t.1, t.2.1), by rcases ht with rfl | rfl <;> simp, b, hb⟩
  · right
    have hpk' : pk.1 = toyKey := List.mem_singleton.mp hpk
    simp only [List.map_cons, List.map_nil, List.zip_cons_cons, List.zip_nil_right, List.mem_cons,
      List.not_mem_nil, or_false] at ht
    refine ⟨(t.1, t.2.1), by rcases ht with rfl | rfl <;> simp, before, tr, after, pk, hpk', fun known own => ?_⟩
    obtain ⟨X, h1, h2, -⟩ := hX known own fun k hk hne =>
      absurd (Subtype.ext ((List.mem_singleton.mp hk).trans hpk'.symm)) hne
    rw [h2] at h1
    exact h1
  · exfalso
    cases h with
    | cons _ h =>
      cases h with
      | cons h _ => exact not_block_six h.1 h.2

end Verif
