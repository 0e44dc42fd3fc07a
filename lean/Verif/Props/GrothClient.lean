import Verif.Props.GrothEpochs
import Verif.Props.SyncForge

/-!
# C109: a light client that is shown proofs of linear provers

C101 and C102 with the proof system of `Verif.Model.Groth16`: that accepted proofs come from satisfying
assignments is no longer assumed but follows from C108, with a bound on the number of setups for which it
fails.
-/

set_option linter.unusedSectionVars false

namespace Verif

/-- A prover who combines the published elements linearly: the coefficients of the three elements of a proof. -/
structure LinearProver (F : Type*) (k w N : ℕ) where
  a : G1Strategy F k w N
  b : G2Strategy F k w
  c : G1Strategy F k w N

section
variable {G1 G2 GT : Type*} [AddCommGroup G1] [Module (ZMod FQ_MODULUS) G1] [AddCommGroup G2]
  [Module (ZMod FQ_MODULUS) G2] [CommGroup GT] [DecidableEq GT]

/-- The proof that a linear prover shows once the key is published. -/
def LinearProver.proof {k w N : ℕ} (s : LinearProver (ZMod FQ_MODULUS) k w N) (pk : GrothPk G1 G2) :
    GrothProof G1 G2 :=
  ⟨s.a.combine pk, s.b.combine pk, s.c.combine pk⟩

theorem syncEpochs_map {VK VK' A Proof : Type*} (groth16 : VK → Proof → List Fq → Outcome Unit Bool)
    (gen : G2Point) (B : Blake2s) (vk : VK) (vk' : VK') (f : A → Proof) (us : List (EpochBlock × A))
    (held : EpochBlock) :
    syncEpochs groth16 gen B vk held (us.map fun u => (u.1, f u.2)) =
      syncEpochs (fun (_ : VK') s inputs => groth16 vk (f s) inputs) gen B vk' held us := by
  induction us generalizing held with
  | nil => rfl
  | cons u us ih =>
    simp only [List.map_cons, syncEpochs]
    congr 1
    funext _
    exact ih _

/-- All lucky setups of several updates together. -/
theorem exists_lucky (P : Pairing FQ_MODULUS G1 G2 GT) {w m : ℕ} {M : R1cs (ZMod FQ_MODULUS) 2 w m}
    {D : EvalDomain (ZMod FQ_MODULUS)} (hD : D.Valid) (hN : m + 2 < D.size) {g1 : G1} {g2 : G2}
    (h1 : g1 ≠ 0) (h2 : g2 ≠ 0) (gen2 : G2Point) (B : Blake2s)
    (ts : List (EpochBlock × EpochBlock × LinearProver (ZMod FQ_MODULUS) 2 w D.size)) :
    ∃ lucky : Finset (Fin 5 → ZMod FQ_MODULUS), lucky.card ≤ ts.length * ((3 * D.size + 1) * FQ_MODULUS ^ 4) ∧
      ∀ v ∉ lucky, ∀ pk, generateParameters M D (Trapdoor.ofScalars v g1 g2) = .ok pk →
        ∀ t ∈ ts, verifyProof P pk.vk (t.2.2.proof pk) (publicInputs gen2 B t.1 t.2.1) = .ok true →
          ∃ x, List.ofFn x = publicInputs gen2 B t.1 t.2.1 ∧
            M.Satisfied (fullAssignment x t.2.2.c.l) := by
  classical
  induction ts with
  | nil => exact ⟨∅, by simp, fun _ _ _ _ t ht => absurd ht (by simp)⟩
  | cons t ts ih =>
    obtain ⟨L, hL, hv⟩ := ih
    obtain ⟨x, hx⟩ := exists_inputs gen2 B t.1 t.2.1
    by_cases hsat : M.Satisfied (fullAssignment x t.2.2.c.l)
    · refine ⟨L, hL.trans ?_, fun v hn pk hpk s hs hacc => ?_⟩
      · rw [List.length_cons]
        exact Nat.mul_le_mul_right _ (Nat.le_succ _)
      · rcases List.mem_cons.mp hs with rfl | hs
        · exact ⟨x, hx, hsat⟩
        · exact hv v hn pk hpk s hs hacc
    · obtain ⟨L', hL', hv'⟩ := C108_sound P hD hN h1 h2 t.2.2.a t.2.2.c t.2.2.b x hsat
      refine ⟨L' ∪ L, ?_, fun v hn pk hpk s hs hacc => ?_⟩
      · refine (Finset.card_union_le _ _).trans ?_
        rw [List.length_cons, Nat.succ_mul, Nat.add_comm]
        exact Nat.add_le_add hL hL'
      · rw [Finset.mem_union, not_or] at hn
        rcases List.mem_cons.mp hs with rfl | hs
        · have := hv' v hn.1 pk hpk
          rw [hx] at this
          exact absurd (hacc.symm.trans this) (by simp)
        · exact hv v hn.2 pk hpk s hs hacc

/-- **C109.** Let `chain` have honest quorums, and let a light client that holds block `i` be shown a list of
updates, with proofs made by linear provers.  Except for `(3 N + 1) q ^ 4` of the `q ^ 5` setups for each
update, what the client accepts is on the chain, or a witness of a prover contains a collision: provided that the
witnesses, where they satisfy the circuit, are in range and forge nothing on the chain. -/
theorem C109_sync {GC GE HP : Type*} [AddCommGroup GC] [CommGroup GE] (P : Pairing FQ_MODULUS G1 G2 GT)
    {w m : ℕ} {M : R1cs (ZMod FQ_MODULUS) 2 w m} {D : EvalDomain (ZMod FQ_MODULUS)} (hD : D.Valid)
    (hN : m + 2 < D.size) {g1 : G1} {g2 : G2} (h1 : g1 ≠ 0) (h2 : g2 ≠ 0)
    {alloc : G2Var → Prop} (ha : AffineAllocG2 alloc)
    {hashC : Bool → List Bool → List Bool → HashOut GC → Prop}
    {K : Blake2sCore} {B : Blake2s} (hB : Blake2sAgree K B)
    {groth : List (List Bool) → HP → Outcome Unit (Prop × Bool)} {e : GC → G2Point → GE} {gen1 : GC}
    {gen2 : G2Point} {n max : ℕ} (hq : n < FQ_MODULUS) (hmax : 0 < max) {helper : Option HP}
    {decode : (Fin w → Fq) → CircuitVars GC}
    (hdecode : ∀ x wit, M.Satisfied (fullAssignment x wit) → ∃ sat : Prop,
      epochCircuit alloc hashC K groth e gen1 gen2 n helper (decode wit) (List.ofFn x) = .ok sat ∧ sat ∧
      (decode wit).initial.keys.length = n ∧ (decode wit).updates.length = max)
    {E : ℕ} {chain : ℕ → EpochBlock} {Honest : G2Point → Prop} {Signed : G2Point → Bytes → Bytes → Prop}
    (hc : HonestQuorums gen2 E chain Honest Signed)
    (us : List (EpochBlock × LinearProver (ZMod FQ_MODULUS) 2 w D.size))
    (hent : ∀ u ∈ us, EntropyOk u.1.epochEntropy ∧ EntropyOk u.1.parentEntropy)
    (hwit : ∀ u ∈ us, ∀ x, M.Satisfied (fullAssignment x u.2.c.l) →
      ThresholdsInRange (decode u.2.c.l) ∧ NotForgedOnChain gen2 E chain Honest Signed (decode u.2.c.l))
    {i : ℕ} (hi : i < E) {first : EpochBlock} (hh : Holds gen2 chain i first) :
    ∃ lucky : Finset (Fin 5 → ZMod FQ_MODULUS), lucky.card ≤ us.length * ((3 * D.size + 1) * FQ_MODULUS ^ 4) ∧
      ∀ v ∉ lucky, ∀ pk, generateParameters M D (Trapdoor.ofScalars v g1 g2) = .ok pk →
        ∀ final, syncEpochs (verifyProof P) gen2 B pk.vk first (us.map fun u => (u.1, u.2.proof pk)) = .ok final →
          (∃ t ∈ (first :: us.map (·.1)).zip us, ∃ b,
            enforceEpochs alloc (hashC helper.isNone) e gen1 gen2 n (decode t.2.2.c.l) = .ok b ∧
              EdgesCollide B gen2 b t.1 t.2.1) ∨
          ∃ js : List ℕ, (i :: js).IsChain (fun a b => a < b ∧ b ≤ a + max) ∧
            List.Forall₂ (fun u j => j < E ∧ Holds gen2 chain j u.1 ∧
              encodeEntropy u.1.epochEntropy = encodeEntropy (chain j).epochEntropy) us js ∧
            Holds gen2 chain (js.getLast?.getD i) final := by
  obtain ⟨lucky, hcard, hl⟩ := exists_lucky P (M := M) hD hN h1 h2 gen2 B ((first :: us.map (·.1)).zip us)
  refine ⟨lucky, hcard.trans (Nat.mul_le_mul_right _ (by simp)), fun v hn pk hpk final hsync => ?_⟩
  have hsync := (syncEpochs_map (verifyProof P) gen2 B pk.vk ()
    (fun s : LinearProver (ZMod FQ_MODULUS) 2 w D.size => s.proof pk) us first).symm.trans hsync
  refine C101_sync (extract := fun s _ => decode s.c.l) (e := e) (gen1 := gen1) (groth := groth) (helper := helper)
    ha hB hq hmax hc us hent hi hh ?_ hsync
  rintro t ht inputs rfl hacc
  obtain ⟨x, hx, hsat⟩ := hl v hn pk hpk t ht hacc
  obtain ⟨sat, c1, c2, c3, c4⟩ := hdecode x t.2.2.c.l hsat
  rw [hx] at c1
  obtain ⟨c5, c6⟩ := hwit t.2 (List.of_mem_zip ht).2 x hsat
  exact ⟨sat, c1, c2, c3, c4, c5, c6⟩

/-- **C109.** The same with nothing assumed about forgeries: otherwise an explicit batch, read off the witness of a
prover, is accepted for an honest key of the chain and a message that this key did not sign. -/
theorem C109_deceived {GE HP : Type*} [CommGroup GE] [DecidableEq GE] (P : Pairing FQ_MODULUS G1 G2 GT)
    {w m : ℕ} {M : R1cs (ZMod FQ_MODULUS) 2 w m} {D : EvalDomain (ZMod FQ_MODULUS)} (hD : D.Valid)
    (hN : m + 2 < D.size) {g1 : G1} {g2 : G2} (h1 : g1 ≠ 0) (h2 : g2 ≠ 0)
    {alloc : G2Var → Prop} (ha : AffineAllocG2 alloc)
    {hashC : Bool → List Bool → List Bool → HashOut G1Point → Prop}
    {K : Blake2sCore} {B : Blake2s} (hB : Blake2sAgree K B)
    {groth : List (List Bool) → HP → Outcome Unit (Prop × Bool)} (F : FullPairing GE) {gen1 : G1Point}
    {n max : ℕ} (hq : n < FQ_MODULUS) (hmax : 0 < max) (hmax' : max ≤ 2 ^ 16) {helper : Option HP}
    {decode : (Fin w → Fq) → CircuitVars G1Point}
    (hdecode : ∀ x wit, M.Satisfied (fullAssignment x wit) → ∃ sat : Prop,
      epochCircuit alloc hashC K groth F.e gen1 g2Generator n helper (decode wit) (List.ofFn x) = .ok sat ∧ sat ∧
      (decode wit).initial.keys.length = n ∧ (decode wit).updates.length = max)
    {E : ℕ} {chain : ℕ → EpochBlock} {Honest : G2Point → Prop} {Signed : G2Point → Bytes → Bytes → Prop}
    (hc : HonestQuorums g2Generator E chain Honest Signed)
    (hkeys : ∀ j < E, (chain j).newPublicKeys.Nodup ∧ ∀ k ∈ (chain j).newPublicKeys, k ∈ G2r)
    (H : HashToG1 G1r) {label : (Fin w → Fq) → Label}
    (us : List (EpochBlock × LinearProver (ZMod FQ_MODULUS) 2 w D.size))
    (hent : ∀ u ∈ us, EntropyOk u.1.epochEntropy ∧ EntropyOk u.1.parentEntropy)
    (hwit : ∀ u ∈ us, ∀ x, M.Satisfied (fullAssignment x u.2.c.l) →
      ThresholdsInRange (decode u.2.c.l) ∧ WitnessedHash (label u.2.c.l) H (decode u.2.c.l) ∧
        Faithful (label u.2.c.l) (decode u.2.c.l))
    {i : ℕ} (hi : i < E) {first : EpochBlock} (hh : Holds g2Generator chain i first) :
    ∃ lucky : Finset (Fin 5 → ZMod FQ_MODULUS), lucky.card ≤ us.length * ((3 * D.size + 1) * FQ_MODULUS ^ 4) ∧
      ∀ v ∉ lucky, ∀ pk, generateParameters M D (Trapdoor.ofScalars v g1 g2) = .ok pk →
        ∀ final, syncEpochs (verifyProof P) g2Generator B pk.vk first (us.map fun u => (u.1, u.2.proof pk)) =
            .ok final →
          (∃ t ∈ (first :: us.map (·.1)).zip us, ∃ b,
            enforceEpochs alloc (hashC helper.isNone) F.e gen1 g2Generator n (decode t.2.2.c.l) = .ok b ∧
              EdgesCollide B g2Generator b t.1 t.2.1) ∨
          (∃ u ∈ us, ∃ before t after j pk,
            (decode u.2.c.l).transitions = before ++ t :: after ∧ j < E ∧
            (pk : G2r).1 ∈ (chain j).newPublicKeys ∧ Honest pk.1 ∧
            ¬ Signed pk.1 (messageOf t).1 (messageOf t).2 ∧
            ∀ (known : KnownKeys) (own : Bytes → Bool),
              (∀ k : G2r, k.1 ∈ (chain j).newPublicKeys → k ≠ pk →
                known.Right F.toCurve.toPairing H own k) →
              ∃ X, AcceptedBatch F.toCurve.toPairing H own pk X ∧
                X = forgedBatch (label u.2.c.l) known gen1 pk (decode u.2.c.l) before t after ∧
                X.query = (SIG_DOMAIN, label u.2.c.l t)) ∨
          ∃ js : List ℕ, (i :: js).IsChain (fun a b => a < b ∧ b ≤ a + max) ∧
            List.Forall₂ (fun u j => j < E ∧ SameBlock u.1 (chain j)) us js ∧
            Holds g2Generator chain (js.getLast?.getD i) final := by
  obtain ⟨lucky, hcard, hl⟩ := exists_lucky P (M := M) hD hN h1 h2 g2Generator B
    ((first :: us.map (·.1)).zip us)
  refine ⟨lucky, hcard.trans (Nat.mul_le_mul_right _ (by simp)), fun v hn pk hpk final hsync => ?_⟩
  have hsync := (syncEpochs_map (verifyProof P) g2Generator B pk.vk ()
    (fun s : LinearProver (ZMod FQ_MODULUS) 2 w D.size => s.proof pk) us first).symm.trans hsync
  have hsound : ∀ t ∈ (first :: us.map (·.1)).zip us, ∀ inputs, inputs = publicInputs g2Generator B t.1 t.2.1 →
      verifyProof P pk.vk (t.2.2.proof pk) inputs = .ok true → ∃ sat : Prop,
        epochCircuit alloc hashC K groth F.e gen1 g2Generator n helper (decode t.2.2.c.l) inputs = .ok sat ∧ sat ∧
        (decode t.2.2.c.l).initial.keys.length = n ∧ (decode t.2.2.c.l).updates.length = max ∧
        ThresholdsInRange (decode t.2.2.c.l) ∧ WitnessedHash (label t.2.2.c.l) H (decode t.2.2.c.l) ∧
        Faithful (label t.2.2.c.l) (decode t.2.2.c.l) := by
    rintro t ht inputs rfl hacc
    obtain ⟨x, hx, hsat⟩ := hl v hn pk hpk t ht hacc
    obtain ⟨sat, c1, c2, c3, c4⟩ := hdecode x t.2.2.c.l hsat
    rw [hx] at c1
    obtain ⟨c5, c6, c7⟩ := hwit t.2 (List.of_mem_zip ht).2 x hsat
    exact ⟨sat, c1, c2, c3, c4, c5, c6, c7⟩
  rcases C102_deceived (extract := fun s _ => decode s.c.l) (label := fun s _ => label s.c.l) (gen1 := gen1)
    (groth := groth) (helper := helper) ha hB F hq hmax hmax' hc hkeys H us hent hi hh
    hsound hsync with h | ⟨s, hs, h⟩ | h
  · exact Or.inl h
  · exact Or.inr (Or.inl ⟨s.2, (List.of_mem_zip hs).2, h⟩)
  · exact Or.inr (Or.inr h)

end

/-! ## Concrete cases -/

/-- The system for the blocks 4 and 6 of the toy chain, for every BLAKE2s and any number of linear provers: a client that
holds block 4 ends on the chain, or a collision is found. -/
example (K : Blake2sCore) (us : List (EpochBlock × LinearProver (ZMod FQ_MODULUS) 2 0 8))
    (hent : ∀ u ∈ us, EntropyOk u.1.epochEntropy ∧ EntropyOk u.1.parentEntropy) :
    ∃ (a b : Fq) (c : CircuitVars ℤ) (lucky : Finset (Fin 5 → ZMod FQ_MODULUS)),
      publicInputs g2Generator (Blake2s.ofCore K) (chainBlock [toyKey] 0 4) (chainBlock [toyKey] 0 6) = [a, b] ∧
      lucky.card ≤ us.length * (25 * FQ_MODULUS ^ 4) ∧
      ∀ v ∉ lucky, ∀ pk : GrothPk (ZMod FQ_MODULUS) (ZMod FQ_MODULUS),
        generateParameters (fixedSystem a b) eightDomain (Trapdoor.ofScalars v 7 8) = .ok pk → ∀ final,
        syncEpochs (verifyProof (toyPairing FQ_MODULUS)) g2Generator (Blake2s.ofCore K) pk.vk
          (chainBlock [toyKey] 0 4) (us.map fun u => (u.1, u.2.proof pk)) = .ok final →
        (∃ t ∈ (chainBlock [toyKey] 0 4 :: us.map (·.1)).zip us, ∃ b,
          enforceEpochs affineOnlyG2 (fun _ _ h => h.messageHash = 1) toyE 1 g2Generator 1 c = .ok b ∧
            EdgesCollide (Blake2s.ofCore K) g2Generator b t.1 t.2.1) ∨
        ∃ js : List ℕ, (4 :: js).IsChain (fun a b => a < b ∧ b ≤ a + 5) ∧
          List.Forall₂ (fun u j => j < 7 ∧
            Holds g2Generator (fun j => chainBlock [toyKey] 0 (UInt16.ofNat j)) j u.1 ∧
            encodeEntropy u.1.epochEntropy =
              encodeEntropy (chainBlock [toyKey] 0 (UInt16.ofNat j)).epochEntropy) us js ∧
          Holds g2Generator (fun j => chainBlock [toyKey] 0 (UInt16.ofNat j)) (js.getLast?.getD 4) final := by
  obtain ⟨c, sat, s1, s2, s3, s4, s5, s6⟩ := toy_update K (i0 := 4) (i1 := 5) (i2 := 6) rfl rfl (by decide)
  obtain ⟨a, b, hab⟩ : ∃ a b, publicInputs g2Generator (Blake2s.ofCore K) (chainBlock [toyKey] 0 4)
    (chainBlock [toyKey] 0 6) = [a, b] := ⟨_, _, rfl⟩
  rw [hab] at s1
  obtain ⟨lucky, hl⟩ := C109_sync (alloc := affineOnlyG2) (n := 1) (M := fixedSystem a b) (D := eightDomain) (decode := fun _ => c)
    (hashC := fun _ _ _ h => h.messageHash = 1) (helper := none) (g1 := (7 : ZMod FQ_MODULUS))
    (g2 := (8 : ZMod FQ_MODULUS)) (toyPairing FQ_MODULUS)
    eightDomain_valid (by decide) (by decide +kernel) (by decide +kernel) (fun _ h => h)
    (Blake2s.ofCore_agree K) (max := 5) (by decide +kernel) (by norm_num)
    (fun x wit hx => by
      rw [fixedSystem_iff] at hx
      refine ⟨sat, ?_, s2, s3, s4⟩
      have hin : List.ofFn x = [a, b] := by
        rw [List.ofFn_succ, List.ofFn_succ, List.ofFn_zero, hx.1]
        exact congrArg (fun y => [a, y]) hx.2
      rw [hin]
      exact s1) toy_quorums us hent (fun _ _ _ _ => ⟨s5, fun t ht _ _ _ => s6 t ht⟩) (i := 4) (by norm_num)
    (first := chainBlock [toyKey] 0 4) ⟨rfl, rfl, rfl, (chain_entropy [toyKey] 0 4).1⟩
  exact ⟨a, b, c, lucky, hab, hl⟩

/-- The system for the blocks 2 and 4, and the chain of which only the blocks up to 5 are signed, for every BLAKE2s: what
linear provers make a client accept that holds block 2 is on the chain, or there is a collision or a forged
batch against the only validator. -/
example (K : Blake2sCore) (us : List (EpochBlock × LinearProver (ZMod FQ_MODULUS) 2 0 8))
    (hent : ∀ u ∈ us, EntropyOk u.1.epochEntropy ∧ EntropyOk u.1.parentEntropy) :
    ∃ (a b : Fq) (c : CircuitVars G1Point) (label : Label) (lucky : Finset (Fin 5 → ZMod FQ_MODULUS)),
      publicInputs g2Generator (Blake2s.ofCore K) (chainBlock [toyKey] 0 2) (chainBlock [toyKey] 0 4) = [a, b] ∧
      lucky.card ≤ us.length * (25 * FQ_MODULUS ^ 4) ∧
      ∀ v ∉ lucky, ∀ pk : GrothPk (ZMod FQ_MODULUS) (ZMod FQ_MODULUS),
        generateParameters (fixedSystem a b) eightDomain (Trapdoor.ofScalars v 7 8) = .ok pk → ∀ final,
        syncEpochs (verifyProof (toyPairing FQ_MODULUS)) g2Generator (Blake2s.ofCore K) pk.vk
          (chainBlock [toyKey] 0 2) (us.map fun u => (u.1, u.2.proof pk)) = .ok final →
        (∃ t ∈ (chainBlock [toyKey] 0 2 :: us.map (·.1)).zip us, ∃ b,
          enforceEpochs affineOnlyG2 (oracleHashC (tableHash syncQueries syncTable)) logFull.e g1GenR.1
            g2Generator 1 c = .ok b ∧ EdgesCollide (Blake2s.ofCore K) g2Generator b t.1 t.2.1) ∨
        (∃ before tr after pk, (pk : G2r).1 = toyKey ∧ ∀ known own,
          AcceptedBatch logFull.toCurve.toPairing (tableHash syncQueries syncTable) own pk
            (forgedBatch label known g1GenR.1 pk c before tr after)) ∨
        ∃ js : List ℕ, (2 :: js).IsChain (fun a b => a < b ∧ b ≤ a + 5) ∧
          Holds g2Generator (fun j => chainBlock [toyKey] 0 (UInt16.ofNat j)) (js.getLast?.getD 2) final := by
  obtain ⟨s, hb, hu, hs⟩ := sync_step K (i0 := 2) (i1 := 3) (i2 := 4) rfl rfl
    (by unfold syncQueries; simp) (by unfold syncQueries; simp)
  obtain ⟨sat, s1, s2⟩ := hs.accepted
  obtain ⟨a, b, hab⟩ : ∃ a b, publicInputs g2Generator (Blake2s.ofCore K) (chainBlock [toyKey] 0 2)
    (chainBlock [toyKey] 0 4) = [a, b] := ⟨_, _, rfl⟩
  rw [hb, hab] at s1
  have hmem : toyKey ∈ G2r := by rw [← toyPublic]; exact (toPublic logFull.toCurve.toPairing (-1)).2
  obtain ⟨lucky, hcard, hl⟩ := C109_deceived (alloc := affineOnlyG2) (M := fixedSystem a b) (D := eightDomain) (decode := fun _ => s.vars)
    (label := fun _ t => ((messageOf t).1, s.counter t :: (messageOf t).2))
    (hashC := fun _ => oracleHashC (tableHash syncQueries syncTable)) (helper := none) (g1 := (7 : ZMod FQ_MODULUS))
    (g2 := (8 : ZMod FQ_MODULUS)) (toyPairing FQ_MODULUS)
    eightDomain_valid (by decide) (by decide +kernel) (by decide +kernel) (fun _ h => h)
    (Blake2s.ofCore_agree K) logFull (max := 5) (n := 1) (by decide +kernel) (by norm_num) (by norm_num)
    (fun x wit hx => by
      rw [fixedSystem_iff] at hx
      refine ⟨sat, ?_, s2, hs.size, hu⟩
      have hin : List.ofFn x = [a, b] := by
        rw [List.ofFn_succ, List.ofFn_succ, List.ofFn_zero, hx.1]
        exact congrArg (fun y => [a, y]) hx.2
      rw [hin]
      exact s1) short_quorums (fun j _ => ⟨List.nodup_singleton _, fun k hk => by
        change k ∈ [toyKey] at hk
        rw [List.mem_singleton.mp hk]; exact hmem⟩)
    (tableHash syncQueries syncTable) us hent
    (fun _ _ _ _ => ⟨hs.range, hs.hashed, fun t _ t' _ he => by
        simp only [Prod.mk.injEq, List.cons.injEq] at he
        exact Prod.ext he.1 he.2.2⟩) (i := 2) (by norm_num)
    (first := chainBlock [toyKey] 0 2) ⟨rfl, rfl, rfl, (chain_entropy [toyKey] 0 2).1⟩
  refine ⟨a, b, s.vars, fun t => ((messageOf t).1, s.counter t :: (messageOf t).2), lucky, hab, hcard, fun v hv pk hpk final hf => ?_⟩
  rcases hl v hv pk hpk final hf with h | ⟨u, _, before, t, after, j, pk, -, _, hpk, -, -, hX⟩ | ⟨js, h1, -, h3⟩
  · exact Or.inl h
  · have hpk' : pk.1 = toyKey := List.mem_singleton.mp hpk
    refine Or.inr (Or.inl ⟨before, t, after, pk, hpk', fun known own => ?_⟩)
    obtain ⟨X, h1, h2, -⟩ := hX known own fun k hk hne =>
      absurd (Subtype.ext ((List.mem_singleton.mp hk).trans hpk'.symm)) hne
    rw [h2] at h1
    exact h1
  · exact Or.inr (Or.inr ⟨js, h1, h3⟩)

end Verif
