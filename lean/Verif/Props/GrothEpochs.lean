import Verif.Model.GrothCircuit
import Verif.Props.Fixtures
import Verif.Props.GrothSound

/-!
# C105, C106, C108 for epochs

The proof system of `Verif.Model.Groth16` in the place of the parameter of the verifier, of the end-to-end
program and of the light client.
-/

set_option linter.unusedSectionVars false
set_option exponentiation.threshold 800

namespace Verif

open Finset (range)

section
variable {G1 G2 GT : Type*} [AddCommGroup G1] [Module (ZMod FQ_MODULUS) G1] [AddCommGroup G2]
  [Module (ZMod FQ_MODULUS) G2] [CommGroup GT] [DecidableEq GT]

theorem exists_inputs (gen : G2Point) (B : Blake2s) (first last : EpochBlock) :
    ∃ x : Fin 2 → Fq, List.ofFn x = publicInputs gen B first last := by
  obtain ⟨a, b, h⟩ : ∃ a b, publicInputs gen B first last = [a, b] := ⟨_, _, rfl⟩
  refine ⟨![a, b], ?_⟩
  rw [h]
  rfl

/-- **C105.** The end-to-end program succeeds with Groth16 in it: what C99 assumes about the proof system
holds of it.  What remains is that the constraint system, which depends on the shape of the circuit
only, is satisfied by the values that synthesis assigns when the circuit of the model is. -/
theorem C105_end_to_end {M HP VK PB GE : Type*} [AddCommGroup M] [CommGroup GE] [DecidableEq G1Point]
    (P : Pairing FQ_MODULUS G1 G2 GT)
    {alloc1 : G1Var → Prop}
    {alloc2 : G2Var → Prop} (ha1 : AllocCompleteG1 alloc1) (ha2 : AllocComplete alloc2)
    (compat checks : Bool) {K : Blake2sCore} {B : Blake2s} (hB : Blake2sAgree K B)
    {sqrt : Fq → Option Fq} (hs : SqrtSpec sqrt) (x : M → Fq) (base : ℕ → M)
    (groth : Option VK → List (List Bool) → HP → Outcome Unit (Prop × Bool))
    {e : G1Point → G2Point → GE} (hl : ∀ P P' Q, e (P + P') Q = e P Q * e P' Q)
    (hr : ∀ P Q Q', e P (Q + Q') = e P Q * e P Q') (gen1 : G1Point)
    (defaultProof : HP) (vkOf : PB → VK)
    (generateB : HashToBits → (ℕ → Trapdoor (ZMod FQ_MODULUS) G1 G2) →
      Outcome Unit PB × (ℕ → Trapdoor (ZMod FQ_MODULUS) G1 G2))
    (createProofB : HashToBits → PB → Outcome Unit HP)
    (S : CircuitSystem VK) (hD : ∀ σ, (S.domain σ).Valid)
    (values : ∀ circuit : ValidatorSetUpdateOpt G1Point HP VK,
      Outcome Unit ((Fin 2 → Fq) × (Fin (S.witnesses circuit.shape) → Fq)))
    (hvalues : ∀ (s : ValidatorSetUpdate G1Point) (helper : Option (HashToBitsHelper HP VK)) c inputs sat,
      circuitInputs alloc2 (hashBitsToG1C alloc1 compat K (pedersenX x base)) K e gen1 g2Generator
        s.numValidators (helper.map (·.proof)) c = .ok inputs →
      CircuitVars.assign checks (hashBitsToG1Out compat K B (pedersenCrh x (crhGenerators base))
        (pedersenX x base) sqrt helper.isNone) s = .ok c →
      epochCircuit alloc2 (hashBitsToG1C alloc1 compat K (pedersenX x base)) K
        (groth (helper.map (·.verifyingKey))) e gen1 g2Generator s.numValidators
        (helper.map (·.proof)) c inputs = .ok sat → sat →
      ∃ v, values (s.toOpt helper) = .ok v ∧ List.ofFn v.1 = inputs ∧
        (S.system (s.toOpt helper).shape).Satisfied (fullAssignment v.1 v.2))
    (rng : ℕ → ZMod FR_MODULUS) (setupRng : ℕ → Trapdoor (ZMod FQ_MODULUS) G1 G2) (n f m max : ℕ)
    (hn : n ≤ 206) (hf : f < 2 ^ 32) (hm0 : m ≠ 0) (hm : m < 2 ^ 16) (hmax : m ≤ max)
    (helper : Bool) (params : SetupParameters (GrothPk G1 G2) PB)
    (hsetup : (trustedSetup (G1 := G1Point) defaultProof vkOf generateB (grothSetup S) n max f setupRng helper).1 =
      .ok params)
    (hcreate : ∀ pb, params.hashToBits = some pb → ∀ ms : List (List Bool), ms.length = m →
      (∀ b ∈ ms, b.length = 384) → ∃ p, createProofB ⟨ms.map (·.map some)⟩ pb = .ok p)
    (hgadget : ∀ pb, params.hashToBits = some pb → ∀ p i, i.length = helperInputs max →
      ∃ r, groth (some (vkOf pb)) i p = .ok r ∧ r.1)
    (hhash : ∀ i < m, ∃ g, blockHash compat B (pedersenCrh x (crhGenerators base)) sqrt
      (fixtureBlock g2Generator rng n f (i + 1)) = .ok g)
    (hdummy : m < max → ∃ g, blockHash compat B (pedersenCrh x (crhGenerators base)) sqrt
      (dummyBlock g2Generator n) = .ok g)
    (h0 : ∀ i < n * (m + 1), rng i ≠ 0) (h1 : ∀ i < n * m, rng i ≠ 1)
    (hsum : (drawnSecrets rng n m).sum ≠ 0) :
    endToEnd gen1 g2Generator B (pedersenCrh x (crhGenerators base))
      (blockHash compat B (pedersenCrh x (crhGenerators base)) sqrt) defaultProof vkOf (·.vk) generateB
      (grothSetup S) createProofB (grothProve S values) (verifyProof P) rng setupRng n f m max helper =
        .ok () := by
  have hgroth : ∀ (circuit : ValidatorSetUpdateOpt G1Point HP VK) r pc,
      (grothSetup (G1 := G1) (G2 := G2) S circuit r).1 = .ok pc →
      ∀ (s : ValidatorSetUpdate G1Point) (helper : Option (HashToBitsHelper HP VK)) c inputs sat,
        (s.toOpt helper).shape = circuit.shape →
        circuitInputs alloc2 (hashBitsToG1C alloc1 compat K (pedersenX x base)) K e gen1 g2Generator
          s.numValidators (helper.map (·.proof)) c = .ok inputs →
        CircuitVars.assign checks (hashBitsToG1Out compat K B (pedersenCrh x (crhGenerators base))
          (pedersenX x base) sqrt helper.isNone) s = .ok c →
        epochCircuit alloc2 (hashBitsToG1C alloc1 compat K (pedersenX x base)) K
          (groth (helper.map (·.verifyingKey))) e gen1 g2Generator s.numValidators
          (helper.map (·.proof)) c inputs = .ok sat → sat →
        ∃ proof, grothProve S values (s.toOpt helper) pc = .ok proof ∧
          verifyProof P pc.vk proof inputs = .ok true := by
    intro circuit td pk hpk s helper c inputs sat hshape hin hassign hcirc hsat
    obtain ⟨v, hv, hv1, hv2⟩ := hvalues s helper c inputs sat hin hassign hcirc hsat
    simp only [grothSetup] at hpk
    rw [← hshape] at hpk
    refine ⟨_, by unfold grothProve; rw [hv]; rfl, ?_⟩
    rw [← hv1]
    exact C105_complete P (hD _) hpk hv2 0 0
  exact C99_end_to_end (PC := GrothPk G1 G2) (VKC := GrothVk G1 G2) (Proof := GrothProof G1 G2)
    (R := ℕ → Trapdoor (ZMod FQ_MODULUS) G1 G2) (ε := Unit)
    ha1 ha2 compat checks hB hs x base groth hl hr gen1 defaultProof vkOf (·.vk)
    generateB (grothSetup S) createProofB (grothProve S values) (verifyProof P) rng setupRng n f m max
    hn hf hm0 hm hmax (fun _ r pc => hgroth _ r pc) helper params hsetup hcreate hgadget hhash hdummy h0 h1 hsum

/-- **C106** for the verifier of epochs: with any key, the altered proofs give the same answer. -/
theorem C106_epochs_altered (P : Pairing FQ_MODULUS G1 G2 GT) (gen : G2Point) (B : Blake2s)
    (vk : GrothVk G1 G2) (first last : EpochBlock) (proof : GrothProof G1 G2) {ρ : ZMod FQ_MODULUS}
    (hρ : ρ ≠ 0) (η : ZMod FQ_MODULUS) :
    verifyEpochs (verifyProof P) gen B vk first last
      ⟨ρ • proof.a, ρ⁻¹ • proof.b + η • vk.deltaG2, proof.c + (η * ρ) • proof.a⟩ =
    verifyEpochs (verifyProof P) gen B vk first last proof := by
  simp only [verifyEpochs, C106_altered P vk proof _ hρ η]

/-- **C106** for the verifier of epochs: whoever kept the randomness of the setup makes it accept any
last block after any first block. -/
theorem C106_epochs_forged (P : Pairing FQ_MODULUS G1 G2 GT) (gen : G2Point) (B : Blake2s) {w m : ℕ}
    {M : R1cs (ZMod FQ_MODULUS) 2 w m} {D : EvalDomain (ZMod FQ_MODULUS)}
    {td : Trapdoor (ZMod FQ_MODULUS) G1 G2} {pk : GrothPk G1 G2} (h : generateParameters M D td = .ok pk)
    (first last : EpochBlock) :
    ∃ x, List.ofFn x = publicInputs gen B first last ∧ ∀ a b,
      verifyEpochs (verifyProof P) gen B pk.vk first last (td.forge M D x a b) = .ok () := by
  obtain ⟨x, hx⟩ := exists_inputs gen B first last
  refine ⟨x, hx, fun a b => ?_⟩
  rw [C34_accepts_iff, ← hx]
  exact C106_trapdoor P h x a b

/-- What a satisfying assignment of the circuit shows about two blocks, the conclusion of C69. -/
def EpochsProved {GE : Type*} [CommGroup GE] (alloc2 : G2Var → Prop) (alloc1 : G1Var → Prop)
    (compat : Bool) (K : Blake2sCore) (B : Blake2s) (pedX : Bytes → Fq) (e : G1Point → G2Point → GE)
    (gen1 : G1Point) (gen2 : G2Point) (n : ℕ) (first last : EpochBlock) (c : CircuitVars G1Point) :
    Prop :=
  ∃ b, enforceEpochs alloc2 (hashBitsToG1C alloc1 compat K pedX true) e gen1 gen2 n c = .ok b ∧
    (EdgeCollision B (bitsBeToBytesLe b.firstEpochBits) (first.encodeFirstToBytes gen2) ∨
     EdgeCollision B (bitsBeToBytesLe b.lastEpochBits) (last.encodeLastToBytes gen2) ∨
     (1 ≤ c.real.length ∧ c.real.length ≤ c.updates.length ∧
      last.index.toNat = (first.index.toNat + c.real.length) % 2 ^ 16 ∧
      c.initial.maximumNonSigners.val % 2 ^ 32 = first.maximumNonSigners.toNat ∧
      c.initial.pubkeys.map G2Var.point = first.newPublicKeys ++
        List.replicate (first.maximumValidators - first.newPublicKeys.length) gen2 ∧
      (∃ u, c.real.getLast? = some u ∧
        u.epoch.maximumNonSigners.val % 2 ^ 32 = last.maximumNonSigners.toNat ∧
        u.epoch.pubkeys.map G2Var.point = last.newPublicKeys ++
          List.replicate (last.maximumValidators - last.newPublicKeys.length) gen2 ∧
        (u.epoch.pubkeys.map G2Var.point).sum = last.newPublicKeys.sum) ∧
      (∀ t ∈ c.transitions,
        t.2.bitmap.length = n ∧ t.2.bitmap.count false ≤ t.1.maximumNonSigners.val ∧
        (∀ x ∈ t.1.pubkeys.zip t.2.bitmap, x.2 = true → x.1.point ≠ gen2) ∧
        ∃ (counter : UInt8) (d : Bytes),
          directXof B SIG_DOMAIN (counter :: (bitsBeToBytesLe t.2.epoch.extraDataBits ++
            leBytes 48 (pedX (bitsBeToBytesLe t.2.epoch.epochBits)).val)) 64 = .ok d ∧
          GroupAccepts alloc1 compat (leValue d) t.2.hash.messageHash) ∧
      e c.signature (-gen2) *
        ((c.transitions.map fun t => e t.2.hash.messageHash
          (((t.1.pubkeys.zip t.2.bitmap).filter (·.2)).map (·.1.point)).sum).prod *
        e gen1 gen2 ^ (c.updates.length - c.real.length)) = 1))

/-- **C108** for the verifier of epochs, without a helper.  Let the constraint system be right: values
that satisfy it are decoded to an assignment that satisfies the circuit.  A prover who combines the
published elements linearly then either holds an assignment that shows what C69 says about the two
blocks, or is rejected for all but `(3 N + 1) q ^ 4` of the `q ^ 5` choices of the setup. -/
theorem C108_epochs {GE HP : Type*} [CommGroup GE] (P : Pairing FQ_MODULUS G1 G2 GT) {w m : ℕ}
    {M : R1cs (ZMod FQ_MODULUS) 2 w m} {D : EvalDomain (ZMod FQ_MODULUS)} (hD : D.Valid)
    (hN : m + 2 < D.size) {g1 : G1} {g2 : G2} (h1 : g1 ≠ 0) (h2 : g2 ≠ 0) {alloc2 : G2Var → Prop}
    (ha2 : AffineAllocG2 alloc2) {alloc1 : G1Var → Prop} {compat : Bool} {K : Blake2sCore} {B : Blake2s}
    (hB : Blake2sAgree K B) {pedX : Bytes → Fq}
    {groth : List (List Bool) → HP → Outcome Unit (Prop × Bool)} {e : G1Point → G2Point → GE}
    {gen1 : G1Point} {gen2 : G2Point} {n : ℕ} (hq : n < FQ_MODULUS) {decode : (Fin w → Fq) → CircuitVars G1Point}
    (hdecode : ∀ x wit, M.Satisfied (fullAssignment x wit) → ∃ sat : Prop,
      epochCircuit alloc2 (hashBitsToG1C alloc1 compat K pedX) K groth e gen1 gen2 n none (decode wit)
        (List.ofFn x) = .ok sat ∧ sat ∧
      (decode wit).initial.keys.length = n ∧ (decode wit).updates ≠ [])
    {first last : EpochBlock} (hf : EntropyOk first.parentEntropy) (hl : EntropyOk last.epochEntropy)
    (hkf : ∀ pk ∈ gen2 :: first.newPublicKeys, ClearSign pk)
    (hkl : ∀ pk ∈ last.newPublicKeys.sum :: last.newPublicKeys, ClearSign pk)
    (sa sc : G1Strategy (ZMod FQ_MODULUS) 2 w D.size) (sb : G2Strategy (ZMod FQ_MODULUS) 2 w) :
    EpochsProved alloc2 alloc1 compat K B pedX e gen1 gen2 n first last (decode sc.l) ∨
    ∃ lucky : Finset (Fin 5 → ZMod FQ_MODULUS), lucky.card ≤ (3 * D.size + 1) * FQ_MODULUS ^ 4 ∧
      ∀ v ∉ lucky, ∀ pk, generateParameters M D (Trapdoor.ofScalars v g1 g2) = .ok pk →
        verifyEpochs (verifyProof P) gen2 B pk.vk first last
          ⟨sa.combine pk, sb.combine pk, sc.combine pk⟩ = .err .verificationFailed := by
  obtain ⟨x, hx⟩ := exists_inputs gen2 B first last
  by_cases hsat : M.Satisfied (fullAssignment x sc.l)
  · left
    obtain ⟨sat, c1, c2, c3, c4⟩ := hdecode x sc.l hsat
    rw [hx] at c1
    exact C69_sound ha2 hB hq c3 c4 hf hl hkf hkl c1 c2
  · right
    obtain ⟨lucky, hc, hv⟩ := C108_sound P hD hN h1 h2 sa sc sb x hsat
    refine ⟨lucky, hc, fun v hn pk hpk => ?_⟩
    rw [(C34_rejects ..).1, ← hx]
    exact hv v hn pk hpk

end

/-! ## Concrete cases -/

/-- Example domain (not code from /repo): the eighth roots of unity. -/
def eightDomain : EvalDomain (ZMod FQ_MODULUS) := ⟨8, 16685831635117458619713971517806615622539106529274720406206304215896756979319939250397182757549194256480151045562, 2⟩

theorem eightDomain_valid : eightDomain.Valid where
  root := IsPrimitiveRoot.mk_of_lt _ (by decide) (by decide +kernel) fun l h1 h2 => by
    have h2' : l < 8 := h2
    interval_cases l <;> decide +kernel
  shift_ne := by decide +kernel
  shift_pow := by decide +kernel

/-- Example system (not code from /repo): the witness is the product of the public inputs. -/
def inputSystem : R1cs (ZMod FQ_MODULUS) 2 1 1 where
  a _ := Sum.elim ![0, 1, 0] 0
  b _ := Sum.elim ![0, 0, 1] 0
  c _ := Sum.elim 0 1

theorem inputSystem_satisfied (x : Fin 2 → ZMod FQ_MODULUS) :
    inputSystem.Satisfied (fullAssignment x fun _ => x 0 * x 1) := by
  simp [R1cs.Satisfied, linComb, inputSystem, fullAssignment, Fintype.sum_sum_type, Fin.sum_univ_succ]

/-- Example randomness (not code from /repo). -/
def qTrapdoor : Trapdoor (ZMod FQ_MODULUS) (ZMod FQ_MODULUS) (ZMod FQ_MODULUS) := ⟨2, 3, 4, 5, 6, 7, 8⟩

theorem q_key {w m : ℕ} (M : R1cs (ZMod FQ_MODULUS) 2 w m) (hm : m ≤ 5) :
    ∃ pk, generateParameters M eightDomain qTrapdoor = .ok pk :=
  (C105_setup _ _ _).1.mpr ⟨by simp only [eightDomain]; omega, by decide +kernel, by decide +kernel⟩

/-- With the toy pairing and the toy system, the verifier of epochs accepts 9 after 5, by a forgery with the
known randomness, and the altered forgery; the system can be any. -/
example (B : Blake2s) : ∃ pk, generateParameters inputSystem eightDomain qTrapdoor = .ok pk ∧ ∃ x,
    List.ofFn x = publicInputs g2Generator B (chainBlock [toyKey] 0 5) (chainBlock [toyKey] 0 9) ∧
    ∀ η : ZMod FQ_MODULUS, verifyEpochs (verifyProof (toyPairing FQ_MODULUS)) g2Generator B pk.vk (chainBlock [toyKey] 0 5)
      (chainBlock [toyKey] 0 9)
      ⟨(2 : ZMod FQ_MODULUS) • (qTrapdoor.forge inputSystem eightDomain x 1 1).a,
        (2 : ZMod FQ_MODULUS)⁻¹ • (qTrapdoor.forge inputSystem eightDomain x 1 1).b + η • pk.vk.deltaG2,
        (qTrapdoor.forge inputSystem eightDomain x 1 1).c +
          (η * 2) • (qTrapdoor.forge inputSystem eightDomain x 1 1).a⟩ = .ok () := by
  obtain ⟨pk, h⟩ := q_key inputSystem (by norm_num)
  obtain ⟨x, hx, hf⟩ := C106_epochs_forged (toyPairing FQ_MODULUS) g2Generator B h (chainBlock [toyKey] 0 5)
    (chainBlock [toyKey] 0 9)
  refine ⟨pk, h, x, hx, fun η => ?_⟩
  have h2 : (2 : ZMod FQ_MODULUS) ≠ 0 := by decide +kernel
  have hf' := hf 1 1
  generalize qTrapdoor.forge inputSystem eightDomain x 1 1 = proof at hf' ⊢
  exact (C106_epochs_altered (toyPairing FQ_MODULUS) g2Generator B pk.vk _ _ proof h2 η).trans hf'

/-- Example system (not code from /repo): it fixes the two public inputs. -/
def fixedSystem (a b : Fq) : R1cs (ZMod FQ_MODULUS) 2 0 2 where
  a j := Sum.elim (if j = 0 then ![-a, 1, 0] else ![-b, 0, 1]) 0
  b _ := Sum.elim ![1, 0, 0] 0
  c _ := 0

theorem fixedSystem_iff (a b : Fq) (x : Fin 2 → ZMod FQ_MODULUS) (wit : Fin 0 → ZMod FQ_MODULUS) :
    (fixedSystem a b).Satisfied (fullAssignment x wit) ↔ x 0 = a ∧ x 1 = b := by
  simp [R1cs.Satisfied, linComb, fixedSystem, fullAssignment, Fintype.sum_sum_type, Fin.sum_univ_succ,
    Fin.forall_fin_succ, neg_add_eq_zero]
  constructor <;> rintro ⟨h, h'⟩ <;> exact ⟨h.symm, h'.symm⟩

/-- The system that fixes the inputs of the blocks 4 and 6 of the chain of `native_chain_satisfies` is right, with
its assignment for decoding; C108 applies to every linear prover, for these and for other blocks. -/
example [DecidableEq G1Point] {GE : Type*} [CommGroup GE] (compat : Bool)
    (e : G1Point → G2Point → GE) (hl : ∀ P P' Q, e (P + P') Q = e P Q * e P' Q)
    (hr : ∀ P Q Q', e P (Q + Q') = e P Q * e P Q') (gen1 : G1Point) (j : UInt16)
    (sa sc : G1Strategy (ZMod FQ_MODULUS) 2 0 8) (sb : G2Strategy (ZMod FQ_MODULUS) 2 0) :
    ∃ (K : Blake2sCore) (B : Blake2s) (c : CircuitVars G1Point) (a b : Fq),
      publicInputs g2Generator B (chainBlock [toyKey] 0 4) (chainBlock [toyKey] 0 6) = [a, b] ∧
      (EpochsProved affineOnlyG2 affineOnly compat K B (fun _ => 5) e gen1 g2Generator 1
        (chainBlock [toyKey] 0 4) (chainBlock [toyKey] 0 j) c ∨
      ∃ lucky : Finset (Fin 5 → ZMod FQ_MODULUS), lucky.card ≤ 25 * FQ_MODULUS ^ 4 ∧
        ∀ v ∉ lucky, ∀ pk, generateParameters (fixedSystem a b) eightDomain (Trapdoor.ofScalars v 7 8) = .ok pk →
          verifyEpochs (verifyProof (toyPairing FQ_MODULUS)) g2Generator B pk.vk (chainBlock [toyKey] 0 4)
            (chainBlock [toyKey] 0 j) ⟨sa.combine pk, sb.combine pk, sc.combine pk⟩ =
              .err .verificationFailed) := by
  obtain ⟨K, B, c, sat, hB, _, h1, h2, h3, h4⟩ := native_chain_satisfies compat e hl hr gen1
  refine ⟨K, B, c, _, _, rfl, ?_⟩
  refine C108_epochs (M := fixedSystem _ _) (D := eightDomain) (decode := fun _ => c)
    (groth := fun _ (_ : Unit) => .ok (True, true)) (toyPairing FQ_MODULUS)
    eightDomain_valid (by decide) (by decide +kernel) (by decide +kernel) (fun _ h => h) hB
    (by decide +kernel) ?_ (chain_entropy _ _ _).1 (chain_entropy [toyKey] 0 j).2 clear_gen_key clear_sum_key
    sa sc sb
  intro x wit hx
  rw [fixedSystem_iff] at hx
  refine ⟨sat, ?_, h2, h4, by intro h; rw [h] at h3; cases h3⟩
  rw [← h1]
  congr 1
  rw [List.ofFn_succ, List.ofFn_succ, List.ofFn_zero, hx.1]
  change [_, x 1] = _
  rw [hx.2]
  rfl

theorem toOpt_injective {G1 HP VK : Type*} {s s' : ValidatorSetUpdate G1}
    {h h' : Option (HashToBitsHelper HP VK)} (he : s.toOpt h = s'.toOpt h') : s = s' ∧ h = h' := by
  have hd : Function.Injective EpochData.toOpt := by
    rintro ⟨⟩ ⟨⟩ h
    simp only [EpochData.toOpt, EpochDataOpt.mk.injEq, Option.some.injEq,
      (List.map_injective_iff.mpr (Option.some_injective _)).eq_iff] at h
    obtain ⟨rfl, rfl, rfl, rfl, rfl, rfl⟩ := h
    rfl
  have hu : Function.Injective SingleUpdate.toOpt := by
    rintro ⟨d, b⟩ ⟨d', b'⟩ h
    simp only [SingleUpdate.toOpt, SingleUpdateOpt.mk.injEq, hd.eq_iff,
      (List.map_injective_iff.mpr (Option.some_injective _)).eq_iff] at h
    obtain ⟨rfl, rfl⟩ := h
    rfl
  obtain ⟨a, b, c, d⟩ := s
  obtain ⟨a', b', c', d'⟩ := s'
  simp only [ValidatorSetUpdate.toOpt, ValidatorSetUpdateOpt.mk.injEq, hd.eq_iff,
    (List.map_injective_iff.mpr hu).eq_iff, Option.some.injEq] at he
  obtain ⟨rfl, rfl, rfl, rfl, rfl⟩ := he
  exact ⟨rfl, rfl⟩

theorem circuitInputs_length {G1 GT HP : Type*} [AddCommGroup G1] [CommGroup GT]
    {alloc : G2Var → Prop} {hashC : Bool → List Bool → List Bool → HashOut G1 → Prop}
    {K : Blake2sCore} {e : G1 → G2Point → GT} {gen1 : G1} {gen2 : G2Point} {n : ℕ}
    {helper : Option HP} {c : CircuitVars G1} {inputs : List Fq}
    (h : circuitInputs alloc hashC K e gen1 gen2 n helper c = .ok inputs) : inputs.length = 2 := by
  unfold circuitInputs at h
  rw [Outcome.bind_eq_ok_iff] at h
  obtain ⟨b, _, h⟩ := h
  rw [C33_pack_length h]
  have hl : ∀ a b, (K.evaluate a b).length = 256 := by
    intro a b
    unfold Blake2sCore.evaluate
    rw [bytesLeToBitsLe_all _ 256 (by rw [K.length_digest]), flatMap_unpack_length, K.length_digest]
  simp [edgeHash, hl]

/-- Example circuits (not code from /repo): `inputSystem` for every shape. -/
def inputCircuits : CircuitSystem Unit where
  witnesses _ := 1
  constraints _ := 1
  system _ := inputSystem
  domain _ := eightDomain

/-- Example values (not code from /repo): the inputs that the relation allows, and their product. -/
noncomputable def inputValues (R : ValidatorSetUpdateOpt G1Point Unit Unit → List Fq → Prop)
    (circuit : ValidatorSetUpdateOpt G1Point Unit Unit) :
    Outcome Unit ((Fin 2 → Fq) × (Fin 1 → Fq)) := by
  classical
  exact if h : ∃ x : Fin 2 → Fq, R circuit (List.ofFn x) then .ok (h.choose, fun _ => h.choose 0 * h.choose 1)
    else .err ()

/-- The end-to-end program runs with Groth16 in it, with two transitions, four validators, one fault and ten
dummies, for every bilinear pairing in the circuit and the toy pairing for the proofs. -/
example [DecidableEq G1Point] {GE : Type*} [CommGroup GE] (compat : Bool)
    (e : G1Point → G2Point → GE) (hl : ∀ P P' Q, e (P + P') Q = e P Q * e P' Q)
    (hr : ∀ P Q Q', e P (Q + Q') = e P Q * e P Q') (gen1 : G1Point) (helper : Bool) :
    ∃ (B : Blake2s) (R : ValidatorSetUpdateOpt G1Point Unit Unit → List Fq → Prop),
      endToEnd gen1 g2Generator B (pedersenCrh edX (crhGenerators fun _ => edBase))
      (blockHash compat B (pedersenCrh edX (crhGenerators fun _ => edBase)) someSqrt) () (fun () => ())
      (·.vk) (fun _ r => (.ok (), r)) (grothSetup inputCircuits) (fun _ _ => .ok ())
      (grothProve inputCircuits (inputValues R)) (verifyProof (toyPairing FQ_MODULUS)) (fun _ => 5)
      (fun _ => qTrapdoor) 4 1 2 12 helper = .ok () := by
  obtain ⟨K, hconst, hK⟩ := exists_core' (fun _ => tinyDigest compat 1 false)
    fun m => tinyDigest_length _ _ _
  have hB := Blake2s.ofCore_agree K
  have hx := hK _ hB
  have hg0 : g1Scale (.finite 1 sqrtTwo) ≠ 0 := by
    rw [g1Scale_one]; exact cofactor_onePoint_ne.1
  have hhash : ∀ b : EpochBlock, EntropyOk b.epochEntropy → EntropyOk b.parentEntropy →
      max b.newPublicKeys.length b.maximumValidators ≤ 206 →
      ∃ g, blockHash compat (Blake2s.ofCore K) (pedersenCrh edX (crhGenerators fun _ => edBase)) someSqrt b =
        .ok g := by
    intro b h1 h2 h3
    refine ⟨G1_COFACTOR • onePoint, ?_⟩
    unfold blockHash EpochBlock.hashToG1 tryAndIncrementCip22
    simp only [Outcome.map_eq_ok_iff]
    refine ⟨(_, 0), (C19_ok_iff compat _ someSqrt_spec _ _ _ _ _ _).mpr ⟨_,
      pedersenCrh_fits edX (fun _ => edBase) (inner_fits h1 h2 h3), by norm_num,
      ⟨tinyDigest compat 1 false, hx _, ?_⟩, fun c' hc' => absurd hc' (by omega)⟩, rfl⟩
    rw [← g1Scale_one]
    exact ⟨by rw [tinyDigest_length]; omega, hg0, _, (decodes_one compat).1, rfl⟩
  have h5 : (5 : ZMod FR_MODULUS) ≠ 0 ∧ (5 : ZMod FR_MODULUS) ≠ 1 ∧ (20 : ZMod FR_MODULUS) ≠ 0 :=
    ⟨by decide +kernel, by decide +kernel, by decide +kernel⟩
  obtain ⟨pk, hpk⟩ := q_key inputSystem (by norm_num)
  refine ⟨Blake2s.ofCore K, fun circuit inputs => ∃ s h c, circuit = s.toOpt h ∧
    CircuitVars.assign true (hashBitsToG1Out compat K (Blake2s.ofCore K) (pedersenCrh edX (crhGenerators fun _ => edBase))
      (pedersenX edX fun _ => edBase) someSqrt h.isNone) s = .ok c ∧
    circuitInputs affineOnlyG2 (hashBitsToG1C affineOnly compat K (pedersenX edX fun _ => edBase)) K e gen1 g2Generator
      s.numValidators (h.map (·.proof)) c = .ok inputs,
    C105_end_to_end (alloc1 := affineOnly) (alloc2 := affineOnlyG2) (toyPairing FQ_MODULUS)
    affineOnly_complete (fun _ _ h => ⟨rfl, h⟩) compat true hB someSqrt_spec edX (fun _ => edBase)
    (fun _ _ (_ : Unit) => .ok (True, false)) hl hr gen1 () _ _ _ inputCircuits (fun _ => eightDomain_valid) _
    ?_ _ _ 4 1 2 12 (by norm_num) (by norm_num)
    (by norm_num) (by norm_num) (by norm_num) helper ⟨pk, if helper then some () else none⟩
    ?_ (fun _ _ _ _ _ => ⟨(), rfl⟩) (fun _ _ _ _ _ => ⟨_, rfl, trivial⟩) (fun i _ => ?_) (fun _ => ?_) (fun _ _ => h5.1)
    (fun _ _ => h5.2.1) ?_⟩
  · intro s h c inputs sat hin hassign _ _
    obtain ⟨a, b, rfl⟩ := List.length_eq_two.mp (circuitInputs_length hin)
    have hex : ∃ x : Fin 2 → Fq, ∃ s' h' c', s.toOpt h = s'.toOpt h' ∧
        CircuitVars.assign true (hashBitsToG1Out compat K (Blake2s.ofCore K) (pedersenCrh edX (crhGenerators fun _ => edBase))
          (pedersenX edX fun _ => edBase) someSqrt h'.isNone) s' = .ok c' ∧
        circuitInputs affineOnlyG2 (hashBitsToG1C affineOnly compat K (pedersenX edX fun _ => edBase)) K e gen1 g2Generator
          s'.numValidators (h'.map (·.proof)) c' = .ok (List.ofFn x) := ⟨![a, b], s, h, c, rfl, hassign, hin⟩
    refine ⟨_, dif_pos hex, ?_, inputSystem_satisfied _⟩
    obtain ⟨s', h', c', h1, h2, h3⟩ := hex.choose_spec
    obtain ⟨rfl, rfl⟩ := toOpt_injective h1
    rw [hassign] at h2
    cases h2
    rw [hin] at h3
    exact (Outcome.ok.inj h3).symm
  · have : ∀ circuit : ValidatorSetUpdateOpt G1Point Unit Unit, grothSetup inputCircuits circuit
        (fun _ => qTrapdoor) = (.ok pk, fun _ => qTrapdoor) := fun circuit => by
      unfold grothSetup
      exact congrArg (·, fun _ => qTrapdoor) hpk
    cases helper <;> simp [trustedSetup, setup, this, Outcome.map]
  · obtain ⟨c1, _, c3, c4⟩ := fixtureBlock_const g2Generator (fun _ => 5) 4 1 (i + 1)
    exact hhash _ c3 c4 (by rw [c1, fixtureBlock_keys, drawnKeys_length, max_self]; norm_num)
  · have hE : EntropyOk (some (List.replicate ENTROPY_BYTES 0)) := by
      intro b hb
      rw [← Option.some.inj hb, List.length_replicate]
      rfl
    exact hhash _ hE hE (by simp [dummyBlock])
  · have : (drawnSecrets (fun _ => (5 : ZMod FR_MODULUS)) 4 2).sum = 20 := by
      simp only [drawnSecrets]
      decide +kernel
    rw [this]
    exact h5.2.2

end Verif
