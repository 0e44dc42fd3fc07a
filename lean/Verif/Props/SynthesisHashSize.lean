import Verif.Props.SynthesisSize

/-!
# C123, continued: the size of the hash to G1

With the constraints of the hash to G1 (C119) counted as well, the size of the epoch circuit depends on the Pedersen
and BLAKE2s gadgets, the pairing and the verifier of the helper only.
-/

set_option linter.unusedSectionVars false
set_option exponentiation.threshold 800

namespace Verif

section

variable {p : ℕ} [Fact p.Prime]

theorem cost_g1AddRest (b : ZMod p) (xx yy zz xy xz yz : LinComb p) :
    Cost (g1AddRest b xx yy zz xy xz yz) 6 6 fun _ => True :=
  (cost_fpMul _ _).bind (fun _ _ => (cost_fpMul _ _).bind (fun _ _ => (cost_fpMul _ _).bind (fun _ _ =>
    (cost_fpMul _ _).bind (fun _ _ => (cost_fpMul _ _).bind (fun _ _ => (cost_fpMul _ _).bind (fun _ _ =>
      cost_pure trivial) rfl rfl) rfl rfl) rfl rfl) rfl rfl) rfl rfl) rfl rfl

theorem cost_g1Add (b : ZMod p) (u v : G1V p) : Cost (g1Add b u v) 12 12 fun _ => True :=
  (cost_fpMul _ _).bind (fun _ _ => (cost_fpMul _ _).bind (fun _ _ => (cost_fpMul _ _).bind (fun _ _ =>
    (cost_fpMul _ _).bind (fun _ _ => (cost_fpMul _ _).bind (fun _ _ => (cost_fpMul _ _).bind (fun _ _ =>
      cost_g1AddRest _ _ _ _ _ _ _) rfl rfl) rfl rfl) rfl rfl) rfl rfl) rfl rfl) rfl rfl

theorem cost_g1Double (b : ZMod p) (v : G1V p) : Cost (g1Double b v) 11 11 fun _ => True :=
  (cost_fpMul _ _).bind (fun _ _ => (cost_fpMul _ _).bind (fun _ _ => (cost_fpMul _ _).bind (fun _ _ =>
    (cost_fpMul _ _).bind (fun _ _ => (cost_fpMul _ _).bind (fun _ _ => (cost_fpMul _ _).bind (fun _ _ =>
      (cost_fpMul _ _).bind (fun _ _ => (cost_fpMul _ _).bind (fun _ _ => (cost_fpMul _ _).bind (fun _ _ =>
        (cost_fpMul _ _).bind (fun _ _ => (cost_fpMul _ _).bind (fun _ _ => cost_pure trivial)
      rfl rfl) rfl rfl) rfl rfl) rfl rfl) rfl rfl) rfl rfl) rfl rfl) rfl rfl) rfl rfl) rfl rfl) rfl rfl

/-- Constraints of the multiplication by constant bits; `acc`: the sum so far is not the constant zero. -/
def scalarMulCost (drop : Bool) : List Bool → Bool → ℕ
  | [], _ => 0
  | bit :: bits, acc => (if acc then 12 else if drop then 0 else 6) + 11 + scalarMulCost drop bits (acc || bit)

theorem cost_scalarMulLeV (drop : Bool) (b : ZMod p) (bits : List Bool) (res : Option (G1V p)) (v : G1V p) :
    Cost (scalarMulLeV drop b bits res v) (scalarMulCost drop bits res.isSome) (scalarMulCost drop bits res.isSome)
      fun _ => True := by
  induction bits generalizing res v with
  | nil => exact cost_pure trivial
  | cons bit bits ih =>
    have ha : Cost (g1AddAssign drop b res v) (if res.isSome then 12 else if drop then 0 else 6)
        (if res.isSome then 12 else if drop then 0 else 6) fun _ => True := by
      cases res with
      | some u => exact cost_g1Add _ _ _
      | none =>
        cases drop
        · exact cost_g1AddRest _ _ _ _ _ _ _
        · exact cost_pure trivial
    refine ha.bind (m := 11 + scalarMulCost drop bits (res.isSome || bit))
      (v := 11 + scalarMulCost drop bits (res.isSome || bit))
      (fun t _ => (cost_g1Double _ _).bind (fun m _ => ?_) rfl rfl) ?_ ?_
    · have := ih (if bit then some t else res) m
      cases bit
      · rwa [Bool.or_false]
      · rwa [Bool.or_true]
    · rw [scalarMulCost]; omega
    · rw [scalarMulCost]; omega

end

theorem cofactor_cost (drop : Bool) : scalarMulCost drop cofactorBits false = if drop then 1828 else 2386 := by
  cases drop <;> decide +kernel

theorem flatten_length_const {α : Type} {l : List (List α)} {n : ℕ} (h : ∀ x ∈ l, x.length = n) :
    l.flatten.length = l.length * n := by
  rw [List.length_flatten, List.map_congr_left (g := fun _ => n) h]
  simp

theorem packBytesV_length (bits : List BoolV) : (packBytesV bits).length = (bits.length + 7) / 8 := by
  rw [packBytesV, List.length_map, chunks_length (by norm_num), List.length_reverse]
  rfl

theorem packBytesV_flatten_length {bits : List BoolV} (h : bits.length = 56) :
    (packBytesV bits).flatten.length = 56 := by
  rw [flatten_length_const (n := 8), packBytesV_length, h]
  intro x hx
  obtain ⟨c, hc, rfl⟩ := List.mem_map.1 hx
  have := chunks_mem_length (n := 8) (by norm_num) _ c hc
  rw [List.length_append, List.length_replicate]
  omega

section

variable {G : HashGadgets} {N : HashNative} {pedersen blake : ℕ × ℕ}

theorem cost_hashToGroupV (compat drop : Bool) {bits : List BoolV} (hl : bits.length = 512) :
    Cost (hashToGroupV N compat drop bits) (2378 + if drop then 1828 else 2386)
      (1514 + if drop then 1828 else 2386) fun _ => True := by
  unfold hashToGroupV
  split
  · intro cs r hr; cases hr
  · split
    · intro cs r hr; cases hr
    · rename_i sign _
      refine (cost_allocPointG1 _ _ _ _).bind (fun v _ => (cost_toBitsLe _).bind (fun xs hx =>
        (cost_normalize _).bind (fun y hy => Cost.bind (n := 377) (w := 0) (Q := fun _ => True) ?_ (fun _ _ =>
        (cost_boolEnforceEqual hy).bind (fun _ _ => (cost_scalarMulLeV drop 1 cofactorBits none v).bind (fun _ _ =>
          cost_pure trivial) rfl rfl) rfl rfl) rfl rfl) rfl rfl) rfl rfl) ?_ ?_
      · have := cost_enforceAll (p := FQ_MODULUS) (l := xs.zip (bits.take X_BITS)) fun t ht =>
          hx.2 _ (List.of_mem_zip (a := t.1) (b := t.2) ht).1
        rwa [List.length_zip, List.length_take, hx.1, bitLength_fq, hl] at this
      · simp only [toBitsCost_fq, leHalfCost_fq, Option.isSome_none, cofactor_cost]; omega
      · simp only [toBitsCost_fq, leHalfCost_fq, Option.isSome_none, cofactor_cost]; omega

/-- **C123.** The numbers of constraints and witnesses of the hash to G1, with the XOF in the circuit and without. -/
theorem C123_hash_constraints (compat drop generate : Bool) {xs ys : List BoolV}
    (hp : ∀ m : List (List BoolV), m.length = (xs.length + 7) / 8 →
      Cost (G.pedersen m) pedersen.1 pedersen.2 fun _ => True)
    (hb : ∀ m b, m.length = 448 → Cost (G.blake m b) blake.1 blake.2 fun r => r.length = 256)
    (hy : ys.length = 56) {cs : ConstraintSystem FQ_MODULUS} {r : HashV FQ_MODULUS × ConstraintSystem FQ_MODULUS}
    (hr : hashBitsToG1V G N compat drop generate xs ys cs = .ok r) :
    r.2.constraints.length = cs.constraints.length + 3383 + (if drop then 1828 else 2386) + pedersen.1 +
      (if generate then 2 * blake.1 else 512) ∧
    r.2.numWit = cs.numWit + 2275 + (if drop then 1828 else 2386) + pedersen.2 +
      (if generate then 2 * blake.2 else 512) ∧
    r.1.crhBits.length = 384 ∧ r.1.xofBits.length = 512 := by
  obtain ⟨c, a1, hr⟩ := synth_bind_ok.1 hr
  obtain ⟨crh, a2, hr⟩ := synth_bind_ok.1 hr
  obtain ⟨xof, a3, hr⟩ := synth_bind_ok.1 hr
  obtain ⟨g, a4, hr⟩ := synth_bind_ok.1 hr
  cases hr
  obtain ⟨b1, c1, q1, _⟩ := cost_mapM_all
    (fun i : ℕ => cost_boolWitness (counterBitValue N xs ys i)) (List.range 8) _ _ a1
  rw [List.length_range] at b1 c1 q1
  have h2 : Cost (pedersenBitsV G (packBytesV xs)) (pedersen.1 + 997) (pedersen.2 + 753)
      fun r => r.length = 384 := by
    refine (hp _ (packBytesV_length xs)).bind (fun _ _ => (cost_toBitsLe _).bind (fun bits h => cost_pure ?_)
      rfl rfl) (by simp only [toBitsCost_fq]) (by simp only [toBitsCost_fq])
    rw [padToBytesV, List.length_append, List.length_replicate, h.1, bitLength_fq]
  obtain ⟨b2, c2, q2⟩ := h2 _ _ a2
  have h3 : Cost (hashToBitsV G N (c.1 ++ (packBytesV ys).flatten ++ crh.1) 512 SIG_DOMAIN generate)
      (if generate then 2 * blake.1 else 512) (if generate then 2 * blake.2 else 512) fun r => r.length = 512 := by
    cases generate with
    | false =>
      have := cost_mapM_all (fun i : ℕ => cost_boolWitness
        (xofBitValue N (c.1 ++ (packBytesV ys).flatten ++ crh.1) i)) (List.range 512)
      rw [List.length_range, Nat.mul_one] at this
      unfold hashToBitsV
      simp only [Bool.false_eq_true, if_false]
      exact this.mono fun _ h => h.1
    | true =>
      unfold hashToBitsV
      rw [if_pos rfl, if_neg (by decide)]
      have hm := cost_mapM_all (fun i : ℕ => hb (c.1 ++ (packBytesV ys).flatten ++ crh.1)
        (blake2xsParams 512 (UInt32.ofNat i) SIG_DOMAIN).parameters (by
          rw [List.length_append, List.length_append, q1, packBytesV_flatten_length hy, q2]))
        (List.range ((512 : UInt16) / 256).toNat)
      rw [List.length_range, show ((512 : UInt16) / 256).toNat = 2 by decide] at hm
      refine hm.bind (fun bl h => cost_pure ?_) rfl rfl
      rw [flatten_length_const h.2, h.1]
  obtain ⟨b3, c3, q3⟩ := h3 _ _ a3
  obtain ⟨b4, c4, _⟩ := cost_hashToGroupV compat drop q3 _ _ a4
  exact ⟨by dsimp only; omega, by dsimp only; omega, q2, q3⟩

end

/-- The gadgets with the hash to G1 as its constraints cost what the hash, counted by `C123_hash_constraints`, and the
others cost. -/
theorem costsAt_withHash {H : Type} {O : OuterGadgets H} {generate : Bool} {n k : ℕ}
    {p1 p2 verify first last groth pedersen blake : ℕ × ℕ}
    (h1 : ∀ v, Cost (O.prepareG1 v) p1.1 p1.2 fun _ => True)
    (h2 : ∀ v, Cost (O.prepareG2 v) p2.1 p2.2 fun _ => True)
    (h3 : ∀ ks ms s, ks.length = k → ms.length = k → Cost (O.verify ks ms s) verify.1 verify.2 fun _ => True)
    (h4 : ∀ m, m.length = 8 * ((176 + 755 * n + 7) / 8) →
      Cost (O.blake m edgeParams.parameters) first.1 first.2 fun r => r.length = 256)
    (h5 : ∀ m, m.length = 8 * ((176 + 755 * (n + 1) + 7) / 8) →
      Cost (O.blake m edgeParams.parameters) last.1 last.2 fun r => r.length = 256)
    (h6 : ∀ ins h, generate = false → ins.length = (384 * k + 251) / 252 + (512 * k + 251) / 252 →
      Cost (O.groth ins h) groth.1 groth.2 fun _ => True)
    {gadget : List (List BoolV) → Synth FQ_MODULUS (LinComb FQ_MODULUS)} {N : HashNative}
    (hp : ∀ m, m.length = (256 + 755 * n + 7) / 8 → Cost (gadget m) pedersen.1 pedersen.2 fun _ => True)
    (hb : ∀ m b, m.length = 448 → Cost (O.blake m b) blake.1 blake.2 fun r => r.length = 256) (compat drop : Bool) :
    (O.withHash gadget N compat drop).CostsAt generate n k
      (3383 + (if drop then 1828 else 2386) + pedersen.1 + (if generate then 2 * blake.1 else 512),
        2275 + (if drop then 1828 else 2386) + pedersen.2 + (if generate then 2 * blake.2 else 512))
      p1 p2 verify first last groth := by
  refine ⟨fun xs ys hx hy cs r hr => ?_, h1, h2, h3, h4, h5, h6⟩
  obtain ⟨c1, c2, c3⟩ := C123_hash_constraints (G := ⟨gadget, O.blake⟩) compat drop generate
    (fun m hm => hp m (by rw [hm, hx])) hb hy hr
  exact ⟨by rw [c1]; dsimp only; omega, by rw [c2]; dsimp only; omega, fun _ => c3⟩

section

variable {M A1 A2 AT B1 B2 GE : Type} [AddCommGroup M] [AddCommGroup A1] [Module (ZMod FQ_MODULUS) A1]
  [AddCommGroup A2] [Module (ZMod FQ_MODULUS) A2] [CommGroup AT] [DecidableEq AT] [AddCommGroup B1]
  [Module (ZMod FR_MODULUS) B1] [AddCommGroup B2] [Module (ZMod FR_MODULUS) B2] [CommGroup GE]
  [DecidableEq G1Point] {blake : List BoolV → Bytes → Synth FR_MODULUS (List BoolV)} {K : Blake2sCore}

/-- The domain of arkworks is large enough for the setup of the helper circuit. -/
theorem helper_fits {blakeCost : ℕ × ℕ}
    (hb : ∀ m b, m.length = 384 → Cost (blake m b) blakeCost.1 blakeCost.2 fun r => r.length = 256)
    (hkb : ∀ m b, KeepsInputs (blake m b)) {max : ℕ} (hmax : max ≠ 0)
    (hsize : max * (1280 + 2 * blakeCost.1) + 673 * helperInputs max + 1 ≤ 2 ^ 47)
    {u : (List (LinComb FR_MODULUS) × List (LinComb FR_MODULUS)) × ConstraintSystem FR_MODULUS}
    (hu : (HashToBits.empty 377 max).generateConstraints blake (.new FR_MODULUS true) = .ok u) :
    u.2.domainSize ≤ (setupDomain (22 : ZMod FR_MODULUS) 47 u.2.domainSize).size := by
  have hlen : (HashToBits.empty 377 max).messageBits.length = max := List.length_replicate
  obtain ⟨c1, _, c3, c4⟩ := C123_helper_constraints hb (h := HashToBits.empty 377 max) (fun m hm => by
    rw [List.eq_of_mem_replicate hm, List.length_replicate]) hu
  have hi := (C120_inputs hkb hu).2
  rw [List.length_append, c3, c4] at hi
  rw [hlen] at c1 hi
  unfold helperInputs at hsize
  have h0 : (ConstraintSystem.new FR_MODULUS true).constraints.length = 0 := rfl
  have h1 : (ConstraintSystem.new FR_MODULUS true).numInst = 0 := rfl
  have hk := C123_setup (G1 := ZMod FR_MODULUS) (G2 := ZMod FR_MODULUS) twoAdic_fr
    (circuit := (HashToBits.empty 377 max).generateConstraints blake) hu (by omega)
    (Trapdoor.ofScalars (fun _ => 0) 0 0)
  exact (hk.2 (by omega)).2

/-- The domain of arkworks is valid and large enough for the setup of the epoch circuit. -/
theorem epochs_fit {O : OuterGadgets (HashToBitsHelper (GrothProof B1 B2) (GrothVk B1 B2))} {hash : Bool → ℕ × ℕ}
    {p1 p2 verify first last groth : ℕ × ℕ} {n max : ℕ} (hn0 : n ≠ 0) (hn : n ≤ 206) (hmax : max ≠ 0)
    (hO : ∀ g, O.CostsAt g n max (hash g) p1 p2 verify first last groth) (hk : O.Keeps) {oc drop : Bool}
    {a : Fq × Fq} {d : (Fq × Fq) × (Fq × Fq)} {dp : GrothProof B1 B2} {f : ℕ}
    (hsize : ∀ g, 15537 + 4044 * (n - 1) + max * (12063 + 4081 * (n - 1) + (hash g).1 + p1.1 + p2.1) + verify.1 +
      first.1 + last.1 + groth.1 ≤ 2 ^ 46)
    (vk : Option (GrothVk B1 B2)) {u : List (LinComb FQ_MODULUS) × ConstraintSystem FQ_MODULUS}
    (hu : generateConstraints O oc drop a d (ValidatorSetUpdateOpt.empty dp n max f vk) (.new FQ_MODULUS true) =
      .ok u) :
    (setupDomain (15 : Fq) 46 u.2.domainSize).Valid ∧
      u.2.domainSize ≤ (setupDomain (15 : Fq) 46 u.2.domainSize).size := by
  obtain ⟨m, rfl⟩ := Nat.exists_eq_succ_of_ne_zero hn0
  obtain ⟨c1, _, c3⟩ := C123_constraints
    (s := ValidatorSetUpdateOpt.empty (G1 := G1Point) dp (m + 1) max f vk) (n := m) (k := max) (hO _)
    (by
      simp only [ValidatorSetUpdateOpt.empty, UInt32.toNat_ofNat']
      exact Nat.mod_eq_of_lt (by omega))
    (by simp [ValidatorSetUpdateOpt.empty, EpochDataOpt.empty])
    (by simp [ValidatorSetUpdateOpt.empty]) hmax hu
  have hi := (inputs_generateConstraints hk hu).2
  rw [c3] at hi
  have h0 : (ConstraintSystem.new FQ_MODULUS true).constraints.length = 0 := rfl
  have h1 : (ConstraintSystem.new FQ_MODULUS true).numInst = 0 := rfl
  have hs := hsize (ValidatorSetUpdateOpt.empty (G1 := G1Point) dp (m + 1) max f vk).hashHelper.isNone
  generalize (hash (ValidatorSetUpdateOpt.empty (G1 := G1Point) dp (m + 1) max f vk).hashHelper.isNone) = hh at *
  have hle : max * (12045 + 4081 * m + (if drop then 0 else 18) + hh.1 + p1.1 + p2.1) ≤
      max * (12063 + 4081 * m + hh.1 + p1.1 + p2.1) :=
    Nat.mul_le_mul_left _ (by split <;> omega)
  have hdrop : (if drop then 0 else 18) ≤ 18 := by split <;> omega
  have hg : (if (ValidatorSetUpdateOpt.empty (G1 := G1Point) dp (m + 1) max f vk).hashHelper.isNone then 0
      else groth.1) ≤ groth.1 := by split <;> omega
  simp only [Nat.succ_eq_add_one, Nat.add_sub_cancel] at hs
  have hk := C123_setup (G1 := ZMod FQ_MODULUS) (G2 := ZMod FQ_MODULUS) twoAdic_fq
    (circuit := generateConstraints O oc drop a d (ValidatorSetUpdateOpt.empty dp (m + 1) max f vk)) hu (by omega)
    (Trapdoor.ofScalars (fun _ => 0) 0 0)
  exact hk.2 (by omega)

/-- **C123.** C122 on the domains of arkworks: the end-to-end program succeeds, without any hypothesis on the domains,
whenever the two circuits, by their exact sizes, fit into the largest domains of the two fields. -/
theorem C123_end_to_end (P : Pairing FQ_MODULUS A1 A2 AT)
    {O : OuterGadgets (HashToBitsHelper (GrothProof B1 B2) (GrothVk B1 B2))} {e : G1Point → G2Point → GE}
    {groth : GrothVk B1 B2 → List (List Bool) → GrothProof B1 B2 → Outcome Unit (Prop × Bool)}
    {isG1 : ConstraintSystem FQ_MODULUS → O.PG1 → G1Point → Prop}
    {isG2 : ConstraintSystem FQ_MODULUS → O.PG2 → G2Point → Prop}
    {a : Fq × Fq} {d : (Fq × Fq) × (Fq × Fq)} {B : Blake2s} {sqrt : Fq → Option Fq} {x : M → Fq} {base : ℕ → M}
    {compat : Bool} (hS : O.Shaped) (hU : O.SetsUp) (hk : O.Keeps)
    (ha : (⟨a.1, a.2, 1⟩ : G1Var).coords.OnCurve 1)
    (hd : Denotes (padVar d.1 d.2).coords (padVar d.1 d.2).point) (hgen : (padVar d.1 d.2).point = g2Generator)
    (hO : O.RunsAt (fun g ts us out => hashBitsToG1C OnG1 compat K (pedersenX x base) g ts us out)
      (fun g ts us => hashBitsToG1Out compat K B (pedersenCrh x (crhGenerators base)) (pedersenX x base) sqrt g ts us)
      e (padVar d.1 d.2).point K groth isG1 isG2)
    (hb : BlakeRunsAt blake K) (hkb : ∀ m b, KeepsInputs (blake m b))
    (hSb : ∀ m b, Alike (blake m b) (blake m b)) (hUb : ∀ m b, SetupFollows (blake m b) (blake m b))
    (hB : Blake2sAgree K B) (hs : SqrtSpec sqrt)
    (hl : ∀ P P' Q, e (P + P') Q = e P Q * e P' Q) (hr : ∀ P Q Q', e P (Q + Q') = e P Q * e P Q')
    (oc drop : Bool) (defaultProof : GrothProof B1 B2) (rng : ℕ → ZMod FR_MODULUS)
    (setupRng : SetupRng A1 A2 B1 B2) (hg1 : setupRng.1.gamma ≠ 0) (hd1 : setupRng.1.delta ≠ 0)
    (hg2 : setupRng.2.gamma ≠ 0) (hd2 : setupRng.2.delta ≠ 0) (n f m max : ℕ)
    (hn : n ≤ 206) (hf : f < 2 ^ 32) (hm0 : m ≠ 0) (hm : m < 2 ^ 16) (hmax : m ≤ max) (helper : Bool)
    {blakeCost : ℕ × ℕ} {hash : Bool → ℕ × ℕ} {p1 p2 verify first last gcost : ℕ × ℕ}
    (hcb : ∀ m b, m.length = 384 → Cost (blake m b) blakeCost.1 blakeCost.2 fun r => r.length = 256)
    (hcO : ∀ g, O.CostsAt g n max (hash g) p1 p2 verify first last gcost)
    (hsizeB : max * (1280 + 2 * blakeCost.1) + 673 * helperInputs max + 1 ≤ 2 ^ 47)
    (hsize : ∀ g, 15537 + 4044 * (n - 1) + max * (12063 + 4081 * (n - 1) + (hash g).1 + p1.1 + p2.1) + verify.1 +
      first.1 + last.1 + gcost.1 ≤ 2 ^ 46)
    (hgadget : ∀ vk p i, vk.gammaAbcG1.length = i.length + 1 → ∃ r, groth vk i p = .ok r ∧ r.1)
    (hhash : ∀ i < m, ∃ g, blockHash compat B (pedersenCrh x (crhGenerators base)) sqrt
      (fixtureBlock g2Generator rng n f (i + 1)) = .ok g)
    (hdummy : m < max → ∃ g, blockHash compat B (pedersenCrh x (crhGenerators base)) sqrt
      (dummyBlock g2Generator n) = .ok g)
    (h0 : ∀ i < n * (m + 1), rng i ≠ 0) (h1 : ∀ i < n * m, rng i ≠ 1)
    (hsum : (drawnSecrets rng n m).sum ≠ 0) :
    endToEnd (⟨a.1, a.2, 1⟩ : G1Var).point g2Generator B (pedersenCrh x (crhGenerators base))
      (blockHash compat B (pedersenCrh x (crhGenerators base)) sqrt) defaultProof (·.vk) (·.vk)
      (helperSetup blake (setupDomain 22 47)) (epochSetup O oc drop a d (setupDomain 15 46))
      (helperProve blake (setupDomain 22 47))
      (epochProve O oc drop a d (setupDomain 15 46)) (verifyProof P) rng setupRng n f m max helper = .ok () := by
  have hn0 : n ≠ 0 := by
    rintro rfl
    exact hsum (by simp [drawnSecrets])
  have hmax0 : max ≠ 0 := by omega
  exact C122_end_to_end P hS hU hk ha hd hgen hO hb hkb hSb hUb hB hs hl hr oc drop defaultProof rng setupRng hg1 hd1
    hg2 hd2 n f m max hn hf hm0 hm hmax helper (fun _ hu => helper_fits hcb hkb hmax0 hsizeB hu)
    (fun vk _ hu => epochs_fit hn0 hn hmax0 hcO hk hsize vk hu) hgadget hhash hdummy h0 h1 hsum

end

/-! ## Examples -/

theorem evaluate_length (K : Blake2sCore) (bits : List Bool) (b : Bytes) : (K.evaluate bits b).length = 256 := by
  unfold Blake2sCore.evaluate
  rw [bytesLeToBitsLe_all _ 256 (by rw [K.length_digest]), flatMap_unpack_length, K.length_digest]

theorem programOuter_costs (HP VK : Type) (compat drop g : Bool) (K : Blake2sCore) (n k : ℕ) :
    (programOuter HP VK compat drop K).CostsAt g n k
      (3383 + (if drop then 1828 else 2386) + 0 + (if g then 2 * 0 else 512),
        2275 + (if drop then 1828 else 2386) + 0 + (if g then 2 * 0 else 512))
      (0, 0) (0, 0) (0, 0) (0, 0) (0, 0) (0, 0) := by
  have hb : ∀ m b, Cost ((programBase HP VK K).blake m b) 0 0 fun r => r.length = 256 := fun m b =>
    cost_pure (by rw [List.length_map, evaluate_length])
  exact costsAt_withHash (O := programBase HP VK K) (pedersen := (0, 0)) (blake := (0, 0)) (p1 := (0, 0)) (p2 := (0, 0))
    (verify := (0, 0)) (first := (0, 0)) (last := (0, 0)) (groth := (0, 0))
    (fun _ => cost_pure trivial) (fun _ => cost_pure trivial) (fun _ _ _ _ _ => cost_pure trivial)
    (fun m _ => hb m _) (fun m _ => hb m _) (fun _ _ _ _ => cost_pure trivial) (fun _ _ => cost_pure trivial)
    (fun m b _ => hb m b) compat drop

/-- The example of C122 on the domains of arkworks: the sizes of the two circuits for four validators and twelve epochs
meet the hypotheses of `C123_end_to_end`, and the program succeeds. -/
example (compat oc drop drop' helper : Bool) : ∃ K : Blake2sCore,
    endToEnd (⟨1, sqrtTwo, 1⟩ : G1Var).point g2Generator (Blake2s.ofCore K)
      (pedersenCrh (fun _ : ZMod 3 => (5 : Fq)) (crhGenerators fun _ => 1))
      (blockHash compat (Blake2s.ofCore K) (pedersenCrh (fun _ : ZMod 3 => (5 : Fq)) (crhGenerators fun _ => 1))
        someSqrt) (⟨0, 0, 0⟩ : GrothProof (ZMod FR_MODULUS) (ZMod FR_MODULUS)) (·.vk) (·.vk)
      (helperSetup (programBlake K) (setupDomain 22 47))
      (epochSetup (programOuter _ _ compat drop' K) oc drop (1, sqrtTwo)
        ((g2GenX.re, g2GenX.im), (g2GenY.re, g2GenY.im)) (setupDomain 15 46))
      (helperProve (programBlake K) (setupDomain 22 47))
      (epochProve (programOuter _ _ compat drop' K) oc drop (1, sqrtTwo)
        ((g2GenX.re, g2GenX.im), (g2GenY.re, g2GenY.im)) (setupDomain 15 46))
      (verifyProof (toyPairing FQ_MODULUS)) (fun _ => 5)
      (Trapdoor.ofScalars (fun _ => 2) 7 8, Trapdoor.ofScalars (fun _ => 3) 5 6) 4 1 2 12 helper = .ok () := by
  obtain ⟨K, _, h⟩ := program_runs compat oc drop drop' helper
  refine ⟨K, h _ _ (fun u hu => helper_fits (blakeCost := (0, 0)) (fun _ b _ => cost_pure (by
    rw [List.length_map, evaluate_length])) (fun _ _ => keeps_pure _) (by norm_num) (by decide) hu)
    (fun vk u hu => epochs_fit (by norm_num) (by norm_num) (by norm_num)
      (fun g => programOuter_costs _ _ compat drop' g K 4 12) (programOuter_keeps _ _ compat drop' K)
      (fun g => ?_) vk hu)⟩
  cases g <;> cases drop' <;> norm_num

end Verif
