import Verif.Lemmas.SynthesisGroth
import Verif.Props.SynthesisEnd
import Verif.Props.GrothSound
import Verif.Lemmas.Toy

/-!
# C113: proofs of the circuits of the tests

The tests `groth16_ok` (`crates/bls-gadgets/src/bitmap.rs:89-144`) and `groth_proof_from_pointer`
(`crates/bls-snark-sys/src/snark/epoch_block.rs:311-328`) set up the proof system for a circuit without
values, prove with values, and verify.  From the program of the circuit to the verdict of the verifier,
for all values.
-/

set_option linter.unusedSectionVars false

namespace Verif

section

variable {r : ℕ} [Fact r.Prime] {G1 G2 GT : Type*} [AddCommGroup G1] [Module (ZMod r) G1]
  [AddCommGroup G2] [Module (ZMod r) G2] [CommGroup GT] [DecidableEq GT]

/-- C113: the matrices of a constraint system whose constraints only mention allocated variables are
satisfied by an assignment exactly if every constraint is. -/
theorem C113_matrices {cs : ConstraintSystem r}
    (hc : ∀ q ∈ cs.constraints, ∀ t ∈ q.a ++ q.b ++ q.c, t.2 = .one ∨ (∃ i < cs.numInst, t.2 = .inst i) ∨
      ∃ i < cs.numWit, t.2 = .wit i)
    (x : Fin cs.numInst → ZMod r) (wit : Fin cs.numWit → ZMod r) (ρ : R1Var → ZMod r)
    (h1 : ρ .one = 1) (hx : ∀ i : Fin cs.numInst, ρ (.inst i) = x i)
    (hw : ∀ i : Fin cs.numWit, ρ (.wit i) = wit i) :
    cs.matrices.Satisfied (fullAssignment x wit) ↔
      ∀ q ∈ cs.constraints, (q.a.map fun t => t.1 * ρ t.2).sum * (q.b.map fun t => t.1 * ρ t.2).sum =
        (q.c.map fun t => t.1 * ρ t.2).sum := by
  have hin : ∀ q ∈ cs.constraints, ∀ t ∈ q.a ++ q.b ++ q.c, cs.InScope t.2 := by
    intro q hq t ht
    rcases hc q hq t ht with h | ⟨i, hi, h⟩ | ⟨i, hi, h⟩
    · rw [h]; exact trivial
    · rw [h]; exact hi
    · rw [h]; exact hi
  have hcl : cs.Closed := fun q hq => ⟨fun t ht => hin q hq t (by simp [ht]),
    fun t ht => hin q hq t (by simp [ht]), fun t ht => hin q hq t (by simp [ht])⟩
  have hρ : ∀ v, cs.InScope v → rhoOf x wit v = ρ v := by
    intro v hv
    cases v with
    | one => exact h1.symm
    | inst i =>
      have hv : i < cs.numInst := hv
      rw [rhoOf, dif_pos hv, ← hx]
    | wit i =>
      have hv : i < cs.numWit := hv
      rw [rhoOf, dif_pos hv, ← hw]
  rw [satisfied_matrices hcl]
  refine forall₂_congr fun q hq => ?_
  obtain ⟨ha, hb, hc⟩ := hcl q hq
  unfold R1Constraint.Holds
  rw [evalLc_congr fun t ht => hρ _ (ha t ht), evalLc_congr fun t ht => hρ _ (hb t ht),
    evalLc_congr fun t ht => hρ _ (hc t ht)]
  rfl

theorem circuitSetup_ok {α : Type} {g : Synth r α} {domain : ℕ → EvalDomain (ZMod r)}
    {td : Trapdoor (ZMod r) G1 G2} {pk : GrothPk G1 G2} (h : circuitSetup g domain td = .ok pk) :
    ∃ s, g (.new r true) = .ok s ∧
      generateParameters s.2.matrices (domain s.2.domainSize) td = .ok pk := by
  unfold circuitSetup at h
  cases hs : g (.new r true) with
  | ok s => rw [hs] at h; exact ⟨s, rfl, h⟩
  | err e => rw [hs] at h; cases h
  | panic => rw [hs] at h; cases h

theorem generateParameters_same {c c' : ConstraintSystem r} (h : SameShape c c')
    (domain : ℕ → EvalDomain (ZMod r)) (td : Trapdoor (ZMod r) G1 G2) :
    generateParameters c.matrices (domain c.domainSize) td =
      generateParameters c'.matrices (domain c'.domainSize) td := by
  obtain ⟨s, a, b, x, y, k⟩ := c
  obtain ⟨s', a', b', x', y', k'⟩ := c'
  obtain ⟨h1, h2, h3⟩ := h
  simp only at h1 h2 h3
  subst h1 h2 h3
  rfl

theorem SameShape.closed {c c' : ConstraintSystem r} (h : SameShape c c') (hc : c.Closed) :
    c'.Closed := by
  obtain ⟨s, a, b, x, y, k⟩ := c
  obtain ⟨s', a', b', x', y', k'⟩ := c'
  obtain ⟨h1, h2, h3⟩ := h
  simp only at h1 h2 h3
  subst h1 h2 h3
  exact hc

theorem ofFn_inputs {c : ConstraintSystem r} (h : c.instVals.length = c.numInst) :
    List.ofFn c.inputs = c.instVals := by
  obtain ⟨s, a, b, x, y, k⟩ := c
  simp only at h
  subst h
  apply List.ext_getElem
  · simp
  · intro i h1 h2
    simp [ConstraintSystem.inputs, h2]

/-- From a satisfied run of the prover to the verdict of the verifier. -/
theorem circuit_complete (P : Pairing r G1 G2 GT) {α : Type} {g g' : Synth r α} (ha : Alike g g')
    {domain : ℕ → EvalDomain (ZMod r)} {td : Trapdoor (ZMod r) G1 G2} {pk : GrothPk G1 G2}
    (hset : circuitSetup g domain td = .ok pk) {t : α × ConstraintSystem r}
    (ht : g' (.new r false) = .ok t) (hc : t.2.Closed) (hlen : t.2.instVals.length = t.2.numInst)
    (hsat : t.2.Sat t.2.rho) (hD : (domain t.2.domainSize).Valid) (rr s : ZMod r) :
    ∃ proof, circuitProve g' domain pk rr s = .ok proof ∧
      verifyProof P pk.vk proof t.2.instVals = .ok true := by
  obtain ⟨u, hu, hpk⟩ := circuitSetup_ok hset
  rw [generateParameters_same (ha.sameShape hu ht).2] at hpk
  refine ⟨createProof t.2.matrices (domain t.2.domainSize) pk t.2.inputs t.2.witnesses rr s, ?_, ?_⟩
  · unfold circuitProve; rw [ht]
  · have := C105_complete P hD hpk ((satisfied_own hc).2 hsat) rr s
    rw [ofFn_inputs hlen] at this
    exact this

/-- From an assignment that does not satisfy the constraints to the verdict of the verifier, for provers
that combine the elements of the key. -/
theorem circuit_sound (P : Pairing r G1 G2 GT) {α : Type} {g : Synth r α} {u : α × ConstraintSystem r}
    (hu : g (.new r true) = .ok u) (hc : u.2.Closed) {domain : ℕ → EvalDomain (ZMod r)}
    (hD : (domain u.2.domainSize).Valid) (hN : u.2.domainSize ≤ (domain u.2.domainSize).size)
    {g1 : G1} {g2 : G2} (h1 : g1 ≠ 0) (h2 : g2 ≠ 0)
    (sa sc : G1Strategy (ZMod r) u.2.numInst u.2.numWit (domain u.2.domainSize).size)
    (sb : G2Strategy (ZMod r) u.2.numInst u.2.numWit) (x : Fin u.2.numInst → ZMod r)
    (hx : ¬ u.2.Sat (rhoOf x sc.l)) :
    ∃ lucky : Finset (Fin 5 → ZMod r),
      lucky.card ≤ (3 * (domain u.2.domainSize).size + 1) * r ^ 4 ∧
      ∀ v ∉ lucky, ∀ pk, circuitSetup g domain (Trapdoor.ofScalars v g1 g2) = .ok pk →
        verifyProof P pk.vk ⟨sa.combine pk, sb.combine pk, sc.combine pk⟩ (List.ofFn x) = .ok false := by
  rw [← satisfied_matrices hc] at hx
  unfold ConstraintSystem.domainSize at hN
  obtain ⟨lucky, hl, h⟩ := C108_sound P hD (by unfold ConstraintSystem.domainSize; omega) h1 h2 sa sc sb x hx
  refine ⟨lucky, hl, fun v hv pk hpk => h v hv pk ?_⟩
  obtain ⟨u', hu', hpk⟩ := circuitSetup_ok hpk
  rw [hu] at hu'
  cases hu'
  exact hpk

/-- From an unsatisfied run of the prover to the verdict of the verifier. -/
theorem circuit_wrong (P : Pairing r G1 G2 GT) {α : Type} {g g' : Synth r α} (ha : Alike g g')
    {domain : ℕ → EvalDomain (ZMod r)} {t : α × ConstraintSystem r}
    (ht : g' (.new r false) = .ok t) (hc : t.2.Closed) (hlen : t.2.instVals.length = t.2.numInst)
    (hsat : ¬ t.2.Sat t.2.rho) (hD : (domain t.2.domainSize).Valid)
    (hN : t.2.domainSize ≤ (domain t.2.domainSize).size) {g1 : G1} {g2 : G2} (h1 : g1 ≠ 0) (h2 : g2 ≠ 0)
    (rr s : ZMod r) :
    ∃ lucky : Finset (Fin 5 → ZMod r),
      lucky.card ≤ (3 * (domain t.2.domainSize).size + 1) * r ^ 4 ∧
      ∀ v ∉ lucky, ∀ pk, circuitSetup g domain (Trapdoor.ofScalars v g1 g2) = .ok pk →
        ∃ proof, circuitProve g' domain pk rr s = .ok proof ∧
          verifyProof P pk.vk proof t.2.instVals = .ok false := by
  rw [← satisfied_own hc] at hsat
  unfold ConstraintSystem.domainSize at hN
  obtain ⟨lucky, hl, h⟩ := C108_unsatisfied_blinded P hD
    (by unfold ConstraintSystem.domainSize; omega) h1 h2 t.2.inputs t.2.witnesses hsat rr s
  refine ⟨lucky, hl, fun v hv pk hpk => ?_⟩
  obtain ⟨u, hu, hpk⟩ := circuitSetup_ok hpk
  rw [generateParameters_same (ha.sameShape hu ht).2] at hpk
  refine ⟨createProof t.2.matrices (domain t.2.domainSize) pk t.2.inputs t.2.witnesses rr s, ?_, ?_⟩
  · unfold circuitProve; rw [ht]
  · have := h v hv pk hpk
    rwa [ofFn_inputs hlen] at this

theorem sameShape_domainSize {c c' : ConstraintSystem r} (h : SameShape c c') :
    c.domainSize = c'.domainSize := by
  unfold ConstraintSystem.domainSize
  rw [h.1, h.2.2]

theorem rhoOf_wit {k w : ℕ} (x : Fin k → ZMod r) (wit : Fin w → ZMod r) (i : ℕ) :
    rhoOf x wit (.wit i) = (List.ofFn wit).getD i 0 := by
  rw [rhoOf, List.getD_eq_getElem?_getD, List.getElem?_ofFn]
  split <;> rfl

/-! ## the square circuit -/

/-- C113: the setup of the square circuit succeeds exactly if the domain has at least three points (one
constraint, one public input, the constant) and two of the random scalars are not zero. -/
theorem C113_square_setup (x : Option (ZMod r)) (domain : ℕ → EvalDomain (ZMod r))
    (td : Trapdoor (ZMod r) G1 G2) :
    (∃ pk, circuitSetup (testCircuit x) domain td = .ok pk) ↔
      3 ≤ (domain 3).size ∧ td.gamma ≠ 0 ∧ td.delta ≠ 0 := by
  have h : circuitSetup (testCircuit x) domain td =
      generateParameters (squareSystem r true [] []).matrices (domain 3) td := rfl
  rw [h, (C105_setup _ _ _).1]
  exact ⟨fun ⟨a, b⟩ => ⟨a, b⟩, fun ⟨a, b⟩ => ⟨a, b⟩⟩

/-- C113: the proof of any value is accepted for its square. -/
theorem C113_square (P : Pairing r G1 G2 GT) {x : Option (ZMod r)} {domain : ℕ → EvalDomain (ZMod r)}
    (hD : (domain 3).Valid) {td : Trapdoor (ZMod r) G1 G2} {pk : GrothPk G1 G2}
    (hset : circuitSetup (testCircuit x) domain td = .ok pk) (v rr s : ZMod r) :
    ∃ proof, circuitProve (testCircuit (some v)) domain pk rr s = .ok proof ∧
      verifyProof P pk.vk proof [v * v] = .ok true := by
  have hrun : testCircuit (some v) (.new r false) =
      .ok ((), squareSystem r false [v * v] [v, v, v, v, v]) := rfl
  refine circuit_complete P (alike_testCircuit _ _) hset hrun (squareSystem_closed _ _ _ _) rfl ?_ hD rr s
  obtain ⟨r', hr', hsat, _⟩ := C112_square_run v
  rw [hrun] at hr'
  cases hr'
  exact hsat

/-- C113: without a value there is no proof. -/
theorem C113_square_missing (domain : ℕ → EvalDomain (ZMod r)) (pk : GrothPk G1 G2) (rr s : ZMod r) :
    circuitProve (testCircuit none) domain pk rr s = .err () := rfl

/-- C113: whatever a prover combines from the elements of the key, the verdict for a public input that is
not a square is no, except for few setups. -/
theorem C113_square_sound (P : Pairing r G1 G2 GT) (x : Option (ZMod r))
    {domain : ℕ → EvalDomain (ZMod r)} (hD : (domain 3).Valid) (hN : 3 ≤ (domain 3).size)
    {g1 : G1} {g2 : G2} (h1 : g1 ≠ 0) (h2 : g2 ≠ 0) (sa sc : G1Strategy (ZMod r) 1 5 (domain 3).size)
    (sb : G2Strategy (ZMod r) 1 5) {out : ZMod r} (hout : ∀ v, out ≠ v * v) :
    ∃ lucky : Finset (Fin 5 → ZMod r), lucky.card ≤ (3 * (domain 3).size + 1) * r ^ 4 ∧
      ∀ v ∉ lucky, ∀ pk, circuitSetup (testCircuit x) domain (Trapdoor.ofScalars v g1 g2) = .ok pk →
        verifyProof P pk.vk ⟨sa.combine pk, sb.combine pk, sc.combine pk⟩ [out] = .ok false := by
  have hrun : testCircuit x (.new r true) = .ok ((), squareSystem r true [] []) := rfl
  refine circuit_sound P hrun (squareSystem_closed _ _ _ _) hD hN h1 h2 sa sc sb (fun _ => out) ?_
  intro hsat
  obtain ⟨v, hv⟩ := (C112_square hrun out).1 ⟨_, rfl, rfl, hsat⟩
  exact hout v hv

/-! ## the bitmap circuit -/

/-- C113: the setup of the bitmap circuit, for any bitmap that is not empty, absent bits included,
succeeds exactly if the domain is large enough and two of the random scalars are not zero. -/
theorem C113_bitmap_setup (hr : r ≠ 2) (o : Bool) (bitmap : List (Option Bool)) (m : ℕ) (value : Bool)
    (domain : ℕ → EvalDomain (ZMod r)) (td : Trapdoor (ZMod r) G1 G2) :
    (∃ pk, circuitSetup (bitmapCircuit o bitmap m value) domain td = .ok pk) ↔
      bitmap ≠ [] ∧ td.gamma ≠ 0 ∧ td.delta ≠ 0 ∧
        ∀ u, bitmapCircuit o bitmap m value (.new r true) = .ok u →
          u.2.constraints.length + u.2.numInst < (domain u.2.domainSize).size := by
  constructor
  · rintro ⟨pk, h⟩
    obtain ⟨u, hu, hpk⟩ := circuitSetup_ok h
    obtain ⟨h1, h2, h3⟩ := (C105_setup _ _ _).1.1 ⟨pk, hpk⟩
    refine ⟨((C112_setup hr).2.1 o bitmap m value).1 ⟨u, hu⟩, h2, h3, fun u' hu' => ?_⟩
    rw [hu] at hu'
    cases hu'
    exact h1
  · rintro ⟨h1, h2, h3, h4⟩
    obtain ⟨u, hu⟩ := ((C112_setup hr).2.1 o bitmap m value).2 h1
    obtain ⟨pk, hpk⟩ := (C105_setup u.2.matrices (domain u.2.domainSize) td).1.2 ⟨h4 u hu, h2, h3⟩
    exact ⟨pk, by unfold circuitSetup; rw [hu]; exact hpk⟩

theorem bitmap_run_shape (hr : r ≠ 2) {o o' : Bool} {bitmap : List (Option Bool)} {bits : List Bool}
    (hlen : bitmap.length = bits.length) {m m' : ℕ} {value : Bool} {u t : Unit × ConstraintSystem r}
    (hu : bitmapCircuit o bitmap m value (.new r true) = .ok u)
    (ht : bitmapCircuit o' (bits.map some) m' value (.new r false) = .ok t) :
    SameShape u.2 t.2 ∧ u.2.Closed ∧ t.2.Closed := by
  have hshape := ((alike_bitmapCircuit (p := r) o o' (bitmap := bitmap) (bitmap' := bits.map some)
    (by simpa using hlen) m m' value).sameShape hu ht).2
  have hne : bitmap ≠ [] := ((C112_setup hr).2.1 o bitmap m value).1 ⟨u, hu⟩
  obtain ⟨u', hu', hc⟩ := (setup_closed hr).2.1 o bitmap m value hne
  rw [hu] at hu'
  cases hu'
  exact ⟨hshape, hc, hshape.closed hc⟩

theorem bitmap_no_inputs {o : Bool} {bitmap : List (Option Bool)} {m : ℕ} {value s : Bool}
    {t : Unit × ConstraintSystem r} (ht : bitmapCircuit o bitmap m value (.new r s) = .ok t) :
    t.2.numInst = 0 ∧ t.2.instVals = [] :=
  keeps_bitmapCircuit o bitmap m value _ t ht

/-- C113: set up without values (or with any), the proof for a bitmap with few enough occurrences is
accepted, without public inputs. -/
theorem C113_bitmap (hr : r ≠ 2) (P : Pairing r G1 G2 GT) {o o' : Bool} {bitmap : List (Option Bool)}
    {bits : List Bool} (hlen : bitmap.length = bits.length) (hlr : bits.length < r) {m m' : ℕ}
    {value : Bool} (h256 : bits.count value < 256) (hm : bits.count value ≤ m') (hhalf : m' < halfOf r)
    {domain : ℕ → EvalDomain (ZMod r)} (hD : ∀ u, bitmapCircuit o bitmap m value (.new r true) = .ok u →
      (domain u.2.domainSize).Valid)
    {td : Trapdoor (ZMod r) G1 G2} {pk : GrothPk G1 G2}
    (hset : circuitSetup (bitmapCircuit o bitmap m value) domain td = .ok pk) (rr s : ZMod r) :
    ∃ proof, circuitProve (bitmapCircuit o' (bits.map some) m' value) domain pk rr s = .ok proof ∧
      verifyProof P pk.vk proof [] = .ok true := by
  obtain ⟨u, hu, _⟩ := circuitSetup_ok hset
  have hne : bitmap ≠ [] := ((C112_setup hr).2.1 o bitmap m value).1 ⟨u, hu⟩
  have hne' : bits ≠ [] := fun h => hne (List.length_eq_zero_iff.1 (by rw [hlen, h]; rfl))
  obtain ⟨t, ht, hsat⟩ := C112_bitmap_run hr o' hne' hlr h256 hm hhalf
  obtain ⟨hshape, _, hc⟩ := bitmap_run_shape hr hlen hu ht
  obtain ⟨hi1, hi2⟩ := bitmap_no_inputs ht
  have := circuit_complete P (alike_bitmapCircuit o o' (by simpa using hlen) m m' value) hset ht hc
    (by rw [hi1, hi2]; rfl) hsat (sameShape_domainSize hshape ▸ hD u hu) rr s
  rwa [hi2] at this

/-- C113: the algorithm of the prover does not notice a bitmap with too many occurrences, or a maximum of
half the modulus or more, and its proof is rejected but for few setups.  The same for 256 occurrences or
more when the count wraps around, although the claim may hold. -/
theorem C113_bitmap_wrong (hr : r ≠ 2) (P : Pairing r G1 G2 GT) {o o' : Bool}
    {bitmap : List (Option Bool)} {bits : List Bool} (hlen : bitmap.length = bits.length)
    (hne : bits ≠ []) (hlr : bits.length < r) {m m' : ℕ} (hm' : m' < r) {value : Bool}
    (ho : o' = false ∨ bits.count value < 256)
    (hbad : 256 ≤ bits.count value ∨ m' < bits.count value ∨ halfOf r ≤ m')
    {domain : ℕ → EvalDomain (ZMod r)} {u : Unit × ConstraintSystem r}
    (hu : bitmapCircuit o bitmap m value (.new r true) = .ok u) (hD : (domain u.2.domainSize).Valid)
    (hN : u.2.domainSize ≤ (domain u.2.domainSize).size) {g1 : G1} {g2 : G2} (h1 : g1 ≠ 0) (h2 : g2 ≠ 0)
    (rr s : ZMod r) :
    ∃ lucky : Finset (Fin 5 → ZMod r),
      lucky.card ≤ (3 * (domain u.2.domainSize).size + 1) * r ^ 4 ∧
      ∀ v ∉ lucky, ∀ pk, circuitSetup (bitmapCircuit o bitmap m value) domain
          (Trapdoor.ofScalars v g1 g2) = .ok pk →
        ∃ proof, circuitProve (bitmapCircuit o' (bits.map some) m' value) domain pk rr s = .ok proof ∧
          verifyProof P pk.vk proof [] = .ok false := by
  obtain ⟨t, ht, hsat⟩ := (C112_bitmap_decides hr o' hne hm' hlr).2 ho
  obtain ⟨hshape, _, hc⟩ := bitmap_run_shape hr hlen hu ht
  obtain ⟨hi1, hi2⟩ := bitmap_no_inputs ht
  have hsize := sameShape_domainSize hshape
  have := circuit_wrong (domain := domain) P
    (alike_bitmapCircuit o o' (bitmap := bitmap) (by simpa using hlen) m m' value) ht hc
    (by rw [hi1, hi2]; rfl) (fun h => by have := hsat.1 h; omega) (hsize ▸ hD) (hsize ▸ hN) h1 h2 rr s
  rw [hi2, ← hsize] at this
  exact this

/-- C113: whatever a prover combines from the elements of the key, the verdict is no but for few setups,
unless the values it uses for the witnesses are bits with at most as many occurrences as the maximum, and
that is below half the modulus. -/
theorem C113_bitmap_sound (hr : r ≠ 2) (P : Pairing r G1 G2 GT) {o : Bool}
    {bitmap : List (Option Bool)} (hlr : bitmap.length < r) {m : ℕ} {value : Bool}
    {u : Unit × ConstraintSystem r} (hu : bitmapCircuit o bitmap m value (.new r true) = .ok u)
    {domain : ℕ → EvalDomain (ZMod r)} (hD : (domain u.2.domainSize).Valid)
    (hN : u.2.domainSize ≤ (domain u.2.domainSize).size) {g1 : G1} {g2 : G2} (h1 : g1 ≠ 0) (h2 : g2 ≠ 0)
    (sa sc : G1Strategy (ZMod r) u.2.numInst u.2.numWit (domain u.2.domainSize).size)
    (sb : G2Strategy (ZMod r) u.2.numInst u.2.numWit)
    (hx : ¬ ∃ ts : List Bool,
      (List.range bitmap.length).map ((List.ofFn sc.l).getD · 0) = ts.map bit ∧
      ts.count value ≤ ((List.ofFn sc.l).getD bitmap.length 0).val ∧
      ((List.ofFn sc.l).getD bitmap.length 0).val < halfOf r) :
    ∃ lucky : Finset (Fin 5 → ZMod r),
      lucky.card ≤ (3 * (domain u.2.domainSize).size + 1) * r ^ 4 ∧
      ∀ v ∉ lucky, ∀ pk, circuitSetup (bitmapCircuit o bitmap m value) domain
          (Trapdoor.ofScalars v g1 g2) = .ok pk →
        verifyProof P pk.vk ⟨sa.combine pk, sb.combine pk, sc.combine pk⟩ [] = .ok false := by
  have hne : bitmap ≠ [] := ((C112_setup hr).2.1 o bitmap m value).1 ⟨u, hu⟩
  obtain ⟨u', hu', hc⟩ := (setup_closed hr).2.1 o bitmap m value hne
  rw [hu] at hu'
  cases hu'
  obtain ⟨hi1, _⟩ := bitmap_no_inputs hu
  have h := circuit_sound P hu hc hD hN h1 h2 sa sc sb (fun _ => 0) fun hsat => hx <| by
    refine (C112_bitmap hr hu hlr _ (by simp) _).1 ⟨rhoOf (fun _ => 0) sc.l, rfl, hsat, ?_,
      rhoOf_wit _ _ _⟩
    intro i hi
    rw [rhoOf_wit]
    simp
  have h0 : List.ofFn (fun _ : Fin u.2.numInst => (0 : ZMod r)) = [] := by
    rw [List.ofFn_eq_nil_iff]; exact hi1
  rwa [h0] at h

/-! ## the sign circuits -/

theorem alike_yToBitG1Circuit (b : ZMod r) (Q Q' : ZMod r × ZMod r × ZMod r) :
    Alike (yToBitG1Circuit b Q) (yToBitG1Circuit b Q') :=
  (alike_allocPointG1 _ _ _ _ _ _ _).bind fun _ => alike_normalize _

theorem alike_yToBitG2Circuit (nr b0 b1 : ZMod r)
    (Q Q' : (ZMod r × ZMod r) × (ZMod r × ZMod r) × (ZMod r × ZMod r)) :
    Alike (yToBitG2Circuit nr b0 b1 Q) (yToBitG2Circuit nr b0 b1 Q') :=
  (alike_allocPointG2 _ _ _ _ _ _ _ _ _).bind fun _ => alike_yToBitG2 _ _

/-- C113: the setup of the sign circuit of G1, for any triple, succeeds exactly if the domain is large
enough and two of the random scalars are not zero. -/
theorem C113_sign_g1_setup (hr : r ≠ 2) (b : ZMod r) (Q : ZMod r × ZMod r × ZMod r)
    (domain : ℕ → EvalDomain (ZMod r)) (td : Trapdoor (ZMod r) G1 G2) :
    (∃ pk, circuitSetup (yToBitG1Circuit b Q) domain td = .ok pk) ↔
      td.gamma ≠ 0 ∧ td.delta ≠ 0 ∧ ∀ u, yToBitG1Circuit b Q (.new r true) = .ok u →
        u.2.constraints.length < (domain u.2.domainSize).size := by
  obtain ⟨u, hu⟩ := (C112_setup hr).2.2.1 b Q
  have hi : u.2.numInst = 0 := (keeps_yToBitG1Circuit b Q _ u hu).1
  have e : circuitSetup (yToBitG1Circuit b Q) domain td =
      generateParameters u.2.matrices (domain u.2.domainSize) td := by
    unfold circuitSetup; rw [hu]
  rw [e, (C105_setup _ _ _).1, hi, hu]
  exact ⟨fun ⟨h1, h2, h3⟩ => ⟨h2, h3, fun u' h => by cases h; exact h1⟩,
    fun ⟨h1, h2, h3⟩ => ⟨h3 u rfl, h1, h2⟩⟩

theorem sign_g1_shape (hr : r ≠ 2) {b : ZMod r} {Q Q' : ZMod r × ZMod r × ZMod r}
    {u t : BoolV × ConstraintSystem r} (hu : yToBitG1Circuit b Q (.new r true) = .ok u)
    (ht : yToBitG1Circuit b Q' (.new r false) = .ok t) :
    SameShape u.2 t.2 ∧ u.2.Closed ∧ t.2.Closed ∧ t.2.numInst = 0 ∧ t.2.instVals = [] := by
  have hshape := ((alike_yToBitG1Circuit b Q Q').sameShape hu ht).2
  obtain ⟨u', hu', hc⟩ := (setup_closed hr).2.2.1 b Q
  rw [hu] at hu'
  cases hu'
  exact ⟨hshape, hc, hshape.closed hc, keeps_yToBitG1Circuit b Q' _ t ht⟩

/-- C113: set up with any triple, the proof for a triple is accepted if it is on the curve, and otherwise
rejected but for few setups. -/
theorem C113_sign_g1 (hr : r ≠ 2) (P : Pairing r G1 G2 GT) {b : ZMod r}
    {Q : ZMod r × ZMod r × ZMod r} (A : ProjVar (ZMod r)) {domain : ℕ → EvalDomain (ZMod r)}
    {u : BoolV × ConstraintSystem r} (hu : yToBitG1Circuit b Q (.new r true) = .ok u)
    (hD : (domain u.2.domainSize).Valid) (rr s : ZMod r) :
    (A.OnCurve b → ∀ (td : Trapdoor (ZMod r) G1 G2) pk,
      circuitSetup (yToBitG1Circuit b Q) domain td = .ok pk →
      ∃ proof, circuitProve (yToBitG1Circuit b (A.x, A.y, A.z)) domain pk rr s = .ok proof ∧
        verifyProof P pk.vk proof [] = .ok true) ∧
    (¬ A.OnCurve b → u.2.domainSize ≤ (domain u.2.domainSize).size →
      ∀ {g1 : G1} {g2 : G2}, g1 ≠ 0 → g2 ≠ 0 → ∃ lucky : Finset (Fin 5 → ZMod r),
        lucky.card ≤ (3 * (domain u.2.domainSize).size + 1) * r ^ 4 ∧
        ∀ v ∉ lucky, ∀ pk, circuitSetup (yToBitG1Circuit b Q) domain
            (Trapdoor.ofScalars v g1 g2) = .ok pk →
          ∃ proof, circuitProve (yToBitG1Circuit b (A.x, A.y, A.z)) domain pk rr s = .ok proof ∧
            verifyProof P pk.vk proof [] = .ok false) := by
  obtain ⟨t, ht, hsat⟩ := C112_sign_g1_decides hr b A
  obtain ⟨hshape, _, hc, hi1, hi2⟩ := sign_g1_shape hr hu ht
  have hsize := sameShape_domainSize hshape
  constructor
  · intro hA td pk hset
    have := circuit_complete P (alike_yToBitG1Circuit b Q _) hset ht hc (by rw [hi1, hi2]; rfl)
      (hsat.2 hA) (hsize ▸ hD) rr s
    rwa [hi2] at this
  · intro hA hN g1 g2 h1 h2
    have := circuit_wrong (domain := domain) P (alike_yToBitG1Circuit b Q _) ht hc
      (by rw [hi1, hi2]; rfl) (fun h => hA (hsat.1 h)) (hsize ▸ hD) (hsize ▸ hN) h1 h2 rr s
    rw [hi2, ← hsize] at this
    exact this

/-- C113: whatever a prover combines from the elements of the key, the verdict is no but for few setups,
unless the values it uses for the coordinates are on the curve. -/
theorem C113_sign_g1_sound (hr : r ≠ 2) (P : Pairing r G1 G2 GT) {b : ZMod r}
    {Q : ZMod r × ZMod r × ZMod r} {u : BoolV × ConstraintSystem r}
    (hu : yToBitG1Circuit b Q (.new r true) = .ok u) {domain : ℕ → EvalDomain (ZMod r)}
    (hD : (domain u.2.domainSize).Valid) (hN : u.2.domainSize ≤ (domain u.2.domainSize).size)
    {g1 : G1} {g2 : G2} (h1 : g1 ≠ 0) (h2 : g2 ≠ 0)
    (sa sc : G1Strategy (ZMod r) u.2.numInst u.2.numWit (domain u.2.domainSize).size)
    (sb : G2Strategy (ZMod r) u.2.numInst u.2.numWit)
    (hx : ¬ (⟨(List.ofFn sc.l).getD 0 0, (List.ofFn sc.l).getD 1 0, (List.ofFn sc.l).getD 2 0⟩ :
      ProjVar (ZMod r)).OnCurve b) :
    ∃ lucky : Finset (Fin 5 → ZMod r),
      lucky.card ≤ (3 * (domain u.2.domainSize).size + 1) * r ^ 4 ∧
      ∀ v ∉ lucky, ∀ pk, circuitSetup (yToBitG1Circuit b Q) domain (Trapdoor.ofScalars v g1 g2) = .ok pk →
        verifyProof P pk.vk ⟨sa.combine pk, sb.combine pk, sc.combine pk⟩ [] = .ok false := by
  obtain ⟨u', hu', hc⟩ := (setup_closed hr).2.2.1 b Q
  rw [hu] at hu'
  cases hu'
  have hi : u.2.numInst = 0 := (keeps_yToBitG1Circuit b Q _ u hu).1
  have h := circuit_sound P hu hc hD hN h1 h2 sa sc sb (fun _ => 0) fun hsat => hx <| by
    obtain ⟨w, _, hu'⟩ := synth_bind_ok.1 hu
    obtain ⟨t, _, e, _⟩ := sound_normalize (ρ := rhoOf (fun _ => 0) sc.l) rfl _ _ u hu' hsat
    exact ((C112_sign_g1 hr hu _ t).1 ⟨rhoOf (fun _ => 0) sc.l, rfl, hsat, rhoOf_wit _ _ _,
      rhoOf_wit _ _ _, rhoOf_wit _ _ _, e⟩).1
  have h0 : List.ofFn (fun _ : Fin u.2.numInst => (0 : ZMod r)) = [] := by
    rw [List.ofFn_eq_nil_iff]; exact hi
  rwa [h0] at h

end

section
variable {G1 G2 GT : Type} [AddCommGroup G1] [Module Fq G1] [AddCommGroup G2] [Module Fq G2]
  [CommGroup GT] [DecidableEq GT]

theorem sign_g2_run {Q : (Fq × Fq) × (Fq × Fq) × (Fq × Fq)} (nr b0 b1 : Fq) :
    ∃ u, yToBitG2Circuit nr b0 b1 Q (.new FQ_MODULUS true) = .ok u ∧ u.2.Closed ∧ u.2.numInst = 0 ∧
      u.2.domainSize = 2015 := by
  obtain ⟨u, hu, hc⟩ := (setup_closed (by decide +kernel : FQ_MODULUS ≠ 2)).2.2.2 nr b0 b1 Q
  have hi : u.2.numInst = 0 := (keeps_yToBitG2Circuit nr b0 b1 Q _ u hu).1
  refine ⟨u, hu, hc, hi, ?_⟩
  unfold ConstraintSystem.domainSize
  rw [hi, (C112_constraints true).2 nr b0 b1 Q u hu]

/-- C113: over the field of the curve, the setups of the sign circuits succeed, for any triples, exactly
if the domain has at least 1004 or 2015 points and two of the random scalars are not zero. -/
theorem C113_sign_setup (domain : ℕ → EvalDomain Fq) (td : Trapdoor Fq G1 G2) :
    (∀ (b : Fq) (Q : Fq × Fq × Fq), (∃ pk, circuitSetup (yToBitG1Circuit b Q) domain td = .ok pk) ↔
      1004 ≤ (domain 1004).size ∧ td.gamma ≠ 0 ∧ td.delta ≠ 0) ∧
    ∀ (nr b0 b1 : Fq) (Q : (Fq × Fq) × (Fq × Fq) × (Fq × Fq)),
      (∃ pk, circuitSetup (yToBitG2Circuit nr b0 b1 Q) domain td = .ok pk) ↔
        2015 ≤ (domain 2015).size ∧ td.gamma ≠ 0 ∧ td.delta ≠ 0 := by
  refine ⟨fun b Q => ?_, fun nr b0 b1 Q => ?_⟩
  · obtain ⟨u, hu⟩ := (C112_setup (by decide +kernel : FQ_MODULUS ≠ 2)).2.2.1 b Q
    have hi : u.2.numInst = 0 := (keeps_yToBitG1Circuit b Q _ u hu).1
    have hl := (C112_constraints true).1 b Q u hu
    have hs : u.2.domainSize = 1004 := by unfold ConstraintSystem.domainSize; rw [hi, hl]
    have e : circuitSetup (yToBitG1Circuit b Q) domain td =
        generateParameters u.2.matrices (domain u.2.domainSize) td := by
      unfold circuitSetup; rw [hu]
    rw [e, (C105_setup _ _ _).1, hi, hl, hs]
    exact Iff.rfl
  · obtain ⟨u, hu, _, hi, hs⟩ := sign_g2_run (Q := Q) nr b0 b1
    have hl := (C112_constraints true).2 nr b0 b1 Q u hu
    have e : circuitSetup (yToBitG2Circuit nr b0 b1 Q) domain td =
        generateParameters u.2.matrices (domain u.2.domainSize) td := by
      unfold circuitSetup; rw [hu]
    rw [e, (C105_setup _ _ _).1, hi, hl, hs]
    exact Iff.rfl

/-- C113: the sign circuit of the public keys: set up with any triple, the proof for a triple is accepted
if it is on the curve, and otherwise rejected but for few setups. -/
theorem C113_sign_g2 (P : Pairing FQ_MODULUS G1 G2 GT) (Q : (Fq × Fq) × (Fq × Fq) × (Fq × Fq))
    (A : ProjVar Fq2) {domain : ℕ → EvalDomain Fq} (hD : (domain 2015).Valid) (rr s : Fq) :
    (A.OnCurve g2CoeffB → ∀ (td : Trapdoor Fq G1 G2) pk,
      circuitSetup (yToBitG2Circuit (-5) g2CoeffB.re g2CoeffB.im Q) domain td = .ok pk →
      ∃ proof, circuitProve (yToBitG2Circuit (-5) g2CoeffB.re g2CoeffB.im
          ((A.x.re, A.x.im), (A.y.re, A.y.im), (A.z.re, A.z.im))) domain pk rr s = .ok proof ∧
        verifyProof P pk.vk proof [] = .ok true) ∧
    (¬ A.OnCurve g2CoeffB → 2015 ≤ (domain 2015).size →
      ∀ {g1 : G1} {g2 : G2}, g1 ≠ 0 → g2 ≠ 0 → ∃ lucky : Finset (Fin 5 → Fq),
        lucky.card ≤ (3 * (domain 2015).size + 1) * FQ_MODULUS ^ 4 ∧
        ∀ v ∉ lucky, ∀ pk, circuitSetup (yToBitG2Circuit (-5) g2CoeffB.re g2CoeffB.im Q) domain
            (Trapdoor.ofScalars v g1 g2) = .ok pk →
          ∃ proof, circuitProve (yToBitG2Circuit (-5) g2CoeffB.re g2CoeffB.im
              ((A.x.re, A.x.im), (A.y.re, A.y.im), (A.z.re, A.z.im))) domain pk rr s = .ok proof ∧
            verifyProof P pk.vk proof [] = .ok false) := by
  obtain ⟨u, hu, hc, _, hs⟩ := sign_g2_run (Q := Q) (-5) g2CoeffB.re g2CoeffB.im
  obtain ⟨t, ht, hsat⟩ := C112_sign_g2_decides A
  have hshape := ((alike_yToBitG2Circuit _ _ _ _ _).sameShape hu ht).2
  obtain ⟨hi1, hi2⟩ := keeps_yToBitG2Circuit _ _ _ _ _ t ht
  have hc := hshape.closed hc
  have hsize : t.2.domainSize = 2015 := (sameShape_domainSize hshape).symm.trans hs
  have hlen : t.2.instVals.length = t.2.numInst := by rw [hi1, hi2]; rfl
  constructor
  · intro hA td pk hset
    have := circuit_complete P (alike_yToBitG2Circuit _ _ _ Q _) hset ht hc hlen
      (hsat.2 hA) (by rw [hsize]; exact hD) rr s
    rw [hi2] at this
    exact this
  · intro hA hN g1 g2 h1 h2
    have := circuit_wrong (domain := domain) P (alike_yToBitG2Circuit _ _ _ Q _) ht hc
      hlen (fun h => hA (hsat.1 h)) (by rw [hsize]; exact hD) (by rw [hsize]; exact hN) h1 h2 rr s
    rw [hi2, hsize] at this
    exact this

/-- C113: whatever a prover combines from the elements of the key, the verdict is no but for few setups,
unless the values it uses for the coordinates are on the curve. -/
theorem C113_sign_g2_sound (P : Pairing FQ_MODULUS G1 G2 GT) {Q : (Fq × Fq) × (Fq × Fq) × (Fq × Fq)}
    {u : BoolV × ConstraintSystem FQ_MODULUS}
    (hu : yToBitG2Circuit (-5) g2CoeffB.re g2CoeffB.im Q (.new FQ_MODULUS true) = .ok u)
    {domain : ℕ → EvalDomain Fq} (hD : (domain u.2.domainSize).Valid)
    (hN : u.2.domainSize ≤ (domain u.2.domainSize).size)
    {g1 : G1} {g2 : G2} (h1 : g1 ≠ 0) (h2 : g2 ≠ 0)
    (sa sc : G1Strategy Fq u.2.numInst u.2.numWit (domain u.2.domainSize).size)
    (sb : G2Strategy Fq u.2.numInst u.2.numWit)
    (hx : ¬ (⟨⟨(List.ofFn sc.l).getD 0 0, (List.ofFn sc.l).getD 1 0⟩,
      ⟨(List.ofFn sc.l).getD 2 0, (List.ofFn sc.l).getD 3 0⟩,
      ⟨(List.ofFn sc.l).getD 4 0, (List.ofFn sc.l).getD 5 0⟩⟩ : ProjVar Fq2).OnCurve g2CoeffB) :
    ∃ lucky : Finset (Fin 5 → Fq),
      lucky.card ≤ (3 * (domain u.2.domainSize).size + 1) * FQ_MODULUS ^ 4 ∧
      ∀ v ∉ lucky, ∀ pk, circuitSetup (yToBitG2Circuit (-5) g2CoeffB.re g2CoeffB.im Q) domain
          (Trapdoor.ofScalars v g1 g2) = .ok pk →
        verifyProof P pk.vk ⟨sa.combine pk, sb.combine pk, sc.combine pk⟩ [] = .ok false := by
  obtain ⟨u', hu', hc, hi, _⟩ := sign_g2_run (Q := Q) (-5) g2CoeffB.re g2CoeffB.im
  rw [hu] at hu'
  cases hu'
  have h := circuit_sound P hu hc hD hN h1 h2 sa sc sb (fun _ => 0) fun hsat => hx <| by
    obtain ⟨w, _, hu'⟩ := synth_bind_ok.1 hu
    obtain ⟨t, e, _⟩ := sound_yToBitG2 (ρ := rhoOf (fun _ => 0) sc.l) rfl _ _ _ u hu' hsat
    refine ((C112_sign_g2 hu _ t.yBit).1 ⟨rhoOf (fun _ => 0) sc.l, rfl, hsat, ?_, e⟩).1
    simp only [rhoOf_wit]
  have h0 : List.ofFn (fun _ : Fin u.2.numInst => (0 : Fq)) = [] := by
    rw [List.ofFn_eq_nil_iff]; exact hi
  rw [h0] at h
  exact h

end

/-! ## Concrete cases -/

/-- Three points modulo 7: the powers of two. -/
def threeDomain : EvalDomain (ZMod 7) := ⟨3, 2, 3⟩

theorem threeDomain_valid : threeDomain.Valid where
  root := IsPrimitiveRoot.mk_of_lt 2 (by decide) (by decide) fun l h1 h2 => by
    have h2' : l < 3 := h2
    interval_cases l <;> decide
  shift_ne := by decide
  shift_pow := by decide

/-- The system `w0 * (w0 + 2 one) = x`, with a variable used twice: the matrices say what it says. -/
example (x w : ZMod 7) :
    (ConstraintSystem.mk true 1 1 [] [] [⟨[(1, .wit 0)], [(2, .one), (3, .wit 0), (5, .wit 0)], [(1, .inst 0)]⟩] :
      ConstraintSystem 7).matrices.Satisfied (fullAssignment (fun _ : Fin 1 => x) (fun _ : Fin 1 => w)) ↔
      w * (w + 2) = x := by
  rw [C113_matrices (r := 7) (ρ := fun v => match v with | .one => 1 | .inst _ => x | .wit _ => w)
    (by
      simp only [List.mem_append, List.mem_cons, List.not_mem_nil, or_false]
      rintro q rfl t ht
      simp only [List.mem_cons, List.not_mem_nil, or_false] at ht
      rcases ht with (rfl | rfl | rfl | rfl) | rfl <;> simp) _ _ rfl (fun _ => rfl) (fun _ => rfl)]
  have e : (3 : ZMod 7) * w + 5 * w = w := by
    rw [← add_mul]
    have : (3 : ZMod 7) + 5 = 1 := by decide
    rw [this, one_mul]
  simp [e, add_comm]

/-- The square circuit, set up without a value, has a key; the proof of 3 is accepted for 2 = 3 * 3, and
without a value there is no proof. -/
example : ∃ pk, circuitSetup (testCircuit none) (fun _ => threeDomain)
      (Trapdoor.ofScalars (r := 7) ![1, 2, 3, 4, 5] (1 : ZMod 7) (1 : ZMod 7)) = .ok pk ∧
    (∃ proof, circuitProve (testCircuit (some 3)) (fun _ => threeDomain) pk 2 6 = .ok proof ∧
      verifyProof (toyPairing 7) pk.vk proof [2] = .ok true) ∧
    circuitProve (testCircuit (none : Option (ZMod 7))) (fun _ => threeDomain) pk 2 6 = .err () := by
  obtain ⟨pk, h⟩ := (C113_square_setup none (fun _ => threeDomain)
    (Trapdoor.ofScalars (r := 7) ![1, 2, 3, 4, 5] (1 : ZMod 7) (1 : ZMod 7))).2
      ⟨by decide, by decide, by decide⟩
  exact ⟨pk, h, C113_square (toyPairing 7) threeDomain_valid h 3 2 6, C113_square_missing _ _ _ _⟩

/-- No combination of the key proves 5, which is not a square modulo 7. -/
example (sa sc : G1Strategy (ZMod 7) 1 5 3) (sb : G2Strategy (ZMod 7) 1 5) :
    ∃ lucky : Finset (Fin 5 → ZMod 7), lucky.card ≤ (3 * 3 + 1) * 7 ^ 4 ∧
      ∀ v ∉ lucky, ∀ pk, circuitSetup (testCircuit none) (fun _ => threeDomain)
          (Trapdoor.ofScalars v (1 : ZMod 7) (1 : ZMod 7)) = .ok pk →
        verifyProof (toyPairing 7) pk.vk ⟨sa.combine pk, sb.combine pk, sc.combine pk⟩ [5] = .ok false :=
  C113_square_sound (toyPairing 7) none (domain := fun _ => threeDomain) threeDomain_valid le_rfl
    (by decide) (by decide) sa sc sb (out := 5) (by decide)

instance fact_prime_193 : Fact (Nat.Prime 193) := ⟨by norm_num⟩

/-- 96 points modulo 193. -/
def domain96 : EvalDomain (ZMod 193) := ⟨96, 25, 5⟩

theorem domain96_valid : domain96.Valid where
  root := IsPrimitiveRoot.mk_of_lt 25 (by decide) (by decide +kernel) fun l h1 h2 => by
    have h2' : l < 96 := h2
    have : ∀ l : Fin 96, 0 < l.val → (25 : ZMod 193) ^ l.val ≠ 1 := by decide +kernel
    exact this ⟨l, h2'⟩ h1
  shift_ne := by decide
  shift_pow := by decide +kernel

/-- The size of the bitmap circuit of three absent bits. -/
def bitmapSize (o : Outcome SynthErr (Unit × ConstraintSystem 193)) : ℕ :=
  match o with
  | .ok u => u.2.domainSize
  | _ => 0

theorem bitmapSize_le : bitmapSize (bitmapCircuit true [none, none, none] 0 false (.new 193 true)) ≤ 96 := by
  decide +kernel

/-- The bitmap circuit, set up with three absent bits: the proof for one zero of at most one is accepted,
that for two zeros of at most one is made, and rejected but for few setups. -/
example (td : Trapdoor (ZMod 193) (ZMod 193) (ZMod 193)) (hg : td.gamma ≠ 0) (hd : td.delta ≠ 0)
    (rr s : ZMod 193) :
    (∃ pk, circuitSetup (bitmapCircuit true [none, none, none] 0 false) (fun _ => domain96) td = .ok pk ∧
      ∃ proof, circuitProve (bitmapCircuit true ([true, false, true].map some) 1 false)
          (fun _ => domain96) pk rr s = .ok proof ∧
        verifyProof (toyPairing 193) pk.vk proof [] = .ok true) ∧
    ∃ lucky : Finset (Fin 5 → ZMod 193), lucky.card ≤ (3 * 96 + 1) * 193 ^ 4 ∧
      ∀ v ∉ lucky, ∀ pk, circuitSetup (bitmapCircuit true [none, none, none] 0 false)
          (fun _ => domain96) (Trapdoor.ofScalars v (1 : ZMod 193) (1 : ZMod 193)) = .ok pk →
        ∃ proof, circuitProve (bitmapCircuit true ([false, false, true].map some) 1 false)
            (fun _ => domain96) pk rr s = .ok proof ∧
          verifyProof (toyPairing 193) pk.vk proof [] = .ok false := by
  have hsize : ∀ u, bitmapCircuit true [none, none, none] 0 false (.new 193 true) = .ok u →
      u.2.domainSize ≤ 96 := fun u hu => by
    have := bitmapSize_le
    rwa [hu] at this
  constructor
  · obtain ⟨pk, h⟩ := (C113_bitmap_setup (by decide) true [none, none, none] 0 false
      (fun _ => domain96) td).2 ⟨by simp, hg, hd, fun u hu => by
        have := hsize u hu
        unfold ConstraintSystem.domainSize at this
        change _ < 96
        omega⟩
    exact ⟨pk, h, C113_bitmap (by decide) (toyPairing 193) (bits := [true, false, true]) rfl (by decide)
      (by decide) (by decide) (by decide) (fun _ _ => domain96_valid) h rr s⟩
  · obtain ⟨u, hu⟩ := ((C112_setup (p := 193) (by decide)).2.1 true [none, none, none] 0 false).2 (by simp)
    exact C113_bitmap_wrong (by decide) (toyPairing 193) (bits := [false, false, true]) rfl (by simp)
      (by decide) (by decide) (.inr (by decide)) (.inr (.inl (by decide)))
      (domain := fun _ => domain96) hu domain96_valid (hsize u hu) (by decide) (by decide) rr s

/-- A prover using 2 as the first value of the bitmap is rejected but for few setups. -/
example {u : Unit × ConstraintSystem 193}
    (hu : bitmapCircuit true [none, none, none] 0 false (.new 193 true) = .ok u)
    (sa sc : G1Strategy (ZMod 193) u.2.numInst u.2.numWit 96) (sb : G2Strategy (ZMod 193) u.2.numInst u.2.numWit)
    (h : (List.ofFn sc.l).getD 0 0 = 2) :
    ∃ lucky : Finset (Fin 5 → ZMod 193), lucky.card ≤ (3 * 96 + 1) * 193 ^ 4 ∧
      ∀ v ∉ lucky, ∀ pk, circuitSetup (bitmapCircuit true [none, none, none] 0 false)
          (fun _ => domain96) (Trapdoor.ofScalars v (1 : ZMod 193) (1 : ZMod 193)) = .ok pk →
        verifyProof (toyPairing 193) pk.vk ⟨sa.combine pk, sb.combine pk, sc.combine pk⟩ [] = .ok false := by
  refine C113_bitmap_sound (by decide) (toyPairing 193) (by decide) hu (domain := fun _ => domain96)
    domain96_valid ?_ (by decide) (by decide) sa sc sb ?_
  · have := bitmapSize_le
    rwa [hu] at this
  · rintro ⟨ts, hts, _⟩
    cases ts with
    | nil => simp at hts
    | cons t ts =>
      have h0 := congrArg List.head? hts
      simp only [List.length_cons, List.length_nil, List.range_succ, List.range_zero, List.nil_append,
        List.map_cons, List.map_nil, List.cons_append, List.head?_cons,
        Option.some.injEq] at h0
      rw [h] at h0
      cases t <;> revert h0 <;> decide

/-- 2048 points of the field of the curve. -/
def domain2048 : EvalDomain Fq :=
  ⟨2048, 103181813677129947152193940296234760550272245449631231147124214701416204532833999301966188516951681435252657076917, 2⟩

theorem fq_pow_val (a n : ℕ) : ((a : Fq) ^ n).val = a ^ n % FQ_MODULUS := by
  rw [← Nat.cast_pow, ZMod.val_natCast]

theorem domain2048_valid : domain2048.Valid where
  root := by
    have hx : domain2048.root = ((103181813677129947152193940296234760550272245449631231147124214701416204532833999301966188516951681435252657076917 : ℕ) : Fq) := by rw [Nat.cast_ofNat]; rfl
    have h1 : ¬ domain2048.root ^ 2 ^ 10 = 1 := fun h => by
      have := congrArg ZMod.val h
      rw [hx, fq_pow_val] at this
      revert this
      decide +kernel
    have h2 : domain2048.root ^ 2 ^ (10 + 1) = 1 := by
      apply ZMod.val_injective
      rw [hx, fq_pow_val]
      decide +kernel
    have := orderOf_eq_prime_pow h1 h2
    have e : domain2048.size = orderOf domain2048.root := this.symm
    rw [e]
    exact IsPrimitiveRoot.orderOf _
  shift_ne := fun h => by
    have := congrArg ZMod.val h
    revert this
    decide +kernel
  shift_pow := fun h => by
    have hx : domain2048.shift = ((2 : ℕ) : Fq) := by rw [Nat.cast_ofNat]; rfl
    have := congrArg ZMod.val h
    rw [hx, fq_pow_val] at this
    revert this
    decide +kernel

/-- The sign circuit of the public keys with the pairing of the toy groups: the proof for the point at
infinity is accepted; that for the triple of ones, not on the curve, is made, and rejected but for few
setups. -/
example (td : Trapdoor Fq Fq Fq) (hg : td.gamma ≠ 0) (hd : td.delta ≠ 0) (rr s : Fq) :
    (∃ pk, circuitSetup (yToBitG2Circuit (-5) g2CoeffB.re g2CoeffB.im ((1, 1), (1, 1), (1, 1)))
        (fun _ => domain2048) td = .ok pk ∧
      ∃ proof, circuitProve (yToBitG2Circuit (-5) g2CoeffB.re g2CoeffB.im ((0, 0), (1, 0), (0, 0)))
          (fun _ => domain2048) pk rr s = .ok proof ∧
        verifyProof (toyPairing FQ_MODULUS) pk.vk proof [] = .ok true) ∧
    ∃ lucky : Finset (Fin 5 → Fq), lucky.card ≤ (3 * 2048 + 1) * FQ_MODULUS ^ 4 ∧
      ∀ v ∉ lucky, ∀ pk, circuitSetup (yToBitG2Circuit (-5) g2CoeffB.re g2CoeffB.im
          ((1, 1), (1, 1), (1, 1))) (fun _ => domain2048) (Trapdoor.ofScalars v (1 : Fq) (1 : Fq)) = .ok pk →
        ∃ proof, circuitProve (yToBitG2Circuit (-5) g2CoeffB.re g2CoeffB.im ((1, 0), (1, 0), (1, 0)))
            (fun _ => domain2048) pk rr s = .ok proof ∧
          verifyProof (toyPairing FQ_MODULUS) pk.vk proof [] = .ok false := by
  constructor
  · obtain ⟨pk, h⟩ := ((C113_sign_setup (fun _ => domain2048) td).2 (-5) g2CoeffB.re g2CoeffB.im
      ((1, 1), (1, 1), (1, 1))).2 ⟨by decide, hg, hd⟩
    refine ⟨pk, h, (C113_sign_g2 (toyPairing FQ_MODULUS) _ ⟨⟨0, 0⟩, ⟨1, 0⟩, ⟨0, 0⟩⟩
      (domain := fun _ => domain2048) domain2048_valid rr s).1 ?_ td pk h⟩
    unfold ProjVar.OnCurve
    decide +kernel
  · refine (C113_sign_g2 (G1 := Fq) (G2 := Fq) (toyPairing FQ_MODULUS) _ ⟨⟨1, 0⟩, ⟨1, 0⟩, ⟨1, 0⟩⟩
      (domain := fun _ => domain2048) domain2048_valid rr s).2 ?_ (by decide) one_ne_zero one_ne_zero
    unfold ProjVar.OnCurve
    decide +kernel

/-- The sign circuit of the signatures, on `y ^ 2 = x ^ 3 + 1`: the proof for `(0, 1, 1)` is accepted,
that for `(1, 1, 1)` rejected but for few setups, and so is a prover using `(1, 1, 1)`. -/
example (td : Trapdoor Fq Fq Fq) (hg : td.gamma ≠ 0) (hd : td.delta ≠ 0) (rr s : Fq) :
    ∃ u, yToBitG1Circuit (1 : Fq) (0, 0, 0) (.new FQ_MODULUS true) = .ok u ∧
    (∃ pk, circuitSetup (yToBitG1Circuit 1 (0, 0, 0)) (fun _ => domain2048) td = .ok pk ∧
      ∃ proof, circuitProve (yToBitG1Circuit 1 (0, 1, 1)) (fun _ => domain2048) pk rr s = .ok proof ∧
        verifyProof (toyPairing FQ_MODULUS) pk.vk proof [] = .ok true) ∧
    (∃ lucky : Finset (Fin 5 → Fq), lucky.card ≤ (3 * 2048 + 1) * FQ_MODULUS ^ 4 ∧
      ∀ v ∉ lucky, ∀ pk, circuitSetup (yToBitG1Circuit 1 (0, 0, 0)) (fun _ => domain2048)
          (Trapdoor.ofScalars v (1 : Fq) (1 : Fq)) = .ok pk →
        ∃ proof, circuitProve (yToBitG1Circuit 1 (1, 1, 1)) (fun _ => domain2048) pk rr s = .ok proof ∧
          verifyProof (toyPairing FQ_MODULUS) pk.vk proof [] = .ok false) ∧
    ∀ (sa sc : G1Strategy Fq u.2.numInst u.2.numWit 2048) (sb : G2Strategy Fq u.2.numInst u.2.numWit),
      (List.ofFn sc.l).getD 0 0 = 1 → (List.ofFn sc.l).getD 1 0 = 1 → (List.ofFn sc.l).getD 2 0 = 1 →
      ∃ lucky : Finset (Fin 5 → Fq), lucky.card ≤ (3 * 2048 + 1) * FQ_MODULUS ^ 4 ∧
        ∀ v ∉ lucky, ∀ pk, circuitSetup (yToBitG1Circuit 1 (0, 0, 0)) (fun _ => domain2048)
            (Trapdoor.ofScalars v (1 : Fq) (1 : Fq)) = .ok pk →
          verifyProof (toyPairing FQ_MODULUS) pk.vk ⟨sa.combine pk, sb.combine pk, sc.combine pk⟩ [] =
            .ok false := by
  have hr : FQ_MODULUS ≠ 2 := by decide +kernel
  obtain ⟨u, hu⟩ := (C112_setup hr).2.2.1 (1 : Fq) (0, 0, 0)
  have hs : u.2.domainSize ≤ 2048 := by
    unfold ConstraintSystem.domainSize
    rw [(C112_constraints true).1 _ _ u hu, (keeps_yToBitG1Circuit _ _ _ u hu).1]
    decide
  refine ⟨u, hu, ?_, ?_, fun sa sc sb h0 h1 h2 => ?_⟩
  · obtain ⟨pk, h⟩ := ((C113_sign_setup (fun _ => domain2048) td).1 1 (0, 0, 0)).2 ⟨by decide, hg, hd⟩
    refine ⟨pk, h, (C113_sign_g1 hr (toyPairing FQ_MODULUS) ⟨0, 1, 1⟩
      (domain := fun _ => domain2048) hu domain2048_valid rr s).1 ?_ td pk h⟩
    unfold ProjVar.OnCurve
    decide +kernel
  · refine (C113_sign_g1 (G1 := Fq) (G2 := Fq) hr (toyPairing FQ_MODULUS) ⟨1, 1, 1⟩
      (domain := fun _ => domain2048) hu domain2048_valid rr s).2 ?_ hs one_ne_zero one_ne_zero
    unfold ProjVar.OnCurve
    decide +kernel
  · refine C113_sign_g1_sound hr (toyPairing FQ_MODULUS) hu (domain := fun _ => domain2048)
      domain2048_valid hs one_ne_zero one_ne_zero sa sc sb ?_
    rw [h0, h1, h2]
    unfold ProjVar.OnCurve
    decide +kernel

/-- A prover using the triple of ones in the sign circuit of the public keys is rejected but for few
setups. -/
example {u : BoolV × ConstraintSystem FQ_MODULUS}
    (hu : yToBitG2Circuit (-5) g2CoeffB.re g2CoeffB.im ((0, 0), (0, 0), (0, 0)) (.new FQ_MODULUS true) =
      .ok u)
    (sa sc : G1Strategy Fq u.2.numInst u.2.numWit 2048) (sb : G2Strategy Fq u.2.numInst u.2.numWit)
    (h : ∀ i < 6, (List.ofFn sc.l).getD i 0 = 1) :
    ∃ lucky : Finset (Fin 5 → Fq), lucky.card ≤ (3 * 2048 + 1) * FQ_MODULUS ^ 4 ∧
      ∀ v ∉ lucky, ∀ pk, circuitSetup (yToBitG2Circuit (-5) g2CoeffB.re g2CoeffB.im
          ((0, 0), (0, 0), (0, 0))) (fun _ => domain2048) (Trapdoor.ofScalars v (1 : Fq) (1 : Fq)) = .ok pk →
        verifyProof (toyPairing FQ_MODULUS) pk.vk ⟨sa.combine pk, sb.combine pk, sc.combine pk⟩ [] =
          .ok false := by
  refine C113_sign_g2_sound (toyPairing FQ_MODULUS) hu (domain := fun _ => domain2048)
    domain2048_valid ?_ one_ne_zero one_ne_zero sa sc sb ?_
  · unfold ConstraintSystem.domainSize
    rw [(C112_constraints true).2 _ _ _ _ u hu, (keeps_yToBitG2Circuit _ _ _ _ _ u hu).1]
    decide
  · rw [h 0 (by decide), h 1 (by decide), h 2 (by decide), h 3 (by decide), h 4 (by decide), h 5 (by decide)]
    unfold ProjVar.OnCurve
    decide +kernel

end Verif
