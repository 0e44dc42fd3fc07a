import Verif.Lemmas.SynthesisEpochs
import Verif.Lemmas.SynthesisGroth

/-!
# Public inputs of the whole circuit

Only the packing of the hashes allocates public inputs.
-/

set_option linter.unusedSectionVars false

namespace Verif

section

variable {p : ℕ}

theorem keeps_forM {α : Type} {f : α → Synth p Unit} (h : ∀ a, KeepsInputs (f a)) (l : List α) :
    KeepsInputs (Synth.forM f l) := by
  induction l with
  | nil => exact keeps_pure _
  | cons a as ih => exact (h a).bind fun _ => ih

theorem keeps_enforceNextEpoch (a b : LinComb p) : KeepsInputs (enforceNextEpoch a b) :=
  (keeps_isEqZero _).bind fun _ => keeps_enforce _ _ _

theorem keeps_frToBitsV (x : LinComb p) (n : ℕ) : KeepsInputs (frToBitsV x n) := by
  refine (keeps_toBitsLe _).bind fun _ => ?_
  split
  · exact keeps_panic
  · exact keeps_pure _

theorem keeps_g2ToBitsV (v : G2V p) : KeepsInputs (g2ToBitsV v) :=
  (keeps_toBitsLe _).bind fun _ => (keeps_toBitsLe _).bind fun _ => (keeps_yToBitG2 _ _).bind fun _ =>
    keeps_pure _

theorem keeps_allocPointG1 (b : ZMod p) (x y z : ConstraintSystem p → Outcome SynthErr (ZMod p)) :
    KeepsInputs (allocPointG1 b x y z) :=
  (keeps_fpWitness _).bind fun _ => (keeps_fpWitness _).bind fun _ => (keeps_fpWitness _).bind fun _ =>
    (keeps_fpMul _ _).bind fun _ => (keeps_fpMul _ _).bind fun _ => (keeps_fpMul _ _).bind fun _ =>
      (keeps_fpMul _ _).bind fun _ => (keeps_enforce _ _ _).bind fun _ => keeps_pure _

theorem keeps_allocPointG2 (nr b0 b1 : ZMod p)
    (x y z : ConstraintSystem p → Outcome SynthErr (ZMod p × ZMod p)) :
    KeepsInputs (allocPointG2 nr b0 b1 x y z) :=
  (keeps_fp2Witness _).bind fun _ => (keeps_fp2Witness _).bind fun _ => (keeps_fp2Witness _).bind fun _ =>
    (keeps_fp2Square _ _).bind fun _ => (keeps_fp2Square _ _).bind fun _ =>
      (keeps_fp2Square _ _).bind fun _ => (keeps_fp2Mul _ _ _).bind fun _ =>
        (keeps_fp2MulEquals _ _ _ _).bind fun _ => keeps_pure _

theorem keeps_fpIsEq (a b : LinComb p) : KeepsInputs (fpIsEq a b) :=
  (keeps_boolWitness _).bind fun _ => (keeps_newWitness _).bind fun _ => (keeps_enforce _ _ _).bind fun _ =>
    (keeps_enforce _ _ _).bind fun _ => keeps_pure _

theorem keeps_fp2IsEq (x y : Fp2V p) : KeepsInputs (fp2IsEq x y) :=
  (keeps_fpIsEq _ _).bind fun _ => (keeps_fpIsEq _ _).bind fun _ => keeps_boolAnd _ _

theorem keeps_fpSelect (b : BoolV) (t f : LinComb p) : KeepsInputs (fpSelect b t f) := by
  unfold fpSelect
  split <;> first
    | exact keeps_pure _
    | exact (keeps_newWitness _).bind fun _ => (keeps_enforce _ _ _).bind fun _ => keeps_pure _

theorem keeps_fp2Select (b : BoolV) (t f : Fp2V p) : KeepsInputs (fp2Select b t f) :=
  (keeps_fpSelect _ _ _).bind fun _ => (keeps_fpSelect _ _ _).bind fun _ => keeps_pure _

theorem keeps_g2IsEqConst (nr : ZMod p) (x y : ZMod p × ZMod p) (v : G2V p) :
    KeepsInputs (g2IsEqConst nr x y v) :=
  (keeps_fp2IsEq _ _).bind fun _ => (keeps_fp2IsEq _ _).bind fun _ => (keeps_boolAnd _ _).bind fun _ =>
    (keeps_fp2IsEq _ _).bind fun _ => (keeps_boolAnd _ _).bind fun _ => keeps_boolOr _ _

theorem keeps_enforceNotPadding (nr : ZMod p) (x y : ZMod p × ZMod p) (v : G2V p) (b : BoolV) :
    KeepsInputs (enforceNotPadding nr x y v b) :=
  (keeps_g2IsEqConst _ _ _ _).bind fun _ => (keeps_karyAnd _ _).bind fun _ => keeps_boolEnforceEqual _ _

theorem keeps_g2SelectZero (b : BoolV) (v : G2V p) : KeepsInputs (g2SelectZero b v) :=
  (keeps_fp2Select _ _ _).bind fun _ => (keeps_fp2Select _ _ _).bind fun _ =>
    (keeps_fp2Select _ _ _).bind fun _ => keeps_pure _

theorem keeps_g2AddRest (nr b0 b1 : ZMod p) (a b c d e f : Fp2V p) :
    KeepsInputs (g2AddRest nr b0 b1 a b c d e f) :=
  (keeps_fp2Mul _ _ _).bind fun _ => (keeps_fp2Mul _ _ _).bind fun _ => (keeps_fp2Mul _ _ _).bind fun _ =>
    (keeps_fp2Mul _ _ _).bind fun _ => (keeps_fp2Mul _ _ _).bind fun _ => (keeps_fp2Mul _ _ _).bind fun _ =>
      keeps_pure _

theorem keeps_g2AddAssign (drop : Bool) (nr b0 b1 : ZMod p) (acc : Option (G2V p)) (v : G2V p) :
    KeepsInputs (g2AddAssign drop nr b0 b1 acc v) := by
  unfold g2AddAssign
  split
  · exact (keeps_fp2Mul _ _ _).bind fun _ => (keeps_fp2Mul _ _ _).bind fun _ =>
      (keeps_fp2Mul _ _ _).bind fun _ => (keeps_fp2Mul _ _ _).bind fun _ => (keeps_fp2Mul _ _ _).bind fun _ =>
        (keeps_fp2Mul _ _ _).bind fun _ => keeps_g2AddRest _ _ _ _ _ _ _ _ _
  · split
    · exact keeps_pure _
    · exact keeps_g2AddRest _ _ _ _ _ _ _ _ _

theorem keeps_aggregateLoop (drop : Bool) (nr b0 b1 : ZMod p) (x y : ZMod p × ZMod p)
    (l : List (G2V p × BoolV)) (acc : Option (G2V p)) :
    KeepsInputs (aggregateLoop drop nr b0 b1 x y l acc) := by
  induction l generalizing acc with
  | nil => exact keeps_pure _
  | cons k ks ih =>
    exact (keeps_enforceNotPadding _ _ _ _ _).bind fun _ => (keeps_g2SelectZero _ _).bind fun _ =>
      (keeps_g2AddAssign _ _ _ _ _ _).bind fun _ => ih _

theorem keeps_aggregateAllLoop (drop : Bool) (nr b0 b1 : ZMod p) (l : List (G2V p))
    (acc : Option (G2V p)) : KeepsInputs (aggregateAllLoop drop nr b0 b1 l acc) := by
  induction l generalizing acc with
  | nil => exact keeps_pure _
  | cons k ks ih => exact (keeps_g2AddAssign _ _ _ _ _ _).bind fun _ => ih _

theorem keeps_enforceBitmapV (oc drop : Bool) (nr b0 b1 : ZMod p) (x y : ZMod p × ZMod p)
    (ks : List (G2V p)) (bits : List BoolV) (m : LinComb p) :
    KeepsInputs (enforceBitmapV oc drop nr b0 b1 x y ks bits m) := by
  refine (keeps_maxOccurrences _ _ _ _).bind fun _ => ?_
  unfold enforceAggregatedPubkeysV
  split
  · exact keeps_panic
  · exact keeps_aggregateLoop _ _ _ _ _ _ _ _

theorem keeps_g2Select (b : BoolV) (u v : G2V p) : KeepsInputs (g2Select b u v) :=
  (keeps_fp2Select _ _ _).bind fun _ => (keeps_fp2Select _ _ _).bind fun _ =>
    (keeps_fp2Select _ _ _).bind fun _ => keeps_pure _

theorem keeps_g1Select (b : BoolV) (u v : G1V p) : KeepsInputs (g1Select b u v) :=
  (keeps_fpSelect _ _ _).bind fun _ => (keeps_fpSelect _ _ _).bind fun _ =>
    (keeps_fpSelect _ _ _).bind fun _ => keeps_pure _

theorem keeps_fp2MulByInverse (nr : ZMod p) (x d : Fp2V p) : KeepsInputs (fp2MulByInverse nr x d) :=
  KeepsInputs.bind ((keeps_fp2Witness _).bind fun _ => (keeps_fp2MulEquals _ _ _ _).bind fun _ =>
    keeps_pure _) fun _ => keeps_fp2Mul _ _ _

/-- The packing: the returned variables are the new public inputs, in order. -/
theorem inputs_packChunk {chunk : List BoolV} {cs : ConstraintSystem p} {r : LinComb p × ConstraintSystem p}
    (hr : packChunk true chunk cs = .ok r) :
    r.1 = lcVar (.inst cs.numInst) ∧ r.2.numInst = cs.numInst + 1 := by
  obtain ⟨x, hx, hr⟩ := synth_bind_ok.1 hr
  have h : x.1 = .inst cs.numInst ∧ x.2.numInst = cs.numInst + 1 := by
    rw [if_pos rfl] at hx
    unfold newInput at hx
    split at hx
    · cases hx; exact ⟨rfl, rfl⟩
    · obtain ⟨v, _, rfl⟩ := (Outcome.map_eq_ok_iff _ _ _).1 hx
      exact ⟨rfl, rfl⟩
  obtain ⟨b, hb, hr⟩ := synth_bind_ok.1 hr
  have h2 := keeps_toBitsLe _ _ _ hb
  split at hr
  · cases hr
  · obtain ⟨y, hy, hr⟩ := synth_bind_ok.1 hr
    have h3 := keeps_forM (fun t : BoolV × BoolV => keeps_boolEnforceEqual (p := p) t.1 t.2) _ _ _ hy
    cases hr
    exact ⟨by rw [h.1], by rw [h3.1, h2.1, h.2]⟩

theorem inputs_packAll {l : List (List BoolV)} {cs : ConstraintSystem p}
    {r : List (LinComb p) × ConstraintSystem p} (hr : Synth.mapM (packChunk true) l cs = .ok r) :
    r.1 = (List.range l.length).map (fun i => lcVar (.inst (cs.numInst + i))) ∧
      r.2.numInst = cs.numInst + l.length := by
  induction l generalizing cs r with
  | nil => cases hr; exact ⟨rfl, rfl⟩
  | cons c l ih =>
    obtain ⟨x, hx, hr⟩ := synth_bind_ok.1 hr
    obtain ⟨y, hy, hr⟩ := synth_bind_ok.1 hr
    cases hr
    obtain ⟨h1, h2⟩ := inputs_packChunk hx
    obtain ⟨h3, h4⟩ := ih hy
    refine ⟨?_, by rw [h4, h2, List.length_cons]; omega⟩
    dsimp only
    rw [h1, h3, h2, List.length_cons, List.range_succ_eq_map, List.map_cons, List.map_map]
    simp only [Function.comp_def, Nat.add_assoc, Nat.add_comm 1, Nat.add_zero, Nat.succ_eq_add_one]

theorem inputs_multipack {n : ℕ} {bits : List BoolV} {cs : ConstraintSystem p}
    {r : List (LinComb p) × ConstraintSystem p} (hr : multipack true n bits cs = .ok r) :
    r.1 = (List.range r.1.length).map (fun i => lcVar (.inst (cs.numInst + i))) ∧
      r.2.numInst = cs.numInst + r.1.length := by
  obtain ⟨h1, h2⟩ := inputs_packAll hr
  have : r.1.length = (chunks n bits).length := by rw [h1]; simp
  rw [this]
  exact ⟨h1, h2⟩

end

theorem keeps_epochToBits (d : EpochDataOpt) : KeepsInputs (epochToBits d) :=
  (keeps_fpWitness _).bind fun _ => (keeps_frToBitsV _ _).bind fun _ => (keeps_fpWitness _).bind fun _ =>
    (keeps_frToBitsV _ _).bind fun _ => (keeps_fpWitness _).bind fun _ => (keeps_frToBitsV _ _).bind fun _ =>
    (keeps_fpWitness _).bind fun _ => (keeps_frToBitsV _ _).bind fun _ => (keeps_fpWitness _).bind fun _ =>
    (keeps_frToBitsV _ _).bind fun _ => (keeps_mapM (fun _ => (keeps_allocPointG2 _ _ _ _ _ _).bind fun _ =>
      (keeps_g2ToBitsV _).bind fun _ => keeps_pure _) _).bind fun _ => keeps_pure _

/-- The outer gadgets allocate no public inputs. -/
structure OuterGadgets.Keeps {H : Type} (O : OuterGadgets H) : Prop where
  hash : ∀ b xs ys, KeepsInputs (O.hash b xs ys)
  prepareG1 : ∀ v, KeepsInputs (O.prepareG1 v)
  prepareG2 : ∀ v, KeepsInputs (O.prepareG2 v)
  verify : ∀ ks ms s, KeepsInputs (O.verify ks ms s)
  blake : ∀ m b, KeepsInputs (O.blake m b)
  groth : ∀ ins h, KeepsInputs (O.groth ins h)

section

variable {HP VK : Type} {O : OuterGadgets (HashToBitsHelper HP VK)}

theorem keeps_constrainUpdateV (hO : O.Keeps) (oc drop gh : Bool) (pad : (Fq × Fq) × (Fq × Fq)) (n : ℕ)
    (prev : PreviousV FQ_MODULUS) (eb : BoolV) (u : SingleUpdateOpt) :
    KeepsInputs (constrainUpdateV O oc drop gh pad n prev eb u) := by
  unfold constrainUpdateV
  split
  · exact keeps_panic
  · exact KeepsInputs.bind ((keeps_epochToBits _).bind fun _ => (keeps_enforceNextEpoch _ _).bind fun _ =>
      (hO.hash _ _ _).bind fun _ => keeps_pure _) fun _ =>
      KeepsInputs.bind ((keeps_isEqZero _).bind fun _ => (keeps_boolAnd _ _).bind fun _ =>
        keeps_enforce _ _ _) fun _ =>
      (keeps_mapM (fun _ => keeps_boolWitness _) _).bind fun _ =>
      (keeps_enforceBitmapV _ _ _ _ _ _ _ _ _ _).bind fun _ => keeps_pure _

theorem keeps_lastRoundV (b drop : Bool) (ks : List (G2V FQ_MODULUS)) (l : List BoolV) (x : BoolV) :
    KeepsInputs (lastRoundV b drop ks l x) := by
  unfold lastRoundV
  split
  · exact (keeps_aggregateAllLoop _ _ _ _ _ _).bind fun _ => (keeps_fp2MulByInverse _ _ _).bind fun _ =>
      (keeps_fp2MulByInverse _ _ _).bind fun _ => (keeps_g2ToBitsV _).bind fun _ =>
        (keeps_boolEnforceEqual _ _).bind fun _ => keeps_pure _
  · exact keeps_pure _

theorem keeps_epochsLoop (hO : O.Keeps) (oc drop gh : Bool) (a : Fq × Fq) (d : (Fq × Fq) × (Fq × Fq)) (n : ℕ)
    (eb : BoolV) (us : List SingleUpdateOpt) (prev : PreviousV FQ_MODULUS) :
    KeepsInputs (epochsLoop O oc drop gh a d n eb us prev) := by
  induction us generalizing prev with
  | nil => exact keeps_pure _
  | cons u us ih =>
    unfold epochsLoop
    exact (keeps_constrainUpdateV hO _ _ _ _ _ _ _ _).bind fun _ => (keeps_isEqZero _).bind fun _ =>
      KeepsInputs.bind ((keeps_fpSelect _ _ _).bind fun _ => (keeps_fpSelect _ _ _).bind fun _ =>
        (keeps_mapM (fun _ => keeps_g2Select _ _ _) _).bind fun _ => (keeps_fpSelect _ _ _).bind fun _ =>
          keeps_pure _) fun _ =>
      KeepsInputs.bind ((keeps_g2Select _ _ _).bind fun _ => (hO.prepareG2 _).bind fun _ =>
        (keeps_g1Select _ _ _).bind fun _ => (hO.prepareG1 _).bind fun _ => keeps_pure _) fun _ =>
      (keeps_lastRoundV _ _ _ _ _).bind fun _ => (ih _).bind fun _ => keeps_pure _

theorem keeps_enforceEpochsV (hO : O.Keeps) (oc drop : Bool) (a : Fq × Fq) (d : (Fq × Fq) × (Fq × Fq))
    (s : ValidatorSetUpdateOpt G1Point HP VK) : KeepsInputs (enforceEpochsV O oc drop a d s) :=
  (keeps_epochToBits _).bind fun _ => (keeps_isEqZero _).bind fun _ =>
    (keeps_epochsLoop hO _ _ _ _ _ _ _ _ _).bind fun _ =>
      KeepsInputs.bind ((keeps_allocPointG1 _ _ _ _).bind fun _ => hO.verify _ _ _) fun _ => keeps_pure _

/-- The public inputs of the circuit are the variables it returns, in order. -/
theorem inputs_generateConstraints (hO : O.Keeps) {oc drop : Bool} {a : Fq × Fq}
    {d : (Fq × Fq) × (Fq × Fq)} {s : ValidatorSetUpdateOpt G1Point HP VK} {cs : ConstraintSystem FQ_MODULUS}
    {r : List (LinComb FQ_MODULUS) × ConstraintSystem FQ_MODULUS}
    (hr : generateConstraints O oc drop a d s cs = .ok r) :
    r.1 = (List.range r.1.length).map (fun i => lcVar (.inst (cs.numInst + i))) ∧
      r.2.numInst = cs.numInst + r.1.length := by
  have key : ∀ {b : EdgeBitsV} {c : ConstraintSystem FQ_MODULUS}
      {r : List (LinComb FQ_MODULUS) × ConstraintSystem FQ_MODULUS}, c.numInst = cs.numInst →
      verifyEdgesV O b c = .ok r →
      r.1 = (List.range r.1.length).map (fun i => lcVar (.inst (cs.numInst + i))) ∧
        r.2.numInst = cs.numInst + r.1.length := by
    intro b c r hc hr
    obtain ⟨x, hx, hr⟩ := synth_bind_ok.1 hr
    obtain ⟨y, hy, hr⟩ := synth_bind_ok.1 hr
    have e1 := (hO.blake _ _ _ _ hx).1
    have e2 := (hO.blake _ _ _ _ hy).1
    have := inputs_multipack hr
    rwa [e2, e1, hc] at this
  obtain ⟨x, hx, hr⟩ := synth_bind_ok.1 hr
  have e1 := (keeps_enforceEpochsV hO _ _ _ _ _ _ _ hx).1
  generalize s.hashHelper = q at hr
  cases q
  · exact key e1 hr
  · obtain ⟨y, hy, hr⟩ := synth_bind_ok.1 hr
    exact key ((hO.groth _ _ _ _ hy).1.trans e1) hr

end

end Verif
