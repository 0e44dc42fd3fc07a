import Verif.Lemmas.SynthesisEpochs

/-!
# Synthesis in the setup

Whatever the prover's run does, the setup's run does without values: where the former succeeds, so does the
latter, with the same variables.
-/

set_option linter.unusedSectionVars false

namespace Verif

section

variable {p : ℕ}

/-- Where `g` succeeds, `g'` succeeds in setup mode, with the same variables. -/
def SetupFollows {α : Type} (g g' : Synth p α) : Prop :=
  ∀ c c' r, c'.setup = true → c.numInst = c'.numInst → c.numWit = c'.numWit → g c = .ok r →
    ∃ r', g' c' = .ok r' ∧ r.1 = r'.1 ∧ r'.2.setup = true ∧ r.2.numInst = r'.2.numInst ∧
      r.2.numWit = r'.2.numWit

theorem SetupFollows.bind {α β : Type} {g g' : Synth p α} {f f' : α → Synth p β} (h : SetupFollows g g')
    (hf : ∀ x, SetupFollows (f x) (f' x)) : SetupFollows (g >>= f) (g' >>= f') := by
  intro c c' r hs h1 h2 h3
  obtain ⟨x, hx, hr⟩ := synth_bind_ok.1 h3
  obtain ⟨x', k1, k2, k3, k4, k5⟩ := h c c' x hs h1 h2 hx
  obtain ⟨r', l1, l2⟩ := hf x.1 x.2 x'.2 r k3 k4 k5 hr
  exact ⟨r', synth_bind_ok.2 ⟨x', k1, k2 ▸ l1⟩, l2⟩

theorem follows_pure {α : Type} (x : α) : SetupFollows (p := p) (Synth.pure x) (Synth.pure x) := by
  intro c c' r hs h1 h2 h3
  cases h3
  exact ⟨_, rfl, rfl, hs, h1, h2⟩

theorem follows_err {α : Type} (e : SynthErr) (g : Synth p α) : SetupFollows (Synth.fail e) g := by
  intro c c' r _ _ _ h3; cases h3

theorem follows_panic {α : Type} (g : Synth p α) : SetupFollows Synth.panic g := by
  intro c c' r _ _ _ h3; cases h3

theorem follows_newWitness (f f' : ConstraintSystem p → Outcome SynthErr (ZMod p)) :
    SetupFollows (newWitness f) (newWitness f') := by
  intro c c' r hs h1 h2 h3
  obtain ⟨a1, a2, a3, _, _⟩ := newWitness_ok h3
  refine ⟨(.wit c'.numWit, { c' with numWit := c'.numWit + 1 }), ?_, by rw [a1, h2], hs, a2.trans h1,
    by rw [a3, h2]⟩
  unfold newWitness
  rw [if_pos hs]

theorem follows_newInput (f f' : ConstraintSystem p → Outcome SynthErr (ZMod p)) :
    SetupFollows (newInput f) (newInput f') := by
  intro c c' r hs h1 h2 h3
  obtain ⟨a1, a2, a3, _, _⟩ := newInput_ok h3
  refine ⟨(.inst c'.numInst, { c' with numInst := c'.numInst + 1 }), ?_, by rw [a1, h1], hs,
    by rw [a2, h1], a3.trans h2⟩
  unfold newInput
  rw [if_pos hs]

theorem follows_enforce (a b c : LinComb p) : SetupFollows (enforce a b c) (enforce a b c) := by
  intro c c' r hs h1 h2 h3
  cases h3
  exact ⟨_, rfl, rfl, hs, h1, h2⟩

theorem follows_mapM {α β γ : Type} {f : α → Synth p γ} {f' : β → Synth p γ} {l : List α} {l' : List β}
    (h : List.Forall₂ (fun a b => SetupFollows (f a) (f' b)) l l') :
    SetupFollows (Synth.mapM f l) (Synth.mapM f' l') := by
  induction h with
  | nil => exact follows_pure _
  | cons h1 _ ih => exact h1.bind fun _ => ih.bind fun _ => follows_pure _

theorem follows_forM {α β : Type} {f : α → Synth p Unit} {f' : β → Synth p Unit} {l : List α}
    {l' : List β} (h : List.Forall₂ (fun a b => SetupFollows (f a) (f' b)) l l') :
    SetupFollows (Synth.forM f l) (Synth.forM f' l') := by
  induction h with
  | nil => exact follows_pure _
  | cons h1 _ ih => exact h1.bind fun _ => ih

theorem follows_boolWitness (f f' : ConstraintSystem p → Outcome SynthErr Bool) :
    SetupFollows (boolWitness f) (boolWitness f') :=
  (follows_newWitness _ _).bind fun _ => (follows_enforce _ _ _).bind fun _ => follows_pure _

theorem follows_boolAnd (a b : BoolV) : SetupFollows (p := p) (boolAnd a b) (boolAnd a b) := by
  unfold boolAnd
  split <;> first
    | exact follows_pure _
    | exact (follows_newWitness _ _).bind fun _ => (follows_enforce _ _ _).bind fun _ => follows_pure _

theorem follows_boolOr (a b : BoolV) : SetupFollows (p := p) (boolOr a b) (boolOr a b) := by
  unfold boolOr
  split <;> first
    | exact follows_pure _
    | exact (follows_boolAnd _ _).bind fun _ => follows_pure _

theorem follows_karyAnd (l : List BoolV) (a : BoolV) : SetupFollows (p := p) (karyAnd a l) (karyAnd a l) := by
  induction l generalizing a with
  | nil => exact follows_pure _
  | cons b bs ih => exact (follows_boolAnd _ _).bind fun _ => ih _

theorem follows_orAll (l : List BoolV) (a : BoolV) : SetupFollows (p := p) (orAll a l) (orAll a l) := by
  induction l generalizing a with
  | nil => exact follows_pure _
  | cons b bs ih => exact (follows_boolOr _ _).bind fun _ => ih _

theorem follows_enforceNand (a b : BoolV) : SetupFollows (p := p) (enforceNand a b) (enforceNand a b) := by
  refine (follows_boolAnd _ _).bind fun r => ?_
  cases r with
  | constant b => cases b <;> first | exact follows_pure _ | exact follows_err _ _
  | is v => exact follows_enforce _ _ _
  | not v => exact follows_enforce _ _ _

theorem follows_boolEnforceEqual (a b : BoolV) :
    SetupFollows (p := p) (boolEnforceEqual a b) (boolEnforceEqual a b) := by
  unfold boolEnforceEqual
  split
  · rename_i x y
    by_cases h : x = y
    · rw [if_pos h]; exact follows_pure _
    · rw [if_neg h]; exact follows_err _ _
  · exact follows_enforce _ _ _

theorem follows_smallerLoop (l : List (Bool × BoolV)) (last : BoolV) (run : List BoolV) :
    SetupFollows (p := p) (smallerLoop l last run) (smallerLoop l last run) := by
  induction l generalizing last run with
  | nil => rw [smallerLoop]; exact follows_pure _
  | cons q qs ih =>
    obtain ⟨e, a⟩ := q
    cases e with
    | true => rw [smallerLoop]; exact ih _ _
    | false =>
      cases run with
      | nil => rw [smallerLoop]; exact (follows_enforceNand _ _).bind fun _ => ih _ _
      | cons c cs =>
        rw [smallerLoop]
        exact (follows_karyAnd _ _).bind fun _ => (follows_enforceNand _ _).bind fun _ => ih _ _

theorem follows_enforceSmallerOrEqualLe (bits : List BoolV) (bound : ℕ) :
    SetupFollows (p := p) (enforceSmallerOrEqualLe bits bound) (enforceSmallerOrEqualLe bits bound) := by
  unfold enforceSmallerOrEqualLe
  dsimp only
  split
  · exact (follows_orAll _ _).bind fun _ => (follows_boolEnforceEqual _ _).bind fun _ =>
      follows_smallerLoop _ _ _
  · exact follows_smallerLoop _ _ _

theorem follows_toNonUniqueBitsLe (x : LinComb p) :
    SetupFollows (toNonUniqueBitsLe x) (toNonUniqueBitsLe x) :=
  (follows_mapM (forall₂_same' (fun _ => follows_boolWitness _ _) _)).bind fun _ =>
    (follows_enforce _ _ _).bind fun _ => follows_pure _

theorem follows_enforceInFieldLe (bits : List BoolV) :
    SetupFollows (p := p) (enforceInFieldLe bits) (enforceInFieldLe bits) := by
  refine (follows_enforceSmallerOrEqualLe _ _).bind fun run => ?_
  cases run with
  | nil => exact follows_pure _
  | cons _ _ => exact follows_panic _

theorem follows_toBitsLe (x : LinComb p) : SetupFollows (toBitsLe x) (toBitsLe x) := by
  refine (follows_toNonUniqueBitsLe _).bind fun bits => ?_
  refine SetupFollows.bind ?_ fun _ => follows_pure _
  refine (follows_enforceSmallerOrEqualLe _ _).bind fun run => ?_
  cases run with
  | nil => exact follows_pure _
  | cons _ _ => exact follows_panic _

theorem follows_enforceLeHalf (x : LinComb p) : SetupFollows (enforceLeHalf x) (enforceLeHalf x) :=
  (follows_toNonUniqueBitsLe _).bind fun _ => (follows_enforceSmallerOrEqualLe _ _).bind fun _ =>
    follows_pure _

theorem follows_enforceCmpLe (a b : LinComb p) : SetupFollows (enforceCmpLe a b) (enforceCmpLe a b) := by
  refine (follows_enforceLeHalf _).bind fun _ => (follows_enforceLeHalf _).bind fun _ =>
    (follows_toBitsLe _).bind fun bits => ?_
  cases bits with
  | nil => exact follows_panic _
  | cons b bs => exact follows_enforce _ _ _

theorem follows_isEqZero (el : FpV p) : SetupFollows (isEqZero el) (isEqZero el) := by
  cases el with
  | constant v => exact follows_pure _
  | var l =>
    exact (follows_boolWitness _ _).bind fun _ => (follows_newWitness _ _).bind fun _ =>
      (follows_enforce _ _ _).bind fun _ => (follows_enforce _ _ _).bind fun _ => follows_pure _

theorem follows_normalize (el : FpV p) : SetupFollows (normalize el) (normalize el) := by
  cases el with
  | constant v => exact follows_pure _
  | var l =>
    exact (follows_boolWitness _ _).bind fun _ => (follows_newWitness _ _).bind fun _ =>
      (follows_enforce _ _ _).bind fun _ => (follows_enforceLeHalf _).bind fun _ => follows_pure _

theorem follows_yToBitG2 (c0 c1 : FpV p) : SetupFollows (yToBitG2 c0 c1) (yToBitG2 c0 c1) :=
  (follows_boolWitness _ _).bind fun _ => (follows_normalize _).bind fun _ =>
    (follows_normalize _).bind fun _ => (follows_isEqZero _).bind fun _ => (follows_boolAnd _ _).bind fun _ =>
      (follows_enforce _ _ _).bind fun _ => follows_pure _

theorem follows_maxOccurrences (o o' : Bool) (bitmap : List BoolV) (m : LinComb p) (value : Bool) :
    SetupFollows (maxOccurrences o bitmap m value) (maxOccurrences o' bitmap m value) := by
  intro c c' r hs h1 h2 h3
  unfold maxOccurrences at h3 ⊢
  rw [Outcome.bind_eq_ok_iff] at h3
  obtain ⟨k, _, h3⟩ := h3
  have hc : countBits o' value bitmap c' = .ok 0 := by unfold countBits; rw [if_pos hs]
  rw [hc, Outcome.bind_ok]
  cases hv : bitmap.any BoolV.isVar with
  | false => rw [hv] at h3; cases h3
  | true =>
    rw [hv, if_pos rfl] at h3
    rw [if_pos rfl]
    refine SetupFollows.bind (g := newWitness fun _ => .ok (k.toNat : ZMod p))
      (g' := newWitness fun _ => .ok ((0 : UInt8).toNat : ZMod p)) (follows_newWitness _ _) (fun v => ?_)
      c c' r hs h1 h2 h3
    exact (follows_enforceCmpLe _ _).bind fun _ => follows_enforce _ _ _

theorem follows_packChunk (input : Bool) (chunk : List BoolV) :
    SetupFollows (p := p) (packChunk input chunk) (packChunk input chunk) := by
  refine SetupFollows.bind ?_ fun v => (follows_toBitsLe _).bind fun bits => ?_
  · cases input
    · exact follows_newWitness _ _
    · exact follows_newInput _ _
  · by_cases h : bits.length < chunk.length
    · rw [if_pos h]; exact follows_panic _
    · rw [if_neg h]
      exact (follows_forM (forall₂_same' (fun _ => follows_boolEnforceEqual _ _) _)).bind fun _ =>
        follows_pure _

theorem follows_multipack (input : Bool) (n : ℕ) (bits : List BoolV) :
    SetupFollows (p := p) (multipack input n bits) (multipack input n bits) :=
  follows_mapM (forall₂_same' (fun _ => follows_packChunk _ _) _)

theorem follows_fpMul (x y : LinComb p) : SetupFollows (fpMul x y) (fpMul x y) :=
  (follows_newWitness _ _).bind fun _ => (follows_enforce _ _ _).bind fun _ => follows_pure _

theorem follows_fpWitness (f f' : ConstraintSystem p → Outcome SynthErr (ZMod p)) :
    SetupFollows (fpWitness f) (fpWitness f') := (follows_newWitness _ _).bind fun _ => follows_pure _

theorem follows_fp2Witness (f f' : ConstraintSystem p → Outcome SynthErr (ZMod p × ZMod p)) :
    SetupFollows (fp2Witness f) (fp2Witness f') :=
  (follows_fpWitness _ _).bind fun _ => (follows_fpWitness _ _).bind fun _ => follows_pure _

theorem follows_fp2Mul (nr : ZMod p) (x y : Fp2V p) : SetupFollows (fp2Mul nr x y) (fp2Mul nr x y) :=
  (follows_fpMul _ _).bind fun _ => (follows_fpMul _ _).bind fun _ => (follows_fpMul _ _).bind fun _ =>
    follows_pure _

theorem follows_fp2Square (nr : ZMod p) (x : Fp2V p) : SetupFollows (fp2Square nr x) (fp2Square nr x) :=
  (follows_fpMul _ _).bind fun _ => (follows_fpMul _ _).bind fun _ => follows_pure _

theorem follows_fp2MulEquals (nr : ZMod p) (x y z : Fp2V p) :
    SetupFollows (fp2MulEquals nr x y z) (fp2MulEquals nr x y z) :=
  (follows_fpMul _ _).bind fun _ => (follows_enforce _ _ _).bind fun _ => follows_enforce _ _ _

theorem follows_allocPointG1 (b : ZMod p) (x y z x' y' z' : ConstraintSystem p → Outcome SynthErr (ZMod p)) :
    SetupFollows (allocPointG1 b x y z) (allocPointG1 b x' y' z') :=
  (follows_fpWitness _ _).bind fun _ => (follows_fpWitness _ _).bind fun _ =>
    (follows_fpWitness _ _).bind fun _ => (follows_fpMul _ _).bind fun _ => (follows_fpMul _ _).bind fun _ =>
      (follows_fpMul _ _).bind fun _ => (follows_fpMul _ _).bind fun _ => (follows_enforce _ _ _).bind fun _ =>
        follows_pure _

theorem follows_allocPointG2 (nr b0 b1 : ZMod p)
    (x y z x' y' z' : ConstraintSystem p → Outcome SynthErr (ZMod p × ZMod p)) :
    SetupFollows (allocPointG2 nr b0 b1 x y z) (allocPointG2 nr b0 b1 x' y' z') :=
  (follows_fp2Witness _ _).bind fun _ => (follows_fp2Witness _ _).bind fun _ =>
    (follows_fp2Witness _ _).bind fun _ => (follows_fp2Square _ _).bind fun _ =>
      (follows_fp2Square _ _).bind fun _ => (follows_fp2Square _ _).bind fun _ =>
        (follows_fp2Mul _ _ _).bind fun _ => (follows_fp2MulEquals _ _ _ _).bind fun _ => follows_pure _

theorem follows_condEnforceEqual (a b : LinComb p) (t : BoolV) :
    SetupFollows (condEnforceEqual a b t) (condEnforceEqual a b t) := follows_enforce _ _ _

theorem follows_enforceNextEpoch (a b : LinComb p) :
    SetupFollows (enforceNextEpoch a b) (enforceNextEpoch a b) :=
  (follows_isEqZero _).bind fun _ => follows_condEnforceEqual _ _ _

theorem follows_frToBitsV (x : LinComb p) (n : ℕ) : SetupFollows (frToBitsV x n) (frToBitsV x n) := by
  refine (follows_toBitsLe _).bind fun bits => ?_
  by_cases h : bits.length < n
  · rw [if_pos h]; exact follows_panic _
  · rw [if_neg h]; exact follows_pure _

theorem follows_g2ToBitsV (v : Fp2V p × Fp2V p × Fp2V p) : SetupFollows (g2ToBitsV v) (g2ToBitsV v) :=
  (follows_toBitsLe _).bind fun _ => (follows_toBitsLe _).bind fun _ => (follows_yToBitG2 _ _).bind fun _ =>
    follows_pure _

theorem follows_epochKey (a b : Option G2Point) : SetupFollows (epochKey a) (epochKey b) :=
  (follows_allocPointG2 _ _ _ _ _ _ _ _ _).bind fun _ => (follows_g2ToBitsV _).bind fun _ => follows_pure _

theorem follows_epochToBits {d d' : EpochDataOpt} (h : d.publicKeys.length = d'.publicKeys.length) :
    SetupFollows (epochToBits d) (epochToBits d') :=
  (follows_fpWitness _ _).bind fun _ => (follows_frToBitsV _ _).bind fun _ =>
  (follows_fpWitness _ _).bind fun _ => (follows_frToBitsV _ _).bind fun _ =>
  (follows_fpWitness _ _).bind fun _ => (follows_frToBitsV _ _).bind fun _ =>
  (follows_fpWitness _ _).bind fun _ => (follows_frToBitsV _ _).bind fun _ =>
  (follows_fpWitness _ _).bind fun _ => (follows_frToBitsV _ _).bind fun _ =>
  (follows_mapM (forall₂_of_length follows_epochKey h)).bind fun _ => follows_pure _

theorem follows_fpIsEq (a b : LinComb p) : SetupFollows (fpIsEq a b) (fpIsEq a b) :=
  (follows_boolWitness _ _).bind fun _ => (follows_newWitness _ _).bind fun _ =>
    (follows_enforce _ _ _).bind fun _ => (follows_enforce _ _ _).bind fun _ => follows_pure _

theorem follows_fp2IsEq (x y : Fp2V p) : SetupFollows (fp2IsEq x y) (fp2IsEq x y) :=
  (follows_fpIsEq _ _).bind fun _ => (follows_fpIsEq _ _).bind fun _ => follows_boolAnd _ _

theorem follows_fpSelect (cond : BoolV) (t f : LinComb p) :
    SetupFollows (fpSelect cond t f) (fpSelect cond t f) := by
  unfold fpSelect
  split
  · exact follows_pure _
  · exact follows_pure _
  · exact (follows_newWitness _ _).bind fun _ => (follows_enforce _ _ _).bind fun _ => follows_pure _

theorem follows_fp2Select (cond : BoolV) (t f : Fp2V p) :
    SetupFollows (fp2Select cond t f) (fp2Select cond t f) :=
  (follows_fpSelect _ _ _).bind fun _ => (follows_fpSelect _ _ _).bind fun _ => follows_pure _

theorem follows_g2IsEqConst (nr : ZMod p) (x y : ZMod p × ZMod p) (v : G2V p) :
    SetupFollows (g2IsEqConst nr x y v) (g2IsEqConst nr x y v) :=
  (follows_fp2IsEq _ _).bind fun _ => (follows_fp2IsEq _ _).bind fun _ => (follows_boolAnd _ _).bind fun _ =>
    (follows_fp2IsEq _ _).bind fun _ => (follows_boolAnd _ _).bind fun _ => follows_boolOr _ _

theorem follows_enforceNotPadding (nr : ZMod p) (x y : ZMod p × ZMod p) (v : G2V p) (bit : BoolV) :
    SetupFollows (enforceNotPadding nr x y v bit) (enforceNotPadding nr x y v bit) :=
  (follows_g2IsEqConst _ _ _ _).bind fun _ => (follows_karyAnd _ _).bind fun _ =>
    follows_boolEnforceEqual _ _

theorem follows_g2SelectZero (bit : BoolV) (v : G2V p) :
    SetupFollows (g2SelectZero bit v) (g2SelectZero bit v) :=
  (follows_fp2Select _ _ _).bind fun _ => (follows_fp2Select _ _ _).bind fun _ =>
    (follows_fp2Select _ _ _).bind fun _ => follows_pure _

theorem follows_g2AddRest (nr b0 b1 : ZMod p) (xx yy zz xy xz yz : Fp2V p) :
    SetupFollows (g2AddRest nr b0 b1 xx yy zz xy xz yz) (g2AddRest nr b0 b1 xx yy zz xy xz yz) :=
  (follows_fp2Mul _ _ _).bind fun _ => (follows_fp2Mul _ _ _).bind fun _ =>
    (follows_fp2Mul _ _ _).bind fun _ => (follows_fp2Mul _ _ _).bind fun _ =>
      (follows_fp2Mul _ _ _).bind fun _ => (follows_fp2Mul _ _ _).bind fun _ => follows_pure _

theorem follows_g2Add (nr b0 b1 : ZMod p) (u v : G2V p) :
    SetupFollows (g2Add nr b0 b1 u v) (g2Add nr b0 b1 u v) :=
  (follows_fp2Mul _ _ _).bind fun _ => (follows_fp2Mul _ _ _).bind fun _ =>
    (follows_fp2Mul _ _ _).bind fun _ => (follows_fp2Mul _ _ _).bind fun _ =>
      (follows_fp2Mul _ _ _).bind fun _ => (follows_fp2Mul _ _ _).bind fun _ => follows_g2AddRest _ _ _ _ _ _ _ _ _

theorem follows_g2AddAssign (drop : Bool) (nr b0 b1 : ZMod p) (acc : Option (G2V p)) (v : G2V p) :
    SetupFollows (g2AddAssign drop nr b0 b1 acc v) (g2AddAssign drop nr b0 b1 acc v) := by
  cases acc with
  | some u => exact follows_g2Add _ _ _ _ _
  | none =>
    unfold g2AddAssign
    dsimp only
    split
    · exact follows_pure _
    · exact follows_g2AddRest _ _ _ _ _ _ _ _ _

theorem follows_aggregateLoop (drop : Bool) (nr b0 b1 : ZMod p) (x y : ZMod p × ZMod p)
    (l : List (G2V p × BoolV)) (acc : Option (G2V p)) :
    SetupFollows (aggregateLoop drop nr b0 b1 x y l acc) (aggregateLoop drop nr b0 b1 x y l acc) := by
  induction l generalizing acc with
  | nil => exact follows_pure _
  | cons k ks ih =>
    exact (follows_enforceNotPadding _ _ _ _ _).bind fun _ => (follows_g2SelectZero _ _).bind fun _ =>
      (follows_g2AddAssign _ _ _ _ _ _).bind fun _ => ih _

theorem follows_enforceAggregatedPubkeysV (drop : Bool) (nr b0 b1 : ZMod p) (x y : ZMod p × ZMod p)
    (pubKeys : List (G2V p)) (bitmap : List BoolV) :
    SetupFollows (enforceAggregatedPubkeysV drop nr b0 b1 x y pubKeys bitmap)
      (enforceAggregatedPubkeysV drop nr b0 b1 x y pubKeys bitmap) := by
  unfold enforceAggregatedPubkeysV
  split
  · exact follows_panic _
  · exact follows_aggregateLoop _ _ _ _ _ _ _ _

theorem follows_aggregateAllLoop (drop : Bool) (nr b0 b1 : ZMod p) (l : List (G2V p))
    (acc : Option (G2V p)) :
    SetupFollows (aggregateAllLoop drop nr b0 b1 l acc) (aggregateAllLoop drop nr b0 b1 l acc) := by
  induction l generalizing acc with
  | nil => exact follows_pure _
  | cons k ks ih => exact (follows_g2AddAssign _ _ _ _ _ _).bind fun _ => ih _

theorem follows_enforceBitmapV (o o' drop : Bool) (nr b0 b1 : ZMod p) (x y : ZMod p × ZMod p)
    (pubKeys : List (G2V p)) (bitmap : List BoolV) (m : LinComb p) :
    SetupFollows (enforceBitmapV o drop nr b0 b1 x y pubKeys bitmap m)
      (enforceBitmapV o' drop nr b0 b1 x y pubKeys bitmap m) :=
  (follows_maxOccurrences _ _ _ _ _).bind fun _ => follows_enforceAggregatedPubkeysV _ _ _ _ _ _ _ _

end

section

variable {p : ℕ} [Fact p.Prime]

theorem follows_g2Select (b : BoolV) (t f : G2V p) : SetupFollows (g2Select b t f) (g2Select b t f) :=
  (follows_fp2Select _ _ _).bind fun _ => (follows_fp2Select _ _ _).bind fun _ =>
    (follows_fp2Select _ _ _).bind fun _ => follows_pure _

theorem follows_g1Select (b : BoolV) (t f : G1V p) : SetupFollows (g1Select b t f) (g1Select b t f) :=
  (follows_fpSelect _ _ _).bind fun _ => (follows_fpSelect _ _ _).bind fun _ =>
    (follows_fpSelect _ _ _).bind fun _ => follows_pure _

theorem follows_fp2Inverse (nr : ZMod p) (d : Fp2V p) : SetupFollows (fp2Inverse nr d) (fp2Inverse nr d) :=
  (follows_fp2Witness _ _).bind fun _ => (follows_fp2MulEquals _ _ _ _).bind fun _ => follows_pure _

theorem follows_fp2MulByInverse (nr : ZMod p) (x d : Fp2V p) :
    SetupFollows (fp2MulByInverse nr x d) (fp2MulByInverse nr x d) :=
  (follows_fp2Inverse _ _).bind fun _ => follows_fp2Mul _ _ _

theorem follows_constrainBool {l l' : List (Option Bool)} (h : l.length = l'.length) :
    SetupFollows (p := p) (constrainBool l) (constrainBool l') :=
  follows_mapM (forall₂_of_length (fun _ _ => follows_boolWitness _ _) h)

end

/-- The outer gadgets do in the setup what they do for the prover. -/
structure OuterGadgets.SetsUp {HP VK : Type} (O : OuterGadgets (HashToBitsHelper HP VK)) : Prop where
  hash : ∀ b x y, SetupFollows (O.hash b x y) (O.hash b x y)
  prepareG1 : ∀ v, SetupFollows (O.prepareG1 v) (O.prepareG1 v)
  prepareG2 : ∀ v, SetupFollows (O.prepareG2 v) (O.prepareG2 v)
  verify : ∀ k m s, SetupFollows (O.verify k m s) (O.verify k m s)
  blake : ∀ m b, SetupFollows (O.blake m b) (O.blake m b)
  groth : ∀ i h h', h.verifyingKey = h'.verifyingKey → SetupFollows (O.groth i h) (O.groth i h')

section

variable {HP VK : Type} {O : OuterGadgets (HashToBitsHelper HP VK)}

theorem follows_constrainEpochV (hO : O.SetsUp) (gh : Bool) (i : LinComb FQ_MODULUS)
    {d d' : EpochDataOpt} (h : d.publicKeys.length = d'.publicKeys.length) :
    SetupFollows (constrainEpochV O gh i d) (constrainEpochV O gh i d') :=
  (follows_epochToBits h).bind fun _ => (follows_enforceNextEpoch _ _).bind fun _ =>
    (hO.hash _ _ _).bind fun _ => follows_pure _

theorem follows_constrainEntropyV (a : LinComb FQ_MODULUS) (b : BoolV) (e : EpochBitsV FQ_MODULUS) :
    SetupFollows (constrainEntropyV a b e) (constrainEntropyV a b e) :=
  (follows_isEqZero _).bind fun _ => (follows_boolAnd _ _).bind fun _ => follows_condEnforceEqual _ _ _

theorem follows_constrainUpdateV (hO : O.SetsUp) (oc oc' drop gh : Bool) (pad : (Fq × Fq) × (Fq × Fq)) (n : ℕ)
    (prev : PreviousV FQ_MODULUS) (eb : BoolV) {u u' : SingleUpdateOpt} (h : SameSize u u') :
    SetupFollows (constrainUpdateV O oc drop gh pad n prev eb u)
      (constrainUpdateV O oc' drop gh pad n prev eb u') := by
  unfold constrainUpdateV
  rw [h.1]
  split
  · exact follows_panic _
  · exact (follows_constrainEpochV hO gh _ h.1).bind fun _ => (follows_constrainEntropyV _ _ _).bind fun _ =>
      (follows_constrainBool h.2).bind fun _ => (follows_enforceBitmapV _ _ _ _ _ _ _ _ _ _ _).bind
        fun _ => follows_pure _

theorem follows_nextPreviousV (b : BoolV) (e : EpochBitsV FQ_MODULUS) (prev : PreviousV FQ_MODULUS) :
    SetupFollows (nextPreviousV b e prev) (nextPreviousV b e prev) :=
  (follows_fpSelect _ _ _).bind fun _ => (follows_fpSelect _ _ _).bind fun _ =>
    (follows_mapM (forall₂_same' (fun _ => follows_g2Select _ _ _) _)).bind fun _ =>
      (follows_fpSelect _ _ _).bind fun _ => follows_pure _

theorem follows_preparePairV (hO : O.SetsUp) (g1 : Fq × Fq) (g2 : (Fq × Fq) × (Fq × Fq)) (b : BoolV)
    (pk : Option (G2V FQ_MODULUS)) (m : G1V FQ_MODULUS) :
    SetupFollows (preparePairV O g1 g2 b pk m) (preparePairV O g1 g2 b pk m) :=
  (follows_g2Select _ _ _).bind fun _ => (hO.prepareG2 _).bind fun _ => (follows_g1Select _ _ _).bind fun _ =>
    (hO.prepareG1 _).bind fun _ => follows_pure _

theorem follows_lastEpochV (drop : Bool) (ks : List (G2V FQ_MODULUS)) (l : List BoolV) (b : BoolV) :
    SetupFollows (lastEpochV drop ks l b) (lastEpochV drop ks l b) :=
  (follows_aggregateAllLoop _ _ _ _ _ _).bind fun _ => (follows_fp2MulByInverse _ _ _).bind fun _ =>
    (follows_fp2MulByInverse _ _ _).bind fun _ => (follows_g2ToBitsV _).bind fun _ =>
      (follows_boolEnforceEqual _ _).bind fun _ => follows_pure _

theorem follows_lastRoundV (b drop : Bool) (ks : List (G2V FQ_MODULUS)) (l : List BoolV) (t : BoolV) :
    SetupFollows (lastRoundV b drop ks l t) (lastRoundV b drop ks l t) := by
  cases b
  · exact follows_pure _
  · exact follows_lastEpochV _ _ _ _

theorem follows_epochsLoop (hO : O.SetsUp) (oc oc' drop gh : Bool) (g1 : Fq × Fq)
    (g2 : (Fq × Fq) × (Fq × Fq)) (n : ℕ) (eb : BoolV) {us us' : List SingleUpdateOpt}
    (h : List.Forall₂ SameSize us us') (prev : PreviousV FQ_MODULUS) :
    SetupFollows (epochsLoop O oc drop gh g1 g2 n eb us prev) (epochsLoop O oc' drop gh g1 g2 n eb us' prev) := by
  induction h generalizing prev with
  | nil => exact follows_pure _
  | @cons u u' us us' hu hus ih =>
    have he : us.isEmpty = us'.isEmpty := by cases hus <;> rfl
    unfold epochsLoop
    rw [he]
    exact (follows_constrainUpdateV hO _ _ _ _ _ _ _ _ hu).bind fun _ => (follows_isEqZero _).bind fun _ =>
      (follows_nextPreviousV _ _ _).bind fun _ => (follows_preparePairV hO _ _ _ _ _).bind fun _ =>
        (follows_lastRoundV _ _ _ _ _).bind fun _ => (ih _).bind fun _ => follows_pure _

theorem follows_verifySignatureV (hO : O.SetsUp) (s s' : Option G1Point) (k : List O.PG2) (m : List O.PG1) :
    SetupFollows (verifySignatureV O s k m) (verifySignatureV O s' k m) :=
  (follows_allocPointG1 _ _ _ _ _ _ _).bind fun _ => hO.verify _ _ _

theorem follows_edgeHashV (hO : O.SetsUp) (l : List BoolV) : SetupFollows (edgeHashV O l) (edgeHashV O l) :=
  hO.blake _ _

theorem follows_verifyEdgesV (hO : O.SetsUp) (b : EdgeBitsV) : SetupFollows (verifyEdgesV O b) (verifyEdgesV O b) :=
  (follows_edgeHashV hO _).bind fun _ => (follows_edgeHashV hO _).bind fun _ => follows_multipack _ _ _

theorem follows_verifyEpochBitsV (hO : O.SetsUp) {h h' : Option (HashToBitsHelper HP VK)}
    (hs : SameKey h h') (b : EdgeBitsV) :
    SetupFollows (verifyEpochBitsV O h b) (verifyEpochBitsV O h' b) := by
  cases h <;> cases h'
  · exact follows_verifyEdgesV hO b
  · exact hs.elim
  · exact hs.elim
  · exact (hO.groth _ _ _ hs).bind fun _ => follows_verifyEdgesV hO b

theorem follows_enforceEpochsV (hO : O.SetsUp) (oc oc' drop : Bool) (g1 : Fq × Fq)
    (g2 : (Fq × Fq) × (Fq × Fq)) {s s' : ValidatorSetUpdateOpt G1Point HP VK} (h : SameCircuit s s') :
    SetupFollows (enforceEpochsV O oc drop g1 g2 s) (enforceEpochsV O oc' drop g1 g2 s') := by
  unfold enforceEpochsV
  rw [h.numValidators, h.helper.isNone]
  exact (follows_epochToBits h.initial).bind fun _ => (follows_isEqZero _).bind fun _ =>
    (follows_epochsLoop hO _ _ _ _ _ _ _ _ h.epochs _).bind fun _ =>
      (follows_verifySignatureV hO _ _ _ _).bind fun _ => follows_pure _

theorem follows_generateConstraints (hO : O.SetsUp) (oc oc' drop : Bool) (g1 : Fq × Fq)
    (g2 : (Fq × Fq) × (Fq × Fq)) {s s' : ValidatorSetUpdateOpt G1Point HP VK} (h : SameCircuit s s') :
    SetupFollows (generateConstraints O oc drop g1 g2 s) (generateConstraints O oc' drop g1 g2 s') :=
  (follows_enforceEpochsV hO _ _ _ _ _ h).bind fun _ => follows_verifyEpochBitsV hO h.helper _

end

end Verif
