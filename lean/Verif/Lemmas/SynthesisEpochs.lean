import Verif.Model.SynthesisEpochs
import Verif.Props.SynthesisBls

/-!
# The whole circuit: shape and soundness of the emitted constraints

Every assignment that satisfies what the program of `Model/SynthesisEpochs` emits gives values for the
variables of the relation of `Model/EpochCircuit`.
-/

set_option linter.unusedSectionVars false

namespace Verif

section

variable {p : ℕ} [Fact p.Prime]

/-! ### shape -/

theorem alike_g2Select (b : BoolV) (t f : G2V p) : Alike (g2Select b t f) (g2Select b t f) :=
  (alike_fp2Select _ _ _).bind fun _ => (alike_fp2Select _ _ _).bind fun _ =>
    (alike_fp2Select _ _ _).bind fun _ => alike_pure _

theorem alike_g1Select (b : BoolV) (t f : G1V p) : Alike (g1Select b t f) (g1Select b t f) :=
  (alike_fpSelect _ _ _).bind fun _ => (alike_fpSelect _ _ _).bind fun _ =>
    (alike_fpSelect _ _ _).bind fun _ => alike_pure _

theorem alike_fp2Inverse (nr : ZMod p) (d : Fp2V p) : Alike (fp2Inverse nr d) (fp2Inverse nr d) :=
  (alike_fp2Witness _ _).bind fun _ => (alike_fp2MulEquals _ _ _ _).bind fun _ => alike_pure _

theorem alike_fp2MulByInverse (nr : ZMod p) (x d : Fp2V p) :
    Alike (fp2MulByInverse nr x d) (fp2MulByInverse nr x d) :=
  (alike_fp2Inverse _ _).bind fun _ => alike_fp2Mul _ _ _

theorem alike_constrainBool {l l' : List (Option Bool)} (h : l.length = l'.length) :
    Alike (p := p) (constrainBool l) (constrainBool l') :=
  alike_mapM (forall₂_of_length (fun _ _ => alike_boolWitness _ _) h)

end

/-- The shape of the constraints of the outer gadgets depends on the variables only. -/
structure OuterGadgets.Shaped {HP VK : Type} (O : OuterGadgets (HashToBitsHelper HP VK)) : Prop where
  hash : ∀ b x y, Alike (O.hash b x y) (O.hash b x y)
  prepareG1 : ∀ v, Alike (O.prepareG1 v) (O.prepareG1 v)
  prepareG2 : ∀ v, Alike (O.prepareG2 v) (O.prepareG2 v)
  verify : ∀ k m s, Alike (O.verify k m s) (O.verify k m s)
  blake : ∀ m b, Alike (O.blake m b) (O.blake m b)
  groth : ∀ i h h', h.verifyingKey = h'.verifyingKey → Alike (O.groth i h) (O.groth i h')

section

variable {HP VK : Type} {O : OuterGadgets (HashToBitsHelper HP VK)}

/-- Data of the same size. -/
def SameSize (u u' : SingleUpdateOpt) : Prop :=
  u.epochData.publicKeys.length = u'.epochData.publicKeys.length ∧
    u.signedBitmap.length = u'.signedBitmap.length

theorem sameSize_refl (l : List SingleUpdateOpt) : List.Forall₂ SameSize l l :=
  forall₂_same' (fun _ => ⟨rfl, rfl⟩) l

theorem alike_constrainEpochV (hO : O.Shaped) (gh : Bool) (i : LinComb FQ_MODULUS)
    {d d' : EpochDataOpt} (h : d.publicKeys.length = d'.publicKeys.length) :
    Alike (constrainEpochV O gh i d) (constrainEpochV O gh i d') :=
  (alike_epochToBits h).bind fun _ => (alike_enforceNextEpoch _ _).bind fun _ =>
    (hO.hash _ _ _).bind fun _ => alike_pure _

theorem alike_constrainEntropyV (a : LinComb FQ_MODULUS) (b : BoolV) (e : EpochBitsV FQ_MODULUS) :
    Alike (constrainEntropyV a b e) (constrainEntropyV a b e) :=
  (alike_isEqZero _).bind fun _ => (alike_boolAnd _ _).bind fun _ => alike_condEnforceEqual _ _ _

theorem alike_constrainUpdateV (hO : O.Shaped) (oc oc' drop gh : Bool) (pad : (Fq × Fq) × (Fq × Fq)) (n : ℕ)
    (prev : PreviousV FQ_MODULUS) (eb : BoolV) {u u' : SingleUpdateOpt} (h : SameSize u u') :
    Alike (constrainUpdateV O oc drop gh pad n prev eb u)
      (constrainUpdateV O oc' drop gh pad n prev eb u') := by
  unfold constrainUpdateV
  rw [h.1]
  split
  · exact alike_panic _
  · exact (alike_constrainEpochV hO gh _ h.1).bind fun _ => (alike_constrainEntropyV _ _ _).bind fun _ =>
      (alike_constrainBool h.2).bind fun _ => (alike_enforceBitmapV _ _ _ _ _ _ _ _ _ _ _).bind
        fun _ => alike_pure _

theorem alike_nextPreviousV (b : BoolV) (e : EpochBitsV FQ_MODULUS) (prev : PreviousV FQ_MODULUS) :
    Alike (nextPreviousV b e prev) (nextPreviousV b e prev) :=
  (alike_fpSelect _ _ _).bind fun _ => (alike_fpSelect _ _ _).bind fun _ =>
    (alike_mapM (forall₂_same' (fun _ => alike_g2Select _ _ _) _)).bind fun _ =>
      (alike_fpSelect _ _ _).bind fun _ => alike_pure _

theorem alike_preparePairV (hO : O.Shaped) (g1 : Fq × Fq) (g2 : (Fq × Fq) × (Fq × Fq)) (b : BoolV)
    (pk : Option (G2V FQ_MODULUS)) (m : G1V FQ_MODULUS) :
    Alike (preparePairV O g1 g2 b pk m) (preparePairV O g1 g2 b pk m) :=
  (alike_g2Select _ _ _).bind fun _ => (hO.prepareG2 _).bind fun _ => (alike_g1Select _ _ _).bind fun _ =>
    (hO.prepareG1 _).bind fun _ => alike_pure _

theorem alike_lastEpochV (drop : Bool) (ks : List (G2V FQ_MODULUS)) (l : List BoolV) (b : BoolV) :
    Alike (lastEpochV drop ks l b) (lastEpochV drop ks l b) :=
  (alike_aggregateAllLoop _ _ _ _ _ _).bind fun _ => (alike_fp2MulByInverse _ _ _).bind fun _ =>
    (alike_fp2MulByInverse _ _ _).bind fun _ => (alike_g2ToBitsV _).bind fun _ =>
      (alike_boolEnforceEqual _ _).bind fun _ => alike_pure _

theorem alike_lastRoundV (b drop : Bool) (ks : List (G2V FQ_MODULUS)) (l : List BoolV) (t : BoolV) :
    Alike (lastRoundV b drop ks l t) (lastRoundV b drop ks l t) := by
  cases b
  · exact alike_pure _
  · exact alike_lastEpochV _ _ _ _

theorem alike_epochsLoop (hO : O.Shaped) (oc oc' drop gh : Bool) (g1 : Fq × Fq)
    (g2 : (Fq × Fq) × (Fq × Fq)) (n : ℕ) (eb : BoolV) {us us' : List SingleUpdateOpt}
    (h : List.Forall₂ SameSize us us') (prev : PreviousV FQ_MODULUS) :
    Alike (epochsLoop O oc drop gh g1 g2 n eb us prev) (epochsLoop O oc' drop gh g1 g2 n eb us' prev) := by
  induction h generalizing prev with
  | nil => exact alike_pure _
  | @cons u u' us us' hu hus ih =>
    have he : us.isEmpty = us'.isEmpty := by cases hus <;> rfl
    unfold epochsLoop
    rw [he]
    exact (alike_constrainUpdateV hO _ _ _ _ _ _ _ _ hu).bind fun _ => (alike_isEqZero _).bind fun _ =>
      (alike_nextPreviousV _ _ _).bind fun _ => (alike_preparePairV hO _ _ _ _ _).bind fun _ =>
        (alike_lastRoundV _ _ _ _ _).bind fun _ => (ih _).bind fun _ => alike_pure _

theorem alike_verifySignatureV (hO : O.Shaped) (s s' : Option G1Point) (k : List O.PG2) (m : List O.PG1) :
    Alike (verifySignatureV O s k m) (verifySignatureV O s' k m) :=
  (alike_allocPointG1 _ _ _ _ _ _ _).bind fun _ => hO.verify _ _ _

theorem alike_edgeHashV (hO : O.Shaped) (l : List BoolV) : Alike (edgeHashV O l) (edgeHashV O l) :=
  hO.blake _ _

theorem alike_verifyEdgesV (hO : O.Shaped) (b : EdgeBitsV) : Alike (verifyEdgesV O b) (verifyEdgesV O b) :=
  (alike_edgeHashV hO _).bind fun _ => (alike_edgeHashV hO _).bind fun _ => alike_multipack _ _ _

/-- The helpers are absent, or have the same key. -/
def SameKey : Option (HashToBitsHelper HP VK) → Option (HashToBitsHelper HP VK) → Prop
  | none, none => True
  | some h, some h' => h.verifyingKey = h'.verifyingKey
  | _, _ => False

theorem SameKey.isNone {h h' : Option (HashToBitsHelper HP VK)} (hs : SameKey h h') :
    h.isNone = h'.isNone := by
  cases h <;> cases h' <;> first | rfl | exact hs.elim

theorem sameKey_refl (h : Option (HashToBitsHelper HP VK)) : SameKey h h := by
  cases h
  · trivial
  · rfl

theorem alike_verifyEpochBitsV (hO : O.Shaped) {h h' : Option (HashToBitsHelper HP VK)}
    (hs : SameKey h h') (b : EdgeBitsV) :
    Alike (verifyEpochBitsV O h b) (verifyEpochBitsV O h' b) := by
  cases h <;> cases h'
  · exact alike_verifyEdgesV hO b
  · exact hs.elim
  · exact hs.elim
  · exact (hO.groth _ _ _ hs).bind fun _ => alike_verifyEdgesV hO b

/-- Circuits of the same size. -/
structure SameCircuit (s s' : ValidatorSetUpdateOpt G1Point HP VK) : Prop where
  initial : s.initialEpoch.publicKeys.length = s'.initialEpoch.publicKeys.length
  epochs : List.Forall₂ SameSize s.epochs s'.epochs
  numValidators : s.numValidators = s'.numValidators
  helper : SameKey s.hashHelper s'.hashHelper

theorem sameCircuit_refl (s : ValidatorSetUpdateOpt G1Point HP VK) : SameCircuit s s :=
  ⟨rfl, sameSize_refl _, rfl, sameKey_refl _⟩

theorem alike_enforceEpochsV (hO : O.Shaped) (oc oc' drop : Bool) (g1 : Fq × Fq)
    (g2 : (Fq × Fq) × (Fq × Fq)) {s s' : ValidatorSetUpdateOpt G1Point HP VK} (h : SameCircuit s s') :
    Alike (enforceEpochsV O oc drop g1 g2 s) (enforceEpochsV O oc' drop g1 g2 s') := by
  unfold enforceEpochsV
  rw [h.numValidators, h.helper.isNone]
  exact (alike_epochToBits h.initial).bind fun _ => (alike_isEqZero _).bind fun _ =>
    (alike_epochsLoop hO _ _ _ _ _ _ _ _ h.epochs _).bind fun _ =>
      (alike_verifySignatureV hO _ _ _ _).bind fun _ => alike_pure _

theorem alike_generateConstraints (hO : O.Shaped) (oc oc' drop : Bool) (g1 : Fq × Fq)
    (g2 : (Fq × Fq) × (Fq × Fq)) {s s' : ValidatorSetUpdateOpt G1Point HP VK} (h : SameCircuit s s') :
    Alike (generateConstraints O oc drop g1 g2 s) (generateConstraints O oc' drop g1 g2 s') :=
  (alike_enforceEpochsV hO _ _ _ _ _ h).bind fun _ => alike_verifyEpochBitsV hO h.helper _

end

/-! ### any assignment -/

/-- The values of the coordinates of a point of G1. -/
def g1At (ρ : R1Var → Fq) (v : G1V FQ_MODULUS) : G1Var := ⟨evalLc ρ v.1, evalLc ρ v.2.1, evalLc ρ v.2.2⟩

theorem g1At_coords (ρ : R1Var → Fq) (v : G1V FQ_MODULUS) : (g1At ρ v).coords = pointAtG1 ρ v := rfl

theorem keyAt_coords (ρ : R1Var → Fq) (v : G2V FQ_MODULUS) : (keyAt ρ v).coords = projAt (-5) ρ v := rfl

theorem keyAt_eq {ρ : R1Var → Fq} {v : G2V FQ_MODULUS} {k : G2Var} (h : projAt (-5) ρ v = k.coords) :
    keyAt ρ v = k := by
  cases k
  cases h
  rfl

theorem sound_g2Select {ρ : R1Var → Fq} (h1 : ρ .one = 1) {b : BoolV} {t : Bool} (hb : BitIs ρ b t)
    (x y : G2V FQ_MODULUS) :
    Sound ρ (g2Select b x y) fun v => keyAt ρ v = if t then keyAt ρ x else keyAt ρ y := by
  refine (sound_fp2Select h1 (-5) hb _ _).bind (fun _ => (alike_fp2Select _ _ _).bind fun _ =>
    (alike_fp2Select _ _ _).bind fun _ => alike_pure _) fun vx hx => ?_
  refine (sound_fp2Select h1 (-5) hb _ _).bind (fun _ => (alike_fp2Select _ _ _).bind fun _ =>
    alike_pure _) fun vy hy => ?_
  refine (sound_fp2Select h1 (-5) hb _ _).bind (fun _ => alike_pure _) fun vz hz => sound_pure ?_
  unfold keyAt
  dsimp only
  rw [hx, hy, hz]
  cases t <;> rfl

theorem sound_g1Select {ρ : R1Var → Fq} (h1 : ρ .one = 1) {b : BoolV} {t : Bool} (hb : BitIs ρ b t)
    (x y : G1V FQ_MODULUS) :
    Sound ρ (g1Select b x y) fun v => g1At ρ v = if t then g1At ρ x else g1At ρ y := by
  refine (sound_fpSelect h1 hb _ _).bind (fun _ => (alike_fpSelect _ _ _).bind fun _ =>
    (alike_fpSelect _ _ _).bind fun _ => alike_pure _) fun vx hx => ?_
  refine (sound_fpSelect h1 hb _ _).bind (fun _ => (alike_fpSelect _ _ _).bind fun _ =>
    alike_pure _) fun vy hy => ?_
  refine (sound_fpSelect h1 hb _ _).bind (fun _ => alike_pure _) fun vz hz => sound_pure ?_
  unfold g1At
  dsimp only
  rw [hx, hy, hz]
  cases t <;> rfl

theorem sound_fp2MulByInverse {p : ℕ} [Fact p.Prime] {ρ : R1Var → ZMod p} (h1 : ρ .one = 1) (nr : ZMod p)
    (x d : Fp2V p) :
    Sound ρ (fp2MulByInverse nr x d) fun v => ∃ inv : QuadraticAlgebra (ZMod p) nr 0,
      d.at nr ρ * inv = 1 ∧ v.at nr ρ = inv * x.at nr ρ := by
  have hi : Sound ρ (fp2Inverse nr d) fun inv => d.at nr ρ * inv.at nr ρ = 1 := by
    refine Sound.bind (Q := fun _ => True) sound_any (fun _ => (alike_fp2MulEquals _ _ _ _).bind fun _ =>
      alike_pure _) fun inv _ => ?_
    refine (sound_fp2MulEquals nr _ _ _).bind (fun _ => alike_pure _) fun _ h => sound_pure ?_
    rw [h, at_const h1]
    rfl
  refine hi.bind (fun _ => alike_fp2Mul _ _ _) fun inv h => ?_
  exact (sound_fp2Mul nr _ _).mono fun v hv => ⟨_, h, hv⟩

theorem sound_constrainBool {p : ℕ} [Fact p.Prime] {ρ : R1Var → ZMod p} (h1 : ρ .one = 1)
    (l : List (Option Bool)) :
    Sound ρ (constrainBool l) fun bs => ∃ ts, List.Forall₂ (BitIs ρ) bs ts ∧ ts.length = l.length := by
  refine (sound_mapM (Q := fun _ b => ∃ t, BitIs ρ b t) (fun a => sound_boolWitness h1 _)
    (fun _ => alike_boolWitness _ _) l).mono fun bs h => ?_
  induction h with
  | nil => exact ⟨[], .nil, rfl⟩
  | cons h _ ih =>
    obtain ⟨t, ht⟩ := h
    obtain ⟨ts, hts, hl⟩ := ih
    exact ⟨t :: ts, .cons ht hts, by simp [hl]⟩

/-- What the outer gadgets are assumed to enforce under the assignment `ρ`. -/
structure OuterGadgets.SoundAt {HP VK GT : Type} [CommGroup GT] (O : OuterGadgets (HashToBitsHelper HP VK))
    (ρ : R1Var → Fq) (hashC : Bool → List Bool → List Bool → HashOut G1Point → Prop)
    (e : G1Point → G2Point → GT) (gen2 : G2Point) (K : Blake2sCore)
    (groth : VK → List (List Bool) → HP → Outcome Unit (Prop × Bool))
    (isG1 : O.PG1 → G1Point → Prop) (isG2 : O.PG2 → G2Point → Prop) : Prop where
  hash : ∀ b xs ys ts us, List.Forall₂ (BitIs ρ) xs ts → List.Forall₂ (BitIs ρ) ys us →
    Sound ρ (O.hash b xs ys) fun h => ∃ out, hashC b ts us out ∧
      (g1At ρ h.messageHash).coords.OnCurve 1 ∧ (g1At ρ h.messageHash).point = out.messageHash ∧
      List.Forall₂ (BitIs ρ) h.crhBits out.crhBits ∧ List.Forall₂ (BitIs ρ) h.xofBits out.xofBits
  prepareG1 : ∀ v, (g1At ρ v).coords.OnCurve 1 →
    Sound ρ (O.prepareG1 v) fun w => isG1 w (g1At ρ v).point
  prepareG2 : ∀ v, (keyAt ρ v).coords.OnCurve g2CoeffB →
    Sound ρ (O.prepareG2 v) fun w => isG2 w (keyAt ρ v).point
  verify : ∀ ks ms s Ks Ms, List.Forall₂ isG2 ks Ks → List.Forall₂ isG1 ms Ms →
    (g1At ρ s).coords.OnCurve 1 → Sound ρ (O.verify ks ms s) fun _ =>
      ∀ eqn, batchVerifyPrepared e gen2 Ks Ms (g1At ρ s).point = .ok eqn → eqn
  blake : ∀ m ts b, 8 ∣ m.length → List.Forall₂ (BitIs ρ) m ts →
    Sound ρ (O.blake m b) fun r => List.Forall₂ (BitIs ρ) r (K.evaluate ts b)
  groth : ∀ ins tss h, List.Forall₂ (List.Forall₂ (BitIs ρ)) ins tss →
    Sound ρ (O.groth ins h) fun _ => ∃ proof r, groth h.verifyingKey tss proof = .ok r ∧ r.1

section

variable {HP VK GT : Type} [CommGroup GT] {O : OuterGadgets (HashToBitsHelper HP VK)} {ρ : R1Var → Fq}
  {hashC : Bool → List Bool → List Bool → HashOut G1Point → Prop}
  {e : G1Point → G2Point → GT} {gen2 : G2Point} {K : Blake2sCore}
  {groth : VK → List (List Bool) → HP → Outcome Unit (Prop × Bool)}
  {isG1 : O.PG1 → G1Point → Prop} {isG2 : O.PG2 → G2Point → Prop}

/-- The outputs of the hash have these values. -/
structure HashV.Is (ρ : R1Var → Fq) (h : HashV FQ_MODULUS) (out : HashOut G1Point) : Prop where
  onCurve : (g1At ρ h.messageHash).coords.OnCurve 1
  point : (g1At ρ h.messageHash).point = out.messageHash
  crhBits : List.Forall₂ (BitIs ρ) h.crhBits out.crhBits
  xofBits : List.Forall₂ (BitIs ρ) h.xofBits out.xofBits

/-- What a key of the relation has to satisfy. -/
def OnG2 (k : G2Var) : Prop := k.coords.OnCurve g2CoeffB

/-- The values of the loop state. -/
def PreviousV.at (ρ : R1Var → Fq) (v : PreviousV FQ_MODULUS) : Previous :=
  ⟨v.pubkeys.map (keyAt ρ), evalLc ρ v.index, evalLc ρ v.entropy, evalLc ρ v.maximumNonSigners⟩

theorem zero_witness {a b : Fq} (h : b = 0 ∨ b = a + 1) : ∃ z, enforceNextEpochC a b z := by
  refine ⟨isEqZeroWitness (.var b), ?_, ?_⟩
  · by_cases h0 : b = 0
    · simp [isEqZeroC, isEqZeroWitness, h0]
    · simp [isEqZeroC, isEqZeroWitness, h0]
  · intro hz
    simp [isEqZeroWitness] at hz
    exact h.resolve_left hz

theorem sound_constrainEpochV (h1 : ρ .one = 1) (hS : O.Shaped)
    (hO : O.SoundAt ρ hashC e gen2 K groth isG1 isG2) (gh : Bool) (i : LinComb FQ_MODULUS) (d : EpochDataOpt) :
    Sound ρ (constrainEpochV O gh i d) fun v => ∃ (w : EpochVars) (z : Fq × Bool) (out : HashOut G1Point),
      w.keys.length = d.publicKeys.length ∧ w.toBitsC OnG2 ∧ v.1.Is ρ w.out ∧
      enforceNextEpochC (evalLc ρ i) w.index z ∧ hashC gh w.epochBits w.extraDataBits out ∧ v.2.Is ρ out := by
  refine (sound_epochToBits h1 d).bind (fun _ => (alike_enforceNextEpoch _ _).bind fun _ =>
    (hS.hash _ _ _).bind fun _ => alike_pure _) fun v hv => ?_
  obtain ⟨w, hl, hw, hv⟩ := hv
  refine (sound_enforceNextEpoch h1 _ _).bind (fun _ => (hS.hash _ _ _).bind fun _ => alike_pure _)
    fun _ hn => ?_
  rw [hv.index] at hn
  obtain ⟨z, hz⟩ := zero_witness hn
  refine (hO.hash gh _ _ _ _ hv.epochBits hv.extraDataBits).bind (fun _ => alike_pure _)
    fun h hh => sound_pure ?_
  obtain ⟨out, a, b, c, d, f⟩ := hh
  exact ⟨w, z, out, hl, hw, hv, hz, a, ⟨b, c, d, f⟩⟩

theorem sound_constrainEntropyV (h1 : ρ .one = 1) (a : LinComb FQ_MODULUS) {b : BoolV} {t : Bool}
    (hb : BitIs ρ b t) (v : EpochBitsV FQ_MODULUS) :
    Sound ρ (constrainEntropyV a b v) fun _ => ∃ z : Fq × Bool,
      isEqZeroC (.var (evalLc ρ v.index)) z.1 z.2 ∧
      ((!z.2 && t) = true → evalLc ρ a = evalLc ρ v.parentEntropy) := by
  refine (sound_isEqZero h1 _).bind (fun _ => (alike_boolAnd _ _).bind fun _ => alike_condEnforceEqual _ _ _)
    fun z hz => ?_
  obtain ⟨s, inv, hs, hc⟩ := hz
  refine (sound_boolAnd h1 (bitIs_neg h1 hs) hb).bind (fun _ => alike_condEnforceEqual _ _ _)
    fun c hcb => ?_
  refine (sound_enforce _ _ _).mono fun _ h => ⟨(inv, s), hc, fun ht => ?_⟩
  unfold BitIs at hcb
  dsimp only at ht
  rw [hcb, ht, evalLc_lcSub, evalLc_nil, bit_true, mul_one] at h
  exact sub_eq_zero.1 h

/-- `enforce_bitmap` on points. -/
theorem sound_bitmapPoints (h1 : ρ .one = 1) (oc drop : Bool) {x y : Fq × Fq}
    (hpad : Denotes (padVar x y).coords (padVar x y).point) {keys : List (G2V FQ_MODULUS)}
    (hk : ∀ k ∈ keys, OnG2 (keyAt ρ k)) {bits : List BoolV} {ts : List Bool}
    (hb : List.Forall₂ (BitIs ρ) bits ts) (m : LinComb FQ_MODULUS) (msg : G1Point) :
    Sound ρ (enforceBitmapV oc drop (-5) g2CoeffB.re g2CoeffB.im x y keys bits m) fun o =>
      ∃ occ c, enforceBitmap ((keys.map (keyAt ρ)).map G2Var.point) ts msg (evalLc ρ m) (padVar x y).point
        occ = .ok (c, msg, (keyAt ρ (G2V.ofOption o)).point) ∧ c ∧ OnG2 (keyAt ρ (G2V.ofOption o)) := by
  refine (sound_maxOccurrences h1 oc hb m false).bind
    (fun _ => alike_enforceAggregatedPubkeysV _ _ _ _ _ _ _ _) fun _ hocc => ?_
  obtain ⟨occ, hocc⟩ := hocc
  unfold enforceAggregatedPubkeysV
  split
  · exact sound_panic
  · rename_i hlen
    refine (sound_aggregateLoop h1 drop (-5) g2CoeffB.re g2CoeffB.im x y
      (forall₂_zip_keys (keys := keys) hb) none).mono fun o ho => ?_
    obtain ⟨h2, h3⟩ := (loopSpec_iff _ _ _ _ _ _).1 ho
    rw [Option.map_none, allSpec_eq] at h3
    have hk' : ∀ k ∈ (keys.map (keyAt ρ)).zip ts, k.1.coords.OnCurve g2CoeffB := by
      rintro ⟨k, t⟩ hkt
      obtain ⟨v, hv, rfl⟩ := List.mem_map.1 (List.of_mem_zip hkt).1
      exact hk v hv
    obtain ⟨m1, m2⟩ := (C86_aggregate_model _ (padVar x y) hk' hpad).1 _
      (zip_coords ρ keys ts ▸ aggregatedLoopVar_of_all h2 (aggregatedAllVar_total drop _))
    rw [← zip_coords ρ keys ts, ← h3] at m2
    have hco : (keyAt ρ (G2V.ofOption o)).coords = (o.map (projAt (-5) ρ)).getD ProjVar.zero := by
      cases o with
      | some v => rfl
      | none =>
        rw [keyAt_coords]
        unfold projAt G2V.ofOption
        simp only [at_const h1]
        rfl
    rw [← hco] at m2
    have hz : ((keys.map (keyAt ρ)).zip ts).map (fun k => (k.1.point, k.2)) =
        ((keys.map (keyAt ρ)).map G2Var.point).zip ts := by
      rw [List.zip_map_left, List.zip_map_left, List.map_map, List.zip_map_left, List.map_map]
      rfl
    rw [hz] at m1 m2
    refine ⟨occ, maxOccurrencesC ts (evalLc ρ m) false occ ∧ _, ?_, ⟨hocc, m1⟩,
      (denotes_iff g2_nonsingular_iff _).1 ⟨_, m2⟩ |>.1⟩
    unfold enforceBitmap enforceAggregatedPubkeys
    rw [if_pos (by rw [← hb.length_eq]; simp; omega), Outcome.map_ok]
    congr 3
    exact (m2.point _).symm

theorem sound_constrainUpdateV (h1 : ρ .one = 1) (hS : O.Shaped)
    (hO : O.SoundAt ρ hashC e gen2 K groth isG1 isG2) (oc drop gh : Bool) {pad : (Fq × Fq) × (Fq × Fq)}
    (hpad : Denotes (padVar pad.1 pad.2).coords (padVar pad.1 pad.2).point) (n : ℕ)
    {prev : PreviousV FQ_MODULUS} (hk : ∀ k ∈ prev.pubkeys, OnG2 (keyAt ρ k)) {eb : BoolV} {t : Bool}
    (heb : BitIs ρ eb t) (u : SingleUpdateOpt) :
    Sound ρ (constrainUpdateV O oc drop gh pad n prev eb u) fun v => ∃ w : UpdateVars G1Point,
      (∀ z, ∃ c, constrainUpdate OnG2 (hashC gh) (padVar pad.1 pad.2).point n (prev.at ρ) t
        { w with loopZero := z } = .ok (c, (keyAt ρ (G2V.ofOption v.2)).point) ∧ c) ∧
      w.epoch.keys.length = n ∧ w.bitmap.length = u.signedBitmap.length ∧
      (∀ k ∈ w.epoch.pubkeys, OnG2 k) ∧ v.1.1.Is ρ w.epoch.out ∧ v.1.2.Is ρ w.hash ∧
      OnG2 (keyAt ρ (G2V.ofOption v.2)) := by
  unfold constrainUpdateV
  split
  · exact sound_panic
  · rename_i hn
    refine (sound_constrainEpochV h1 hS hO gh _ _).bind (fun _ => (alike_constrainEntropyV _ _ _).bind fun _ =>
      (alike_constrainBool rfl).bind fun _ => (alike_enforceBitmapV _ _ _ _ _ _ _ _ _ _ _).bind
        fun _ => alike_pure _) fun v hv => ?_
    obtain ⟨w, nz, out, hl, hw, hv, hnz, hh, hout⟩ := hv
    refine (sound_constrainEntropyV h1 _ heb _).bind (fun _ => (alike_constrainBool rfl).bind fun _ =>
      (alike_enforceBitmapV _ _ _ _ _ _ _ _ _ _ _).bind fun _ => alike_pure _) fun _ hz => ?_
    obtain ⟨uz, huz, hent⟩ := hz
    refine (sound_constrainBool h1 _).bind (fun _ => (alike_enforceBitmapV _ _ _ _ _ _ _ _ _ _ _).bind
      fun _ => alike_pure _) fun bits hbits => ?_
    obtain ⟨ts, hts, htl⟩ := hbits
    refine (sound_bitmapPoints h1 oc drop hpad hk hts _ out.messageHash).bind (fun _ => alike_pure _)
      fun o ho => sound_pure ?_
    obtain ⟨occ, c, hc, hcc, hon⟩ := ho
    rw [hv.index] at huz
    rw [hv.parentEntropy] at hent
    refine ⟨⟨w, ts, out, occ, nz, uz, (0, false)⟩, fun z => ?_,
      by simp only; omega, htl, ?_, hv, hout, hon⟩
    · unfold constrainUpdate
      rw [if_neg (by simp only [EpochVars.pubkeys, List.length_map]; omega)]
      dsimp only [PreviousV.at]
      rw [hc, Outcome.map_ok]
      exact ⟨_, rfl, ⟨hw, hnz, hh⟩, huz, hent, hcc⟩
    · intro k hk
      obtain ⟨kw, hkw, rfl⟩ := List.mem_map.1 hk
      exact (hw kw hkw).1

/-- Selecting from two lists of keys. -/
theorem sound_selectKeys (h1 : ρ .one = 1) {b : BoolV} {t : Bool} (hb : BitIs ρ b t)
    (l : List (G2V FQ_MODULUS × G2V FQ_MODULUS)) :
    Sound ρ (Synth.mapM (fun k => g2Select b k.1 k.2) l) fun vs =>
      vs.map (keyAt ρ) = l.map fun k => if t then keyAt ρ k.1 else keyAt ρ k.2 := by
  refine (sound_mapM (Q := fun k v => keyAt ρ v = if t then keyAt ρ k.1 else keyAt ρ k.2)
    (fun k => sound_g2Select h1 hb _ _) (fun _ => alike_g2Select _ _ _) l).mono fun vs h => ?_
  induction h with
  | nil => rfl
  | cons h _ ih => rw [List.map_cons, List.map_cons, h, ih]

theorem sound_nextPreviousV (h1 : ρ .one = 1) {b : BoolV} {t : Bool} (hb : BitIs ρ b t)
    {v : EpochBitsV FQ_MODULUS} {w : EpochVars} (hv : v.Is ρ w.out) (prev : PreviousV FQ_MODULUS) :
    Sound ρ (nextPreviousV b v prev) fun prev' => prev'.at ρ = (prev.at ρ).next t w := by
  refine (sound_fpSelect h1 hb _ _).bind (fun _ => (alike_fpSelect _ _ _).bind fun _ =>
    (alike_mapM (forall₂_same' (fun _ => alike_g2Select _ _ _) _)).bind fun _ =>
      (alike_fpSelect _ _ _).bind fun _ => alike_pure _) fun ve he => ?_
  refine (sound_fpSelect h1 hb _ _).bind (fun _ =>
    (alike_mapM (forall₂_same' (fun _ => alike_g2Select _ _ _) _)).bind fun _ =>
      (alike_fpSelect _ _ _).bind fun _ => alike_pure _) fun vi hi => ?_
  refine (sound_selectKeys h1 hb _).bind (fun _ => (alike_fpSelect _ _ _).bind fun _ => alike_pure _)
    fun vk hk => ?_
  refine (sound_fpSelect h1 hb _ _).bind (fun _ => alike_pure _) fun vm hm => sound_pure ?_
  unfold PreviousV.at Previous.next
  dsimp only
  rw [he, hi, hk, hm, hv.epochEntropy, hv.index, hv.maximumNonSigners]
  congr 1
  change _ = (w.out.pubkeys.zip _).map _
  rw [← hv.pubkeys, List.zip_map, List.map_map]
  rfl

theorem sound_preparePairV (h1 : ρ .one = 1) (hS : O.Shaped)
    (hO : O.SoundAt ρ hashC e gen2 K groth isG1 isG2) {g1 : Fq × Fq}
    (hg1 : (⟨g1.1, g1.2, 1⟩ : G1Var).coords.OnCurve 1) {g2 : (Fq × Fq) × (Fq × Fq)}
    (hg2 : OnG2 (padVar g2.1 g2.2)) {b : BoolV} {t : Bool} (hb : BitIs ρ b t)
    {pk : Option (G2V FQ_MODULUS)} (hpk : OnG2 (keyAt ρ (G2V.ofOption pk))) {m : G1V FQ_MODULUS}
    (hm : (g1At ρ m).coords.OnCurve 1) :
    Sound ρ (preparePairV O g1 g2 b pk m) fun v =>
      isG2 v.1 (if t then (keyAt ρ (G2V.ofOption pk)).point else (padVar g2.1 g2.2).point) ∧
      isG1 v.2 (if t then (g1At ρ m).point else (⟨g1.1, g1.2, 1⟩ : G1Var).point) := by
  have hc2 : keyAt ρ (G2V.constant g2.1 g2.2) = padVar g2.1 g2.2 := by
    unfold keyAt G2V.constant padVar
    simp only [at_const h1]
    rfl
  have hc1 : g1At ρ (G1V.constant g1) = ⟨g1.1, g1.2, 1⟩ := by
    unfold g1At G1V.constant lcConst
    simp [evalLc, h1]
  refine (sound_g2Select h1 hb _ _).bind (fun _ => (hS.prepareG2 _).bind fun _ =>
    (alike_g1Select _ _ _).bind fun _ => (hS.prepareG1 _).bind fun _ => alike_pure _) fun k hk => ?_
  rw [hc2] at hk
  refine (hO.prepareG2 k (by rw [hk]; cases t; exacts [hg2, hpk])).bind (fun _ =>
    (alike_g1Select _ _ _).bind fun _ => (hS.prepareG1 _).bind fun _ => alike_pure _) fun v hv => ?_
  refine (sound_g1Select h1 hb _ _).bind (fun _ => (hS.prepareG1 _).bind fun _ => alike_pure _)
    fun k' hk' => ?_
  rw [hc1] at hk'
  refine (hO.prepareG1 k' (by rw [hk']; cases t; exacts [hg1, hm])).bind (fun _ => alike_pure _)
    fun v' hv' => sound_pure ?_
  rw [hk] at hv
  rw [hk'] at hv'
  exact ⟨by cases t <;> exact hv, by cases t <;> exact hv'⟩

theorem ofOption_coords (h1 : ρ .one = 1) (o : Option (G2V FQ_MODULUS)) :
    (keyAt ρ (G2V.ofOption o)).coords = (o.map (projAt (-5) ρ)).getD ProjVar.zero := by
  cases o with
  | some v => rfl
  | none =>
    rw [keyAt_coords]
    unfold projAt G2V.ofOption
    simp only [at_const h1]
    rfl

theorem sound_lastEpochV (h1 : ρ .one = 1) (drop : Bool) {ks : List (G2V FQ_MODULUS)}
    (hk : ∀ k ∈ ks, OnG2 (keyAt ρ k)) {l : List BoolV} {ts : List Bool} (hl : List.Forall₂ (BitIs ρ) l ts)
    {b : BoolV} {t : Bool} (hb : BitIs ρ b t) :
    Sound ρ (lastEpochV drop ks l b) fun bits => ∃ last : LastVars, lastApkC (ks.map (keyAt ρ)) last ∧
      List.Forall₂ (BitIs ρ) bits (ts ++ g2ToBits ⟨last.x, last.y, 1⟩ last.w) ∧ t = true := by
  refine (sound_aggregateAllLoop drop (-5) g2CoeffB.re g2CoeffB.im ks none).bind
    (fun _ => (alike_fp2MulByInverse _ _ _).bind fun _ =>
    (alike_fp2MulByInverse _ _ _).bind fun _ => (alike_g2ToBitsV _).bind fun _ =>
      (alike_boolEnforceEqual _ _).bind fun _ => alike_pure _) fun o ho => ?_
  rw [Option.map_none] at ho
  replace ho : o.map (projAt (-5) ρ) = circuitTotal drop (ks.map (projAt (-5) ρ)) :=
    ho.trans (allSpec_eq drop _)
  have hall := C86_aggregate_all (ks.map (keyAt ρ))
    (by intro k hk'; obtain ⟨v, hv, rfl⟩ := List.mem_map.1 hk'; exact hk v hv) _
    (by
      have := aggregatedAllVar_total drop (ks.map (projAt (-5) ρ))
      rwa [show ks.map (projAt (-5) ρ) = (ks.map (keyAt ρ)).map (·.coords) by
        rw [List.map_map]; rfl] at this)
  rw [show (ks.map (keyAt ρ)).map (·.coords) = ks.map (projAt (-5) ρ) by rw [List.map_map]; rfl, ← ho,
    ← ofOption_coords h1 o] at hall
  refine (sound_fp2MulByInverse h1 (-5) _ _).bind (fun _ => (alike_fp2MulByInverse _ _ _).bind fun _ =>
    (alike_g2ToBitsV _).bind fun _ => (alike_boolEnforceEqual _ _).bind fun _ => alike_pure _)
    fun vx hx => ?_
  obtain ⟨ix, hix, hx⟩ := hx
  refine (sound_fp2MulByInverse h1 (-5) _ _).bind (fun _ => (alike_g2ToBitsV _).bind fun _ =>
    (alike_boolEnforceEqual _ _).bind fun _ => alike_pure _) fun vy hy => ?_
  obtain ⟨iy, hiy, hy⟩ := hy
  refine (sound_g2ToBitsV h1 _).bind (fun _ => (alike_boolEnforceEqual _ _).bind fun _ => alike_pure _)
    fun bits hbits => ?_
  obtain ⟨w, hw, hbits⟩ := hbits
  refine (sound_boolEnforceEqual h1 hb ((bitIs_constant h1).2 rfl)).bind (fun _ => alike_pure _)
    fun _ ht => sound_pure ?_
  rw [bitLength_fq] at hbits
  have hz : (keyAt ρ (G2V.ofOption o)).coords.z ≠ 0 := by
    intro h0
    change ((G2V.ofOption o).2.2.at (-5) ρ : Fq2) = 0 at h0
    rw [h0, zero_mul] at hix
    exact zero_ne_one hix
  obtain ⟨hnn, hne⟩ := hall.2.1 hz
  obtain ⟨c, hc, hd⟩ := hall.1 hnn
  refine ⟨⟨vx.at (-5) ρ, vy.at (-5) ρ, w⟩, ⟨?_, hw⟩, List.rel_append hl hbits, ht⟩
  have hsum : enforceAggregatedAllPubkeys ((ks.map (keyAt ρ)).map G2Var.point) =
      ((ks.map (keyAt ρ)).map (·.point)).sum := by
    rw [enforceAggregatedAllPubkeys, List.sum_eq_foldl]
  rw [hsum]
  generalize ((ks.map (keyAt ρ)).map (·.point)).sum = P at hd hne
  cases P with
  | zero => exact absurd rfl hne
  | some x y h =>
    have ex : ((G2V.ofOption o).1.at (-5) ρ : Fq2) = c * x := congrArg ProjVar.x hd
    have ey : ((G2V.ofOption o).2.1.at (-5) ρ : Fq2) = c * y := congrArg ProjVar.y hd
    have ez : ((G2V.ofOption o).2.2.at (-5) ρ : Fq2) = c * 1 := congrArg ProjVar.z hd
    have e1 : (vx.at (-5) ρ : Fq2) = x := by
      rw [hx, ex]
      rw [ez, mul_one] at hix
      rw [← mul_assoc, mul_comm ix c, hix, one_mul]
    have e2 : (vy.at (-5) ρ : Fq2) = y := by
      rw [hy, ey]
      rw [ez, mul_one] at hiy
      rw [← mul_assoc, mul_comm iy c, hiy, one_mul]
    dsimp only
    rw [e1, e2]
    exact ⟨h, rfl⟩

theorem sound_lastRoundV (h1 : ρ .one = 1) (isLast drop : Bool) {ks : List (G2V FQ_MODULUS)}
    (hk : ∀ k ∈ ks, OnG2 (keyAt ρ k)) {l : List BoolV} {ts : List Bool} (hl : List.Forall₂ (BitIs ρ) l ts)
    {b : BoolV} {t : Bool} (hb : BitIs ρ b t) :
    Sound ρ (lastRoundV isLast drop ks l b) fun bits => isLast = true → ∃ last : LastVars,
      lastApkC (ks.map (keyAt ρ)) last ∧
      List.Forall₂ (BitIs ρ) bits (ts ++ g2ToBits ⟨last.x, last.y, 1⟩ last.w) ∧ t = true := by
  cases isLast
  · exact sound_pure fun h => nomatch h
  · exact (sound_lastEpochV h1 drop hk hl hb).mono fun _ h _ => h

/-- The loop has these values. -/
structure LoopV.Is (ρ : R1Var → Fq) (isG1 : O.PG1 → G1Point → Prop) (isG2 : O.PG2 → G2Point → Prop)
    (v : LoopV O.PG1 O.PG2) (o : LoopOut G1Point) : Prop where
  lastEpochBits : List.Forall₂ (BitIs ρ) v.lastEpochBits o.lastEpochBits
  crhBits : List.Forall₂ (BitIs ρ) v.crhBits o.crhBits
  xofBits : List.Forall₂ (BitIs ρ) v.xofBits o.xofBits
  aggregatedPublicKeys : List.Forall₂ isG2 v.aggregatedPublicKeys o.aggregatedPublicKeys
  messageHashes : List.Forall₂ isG1 v.messageHashes o.messageHashes

theorem next_onG2 {prev : Previous} (hp : ∀ k ∈ prev.pubkeys, OnG2 k) {w : EpochVars}
    (hw : ∀ k ∈ w.pubkeys, OnG2 k) (t : Bool) : ∀ k ∈ (prev.next t w).pubkeys, OnG2 k := by
  intro k hk
  obtain ⟨x, hx, rfl⟩ := List.mem_map.1 hk
  obtain ⟨a, b⟩ := x
  cases t
  · exact hp _ (List.of_mem_zip hx).2
  · exact hw _ (List.of_mem_zip hx).1

/-- The size of the variables of an update. -/
def UpdateSize (n : ℕ) (u : SingleUpdateOpt) (w : UpdateVars G1Point) : Prop :=
  w.epoch.keys.length = n ∧ w.bitmap.length = u.signedBitmap.length

theorem sound_epochsLoop (h1 : ρ .one = 1) (hS : O.Shaped) {g1 : Fq × Fq}
    (hg1 : (⟨g1.1, g1.2, 1⟩ : G1Var).coords.OnCurve 1) {g2 : (Fq × Fq) × (Fq × Fq)}
    (hg2 : Denotes (padVar g2.1 g2.2).coords (padVar g2.1 g2.2).point)
    (hO : O.SoundAt ρ hashC e (padVar g2.1 g2.2).point K groth isG1 isG2) (oc drop gh : Bool) (n : ℕ)
    {eb : BoolV} {t : Bool} (heb : BitIs ρ eb t) (us : List SingleUpdateOpt) (prev : PreviousV FQ_MODULUS)
    (hk : ∀ k ∈ (prev.at ρ).pubkeys, OnG2 k) :
    Sound ρ (epochsLoop O oc drop gh g1 g2 n eb us prev) fun v => ∃ (last : LastVars)
      (ws : List (UpdateVars G1Point)), List.Forall₂ (UpdateSize n) us ws ∧ ∃ o : LoopOut G1Point,
      intermediateLoop OnG2 (hashC gh) (⟨g1.1, g1.2, 1⟩ : G1Var).point (padVar g2.1 g2.2).point n t last ws
        (prev.at ρ) = .ok o ∧ o.sat ∧ v.Is ρ isG1 isG2 o := by
  induction us generalizing prev with
  | nil =>
    exact sound_pure ⟨⟨0, 0, ⟨false, false, 0, false, 0, false, 0⟩⟩, [], .nil, _, rfl, trivial,
      ⟨.nil, .nil, .nil, .nil, .nil⟩⟩
  | cons u us ih =>
    have hkp : ∀ k ∈ prev.pubkeys, OnG2 (keyAt ρ k) := fun k h => hk _ (List.mem_map_of_mem h)
    unfold epochsLoop
    refine (sound_constrainUpdateV h1 hS hO oc drop gh hg2 n hkp heb u).bind (fun _ =>
      (alike_isEqZero _).bind fun _ => (alike_nextPreviousV _ _ _).bind fun _ =>
      (alike_preparePairV hS _ _ _ _ _).bind fun _ => (alike_lastRoundV _ _ _ _ _).bind fun _ =>
      (alike_epochsLoop hS _ _ _ _ _ _ _ _ (sameSize_refl _) _).bind fun _ => alike_pure _) fun v hv => ?_
    obtain ⟨w, hcu, hwl, hwb, hwk, hw, hh, hon⟩ := hv
    refine (sound_isEqZero h1 _).bind (fun _ => (alike_nextPreviousV _ _ _).bind fun _ =>
      (alike_preparePairV hS _ _ _ _ _).bind fun _ => (alike_lastRoundV _ _ _ _ _).bind fun _ =>
      (alike_epochsLoop hS _ _ _ _ _ _ _ _ (sameSize_refl _) _).bind fun _ => alike_pure _) fun z hz => ?_
    obtain ⟨s, inv, hzs, hzc⟩ := hz
    have hzc' : isEqZeroC (.var w.epoch.index) inv s := by
      have := hzc
      rwa [show (FpV.var v.1.1.index : FpV FQ_MODULUS).at ρ = .var w.epoch.index from
        congrArg FpVar.var hw.index] at this
    have hnb := bitIs_neg h1 hzs
    refine (sound_nextPreviousV h1 hnb hw prev).bind (fun _ =>
      (alike_preparePairV hS _ _ _ _ _).bind fun _ => (alike_lastRoundV _ _ _ _ _).bind fun _ =>
      (alike_epochsLoop hS _ _ _ _ _ _ _ _ (sameSize_refl _) _).bind fun _ => alike_pure _)
      fun prev' hp => ?_
    have hk' : ∀ k ∈ (prev'.at ρ).pubkeys, OnG2 k := by rw [hp]; exact next_onG2 hk hwk _
    refine (sound_preparePairV h1 hS hO hg1 ((denotes_iff g2_nonsingular_iff _).1 ⟨_, hg2⟩).1 hnb hon
      hh.onCurve).bind (fun _ => (alike_lastRoundV _ _ _ _ _).bind fun _ =>
      (alike_epochsLoop hS _ _ _ _ _ _ _ _ (sameSize_refl _) _).bind fun _ => alike_pure _) fun pr hpr => ?_
    refine (sound_lastRoundV h1 us.isEmpty drop (fun k h => hk' _ (List.mem_map_of_mem h)) hw.lastEpochBits
      hnb).bind (fun _ => (alike_epochsLoop hS _ _ _ _ _ _ _ _ (sameSize_refl _) _).bind
        fun _ => alike_pure _) fun lb hlb => ?_
    refine (ih prev' hk').bind (fun _ => alike_pure _) fun r hr => sound_pure ?_
    obtain ⟨last, ws, hws, o, ho, hsat, hro⟩ := hr
    obtain ⟨c, hc, hcc⟩ := hcu (inv, s)
    rw [hh.point] at hpr
    cases us with
    | nil =>
      cases hws
      obtain ⟨last', hla, hlbits, hlt⟩ := hlb rfl
      cases ho
      refine ⟨last', [{ w with loopZero := (inv, s) }], .cons ⟨hwl, hwb⟩ .nil, ?_⟩
      rw [intermediateLoop, hc, Outcome.bind_ok]
      dsimp only
      rw [intermediateLoop, Outcome.map_ok]
      exact ⟨_, rfl, ⟨hcc, hzc', fun _ => ⟨by rw [← hp]; exact hla, hlt⟩, trivial⟩,
        ⟨hlbits, List.rel_append hh.crhBits hro.crhBits, List.rel_append hh.xofBits hro.xofBits,
          .cons hpr.1 hro.aggregatedPublicKeys, .cons hpr.2 hro.messageHashes⟩⟩
    | cons u' us =>
      obtain ⟨w', ws', rfl⟩ : ∃ w' ws', ws = w' :: ws' := by cases hws; exact ⟨_, _, rfl⟩
      refine ⟨last, { w with loopZero := (inv, s) } :: w' :: ws', .cons ⟨hwl, hwb⟩ hws, ?_⟩
      rw [intermediateLoop, hc, Outcome.bind_ok]
      dsimp only
      rw [← hp, ho, Outcome.map_ok]
      exact ⟨_, rfl, ⟨hcc, hzc', (fun h => nomatch h), hsat⟩,
        ⟨hro.lastEpochBits, List.rel_append hh.crhBits hro.crhBits,
          List.rel_append hh.xofBits hro.xofBits, .cons hpr.1 hro.aggregatedPublicKeys,
          .cons hpr.2 hro.messageHashes⟩⟩

theorem intermediateLoop_lengths {alloc : G2Var → Prop} {hc : List Bool → List Bool → HashOut G1Point → Prop}
    {a : G1Point} {b : G2Point} {n : ℕ} {t : Bool} {last : LastVars} {ws : List (UpdateVars G1Point)}
    {prev : Previous} {o : LoopOut G1Point} (h : intermediateLoop alloc hc a b n t last ws prev = .ok o) :
    o.messageHashes.length = o.aggregatedPublicKeys.length := by
  induction ws generalizing prev o with
  | nil => cases h; rfl
  | cons w ws ih =>
    unfold intermediateLoop at h
    rw [Outcome.bind_eq_ok_iff] at h
    obtain ⟨c, _, h⟩ := h
    rw [Outcome.map_eq_ok_iff] at h
    obtain ⟨r, hr, rfl⟩ := h
    simp [ih hr]

/-- The edge bits have these values. -/
structure EdgeBitsV.Is (ρ : R1Var → Fq) (v : EdgeBitsV) (b : EpochBits) : Prop where
  firstEpochBits : List.Forall₂ (BitIs ρ) v.firstEpochBits b.firstEpochBits
  lastEpochBits : List.Forall₂ (BitIs ρ) v.lastEpochBits b.lastEpochBits
  crhBits : List.Forall₂ (BitIs ρ) v.crhBits b.crhBits
  xofBits : List.Forall₂ (BitIs ρ) v.xofBits b.xofBits

theorem sound_enforceEpochsV (h1 : ρ .one = 1) (hS : O.Shaped) {g1 : Fq × Fq}
    (hg1 : (⟨g1.1, g1.2, 1⟩ : G1Var).coords.OnCurve 1) {g2 : (Fq × Fq) × (Fq × Fq)}
    (hg2 : Denotes (padVar g2.1 g2.2).coords (padVar g2.1 g2.2).point)
    (hO : O.SoundAt ρ hashC e (padVar g2.1 g2.2).point K groth isG1 isG2) (oc drop : Bool)
    (s : ValidatorSetUpdateOpt G1Point HP VK) :
    Sound ρ (enforceEpochsV O oc drop g1 g2 s) fun v => ∃ c : CircuitVars G1Point,
      c.initial.keys.length = s.initialEpoch.publicKeys.length ∧
      List.Forall₂ (UpdateSize s.numValidators) s.epochs c.updates ∧ ∃ b : EpochBits,
      enforceEpochs OnG2 (hashC s.hashHelper.isNone) e (⟨g1.1, g1.2, 1⟩ : G1Var).point
        (padVar g2.1 g2.2).point s.numValidators c = .ok b ∧ b.sat ∧ v.Is ρ b := by
  refine (sound_epochToBits h1 _).bind (fun _ => (alike_isEqZero _).bind fun _ =>
    (alike_epochsLoop hS _ _ _ _ _ _ _ _ (sameSize_refl _) _).bind fun _ =>
      (alike_verifySignatureV hS _ _ _ _).bind fun _ => alike_pure _) fun v hv => ?_
  obtain ⟨w, hwl, hw, hv⟩ := hv
  refine (sound_isEqZero h1 _).bind (fun _ =>
    (alike_epochsLoop hS _ _ _ _ _ _ _ _ (sameSize_refl _) _).bind fun _ =>
      (alike_verifySignatureV hS _ _ _ _).bind fun _ => alike_pure _) fun z hz => ?_
  obtain ⟨t, inv, hzt, hzc⟩ := hz
  rw [show (FpV.var v.epochEntropy : FpV FQ_MODULUS).at ρ = .var w.epochEntropy from
    congrArg FpVar.var hv.epochEntropy] at hzc
  have hat : (⟨v.pubkeys, v.index, v.epochEntropy, v.maximumNonSigners⟩ : PreviousV FQ_MODULUS).at ρ =
      ⟨w.pubkeys, w.index, w.epochEntropy, w.maximumNonSigners⟩ := by
    unfold PreviousV.at
    dsimp only
    rw [hv.pubkeys, hv.index, hv.epochEntropy, hv.maximumNonSigners]
    rfl
  refine (sound_epochsLoop h1 hS hg1 hg2 hO oc drop s.hashHelper.isNone s.numValidators
    (bitIs_neg h1 hzt) s.epochs _ ?_).bind (fun _ =>
      (alike_verifySignatureV hS _ _ _ _).bind fun _ => alike_pure _) fun r hr => ?_
  · rw [hat]
    intro k hk
    obtain ⟨kw, hkw, rfl⟩ := List.mem_map.1 hk
    exact (hw kw hkw).1
  rw [hat] at hr
  obtain ⟨last, ws, hws, o, ho, hsat, hro⟩ := hr
  have hsig : Sound ρ (verifySignatureV O s.aggregatedSignature r.aggregatedPublicKeys r.messageHashes)
      fun _ => ∃ q, ∀ eqn, batchVerifyPrepared e (padVar g2.1 g2.2).point o.aggregatedPublicKeys
        o.messageHashes q = .ok eqn → eqn := by
    refine (sound_allocPointG1 _ _ _ _).bind (fun _ => hS.verify _ _ _) fun q hq => ?_
    exact (hO.verify _ _ q _ _ hro.aggregatedPublicKeys hro.messageHashes hq).mono fun _ h => ⟨_, h⟩
  refine hsig.bind (fun _ => alike_pure _) fun _ hq => sound_pure ?_
  obtain ⟨q, hq⟩ := hq
  have hlen : o.messageHashes.length = o.aggregatedPublicKeys.length := by
    have := intermediateLoop_lengths ho
    exact this
  obtain ⟨eqn, heqn⟩ : ∃ eqn, batchVerifyPrepared e (padVar g2.1 g2.2).point o.aggregatedPublicKeys
      o.messageHashes q = .ok eqn := by
    unfold batchVerifyPrepared enforceBlsEquation
    rw [if_pos (by simp [hlen])]
    exact ⟨_, rfl⟩
  refine ⟨⟨w, (inv, t), ws, last, q⟩, hwl, hws, ?_⟩
  unfold enforceEpochs
  dsimp only
  rw [ho, Outcome.bind_ok, heqn, Outcome.map_ok]
  exact ⟨_, rfl, ⟨hw, hzc, hsat, hq _ heqn⟩,
    ⟨hv.firstEpochBits, hro.lastEpochBits, hro.crhBits, hro.xofBits⟩⟩

theorem forall₂_replicate {α β : Type*} {R : α → β → Prop} {a : α} {b : β} (h : R a b) (n : ℕ) :
    List.Forall₂ R (List.replicate n a) (List.replicate n b) := by
  induction n with
  | zero => exact .nil
  | succ n ih => exact .cons h ih

theorem forall₂_reverse {α β : Type*} {R : α → β → Prop} {l : List α} {l' : List β}
    (h : List.Forall₂ R l l') : List.Forall₂ R l.reverse l'.reverse := List.rel_reverse h

theorem sound_edgeHashV (h1 : ρ .one = 1) (hO : O.SoundAt ρ hashC e gen2 K groth isG1 isG2)
    {l : List BoolV} {ts : List Bool} (h : List.Forall₂ (BitIs ρ) l ts) :
    Sound ρ (edgeHashV O l) fun r => List.Forall₂ (BitIs ρ) r (edgeHash K ts) := by
  unfold edgeHashV edgeHash
  simp only [List.length_reverse, ← h.length_eq]
  refine hO.blake _ _ _ ?_ (List.rel_append (forall₂_reverse h)
    (forall₂_replicate ((bitIs_constant h1).2 rfl) _))
  rw [List.length_append, List.length_reverse, List.length_replicate]
  omega

theorem sound_verifyEdgesV (h1 : ρ .one = 1) (hS : O.Shaped)
    (hO : O.SoundAt ρ hashC e gen2 K groth isG1 isG2) {v : EdgeBitsV} {b : EpochBits} (h : v.Is ρ b) :
    Sound ρ (verifyEdgesV O v) fun ls => verifyEdgesC K b (ls.map (evalLc ρ)) := by
  refine (sound_edgeHashV h1 hO h.firstEpochBits).bind (fun _ => (alike_edgeHashV hS _).bind fun _ =>
    alike_multipack _ _ _) fun f hf => ?_
  refine (sound_edgeHashV h1 hO h.lastEpochBits).bind (fun _ => alike_multipack _ _ _) fun g hg => ?_
  refine (sound_multipack h1 true 376 (List.rel_append hf hg)).mono fun ls hls => ?_
  rw [bitLength_fq] at hls
  exact hls

/-- The Groth16 gadget for the key of the helper, if there is one. -/
def helperGroth (groth : VK → List (List Bool) → HP → Outcome Unit (Prop × Bool))
    (h : Option (HashToBitsHelper HP VK)) : List (List Bool) → HP → Outcome Unit (Prop × Bool) :=
  match h with
  | some h => groth h.verifyingKey
  | none => fun _ _ => .err ()

theorem sound_verifyEpochBitsV (h1 : ρ .one = 1) (hS : O.Shaped)
    (hO : O.SoundAt ρ hashC e gen2 K groth isG1 isG2) {v : EdgeBitsV} {b : EpochBits} (h : v.Is ρ b)
    (helper : Option (HashToBitsHelper HP VK)) :
    Sound ρ (verifyEpochBitsV O helper v) fun ls => ∃ (proof : Option HP) (P : Prop),
      proof.isNone = helper.isNone ∧
      b.verify K (helperGroth groth helper) proof (ls.map (evalLc ρ)) = .ok P ∧ P := by
  cases helper with
  | none =>
    exact (sound_verifyEdgesV h1 hS hO h).mono fun ls hls => ⟨none, _, rfl, rfl, trivial, hls⟩
  | some hh =>
    have hg := hO.groth (leChunksV v.crhBits 252 ++ leChunksV v.xofBits 252)
      (leChunks b.crhBits 252 ++ leChunks b.xofBits 252) hh
      (List.rel_append
        ((List.forall₂_map_left_iff.2 (List.forall₂_map_right_iff.2
          ((forall₂_chunks h.crhBits (n := 252)).1.imp fun _ _ => forall₂_reverse))))
        ((List.forall₂_map_left_iff.2 (List.forall₂_map_right_iff.2
          ((forall₂_chunks h.xofBits (n := 252)).1.imp fun _ _ => forall₂_reverse)))))
    refine hg.bind (fun _ => alike_verifyEdgesV hS _) fun _ hp => ?_
    obtain ⟨proof, r, hr, hr1⟩ := hp
    refine (sound_verifyEdgesV h1 hS hO h).mono fun ls hls =>
      ⟨some proof, r.1 ∧ verifyEdgesC K b (ls.map (evalLc ρ)), rfl, ?_, hr1, hls⟩
    unfold EpochBits.verify verifyHelperProof helperGroth
    dsimp only
    rw [hr, Outcome.map_ok, Outcome.map_ok]

theorem sound_generateConstraints (h1 : ρ .one = 1) (hS : O.Shaped) {g1 : Fq × Fq}
    (hg1 : (⟨g1.1, g1.2, 1⟩ : G1Var).coords.OnCurve 1) {g2 : (Fq × Fq) × (Fq × Fq)}
    (hg2 : Denotes (padVar g2.1 g2.2).coords (padVar g2.1 g2.2).point)
    (hO : O.SoundAt ρ hashC e (padVar g2.1 g2.2).point K groth isG1 isG2) (oc drop : Bool)
    (s : ValidatorSetUpdateOpt G1Point HP VK) :
    Sound ρ (generateConstraints O oc drop g1 g2 s) fun ls =>
      ∃ (c : CircuitVars G1Point) (proof : Option HP) (P : Prop),
      c.initial.keys.length = s.initialEpoch.publicKeys.length ∧
      List.Forall₂ (UpdateSize s.numValidators) s.epochs c.updates ∧
      proof.isNone = s.hashHelper.isNone ∧
      epochCircuit OnG2 hashC K (helperGroth groth s.hashHelper) e (⟨g1.1, g1.2, 1⟩ : G1Var).point
        (padVar g2.1 g2.2).point s.numValidators proof c (ls.map (evalLc ρ)) = .ok P ∧ P := by
  refine (sound_enforceEpochsV h1 hS hg1 hg2 hO oc drop s).bind (fun _ =>
    alike_verifyEpochBitsV hS (sameKey_refl _) _) fun v hv => ?_
  obtain ⟨c, hl, hu, b, hb, hsat, hv⟩ := hv
  refine (sound_verifyEpochBitsV h1 hS hO hv s.hashHelper).mono fun ls hls => ?_
  obtain ⟨proof, P, hpn, hP, hPP⟩ := hls
  refine ⟨c, proof, b.sat ∧ P, hl, hu, hpn, ?_, hsat, hPP⟩
  unfold epochCircuit
  rw [hpn, hb, Outcome.bind_ok, hP, Outcome.map_ok]

end

end Verif
