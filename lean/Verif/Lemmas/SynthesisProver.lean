import Verif.Lemmas.SynthesisEpochs

/-!
# Runs of the whole circuit

Lemmas for the prover's run of `generateConstraints`.
-/

set_option linter.unusedSectionVars false

namespace Verif

/-! ### values of points in a run -/

/-- The coordinates of a key have these values. -/
def G2At (c : ConstraintSystem FQ_MODULUS) (v : G2V FQ_MODULUS) (k : G2Var) : Prop :=
  ProjAt (-5) c v k.coords

/-- The coordinates of a point of G1 have these values. -/
def G1At (c : ConstraintSystem FQ_MODULUS) (v : G1V FQ_MODULUS) (k : G1Var) : Prop :=
  LcAt c v.1 k.x ∧ LcAt c v.2.1 k.y ∧ LcAt c v.2.2 k.z

theorem G2At.ext {a b : ConstraintSystem FQ_MODULUS} {v : G2V FQ_MODULUS} {k : G2Var} (h : G2At a v k)
    (hg : a.Good) (he : a.Ext b) : G2At b v k := ProjAt.ext h hg he

theorem G1At.ext {a b : ConstraintSystem FQ_MODULUS} {v : G1V FQ_MODULUS} {k : G1Var} (h : G1At a v k)
    (hg : a.Good) (he : a.Ext b) : G1At b v k := ⟨h.1.ext hg he, h.2.1.ext hg he, h.2.2.ext hg he⟩

theorem g2Ats_ext {a b : ConstraintSystem FQ_MODULUS} {vs : List (G2V FQ_MODULUS)} {ks : List G2Var}
    (h : List.Forall₂ (G2At a) vs ks) (hg : a.Good) (he : a.Ext b) : List.Forall₂ (G2At b) vs ks :=
  h.imp fun _ _ h => h.ext hg he

/-- The coordinates denote a point. -/
def GoodKey (k : G2Var) : Prop := Denotes k.coords k.point

theorem GoodKey.onG2 {k : G2Var} (h : GoodKey k) : OnG2 k :=
  ((denotes_iff g2_nonsingular_iff _).1 ⟨_, h⟩).1

theorem GoodKey.ne_null {k : G2Var} (h : GoodKey k) : k.coords ≠ ⟨0, 0, 0⟩ :=
  ((denotes_iff g2_nonsingular_iff _).1 ⟨_, h⟩).2

theorem denotes_goodKey {k : G2Var} {P : G2Point} (h : Denotes k.coords P) : GoodKey k ∧ k.point = P := by
  have e : k.point = P := h.point _
  exact ⟨by unfold GoodKey; rw [e]; exact h, e⟩

theorem ofPoint_denotes (P : G2Point) : Denotes (G2Var.ofPoint P).coords P := by
  refine ⟨1, one_ne_zero, ?_⟩
  cases P <;> simp [G2Var.ofPoint, G2Var.coords, stdCoords, ProjVar.scale, ProjVar.zero]

theorem ofPoint_good (P : G2Point) : GoodKey (G2Var.ofPoint P) := (denotes_goodKey (ofPoint_denotes P)).1

theorem ofPoint1_denotes (P : G1Point) : Denotes (G1Var.ofPoint P).coords P := by
  refine ⟨1, one_ne_zero, ?_⟩
  cases P <;> simp [G1Var.ofPoint, G1Var.coords, stdCoords, ProjVar.scale, ProjVar.zero]

theorem ofPoint1_on (P : G1Point) : (G1Var.ofPoint P).coords.OnCurve 1 :=
  ((denotes_iff g1_nonsingular_iff _).1 ⟨_, ofPoint1_denotes P⟩).1

theorem ofPoint1_point (P : G1Point) : (G1Var.ofPoint P).point = P := (ofPoint1_denotes P).point _

/-- A key with these coordinates. -/
theorem exists_key (P : ProjVar Fq2) : ∃ k : G2Var, k.coords = P := ⟨⟨P.x, P.y, P.z⟩, rfl⟩

/-! ### operations -/

theorem step_g2Select {cs : ConstraintSystem FQ_MODULUS} (hg : cs.Good) {b : BoolV} {t : Bool}
    (hb : BitAt cs b t) {u v : G2V FQ_MODULUS} {k l : G2Var} (hu : G2At cs u k) (hv : G2At cs v l) :
    Step cs (g2Select b u v) fun c w => G2At c w (if t then k else l) := by
  refine (step_fp2Select hg hb hu.1 hv.1).bind fun c1 x g1 e1 hx => ?_
  have hb := hb.ext hg e1
  have hu := hu.ext hg e1
  have hv := hv.ext hg e1
  refine (step_fp2Select g1 hb hu.2.1 hv.2.1).bind fun c2 y g2 e2 hy => ?_
  have hb := hb.ext g1 e2
  have hu := hu.ext g1 e2
  have hv := hv.ext g1 e2
  have hx := hx.ext g1 e2
  refine (step_fp2Select g2 hb hu.2.2 hv.2.2).bind fun c3 z g3 e3 hz => step_pure g3 ?_
  have hx := hx.ext g2 e3
  have hy := hy.ext g2 e3
  cases t <;> exact ⟨hx, hy, hz⟩

theorem step_g1Select {cs : ConstraintSystem FQ_MODULUS} (hg : cs.Good) {b : BoolV} {t : Bool}
    (hb : BitAt cs b t) {u v : G1V FQ_MODULUS} {k l : G1Var} (hu : G1At cs u k) (hv : G1At cs v l) :
    Step cs (g1Select b u v) fun c w => G1At c w (if t then k else l) := by
  refine (step_fpSelect hg hb hu.1 hv.1).bind fun c1 x g1 e1 hx => ?_
  have hb := hb.ext hg e1
  have hu := hu.ext hg e1
  have hv := hv.ext hg e1
  refine (step_fpSelect g1 hb hu.2.1 hv.2.1).bind fun c2 y g2 e2 hy => ?_
  have hb := hb.ext g1 e2
  have hu := hu.ext g1 e2
  have hv := hv.ext g1 e2
  have hx := hx.ext g1 e2
  refine (step_fpSelect g2 hb hu.2.2 hv.2.2).bind fun c3 z g3 e3 hz => step_pure g3 ?_
  have hx := hx.ext g2 e3
  have hy := hy.ext g2 e3
  cases t <;> exact ⟨hx, hy, hz⟩

theorem inverse_value {z : Fq2} (hz : z ≠ 0) :
    z * (⟨z.re * (z.re ^ 2 - (-5) * z.im ^ 2)⁻¹, -z.im * (z.re ^ 2 - (-5) * z.im ^ 2)⁻¹⟩ : Fq2) = 1 := by
  have hc : z * (⟨z.re, -z.im⟩ : Fq2) = ⟨z.re ^ 2 - (-5) * z.im ^ 2, 0⟩ := by
    apply QuadraticAlgebra.ext
    · rw [QuadraticAlgebra.re_mul]; ring
    · rw [QuadraticAlgebra.im_mul]; ring
  have hn : z.re ^ 2 - (-5) * z.im ^ 2 ≠ 0 := by
    intro h
    rw [h] at hc
    have : z * (⟨z.re, -z.im⟩ : Fq2) = 0 := hc
    rcases mul_eq_zero.1 this with h | h
    · exact hz h
    · apply hz
      have h1 : z.re = 0 := congrArg QuadraticAlgebra.re h
      have h2 : -z.im = 0 := congrArg QuadraticAlgebra.im h
      exact QuadraticAlgebra.ext h1 (neg_eq_zero.1 h2)
  apply QuadraticAlgebra.ext
  · rw [QuadraticAlgebra.re_mul, QuadraticAlgebra.re_one, ← mul_inv_cancel₀ hn]
    ring
  · rw [QuadraticAlgebra.im_mul, QuadraticAlgebra.im_one]
    ring

theorem step_fp2MulByInverse {cs : ConstraintSystem FQ_MODULUS} (hg : cs.Good)
    {x d : Fp2V FQ_MODULUS} {v z : Fq2} (hx : Fp2At (-5) cs x v) (hd : Fp2At (-5) cs d z) (hz : z ≠ 0) :
    Step cs (fp2MulByInverse (-5) x d) fun c w => Fp2At (-5) c w (z⁻¹ * v) := by
  have hinv := inverse_value hz
  have hval : ∀ c : ConstraintSystem FQ_MODULUS, c.setup = false → cs.Ext c →
      fp2InverseValue (-5) d c = .ok (z.re * (z.re ^ 2 - (-5) * z.im ^ 2)⁻¹,
        -z.im * (z.re ^ 2 - (-5) * z.im ^ 2)⁻¹) := by
    intro c hs he
    unfold fp2InverseValue
    rw [(hd.1.ext hg he).value hs, Outcome.bind_ok, (hd.2.ext hg he).value hs, Outcome.map_ok]
  have hwit : Step cs (fp2Witness (fp2InverseValue (-5) d)) fun c w => Fp2At (-5) c w z⁻¹ := by
    rw [← eq_inv_of_mul_eq_one_right hinv]
    refine (step_fpWitness (x := z.re * (z.re ^ 2 - (-5) * z.im ^ 2)⁻¹) hg fun hs => by
      rw [hval cs hs (ext_refl cs), Outcome.map_ok]).bind fun c1 a g1 e1 ha => ?_
    exact (step_fpWitness (x := -z.im * (z.re ^ 2 - (-5) * z.im ^ 2)⁻¹) g1 fun hs => by
      rw [hval c1 hs e1, Outcome.map_ok]).bind fun c2 b g2 e2 hb => step_pure g2 ⟨ha.ext g1 e2, hb⟩
  have hi : Step cs (fp2Inverse (-5) d) fun c w => Fp2At (-5) c w z⁻¹ := by
    refine hwit.bind fun c1 i g1 e1 hi => ?_
    refine (step_fp2MulEquals (nr := -5) (c := (⟨1, 0⟩ : Fq2)) g1 (hd.ext hg e1) hi (fp2At_const c1 1 0)
      (mul_inv_cancel₀ hz)).bind fun c2 _ g2 e2 _ => step_pure g2 (hi.ext g1 e2)
  exact hi.bind fun c1 i g1 e1 hi => step_fp2Mul g1 hi (hx.ext hg e1)

theorem step_constrainBool {cs : ConstraintSystem FQ_MODULUS} (hg : cs.Good) (ts : List Bool) :
    Step cs (constrainBool (ts.map some)) fun c bs => List.Forall₂ (BitAt c) bs ts ∧
      ∀ b ∈ bs, b.isVar = true := by
  refine (step_mapM (At := fun c b t => BitAt c b t ∧ b.isVar = true) (vs := ts)
    (fun _ _ _ _ ga ea ha => ⟨ha.1.ext ga ea, ha.2⟩) hg ?_).mono fun c bs _ h => ?_
  · rw [List.forall₂_map_left_iff]
    exact forall₂_same' (fun t c hc _ => step_boolWitness hc fun _ => rfl) ts
  · refine ⟨h.imp fun _ _ h => h.1, ?_⟩
    induction h with
    | nil => simp
    | cons h _ ih => exact List.forall_mem_cons.2 ⟨h.2, ih⟩

theorem accAt_ofOption {c : ConstraintSystem FQ_MODULUS} {acc : Option (G2V FQ_MODULUS)}
    {o : Option (ProjVar Fq2)} (h : AccAt (-5) c acc o) :
    ProjAt (-5) c (G2V.ofOption acc) (o.getD ProjVar.zero) := by
  cases h with
  | none => exact ⟨fp2At_const c 0 0, fp2At_const c 1 0, fp2At_const c 0 0⟩
  | some h => exact h

/-! ### gadgets -/

/-- What the runs of the outer gadgets have to do: for inputs with values that meet the relation, they
succeed, satisfy their constraints, and the results have the values of the relation. -/
structure OuterGadgets.RunsAt {HP VK GT : Type} [CommGroup GT] (O : OuterGadgets (HashToBitsHelper HP VK))
    (hashC : Bool → List Bool → List Bool → HashOut G1Point → Prop)
    (hashW : Bool → List Bool → List Bool → Outcome Unit (HashOut G1Point))
    (e : G1Point → G2Point → GT) (gen2 : G2Point) (K : Blake2sCore)
    (groth : VK → List (List Bool) → HP → Outcome Unit (Prop × Bool))
    (isG1 : ConstraintSystem FQ_MODULUS → O.PG1 → G1Point → Prop)
    (isG2 : ConstraintSystem FQ_MODULUS → O.PG2 → G2Point → Prop) : Prop where
  extG1 : ∀ {a b w P}, a.Good → a.Ext b → isG1 a w P → isG1 b w P
  extG2 : ∀ {a b w P}, a.Good → a.Ext b → isG2 a w P → isG2 b w P
  hash : ∀ {cs b xs ys ts us out}, cs.Good → cs.setup = false → List.Forall₂ (BitAt cs) xs ts →
    List.Forall₂ (BitAt cs) ys us → hashW b ts us = .ok out → hashC b ts us out →
    Step cs (O.hash b xs ys) fun c h => (∃ k, G1At c h.messageHash k ∧ k.coords.OnCurve 1 ∧
      k.point = out.messageHash) ∧ List.Forall₂ (BitAt c) h.crhBits out.crhBits ∧
      List.Forall₂ (BitAt c) h.xofBits out.xofBits
  prepareG1 : ∀ {cs v k}, cs.Good → cs.setup = false → G1At cs v k → k.coords.OnCurve 1 →
    Step cs (O.prepareG1 v) fun c w => isG1 c w k.point
  prepareG2 : ∀ {cs v k}, cs.Good → cs.setup = false → G2At cs v k → k.coords.OnCurve g2CoeffB →
    Step cs (O.prepareG2 v) fun c w => isG2 c w k.point
  verify : ∀ {cs ks ms s Ks Ms k eqn}, cs.Good → cs.setup = false → List.Forall₂ (isG2 cs) ks Ks →
    List.Forall₂ (isG1 cs) ms Ms → G1At cs s k → k.coords.OnCurve 1 →
    batchVerifyPrepared e gen2 Ks Ms k.point = .ok eqn → eqn →
    Step cs (O.verify ks ms s) fun _ _ => True
  blake : ∀ {cs m ts b}, cs.Good → cs.setup = false → 8 ∣ m.length → List.Forall₂ (BitAt cs) m ts →
    Step cs (O.blake m b) fun c r => List.Forall₂ (BitAt c) r (K.evaluate ts b)
  groth : ∀ {cs ins tss h r}, cs.Good → cs.setup = false → List.Forall₂ (List.Forall₂ (BitAt cs)) ins tss →
    groth h.verifyingKey tss h.proof = .ok r → r.1 → Step cs (O.groth ins h) fun _ _ => True

/-- The outputs of the hash have these values. -/
structure HashV.At (c : ConstraintSystem FQ_MODULUS) (h : HashV FQ_MODULUS) (out : HashOut G1Point) :
    Prop where
  point : ∃ k, G1At c h.messageHash k ∧ k.coords.OnCurve 1 ∧ k.point = out.messageHash
  crhBits : List.Forall₂ (BitAt c) h.crhBits out.crhBits
  xofBits : List.Forall₂ (BitAt c) h.xofBits out.xofBits

theorem HashV.At.ext {a b : ConstraintSystem FQ_MODULUS} {h : HashV FQ_MODULUS} {out : HashOut G1Point}
    (hh : h.At a out) (hg : a.Good) (he : a.Ext b) : h.At b out := by
  obtain ⟨⟨k, h1, h2⟩, h3, h4⟩ := hh
  exact ⟨⟨k, h1.ext hg he, h2⟩, bitAts_ext h3 hg he, bitAts_ext h4 hg he⟩

theorem EpochBitsV.At.ext {a b : ConstraintSystem FQ_MODULUS} {v : EpochBitsV FQ_MODULUS} {w : EpochVars}
    (h : v.At a w) (hg : a.Good) (he : a.Ext b) : v.At b w :=
  ⟨bitAts_ext h.1 hg he, bitAts_ext h.2 hg he, bitAts_ext h.3 hg he, bitAts_ext h.4 hg he, h.5.ext hg he,
    h.6.ext hg he, h.7.ext hg he, h.8.ext hg he, h.9.imp fun _ _ h => ⟨h.1.ext hg he, h.2.1.ext hg he,
      h.2.2.ext hg he⟩⟩

/-- The loop state has these values. -/
structure PreviousV.AtRun (c : ConstraintSystem FQ_MODULUS) (v : PreviousV FQ_MODULUS) (w : Previous) :
    Prop where
  pubkeys : List.Forall₂ (G2At c) v.pubkeys w.pubkeys
  index : LcAt c v.index w.index
  entropy : LcAt c v.entropy w.entropy
  maximumNonSigners : LcAt c v.maximumNonSigners w.maximumNonSigners

theorem PreviousV.AtRun.ext {a b : ConstraintSystem FQ_MODULUS} {v : PreviousV FQ_MODULUS} {w : Previous}
    (h : v.AtRun a w) (hg : a.Good) (he : a.Ext b) : v.AtRun b w :=
  ⟨g2Ats_ext h.1 hg he, h.2.ext hg he, h.3.ext hg he, h.4.ext hg he⟩

section

variable {HP VK GT : Type} [CommGroup GT] {O : OuterGadgets (HashToBitsHelper HP VK)}
  {hashC : Bool → List Bool → List Bool → HashOut G1Point → Prop}
  {hashW : Bool → List Bool → List Bool → Outcome Unit (HashOut G1Point)}
  {e : G1Point → G2Point → GT} {gen2 : G2Point} {K : Blake2sCore}
  {groth : VK → List (List Bool) → HP → Outcome Unit (Prop × Bool)}
  {isG1 : ConstraintSystem FQ_MODULUS → O.PG1 → G1Point → Prop}
  {isG2 : ConstraintSystem FQ_MODULUS → O.PG2 → G2Point → Prop}
  {cs : ConstraintSystem FQ_MODULUS}

theorem isEqZeroC_value {v : Fq} {i : Fq} {b : Bool} (h : isEqZeroC (.var v) i b) : b = decide (v = 0) := by
  have := C35_sound _ _ _ h
  cases b
  · symm
    simpa using fun h0 => by simpa using this.2 h0
  · symm
    simpa using this.1 rfl

theorem step_constrainEpochV (hO : O.RunsAt hashC hashW e gen2 K groth isG1 isG2) (hg : cs.Good)
    (hs : cs.setup = false) (gh : Bool) {i : LinComb FQ_MODULUS} {x : Fq} (hi : LcAt cs i x)
    (d : EpochData) {z : Fq × Bool} (hz : enforceNextEpochC x (EpochVars.assign d).index z)
    {out : HashOut G1Point}
    (hw : hashW gh (EpochVars.assign d).epochBits (EpochVars.assign d).extraDataBits = .ok out)
    (hh : hashC gh (EpochVars.assign d).epochBits (EpochVars.assign d).extraDataBits out) :
    Step cs (constrainEpochV O gh i d.toOpt) fun c v => v.1.At c (EpochVars.assign d) ∧ v.2.At c out := by
  refine (step_epochToBits hg d (fun _ => rfl) (fun _ => rfl) rfl rfl rfl ?_).bind
    fun c1 v g1 e1 hv => ?_
  · change List.Forall₂ _ (d.publicKeys.map some) _
    rw [List.forall₂_map_left_iff]
    exact forall₂_same' (fun _ _ => rfl) _
  refine (step_enforceNextEpoch g1 (hi.ext hg e1) hv.index ?_).bind fun c2 _ g2 e2 _ => ?_
  · have h1 := isEqZeroC_value hz.1
    by_cases h0 : (EpochVars.assign d).index = 0
    · exact .inl h0
    · exact .inr (hz.2 (by rw [h1]; simpa using h0))
  have hv := hv.ext g1 e2
  refine (hO.hash g2 (e2.setup.trans (e1.setup.trans hs)) hv.epochBits hv.extraDataBits hw hh).bind
    fun c3 h g3 e3 hh => step_pure g3 ?_
  exact ⟨hv.ext g2 e3, ⟨hh.1, hh.2.1, hh.2.2⟩⟩

theorem step_constrainEntropyV (hg : cs.Good) {a : LinComb FQ_MODULUS} {x : Fq} (ha : LcAt cs a x)
    {b : BoolV} {t : Bool} (hb : BitAt cs b t) {v : EpochBitsV FQ_MODULUS} {w : EpochVars} (hv : v.At cs w)
    (h : w.index ≠ 0 → t = true → x = w.parentEntropy) :
    Step cs (constrainEntropyV a b v) fun _ _ => True := by
  refine (step_isEqZero (el := .var v.index) (v := .var w.index) hg hv.index).bind fun c1 z g1 e1 hz => ?_
  have hv := hv.ext hg e1
  refine (step_boolAnd g1 hz.neg (hb.ext hg e1)).bind fun c2 r g2 e2 hr => ?_
  have hv := hv.ext g1 e2
  refine step_enforce g2 (((ha.ext hg e1).ext g1 e2).sub hv.parentEntropy) hr.1 (lcAt_nil c2) ?_
  by_cases h0 : w.index = 0
  · simp [FpVar.value, h0]
  · cases t with
    | false => simp
    | true => rw [h h0 rfl]; ring

theorem keyCoords {c : ConstraintSystem FQ_MODULUS} {vs : List (G2V FQ_MODULUS)} {ks : List G2Var}
    (h : List.Forall₂ (G2At c) vs ks) : List.Forall₂ (ProjAt (-5) c) vs (ks.map (·.coords)) := by
  rw [List.forall₂_map_right_iff]
  exact h

theorem step_bitmapPoints (hg : cs.Good) (oc drop : Bool) {x y : Fq × Fq}
    (hpad : Denotes (padVar x y).coords (padVar x y).point) {vs : List (G2V FQ_MODULUS)} {ks : List G2Var}
    (hk : List.Forall₂ (G2At cs) vs ks) (hgood : ∀ k ∈ ks, GoodKey k) {bits : List BoolV} {ts : List Bool}
    (hb : List.Forall₂ (BitAt cs) bits ts) (hvar : ∀ b ∈ bits, b.isVar = true) (hne : ts ≠ [])
    {m : LinComb FQ_MODULUS} {M : Fq} (hm : LcAt cs m M) {occ : Fq}
    (hocc : maxOccurrencesWitness oc ts false = .ok occ) {msg : G1Point} {c : Prop} {P : G2Point}
    (hE : enforceBitmap (ks.map G2Var.point) ts msg M (padVar x y).point occ = .ok (c, msg, P)) (hc : c) :
    Step cs (enforceBitmapV oc drop (-5) g2CoeffB.re g2CoeffB.im x y vs bits m) fun c o =>
      ∃ k, G2At c (G2V.ofOption o) k ∧ GoodKey k ∧ k.point = P := by
  unfold enforceBitmap enforceAggregatedPubkeys at hE
  split at hE
  swap
  · cases hE
  rename_i hlen
  rw [Outcome.map_ok] at hE
  rw [Outcome.ok.injEq, Prod.mk.injEq, Prod.mk.injEq] at hE
  obtain ⟨rfl, -, rfl⟩ := hE
  obtain ⟨hmax, hloop⟩ := hc
  unfold maxOccurrencesWitness at hocc
  rw [Outcome.map_eq_ok_iff] at hocc
  obtain ⟨n, hn, rfl⟩ := hocc
  have hbl : bits.length = vs.length := by
    rw [hb.length_eq, hk.length_eq, hlen, List.length_map]
  refine (step_maxOccurrences fq_modulus_ne_two hg hb ?_ hm (fun _ => hn) (fun _ => rfl) hmax).bind
    fun c1 _ g1 e1 _ => ?_
  · cases hb with
    | nil => exact absurd rfl hne
    | cons h _ => rw [List.any_cons, hvar _ List.mem_cons_self, Bool.true_or]
  have hz : (ks.zip ts).map (fun k => (k.1.point, k.2)) = (ks.map G2Var.point).zip ts := by
    rw [List.zip_map_left]
    rfl
  have hz' : (ks.zip ts).map (fun k => (k.1.coords, k.2)) = (ks.map (·.coords)).zip ts := by
    rw [List.zip_map_left]
    rfl
  have hgood' : ∀ k ∈ ks.zip ts, GoodKey k.1 := fun k hk => hgood _ (List.of_mem_zip hk).1
  obtain ⟨m1, m2⟩ := C86_aggregate_model (ks.zip ts) (padVar x y) (fun k hk => (hgood' k hk).onG2) hpad
  rw [hz, hz'] at m1 m2
  obtain ⟨out, hout⟩ := m2 hloop fun k hk _ => (hgood' k hk).ne_null
  have hpadk := all_of_aggregatedLoopVar hout
  unfold enforceAggregatedPubkeysV
  rw [if_neg (by omega)]
  refine (step_aggregateLoop (b0 := g2CoeffB.re) (b1 := g2CoeffB.im) drop g1
    (forall₂_zip_at (keyCoords (g2Ats_ext hk hg e1)) (bitAts_ext hb hg e1)) .none
    ((loopSpec_iff drop x y _ _ _).2 ⟨hpadk, (allSpec_eq _ _).symm⟩)).mono fun c2 o _ ho => ?_
  obtain ⟨k, hk⟩ := exists_key ((circuitTotal drop (((ks.map (·.coords)).zip ts).map addend)).getD
    ProjVar.zero)
  have hd := (m1 _ (aggregatedLoopVar_of_all hpadk (aggregatedAllVar_total drop _))).2
  rw [← hk] at hd
  refine ⟨k, ?_, denotes_goodKey hd⟩
  unfold G2At
  rw [hk]
  exact accAt_ofOption ho

theorem assign_parts {oc : Bool} {hw : List Bool → List Bool → Outcome Unit (HashOut G1Point)}
    {u : SingleUpdate} {w : UpdateVars G1Point} (h : UpdateVars.assign oc hw u = .ok w) :
    w.epoch = EpochVars.assign u.epochData ∧ w.bitmap = u.signedBitmap ∧
    hw w.epoch.epochBits w.epoch.extraDataBits = .ok w.hash ∧
    maxOccurrencesWitness oc w.bitmap false = .ok w.occurrences ∧
    w.loopZero = isEqZeroWitness (.var w.epoch.index) := by
  unfold UpdateVars.assign at h
  dsimp only at h
  rw [Outcome.bind_eq_ok_iff] at h
  obtain ⟨out, ho, h⟩ := h
  rw [Outcome.map_eq_ok_iff] at h
  obtain ⟨occ, hocc, rfl⟩ := h
  exact ⟨rfl, rfl, ho, hocc, rfl⟩

theorem step_constrainUpdateV (hO : O.RunsAt hashC hashW e gen2 K groth isG1 isG2) (hg : cs.Good)
    (hs : cs.setup = false) (oc drop gh : Bool) {pad : (Fq × Fq) × (Fq × Fq)}
    (hpad : Denotes (padVar pad.1 pad.2).coords (padVar pad.1 pad.2).point) (n : ℕ)
    {prev : PreviousV FQ_MODULUS} {pw : Previous} (hp : prev.AtRun cs pw)
    (hgood : ∀ k ∈ pw.pubkeys, GoodKey k) {eb : BoolV} {t : Bool} (heb : BitAt cs eb t)
    {u : SingleUpdate} (hne : u.signedBitmap ≠ []) {w : UpdateVars G1Point}
    (hu : UpdateVars.assign oc (hashW gh) u = .ok w) {c : Prop} {P : G2Point}
    (hc : constrainUpdate OnG2 (hashC gh) (padVar pad.1 pad.2).point n pw t w = .ok (c, P)) (hcc : c) :
    Step cs (constrainUpdateV O oc drop gh pad n prev eb u.toOpt) fun c v => v.1.1.At c w.epoch ∧
      v.1.2.At c w.hash ∧ ∃ k, G2At c (G2V.ofOption v.2) k ∧ GoodKey k ∧ k.point = P := by
  obtain ⟨hwe, hwb, hwh, hocc, -⟩ := assign_parts hu
  unfold constrainUpdate at hc
  split at hc
  · cases hc
  rename_i hn
  rw [Outcome.map_eq_ok_iff] at hc
  obtain ⟨⟨c', m', P'⟩, hE, hr⟩ := hc
  rw [Prod.mk.injEq] at hr
  obtain ⟨rfl, rfl⟩ := hr
  obtain ⟨⟨-, hnz, hh⟩, huz, hent, hc'⟩ := hcc
  have hm' : m' = w.hash.messageHash := by
    unfold enforceBitmap at hE
    rw [Outcome.map_eq_ok_iff] at hE
    obtain ⟨_, _, hE⟩ := hE
    rw [Prod.mk.injEq, Prod.mk.injEq] at hE
    exact hE.2.1.symm
  subst hm'
  unfold constrainUpdateV
  rw [if_neg (by
    change ¬ (n ≠ (u.epochData.publicKeys.map some).length)
    rw [hwe] at hn
    simpa [EpochVars.pubkeys, EpochVars.assign] using hn)]
  rw [hwe] at hnz hh hwh
  refine (step_constrainEpochV hO hg hs gh hp.index u.epochData hnz hwh hh).bind fun c1 v g1 e1 hv => ?_
  rw [← hwe] at hv
  have hp := hp.ext hg e1
  refine (step_constrainEntropyV g1 hp.entropy (heb.ext hg e1) hv.1 ?_).bind fun c2 _ g2 e2 _ => ?_
  · intro h0 ht
    refine hent ?_
    rw [isEqZeroC_value huz, ht, Bool.and_true]
    simpa using h0
  have hp := hp.ext g1 e2
  refine (step_constrainBool g2 u.signedBitmap).bind fun c3 bits g3 e3 hb => ?_
  have hp := hp.ext g2 e3
  rw [← hwb] at hb hne
  refine (step_bitmapPoints g3 oc drop hpad hp.pubkeys hgood hb.1 hb.2 hne hp.maximumNonSigners hocc hE
    hc').bind fun c4 o g4 e4 ho => step_pure g4 ?_
  have e := e2.trans (e3.trans e4)
  exact ⟨hv.1.ext g1 e, hv.2.ext g1 e, ho⟩

theorem zip_g2Ats {c : ConstraintSystem FQ_MODULUS} {us vs : List (G2V FQ_MODULUS)}
    {ks ls : List G2Var} (hu : List.Forall₂ (G2At c) us ks) (hv : List.Forall₂ (G2At c) vs ls) :
    List.Forall₂ (fun u k => G2At c u.1 k.1 ∧ G2At c u.2 k.2) (us.zip vs) (ks.zip ls) := by
  induction hu generalizing vs ls with
  | nil => exact .nil
  | cons h _ ih =>
    cases hv with
    | nil => exact .nil
    | cons h' hs => exact .cons ⟨h, h'⟩ (ih hs)

theorem step_nextPreviousV (hg : cs.Good) {b : BoolV} {t : Bool} (hb : BitAt cs b t)
    {v : EpochBitsV FQ_MODULUS} {w : EpochVars} (hv : v.At cs w) {prev : PreviousV FQ_MODULUS}
    {pw : Previous} (hp : prev.AtRun cs pw) :
    Step cs (nextPreviousV b v prev) fun c v => v.AtRun c (pw.next t w) := by
  refine (step_fpSelect hg hb hv.epochEntropy hp.entropy).bind fun c1 a g1 e1 ha => ?_
  have hb := hb.ext hg e1
  have hv := hv.ext hg e1
  have hp := hp.ext hg e1
  refine (step_fpSelect g1 hb hv.index hp.index).bind fun c2 i g2 e2 hi => ?_
  have hb := hb.ext g1 e2
  have hv := hv.ext g1 e2
  have hp := hp.ext g1 e2
  refine (step_mapM (At := fun c u k => G2At c u k)
    (vs := (w.pubkeys.zip pw.pubkeys).map fun k => if t then k.1 else k.2)
    (fun _ _ _ _ ga ea ha => ha.ext ga ea) g2 ?_).bind fun c3 ks g3 e3 hk => ?_
  · rw [List.forall₂_map_right_iff]
    exact (zip_g2Ats hv.pubkeys hp.pubkeys).imp fun u k h c gc ec =>
      step_g2Select gc (hb.ext g2 ec) (h.1.ext g2 ec) (h.2.ext g2 ec)
  have hb := hb.ext g2 e3
  have hv := hv.ext g2 e3
  have hp := hp.ext g2 e3
  refine (step_fpSelect g3 hb hv.maximumNonSigners hp.maximumNonSigners).bind fun c4 m g4 e4 hm =>
    step_pure g4 ?_
  exact ⟨g2Ats_ext hk g3 e4, hi.ext g2 (e3.trans e4), ha.ext g1 (e2.trans (e3.trans e4)), hm⟩

theorem step_preparePairV (hO : O.RunsAt hashC hashW e gen2 K groth isG1 isG2) (hg : cs.Good)
    (hs : cs.setup = false) {a : Fq × Fq} (ha : (⟨a.1, a.2, 1⟩ : G1Var).coords.OnCurve 1)
    {d : (Fq × Fq) × (Fq × Fq)} (hd : OnG2 (padVar d.1 d.2)) {b : BoolV} {t : Bool} (hb : BitAt cs b t)
    {pk : Option (G2V FQ_MODULUS)} {k : G2Var} (hk : G2At cs (G2V.ofOption pk) k) (hko : OnG2 k)
    {m : G1V FQ_MODULUS} {l : G1Var} (hl : G1At cs m l) (hlo : l.coords.OnCurve 1) :
    Step cs (preparePairV O a d b pk m) fun c v =>
      isG2 c v.1 (if t then k.point else (padVar d.1 d.2).point) ∧
      isG1 c v.2 (if t then l.point else (⟨a.1, a.2, 1⟩ : G1Var).point) := by
  have hpad : ∀ c : ConstraintSystem FQ_MODULUS, G2At c (G2V.constant d.1 d.2) (padVar d.1 d.2) := fun c =>
    ⟨fp2At_const c _ _, fp2At_const c _ _, fp2At_const c 1 0⟩
  have hgen : ∀ c : ConstraintSystem FQ_MODULUS, G1At c (G1V.constant a) ⟨a.1, a.2, 1⟩ := fun c =>
    ⟨lcAt_const c _, lcAt_const c _, lcAt_const c _⟩
  refine (step_g2Select hg hb hk (hpad cs)).bind fun c1 v g1 e1 hv => ?_
  have s1 := e1.setup.trans hs
  refine (hO.prepareG2 g1 s1 hv (by cases t; exacts [hd, hko])).bind fun c2 x g2 e2 hx => ?_
  have s2 := e2.setup.trans s1
  have e := e1.trans e2
  refine (step_g1Select g2 (hb.ext hg e) (hl.ext hg e) (hgen c2)).bind fun c3 w g3 e3 hw => ?_
  refine (hO.prepareG1 g3 (e3.setup.trans s2) hw (by cases t; exacts [ha, hlo])).bind
    fun c4 y g4 e4 hy => step_pure g4 ?_
  have hx := hO.extG2 g2 (e3.trans e4) hx
  exact ⟨by cases t <;> exact hx, by cases t <;> exact hy⟩

theorem step_lastEpochV (hg : cs.Good) (drop : Bool) {ks : List (G2V FQ_MODULUS)} {ws : List G2Var}
    (hk : List.Forall₂ (G2At cs) ks ws) (hgood : ∀ k ∈ ws, GoodKey k) {l : List BoolV} {ts : List Bool}
    (hl : List.Forall₂ (BitAt cs) l ts) {b : BoolV} (hb : BitAt cs b true) {last : LastVars}
    (hla : lastApkC ws last) (hw : last.w = yToBitG2Witness (.var last.y.re) (.var last.y.im)) :
    Step cs (lastEpochV drop ks l b) fun c bits =>
      List.Forall₂ (BitAt c) bits (ts ++ g2ToBits ⟨last.x, last.y, 1⟩ last.w) := by
  refine (step_aggregateAllLoop (b0 := g2CoeffB.re) (b1 := g2CoeffB.im) drop hg (keyCoords hk) .none).bind
    fun c1 o g1 e1 ho => ?_
  have hto := aggregatedAllVar_total drop (ws.map (·.coords))
  rw [show allSpec drop (⟨g2CoeffB.re, g2CoeffB.im⟩ : Fq2) (ws.map (·.coords)) none =
    circuitTotal drop (ws.map (·.coords)) from allSpec_eq drop _] at ho
  have ho := accAt_ofOption ho
  generalize (circuitTotal drop (ws.map (·.coords))).getD ProjVar.zero = Z at ho hto
  have hd := (C86_aggregate_all ws (fun k hk => (hgood k hk).onG2) Z hto).1 fun k hk =>
    (hgood k hk).ne_null
  obtain ⟨⟨hns, hsum⟩, -⟩ := hla
  rw [show enforceAggregatedAllPubkeys (ws.map G2Var.point) = (ws.map (·.point)).sum by
    rw [enforceAggregatedAllPubkeys, List.sum_eq_foldl]] at hsum
  rw [hsum] at hd
  obtain ⟨c, hc, rfl⟩ := hd
  have hz : c * 1 ≠ 0 := by rwa [mul_one]
  refine (step_fp2MulByInverse (v := c * last.x) (z := c * 1) g1 ho.1 ho.2.2 hz).bind
    fun c2 x g2 e2 hx => ?_
  have ho := ProjAt.ext ho g1 e2
  refine (step_fp2MulByInverse (v := c * last.y) (z := c * 1) g2 ho.2.1 ho.2.2 hz).bind
    fun c3 y g3 e3 hy => ?_
  have hx := hx.ext g2 e3
  rw [mul_one, inv_mul_cancel_left₀ hc] at hx hy
  refine (step_g2ToBitsV fq_modulus_ne_two (v := (x, y, Fp2V.const 1 0)) g3 hx.1 hx.2 hy.1 hy.2).bind
    fun c4 bits g4 e4 hbits => ?_
  have e := e1.trans (e2.trans (e3.trans e4))
  refine (step_boolEnforceEqual g4 (hb.ext hg e) (bitAt_constant c4 true)).bind fun c5 _ g5 e5 _ =>
    step_pure g5 ?_
  rw [bitLength_fq] at hbits
  have hbits := bitAts_ext hbits g4 e5
  unfold g2ToBits
  rw [hw]
  exact forall₂_append' (bitAts_ext hl hg (e.trans e5)) hbits

/-- The loop has these values. -/
structure LoopV.At (isG1 : ConstraintSystem FQ_MODULUS → O.PG1 → G1Point → Prop)
    (isG2 : ConstraintSystem FQ_MODULUS → O.PG2 → G2Point → Prop) (c : ConstraintSystem FQ_MODULUS)
    (v : LoopV O.PG1 O.PG2) (o : LoopOut G1Point) : Prop where
  lastEpochBits : List.Forall₂ (BitAt c) v.lastEpochBits o.lastEpochBits
  crhBits : List.Forall₂ (BitAt c) v.crhBits o.crhBits
  xofBits : List.Forall₂ (BitAt c) v.xofBits o.xofBits
  aggregatedPublicKeys : List.Forall₂ (isG2 c) v.aggregatedPublicKeys o.aggregatedPublicKeys
  messageHashes : List.Forall₂ (isG1 c) v.messageHashes o.messageHashes

theorem next_good {prev : Previous} (hp : ∀ k ∈ prev.pubkeys, GoodKey k) {w : EpochVars}
    (hw : ∀ k ∈ w.pubkeys, GoodKey k) (t : Bool) : ∀ k ∈ (prev.next t w).pubkeys, GoodKey k := by
  intro k hk
  obtain ⟨x, hx, rfl⟩ := List.mem_map.1 hk
  obtain ⟨a, b⟩ := x
  cases t
  · exact hp _ (List.of_mem_zip hx).2
  · exact hw _ (List.of_mem_zip hx).1

theorem assign_good (d : EpochData) : ∀ k ∈ (EpochVars.assign d).pubkeys, GoodKey k := by
  intro k hk
  simp only [EpochVars.pubkeys, EpochVars.assign, List.map_map, List.mem_map] at hk
  obtain ⟨P, _, rfl⟩ := hk
  exact ofPoint_good P

theorem step_epochsLoop {a : Fq × Fq} (ha : (⟨a.1, a.2, 1⟩ : G1Var).coords.OnCurve 1)
    {d : (Fq × Fq) × (Fq × Fq)} (hd : Denotes (padVar d.1 d.2).coords (padVar d.1 d.2).point)
    (hO : O.RunsAt hashC hashW e (padVar d.1 d.2).point K groth isG1 isG2) (oc drop gh : Bool) (n : ℕ)
    {eb : BoolV} {t : Bool} {last : LastVars}
    (hw : last.w = yToBitG2Witness (.var last.y.re) (.var last.y.im)) {us : List SingleUpdate}
    (hne : ∀ u ∈ us, u.signedBitmap ≠ []) {ws : List (UpdateVars G1Point)}
    (hu : List.Forall₂ (fun u w => UpdateVars.assign oc (hashW gh) u = .ok w) us ws)
    {cs : ConstraintSystem FQ_MODULUS} (hg : cs.Good) (hs : cs.setup = false) (heb : BitAt cs eb t)
    {prev : PreviousV FQ_MODULUS} {pw : Previous} (hp : prev.AtRun cs pw)
    (hgood : ∀ k ∈ pw.pubkeys, GoodKey k) {o : LoopOut G1Point}
    (ho : intermediateLoop OnG2 (hashC gh) (⟨a.1, a.2, 1⟩ : G1Var).point (padVar d.1 d.2).point n t last ws
      pw = .ok o) (hsat : o.sat) :
    Step cs (epochsLoop O oc drop gh a d n eb (us.map SingleUpdate.toOpt) prev) fun c v =>
      v.At isG1 isG2 c o := by
  induction hu generalizing cs prev pw o with
  | nil =>
    cases ho
    exact step_pure hg ⟨.nil, .nil, .nil, .nil, .nil⟩
  | @cons u w us ws hu hus ih =>
    obtain ⟨hwe, -, -, -, hlz⟩ := assign_parts hu
    rw [intermediateLoop, Outcome.bind_eq_ok_iff] at ho
    obtain ⟨⟨c, P⟩, hc, ho⟩ := ho
    dsimp only at ho
    rw [Outcome.map_eq_ok_iff] at ho
    obtain ⟨r, hr, rfl⟩ := ho
    obtain ⟨hcc, hzc, hlast, hrs⟩ := hsat
    have hz2 := isEqZeroC_value hzc
    rw [List.map_cons, epochsLoop]
    refine (step_constrainUpdateV hO hg hs oc drop gh hd n hp hgood heb (hne u List.mem_cons_self) hu hc
      hcc).bind fun c1 v g1 e1 hv => ?_
    obtain ⟨hv, hh, k, hk, hkg, rfl⟩ := hv
    have s1 := e1.setup.trans hs
    have hp := hp.ext hg e1
    have heb := heb.ext hg e1
    refine (step_isEqZero (el := .var v.1.1.index) (v := .var w.epoch.index) g1 hv.index).bind
      fun c2 z g2 e2 hz => ?_
    have hz : BitAt c2 z w.loopZero.2 := by rw [hz2]; exact hz
    have s2 := e2.setup.trans s1
    have hv := hv.ext g1 e2
    have hh := hh.ext g1 e2
    have hk := hk.ext g1 e2
    have hp := hp.ext g1 e2
    have heb := heb.ext g1 e2
    refine (step_nextPreviousV g2 hz.neg hv hp).bind fun c3 prev' g3 e3 hp' => ?_
    have s3 := e3.setup.trans s2
    have hv := hv.ext g2 e3
    have hh := hh.ext g2 e3
    have hk := hk.ext g2 e3
    have hz := hz.ext g2 e3
    have heb := heb.ext g2 e3
    obtain ⟨m, hm, hmo, hmp⟩ := hh.point
    refine (step_preparePairV hO g3 s3 ha ((denotes_iff g2_nonsingular_iff _).1 ⟨_, hd⟩).1 hz.neg hk
      hkg.onG2 hm hmo).bind fun c4 pr g4 e4 hpr => ?_
    rw [hmp] at hpr
    have s4 := e4.setup.trans s3
    have hv := hv.ext g3 e4
    have hh := hh.ext g3 e4
    have hz := hz.ext g3 e4
    have heb := heb.ext g3 e4
    have hp' := hp'.ext g3 e4
    have hgood' : ∀ k ∈ (pw.next (!w.loopZero.2) w.epoch).pubkeys, GoodKey k :=
      next_good hgood (by rw [hwe]; exact assign_good _) _
    have hround : Step c4 (lastRoundV (us.map SingleUpdate.toOpt).isEmpty drop prev'.pubkeys
        v.1.1.lastEpochBits z.neg) fun c bits => us = [] → List.Forall₂ (BitAt c) bits
          (w.epoch.lastEpochBits ++ g2ToBits ⟨last.x, last.y, 1⟩ last.w) := by
      cases hus with
      | nil =>
        obtain ⟨hla, hlt⟩ := hlast rfl
        have hzn := hz.neg
        rw [hlt] at hzn
        exact (step_lastEpochV g4 drop hp'.pubkeys hgood' hv.lastEpochBits hzn hla hw).mono
          fun _ _ _ h _ => h
      | cons _ _ => exact step_pure g4 fun h => nomatch h
    refine hround.bind fun c5 lb g5 e5 hlb => ?_
    have s5 := e5.setup.trans s4
    refine (ih (fun u hu => hne u (List.mem_cons_of_mem _ hu)) g5 s5 (heb.ext g4 e5) (hp'.ext g4 e5) hgood'
      hr hrs).bind fun c6 q g6 e6 hq => step_pure g6 ?_
    have hh := hh.ext g4 (e5.trans e6)
    refine ⟨?_, forall₂_append' hh.crhBits hq.crhBits, forall₂_append' hh.xofBits hq.xofBits,
      .cons (hO.extG2 g4 (e5.trans e6) hpr.1) hq.aggregatedPublicKeys,
      .cons (hO.extG1 g4 (e5.trans e6) hpr.2) hq.messageHashes⟩
    cases hus with
    | nil => exact bitAts_ext (hlb rfl) g5 e6
    | cons _ _ => exact hq.lastEpochBits

/-- The edge bits have these values. -/
structure EdgeBitsV.At (c : ConstraintSystem FQ_MODULUS) (v : EdgeBitsV) (b : EpochBits) : Prop where
  firstEpochBits : List.Forall₂ (BitAt c) v.firstEpochBits b.firstEpochBits
  lastEpochBits : List.Forall₂ (BitAt c) v.lastEpochBits b.lastEpochBits
  crhBits : List.Forall₂ (BitAt c) v.crhBits b.crhBits
  xofBits : List.Forall₂ (BitAt c) v.xofBits b.xofBits

theorem EdgeBitsV.At.ext {a b : ConstraintSystem FQ_MODULUS} {v : EdgeBitsV} {w : EpochBits} (h : v.At a w)
    (hg : a.Good) (he : a.Ext b) : v.At b w :=
  ⟨bitAts_ext h.1 hg he, bitAts_ext h.2 hg he, bitAts_ext h.3 hg he, bitAts_ext h.4 hg he⟩

theorem step_verifySignatureV (hO : O.RunsAt hashC hashW e gen2 K groth isG1 isG2) (hg : cs.Good)
    (hs : cs.setup = false) (q : G1Point) {ks : List O.PG2} {ms : List O.PG1} {Ks : List G2Point}
    {Ms : List G1Point} (hk : List.Forall₂ (isG2 cs) ks Ks) (hm : List.Forall₂ (isG1 cs) ms Ms) {eqn : Prop}
    (hE : batchVerifyPrepared e gen2 Ks Ms q = .ok eqn) (heq : eqn) :
    Step cs (verifySignatureV O (some q) ks ms) fun _ _ => True := by
  refine (step_allocPointG1 (P := (G1Var.ofPoint q).coords) hg (ofPoint1_on q) (fun _ _ _ => rfl)
    (fun _ _ _ => rfl) (fun _ _ _ => rfl)).bind fun c1 v g1 e1 hv => ?_
  exact hO.verify (k := G1Var.ofPoint q) g1 (e1.setup.trans hs) (hk.imp fun _ _ h => hO.extG2 hg e1 h)
    (hm.imp fun _ _ h => hO.extG1 hg e1 h) hv (ofPoint1_on q) (by rw [ofPoint1_point]; exact hE) heq

theorem step_enforceEpochsV {a : Fq × Fq} (ha : (⟨a.1, a.2, 1⟩ : G1Var).coords.OnCurve 1)
    {d : (Fq × Fq) × (Fq × Fq)} (hd : Denotes (padVar d.1 d.2).coords (padVar d.1 d.2).point)
    (hO : O.RunsAt hashC hashW e (padVar d.1 d.2).point K groth isG1 isG2) (oc drop : Bool)
    (hg : cs.Good) (hs : cs.setup = false) (s : ValidatorSetUpdate G1Point)
    (hne : ∀ u ∈ s.epochs, u.signedBitmap ≠ []) (helper : Option (HashToBitsHelper HP VK))
    {c : CircuitVars G1Point} (hc : CircuitVars.assign oc (hashW helper.isNone) s = .ok c) {b : EpochBits}
    (hb : enforceEpochs OnG2 (hashC helper.isNone) e (⟨a.1, a.2, 1⟩ : G1Var).point (padVar d.1 d.2).point
      s.numValidators c = .ok b) (hsat : b.sat) :
    Step cs (enforceEpochsV O oc drop a d (s.toOpt helper)) fun c v => v.At c b := by
  unfold CircuitVars.assign at hc
  rw [Outcome.map_eq_ok_iff] at hc
  obtain ⟨ws, hws, rfl⟩ := hc
  rw [Outcome.mapM_eq_ok_iff] at hws
  unfold enforceEpochs at hb
  rw [Outcome.bind_eq_ok_iff] at hb
  obtain ⟨o, ho, hb⟩ := hb
  rw [Outcome.map_eq_ok_iff] at hb
  obtain ⟨eqn, hE, rfl⟩ := hb
  obtain ⟨-, hez, hos, heqn⟩ := hsat
  dsimp only at hez ho hE
  refine (step_epochToBits hg s.initialEpoch (fun _ => rfl) (fun _ => rfl) rfl rfl rfl ?_).bind
    fun c1 v g1 e1 hv => ?_
  · change List.Forall₂ _ (s.initialEpoch.publicKeys.map some) _
    rw [List.forall₂_map_left_iff]
    exact forall₂_same' (fun _ _ => rfl) _
  have s1 := e1.setup.trans hs
  refine (step_isEqZero (el := .var v.epochEntropy) (v := .var (EpochVars.assign s.initialEpoch).epochEntropy)
    g1 hv.epochEntropy).bind fun c2 z g2 e2 hz => ?_
  have hz : BitAt c2 z (isEqZeroWitness (.var (EpochVars.assign s.initialEpoch).epochEntropy)).2 := by
    rw [isEqZeroC_value hez]; exact hz
  have s2 := e2.setup.trans s1
  have hv := hv.ext g1 e2
  refine (step_epochsLoop ha hd hO oc drop helper.isNone s.numValidators rfl hne hws g2 s2 hz.neg
    (prev := ⟨v.pubkeys, v.index, v.epochEntropy, v.maximumNonSigners⟩) (pw := ⟨_, _, _, _⟩)
    ⟨hv.pubkeys, hv.index, hv.epochEntropy, hv.maximumNonSigners⟩ (assign_good _) ho hos).bind
    fun c3 r g3 e3 hr => ?_
  have s3 := e3.setup.trans s2
  refine (step_verifySignatureV hO g3 s3 s.aggregatedSignature hr.aggregatedPublicKeys hr.messageHashes hE
    heqn).bind fun c4 _ g4 e4 _ => step_pure g4 ?_
  exact ⟨bitAts_ext hv.firstEpochBits g2 (e3.trans e4), bitAts_ext hr.lastEpochBits g3 e4,
    bitAts_ext hr.crhBits g3 e4, bitAts_ext hr.xofBits g3 e4⟩

theorem step_edgeHashV (hO : O.RunsAt hashC hashW e gen2 K groth isG1 isG2) (hg : cs.Good)
    (hs : cs.setup = false) {l : List BoolV} {ts : List Bool} (h : List.Forall₂ (BitAt cs) l ts) :
    Step cs (edgeHashV O l) fun c r => List.Forall₂ (BitAt c) r (edgeHash K ts) := by
  unfold edgeHashV edgeHash
  simp only [List.length_reverse, ← h.length_eq]
  refine hO.blake hg hs ?_ (List.rel_append (forall₂_reverse h)
    (forall₂_replicate (bitAt_constant cs false) _))
  rw [List.length_append, List.length_reverse, List.length_replicate]
  omega

theorem step_verifyEdgesV (hO : O.RunsAt hashC hashW e gen2 K groth isG1 isG2) (hg : cs.Good)
    (hs : cs.setup = false) {v : EdgeBitsV} {b : EpochBits} (h : v.At cs b) {vs : List Fq}
    (hvs : multipackWitness 376 (edgeHash K b.firstEpochBits ++ edgeHash K b.lastEpochBits) = .ok vs) :
    Step cs (verifyEdgesV O v) fun c ls => List.Forall₂ (LcAt c) ls vs := by
  refine (step_edgeHashV hO hg hs h.firstEpochBits).bind fun c1 x g1 e1 hx => ?_
  refine (step_edgeHashV hO g1 (e1.setup.trans hs) (h.ext hg e1).lastEpochBits).bind fun c2 y g2 e2 hy => ?_
  exact step_multipack fq_modulus_ne_two g2 true (by rw [bitLength_fq]; norm_num)
    (forall₂_append' (bitAts_ext hx g1 e2) hy) hvs

theorem step_verifyEpochBitsV (hO : O.RunsAt hashC hashW e gen2 K groth isG1 isG2) (hg : cs.Good)
    (hs : cs.setup = false) {v : EdgeBitsV} {b : EpochBits} (h : v.At cs b)
    (helper : Option (HashToBitsHelper HP VK))
    (hh : ∀ x, helper = some x → ∃ P, verifyHelperProof (groth x.verifyingKey) b x.proof = .ok P ∧ P)
    {vs : List Fq}
    (hvs : multipackWitness 376 (edgeHash K b.firstEpochBits ++ edgeHash K b.lastEpochBits) = .ok vs) :
    Step cs (verifyEpochBitsV O helper v) fun c ls => List.Forall₂ (LcAt c) ls vs := by
  cases helper with
  | none => exact step_verifyEdgesV hO hg hs h hvs
  | some x =>
    obtain ⟨P, hP, hPP⟩ := hh x rfl
    unfold verifyHelperProof at hP
    rw [Outcome.map_eq_ok_iff] at hP
    obtain ⟨r, hr, rfl⟩ := hP
    refine (hO.groth (h := x) hg hs (List.rel_append
        ((List.forall₂_map_left_iff.2 (List.forall₂_map_right_iff.2
          ((forall₂_chunks h.crhBits (n := 252)).1.imp fun _ _ => forall₂_reverse))))
        ((List.forall₂_map_left_iff.2 (List.forall₂_map_right_iff.2
          ((forall₂_chunks h.xofBits (n := 252)).1.imp fun _ _ => forall₂_reverse))))) hr hPP).bind
      fun c1 _ g1 e1 _ => ?_
    exact step_verifyEdgesV hO g1 (e1.setup.trans hs) (h.ext hg e1) hvs

theorem step_generateConstraints {a : Fq × Fq} (ha : (⟨a.1, a.2, 1⟩ : G1Var).coords.OnCurve 1)
    {d : (Fq × Fq) × (Fq × Fq)} (hd : Denotes (padVar d.1 d.2).coords (padVar d.1 d.2).point)
    (hO : O.RunsAt hashC hashW e (padVar d.1 d.2).point K groth isG1 isG2) (oc drop : Bool)
    (hg : cs.Good) (hs : cs.setup = false) (s : ValidatorSetUpdate G1Point)
    (hne : ∀ u ∈ s.epochs, u.signedBitmap ≠ []) (helper : Option (HashToBitsHelper HP VK))
    {c : CircuitVars G1Point} (hc : CircuitVars.assign oc (hashW helper.isNone) s = .ok c) {b : EpochBits}
    (hb : enforceEpochs OnG2 (hashC helper.isNone) e (⟨a.1, a.2, 1⟩ : G1Var).point (padVar d.1 d.2).point
      s.numValidators c = .ok b) (hsat : b.sat)
    (hh : ∀ x, helper = some x → ∃ P, verifyHelperProof (groth x.verifyingKey) b x.proof = .ok P ∧ P)
    {vs : List Fq}
    (hvs : multipackWitness 376 (edgeHash K b.firstEpochBits ++ edgeHash K b.lastEpochBits) = .ok vs) :
    Step cs (generateConstraints O oc drop a d (s.toOpt helper)) fun c ls =>
      List.Forall₂ (LcAt c) ls vs := by
  refine (step_enforceEpochsV ha hd hO oc drop hg hs s hne helper hc hb hsat).bind fun c1 v g1 e1 hv => ?_
  exact step_verifyEpochBitsV hO g1 (e1.setup.trans hs) hv helper hh hvs

end

end Verif
