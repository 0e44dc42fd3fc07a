import Verif.Model.SynthesisBls
import Verif.Lemmas.SynthesisEpoch
import Verif.Lemmas.SynthesisCost

/-!
# Lemmas on the aggregation gadgets as programs that emit constraints
-/

namespace Verif

section

variable {p : ℕ}

/-! ### the shape does not depend on the values -/

theorem alike_fpIsEq (a b : LinComb p) : Alike (fpIsEq a b) (fpIsEq a b) :=
  (alike_boolWitness _ _).bind fun _ => (alike_newWitness _ _).bind fun _ =>
    (alike_enforce _ _ _).bind fun _ => (alike_enforce _ _ _).bind fun _ => alike_pure _

theorem alike_fp2IsEq (x y : Fp2V p) : Alike (fp2IsEq x y) (fp2IsEq x y) :=
  (alike_fpIsEq _ _).bind fun _ => (alike_fpIsEq _ _).bind fun _ => alike_boolAnd _ _

theorem alike_fpSelect (cond : BoolV) (t f : LinComb p) :
    Alike (fpSelect cond t f) (fpSelect cond t f) := by
  unfold fpSelect
  split
  · exact alike_pure _
  · exact alike_pure _
  · exact (alike_newWitness _ _).bind fun _ => (alike_enforce _ _ _).bind fun _ => alike_pure _

theorem alike_fp2Select (cond : BoolV) (t f : Fp2V p) :
    Alike (fp2Select cond t f) (fp2Select cond t f) :=
  (alike_fpSelect _ _ _).bind fun _ => (alike_fpSelect _ _ _).bind fun _ => alike_pure _

theorem alike_g2IsEqConst (nr : ZMod p) (x y : ZMod p × ZMod p) (v : G2V p) :
    Alike (g2IsEqConst nr x y v) (g2IsEqConst nr x y v) :=
  (alike_fp2IsEq _ _).bind fun _ => (alike_fp2IsEq _ _).bind fun _ => (alike_boolAnd _ _).bind fun _ =>
    (alike_fp2IsEq _ _).bind fun _ => (alike_boolAnd _ _).bind fun _ => alike_boolOr _ _

theorem alike_enforceNotPadding (nr : ZMod p) (x y : ZMod p × ZMod p) (v : G2V p) (bit : BoolV) :
    Alike (enforceNotPadding nr x y v bit) (enforceNotPadding nr x y v bit) :=
  (alike_g2IsEqConst _ _ _ _).bind fun _ => (alike_karyAnd _ _).bind fun _ =>
    alike_boolEnforceEqual _ _

theorem alike_g2SelectZero (bit : BoolV) (v : G2V p) :
    Alike (g2SelectZero bit v) (g2SelectZero bit v) :=
  (alike_fp2Select _ _ _).bind fun _ => (alike_fp2Select _ _ _).bind fun _ =>
    (alike_fp2Select _ _ _).bind fun _ => alike_pure _

theorem alike_g2AddRest (nr b0 b1 : ZMod p) (xx yy zz xy xz yz : Fp2V p) :
    Alike (g2AddRest nr b0 b1 xx yy zz xy xz yz) (g2AddRest nr b0 b1 xx yy zz xy xz yz) :=
  (alike_fp2Mul _ _ _).bind fun _ => (alike_fp2Mul _ _ _).bind fun _ =>
    (alike_fp2Mul _ _ _).bind fun _ => (alike_fp2Mul _ _ _).bind fun _ =>
      (alike_fp2Mul _ _ _).bind fun _ => (alike_fp2Mul _ _ _).bind fun _ => alike_pure _

theorem alike_g2Add (nr b0 b1 : ZMod p) (u v : G2V p) :
    Alike (g2Add nr b0 b1 u v) (g2Add nr b0 b1 u v) :=
  (alike_fp2Mul _ _ _).bind fun _ => (alike_fp2Mul _ _ _).bind fun _ =>
    (alike_fp2Mul _ _ _).bind fun _ => (alike_fp2Mul _ _ _).bind fun _ =>
      (alike_fp2Mul _ _ _).bind fun _ => (alike_fp2Mul _ _ _).bind fun _ => alike_g2AddRest _ _ _ _ _ _ _ _ _

theorem alike_g2AddAssign (drop : Bool) (nr b0 b1 : ZMod p) (acc : Option (G2V p)) (v : G2V p) :
    Alike (g2AddAssign drop nr b0 b1 acc v) (g2AddAssign drop nr b0 b1 acc v) := by
  cases acc with
  | some u => exact alike_g2Add _ _ _ _ _
  | none =>
    unfold g2AddAssign
    dsimp only
    split
    · exact alike_pure _
    · exact alike_g2AddRest _ _ _ _ _ _ _ _ _

theorem alike_aggregateLoop (drop : Bool) (nr b0 b1 : ZMod p) (x y : ZMod p × ZMod p)
    (l : List (G2V p × BoolV)) (acc : Option (G2V p)) :
    Alike (aggregateLoop drop nr b0 b1 x y l acc) (aggregateLoop drop nr b0 b1 x y l acc) := by
  induction l generalizing acc with
  | nil => exact alike_pure _
  | cons k ks ih =>
    exact (alike_enforceNotPadding _ _ _ _ _).bind fun _ => (alike_g2SelectZero _ _).bind fun _ =>
      (alike_g2AddAssign _ _ _ _ _ _).bind fun _ => ih _

theorem alike_enforceAggregatedPubkeysV (drop : Bool) (nr b0 b1 : ZMod p) (x y : ZMod p × ZMod p)
    (pubKeys : List (G2V p)) (bitmap : List BoolV) :
    Alike (enforceAggregatedPubkeysV drop nr b0 b1 x y pubKeys bitmap)
      (enforceAggregatedPubkeysV drop nr b0 b1 x y pubKeys bitmap) := by
  unfold enforceAggregatedPubkeysV
  split
  · exact alike_panic _
  · exact alike_aggregateLoop _ _ _ _ _ _ _ _

theorem alike_aggregateAllLoop (drop : Bool) (nr b0 b1 : ZMod p) (l : List (G2V p))
    (acc : Option (G2V p)) :
    Alike (aggregateAllLoop drop nr b0 b1 l acc) (aggregateAllLoop drop nr b0 b1 l acc) := by
  induction l generalizing acc with
  | nil => exact alike_pure _
  | cons k ks ih => exact (alike_g2AddAssign _ _ _ _ _ _).bind fun _ => ih _

theorem alike_enforceBitmapV (o o' drop : Bool) (nr b0 b1 : ZMod p) (x y : ZMod p × ZMod p)
    (pubKeys : List (G2V p)) (bitmap : List BoolV) (m : LinComb p) :
    Alike (enforceBitmapV o drop nr b0 b1 x y pubKeys bitmap m)
      (enforceBitmapV o' drop nr b0 b1 x y pubKeys bitmap m) :=
  (alike_maxOccurrences _ _ _ _ _).bind fun _ => alike_enforceAggregatedPubkeysV _ _ _ _ _ _ _ _

/-! ### values -/

theorem at_add (nr : ZMod p) (ρ : R1Var → ZMod p) (x y : Fp2V p) :
    (x.add y).at nr ρ = x.at nr ρ + y.at nr ρ := by
  ext <;> simp [Fp2V.at, Fp2V.add]

theorem at_sub (nr : ZMod p) (ρ : R1Var → ZMod p) (x y : Fp2V p) :
    (x.sub y).at nr ρ = x.at nr ρ - y.at nr ρ := by
  ext <;> simp [Fp2V.at, Fp2V.sub]

theorem at_scale (nr : ZMod p) (ρ : R1Var → ZMod p) (k0 k1 : ZMod p) (x : Fp2V p) :
    (x.scale nr k0 k1).at nr ρ = x.at nr ρ * ⟨k0, k1⟩ := by
  ext <;> simp [Fp2V.at, Fp2V.scale] <;> ring

theorem at_const {nr : ZMod p} {ρ : R1Var → ZMod p} (h1 : ρ .one = 1) (c0 c1 : ZMod p) :
    (Fp2V.const c0 c1).at nr ρ = ⟨c0, c1⟩ := by
  ext <;> simp [Fp2V.at, Fp2V.const, lcConst, evalLc, h1]

theorem Fp2At.add {nr : ZMod p} {cs : ConstraintSystem p} {x y : Fp2V p}
    {a b : QuadraticAlgebra (ZMod p) nr 0} (hx : Fp2At nr cs x a) (hy : Fp2At nr cs y b) :
    Fp2At nr cs (x.add y) (a + b) := ⟨hx.1.append hy.1, hx.2.append hy.2⟩

theorem Fp2At.sub {nr : ZMod p} {cs : ConstraintSystem p} {x y : Fp2V p}
    {a b : QuadraticAlgebra (ZMod p) nr 0} (hx : Fp2At nr cs x a) (hy : Fp2At nr cs y b) :
    Fp2At nr cs (x.sub y) (a - b) := ⟨hx.1.sub hy.1, hx.2.sub hy.2⟩

theorem Fp2At.scale {nr : ZMod p} {cs : ConstraintSystem p} {x : Fp2V p}
    {a : QuadraticAlgebra (ZMod p) nr 0} (hx : Fp2At nr cs x a) (k0 k1 : ZMod p) :
    Fp2At nr cs (x.scale nr k0 k1) (a * ⟨k0, k1⟩) := by
  refine ⟨?_, ?_⟩
  · have := (hx.1.scale k0).append (hx.2.scale (nr * k1))
    rw [show k0 * a.re + nr * k1 * a.im = (a * ⟨k0, k1⟩ : QuadraticAlgebra (ZMod p) nr 0).re by
      simp; ring] at this
    exact this
  · have := (hx.1.scale k1).append (hx.2.scale k0)
    rw [show k1 * a.re + k0 * a.im = (a * ⟨k0, k1⟩ : QuadraticAlgebra (ZMod p) nr 0).im by
      simp; ring] at this
    exact this

theorem lcAt_const (cs : ConstraintSystem p) (c : ZMod p) : LcAt cs (lcConst c) c := by
  have := (lcAt_one cs).scale c
  rw [mul_one] at this
  simpa [lcConst, lcScale, lcVar] using this

theorem fp2At_const {nr : ZMod p} (cs : ConstraintSystem p) (c0 c1 : ZMod p) :
    Fp2At nr cs (Fp2V.const c0 c1) ⟨c0, c1⟩ := ⟨lcAt_const cs c0, lcAt_const cs c1⟩

/-- The coordinates of a point under an assignment. -/
def projAt (nr : ZMod p) (ρ : R1Var → ZMod p) (v : G2V p) :
    ProjVar (QuadraticAlgebra (ZMod p) nr 0) := ⟨v.1.at nr ρ, v.2.1.at nr ρ, v.2.2.at nr ρ⟩

/-- The coordinates are over allocated variables and, outside setup mode, have these values. -/
def ProjAt (nr : ZMod p) (cs : ConstraintSystem p) (v : G2V p)
    (P : ProjVar (QuadraticAlgebra (ZMod p) nr 0)) : Prop :=
  Fp2At nr cs v.1 P.x ∧ Fp2At nr cs v.2.1 P.y ∧ Fp2At nr cs v.2.2 P.z

theorem ProjAt.ext {nr : ZMod p} {a b : ConstraintSystem p} {v : G2V p}
    {P : ProjVar (QuadraticAlgebra (ZMod p) nr 0)} (h : ProjAt nr a v P) (hg : a.Good)
    (he : a.Ext b) : ProjAt nr b v P := ⟨h.1.ext hg he, h.2.1.ext hg he, h.2.2.ext hg he⟩

theorem ProjAt.value {nr : ZMod p} {c : ConstraintSystem p} {v : G2V p}
    {P : ProjVar (QuadraticAlgebra (ZMod p) nr 0)} (h : ProjAt nr c v P) (hs : c.setup = false) :
    projAt nr c.rho v = P := by
  obtain ⟨⟨h1, h2⟩, ⟨h3, h4⟩, ⟨h5, h6⟩⟩ := h
  ext <;> simp [projAt, Fp2V.at, h1.2 hs, h2.2 hs, h3.2 hs, h4.2 hs, h5.2 hs, h6.2 hs]

/-- `circuitAdd`, which is stated over fields, over rings, from the six products. -/
def ringAddRest {R : Type*} [CommRing R] (b xx yy zz xy xz yz : R) : ProjVar R :=
  let threeB := 2 * b + b
  let xyPairs := xy - (xx + yy)
  let xzPairs := xz - (xx + zz)
  let yzPairs := yz - (yy + zz)
  let bzz3 := zz * threeB
  let yyMinus := yy - bzz3
  let yyPlus := yy + bzz3
  let xx3 := 2 * xx + xx
  let b3xz := xzPairs * threeB
  ⟨yyMinus * xyPairs - yzPairs * b3xz, yyPlus * yyMinus + xx3 * b3xz, yyPlus * yzPairs + xyPairs * xx3⟩

/-- `circuitAdd` over rings. -/
def ringAdd {R : Type*} [CommRing R] (b : R) (P Q : ProjVar R) : ProjVar R :=
  ringAddRest b (P.x * Q.x) (P.y * Q.y) (P.z * Q.z) ((P.x + P.y) * (Q.x + Q.y))
    ((P.x + P.z) * (Q.x + Q.z)) ((P.y + P.z) * (Q.y + Q.z))

theorem ringAdd_eq {F : Type*} [Field F] (b : F) (P Q : ProjVar F) :
    ringAdd b P Q = circuitAdd b P Q := rfl

end

section

variable {p : ℕ} [Fact p.Prime]

/-! ### soundness -/

theorem sound_fpIsEq {ρ : R1Var → ZMod p} (h1 : ρ .one = 1) (a b : LinComb p) :
    Sound ρ (fpIsEq a b) fun r => BitIs ρ r (decide (evalLc ρ a = evalLc ρ b)) := by
  refine (sound_boolWitness h1 _).bind (fun _ => (alike_newWitness _ _).bind fun _ =>
    (alike_enforce _ _ _).bind fun _ => (alike_enforce _ _ _).bind fun _ => alike_pure _) ?_
  rintro ne ⟨t, ht⟩
  refine Sound.bind sound_any (fun _ => (alike_enforce _ _ _).bind fun _ =>
    (alike_enforce _ _ _).bind fun _ => alike_pure _) fun m _ => ?_
  refine (sound_enforce _ _ _).bind (fun _ => (alike_enforce _ _ _).bind fun _ => alike_pure _)
    fun _ e1 => ?_
  refine (sound_enforce _ _ _).bind (fun _ => alike_pure _) fun _ e2 => sound_pure ?_
  have hn := bitIs_neg h1 ht
  rw [evalLc_lcSub, ht] at e1
  rw [evalLc_lcSub, hn, evalLc_nil] at e2
  have : decide (evalLc ρ a = evalLc ρ b) = !t := by
    cases t with
    | false =>
      have : evalLc ρ a - evalLc ρ b = 0 := by simpa using e2
      simpa using sub_eq_zero.1 this
    | true =>
      have hne : evalLc ρ a ≠ evalLc ρ b := fun h => by
        rw [h, sub_self, zero_mul] at e1; simp at e1
      simpa using hne
  rw [this]
  exact hn

theorem sound_fp2IsEq {ρ : R1Var → ZMod p} (h1 : ρ .one = 1) (nr : ZMod p) (x y : Fp2V p) :
    Sound ρ (fp2IsEq x y) fun r => ∃ t, BitIs ρ r t ∧ (t = true ↔ x.at nr ρ = y.at nr ρ) := by
  refine (sound_fpIsEq h1 _ _).bind (fun _ => (alike_fpIsEq _ _).bind fun _ => alike_boolAnd _ _)
    fun b0 h0 => ?_
  refine (sound_fpIsEq h1 _ _).bind (fun _ => alike_boolAnd _ _) fun b1 h2 => ?_
  refine (sound_boolAnd h1 h0 h2).mono fun r hr => ⟨_, hr, ?_⟩
  simp [Fp2V.at, QuadraticAlgebra.ext_iff]

theorem sound_fpSelect {ρ : R1Var → ZMod p} (h1 : ρ .one = 1) {cond : BoolV} {t : Bool}
    (hc : BitIs ρ cond t) (a b : LinComb p) :
    Sound ρ (fpSelect cond a b) fun l => evalLc ρ l = if t then evalLc ρ a else evalLc ρ b := by
  unfold fpSelect
  split
  · rw [bitIs_constant h1] at hc; subst hc; exact sound_pure (by simp)
  · rw [bitIs_constant h1] at hc; subst hc; exact sound_pure (by simp)
  · refine Sound.bind sound_any (fun _ => (alike_enforce _ _ _).bind fun _ => alike_pure _)
      fun r _ => ?_
    refine (sound_enforce _ _ _).bind (fun _ => alike_pure _) fun _ e => sound_pure ?_
    rw [evalLc_lcSub, evalLc_lcSub, hc, evalLc_lcVar] at e
    rw [evalLc_lcVar]
    cases t with
    | false => simp only [bit_false, zero_mul] at e; simpa using (sub_eq_zero.1 e.symm)
    | true => simp only [bit_true, one_mul] at e; simp; linear_combination -e

theorem sound_fp2Select {ρ : R1Var → ZMod p} (h1 : ρ .one = 1) (nr : ZMod p) {cond : BoolV} {t : Bool}
    (hc : BitIs ρ cond t) (x y : Fp2V p) :
    Sound ρ (fp2Select cond x y) fun l => l.at nr ρ = if t then x.at nr ρ else y.at nr ρ := by
  refine (sound_fpSelect h1 hc _ _).bind (fun _ => (alike_fpSelect _ _ _).bind fun _ => alike_pure _)
    fun c0 h0 => ?_
  refine (sound_fpSelect h1 hc _ _).bind (fun _ => alike_pure _) fun c1 h2 => sound_pure ?_
  cases t <;> simp_all [Fp2V.at]

/-- Equality with the constant point `(x : y : 1)`, over rings. -/
def EqConst {nr : ZMod p} (x y : ZMod p × ZMod p) (P : ProjVar (QuadraticAlgebra (ZMod p) nr 0)) :
    Prop := P.x = P.z * ⟨x.1, x.2⟩ ∧ P.y = P.z * ⟨y.1, y.2⟩

theorem mul_one_pair {nr : ZMod p} (a : QuadraticAlgebra (ZMod p) nr 0) :
    a * ⟨1, 0⟩ = a := by ext <;> simp

theorem sound_enforceNotPadding {ρ : R1Var → ZMod p} (h1 : ρ .one = 1) (nr : ZMod p)
    (x y : ZMod p × ZMod p) (v : G2V p) {b : BoolV} {t : Bool} (hb : BitIs ρ b t) :
    Sound ρ (enforceNotPadding nr x y v b) fun _ => ¬ (EqConst x y (projAt nr ρ v) ∧ t = true) := by
  have he : Sound ρ (g2IsEqConst nr x y v) fun r =>
      ∃ s, BitIs ρ r s ∧ (s = true ↔ EqConst x y (projAt nr ρ v)) := by
    refine (sound_fp2IsEq h1 nr _ _).bind (fun _ => (alike_fp2IsEq _ _).bind fun _ =>
      (alike_boolAnd _ _).bind fun _ => (alike_fp2IsEq _ _).bind fun _ =>
        (alike_boolAnd _ _).bind fun _ => alike_boolOr _ _) ?_
    rintro bx ⟨tx, hx, hx'⟩
    refine (sound_fp2IsEq h1 nr _ _).bind (fun _ =>
      (alike_boolAnd _ _).bind fun _ => (alike_fp2IsEq _ _).bind fun _ =>
        (alike_boolAnd _ _).bind fun _ => alike_boolOr _ _) ?_
    rintro bY ⟨ty, hy, hy'⟩
    refine (sound_boolAnd h1 hx hy).bind (fun _ => (alike_fp2IsEq _ _).bind fun _ =>
        (alike_boolAnd _ _).bind fun _ => alike_boolOr _ _) fun bc hc => ?_
    refine (sound_fp2IsEq h1 nr _ _).bind (fun _ =>
        (alike_boolAnd _ _).bind fun _ => alike_boolOr _ _) ?_
    rintro bz ⟨tz, hz, -⟩
    refine (sound_boolAnd h1 hz ((bitIs_constant h1).2 rfl)).bind (fun _ => alike_boolOr _ _)
      fun bb hbb => ?_
    refine (sound_boolOr h1 hbb hc).mono fun r hr => ⟨_, hr, ?_⟩
    rw [at_scale, at_scale, mul_one_pair] at hx' hy'
    simp [EqConst, projAt, hx', hy']
  refine he.bind (fun _ => (alike_karyAnd _ _).bind fun _ => alike_boolEnforceEqual _ _) ?_
  rintro e ⟨s, hs, hs'⟩
  refine (sound_karyAnd h1 (.cons hb .nil) hs).bind (fun _ => alike_boolEnforceEqual _ _)
    fun both hboth => ?_
  refine (sound_boolEnforceEqual h1 hboth ((bitIs_constant h1).2 rfl)).mono fun _ h => ?_
  rw [← hs']
  rintro ⟨rfl, rfl⟩
  simp at h

theorem sound_g2SelectZero {ρ : R1Var → ZMod p} (h1 : ρ .one = 1) (nr : ZMod p) (v : G2V p) {b : BoolV}
    {t : Bool} (hb : BitIs ρ b t) :
    Sound ρ (g2SelectZero b v) fun l =>
      projAt nr ρ l = if t then projAt nr ρ v else ⟨0, 1, 0⟩ := by
  refine (sound_fp2Select h1 nr hb _ _).bind (fun _ => (alike_fp2Select _ _ _).bind fun _ =>
    (alike_fp2Select _ _ _).bind fun _ => alike_pure _) fun x hx => ?_
  refine (sound_fp2Select h1 nr hb _ _).bind (fun _ => (alike_fp2Select _ _ _).bind fun _ =>
    alike_pure _) fun y hy => ?_
  refine (sound_fp2Select h1 nr hb _ _).bind (fun _ => alike_pure _) fun z hz => sound_pure ?_
  rw [at_const h1] at hx hy hz
  cases t with
  | true => simp only [if_true] at hx hy hz ⊢; simp [projAt, hx, hy, hz]
  | false =>
    simp only [Bool.false_eq_true, if_false] at hx hy hz ⊢
    simp only [projAt, hx, hy, hz]
    rfl

theorem pair_three (nr b0 b1 : ZMod p) :
    (⟨2 * b0 + b0, 2 * b1 + b1⟩ : QuadraticAlgebra (ZMod p) nr 0) = 2 * ⟨b0, b1⟩ + ⟨b0, b1⟩ := by
  have h : ∀ c : QuadraticAlgebra (ZMod p) nr 0, 2 * c + c = c + c + c := fun c => by ring
  rw [h]
  ext
  · change 2 * b0 + b0 = b0 + b0 + b0; ring
  · change 2 * b1 + b1 = b1 + b1 + b1; ring

theorem sound_g2AddRest {ρ : R1Var → ZMod p} (nr b0 b1 : ZMod p) (xx yy zz xy xz yz : Fp2V p) :
    Sound ρ (g2AddRest nr b0 b1 xx yy zz xy xz yz) fun l =>
      projAt nr ρ l = ringAddRest ⟨b0, b1⟩ (xx.at nr ρ) (yy.at nr ρ) (zz.at nr ρ) (xy.at nr ρ)
        (xz.at nr ρ) (yz.at nr ρ) := by
  unfold g2AddRest
  refine (sound_fp2Mul nr _ _).bind (fun _ => (alike_fp2Mul _ _ _).bind fun _ =>
    (alike_fp2Mul _ _ _).bind fun _ => (alike_fp2Mul _ _ _).bind fun _ =>
      (alike_fp2Mul _ _ _).bind fun _ => (alike_fp2Mul _ _ _).bind fun _ => alike_pure _) fun x0 e1 => ?_
  refine (sound_fp2Mul nr _ _).bind (fun _ =>
    (alike_fp2Mul _ _ _).bind fun _ => (alike_fp2Mul _ _ _).bind fun _ =>
      (alike_fp2Mul _ _ _).bind fun _ => (alike_fp2Mul _ _ _).bind fun _ => alike_pure _) fun x1 e2 => ?_
  refine (sound_fp2Mul nr _ _).bind (fun _ => (alike_fp2Mul _ _ _).bind fun _ =>
      (alike_fp2Mul _ _ _).bind fun _ => (alike_fp2Mul _ _ _).bind fun _ => alike_pure _) fun y0 e3 => ?_
  refine (sound_fp2Mul nr _ _).bind (fun _ =>
      (alike_fp2Mul _ _ _).bind fun _ => (alike_fp2Mul _ _ _).bind fun _ => alike_pure _) fun y1 e4 => ?_
  refine (sound_fp2Mul nr _ _).bind (fun _ => (alike_fp2Mul _ _ _).bind fun _ => alike_pure _)
    fun z0 e5 => ?_
  refine (sound_fp2Mul nr _ _).bind (fun _ => alike_pure _) fun z1 e6 => sound_pure ?_
  simp only [at_sub, at_add, at_scale, pair_three] at e1 e2 e3 e4 e5 e6
  ext1
  · simp only [projAt, at_sub, e1, e2, ringAddRest]
  · simp only [projAt, at_add, e3, e4, ringAddRest, two_mul]
  · simp only [projAt, at_add, e5, e6, ringAddRest, two_mul]

theorem sound_g2Add {ρ : R1Var → ZMod p} (nr b0 b1 : ZMod p) (u v : G2V p) :
    Sound ρ (g2Add nr b0 b1 u v) fun l =>
      projAt nr ρ l = ringAdd ⟨b0, b1⟩ (projAt nr ρ u) (projAt nr ρ v) := by
  refine (sound_fp2Mul nr _ _).bind (fun _ => (alike_fp2Mul _ _ _).bind fun _ =>
    (alike_fp2Mul _ _ _).bind fun _ => (alike_fp2Mul _ _ _).bind fun _ =>
      (alike_fp2Mul _ _ _).bind fun _ => (alike_fp2Mul _ _ _).bind fun _ =>
        alike_g2AddRest _ _ _ _ _ _ _ _ _) fun xx e1 => ?_
  refine (sound_fp2Mul nr _ _).bind (fun _ =>
    (alike_fp2Mul _ _ _).bind fun _ => (alike_fp2Mul _ _ _).bind fun _ =>
      (alike_fp2Mul _ _ _).bind fun _ => (alike_fp2Mul _ _ _).bind fun _ =>
        alike_g2AddRest _ _ _ _ _ _ _ _ _) fun yy e2 => ?_
  refine (sound_fp2Mul nr _ _).bind (fun _ => (alike_fp2Mul _ _ _).bind fun _ =>
      (alike_fp2Mul _ _ _).bind fun _ => (alike_fp2Mul _ _ _).bind fun _ =>
        alike_g2AddRest _ _ _ _ _ _ _ _ _) fun zz e3 => ?_
  refine (sound_fp2Mul nr _ _).bind (fun _ =>
      (alike_fp2Mul _ _ _).bind fun _ => (alike_fp2Mul _ _ _).bind fun _ =>
        alike_g2AddRest _ _ _ _ _ _ _ _ _) fun xy e4 => ?_
  refine (sound_fp2Mul nr _ _).bind (fun _ => (alike_fp2Mul _ _ _).bind fun _ =>
        alike_g2AddRest _ _ _ _ _ _ _ _ _) fun xz e5 => ?_
  refine (sound_fp2Mul nr _ _).bind (fun _ => alike_g2AddRest _ _ _ _ _ _ _ _ _) fun yz e6 => ?_
  refine (sound_g2AddRest nr b0 b1 _ _ _ _ _ _).mono fun l hl => ?_
  rw [hl, e1, e2, e3, e4, e5, e6]
  simp only [at_add]
  rfl

/-- The sum with the aggregate so far, over rings; `none` is the constant zero. -/
def ringAddAssign {R : Type*} [CommRing R] (drop : Bool) (b : R) (acc : Option (ProjVar R))
    (P : ProjVar R) : ProjVar R :=
  match acc with
  | some Q => ringAdd b Q P
  | none => if drop then P else ringAdd b ⟨0, 1, 0⟩ P

theorem mul_zero_pair {nr : ZMod p} (a : QuadraticAlgebra (ZMod p) nr 0) :
    a * ⟨0, 0⟩ = 0 := by ext <;> simp

theorem ringAddRest_zero {nr : ZMod p} (b : QuadraticAlgebra (ZMod p) nr 0)
    (P : ProjVar (QuadraticAlgebra (ZMod p) nr 0)) :
    ringAddRest b (P.x * ⟨0, 0⟩) (P.y * ⟨1, 0⟩) (P.z * ⟨0, 0⟩) ((P.x + P.y) * ⟨1, 0⟩)
      ((P.x + P.z) * ⟨0, 0⟩) ((P.y + P.z) * ⟨1, 0⟩) = ringAdd b ⟨0, 1, 0⟩ P := by
  simp only [mul_one_pair, mul_zero_pair, ringAdd, zero_mul, one_mul, zero_add, add_zero]

theorem sound_g2AddAssign {ρ : R1Var → ZMod p} (drop : Bool) (nr b0 b1 : ZMod p)
    (acc : Option (G2V p)) (v : G2V p) :
    Sound ρ (g2AddAssign drop nr b0 b1 acc v) fun l =>
      projAt nr ρ l = ringAddAssign drop ⟨b0, b1⟩ (acc.map (projAt nr ρ)) (projAt nr ρ v) := by
  cases acc with
  | some u => exact sound_g2Add nr b0 b1 u v
  | none =>
    cases drop with
    | true => exact sound_pure rfl
    | false =>
      refine (sound_g2AddRest nr b0 b1 _ _ _ _ _ _).mono fun l hl => ?_
      rw [hl]
      simp only [at_scale, at_add]
      exact ringAddRest_zero _ (projAt nr ρ v)

/-- What the loop of `enforce_aggregated_pubkeys` demands and computes, over rings. -/
def LoopSpec {nr : ZMod p} (drop : Bool) (b : QuadraticAlgebra (ZMod p) nr 0) (x y : ZMod p × ZMod p) :
    List (ProjVar (QuadraticAlgebra (ZMod p) nr 0) × Bool) →
      Option (ProjVar (QuadraticAlgebra (ZMod p) nr 0)) →
      Option (ProjVar (QuadraticAlgebra (ZMod p) nr 0)) → Prop
  | [], acc, out => out = acc
  | (P, t) :: rest, acc, out => ¬ (EqConst x y P ∧ t = true) ∧
    LoopSpec drop b x y rest (some (ringAddAssign drop b acc (if t then P else ⟨0, 1, 0⟩))) out

theorem sound_aggregateLoop {ρ : R1Var → ZMod p} (h1 : ρ .one = 1) (drop : Bool) (nr b0 b1 : ZMod p)
    (x y : ZMod p × ZMod p) {l : List (G2V p × BoolV)}
    {ps : List (ProjVar (QuadraticAlgebra (ZMod p) nr 0) × Bool)}
    (h : List.Forall₂ (fun k P => projAt nr ρ k.1 = P.1 ∧ BitIs ρ k.2 P.2) l ps)
    (acc : Option (G2V p)) :
    Sound ρ (aggregateLoop drop nr b0 b1 x y l acc) fun o =>
      LoopSpec drop ⟨b0, b1⟩ x y ps (acc.map (projAt nr ρ)) (o.map (projAt nr ρ)) := by
  induction h generalizing acc with
  | nil => exact sound_pure rfl
  | @cons k P ks Ps hk _ ih =>
    obtain ⟨hk1, hk2⟩ := hk
    refine (sound_enforceNotPadding h1 nr x y _ hk2).bind (fun _ => (alike_g2SelectZero _ _).bind fun _ =>
      (alike_g2AddAssign _ _ _ _ _ _).bind fun _ => alike_aggregateLoop _ _ _ _ _ _ _ _) fun _ e1 => ?_
    refine (sound_g2SelectZero h1 nr _ hk2).bind (fun _ =>
      (alike_g2AddAssign _ _ _ _ _ _).bind fun _ => alike_aggregateLoop _ _ _ _ _ _ _ _) fun a e2 => ?_
    refine (sound_g2AddAssign drop nr b0 b1 _ _).bind (fun _ => alike_aggregateLoop _ _ _ _ _ _ _ _)
      fun a' e3 => ?_
    refine (ih (some a')).mono fun o ho => ⟨hk1 ▸ e1, ?_⟩
    rw [Option.map_some, e3, e2, hk1] at ho
    exact ho

/-- What the loop of `enforce_aggregated_all_pubkeys` computes, over rings. -/
def allSpec {R : Type*} [CommRing R] (drop : Bool) (b : R) :
    List (ProjVar R) → Option (ProjVar R) → Option (ProjVar R)
  | [], acc => acc
  | P :: rest, acc => allSpec drop b rest (some (ringAddAssign drop b acc P))

theorem sound_aggregateAllLoop {ρ : R1Var → ZMod p} (drop : Bool) (nr b0 b1 : ZMod p)
    (l : List (G2V p)) (acc : Option (G2V p)) :
    Sound ρ (aggregateAllLoop drop nr b0 b1 l acc) fun o =>
      o.map (projAt nr ρ) = allSpec drop ⟨b0, b1⟩ (l.map (projAt nr ρ)) (acc.map (projAt nr ρ)) := by
  induction l generalizing acc with
  | nil => exact sound_pure rfl
  | cons k ks ih =>
    refine (sound_g2AddAssign drop nr b0 b1 _ _).bind (fun _ => alike_aggregateAllLoop _ _ _ _ _ _)
      fun a' e3 => ?_
    refine (ih (some a')).mono fun o ho => ?_
    rw [ho, Option.map_some, e3]
    rfl

/-! ### the prover's run -/

theorem step_fpIsEq {cs : ConstraintSystem p} (hg : cs.Good) {a b : LinComb p} {x y : ZMod p}
    (ha : LcAt cs a x) (hb : LcAt cs b y) :
    Step cs (fpIsEq a b) fun cs' r => BitAt cs' r (decide (x = y)) := by
  refine (step_boolWitness (t := decide (x ≠ y)) hg fun hs => by
    rw [ha.value hs, Outcome.bind_ok, hb.value hs, Outcome.map_ok]).bind fun c1 ne g1 e1 hne => ?_
  have ha1 := ha.ext hg e1
  have hb1 := hb.ext hg e1
  refine (step_newWitness (x := if x ≠ y then (x - y)⁻¹ else 1) g1 fun hs => by
    rw [hne.1.value hs, Outcome.bind_ok]
    by_cases h : x = y
    · simp [h]
    · simp [h, ha1.value hs, hb1.value hs, Outcome.bind_ok, Outcome.map_ok]).bind
    fun c2 m g2 e2 hm => ?_
  have ha2 := ha1.ext g1 e2
  have hb2 := hb1.ext g1 e2
  have hn2 := hne.1.ext g1 e2
  refine (step_enforce g2 (ha2.sub hb2) hm hn2.1 ?_).bind fun c3 _ g3 e3 _ => ?_
  · by_cases h : x = y
    · simp [h]
    · have := sub_ne_zero.2 h
      simp [h, this]
  have hn3 := hn2.ext g2 e3
  have hneg := hn3.neg
  refine (step_enforce g3 ((ha2.ext g2 e3).sub (hb2.ext g2 e3)) hneg.1 (lcAt_nil c3) ?_).bind
    fun c4 _ g4 e4 _ => step_pure g4 ?_
  · by_cases h : x = y <;> simp [h]
  · have := hneg.ext g3 e4
    rwa [show (!decide (x ≠ y)) = decide (x = y) by simp] at this

theorem step_fp2IsEq {cs : ConstraintSystem p} (hg : cs.Good) {nr : ZMod p} {x y : Fp2V p}
    {a b : QuadraticAlgebra (ZMod p) nr 0} (hx : Fp2At nr cs x a) (hy : Fp2At nr cs y b) :
    Step cs (fp2IsEq x y) fun cs' r => ∃ t, BitAt cs' r t ∧ (t = true ↔ a = b) := by
  refine (step_fpIsEq hg hx.1 hy.1).bind fun c1 b0 g1 e1 h0 => ?_
  refine (step_fpIsEq g1 (hx.2.ext hg e1) (hy.2.ext hg e1)).bind fun c2 b1 g2 e2 h1 => ?_
  refine (step_boolAnd g2 (h0.ext g1 e2) h1).mono fun c r _ hr => ⟨_, hr, ?_⟩
  simp [QuadraticAlgebra.ext_iff]

theorem step_fpSelect {cs : ConstraintSystem p} (hg : cs.Good) {cond : BoolV} {t : Bool}
    (hc : BitAt cs cond t) {a b : LinComb p} {x y : ZMod p} (ha : LcAt cs a x) (hb : LcAt cs b y) :
    Step cs (fpSelect cond a b) fun cs' l => LcAt cs' l (if t then x else y) := by
  unfold fpSelect
  split
  · have := hc.2 _ rfl; subst this; exact step_pure hg (by simpa using ha)
  · have := hc.2 _ rfl; subst this; exact step_pure hg (by simpa using hb)
  · refine (step_newWitness (x := if t then x else y) hg fun hs => by
      rw [hc.value hs, Outcome.bind_ok]
      cases t
      · simpa using hb.value hs
      · simpa using ha.value hs).bind fun c1 v g1 e1 hv => ?_
    have hb1 := hb.ext hg e1
    refine (step_enforce g1 (hc.ext hg e1).1 ((ha.ext hg e1).sub hb1) (hv.sub hb1) ?_).bind
      fun c2 _ g2 e2 _ => step_pure g2 (hv.ext g1 e2)
    cases t <;> simp

theorem step_fp2Select {cs : ConstraintSystem p} (hg : cs.Good) {nr : ZMod p} {cond : BoolV} {t : Bool}
    (hc : BitAt cs cond t) {x y : Fp2V p} {a b : QuadraticAlgebra (ZMod p) nr 0}
    (hx : Fp2At nr cs x a) (hy : Fp2At nr cs y b) :
    Step cs (fp2Select cond x y) fun cs' l => Fp2At nr cs' l (if t then a else b) := by
  refine (step_fpSelect hg hc hx.1 hy.1).bind fun c1 l0 g1 e1 h0 => ?_
  refine (step_fpSelect g1 (hc.ext hg e1) (hx.2.ext hg e1) (hy.2.ext hg e1)).bind
    fun c2 l1 g2 e2 h1 => step_pure g2 ?_
  have h0 := h0.ext g1 e2
  cases t
  · exact ⟨h0, h1⟩
  · exact ⟨h0, h1⟩

theorem step_enforceNotPadding {cs : ConstraintSystem p} (hg : cs.Good) {nr : ZMod p}
    {x y : ZMod p × ZMod p} {v : G2V p} {P : ProjVar (QuadraticAlgebra (ZMod p) nr 0)}
    (hv : ProjAt nr cs v P) {b : BoolV} {t : Bool} (hb : BitAt cs b t)
    (h : ¬ (EqConst x y P ∧ t = true)) :
    Step cs (enforceNotPadding nr x y v b) fun _ _ => True := by
  have he : Step cs (g2IsEqConst nr x y v) fun cs' r =>
      ∃ s, BitAt cs' r s ∧ (s = true ↔ EqConst x y P) := by
    refine (step_fp2IsEq hg (hv.1.scale 1 0) (hv.2.2.scale x.1 x.2)).bind ?_
    rintro c1 bx g1 e1 ⟨tx, hx, hx'⟩
    have v1 := hv.ext hg e1
    refine (step_fp2IsEq g1 (v1.2.1.scale 1 0) (v1.2.2.scale y.1 y.2)).bind ?_
    rintro c2 bY g2 e2 ⟨ty, hy, hy'⟩
    have v2 := v1.ext g1 e2
    refine (step_boolAnd g2 (hx.ext g1 e2) hy).bind fun c3 bc g3 e3 hc => ?_
    refine (step_fp2IsEq g3 (v2.ext g2 e3).2.2 (fp2At_const c3 0 0)).bind ?_
    rintro c4 bz g4 e4 ⟨tz, hz, -⟩
    refine (step_boolAnd g4 hz (bitAt_constant c4 false)).bind fun c5 bb g5 e5 hbb => ?_
    refine (step_boolOr g5 hbb ((hc.ext g3 e4).ext g4 e5)).mono fun c r _ hr => ⟨_, hr, ?_⟩
    rw [mul_one_pair] at hx' hy'
    simp [EqConst, hx', hy']
  refine he.bind ?_
  rintro c1 e g1 e1 ⟨s, hs, hs'⟩
  refine (step_karyAnd g1 (.cons (hb.ext hg e1) .nil) hs).bind fun c2 both g2 e2 hboth => ?_
  refine step_boolEnforceEqual (t := false) g2 ?_ (bitAt_constant c2 false)
  rw [← hs'] at h
  have : (s && [t].all id) = false := by cases s <;> cases t <;> simp_all
  rwa [this] at hboth

theorem step_g2SelectZero {cs : ConstraintSystem p} (hg : cs.Good) {nr : ZMod p} {v : G2V p}
    {P : ProjVar (QuadraticAlgebra (ZMod p) nr 0)} (hv : ProjAt nr cs v P) {b : BoolV} {t : Bool}
    (hb : BitAt cs b t) :
    Step cs (g2SelectZero b v) fun cs' l => ProjAt nr cs' l (if t then P else ⟨0, 1, 0⟩) := by
  refine (step_fp2Select hg hb hv.1 (fp2At_const cs 0 0)).bind fun c1 x g1 e1 hx => ?_
  have v1 := hv.ext hg e1
  have b1 := hb.ext hg e1
  refine (step_fp2Select g1 b1 v1.2.1 (fp2At_const c1 1 0)).bind fun c2 y g2 e2 hy => ?_
  refine (step_fp2Select g2 (b1.ext g1 e2) (v1.ext g1 e2).2.2 (fp2At_const c2 0 0)).bind
    fun c3 z g3 e3 hz => step_pure g3 ?_
  have hx := (hx.ext g1 e2).ext g2 e3
  have hy := hy.ext g2 e3
  cases t
  · exact ⟨hx, hy, hz⟩
  · exact ⟨hx, hy, hz⟩

theorem step_g2AddRest {cs : ConstraintSystem p} (hg : cs.Good) {nr b0 b1 : ZMod p}
    {xx yy zz xy xz yz : Fp2V p} {a1 a2 a3 a4 a5 a6 : QuadraticAlgebra (ZMod p) nr 0}
    (h1 : Fp2At nr cs xx a1) (h2 : Fp2At nr cs yy a2) (h3 : Fp2At nr cs zz a3)
    (h4 : Fp2At nr cs xy a4) (h5 : Fp2At nr cs xz a5) (h6 : Fp2At nr cs yz a6) :
    Step cs (g2AddRest nr b0 b1 xx yy zz xy xz yz) fun cs' l =>
      ProjAt nr cs' l (ringAddRest ⟨b0, b1⟩ a1 a2 a3 a4 a5 a6) := by
  have xyP := h4.sub (h1.add h2)
  have b3xz := (h5.sub (h1.add h3)).scale (2 * b0 + b0) (2 * b1 + b1)
  have yzP := h6.sub (h2.add h3)
  have bzz := h3.scale (2 * b0 + b0) (2 * b1 + b1)
  have yyM := h2.sub bzz
  have yyP := h2.add bzz
  have xx3 := (h1.add h1).add h1
  rw [← two_mul] at xx3
  rw [pair_three] at b3xz yyM yyP
  clear bzz h1 h2 h3 h4 h5 h6
  refine (step_fp2Mul hg yyM xyP).bind fun c1 x0 g1 e1 k0 => ?_
  have xyP := xyP.ext hg e1
  have b3xz := b3xz.ext hg e1
  have yzP := yzP.ext hg e1
  have yyM := yyM.ext hg e1
  have yyP := yyP.ext hg e1
  have xx3 := xx3.ext hg e1
  refine (step_fp2Mul g1 yzP b3xz).bind fun c2 x1 g2 e2 k1 => ?_
  have xyP := xyP.ext g1 e2
  have b3xz := b3xz.ext g1 e2
  have yzP := yzP.ext g1 e2
  have yyM := yyM.ext g1 e2
  have yyP := yyP.ext g1 e2
  have xx3 := xx3.ext g1 e2
  have k0 := k0.ext g1 e2
  refine (step_fp2Mul g2 yyP yyM).bind fun c3 y0 g3 e3 k2 => ?_
  have xyP := xyP.ext g2 e3
  have b3xz := b3xz.ext g2 e3
  have yzP := yzP.ext g2 e3
  have yyP := yyP.ext g2 e3
  have xx3 := xx3.ext g2 e3
  have k0 := k0.ext g2 e3
  have k1 := k1.ext g2 e3
  refine (step_fp2Mul g3 xx3 b3xz).bind fun c4 y1 g4 e4 k3 => ?_
  have xyP := xyP.ext g3 e4
  have yzP := yzP.ext g3 e4
  have yyP := yyP.ext g3 e4
  have xx3 := xx3.ext g3 e4
  have k0 := k0.ext g3 e4
  have k1 := k1.ext g3 e4
  have k2 := k2.ext g3 e4
  refine (step_fp2Mul g4 yyP yzP).bind fun c5 z0 g5 e5 k4 => ?_
  have xyP := xyP.ext g4 e5
  have xx3 := xx3.ext g4 e5
  have k0 := k0.ext g4 e5
  have k1 := k1.ext g4 e5
  have k2 := k2.ext g4 e5
  have k3 := k3.ext g4 e5
  refine (step_fp2Mul g5 xyP xx3).bind fun c6 z1 g6 e6 k5 => step_pure g6 ?_
  exact ⟨(k0.ext g5 e6).sub (k1.ext g5 e6), (k2.ext g5 e6).add (k3.ext g5 e6), (k4.ext g5 e6).add k5⟩

theorem step_g2Add {cs : ConstraintSystem p} (hg : cs.Good) {nr b0 b1 : ZMod p} {u v : G2V p}
    {P Q : ProjVar (QuadraticAlgebra (ZMod p) nr 0)} (hu : ProjAt nr cs u P) (hv : ProjAt nr cs v Q) :
    Step cs (g2Add nr b0 b1 u v) fun cs' l => ProjAt nr cs' l (ringAdd ⟨b0, b1⟩ P Q) := by
  refine (step_fp2Mul hg hu.1 hv.1).bind fun c1 xx g1 e1 k1 => ?_
  have hu := hu.ext hg e1
  have hv := hv.ext hg e1
  refine (step_fp2Mul g1 hu.2.1 hv.2.1).bind fun c2 yy g2 e2 k2 => ?_
  have hu := hu.ext g1 e2
  have hv := hv.ext g1 e2
  have k1 := k1.ext g1 e2
  refine (step_fp2Mul g2 hu.2.2 hv.2.2).bind fun c3 zz g3 e3 k3 => ?_
  have hu := hu.ext g2 e3
  have hv := hv.ext g2 e3
  have k1 := k1.ext g2 e3
  have k2 := k2.ext g2 e3
  refine (step_fp2Mul g3 (hu.1.add hu.2.1) (hv.1.add hv.2.1)).bind fun c4 xy g4 e4 k4 => ?_
  have hu := hu.ext g3 e4
  have hv := hv.ext g3 e4
  have k1 := k1.ext g3 e4
  have k2 := k2.ext g3 e4
  have k3 := k3.ext g3 e4
  refine (step_fp2Mul g4 (hu.1.add hu.2.2) (hv.1.add hv.2.2)).bind fun c5 xz g5 e5 k5 => ?_
  have hu := hu.ext g4 e5
  have hv := hv.ext g4 e5
  have k1 := k1.ext g4 e5
  have k2 := k2.ext g4 e5
  have k3 := k3.ext g4 e5
  have k4 := k4.ext g4 e5
  refine (step_fp2Mul g5 (hu.2.1.add hu.2.2) (hv.2.1.add hv.2.2)).bind fun c6 yz g6 e6 k6 => ?_
  exact step_g2AddRest g6 (k1.ext g5 e6) (k2.ext g5 e6) (k3.ext g5 e6) (k4.ext g5 e6) (k5.ext g5 e6) k6

/-- The aggregate so far has this value; `none` is the constant zero. -/
def AccAt (nr : ZMod p) (cs : ConstraintSystem p) (acc : Option (G2V p))
    (o : Option (ProjVar (QuadraticAlgebra (ZMod p) nr 0))) : Prop :=
  Option.Rel (ProjAt nr cs) acc o

theorem AccAt.value {nr : ZMod p} {c : ConstraintSystem p} {acc : Option (G2V p)}
    {o : Option (ProjVar (QuadraticAlgebra (ZMod p) nr 0))} (h : AccAt nr c acc o)
    (hs : c.setup = false) : acc.map (projAt nr c.rho) = o := by
  cases h with
  | none => rfl
  | some h => rw [Option.map_some, h.value hs]

theorem AccAt.ext {nr : ZMod p} {a b : ConstraintSystem p} {acc : Option (G2V p)}
    {o : Option (ProjVar (QuadraticAlgebra (ZMod p) nr 0))} (h : AccAt nr a acc o) (hg : a.Good)
    (he : a.Ext b) : AccAt nr b acc o := by
  cases h with
  | none => exact .none
  | some h => exact .some (h.ext hg he)

theorem step_g2AddAssign {cs : ConstraintSystem p} (hg : cs.Good) (drop : Bool) {nr b0 b1 : ZMod p}
    {acc : Option (G2V p)} {o : Option (ProjVar (QuadraticAlgebra (ZMod p) nr 0))}
    (ha : AccAt nr cs acc o) {v : G2V p} {P : ProjVar (QuadraticAlgebra (ZMod p) nr 0)}
    (hv : ProjAt nr cs v P) :
    Step cs (g2AddAssign drop nr b0 b1 acc v) fun cs' l =>
      ProjAt nr cs' l (ringAddAssign drop ⟨b0, b1⟩ o P) := by
  cases ha with
  | some h => exact step_g2Add hg h hv
  | none =>
    cases drop with
    | true => exact step_pure hg hv
    | false =>
      have := step_g2AddRest (b0 := b0) (b1 := b1) hg (hv.1.scale 0 0) (hv.2.1.scale 1 0)
        (hv.2.2.scale 0 0) ((hv.1.add hv.2.1).scale 1 0) ((hv.1.add hv.2.2).scale 0 0)
        ((hv.2.1.add hv.2.2).scale 1 0)
      rw [ringAddRest_zero] at this
      exact this

/-- A key and its bit have these values. -/
def KeyBitAt (nr : ZMod p) (cs : ConstraintSystem p) (k : G2V p × BoolV)
    (P : ProjVar (QuadraticAlgebra (ZMod p) nr 0) × Bool) : Prop :=
  ProjAt nr cs k.1 P.1 ∧ BitAt cs k.2 P.2

theorem step_aggregateLoop (drop : Bool) {nr b0 b1 : ZMod p} {x y : ZMod p × ZMod p}
    {l : List (G2V p × BoolV)} {ps : List (ProjVar (QuadraticAlgebra (ZMod p) nr 0) × Bool)}
    {out : Option (ProjVar (QuadraticAlgebra (ZMod p) nr 0))}
    {cs : ConstraintSystem p} (hg : cs.Good) (h : List.Forall₂ (KeyBitAt nr cs) l ps)
    {acc : Option (G2V p)} {o : Option (ProjVar (QuadraticAlgebra (ZMod p) nr 0))}
    (ha : AccAt nr cs acc o) (hs : LoopSpec drop ⟨b0, b1⟩ x y ps o out) :
    Step cs (aggregateLoop drop nr b0 b1 x y l acc) fun cs' r => AccAt nr cs' r out := by
  induction l generalizing ps cs acc o with
  | nil => cases h; cases hs; exact step_pure hg ha
  | cons k ks ih =>
    cases h with
    | @cons _ P _ Ps hk hks =>
    obtain ⟨hs1, hs2⟩ := hs
    have mono : ∀ {a c : ConstraintSystem p}, a.Good → a.Ext c →
        List.Forall₂ (KeyBitAt nr a) ks Ps → List.Forall₂ (KeyBitAt nr c) ks Ps := fun hg he h =>
      h.imp fun _ _ h => ⟨h.1.ext hg he, h.2.ext hg he⟩
    refine (step_enforceNotPadding hg hk.1 hk.2 hs1).bind fun c1 _ g1 e1 _ => ?_
    refine (step_g2SelectZero g1 (hk.1.ext hg e1) (hk.2.ext hg e1)).bind fun c2 a g2 e2 h2 => ?_
    refine (step_g2AddAssign g2 drop ((ha.ext hg e1).ext g1 e2) h2).bind fun c3 a' g3 e3 h3 => ?_
    exact ih g3 (mono g2 e3 (mono g1 e2 (mono hg e1 hks))) (.some h3) hs2

theorem step_aggregateAllLoop (drop : Bool) {nr b0 b1 : ZMod p} {l : List (G2V p)}
    {ps : List (ProjVar (QuadraticAlgebra (ZMod p) nr 0))}
    {cs : ConstraintSystem p} (hg : cs.Good) (h : List.Forall₂ (ProjAt nr cs) l ps)
    {acc : Option (G2V p)} {o : Option (ProjVar (QuadraticAlgebra (ZMod p) nr 0))}
    (ha : AccAt nr cs acc o) :
    Step cs (aggregateAllLoop drop nr b0 b1 l acc) fun cs' r =>
      AccAt nr cs' r (allSpec drop ⟨b0, b1⟩ ps o) := by
  induction l generalizing ps cs acc o with
  | nil => cases h; exact step_pure hg ha
  | cons k ks ih =>
    cases h with
    | @cons _ P _ Ps hk hks =>
    refine (step_g2AddAssign hg drop ha hk).bind fun c1 a g1 e1 h1 => ?_
    exact ih g1 (hks.imp fun _ _ h => h.ext hg e1) (.some h1)

theorem fp2At_withVals {nr : ZMod p} {cs : ConstraintSystem p} {σ : R1Var → ZMod p} (h1 : σ .one = 1)
    {x : Fp2V p} (hx : cs.Scoped x.c0 ∧ cs.Scoped x.c1) : Fp2At nr (cs.withVals σ) x (x.at nr σ) :=
  ⟨lcAt_withVals h1 hx.1, lcAt_withVals h1 hx.2⟩

/-- The coordinates are over allocated variables. -/
def G2V.ScopedIn (cs : ConstraintSystem p) (v : G2V p) : Prop :=
  (cs.Scoped v.1.c0 ∧ cs.Scoped v.1.c1) ∧ (cs.Scoped v.2.1.c0 ∧ cs.Scoped v.2.1.c1) ∧
    (cs.Scoped v.2.2.c0 ∧ cs.Scoped v.2.2.c1)

theorem projAt_withVals {nr : ZMod p} {cs : ConstraintSystem p} {σ : R1Var → ZMod p} (h1 : σ .one = 1)
    {v : G2V p} (hv : G2V.ScopedIn cs v) : ProjAt nr (cs.withVals σ) v (projAt nr σ v) :=
  ⟨fp2At_withVals h1 hv.1, fp2At_withVals h1 hv.2.1, fp2At_withVals h1 hv.2.2⟩

omit [Fact p.Prime] in
theorem projAt_agree {nr : ZMod p} {cs : ConstraintSystem p} {σ ρ : R1Var → ZMod p}
    (ha : cs.Agree σ ρ) {v : G2V p} (hv : G2V.ScopedIn cs v) : projAt nr ρ v = projAt nr σ v := by
  obtain ⟨⟨h1, h2⟩, ⟨h3, h4⟩, ⟨h5, h6⟩⟩ := hv
  simp only [projAt, Fp2V.at, ha.evalLc h1, ha.evalLc h2, ha.evalLc h3, ha.evalLc h4, ha.evalLc h5,
    ha.evalLc h6]

end

/-! ### numbers of constraints and witnesses -/

section

variable {p : ℕ}

theorem cost_fpIsEq (a b : LinComb p) : Cost (fpIsEq a b) 3 2 fun r => r.isVar = true :=
  (cost_boolWitness _).bind (fun _ hb => (cost_newWitness _).bind (fun _ _ => (cost_enforce _ _ _).bind
    (fun _ _ => (cost_enforce _ _ _).bind (fun _ _ => cost_pure (isVar_neg hb)) rfl rfl) rfl rfl)
      rfl rfl) rfl rfl

theorem cost_fp2IsEq (x y : Fp2V p) : Cost (fp2IsEq x y) 7 5 fun r => r.isVar = true :=
  (cost_fpIsEq _ _).bind (fun _ h0 => (cost_fpIsEq _ _).bind (fun _ h1 => cost_boolAnd h0 h1) rfl rfl)
    rfl rfl

theorem cost_fpSelect {cond : BoolV} (hc : cond.isVar = true) (t f : LinComb p) :
    Cost (fpSelect cond t f) 1 1 fun _ => True := by
  cases cond with
  | constant b => cases hc
  | is v =>
    exact (cost_newWitness _).bind (fun _ _ => (cost_enforce _ _ _).bind (fun _ _ => cost_pure trivial)
      rfl rfl) rfl rfl
  | not v =>
    exact (cost_newWitness _).bind (fun _ _ => (cost_enforce _ _ _).bind (fun _ _ => cost_pure trivial)
      rfl rfl) rfl rfl

theorem cost_fp2Select {cond : BoolV} (hc : cond.isVar = true) (t f : Fp2V p) :
    Cost (fp2Select cond t f) 2 2 fun _ => True :=
  (cost_fpSelect hc _ _).bind (fun _ _ => (cost_fpSelect hc _ _).bind (fun _ _ => cost_pure trivial)
    rfl rfl) rfl rfl

theorem boolAnd_const_false {a : BoolV} (ha : a.isVar = true) :
    boolAnd (p := p) a (.constant false) = Synth.pure (.constant false) := by
  cases a with
  | constant b => cases ha
  | is v => rfl
  | not v => rfl

theorem boolOr_const_false (a : BoolV) : boolOr (p := p) (.constant false) a = Synth.pure a := by
  cases a with
  | constant b => cases b <;> rfl
  | is v => rfl
  | not v => rfl

theorem cost_g2IsEqConst (nr : ZMod p) (x y : ZMod p × ZMod p) (v : G2V p) :
    Cost (g2IsEqConst nr x y v) 22 16 fun r => r.isVar = true := by
  refine (cost_fp2IsEq _ _).bind (fun _ h0 => (cost_fp2IsEq _ _).bind (fun _ h1 =>
    (cost_boolAnd h0 h1).bind (fun _ hc => (cost_fp2IsEq _ _).bind (m := 0) (v := 0) (fun _ hz => ?_)
      rfl rfl) rfl rfl) rfl rfl) rfl rfl
  rw [boolAnd_const_false hz]
  refine (cost_pure (Q := fun r => r = .constant false) rfl).bind (m := 0) (v := 0) (fun r hr => ?_) rfl rfl
  rw [hr, boolOr_const_false]
  exact cost_pure hc

theorem cost_enforceNotPadding (nr : ZMod p) (x y : ZMod p × ZMod p) (v : G2V p) {b : BoolV}
    (hb : b.isVar = true) : Cost (enforceNotPadding nr x y v b) 24 17 fun _ => True := by
  have hk : ∀ e : BoolV, e.isVar = true →
      Cost (p := p) (karyAnd e [b]) 1 1 fun r => r.isVar = true := fun e he =>
    (cost_boolAnd he hb).bind (m := 0) (v := 0) (fun r h => by
      show Cost (Synth.pure r) 0 0 _
      exact cost_pure h) rfl rfl
  exact (cost_g2IsEqConst nr x y v).bind (fun e he => (hk e he).bind
    (fun _ h => cost_boolEnforceEqual h) rfl rfl) rfl rfl

theorem cost_g2SelectZero {b : BoolV} (hb : b.isVar = true) (v : G2V p) :
    Cost (g2SelectZero b v) 6 6 fun _ => True :=
  (cost_fp2Select hb _ _).bind (fun _ _ => (cost_fp2Select hb _ _).bind (fun _ _ =>
    (cost_fp2Select hb _ _).bind (fun _ _ => cost_pure trivial) rfl rfl) rfl rfl) rfl rfl

theorem cost_g2AddRest (nr b0 b1 : ZMod p) (xx yy zz xy xz yz : Fp2V p) :
    Cost (g2AddRest nr b0 b1 xx yy zz xy xz yz) 18 18 fun _ => True :=
  (cost_fp2Mul _ _ _).bind (fun _ _ => (cost_fp2Mul _ _ _).bind (fun _ _ => (cost_fp2Mul _ _ _).bind
    (fun _ _ => (cost_fp2Mul _ _ _).bind (fun _ _ => (cost_fp2Mul _ _ _).bind (fun _ _ =>
      (cost_fp2Mul _ _ _).bind (fun _ _ => cost_pure trivial) rfl rfl) rfl rfl) rfl rfl) rfl rfl)
        rfl rfl) rfl rfl

theorem cost_g2Add (nr b0 b1 : ZMod p) (u v : G2V p) : Cost (g2Add nr b0 b1 u v) 36 36 fun _ => True :=
  (cost_fp2Mul _ _ _).bind (fun _ _ => (cost_fp2Mul _ _ _).bind (fun _ _ => (cost_fp2Mul _ _ _).bind
    (fun _ _ => (cost_fp2Mul _ _ _).bind (fun _ _ => (cost_fp2Mul _ _ _).bind (fun _ _ =>
      (cost_fp2Mul _ _ _).bind (fun _ _ => cost_g2AddRest _ _ _ _ _ _ _ _ _) rfl rfl) rfl rfl) rfl rfl)
        rfl rfl) rfl rfl) rfl rfl

/-- Constraints of the addition to the aggregate so far. -/
def addCost (drop : Bool) (acc : Bool) : ℕ := if acc then 36 else if drop then 0 else 18

theorem cost_g2AddAssign (drop : Bool) (nr b0 b1 : ZMod p) (acc : Option (G2V p)) (v : G2V p) :
    Cost (g2AddAssign drop nr b0 b1 acc v) (addCost drop acc.isSome) (addCost drop acc.isSome)
      fun _ => True := by
  cases acc with
  | some u => exact cost_g2Add _ _ _ _ _
  | none =>
    cases drop with
    | true => exact cost_pure trivial
    | false => exact cost_g2AddRest _ _ _ _ _ _ _ _ _

/-- Constraints of `n` additions to the aggregate so far. -/
def addsCost (drop : Bool) (acc : Bool) (n : ℕ) : ℕ :=
  if n = 0 then 0 else addCost drop acc + 36 * (n - 1)

theorem addsCost_succ (drop acc : Bool) (n : ℕ) :
    addsCost drop acc (n + 1) = addCost drop acc + addsCost drop true n := by
  cases n with
  | zero => rfl
  | succ n => simp [addsCost, addCost]; omega

theorem cost_aggregateLoop (drop : Bool) (nr b0 b1 : ZMod p) (x y : ZMod p × ZMod p)
    {l : List (G2V p × BoolV)} (hl : ∀ k ∈ l, k.2.isVar = true) (acc : Option (G2V p)) :
    Cost (aggregateLoop drop nr b0 b1 x y l acc) (30 * l.length + addsCost drop acc.isSome l.length)
      (23 * l.length + addsCost drop acc.isSome l.length) fun _ => True := by
  induction l generalizing acc with
  | nil => exact cost_pure trivial
  | cons k ks ih =>
    refine (cost_enforceNotPadding nr x y k.1 (hl k List.mem_cons_self)).bind (fun _ _ =>
      (cost_g2SelectZero (hl k List.mem_cons_self) k.1).bind (fun _ _ =>
        (cost_g2AddAssign drop nr b0 b1 acc _).bind (m := 30 * ks.length + addsCost drop true ks.length)
          (v := 23 * ks.length + addsCost drop true ks.length)
          (fun a _ => ih (fun k hk => hl k (List.mem_cons_of_mem _ hk)) (some a)) rfl rfl) rfl rfl) ?_ ?_
    all_goals
      rw [List.length_cons, addsCost_succ]
      omega

theorem cost_aggregateAllLoop (drop : Bool) (nr b0 b1 : ZMod p) (l : List (G2V p))
    (acc : Option (G2V p)) :
    Cost (aggregateAllLoop drop nr b0 b1 l acc) (addsCost drop acc.isSome l.length)
      (addsCost drop acc.isSome l.length) fun _ => True := by
  induction l generalizing acc with
  | nil => exact cost_pure trivial
  | cons k ks ih =>
    refine (cost_g2AddAssign drop nr b0 b1 acc _).bind (m := addsCost drop true ks.length)
      (v := addsCost drop true ks.length) (fun a _ => ih (some a)) ?_ ?_
    all_goals rw [List.length_cons, addsCost_succ]

theorem cost_enforceCmpLe [Fact p.Prime] (a b : LinComb p) :
    Cost (enforceCmpLe a b) (2 * (leHalfCost p).1 + (toBitsCost p).1 + 1)
      (2 * (leHalfCost p).2 + (toBitsCost p).2) fun _ => True := by
  refine (cost_enforceLeHalf _).bind (fun _ _ => (cost_enforceLeHalf _).bind (fun _ _ =>
    (cost_toBitsLe _).bind (m := 1) (v := 0) (fun bits _ => ?_) rfl rfl) rfl rfl) (by omega) (by omega)
  cases bits with
  | nil => intro c r hr; cases hr
  | cons b bs => exact cost_enforce _ _ _

theorem cost_maxOccurrences [Fact p.Prime] (o : Bool) (bitmap : List BoolV) (m : LinComb p) (value : Bool) :
    Cost (maxOccurrences o bitmap m value) (2 * (leHalfCost p).1 + (toBitsCost p).1 + 2)
      (2 * (leHalfCost p).2 + (toBitsCost p).2 + 1) fun _ => True := by
  intro cs r hr
  unfold maxOccurrences at hr
  rw [Outcome.bind_eq_ok_iff] at hr
  obtain ⟨k, _, hr⟩ := hr
  split at hr
  · refine Cost.bind (R := fun _ => True) (cost_newWitness _) (fun _ _ => (cost_enforceCmpLe _ _).bind
      (fun _ _ => cost_enforce _ _ _) rfl rfl) ?_ ?_ cs r hr <;> omega
  · cases hr

end

end Verif
