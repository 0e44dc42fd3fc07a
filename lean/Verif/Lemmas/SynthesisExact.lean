import Verif.Lemmas.SynthesisRun
import Verif.Model.CircuitCurve
import Verif.Props.Gadgets

/-! Helper lemmas: what an adversarial prover can assign to the variables of a gadget; how many
constraints a gadget emits; the allocation of points. -/

set_option linter.unusedSectionVars false

namespace Verif

section

variable {p : ℕ}

/-- Constraints only mention allocated variables. -/
def ConstraintSystem.Closed (cs : ConstraintSystem p) : Prop :=
  ∀ k ∈ cs.constraints, cs.Scoped k.a ∧ cs.Scoped k.b ∧ cs.Scoped k.c

/-- The two assignments give the variables allocated so far the same values. -/
def ConstraintSystem.Agree (cs : ConstraintSystem p) (σ ρ : R1Var → ZMod p) : Prop :=
  ∀ v, cs.InScope v → ρ v = σ v

/-- The system outside setup mode, its variables assigned by `σ`. -/
def ConstraintSystem.withVals (cs : ConstraintSystem p) (σ : R1Var → ZMod p) : ConstraintSystem p :=
  { cs with
    setup := false
    instVals := (List.range cs.numInst).map fun i => σ (.inst i)
    witVals := (List.range cs.numWit).map fun i => σ (.wit i) }

theorem withVals_rho {cs : ConstraintSystem p} {σ : R1Var → ZMod p} (h1 : σ .one = 1) :
    cs.Agree σ (cs.withVals σ).rho := by
  intro v hv
  cases v with
  | one => exact h1.symm
  | inst i =>
    have hi : i < cs.numInst := hv
    simp [ConstraintSystem.rho, ConstraintSystem.withVals, List.getD, List.getElem?_range hi]
  | wit i =>
    have hi : i < cs.numWit := hv
    simp [ConstraintSystem.rho, ConstraintSystem.withVals, List.getD, List.getElem?_range hi]

theorem ConstraintSystem.Agree.evalLc {cs : ConstraintSystem p} {σ ρ : R1Var → ZMod p}
    (h : cs.Agree σ ρ) {l : LinComb p} (hl : cs.Scoped l) : evalLc ρ l = evalLc σ l :=
  evalLc_congr fun t ht => h t.2 (hl t ht)

theorem ConstraintSystem.Agree.sat {cs : ConstraintSystem p} {σ ρ : R1Var → ZMod p}
    (h : cs.Agree σ ρ) (hc : cs.Closed) (hs : cs.Sat σ) : cs.Sat ρ := by
  intro k hk
  obtain ⟨a, b, c⟩ := hc k hk
  unfold R1Constraint.Holds
  rw [h.evalLc a, h.evalLc b, h.evalLc c]
  exact hs k hk

theorem withVals_good {cs : ConstraintSystem p} {σ : R1Var → ZMod p} (h1 : σ .one = 1)
    (hc : cs.Closed) (hs : cs.Sat σ) : (cs.withVals σ).Good :=
  ⟨hc, fun _ => by simp [ConstraintSystem.withVals], fun _ => by simp [ConstraintSystem.withVals],
    fun _ => (withVals_rho h1).sat hc hs⟩

theorem lcAt_withVals {cs : ConstraintSystem p} {σ : R1Var → ZMod p} (h1 : σ .one = 1)
    {l : LinComb p} (hl : cs.Scoped l) : LcAt (cs.withVals σ) l (evalLc σ l) :=
  ⟨hl, fun _ => (withVals_rho h1).evalLc hl⟩

/-- A dishonest prover: a program of the same shape run on the values of their choice gives an
assignment of the constraints of the honest program, in whatever mode that ran. -/
theorem exists_extension {α : Type} {g g' : Synth p α} (ha : Alike g g') {cs : ConstraintSystem p}
    {r : α × ConstraintSystem p} (hr : g cs = .ok r) {σ : R1Var → ZMod p} (h1 : σ .one = 1)
    {Q : ConstraintSystem p → α → Prop} (hstep : Step (cs.withVals σ) g' Q)
    (hg : (cs.withVals σ).Good) :
    ∃ c, c.setup = false ∧ cs.Agree σ c.rho ∧ r.2.Sat c.rho ∧ Q c r.1 := by
  obtain ⟨s, h2, h3, h4, h5⟩ := hstep
  obtain ⟨e1, _, _, _, e5, new, e6, e7⟩ := ha cs (cs.withVals σ) r s rfl rfl hr h2
  refine ⟨s.2, e5, fun v hv => ?_, fun k hk => ?_, by rw [e1]; exact h5⟩
  · rw [h4.rho hg rfl (v := v) hv]
    exact withVals_rho h1 v hv
  · refine h3.sat e5 k ?_
    rw [e6] at hk
    rw [e7]
    exact hk

/-- Shape of an extension that keeps the constraints closed: what `Good` says of them. -/
theorem ConstraintSystem.Good.closed {cs : ConstraintSystem p} (h : cs.Good) : cs.Closed := h.within

theorem LcAt.rho {c : ConstraintSystem p} {l : LinComb p} {x : ZMod p} (h : LcAt c l x)
    (hs : c.setup = false) : evalLc c.rho l = x := h.2 hs

theorem BitAt.bitIs {c : ConstraintSystem p} {b : BoolV} {t : Bool} (h : BitAt c b t)
    (hs : c.setup = false) : BitIs c.rho b t := h.1.2 hs

/-- A coordinate is over allocated variables. -/
def FpV.ScopedIn (cs : ConstraintSystem p) : FpV p → Prop
  | .constant _ => True
  | .var l => cs.Scoped l

theorem fpAt_withVals {cs : ConstraintSystem p} {σ : R1Var → ZMod p} (h1 : σ .one = 1)
    {el : FpV p} (hl : el.ScopedIn cs) : FpAt (cs.withVals σ) el (el.at σ) := by
  cases el with
  | constant v => rfl
  | var l => exact lcAt_withVals h1 hl

theorem ConstraintSystem.Agree.at {cs : ConstraintSystem p} {σ ρ : R1Var → ZMod p}
    (h : cs.Agree σ ρ) {el : FpV p} (hl : el.ScopedIn cs) : el.at ρ = el.at σ := by
  cases el with
  | constant v => rfl
  | var l => simp only [FpV.at]; rw [h.evalLc hl]

end

section

variable {p : ℕ} [Fact p.Prime]

/-- A bit is over allocated variables. -/
theorem bitAt_withVals {cs : ConstraintSystem p} {σ : R1Var → ZMod p} (h1 : σ .one = 1) {b : BoolV}
    {t : Bool} (hb : cs.Scoped (b.lc (p := p))) (ht : BitIs σ b t) : BitAt (cs.withVals σ) b t := by
  refine ⟨⟨hb, fun _ => ?_⟩, ?_⟩
  · rw [(withVals_rho h1).evalLc hb]; exact ht
  · rintro c rfl
    exact (bitIs_constant h1).1 ht

theorem bitAts_withVals {cs : ConstraintSystem p} {σ : R1Var → ZMod p} (h1 : σ .one = 1)
    {bs : List BoolV} {ts : List Bool} (hb : ∀ b ∈ bs, cs.Scoped (b.lc (p := p)))
    (ht : List.Forall₂ (BitIs σ) bs ts) : List.Forall₂ (BitAt (cs.withVals σ)) bs ts := by
  induction ht with
  | nil => exact .nil
  | cons h _ ih =>
    exact .cons (bitAt_withVals h1 (hb _ List.mem_cons_self) h)
      (ih fun b hb' => hb b (List.mem_cons_of_mem _ hb'))

theorem bitIs_agree {cs : ConstraintSystem p} {σ ρ : R1Var → ZMod p} (h : cs.Agree σ ρ)
    {bs : List BoolV} {ts : List Bool} (hb : ∀ b ∈ bs, cs.Scoped (b.lc (p := p)))
    (ht : List.Forall₂ (BitIs σ) bs ts) : List.Forall₂ (BitIs ρ) bs ts := by
  induction ht with
  | nil => exact .nil
  | cons h' _ ih =>
    refine .cons ?_ (ih fun b hb' => hb b (List.mem_cons_of_mem _ hb'))
    unfold BitIs
    rw [h.evalLc (hb _ List.mem_cons_self)]
    exact h'

/-! ### dishonest variants -/

/-- `normalize` with the witnesses of the prover's choice. -/
def normalizeAs (t : Bool) (adj : ZMod p) : FpV p → Synth p BoolV
  | .constant v => Synth.pure (.constant (decide (v.val > halfOf p)))
  | .var l => do
    let b ← boolWitness fun _ => .ok t
    let adjusted ← newWitness fun _ => .ok adj
    enforce (lcVar .one) (l ++ lcScale (-(halfOf p : ZMod p)) b.lc) (lcVar adjusted)
    enforceLeHalf (lcVar adjusted)
    Synth.pure b

theorem alike_normalizeAs (t : Bool) (adj : ZMod p) (el : FpV p) :
    Alike (normalize el) (normalizeAs t adj el) := by
  cases el with
  | constant v => exact alike_pure _
  | var l =>
    exact (alike_boolWitness _ _).bind fun _ => (alike_newWitness _ _).bind fun _ =>
      (alike_enforce _ _ _).bind fun _ => (alike_enforceLeHalf _).bind fun _ => alike_pure _

theorem step_normalizeAs {cs : ConstraintSystem p} (hg : cs.Good) {el : FpV p} {v : FpVar p}
    (h : FpAt cs el v) {t : Bool} {adj : ZMod p} (hn : normalizeC v adj t) :
    Step cs (normalizeAs t adj el) fun cs' b => BitAt cs' b t := by
  cases el with
  | constant a =>
    cases v with
    | constant b =>
      simp only [FpAt] at h
      subst h
      simp only [normalizeC] at hn
      subst hn
      exact step_pure hg (bitAt_constant cs _)
    | var b => exact h.elim
  | var l =>
    cases v with
    | constant b => exact h.elim
    | var v =>
      obtain ⟨n1, n2⟩ := hn
      have hl : LcAt cs l v := h
      refine (step_boolWitness (t := t) hg fun hs => rfl).bind fun c1 b g1 e1 hb => ?_
      have hl1 := hl.ext hg e1
      refine (step_newWitness (x := adj) g1 fun hs => rfl).bind fun c2 a g2 e2 ha => ?_
      have hl2 := hl1.ext g1 e2
      have hb2 := hb.1.ext g1 e2
      refine (step_enforce g2 (lcAt_one c2) (hl2.append (hb2.1.scale (-(halfOf p : ZMod p)))) ha
        ?_).bind fun c3 _ g3 e3 _ => ?_
      · rw [← n1]; ring
      · exact (step_enforceLeHalf g3 (ha.ext g2 e3) n2).bind
          fun c4 _ g4 e4 _ => step_pure g4 ((hb2.ext g2 e3).ext g3 e4)

/-- `y_to_bit` of a point of G2 with the witnesses of the prover's choice. -/
def yToBitG2As (w : YBitWitness p) (c0 c1 : FpV p) : Synth p BoolV := do
  let yBit ← boolWitness fun _ => .ok w.yBit
  let c0Bit ← normalizeAs w.c0Bit w.c0Adjusted c0
  let c1Bit ← normalizeAs w.c1Bit w.c1Adjusted c1
  let eqBit ← isEqZero c1
  let bc ← boolAnd eqBit c0Bit
  enforce (lcSub (lcVar .one) c1Bit.lc) bc.lc (lcSub yBit.lc c1Bit.lc)
  Synth.pure yBit

theorem alike_yToBitG2As (w : YBitWitness p) (c0 c1 : FpV p) :
    Alike (yToBitG2 c0 c1) (yToBitG2As w c0 c1) :=
  (alike_boolWitness _ _).bind fun _ => (alike_normalizeAs _ _ _).bind fun _ =>
    (alike_normalizeAs _ _ _).bind fun _ => (alike_isEqZero _).bind fun _ =>
      (alike_boolAnd _ _).bind fun _ => (alike_enforce _ _ _).bind fun _ => alike_pure _

theorem step_yToBitG2As {cs : ConstraintSystem p} (hg : cs.Good) {c0 c1 : FpV p}
    {v0 v1 : FpVar p} (h0 : FpAt cs c0 v0) (h1 : FpAt cs c1 v1) {w : YBitWitness p}
    (hw : yToBitG2C v0 v1 w) :
    Step cs (yToBitG2As w c0 c1) fun cs' b => BitAt cs' b w.yBit := by
  obtain ⟨n0, n1, z, eqn⟩ := hw
  have hz : w.eqBit = decide (v1.value = 0) := by
    have := C35_sound v1 _ _ z
    by_cases h : v1.value = 0
    · simp [h, this.2 h]
    · cases hb : w.eqBit with
      | true => exact absurd (this.1 hb) h
      | false => simp [h]
  refine (step_boolWitness (t := w.yBit) hg fun hs => rfl).bind fun k1 y g1 e1 hy => ?_
  refine (step_normalizeAs g1 (h0.ext hg e1) n0).bind fun k2 b0 g2 e2 hb0 => ?_
  have e12 := e1.trans e2
  refine (step_normalizeAs g2 (h1.ext hg e12) n1).bind fun k3 b1 g3 e3 hb1 => ?_
  have e13 := e12.trans e3
  refine (step_isEqZero g3 (h1.ext hg e13)).bind fun k4 be g4 e4 hbe => ?_
  rw [← hz] at hbe
  refine (step_boolAnd g4 hbe ((hb0.ext g2 e3).ext g3 e4)).bind fun k5 bc g5 e5 hbc => ?_
  have hb1' := ((hb1.ext g3 e4).ext g4 e5)
  have hy' := hy.1.ext g1 (((e2.trans e3).trans e4).trans e5)
  exact (step_enforce g5 ((lcAt_one k5).sub hb1'.1) hbc.1 (hy'.1.sub hb1'.1) eqn).bind
    fun k6 _ g6 e6 _ => step_pure g6 (hy'.ext g5 e6)

/-- The bound on the occurrences with a count of the prover's choice. -/
def maxOccurrencesAs (occ : ZMod p) (bitmap : List BoolV) (maxOcc : LinComb p) (value : Bool) :
    Synth p Unit := do
  let occurrences ← newWitness fun _ => .ok occ
  enforceCmpLe (lcVar occurrences) maxOcc
  enforce (occurrencesLinComb value bitmap) (lcVar .one) (lcVar occurrences)

theorem alike_maxOccurrencesAs (occ : ZMod p) (o : Bool) (bitmap : List BoolV) (m : LinComb p)
    (value : Bool) :
    Alike (maxOccurrences o bitmap m value) (maxOccurrencesAs occ bitmap m value) := by
  intro c c' r r' h1 h2 h3 h4
  unfold maxOccurrences at h3
  rw [Outcome.bind_eq_ok_iff] at h3
  obtain ⟨k, _, h3⟩ := h3
  cases hv : bitmap.any BoolV.isVar with
  | false => rw [hv] at h3; cases h3
  | true =>
    rw [hv, if_pos rfl] at h3
    exact ((alike_newWitness (fun _ => .ok (k.toNat : ZMod p)) (fun _ => .ok occ)).bind fun _ =>
      (alike_enforceCmpLe _ _).bind fun _ => alike_enforce _ _ _) c c' r r' h1 h2 h3 h4

theorem step_maxOccurrencesAs (hp : p ≠ 2) {cs : ConstraintSystem p} (hg : cs.Good)
    {bitmap : List BoolV} {ts : List Bool} (hb : List.Forall₂ (BitAt cs) bitmap ts)
    {m : LinComb p} {M : ZMod p} (hm : LcAt cs m M) {value : Bool} {occ : ZMod p}
    (h : maxOccurrencesC ts M value occ) :
    Step cs (maxOccurrencesAs occ bitmap m value) fun _ _ => True := by
  obtain ⟨hc, he⟩ := h
  refine (step_newWitness (x := occ) hg fun _ => rfl).bind fun c1 v g1 e1 hv => ?_
  refine (step_enforceCmpLe hp g1 hv (hm.ext hg e1) hc).bind fun c2 _ g2 e2 _ => ?_
  exact step_enforce g2 (lcAt_occurrences value (bitAts_ext hb hg (e1.trans e2))) (lcAt_one c2)
    (hv.ext g1 e2) he

/-- One packed element of the prover's choice. -/
def packChunkAs (input : Bool) (x : ZMod p) (chunk : List BoolV) : Synth p (LinComb p) := do
  let v ← (if input then newInput else newWitness) fun _ => .ok x
  let bitsLe ← toBitsLe (lcVar v)
  if bitsLe.length < chunk.length then Synth.panic else do
    Synth.forM (fun t => boolEnforceEqual t.1 t.2)
      ((bitsLe.reverse.drop (bitsLe.length - chunk.length)).zip chunk)
    Synth.pure (lcVar v)

theorem alike_packChunkAs (input : Bool) (x : ZMod p) (chunk : List BoolV) :
    Alike (packChunk input chunk) (packChunkAs input x chunk) := by
  refine Alike.bind ?_ fun v => (alike_toBitsLe _).bind fun bits => ?_
  · cases input
    · exact alike_newWitness _ _
    · exact alike_newInput _ _
  · by_cases h : bits.length < chunk.length
    · rw [if_pos h]; exact alike_panic _
    · rw [if_neg h]
      exact (alike_forM (forall₂_same' (fun _ => alike_boolEnforceEqual _ _) _)).bind
        fun _ => alike_pure _

theorem step_packChunkAs (hp : p ≠ 2) {cs : ConstraintSystem p} (hg : cs.Good) (input : Bool)
    {chunk : List BoolV} {ts : List Bool} (hb : List.Forall₂ (BitAt cs) chunk ts) {x : ZMod p}
    (hlen : ts.length ≤ bitLength p)
    (h : ∀ j < ts.length, (fieldBitsBe (bitLength p) x)[bitLength p - ts.length + j]? = ts[j]?) :
    Step cs (packChunkAs input x chunk) fun cs' l => LcAt cs' l x := by
  have halloc : Step cs ((if input then newInput else newWitness) fun _ => .ok x)
      fun cs' v => LcAt cs' (lcVar v) x := by
    cases input
    · exact step_newWitness hg fun _ => rfl
    · exact step_newInput hg fun _ => rfl
  refine halloc.bind fun c1 v g1 e1 hv => ?_
  refine (step_toBitsLe hp g1 hv).bind fun c2 bits g2 e2 hbits => ?_
  have hbl : bits.length = bitLength p := by rw [hbits.length_eq]; simp
  have hcl : chunk.length = ts.length := hb.length_eq
  rw [if_neg (by omega)]
  refine (step_equalities (ts := ts) c2 g2 (forall₂_zip_both ?_ (bitAts_ext hb hg (e1.trans e2)))).bind
    fun c3 _ g3 e3 _ => step_pure g3 ((hv.ext g1 e2).ext g2 e3)
  have h1 := forall₂_drop' (List.rel_reverse hbits) (bits.length - chunk.length)
  have hw : (((List.range (bitLength p)).map x.val.testBit).reverse).drop
      (bits.length - chunk.length) = ts := by
    rw [hbl, hcl]
    apply List.ext_getElem?
    intro j
    rw [List.getElem?_drop]
    by_cases hj : j < ts.length
    · exact h j hj
    · rw [List.getElem?_eq_none (by simp; omega), List.getElem?_eq_none (by omega)]
  rw [hw] at h1
  exact h1

theorem forall₂_chunks {α β : Type} {R : α → β → Prop} {n : ℕ} {l : List α} {m : List β}
    (h : List.Forall₂ R l m) :
    List.Forall₂ (List.Forall₂ R) (chunks n l) (chunks n m) ∧ ∀ c ∈ chunks n m, c.length ≤ n := by
  by_cases hn0 : n = 0
  · rw [chunks, dif_pos (Or.inl hn0), chunks, dif_pos (Or.inl hn0)]
    exact ⟨.nil, by simp⟩
  · generalize hk : l.length = k
    induction k using Nat.strong_induction_on generalizing l m with
    | _ k ih =>
      cases h with
      | nil => rw [chunks_nil, chunks_nil]; exact ⟨.nil, by simp⟩
      | @cons a b as bs h2 h3 =>
        rw [chunks_cons hn0 (List.cons_ne_nil a as), chunks_cons hn0 (List.cons_ne_nil b bs)]
        have hi := ih (((a :: as).drop n).length) (by
          rw [← hk, List.length_drop, List.length_cons]; omega)
          (forall₂_drop' (.cons h2 h3) n) rfl
        refine ⟨.cons (forall₂_take' (.cons h2 h3) n) hi.1, ?_⟩
        intro c hc
        rcases List.mem_cons.1 hc with rfl | hc
        · rw [List.length_take]; omega
        · exact hi.2 c hc

/-- The packed elements of the prover's choice. -/
def multipackAs (input : Bool) (cv : List (List BoolV × ZMod p)) : Synth p (List (LinComb p)) :=
  Synth.mapM (fun t => packChunkAs input t.2 t.1) cv

theorem alike_multipackAs (input : Bool) (n : ℕ) (bits : List BoolV) (vs : List (ZMod p))
    (h : (chunks n bits).length = vs.length) :
    Alike (multipack input n bits) (multipackAs input ((chunks n bits).zip vs)) := by
  refine alike_mapM ?_
  generalize chunks n bits = cb at h
  induction cb generalizing vs with
  | nil => exact .nil
  | cons c cs ih =>
    cases vs with
    | nil => simp at h
    | cons v vs => exact .cons (alike_packChunkAs _ _ _) (ih vs (by simpa using h))

theorem step_multipackAs (hp : p ≠ 2) {cs : ConstraintSystem p} (hg : cs.Good) (input : Bool) {n : ℕ}
    (hn : n ≤ bitLength p) {bits : List BoolV} {ts : List Bool} (hb : List.Forall₂ (BitAt cs) bits ts)
    {vs : List (ZMod p)} (hvs : multipackC (bitLength p) n ts vs) :
    Step cs (multipackAs input ((chunks n bits).zip vs)) fun cs' ls =>
      List.Forall₂ (LcAt cs') ls vs := by
  obtain ⟨hch, hlens⟩ := forall₂_chunks (n := n) hb
  unfold multipackC at hvs
  unfold multipackAs
  generalize chunks n bits = cb at hch
  generalize chunks n ts = ct at hch hvs hlens
  clear hb
  induction cb generalizing cs ct vs with
  | nil => cases hch; cases hvs; exact step_pure hg .nil
  | cons b bs ih =>
    cases hch with
    | @cons _ t _ ct h1 h2 =>
    cases hvs with
    | @cons _ v _ vs v1 v2 =>
    refine (step_packChunkAs hp hg input h1
      ((hlens t List.mem_cons_self).trans hn) v1).bind fun c1 l g1 e1 hl => ?_
    refine (ih g1 ct (h2.imp fun _ _ h => bitAts_ext h hg e1) v2
      (fun c hc => hlens c (List.mem_cons_of_mem _ hc))).bind fun c2 ls g2 e2 hls => ?_
    exact step_pure g2 (.cons (hl.ext g1 e2) hls)

end

end Verif
