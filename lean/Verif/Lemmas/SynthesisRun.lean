import Verif.Lemmas.Synthesis

/-! Helper lemmas: the gadgets run to the end and assign witnesses satisfying their constraints. -/

set_option linter.unusedSectionVars false

namespace Verif

section

variable {p : ℕ}

/-- The variable has been allocated. -/
def ConstraintSystem.InScope (cs : ConstraintSystem p) : R1Var → Prop
  | .one => True
  | .inst i => i < cs.numInst
  | .wit i => i < cs.numWit

/-- All variables of a linear combination have been allocated. -/
def ConstraintSystem.Scoped (cs : ConstraintSystem p) (l : LinComb p) : Prop :=
  ∀ t ∈ l, cs.InScope t.2

/-- Constraints only mention allocated variables; outside setup mode every variable has a value and
the constraints hold. -/
structure ConstraintSystem.Good (cs : ConstraintSystem p) : Prop where
  within : ∀ k ∈ cs.constraints, cs.Scoped k.a ∧ cs.Scoped k.b ∧ cs.Scoped k.c
  inst : cs.setup = false → cs.instVals.length = cs.numInst
  wit : cs.setup = false → cs.witVals.length = cs.numWit
  sat : cs.setup = false → cs.Sat cs.rho

/-- The system grew. -/
structure ConstraintSystem.Ext (cs cs' : ConstraintSystem p) : Prop where
  setup : cs'.setup = cs.setup
  inst : cs.numInst ≤ cs'.numInst
  wit : cs.numWit ≤ cs'.numWit
  instVals : ∃ t, cs'.instVals = cs.instVals ++ t
  witVals : ∃ t, cs'.witVals = cs.witVals ++ t

theorem ext_refl (cs : ConstraintSystem p) : cs.Ext cs :=
  ⟨rfl, le_rfl, le_rfl, ⟨[], by simp⟩, ⟨[], by simp⟩⟩

theorem ConstraintSystem.Ext.trans {a b c : ConstraintSystem p} (h : a.Ext b) (h' : b.Ext c) :
    a.Ext c := by
  obtain ⟨s, hs⟩ := h.instVals
  obtain ⟨s', hs'⟩ := h'.instVals
  obtain ⟨t, ht⟩ := h.witVals
  obtain ⟨t', ht'⟩ := h'.witVals
  exact ⟨h'.setup.trans h.setup, h.inst.trans h'.inst, h.wit.trans h'.wit,
    ⟨s ++ s', by rw [hs', hs, List.append_assoc]⟩, ⟨t ++ t', by rw [ht', ht, List.append_assoc]⟩⟩

theorem ConstraintSystem.Ext.inScope {a b : ConstraintSystem p} (h : a.Ext b) {v : R1Var}
    (hv : a.InScope v) : b.InScope v := by
  cases v with
  | one => trivial
  | inst i => exact lt_of_lt_of_le hv h.inst
  | wit i => exact lt_of_lt_of_le hv h.wit

theorem ConstraintSystem.Ext.rho {a b : ConstraintSystem p} (h : a.Ext b) (hg : a.Good)
    (hs : a.setup = false) {v : R1Var} (hv : a.InScope v) : b.rho v = a.rho v := by
  obtain ⟨s, hs'⟩ := h.instVals
  obtain ⟨t, ht⟩ := h.witVals
  have h1 := hg.inst hs
  have h2 := hg.wit hs
  cases v with
  | one => rfl
  | inst i =>
    simp only [ConstraintSystem.rho, hs', List.getD]
    rw [List.getElem?_append_left (by rw [h1]; exact hv)]
  | wit i =>
    simp only [ConstraintSystem.rho, ht, List.getD]
    rw [List.getElem?_append_left (by rw [h2]; exact hv)]

theorem evalLc_congr {ρ σ : R1Var → ZMod p} {l : LinComb p} (h : ∀ t ∈ l, ρ t.2 = σ t.2) :
    evalLc ρ l = evalLc σ l := by
  unfold evalLc
  congr 1
  exact List.map_congr_left fun t ht => by rw [h t ht]

theorem ConstraintSystem.Ext.evalLc {a b : ConstraintSystem p} (h : a.Ext b) (hg : a.Good)
    (hs : a.setup = false) {l : LinComb p} (hl : a.Scoped l) : evalLc b.rho l = evalLc a.rho l :=
  evalLc_congr fun t ht => h.rho hg hs (hl t ht)

theorem ConstraintSystem.Ext.sat {a b : ConstraintSystem p} (h : a.Ext b) (hg : a.Good)
    (hs : a.setup = false) {k : R1Constraint p} (hk : k ∈ a.constraints) : k.Holds b.rho := by
  obtain ⟨s1, s2, s3⟩ := hg.within k hk
  unfold R1Constraint.Holds
  rw [h.evalLc hg hs s1, h.evalLc hg hs s2, h.evalLc hg hs s3]
  exact hg.sat hs k hk

theorem ConstraintSystem.Ext.scoped {a b : ConstraintSystem p} (h : a.Ext b) {l : LinComb p}
    (hl : a.Scoped l) : b.Scoped l := fun t ht => h.inScope (hl t ht)

/-- The linear combination is over allocated variables and, outside setup mode, has the value `x`. -/
def LcAt (cs : ConstraintSystem p) (l : LinComb p) (x : ZMod p) : Prop :=
  cs.Scoped l ∧ (cs.setup = false → evalLc cs.rho l = x)

theorem LcAt.ext {a b : ConstraintSystem p} {l : LinComb p} {x : ZMod p} (h : LcAt a l x)
    (hg : a.Good) (he : a.Ext b) : LcAt b l x :=
  ⟨he.scoped h.1, fun hs => by
    have hs' : a.setup = false := by rw [← he.setup, hs]
    rw [he.evalLc hg hs' h.1, h.2 hs']⟩

theorem LcAt.append {cs : ConstraintSystem p} {l m : LinComb p} {x y : ZMod p} (h : LcAt cs l x)
    (h' : LcAt cs m y) : LcAt cs (l ++ m) (x + y) :=
  ⟨fun t ht => (List.mem_append.1 ht).elim (h.1 t) (h'.1 t), fun hs => by
    rw [evalLc_append, h.2 hs, h'.2 hs]⟩

theorem LcAt.scale {cs : ConstraintSystem p} {l : LinComb p} {x : ZMod p} (h : LcAt cs l x)
    (k : ZMod p) : LcAt cs (lcScale k l) (k * x) :=
  ⟨fun t ht => by
    obtain ⟨u, hu, rfl⟩ := List.mem_map.1 ht
    exact h.1 u hu, fun hs => by rw [evalLc_lcScale, h.2 hs]⟩

theorem LcAt.sub {cs : ConstraintSystem p} {l m : LinComb p} {x y : ZMod p} (h : LcAt cs l x)
    (h' : LcAt cs m y) : LcAt cs (lcSub l m) (x - y) := by
  have := h.append (h'.scale (-1))
  rw [show x + -1 * y = x - y by ring] at this
  exact this

theorem lcAt_nil (cs : ConstraintSystem p) : LcAt cs [] 0 := ⟨by simp [ConstraintSystem.Scoped],
  fun _ => rfl⟩

theorem lcAt_one (cs : ConstraintSystem p) : LcAt cs (lcVar .one) 1 :=
  ⟨fun t ht => by
    rw [lcVar, List.mem_singleton] at ht
    subst ht
    trivial, fun _ => by rw [evalLc_lcVar]; rfl⟩

theorem LcAt.value {cs : ConstraintSystem p} {l : LinComb p} {x : ZMod p} (h : LcAt cs l x)
    (hs : cs.setup = false) : lcValue l cs = .ok x := by
  unfold lcValue
  rw [hs, if_neg (by simp), h.2 hs]

/-- The program succeeds, the system stays good and grows, and the result satisfies `Q`. -/
def Step {α : Type} (cs : ConstraintSystem p) (g : Synth p α)
    (Q : ConstraintSystem p → α → Prop) : Prop :=
  ∃ r, g cs = .ok r ∧ r.2.Good ∧ cs.Ext r.2 ∧ Q r.2 r.1

theorem Step.bind {α β : Type} {cs : ConstraintSystem p} {g : Synth p α} {f : α → Synth p β}
    {Q : ConstraintSystem p → α → Prop} {R : ConstraintSystem p → β → Prop} (h : Step cs g Q)
    (hf : ∀ cs' x, cs'.Good → cs.Ext cs' → Q cs' x → Step cs' (f x) R) : Step cs (g >>= f) R := by
  obtain ⟨r, h1, h2, h3, h4⟩ := h
  obtain ⟨s, k1, k2, k3, k4⟩ := hf r.2 r.1 h2 h3 h4
  exact ⟨s, synth_bind_ok.2 ⟨r, h1, k1⟩, k2, h3.trans k3, k4⟩

theorem step_pure {α : Type} {cs : ConstraintSystem p} {x : α} {Q : ConstraintSystem p → α → Prop}
    (hg : cs.Good) (h : Q cs x) : Step cs (Synth.pure x) Q := ⟨(x, cs), rfl, hg, ext_refl cs, h⟩

theorem Step.mono {α : Type} {cs : ConstraintSystem p} {g : Synth p α}
    {Q R : ConstraintSystem p → α → Prop} (h : Step cs g Q) (hq : ∀ c x, cs.Ext c → Q c x → R c x) :
    Step cs g R := by
  obtain ⟨r, h1, h2, h3, h4⟩ := h
  exact ⟨r, h1, h2, h3, hq _ _ h3 h4⟩

theorem step_newWitness {cs : ConstraintSystem p} (hg : cs.Good)
    {f : ConstraintSystem p → Outcome SynthErr (ZMod p)} {x : ZMod p}
    (h : cs.setup = false → f cs = .ok x) :
    Step cs (newWitness f) fun cs' v => LcAt cs' (lcVar v) x := by
  cases hs : cs.setup with
  | true =>
    have hr : newWitness f cs = .ok (.wit cs.numWit, { cs with numWit := cs.numWit + 1 }) := by
      unfold newWitness; rw [if_pos hs]
    have he : cs.Ext { cs with numWit := cs.numWit + 1 } :=
      ⟨rfl, le_rfl, Nat.le_succ _, ⟨[], by simp⟩, ⟨[], by simp⟩⟩
    refine ⟨_, hr, ⟨fun k hk => ?_, ?_, ?_, ?_⟩, he, ?_, ?_⟩
    · obtain ⟨a, b, c⟩ := hg.within k hk
      exact ⟨he.scoped a, he.scoped b, he.scoped c⟩
    · intro h'; rw [hs] at h'; cases h'
    · intro h'; rw [hs] at h'; cases h'
    · intro h'; rw [hs] at h'; cases h'
    · intro t ht
      rw [lcVar, List.mem_singleton] at ht
      subst ht
      exact Nat.lt_succ_self _
    · intro h'; rw [hs] at h'; cases h'
  | false =>
    have hr : newWitness f cs = .ok (.wit cs.numWit,
        { cs with numWit := cs.numWit + 1, witVals := cs.witVals ++ [x] }) := by
      unfold newWitness
      rw [if_neg (by simp [hs]), h hs, Outcome.map_ok]
    have he : cs.Ext { cs with numWit := cs.numWit + 1, witVals := cs.witVals ++ [x] } :=
      ⟨rfl, le_rfl, Nat.le_succ _, ⟨[], by simp⟩, ⟨[x], rfl⟩⟩
    refine ⟨_, hr, ⟨fun k hk => ?_, ?_, ?_, ?_⟩, he, ?_, ?_⟩
    · obtain ⟨a, b, c⟩ := hg.within k hk
      exact ⟨he.scoped a, he.scoped b, he.scoped c⟩
    · intro _; exact hg.inst hs
    · intro _; simp [hg.wit hs]
    · intro _ k hk; exact he.sat hg hs hk
    · intro t ht
      rw [lcVar, List.mem_singleton] at ht
      subst ht
      exact Nat.lt_succ_self _
    · intro _
      rw [evalLc_lcVar]
      simp [ConstraintSystem.rho, List.getD, ← hg.wit hs]

theorem step_newInput {cs : ConstraintSystem p} (hg : cs.Good)
    {f : ConstraintSystem p → Outcome SynthErr (ZMod p)} {x : ZMod p}
    (h : cs.setup = false → f cs = .ok x) :
    Step cs (newInput f) fun cs' v => LcAt cs' (lcVar v) x := by
  cases hs : cs.setup with
  | true =>
    have hr : newInput f cs = .ok (.inst cs.numInst, { cs with numInst := cs.numInst + 1 }) := by
      unfold newInput; rw [if_pos hs]
    have he : cs.Ext { cs with numInst := cs.numInst + 1 } :=
      ⟨rfl, Nat.le_succ _, le_rfl, ⟨[], by simp⟩, ⟨[], by simp⟩⟩
    refine ⟨_, hr, ⟨fun k hk => ?_, ?_, ?_, ?_⟩, he, ?_, ?_⟩
    · obtain ⟨a, b, c⟩ := hg.within k hk
      exact ⟨he.scoped a, he.scoped b, he.scoped c⟩
    · intro h'; rw [hs] at h'; cases h'
    · intro h'; rw [hs] at h'; cases h'
    · intro h'; rw [hs] at h'; cases h'
    · intro t ht
      rw [lcVar, List.mem_singleton] at ht
      subst ht
      exact Nat.lt_succ_self _
    · intro h'; rw [hs] at h'; cases h'
  | false =>
    have hr : newInput f cs = .ok (.inst cs.numInst,
        { cs with numInst := cs.numInst + 1, instVals := cs.instVals ++ [x] }) := by
      unfold newInput
      rw [if_neg (by simp [hs]), h hs, Outcome.map_ok]
    have he : cs.Ext { cs with numInst := cs.numInst + 1, instVals := cs.instVals ++ [x] } :=
      ⟨rfl, Nat.le_succ _, le_rfl, ⟨[x], rfl⟩, ⟨[], by simp⟩⟩
    refine ⟨_, hr, ⟨fun k hk => ?_, ?_, ?_, ?_⟩, he, ?_, ?_⟩
    · obtain ⟨a, b, c⟩ := hg.within k hk
      exact ⟨he.scoped a, he.scoped b, he.scoped c⟩
    · intro _; simp [hg.inst hs]
    · intro _; exact hg.wit hs
    · intro _ k hk; exact he.sat hg hs hk
    · intro t ht
      rw [lcVar, List.mem_singleton] at ht
      subst ht
      exact Nat.lt_succ_self _
    · intro _
      rw [evalLc_lcVar]
      simp [ConstraintSystem.rho, List.getD, ← hg.inst hs]

theorem step_enforce {cs : ConstraintSystem p} (hg : cs.Good) {a b c : LinComb p} {x y z : ZMod p}
    (ha : LcAt cs a x) (hb : LcAt cs b y) (hc : LcAt cs c z) (h : x * y = z) :
    Step cs (enforce a b c) fun _ _ => True := by
  refine ⟨_, rfl, ⟨fun k hk => ?_, hg.inst, hg.wit, fun hs k hk => ?_⟩,
    ⟨rfl, le_rfl, le_rfl, ⟨[], by simp⟩, ⟨[], by simp⟩⟩, trivial⟩
  · rcases List.mem_append.1 hk with hk | hk
    · exact hg.within k hk
    · rw [List.mem_singleton] at hk
      subst hk
      exact ⟨ha.1, hb.1, hc.1⟩
  · rcases List.mem_append.1 hk with hk | hk
    · exact hg.sat hs k hk
    · rw [List.mem_singleton] at hk
      subst hk
      change evalLc cs.rho a * evalLc cs.rho b = evalLc cs.rho c
      rw [ha.2 hs, hb.2 hs, hc.2 hs, h]

/-- The bit is over allocated variables and, outside setup mode, has the value `t`; a constant is
`t` in either mode. -/
def BitAt (cs : ConstraintSystem p) (b : BoolV) (t : Bool) : Prop :=
  LcAt cs b.lc (bit t) ∧ ∀ c, b = .constant c → c = t

theorem BitAt.ext {a c : ConstraintSystem p} {b : BoolV} {t : Bool} (h : BitAt a b t)
    (hg : a.Good) (he : a.Ext c) : BitAt c b t := ⟨h.1.ext hg he, h.2⟩

theorem bitAts_ext {a c : ConstraintSystem p} {bs : List BoolV} {ts : List Bool}
    (h : List.Forall₂ (BitAt a) bs ts) (hg : a.Good) (he : a.Ext c) :
    List.Forall₂ (BitAt c) bs ts := h.imp fun _ _ hb => hb.ext hg he

theorem bitAt_constant (cs : ConstraintSystem p) (t : Bool) : BitAt cs (.constant t) t := by
  refine ⟨?_, fun c hc => by cases hc; rfl⟩
  cases t
  · exact lcAt_nil cs
  · exact lcAt_one cs

theorem bitAt_is {cs : ConstraintSystem p} {v : R1Var} {t : Bool} (h : LcAt cs (lcVar v) (bit t)) :
    BitAt cs (.is v) t := ⟨h, fun c hc => by cases hc⟩

end

section

variable {p : ℕ} [Fact p.Prime]

theorem BitAt.value {cs : ConstraintSystem p} {b : BoolV} {t : Bool} (h : BitAt cs b t)
    (hs : cs.setup = false) : b.value p cs = .ok t := by
  have hd : decide ((bit t : ZMod p) = 1) = t := by cases t <;> simp
  cases b with
  | constant c => rw [BoolV.value, h.2 c rfl]
  | is v =>
    simp only [BoolV.value]
    rw [h.1.value hs, Outcome.map_ok, hd]
  | not v =>
    simp only [BoolV.value]
    rw [h.1.value hs, Outcome.map_ok, hd]

theorem bitAts_value {cs : ConstraintSystem p} {bs : List BoolV} {ts : List Bool}
    (h : List.Forall₂ (BitAt cs) bs ts) (hs : cs.setup = false) :
    Outcome.mapM (fun b => b.value p cs) bs = .ok ts := by
  rw [Outcome.mapM_eq_ok_iff]
  exact h.imp fun _ _ hb => hb.value hs

theorem BitAt.neg {cs : ConstraintSystem p} {b : BoolV} {t : Bool} (h : BitAt cs b t) :
    BitAt cs b.neg (!t) := by
  cases b with
  | constant c => rw [h.2 c rfl] at *; exact bitAt_constant cs _
  | is v =>
    refine ⟨?_, fun c hc => by cases hc⟩
    have := (lcAt_one cs).sub h.1
    rw [show (1 : ZMod p) - bit t = bit (!t) by cases t <;> simp] at this
    exact this
  | not v =>
    refine ⟨⟨?_, fun hs => ?_⟩, fun c hc => by cases hc⟩
    · intro u hu
      have : cs.InScope v := h.1.1 (-1 * 1, v) (by simp [BoolV.lc, lcSub, lcScale, lcVar])
      simp only [BoolV.neg, BoolV.lc, lcVar, List.mem_singleton] at hu
      subst hu
      exact this
    · have := h.1.2 hs
      simp only [BoolV.neg, BoolV.lc, evalLc_lcSub, evalLc_lcVar] at this ⊢
      have e : cs.rho v = cs.rho .one - bit t := by rw [← this]; ring
      rw [e]
      change (1 : ZMod p) - bit t = bit (!t)
      cases t <;> simp

theorem step_boolWitness {cs : ConstraintSystem p} (hg : cs.Good)
    {f : ConstraintSystem p → Outcome SynthErr Bool} {t : Bool} (h : cs.setup = false → f cs = .ok t) :
    Step cs (boolWitness f) fun cs' b => BitAt cs' b t ∧ b.isVar = true := by
  refine (step_newWitness (x := bit t) hg fun hs => by rw [h hs, Outcome.map_ok]).bind ?_
  intro c1 v g1 _ hv
  refine (step_enforce g1 ((lcAt_one c1).sub hv) hv (lcAt_nil c1) ?_).bind ?_
  · cases t <;> simp
  · intro c2 _ g2 e2 _
    exact step_pure g2 ⟨bitAt_is (hv.ext g1 e2), rfl⟩

theorem step_boolAnd {cs : ConstraintSystem p} (hg : cs.Good) {a b : BoolV} {s t : Bool}
    (ha : BitAt cs a s) (hb : BitAt cs b t) :
    Step cs (boolAnd a b) fun cs' r => BitAt cs' r (s && t) := by
  have key : Step cs (do
      let v ← newWitness fun cs =>
        (a.value p cs).bind fun x => (b.value p cs).map fun y => bit (x && y)
      enforce a.lc b.lc (lcVar v)
      Synth.pure (BoolV.is v)) fun cs' r => BitAt cs' r (s && t) := by
    refine (step_newWitness (x := bit (s && t)) hg fun hs => by
      rw [ha.value hs, Outcome.bind_ok, hb.value hs, Outcome.map_ok]).bind ?_
    intro c1 v g1 e1 hv
    refine (step_enforce g1 (ha.ext hg e1).1 (hb.ext hg e1).1 hv ?_).bind ?_
    · cases s <;> cases t <;> simp
    · intro c2 _ g2 e2 _
      exact step_pure g2 (bitAt_is (hv.ext g1 e2))
  unfold boolAnd
  split
  · have := ha.2 _ rfl
    subst this
    exact step_pure hg (by simpa using bitAt_constant cs false)
  · have := ha.2 _ rfl
    subst this
    exact step_pure hg (by simpa using hb)
  · have := hb.2 _ rfl
    subst this
    exact step_pure hg (by simpa using bitAt_constant cs false)
  · have := hb.2 _ rfl
    subst this
    exact step_pure hg (by simpa using ha)
  · exact key

theorem step_boolOr {cs : ConstraintSystem p} (hg : cs.Good) {a b : BoolV} {s t : Bool}
    (ha : BitAt cs a s) (hb : BitAt cs b t) :
    Step cs (boolOr a b) fun cs' r => BitAt cs' r (s || t) := by
  unfold boolOr
  split
  · have := ha.2 _ rfl
    subst this
    exact step_pure hg (by simpa using hb)
  · have := ha.2 _ rfl
    subst this
    exact step_pure hg (by simpa using bitAt_constant cs true)
  · have := hb.2 _ rfl
    subst this
    exact step_pure hg (by simpa using ha)
  · have := hb.2 _ rfl
    subst this
    exact step_pure hg (by simpa using bitAt_constant cs true)
  · refine (step_boolAnd hg ha.neg hb.neg).bind fun c1 r g1 _ hr => step_pure g1 ?_
    simpa using hr.neg

theorem step_karyAnd {l : List BoolV} {ts : List Bool} {cs : ConstraintSystem p} (hg : cs.Good)
    (hl : List.Forall₂ (BitAt cs) l ts) {a : BoolV} {s : Bool} (ha : BitAt cs a s) :
    Step cs (karyAnd a l) fun cs' r => BitAt cs' r (s && ts.all id) := by
  induction l generalizing ts cs a s with
  | nil => cases hl; exact step_pure hg (by simpa using ha)
  | cons b bs ih =>
    cases hl with
    | cons hb hbs =>
      refine (step_boolAnd hg ha hb).bind fun c1 r g1 e1 hr => ?_
      refine (ih g1 (bitAts_ext hbs hg e1) hr).mono fun c x _ hx => ?_
      simpa [Bool.and_assoc] using hx

theorem step_orAll {l : List BoolV} {ts : List Bool} {cs : ConstraintSystem p} (hg : cs.Good)
    (hl : List.Forall₂ (BitAt cs) l ts) {a : BoolV} {s : Bool} (ha : BitAt cs a s) :
    Step cs (orAll a l) fun cs' r => BitAt cs' r (s || ts.any id) := by
  induction l generalizing ts cs a s with
  | nil => cases hl; exact step_pure hg (by simpa using ha)
  | cons b bs ih =>
    cases hl with
    | cons hb hbs =>
      refine (step_boolOr hg ha hb).bind fun c1 r g1 e1 hr => ?_
      refine (ih g1 (bitAts_ext hbs hg e1) hr).mono fun c x _ hx => ?_
      simpa [Bool.or_assoc] using hx

theorem step_enforceNand {cs : ConstraintSystem p} (hg : cs.Good) {a b : BoolV} {s t : Bool}
    (ha : BitAt cs a s) (hb : BitAt cs b t) (h : (s && t) = false) :
    Step cs (enforceNand a b) fun _ _ => True := by
  refine (step_boolAnd hg ha hb).bind fun c1 r g1 e1 hr => ?_
  rw [h] at hr
  cases r with
  | constant c =>
    have := hr.2 c rfl
    subst this
    exact step_pure g1 trivial
  | is v => exact step_enforce g1 hr.1 (lcAt_one c1) (lcAt_nil c1) (by simp)
  | not v => exact step_enforce g1 hr.1 (lcAt_one c1) (lcAt_nil c1) (by simp)

theorem step_boolEnforceEqual {cs : ConstraintSystem p} (hg : cs.Good) {a b : BoolV} {t : Bool}
    (ha : BitAt cs a t) (hb : BitAt cs b t) :
    Step cs (boolEnforceEqual a b) fun _ _ => True := by
  unfold boolEnforceEqual
  split
  · rename_i x y
    have h1 := ha.2 _ rfl
    have h2 := hb.2 _ rfl
    rw [if_pos (h1.trans h2.symm)]
    exact step_pure hg trivial
  · exact step_enforce hg (ha.1.sub hb.1) (lcAt_one cs) (lcAt_nil cs) (by simp)

theorem step_smallerLoop (l : List (Bool × BoolV)) :
    ∀ (cs : ConstraintSystem p) (ts : List Bool) (last : BoolV) (run : List BoolV) (tl : Bool)
      (tr : List Bool) (A E : ℕ), cs.Good →
      List.Forall₂ (fun q t => BitAt cs q.2 t) l ts → BitAt cs last tl →
      List.Forall₂ (BitAt cs) run tr → A ≤ E → ((tl && tr.all id) = true ↔ A = E) →
      foldBe A ts ≤ foldBe E (l.map Prod.fst) →
      Step cs (smallerLoop l last run) fun _ _ => True := by
  induction l with
  | nil =>
    intro cs ts last run tl tr A E hg hl _ _ _ _ _
    rw [smallerLoop]
    exact step_pure hg trivial
  | cons q qs ih =>
    intro cs ts last run tl tr A E hg hl hlast hrun hA hiff hle
    obtain ⟨e, a⟩ := q
    cases hl with
    | @cons _ t _ ts hq hqs =>
    have hlen : ts.length = (qs.map Prod.fst).length := by rw [List.length_map, hqs.length_eq]
    cases e with
    | true =>
      rw [smallerLoop]
      refine ih cs ts last (run ++ [a]) tl (tr ++ [t]) (2 * A + t.toNat) (2 * E + 1) hg hqs hlast
        (List.rel_append hrun (.cons hq .nil)) ?_ ?_ hle
      · have := Bool.toNat_le t; omega
      · have e1 : (tl && (tr ++ [t]).all id) = ((tl && tr.all id) && t) := by
          simp [Bool.and_assoc]
        rw [e1, Bool.and_eq_true, hiff]
        cases t <;> (simp; try omega)
    | false =>
      have step : ∀ (c1 : ConstraintSystem p) (last' : BoolV) (tl' : Bool), c1.Good → cs.Ext c1 →
          BitAt c1 last' tl' → (tl' = true ↔ A = E) →
          Step c1 (do enforceNand last' a; smallerLoop qs last' [])
            fun _ _ => True := by
        intro c1 last' tl' g1 e1 hl' hiff'
        have ht : (tl' && t) = false := by
          by_contra hne
          rw [Bool.not_eq_false, Bool.and_eq_true] at hne
          obtain ⟨h1, rfl⟩ := hne
          have hAE := hiff'.1 h1
          have : foldBe (2 * E + 0) (qs.map Prod.fst) < foldBe (2 * A + 1) ts :=
            foldBe_lt hlen.symm (by omega)
          have hle' : foldBe (2 * A + 1) ts ≤ foldBe (2 * E + 0) (qs.map Prod.fst) := hle
          omega
        refine (step_enforceNand g1 hl' (hq.ext hg e1) ht).bind fun c2 _ g2 e2 _ => ?_
        refine ih c2 ts last' [] tl' [] (2 * A + t.toNat) (2 * E + 0) g2
          (hqs.imp fun _ _ hb => (hb.ext hg e1).ext g1 e2) (hl'.ext g1 e2) .nil ?_ ?_ hle
        · have := Bool.toNat_le t
          by_cases h : A = E
          · rw [hiff'.2 h] at ht
            have : t = false := by simpa using ht
            subst this
            simp; omega
          · omega
        · have := Bool.toNat_le t
          simp only [List.all_nil, Bool.and_true]
          rw [hiff']
          constructor
          · intro h
            rw [hiff'.2 h] at ht
            have : t = false := by simpa using ht
            subst this
            simp; omega
          · omega
      cases run with
      | nil =>
        cases hrun
        rw [smallerLoop]
        exact step cs last tl hg (ext_refl cs) hlast (by simpa using hiff)
      | cons c cs' =>
        cases hrun with
        | @cons _ tc _ tcs hc hcs =>
        rw [smallerLoop]
        refine (step_karyAnd hg (List.rel_append hcs (.cons hlast .nil)) hc).bind
          fun c1 r g1 e1 hr => ?_
        refine step c1 r _ g1 e1 hr ?_
        rw [← hiff]
        simp only [List.all_append, List.all_cons, List.all_nil, id, Bool.and_true, Bool.and_eq_true]
        tauto

/-- When the bound ends in a zero, no run of ones is left over. -/
theorem smallerLoop_run (l : List (Bool × BoolV)) :
    ∀ (last : BoolV) (run : List BoolV) (cs : ConstraintSystem p) (r : List BoolV × ConstraintSystem p),
      (l = [] → run = []) → (∀ b ∈ l.getLast?, b.1 = false) →
      smallerLoop l last run cs = .ok r → r.1 = [] := by
  induction l with
  | nil =>
    intro last run cs r h _ hr
    rw [smallerLoop] at hr
    cases hr
    exact h rfl
  | cons q qs ih =>
    intro last run cs r _ hlast hr
    have hlast' : ∀ b ∈ qs.getLast?, b.1 = false := by
      cases qs with
      | nil => simp
      | cons y ys => rw [List.getLast?_cons_cons] at hlast; exact hlast
    obtain ⟨e, a⟩ := q
    cases e with
    | true =>
      rw [smallerLoop] at hr
      refine ih _ _ _ _ (fun h => ?_) hlast' hr
      subst h
      simp at hlast
    | false =>
      cases run with
      | nil =>
        rw [smallerLoop, synth_bind_ok] at hr
        obtain ⟨s, _, hr⟩ := hr
        exact ih _ _ _ _ (fun _ => rfl) hlast' hr
      | cons c cs' =>
        rw [smallerLoop, synth_bind_ok] at hr
        obtain ⟨s, _, hr⟩ := hr
        rw [synth_bind_ok] at hr
        obtain ⟨s', _, hr⟩ := hr
        exact ih _ _ _ _ (fun _ => rfl) hlast' hr

theorem bitAts_zip_right {cs : ConstraintSystem p} {l : List Bool} {m : List BoolV} {n : List Bool}
    (hlen : l.length = m.length) (h : List.Forall₂ (BitAt cs) m n) :
    List.Forall₂ (fun q t => BitAt cs q.2 t) (l.zip m) n := forall₂_zip_right hlen h

/-- Also when the bound is an even number: no run is left over. -/
theorem step_enforceSmallerOrEqualLe {cs : ConstraintSystem p} (hg : cs.Good) {bits : List BoolV}
    {ts : List Bool} (hb : List.Forall₂ (BitAt cs) bits ts) {bound : ℕ}
    (hlen : bitLength bound ≤ bits.length) (hle : ofBitsLE ts ≤ bound) :
    Step cs (enforceSmallerOrEqualLe bits bound) fun _ r =>
      bound ≠ 0 → bound.testBit 0 = false → r = [] := by
  have hts : ts.length = bits.length := hb.length_eq.symm
  have core : ∀ (c : ConstraintSystem p) (bs : List BoolV) (us : List Bool), c.Good →
      List.Forall₂ (BitAt c) bs us → bs.length = bitLength bound → ofBitsLE us ≤ bound →
      Step c (smallerLoop ((natBitsBe bound).zip bs.reverse) (.constant true) []) fun _ r =>
        bound ≠ 0 → bound.testBit 0 = false → r = [] := by
    intro c bs us g hbs hl hle'
    have hl' : (natBitsBe bound).length = bs.reverse.length := by
      rw [natBitsBe_length, List.length_reverse, hl]
    obtain ⟨r, h1, h2, h3, _⟩ := step_smallerLoop _ c us.reverse (.constant true) [] true [] 0 0 g
      (bitAts_zip_right hl' (List.rel_reverse hbs)) (bitAt_constant c true) .nil le_rfl (by simp) (by
        rw [map_fst_zip' hl', foldBe_natBitsBe, foldBe_eq, List.reverse_reverse]; exact hle')
    refine ⟨r, h1, h2, h3, fun hne hz => ?_⟩
    refine smallerLoop_run _ _ _ _ _ (fun _ => rfl) (fun b hb' => ?_) h1
    have h5 : (natBitsBe bound).getLast? = some b.1 := by
      have := congrArg List.getLast? (map_fst_zip' hl')
      rw [← this, List.getLast?_map]
      rw [Option.mem_def] at hb'
      rw [hb']; rfl
    rw [natBitsBe, List.getLast?_reverse, List.head?_map] at h5
    have h6 : bitLength bound = bound.log2 + 1 := by rw [bitLength, if_neg hne]
    rw [h6, List.range_succ_eq_map] at h5
    simp only [List.head?_cons, Option.map_some, Option.some.injEq] at h5
    rw [← h5, hz]
  unfold enforceSmallerOrEqualLe
  dsimp only
  by_cases hlt : bitLength bound < bits.length
  · rw [if_pos hlt]
    have hsplit : ofBitsLE ts = ofBitsLE (ts.take (bitLength bound)) +
        2 ^ bitLength bound * ofBitsLE (ts.drop (bitLength bound)) := by
      conv_lhs => rw [← List.take_append_drop (bitLength bound) ts, ofBitsLE_append]
      rw [List.length_take, min_eq_left (by omega)]
    have hbd := lt_two_pow_bitLength bound
    have hzero : ofBitsLE (ts.drop (bitLength bound)) = 0 := by
      by_contra hne
      have : 2 ^ bitLength bound * 1 ≤ 2 ^ bitLength bound * ofBitsLE (ts.drop (bitLength bound)) :=
        Nat.mul_le_mul_left _ (Nat.one_le_iff_ne_zero.2 hne)
      omega
    refine (step_orAll hg (forall₂_drop' hb _) (bitAt_constant cs false)).bind fun c1 r g1 e1 hr => ?_
    rw [Bool.false_or, ofBitsLE_eq_zero.1 hzero] at hr
    refine (step_boolEnforceEqual g1 hr (bitAt_constant c1 false)).bind fun c2 _ g2 e2 _ => ?_
    refine core c2 _ _ g2 (bitAts_ext (bitAts_ext (forall₂_take' hb (bitLength bound)) hg e1) g1 e2)
      (by rw [List.length_take]; omega) ?_
    rw [hzero] at hsplit
    omega
  · rw [if_neg hlt]
    exact core cs _ _ hg hb (by omega) hle

theorem lcAt_packLc {cs : ConstraintSystem p} {bits : List BoolV} {ts : List Bool}
    (h : List.Forall₂ (BitAt cs) bits ts) (c : ZMod p) :
    LcAt cs (packLc c bits) (c * (ofBitsLE ts : ℕ)) := by
  induction h generalizing c with
  | nil => simpa [packLc, ofBitsLE] using lcAt_nil cs
  | @cons b t bs ts hb _ ih =>
    have := (hb.1.scale c).append (ih (c + c))
    rw [packLc]
    have e : c * bit t + (c + c) * ((ofBitsLE ts : ℕ) : ZMod p) =
        c * ((ofBitsLE (t :: ts) : ℕ) : ZMod p) := by
      rw [ofBitsLE, bit_toNat]; push_cast; ring
    rw [← e]
    exact this

theorem step_bits {x : LinComb p} {v : ZMod p} (l : List ℕ) :
    ∀ cs : ConstraintSystem p, cs.Good → LcAt cs x v →
      Step cs (Synth.mapM
        (fun i => boolWitness fun cs => (lcValue x cs).map fun v => v.val.testBit i) l)
        fun cs' bits => List.Forall₂ (BitAt cs') bits (l.map v.val.testBit) := by
  induction l with
  | nil => intro cs hg _; exact step_pure hg .nil
  | cons i is ih =>
    intro cs hg hx
    refine (step_boolWitness (t := v.val.testBit i) hg fun hs => by
      rw [hx.value hs, Outcome.map_ok]).bind fun c1 b g1 e1 hb => ?_
    refine (ih c1 g1 (hx.ext hg e1)).bind fun c2 bs g2 e2 hbs => ?_
    exact step_pure g2 (.cons (hb.1.ext g1 e2) hbs)

theorem step_toNonUniqueBitsLe {cs : ConstraintSystem p} (hg : cs.Good) {x : LinComb p} {v : ZMod p}
    (hx : LcAt cs x v) :
    Step cs (toNonUniqueBitsLe x) fun cs' bits =>
      List.Forall₂ (BitAt cs') bits ((List.range (bitLength p)).map v.val.testBit) := by
  have hprime : p.Prime := Fact.out
  have : NeZero p := ⟨hprime.ne_zero⟩
  refine (step_bits _ cs hg hx).bind fun c1 bits g1 e1 hb => ?_
  refine (step_enforce g1 (lcAt_nil c1) (lcAt_nil c1) ((lcAt_packLc hb 1).sub (hx.ext hg e1)) ?_).bind
    fun c2 _ g2 e2 _ => step_pure g2 (bitAts_ext hb g1 e2)
  rw [ofBitsLE_range_testBit, Nat.mod_eq_of_lt ((ZMod.val_lt v).trans (lt_two_pow_bitLength p)),
    ZMod.natCast_zmod_val]
  ring

theorem testBits_val (v : ZMod p) :
    ofBitsLE ((List.range (bitLength p)).map v.val.testBit) = v.val := by
  have hprime : p.Prime := Fact.out
  have : NeZero p := ⟨hprime.ne_zero⟩
  rw [ofBitsLE_range_testBit, Nat.mod_eq_of_lt ((ZMod.val_lt v).trans (lt_two_pow_bitLength p))]

theorem step_toBitsLe (hp : p ≠ 2) {cs : ConstraintSystem p} (hg : cs.Good) {x : LinComb p}
    {v : ZMod p} (hx : LcAt cs x v) :
    Step cs (toBitsLe x) fun cs' bits =>
      List.Forall₂ (BitAt cs') bits ((List.range (bitLength p)).map v.val.testBit) := by
  have hprime : p.Prime := Fact.out
  have : NeZero p := ⟨hprime.ne_zero⟩
  have hh := prime_half (p := p) hp
  have h2 := hprime.two_le
  refine (step_toNonUniqueBitsLe hg hx).bind fun c1 bits g1 e1 hb => ?_
  have hlen : bits.length = bitLength p := by rw [hb.length_eq]; simp
  refine Step.bind (Q := fun _ _ => True) ?_ fun c2 _ g2 e2 _ => step_pure g2 (bitAts_ext hb g1 e2)
  refine (step_enforceSmallerOrEqualLe g1 hb (hlen ▸ bitLength_mono (Nat.sub_le p 1)) ?_).bind
    fun c2 run g2 e2 hrun => ?_
  · rw [testBits_val]
    have := ZMod.val_lt v
    omega
  · have : run = [] := hrun (by omega) (by
      rw [Nat.testBit_zero]
      simp only [decide_eq_false_iff_not]
      omega)
    subst this
    exact step_pure g2 trivial

theorem step_enforceLeHalf {cs : ConstraintSystem p} (hg : cs.Good) {x : LinComb p} {v : ZMod p}
    (hx : LcAt cs x v) (h : leHalfC v) : Step cs (enforceLeHalf x) fun _ _ => True := by
  have hle : halfOf p ≤ p := by unfold halfOf; omega
  refine (step_toNonUniqueBitsLe hg hx).bind fun c1 bits g1 e1 hb => ?_
  have hlen : bits.length = bitLength p := by rw [hb.length_eq]; simp
  refine (step_enforceSmallerOrEqualLe g1 hb (hlen ▸ bitLength_mono hle) ?_).bind
    fun c2 run g2 e2 _ => step_pure g2 trivial
  rw [testBits_val]
  exact h

theorem step_enforceCmpLe (hp : p ≠ 2) {cs : ConstraintSystem p} (hg : cs.Good) {a b : LinComb p}
    {x y : ZMod p} (ha : LcAt cs a x) (hb : LcAt cs b y) (h : enforceCmpLeC x y) :
    Step cs (enforceCmpLe a b) fun _ _ => True := by
  obtain ⟨h1, h2, h3⟩ := h
  have hb1 := hb.append (lcAt_one cs)
  refine (step_enforceLeHalf hg ha h1).bind fun c1 _ g1 e1 _ => ?_
  refine (step_enforceLeHalf g1 (hb1.ext hg e1) h2).bind fun c2 _ g2 e2 _ => ?_
  have e12 := e1.trans e2
  have hd : LcAt c2 (lcScale 2 (lcSub a (b ++ lcVar .one))) (2 * (x - (y + 1))) :=
    ((ha.ext hg e12).sub (hb1.ext hg e12)).scale 2
  refine (step_toBitsLe hp g2 hd).bind fun c3 bits g3 e3 hbits => ?_
  have hprime : p.Prime := Fact.out
  have hbl : bitLength p = p.log2 + 1 := by rw [bitLength, if_neg hprime.ne_zero]
  rw [hbl, List.range_succ_eq_map, List.map_cons] at hbits
  cases hbits with
  | cons hlow _ =>
    rw [h3] at hlow
    exact step_enforce g3 hlow.1 (lcAt_one c3) (lcAt_one c3) (by simp)

/-- An `FpV` with a value: a constant, or a combination over allocated variables. -/
def FpAt (cs : ConstraintSystem p) (x : FpV p) (v : FpVar p) : Prop :=
  match x, v with
  | .constant a, .constant b => a = b
  | .var l, .var v => LcAt cs l v
  | _, _ => False

theorem FpAt.ext {a b : ConstraintSystem p} {x : FpV p} {v : FpVar p} (h : FpAt a x v)
    (hg : a.Good) (he : a.Ext b) : FpAt b x v := by
  cases x <;> cases v <;> simp only [FpAt] at h ⊢
  · exact h
  · exact LcAt.ext h hg he

theorem FpAt.value {cs : ConstraintSystem p} {x : FpV p} {v : FpVar p} (h : FpAt cs x v)
    (hs : cs.setup = false) : x.value cs = .ok v.value := by
  cases x <;> cases v <;> simp only [FpAt] at h
  · subst h; rfl
  · exact LcAt.value h hs

theorem step_isEqZero {cs : ConstraintSystem p} (hg : cs.Good) {el : FpV p} {v : FpVar p}
    (h : FpAt cs el v) :
    Step cs (isEqZero el) fun cs' b => BitAt cs' b (decide (v.value = 0)) := by
  cases el with
  | constant a =>
    cases v with
    | constant b =>
      simp only [FpAt] at h
      subst h
      exact step_pure hg (bitAt_constant cs _)
    | var b => exact h.elim
  | var l =>
    cases v with
    | constant b => exact h.elim
    | var v =>
      have hl : LcAt cs l v := h
      rw [FpVar.value_var]
      refine (step_boolWitness (t := decide (v = 0)) hg fun hs => by
        rw [hl.value hs, Outcome.map_ok]).bind fun c1 b g1 e1 hb => ?_
      have hl1 := hl.ext hg e1
      refine (step_newWitness (x := v⁻¹) g1 fun hs => by
        rw [hl1.value hs, Outcome.map_ok]).bind fun c2 inv g2 e2 hinv => ?_
      have hl2 := hl1.ext g1 e2
      have hb2 := hb.1.ext g1 e2
      refine (step_enforce g2 hl2 hinv ((lcAt_one c2).sub hb2.1) ?_).bind fun c3 _ g3 e3 _ => ?_
      · by_cases hv : v = 0
        · simp [hv]
        · simp [hv]
      · refine (step_enforce g3 (hl2.ext g2 e3) (hb2.ext g2 e3).1 (lcAt_nil c3) ?_).bind
          fun c4 _ g4 e4 _ => step_pure g4 ((hb2.ext g2 e3).ext g3 e4)
        by_cases hv : v = 0
        · simp [hv]
        · simp [hv]

theorem step_normalize (hp : p ≠ 2) {cs : ConstraintSystem p} (hg : cs.Good) {el : FpV p}
    {v : FpVar p} (h : FpAt cs el v) :
    Step cs (normalize el) fun cs' b => BitAt cs' b (decide (v.value.val > halfOf p)) := by
  have hprime : p.Prime := Fact.out
  have : NeZero p := ⟨hprime.ne_zero⟩
  cases el with
  | constant a =>
    cases v with
    | constant b =>
      simp only [FpAt] at h
      subst h
      exact step_pure hg (bitAt_constant cs _)
    | var b => exact h.elim
  | var l =>
    cases v with
    | constant b => exact h.elim
    | var v =>
      have hl : LcAt cs l v := h
      rw [FpVar.value_var]
      refine (step_boolWitness (t := decide (v.val > halfOf p)) hg fun hs => by
        rw [hl.value hs, Outcome.map_ok]).bind fun c1 b g1 e1 hb => ?_
      have hl1 := hl.ext hg e1
      refine (step_newWitness (x := if v.val > halfOf p then v - (halfOf p : ZMod p) else v) g1
        fun hs => by rw [hl1.value hs, Outcome.map_ok]).bind fun c2 adj g2 e2 hadj => ?_
      have hl2 := hl1.ext g1 e2
      have hb2 := hb.1.ext g1 e2
      refine (step_enforce g2 (lcAt_one c2) (hl2.append (hb2.1.scale (-(halfOf p : ZMod p)))) hadj
        ?_).bind fun c3 _ g3 e3 _ => ?_
      · by_cases hv : v.val > halfOf p
        · simp [hv]; ring
        · simp [hv]
      · refine (step_enforceLeHalf g3 (hadj.ext g2 e3) ?_).bind
          fun c4 _ g4 e4 _ => step_pure g4 ((hb2.ext g2 e3).ext g3 e4)
        unfold leHalfC
        have hpp := prime_half (p := p) hp
        have hlt := ZMod.val_lt v
        by_cases hv : v.val > halfOf p
        · rw [if_pos hv, ZMod.val_sub (by rw [val_half hp]; omega), val_half hp]
          omega
        · rw [if_neg hv]; omega

theorem step_yToBitG2 (hp : p ≠ 2) {cs : ConstraintSystem p} (hg : cs.Good) {c0 c1 : FpV p}
    {v0 v1 : FpVar p} (h0 : FpAt cs c0 v0) (h1 : FpAt cs c1 v1) :
    Step cs (yToBitG2 c0 c1) fun cs' b => BitAt cs' b (yToBitG2Witness v0 v1).yBit := by
  refine (step_boolWitness (t := (yToBitG2Witness v0 v1).yBit) hg fun hs => by
    rw [h1.value hs, Outcome.bind_ok, h0.value hs, Outcome.map_ok]; rfl).bind fun k1 y g1 e1 hy => ?_
  refine (step_normalize hp g1 (h0.ext hg e1)).bind fun k2 b0 g2 e2 hb0 => ?_
  have e12 := e1.trans e2
  refine (step_normalize hp g2 (h1.ext hg e12)).bind fun k3 b1 g3 e3 hb1 => ?_
  have e13 := e12.trans e3
  refine (step_isEqZero g3 (h1.ext hg e13)).bind fun k4 be g4 e4 hbe => ?_
  refine (step_boolAnd g4 hbe ((hb0.ext g2 e3).ext g3 e4)).bind fun k5 bc g5 e5 hbc => ?_
  have hb1' := ((hb1.ext g3 e4).ext g4 e5)
  have hy' := hy.1.ext g1 (((e2.trans e3).trans e4).trans e5)
  refine (step_enforce g5 ((lcAt_one k5).sub hb1'.1) hbc.1 (hy'.1.sub hb1'.1) ?_).bind
    fun k6 _ g6 e6 _ => step_pure g6 (hy'.ext g5 e6)
  rw [bit_eqn_iff]
  rfl

theorem lcAt_occurrences {cs : ConstraintSystem p} (value : Bool) {bits : List BoolV}
    {ts : List Bool} (h : List.Forall₂ (BitAt cs) bits ts) :
    LcAt cs (occurrencesLinComb value bits) (occurrencesLc value ts) := by
  induction h with
  | nil => exact lcAt_nil cs
  | @cons b t bs ts hb _ ih =>
    rw [occurrencesLinComb, occurrencesLc, mul_comm (bit t)]
    refine LcAt.append (LcAt.append ?_ (hb.1.scale _)) ih
    cases value
    · exact lcAt_one cs
    · exact lcAt_nil cs

theorem step_maxOccurrences (hp : p ≠ 2) {cs : ConstraintSystem p} (hg : cs.Good) {o : Bool}
    {bitmap : List BoolV} {ts : List Bool} (hb : List.Forall₂ (BitAt cs) bitmap ts)
    (hvar : bitmap.any BoolV.isVar = true) {m : LinComb p} {M : ZMod p} (hm : LcAt cs m M) {value : Bool}
    {k : UInt8} (hk : cs.setup = false → countWitness o value ts 0 = .ok k) {occ : ZMod p}
    (hocc : cs.setup = false → (k.toNat : ZMod p) = occ)
    (h : maxOccurrencesC ts M value occ) :
    Step cs (maxOccurrences o bitmap m value) fun _ _ => True := by
  obtain ⟨hc, he⟩ := h
  have hcount : ∃ k', countBits o value bitmap cs = .ok k' ∧
      (cs.setup = false → (k'.toNat : ZMod p) = occ) := by
    unfold countBits
    cases hs : cs.setup with
    | true => exact ⟨0, by simp, by simp⟩
    | false =>
      refine ⟨k, ?_, fun _ => hocc hs⟩
      rw [if_neg (by simp), bitAts_value hb hs, Outcome.bind_ok, hk hs]
  obtain ⟨k', hk', hv⟩ := hcount
  have body : Step cs (do
      let occurrences ← newWitness fun _ => .ok (k'.toNat : ZMod p)
      enforceCmpLe (lcVar occurrences) m
      enforce (occurrencesLinComb value bitmap) (lcVar .one) (lcVar occurrences))
      fun _ _ => True := by
    refine (step_newWitness (x := occ) hg fun hs => by rw [hv hs]).bind fun c1 v g1 e1 hv' => ?_
    refine (step_enforceCmpLe hp g1 hv' (hm.ext hg e1) hc).bind fun c2 _ g2 e2 _ => ?_
    exact step_enforce g2 (lcAt_occurrences value (bitAts_ext hb hg (e1.trans e2))) (lcAt_one c2)
      (hv'.ext g1 e2) he
  obtain ⟨r, h1, h2, h3, h4⟩ := body
  refine ⟨r, ?_, h2, h3, h4⟩
  unfold maxOccurrences
  rw [hk', Outcome.bind_ok, hvar, if_pos rfl]
  exact h1

theorem step_equalities {l : List (BoolV × BoolV)} {ts : List Bool} :
    ∀ cs : ConstraintSystem p, cs.Good →
      List.Forall₂ (fun q t => BitAt cs q.1 t ∧ BitAt cs q.2 t) l ts →
      Step cs (Synth.forM (fun t => boolEnforceEqual t.1 t.2) l) fun _ _ => True := by
  induction l generalizing ts with
  | nil => intro cs hg _; exact step_pure hg trivial
  | cons q qs ih =>
    intro cs hg h
    cases h with
    | cons hq hqs =>
      refine (step_boolEnforceEqual hg hq.1 hq.2).bind fun c1 _ g1 e1 _ => ?_
      exact ih c1 g1 (hqs.imp fun _ _ hb => ⟨hb.1.ext hg e1, hb.2.ext hg e1⟩)

theorem forall₂_zip_both {α β γ : Type} {R : α → γ → Prop} {S : β → γ → Prop} {l : List α}
    {m : List β} {n : List γ} (h : List.Forall₂ R l n) (h' : List.Forall₂ S m n) :
    List.Forall₂ (fun q t => R q.1 t ∧ S q.2 t) (l.zip m) n := by
  induction h generalizing m with
  | nil => cases h'; exact .nil
  | cons h1 _ ih => cases h' with
    | cons h2 h3 => exact .cons ⟨h1, h2⟩ (ih h3)

theorem step_packChunk (hp : p ≠ 2) {cs : ConstraintSystem p} (hg : cs.Good) (input : Bool)
    {chunk : List BoolV} {ts : List Bool} (hb : List.Forall₂ (BitAt cs) chunk ts)
    (hlt : fromBitsBe ts < p) (hlen : ts.length ≤ bitLength p) :
    Step cs (packChunk input chunk) fun cs' l => LcAt cs' l (fromBitsBe ts : ℕ) := by
  have hval : cs.setup = false → packValue chunk cs = .ok ((fromBitsBe ts : ℕ) : ZMod p) := by
    intro hs
    unfold packValue
    rw [bitAts_value hb hs, Outcome.bind_ok, if_pos hlt]
  have halloc : Step cs ((if input then newInput else newWitness) (packValue chunk))
      fun cs' v => LcAt cs' (lcVar v) ((fromBitsBe ts : ℕ) : ZMod p) := by
    cases input
    · exact step_newWitness hg hval
    · exact step_newInput hg hval
  refine halloc.bind fun c1 v g1 e1 hv => ?_
  refine (step_toBitsLe hp g1 hv).bind fun c2 bits g2 e2 hbits => ?_
  have hbl : bits.length = bitLength p := by rw [hbits.length_eq]; simp
  have hcl : chunk.length = ts.length := hb.length_eq
  rw [if_neg (by omega)]
  refine (step_equalities (ts := ts) c2 g2 (forall₂_zip_both ?_ (bitAts_ext hb hg (e1.trans e2)))).bind
    fun c3 _ g3 e3 _ => step_pure g3 ((hv.ext g1 e2).ext g2 e3)
  have h1 := forall₂_drop' (List.rel_reverse hbits) (bits.length - chunk.length)
  have hw : (((List.range (bitLength p)).map
      (((fromBitsBe ts : ℕ) : ZMod p)).val.testBit).reverse).drop (bits.length - chunk.length) = ts := by
    rw [ZMod.val_natCast_of_lt hlt, hbl, hcl, fromBitsBe_eq, List.drop_reverse, ← List.map_take,
      List.length_map, List.length_range, List.take_range]
    rw [show min (bitLength p - (bitLength p - ts.length)) (bitLength p) = ts.reverse.length by
      rw [List.length_reverse]; omega]
    rw [← eq_range_map_testBit, List.reverse_reverse]
  rw [hw] at h1
  exact h1

theorem step_multipack (hp : p ≠ 2) {cs : ConstraintSystem p} (hg : cs.Good) (input : Bool) {n : ℕ}
    (hn : n ≤ bitLength p) {bits : List BoolV} {ts : List Bool} (hb : List.Forall₂ (BitAt cs) bits ts)
    {vs : List (ZMod p)} (hvs : multipackWitness n ts = .ok vs) :
    Step cs (multipack input n bits) fun cs' ls => List.Forall₂ (LcAt cs') ls vs := by
  have hch : List.Forall₂ (List.Forall₂ (BitAt cs)) (chunks n bits) (chunks n ts) ∧
      ∀ c ∈ chunks n ts, c.length ≤ n := by
    by_cases hn0 : n = 0
    · rw [chunks, dif_pos (Or.inl hn0), chunks, dif_pos (Or.inl hn0)]
      exact ⟨.nil, by simp⟩
    · clear hvs
      generalize hk : bits.length = k
      induction k using Nat.strong_induction_on generalizing bits ts with
      | _ k ih =>
        cases hb with
        | nil => rw [chunks_nil, chunks_nil]; exact ⟨.nil, by simp⟩
        | @cons a b as bs h2 h3 =>
          rw [chunks_cons hn0 (List.cons_ne_nil a as), chunks_cons hn0 (List.cons_ne_nil b bs)]
          have hi := ih (((a :: as).drop n).length) (by
            rw [← hk, List.length_drop, List.length_cons]; omega)
            (forall₂_drop' (.cons h2 h3) n) rfl
          refine ⟨.cons (forall₂_take' (.cons h2 h3) n) hi.1, ?_⟩
          intro c hc
          rcases List.mem_cons.1 hc with rfl | hc
          · rw [List.length_take]; omega
          · exact hi.2 c hc
  obtain ⟨hch, hlens⟩ := hch
  unfold multipackWitness at hvs
  rw [Outcome.mapM_eq_ok_iff] at hvs
  unfold multipack
  generalize chunks n bits = cb at hch
  generalize chunks n ts = ct at hch hvs hlens
  clear hb
  induction cb generalizing cs ct vs with
  | nil => cases hch; cases hvs; exact step_pure hg .nil
  | cons b bs ih =>
    cases hch with
    | @cons _ t _ ct h1 h2 =>
    cases hvs with
    | @cons _ v _ vs v1 v2 =>
    have hlt : fromBitsBe t < p ∧ ((fromBitsBe t : ℕ) : ZMod p) = v := by
      dsimp only at v1
      split at v1
      · rename_i h
        exact ⟨h, by cases v1; rfl⟩
      · cases v1
    refine (step_packChunk hp hg input h1 hlt.1
      ((hlens t List.mem_cons_self).trans hn)).bind fun c1 l g1 e1 hl => ?_
    refine (ih g1 ct (h2.imp fun _ _ h => bitAts_ext h hg e1) v2
      (fun c hc => hlens c (List.mem_cons_of_mem _ hc))).bind fun c2 ls g2 e2 hls => ?_
    refine step_pure g2 (.cons ?_ hls)
    rw [hlt.2] at hl
    exact hl.ext g1 e2

end

end Verif
