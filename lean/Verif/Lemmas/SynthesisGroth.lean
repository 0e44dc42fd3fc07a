import Verif.Model.SynthesisGroth
import Verif.Lemmas.SynthesisExact
import Mathlib.Algebra.BigOperators.Fin

/-! Helper lemmas: the matrices of a constraint system mean what its constraints mean. -/

set_option linter.unusedSectionVars false

namespace Verif

section

variable {r k w : ℕ}

theorem columnVar_inl_zero (i : Fin (k + 1)) (h : (i : ℕ) = 0) :
    columnVar (w := w) (.inl i) = .one := if_pos h

theorem columnVar_inl (i : Fin (k + 1)) (h : (i : ℕ) ≠ 0) :
    columnVar (w := w) (.inl i) = .inst (i - 1) := if_neg h

theorem columnVar_inr (i : Fin w) : columnVar (k := k) (.inr i) = .wit i := rfl

theorem columnVar_injective : Function.Injective (columnVar (k := k) (w := w)) := by
  rintro (i | i) (j | j) h
  · congr 1
    apply Fin.ext
    by_cases hi : (i : ℕ) = 0 <;> by_cases hj : (j : ℕ) = 0
    · omega
    · rw [columnVar_inl_zero i hi, columnVar_inl j hj] at h; cases h
    · rw [columnVar_inl i hi, columnVar_inl_zero j hj] at h; cases h
    · rw [columnVar_inl i hi, columnVar_inl j hj, R1Var.inst.injEq] at h; omega
  · by_cases hi : (i : ℕ) = 0
    · rw [columnVar_inl_zero i hi] at h; cases h
    · rw [columnVar_inl i hi] at h; cases h
  · by_cases hj : (j : ℕ) = 0
    · rw [columnVar_inl_zero j hj] at h; cases h
    · rw [columnVar_inl j hj] at h; cases h
  · rw [columnVar_inr, columnVar_inr, R1Var.wit.injEq] at h
    congr 1
    exact Fin.ext h

theorem exists_column {cs : ConstraintSystem r} {v : R1Var} (h : cs.InScope v) :
    ∃ i : Fin (cs.numInst + 1) ⊕ Fin cs.numWit, columnVar i = v := by
  cases v with
  | one => exact ⟨.inl 0, rfl⟩
  | inst i =>
    have h' : i < cs.numInst := h
    exact ⟨.inl ⟨i + 1, Nat.succ_lt_succ h'⟩, columnVar_inl _ (by simp)⟩
  | wit i =>
    have h' : i < cs.numWit := h
    exact ⟨.inr ⟨i, h'⟩, rfl⟩

theorem rowOf_cons (t : ZMod r × R1Var) (l : LinComb r) (i : Fin (k + 1) ⊕ Fin w) :
    rowOf (t :: l) i = (if t.2 = columnVar i then t.1 else 0) + rowOf l i := by
  unfold rowOf
  by_cases h : t.2 = columnVar i
  · rw [List.filter_cons_of_pos (by simpa using h), if_pos h]; simp
  · rw [List.filter_cons_of_neg (by simpa using h), if_neg h, zero_add]

theorem linComb_rowOf [Fact r.Prime] {cs : ConstraintSystem r} {l : LinComb r} (hl : cs.Scoped l)
    (ρ : R1Var → ZMod r) (z : Fin (cs.numInst + 1) ⊕ Fin cs.numWit → ZMod r)
    (hz : ∀ i, z i = ρ (columnVar i)) : linComb (rowOf l) z = evalLc ρ l := by
  induction l with
  | nil => simp [linComb, rowOf, evalLc]
  | cons t l ih =>
    have ih := ih fun s hs => hl s (List.mem_cons_of_mem _ hs)
    have : evalLc ρ (t :: l) = t.1 * ρ t.2 + evalLc ρ l := by simp [evalLc]
    rw [this, ← ih]
    unfold linComb
    simp only [rowOf_cons, add_mul, Finset.sum_add_distrib]
    congr 1
    obtain ⟨i, hi⟩ := exists_column (hl t List.mem_cons_self)
    rw [Finset.sum_eq_single i]
    · rw [if_pos hi.symm, hz, hi]
    · intro j _ hj
      rw [if_neg (fun h => hj (columnVar_injective (h.symm.trans hi.symm))), zero_mul]
    · exact fun h => absurd (Finset.mem_univ i) h

/-- The values of the variables as an assignment. -/
def rhoOf (x : Fin k → ZMod r) (wit : Fin w → ZMod r) : R1Var → ZMod r
  | .one => 1
  | .inst i => if h : i < k then x ⟨i, h⟩ else 0
  | .wit i => if h : i < w then wit ⟨i, h⟩ else 0

theorem fullAssignment_rhoOf [Fact r.Prime] (x : Fin k → ZMod r) (wit : Fin w → ZMod r)
    (i : Fin (k + 1) ⊕ Fin w) : fullAssignment x wit i = rhoOf x wit (columnVar i) := by
  unfold fullAssignment columnVar
  rcases i with i | i
  · rw [Sum.elim_inl]
    refine Fin.cases ?_ (fun j => ?_) i
    · rfl
    · rw [Fin.cons_succ]
      simp [rhoOf]
  · simp [rhoOf]

/-- The matrices are satisfied exactly if the constraints are. -/
theorem satisfied_matrices [Fact r.Prime] {cs : ConstraintSystem r} (hc : cs.Closed)
    (x : Fin cs.numInst → ZMod r) (wit : Fin cs.numWit → ZMod r) :
    cs.matrices.Satisfied (fullAssignment x wit) ↔ cs.Sat (rhoOf x wit) := by
  have key : ∀ q ∈ cs.constraints,
      linComb (rowOf q.a) (fullAssignment x wit) = evalLc (rhoOf x wit) q.a ∧
      linComb (rowOf q.b) (fullAssignment x wit) = evalLc (rhoOf x wit) q.b ∧
      linComb (rowOf q.c) (fullAssignment x wit) = evalLc (rhoOf x wit) q.c := fun q hq => by
    obtain ⟨h1, h2, h3⟩ := hc q hq
    exact ⟨linComb_rowOf h1 _ _ (fullAssignment_rhoOf x wit),
      linComb_rowOf h2 _ _ (fullAssignment_rhoOf x wit), linComb_rowOf h3 _ _ (fullAssignment_rhoOf x wit)⟩
  constructor
  · intro h q hq
    obtain ⟨j, hj, rfl⟩ := List.getElem_of_mem hq
    have := h ⟨j, hj⟩
    obtain ⟨h1, h2, h3⟩ := key _ hq
    unfold R1Constraint.Holds
    rw [← h1, ← h2, ← h3]
    exact this
  · intro h j
    have hq : cs.constraints[j] ∈ cs.constraints := List.getElem_mem _
    obtain ⟨h1, h2, h3⟩ := key _ hq
    have := h _ hq
    unfold R1Constraint.Holds at this
    rw [← h1, ← h2, ← h3] at this
    exact this

theorem rhoOf_rho [Fact r.Prime] {cs : ConstraintSystem r} {v : R1Var} (hv : cs.InScope v) :
    rhoOf cs.inputs cs.witnesses v = cs.rho v := by
  cases v with
  | one => rfl
  | inst i => exact dif_pos hv
  | wit i => exact dif_pos hv

theorem satisfied_own [Fact r.Prime] {cs : ConstraintSystem r} (hc : cs.Closed) :
    cs.matrices.Satisfied (fullAssignment cs.inputs cs.witnesses) ↔ cs.Sat cs.rho := by
  rw [satisfied_matrices hc]
  have key : ∀ q ∈ cs.constraints, (q.Holds (rhoOf cs.inputs cs.witnesses) ↔ q.Holds cs.rho) := by
    intro q hq
    obtain ⟨h1, h2, h3⟩ := hc q hq
    unfold R1Constraint.Holds
    rw [evalLc_congr fun t ht => rhoOf_rho (h1 t ht), evalLc_congr fun t ht => rhoOf_rho (h2 t ht),
      evalLc_congr fun t ht => rhoOf_rho (h3 t ht)]
  exact ⟨fun h q hq => (key q hq).1 (h q hq), fun h q hq => (key q hq).2 (h q hq)⟩

end

/-! ### programs that allocate no public input -/

section
variable {p : ℕ}

/-- A program leaves the public inputs as they are. -/
def KeepsInputs {α : Type} (g : Synth p α) : Prop :=
  ∀ c t, g c = .ok t → t.2.numInst = c.numInst ∧ t.2.instVals = c.instVals

theorem KeepsInputs.bind {α β : Type} {g : Synth p α} {f : α → Synth p β} (h : KeepsInputs g)
    (hf : ∀ x, KeepsInputs (f x)) : KeepsInputs (g >>= f) := by
  intro c t ht
  obtain ⟨s, hs, ht⟩ := synth_bind_ok.1 ht
  exact ⟨((hf _ _ _ ht).1).trans (h _ _ hs).1, ((hf _ _ _ ht).2).trans (h _ _ hs).2⟩

theorem keeps_pure {α : Type} (x : α) : KeepsInputs (p := p) (Synth.pure x) := by
  intro c t h
  cases h
  exact ⟨rfl, rfl⟩

theorem keeps_fail {α : Type} (e : SynthErr) : KeepsInputs (α := α) (p := p) (Synth.fail e) :=
  fun _ _ h => nomatch h

theorem keeps_panic {α : Type} : KeepsInputs (α := α) (p := p) Synth.panic := fun _ _ h => nomatch h

theorem keeps_enforce (a b c : LinComb p) : KeepsInputs (enforce a b c) := by
  intro cs t h
  cases h
  exact ⟨rfl, rfl⟩

theorem keeps_newWitness (f : ConstraintSystem p → Outcome SynthErr (ZMod p)) :
    KeepsInputs (newWitness f) := by
  intro c t h
  unfold newWitness at h
  split at h
  · cases h; exact ⟨rfl, rfl⟩
  · obtain ⟨v, _, rfl⟩ := (Outcome.map_eq_ok_iff _ _ _).1 h
    exact ⟨rfl, rfl⟩

theorem keeps_mapM {α β : Type} {f : α → Synth p β} (h : ∀ a, KeepsInputs (f a)) (l : List α) :
    KeepsInputs (Synth.mapM f l) := by
  induction l with
  | nil => exact keeps_pure _
  | cons a as ih => exact (h a).bind fun _ => ih.bind fun _ => keeps_pure _

theorem keeps_boolWitness (f : ConstraintSystem p → Outcome SynthErr Bool) :
    KeepsInputs (boolWitness f) :=
  (keeps_newWitness _).bind fun _ => (keeps_enforce _ _ _).bind fun _ => keeps_pure _

theorem keeps_boolAnd (a b : BoolV) : KeepsInputs (p := p) (boolAnd a b) := by
  unfold boolAnd
  split <;> first
    | exact keeps_pure _
    | exact (keeps_newWitness _).bind fun _ => (keeps_enforce _ _ _).bind fun _ => keeps_pure _

theorem keeps_boolOr (a b : BoolV) : KeepsInputs (p := p) (boolOr a b) := by
  unfold boolOr
  split <;> first
    | exact keeps_pure _
    | exact (keeps_boolAnd _ _).bind fun _ => keeps_pure _

theorem keeps_karyAnd (l : List BoolV) (a : BoolV) : KeepsInputs (p := p) (karyAnd a l) := by
  induction l generalizing a with
  | nil => exact keeps_pure _
  | cons b bs ih => exact (keeps_boolAnd _ _).bind fun _ => ih _

theorem keeps_orAll (l : List BoolV) (a : BoolV) : KeepsInputs (p := p) (orAll a l) := by
  induction l generalizing a with
  | nil => exact keeps_pure _
  | cons b bs ih => exact (keeps_boolOr _ _).bind fun _ => ih _

theorem keeps_enforceNand (a b : BoolV) : KeepsInputs (p := p) (enforceNand a b) := by
  refine (keeps_boolAnd _ _).bind fun r => ?_
  cases r with
  | constant b => cases b <;> first | exact keeps_pure _ | exact keeps_fail _
  | is v => exact keeps_enforce _ _ _
  | not v => exact keeps_enforce _ _ _

theorem keeps_boolEnforceEqual (a b : BoolV) : KeepsInputs (p := p) (boolEnforceEqual a b) := by
  unfold boolEnforceEqual
  split
  · split
    · exact keeps_pure _
    · exact keeps_fail _
  · exact keeps_enforce _ _ _

theorem keeps_smallerLoop (l : List (Bool × BoolV)) (last : BoolV) (run : List BoolV) :
    KeepsInputs (p := p) (smallerLoop l last run) := by
  induction l generalizing last run with
  | nil => rw [smallerLoop]; exact keeps_pure _
  | cons q qs ih =>
    obtain ⟨e, a⟩ := q
    cases e with
    | true => rw [smallerLoop]; exact ih _ _
    | false =>
      cases run with
      | nil => rw [smallerLoop]; exact (keeps_enforceNand _ _).bind fun _ => ih _ _
      | cons c cs =>
        rw [smallerLoop]
        exact (keeps_karyAnd _ _).bind fun _ => (keeps_enforceNand _ _).bind fun _ => ih _ _

theorem keeps_enforceSmallerOrEqualLe (bits : List BoolV) (bound : ℕ) :
    KeepsInputs (p := p) (enforceSmallerOrEqualLe bits bound) := by
  unfold enforceSmallerOrEqualLe
  dsimp only
  split
  · exact (keeps_orAll _ _).bind fun _ => (keeps_boolEnforceEqual _ _).bind fun _ =>
      keeps_smallerLoop _ _ _
  · exact keeps_smallerLoop _ _ _

theorem keeps_toNonUniqueBitsLe (x : LinComb p) : KeepsInputs (toNonUniqueBitsLe x) :=
  (keeps_mapM (fun _ => keeps_boolWitness _) _).bind fun _ => (keeps_enforce _ _ _).bind fun _ =>
    keeps_pure _

theorem keeps_toBitsLe (x : LinComb p) : KeepsInputs (toBitsLe x) := by
  refine (keeps_toNonUniqueBitsLe _).bind fun bits => KeepsInputs.bind ?_ fun _ => keeps_pure _
  refine (keeps_enforceSmallerOrEqualLe _ _).bind fun run => ?_
  cases run with
  | nil => exact keeps_pure _
  | cons _ _ => exact keeps_panic

theorem keeps_enforceLeHalf (x : LinComb p) : KeepsInputs (enforceLeHalf x) :=
  (keeps_toNonUniqueBitsLe _).bind fun _ => (keeps_enforceSmallerOrEqualLe _ _).bind fun _ =>
    keeps_pure _

theorem keeps_enforceCmpLe (a b : LinComb p) : KeepsInputs (enforceCmpLe a b) := by
  refine (keeps_enforceLeHalf _).bind fun _ => (keeps_enforceLeHalf _).bind fun _ =>
    (keeps_toBitsLe _).bind fun bits => ?_
  cases bits with
  | nil => exact keeps_panic
  | cons b bs => exact keeps_enforce _ _ _

theorem keeps_isEqZero (el : FpV p) : KeepsInputs (isEqZero el) := by
  cases el with
  | constant v => exact keeps_pure _
  | var l =>
    exact (keeps_boolWitness _).bind fun _ => (keeps_newWitness _).bind fun _ =>
      (keeps_enforce _ _ _).bind fun _ => (keeps_enforce _ _ _).bind fun _ => keeps_pure _

theorem keeps_normalize (el : FpV p) : KeepsInputs (normalize el) := by
  cases el with
  | constant v => exact keeps_pure _
  | var l =>
    exact (keeps_boolWitness _).bind fun _ => (keeps_newWitness _).bind fun _ =>
      (keeps_enforce _ _ _).bind fun _ => (keeps_enforceLeHalf _).bind fun _ => keeps_pure _

theorem keeps_yToBitG2 (c0 c1 : FpV p) : KeepsInputs (yToBitG2 c0 c1) :=
  (keeps_boolWitness _).bind fun _ => (keeps_normalize _).bind fun _ =>
    (keeps_normalize _).bind fun _ => (keeps_isEqZero _).bind fun _ =>
      (keeps_boolAnd _ _).bind fun _ => (keeps_enforce _ _ _).bind fun _ => keeps_pure _

theorem keeps_maxOccurrences (o : Bool) (bitmap : List BoolV) (m : LinComb p) (value : Bool) :
    KeepsInputs (maxOccurrences o bitmap m value) := by
  intro c t h
  unfold maxOccurrences at h
  obtain ⟨k, _, h⟩ := (Outcome.bind_eq_ok_iff _ _ _).1 h
  split at h
  · exact ((keeps_newWitness _).bind fun _ => (keeps_enforceCmpLe _ _).bind fun _ =>
      keeps_enforce _ _ _) c t h
  · cases h

theorem keeps_bitmapCircuit (o : Bool) (bitmap : List (Option Bool)) (m : ℕ) (value : Bool) :
    KeepsInputs (p := p) (bitmapCircuit o bitmap m value) :=
  (keeps_mapM (fun _ => keeps_boolWitness _) _).bind fun _ => (keeps_newWitness _).bind fun _ =>
    keeps_maxOccurrences _ _ _ _

theorem keeps_fpMul (x y : LinComb p) : KeepsInputs (fpMul x y) :=
  (keeps_newWitness _).bind fun _ => (keeps_enforce _ _ _).bind fun _ => keeps_pure _

theorem keeps_fpWitness (f : ConstraintSystem p → Outcome SynthErr (ZMod p)) :
    KeepsInputs (fpWitness f) := (keeps_newWitness _).bind fun _ => keeps_pure _

theorem keeps_fp2Mul (nr : ZMod p) (x y : Fp2V p) : KeepsInputs (fp2Mul nr x y) :=
  (keeps_fpMul _ _).bind fun _ => (keeps_fpMul _ _).bind fun _ => (keeps_fpMul _ _).bind fun _ =>
    keeps_pure _

theorem keeps_fp2Square (nr : ZMod p) (x : Fp2V p) : KeepsInputs (fp2Square nr x) :=
  (keeps_fpMul _ _).bind fun _ => (keeps_fpMul _ _).bind fun _ => keeps_pure _

theorem keeps_fp2MulEquals (nr : ZMod p) (x y z : Fp2V p) : KeepsInputs (fp2MulEquals nr x y z) :=
  (keeps_fpMul _ _).bind fun _ => (keeps_enforce _ _ _).bind fun _ => keeps_enforce _ _ _

theorem keeps_fp2Witness (f : ConstraintSystem p → Outcome SynthErr (ZMod p × ZMod p)) :
    KeepsInputs (fp2Witness f) :=
  (keeps_fpWitness _).bind fun _ => (keeps_fpWitness _).bind fun _ => keeps_pure _

theorem keeps_yToBitG1Circuit (b : ZMod p) (pt : ZMod p × ZMod p × ZMod p) :
    KeepsInputs (yToBitG1Circuit b pt) := by
  refine KeepsInputs.bind ?_ fun _ => keeps_normalize _
  exact (keeps_fpWitness _).bind fun _ => (keeps_fpWitness _).bind fun _ =>
    (keeps_fpWitness _).bind fun _ => (keeps_fpMul _ _).bind fun _ => (keeps_fpMul _ _).bind fun _ =>
      (keeps_fpMul _ _).bind fun _ => (keeps_fpMul _ _).bind fun _ =>
        (keeps_enforce _ _ _).bind fun _ => keeps_pure _

theorem keeps_yToBitG2Circuit (nr b0 b1 : ZMod p)
    (pt : (ZMod p × ZMod p) × (ZMod p × ZMod p) × (ZMod p × ZMod p)) :
    KeepsInputs (yToBitG2Circuit nr b0 b1 pt) := by
  refine KeepsInputs.bind ?_ fun _ => keeps_yToBitG2 _ _
  exact (keeps_fp2Witness _).bind fun _ => (keeps_fp2Witness _).bind fun _ =>
    (keeps_fp2Witness _).bind fun _ => (keeps_fp2Square _ _).bind fun _ =>
      (keeps_fp2Square _ _).bind fun _ => (keeps_fp2Square _ _).bind fun _ =>
        (keeps_fp2Mul _ _ _).bind fun _ => (keeps_fp2MulEquals _ _ _ _).bind fun _ => keeps_pure _

end

end Verif
