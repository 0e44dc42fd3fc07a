import Verif.Lemmas.SynthesisPoint

/-! Helper lemmas about the synthesis of gadgets: whatever the values, a program that ends in setup mode
also ends for a prover, and keeps the values assigned before. -/

set_option linter.unusedSectionVars false

namespace Verif

section

variable {p : ℕ}

/-- The prover's values of one system continue those of another, and there is one per variable. -/
structure ConstraintSystem.Grows (cs cs' : ConstraintSystem p) : Prop where
  wit : ∃ a, cs'.witVals = cs.witVals ++ a
  inst : ∃ a, cs'.instVals = cs.instVals ++ a
  witLen : cs.witVals.length = cs.numWit → cs'.witVals.length = cs'.numWit
  instLen : cs.instVals.length = cs.numInst → cs'.instVals.length = cs'.numInst

theorem grows_refl (cs : ConstraintSystem p) : cs.Grows cs :=
  ⟨⟨[], by simp⟩, ⟨[], by simp⟩, id, id⟩

theorem ConstraintSystem.Grows.trans {a b c : ConstraintSystem p} (h : a.Grows b) (h' : b.Grows c) :
    a.Grows c := by
  obtain ⟨⟨x, hx⟩, ⟨y, hy⟩, h1, h2⟩ := h
  obtain ⟨⟨x', hx'⟩, ⟨y', hy'⟩, h1', h2'⟩ := h'
  exact ⟨⟨x ++ x', by rw [hx', hx, List.append_assoc]⟩, ⟨y ++ y', by rw [hy', hy, List.append_assoc]⟩,
    fun h => h1' (h1 h), fun h => h2' (h2 h)⟩

theorem ConstraintSystem.Grows.rho_wit {a b : ConstraintSystem p} (h : a.Grows b) {i : ℕ}
    (hi : i < a.witVals.length) : b.rho (.wit i) = a.rho (.wit i) := by
  obtain ⟨x, hx⟩ := h.wit
  simp only [ConstraintSystem.rho, hx, List.getD_eq_getElem?_getD]
  rw [List.getElem?_append_left hi]

theorem ConstraintSystem.Grows.ext {a b : ConstraintSystem p} (h : a.Grows b)
    (h1 : b.setup = a.setup) (h2 : a.instVals.length = a.numInst) (h3 : a.witVals.length = a.numWit) :
    a.Ext b := by
  refine ⟨h1, ?_, ?_, h.inst, h.wit⟩
  · obtain ⟨x, hx⟩ := h.inst
    rw [← h2, ← h.instLen h2, hx, List.length_append]
    omega
  · obtain ⟨x, hx⟩ := h.wit
    rw [← h3, ← h.witLen h3, hx, List.length_append]
    omega

/-- If the program ends in setup mode, the other one ends for a prover. -/
def Ends {α : Type} (g g' : Synth p α) : Prop :=
  ∀ c c' r, c.setup = true → c'.setup = false → c.numInst = c'.numInst → c.numWit = c'.numWit →
    g c = .ok r → ∃ r', g' c' = .ok r' ∧ c'.Grows r'.2

theorem Ends.bind {α β : Type} {g g' : Synth p α} {f f' : α → Synth p β} (h : Ends g g')
    (ha : Alike g g') (hf : ∀ x, Ends (f x) (f' x)) : Ends (g >>= f) (g' >>= f') := by
  intro c c' r h1 h2 h3 h4 hr
  obtain ⟨s, hs, hr⟩ := synth_bind_ok.1 hr
  obtain ⟨s', hs', hx⟩ := h c c' s h1 h2 h3 h4 hs
  obtain ⟨e1, e2, e3, e4, e5, _⟩ := ha c c' s s' h3 h4 hs hs'
  obtain ⟨r', hr', hx'⟩ := hf s.1 s.2 s'.2 r (e4.trans h1) (e5.trans h2) e2 e3 hr
  exact ⟨r', synth_bind_ok.2 ⟨s', hs', by rw [← e1]; exact hr'⟩, hx.trans hx'⟩

theorem ends_pure {α : Type} (x : α) : Ends (p := p) (Synth.pure x) (Synth.pure x) :=
  fun _ c' _ _ _ _ _ _ => ⟨_, rfl, grows_refl c'⟩

theorem ends_fail {α : Type} (e : SynthErr) (g : Synth p α) : Ends (Synth.fail e) g :=
  fun _ _ _ _ _ _ _ h => nomatch h

theorem ends_panic {α : Type} (g : Synth p α) : Ends Synth.panic g :=
  fun _ _ _ _ _ _ _ h => nomatch h

theorem newWitness_grows {f : ConstraintSystem p → Outcome SynthErr (ZMod p)} {c : ConstraintSystem p}
    (hs : c.setup = false) {v : ZMod p} (hv : f c = .ok v) :
    ∃ r, newWitness f c = .ok r ∧ c.Grows r.2 ∧ r.2.witVals = c.witVals ++ [v] := by
  refine ⟨(.wit c.numWit, { c with numWit := c.numWit + 1, witVals := c.witVals ++ [v] }), ?_, ?_, rfl⟩
  · unfold newWitness
    rw [hs, hv]
    rfl
  · exact ⟨⟨[v], rfl⟩, ⟨[], by simp⟩, fun h => by simp [h], id⟩

theorem ends_newWitness {f f' : ConstraintSystem p → Outcome SynthErr (ZMod p)}
    (h : ∀ c, c.setup = false → ∃ v, f' c = .ok v) : Ends (newWitness f) (newWitness f') := by
  intro c c' r _ h2 _ _ _
  obtain ⟨v, hv⟩ := h c' h2
  obtain ⟨r', h1, h2, _⟩ := newWitness_grows h2 hv
  exact ⟨r', h1, h2⟩

theorem ends_newInput {f f' : ConstraintSystem p → Outcome SynthErr (ZMod p)}
    (h : ∀ c, c.setup = false → ∃ v, f' c = .ok v) : Ends (newInput f) (newInput f') := by
  intro c c' r _ h2 _ _ _
  obtain ⟨v, hv⟩ := h c' h2
  refine ⟨(.inst c'.numInst, { c' with numInst := c'.numInst + 1, instVals := c'.instVals ++ [v] }), ?_, ?_⟩
  · unfold newInput
    rw [h2, hv]
    rfl
  · exact ⟨⟨[], by simp⟩, ⟨[v], rfl⟩, id, fun h => by simp [h]⟩

theorem ends_enforce (a b c : LinComb p) : Ends (enforce a b c) (enforce a b c) :=
  fun _ _ _ _ _ _ _ _ => ⟨_, rfl, ⟨[], by simp⟩, ⟨[], by simp⟩, id, id⟩

theorem ends_mapM {α β γ : Type} {f : α → Synth p γ} {f' : β → Synth p γ} {l : List α} {l' : List β}
    (h : List.Forall₂ (fun a b => Ends (f a) (f' b) ∧ Alike (f a) (f' b)) l l') :
    Ends (Synth.mapM f l) (Synth.mapM f' l') := by
  induction h with
  | nil => exact ends_pure _
  | @cons a b l l' h1 h2 ih =>
    exact h1.1.bind h1.2 fun _ => ih.bind (alike_mapM (h2.imp fun _ _ h => h.2)) fun _ =>
      ends_pure _

theorem lcValue_prover (l : LinComb p) {c : ConstraintSystem p} (h : c.setup = false) :
    lcValue l c = .ok (evalLc c.rho l) := by
  unfold lcValue; rw [h]; rfl

theorem boolValue_prover (b : BoolV) {c : ConstraintSystem p} (h : c.setup = false) :
    ∃ t, b.value p c = .ok t := by
  cases b with
  | constant t => exact ⟨t, rfl⟩
  | is v => exact ⟨_, by rw [BoolV.value, lcValue_prover _ h]; exacts [rfl, fun _ h => nomatch h]⟩
  | not v => exact ⟨_, by rw [BoolV.value, lcValue_prover _ h]; exacts [rfl, fun _ h => nomatch h]⟩

theorem fpValue_prover (x : FpV p) {c : ConstraintSystem p} (h : c.setup = false) :
    ∃ t, x.value c = .ok t := by
  cases x with
  | constant v => exact ⟨v, rfl⟩
  | var l => exact ⟨_, lcValue_prover l h⟩

theorem ends_boolWitness {f f' : ConstraintSystem p → Outcome SynthErr Bool}
    (h : ∀ c, c.setup = false → ∃ v, f' c = .ok v) : Ends (boolWitness f) (boolWitness f') :=
  (ends_newWitness fun c hc => by
    obtain ⟨v, hv⟩ := h c hc
    exact ⟨bit v, by rw [hv]; rfl⟩).bind (alike_newWitness _ _) fun _ =>
    (ends_enforce _ _ _).bind (alike_enforce _ _ _) fun _ => ends_pure _

theorem ends_boolAnd (a b : BoolV) : Ends (p := p) (boolAnd a b) (boolAnd a b) := by
  unfold boolAnd
  split <;> first
    | exact ends_pure _
    | exact (ends_newWitness fun c hc => by
        obtain ⟨s, hs⟩ := boolValue_prover _ hc
        obtain ⟨t, ht⟩ := boolValue_prover _ hc
        exact ⟨bit (s && t), by rw [hs, Outcome.bind_ok, ht]; rfl⟩).bind
          (alike_newWitness _ _) fun _ => (ends_enforce _ _ _).bind (alike_enforce _ _ _) fun _ =>
            ends_pure _

theorem ends_boolOr (a b : BoolV) : Ends (p := p) (boolOr a b) (boolOr a b) := by
  unfold boolOr
  split <;> first
    | exact ends_pure _
    | exact (ends_boolAnd _ _).bind (alike_boolAnd _ _) fun _ => ends_pure _

theorem ends_karyAnd (l : List BoolV) (a : BoolV) :
    Ends (p := p) (karyAnd a l) (karyAnd a l) := by
  induction l generalizing a with
  | nil => exact ends_pure _
  | cons b bs ih => exact (ends_boolAnd _ _).bind (alike_boolAnd _ _) fun _ => ih _

theorem ends_orAll (l : List BoolV) (a : BoolV) : Ends (p := p) (orAll a l) (orAll a l) := by
  induction l generalizing a with
  | nil => exact ends_pure _
  | cons b bs ih => exact (ends_boolOr _ _).bind (alike_boolOr _ _) fun _ => ih _

theorem ends_enforceNand (a b : BoolV) :
    Ends (p := p) (enforceNand a b) (enforceNand a b) := by
  refine (ends_boolAnd _ _).bind (alike_boolAnd _ _) fun r => ?_
  cases r with
  | constant b => cases b <;> first | exact ends_pure _ | exact ends_fail _ _
  | is v => exact ends_enforce _ _ _
  | not v => exact ends_enforce _ _ _

theorem ends_boolEnforceEqual (a b : BoolV) :
    Ends (p := p) (boolEnforceEqual a b) (boolEnforceEqual a b) := by
  unfold boolEnforceEqual
  split
  · rename_i x y
    by_cases h : x = y
    · rw [if_pos h]; exact ends_pure _
    · rw [if_neg h]; exact ends_fail _ _
  · exact ends_enforce _ _ _

theorem ends_smallerLoop (l : List (Bool × BoolV)) (last : BoolV) (run : List BoolV) :
    Ends (p := p) (smallerLoop l last run) (smallerLoop l last run) := by
  induction l generalizing last run with
  | nil => rw [smallerLoop]; exact ends_pure _
  | cons q qs ih =>
    obtain ⟨e, a⟩ := q
    cases e with
    | true => rw [smallerLoop]; exact ih _ _
    | false =>
      cases run with
      | nil =>
        rw [smallerLoop]
        exact (ends_enforceNand _ _).bind (alike_enforceNand _ _) fun _ => ih _ _
      | cons c cs =>
        rw [smallerLoop]
        exact (ends_karyAnd _ _).bind (alike_karyAnd _ _) fun _ =>
          (ends_enforceNand _ _).bind (alike_enforceNand _ _) fun _ => ih _ _

theorem ends_enforceSmallerOrEqualLe (bits : List BoolV) (bound : ℕ) :
    Ends (p := p) (enforceSmallerOrEqualLe bits bound) (enforceSmallerOrEqualLe bits bound) := by
  unfold enforceSmallerOrEqualLe
  dsimp only
  split
  · exact (ends_orAll _ _).bind (alike_orAll _ _) fun _ =>
      (ends_boolEnforceEqual _ _).bind (alike_boolEnforceEqual _ _) fun _ => ends_smallerLoop _ _ _
  · exact ends_smallerLoop _ _ _

theorem ends_toNonUniqueBitsLe (x : LinComb p) :
    Ends (toNonUniqueBitsLe x) (toNonUniqueBitsLe x) :=
  (ends_mapM (forall₂_same' (fun _ => ⟨ends_boolWitness fun _ hc =>
    ⟨_, by rw [lcValue_prover _ hc]; rfl⟩, alike_boolWitness _ _⟩) _)).bind
      (alike_mapM (forall₂_same' (fun _ => alike_boolWitness _ _) _)) fun _ =>
    (ends_enforce _ _ _).bind (alike_enforce _ _ _) fun _ => ends_pure _

theorem ends_toBitsLe (x : LinComb p) : Ends (toBitsLe x) (toBitsLe x) := by
  refine (ends_toNonUniqueBitsLe _).bind (alike_toNonUniqueBitsLe _) fun bits => ?_
  refine Ends.bind ?_ ?_ fun _ => ends_pure _
  · refine (ends_enforceSmallerOrEqualLe _ _).bind (alike_enforceSmallerOrEqualLe _ _) fun run => ?_
    cases run with
    | nil => exact ends_pure _
    | cons _ _ => exact ends_panic _
  · refine (alike_enforceSmallerOrEqualLe _ _).bind fun run => ?_
    cases run with
    | nil => exact alike_pure _
    | cons _ _ => exact alike_panic _

theorem ends_enforceLeHalf (x : LinComb p) : Ends (enforceLeHalf x) (enforceLeHalf x) :=
  (ends_toNonUniqueBitsLe _).bind (alike_toNonUniqueBitsLe _) fun _ =>
    (ends_enforceSmallerOrEqualLe _ _).bind (alike_enforceSmallerOrEqualLe _ _) fun _ =>
      ends_pure _

theorem ends_enforceCmpLe (a b : LinComb p) : Ends (enforceCmpLe a b) (enforceCmpLe a b) := by
  refine (ends_enforceLeHalf _).bind (alike_enforceLeHalf _) fun _ =>
    (ends_enforceLeHalf _).bind (alike_enforceLeHalf _) fun _ =>
      (ends_toBitsLe _).bind (alike_toBitsLe _) fun bits => ?_
  cases bits with
  | nil => exact ends_panic _
  | cons b bs => exact ends_enforce _ _ _

theorem ends_isEqZero (el : FpV p) : Ends (isEqZero el) (isEqZero el) := by
  cases el with
  | constant v => exact ends_pure _
  | var l =>
    exact (ends_boolWitness fun _ hc => ⟨_, by rw [lcValue_prover _ hc]; rfl⟩).bind
      (alike_boolWitness _ _) fun _ =>
        (ends_newWitness fun _ hc => ⟨_, by rw [lcValue_prover _ hc]; rfl⟩).bind
          (alike_newWitness _ _) fun _ => (ends_enforce _ _ _).bind (alike_enforce _ _ _) fun _ =>
            (ends_enforce _ _ _).bind (alike_enforce _ _ _) fun _ => ends_pure _

theorem ends_normalize (el : FpV p) : Ends (normalize el) (normalize el) := by
  cases el with
  | constant v => exact ends_pure _
  | var l =>
    exact (ends_boolWitness fun _ hc => ⟨_, by rw [lcValue_prover _ hc]; rfl⟩).bind
      (alike_boolWitness _ _) fun _ =>
        (ends_newWitness fun _ hc => ⟨_, by rw [lcValue_prover _ hc]; rfl⟩).bind
          (alike_newWitness _ _) fun _ => (ends_enforce _ _ _).bind (alike_enforce _ _ _) fun _ =>
            (ends_enforceLeHalf _).bind (alike_enforceLeHalf _) fun _ => ends_pure _

theorem ends_yToBitG2 (c0 c1 : FpV p) : Ends (yToBitG2 c0 c1) (yToBitG2 c0 c1) :=
  (ends_boolWitness fun c hc => by
    obtain ⟨s, hs⟩ := fpValue_prover c1 hc
    obtain ⟨t, ht⟩ := fpValue_prover c0 hc
    exact ⟨_, by rw [hs, Outcome.bind_ok, ht]; rfl⟩).bind (alike_boolWitness _ _) fun _ =>
    (ends_normalize _).bind (alike_normalize _) fun _ =>
      (ends_normalize _).bind (alike_normalize _) fun _ =>
        (ends_isEqZero _).bind (alike_isEqZero _) fun _ =>
          (ends_boolAnd _ _).bind (alike_boolAnd _ _) fun _ =>
            (ends_enforce _ _ _).bind (alike_enforce _ _ _) fun _ => ends_pure _

theorem countBits_prover (o value : Bool) (bits : List BoolV) {c : ConstraintSystem p}
    (hc : c.setup = false) : ∃ ts : List Bool, ts.length = bits.length ∧
      List.Forall₂ (fun b t => b.value p c = .ok t) bits ts ∧
      countBits o value bits c = match countWitness o value ts 0 with
        | .ok k => .ok k
        | .err _ => .panic
        | .panic => .panic := by
  have h : ∃ ts : List Bool, List.Forall₂ (fun b t => b.value p c = .ok t) bits ts := by
    induction bits with
    | nil => exact ⟨[], .nil⟩
    | cons b bs ih =>
      obtain ⟨ts, hts⟩ := ih
      obtain ⟨t, ht⟩ := boolValue_prover b hc
      exact ⟨t :: ts, .cons ht hts⟩
  obtain ⟨ts, hts⟩ := h
  refine ⟨ts, hts.length_eq.symm, hts, ?_⟩
  unfold countBits
  rw [hc, if_neg (by simp)]
  rw [(Outcome.mapM_eq_ok_iff _ _ _).2 hts, Outcome.bind_ok]
  cases countWitness o value ts 0 <;> rfl

/-- The bitmap gadget ends for a prover if the count does not overflow or overflow is not checked. -/
theorem maxOccurrences_ends {o o' : Bool} {bitmap : List BoolV} {m : LinComb p} {value : Bool}
    {c c' : ConstraintSystem p} {r : Unit × ConstraintSystem p} (h1 : c.setup = true)
    (h2 : c'.setup = false) (h3 : c.numInst = c'.numInst) (h4 : c.numWit = c'.numWit)
    (hr : maxOccurrences o bitmap m value c = .ok r) {k : UInt8}
    (hk : countBits o' value bitmap c' = .ok k) :
    ∃ r', maxOccurrences o' bitmap m value c' = .ok r' ∧ c'.Grows r'.2 ∧
      (∃ a, r'.2.witVals = c'.witVals ++ (k.toNat : ZMod p) :: a) ∧
      R1Constraint.mk (occurrencesLinComb value bitmap) (lcVar .one) (lcVar (.wit c'.numWit)) ∈
        r'.2.constraints := by
  unfold maxOccurrences at hr ⊢
  rw [hk, Outcome.bind_ok]
  rw [Outcome.bind_eq_ok_iff] at hr
  obtain ⟨j, _, hr⟩ := hr
  cases hv : bitmap.any BoolV.isVar with
  | false => rw [hv] at hr; cases hr
  | true =>
    rw [hv, if_pos rfl] at hr
    rw [if_pos rfl]
    obtain ⟨s, hs, hr⟩ := synth_bind_ok.1 hr
    obtain ⟨s', hs', hx, hval⟩ := newWitness_grows (f := fun _ => .ok (k.toNat : ZMod p)) h2 rfl
    obtain ⟨e1, e2, e3, e4, e5, _⟩ := alike_newWitness _ _ c c' s s' h3 h4 hs hs'
    obtain ⟨r', hr', hx'⟩ := Ends.bind (ends_enforceCmpLe _ _) (alike_enforceCmpLe _ _)
      (fun _ => ends_enforce _ _ _) s.2 s'.2 r (e4.trans h1) (e5.trans h2) e2 e3 hr
    refine ⟨r', synth_bind_ok.2 ⟨s', hs', by rw [← e1]; exact hr'⟩, hx.trans hx', ?_, ?_⟩
    · obtain ⟨a, ha⟩ := hx'.wit
      exact ⟨a, by rw [ha, hval]; simp⟩
    · obtain ⟨t, _, ht⟩ := synth_bind_ok.1 hr'
      cases ht
      rw [e1, (newWitness_ok hs').1]
      exact List.mem_append_right _ (List.mem_singleton.2 rfl)

/-! ### points -/

theorem ends_fpMul (x y : LinComb p) : Ends (fpMul x y) (fpMul x y) :=
  (ends_newWitness fun _ hc =>
    ⟨_, by rw [lcValue_prover _ hc, Outcome.bind_ok, lcValue_prover _ hc]; rfl⟩).bind
    (alike_newWitness _ _) fun _ => (ends_enforce _ _ _).bind (alike_enforce _ _ _) fun _ =>
      ends_pure _

theorem ends_fpWitness {f f' : ConstraintSystem p → Outcome SynthErr (ZMod p)}
    (h : ∀ c, c.setup = false → ∃ v, f' c = .ok v) : Ends (fpWitness f) (fpWitness f') :=
  (ends_newWitness h).bind (alike_newWitness _ _) fun _ => ends_pure _

theorem ends_fp2Mul (nr : ZMod p) (x y : Fp2V p) : Ends (fp2Mul nr x y) (fp2Mul nr x y) :=
  (ends_fpMul _ _).bind (alike_fpMul _ _) fun _ => (ends_fpMul _ _).bind (alike_fpMul _ _)
    fun _ => (ends_fpMul _ _).bind (alike_fpMul _ _) fun _ => ends_pure _

theorem ends_fp2Square (nr : ZMod p) (x : Fp2V p) : Ends (fp2Square nr x) (fp2Square nr x) :=
  (ends_fpMul _ _).bind (alike_fpMul _ _) fun _ => (ends_fpMul _ _).bind (alike_fpMul _ _)
    fun _ => ends_pure _

theorem ends_fp2MulEquals (nr : ZMod p) (x y z : Fp2V p) :
    Ends (fp2MulEquals nr x y z) (fp2MulEquals nr x y z) :=
  (ends_fpMul _ _).bind (alike_fpMul _ _) fun _ =>
    (ends_enforce _ _ _).bind (alike_enforce _ _ _) fun _ => ends_enforce _ _ _

/-- The steps of the allocation of a point of G1 after its coordinates (helper, part of `allocPointG1`),
`crates/bls-gadgets/src/y_to_bit.rs:200-204`. -/
def allocPointG1Rest (b : ZMod p) (vx vy vz : LinComb p) :
    Synth p (LinComb p × LinComb p × LinComb p) := do
  let y2 ← fpMul vy vy
  let z2 ← fpMul vz vz
  let x2 ← fpMul vx vx
  let x3 ← fpMul x2 vx
  fpMulEquals vz (lcSub y2 (lcScale b z2)) x3
  Synth.pure (vx, vy, vz)

theorem alike_allocPointG1Rest (b : ZMod p) (vx vy vz : LinComb p) :
    Alike (allocPointG1Rest b vx vy vz) (allocPointG1Rest b vx vy vz) :=
  (alike_fpMul _ _).bind fun _ => (alike_fpMul _ _).bind fun _ => (alike_fpMul _ _).bind
    fun _ => (alike_fpMul _ _).bind fun _ => (alike_enforce _ _ _).bind fun _ => alike_pure _

theorem ends_allocPointG1Rest (b : ZMod p) (vx vy vz : LinComb p) :
    Ends (allocPointG1Rest b vx vy vz) (allocPointG1Rest b vx vy vz) :=
  (ends_fpMul _ _).bind (alike_fpMul _ _) fun _ =>
    (ends_fpMul _ _).bind (alike_fpMul _ _) fun _ =>
      (ends_fpMul _ _).bind (alike_fpMul _ _) fun _ =>
        (ends_fpMul _ _).bind (alike_fpMul _ _) fun _ =>
          (ends_enforce _ _ _).bind (alike_enforce _ _ _) fun _ => ends_pure _

/-- The steps of the allocation of a point of G2 after its coordinates (helper, part of `allocPointG2`),
`crates/bls-gadgets/src/y_to_bit.rs:233-237`. -/
def allocPointG2Rest (nr b0 b1 : ZMod p) (vx vy vz : Fp2V p) : Synth p (Fp2V p × Fp2V p × Fp2V p) := do
  let y2 ← fp2Square nr vy
  let z2 ← fp2Square nr vz
  let x2 ← fp2Square nr vx
  let x3 ← fp2Mul nr x2 vx
  fp2MulEquals nr vz (Fp2V.sub y2 (z2.scale nr b0 b1)) x3
  Synth.pure (vx, vy, vz)

theorem alike_allocPointG2Rest (nr b0 b1 : ZMod p) (vx vy vz : Fp2V p) :
    Alike (allocPointG2Rest nr b0 b1 vx vy vz) (allocPointG2Rest nr b0 b1 vx vy vz) :=
  (alike_fp2Square _ _).bind fun _ => (alike_fp2Square _ _).bind fun _ =>
    (alike_fp2Square _ _).bind fun _ => (alike_fp2Mul _ _ _).bind fun _ =>
      (alike_fp2MulEquals _ _ _ _).bind fun _ => alike_pure _

theorem ends_allocPointG2Rest (nr b0 b1 : ZMod p) (vx vy vz : Fp2V p) :
    Ends (allocPointG2Rest nr b0 b1 vx vy vz) (allocPointG2Rest nr b0 b1 vx vy vz) :=
  (ends_fp2Square _ _).bind (alike_fp2Square _ _) fun _ =>
    (ends_fp2Square _ _).bind (alike_fp2Square _ _) fun _ =>
      (ends_fp2Square _ _).bind (alike_fp2Square _ _) fun _ =>
        (ends_fp2Mul _ _ _).bind (alike_fp2Mul _ _ _) fun _ =>
          (ends_fp2MulEquals _ _ _ _).bind (alike_fp2MulEquals _ _ _ _) fun _ => ends_pure _

end

end Verif
