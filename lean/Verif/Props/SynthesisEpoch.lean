import Verif.Lemmas.SynthesisEpoch
import Verif.Props.Synthesis
import Verif.Props.CircuitCurve
import Verif.Props.EpochCircuit
import Verif.Lemmas.Prover
import Verif.Props.SynthesisEnd

/-!
# C114: the epoch data gadgets as rank-1 constraints

What the constraints emitted by `EpochData::to_bits`, `enforce_next_epoch`, `fr_to_bits` and `g2_to_bits`
allow, for every assignment; what the prover's run assigns; that the setup sees the same constraints; how
many there are.
-/

set_option linter.unusedSectionVars false

namespace Verif

section

variable {p : ℕ} [Fact p.Prime]

theorem sound_enforceNextEpoch {ρ : R1Var → ZMod p} (h1 : ρ .one = 1) (a b : LinComb p) :
    Sound ρ (enforceNextEpoch a b) fun _ => evalLc ρ b = 0 ∨ evalLc ρ b = evalLc ρ a + 1 := by
  refine (sound_isEqZero h1 (.var b)).bind (fun _ => alike_condEnforceEqual _ _ _) fun z hz => ?_
  refine (sound_enforce _ _ _).mono fun _ h => ?_
  obtain ⟨t, inv, ht, hc⟩ := hz
  have hn := bitIs_neg h1 ht
  unfold BitIs at hn
  rw [hn, evalLc_lcSub, evalLc_append, evalLc_lcVar, h1, evalLc_nil] at h
  cases t with
  | true =>
    left
    exact (C35_sound _ _ _ hc).1 rfl
  | false =>
    right
    simp only [Bool.not_false, bit_true, mul_one] at h
    exact sub_eq_zero.1 h

theorem step_enforceNextEpoch {cs : ConstraintSystem p} (hg : cs.Good) {a b : LinComb p} {x y : ZMod p}
    (ha : LcAt cs a x) (hb : LcAt cs b y) (h : y = 0 ∨ y = x + 1) :
    Step cs (enforceNextEpoch a b) fun _ _ => True := by
  refine (step_isEqZero (el := .var b) (v := .var y) hg hb).bind fun c1 z g1 e1 hz => ?_
  refine step_enforce g1 ((hb.ext hg e1).sub ((ha.ext hg e1).append (lcAt_one c1))) hz.neg.1
    (lcAt_nil c1) ?_
  rcases h with h | h
  · simp [FpVar.value, h]
  · rw [h]; simp

/-- C114: `enforce_next_epoch` as constraints: whatever values the variables had before, the constraints
can be met exactly if the index is zero or one more than the previous index (in the field). -/
theorem C114_next_epoch {cs : ConstraintSystem p} (hc : cs.Closed) {a b : LinComb p}
    (ha : cs.Scoped a) (hb : cs.Scoped b) {r : Unit × ConstraintSystem p}
    (hr : enforceNextEpoch a b cs = .ok r) {σ : R1Var → ZMod p} (h1 : σ .one = 1) (hs : cs.Sat σ) :
    (∃ ρ, cs.Agree σ ρ ∧ r.2.Sat ρ) ↔ (evalLc σ b = 0 ∨ evalLc σ b = evalLc σ a + 1) := by
  constructor
  · rintro ⟨ρ, hag, hsat⟩
    have := sound_enforceNextEpoch (agree_one h1 hag) a b cs r hr hsat
    rw [hag.evalLc ha, hag.evalLc hb] at this
    exact this
  · intro h
    have hg := withVals_good h1 hc hs
    obtain ⟨c, h4, h5, h6, _⟩ := exists_extension (alike_enforceNextEpoch a b) hr h1
      (step_enforceNextEpoch hg (lcAt_withVals h1 ha) (lcAt_withVals h1 hb) h) hg
    exact ⟨c.rho, h5, h6⟩

/-- C114: the prover's own assignment: the gadget never fails, and what it assigns satisfies the
constraints exactly if the index is zero or the next one. -/
theorem C114_next_epoch_run {cs : ConstraintSystem p} (hg : cs.Good) (hset : cs.setup = false)
    {a b : LinComb p} (ha : cs.Scoped a) (hb : cs.Scoped b) :
    ∃ r, enforceNextEpoch a b cs = .ok r ∧
      (r.2.Sat r.2.rho ↔ (evalLc cs.rho b = 0 ∨ evalLc cs.rho b = evalLc cs.rho a + 1)) := by
  have hla : LcAt cs a (evalLc cs.rho a) := ⟨ha, fun _ => rfl⟩
  have hlb : LcAt cs b (evalLc cs.rho b) := ⟨hb, fun _ => rfl⟩
  obtain ⟨q, q1, q2, q3, q4⟩ := step_isEqZero (el := .var b) (v := .var _) hg hlb
  have hr : enforceNextEpoch a b cs = condEnforceEqual b (a ++ lcVar .one) q.1.neg q.2 := by
    unfold enforceNextEpoch
    rw [synth_bind_def, q1, Outcome.bind_ok]
  refine ⟨_, hr, fun hsat => ?_, fun h => ?_⟩
  · have := sound_enforceNextEpoch (ρ := q.2.rho) rfl a b cs _ hr hsat
    rw [q3.evalLc hg hset ha, q3.evalLc hg hset hb] at this
    exact this
  · obtain ⟨s, s1, s2, s3, _⟩ := step_enforceNextEpoch hg hla hlb h
    rw [hr] at s1
    cases s1
    exact s2.sat (s3.setup.trans hset)

/-- C114: `fr_to_bits` as constraints: the bits are forced to be the low digits of the canonical
representative, least significant first; no other bits satisfy the constraints. -/
theorem C114_fr_to_bits (hp : p ≠ 2) {cs : ConstraintSystem p} (hc : cs.Closed) {l : LinComb p}
    (hl : cs.Scoped l) {n : ℕ} {r : List BoolV × ConstraintSystem p}
    (hr : frToBitsV l n cs = .ok r) {σ : R1Var → ZMod p} (h1 : σ .one = 1) (hs : cs.Sat σ)
    (ts : List Bool) :
    (∃ ρ, cs.Agree σ ρ ∧ r.2.Sat ρ ∧ List.Forall₂ (fun b t => evalLc ρ (BoolV.lc b) = bit t) r.1 ts) ↔
      ts.length = n ∧ ∀ i < n, ts[i]? = some ((evalLc σ l).val.testBit i) := by
  have hn : n ≤ bitLength p := by
    obtain ⟨s, h2, h3⟩ := synth_bind_ok.1 hr
    have hlen := ((cost_toBitsLe l) cs s h2).2.2.1
    by_contra hcon
    rw [if_pos (by omega)] at h3
    cases h3
  have heq : (ts.length = n ∧ ∀ i < n, ts[i]? = some ((evalLc σ l).val.testBit i)) ↔
      ts = ((List.range (bitLength p)).map (evalLc σ l).val.testBit).take n := by
    constructor
    · rintro ⟨hlen, h⟩
      apply List.ext_getElem?
      intro i
      by_cases hi : i < n
      · rw [h i hi, List.getElem?_take_of_lt hi, List.getElem?_map, List.getElem?_range (by omega)]
        rfl
      · rw [List.getElem?_eq_none (by omega), List.getElem?_eq_none (by simp; omega)]
    · rintro rfl
      refine ⟨by simp; omega, fun i hi => ?_⟩
      rw [List.getElem?_take_of_lt hi, List.getElem?_map, List.getElem?_range (by omega)]
      rfl
  rw [heq]
  constructor
  · rintro ⟨ρ, hag, hsat, ht⟩
    have := sound_frToBitsV (agree_one h1 hag) l n cs r hr hsat
    rw [hag.evalLc hl] at this
    exact bitsIs_unique ht this
  · rintro rfl
    have hg := withVals_good h1 hc hs
    obtain ⟨c, h4, h5, h6, h7⟩ := exists_extension (alike_frToBitsV l n) hr h1
      (step_frToBitsV hp hg (lcAt_withVals h1 hl) hn) hg
    exact ⟨c.rho, h5, h6, h7.imp fun _ _ hb => hb.bitIs h4⟩

/-- C114: `g2_to_bits` as constraints: the bits are forced to be the digits of the two coordinates of
`x`, most significant first, and a sign bit that the sign gadget's relation allows; all of these are
allowed. -/
theorem C114_g2_to_bits (hp : p ≠ 2) {cs : ConstraintSystem p} (hc : cs.Closed)
    {v : Fp2V p × Fp2V p × Fp2V p} (hx0 : cs.Scoped v.1.c0) (hx1 : cs.Scoped v.1.c1)
    (hy0 : cs.Scoped v.2.1.c0) (hy1 : cs.Scoped v.2.1.c1)
    {r : List BoolV × ConstraintSystem p} (hr : g2ToBitsV v cs = .ok r)
    {σ : R1Var → ZMod p} (h1 : σ .one = 1) (hs : cs.Sat σ) (ts : List Bool) :
    (∃ ρ, cs.Agree σ ρ ∧ r.2.Sat ρ ∧ List.Forall₂ (fun b t => evalLc ρ (BoolV.lc b) = bit t) r.1 ts) ↔
      ∃ w : YBitWitness p, yToBitG2C (.var (evalLc σ v.2.1.c0)) (.var (evalLc σ v.2.1.c1)) w ∧
        ts = fieldBitsBe (bitLength p) (evalLc σ v.1.c0) ++ fieldBitsBe (bitLength p) (evalLc σ v.1.c1) ++
          [w.yBit] := by
  constructor
  · rintro ⟨ρ, hag, hsat, ht⟩
    obtain ⟨w, hw, hb⟩ := sound_g2ToBitsV (agree_one h1 hag) v cs r hr hsat
    rw [hag.evalLc hx0, hag.evalLc hx1] at hb
    rw [hag.evalLc hy0, hag.evalLc hy1] at hw
    exact ⟨w, hw, bitsIs_unique ht hb⟩
  · rintro ⟨w, hw, rfl⟩
    have hg := withVals_good h1 hc hs
    obtain ⟨c, h4, h5, h6, h7⟩ := exists_extension (alike_g2ToBitsAs w v) hr h1
      (step_g2ToBitsAs hp hg (lcAt_withVals h1 hx0) (lcAt_withVals h1 hx1) (lcAt_withVals h1 hy0)
        (lcAt_withVals h1 hy1) hw) hg
    exact ⟨c.rho, h5, h6, h7.imp fun _ _ hb => hb.bitIs h4⟩

/-! ### costs -/

theorem cost_mapM {α β : Type} {f : α → Synth p β} {n w : ℕ} {Q : β → Prop}
    (h : ∀ a, Cost (f a) n w Q) (l : List α) :
    Cost (Synth.mapM f l) (l.length * n) (l.length * w) fun _ => True := by
  induction l with
  | nil => intro cs r hr; cases hr; exact ⟨by simp, by simp, trivial⟩
  | cons a as ih =>
    exact (h a).bind (fun _ _ => ih.bind (fun _ _ => cost_pure trivial) rfl rfl)
      (by simp [Nat.succ_mul, Nat.add_comm]) (by simp [Nat.succ_mul, Nat.add_comm])

theorem cost_frToBitsV (x : LinComb p) (n : ℕ) :
    Cost (frToBitsV x n) (toBitsCost p).1 (toBitsCost p).2 fun _ => True := by
  refine (cost_toBitsLe x).bind (m := 0) (v := 0) (fun bits _ => ?_) rfl rfl
  intro cs r hr
  split at hr
  · cases hr
  · cases hr; exact ⟨rfl, rfl, trivial⟩

theorem cost_g2ToBitsV (v : Fp2V p × Fp2V p × Fp2V p) :
    Cost (g2ToBitsV v) (2 * (toBitsCost p).1 + (10 + 2 * (leHalfCost p).1))
      (2 * (toBitsCost p).2 + (8 + 2 * (leHalfCost p).2)) fun _ => True :=
  (cost_toBitsLe _).bind (fun _ _ => (cost_toBitsLe _).bind (fun _ _ => (cost_yToBitG2 _ _).bind
    (fun _ _ => cost_pure trivial) rfl rfl) rfl rfl) (by omega) (by omega)

/-- C114: `enforce_next_epoch` adds 4 constraints and 2 witnesses. -/
theorem C114_next_epoch_constraints {cs : ConstraintSystem p} {a b : LinComb p}
    {r : Unit × ConstraintSystem p} (hr : enforceNextEpoch a b cs = .ok r) :
    r.2.constraints.length = cs.constraints.length + 4 ∧ r.2.numWit = cs.numWit + 2 := by
  have : Cost (enforceNextEpoch a b) 4 2 fun _ => True :=
    (cost_isEqZero b).bind (fun _ _ => cost_enforce _ _ _) rfl rfl
  exact ⟨(this cs r hr).1, (this cs r hr).2.1⟩

end

/-! ### the data of an epoch -/

theorem cost_epochKey (pk : Option G2Point) : Cost (epochKey pk) 4008 3034 fun _ => True :=
  (cost_allocPointG2 _ _ _ _ _ _).bind (fun _ _ => (cost_g2ToBitsV _).bind (fun _ _ => cost_pure trivial)
    rfl rfl) (by simp only [toBitsCost_fq, leHalfCost_fq]) (by simp only [toBitsCost_fq, leHalfCost_fq])

/-- C114: the number of constraints and of witnesses of `EpochData::to_bits`, in a setup and in a proof,
whatever the data: 4985 and 3770, plus 4008 and 3034 for each key. -/
theorem C114_to_bits_constraints {cs : ConstraintSystem FQ_MODULUS} {d : EpochDataOpt}
    {r : EpochBitsV FQ_MODULUS × ConstraintSystem FQ_MODULUS} (hr : epochToBits d cs = .ok r) :
    r.2.constraints.length = cs.constraints.length + 4985 + 4008 * d.publicKeys.length ∧
    r.2.numWit = cs.numWit + 3770 + 3034 * d.publicKeys.length := by
  have : Cost (epochToBits d) (4985 + 4008 * d.publicKeys.length) (3770 + 3034 * d.publicKeys.length)
      fun _ => True :=
    (cost_fpWitness _).bind (fun _ _ => (cost_frToBitsV _ _).bind (fun _ _ =>
    (cost_fpWitness _).bind (fun _ _ => (cost_frToBitsV _ _).bind (fun _ _ =>
    (cost_fpWitness _).bind (fun _ _ => (cost_frToBitsV _ _).bind (fun _ _ =>
    (cost_fpWitness _).bind (fun _ _ => (cost_frToBitsV _ _).bind (fun _ _ =>
    (cost_fpWitness _).bind (fun _ _ => (cost_frToBitsV _ _).bind (fun _ _ =>
    (cost_mapM cost_epochKey _).bind (fun _ _ => cost_pure trivial) rfl rfl) rfl rfl) rfl rfl) rfl rfl)
      rfl rfl) rfl rfl) rfl rfl) rfl rfl) rfl rfl) rfl rfl)
      (by rw [toBitsCost_fq]; omega) (by rw [toBitsCost_fq]; omega)
  have h := this cs r hr
  exact ⟨by rw [h.1]; omega, by rw [h.2.1]; omega⟩

theorem EpochBitsV.Is.unique {ρ : R1Var → Fq} {v : EpochBitsV FQ_MODULUS} {o o' : EpochOut}
    (h : v.Is ρ o) (h' : v.Is ρ o') : o = o' := by
  obtain ⟨a1, a2, a3, a4, a5, a6, a7, a8, a9⟩ := h
  obtain ⟨b1, b2, b3, b4, b5, b6, b7, b8, b9⟩ := h'
  cases o
  cases o'
  congr 1
  · exact bitsIs_unique a1 b1
  · exact bitsIs_unique a2 b2
  · exact bitsIs_unique a3 b3
  · exact bitsIs_unique a4 b4
  · exact a5.symm.trans b5
  · exact a6.symm.trans b6
  · exact a7.symm.trans b7
  · exact a8.symm.trans b8
  · exact a9.symm.trans b9

/-- C114: `EpochData::to_bits` as constraints: whatever the values of the earlier variables, the results
can take exactly those values that five arbitrary field elements and, for each key, a triple meeting the
curve equation with an allowed sign bit give. -/
theorem C114_to_bits {cs : ConstraintSystem FQ_MODULUS} (hc : cs.Closed) {d : EpochDataOpt}
    {r : EpochBitsV FQ_MODULUS × ConstraintSystem FQ_MODULUS} (hr : epochToBits d cs = .ok r)
    {σ : R1Var → Fq} (h1 : σ .one = 1) (hs : cs.Sat σ) (o : EpochOut) :
    (∃ ρ, cs.Agree σ ρ ∧ r.2.Sat ρ ∧ r.1.Is ρ o) ↔
      ∃ w : EpochVars, w.keys.length = d.publicKeys.length ∧
        (∀ k ∈ w.keys, k.1.coords.OnCurve g2CoeffB ∧ g2ToBitsC k.1 k.2) ∧ o = w.out := by
  constructor
  · rintro ⟨ρ, hag, hsat, ho⟩
    obtain ⟨w, w1, w2, w3⟩ := sound_epochToBits (agree_one h1 hag) d cs r hr hsat
    exact ⟨w, w1, w2, ho.unique w3⟩
  · rintro ⟨w, w1, w2, rfl⟩
    have hg := withVals_good h1 hc hs
    obtain ⟨c, h4, h5, h6, h7⟩ := exists_extension (alike_epochToBitsAs w1.symm) hr h1
      (step_epochToBitsAs hg w2) hg
    exact ⟨c.rho, h5, h6, h7.is h4⟩

/-- C114: the run of the prover on the data of an epoch succeeds, the constraints are met if they were
before, and the results have the values of the circuit model (`C37`, `C38`) for this epoch. -/
theorem C114_to_bits_run {cs : ConstraintSystem FQ_MODULUS} (hg : cs.Good) (hset : cs.setup = false)
    (d : EpochData) :
    ∃ r, epochToBits d.toOpt cs = .ok r ∧ r.2.Sat r.2.rho ∧ r.1.Is r.2.rho (EpochVars.assign d).out := by
  obtain ⟨r, h1, h2, h3, h4⟩ := step_epochToBits hg d (o := d.toOpt) (fun _ => rfl) (fun _ => rfl) rfl rfl
    rfl (by
      simp only [EpochData.toOpt]
      generalize d.publicKeys = l
      induction l with
      | nil => exact .nil
      | cons _ _ ih => exact .cons (fun _ => rfl) ih)
  have hset' := h3.setup.trans hset
  exact ⟨r, h1, h2.sat hset', h4.is hset'⟩

/-- C114: the setup runs to the end on any data, also without index, round and keys. -/
theorem C114_to_bits_setup {cs : ConstraintSystem FQ_MODULUS} (hc : cs.Closed) (hset : cs.setup = true)
    (d : EpochDataOpt) : ∃ r, epochToBits d cs = .ok r := by
  obtain ⟨r, h1, _⟩ := step_epochToBits (setup_good hc hset)
    { index := 0, round := 0, maximumNonSigners := d.maximumNonSigners, epochEntropy := d.epochEntropy,
      parentEntropy := d.parentEntropy, publicKeys := d.publicKeys.map fun _ => 0 } (o := d)
    (fun h => by rw [hset] at h; cases h) (fun h => by rw [hset] at h; cases h) rfl rfl rfl (by
      generalize d.publicKeys = l
      induction l with
      | nil => exact .nil
      | cons _ _ ih => exact .cons (fun h => by rw [hset] at h; cases h) ih)
  exact ⟨r, h1⟩

/-- C114: the constraints of the setup on the empty epoch and those of the prover are the same, and so
are the results. -/
theorem C114_to_bits_shape {n m : ℕ} {d : EpochDataOpt} (hn : d.publicKeys.length = n)
    {r r' : EpochBitsV FQ_MODULUS × ConstraintSystem FQ_MODULUS}
    (hr : epochToBits (.empty n m) (.new FQ_MODULUS true) = .ok r)
    (hr' : epochToBits d (.new FQ_MODULUS false) = .ok r') :
    r.1 = r'.1 ∧ r.2.constraints = r'.2.constraints ∧ r.2.numInst = r'.2.numInst ∧
      r.2.numWit = r'.2.numWit := by
  obtain ⟨h1, h2, h3, h4⟩ := (alike_epochToBits (d := .empty n m) (d' := d)
    (by simp [EpochDataOpt.empty, hn])).sameShape hr hr'
  exact ⟨h1, h4, h2, h3⟩

theorem bind_err_left {α β : Type} {g : Synth FQ_MODULUS α} {f : α → Synth FQ_MODULUS β}
    {cs : ConstraintSystem FQ_MODULUS} {e : SynthErr} (h : g cs = .err e) : (g >>= f) cs = .err e := by
  rw [synth_bind_def, h]; rfl

theorem bind_err_right {α β : Type} {g : Synth FQ_MODULUS α} {f : α → Synth FQ_MODULUS β}
    {cs : ConstraintSystem FQ_MODULUS} {e : SynthErr} {Q : ConstraintSystem FQ_MODULUS → α → Prop}
    (hs : Step cs g Q) (h : ∀ c a, c.Good → c.setup = cs.setup → Q c a → f a c = .err e) :
    (g >>= f) cs = .err e := by
  obtain ⟨r, h1, h2, h3, h4⟩ := hs
  rw [synth_bind_def, h1]
  exact h r.2 r.1 h2 h3.setup h4

theorem newWitness_err {f : ConstraintSystem FQ_MODULUS → Outcome SynthErr Fq}
    {cs : ConstraintSystem FQ_MODULUS} (hset : cs.setup = false) {e : SynthErr} (h : f cs = .err e) :
    newWitness f cs = .err e := by
  unfold newWitness
  simp [hset, h]

theorem epochKeys_missing {cs : ConstraintSystem FQ_MODULUS} (hg : cs.Good) (hset : cs.setup = false)
    {l : List (Option G2Point)} (h : none ∈ l) :
    Synth.mapM epochKey l cs = .err .assignmentMissing := by
  induction l generalizing cs with
  | nil => cases h
  | cons k ks ih =>
    cases k with
    | none =>
      refine bind_err_left (bind_err_left (bind_err_left (bind_err_left (bind_err_left
        (newWitness_err hset ?_)))))
      rfl
    | some q =>
      refine bind_err_right (step_epochKey hg (fun _ => rfl) (ofPoint_onCurve q)) fun c a gc hc _ => ?_
      exact bind_err_left (ih gc (hc.trans hset) (by simpa using h))

/-- C114: a prover without the index, the round or one of the keys fails, with the error of a missing
assignment. -/
theorem C114_to_bits_missing {cs : ConstraintSystem FQ_MODULUS} (hg : cs.Good) (hset : cs.setup = false)
    {d : EpochDataOpt} (h : d.index = none ∨ d.round = none ∨ none ∈ d.publicKeys) :
    epochToBits d cs = .err .assignmentMissing := by
  have hb : ∀ {c : ConstraintSystem FQ_MODULUS}, c.Good → ∀ {l : LinComb FQ_MODULUS} {x : Fq},
      LcAt c l x → ∀ {n : ℕ}, n ≤ 377 → Step c (frToBitsV l n) fun _ _ => True := fun gc _ _ hl _ hn =>
    (step_frToBitsV fq_modulus_ne_two gc hl (by rw [bitLength_fq]; exact hn)).mono fun _ _ _ _ => trivial
  cases hi : d.index with
  | none =>
    refine bind_err_left (bind_err_left (newWitness_err hset ?_))
    rw [hi]; rfl
  | some i =>
    refine bind_err_right (step_fpWitness hg (x := ((i.toNat : ℕ) : Fq)) fun _ => by rw [hi]; rfl)
      fun c1 v1 g1 s1 a1 => ?_
    refine bind_err_right (hb g1 a1 (by omega)) fun c2 _ g2 s2 _ => ?_
    cases hr : d.round with
    | none =>
      refine bind_err_left (bind_err_left (newWitness_err (s2.trans (s1.trans hset)) ?_))
      rfl
    | some j =>
      have hk : none ∈ d.publicKeys := by simpa [hi, hr] using h
      refine bind_err_right (step_fpWitness g2 (x := ((j.toNat : ℕ) : Fq)) fun _ => rfl)
        fun c3 v3 g3 s3 a3 => ?_
      refine bind_err_right (hb g3 a3 (by omega)) fun c4 _ g4 s4 _ => ?_
      refine bind_err_right (step_fpWitness g4 (x := ((d.maximumNonSigners.toNat : ℕ) : Fq)) fun _ => rfl)
        fun c5 v5 g5 s5 a5 => ?_
      refine bind_err_right (hb g5 a5 (by omega)) fun c6 _ g6 s6 _ => ?_
      refine bind_err_right (step_fpWitness g6 (x := entropyToFr d.epochEntropy) fun _ => rfl)
        fun c7 v7 g7 s7 a7 => ?_
      refine bind_err_right (hb g7 a7 (by rw [entropy_bits]; omega)) fun c8 _ g8 s8 _ => ?_
      refine bind_err_right (step_fpWitness g8 (x := entropyToFr d.parentEntropy) fun _ => rfl)
        fun c9 v9 g9 s9 a9 => ?_
      refine bind_err_right (hb g9 a9 (by rw [entropy_bits]; omega)) fun c10 _ g10 s10 _ => ?_
      refine bind_err_left (epochKeys_missing g10 ?_ hk)
      rw [s10, s9, s8, s7, s6, s5, s4, s3, s2, s1, hset]

/-! ### concrete cases -/

theorem new_sat {p : ℕ} (s : Bool) (σ : R1Var → ZMod p) : (ConstraintSystem.new p s).Sat σ :=
  fun _ hk => absurd hk List.not_mem_nil

theorem scoped_const {p : ℕ} (cs : ConstraintSystem p) (a : ZMod p) : cs.Scoped [(a, .one)] := by
  intro t ht
  rw [List.mem_singleton.1 ht]
  trivial

/-- `C114_next_epoch`, `C114_next_epoch_run` and `C114_next_epoch_constraints`: after index 4 come 5 and
0, not 6. -/
example : ∃ r r' r'', enforceNextEpoch [((4 : ZMod 7), .one)] [(5, .one)] (.new 7 false) = .ok r ∧
    r.2.Sat r.2.rho ∧ r.2.constraints.length = 4 ∧
    enforceNextEpoch [((4 : ZMod 7), .one)] [(0, .one)] (.new 7 false) = .ok r' ∧ r'.2.Sat r'.2.rho ∧
    enforceNextEpoch [((4 : ZMod 7), .one)] [(6, .one)] (.new 7 false) = .ok r'' ∧
    ¬ r''.2.Sat r''.2.rho ∧
    ¬ ∃ ρ, (ConstraintSystem.new 7 false).Agree (fun _ => 1) ρ ∧ r''.2.Sat ρ := by
  have hv : ∀ (ρ : R1Var → ZMod 7) (a : ZMod 7), ρ .one = 1 → evalLc ρ [(a, .one)] = a := by
    intro ρ a h; simp [evalLc, h]
  have hn := fun b : LinComb 7 =>
    C114_next_epoch_run (new_good 7 false) rfl (scoped_const _ (4 : ZMod 7)) (b := b)
  obtain ⟨r, h1, h2⟩ := hn _ (scoped_const _ 5)
  obtain ⟨r', h1', h2'⟩ := hn _ (scoped_const _ 0)
  obtain ⟨r'', h1'', h2''⟩ := hn _ (scoped_const _ 6)
  rw [hv _ _ rfl, hv _ _ rfl] at h2 h2' h2''
  refine ⟨r, r', r'', h1, h2.2 (by decide), (C114_next_epoch_constraints h1).1, h1', h2'.2 (by decide),
    h1'', fun h => absurd (h2''.1 h) (by decide), fun h => ?_⟩
  have := (C114_next_epoch (new_closed 7 false) (scoped_const _ _) (scoped_const _ _) h1''
    (σ := fun _ => 1) rfl (new_sat _ _)).1 h
  rw [hv _ _ rfl, hv _ _ rfl] at this
  exact absurd this (by decide)

/-- `C114_fr_to_bits`: the two low bits of 6 modulo 7 are 0, 1 and nothing else. -/
example : ∃ r, frToBitsV [((6 : ZMod 7), .one)] 2 (.new 7 false) = .ok r ∧
    (∃ ρ, r.2.Sat ρ ∧
      List.Forall₂ (fun b t => evalLc ρ (BoolV.lc b) = bit t) r.1 [false, true]) ∧
    ¬ ∃ ρ, (ConstraintSystem.new 7 false).Agree (fun _ => 1) ρ ∧ r.2.Sat ρ ∧
      List.Forall₂ (fun b t => evalLc ρ (BoolV.lc b) = bit t) r.1 [true, true] := by
  obtain ⟨r, h1, _⟩ := step_frToBitsV (by decide) (new_good 7 false)
    (x := [((6 : ZMod 7), .one)]) ⟨scoped_const _ _, fun _ => rfl⟩ (n := 2) (by decide)
  have h := C114_fr_to_bits (by decide) (new_closed 7 false) (scoped_const _ (6 : ZMod 7)) h1
    (σ := fun _ => 1) rfl (new_sat _ _)
  refine ⟨r, h1, ?_, fun hc => ?_⟩
  · obtain ⟨ρ, _, h2, h3⟩ := (h [false, true]).2 (by decide)
    exact ⟨ρ, h2, h3⟩
  · exact absurd ((h [true, true]).1 hc) (by decide)

/-- `C114_g2_to_bits`: over 31, the point `x = (5, 1)`, `y = (2, 20)`. -/
example : ∃ r, g2ToBitsV (⟨[((5 : ZMod 31), .one)], [(1, .one)]⟩, ⟨[(2, .one)], [(20, .one)]⟩,
      ⟨[(1, .one)], []⟩) (.new 31 false) = .ok r ∧
    ∀ ts, (∃ ρ, (ConstraintSystem.new 31 false).Agree (fun _ => 1) ρ ∧ r.2.Sat ρ ∧
        List.Forall₂ (fun b t => evalLc ρ (BoolV.lc b) = bit t) r.1 ts) ↔
      ts = [false, false, true, false, true, false, false, false, false, true, true] := by
  obtain ⟨r, h1, _⟩ := step_g2ToBitsV (by decide) (new_good 31 false)
    (v := (⟨[((5 : ZMod 31), .one)], [(1, .one)]⟩, ⟨[(2, .one)], [(20, .one)]⟩, ⟨[(1, .one)], []⟩))
    ⟨scoped_const _ _, fun _ => rfl⟩ ⟨scoped_const _ _, fun _ => rfl⟩ ⟨scoped_const _ _, fun _ => rfl⟩
    ⟨scoped_const _ _, fun _ => rfl⟩
  refine ⟨r, h1, fun ts => ?_⟩
  rw [C114_g2_to_bits (by decide) (new_closed 31 false) (scoped_const _ _) (scoped_const _ _)
    (scoped_const _ _) (scoped_const _ _) h1 (σ := fun _ => 1) rfl (new_sat _ _)]
  have e5 : evalLc (fun _ => 1) [((5 : ZMod 31), .one)] = 5 := by simp [evalLc]
  have e1 : evalLc (fun _ => 1) [((1 : ZMod 31), .one)] = 1 := by simp [evalLc]
  have e2 : evalLc (fun _ => 1) [((2 : ZMod 31), .one)] = 2 := by simp [evalLc]
  have e20 : evalLc (fun _ => 1) [((20 : ZMod 31), .one)] = 20 := by simp [evalLc]
  rw [e5, e1, e2, e20]
  constructor
  · rintro ⟨w, hw, rfl⟩
    rw [C37_sound (by norm_num) _ _ w (by decide) (by decide) hw]
    decide
  · rintro rfl
    obtain ⟨h2, h3⟩ := C37_complete (p := 31) (by norm_num) (.var 2) (.var 20)
    refine ⟨_, h2, ?_⟩
    rw [h3]
    decide

/-- Epoch 5 with the generator as the only key. -/
noncomputable def epochFive : EpochData where
  maximumNonSigners := 0
  index := 5
  round := 1
  epochEntropy := some [7]
  parentEntropy := none
  publicKeys := [g2Generator]

/-- `C114_to_bits_setup`, `C114_to_bits_run`, `C114_to_bits_shape`, `C114_to_bits_constraints` and
`C114_to_bits_missing`: the setup on the empty epoch and the prover's run on an epoch with one key agree;
there are 8993 constraints; the prover cannot use the empty epoch. -/
example : ∃ r r', epochToBits (.empty 1 0) (.new FQ_MODULUS true) = .ok r ∧
    epochToBits epochFive.toOpt (.new FQ_MODULUS false) = .ok r' ∧
    r.2.constraints = r'.2.constraints ∧ r.2.constraints.length = 8993 ∧ r'.2.Sat r'.2.rho ∧
    evalLc r'.2.rho r'.1.index = 5 ∧
    epochToBits (.empty 1 0) (.new FQ_MODULUS false) = .err .assignmentMissing := by
  obtain ⟨r, h1⟩ := C114_to_bits_setup (new_closed FQ_MODULUS true) rfl (.empty 1 0)
  obtain ⟨r', h2, h3, h4⟩ := C114_to_bits_run (new_good FQ_MODULUS false) rfl epochFive
  have hl := (C114_to_bits_constraints h1).1
  simp only [EpochDataOpt.empty, List.length_replicate, ConstraintSystem.new, List.length_nil] at hl
  have hi := h4.index
  simp only [EpochVars.out, EpochVars.assign, epochFive] at hi
  have hsh := (C114_to_bits_shape (n := 1) (d := epochFive.toOpt) (by simp [EpochData.toOpt, epochFive])
    h1 h2).2.1
  have hm := C114_to_bits_missing (new_good FQ_MODULUS false) rfl (d := .empty 1 0)
    (Or.inl (by simp [EpochDataOpt.empty]))
  refine ⟨r, r', h1, h2, hsh, hl, h3, hi.trans ?_, hm⟩
  rw [show (UInt16.toNat 5 : ℕ) = 5 from rfl]
  norm_num

/-- `C114_to_bits` used to deceive: the constraints for one key can be met with index `5 + 2 ^ 16`, whose
bits are those of 5, and with the triple of zeros as key. -/
example {r : EpochBitsV FQ_MODULUS × ConstraintSystem FQ_MODULUS}
    (hr : epochToBits (.empty 1 0) (.new FQ_MODULUS true) = .ok r) :
    ∃ ρ o, r.2.Sat ρ ∧ r.1.Is ρ o ∧ o.index = 65541 ∧ o.extraDataBits.take 16 = frToBits 5 16 ∧
      o.pubkeys = [⟨0, 0, 0⟩] := by
  obtain ⟨ρ, _, h1, h2⟩ := (C114_to_bits (new_closed FQ_MODULUS true) hr (σ := fun _ => 1) rfl
    (new_sat _ _) (EpochVars.out ⟨((5 + 2 ^ 16 * 1 : ℕ) : Fq), 0, 0, 0, 0,
      [(⟨0, 0, 0⟩, keyWitness ⟨0, 0, 0⟩)]⟩)).2 ⟨_, rfl, by
      intro k hk
      rw [List.mem_singleton.1 hk]
      exact ⟨by simp [ProjVar.OnCurve, G2Var.coords], keyWitness_c _⟩, rfl⟩
  refine ⟨ρ, _, h1, h2, by unfold EpochVars.out; norm_num, ?_, rfl⟩
  have h3 := (C41_violation 16 (by norm_num) 5 1 (by norm_num) (by norm_num) (by decide +kernel)).1
  unfold EpochVars.out EpochVars.extraDataBits
  dsimp only
  rw [h3, List.append_assoc, List.take_left' (by decide +kernel)]
  norm_num

end Verif
