import Verif.Lemmas.SynthesisPoint

/-! Helper lemmas: the number of constraints and witnesses the gadgets emit. -/

set_option linter.unusedSectionVars false

namespace Verif

section

variable {p : ℕ}

/-- Every successful run emits `n` constraints and `w` witnesses, and its result satisfies `Q`. -/
def Cost {α : Type} (g : Synth p α) (n w : ℕ) (Q : α → Prop) : Prop :=
  ∀ cs r, g cs = .ok r → r.2.constraints.length = cs.constraints.length + n ∧
    r.2.numWit = cs.numWit + w ∧ Q r.1

theorem Cost.bind {α β : Type} {g : Synth p α} {f : α → Synth p β} {n m w v k l : ℕ} {Q : α → Prop}
    {R : β → Prop} (hg : Cost g n w Q) (hf : ∀ x, Q x → Cost (f x) m v R) (hk : n + m = k)
    (hl : w + v = l) : Cost (g >>= f) k l R := by
  intro cs r h
  rw [synth_bind_ok] at h
  obtain ⟨s, h1, h2⟩ := h
  obtain ⟨a1, a2, a3⟩ := hg cs s h1
  obtain ⟨b1, b2, b3⟩ := hf s.1 a3 s.2 r h2
  exact ⟨by omega, by omega, b3⟩

theorem Cost.mono {α : Type} {g : Synth p α} {n w : ℕ} {Q R : α → Prop} (h : Cost g n w Q)
    (hq : ∀ x, Q x → R x) : Cost g n w R := fun cs r hr => by
  obtain ⟨a, b, c⟩ := h cs r hr
  exact ⟨a, b, hq _ c⟩

theorem cost_pure {α : Type} {x : α} {Q : α → Prop} (h : Q x) :
    Cost (p := p) (Synth.pure x) 0 0 Q := by
  intro cs r hr
  cases hr
  exact ⟨rfl, rfl, h⟩

theorem cost_newWitness (f : ConstraintSystem p → Outcome SynthErr (ZMod p)) :
    Cost (newWitness f) 0 1 fun _ => True := by
  intro cs r hr
  obtain ⟨_, _, a3, _, a5⟩ := newWitness_ok hr
  exact ⟨by rw [a5]; rfl, a3, trivial⟩

theorem cost_enforce (a b c : LinComb p) : Cost (enforce a b c) 1 0 fun _ => True := by
  intro cs r hr
  cases hr
  exact ⟨by simp, rfl, trivial⟩

theorem cost_boolWitness (f : ConstraintSystem p → Outcome SynthErr Bool) :
    Cost (boolWitness f) 1 1 fun b => b.isVar = true :=
  (cost_newWitness _).bind (fun _ _ => (cost_enforce _ _ _).bind
    (fun _ _ => cost_pure rfl) rfl rfl) rfl rfl

theorem cost_boolAnd {a b : BoolV} (ha : a.isVar = true) (hb : b.isVar = true) :
    Cost (p := p) (boolAnd a b) 1 1 fun r => r.isVar = true := by
  cases a with
  | constant c => simp [BoolV.isVar] at ha
  | is v => cases b with
    | constant c => simp [BoolV.isVar] at hb
    | is w => exact (cost_newWitness _).bind (fun _ _ => (cost_enforce _ _ _).bind
        (fun _ _ => cost_pure rfl) rfl rfl) rfl rfl
    | not w => exact (cost_newWitness _).bind (fun _ _ => (cost_enforce _ _ _).bind
        (fun _ _ => cost_pure rfl) rfl rfl) rfl rfl
  | not v => cases b with
    | constant c => simp [BoolV.isVar] at hb
    | is w => exact (cost_newWitness _).bind (fun _ _ => (cost_enforce _ _ _).bind
        (fun _ _ => cost_pure rfl) rfl rfl) rfl rfl
    | not w => exact (cost_newWitness _).bind (fun _ _ => (cost_enforce _ _ _).bind
        (fun _ _ => cost_pure rfl) rfl rfl) rfl rfl

theorem cost_boolAnd_true {a : BoolV} (ha : a.isVar = true) :
    Cost (p := p) (boolAnd a (.constant true)) 0 0 fun r => r.isVar = true := by
  cases a with
  | constant c => simp [BoolV.isVar] at ha
  | is v => exact cost_pure ha
  | not v => exact cost_pure ha

theorem isVar_neg {a : BoolV} (ha : a.isVar = true) : a.neg.isVar = true := by
  cases a <;> simp_all [BoolV.isVar, BoolV.neg]

theorem cost_boolOr {a b : BoolV} (ha : a.isVar = true) (hb : b.isVar = true) :
    Cost (p := p) (boolOr a b) 1 1 fun r => r.isVar = true := by
  have key : Cost (p := p) (do let r ← boolAnd a.neg b.neg; Synth.pure r.neg) 1 1
      fun r => r.isVar = true :=
    (cost_boolAnd (isVar_neg ha) (isVar_neg hb)).bind (fun _ h => cost_pure (isVar_neg h)) rfl rfl
  cases a with
  | constant c => simp [BoolV.isVar] at ha
  | is v => cases b with
    | constant c => simp [BoolV.isVar] at hb
    | is w => exact key
    | not w => exact key
  | not v => cases b with
    | constant c => simp [BoolV.isVar] at hb
    | is w => exact key
    | not w => exact key

/-- A bit that is true or allocated: what `lastRun` is in the comparison. -/
def LastIs (last : BoolV) (lastVar : Bool) : Prop :=
  if lastVar then last.isVar = true else last = .constant true

theorem cost_karyAnd {l : List BoolV} {last : BoolV} {lastVar : Bool} (hl : ∀ b ∈ l, b.isVar = true)
    (h : LastIs last lastVar) {a : BoolV} (ha : a.isVar = true) :
    Cost (p := p) (karyAnd a (l ++ [last])) (l.length + lastVar.toNat) (l.length + lastVar.toNat)
      fun r => r.isVar = true := by
  induction l generalizing a with
  | nil =>
    cases lastVar with
    | true =>
      exact (cost_boolAnd ha h).bind (fun _ hx => cost_pure hx) rfl rfl
    | false =>
      have h' : last = .constant true := h
      subst h'
      exact (cost_boolAnd_true ha).bind (fun _ hx => cost_pure hx) rfl rfl
  | cons b bs ih =>
    refine (cost_boolAnd ha (hl b List.mem_cons_self)).bind
      (fun r hr => ih (fun c hc => hl c (List.mem_cons_of_mem _ hc)) hr) ?_ ?_ <;>
    · rw [List.length_cons]; omega

theorem cost_enforceNand {last a : BoolV} {lastVar : Bool} (h : LastIs last lastVar)
    (ha : a.isVar = true) :
    Cost (p := p) (enforceNand last a) (lastVar.toNat + 1) lastVar.toNat fun _ => True := by
  have htail : ∀ r : BoolV, r.isVar = true → Cost (p := p)
      (match r with
        | .constant true => Synth.fail .assignmentMissing
        | .constant false => Synth.pure ()
        | r => enforce r.lc (lcVar .one) []) 1 0 fun _ => True := by
    intro r hr
    cases r with
    | constant c => simp [BoolV.isVar] at hr
    | is v => exact cost_enforce _ _ _
    | not v => exact cost_enforce _ _ _
  cases lastVar with
  | true => exact (cost_boolAnd h ha).bind htail rfl rfl
  | false =>
    have h' : last = .constant true := h
    subst h'
    have : Cost (p := p) (boolAnd (.constant true) a) 0 0 fun r => r.isVar = true := cost_pure ha
    exact this.bind htail rfl rfl

/-- Constraints and witnesses of the loop of the comparison, from the bits of the bound, whether
`lastRun` is a variable, and the length of `currentRun`. -/
def loopCost : List Bool → Bool → ℕ → ℕ × ℕ
  | [], _, _ => (0, 0)
  | true :: rest, lastVar, run => loopCost rest lastVar (run + 1)
  | false :: rest, lastVar, 0 =>
    let c := loopCost rest lastVar 0
    (lastVar.toNat + 1 + c.1, lastVar.toNat + c.2)
  | false :: rest, lastVar, k + 1 =>
    let c := loopCost rest true 0
    (k + lastVar.toNat + (2 + c.1), k + lastVar.toNat + (1 + c.2))

theorem cost_smallerLoop (l : List (Bool × BoolV)) (last : BoolV) (lastVar : Bool) (run : List BoolV)
    (hl : ∀ q ∈ l, q.2.isVar = true) (h : LastIs last lastVar) (hr : ∀ b ∈ run, b.isVar = true) :
    Cost (p := p) (smallerLoop l last run) (loopCost (l.map Prod.fst) lastVar run.length).1
      (loopCost (l.map Prod.fst) lastVar run.length).2 fun _ => True := by
  induction l generalizing last lastVar run with
  | nil => rw [smallerLoop]; exact cost_pure trivial
  | cons q qs ih =>
    obtain ⟨e, a⟩ := q
    have ha : a.isVar = true := hl (e, a) List.mem_cons_self
    have hqs : ∀ q ∈ qs, q.2.isVar = true := fun q hq => hl q (List.mem_cons_of_mem _ hq)
    cases e with
    | true =>
      rw [smallerLoop]
      have := ih last lastVar (run ++ [a]) hqs h (fun b hb => by
        rcases List.mem_append.1 hb with hb | hb
        · exact hr b hb
        · rw [List.mem_singleton] at hb; subst hb; exact ha)
      rw [List.length_append] at this
      exact this
    | false =>
      cases run with
      | nil =>
        rw [smallerLoop]
        exact (cost_enforceNand h ha).bind (fun _ _ => ih last lastVar [] hqs h (by simp)) rfl rfl
      | cons c cs =>
        rw [smallerLoop]
        refine (cost_karyAnd (fun b hb => hr b (List.mem_cons_of_mem _ hb)) h
          (hr c List.mem_cons_self)).bind (fun r hr' => ?_) rfl rfl
        have h' : LastIs r true := hr'
        exact (cost_enforceNand h' ha).bind (fun _ _ => ih r true [] hqs h' (by simp)) rfl rfl

theorem cost_orAll {l : List BoolV} (hl : ∀ b ∈ l, b.isVar = true) {a : BoolV}
    (ha : a.isVar = true) : Cost (p := p) (orAll a l) l.length l.length fun r => r.isVar = true := by
  induction l generalizing a with
  | nil => exact cost_pure ha
  | cons b bs ih =>
    exact (cost_boolOr ha (hl b List.mem_cons_self)).bind
      (fun r hr => ih (fun c hc => hl c (List.mem_cons_of_mem _ hc)) hr)
      (by rw [List.length_cons]; omega) (by rw [List.length_cons]; omega)

theorem cost_boolEnforceEqual {a b : BoolV} (ha : a.isVar = true) :
    Cost (p := p) (boolEnforceEqual a b) 1 0 fun _ => True := by
  cases a with
  | constant c => simp [BoolV.isVar] at ha
  | is v => cases b <;> exact cost_enforce _ _ _
  | not v => cases b <;> exact cost_enforce _ _ _

theorem zip_map_fst {α β : Type} {l : List α} {m : List β} (h : l.length = m.length) :
    (l.zip m).map Prod.fst = l := by
  induction l generalizing m with
  | nil => rfl
  | cons a as ih => cases m with
    | nil => simp at h
    | cons b bs => simp [ih (m := bs) (by simpa using h)]

theorem natBitsBe_length' (n : ℕ) : (natBitsBe n).length = bitLength n := by simp [natBitsBe]

theorem cost_enforceSmallerOrEqualLe {bits : List BoolV} (hb : ∀ b ∈ bits, b.isVar = true)
    {bound : ℕ} (hlen : bitLength bound ≤ bits.length) :
    Cost (p := p) (enforceSmallerOrEqualLe bits bound)
      (bits.length - bitLength bound + (loopCost (natBitsBe bound) false 0).1)
      (bits.length - bitLength bound - 1 + (loopCost (natBitsBe bound) false 0).2) fun _ => True := by
  have core : ∀ bs : List BoolV, (∀ b ∈ bs, b.isVar = true) → bs.length = bitLength bound →
      Cost (p := p) (smallerLoop ((natBitsBe bound).zip bs) (.constant true) [])
        (loopCost (natBitsBe bound) false 0).1 (loopCost (natBitsBe bound) false 0).2
        fun _ => True := by
    intro bs hbs hl
    have := cost_smallerLoop (p := p) ((natBitsBe bound).zip bs) (.constant true) false []
      (fun q hq => hbs _ (List.of_mem_zip hq).2) rfl (by simp)
    rw [zip_map_fst (by rw [natBitsBe_length', hl])] at this
    exact this
  unfold enforceSmallerOrEqualLe
  dsimp only
  by_cases h : bitLength bound < bits.length
  · rw [if_pos h]
    have hor : Cost (p := p) (orAll (.constant false) (bits.drop (bitLength bound)))
        (bits.length - bitLength bound - 1) (bits.length - bitLength bound - 1)
        fun r => r.isVar = true := by
      have hd : ∀ b ∈ bits.drop (bitLength bound), b.isVar = true := fun b hb' =>
        hb b (List.mem_of_mem_drop hb')
      have hl : (bits.drop (bitLength bound)).length = bits.length - bitLength bound :=
        List.length_drop
      cases hdd : bits.drop (bitLength bound) with
      | nil => rw [hdd] at hl; simp at hl; omega
      | cons c cs =>
        rw [hdd] at hl hd
        have : Cost (p := p) (boolOr (.constant false) c) 0 0 fun r => r.isVar = true :=
          cost_pure (hd c List.mem_cons_self)
        rw [List.length_cons] at hl
        refine this.bind (fun r hr => cost_orAll
          (fun b hb' => hd b (List.mem_cons_of_mem _ hb')) hr) ?_ ?_ <;> omega
    refine hor.bind (fun r hr => (cost_boolEnforceEqual hr).bind (fun _ _ => core _ ?_ ?_) rfl rfl)
      (by omega) (by omega)
    · intro b hb'
      exact hb b (List.mem_of_mem_take (List.mem_reverse.1 hb'))
    · rw [List.length_reverse, List.length_take]; omega
  · rw [if_neg h]
    have he : bits.length = bitLength bound := by omega
    have := core bits.reverse (fun b hb' => hb b (List.mem_reverse.1 hb'))
      (by rw [List.length_reverse, he])
    rw [he, Nat.sub_self, Nat.zero_sub, Nat.zero_add, Nat.zero_add]
    exact this

theorem cost_bits {γ : Type} (f : γ → ConstraintSystem p → Outcome SynthErr Bool) (l : List γ) :
    Cost (p := p) (Synth.mapM (fun i => boolWitness (f i)) l) l.length l.length fun bits =>
      bits.length = l.length ∧ ∀ b ∈ bits, b.isVar = true := by
  induction l with
  | nil => exact cost_pure (by simp)
  | cons i is ih =>
    refine (cost_boolWitness _).bind (fun b hb => ih.bind (fun bs hbs => cost_pure ?_) rfl rfl)
      (by rw [List.length_cons]; omega) (by rw [List.length_cons]; omega)
    refine ⟨by simp [hbs.1], fun c hc => ?_⟩
    rcases List.mem_cons.1 hc with rfl | hc
    · exact hb
    · exact hbs.2 c hc

theorem cost_toNonUniqueBitsLe (x : LinComb p) :
    Cost (toNonUniqueBitsLe x) (bitLength p + 1) (bitLength p) fun bits =>
      bits.length = bitLength p ∧ ∀ b ∈ bits, b.isVar = true := by
  have := cost_bits (fun i cs => (lcValue x cs).map fun v => v.val.testBit i)
    (List.range (bitLength p))
  rw [List.length_range] at this
  exact this.bind (fun bits hb => (cost_enforce _ _ _).bind (fun _ _ => cost_pure hb) rfl rfl) rfl rfl

/-- Constraints and witnesses of `enforce_smaller_or_equal_than_mod_minus_one_div_two`. -/
def leHalfCost (p : ℕ) : ℕ × ℕ :=
  (bitLength p + 1 + (bitLength p - bitLength (halfOf p) +
      (loopCost (natBitsBe (halfOf p)) false 0).1),
    bitLength p + (bitLength p - bitLength (halfOf p) - 1 +
      (loopCost (natBitsBe (halfOf p)) false 0).2))

theorem cost_enforceLeHalf (x : LinComb p) :
    Cost (enforceLeHalf x) (leHalfCost p).1 (leHalfCost p).2 fun _ => True := by
  refine (cost_toNonUniqueBitsLe x).bind (fun bits hb => ?_) rfl rfl
  have hle : bitLength (halfOf p) ≤ bits.length := by
    rw [hb.1]; exact bitLength_mono (by unfold halfOf; omega)
  have := cost_enforceSmallerOrEqualLe (p := p) hb.2 hle
  rw [hb.1] at this
  exact this.bind (fun _ _ => cost_pure trivial) rfl rfl

theorem cost_normalize (l : LinComb p) :
    Cost (normalize (.var l)) (2 + (leHalfCost p).1) (2 + (leHalfCost p).2)
      fun b => b.isVar = true :=
  (cost_boolWitness _).bind (fun _ hb => (cost_newWitness _).bind (fun _ _ =>
    (cost_enforce _ _ _).bind (fun _ _ => (cost_enforceLeHalf _).bind (fun _ _ =>
      cost_pure hb) rfl rfl) rfl rfl) rfl rfl) (by omega) (by omega)

theorem cost_isEqZero (l : LinComb p) :
    Cost (isEqZero (.var l)) 3 2 fun b => b.isVar = true :=
  (cost_boolWitness _).bind (fun _ hb => (cost_newWitness _).bind (fun _ _ =>
    (cost_enforce _ _ _).bind (fun _ _ => (cost_enforce _ _ _).bind (fun _ _ =>
      cost_pure hb) rfl rfl) rfl rfl) rfl rfl) rfl rfl

theorem cost_yToBitG2 (c0 c1 : LinComb p) :
    Cost (yToBitG2 (.var c0) (.var c1)) (10 + 2 * (leHalfCost p).1) (8 + 2 * (leHalfCost p).2)
      fun _ => True :=
  (cost_boolWitness _).bind (fun _ _ => (cost_normalize _).bind (fun _ h0 => (cost_normalize _).bind
    (fun _ _ => (cost_isEqZero _).bind (fun _ he => (cost_boolAnd he h0).bind (fun _ _ =>
      (cost_enforce _ _ _).bind (fun _ _ => cost_pure trivial) rfl rfl) rfl rfl) rfl rfl) rfl rfl) rfl rfl)
    (by omega) (by omega)

theorem cost_fpMul (x y : LinComb p) : Cost (fpMul x y) 1 1 fun _ => True :=
  (cost_newWitness _).bind (fun _ _ => (cost_enforce _ _ _).bind (fun _ _ => cost_pure trivial)
    rfl rfl) rfl rfl

theorem cost_fpWitness (f : ConstraintSystem p → Outcome SynthErr (ZMod p)) :
    Cost (fpWitness f) 0 1 fun _ => True :=
  (cost_newWitness _).bind (fun _ _ => cost_pure trivial) rfl rfl

theorem cost_fp2Witness (f : ConstraintSystem p → Outcome SynthErr (ZMod p × ZMod p)) :
    Cost (fp2Witness f) 0 2 fun _ => True :=
  (cost_fpWitness _).bind (fun _ _ => (cost_fpWitness _).bind (fun _ _ => cost_pure trivial)
    rfl rfl) rfl rfl

theorem cost_fp2Mul (nr : ZMod p) (x y : Fp2V p) : Cost (fp2Mul nr x y) 3 3 fun _ => True :=
  (cost_fpMul _ _).bind (fun _ _ => (cost_fpMul _ _).bind (fun _ _ => (cost_fpMul _ _).bind
    (fun _ _ => cost_pure trivial) rfl rfl) rfl rfl) rfl rfl

theorem cost_fp2Square (nr : ZMod p) (x : Fp2V p) : Cost (fp2Square nr x) 2 2 fun _ => True :=
  (cost_fpMul _ _).bind (fun _ _ => (cost_fpMul _ _).bind
    (fun _ _ => cost_pure trivial) rfl rfl) rfl rfl

theorem cost_fp2MulEquals (nr : ZMod p) (x y z : Fp2V p) :
    Cost (fp2MulEquals nr x y z) 3 1 fun _ => True :=
  (cost_fpMul _ _).bind (fun _ _ => (cost_enforce _ _ _).bind
    (fun _ _ => cost_enforce _ _ _) rfl rfl) rfl rfl

theorem cost_allocPointG1 (b : ZMod p) (x y z : ConstraintSystem p → Outcome SynthErr (ZMod p)) :
    Cost (allocPointG1 b x y z) 5 7 fun _ => True :=
  (cost_fpWitness _).bind (fun _ _ => (cost_fpWitness _).bind (fun _ _ => (cost_fpWitness _).bind
    (fun _ _ => (cost_fpMul _ _).bind (fun _ _ => (cost_fpMul _ _).bind (fun _ _ =>
      (cost_fpMul _ _).bind (fun _ _ => (cost_fpMul _ _).bind (fun _ _ => (cost_enforce _ _ _).bind
        (fun _ _ => cost_pure trivial) rfl rfl) rfl rfl) rfl rfl) rfl rfl) rfl rfl) rfl rfl) rfl rfl)
    rfl rfl

theorem cost_allocPointG2 (nr b0 b1 : ZMod p)
    (x y z : ConstraintSystem p → Outcome SynthErr (ZMod p × ZMod p)) :
    Cost (allocPointG2 nr b0 b1 x y z) 12 16 fun _ => True :=
  (cost_fp2Witness _).bind (fun _ _ => (cost_fp2Witness _).bind (fun _ _ => (cost_fp2Witness _).bind
    (fun _ _ => (cost_fp2Square _ _).bind (fun _ _ => (cost_fp2Square _ _).bind (fun _ _ =>
      (cost_fp2Square _ _).bind (fun _ _ => (cost_fp2Mul _ _ _).bind (fun _ _ =>
        (cost_fp2MulEquals _ _ _ _).bind
        (fun _ _ => cost_pure trivial) rfl rfl) rfl rfl) rfl rfl) rfl rfl) rfl rfl) rfl rfl) rfl rfl)
    rfl rfl

theorem cost_yToBitG1Circuit (b : ZMod p) (pt : ZMod p × ZMod p × ZMod p) :
    Cost (yToBitG1Circuit b pt) (7 + (leHalfCost p).1) (9 + (leHalfCost p).2) fun _ => True :=
  (cost_allocPointG1 _ _ _ _).bind (fun _ _ => (cost_normalize _).mono fun _ _ => trivial)
    (by omega) (by omega)

theorem cost_yToBitG2Circuit (nr b0 b1 : ZMod p)
    (pt : (ZMod p × ZMod p) × (ZMod p × ZMod p) × (ZMod p × ZMod p)) :
    Cost (yToBitG2Circuit nr b0 b1 pt) (22 + 2 * (leHalfCost p).1) (24 + 2 * (leHalfCost p).2)
      fun _ => True :=
  (cost_allocPointG2 _ _ _ _ _ _).bind (fun _ _ => cost_yToBitG2 _ _) (by omega) (by omega)

end

theorem leHalfCost_fq : leHalfCost FQ_MODULUS = (996, 752) := by decide +kernel

end Verif
