import Verif.Model.Synthesis
import Verif.Lemmas.HashGadget
import Verif.Lemmas.Gadgets

/-! Helper lemmas about the synthesis of gadgets into rank-1 constraints. -/

set_option linter.unusedSectionVars false

namespace Verif

section

variable {p : ℕ}

/-! ### linear combinations -/

@[simp] theorem evalLc_nil (ρ : R1Var → ZMod p) : evalLc ρ [] = 0 := rfl

@[simp] theorem evalLc_append (ρ : R1Var → ZMod p) (l m : LinComb p) :
    evalLc ρ (l ++ m) = evalLc ρ l + evalLc ρ m := by simp [evalLc]

@[simp] theorem evalLc_lcVar (ρ : R1Var → ZMod p) (v : R1Var) : evalLc ρ (lcVar v) = ρ v := by
  simp [evalLc, lcVar]

@[simp] theorem evalLc_lcScale (ρ : R1Var → ZMod p) (k : ZMod p) (l : LinComb p) :
    evalLc ρ (lcScale k l) = k * evalLc ρ l := by
  induction l with
  | nil => simp [evalLc, lcScale]
  | cons t ts ih =>
    simp only [evalLc, lcScale, List.map_cons, List.sum_cons, List.map_map] at ih ⊢
    rw [ih]; ring

@[simp] theorem evalLc_lcSub (ρ : R1Var → ZMod p) (l m : LinComb p) :
    evalLc ρ (lcSub l m) = evalLc ρ l - evalLc ρ m := by
  rw [lcSub, evalLc_append, evalLc_lcScale]; ring

/-! ### programs -/

theorem synth_bind_def {α β : Type} (g : Synth p α) (f : α → Synth p β) (cs : ConstraintSystem p) :
    (g >>= f) cs = (g cs).bind fun r => f r.1 r.2 := rfl

theorem synth_bind_ok {α β : Type} {g : Synth p α} {f : α → Synth p β} {cs : ConstraintSystem p}
    {r : β × ConstraintSystem p} :
    (g >>= f) cs = .ok r ↔ ∃ s, g cs = .ok s ∧ f s.1 s.2 = .ok r := by
  rw [synth_bind_def, Outcome.bind_eq_ok_iff]

/-- Two programs that, from systems with as many variables, allocate the same variables, return the
same result and emit the same constraints, in whatever modes they run. -/
def Alike {α : Type} (g g' : Synth p α) : Prop :=
  ∀ c c' r r', c.numInst = c'.numInst → c.numWit = c'.numWit → g c = .ok r → g' c' = .ok r' →
    r.1 = r'.1 ∧ r.2.numInst = r'.2.numInst ∧ r.2.numWit = r'.2.numWit ∧
    r.2.setup = c.setup ∧ r'.2.setup = c'.setup ∧
    ∃ new, r.2.constraints = c.constraints ++ new ∧ r'.2.constraints = c'.constraints ++ new

theorem Alike.bind {α β : Type} {g g' : Synth p α} {f f' : α → Synth p β} (h : Alike g g')
    (hf : ∀ x, Alike (f x) (f' x)) : Alike (g >>= f) (g' >>= f') := by
  intro c c' r r' h1 h2 h3 h4
  rw [synth_bind_ok] at h3 h4
  obtain ⟨s, hs, hr⟩ := h3
  obtain ⟨s', hs', hr'⟩ := h4
  obtain ⟨e1, e2, e3, e4, e5, new, e6, e7⟩ := h c c' s s' h1 h2 hs hs'
  rw [← e1] at hr'
  obtain ⟨k1, k2, k3, k4, k5, new', k6, k7⟩ := hf s.1 s.2 s'.2 r r' e2 e3 hr hr'
  refine ⟨k1, k2, k3, k4.trans e4, k5.trans e5, new ++ new', ?_, ?_⟩
  · rw [k6, e6, List.append_assoc]
  · rw [k7, e7, List.append_assoc]

theorem alike_pure {α : Type} (x : α) : Alike (p := p) (Synth.pure x) (Synth.pure x) := by
  intro c c' r r' h1 h2 h3 h4
  cases h3; cases h4
  exact ⟨rfl, h1, h2, rfl, rfl, [], by simp, by simp⟩

theorem alike_err {α : Type} (e : SynthErr) (g : Synth p α) :
    Alike (Synth.fail e) g := by
  intro c c' r r' _ _ h3; cases h3

theorem alike_panic {α : Type} (g : Synth p α) : Alike Synth.panic g := by
  intro c c' r r' _ _ h3; cases h3

theorem newWitness_ok {f : ConstraintSystem p → Outcome SynthErr (ZMod p)} {c : ConstraintSystem p}
    {r : R1Var × ConstraintSystem p} (h : newWitness f c = .ok r) :
    r.1 = .wit c.numWit ∧ r.2.numInst = c.numInst ∧ r.2.numWit = c.numWit + 1 ∧
      r.2.setup = c.setup ∧ r.2.constraints = c.constraints := by
  unfold newWitness at h
  split at h
  · cases h; exact ⟨rfl, rfl, rfl, rfl, rfl⟩
  · rw [Outcome.map_eq_ok_iff] at h
    obtain ⟨v, _, rfl⟩ := h
    exact ⟨rfl, rfl, rfl, rfl, rfl⟩

theorem newInput_ok {f : ConstraintSystem p → Outcome SynthErr (ZMod p)} {c : ConstraintSystem p}
    {r : R1Var × ConstraintSystem p} (h : newInput f c = .ok r) :
    r.1 = .inst c.numInst ∧ r.2.numInst = c.numInst + 1 ∧ r.2.numWit = c.numWit ∧
      r.2.setup = c.setup ∧ r.2.constraints = c.constraints := by
  unfold newInput at h
  split at h
  · cases h; exact ⟨rfl, rfl, rfl, rfl, rfl⟩
  · rw [Outcome.map_eq_ok_iff] at h
    obtain ⟨v, _, rfl⟩ := h
    exact ⟨rfl, rfl, rfl, rfl, rfl⟩

theorem alike_newWitness (f f' : ConstraintSystem p → Outcome SynthErr (ZMod p)) :
    Alike (newWitness f) (newWitness f') := by
  intro c c' r r' h1 h2 h3 h4
  obtain ⟨a1, a2, a3, a4, a5⟩ := newWitness_ok h3
  obtain ⟨b1, b2, b3, b4, b5⟩ := newWitness_ok h4
  exact ⟨by rw [a1, b1, h2], by rw [a2, b2, h1], by rw [a3, b3, h2], a4, b4, [], by simp [a5],
    by simp [b5]⟩

theorem alike_newInput (f f' : ConstraintSystem p → Outcome SynthErr (ZMod p)) :
    Alike (newInput f) (newInput f') := by
  intro c c' r r' h1 h2 h3 h4
  obtain ⟨a1, a2, a3, a4, a5⟩ := newInput_ok h3
  obtain ⟨b1, b2, b3, b4, b5⟩ := newInput_ok h4
  exact ⟨by rw [a1, b1, h1], by rw [a2, b2, h1], by rw [a3, b3, h2], a4, b4, [], by simp [a5],
    by simp [b5]⟩

theorem alike_enforce (a b c : LinComb p) : Alike (enforce a b c) (enforce a b c) := by
  intro c c' r r' h1 h2 h3 h4
  cases h3; cases h4
  exact ⟨rfl, h1, h2, rfl, rfl, [_], rfl, rfl⟩

theorem alike_mapM {α β γ : Type} {f : α → Synth p γ} {f' : β → Synth p γ} {l : List α} {l' : List β}
    (h : List.Forall₂ (fun a b => Alike (f a) (f' b)) l l') :
    Alike (Synth.mapM f l) (Synth.mapM f' l') := by
  induction h with
  | nil => exact alike_pure _
  | cons h1 _ ih => exact h1.bind fun _ => ih.bind fun _ => alike_pure _

theorem alike_forM {α β : Type} {f : α → Synth p Unit} {f' : β → Synth p Unit} {l : List α}
    {l' : List β} (h : List.Forall₂ (fun a b => Alike (f a) (f' b)) l l') :
    Alike (Synth.forM f l) (Synth.forM f' l') := by
  induction h with
  | nil => exact alike_pure _
  | cons h1 _ ih => exact h1.bind fun _ => ih

theorem forall₂_same' {α : Type} {R : α → α → Prop} (h : ∀ a, R a a) (l : List α) :
    List.Forall₂ R l l := by
  induction l with
  | nil => exact .nil
  | cons a as ih => exact .cons (h a) ih

theorem alike_boolWitness (f f' : ConstraintSystem p → Outcome SynthErr Bool) :
    Alike (boolWitness f) (boolWitness f') :=
  (alike_newWitness _ _).bind fun _ => (alike_enforce _ _ _).bind fun _ => alike_pure _

theorem alike_boolAnd (a b : BoolV) : Alike (p := p) (boolAnd a b) (boolAnd a b) := by
  unfold boolAnd
  split <;> first
    | exact alike_pure _
    | exact (alike_newWitness _ _).bind fun _ => (alike_enforce _ _ _).bind fun _ => alike_pure _

theorem alike_boolOr (a b : BoolV) : Alike (p := p) (boolOr a b) (boolOr a b) := by
  unfold boolOr
  split <;> first
    | exact alike_pure _
    | exact (alike_boolAnd _ _).bind fun _ => alike_pure _

theorem alike_karyAnd (l : List BoolV) (a : BoolV) : Alike (p := p) (karyAnd a l) (karyAnd a l) := by
  induction l generalizing a with
  | nil => exact alike_pure _
  | cons b bs ih => exact (alike_boolAnd _ _).bind fun _ => ih _

theorem alike_orAll (l : List BoolV) (a : BoolV) : Alike (p := p) (orAll a l) (orAll a l) := by
  induction l generalizing a with
  | nil => exact alike_pure _
  | cons b bs ih => exact (alike_boolOr _ _).bind fun _ => ih _

theorem alike_enforceNand (a b : BoolV) : Alike (p := p) (enforceNand a b) (enforceNand a b) := by
  refine (alike_boolAnd _ _).bind fun r => ?_
  cases r with
  | constant b => cases b <;> first | exact alike_pure _ | exact alike_err _ _
  | is v => exact alike_enforce _ _ _
  | not v => exact alike_enforce _ _ _

theorem alike_boolEnforceEqual (a b : BoolV) :
    Alike (p := p) (boolEnforceEqual a b) (boolEnforceEqual a b) := by
  unfold boolEnforceEqual
  split
  · rename_i x y
    by_cases h : x = y
    · rw [if_pos h]; exact alike_pure _
    · rw [if_neg h]; exact alike_err _ _
  · exact alike_enforce _ _ _

theorem alike_smallerLoop (l : List (Bool × BoolV)) (last : BoolV) (run : List BoolV) :
    Alike (p := p) (smallerLoop l last run) (smallerLoop l last run) := by
  induction l generalizing last run with
  | nil => rw [smallerLoop]; exact alike_pure _
  | cons q qs ih =>
    obtain ⟨e, a⟩ := q
    cases e with
    | true => rw [smallerLoop]; exact ih _ _
    | false =>
      cases run with
      | nil => rw [smallerLoop]; exact (alike_enforceNand _ _).bind fun _ => ih _ _
      | cons c cs =>
        rw [smallerLoop]
        exact (alike_karyAnd _ _).bind fun _ => (alike_enforceNand _ _).bind fun _ => ih _ _

theorem alike_enforceSmallerOrEqualLe (bits : List BoolV) (bound : ℕ) :
    Alike (p := p) (enforceSmallerOrEqualLe bits bound) (enforceSmallerOrEqualLe bits bound) := by
  unfold enforceSmallerOrEqualLe
  dsimp only
  split
  · exact (alike_orAll _ _).bind fun _ => (alike_boolEnforceEqual _ _).bind fun _ =>
      alike_smallerLoop _ _ _
  · exact alike_smallerLoop _ _ _

theorem alike_toNonUniqueBitsLe (x : LinComb p) :
    Alike (toNonUniqueBitsLe x) (toNonUniqueBitsLe x) :=
  (alike_mapM (forall₂_same' (fun _ => alike_boolWitness _ _) _)).bind fun _ =>
    (alike_enforce _ _ _).bind fun _ => alike_pure _

theorem alike_toBitsLe (x : LinComb p) : Alike (toBitsLe x) (toBitsLe x) := by
  refine (alike_toNonUniqueBitsLe _).bind fun bits => ?_
  refine Alike.bind ?_ fun _ => alike_pure _
  refine (alike_enforceSmallerOrEqualLe _ _).bind fun run => ?_
  cases run with
  | nil => exact alike_pure _
  | cons _ _ => exact alike_panic _

theorem alike_enforceLeHalf (x : LinComb p) : Alike (enforceLeHalf x) (enforceLeHalf x) :=
  (alike_toNonUniqueBitsLe _).bind fun _ => (alike_enforceSmallerOrEqualLe _ _).bind fun _ =>
    alike_pure _

theorem alike_enforceCmpLe (a b : LinComb p) : Alike (enforceCmpLe a b) (enforceCmpLe a b) := by
  refine (alike_enforceLeHalf _).bind fun _ => (alike_enforceLeHalf _).bind fun _ =>
    (alike_toBitsLe _).bind fun bits => ?_
  cases bits with
  | nil => exact alike_panic _
  | cons b bs => exact alike_enforce _ _ _

theorem alike_isEqZero (el : FpV p) : Alike (isEqZero el) (isEqZero el) := by
  cases el with
  | constant v => exact alike_pure _
  | var l =>
    exact (alike_boolWitness _ _).bind fun _ => (alike_newWitness _ _).bind fun _ =>
      (alike_enforce _ _ _).bind fun _ => (alike_enforce _ _ _).bind fun _ => alike_pure _

theorem alike_normalize (el : FpV p) : Alike (normalize el) (normalize el) := by
  cases el with
  | constant v => exact alike_pure _
  | var l =>
    exact (alike_boolWitness _ _).bind fun _ => (alike_newWitness _ _).bind fun _ =>
      (alike_enforce _ _ _).bind fun _ => (alike_enforceLeHalf _).bind fun _ => alike_pure _

theorem alike_yToBitG2 (c0 c1 : FpV p) : Alike (yToBitG2 c0 c1) (yToBitG2 c0 c1) :=
  (alike_boolWitness _ _).bind fun _ => (alike_normalize _).bind fun _ =>
    (alike_normalize _).bind fun _ => (alike_isEqZero _).bind fun _ => (alike_boolAnd _ _).bind fun _ =>
      (alike_enforce _ _ _).bind fun _ => alike_pure _

theorem alike_maxOccurrences (o o' : Bool) (bitmap : List BoolV) (m : LinComb p) (value : Bool) :
    Alike (maxOccurrences o bitmap m value) (maxOccurrences o' bitmap m value) := by
  intro c c' r r' h1 h2 h3 h4
  unfold maxOccurrences at h3 h4
  rw [Outcome.bind_eq_ok_iff] at h3 h4
  obtain ⟨k, _, h3⟩ := h3
  obtain ⟨k', _, h4⟩ := h4
  cases hv : bitmap.any BoolV.isVar with
  | false => rw [hv] at h3; cases h3
  | true =>
    rw [hv, if_pos rfl] at h3 h4
    refine Alike.bind (g := newWitness fun _ => .ok (k.toNat : ZMod p))
      (g' := newWitness fun _ => .ok (k'.toNat : ZMod p)) (alike_newWitness _ _) (fun v => ?_)
      c c' r r' h1 h2 h3 h4
    exact (alike_enforceCmpLe _ _).bind fun _ => alike_enforce _ _ _

theorem alike_packChunk (input : Bool) (chunk : List BoolV) :
    Alike (p := p) (packChunk input chunk) (packChunk input chunk) := by
  refine Alike.bind ?_ fun v => (alike_toBitsLe _).bind fun bits => ?_
  · cases input
    · exact alike_newWitness _ _
    · exact alike_newInput _ _
  · by_cases h : bits.length < chunk.length
    · rw [if_pos h]; exact alike_panic _
    · rw [if_neg h]
      exact (alike_forM (forall₂_same' (fun _ => alike_boolEnforceEqual _ _) _)).bind fun _ =>
        alike_pure _

theorem alike_multipack (input : Bool) (n : ℕ) (bits : List BoolV) :
    Alike (p := p) (multipack input n bits) (multipack input n bits) :=
  alike_mapM (forall₂_same' (fun _ => alike_packChunk _ _) _)

theorem alike_testCircuit (x x' : Option (ZMod p)) : Alike (testCircuit x) (testCircuit x') :=
  (alike_newWitness _ _).bind fun _ => (alike_newInput _ _).bind fun _ =>
    (alike_enforce _ _ _).bind fun _ => alike_forM (forall₂_same'
      (fun _ => (alike_newWitness _ _).bind fun _ => alike_pure _) _)

theorem alike_bitmapCircuit (o o' : Bool) {bitmap bitmap' : List (Option Bool)}
    (h : bitmap.length = bitmap'.length) (m m' : ℕ) (value : Bool) :
    Alike (p := p) (bitmapCircuit o bitmap m value) (bitmapCircuit o' bitmap' m' value) := by
  refine Alike.bind (alike_mapM ?_) fun bits => (alike_newWitness _ _).bind fun v =>
    alike_maxOccurrences _ _ _ _ _
  induction bitmap generalizing bitmap' with
  | nil => cases bitmap' with
    | nil => exact .nil
    | cons _ _ => simp at h
  | cons b bs ih => cases bitmap' with
    | nil => simp at h
    | cons b' bs' => exact .cons (alike_boolWitness _ _) (ih (by simpa using h))

/-! ### soundness: what the constraints imply for any assignment -/

/-- If the constraints emitted so far hold under `ρ`, the result of the program has property `Q`. -/
def Sound (ρ : R1Var → ZMod p) {α : Type} (g : Synth p α) (Q : α → Prop) : Prop :=
  ∀ cs r, g cs = .ok r → r.2.Sat ρ → Q r.1

theorem Alike.sat {α : Type} {g : Synth p α} (h : Alike g g) {cs : ConstraintSystem p}
    {r : α × ConstraintSystem p} (hr : g cs = .ok r) {ρ : R1Var → ZMod p} (hs : r.2.Sat ρ) :
    cs.Sat ρ := by
  obtain ⟨_, _, _, _, _, new, e, _⟩ := h cs cs r r rfl rfl hr hr
  intro k hk
  exact hs k (by rw [e]; exact List.mem_append_left _ hk)

theorem Sound.bind {ρ : R1Var → ZMod p} {α β : Type} {g : Synth p α} {f : α → Synth p β}
    {Q : α → Prop} {R : β → Prop} (hg : Sound ρ g Q) (ha : ∀ x, Alike (f x) (f x))
    (hf : ∀ x, Q x → Sound ρ (f x) R) : Sound ρ (g >>= f) R := by
  intro cs r h hs
  rw [synth_bind_ok] at h
  obtain ⟨s, h1, h2⟩ := h
  exact hf s.1 (hg cs s h1 ((ha s.1).sat h2 hs)) s.2 r h2 hs

theorem sound_pure {ρ : R1Var → ZMod p} {α : Type} {Q : α → Prop} {x : α} (h : Q x) :
    Sound ρ (Synth.pure x) Q := by
  intro cs r hr _
  cases hr
  exact h

theorem sound_err {ρ : R1Var → ZMod p} {α : Type} {Q : α → Prop} (e : SynthErr) :
    Sound ρ (Synth.fail e) Q := by
  intro cs r hr; cases hr

theorem sound_panic {ρ : R1Var → ZMod p} {α : Type} {Q : α → Prop} :
    Sound ρ Synth.panic Q := by
  intro cs r hr; cases hr

theorem sound_any {ρ : R1Var → ZMod p} {α : Type} {g : Synth p α} : Sound ρ g fun _ => True :=
  fun _ _ _ _ => trivial

theorem Sound.mono {ρ : R1Var → ZMod p} {α : Type} {g : Synth p α} {Q R : α → Prop}
    (h : Sound ρ g Q) (hq : ∀ x, Q x → R x) : Sound ρ g R :=
  fun cs r h1 h2 => hq _ (h cs r h1 h2)

theorem sound_enforce {ρ : R1Var → ZMod p} (a b c : LinComb p) :
    Sound ρ (enforce a b c) fun _ => evalLc ρ a * evalLc ρ b = evalLc ρ c := by
  intro cs r hr hs
  cases hr
  exact hs ⟨a, b, c⟩ (by simp)

theorem sound_mapM {ρ : R1Var → ZMod p} {α β : Type} {f : α → Synth p β} {Q : α → β → Prop}
    (h : ∀ a, Sound ρ (f a) (Q a)) (ha : ∀ a, Alike (f a) (f a)) (l : List α) :
    Sound ρ (Synth.mapM f l) fun bs => List.Forall₂ Q l bs := by
  induction l with
  | nil => exact sound_pure .nil
  | cons a as ih =>
    refine (h a).bind (fun x => Alike.bind (alike_mapM (forall₂_same' ha _)) fun _ => alike_pure _) ?_
    intro b hb
    refine ih.bind (fun _ => alike_pure _) fun bs hbs => sound_pure (.cons hb hbs)

theorem sound_forM {ρ : R1Var → ZMod p} {α : Type} {f : α → Synth p Unit} {Q : α → Prop}
    (h : ∀ a, Sound ρ (f a) fun _ => Q a) (ha : ∀ a, Alike (f a) (f a)) (l : List α) :
    Sound ρ (Synth.forM f l) fun _ => ∀ a ∈ l, Q a := by
  induction l with
  | nil => exact sound_pure (by simp)
  | cons a as ih =>
    refine (h a).bind (fun x => alike_forM (forall₂_same' ha _)) ?_
    intro _ hq
    refine ih.mono fun _ h => ?_
    intro b hb
    rcases List.mem_cons.1 hb with rfl | hb
    · exact hq
    · exact h b hb

/-- The bit `b` has the value `t` under `ρ`. -/
def BitIs (ρ : R1Var → ZMod p) (b : BoolV) (t : Bool) : Prop := evalLc ρ b.lc = bit t

end

section

variable {p : ℕ} [Fact p.Prime]

theorem bit_inj {s t : Bool} (h : (bit s : ZMod p) = bit t) : s = t := by
  have h1 : (1 : ZMod p) ≠ 0 := one_ne_zero
  cases s <;> cases t <;> simp_all

theorem bit_toNat (t : Bool) : (bit t : ZMod p) = (t.toNat : ℕ) := by cases t <;> simp

theorem bitIs_constant {ρ : R1Var → ZMod p} (h1 : ρ .one = 1) {c t : Bool} :
    BitIs ρ (.constant c) t ↔ c = t := by
  unfold BitIs
  constructor
  · intro h
    refine bit_inj (p := p) ?_
    rw [← h]
    cases c <;> simp [BoolV.lc, h1]
  · rintro rfl
    cases c <;> simp [BoolV.lc, h1]

theorem bitIs_neg {ρ : R1Var → ZMod p} (h1 : ρ .one = 1) {b : BoolV} {t : Bool} (h : BitIs ρ b t) :
    BitIs ρ b.neg (!t) := by
  cases b with
  | constant c =>
    rw [bitIs_constant h1] at h
    exact (bitIs_constant h1).2 (by rw [h])
  | is v =>
    simp only [BitIs, BoolV.neg, BoolV.lc, evalLc_lcSub, evalLc_lcVar] at h ⊢
    rw [h, h1]; cases t <;> simp
  | not v =>
    simp only [BitIs, BoolV.neg, BoolV.lc, evalLc_lcSub, evalLc_lcVar] at h ⊢
    rw [h1] at h
    have : ρ v = 1 - bit t := by rw [← h]; ring
    rw [this]; cases t <;> simp

theorem sound_boolWitness {ρ : R1Var → ZMod p} (h1 : ρ .one = 1)
    (f : ConstraintSystem p → Outcome SynthErr Bool) :
    Sound ρ (boolWitness f) fun b => ∃ t, BitIs ρ b t := by
  refine Sound.bind sound_any
    (fun _ => (alike_enforce _ _ _).bind fun _ => alike_pure _) fun v _ => ?_
  refine (sound_enforce _ _ _).bind (fun _ => alike_pure _) fun _ h => sound_pure ?_
  simp only [evalLc_lcSub, evalLc_lcVar, evalLc_nil, h1] at h
  rcases mul_eq_zero.1 h with h | h
  · exact ⟨true, by simp [BitIs, BoolV.lc, (sub_eq_zero.1 h).symm]⟩
  · exact ⟨false, by simp [BitIs, BoolV.lc, h]⟩

theorem sound_boolAnd {ρ : R1Var → ZMod p} (h1 : ρ .one = 1) {a b : BoolV} {s t : Bool}
    (ha : BitIs ρ a s) (hb : BitIs ρ b t) :
    Sound ρ (boolAnd a b) fun r => BitIs ρ r (s && t) := by
  have key : Sound ρ (do
      let v ← newWitness fun cs =>
        (a.value p cs).bind fun x => (b.value p cs).map fun y => bit (x && y)
      enforce a.lc b.lc (lcVar v)
      Synth.pure (BoolV.is v)) fun r => BitIs ρ r (s && t) := by
    refine Sound.bind sound_any
      (fun _ => (alike_enforce _ _ _).bind fun _ => alike_pure _) fun v _ => ?_
    refine (sound_enforce _ _ _).bind (fun _ => alike_pure _) fun _ h => sound_pure ?_
    unfold BitIs at ha hb ⊢
    rw [ha, hb] at h
    simp only [BoolV.lc]
    rw [← h]
    cases s <;> cases t <;> simp
  unfold boolAnd
  split
  · rw [bitIs_constant h1] at ha
    exact sound_pure ((bitIs_constant h1).2 (by simp [← ha]))
  · rw [bitIs_constant h1] at ha
    refine sound_pure ?_
    rw [← ha]; simpa using hb
  · rw [bitIs_constant h1] at hb
    exact sound_pure ((bitIs_constant h1).2 (by simp [← hb]))
  · rw [bitIs_constant h1] at hb
    refine sound_pure ?_
    rw [← hb]; simpa using ha
  · exact key

theorem sound_boolOr {ρ : R1Var → ZMod p} (h1 : ρ .one = 1) {a b : BoolV} {s t : Bool}
    (ha : BitIs ρ a s) (hb : BitIs ρ b t) :
    Sound ρ (boolOr a b) fun r => BitIs ρ r (s || t) := by
  unfold boolOr
  split
  · rw [bitIs_constant h1] at ha
    refine sound_pure ?_
    rw [← ha]; simpa using hb
  · rw [bitIs_constant h1] at ha
    exact sound_pure ((bitIs_constant h1).2 (by simp [← ha]))
  · rw [bitIs_constant h1] at hb
    refine sound_pure ?_
    rw [← hb]; simpa using ha
  · rw [bitIs_constant h1] at hb
    exact sound_pure ((bitIs_constant h1).2 (by simp [← hb]))
  · refine (sound_boolAnd h1 (bitIs_neg h1 ha) (bitIs_neg h1 hb)).bind (fun _ => alike_pure _) ?_
    intro r hr
    refine sound_pure ?_
    have := bitIs_neg h1 hr
    simpa using this

theorem sound_karyAnd {ρ : R1Var → ZMod p} (h1 : ρ .one = 1) {l : List BoolV} {ts : List Bool}
    (hl : List.Forall₂ (BitIs ρ) l ts) {a : BoolV} {s : Bool} (ha : BitIs ρ a s) :
    Sound ρ (karyAnd a l) fun r => BitIs ρ r (s && ts.all id) := by
  induction hl generalizing a s with
  | nil => exact sound_pure (by simpa using ha)
  | cons hb _ ih =>
    refine (sound_boolAnd h1 ha hb).bind (fun _ => alike_karyAnd _ _) fun r hr => ?_
    refine (ih hr).mono fun x hx => ?_
    simpa [Bool.and_assoc] using hx

theorem sound_orAll {ρ : R1Var → ZMod p} (h1 : ρ .one = 1) {l : List BoolV} {ts : List Bool}
    (hl : List.Forall₂ (BitIs ρ) l ts) {a : BoolV} {s : Bool} (ha : BitIs ρ a s) :
    Sound ρ (orAll a l) fun r => BitIs ρ r (s || ts.any id) := by
  induction hl generalizing a s with
  | nil => exact sound_pure (by simpa using ha)
  | cons hb _ ih =>
    refine (sound_boolOr h1 ha hb).bind (fun _ => alike_orAll _ _) fun r hr => ?_
    refine (ih hr).mono fun x hx => ?_
    simpa [Bool.or_assoc] using hx

theorem sound_enforceNand {ρ : R1Var → ZMod p} (h1 : ρ .one = 1) {a b : BoolV} {s t : Bool}
    (ha : BitIs ρ a s) (hb : BitIs ρ b t) :
    Sound ρ (enforceNand a b) fun _ => (s && t) = false := by
  have hz : Sound ρ (boolAnd a b) fun r => BitIs ρ r (s && t) := sound_boolAnd h1 ha hb
  refine hz.bind (fun r => ?_) fun r hr => ?_
  · cases r with
    | constant b => cases b <;> first | exact alike_pure _ | exact alike_err _ _
    | is v => exact alike_enforce _ _ _
    | not v => exact alike_enforce _ _ _
  · have fin : ∀ r : BoolV, BitIs ρ r (s && t) →
        Sound ρ (enforce r.lc (lcVar .one) []) fun _ => (s && t) = false := by
      intro r hr
      refine (sound_enforce _ _ _).mono fun _ h => ?_
      rw [hr, evalLc_lcVar, h1, mul_one, evalLc_nil] at h
      exact bit_inj (p := p) h
    cases r with
    | constant c =>
      rw [bitIs_constant h1] at hr
      cases c with
      | true => exact sound_err _
      | false => exact sound_pure hr.symm
    | is v => exact fin _ hr
    | not v => exact fin _ hr

theorem sound_boolEnforceEqual {ρ : R1Var → ZMod p} (h1 : ρ .one = 1) {a b : BoolV} {s t : Bool}
    (ha : BitIs ρ a s) (hb : BitIs ρ b t) :
    Sound ρ (boolEnforceEqual a b) fun _ => s = t := by
  unfold boolEnforceEqual
  split
  · rename_i x y
    rw [bitIs_constant h1] at ha hb
    by_cases h : x = y
    · rw [if_pos h]; exact sound_pure (by rw [← ha, ← hb, h])
    · rw [if_neg h]; exact sound_err _
  · refine (sound_enforce _ _ _).mono fun _ h => ?_
    rw [evalLc_lcSub, evalLc_lcVar, h1, mul_one, evalLc_nil, sub_eq_zero, ha, hb] at h
    exact bit_inj (p := p) h

/-- A number and further binary digits, most significant first. -/
def foldBe (acc : ℕ) (bits : List Bool) : ℕ := bits.foldl (fun a b => 2 * a + b.toNat) acc

theorem foldBe_lt {l m : List Bool} (h : l.length = m.length) {a b : ℕ} (hab : a < b) :
    foldBe a l < foldBe b m := by
  induction l generalizing m a b with
  | nil => cases m with
    | nil => exact hab
    | cons _ _ => simp at h
  | cons x xs ih => cases m with
    | nil => simp at h
    | cons y ys =>
      have hx := Bool.toNat_le x
      exact ih (m := ys) (a := 2 * a + x.toNat) (b := 2 * b + y.toNat) (by simpa using h) (by omega)

theorem foldBe_eq (bits : List Bool) : foldBe 0 bits = ofBitsLE bits.reverse := fromBitsBe_eq bits

theorem lt_two_pow_bitLength (n : ℕ) : n < 2 ^ bitLength n := by
  unfold bitLength
  split
  · omega
  · exact Nat.lt_log2_self

theorem foldBe_natBitsBe (n : ℕ) : foldBe 0 (natBitsBe n) = n := by
  rw [foldBe_eq, natBitsBe, List.reverse_reverse, ofBitsLE_range_testBit,
    Nat.mod_eq_of_lt (lt_two_pow_bitLength n)]

theorem sound_smallerLoop {ρ : R1Var → ZMod p} (h1 : ρ .one = 1) :
    ∀ (l : List (Bool × BoolV)) (ts : List Bool) (last : BoolV) (run : List BoolV) (tl : Bool)
      (tr : List Bool) (A E : ℕ),
      List.Forall₂ (fun q t => BitIs ρ q.2 t) l ts → BitIs ρ last tl →
      List.Forall₂ (BitIs ρ) run tr → A ≤ E → ((tl && tr.all id) = true ↔ A = E) →
      Sound ρ (smallerLoop l last run) fun _ => foldBe A ts ≤ foldBe E (l.map Prod.fst) := by
  intro l
  induction l with
  | nil =>
    intro ts last run tl tr A E hl _ _ hA _
    cases hl
    rw [smallerLoop]
    exact sound_pure hA
  | cons q qs ih =>
    intro ts last run tl tr A E hl hlast hrun hA hiff
    obtain ⟨e, a⟩ := q
    cases hl with
    | @cons _ t _ ts hq hqs =>
    cases e with
    | true =>
      rw [smallerLoop]
      refine ih ts last (run ++ [a]) tl (tr ++ [t]) (2 * A + t.toNat) (2 * E + 1) hqs hlast ?_ ?_ ?_
      · exact List.rel_append hrun (.cons hq .nil)
      · have := Bool.toNat_le t; omega
      · have e1 : (tl && (tr ++ [t]).all id) = ((tl && tr.all id) && t) := by
          simp [Bool.and_assoc]
        rw [e1, Bool.and_eq_true, hiff]
        cases t <;> (simp; try omega)
    | false =>
      have step : ∀ (last' : BoolV) (tl' : Bool), BitIs ρ last' tl' → (tl' = true ↔ A = E) →
          Sound ρ (do enforceNand last' a; smallerLoop qs last' [])
            fun _ => foldBe A (t :: ts) ≤ foldBe E (((false, a) :: qs).map Prod.fst) := by
        intro last' tl' hl' hiff'
        refine (sound_enforceNand h1 hl' hq).bind (fun _ => alike_smallerLoop _ _ _) fun _ hn => ?_
        refine ih ts last' [] tl' [] (2 * A + t.toNat) (2 * E + 0) hqs hl' .nil ?_ ?_
        · have := Bool.toNat_le t
          by_cases h : A = E
          · rw [hiff'.2 h] at hn
            have : t = false := by simpa using hn
            subst this
            simp; omega
          · omega
        · have := Bool.toNat_le t
          simp only [List.all_nil, Bool.and_true]
          rw [hiff']
          constructor
          · intro h
            rw [hiff'.2 h] at hn
            have : t = false := by simpa using hn
            subst this
            simp; omega
          · omega
      cases run with
      | nil =>
        cases hrun
        rw [smallerLoop]
        exact step last tl hlast (by simpa using hiff)
      | cons c cs =>
        cases hrun with
        | @cons _ tc _ tcs hc hcs =>
        rw [smallerLoop]
        refine (sound_karyAnd h1 (List.rel_append hcs (.cons hlast .nil)) hc).bind
          (fun _ => (alike_enforceNand _ _).bind fun _ => alike_smallerLoop _ _ _) fun r hr => ?_
        refine step r _ hr ?_
        rw [← hiff]
        simp only [List.all_append, List.all_cons, List.all_nil, id, Bool.and_true, Bool.and_eq_true]
        tauto

theorem forall₂_take' {α β : Type} {R : α → β → Prop} {l : List α} {m : List β}
    (h : List.Forall₂ R l m) (n : ℕ) : List.Forall₂ R (l.take n) (m.take n) := by
  induction h generalizing n with
  | nil => simp
  | cons h1 _ ih => cases n with
    | zero => simp
    | succ n => exact .cons h1 (ih n)

theorem forall₂_drop' {α β : Type} {R : α → β → Prop} {l : List α} {m : List β}
    (h : List.Forall₂ R l m) (n : ℕ) : List.Forall₂ R (l.drop n) (m.drop n) := by
  induction h generalizing n with
  | nil => simp
  | cons h1 h2 ih => cases n with
    | zero => exact .cons h1 h2
    | succ n => exact ih n

theorem forall₂_zip_right {α β γ : Type} {R : β → γ → Prop} {l : List α} {m : List β} {n : List γ}
    (hlen : l.length = m.length) (h : List.Forall₂ R m n) :
    List.Forall₂ (fun q t => R q.2 t) (l.zip m) n := by
  induction h generalizing l with
  | nil => simp
  | cons h1 _ ih => cases l with
    | nil => simp at hlen
    | cons a as => exact .cons h1 (ih (by simpa using hlen))

theorem map_fst_zip' {α β : Type} {l : List α} {m : List β} (h : l.length = m.length) :
    (l.zip m).map Prod.fst = l := List.map_fst_zip (by omega)

theorem ofBitsLE_eq_zero {l : List Bool} : ofBitsLE l = 0 ↔ l.any id = false := by
  induction l with
  | nil => simp [ofBitsLE]
  | cons b bs ih =>
    simp only [ofBitsLE, List.any_cons, id, Bool.or_eq_false_iff, ← ih]
    cases b <;> simp

theorem natBitsBe_length (n : ℕ) : (natBitsBe n).length = bitLength n := by simp [natBitsBe]

theorem sound_enforceSmallerOrEqualLe {ρ : R1Var → ZMod p} (h1 : ρ .one = 1) {bits : List BoolV}
    {ts : List Bool} (hb : List.Forall₂ (BitIs ρ) bits ts) {bound : ℕ}
    (hlen : bitLength bound ≤ bits.length) :
    Sound ρ (enforceSmallerOrEqualLe bits bound) fun _ => ofBitsLE ts ≤ bound := by
  have hts : ts.length = bits.length := hb.length_eq.symm
  have core : ∀ (bs : List BoolV) (us : List Bool), List.Forall₂ (BitIs ρ) bs us →
      bs.length = bitLength bound →
      Sound ρ (smallerLoop ((natBitsBe bound).zip bs.reverse) (.constant true) [])
        fun _ => ofBitsLE us ≤ bound := by
    intro bs us hbs hl
    have hl' : (natBitsBe bound).length = bs.reverse.length := by
      rw [natBitsBe_length, List.length_reverse, hl]
    refine (sound_smallerLoop h1 _ us.reverse (.constant true) [] true [] 0 0
      (forall₂_zip_right hl' (List.rel_reverse hbs))
      ((bitIs_constant h1).2 rfl) .nil le_rfl (by simp)).mono fun _ h => ?_
    rw [map_fst_zip' hl', foldBe_natBitsBe, foldBe_eq, List.reverse_reverse] at h
    exact h
  unfold enforceSmallerOrEqualLe
  dsimp only
  by_cases hlt : bitLength bound < bits.length
  · rw [if_pos hlt]
    refine (sound_orAll h1 (forall₂_drop' hb _) ((bitIs_constant h1).2 rfl)).bind
      (fun _ => (alike_boolEnforceEqual _ _).bind fun _ => alike_smallerLoop _ _ _) fun r hr => ?_
    refine (sound_boolEnforceEqual h1 hr ((bitIs_constant h1).2 (Eq.refl false))).bind
      (fun _ => alike_smallerLoop _ _ _) fun _ hz => ?_
    refine (core _ _ (forall₂_take' hb (bitLength bound)) (by
      rw [List.length_take]; omega)).mono fun _ h => ?_
    rw [Bool.false_or, ← ofBitsLE_eq_zero] at hz
    rw [← List.take_append_drop (bitLength bound) ts, ofBitsLE_append, hz]
    simpa using h
  · rw [if_neg hlt]
    exact core _ _ hb (by omega)

theorem evalLc_packLc {ρ : R1Var → ZMod p} {bits : List BoolV} {ts : List Bool}
    (h : List.Forall₂ (BitIs ρ) bits ts) (c : ZMod p) :
    evalLc ρ (packLc c bits) = c * (ofBitsLE ts : ℕ) := by
  induction h generalizing c with
  | nil => simp [packLc, ofBitsLE]
  | cons hb _ ih =>
    rw [packLc, evalLc_append, evalLc_lcScale, ih, hb, ofBitsLE, bit_toNat]
    push_cast
    ring

theorem sound_toNonUniqueBitsLe {ρ : R1Var → ZMod p} (h1 : ρ .one = 1) (x : LinComb p) :
    Sound ρ (toNonUniqueBitsLe x) fun bits => ∃ ts, List.Forall₂ (BitIs ρ) bits ts ∧
      bits.length = bitLength p ∧ ((ofBitsLE ts : ℕ) : ZMod p) = evalLc ρ x := by
  refine (sound_mapM (Q := fun _ b => ∃ t, BitIs ρ b t) (fun i => sound_boolWitness h1 _)
    (fun _ => alike_boolWitness _ _) _).bind
    (fun _ => (alike_enforce _ _ _).bind fun _ => alike_pure _) fun bits hb => ?_
  refine (sound_enforce _ _ _).bind (fun _ => alike_pure _) fun _ he => sound_pure ?_
  have hlen : bits.length = bitLength p := by rw [← hb.length_eq, List.length_range]
  have : ∃ ts, List.Forall₂ (BitIs ρ) bits ts := by
    clear he hlen
    generalize List.range (bitLength p) = l at hb
    induction hb with
    | nil => exact ⟨[], .nil⟩
    | cons h _ ih =>
      obtain ⟨t, ht⟩ := h
      obtain ⟨ts, hts⟩ := ih
      exact ⟨t :: ts, .cons ht hts⟩
  obtain ⟨ts, hts⟩ := this
  refine ⟨ts, hts, hlen, ?_⟩
  rw [evalLc_lcSub, evalLc_packLc hts, evalLc_nil, one_mul] at he
  have := he.symm
  rw [zero_mul, sub_eq_zero] at this
  exact this

theorem bitLength_mono {m n : ℕ} (h : m ≤ n) : bitLength m ≤ bitLength n := by
  unfold bitLength
  split
  · omega
  · rw [if_neg (by omega)]
    have := (Nat.log2_lt (n := m) (k := n.log2 + 1) (by omega)).2
      (lt_of_le_of_lt h Nat.lt_log2_self)
    omega

theorem sound_enforceInFieldLe {ρ : R1Var → ZMod p} (h1 : ρ .one = 1) {bits : List BoolV}
    {ts : List Bool} (hb : List.Forall₂ (BitIs ρ) bits ts) (hlen : bits.length = bitLength p) :
    Sound ρ (enforceInFieldLe (p := p) bits) fun _ => ofBitsLE ts < p := by
  have hprime : p.Prime := Fact.out
  have hp := hprime.two_le
  refine (sound_enforceSmallerOrEqualLe h1 hb
    (hlen ▸ bitLength_mono (Nat.sub_le p 1))).bind (fun run => ?_) fun run h => ?_
  · cases run with
    | nil => exact alike_pure _
    | cons _ _ => exact alike_panic _
  · cases run with
    | nil => exact sound_pure (by omega)
    | cons _ _ => exact sound_panic

theorem alike_enforceInFieldLe (bits : List BoolV) :
    Alike (p := p) (enforceInFieldLe bits) (enforceInFieldLe bits) := by
  refine (alike_enforceSmallerOrEqualLe _ _).bind fun run => ?_
  cases run with
  | nil => exact alike_pure _
  | cons _ _ => exact alike_panic _

/-- The bits are those of the canonical representative. -/
theorem sound_toBitsLe {ρ : R1Var → ZMod p} (h1 : ρ .one = 1) (x : LinComb p) :
    Sound ρ (toBitsLe x) fun bits =>
      List.Forall₂ (BitIs ρ) bits ((List.range (bitLength p)).map (evalLc ρ x).val.testBit) := by
  have hprime : p.Prime := Fact.out
  refine (sound_toNonUniqueBitsLe h1 x).bind
    (fun _ => (alike_enforceInFieldLe _).bind fun _ => alike_pure _) ?_
  rintro bits ⟨ts, hts, hlen, hval⟩
  refine (sound_enforceInFieldLe h1 hts hlen).bind (fun _ => alike_pure _) fun _ hlt => sound_pure ?_
  have : (evalLc ρ x).val = ofBitsLE ts := by rw [← hval, ZMod.val_natCast_of_lt hlt]
  rw [this, show bitLength p = ts.length from hlen ▸ hts.length_eq, ← eq_range_map_testBit]
  exact hts

theorem sound_enforceLeHalf {ρ : R1Var → ZMod p} (h1 : ρ .one = 1) (x : LinComb p) :
    Sound ρ (enforceLeHalf x) fun _ => leHalfC (evalLc ρ x) := by
  have hprime : p.Prime := Fact.out
  have hp := hprime.two_le
  refine (sound_toNonUniqueBitsLe h1 x).bind
    (fun _ => (alike_enforceSmallerOrEqualLe _ _).bind fun _ => alike_pure _) ?_
  rintro bits ⟨ts, hts, hlen, hval⟩
  have hle : halfOf p ≤ p := by unfold halfOf; omega
  refine (sound_enforceSmallerOrEqualLe h1 hts (hlen ▸ bitLength_mono hle)).bind
    (fun _ => alike_pure _) fun _ h => sound_pure ?_
  have : (evalLc ρ x).val = ofBitsLE ts := by
    rw [← hval, ZMod.val_natCast_of_lt]
    unfold halfOf at h; omega
  rw [leHalfC, this]
  exact h

theorem sound_enforceCmpLe {ρ : R1Var → ZMod p} (h1 : ρ .one = 1) (a b : LinComb p) :
    Sound ρ (enforceCmpLe a b) fun _ => enforceCmpLeC (evalLc ρ a) (evalLc ρ b) := by
  have tail : ∀ bits : List BoolV, Alike (p := p)
      (match bits with
        | [] => Synth.panic
        | low :: _ => enforce low.lc (lcVar .one) (lcVar .one))
      (match bits with
        | [] => Synth.panic
        | low :: _ => enforce low.lc (lcVar .one) (lcVar .one)) := by
    intro bits
    cases bits with
    | nil => exact alike_panic _
    | cons b bs => exact alike_enforce _ _ _
  refine (sound_enforceLeHalf h1 a).bind (fun _ => (alike_enforceLeHalf _).bind fun _ =>
    (alike_toBitsLe _).bind tail) fun _ ha => ?_
  refine (sound_enforceLeHalf h1 _).bind (fun _ => (alike_toBitsLe _).bind tail) fun _ hb => ?_
  refine (sound_toBitsLe h1 _).bind tail fun bits hbits => ?_
  cases bits with
  | nil => exact sound_panic
  | cons low rest =>
    refine (sound_enforce _ _ _).mono fun _ he => ?_
    rw [evalLc_append, evalLc_lcVar, h1] at hb
    refine ⟨ha, hb, ?_⟩
    have hpos : ∃ n, bitLength p = n + 1 := by
      have := hbits.length_eq
      simp only [List.length_cons, List.length_map, List.length_range] at this
      exact ⟨_, this.symm⟩
    obtain ⟨n, hn⟩ := hpos
    rw [hn, List.range_succ_eq_map, List.map_cons] at hbits
    cases hbits with
    | cons hlow _ =>
      rw [hlow, evalLc_lcVar, h1, mul_one] at he
      simp only [evalLc_lcScale, evalLc_lcSub, evalLc_append, evalLc_lcVar, h1] at he
      exact bit_inj (p := p) (t := true) (by simpa using he)

/-- The value of an `FpV` under an assignment, as the gadget predicates take it. -/
def FpV.at (ρ : R1Var → ZMod p) : FpV p → FpVar p
  | .constant v => .constant v
  | .var l => .var (evalLc ρ l)

theorem sound_isEqZero {ρ : R1Var → ZMod p} (h1 : ρ .one = 1) (el : FpV p) :
    Sound ρ (isEqZero el) fun b => ∃ t inv, BitIs ρ b t ∧ isEqZeroC (el.at ρ) inv t := by
  cases el with
  | constant v =>
    exact sound_pure ⟨decide (v = 0), 0, (bitIs_constant h1).2 rfl, rfl⟩
  | var l =>
    refine (sound_boolWitness h1 _).bind (fun _ => (alike_newWitness _ _).bind fun _ =>
      (alike_enforce _ _ _).bind fun _ => (alike_enforce _ _ _).bind fun _ => alike_pure _) ?_
    rintro b ⟨t, ht⟩
    refine Sound.bind (sound_any) (fun _ =>
      (alike_enforce _ _ _).bind fun _ => (alike_enforce _ _ _).bind fun _ => alike_pure _) ?_
    intro inv _
    refine (sound_enforce _ _ _).bind (fun _ => (alike_enforce _ _ _).bind fun _ => alike_pure _) ?_
    intro _ e1
    refine (sound_enforce _ _ _).bind (fun _ => alike_pure _) fun _ e2 => sound_pure ?_
    refine ⟨t, ρ inv, ht, ?_⟩
    rw [evalLc_lcVar, evalLc_lcSub, evalLc_lcVar, h1, ht] at e1
    rw [ht, evalLc_nil] at e2
    exact ⟨e1, e2⟩

theorem sound_normalize {ρ : R1Var → ZMod p} (h1 : ρ .one = 1) (el : FpV p) :
    Sound ρ (normalize el) fun b => ∃ t adj, BitIs ρ b t ∧ normalizeC (el.at ρ) adj t := by
  cases el with
  | constant v =>
    exact sound_pure ⟨decide (v.val > halfOf p), 0, (bitIs_constant h1).2 rfl, rfl⟩
  | var l =>
    refine (sound_boolWitness h1 _).bind (fun _ => (alike_newWitness _ _).bind fun _ =>
      (alike_enforce _ _ _).bind fun _ => (alike_enforceLeHalf _).bind fun _ => alike_pure _) ?_
    rintro b ⟨t, ht⟩
    refine Sound.bind (sound_any) (fun _ =>
      (alike_enforce _ _ _).bind fun _ => (alike_enforceLeHalf _).bind fun _ => alike_pure _) ?_
    intro adj _
    refine (sound_enforce _ _ _).bind
      (fun _ => (alike_enforceLeHalf _).bind fun _ => alike_pure _) fun _ e1 => ?_
    refine (sound_enforceLeHalf h1 _).bind (fun _ => alike_pure _) fun _ e2 => sound_pure ?_
    refine ⟨t, ρ adj, ht, ?_⟩
    rw [evalLc_lcVar, evalLc_append, evalLc_lcScale, evalLc_lcVar, h1, ht] at e1
    rw [evalLc_lcVar] at e2
    refine ⟨?_, e2⟩
    rw [← e1]; ring

theorem sound_yToBitG2 {ρ : R1Var → ZMod p} (h1 : ρ .one = 1) (c0 c1 : FpV p) :
    Sound ρ (yToBitG2 c0 c1) fun b => ∃ w : YBitWitness p, BitIs ρ b w.yBit ∧
      yToBitG2C (c0.at ρ) (c1.at ρ) w := by
  refine (sound_boolWitness h1 _).bind (fun _ => (alike_normalize _).bind fun _ =>
    (alike_normalize _).bind fun _ => (alike_isEqZero _).bind fun _ => (alike_boolAnd _ _).bind fun _ =>
      (alike_enforce _ _ _).bind fun _ => alike_pure _) ?_
  rintro y ⟨ty, hy⟩
  refine (sound_normalize h1 c0).bind (fun _ =>
    (alike_normalize _).bind fun _ => (alike_isEqZero _).bind fun _ => (alike_boolAnd _ _).bind fun _ =>
      (alike_enforce _ _ _).bind fun _ => alike_pure _) ?_
  rintro b0 ⟨t0, adj0, hb0, n0⟩
  refine (sound_normalize h1 c1).bind (fun _ =>
    (alike_isEqZero _).bind fun _ => (alike_boolAnd _ _).bind fun _ =>
      (alike_enforce _ _ _).bind fun _ => alike_pure _) ?_
  rintro b1 ⟨t1, adj1, hb1, n1⟩
  refine (sound_isEqZero h1 c1).bind (fun _ => (alike_boolAnd _ _).bind fun _ =>
      (alike_enforce _ _ _).bind fun _ => alike_pure _) ?_
  rintro be ⟨te, inv, hbe, ne⟩
  refine (sound_boolAnd h1 hbe hb0).bind (fun _ =>
      (alike_enforce _ _ _).bind fun _ => alike_pure _) fun bc hbc => ?_
  refine (sound_enforce _ _ _).bind (fun _ => alike_pure _) fun _ he => sound_pure ?_
  refine ⟨⟨ty, t0, adj0, t1, adj1, te, inv⟩, hy, n0, n1, ne, ?_⟩
  rw [evalLc_lcSub, evalLc_lcSub, evalLc_lcVar, h1, hb1, hbc, hy] at he
  exact he

theorem evalLc_occurrences {ρ : R1Var → ZMod p} (h1 : ρ .one = 1) (value : Bool) {bits : List BoolV}
    {ts : List Bool} (h : List.Forall₂ (BitIs ρ) bits ts) :
    evalLc ρ (occurrencesLinComb value bits) = occurrencesLc value ts := by
  induction h with
  | nil => rfl
  | cons hb _ ih =>
    rw [occurrencesLinComb, occurrencesLc, evalLc_append, evalLc_append, ih, evalLc_lcScale, hb]
    cases value <;> simp [h1]

theorem sound_maxOccurrences {ρ : R1Var → ZMod p} (h1 : ρ .one = 1) (o : Bool) {bitmap : List BoolV}
    {ts : List Bool} (hb : List.Forall₂ (BitIs ρ) bitmap ts) (m : LinComb p) (value : Bool) :
    Sound ρ (maxOccurrences o bitmap m value) fun _ =>
      ∃ occ, maxOccurrencesC ts (evalLc ρ m) value occ := by
  intro cs r hr hs
  unfold maxOccurrences at hr
  rw [Outcome.bind_eq_ok_iff] at hr
  obtain ⟨k, _, hr⟩ := hr
  cases hv : bitmap.any BoolV.isVar with
  | false => rw [hv] at hr; cases hr
  | true =>
    rw [hv, if_pos rfl] at hr
    refine Sound.bind (g := newWitness fun _ => .ok (k.toNat : ZMod p)) (Q := fun _ => True)
      (R := fun _ => ∃ occ, maxOccurrencesC ts (evalLc ρ m) value occ) sound_any
      (fun v => (alike_enforceCmpLe _ _).bind fun _ => alike_enforce _ _ _) (fun v _ => ?_) cs r hr hs
    refine (sound_enforceCmpLe h1 _ _).bind (fun _ => alike_enforce _ _ _) fun _ hc => ?_
    refine (sound_enforce _ _ _).mono fun _ he => ?_
    rw [evalLc_lcVar] at hc
    rw [evalLc_occurrences h1 value hb, evalLc_lcVar, evalLc_lcVar, h1] at he
    exact ⟨ρ v, hc, he⟩

theorem forall₂_zip_mem {α β : Type} {R : α → β → Prop} {l : List α} {m : List β}
    (hlen : l.length = m.length) (h : ∀ t ∈ l.zip m, R t.1 t.2) : List.Forall₂ R l m := by
  induction l generalizing m with
  | nil => cases m with
    | nil => exact .nil
    | cons _ _ => simp at hlen
  | cons a as ih => cases m with
    | nil => simp at hlen
    | cons b bs =>
      refine .cons (h (a, b) (by simp)) (ih (by simpa using hlen) fun t ht => h t ?_)
      simp [ht]

theorem sound_packChunk {ρ : R1Var → ZMod p} (h1 : ρ .one = 1) (input : Bool) {chunk : List BoolV}
    {ts : List Bool} (hb : List.Forall₂ (BitIs ρ) chunk ts) :
    Sound ρ (packChunk input chunk) fun l => ∀ j < ts.length,
      (fieldBitsBe (bitLength p) (evalLc ρ l))[bitLength p - ts.length + j]? = ts[j]? := by
  have hrest : ∀ (v : R1Var) (bits : List BoolV), Alike (p := p)
      (if bits.length < chunk.length then Synth.panic else do
        Synth.forM (fun t => boolEnforceEqual t.1 t.2)
          ((bits.reverse.drop (bits.length - chunk.length)).zip chunk)
        Synth.pure (lcVar (p := p) v))
      (if bits.length < chunk.length then Synth.panic else do
        Synth.forM (fun t => boolEnforceEqual t.1 t.2)
          ((bits.reverse.drop (bits.length - chunk.length)).zip chunk)
        Synth.pure (lcVar (p := p) v)) := by
    intro v bits
    by_cases h : bits.length < chunk.length
    · rw [if_pos h]; exact alike_panic _
    · rw [if_neg h]
      exact (alike_forM (forall₂_same' (fun _ => alike_boolEnforceEqual _ _) _)).bind fun _ =>
        alike_pure _
  refine Sound.bind sound_any (fun v => (alike_toBitsLe _).bind (hrest v)) fun v _ => ?_
  refine (sound_toBitsLe h1 _).bind (hrest v) fun bits hbits => ?_
  by_cases h : bits.length < chunk.length
  · rw [if_pos h]; exact sound_panic
  rw [if_neg h]
  have hlen : bits.length = bitLength p := by
    rw [hbits.length_eq]; simp
  have hcl : chunk.length = ts.length := hb.length_eq
  -- the bits compared
  have hrev := forall₂_drop' (List.rel_reverse hbits) (bits.length - chunk.length)
  have hq : Sound ρ (Synth.forM (fun t => boolEnforceEqual t.1 t.2)
      ((bits.reverse.drop (bits.length - chunk.length)).zip chunk))
      fun _ => ∀ t ∈ (bits.reverse.drop (bits.length - chunk.length)).zip chunk,
        ∀ s u, BitIs ρ t.1 s → BitIs ρ t.2 u → s = u := by
    refine sound_forM (fun t => ?_) (fun t => alike_boolEnforceEqual _ _) _
    intro cs r hr hs s u hs' hu
    exact sound_boolEnforceEqual h1 hs' hu cs r hr hs
  refine hq.bind (fun _ => alike_pure _) fun _ hz => sound_pure ?_
  have hzip := forall₂_zip_mem (R := fun a b => ∀ s u, BitIs ρ a s → BitIs ρ b u → s = u)
    (by rw [List.length_drop, List.length_reverse]; omega) hz
  rw [evalLc_lcVar] at hrev
  have heq : (((List.range (bitLength p)).map (ρ v).val.testBit).reverse).drop
      (bits.length - chunk.length) = ts := by
    generalize (((List.range (bitLength p)).map (ρ v).val.testBit).reverse).drop
      (bits.length - chunk.length) = us at hrev
    clear hz hq h hlen hcl hrest
    generalize bits.reverse.drop (bits.length - chunk.length) = ds at hrev hzip
    clear hbits
    induction hzip generalizing us ts with
    | nil => cases hrev; cases hb; rfl
    | cons h1 _ ih =>
      cases hrev with
      | cons r1 r2 =>
        cases hb with
        | cons b1 b2 => rw [h1 _ _ r1 b1, ih b2 _ r2]
  rw [evalLc_lcVar]
  rw [hlen, hcl] at heq
  intro j _
  have := congrArg (fun l : List Bool => l[j]?) heq
  simp only [List.getElem?_drop] at this
  exact this

theorem sound_multipack {ρ : R1Var → ZMod p} (h1 : ρ .one = 1) (input : Bool) (n : ℕ)
    {bits : List BoolV} {ts : List Bool} (hb : List.Forall₂ (BitIs ρ) bits ts) :
    Sound ρ (multipack input n bits) fun ls =>
      multipackC (bitLength p) n ts (ls.map (evalLc ρ)) := by
  have hch : List.Forall₂ (List.Forall₂ (BitIs ρ)) (chunks n bits) (chunks n ts) := by
    by_cases hn : n = 0
    · rw [chunks, dif_pos (Or.inl hn), chunks, dif_pos (Or.inl hn)]; exact .nil
    · generalize hk : bits.length = k
      induction k using Nat.strong_induction_on generalizing bits ts with
      | _ k ih =>
        cases hb with
        | nil => rw [chunks_nil, chunks_nil]; exact .nil
        | @cons a b as bs h2 h3 =>
          rw [chunks_cons hn (List.cons_ne_nil a as), chunks_cons hn (List.cons_ne_nil b bs)]
          refine .cons (forall₂_take' (.cons h2 h3) n) ?_
          refine ih _ ?_ (forall₂_drop' (.cons h2 h3) n) rfl
          rw [← hk, List.length_drop, List.length_cons]
          omega
  unfold multipack multipackC
  generalize chunks n bits = cs at hch
  generalize chunks n ts = us at hch
  induction hch with
  | nil => exact sound_pure .nil
  | cons hc _ ih =>
    refine (sound_packChunk h1 input hc).bind
      (fun _ => Alike.bind (alike_mapM (forall₂_same' (fun _ => alike_packChunk _ _) _))
        fun _ => alike_pure _) fun l hl => ?_
    refine ih.bind (fun _ => alike_pure _) fun ls hls => sound_pure ?_
    exact .cons hl hls

end

end Verif
