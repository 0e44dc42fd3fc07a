import Verif.Lemmas.SynthesisCost
import Verif.Props.PublicInputs
import Verif.Props.CircuitCurve

/-!
# Properties C110 to C112: synthesis of the gadgets into rank-1 constraints
-/

set_option exponentiation.threshold 800
set_option linter.unusedSectionVars false

namespace Verif

/-! ## C110 -/

section

variable {p : ℕ}

/-- Both runs created the same variables and emitted the same constraints. -/
def SameShape (cs cs' : ConstraintSystem p) : Prop :=
  cs.numInst = cs'.numInst ∧ cs.numWit = cs'.numWit ∧ cs.constraints = cs'.constraints

theorem Alike.sameShape {α : Type} {g g' : Synth p α} (h : Alike g g') {s s' : Bool}
    {r r' : α × ConstraintSystem p} (hr : g (.new p s) = .ok r) (hr' : g' (.new p s') = .ok r') :
    r.1 = r'.1 ∧ SameShape r.2 r'.2 := by
  obtain ⟨e1, e2, e3, _, _, new, e6, e7⟩ := h (.new p s) (.new p s') r r' rfl rfl hr hr'
  exact ⟨e1, e2, e3, by rw [e6, e7]; rfl⟩

/-- C110: the circuit of the bitmap has the same variables and constraints in the setup and for the
prover, whatever the bitmaps (of the same length) and maxima, with or without overflow checks. -/
theorem C110_bitmap {o o' : Bool} {bitmap bitmap' : List (Option Bool)}
    (h : bitmap.length = bitmap'.length) {m m' : ℕ} {value s s' : Bool}
    {r r' : Unit × ConstraintSystem p} (hr : bitmapCircuit o bitmap m value (.new p s) = .ok r)
    (hr' : bitmapCircuit o' bitmap' m' value (.new p s') = .ok r') : SameShape r.2 r'.2 :=
  ((alike_bitmapCircuit o o' h m m' value).sameShape hr hr').2

/-- C110: likewise the circuit of the square root. -/
theorem C110_square {x x' : Option (ZMod p)} {s s' : Bool} {r r' : Unit × ConstraintSystem p}
    (hr : testCircuit x (.new p s) = .ok r) (hr' : testCircuit x' (.new p s') = .ok r') :
    SameShape r.2 r'.2 := ((alike_testCircuit x x').sameShape hr hr').2

/-- C110: likewise the circuits of the sign of a point, for any two points, on the curve or not. -/
theorem C110_sign_g1 {b : ZMod p} {P Q : ZMod p × ZMod p × ZMod p} {s s' : Bool}
    {r r' : BoolV × ConstraintSystem p} (hr : yToBitG1Circuit b P (.new p s) = .ok r)
    (hr' : yToBitG1Circuit b Q (.new p s') = .ok r') : r.1 = r'.1 ∧ SameShape r.2 r'.2 :=
  ((alike_allocPointG1 _ _ _ _ _ _ _).bind fun _ => alike_normalize _).sameShape hr hr'

/-- C110: likewise over the extension. -/
theorem C110_sign_g2 {nr b0 b1 : ZMod p}
    {P Q : (ZMod p × ZMod p) × (ZMod p × ZMod p) × (ZMod p × ZMod p)} {s s' : Bool}
    {r r' : BoolV × ConstraintSystem p} (hr : yToBitG2Circuit nr b0 b1 P (.new p s) = .ok r)
    (hr' : yToBitG2Circuit nr b0 b1 Q (.new p s') = .ok r') : r.1 = r'.1 ∧ SameShape r.2 r'.2 :=
  ((alike_allocPointG2 _ _ _ _ _ _ _ _ _).bind fun _ => alike_yToBitG2 _ _).sameShape hr hr'

/-- C110: likewise every gadget, wherever it is used: run from two systems with as many variables, it
returns the same variables, allocates as many and appends the same constraints.  The bits and
coordinates given to it can be any. -/
theorem C110_gadgets :
    (∀ el : FpV p, Alike (isEqZero el) (isEqZero el)) ∧
    (∀ el : FpV p, Alike (normalize el) (normalize el)) ∧
    (∀ c0 c1 : FpV p, Alike (yToBitG2 c0 c1) (yToBitG2 c0 c1)) ∧
    (∀ (o o' : Bool) (bitmap : List BoolV) (m : LinComb p) (value : Bool),
      Alike (maxOccurrences o bitmap m value) (maxOccurrences o' bitmap m value)) ∧
    ∀ (input : Bool) (n : ℕ) (bits : List BoolV),
      Alike (p := p) (multipack input n bits) (multipack input n bits) :=
  ⟨alike_isEqZero, alike_normalize, alike_yToBitG2, alike_maxOccurrences, alike_multipack⟩

end

section

variable {p : ℕ} [Fact p.Prime]

theorem new_closed (p : ℕ) (s : Bool) : (ConstraintSystem.new p s).Closed := by
  intro k hk
  simp [ConstraintSystem.new] at hk

theorem new_good (p : ℕ) (s : Bool) : (ConstraintSystem.new p s).Good :=
  ⟨new_closed p s, fun _ => rfl, fun _ => rfl, fun _ _ hk => absurd hk List.not_mem_nil⟩

theorem setup_good {cs : ConstraintSystem p} (hc : cs.Closed) (hs : cs.setup = true) : cs.Good :=
  ⟨hc, fun h => absurd (hs.symm.trans h) (by simp), fun h => absurd (hs.symm.trans h) (by simp),
    fun h => absurd (hs.symm.trans h) (by simp)⟩

theorem lcAt_setup {cs : ConstraintSystem p} (hs : cs.setup = true) {l : LinComb p}
    (hl : cs.Scoped l) (x : ZMod p) : LcAt cs l x := ⟨hl, fun h => by rw [hs] at h; cases h⟩

theorem fpAt_setup {cs : ConstraintSystem p} (hs : cs.setup = true) {el : FpV p}
    (hl : el.ScopedIn cs) : ∃ v, FpAt cs el v := by
  cases el with
  | constant v => exact ⟨.constant v, rfl⟩
  | var l => exact ⟨.var 0, lcAt_setup hs hl 0⟩

/-- The value of a constant bit; for an allocated one, `d`. -/
def BoolV.phantom (d : Bool) : BoolV → Bool
  | .constant c => c
  | _ => d

theorem bitAt_setup {cs : ConstraintSystem p} (hs : cs.setup = true) {b : BoolV}
    (hb : cs.Scoped (b.lc (p := p))) (d : Bool) : BitAt cs b (b.phantom d) := by
  cases b with
  | constant c => exact bitAt_constant cs c
  | is v => exact ⟨lcAt_setup hs hb _, fun c hc => by cases hc⟩
  | not v => exact ⟨lcAt_setup hs hb _, fun c hc => by cases hc⟩

theorem bitAts_setup {cs : ConstraintSystem p} (hs : cs.setup = true) {bs : List BoolV}
    (hb : ∀ b ∈ bs, cs.Scoped (b.lc (p := p))) (d : Bool) :
    List.Forall₂ (BitAt cs) bs (bs.map (BoolV.phantom d)) := by
  induction bs with
  | nil => exact .nil
  | cons b bs ih =>
    exact .cons (bitAt_setup hs (hb b List.mem_cons_self) d)
      (ih fun c hc => hb c (List.mem_cons_of_mem _ hc))

/-- C110: in setup mode, where no variable has a value, every gadget runs to the end; the bound on
the occurrences needs an allocated bit. -/
theorem C110_setup_runs (hp : p ≠ 2) {cs : ConstraintSystem p} (hc : cs.Closed)
    (hs : cs.setup = true) :
    (∀ el : FpV p, el.ScopedIn cs → ∃ r, isEqZero el cs = .ok r) ∧
    (∀ el : FpV p, el.ScopedIn cs → ∃ r, normalize el cs = .ok r) ∧
    (∀ c0 c1 : FpV p, c0.ScopedIn cs → c1.ScopedIn cs → ∃ r, yToBitG2 c0 c1 cs = .ok r) ∧
    (∀ (o : Bool) (bitmap : List BoolV) (m : LinComb p) (value : Bool),
      (∀ b ∈ bitmap, cs.Scoped (b.lc (p := p))) → cs.Scoped m → bitmap.length < halfOf p →
      ((∃ r, maxOccurrences o bitmap m value cs = .ok r) ↔ ∃ b ∈ bitmap, b.isVar = true)) ∧
    ∀ (input : Bool) (n : ℕ) (bits : List BoolV), n ≠ 0 → 2 ^ n ≤ p →
      (∀ b ∈ bits, cs.Scoped (b.lc (p := p))) → ∃ r, multipack input n bits cs = .ok r := by
  have hg := setup_good hc hs
  refine ⟨fun el hl => ?_, fun el hl => ?_, fun c0 c1 h0 h1 => ?_, fun o bitmap m value hb hm hlen => ?_,
    fun input n bits hn hnp hb => ?_⟩
  · obtain ⟨v, hv⟩ := fpAt_setup hs hl
    obtain ⟨r, h, _⟩ := step_isEqZero hg hv
    exact ⟨r, h⟩
  · obtain ⟨v, hv⟩ := fpAt_setup hs hl
    obtain ⟨r, h, _⟩ := step_normalize hp hg hv
    exact ⟨r, h⟩
  · obtain ⟨v0, hv0⟩ := fpAt_setup hs h0
    obtain ⟨v1, hv1⟩ := fpAt_setup hs h1
    obtain ⟨r, h, _⟩ := step_yToBitG2 hp hg hv0 hv1
    exact ⟨r, h⟩
  · constructor
    · rintro ⟨r, hr⟩
      unfold maxOccurrences at hr
      rw [Outcome.bind_eq_ok_iff] at hr
      obtain ⟨k, _, hr⟩ := hr
      cases hv : bitmap.any BoolV.isVar with
      | false => rw [hv] at hr; cases hr
      | true => simpa using hv
    · intro hv
      have hhalf : halfOf p ≤ p := by unfold halfOf; omega
      have hbits := bitAts_setup hs hb (!value)
      set ts := bitmap.map (BoolV.phantom (!value)) with hts
      have hl : ts.length = bitmap.length := by rw [hts, List.length_map]
      have hcount : ts.count value ≤ ts.length := List.count_le_length
      have hC := C38_complete hp ts ((ts.count value : ℕ) : ZMod p) value (by omega)
        (by rw [ZMod.val_natCast_of_lt (by omega)])
        (by rw [ZMod.val_natCast_of_lt (by omega)]; omega)
      obtain ⟨r, h, _⟩ := step_maxOccurrences hp hg (o := o) hbits (by simpa using hv)
        (lcAt_setup hs hm _) (k := 0) (fun h => by rw [hs] at h; cases h)
        (fun h => by rw [hs] at h; cases h) hC
      exact ⟨r, h⟩
  · have hle : n ≤ bitLength p := by
      have := lt_two_pow_bitLength p
      exact (Nat.pow_lt_pow_iff_right (by norm_num : 1 < 2)).1 (hnp.trans_lt this) |>.le
    obtain ⟨r, h, _⟩ := step_multipack hp hg input hle (bitAts_setup hs hb false) (pack_map hn hnp _)
    exact ⟨r, h⟩

/-! ## C111 -/

theorem agree_one {cs : ConstraintSystem p} {σ ρ : R1Var → ZMod p} (h1 : σ .one = 1)
    (h : cs.Agree σ ρ) : ρ .one = 1 := by rw [h .one trivial, h1]

/-- C111: `is_eq_zero` as constraints.  Whatever values `σ` the variables had before, the new ones can be
assigned so that all constraints hold and the bit is `t`, exactly if `t` tells whether the element is
zero. -/
theorem C111_is_eq_zero {cs : ConstraintSystem p} (hc : cs.Closed) {l : LinComb p} (hl : cs.Scoped l)
    {r : BoolV × ConstraintSystem p} (hr : isEqZero (.var l) cs = .ok r) {σ : R1Var → ZMod p}
    (h1 : σ .one = 1) (hs : cs.Sat σ) (t : Bool) :
    (∃ ρ, cs.Agree σ ρ ∧ r.2.Sat ρ ∧ evalLc ρ r.1.lc = bit t) ↔ (t = true ↔ evalLc σ l = 0) := by
  constructor
  · rintro ⟨ρ, ha, hsat, ht⟩
    obtain ⟨t', inv, h2, h3⟩ := sound_isEqZero (agree_one h1 ha) (.var l) cs r hr hsat
    have : t' = t := bit_inj (p := p) (h2.symm.trans ht)
    subst this
    rw [C35_sound _ _ _ h3, FpV.at, FpVar.value_var, ha.evalLc hl]
  · intro ht
    have hg := withVals_good h1 hc hs
    obtain ⟨c, h2, h3, h4, h5⟩ := exists_extension (alike_isEqZero _) hr h1
      (step_isEqZero hg (fpAt_withVals h1 (el := .var l) hl)) hg
    refine ⟨c.rho, h3, h4, ?_⟩
    have h6 := h5.bitIs h2
    rw [FpV.at, FpVar.value_var] at h6
    rw [h6]
    congr 1
    by_cases hz : evalLc σ l = 0
    · simp [hz, ht.2 hz]
    · cases t with
      | true => exact absurd (ht.1 rfl) hz
      | false => simp [hz]

/-- C111: `normalize` as constraints: the bit is forced to the comparison with half the modulus, except
on the half itself, where the prover chooses. -/
theorem C111_normalize (hp : p ≠ 2) {cs : ConstraintSystem p} (hc : cs.Closed) {l : LinComb p}
    (hl : cs.Scoped l) {r : BoolV × ConstraintSystem p} (hr : normalize (.var l) cs = .ok r)
    {σ : R1Var → ZMod p} (h1 : σ .one = 1) (hs : cs.Sat σ) (t : Bool) :
    (∃ ρ, cs.Agree σ ρ ∧ r.2.Sat ρ ∧ evalLc ρ r.1.lc = bit t) ↔
      (t = decide ((evalLc σ l).val > halfOf p) ∨ (evalLc σ l).val = halfOf p) := by
  constructor
  · rintro ⟨ρ, ha, hsat, ht⟩
    obtain ⟨t', adj, h2, h3⟩ := sound_normalize (agree_one h1 ha) (.var l) cs r hr hsat
    have : t' = t := bit_inj (p := p) (h2.symm.trans ht)
    subst this
    rw [← C36_exact hp]
    rw [FpV.at, ha.evalLc hl] at h3
    exact ⟨adj, h3⟩
  · rw [← C36_exact hp]
    rintro ⟨adj, h3⟩
    have hg := withVals_good h1 hc hs
    obtain ⟨c, h4, h5, h6, h7⟩ := exists_extension (alike_normalizeAs t adj _) hr h1
      (step_normalizeAs hg (fpAt_withVals h1 (el := .var l) hl) h3) hg
    exact ⟨c.rho, h5, h6, h7.bitIs h4⟩

/-- C111: `y_to_bit` of G2 as constraints. -/
theorem C111_sign_g2 (hp : p ≠ 2) (hp3 : halfOf p ≠ 0) {cs : ConstraintSystem p} (hc : cs.Closed)
    {l0 l1 : LinComb p} (hl0 : cs.Scoped l0) (hl1 : cs.Scoped l1) {r : BoolV × ConstraintSystem p}
    (hr : yToBitG2 (.var l0) (.var l1) cs = .ok r) {σ : R1Var → ZMod p} (h1 : σ .one = 1)
    (hs : cs.Sat σ) (t : Bool) :
    (∃ ρ, cs.Agree σ ρ ∧ r.2.Sat ρ ∧ evalLc ρ r.1.lc = bit t) ↔
      (t = nativeFlag (evalLc σ l0) (evalLc σ l1) ∨ (evalLc σ l1).val = halfOf p ∨
        (evalLc σ l1 = 0 ∧ (evalLc σ l0).val = halfOf p)) := by
  rw [← C37_exact hp hp3]
  constructor
  · rintro ⟨ρ, ha, hsat, ht⟩
    obtain ⟨w, h2, h3⟩ := sound_yToBitG2 (agree_one h1 ha) (.var l0) (.var l1) cs r hr hsat
    refine ⟨w, ?_, bit_inj (p := p) (h2.symm.trans ht)⟩
    rw [FpV.at, FpV.at, ha.evalLc hl0, ha.evalLc hl1] at h3
    exact h3
  · rintro ⟨w, h3, rfl⟩
    have hg := withVals_good h1 hc hs
    obtain ⟨c, h4, h5, h6, h7⟩ := exists_extension (alike_yToBitG2As w _ _) hr h1
      (step_yToBitG2As hg (fpAt_withVals h1 (el := .var l0) hl0)
        (fpAt_withVals h1 (el := .var l1) hl1) h3) hg
    exact ⟨c.rho, h5, h6, h7.bitIs h4⟩

/-- C111: constants: the bit is forced in every case, and is that of the element; half the modulus is no
exception. -/
theorem C111_constants (hp : p ≠ 2) {cs : ConstraintSystem p} (hc : cs.Closed) {σ : R1Var → ZMod p}
    (h1 : σ .one = 1) (hs : cs.Sat σ) (t : Bool) :
    (∀ v r, isEqZero (.constant v) cs = .ok r →
      ((∃ ρ, cs.Agree σ ρ ∧ r.2.Sat ρ ∧ evalLc ρ r.1.lc = bit t) ↔ (t = true ↔ v = 0))) ∧
    (∀ v r, normalize (.constant v) cs = .ok r →
      ((∃ ρ, cs.Agree σ ρ ∧ r.2.Sat ρ ∧ evalLc ρ r.1.lc = bit t) ↔ (t = true ↔ v.val > halfOf p))) ∧
    ∀ v0 v1 r, yToBitG2 (.constant v0) (.constant v1) cs = .ok r →
      ((∃ ρ, cs.Agree σ ρ ∧ r.2.Sat ρ ∧ evalLc ρ r.1.lc = bit t) ↔ t = nativeFlag v0 v1) := by
  have hg := withVals_good h1 hc hs
  refine ⟨fun v r hr => ⟨?_, fun ht => ?_⟩, fun v r hr => ⟨?_, fun ht => ?_⟩,
    fun v0 v1 r hr => ⟨?_, ?_⟩⟩
  · rintro ⟨ρ, ha, hsat, ht⟩
    obtain ⟨t', inv, h2, h3⟩ := sound_isEqZero (agree_one h1 ha) (.constant v) cs r hr hsat
    obtain rfl : t' = t := bit_inj (p := p) (h2.symm.trans ht)
    exact C35_sound _ _ _ h3
  · obtain ⟨c, h2, h3, h4, h5⟩ := exists_extension (alike_isEqZero _) hr h1
      (step_isEqZero hg (fpAt_withVals h1 (el := .constant v) trivial)) hg
    refine ⟨c.rho, h3, h4, (h5.bitIs h2).trans (congrArg bit ?_)⟩
    rw [Bool.eq_iff_iff, ht, decide_eq_true_iff]
    rfl
  · rintro ⟨ρ, ha, hsat, ht⟩
    obtain ⟨t', adj, h2, h3⟩ := sound_normalize (agree_one h1 ha) (.constant v) cs r hr hsat
    obtain rfl : t' = t := bit_inj (p := p) (h2.symm.trans ht)
    have h3 : t' = decide (v.val > halfOf p) := h3
    rw [h3, decide_eq_true_iff]
  · obtain ⟨c, h2, h3, h4, h5⟩ := exists_extension (alike_normalize _) hr h1
      (step_normalize hp hg (fpAt_withVals h1 (el := .constant v) trivial)) hg
    refine ⟨c.rho, h3, h4, (h5.bitIs h2).trans (congrArg bit ?_)⟩
    rw [Bool.eq_iff_iff, ht, decide_eq_true_iff]
    rfl
  · rintro ⟨ρ, ha, hsat, ht⟩
    obtain ⟨w, h2, n0, n1, z, eqn⟩ := sound_yToBitG2 (agree_one h1 ha) (.constant v0) (.constant v1)
      cs r hr hsat
    have hw : w.yBit = t := bit_inj (p := p) (h2.symm.trans ht)
    have n0 : w.c0Bit = decide (v0.val > halfOf p) := n0
    have n1 : w.c1Bit = decide (v1.val > halfOf p) := n1
    have z : w.eqBit = decide (v1 = 0) := z
    rw [n0, n1, z, bit_eqn_iff, hw] at eqn
    exact eqn
  · rintro rfl
    obtain ⟨c, h2, h3, h4, h5⟩ := exists_extension (alike_yToBitG2 _ _) hr h1
      (step_yToBitG2 hp hg (fpAt_withVals h1 (el := .constant v0) trivial)
        (fpAt_withVals h1 (el := .constant v1) trivial)) hg
    exact ⟨c.rho, h3, h4, h5.bitIs h2⟩

/-- C111: the bound on the occurrences as constraints: they can be satisfied exactly if no more bits of
the bitmap have the value than the maximum, and the maximum is below half the modulus. -/
theorem C111_occurrences (hp : p ≠ 2) {cs : ConstraintSystem p} (hc : cs.Closed) {o : Bool}
    {bitmap : List BoolV} (hb : ∀ b ∈ bitmap, cs.Scoped (b.lc (p := p))) {m : LinComb p}
    (hm : cs.Scoped m) {value : Bool} {r : Unit × ConstraintSystem p}
    (hr : maxOccurrences o bitmap m value cs = .ok r) {σ : R1Var → ZMod p} (h1 : σ .one = 1)
    (hs : cs.Sat σ) {ts : List Bool} (ht : List.Forall₂ (fun b t => evalLc σ b.lc = bit t) bitmap ts)
    (hlen : bitmap.length < p) :
    (∃ ρ, cs.Agree σ ρ ∧ r.2.Sat ρ) ↔
      ts.count value ≤ (evalLc σ m).val ∧ (evalLc σ m).val < halfOf p := by
  rw [← C38_exact hp ts _ value (by rw [← ht.length_eq]; exact hlen)]
  constructor
  · rintro ⟨ρ, ha, hsat⟩
    obtain ⟨occ, h2⟩ := sound_maxOccurrences (agree_one h1 ha) o (bitIs_agree ha hb ht) m value cs r hr
      hsat
    rw [ha.evalLc hm] at h2
    exact ⟨occ, h2⟩
  · rintro ⟨occ, h2⟩
    have hg := withVals_good h1 hc hs
    obtain ⟨c, _, h5, h6, _⟩ := exists_extension (alike_maxOccurrencesAs occ o _ _ _) hr h1
      (step_maxOccurrencesAs hp hg (bitAts_withVals h1 hb ht) (lcAt_withVals h1 hm) h2) hg
    exact ⟨c.rho, h5, h6⟩

/-- C111: the packing of bits as constraints: the packed elements can be any whose low bits are those
of the chunk, and no others. -/
theorem C111_pack (hp : p ≠ 2) {cs : ConstraintSystem p} (hc : cs.Closed) {input : Bool} {n : ℕ}
    (hn0 : n ≠ 0) (hn : n ≤ bitLength p) {bits : List BoolV}
    (hb : ∀ b ∈ bits, cs.Scoped (b.lc (p := p))) {r : List (LinComb p) × ConstraintSystem p}
    (hr : multipack input n bits cs = .ok r) {σ : R1Var → ZMod p} (h1 : σ .one = 1) (hs : cs.Sat σ)
    {ts : List Bool} (ht : List.Forall₂ (fun b t => evalLc σ b.lc = bit t) bits ts)
    (vs : List (ZMod p)) :
    (∃ ρ, cs.Agree σ ρ ∧ r.2.Sat ρ ∧ r.1.map (evalLc ρ) = vs) ↔
      List.Forall₂ (fun c x => x.val % 2 ^ c.length = ofBitsLE c.reverse) (chunks n ts) vs := by
  rw [← C54_exact hn0 hn]
  constructor
  · rintro ⟨ρ, ha, hsat, rfl⟩
    exact sound_multipack (agree_one h1 ha) input n (bitIs_agree ha hb ht) cs r hr hsat
  · intro h2
    have hg := withVals_good h1 hc hs
    have hlen : (chunks n bits).length = vs.length := by
      rw [(forall₂_chunks (n := n) ht).1.length_eq]
      exact h2.length_eq
    obtain ⟨c, h4, h5, h6, h7⟩ := exists_extension (alike_multipackAs input n bits vs hlen) hr h1
      (step_multipackAs hp hg input hn (bitAts_withVals h1 hb ht) h2) hg
    refine ⟨c.rho, h5, h6, ?_⟩
    clear h2 hlen
    generalize r.1 = ls at h7
    induction h7 with
    | nil => rfl
    | cons h _ ih => rw [List.map_cons, h.rho h4, ih]

/-- C111: the allocation of a point of G1 as constraints: the coordinates can be any on the curve, and
no others (infinity and the triple of zeros included). -/
theorem C111_point_g1 {cs : ConstraintSystem p} (hc : cs.Closed) {b : ZMod p}
    {x y z : ConstraintSystem p → Outcome SynthErr (ZMod p)}
    {r : (LinComb p × LinComb p × LinComb p) × ConstraintSystem p}
    (hr : allocPointG1 b x y z cs = .ok r) {σ : R1Var → ZMod p} (h1 : σ .one = 1) (hs : cs.Sat σ)
    (P : ProjVar (ZMod p)) :
    (∃ ρ, cs.Agree σ ρ ∧ r.2.Sat ρ ∧ evalLc ρ r.1.1 = P.x ∧ evalLc ρ r.1.2.1 = P.y ∧
      evalLc ρ r.1.2.2 = P.z) ↔ P.OnCurve b := by
  constructor
  · rintro ⟨ρ, ha, hsat, hx, hy, hz⟩
    have h : (pointAtG1 ρ r.1).OnCurve b := sound_allocPointG1 b x y z cs r hr hsat
    unfold pointAtG1 at h
    rw [hx, hy, hz] at h
    exact h
  · intro hP
    have hg := withVals_good h1 hc hs
    obtain ⟨c, h4, h5, h6, h7⟩ := exists_extension
      (alike_allocPointG1 b x y z (fun _ => .ok P.x) (fun _ => .ok P.y) (fun _ => .ok P.z)) hr h1
      (step_allocPointG1 hg hP (fun _ _ _ => rfl) (fun _ _ _ => rfl) (fun _ _ _ => rfl)) hg
    exact ⟨c.rho, h5, h6, h7.1.rho h4, h7.2.1.rho h4, h7.2.2.rho h4⟩

end

/-- C111: likewise for G2, over the quadratic extension of the base field, with the multiplications in
three (product) and two (square) constraints. -/
theorem C111_point_g2 {cs : ConstraintSystem FQ_MODULUS} (hc : cs.Closed)
    {x y z : ConstraintSystem FQ_MODULUS → Outcome SynthErr (Fq × Fq)}
    {r : (Fp2V FQ_MODULUS × Fp2V FQ_MODULUS × Fp2V FQ_MODULUS) × ConstraintSystem FQ_MODULUS}
    (hr : allocPointG2 (-5) g2CoeffB.re g2CoeffB.im x y z cs = .ok r) {σ : R1Var → Fq}
    (h1 : σ .one = 1) (hs : cs.Sat σ) (P : ProjVar Fq2) :
    (∃ ρ, cs.Agree σ ρ ∧ r.2.Sat ρ ∧ P = ⟨⟨evalLc ρ r.1.1.c0, evalLc ρ r.1.1.c1⟩,
      ⟨evalLc ρ r.1.2.1.c0, evalLc ρ r.1.2.1.c1⟩, ⟨evalLc ρ r.1.2.2.c0, evalLc ρ r.1.2.2.c1⟩⟩) ↔
      P.OnCurve g2CoeffB := by
  constructor
  · rintro ⟨ρ, ha, hsat, rfl⟩
    exact sound_allocPointG2 (-5) g2CoeffB.re g2CoeffB.im x y z cs r hr hsat
  · intro hP
    have hg := withVals_good h1 hc hs
    obtain ⟨c, h4, h5, h6, h7⟩ := exists_extension
      (alike_allocPointG2 (-5) g2CoeffB.re g2CoeffB.im x y z (fun _ => .ok (P.x.re, P.x.im))
        (fun _ => .ok (P.y.re, P.y.im)) (fun _ => .ok (P.z.re, P.z.im))) hr h1
      (step_allocPointG2 hg (X := P.x) (Y := P.y) (Z := P.z) hP (fun _ _ _ => rfl)
        (fun _ _ _ => rfl) (fun _ _ _ => rfl)) hg
    refine ⟨c.rho, h5, h6, ?_⟩
    rw [h7.1.1.rho h4, h7.1.2.rho h4, h7.2.1.1.rho h4, h7.2.1.2.rho h4, h7.2.2.1.rho h4,
      h7.2.2.2.rho h4]

/-! ## C112 -/

section

variable {p : ℕ}

theorem fpWitness_ok {f : ConstraintSystem p → Outcome SynthErr (ZMod p)} {c : ConstraintSystem p}
    {r : LinComb p × ConstraintSystem p} (h : fpWitness f c = .ok r) :
    r.1 = lcVar (.wit c.numWit) ∧ r.2.numWit = c.numWit + 1 := by
  obtain ⟨s, h1, h2⟩ := synth_bind_ok.1 h
  obtain ⟨a1, _, a3, _, _⟩ := newWitness_ok h1
  cases h2
  exact ⟨by rw [a1], a3⟩

theorem allocPointG1_vars {b : ZMod p} {x y z : ConstraintSystem p → Outcome SynthErr (ZMod p)}
    {c : ConstraintSystem p} {r : (LinComb p × LinComb p × LinComb p) × ConstraintSystem p}
    (h : allocPointG1 b x y z c = .ok r) :
    r.1 = (lcVar (.wit c.numWit), lcVar (.wit (c.numWit + 1)), lcVar (.wit (c.numWit + 2))) := by
  obtain ⟨s1, h1, h⟩ := synth_bind_ok.1 h
  obtain ⟨s2, h2, h⟩ := synth_bind_ok.1 h
  obtain ⟨s3, h3, h⟩ := synth_bind_ok.1 h
  obtain ⟨s4, _, h⟩ := synth_bind_ok.1 h
  obtain ⟨s5, _, h⟩ := synth_bind_ok.1 h
  obtain ⟨s6, _, h⟩ := synth_bind_ok.1 h
  obtain ⟨s7, _, h⟩ := synth_bind_ok.1 h
  obtain ⟨s8, _, h⟩ := synth_bind_ok.1 h
  cases h
  obtain ⟨a1, a2⟩ := fpWitness_ok h1
  obtain ⟨b1, b2⟩ := fpWitness_ok h2
  obtain ⟨c1, _⟩ := fpWitness_ok h3
  rw [a1, b1, c1, b2, a2]

theorem fp2Witness_ok {f : ConstraintSystem p → Outcome SynthErr (ZMod p × ZMod p)}
    {c : ConstraintSystem p} {r : Fp2V p × ConstraintSystem p} (h : fp2Witness f c = .ok r) :
    r.1 = ⟨lcVar (.wit c.numWit), lcVar (.wit (c.numWit + 1))⟩ ∧ r.2.numWit = c.numWit + 2 := by
  obtain ⟨s1, h1, h⟩ := synth_bind_ok.1 h
  obtain ⟨s2, h2, h⟩ := synth_bind_ok.1 h
  obtain ⟨a1, a2⟩ := fpWitness_ok h1
  obtain ⟨b1, b2⟩ := fpWitness_ok h2
  cases h
  exact ⟨by rw [a1, b1, a2], by rw [b2, a2]⟩

theorem allocPointG2_vars {nr b0 b1 : ZMod p}
    {x y z : ConstraintSystem p → Outcome SynthErr (ZMod p × ZMod p)}
    {c : ConstraintSystem p} {r : (Fp2V p × Fp2V p × Fp2V p) × ConstraintSystem p}
    (h : allocPointG2 nr b0 b1 x y z c = .ok r) :
    r.1 = (⟨lcVar (.wit c.numWit), lcVar (.wit (c.numWit + 1))⟩,
      ⟨lcVar (.wit (c.numWit + 2)), lcVar (.wit (c.numWit + 3))⟩,
      ⟨lcVar (.wit (c.numWit + 4)), lcVar (.wit (c.numWit + 5))⟩) := by
  obtain ⟨s1, h1, h⟩ := synth_bind_ok.1 h
  obtain ⟨s2, h2, h⟩ := synth_bind_ok.1 h
  obtain ⟨s3, h3, h⟩ := synth_bind_ok.1 h
  obtain ⟨s4, _, h⟩ := synth_bind_ok.1 h
  obtain ⟨s5, _, h⟩ := synth_bind_ok.1 h
  obtain ⟨s6, _, h⟩ := synth_bind_ok.1 h
  obtain ⟨s7, _, h⟩ := synth_bind_ok.1 h
  obtain ⟨s8, _, h⟩ := synth_bind_ok.1 h
  cases h
  obtain ⟨a1, a2⟩ := fp2Witness_ok h1
  obtain ⟨b1, b2⟩ := fp2Witness_ok h2
  obtain ⟨c1, _⟩ := fp2Witness_ok h3
  rw [a1, b1, c1, b2, a2]

theorem Step.andRun {α : Type} {cs : ConstraintSystem p} {g : Synth p α}
    {Q : ConstraintSystem p → α → Prop} {R : α → Prop} (h : Step cs g Q)
    (hr : ∀ r, g cs = .ok r → R r.1) : Step cs g fun c x => Q c x ∧ R x := by
  obtain ⟨r, h1, h2, h3, h4⟩ := h
  exact ⟨r, h1, h2, h3, h4, hr r h1⟩

end

section

variable {p : ℕ} [Fact p.Prime]

/-- C112: the circuit of the sign of a point of G1, built in any mode for any triple: the constraints can
be satisfied with the coordinates `P` and the sign `t` exactly if `P` is on the curve and `t` is the
sign of its `y` (either sign, if that is half the modulus). -/
theorem C112_sign_g1 (hp : p ≠ 2) {b : ZMod p} {Q : ZMod p × ZMod p × ZMod p} {s : Bool}
    {r : BoolV × ConstraintSystem p} (hr : yToBitG1Circuit b Q (.new p s) = .ok r)
    (P : ProjVar (ZMod p)) (t : Bool) :
    (∃ ρ : R1Var → ZMod p, ρ .one = 1 ∧ r.2.Sat ρ ∧ ρ (.wit 0) = P.x ∧ ρ (.wit 1) = P.y ∧
      ρ (.wit 2) = P.z ∧ evalLc ρ r.1.lc = bit t) ↔
    P.OnCurve b ∧ (t = decide (P.y.val > halfOf p) ∨ P.y.val = halfOf p) := by
  constructor
  · rintro ⟨ρ, h1, hsat, hx, hy, hz, ht⟩
    obtain ⟨u, hu, hr'⟩ := synth_bind_ok.1 hr
    have hv := allocPointG1_vars hu
    have hc : (pointAtG1 ρ u.1).OnCurve b := sound_allocPointG1 b _ _ _ _ u hu
      ((alike_normalize _).sat hr' hsat)
    obtain ⟨t', adj, h2, h3⟩ := sound_normalize h1 _ _ r hr' hsat
    have : t' = t := bit_inj (p := p) (h2.symm.trans ht)
    subst this
    unfold pointAtG1 at hc
    rw [hv] at hc h3
    simp only [FpV.at, evalLc_lcVar] at hc h3
    change normalizeC (.var (ρ (.wit 1))) adj t' at h3
    change ProjVar.OnCurve b ⟨ρ (.wit 0), ρ (.wit 1), ρ (.wit 2)⟩ at hc
    rw [hx, hy, hz] at hc
    rw [hy] at h3
    exact ⟨hc, (C36_exact hp _ _).1 ⟨adj, h3⟩⟩
  · rintro ⟨hP, ht⟩
    obtain ⟨adj, h3⟩ := (C36_exact hp _ _).2 ht
    have hg : ((ConstraintSystem.new p s).withVals fun _ => 1).Good :=
      withVals_good rfl (new_closed p s) fun k hk => absurd hk List.not_mem_nil
    have hstep : Step ((ConstraintSystem.new p s).withVals fun _ => 1) (do
        let v ← allocPointG1 b (fun _ => .ok P.x) (fun _ => .ok P.y) (fun _ => .ok P.z)
        normalizeAs t adj (.var v.2.1)) fun c bt => BitAt c bt t ∧ LcAt c (lcVar (.wit 0)) P.x ∧
          LcAt c (lcVar (.wit 1)) P.y ∧ LcAt c (lcVar (.wit 2)) P.z := by
      refine ((step_allocPointG1 hg hP (fun _ _ _ => rfl) (fun _ _ _ => rfl)
        (fun _ _ _ => rfl)).andRun (R := fun v => v = (lcVar (.wit 0), lcVar (.wit 1), lcVar (.wit 2)))
        fun r h => allocPointG1_vars h).bind fun c1 v g1 e1 hv => ?_
      obtain ⟨⟨ax, ay, az⟩, hv⟩ := hv
      subst hv
      exact (step_normalizeAs (el := .var (lcVar (.wit 1))) (v := .var P.y) g1 ay h3).mono fun c bt he hb =>
        ⟨hb, ax.ext g1 he, ay.ext g1 he, az.ext g1 he⟩
    obtain ⟨c, h4, _, h6, h7, h8, h9, h10⟩ := exists_extension
      ((alike_allocPointG1 _ _ _ _ _ _ _).bind fun _ => alike_normalizeAs t adj _) hr
      (σ := fun _ => 1) rfl hstep hg
    refine ⟨c.rho, rfl, h6, ?_, ?_, ?_, h7.bitIs h4⟩
    · rw [← h8.rho h4, evalLc_lcVar]
    · rw [← h9.rho h4, evalLc_lcVar]
    · rw [← h10.rho h4, evalLc_lcVar]

/-- C112: the prover's run on a point of G1: it ends, its own assignment satisfies the constraints, and
the bit has the value of the sign. -/
theorem C112_sign_g1_run (hp : p ≠ 2) {b : ZMod p} {P : ProjVar (ZMod p)} (hP : P.OnCurve b) :
    ∃ r, yToBitG1Circuit b (P.x, P.y, P.z) (.new p false) = .ok r ∧ r.2.Sat r.2.rho ∧
      r.1.value p r.2 = .ok (decide (P.y.val > halfOf p)) := by
  have hstep : Step (.new p false) (yToBitG1Circuit b (P.x, P.y, P.z))
      fun c bt => BitAt c bt (decide (P.y.val > halfOf p)) :=
    (step_allocPointG1 (new_good p false) hP (fun _ _ _ => rfl) (fun _ _ _ => rfl)
      (fun _ _ _ => rfl)).bind fun c1 v g1 e1 hv => step_normalize (v := .var P.y) hp g1 hv.2.1
  obtain ⟨r, h1, h2, h3, h4⟩ := hstep
  exact ⟨r, h1, h2.sat h3.setup, h4.value h3.setup⟩

/-- C112: the square circuit, built in any mode: the constraints can be satisfied with the public input
`out` exactly if it is a square. -/
theorem C112_square {x : Option (ZMod p)} {s : Bool} {r : Unit × ConstraintSystem p}
    (hr : testCircuit x (.new p s) = .ok r) (out : ZMod p) :
    (∃ ρ : R1Var → ZMod p, ρ .one = 1 ∧ ρ (.inst 0) = out ∧ r.2.Sat ρ) ↔ ∃ v, out = v * v := by
  have hr0 : ∃ r0, testCircuit (none : Option (ZMod p)) (.new p true) = .ok r0 ∧
      r0.2.constraints = [⟨lcVar (.wit 0), lcVar (.wit 0), lcVar (.inst 0)⟩] := ⟨_, rfl, rfl⟩
  obtain ⟨r0, h0, hc0⟩ := hr0
  have hc : r.2.constraints = [⟨lcVar (.wit 0), lcVar (.wit 0), lcVar (.inst 0)⟩] := by
    rw [(C110_square hr h0).2.2, hc0]
  have hsat : ∀ ρ : R1Var → ZMod p, r.2.Sat ρ ↔ ρ (.wit 0) * ρ (.wit 0) = ρ (.inst 0) := by
    intro ρ
    unfold ConstraintSystem.Sat R1Constraint.Holds
    rw [hc]
    simp
  constructor
  · rintro ⟨ρ, _, h2, h3⟩
    rw [hsat, h2] at h3
    exact ⟨ρ (.wit 0), h3.symm⟩
  · rintro ⟨v, rfl⟩
    refine ⟨fun | .one => 1 | .inst _ => v * v | .wit _ => v, rfl, rfl, ?_⟩
    rw [hsat]

/-- C112: the prover's run on a value: its own assignment satisfies the constraints, with the square as
public input. -/
theorem C112_square_run (v : ZMod p) :
    ∃ r, testCircuit (some v) (.new p false) = .ok r ∧ r.2.Sat r.2.rho ∧
      r.2.rho (.inst 0) = v * v := by
  refine ⟨((), .mk false 1 5 [v * v] [v, v, v, v, v]
    [⟨lcVar (.wit 0), lcVar (.wit 0), lcVar (.inst 0)⟩]), rfl, ?_, rfl⟩
  intro k hk
  simp only [List.mem_singleton] at hk
  subst hk
  simp only [R1Constraint.Holds, evalLc_lcVar]
  rfl

theorem bits_vars {γ : Type} (f : γ → ConstraintSystem p → Outcome SynthErr Bool) (l : List γ) :
    ∀ (c : ConstraintSystem p) (r : List BoolV × ConstraintSystem p),
      Synth.mapM (fun i => boolWitness (f i)) l c = .ok r →
      r.1 = (List.range l.length).map (fun i => .is (.wit (c.numWit + i))) ∧
        r.2.numWit = c.numWit + l.length := by
  induction l with
  | nil => intro c r h; cases h; exact ⟨rfl, rfl⟩
  | cons i is ih =>
    intro c r h
    obtain ⟨s1, h1, h⟩ := synth_bind_ok.1 h
    obtain ⟨s2, h2, h⟩ := synth_bind_ok.1 h
    cases h
    obtain ⟨a1, a2⟩ := ih _ _ h2
    obtain ⟨u, k1, k2⟩ := synth_bind_ok.1 h1
    obtain ⟨b1, _, b3, _, _⟩ := newWitness_ok k1
    cases k2
    have b3' : u.2.numWit = c.numWit + 1 := b3
    change s2.1 = (List.range is.length).map (fun i => .is (.wit (u.2.numWit + i))) at a1
    change s2.2.numWit = u.2.numWit + is.length at a2
    refine ⟨?_, by rw [a2, b3', List.length_cons]; omega⟩
    change BoolV.is u.1 :: s2.1 = _
    rw [a1, b1, b3', List.length_cons, List.range_succ_eq_map, List.map_cons, List.map_map]
    refine congrArg₂ List.cons rfl (List.map_congr_left fun j _ => ?_)
    simp only [Function.comp_apply]
    congr 2
    omega

theorem step_boolWitnesses {γ : Type} {f : γ → ConstraintSystem p → Outcome SynthErr Bool}
    {l : List γ} {ts : List Bool} {cs : ConstraintSystem p} (hg : cs.Good)
    (h : cs.setup = false → List.Forall₂ (fun i t => ∀ c, f i c = .ok t) l ts)
    (hlen : l.length = ts.length) :
    Step cs (Synth.mapM (fun i => boolWitness (f i)) l) fun c bits =>
      List.Forall₂ (BitAt c) bits ts := by
  induction l generalizing ts cs with
  | nil =>
    cases ts with
    | nil => exact step_pure hg .nil
    | cons t ts => simp at hlen
  | cons i is ih =>
    cases ts with
    | nil => simp at hlen
    | cons t ts =>
      refine (step_boolWitness (t := t) hg fun hs => ?_).bind fun c1 b g1 e1 hb => ?_
      · cases h hs with
        | cons h1 _ => exact h1 cs
      refine (ih (ts := ts) g1 (fun hs => ?_) (by simpa using hlen)).bind fun c2 bs g2 e2 hbs =>
        step_pure g2 (.cons (hb.1.ext g1 e2) hbs)
      cases h (e1.setup ▸ hs) with
      | cons _ h2 => exact h2

theorem sound_boolWitnesses {γ : Type} {ρ : R1Var → ZMod p} (h1 : ρ .one = 1)
    (f : γ → ConstraintSystem p → Outcome SynthErr Bool) (l : List γ) :
    Sound ρ (Synth.mapM (fun i => boolWitness (f i)) l) fun bits =>
      ∃ ts, List.Forall₂ (BitIs ρ) bits ts := by
  refine (sound_mapM (Q := fun _ b => ∃ t, BitIs ρ b t) (fun _ => sound_boolWitness h1 _)
    (fun _ => alike_boolWitness _ _) l).mono fun bits h => ?_
  induction h with
  | nil => exact ⟨[], .nil⟩
  | cons h _ ih =>
    obtain ⟨t, ht⟩ := h
    obtain ⟨ts, hts⟩ := ih
    exact ⟨t :: ts, .cons ht hts⟩

theorem alike_bits {γ δ : Type} (f : γ → ConstraintSystem p → Outcome SynthErr Bool)
    (f' : δ → ConstraintSystem p → Outcome SynthErr Bool) {l : List γ} {l' : List δ}
    (h : l.length = l'.length) :
    Alike (Synth.mapM (fun i => boolWitness (f i)) l) (Synth.mapM (fun i => boolWitness (f' i)) l') := by
  refine alike_mapM ?_
  induction l generalizing l' with
  | nil => cases l' with
    | nil => exact .nil
    | cons _ _ => simp at h
  | cons a as ih => cases l' with
    | nil => simp at h
    | cons b bs => exact .cons (alike_boolWitness _ _) (ih (by simpa using h))

/-- C112: the bitmap circuit, built in any mode for any bitmap: the constraints can be satisfied with the
values `xs` for the bits and `M` for the maximum exactly if `xs` are bits, no more of them have the
value than the maximum, and that is below half the modulus. -/
theorem C112_bitmap (hp : p ≠ 2) {o : Bool} {bitmap : List (Option Bool)} {m : ℕ} {value s : Bool}
    {r : Unit × ConstraintSystem p} (hr : bitmapCircuit o bitmap m value (.new p s) = .ok r)
    (hlen : bitmap.length < p) (xs : List (ZMod p)) (hxs : xs.length = bitmap.length) (M : ZMod p) :
    (∃ ρ : R1Var → ZMod p, ρ .one = 1 ∧ r.2.Sat ρ ∧
      (∀ i (h : i < xs.length), ρ (.wit i) = xs[i]) ∧ ρ (.wit bitmap.length) = M) ↔
    ∃ ts : List Bool, xs = ts.map bit ∧ ts.count value ≤ M.val ∧ M.val < halfOf p := by
  constructor
  · rintro ⟨ρ, h1, hsat, hx, hM⟩
    obtain ⟨u, hu, hr'⟩ := synth_bind_ok.1 hr
    obtain ⟨w, hw, hr''⟩ := synth_bind_ok.1 hr'
    obtain ⟨a1, a2⟩ := bits_vars (fun b _ => Outcome.unwrap b) bitmap _ u hu
    obtain ⟨b1, _, _, _, _⟩ := newWitness_ok hw
    have hs2 : w.2.Sat ρ := (alike_maxOccurrences o o _ _ _).sat hr'' hsat
    have hs1 : u.2.Sat ρ := (alike_newWitness _ _).sat hw hs2
    obtain ⟨ts, hts⟩ := sound_boolWitnesses h1 (fun b _ => Outcome.unwrap b) bitmap _ u hu hs1
    obtain ⟨occ, ho⟩ := sound_maxOccurrences h1 o hts _ value _ r hr'' hsat
    have hl : ts.length = bitmap.length := by
      rw [← hts.length_eq, a1]; simp
    have hexact := (C38_exact hp ts _ value (by rw [hl]; exact hlen)).1 ⟨occ, ho⟩
    rw [b1, evalLc_lcVar, a2] at hexact
    change ts.count value ≤ (ρ (.wit (0 + bitmap.length))).val ∧
      (ρ (.wit (0 + bitmap.length))).val < halfOf p at hexact
    rw [Nat.zero_add, hM] at hexact
    refine ⟨ts, ?_, hexact⟩
    apply List.ext_getElem (by rw [List.length_map, hl, hxs])
    intro i hi1 hi2
    rw [List.length_map] at hi2
    rw [← hx i hi1, List.getElem_map]
    have hi3 : i < u.1.length := by rw [hts.length_eq]; exact hi2
    have := List.forall₂_iff_get.1 hts |>.2 i hi3 hi2
    have hg : u.1.get ⟨i, hi3⟩ = .is (.wit i) := by
      have : u.1.get ⟨i, hi3⟩ = u.1[i] := rfl
      rw [this]
      simp only [a1, List.getElem_map, List.getElem_range]
      change BoolV.is (.wit (0 + i)) = _
      rw [Nat.zero_add]
    rw [hg] at this
    unfold BitIs at this
    simp only [BoolV.lc, evalLc_lcVar] at this
    rw [this]
    rfl
  · rintro ⟨ts, rfl, hcount⟩
    rw [List.length_map] at hxs
    have hC := (C38_exact hp ts M value (by rw [hxs]; exact hlen)).2 hcount
    obtain ⟨occ, hC⟩ := hC
    have hg : ((ConstraintSystem.new p s).withVals fun _ => 1).Good :=
      withVals_good rfl (new_closed p s) fun k hk => absurd hk List.not_mem_nil
    have hstep : Step ((ConstraintSystem.new p s).withVals fun _ => 1) (do
        let bits ← Synth.mapM (fun t => boolWitness fun _ => .ok t) ts
        let v ← newWitness fun _ => .ok M
        maxOccurrencesAs occ bits (lcVar v) value) fun c _ =>
          List.Forall₂ (BitAt c) ((List.range ts.length).map fun i => .is (.wit i)) ts ∧
          LcAt c (lcVar (.wit ts.length)) M := by
      have hb : Step ((ConstraintSystem.new p s).withVals fun _ => 1)
          (Synth.mapM (fun t => boolWitness fun _ => .ok t) ts)
          fun c bits => List.Forall₂ (BitAt c) bits ts ∧ c.numWit = ts.length ∧
            bits = (List.range ts.length).map fun i => .is (.wit i) := by
        obtain ⟨r, k1, k2, k3, k4⟩ := step_boolWitnesses (f := fun t _ => .ok t) hg
          (fun _ => forall₂_same' (R := fun (t t' : Bool) => ∀ _ : ConstraintSystem p, Outcome.ok t = .ok t')
            (fun _ _ => rfl) ts) rfl
        obtain ⟨v1, v2⟩ := bits_vars (fun t _ => .ok t) ts _ r k1
        refine ⟨r, k1, k2, k3, k4, ?_, ?_⟩
        · rw [v2]; exact Nat.zero_add _
        · rw [v1]
          apply List.map_congr_left
          intro i _
          change BoolV.is (.wit (0 + i)) = _
          rw [Nat.zero_add]
      refine hb.bind fun c1 bits g1 e1 hbits => ?_
      obtain ⟨hbits, hnum, hvar⟩ := hbits
      refine ((step_newWitness (x := M) g1 fun _ => rfl).andRun (R := fun v => v = .wit c1.numWit)
        fun r h => (newWitness_ok h).1).bind fun c2 v g2 e2 hv => ?_
      obtain ⟨hv, hvv⟩ := hv
      have hbits2 := bitAts_ext hbits g1 e2
      rw [hnum] at hvv
      subst hvv
      refine (step_maxOccurrencesAs hp g2 hbits2 hv hC).mono fun c _ he _ =>
        ⟨?_, hv.ext g2 he⟩
      rw [← hvar]
      exact bitAts_ext hbits2 g2 he
    obtain ⟨c, h4, _, h6, h7, h8⟩ := exists_extension
      ((alike_bits _ _ hxs.symm).bind fun _ => (alike_newWitness _ _).bind fun _ =>
        alike_maxOccurrencesAs occ o _ _ _) hr (σ := fun _ => 1) rfl hstep hg
    refine ⟨c.rho, rfl, h6, ?_, ?_⟩
    · intro i hi
      rw [List.length_map] at hi
      have hi' : i < ((List.range ts.length).map fun i => BoolV.is (.wit i)).length := by simpa using hi
      have := List.forall₂_iff_get.1 h7 |>.2 i hi' hi
      have e : ((List.range ts.length).map fun i => BoolV.is (.wit i)).get ⟨i, hi'⟩ = .is (.wit i) := by
        simp
      rw [e] at this
      have := this.bitIs h4
      unfold BitIs at this
      simp only [BoolV.lc, evalLc_lcVar] at this
      rw [this, List.getElem_map]
      rfl
    · rw [← hxs, ← h8.rho h4, evalLc_lcVar]

/-- C112: the prover's run on a bitmap with fewer than 256 occurrences, within the maximum: it ends and
its own assignment satisfies the constraints. -/
theorem C112_bitmap_run (hp : p ≠ 2) (o : Bool) {bits : List Bool} (hne : bits ≠ []) {m : ℕ}
    {value : Bool} (hlen : bits.length < p) (h256 : bits.count value < 256)
    (hm : bits.count value ≤ m) (hhalf : m < halfOf p) :
    ∃ r, bitmapCircuit o (bits.map some) m value (.new p false) = .ok r ∧ r.2.Sat r.2.rho := by
  have hmp : m < p := lt_of_lt_of_le hhalf (by unfold halfOf; omega)
  have hstep : Step (.new p false) (bitmapCircuit (p := p) o (bits.map some) m value)
      fun _ _ => True := by
    have hb := (step_boolWitnesses (f := fun b (_ : ConstraintSystem p) => Outcome.unwrap b)
      (l := bits.map some) (ts := bits) (new_good p false) (fun _ => by
        rw [List.forall₂_map_left_iff]
        exact forall₂_same' (fun _ _ => rfl) bits) (by simp)).andRun
          (R := fun bs => bs = (List.range (bits.map some).length).map fun i =>
            .is (.wit ((ConstraintSystem.new p false).numWit + i))) fun r h =>
          (bits_vars (fun b _ => Outcome.unwrap b) _ _ r h).1
    refine hb.bind fun c1 bs g1 e1 hbs => ?_
    obtain ⟨hbs, hvar⟩ := hbs
    refine (step_newWitness (x := (m : ZMod p)) g1 fun _ => rfl).bind fun c2 v g2 e2 hv => ?_
    have hc : countWitness o value bits 0 = .ok (UInt8.ofNat (bits.count value)) := by
      cases o with
      | false => rw [countWitness_wrap]; simp
      | true => rw [countWitness_checked, if_pos (by simpa using h256)]; simp
    refine step_maxOccurrences hp g2 (bitAts_ext hbs g1 e2) ?_ hv (fun _ => hc)
      (occ := ((bits.count value : ℕ) : ZMod p)) (fun _ => ?_) ?_
    · rw [hvar]
      cases bits with
      | nil => exact absurd rfl hne
      | cons b bs =>
        simp only [List.any_map, List.any_eq_true]
        exact ⟨0, by simp, rfl⟩
    · rw [UInt8.toNat_ofNat', Nat.mod_eq_of_lt (by simpa using h256)]
    · exact C38_complete hp bits _ value hlen (by rw [ZMod.val_natCast_of_lt hmp]; exact hm)
        (by rw [ZMod.val_natCast_of_lt hmp]; exact hhalf)
  obtain ⟨r, h1, h2, h3, _⟩ := hstep
  exact ⟨r, h1, h2.sat h3.setup⟩

/-- C112, violated: from 256 occurrences on, the prover's run panics if arithmetic is checked, although
the constraints can be satisfied (`C112_bitmap`). -/
theorem C112_bitmap_panics {bits : List Bool} {m : ℕ} {value : Bool} (h256 : 256 ≤ bits.count value) :
    bitmapCircuit true (bits.map some) m value (.new p false) = .panic := by
  have hb := step_boolWitnesses (f := fun b (_ : ConstraintSystem p) => Outcome.unwrap b)
      (l := bits.map some) (ts := bits) (new_good p false) (fun _ => by
        rw [List.forall₂_map_left_iff]
        exact forall₂_same' (fun _ _ => rfl) bits) (by simp)
  obtain ⟨u, h1, g1, e1, hbs⟩ := hb
  obtain ⟨w, h2, g2, e2, _⟩ := step_newWitness (x := (m : ZMod p))
    (f := fun _ => .ok (m : ZMod p)) g1 fun _ => rfl
  have hs : w.2.setup = false := (e1.trans e2).setup
  have hc : countBits true value u.1 w.2 = .panic := by
    unfold countBits
    rw [hs, if_neg (by simp), bitAts_value (bitAts_ext hbs g1 e2) hs, Outcome.bind_ok,
      countWitness_checked, if_neg (by simpa using h256)]
  have hmax : maxOccurrences true u.1 (lcVar w.1) value w.2 = .panic := by
    unfold maxOccurrences
    rw [hc]
    rfl
  unfold bitmapCircuit
  rw [synth_bind_def]
  change (Synth.mapM (fun b => boolWitness fun _ => Outcome.unwrap b) (bits.map some) _).bind _ = _
  rw [h1, Outcome.bind_ok, synth_bind_def]
  change (newWitness (fun _ => .ok (m : ZMod p)) u.2).bind _ = _
  rw [h2, Outcome.bind_ok]
  exact hmax

end

/-- C112: the circuits of the sign of a point have the numbers of constraints the tests assert, 1003 for
G1 and 2014 for G2, in any mode and for any triple of coordinates. -/
theorem C112_constraints (s : Bool) :
    (∀ (b : Fq) (P : Fq × Fq × Fq) (r : BoolV × ConstraintSystem FQ_MODULUS),
      yToBitG1Circuit b P (.new FQ_MODULUS s) = .ok r → r.2.constraints.length = 1003) ∧
    ∀ (nr b0 b1 : Fq) (P : (Fq × Fq) × (Fq × Fq) × (Fq × Fq))
      (r : BoolV × ConstraintSystem FQ_MODULUS),
      yToBitG2Circuit nr b0 b1 P (.new FQ_MODULUS s) = .ok r → r.2.constraints.length = 2014 := by
  refine ⟨fun b P r h => ?_, fun nr b0 b1 P r h => ?_⟩
  · rw [(cost_yToBitG1Circuit b P _ r h).1, leHalfCost_fq]; rfl
  · rw [(cost_yToBitG2Circuit nr b0 b1 P _ r h).1, leHalfCost_fq]; rfl

theorem halfOf_fq_ne : halfOf FQ_MODULUS ≠ 0 := by decide +kernel

/-- C112: the circuit of the sign of a point of G2, built in any mode for any triple, on the curve of the
public keys. -/
theorem C112_sign_g2 {Q : (Fq × Fq) × (Fq × Fq) × (Fq × Fq)} {s : Bool}
    {r : BoolV × ConstraintSystem FQ_MODULUS}
    (hr : yToBitG2Circuit (-5) g2CoeffB.re g2CoeffB.im Q (.new FQ_MODULUS s) = .ok r)
    (P : ProjVar Fq2) (t : Bool) :
    (∃ ρ : R1Var → Fq, ρ .one = 1 ∧ r.2.Sat ρ ∧
      P = ⟨⟨ρ (.wit 0), ρ (.wit 1)⟩, ⟨ρ (.wit 2), ρ (.wit 3)⟩, ⟨ρ (.wit 4), ρ (.wit 5)⟩⟩ ∧
      evalLc ρ r.1.lc = bit t) ↔
    P.OnCurve g2CoeffB ∧ (t = nativeFlag P.y.re P.y.im ∨ P.y.im.val = halfOf FQ_MODULUS ∨
      (P.y.im = 0 ∧ P.y.re.val = halfOf FQ_MODULUS)) := by
  have hp : FQ_MODULUS ≠ 2 := by decide +kernel
  constructor
  · rintro ⟨ρ, h1, hsat, rfl, ht⟩
    obtain ⟨u, hu, hr'⟩ := synth_bind_ok.1 hr
    have hv := allocPointG2_vars hu
    have hc := sound_allocPointG2 (-5) g2CoeffB.re g2CoeffB.im _ _ _ _ u hu
      ((alike_yToBitG2 _ _).sat hr' hsat)
    obtain ⟨w, h2, h3⟩ := sound_yToBitG2 h1 _ _ _ r hr' hsat
    have : w.yBit = t := bit_inj (p := FQ_MODULUS) (h2.symm.trans ht)
    subst this
    rw [hv] at hc h3
    simp only [FpV.at, Fp2V.at, evalLc_lcVar] at hc h3
    exact ⟨hc, (C37_exact hp halfOf_fq_ne _ _ _).1 ⟨w, h3, rfl⟩⟩
  · rintro ⟨hP, ht⟩
    obtain ⟨w, h3, rfl⟩ := (C37_exact hp halfOf_fq_ne _ _ _).2 ht
    have hg : ((ConstraintSystem.new FQ_MODULUS s).withVals fun _ => 1).Good :=
      withVals_good rfl (new_closed _ s) fun k hk => absurd hk List.not_mem_nil
    have hstep : Step ((ConstraintSystem.new FQ_MODULUS s).withVals fun _ => 1) (do
        let v ← allocPointG2 (-5) g2CoeffB.re g2CoeffB.im (fun _ => .ok (P.x.re, P.x.im))
          (fun _ => .ok (P.y.re, P.y.im)) (fun _ => .ok (P.z.re, P.z.im))
        yToBitG2As w (.var v.2.1.c0) (.var v.2.1.c1)) fun c bt => BitAt c bt w.yBit ∧
          Fp2At (-5) c ⟨lcVar (.wit 0), lcVar (.wit 1)⟩ P.x ∧
          Fp2At (-5) c ⟨lcVar (.wit 2), lcVar (.wit 3)⟩ P.y ∧
          Fp2At (-5) c ⟨lcVar (.wit 4), lcVar (.wit 5)⟩ P.z := by
      refine ((step_allocPointG2 hg (X := P.x) (Y := P.y) (Z := P.z) hP (fun _ _ _ => rfl)
        (fun _ _ _ => rfl) (fun _ _ _ => rfl)).andRun (R := fun v => v =
          (⟨lcVar (.wit 0), lcVar (.wit 1)⟩, ⟨lcVar (.wit 2), lcVar (.wit 3)⟩,
            ⟨lcVar (.wit 4), lcVar (.wit 5)⟩)) fun r h => allocPointG2_vars h).bind
        fun c1 v g1 e1 hv => ?_
      obtain ⟨⟨ax, ay, az⟩, hv⟩ := hv
      subst hv
      exact (step_yToBitG2As (c0 := .var (lcVar (.wit 2))) (c1 := .var (lcVar (.wit 3))) (v0 := .var P.y.re) (v1 := .var P.y.im) g1 ay.1 ay.2 h3).mono
        fun c bt he hb => ⟨hb, ax.ext g1 he, ay.ext g1 he, az.ext g1 he⟩
    obtain ⟨c, h4, _, h6, h7, h8, h9, h10⟩ := exists_extension
      ((alike_allocPointG2 _ _ _ _ _ _ _ _ _).bind fun _ => alike_yToBitG2As w _ _) hr
      (σ := fun _ => 1) rfl hstep hg
    refine ⟨c.rho, rfl, h6, ?_, h7.bitIs h4⟩
    have e1 := h8.1.rho h4
    have e2 := h8.2.rho h4
    have e3 := h9.1.rho h4
    have e4 := h9.2.rho h4
    have e5 := h10.1.rho h4
    have e6 := h10.2.rho h4
    rw [evalLc_lcVar] at e1 e2 e3 e4 e5 e6
    rw [e1, e2, e3, e4, e5, e6]

/-- C112: the prover's run on a point of G2. -/
theorem C112_sign_g2_run {P : ProjVar Fq2} (hP : P.OnCurve g2CoeffB) :
    ∃ r, yToBitG2Circuit (-5) g2CoeffB.re g2CoeffB.im
        ((P.x.re, P.x.im), (P.y.re, P.y.im), (P.z.re, P.z.im)) (.new FQ_MODULUS false) = .ok r ∧
      r.2.Sat r.2.rho ∧ r.1.value FQ_MODULUS r.2 = .ok (nativeFlag P.y.re P.y.im) := by
  have hp : FQ_MODULUS ≠ 2 := by decide +kernel
  have hstep : Step (.new FQ_MODULUS false) (yToBitG2Circuit (-5) g2CoeffB.re g2CoeffB.im
        ((P.x.re, P.x.im), (P.y.re, P.y.im), (P.z.re, P.z.im)))
      fun c bt => BitAt c bt (nativeFlag P.y.re P.y.im) :=
    (step_allocPointG2 (new_good _ false) (X := P.x) (Y := P.y) (Z := P.z) hP (fun _ _ _ => rfl)
      (fun _ _ _ => rfl) (fun _ _ _ => rfl)).bind fun c1 v g1 e1 hv =>
        step_yToBitG2 (v0 := .var P.y.re) (v1 := .var P.y.im) hp g1 hv.2.1.1 hv.2.1.2
  obtain ⟨r, h1, h2, h3, h4⟩ := hstep
  exact ⟨r, h1, h2.sat h3.setup, h4.value h3.setup⟩

/-- The system of the square circuit (helper; what `testCircuit` builds, shown by `rfl` below),
`crates/bls-snark-sys/src/snark/test_helpers.rs:14-58`. -/
def squareSystem (p : ℕ) (setup : Bool) (inputs witnesses : List (ZMod p)) : ConstraintSystem p :=
  .mk setup 1 5 inputs witnesses [⟨lcVar (.wit 0), lcVar (.wit 0), lcVar (.inst 0)⟩]

theorem squareSystem_closed (p : ℕ) (setup : Bool) (inputs witnesses : List (ZMod p)) :
    (squareSystem p setup inputs witnesses).Closed := by
  intro k hk
  have hk : k = ⟨lcVar (.wit 0), lcVar (.wit 0), lcVar (.inst 0)⟩ := List.mem_singleton.1 hk
  subst hk
  have h0 : (squareSystem p setup inputs witnesses).Scoped (lcVar (.wit 0)) := fun t ht => by
    rw [List.mem_singleton.1 ht]
    exact (by decide : 0 < 5)
  have h1 : (squareSystem p setup inputs witnesses).Scoped (lcVar (.inst 0)) := fun t ht => by
    rw [List.mem_singleton.1 ht]
    exact (by decide : 0 < 1)
  exact ⟨h0, h0, h1⟩

theorem setup_closed {p : ℕ} [Fact p.Prime] (hp : p ≠ 2) :
    (∀ x : Option (ZMod p), ∃ r, testCircuit x (.new p true) = .ok r ∧ r.2.Closed) ∧
    (∀ (o : Bool) (bitmap : List (Option Bool)) (m : ℕ) (value : Bool), bitmap ≠ [] →
      ∃ r, bitmapCircuit o bitmap m value (.new p true) = .ok r ∧ r.2.Closed) ∧
    (∀ (b : ZMod p) (P : ZMod p × ZMod p × ZMod p), ∃ r, yToBitG1Circuit b P (.new p true) = .ok r ∧
      r.2.Closed) ∧
    ∀ (nr b0 b1 : ZMod p) (P : (ZMod p × ZMod p) × (ZMod p × ZMod p) × (ZMod p × ZMod p)),
      ∃ r, yToBitG2Circuit nr b0 b1 P (.new p true) = .ok r ∧ r.2.Closed := by
  have hg := new_good p true
  have absurd' : ∀ {c : ConstraintSystem p} {P : Prop}, c.setup = false →
      c.setup = (ConstraintSystem.new p true).setup → P := fun h h' => by
    rw [h] at h'; cases h'
  refine ⟨fun x => ⟨((), squareSystem p true [] []), rfl, squareSystem_closed _ _ _ _⟩,
    fun o bitmap m value => ?_, fun b P => ?_, fun nr b0 b1 P => ?_⟩
  · intro hne
    have hhalf : 0 < halfOf p := by
      have := prime_half (p := p) hp
      have h2 := (Fact.out : p.Prime).two_le
      omega
    have hstep : Step (.new p true) (bitmapCircuit (p := p) o bitmap m value) fun _ _ => True := by
      refine ((step_boolWitnesses (f := fun b (_ : ConstraintSystem p) => Outcome.unwrap b)
        (l := bitmap) (ts := List.replicate bitmap.length !value) hg (fun h => by cases h)
        (by simp)).andRun (R := fun bs => bs = (List.range bitmap.length).map fun i =>
            .is (.wit ((ConstraintSystem.new p true).numWit + i))) fun r h =>
          (bits_vars (fun b _ => Outcome.unwrap b) _ _ r h).1).bind fun c1 bs g1 e1 hbs => ?_
      obtain ⟨hbs, hvar⟩ := hbs
      refine (step_newWitness (x := (0 : ZMod p)) g1 fun h => absurd' h e1.setup).bind
        fun c2 v g2 e2 hv => ?_
      refine step_maxOccurrences hp g2 (bitAts_ext hbs g1 e2) ?_ hv (k := 0)
        (fun h => absurd' h (e1.trans e2).setup) (occ := 0)
        (fun h => absurd' h (e1.trans e2).setup) ?_
      · rw [hvar]
        cases bitmap with
        | nil => exact absurd rfl hne
        | cons b bs =>
          simp only [List.any_map, List.any_eq_true]
          exact ⟨0, by simp, rfl⟩
      · refine ⟨?_, ?_⟩
        · rw [enforceCmpLeC_iff hp, ZMod.val_zero]
          exact ⟨le_refl _, hhalf⟩
        · rw [occurrencesLc_eq, List.count_replicate]
          cases value <;> simp
    obtain ⟨r, h1, h2, _⟩ := hstep
    exact ⟨r, h1, h2.closed⟩
  · have hstep : Step (.new p true) (yToBitG1Circuit b P) fun _ _ => True :=
      (step_allocPointG1 (P := ⟨0, 1, 0⟩) hg (by simp [ProjVar.OnCurve])
        (fun _ h h' => absurd' h h') (fun _ h h' => absurd' h h')
        (fun _ h h' => absurd' h h')).bind fun c1 v g1 e1 hv =>
          (step_normalize (el := .var v.2.1) (v := .var 1) hp g1 hv.2.1).mono fun _ _ _ _ => trivial
    obtain ⟨r, h1, h2, _⟩ := hstep
    exact ⟨r, h1, h2.closed⟩
  · have hstep : Step (.new p true) (yToBitG2Circuit nr b0 b1 P) fun _ _ => True :=
      (step_allocPointG2 (X := 0) (Y := 1) (Z := 0) hg (by simp)
        (fun _ h h' => absurd' h h') (fun _ h h' => absurd' h h')
        (fun _ h h' => absurd' h h')).bind fun c1 v g1 e1 hv =>
          (step_yToBitG2 (c0 := .var v.2.1.c0) (c1 := .var v.2.1.c1) (v0 := .var _) (v1 := .var _)
            hp g1 hv.2.1.1 hv.2.1.2).mono
            fun _ _ _ _ => trivial
    obtain ⟨r, h1, h2, _⟩ := hstep
    exact ⟨r, h1, h2.closed⟩

/-- C112: the setup of each circuit runs to the end, whatever it is given, a bitmap of absent bits
included; an empty bitmap is refused. -/
theorem C112_setup {p : ℕ} [Fact p.Prime] (hp : p ≠ 2) :
    (∀ x : Option (ZMod p), ∃ r, testCircuit x (.new p true) = .ok r) ∧
    (∀ (o : Bool) (bitmap : List (Option Bool)) (m : ℕ) (value : Bool),
      (∃ r, bitmapCircuit o bitmap m value (.new p true) = .ok r) ↔ bitmap ≠ []) ∧
    (∀ (b : ZMod p) (P : ZMod p × ZMod p × ZMod p), ∃ r, yToBitG1Circuit b P (.new p true) = .ok r) ∧
    ∀ (nr b0 b1 : ZMod p) (P : (ZMod p × ZMod p) × (ZMod p × ZMod p) × (ZMod p × ZMod p)),
      ∃ r, yToBitG2Circuit nr b0 b1 P (.new p true) = .ok r := by
  obtain ⟨h1, h2, h3, h4⟩ := setup_closed hp
  refine ⟨fun x => ?_, fun o bitmap m value => ⟨?_, fun hne => ?_⟩, fun b P => ?_, fun nr b0 b1 P => ?_⟩
  · obtain ⟨r, h, _⟩ := h1 x
    exact ⟨r, h⟩
  · rintro ⟨r, hr⟩ rfl
    obtain ⟨u, hu, hr⟩ := synth_bind_ok.1 hr
    obtain ⟨w, hw, hr⟩ := synth_bind_ok.1 hr
    cases hu
    unfold maxOccurrences at hr
    rw [Outcome.bind_eq_ok_iff] at hr
    obtain ⟨k, _, hr⟩ := hr
    cases hr
  · obtain ⟨r, h, _⟩ := h2 o bitmap m value hne
    exact ⟨r, h⟩
  · obtain ⟨r, h, _⟩ := h3 b P
    exact ⟨r, h⟩
  · obtain ⟨r, h, _⟩ := h4 nr b0 b1 P
    exact ⟨r, h⟩

/-! ## Concrete cases -/

theorem halfOf_seven : halfOf 7 = 3 := by decide

/-- C110, C112: two absent bits in the setup, one of two set for the prover, at most one allowed: the
same circuit. -/
example : ∃ r r', bitmapCircuit true [none, none] 0 true (.new 7 true) = .ok r ∧
    bitmapCircuit false ([true, false].map some) 1 true (.new 7 false) = .ok r' ∧
    r'.2.Sat r'.2.rho ∧ SameShape r.2 r'.2 := by
  obtain ⟨r, hr⟩ := ((C112_setup (p := 7) (by decide)).2.1 true [none, none] 0 true).2 (by simp)
  obtain ⟨r', hr', hs⟩ := C112_bitmap_run (p := 7) (by decide) false (bits := [true, false]) (by simp)
    (m := 1) (value := true) (by decide) (by decide) (by decide) (by decide)
  have hlen : ([none, none] : List (Option Bool)).length = ([true, false].map some).length := rfl
  exact ⟨r, r', hr, hr', hs, C110_bitmap hlen hr hr'⟩

/-- C110: the square circuit, in the setup without a value and for the prover with 3. -/
example : ∃ r r', testCircuit (none : Option (ZMod 7)) (.new 7 true) = .ok r ∧
    testCircuit (some (3 : ZMod 7)) (.new 7 false) = .ok r' ∧ SameShape r.2 r'.2 ∧
    r'.2.Sat r'.2.rho ∧ r'.2.rho (.inst 0) = 2 := by
  obtain ⟨r, hr⟩ := (C112_setup (p := 7) (by decide)).1 none
  obtain ⟨r', hr', hs, h9⟩ := C112_square_run (3 : ZMod 7)
  exact ⟨r, r', hr, hr', C110_square hr hr', hs, h9.trans (by decide)⟩

/-- C110: the prover without a value is refused, so the hypotheses of `C110_square` are not always met. -/
example : testCircuit (none : Option (ZMod 7)) (.new 7 false) = .err .assignmentMissing := rfl

/-- C110, C112: the points `(0, 6)` and `(0, 1)` of `y ^ 2 = x ^ 3 + 1` over seven elements: the same
circuit, different signs; 6 lies above half, 1 below. -/
example : ∃ r r', yToBitG1Circuit (1 : ZMod 7) (0, 6, 1) (.new 7 false) = .ok r ∧
    yToBitG1Circuit (1 : ZMod 7) (0, 1, 1) (.new 7 false) = .ok r' ∧
    r.1.value 7 r.2 = .ok true ∧ r'.1.value 7 r'.2 = .ok false ∧ r.1 = r'.1 ∧ SameShape r.2 r'.2 := by
  obtain ⟨r, h1, _, h2⟩ := C112_sign_g1_run (p := 7) (b := 1) (by decide) (P := ⟨0, 6, 1⟩)
    (by unfold ProjVar.OnCurve; decide)
  obtain ⟨r', h1', _, h2'⟩ := C112_sign_g1_run (p := 7) (b := 1) (by decide) (P := ⟨0, 1, 1⟩)
    (by unfold ProjVar.OnCurve; decide)
  exact ⟨r, r', h1, h1', h2, h2', C110_sign_g1 h1 h1'⟩

/-- C112: in the circuit built without any point, `(0, 6)` can only be given the sign `true`, and
`(1, 1)`, which is off the curve, none. -/
example : ∃ r, yToBitG1Circuit (1 : ZMod 7) (5, 5, 5) (.new 7 true) = .ok r ∧
    (∃ ρ : R1Var → ZMod 7, ρ .one = 1 ∧ r.2.Sat ρ ∧ ρ (.wit 0) = 0 ∧ ρ (.wit 1) = 6 ∧
      ρ (.wit 2) = 1 ∧ evalLc ρ r.1.lc = bit true) ∧
    (¬ ∃ ρ : R1Var → ZMod 7, ρ .one = 1 ∧ r.2.Sat ρ ∧ ρ (.wit 0) = 0 ∧ ρ (.wit 1) = 6 ∧
      ρ (.wit 2) = 1 ∧ evalLc ρ r.1.lc = bit false) ∧
    ∀ t, ¬ ∃ ρ : R1Var → ZMod 7, ρ .one = 1 ∧ r.2.Sat ρ ∧ ρ (.wit 0) = 1 ∧ ρ (.wit 1) = 1 ∧
      ρ (.wit 2) = 1 ∧ evalLc ρ r.1.lc = bit t := by
  obtain ⟨r, hr⟩ := (C112_setup (p := 7) (by decide)).2.2.1 1 (5, 5, 5)
  refine ⟨r, hr, (C112_sign_g1 (by decide) hr ⟨0, 6, 1⟩ true).2 ?_,
    fun h => ?_, fun t h => ?_⟩
  · unfold ProjVar.OnCurve; decide
  · have := (C112_sign_g1 (by decide) hr ⟨0, 6, 1⟩ false).1 h
    revert this; unfold ProjVar.OnCurve; decide
  · have := ((C112_sign_g1 (by decide) hr ⟨1, 1, 1⟩ t).1 h).1
    revert this; unfold ProjVar.OnCurve; decide

/-- A system in setup mode with four witnesses and no constraint. -/
def fourWitnesses : ConstraintSystem 7 :=
  { setup := true, numInst := 0, numWit := 4, instVals := [], witVals := [], constraints := [] }

theorem fourWitnesses_closed : fourWitnesses.Closed := fun _ hk => absurd hk List.not_mem_nil

theorem fourWitnesses_scoped (i : ℕ) (h : i < 4) : fourWitnesses.Scoped (lcVar (.wit i)) := by
  intro t ht
  simp only [lcVar, List.mem_singleton] at ht
  rw [ht]
  exact h

/-- Values of the four witnesses. -/
def fourValues (a b c d : ZMod 7) : R1Var → ZMod 7
  | .one => 1
  | .inst _ => 0
  | .wit 0 => a
  | .wit 1 => b
  | .wit 2 => c
  | .wit _ => d

theorem fourWitnesses_sat (σ : R1Var → ZMod 7) : fourWitnesses.Sat σ :=
  fun _ hk => absurd hk List.not_mem_nil

/-- C111: of the values 0 and 2, only the first can be declared zero. -/
example : ∃ r, isEqZero (.var (lcVar (.wit 0))) fourWitnesses = .ok r ∧
    (∃ ρ, fourWitnesses.Agree (fourValues 0 0 0 0) ρ ∧ r.2.Sat ρ ∧ evalLc ρ r.1.lc = bit true) ∧
    ¬ ∃ ρ, fourWitnesses.Agree (fourValues 2 0 0 0) ρ ∧ r.2.Sat ρ ∧ evalLc ρ r.1.lc = bit true := by
  obtain ⟨r, hr⟩ := (C110_setup_runs (p := 7) (by decide) fourWitnesses_closed rfl).1
    (.var (lcVar (.wit 0))) (fourWitnesses_scoped 0 (by decide))
  refine ⟨r, hr, (C111_is_eq_zero fourWitnesses_closed (fourWitnesses_scoped 0 (by decide)) hr rfl
    (fourWitnesses_sat _) true).2 (by decide), fun h => ?_⟩
  have := (C111_is_eq_zero fourWitnesses_closed (fourWitnesses_scoped 0 (by decide)) hr rfl
    (fourWitnesses_sat _) true).1 h
  revert this; decide

/-- C111: 3 is half of 7, and can be given both signs; 4 only `true`. -/
example : ∃ r, normalize (.var (lcVar (.wit 0))) fourWitnesses = .ok r ∧
    (∀ t, ∃ ρ, fourWitnesses.Agree (fourValues 3 0 0 0) ρ ∧ r.2.Sat ρ ∧ evalLc ρ r.1.lc = bit t) ∧
    ¬ ∃ ρ, fourWitnesses.Agree (fourValues 4 0 0 0) ρ ∧ r.2.Sat ρ ∧ evalLc ρ r.1.lc = bit false := by
  obtain ⟨r, hr⟩ := (C110_setup_runs (p := 7) (by decide) fourWitnesses_closed rfl).2.1
    (.var (lcVar (.wit 0))) (fourWitnesses_scoped 0 (by decide))
  refine ⟨r, hr, fun t => (C111_normalize (by decide) fourWitnesses_closed
    (fourWitnesses_scoped 0 (by decide)) hr rfl (fourWitnesses_sat _) t).2 (by revert t; decide),
    fun h => ?_⟩
  have := (C111_normalize (by decide) fourWitnesses_closed (fourWitnesses_scoped 0 (by decide)) hr rfl
    (fourWitnesses_sat _) false).1 h
  revert this; decide

/-- C111: with `c1 = 5` the sign is that of `c1` whatever `c0`; with `c1 = 0` that of `c0`. -/
example : ∃ r, yToBitG2 (.var (lcVar (.wit 0))) (.var (lcVar (.wit 1))) fourWitnesses = .ok r ∧
    (∃ ρ, fourWitnesses.Agree (fourValues 1 5 0 0) ρ ∧ r.2.Sat ρ ∧ evalLc ρ r.1.lc = bit true) ∧
    (¬ ∃ ρ, fourWitnesses.Agree (fourValues 1 5 0 0) ρ ∧ r.2.Sat ρ ∧ evalLc ρ r.1.lc = bit false) ∧
    ∃ ρ, fourWitnesses.Agree (fourValues 6 0 0 0) ρ ∧ r.2.Sat ρ ∧ evalLc ρ r.1.lc = bit true := by
  obtain ⟨r, hr⟩ := (C110_setup_runs (p := 7) (by decide) fourWitnesses_closed rfl).2.2.1
    (.var (lcVar (.wit 0))) (.var (lcVar (.wit 1))) (fourWitnesses_scoped 0 (by decide))
    (fourWitnesses_scoped 1 (by decide))
  have e := fun (a b : ZMod 7) t => C111_sign_g2 (by decide) (by decide) fourWitnesses_closed
    (fourWitnesses_scoped 0 (by decide)) (fourWitnesses_scoped 1 (by decide)) hr
    (σ := fourValues a b 0 0) rfl (fourWitnesses_sat _) t
  refine ⟨r, hr, (e 1 5 true).2 (by decide), fun h => ?_, (e 6 0 true).2 (by decide)⟩
  have := (e 1 5 false).1 h
  revert this; decide

/-- C111: the constant 3 is half of 7, and its sign is forced all the same. -/
example : ∃ r, normalize (.constant 3) fourWitnesses = .ok r ∧
    ¬ ∃ ρ, fourWitnesses.Agree (fourValues 0 0 0 0) ρ ∧ r.2.Sat ρ ∧ evalLc ρ r.1.lc = bit true := by
  obtain ⟨r, hr⟩ := (C110_setup_runs (p := 7) (by decide) fourWitnesses_closed rfl).2.1
    (.constant 3) trivial
  refine ⟨r, hr, fun h => ?_⟩
  have := ((C111_constants (by decide) fourWitnesses_closed (σ := fourValues 0 0 0 0) rfl
    (fourWitnesses_sat _) true).2.1 3 r hr).1 h
  revert this; decide

theorem fourWitnesses_bits (i j : ℕ) (hi : i < 4) (hj : j < 4) :
    ∀ b ∈ [BoolV.is (.wit i), .not (.wit j)], fourWitnesses.Scoped (b.lc (p := 7)) := by
  intro b hb
  simp only [List.mem_cons, List.not_mem_nil, or_false] at hb
  rcases hb with rfl | rfl
  · exact fourWitnesses_scoped i hi
  · intro t ht
    rcases List.mem_append.1 ht with h | h
    · rw [List.mem_singleton.1 h]; trivial
    · rw [List.mem_singleton.1 h]; exact hj

/-- C111: of the first bit and the complement of the second, one is set and one may be; with both set the
constraints cannot be satisfied. -/
example : ∃ r, maxOccurrences true [.is (.wit 0), .not (.wit 1)] (lcVar (.wit 3)) true
      fourWitnesses = .ok r ∧
    (∃ ρ, fourWitnesses.Agree (fourValues 1 1 0 1) ρ ∧ r.2.Sat ρ) ∧
    ¬ ∃ ρ, fourWitnesses.Agree (fourValues 1 0 0 1) ρ ∧ r.2.Sat ρ := by
  have hb := fourWitnesses_bits 0 1 (by decide) (by decide)
  have hm := fourWitnesses_scoped 3 (by decide)
  obtain ⟨r, hr⟩ := ((C110_setup_runs (p := 7) (by decide) fourWitnesses_closed rfl).2.2.2.1 true _ _
    true hb hm (by decide)).2 ⟨_, List.mem_cons_self, rfl⟩
  have e := fun (σ : R1Var → ZMod 7) h1 (ts : List Bool) ht => C111_occurrences (by decide)
    fourWitnesses_closed hb hm hr (σ := σ) h1 (fourWitnesses_sat _) (ts := ts) ht (by decide)
  refine ⟨r, hr, (e (fourValues 1 1 0 1) rfl [true, false]
    (.cons (by decide) (.cons (by decide) .nil))).2 (by decide), fun h => ?_⟩
  have := (e (fourValues 1 0 0 1) rfl [true, true] (.cons (by decide) (.cons (by decide) .nil))).1 h
  revert this; decide

/-- C111: the bits 1, 0 packed in one element of two bits: 2, or 6, whose low bits are the same, but
not 1. -/
example : ∃ r, multipack true 2 [.is (.wit 0), .not (.wit 1)] fourWitnesses = .ok r ∧
    (∃ ρ, fourWitnesses.Agree (fourValues 1 1 0 0) ρ ∧ r.2.Sat ρ ∧ r.1.map (evalLc ρ) = [2]) ∧
    (∃ ρ, fourWitnesses.Agree (fourValues 1 1 0 0) ρ ∧ r.2.Sat ρ ∧ r.1.map (evalLc ρ) = [6]) ∧
    ¬ ∃ ρ, fourWitnesses.Agree (fourValues 1 1 0 0) ρ ∧ r.2.Sat ρ ∧ r.1.map (evalLc ρ) = [1] := by
  have hb := fourWitnesses_bits 0 1 (by decide) (by decide)
  obtain ⟨r, hr⟩ := (C110_setup_runs (p := 7) (by decide) fourWitnesses_closed rfl).2.2.2.2 true 2 _
    (by decide) (by decide) hb
  have e := C111_pack (by decide) fourWitnesses_closed (by decide) (by decide) hb hr
    (σ := fourValues 1 1 0 0) rfl (fourWitnesses_sat _) (ts := [true, false])
    (.cons (by decide) (.cons (by decide) .nil))
  have hch : chunks 2 [true, false] = [[true, false]] := by
    simp [chunks]
  rw [hch] at e
  refine ⟨r, hr, (e [2]).2 (.cons (by decide) .nil), (e [6]).2 (.cons (by decide) .nil), fun h => ?_⟩
  cases (e [1]).1 h with
  | cons h _ => revert h; decide

/-- C111: after the four witnesses a point is allocated: `(0, 6)` can be, and so can infinity; `(1, 1)`
cannot. -/
example : ∃ r, allocPointG1 (1 : ZMod 7) (fun _ => .ok 3) (fun _ => .panic) (fun _ => .err .missingCS)
      fourWitnesses = .ok r ∧
    ∀ P : ProjVar (ZMod 7), (∃ ρ, fourWitnesses.Agree (fourValues 1 2 3 4) ρ ∧ r.2.Sat ρ ∧
      evalLc ρ r.1.1 = P.x ∧ evalLc ρ r.1.2.1 = P.y ∧ evalLc ρ r.1.2.2 = P.z) ↔ P.OnCurve 1 := by
  have hstep := step_allocPointG1 (P := ⟨0, 1, 0⟩) (b := (1 : ZMod 7))
    (x := fun _ => .ok 3) (y := fun _ => .panic) (z := fun _ => .err .missingCS)
    (setup_good fourWitnesses_closed rfl) (by simp [ProjVar.OnCurve])
    (fun c h h' => by rw [h] at h'; cases h') (fun c h h' => by rw [h] at h'; cases h')
    (fun c h h' => by rw [h] at h'; cases h')
  obtain ⟨r, hr, _⟩ := hstep
  exact ⟨r, hr, fun P => C111_point_g1 fourWitnesses_closed hr rfl (fourWitnesses_sat _) P⟩

example : ProjVar.OnCurve (1 : ZMod 7) ⟨0, 6, 1⟩ ∧ ProjVar.OnCurve (1 : ZMod 7) ⟨0, 1, 0⟩ ∧
    ¬ ProjVar.OnCurve (1 : ZMod 7) ⟨1, 1, 1⟩ := by
  unfold ProjVar.OnCurve; decide

/-- C111, C112: the generator of G2: the circuit built without a point accepts its coordinates, with the
sign of the encoding and no other. -/
example : ∃ r, yToBitG2Circuit (-5) g2CoeffB.re g2CoeffB.im ((0, 0), (0, 0), (0, 0))
      (.new FQ_MODULUS true) = .ok r ∧ r.2.constraints.length = 2014 ∧
    ∃ ρ : R1Var → Fq, ρ .one = 1 ∧ r.2.Sat ρ ∧ genVar.coords =
      ⟨⟨ρ (.wit 0), ρ (.wit 1)⟩, ⟨ρ (.wit 2), ρ (.wit 3)⟩, ⟨ρ (.wit 4), ρ (.wit 5)⟩⟩ ∧
      evalLc ρ r.1.lc = bit (nativeFlag genVar.coords.y.re genVar.coords.y.im) := by
  obtain ⟨r, hr⟩ := (C112_setup (p := FQ_MODULUS) (by decide +kernel)).2.2.2 (-5) g2CoeffB.re g2CoeffB.im
    ((0, 0), (0, 0), (0, 0))
  exact ⟨r, hr, (C112_constraints true).2 _ _ _ _ r hr,
    (C112_sign_g2 hr genVar.coords _).2 ⟨genVar_on, .inl rfl⟩⟩

/-- C112: the prover's run on the generator of G2. -/
example : ∃ r, yToBitG2Circuit (-5) g2CoeffB.re g2CoeffB.im
      ((genVar.coords.x.re, genVar.coords.x.im), (genVar.coords.y.re, genVar.coords.y.im),
        (genVar.coords.z.re, genVar.coords.z.im)) (.new FQ_MODULUS false) = .ok r ∧
    r.2.Sat r.2.rho ∧ r.2.constraints.length = 2014 := by
  obtain ⟨r, h1, h2, _⟩ := C112_sign_g2_run genVar_on
  exact ⟨r, h1, h2, (C112_constraints false).2 _ _ _ _ r h1⟩

/-- C111: a point of G2 allocated first in a system: the generator can be. -/
example : ∃ r, allocPointG2 (-5) g2CoeffB.re g2CoeffB.im (fun _ => .ok (0, 0)) (fun _ => .ok (0, 0))
      (fun _ => .ok (0, 0)) (.new FQ_MODULUS true) = .ok r ∧
    ∃ ρ, (ConstraintSystem.new FQ_MODULUS true).Agree (fun _ => 1) ρ ∧ r.2.Sat ρ ∧
      genVar.coords = ⟨⟨evalLc ρ r.1.1.c0, evalLc ρ r.1.1.c1⟩,
        ⟨evalLc ρ r.1.2.1.c0, evalLc ρ r.1.2.1.c1⟩, ⟨evalLc ρ r.1.2.2.c0, evalLc ρ r.1.2.2.c1⟩⟩ := by
  obtain ⟨r, hr, _⟩ := step_allocPointG2 (nr := (-5 : Fq)) (b0 := g2CoeffB.re) (b1 := g2CoeffB.im)
    (X := 0) (Y := 1) (Z := 0) (x := fun _ => .ok (0, 0)) (y := fun _ => .ok (0, 0))
    (z := fun _ => .ok (0, 0)) (new_good FQ_MODULUS true) (by simp)
    (fun c h h' => by rw [h] at h'; cases h') (fun c h h' => by rw [h] at h'; cases h')
    (fun c h h' => by rw [h] at h'; cases h')
  exact ⟨r, hr, (C111_point_g2 (new_closed _ _) hr rfl (fun _ hk => absurd hk List.not_mem_nil) _).2
    genVar_on⟩

/-- C112: 2 is the square of 3 modulo 7, and 3 is no square. -/
example : ∃ r, testCircuit (none : Option (ZMod 7)) (.new 7 true) = .ok r ∧
    (∃ ρ : R1Var → ZMod 7, ρ .one = 1 ∧ ρ (.inst 0) = 2 ∧ r.2.Sat ρ) ∧
    ¬ ∃ ρ : R1Var → ZMod 7, ρ .one = 1 ∧ ρ (.inst 0) = 3 ∧ r.2.Sat ρ := by
  obtain ⟨r, hr⟩ := (C112_setup (p := 7) (by decide)).1 none
  refine ⟨r, hr, (C112_square hr 2).2 ⟨3, by decide⟩, fun h => ?_⟩
  have := (C112_square hr 3).1 h
  revert this; decide

/-- C112: in the circuit built for two absent bits, one set bit fits a maximum of one, two do not, and
a value that is no bit never fits. -/
example : ∃ r, bitmapCircuit true [none, none] 0 true (.new 7 true) = .ok r ∧
    ∀ (x y M : ZMod 7), (∃ ρ : R1Var → ZMod 7, ρ .one = 1 ∧ r.2.Sat ρ ∧
      (∀ i (h : i < [x, y].length), ρ (.wit i) = [x, y][i]) ∧ ρ (.wit 2) = M) ↔
      ∃ ts : List Bool, [x, y] = ts.map bit ∧ ts.count true ≤ M.val ∧ M.val < 3 := by
  obtain ⟨r, hr⟩ := ((C112_setup (p := 7) (by decide)).2.1 true [none, none] 0 true).2 (by simp)
  exact ⟨r, hr, fun x y M => C112_bitmap (by decide) hr (by decide) [x, y] rfl M⟩

/-- C112: 256 signers in a bitmap that allows 300. -/
example : bitmapCircuit true ((List.replicate 256 true).map some) 300 true
    (.new FQ_MODULUS false) = .panic :=
  C112_bitmap_panics (p := FQ_MODULUS) (by rw [List.count_replicate_self])

end Verif
