import Verif.Lemmas.Gadgets
import Verif.Lemmas.Encoding
import Verif.Lemmas.Bls
import Verif.Lemmas.Toy

/-!
# Properties of the gadgets: C35 to C40, C64

"Satisfying assignment" means values for all witnesses under which every constraint holds.
-/

set_option linter.unusedSectionVars false

namespace Verif

instance fact_prime_seven : Fact (Nat.Prime 7) := ⟨by norm_num⟩

section

variable {p : ℕ} [Fact p.Prime]

/-! ## C35 -/

/-- C35, soundness: whatever the prover puts for the inverse, the bit says whether the element is
zero. -/
theorem C35_sound (el : FpVar p) (inv : ZMod p) (b : Bool) (h : isEqZeroC el inv b) :
    b = true ↔ el.value = 0 := by
  cases el with
  | constant v => simp only [isEqZeroC] at h; simp [h]
  | var v =>
    simp only [isEqZeroC] at h
    obtain ⟨h1, h2⟩ := h
    cases b with
    | true => simp at h2; simp [FpVar.value, h2]
    | false =>
      simp only [Bool.false_eq_true, FpVar.value, false_iff]
      rintro rfl
      simp at h1

/-- C35, completeness: the assignment computed by the code satisfies the constraints. -/
theorem C35_complete (el : FpVar p) :
    isEqZeroC el (isEqZeroWitness el).1 (isEqZeroWitness el).2 := by
  cases el with
  | constant v => simp [isEqZeroC, isEqZeroWitness]
  | var v =>
    by_cases h : v = 0
    · subst h; simp [isEqZeroC, isEqZeroWitness, FpVar.value_var]
    · simp [isEqZeroC, isEqZeroWitness, FpVar.value, h]

/-- Concrete case: over the field of seven elements, `3` is not zero and the prover cannot claim it
is, whatever the witness. -/
example : isEqZeroC (p := 7) (.var 3) 5 false ∧ ∀ inv, ¬ isEqZeroC (p := 7) (.var 3) inv true := by
  refine ⟨by unfold isEqZeroC; decide, fun inv h => ?_⟩
  exact absurd ((C35_sound _ _ _ h).mp rfl) (by decide)

/-! ## C36 -/

/-- C36: exact description of the satisfying bits of a variable: the bit is the comparison with
`(p - 1) / 2`, except at `(p - 1) / 2` itself, where both bits are accepted. -/
theorem C36_exact (hp : p ≠ 2) (v : ZMod p) (b : Bool) :
    (∃ adjusted, normalizeC (.var v) adjusted b) ↔
      (b = decide (v.val > halfOf p) ∨ v.val = halfOf p) := by
  have hprime : p.Prime := Fact.out
  have : NeZero p := ⟨hprime.ne_zero⟩
  have hpp := prime_half (p := p) hp
  have hv : v.val < p := ZMod.val_lt v
  have hh := val_half (p := p) hp
  simp only [normalizeC, leHalfC]
  constructor
  · rintro ⟨adj, h1, h2⟩
    subst h1
    cases b with
    | false =>
      simp only [bit_false, zero_mul, add_zero, one_mul] at h2
      left
      simpa using h2
    | true =>
      simp only [bit_true, one_mul] at h2
      rw [← sub_eq_add_neg] at h2
      by_cases e : v.val = halfOf p
      · exact Or.inr e
      left
      have : halfOf p < v.val := by
        rcases val_sub_cases v ((halfOf p : ℕ) : ZMod p) with ⟨h3, h4⟩ | ⟨h3, h4⟩
        · rw [hh] at h3
          omega
        · rw [h4] at h2
          rw [hh] at h2 h3
          omega
      simp [this]
  · intro h
    refine ⟨_, rfl, ?_⟩
    cases b with
    | false =>
      simp only [bit_false, zero_mul, add_zero, one_mul]
      rcases h with h | h
      · simpa using h
      · omega
    | true =>
      simp only [bit_true, one_mul]
      rw [← sub_eq_add_neg]
      have h5 : halfOf p ≤ v.val := by
        rcases h with h | h
        · have := of_decide_eq_true h.symm
          omega
        · omega
      rw [ZMod.val_sub (by rw [hh]; exact h5), hh]
      omega

/-- C36, soundness away from `(p - 1) / 2` (also for constants). -/
theorem C36_sound (hp : p ≠ 2) (el : FpVar p) (adjusted : ZMod p) (b : Bool)
    (hne : el.value.val ≠ halfOf p) (h : normalizeC el adjusted b) :
    b = true ↔ el.value.val > halfOf p := by
  cases el with
  | constant v => simp only [normalizeC] at h; simp [h]
  | var v =>
    rcases (C36_exact hp v b).mp ⟨adjusted, h⟩ with h | h
    · simp [h]
    · exact absurd (by simpa using h) hne

/-- C36, completeness: the code's assignment satisfies the constraints, for every element. -/
theorem C36_complete (hp : p ≠ 2) (el : FpVar p) :
    normalizeC el (normalizeWitness el).1 (normalizeWitness el).2 := by
  cases el with
  | constant v => simp [normalizeC, normalizeWitness]
  | var v =>
    obtain ⟨adj, h1, h2⟩ := (C36_exact hp v (decide (v.val > halfOf p))).mpr (Or.inl rfl)
    have : (normalizeWitness (.var v : FpVar p)).1 = adj := by
      rw [← h1]
      simp only [normalizeWitness, FpVar.value_var]
      by_cases h : v.val > halfOf p
      · rw [if_pos h, decide_eq_true h, bit_true]
        ring
      · rw [if_neg h, decide_eq_false h, bit_false]
        ring
    rw [this]
    exact ⟨h1, h2⟩

/-- C36, violated: for `(p - 1) / 2`, which does not exceed the half, the prover can also obtain
the bit 1. -/
theorem C36_violation (hp : p ≠ 2) :
    ∃ v adjusted : ZMod p, v.val = halfOf p ∧ normalizeC (.var v) adjusted true ∧
      ¬ v.val > halfOf p := by
  have hh := val_half (p := p) hp
  obtain ⟨adj, h⟩ := (C36_exact hp ((halfOf p : ℕ) : ZMod p) true).mpr (Or.inr hh)
  exact ⟨_, adj, hh, h, by rw [hh]; exact lt_irrefl _⟩

/-- Concrete case: modulo seven the half is three; four must be flagged, three can go either way. -/
example : (∀ adj, ¬ normalizeC (p := 7) (.var 4) adj false) ∧
    normalizeC (p := 7) (.var 3) 0 true ∧ normalizeC (p := 7) (.var 3) 3 false := by
  refine ⟨fun adj h => ?_, by unfold normalizeC leHalfC; decide, by unfold normalizeC leHalfC; decide⟩
  have := (C36_sound (by norm_num) _ _ _ (by decide) h).mpr (by decide)
  exact absurd this (by decide)

/-! ## C37 -/

/-- The sign flag of a `y` coordinate `(c0, c1)` as documented: `c1` decides unless it is zero. -/
def nativeFlag (c0 c1 : ZMod p) : Bool :=
  decide (c1.val > halfOf p) || (decide (c1 = 0) && decide (c0.val > halfOf p))

/-- C37, soundness: away from `(p - 1) / 2` the bit is the documented sign. -/
theorem C37_sound (hp : p ≠ 2) (c0 c1 : FpVar p) (w : YBitWitness p)
    (h0 : c0.value.val ≠ halfOf p) (h1 : c1.value.val ≠ halfOf p) (h : yToBitG2C c0 c1 w) :
    w.yBit = nativeFlag c0.value c1.value := by
  obtain ⟨n0, n1, z, eqn⟩ := h
  have e0 := C36_sound hp c0 _ _ h0 n0
  have e1 := C36_sound hp c1 _ _ h1 n1
  have ez := C35_sound c1 _ _ z
  have one_ne : (1 : ZMod p) ≠ 0 := one_ne_zero
  unfold nativeFlag
  have c0e : w.c0Bit = decide (c0.value.val > halfOf p) := by
    cases hb : w.c0Bit <;> simp_all
  have c1e : w.c1Bit = decide (c1.value.val > halfOf p) := by
    cases hb : w.c1Bit <;> simp_all
  have eze : w.eqBit = decide (c1.value = 0) := by
    cases hb : w.eqBit <;> simp_all
  rw [c0e, c1e, eze, bit_eqn_iff] at eqn
  exact eqn

/-- C37, completeness: the code's assignment satisfies the constraints. -/
theorem C37_complete (hp : p ≠ 2) (c0 c1 : FpVar p) :
    yToBitG2C c0 c1 (yToBitG2Witness c0 c1) ∧
      (yToBitG2Witness c0 c1).yBit = nativeFlag c0.value c1.value := by
  refine ⟨⟨C36_complete hp c0, C36_complete hp c1, C35_complete c1, ?_⟩, rfl⟩
  rw [bit_eqn_iff]
  rfl

/-- C37: exact description of the bits a prover can obtain for a point given by variables. -/
theorem C37_exact (hp : p ≠ 2) (hp3 : halfOf p ≠ 0) (c0 c1 : ZMod p) (b : Bool) :
    (∃ w, yToBitG2C (.var c0) (.var c1) w ∧ w.yBit = b) ↔
      (b = nativeFlag c0 c1 ∨ c1.val = halfOf p ∨ (c1 = 0 ∧ c0.val = halfOf p)) := by
  have one_ne : (1 : ZMod p) ≠ 0 := one_ne_zero
  constructor
  · rintro ⟨w, h, rfl⟩
    by_cases h1 : c1.val = halfOf p
    · exact Or.inr (Or.inl h1)
    by_cases h0 : c0.val = halfOf p
    · by_cases hz : c1 = 0
      · exact Or.inr (Or.inr ⟨hz, h0⟩)
      · left
        obtain ⟨n0, n1, z, eqn⟩ := h
        have e1 := C36_sound hp (.var c1) _ _ h1 n1
        have ez := C35_sound (.var c1) _ _ z
        simp only [FpVar.value_var] at e1 ez
        have c1e : w.c1Bit = decide (c1.val > halfOf p) := by
          cases hb : w.c1Bit <;> simp_all
        have eze : w.eqBit = false := by
          cases hb : w.eqBit <;> simp_all
        rw [c1e, eze, bit_eqn_iff] at eqn
        unfold nativeFlag
        rw [decide_eq_false hz]
        exact eqn
    · left
      have := C37_sound hp (.var c0) (.var c1) w (by simpa using h0) (by simpa using h1) h
      simpa using this
  · intro h
    by_cases hb : b = nativeFlag c0 c1
    · refine ⟨_, (C37_complete hp (.var c0) (.var c1)).1, ?_⟩
      rw [hb]
      simpa using (C37_complete hp (.var c0) (.var c1)).2
    · rcases h with h | h | ⟨hz, h⟩
      · exact absurd h hb
      · -- `c1` is the half: not zero, and both bits of `c1` can be used
        have hz : c1 ≠ 0 := by
          rintro rfl
          rw [ZMod.val_zero] at h
          exact hp3 h.symm
        obtain ⟨adj1, n1⟩ := (C36_exact hp c1 b).mpr (Or.inr h)
        refine ⟨⟨b, _, _, b, adj1, _, _⟩, ⟨C36_complete hp (.var c0), n1,
          C35_complete (.var c1), ?_⟩, rfl⟩
        rw [bit_eqn_iff]
        simp [isEqZeroWitness, hz]
      · subst hz
        obtain ⟨adj0, n0⟩ := (C36_exact hp c0 b).mpr (Or.inr h)
        refine ⟨⟨b, b, adj0, _, _, _, _⟩, ⟨n0, C36_complete hp (.var 0),
          C35_complete (.var 0), ?_⟩, rfl⟩
        rw [bit_eqn_iff]
        simp [isEqZeroWitness, normalizeWitness]

end

/-- C37 for the actual curve: the in-circuit bit of a key is the sign bit of the native encoding
(`isOverHalf` of `encode_public_key`), away from `(q - 1) / 2`. -/
theorem C37_matches_encoding (y : Fq2) (w : YBitWitness FQ_MODULUS)
    (h0 : y.re.val ≠ FQ_HALF) (h1 : y.im.val ≠ FQ_HALF)
    (h : yToBitG2C (.var y.re) (.var y.im) w) : w.yBit = isOverHalf y := by
  have := C37_sound (p := FQ_MODULUS) (by decide +kernel) (.var y.re) (.var y.im) w
    (by rw [FpVar.value_var]; exact h0) (by rw [FpVar.value_var]; exact h1) h
  rw [this]
  unfold nativeFlag isOverHalf
  simp only [FpVar.value_var]
  have e : decide (y.im = 0) = (y.im.val == 0) := by
    by_cases h : y.im = 0
    · simp [h]
    · have : y.im.val ≠ 0 := fun e => h ((ZMod.val_eq_zero _).mp e)
      simp [h, this]
  rw [e]
  rfl

/-- Coordinates of a point of the twist whose `y` has `c1 = (q - 1) / 2` (a witness for C37, not
code of /repo). -/
def edgeX : Fq2 :=
  ⟨211519423557036800621895351081366330790737139496906199746165142315931418447783403028770229506540907559175797729314,
   198728145372272222426368307224572997702893062531883196899925766522555017900857892122409644076163947870725820549139⟩

/-- See `edgeX`. -/
def edgeY : Fq2 := ⟨11, (FQ_HALF : Fq)⟩

theorem edge_equation : edgeY * edgeY = edgeX * edgeX * edgeX + g2CoeffB := by
  apply QuadraticAlgebra.ext
  · decide +kernel
  · decide +kernel

theorem edgeY_ne_zero : edgeY ≠ 0 := by
  intro h
  have := congrArg QuadraticAlgebra.re h
  revert this
  decide +kernel

/-- C37, violated on the actual curve: there is a point of the twist for which the prover can obtain
the sign bit that the native encoding gives to the opposite point. -/
theorem C37_violation : ∃ (x y : Fq2) (_ : g2Curve.Nonsingular x y) (w : YBitWitness FQ_MODULUS),
    y ≠ 0 ∧ yToBitG2C (.var y.re) (.var y.im) w ∧ w.yBit ≠ isOverHalf y ∧
      w.yBit = isOverHalf (-y) := by
  have hv : edgeY.im.val = FQ_HALF := by decide +kernel
  have hf : isOverHalf edgeY = false := by decide +kernel
  obtain ⟨w, h1, h2⟩ := (C37_exact (p := FQ_MODULUS) (by decide +kernel) (by decide +kernel)
    edgeY.re edgeY.im true).mpr (Or.inr (Or.inl hv))
  refine ⟨edgeX, edgeY, g2_nonsingular edge_equation edgeY_ne_zero, w, edgeY_ne_zero, h1, ?_, ?_⟩
  · rw [h2, hf]; simp
  · rw [h2, isOverHalf_neg _ edgeY_ne_zero, hf]; rfl

/-- Concrete case of C37: the generator of G2 avoids the exceptional value, so its bit is forced. -/
example (w : YBitWitness FQ_MODULUS) (h : yToBitG2C (.var g2GenY.re) (.var g2GenY.im) w) :
    w.yBit = true := by
  rw [C37_matches_encoding g2GenY w (by decide +kernel) (by decide +kernel) h]
  decide +kernel

/-! ## C38 -/

section

variable {p : ℕ} [Fact p.Prime]

/-- C38, soundness: in every satisfying assignment the number of positions holding the counted value
is at most the maximum, as integers, and the maximum is below half the field. -/
theorem C38_sound (hp : p ≠ 2) (bitmap : List Bool) (maxOcc : ZMod p) (value : Bool)
    (occ : ZMod p) (hlen : bitmap.length < p) (h : maxOccurrencesC bitmap maxOcc value occ) :
    bitmap.count value ≤ maxOcc.val ∧ maxOcc.val < halfOf p := by
  obtain ⟨h1, h2⟩ := h
  rw [enforceCmpLeC_iff hp] at h1
  rw [occurrencesLc_eq, mul_one] at h2
  have hc : bitmap.count value ≤ bitmap.length := List.count_le_length
  have hv : occ.val = bitmap.count value := by
    rw [← h2]
    exact ZMod.val_natCast_of_lt (by omega)
  omega

/-- C38, completeness: within bounds, and with the true count as witness, the constraints hold. -/
theorem C38_complete (hp : p ≠ 2) (bitmap : List Bool) (maxOcc : ZMod p) (value : Bool)
    (hlen : bitmap.length < p) (h1 : bitmap.count value ≤ maxOcc.val)
    (h2 : maxOcc.val < halfOf p) :
    maxOccurrencesC bitmap maxOcc value ((bitmap.count value : ℕ) : ZMod p) := by
  have hc : bitmap.count value ≤ bitmap.length := List.count_le_length
  refine ⟨?_, by rw [occurrencesLc_eq, mul_one]⟩
  rw [enforceCmpLeC_iff hp, ZMod.val_natCast_of_lt (by omega)]
  omega

/-- C38: satisfiable exactly when the count is within the maximum (below half the field). -/
theorem C38_exact (hp : p ≠ 2) (bitmap : List Bool) (maxOcc : ZMod p) (value : Bool)
    (hlen : bitmap.length < p) :
    (∃ occ, maxOccurrencesC bitmap maxOcc value occ) ↔
      bitmap.count value ≤ maxOcc.val ∧ maxOcc.val < halfOf p :=
  ⟨fun ⟨occ, h⟩ => C38_sound hp bitmap maxOcc value occ hlen h,
   fun ⟨h1, h2⟩ => ⟨_, C38_complete hp bitmap maxOcc value hlen h1 h2⟩⟩

/-! ## C39 -/

theorem countWitness_wrap (value : Bool) (bitmap : List Bool) (acc : UInt8) :
    countWitness false value bitmap acc = .ok (acc + UInt8.ofNat (bitmap.count value)) := by
  induction bitmap generalizing acc with
  | nil => simp [countWitness]
  | cons b bs ih =>
    rw [countWitness]
    simp only [Bool.false_and, Bool.false_eq_true, if_false]
    by_cases h : b = value
    · rw [if_pos h, ih, h, List.count_cons_self]
      congr 1
      rw [UInt8.ofNat_add, UInt8.add_assoc, UInt8.add_comm 1]
      rfl
    · rw [if_neg h, ih, List.count_cons_of_ne h]

theorem countWitness_checked (value : Bool) (bitmap : List Bool) (acc : UInt8) :
    countWitness true value bitmap acc =
      if acc.toNat + bitmap.count value < 256 then .ok (acc + UInt8.ofNat (bitmap.count value))
      else .panic := by
  induction bitmap generalizing acc with
  | nil =>
    have := acc.toNat_lt
    simp [countWitness]
    omega
  | cons b bs ih =>
    rw [countWitness]
    simp only [Bool.true_and, beq_iff_eq]
    have hacc := acc.toNat_lt
    by_cases h : b = value
    · rw [if_pos h, h, List.count_cons_self]
      by_cases h2 : acc.toNat = 255
      · rw [if_pos h2, if_neg (by omega)]
      · rw [if_neg h2, ih]
        have h3 : (acc + 1).toNat = acc.toNat + 1 := by
          rw [UInt8.toNat_add]
          have : (1 : UInt8).toNat = 1 := rfl
          rw [this]
          omega
        rw [h3]
        by_cases h4 : acc.toNat + 1 + bs.count value < 256
        · rw [if_pos h4, if_pos (by omega)]
          congr 1
          rw [UInt8.ofNat_add, UInt8.add_assoc, UInt8.add_comm 1]
          rfl
        · rw [if_neg h4, if_neg (by omega)]
    · rw [if_neg h, ih, List.count_cons_of_ne h]

/-- C39, the part that holds: with fewer than 256 occurrences the prover computes the right witness,
with or without overflow checks. -/
theorem C39_witness_small (checks : Bool) (bitmap : List Bool) (value : Bool)
    (h : bitmap.count value < 256) :
    maxOccurrencesWitness (p := p) checks bitmap value =
      .ok ((bitmap.count value : ℕ) : ZMod p) := by
  unfold maxOccurrencesWitness
  have hc : countWitness checks value bitmap 0 = .ok (UInt8.ofNat (bitmap.count value)) := by
    cases checks with
    | false => rw [countWitness_wrap]; simp
    | true => rw [countWitness_checked, if_pos (by simpa using h)]; simp
  rw [hc]
  simp only [Outcome.map, Outcome.bind]
  rw [UInt8.toNat_ofNat', Nat.mod_eq_of_lt (by simpa using h)]

/-- C39, violated: with 256 or more occurrences the prover panics (overflow checks), or computes a
witness that does not satisfy the constraints, although the statement is true and another
witness satisfies them. -/
theorem C39_violation (hp : p ≠ 2) (bitmap : List Bool) (maxOcc : ZMod p) (value : Bool)
    (hlen : bitmap.length < p) (h256 : 256 ≤ bitmap.count value)
    (h1 : bitmap.count value ≤ maxOcc.val) (h2 : maxOcc.val < halfOf p) :
    (∃ occ, maxOccurrencesC bitmap maxOcc value occ) ∧
    maxOccurrencesWitness (p := p) true bitmap value = .panic ∧
    ∃ w, maxOccurrencesWitness (p := p) false bitmap value = .ok w ∧
      ¬ maxOccurrencesC bitmap maxOcc value w := by
  refine ⟨⟨_, C38_complete hp bitmap maxOcc value hlen h1 h2⟩, ?_, ?_⟩
  · unfold maxOccurrencesWitness
    rw [countWitness_checked, if_neg (by simpa using h256)]
    rfl
  · unfold maxOccurrencesWitness
    rw [countWitness_wrap]
    refine ⟨_, rfl, ?_⟩
    rintro ⟨_, h3⟩
    rw [occurrencesLc_eq, mul_one] at h3
    have hc : bitmap.count value ≤ bitmap.length := List.count_le_length
    have h4 := congrArg ZMod.val h3
    have h5 : ((0 : UInt8) + UInt8.ofNat (bitmap.count value)).toNat < 256 := UInt8.toNat_lt _
    rw [ZMod.val_natCast_of_lt (by omega), ZMod.val_natCast_of_lt (by omega)] at h4
    omega

end

/-- Concrete case of C38 and C39: 300 non-signers of 400, allowed by a maximum of 350; the prover
nevertheless fails. -/
example : (∃ occ, maxOccurrencesC (p := FQ_MODULUS)
      (List.replicate 300 false ++ List.replicate 100 true) 350 false occ) ∧
    maxOccurrencesWitness (p := FQ_MODULUS) true
      (List.replicate 300 false ++ List.replicate 100 true) false = .panic := by
  have := C39_violation (p := FQ_MODULUS) (by decide +kernel)
    (List.replicate 300 false ++ List.replicate 100 true) 350 false
    (by decide +kernel) (by decide +kernel) (by decide +kernel) (by decide +kernel)
  exact ⟨this.1, this.2.1⟩

/-- Concrete case of C38: two non-signers of three cannot pass with a maximum of one. -/
example : ¬ ∃ occ, maxOccurrencesC (p := FQ_MODULUS) [false, true, false] 1 false occ := by
  rw [C38_exact (by decide +kernel) _ _ _ (by decide +kernel)]
  decide +kernel

/-! ## C40 -/

section

variable {G2 : Type*} [AddCommGroup G2]

/-- C40: with as many bits as keys, the constraints say that no signer holds the padding key, and
the aggregate is the sum of the keys whose bit is set. -/
theorem C40_exact (keys : List G2) (bitmap : List Bool) (padding : G2)
    (h : bitmap.length = keys.length) :
    ∃ r, enforceAggregatedPubkeys keys bitmap padding = .ok r ∧
      (r.1 ↔ ∀ i (hi : i < bitmap.length), bitmap[i] = true → keys[i] ≠ padding) ∧
      r.2 = ∑ i : Fin bitmap.length, if bitmap[i] = true then keys[i] else 0 := by
  unfold enforceAggregatedPubkeys
  rw [if_pos h]
  refine ⟨_, rfl, ?_, ?_⟩
  · rw [(aggregatedLoop_eq _ _ _).1]
    constructor
    · intro hx i hi hb
      have hm : (keys[i], bitmap[i]) ∈ keys.zip bitmap := by
        rw [List.mem_iff_getElem]
        exact ⟨i, by simp; omega, by simp⟩
      exact hx _ hm hb
    · intro hx x hm hb
      rw [List.mem_iff_getElem] at hm
      obtain ⟨i, hi, rfl⟩ := hm
      simp only [List.getElem_zip] at hb ⊢
      exact hx i (by simp at hi; omega) hb
  · rw [(aggregatedLoop_eq _ _ _).2, zero_add]
    have key : ∀ (ks : List G2) (bs : List Bool), bs.length = ks.length →
        (((ks.zip bs).filter (·.2)).map (·.1)).sum =
          ((ks.zip bs).map fun x => if x.2 = true then x.1 else 0).sum := by
      intro ks
      induction ks with
      | nil => intro bs _; simp
      | cons k ks ih =>
        intro bs hl
        cases bs with
        | nil => simp
        | cons b bs =>
          have := ih bs (by simpa using hl)
          cases b <;> simp [this]
    rw [key keys bitmap h, ← List.sum_ofFn]
    congr 1
    apply List.ext_getElem
    · simp [h]
    · intro i h1 h2
      simp

/-- C40: a bitmap of another length panics. -/
theorem C40_panics (keys : List G2) (bitmap : List Bool) (padding : G2) :
    enforceAggregatedPubkeys keys bitmap padding = .panic ↔ bitmap.length ≠ keys.length := by
  unfold enforceAggregatedPubkeys
  by_cases h : bitmap.length = keys.length <;> simp [h]

/-- C40: the aggregate over all keys is their sum. -/
theorem C40_all (keys : List G2) : enforceAggregatedAllPubkeys keys = keys.sum :=
  aggregatedAll_eq keys

/-- Concrete case: keys 3, 4, 5 with padding key 4 and the second not signing: constraints hold and
the sum is 8; if the second signs they do not hold. -/
example : (∃ r, enforceAggregatedPubkeys [(3 : ℤ), 4, 5] [true, false, true] 4 = .ok r ∧ r.1 ∧
      r.2 = 8) ∧
    ∃ r, enforceAggregatedPubkeys [(3 : ℤ), 4, 5] [true, true, true] 4 = .ok r ∧ ¬ r.1 := by
  constructor
  · refine ⟨_, rfl, ?_, ?_⟩
    · simp [aggregatedLoop]
    · simp [aggregatedLoop]
  · refine ⟨_, rfl, ?_⟩
    simp [aggregatedLoop]

end

/-! ## C64: the signature gadget is native verification -/

section

variable {p r : ℕ} [Fact p.Prime] [Fact r.Prime] {G1 G2 GT : Type*} [AddCommGroup G1]
  [Module (ZMod r) G1] [AddCommGroup G2] [Module (ZMod r) G2] [CommGroup GT] [DecidableEq GT]
  (P : Pairing r G1 G2 GT)

/-- C64: the circuit of `BlsVerifyGadget::verify` can be satisfied exactly when enough validators
signed, none of them with the padding key, and the native verification accepts the signature
under the aggregate of the signers' keys. -/
theorem C64_verify_gadget (hp : p ≠ 2) (keys : List G2) (bitmap : List Bool) (domain msg extra : Bytes)
    (H : HashToG1 G1) (h : G1) (hH : H domain msg extra = .ok h) (sig : G1)
    (maxNonSigners : ZMod p) (padding : G2) (hl : bitmap.length = keys.length)
    (hlen : bitmap.length < p) :
    (∃ occ sat, gadgetVerify P.e P.g2 keys bitmap h sig maxNonSigners padding occ = .ok sat ∧ sat) ↔
      (bitmap.count false ≤ maxNonSigners.val ∧ maxNonSigners.val < halfOf p ∧
        (∀ x ∈ keys.zip bitmap, x.2 = true → x.1 ≠ padding) ∧
        verifySig P (aggregatePublicKeys (((keys.zip bitmap).filter (·.2)).map (·.1)))
          domain msg extra sig H = .ok ()) := by
  have hagg := aggregatedLoop_eq padding (keys.zip bitmap) 0
  have hv : verifySig P (aggregatePublicKeys (((keys.zip bitmap).filter (·.2)).map (·.1)))
      domain msg extra sig H = .ok () ↔
      P.e sig (-P.g2) *
        P.e h (aggregatePublicKeys (((keys.zip bitmap).filter (·.2)).map (·.1))) = 1 := by
    unfold verifySig
    simp only [hH, Outcome.bind_ok, productOfPairings, List.map_cons, List.map_nil, List.prod_cons,
      List.prod_nil, mul_one]
    split <;> simp_all
  rw [hv, aggregatePublicKeys_eq_sum]
  unfold gadgetVerify enforceBitmap enforceAggregatedPubkeys enforceBlsEquation
  rw [if_pos hl]
  simp only [Outcome.map, Outcome.bind, List.length_cons, List.length_nil, if_true,
    Outcome.ok.injEq, List.zip_cons_cons, List.zip_nil_right, List.map_cons, List.map_nil,
    List.prod_cons, List.prod_nil, mul_one]
  rw [hagg.2, zero_add]
  constructor
  · rintro ⟨occ, sat, rfl, ⟨h1, h2⟩, h3⟩
    have := C38_sound hp bitmap maxNonSigners false occ hlen h1
    exact ⟨this.1, this.2, hagg.1.mp h2, h3⟩
  · rintro ⟨h1, h2, h3, h4⟩
    exact ⟨_, _, rfl, ⟨C38_complete hp bitmap maxNonSigners false hlen h1 h2, hagg.1.mpr h3⟩, h4⟩

/-- C64: the batch gadget is the native batch verification of hashes. -/
theorem C64_batch_gadget (keys : List G2) (hashes : List G1) (sig : G1) :
    (∃ sat, gadgetBatchVerify P.e P.g2 keys hashes sig = .ok sat ∧ sat) ↔
      batchVerifyHashes P sig keys hashes = .ok () := by
  unfold gadgetBatchVerify batchVerifyPrepared enforceBlsEquation batchVerifyHashes
    productOfPairings
  by_cases h : keys.length = hashes.length
  · simp only [List.length_cons, h, if_true, Outcome.ok.injEq, exists_eq_left', ne_eq,
      not_true_eq_false, if_false, List.zip_cons_cons]
    split <;> simp_all
  · have h' : ¬ hashes.length = keys.length := fun e => h e.symm
    simp [h, h']

/-- C64: the batch gadget fails to synthesise on slices of different lengths. -/
theorem C64_batch_lengths (keys : List G2) (hashes : List G1) (sig : G1) :
    gadgetBatchVerify P.e P.g2 keys hashes sig = .err () ↔ keys.length ≠ hashes.length := by
  unfold gadgetBatchVerify batchVerifyPrepared enforceBlsEquation
  by_cases h : keys.length = hashes.length
  · simp [h]
  · have h' : ¬ hashes.length = keys.length := fun e => h e.symm
    simp [h, h']

end

/-- Concrete case of C64 over the toy pairing: keys 2 and 3 sign, key 5 does not, one non-signer
allowed; the signature is five times the hash. -/
example : ∃ occ sat, gadgetVerify (p := 101) (toyPairing 7).e (toyPairing 7).g2 [2, 3, 5]
    [true, true, false] 4 (5 * 4) 1 6 occ = .ok sat ∧ sat := by
  have : Fact (Nat.Prime 101) := ⟨by norm_num⟩
  rw [C64_verify_gadget (toyPairing 7) (by norm_num) [2, 3, 5] [true, true, false] [] [] []
    (fun _ _ _ => .ok 4) 4 rfl _ _ _ rfl (by norm_num)]
  refine ⟨by decide, by decide, by decide, by decide⟩

/-! ## The theorems applied to concrete data -/

section
local instance factPrime13 : Fact (Nat.Prime 13) := ⟨by decide⟩
local instance factPrime7 : Fact (Nat.Prime 7) := ⟨by decide⟩

/-- `C36_exact`: modulo 13, half of which is 6, the flag of 9 can only be true, that of 6 can be both. -/
example (b : Bool) : ((∃ adjusted, normalizeC (.var (9 : ZMod 13)) adjusted b) ↔ b = true) ∧
    ∃ adjusted, normalizeC (.var (6 : ZMod 13)) adjusted b := by
  have h9 := C36_exact (p := 13) (by norm_num) 9 b
  have h6 := C36_exact (p := 13) (by norm_num) 6 b
  refine ⟨h9.trans ⟨?_, ?_⟩, h6.mpr (Or.inr (by decide))⟩
  · rintro (h | h)
    · rw [h]; decide
    · exact absurd h (by decide)
  · rintro rfl; exact Or.inl (by decide)

/-- `C37_sound` and `C37_exact`: `y = (2, 9)`, and the ambiguous `y = (2, 6)`. -/
example : (∀ w, yToBitG2C (.var (2 : ZMod 13)) (.var 9) w → w.yBit = true) ∧
    ∀ b, ∃ w, yToBitG2C (.var (2 : ZMod 13)) (.var 6) w ∧ w.yBit = b :=
  ⟨fun w h => (C37_sound (by norm_num) _ _ w (by decide) (by decide) h).trans (by decide),
    fun b => (C37_exact (by norm_num) (by decide) 2 6 b).mpr (Or.inr (Or.inl (by decide)))⟩

/-- `C37_complete`. -/
example : (yToBitG2Witness (.var (2 : ZMod 13)) (.var 9)).yBit = true :=
  (C37_complete (by norm_num) _ _).2.trans (by decide)

/-- `C38_sound`, `C38_complete`: two of four bits are false; the thresholds 2 to 5 are met and no others. -/
example : (∀ maxOcc occ : ZMod 13, maxOccurrencesC [true, false, true, false] maxOcc false occ →
      2 ≤ maxOcc.val ∧ maxOcc.val < 6) ∧
    maxOccurrencesC [true, false, true, false] (2 : ZMod 13) false 2 :=
  ⟨fun m occ h => C38_sound (by norm_num) _ m false occ (by decide) h,
    C38_complete (by norm_num) [true, false, true, false] 2 false (by decide) (by decide) (by decide)⟩

/-- `C40_exact`: the first and the third of three keys, none of them the padding key 5. -/
example : ∃ r, enforceAggregatedPubkeys [(1 : ZMod 7), 2, 4] [true, false, true] 5 = .ok r ∧ r.1 ∧ r.2 = 5 := by
  obtain ⟨r, h1, h2, h3⟩ := C40_exact [(1 : ZMod 7), 2, 4] [true, false, true] 5 rfl
  exact ⟨r, h1, h2.mpr (by decide), h3.trans (by decide)⟩

end

end Verif
