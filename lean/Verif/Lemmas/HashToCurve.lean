import Verif.Model.HashToCurve
import Verif.Lemmas.Hashers
import Verif.Lemmas.Batch
import Mathlib.Data.Nat.Bitwise
import Mathlib.Algebra.Field.ZMod
import Mathlib.Tactic.LinearCombination

/-! Helper lemmas about hashing to the curve. -/

set_option exponentiation.threshold 800

namespace Verif

/-- What is assumed of the external square root: it returns a root if and only if one exists. -/
structure SqrtSpec (sqrt : Fq → Option Fq) : Prop where
  sound : ∀ v y, sqrt v = some y → y * y = v
  complete : ∀ v, sqrt v = none → ∀ y, y * y ≠ v

/-- The point denoted by a 384-bit digest `D`: `x` is the low 377 bits; bit `signBit` selects the
larger of the two roots; `x = 0` together with bit 382 denotes infinity. -/
def Decodes (signBit D : ℕ) : AffinePoint Fq → Prop
  | .infinity => D % 2 ^ 377 = 0 ∧ D.testBit 382 = true
  | .finite x y => D % 2 ^ 377 < FQ_MODULUS ∧ ¬ (D % 2 ^ 377 = 0 ∧ D.testBit 382 = true) ∧
      x = ((D % 2 ^ 377 : ℕ) : Fq) ∧ y * y = x ^ 3 + 1 ∧
      (if D.testBit signBit then (-y).val ≤ y.val else y.val ≤ (-y).val)

theorem leValue_append (a b : Bytes) :
    leValue (a ++ b) = leValue a + 256 ^ a.length * leValue b := by
  induction a with
  | nil => simp [leValue]
  | cons x xs ih => simp only [List.cons_append, leValue, ih, List.length_cons, pow_succ]; ring

theorem exists_last (bytes : Bytes) (h : bytes.length = 48) :
    ∃ init b, bytes = init ++ [b] ∧ init.length = 47 := by
  refine ⟨bytes.take 47, bytes[47], ?_, by simp [h]⟩
  rw [List.take_append_getElem]
  rw [List.take_of_length_le (by omega)]

theorem leValue_snoc (init : Bytes) (b : UInt8) (h : init.length = 47) :
    leValue (init ++ [b]) = 2 ^ 376 * b.toNat + leValue init := by
  rw [leValue_append, h]
  simp only [leValue]
  norm_num
  ring

theorem leValue47_lt (init : Bytes) (h : init.length = 47) : leValue init < 2 ^ 376 := by
  have := leValue_lt init
  rw [h] at this
  calc _ < 256 ^ 47 := this
    _ = 2 ^ 376 := by norm_num

theorem testBit_snoc (init : Bytes) (b : UInt8) (h : init.length = 47) (j : ℕ) :
    (leValue (init ++ [b])).testBit (376 + j) = b.toNat.testBit j := by
  rw [leValue_snoc init b h, Nat.testBit_two_pow_mul_add _ (leValue47_lt init h),
    if_neg (by omega), Nat.add_sub_cancel_left]

theorem byte_and_one (b : UInt8) : (b &&& 1).toNat = b.toNat % 2 := by
  rw [UInt8.toNat_and]
  exact Nat.and_one_is_mod _

theorem mod_snoc (init : Bytes) (b : UInt8) (h : init.length = 47) :
    leValue (init ++ [b]) % 2 ^ 377 = leValue (init ++ [b &&& 1]) := by
  rw [leValue_snoc init b h, leValue_snoc init _ h, byte_and_one]
  have := leValue47_lt init h
  omega

theorem flags_of_byte : ∀ b : UInt8,
    YSignFlags.fromU8 (b &&& 0xC0) =
      some (if b.toNat.testBit 7 then .positiveY (b.toNat.testBit 6)
        else .negativeY (b.toNat.testBit 6)) := by
  decide +kernel

theorem fqFromRandomBytesWithFlags_eq (bytes : Bytes) (h : bytes.length = 48) :
    fqFromRandomBytesWithFlags bytes =
      if leValue bytes % 2 ^ 377 < FQ_MODULUS then
        some (((leValue bytes % 2 ^ 377 : ℕ) : Fq),
          if (leValue bytes).testBit 383 then .positiveY ((leValue bytes).testBit 382)
          else .negativeY ((leValue bytes).testBit 382))
      else none := by
  obtain ⟨init, b, rfl, hi⟩ := exists_last bytes h
  have e1 : ((init ++ [b]) ++ List.replicate 49 (0 : UInt8)).take 49 = init ++ [b, 0] := by
    rw [List.take_append, List.take_of_length_le (by simp [hi])]
    simp [hi]
  have e2 : (init ++ [b, (0 : UInt8)]).getD 47 0 = b := by
    simp [List.getD, hi]
  have e3 : (init ++ [b, (0 : UInt8)]).take 47 = init := by
    rw [List.take_append_of_le_length (by omega), List.take_of_length_le (by omega)]
  have t7 : (leValue (init ++ [b])).testBit 383 = b.toNat.testBit 7 := testBit_snoc init b hi 7
  have t6 : (leValue (init ++ [b])).testBit 382 = b.toNat.testBit 6 := testBit_snoc init b hi 6
  unfold fqFromRandomBytesWithFlags
  simp only [e1, e2, e3, flags_of_byte, ← mod_snoc init b hi, t7, t6, Option.map_some]

theorem val_neg_cases (y : Fq) (g : Bool) :
    let w := if xor (decide (y.val < (-y).val)) g then y else -y
    (w = y ∨ w = -y) ∧ (if g then (-w).val ≤ w.val else w.val ≤ (-w).val) := by
  cases g
  · by_cases h : y.val < (-y).val
    · simp [h, le_of_lt h]
    · simp [h, not_lt.mp h]
  · by_cases h : y.val < (-y).val
    · simp [h, le_of_lt h]
    · simp [h, not_lt.mp h]

/-- The root selected by size is unique. -/
theorem root_unique {v y y' : Fq} {g : Bool} (h : y * y = v) (h' : y' * y' = v)
    (s : if g then (-y).val ≤ y.val else y.val ≤ (-y).val)
    (s' : if g then (-y').val ≤ y'.val else y'.val ≤ (-y').val) : y = y' := by
  have hh : (y - y') * (y + y') = 0 := by linear_combination h - h'
  rcases mul_eq_zero.mp hh with e | e
  · exact sub_eq_zero.mp e
  · have e' : y' = -y := by linear_combination e
    subst e'
    rw [neg_neg] at s'
    cases g <;> simp only [if_true, Bool.false_eq_true, if_false] at s s' <;>
      exact ZMod.val_injective _ (le_antisymm (by assumption) (by assumption))

theorem getPointFromX_iff {sqrt : Fq → Option Fq} (hs : SqrtSpec sqrt) (x : Fq) (g : Bool)
    (P : AffinePoint Fq) :
    getPointFromX sqrt x g = some P ↔
      ∃ y, P = .finite x y ∧ y * y = x ^ 3 + 1 ∧
        (if g then (-y).val ≤ y.val else y.val ≤ (-y).val) := by
  have hx : x * x * x + 0 * x + 1 = x ^ 3 + 1 := by ring
  unfold getPointFromX
  rw [hx]
  cases hq : sqrt (x ^ 3 + 1) with
  | none =>
    simp only [Option.map_none, reduceCtorEq, false_iff]
    rintro ⟨y, _, h, _⟩
    exact hs.complete _ hq y h
  | some y =>
    have hy := hs.sound _ _ hq
    obtain ⟨c1, c2⟩ := val_neg_cases y g
    simp only [Option.map_some, Option.some.injEq]
    set w := (if xor (decide (y.val < (-y).val)) g then y else -y) with hw
    have hww : w * w = x ^ 3 + 1 := by
      rcases c1 with e | e <;> rw [e]
      · exact hy
      · rw [neg_mul_neg]; exact hy
    constructor
    · rintro rfl
      exact ⟨w, rfl, hww, c2⟩
    · rintro ⟨y', rfl, h1, h2⟩
      rw [root_unique hww h1 c2 h2]

theorem cast_eq_zero_of_lt {n : ℕ} (h : n < FQ_MODULUS) : ((n : ℕ) : Fq) = 0 ↔ n = 0 := by
  constructor
  · intro e
    rw [ZMod.natCast_eq_zero_iff] at e
    exact Nat.eq_zero_of_dvd_of_lt e h
  · rintro rfl; simp

theorem fromRandomBytes_iff {sqrt : Fq → Option Fq} (hs : SqrtSpec sqrt) (bytes : Bytes)
    (h : bytes.length = 48) (P : AffinePoint Fq) :
    fromRandomBytes sqrt bytes = some P ↔ Decodes 383 (leValue bytes) P := by
  unfold fromRandomBytes
  rw [fqFromRandomBytesWithFlags_eq bytes h]
  generalize leValue bytes = D
  by_cases hlt : D % 2 ^ 377 < FQ_MODULUS
  · rw [if_pos hlt]
    simp only [Option.bind_some, cast_eq_zero_of_lt hlt]
    have hinf : (if D.testBit 383 then YSignFlags.positiveY (D.testBit 382)
        else YSignFlags.negativeY (D.testBit 382)).isInfinity = D.testBit 382 := by
      cases D.testBit 383 <;> cases D.testBit 382 <;> rfl
    have hpos : (if D.testBit 383 then YSignFlags.positiveY (D.testBit 382)
        else YSignFlags.negativeY (D.testBit 382)).isPositive = some (D.testBit 383) := by
      cases D.testBit 383 <;> rfl
    rw [hinf, hpos]
    by_cases h0 : D % 2 ^ 377 = 0 ∧ D.testBit 382 = true
    · rw [if_pos h0]
      cases P with
      | infinity => simpa [Decodes] using h0
      | finite x y =>
        simp only [Decodes, reduceCtorEq, Option.some.injEq, false_iff]
        exact fun h => h.2.1 h0
    · rw [if_neg h0]
      simp only []
      rw [getPointFromX_iff hs]
      cases P with
      | infinity => simpa [Decodes] using h0
      | finite x y =>
        simp only [Decodes, AffinePoint.finite.injEq]
        constructor
        · rintro ⟨y', ⟨rfl, rfl⟩, h1, h2⟩
          exact ⟨hlt, h0, rfl, h1, h2⟩
        · rintro ⟨_, _, rfl, h1, h2⟩
          exact ⟨y, ⟨rfl, rfl⟩, h1, h2⟩
  · rw [if_neg hlt]
    simp only [Option.bind_none, reduceCtorEq, false_iff]
    cases P with
    | infinity =>
      rintro ⟨h0, _⟩
      rw [h0] at hlt
      exact hlt (lt_trans (by norm_num) FQ_bounds.1)
    | finite x y => exact fun h => hlt h.1

/-! ### The compat bit move -/

theorem compat_byte_set : ∀ b : UInt8, b &&& 2 ≠ 0 →
    (b ||| (YSignFlags.positiveY false).u8Bitmask).toNat % 2 = b.toNat % 2 ∧
    (b ||| (YSignFlags.positiveY false).u8Bitmask).toNat.testBit 6 = b.toNat.testBit 6 ∧
    (b ||| (YSignFlags.positiveY false).u8Bitmask).toNat.testBit 7 = b.toNat.testBit 1 := by
  decide +kernel

theorem compat_byte_clear : ∀ b : UInt8, ¬ b &&& 2 ≠ 0 →
    (b &&& ~~~(YSignFlags.positiveY false).u8Bitmask).toNat % 2 = b.toNat % 2 ∧
    (b &&& ~~~(YSignFlags.positiveY false).u8Bitmask).toNat.testBit 6 = b.toNat.testBit 6 ∧
    (b &&& ~~~(YSignFlags.positiveY false).u8Bitmask).toNat.testBit 7 = b.toNat.testBit 1 := by
  decide +kernel

theorem compatMove_short (cand : Bytes) (h : cand.length < 48) : compatMove cand = .panic := by
  unfold compatMove NUM_BYTES
  rw [if_pos h]

/-- The bit move keeps the low 377 bits and bit 382, and copies bit 377 to bit 383. -/
theorem compatMove_spec (cand : Bytes) (h : 48 ≤ cand.length) :
    ∃ out, compatMove cand = .ok out ∧ out.length = 48 ∧
      leValue out % 2 ^ 377 = leValue (cand.take 48) % 2 ^ 377 ∧
      (leValue out).testBit 382 = (leValue (cand.take 48)).testBit 382 ∧
      (leValue out).testBit 383 = (leValue (cand.take 48)).testBit 377 := by
  obtain ⟨init, b, hb, hi⟩ := exists_last (cand.take 48) (by simp [h])
  have e2 : (init ++ [b]).getD 47 0 = b := by simp [List.getD, hi]
  have e3 : ∀ v : UInt8, (init ++ [b]).set 47 v = init ++ [v] := by
    intro v
    rw [List.set_append_right _ _ (by omega)]
    simp [hi]
  unfold compatMove NUM_BYTES
  rw [if_neg (by omega)]
  simp only [hb, e2, e3, show 48 - 1 = 47 from rfl]
  have hm : ∀ v : UInt8, v.toNat % 2 = b.toNat % 2 →
      leValue (init ++ [v]) % 2 ^ 377 = leValue (init ++ [b]) % 2 ^ 377 := by
    intro v hv
    rw [leValue_snoc _ _ hi, leValue_snoc _ _ hi]
    have := leValue47_lt init hi
    omega
  have t7 : ∀ v, (leValue (init ++ [v])).testBit 383 = v.toNat.testBit 7 :=
    fun v => testBit_snoc init v hi 7
  have t6 : ∀ v, (leValue (init ++ [v])).testBit 382 = v.toNat.testBit 6 :=
    fun v => testBit_snoc init v hi 6
  have t1 : ∀ v, (leValue (init ++ [v])).testBit 377 = v.toNat.testBit 1 :=
    fun v => testBit_snoc init v hi 1
  by_cases hf : b &&& 2 ≠ 0
  · obtain ⟨a1, a2, a3⟩ := compat_byte_set b hf
    refine ⟨_, if_pos (by simpa using hf), by simp [hi], hm _ a1, ?_, ?_⟩
    · rw [t6, t6, a2]
    · rw [t7, t1, a3]
  · obtain ⟨a1, a2, a3⟩ := compat_byte_clear b hf
    refine ⟨_, if_neg (by simpa using hf), by simp [hi], hm _ a1, ?_, ?_⟩
    · rw [t6, t6, a2]
    · rw [t7, t1, a3]

/-- Position of the sign bit in the digest. -/
def signBit (compat : Bool) : ℕ := if compat then 377 else 383

theorem Decodes_congr {D D' s s' : ℕ} (h1 : D % 2 ^ 377 = D' % 2 ^ 377)
    (h2 : D.testBit 382 = D'.testBit 382) (h3 : D.testBit s = D'.testBit s') (P : AffinePoint Fq) :
    Decodes s D P ↔ Decodes s' D' P := by
  cases P <;> simp only [Decodes, h1, h2, h3]

theorem decodes_unique {s D : ℕ} {P P' : AffinePoint Fq} (h : Decodes s D P)
    (h' : Decodes s D P') : P = P' := by
  cases P <;> cases P' <;> simp only [Decodes] at h h'
  · rfl
  · exact absurd h h'.2.1
  · exact absurd h' h.2.1
  · rename_i x y x' y'
    obtain ⟨_, _, rfl, h1, h2⟩ := h
    obtain ⟨_, _, rfl, h3, h4⟩ := h'
    rw [root_unique h1 h3 h2 h4]

section
variable {G : Type*} [Zero G] [DecidableEq G] {compat : Bool}
  {sqrt : Fq → Option Fq} {scale : AffinePoint Fq → G}

theorem processCandidate_short (cand : Bytes) (h : cand.length < 48) :
    processCandidate compat sqrt scale cand = .panic := by
  unfold processCandidate
  cases compat
  · simp [NUM_BYTES, h]
  · simp only [if_true, compatMove_short cand h]; rfl

theorem processCandidate_eq (hs : SqrtSpec sqrt) (cand : Bytes) (h : 48 ≤ cand.length) :
    ∃ o : Option (AffinePoint Fq),
      (∀ P, o = some P ↔ Decodes (signBit compat) (leValue (cand.take 48)) P) ∧
      processCandidate compat sqrt scale cand =
        .ok (match o with
          | some p => if scale p = 0 then none else some (scale p)
          | none => none) := by
  cases compat
  · refine ⟨fromRandomBytes sqrt (cand.take 48),
      fun P => fromRandomBytes_iff hs _ (by simp [h]) P, ?_⟩
    unfold processCandidate
    simp only [Bool.false_eq_true, if_false, Outcome.bind_ok]
    rw [if_neg (by unfold NUM_BYTES; omega)]
    simp only [NUM_BYTES]
    cases fromRandomBytes sqrt (cand.take 48) with
    | none => rfl
    | some p => simp only []; split <;> rfl
  · obtain ⟨out, ho, hl, h1, h2, h3⟩ := compatMove_spec cand h
    have ht : out.take 48 = out := List.take_of_length_le (by omega)
    refine ⟨fromRandomBytes sqrt out, fun P => ?_, ?_⟩
    · rw [fromRandomBytes_iff hs _ hl P]
      exact Decodes_congr h1 h2 h3 P
    · unfold processCandidate
      simp only [if_true, ho, Outcome.bind_ok]
      rw [if_neg (by unfold NUM_BYTES; omega)]
      simp only [NUM_BYTES, ht]
      cases fromRandomBytes sqrt out with
      | none => rfl
      | some p => simp only []; split <;> rfl

theorem processCandidate_some_iff (hs : SqrtSpec sqrt) (cand : Bytes) (g : G) :
    processCandidate compat sqrt scale cand = .ok (some g) ↔
      48 ≤ cand.length ∧ g ≠ 0 ∧
        ∃ P, Decodes (signBit compat) (leValue (cand.take 48)) P ∧ scale P = g := by
  by_cases h : 48 ≤ cand.length
  · obtain ⟨o, ho, e⟩ := processCandidate_eq (compat := compat) (scale := scale) hs cand h
    rw [e]
    simp only [h, true_and, Outcome.ok.injEq, ← ho]
    cases o with
    | none => simp
    | some p =>
      simp only [Option.some.injEq]
      constructor
      · intro hg
        split at hg
        · cases hg
        · cases hg; exact ⟨by assumption, p, rfl, rfl⟩
      · rintro ⟨hg, P, rfl, rfl⟩
        rw [if_neg hg]
  · rw [processCandidate_short cand (by omega)]
    simp [h]

theorem processCandidate_none_iff (hs : SqrtSpec sqrt) (cand : Bytes) :
    processCandidate compat sqrt scale cand = .ok none ↔
      48 ≤ cand.length ∧
        ∀ P, Decodes (signBit compat) (leValue (cand.take 48)) P → scale P = 0 := by
  by_cases h : 48 ≤ cand.length
  · obtain ⟨o, ho, e⟩ := processCandidate_eq (compat := compat) (scale := scale) hs cand h
    rw [e]
    simp only [h, true_and, Outcome.ok.injEq, ← ho]
    cases o with
    | none => simp
    | some p => simp
  · rw [processCandidate_short cand (by omega)]
    simp [h]

theorem processCandidate_panic_iff (hs : SqrtSpec sqrt) (cand : Bytes) :
    processCandidate compat sqrt scale cand = .panic ↔ cand.length < 48 := by
  by_cases h : 48 ≤ cand.length
  · obtain ⟨o, ho, e⟩ := processCandidate_eq (compat := compat) (scale := scale) hs cand h
    rw [e]
    simp [h]
  · simp [processCandidate_short cand (not_le.mp h), not_le.mp h]

theorem processCandidate_err (hs : SqrtSpec sqrt) (cand : Bytes) (e : BLSError) :
    processCandidate compat sqrt scale cand ≠ .err e := by
  by_cases h : 48 ≤ cand.length
  · obtain ⟨o, ho, e⟩ := processCandidate_eq (compat := compat) (scale := scale) hs cand h
    rw [e]
    simp
  · simp [processCandidate_short cand (not_le.mp h)]

end

/-! ### The counter loop -/

section
variable {G : Type*} (attempt : ℕ → Outcome BLSError (Option G))

theorem tryLoop_range' (s n : ℕ) (r : Outcome BLSError (G × ℕ)) :
    tryLoop attempt (List.range' s n) = r ↔
      (∃ c, s ≤ c ∧ c < s + n ∧ (∀ c', s ≤ c' → c' < c → attempt c' = .ok none) ∧
        attempt c ≠ .ok none ∧
        r = (attempt c).bind fun
          | some g => .ok (g, c)
          | none => .err .hashToCurveError) ∨
      ((∀ c, s ≤ c → c < s + n → attempt c = .ok none) ∧ r = .err .hashToCurveError) := by
  induction n generalizing s with
  | zero =>
    simp only [List.range'_zero, tryLoop]
    constructor
    · rintro rfl
      exact Or.inr ⟨fun c h1 h2 => absurd h2 (by omega), rfl⟩
    · rintro (⟨c, h1, h2, _⟩ | ⟨_, rfl⟩)
      · omega
      · rfl
  | succ n ih =>
    rw [List.range'_succ, tryLoop]
    by_cases h0 : attempt s = .ok none
    · rw [h0, Outcome.bind_ok]
      simp only []
      rw [ih (s + 1)]
      constructor
      · rintro (⟨c, h1, h2, h3, h4, h5⟩ | ⟨h1, h2⟩)
        · refine Or.inl ⟨c, by omega, by omega, fun c' hc hc' => ?_, h4, h5⟩
          rcases Nat.eq_or_lt_of_le hc with rfl | hlt
          · exact h0
          · exact h3 c' hlt hc'
        · refine Or.inr ⟨fun c hc hc' => ?_, h2⟩
          rcases Nat.eq_or_lt_of_le hc with rfl | hlt
          · exact h0
          · exact h1 c hlt (by omega)
      · rintro (⟨c, h1, h2, h3, h4, h5⟩ | ⟨h1, h2⟩)
        · refine Or.inl ⟨c, ?_, by omega, fun c' hc hc' => h3 c' (by omega) hc', h4, h5⟩
          rcases Nat.eq_or_lt_of_le h1 with rfl | hlt
          · exact absurd h0 h4
          · exact hlt
        · exact Or.inr ⟨fun c hc hc' => h1 c (by omega) (by omega), h2⟩
    · have key : (tryLoop attempt (s :: List.range' (s + 1) n)) =
          (attempt s).bind fun
          | some g => .ok (g, s)
          | none => .err .hashToCurveError := by
        rw [tryLoop]
        cases hs : attempt s with
        | ok o => cases o with
          | none => exact absurd hs h0
          | some g => rfl
        | err e => rfl
        | panic => rfl
      rw [tryLoop] at key
      rw [key]
      constructor
      · rintro rfl
        exact Or.inl ⟨s, le_refl _, by omega, fun c' h1 h2 => by omega, h0, rfl⟩
      · rintro (⟨c, h1, h2, h3, h4, rfl⟩ | ⟨h1, h2⟩)
        · rcases Nat.eq_or_lt_of_le h1 with rfl | hlt
          · rfl
          · exact absurd (h3 s (le_refl _) hlt) h0
        · exact absurd (h1 s (le_refl _) (by omega)) h0

theorem tryLoop_ok_iff (n : ℕ) (g : G) (c : ℕ) :
    tryLoop attempt (List.range n) = .ok (g, c) ↔
      c < n ∧ attempt c = .ok (some g) ∧ ∀ c' < c, attempt c' = .ok none := by
  rw [List.range_eq_range', tryLoop_range']
  constructor
  · rintro (⟨c', _, h2, h3, h4, h5⟩ | ⟨_, h⟩)
    · cases hs : attempt c' with
      | ok o => cases o with
        | none => exact absurd hs h4
        | some g' =>
          rw [hs] at h5
          cases h5
          exact ⟨by omega, hs, fun c'' hc => h3 c'' (by omega) hc⟩
      | err e => rw [hs] at h5; cases h5
      | panic => rw [hs] at h5; cases h5
    · cases h
  · rintro ⟨h1, h2, h3⟩
    refine Or.inl ⟨c, by omega, by omega, fun c' _ hc => h3 c' hc, by rw [h2]; simp, ?_⟩
    rw [h2]; rfl

theorem tryLoop_err_iff (n : ℕ) (e : BLSError) :
    tryLoop attempt (List.range n) = .err e ↔
      (∃ c < n, attempt c = .err e ∧ ∀ c' < c, attempt c' = .ok none) ∨
      (e = .hashToCurveError ∧ ∀ c < n, attempt c = .ok none) := by
  rw [List.range_eq_range', tryLoop_range']
  constructor
  · rintro (⟨c', _, h2, h3, h4, h5⟩ | ⟨h, h'⟩)
    · cases hs : attempt c' with
      | ok o => cases o with
        | none => exact absurd hs h4
        | some g' => rw [hs] at h5; cases h5
      | err e =>
        rw [hs] at h5
        cases h5
        exact Or.inl ⟨c', by omega, hs, fun c'' hc => h3 c'' (by omega) hc⟩
      | panic => rw [hs] at h5; cases h5
    · cases h'
      exact Or.inr ⟨rfl, fun c hc => h c (by omega) (by omega)⟩
  · rintro (⟨c, h1, h2, h3⟩ | ⟨rfl, h⟩)
    · refine Or.inl ⟨c, by omega, by omega, fun c' _ hc => h3 c' hc, by rw [h2]; simp, ?_⟩
      rw [h2]; rfl
    · exact Or.inr ⟨fun c _ hc => h c (by omega), rfl⟩

theorem tryLoop_panic_iff (n : ℕ) :
    tryLoop attempt (List.range n) = .panic ↔
      ∃ c < n, attempt c = .panic ∧ ∀ c' < c, attempt c' = .ok none := by
  rw [List.range_eq_range', tryLoop_range']
  constructor
  · rintro (⟨c', _, h2, h3, h4, h5⟩ | ⟨h, h'⟩)
    · cases hs : attempt c' with
      | ok o => cases o with
        | none => exact absurd hs h4
        | some g' => rw [hs] at h5; cases h5
      | err e => rw [hs] at h5; cases h5
      | panic => exact ⟨c', by omega, hs, fun c'' hc => h3 c'' (by omega) hc⟩
    · cases h'
  · rintro ⟨c, h1, h2, h3⟩
    refine Or.inl ⟨c, by omega, by omega, fun c' _ hc => h3 c' hc, by rw [h2]; simp, ?_⟩
    rw [h2]; rfl

end

end Verif
