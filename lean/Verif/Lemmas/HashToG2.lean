import Verif.Model.HashToG2
import Verif.Lemmas.HashToCurve
import Verif.Lemmas.DigestCount
import Verif.Lemmas.Encoding
import Mathlib.Data.Set.Finite.List

/-! Helper lemmas about hashing to G2 (models nothing in /repo). -/

set_option exponentiation.threshold 800

namespace Verif

open WeierstrassCurve

/-- The order of the quadratic extension: by the second coordinate, then the first. -/
def Fq2Less (a b : Fq2) : Prop := a.im.val < b.im.val ∨ (a.im.val = b.im.val ∧ a.re.val < b.re.val)

/-- The point of G2 denoted by two 384-bit numbers: the coordinates of `x` are their low 377 bits; bit
`signBit` of the second selects the larger of the two roots; `x = 0` together with bit 382 of the second
denotes infinity. -/
def DecodesG2 (signBit D0 D1 : ℕ) : AffinePoint Fq2 → Prop
  | .infinity => D0 % 2 ^ 377 = 0 ∧ D1 % 2 ^ 377 = 0 ∧ D1.testBit 382 = true
  | .finite x y => D0 % 2 ^ 377 < FQ_MODULUS ∧ D1 % 2 ^ 377 < FQ_MODULUS ∧
      ¬ (D0 % 2 ^ 377 = 0 ∧ D1 % 2 ^ 377 = 0 ∧ D1.testBit 382 = true) ∧
      x = ⟨((D0 % 2 ^ 377 : ℕ) : Fq), ((D1 % 2 ^ 377 : ℕ) : Fq)⟩ ∧ y * y = x ^ 3 + g2CoeffB ∧
      (if D1.testBit signBit then Fq2Less (-y) y else Fq2Less y (-y))

theorem fq2_gt_iff (a b : Fq2) : fq2Codec.gt a b = true ↔ Fq2Less b a := by
  simp only [fq2Codec, Fq2Less]
  by_cases h : a.im = b.im
  · rw [if_pos h, h]
    simp
  · rw [if_neg h]
    have : b.im.val ≠ a.im.val := fun e => h (ZMod.val_injective _ e.symm)
    simp [this]

/-- No point of G2 has `y = 0`. -/
theorem g2_y_ne_zero {x y : Fq2} (h : y * y = x ^ 3 + g2CoeffB) : y ≠ 0 := by
  rintro rfl
  exact g2CoeffB_not_cube x (by rw [← h]; ring)

theorem fq2_two_ne : (2 : Fq2) ≠ 0 := g2_good.two

theorem fq2_ne_neg {y : Fq2} (h : y ≠ 0) : y ≠ -y := by
  intro e
  have : 2 * y = 0 := by linear_combination e
  exact h ((mul_eq_zero.mp this).resolve_left fq2_two_ne)

/-- The choice of the root, as an order. -/
theorem g2_root_iff {x y : Fq2} (g : Bool) (h : y * y = x ^ 3 + g2CoeffB) :
    (y = -y ∨ fq2Codec.gt y (-y) = g) ↔ if g then Fq2Less (-y) y else Fq2Less y (-y) := by
  have hne := fq2_ne_neg (g2_y_ne_zero h)
  simp only [hne, false_or]
  cases g with
  | true => simpa using fq2_gt_iff y (-y)
  | false =>
    simp only [Bool.false_eq_true, if_false]
    rw [← fq2_gt_iff]
    rcases fq2Codec_laws.gt_total y (-y) hne with e | e
    · rw [e, fq2Codec_laws.gt_asymm _ _ e]; simp
    · rw [e, fq2Codec_laws.gt_asymm _ _ e]; simp

theorem fqFromRandomBytes_eq (bytes : Bytes) :
    fqFromRandomBytes bytes = (fqFromRandomBytesWithFlags bytes).map Prod.fst := by
  unfold fqFromRandomBytes fqFromRandomBytesWithFlags
  simp only [flags_of_byte, Option.map_some]
  split <;> rfl

theorem fq2_cast_zero {a b : ℕ} (ha : a < FQ_MODULUS) (hb : b < FQ_MODULUS) :
    (⟨(a : Fq), (b : Fq)⟩ : Fq2) = 0 ↔ a = 0 ∧ b = 0 := by
  constructor
  · intro h
    exact ⟨(cast_eq_zero_of_lt ha).mp (congrArg QuadraticAlgebra.re h),
      (cast_eq_zero_of_lt hb).mp (congrArg QuadraticAlgebra.im h)⟩
  · rintro ⟨rfl, rfl⟩
    apply QuadraticAlgebra.ext <;> simp

theorem fromRandomBytesG2_iff {sqrt : Fq2 → Option Fq2} (hs : RootSpec sqrt) (a c : Bytes)
    (ha : a.length = 48) (hc : c.length = 48) (P : AffinePoint Fq2) :
    fromRandomBytesAt g2HashCurve sqrt (a ++ c) = some P ↔ DecodesG2 383 (leValue a) (leValue c) P := by
  unfold fromRandomBytesAt
  simp only [g2HashCurve, fq2FromRandomBytesWithFlags]
  have hl : (a ++ c).length / 2 = a.length := by rw [List.length_append, ha, hc]
  rw [hl, List.take_left, List.drop_left, fqFromRandomBytes_eq, fqFromRandomBytesWithFlags_eq a ha,
    fqFromRandomBytesWithFlags_eq c hc]
  generalize leValue a = A
  generalize leValue c = D
  by_cases hA : A % 2 ^ 377 < FQ_MODULUS
  swap
  · rw [if_neg hA]
    simp only [Option.map_none, Option.bind_none, reduceCtorEq, false_iff]
    cases P with
    | infinity =>
      rintro ⟨h0, _⟩
      rw [h0] at hA
      exact hA (lt_trans (by norm_num) FQ_bounds.1)
    | finite x y => exact fun h => hA h.1
  by_cases hD : D % 2 ^ 377 < FQ_MODULUS
  swap
  · rw [if_pos hA, if_neg hD]
    simp only [Option.map_none, Option.map_some, Option.bind_some, Option.bind_none, reduceCtorEq, false_iff]
    cases P with
    | infinity =>
      rintro ⟨_, h0, _⟩
      rw [h0] at hD
      exact hD (lt_trans (by norm_num) FQ_bounds.1)
    | finite x y => exact fun h => hD h.2.1
  rw [if_pos hA, if_pos hD]
  simp only [Option.map_some, Option.bind_some, fq2_cast_zero hA hD]
  have hinf : (if D.testBit 383 then YSignFlags.positiveY (D.testBit 382)
      else YSignFlags.negativeY (D.testBit 382)).isInfinity = D.testBit 382 := by
    cases D.testBit 383 <;> cases D.testBit 382 <;> rfl
  have hpos : (if D.testBit 383 then YSignFlags.positiveY (D.testBit 382)
      else YSignFlags.negativeY (D.testBit 382)).isPositive = some (D.testBit 383) := by
    cases D.testBit 383 <;> rfl
  rw [hinf, hpos]
  by_cases h0 : (A % 2 ^ 377 = 0 ∧ D % 2 ^ 377 = 0) ∧ D.testBit 382 = true
  · rw [if_pos h0]
    cases P with
    | infinity => simpa [DecodesG2, and_assoc] using h0
    | finite x y =>
      simp only [DecodesG2, reduceCtorEq, Option.some.injEq, false_iff]
      exact fun h => h.2.2.1 ⟨h0.1.1, h0.1.2, h0.2⟩
  · rw [if_neg h0]
    simp only []
    rw [curvePointFromX_iff fq2Codec_laws hs]
    cases P with
    | infinity => simpa [DecodesG2, and_assoc] using h0
    | finite x y =>
      simp only [DecodesG2, AffinePoint.finite.injEq]
      have h3 : ∀ x : Fq2, x * x * x + g2CoeffB = x ^ 3 + g2CoeffB := fun x => by ring
      simp only [h3]
      constructor
      · rintro ⟨y', ⟨rfl, rfl⟩, h1, h2⟩
        exact ⟨hA, hD, fun h => h0 ⟨⟨h.1, h.2.1⟩, h.2.2⟩, rfl, h1, (g2_root_iff _ h1).mp h2⟩
      · rintro ⟨_, _, _, rfl, h1, h2⟩
        exact ⟨y, ⟨rfl, rfl⟩, h1, (g2_root_iff _ h1).mpr h2⟩

theorem compatMove_g2 (cand : Bytes) (h : 96 ≤ cand.length) :
    compatMoveAt 96 cand = (compatMove ((cand.drop 48).take 48)).map fun c => cand.take 48 ++ c := by
  have hl : ((cand.drop 48).take 48).length = 48 := by simp; omega
  have ha : (cand.take 48).length = 48 := by simp; omega
  have e : cand.take 96 = cand.take 48 ++ (cand.drop 48).take 48 := by
    rw [show 96 = 48 + 48 from rfl, List.take_add]
  unfold compatMoveAt compatMove NUM_BYTES
  rw [if_neg (by omega), if_neg (show ¬ ((cand.drop 48).take 48).length < 48 by rw [hl]; omega)]
  have ht : ((cand.drop 48).take 48).take 48 = (cand.drop 48).take 48 := List.take_of_length_le (by omega)
  rw [ht, e]
  generalize cand.take 48 = a at *
  generalize (cand.drop 48).take 48 = c at *
  have g1 : (a ++ c).getD (96 - 1) 0 = c.getD (48 - 1) 0 := by
    simp only [List.getD]
    rw [List.getElem?_append_right (by omega), ha]
  have g2 : ∀ v, (a ++ c).set (96 - 1) v = a ++ c.set (48 - 1) v := by
    intro v
    rw [List.set_append_right _ _ (by omega), ha]
  simp only [g1, g2]
  split <;> rfl

/-- The two halves of a digest, as numbers. -/
def lowHalf (d : Bytes) : ℕ := leValue (d.take 48)
def highHalf (d : Bytes) : ℕ := leValue ((d.drop 48).take 48)

theorem DecodesG2_congr {A D D' s s' : ℕ} (h1 : D % 2 ^ 377 = D' % 2 ^ 377)
    (h2 : D.testBit 382 = D'.testBit 382) (h3 : D.testBit s = D'.testBit s') (P : AffinePoint Fq2) :
    DecodesG2 s A D P ↔ DecodesG2 s' A D' P := by
  cases P <;> simp only [DecodesG2, h1, h2, h3]

theorem fq2Less_asymm {a b : Fq2} (h : Fq2Less a b) : ¬ Fq2Less b a := by
  unfold Fq2Less at *
  omega

theorem g2_root_unique {v y y' : Fq2} {g : Bool} (h : y * y = v) (h' : y' * y' = v)
    (s : if g then Fq2Less (-y) y else Fq2Less y (-y))
    (s' : if g then Fq2Less (-y') y' else Fq2Less y' (-y')) : y = y' := by
  have hh : (y - y') * (y + y') = 0 := by linear_combination h - h'
  rcases mul_eq_zero.mp hh with e | e
  · exact sub_eq_zero.mp e
  · have e' : y' = -y := by linear_combination e
    subst e'
    rw [neg_neg] at s'
    cases g
    · exact absurd s' (fq2Less_asymm s)
    · exact absurd s' (fq2Less_asymm s)

theorem decodesG2_unique {s A D : ℕ} {P P' : AffinePoint Fq2} (h : DecodesG2 s A D P)
    (h' : DecodesG2 s A D P') : P = P' := by
  cases P <;> cases P' <;> simp only [DecodesG2] at h h'
  · rfl
  · exact absurd h h'.2.2.1
  · exact absurd h' h.2.2.1
  · obtain ⟨_, _, _, rfl, h1, h2⟩ := h
    obtain ⟨_, _, _, rfl, h3, h4⟩ := h'
    rw [g2_root_unique h1 h3 h2 h4]

section
variable {G : Type*} [Zero G] [DecidableEq G] {compat : Bool}
  {sqrt : Fq2 → Option Fq2} {scale : AffinePoint Fq2 → G}

theorem processG2_short (cand : Bytes) (h : cand.length < 96) :
    processCandidateAt g2HashCurve compat sqrt scale cand = .panic := by
  unfold processCandidateAt
  cases compat
  · simp [g2HashCurve, h]
  · simp [g2HashCurve, compatMoveAt, h]

theorem processG2_eq (hs : RootSpec sqrt) (cand : Bytes) (h : 96 ≤ cand.length) :
    ∃ o : Option (AffinePoint Fq2),
      (∀ P, o = some P ↔ DecodesG2 (signBit compat) (lowHalf cand) (highHalf cand) P) ∧
      processCandidateAt g2HashCurve compat sqrt scale cand =
        .ok (match o with
          | some p => if scale p = 0 then none else some (scale p)
          | none => none) := by
  have ha : (cand.take 48).length = 48 := by simp; omega
  have hl : ((cand.drop 48).take 48).length = 48 := by simp; omega
  have e : cand.take 96 = cand.take 48 ++ (cand.drop 48).take 48 := by
    rw [show 96 = 48 + 48 from rfl, List.take_add]
  cases compat
  · refine ⟨fromRandomBytesAt g2HashCurve sqrt (cand.take 96),
      fun P => by rw [e]; exact fromRandomBytesG2_iff hs _ _ ha hl P, ?_⟩
    unfold processCandidateAt
    simp only [Bool.false_eq_true, if_false, Outcome.bind_ok]
    have hn : g2HashCurve.numBytes = 96 := rfl
    rw [hn, if_neg (by omega)]
    cases fromRandomBytesAt g2HashCurve sqrt (cand.take 96) with
    | none => rfl
    | some p => simp only []; split <;> rfl
  · obtain ⟨out, ho, hlo, h1, h2, h3⟩ := compatMove_spec ((cand.drop 48).take 48) (by omega)
    rw [List.take_of_length_le (l := (cand.drop 48).take 48) (by omega)] at h1 h2 h3
    refine ⟨fromRandomBytesAt g2HashCurve sqrt (cand.take 48 ++ out), fun P => ?_, ?_⟩
    · rw [fromRandomBytesG2_iff hs _ _ ha hlo P]
      exact DecodesG2_congr h1 h2 h3 P
    · unfold processCandidateAt
      have hn : g2HashCurve.numBytes = 96 := rfl
      simp only [if_true, hn, compatMove_g2 cand h, ho, Outcome.map, Outcome.bind_ok]
      have hlen : (cand.take 48 ++ out).length = 96 := by rw [List.length_append, ha, hlo]
      rw [if_neg (by omega), List.take_of_length_le (by omega)]
      cases fromRandomBytesAt g2HashCurve sqrt (cand.take 48 ++ out) with
      | none => rfl
      | some p => simp only []; split <;> rfl

theorem processG2_some_iff (hs : RootSpec sqrt) (cand : Bytes) (g : G) :
    processCandidateAt g2HashCurve compat sqrt scale cand = .ok (some g) ↔
      96 ≤ cand.length ∧ g ≠ 0 ∧
        ∃ P, DecodesG2 (signBit compat) (lowHalf cand) (highHalf cand) P ∧ scale P = g := by
  by_cases h : 96 ≤ cand.length
  · obtain ⟨o, ho, e⟩ := processG2_eq (compat := compat) (scale := scale) hs cand h
    rw [e]
    simp only [h, true_and, Outcome.ok.injEq, ← ho]
    cases o with
    | none => simp
    | some p =>
      simp only [Option.some.injEq]
      constructor
      · intro hg
        split at hg
        · cases hg
        · cases hg; exact ⟨by assumption, p, rfl, rfl⟩
      · rintro ⟨hg, P, rfl, rfl⟩
        rw [if_neg hg]
  · rw [processG2_short cand (by omega)]
    simp [h]

theorem processG2_none_iff (hs : RootSpec sqrt) (cand : Bytes) :
    processCandidateAt g2HashCurve compat sqrt scale cand = .ok none ↔
      96 ≤ cand.length ∧
        ∀ P, DecodesG2 (signBit compat) (lowHalf cand) (highHalf cand) P → scale P = 0 := by
  by_cases h : 96 ≤ cand.length
  · obtain ⟨o, ho, e⟩ := processG2_eq (compat := compat) (scale := scale) hs cand h
    rw [e]
    simp only [h, true_and, Outcome.ok.injEq, ← ho]
    cases o with
    | none => simp
    | some p => simp
  · rw [processG2_short cand (by omega)]
    simp [h]

theorem processG2_panic_iff (hs : RootSpec sqrt) (cand : Bytes) :
    processCandidateAt g2HashCurve compat sqrt scale cand = .panic ↔ cand.length < 96 := by
  by_cases h : 96 ≤ cand.length
  · obtain ⟨o, ho, e⟩ := processG2_eq (compat := compat) (scale := scale) hs cand h
    rw [e]
    simp [h]
  · simp [processG2_short cand (not_le.mp h), not_le.mp h]

theorem processG2_err (hs : RootSpec sqrt) (cand : Bytes) (e : BLSError) :
    processCandidateAt g2HashCurve compat sqrt scale cand ≠ .err e := by
  by_cases h : 96 ≤ cand.length
  · obtain ⟨o, ho, e⟩ := processG2_eq (compat := compat) (scale := scale) hs cand h
    rw [e]
    simp
  · simp [processG2_short cand (not_le.mp h)]

end

/-! ## Counting -/

/-- What the decoding of a digest depends on. -/
def g2Key (s : ℕ) (d : Bytes) : ℕ × ℕ × Bool :=
  (lowHalf d % 2 ^ 377, highHalf d % 2 ^ 377, (highHalf d).testBit s)

theorem finite_g2_digests (p : Bytes → Prop) : {d : Bytes | d.length = 96 ∧ p d}.Finite :=
  (List.finite_length_eq UInt8 96).subset fun _ h => h.1

/-- Digests of 96 bytes correspond to pairs of numbers below `2 ^ 384`. -/
theorem ncard_halves (p : ℕ → ℕ → Prop) :
    {d : Bytes | d.length = 96 ∧ p (lowHalf d) (highHalf d)}.ncard =
      {N : ℕ × ℕ | N.1 < 2 ^ 384 ∧ N.2 < 2 ^ 384 ∧ p N.1 N.2}.ncard := by
  have h256 : (256 : ℕ) ^ 48 = 2 ^ 384 := by norm_num
  have e : {N : ℕ × ℕ | N.1 < 2 ^ 384 ∧ N.2 < 2 ^ 384 ∧ p N.1 N.2} =
      (fun d => (lowHalf d, highHalf d)) '' {d : Bytes | d.length = 96 ∧ p (lowHalf d) (highHalf d)} := by
    ext ⟨A, D⟩
    simp only [Set.mem_ofPred_eq, Set.mem_image, Prod.mk.injEq]
    constructor
    · rintro ⟨h1, h2, h3⟩
      have e1 : lowHalf (leBytes 48 A ++ leBytes 48 D) = A := by
        unfold lowHalf
        rw [List.take_left' (leBytes_length _ _), leBytes_value, h256, Nat.mod_eq_of_lt h1]
      have e2 : highHalf (leBytes 48 A ++ leBytes 48 D) = D := by
        unfold highHalf
        rw [List.drop_left' (leBytes_length _ _), List.take_of_length_le (leBytes_length _ _).le, leBytes_value,
          h256, Nat.mod_eq_of_lt h2]
      exact ⟨_, ⟨by simp [leBytes_length], by rw [e1, e2]; exact h3⟩, e1, e2⟩
    · rintro ⟨d, ⟨h1, h2⟩, rfl, rfl⟩
      have l1 : (d.take 48).length = 48 := by simp; omega
      have l2 : ((d.drop 48).take 48).length = 48 := by simp; omega
      have b1 := leValue_lt (d.take 48)
      have b2 := leValue_lt ((d.drop 48).take 48)
      rw [l1, h256] at b1
      rw [l2, h256] at b2
      exact ⟨b1, b2, h2⟩
  rw [e, Set.InjOn.ncard_image]
  intro d hd d' hd' h
  simp only [Prod.mk.injEq] at h
  obtain ⟨h1, h2⟩ := h
  obtain ⟨hl, _⟩ := hd
  obtain ⟨hl', _⟩ := hd'
  have e1 := leValue_inj (by simp; omega) h1
  have e2 := leValue_inj (by simp; omega) h2
  have t : ∀ d : Bytes, d.length = 96 → (d.drop 48).take 48 = d.drop 48 := fun d hd =>
    List.take_of_length_le (by simp; omega)
  rw [t d hl, t d' hl'] at e2
  rw [← List.take_append_drop 48 d, ← List.take_append_drop 48 d', e1, e2]

theorem ncard_g2_key (s : ℕ) (hs1 : 377 ≤ s) (hs2 : s < 384) (S : Set (ℕ × ℕ × Bool))
    (hS : ∀ p ∈ S, p.1 < 2 ^ 377 ∧ p.2.1 < 2 ^ 377) :
    {d : Bytes | d.length = 96 ∧ g2Key s d ∈ S}.ncard = S.ncard * 2 ^ 13 := by
  classical
  refine Eq.trans (ncard_halves fun A D : ℕ => (A % 2 ^ 377, D % 2 ^ 377, D.testBit s) ∈ S) ?_
  have hSfin : S.Finite := by
    refine ((Set.finite_Iio (2 ^ 377)).prod
      ((Set.finite_Iio (2 ^ 377)).prod (Set.finite_univ (α := Bool)))).subset ?_
    rintro ⟨u, v, b⟩ h
    exact ⟨(hS _ h).1, (hS _ h).2, Set.mem_univ _⟩
  have hfin : {N : ℕ × ℕ | N.1 < 2 ^ 384 ∧ N.2 < 2 ^ 384 ∧
      (N.1 % 2 ^ 377, N.2 % 2 ^ 377, N.2.testBit s) ∈ S}.Finite :=
    ((Set.finite_Iio (2 ^ 384)).prod (Set.finite_Iio (2 ^ 384))).subset fun N h => ⟨h.1, h.2.1⟩
  rw [Set.ncard_eq_toFinset_card _ hfin, Set.ncard_eq_toFinset_card _ hSfin,
    Finset.card_eq_sum_card_fiberwise (f := fun N : ℕ × ℕ => (N.1 % 2 ^ 377, N.2 % 2 ^ 377, N.2.testBit s))
      (t := hSfin.toFinset)
      (by
        intro N hN
        simp only [Set.Finite.coe_toFinset] at hN ⊢
        exact hN.2.2),
    Finset.sum_const_nat (m := 2 ^ 13)]
  rintro ⟨u, v, b⟩ hp
  have hp' : (u, v, b) ∈ S := hSfin.mem_toFinset.mp hp
  have c1 := ncard_low 377 384 u (by norm_num) (hS _ hp').1
  have c2 := ncard_low_bit 377 s 384 v b hs1 hs2 (hS _ hp').2
  have c3 := Set.ncard_prod (s := {N : ℕ | N < 2 ^ 384 ∧ N % 2 ^ 377 = u})
    (t := {N : ℕ | N < 2 ^ 384 ∧ N % 2 ^ 377 = v ∧ N.testBit s = b})
  rw [c1, c2] at c3
  rw [← Set.ncard_coe_finset, show (2 : ℕ) ^ 13 = 2 ^ (384 - 377) * 2 ^ (384 - 377 - 1) by norm_num, ← c3]
  congr 1
  ext ⟨A, D⟩
  simp only [Finset.coe_filter, Set.Finite.mem_toFinset, Set.mem_ofPred_eq, Prod.mk.injEq, Set.mem_prod]
  constructor
  · rintro ⟨⟨h1, h2, _⟩, h3, h4, h5⟩
    exact ⟨⟨h1, h3⟩, h2, h4, h5⟩
  · rintro ⟨⟨h1, h3⟩, h2, h4, h5⟩
    exact ⟨⟨h1, h2, by rw [h3, h4, h5]; exact hp'⟩, h3, h4, h5⟩

/-- The coordinates and the sign that yield `g`. -/
def g2KeysOf (g : G2Point) : Set (ℕ × ℕ × Bool) :=
  {p | p.1 < FQ_MODULUS ∧ p.2.1 < FQ_MODULUS ∧
    ∃ y : Fq2, y * y = (⟨(p.1 : Fq), (p.2.1 : Fq)⟩ : Fq2) ^ 3 + g2CoeffB ∧
    (if p.2.2 then Fq2Less (-y) y else Fq2Less y (-y)) ∧
      g2Scale (.finite ⟨(p.1 : Fq), (p.2.1 : Fq)⟩ y) = g}

open Classical in
/-- The coordinates and the sign of a point. -/
noncomputable def g2KeyOf : G2Point → ℕ × ℕ × Bool
  | .zero => (0, 0, false)
  | .some x y _ => (x.re.val, x.im.val, decide (Fq2Less (-y) y))

theorem fq2Less_total {a b : Fq2} (h : a ≠ b) : ¬ Fq2Less a b → Fq2Less b a := by
  rw [← fq2_gt_iff, ← fq2_gt_iff]
  intro h1
  exact (fq2Codec_laws.gt_total b a h.symm).resolve_left h1

theorem g2_sign_of {x y : Fq2} (h : y * y = x ^ 3 + g2CoeffB) [Decidable (Fq2Less (-y) y)] :
    if decide (Fq2Less (-y) y) = true then Fq2Less (-y) y else Fq2Less y (-y) := by
  by_cases hl : Fq2Less (-y) y
  · simp [hl]
  · simp only [hl, decide_false, Bool.false_eq_true, if_false]
    exact fq2Less_total (fun e => fq2_ne_neg (g2_y_ne_zero h) e.symm) hl

theorem fq2_vals (x : Fq2) : (⟨(x.re.val : Fq), (x.im.val : Fq)⟩ : Fq2) = x := by
  apply QuadraticAlgebra.ext <;> simp only [ZMod.natCast_zmod_val]

theorem ncard_g2KeysOf {g : G2Point} (h0 : g ≠ 0) :
    (g2KeysOf g).ncard = {P : G2Point | G2_COFACTOR • P = g}.ncard := by
  have himg : g2KeysOf g = g2KeyOf '' {P : G2Point | G2_COFACTOR • P = g} := by
    ext ⟨u, v, b⟩
    constructor
    · rintro ⟨h1, h1', y, h2, h3, h4⟩
      simp only at h1 h1' h2 h3 h4
      have hns := (g2_nonsingular_iff _ y).mpr (by rw [← h2]; ring)
      have h4' := h4
      simp only [g2Scale, dif_pos hns] at h4'
      refine ⟨.some _ _ hns, h4', ?_⟩
      simp only [g2KeyOf, Prod.mk.injEq]
      refine ⟨ZMod.val_cast_of_lt h1, ZMod.val_cast_of_lt h1', ?_⟩
      cases b with
      | true => simpa using h3
      | false =>
        simp only [Bool.false_eq_true, if_false] at h3
        simp only [decide_eq_false_iff_not]
        exact fq2Less_asymm h3
    · rintro ⟨P, hP, e⟩
      cases P with
      | zero => exact absurd (hP.symm.trans (nsmul_zero _)) h0
      | some x y h =>
        have h2 := g2_equation h
        have h4 : g2Scale (.finite x y) = g := by simp only [g2Scale, dif_pos h]; exact hP
        simp only [g2KeyOf, Prod.mk.injEq] at e
        obtain ⟨rfl, rfl, rfl⟩ := e
        refine ⟨ZMod.val_lt x.re, ZMod.val_lt x.im, y, ?_, ?_, ?_⟩
        · simp only [fq2_vals]; exact h2
        · exact @g2_sign_of x y h2 (Classical.propDecidable _)
        · simp only [fq2_vals]; exact h4
  rw [himg, Set.InjOn.ncard_image]
  intro P hP Q hQ e
  cases P with
  | zero => exact absurd (hP.symm.trans (nsmul_zero _)) h0
  | some x y h =>
    cases Q with
    | zero => exact absurd (hQ.symm.trans (nsmul_zero _)) h0
    | some x' y' h' =>
      have a2 := g2_equation h
      have b2 := g2_equation h'
      simp only [g2KeyOf, Prod.mk.injEq] at e
      obtain ⟨e1, e2, e3⟩ := e
      have ex : x = x' := QuadraticAlgebra.ext (ZMod.val_injective _ e1) (ZMod.val_injective _ e2)
      subst ex
      have ey : y = y' := by
        classical
        refine g2_root_unique (g := decide (Fq2Less (-y) y)) a2 b2 (g2_sign_of a2) ?_
        have := g2_sign_of b2
        by_cases h1 : Fq2Less (-y) y
        · have h2 : Fq2Less (-y') y' := by simpa [h1] using e3.symm
          simp [h1, h2]
        · have h2 : ¬ Fq2Less (-y') y' := by simpa [h1] using e3.symm
          simpa [h1, h2] using this
      subst ey
      rfl

theorem ncard_g2_digests : {d : Bytes | d.length = 96}.ncard = 2 ^ 768 := by
  have h := ncard_bytes 96 fun _ => True
  simp only [and_true] at h
  rw [h, show (256 : ℕ) ^ 96 = 2 ^ 768 by norm_num]
  have e : {N : ℕ | N < 2 ^ 768} = (Finset.range (2 ^ 768) : Set ℕ) := by
    rw [Finset.coe_range]; rfl
  rw [e, Set.ncard_coe_finset, Finset.card_range]

end Verif
