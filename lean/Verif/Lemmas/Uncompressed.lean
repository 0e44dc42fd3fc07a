import Verif.Model.Uncompressed
import Verif.Lemmas.Serialize
import Verif.Lemmas.Jacobian

/-! Facts about the check of uncompressed points. -/

set_option linter.unusedSectionVars false

namespace Verif

open WeierstrassCurve

section
variable {F : Type*} [Field F] [DecidableEq F]

theorem shortCurve_short (b : F) : Short (shortCurve b) := ⟨rfl, rfl, rfl, rfl⟩

theorem shortCurve_nonsingular' {b : F} (hb : GoodCurve b) (x y : F) :
    (shortCurve b).Nonsingular x y ↔ y ^ 2 = x ^ 3 + b := by
  rw [shortCurve_nonsingular hb]
  constructor <;> intro h <;> linear_combination h

/-- Mixed addition is addition of a triple with `z = 1`. -/
theorem arkAddMixed_eq (p : JacRep F) (x y : F) : arkAddMixed p (.finite x y) = arkAdd p ⟨x, y, 1⟩ := by
  by_cases hz : p.z = 0
  · simp only [arkAddMixed, arkAdd, hz, if_true]
  · simp only [arkAddMixed, arkAdd, hz, if_false, one_ne_zero, one_pow, mul_one]
    by_cases hc : p.x = x * p.z ^ 2 ∧ p.y = y * p.z * p.z ^ 2
    · rw [if_pos hc, if_pos hc]
    · rw [if_neg hc, if_neg hc]
      congr 1 <;> ring

/-- Double and add multiplies. -/
theorem arkMulBits_spec {b : F} (hb : GoodCurve b) {x y : F} (h : (shortCurve b).Nonsingular x y)
    (bits : List Bool) :
    jacPoint (shortCurve_nonsingular' hb) (arkMulBits (.finite x y) bits) =
      (bits.foldl (fun n c => 2 * n + c.toNat) 0) • (.some x y h : (shortCurve b).Point) ∧
    (arkMulBits (.finite x y) bits).On b := by
  induction bits using List.reverseRecOn with
  | nil =>
    exact ⟨by rw [List.foldl_nil, zero_nsmul]; exact jacPoint_zero _ rfl, Or.inl rfl⟩
  | append_singleton bits c ih =>
    have hd := jacPoint_double (shortCurve_nonsingular' hb) (shortCurve_short b) hb.two ih.2
    unfold arkMulBits at hd ih ⊢
    rw [List.foldl_append, List.foldl_append]
    simp only [List.foldl_cons, List.foldl_nil]
    rw [ih.1] at hd
    cases c with
    | false =>
      rw [if_neg (by decide)]
      refine ⟨?_, hd.2⟩
      rw [hd.1, ← add_nsmul]
      congr 1
      simp; omega
    | true =>
      rw [if_pos rfl, arkAddMixed_eq]
      have hq : (⟨x, y, 1⟩ : JacRep F).On b :=
        Or.inr (by simpa using (shortCurve_nonsingular' hb x y).mp h)
      have hp := isPoint_jacPoint (shortCurve_nonsingular' hb) (k := ⟨x, y, 1⟩) one_ne_zero
        (P := .some x y h) (by simp only [one_pow, div_one]; exact ⟨h, rfl⟩)
      have ha := jacPoint_add (shortCurve_nonsingular' hb) (shortCurve_short b) hb.two hd.2 hq
      refine ⟨?_, ha.2⟩
      rw [ha.1, hd.1, hp.1, ← add_nsmul]
      nth_rewrite 2 [← one_nsmul (Affine.Point.some x y h)]
      rw [← add_nsmul]
      congr 1
      simp; omega

theorem FR_bits : ((List.range 256).reverse.map FR_MODULUS.testBit).foldl
    (fun n c => 2 * n + c.toNat) 0 = FR_MODULUS := by decide +kernel

/-- On a curve, the check is multiplication by the order. -/
theorem arkInSubgroup_iff {b : F} (hb : GoodCurve b) {x y : F}
    (h : (shortCurve b).Nonsingular x y) :
    arkInSubgroup (.finite x y) = true ↔
      FR_MODULUS • (.some x y h : (shortCurve b).Point) = 0 := by
  have hs := arkMulBits_spec hb h ((List.range 256).reverse.map FR_MODULUS.testBit)
  rw [FR_bits] at hs
  unfold arkInSubgroup
  rw [decide_eq_true_eq, ← hs.1]
  constructor
  · intro hz
    exact jacPoint_zero _ hz
  · intro h0
    by_contra hz
    rw [jacPoint_of _ hz (hs.2.resolve_left hz)] at h0
    cases h0

theorem arkInSubgroup_infinity : arkInSubgroup (.infinity : AffinePoint F) = true := by
  have h : ∀ bits : List Bool, arkMulBits (.infinity : AffinePoint F) bits = arkZero := by
    intro bits
    induction bits using List.reverseRecOn with
    | nil => rfl
    | append_singleton bits c ih =>
      unfold arkMulBits at ih ⊢
      rw [List.foldl_append, ih]
      cases c <;> simp [arkAddMixed, arkDouble, arkZero]
  unfold arkInSubgroup
  rw [h]
  simp [arkZero]

/-- Two triples which differ by the map `(x, y) ↦ (u² x, u³ y)`. -/
def Scaled (u : F) (k k' : JacRep F) : Prop :=
  k.z = 0 ∧ k'.z = 0 ∨
    k.z ≠ 0 ∧ ∃ l : F, l ≠ 0 ∧ k' = ⟨l ^ 2 * u ^ 2 * k.x, l ^ 3 * u ^ 3 * k.y, l * k.z⟩

theorem Scaled.double {u : F} (hu : u ≠ 0) {k k' : JacRep F} (h : Scaled u k k') :
    Scaled u (arkDouble k) (arkDouble k') := by
  rcases h with ⟨h, h'⟩ | ⟨h, l, hl, rfl⟩
  · left
    simp only [arkDouble, h, h', if_true, and_self]
  · have hz' : l * k.z ≠ 0 := mul_ne_zero hl h
    have e : arkDouble ⟨l ^ 2 * u ^ 2 * k.x, l ^ 3 * u ^ 3 * k.y, l * k.z⟩ =
        ⟨(l ^ 4 * u ^ 3) ^ 2 * u ^ 2 * (arkDouble k).x, (l ^ 4 * u ^ 3) ^ 3 * u ^ 3 * (arkDouble k).y,
          l ^ 4 * u ^ 3 * (arkDouble k).z⟩ := by
      simp only [arkDouble, h, hz', if_false]
      congr 1 <;> ring
    rw [e]
    by_cases hz : (arkDouble k).z = 0
    · left
      exact ⟨hz, by simp only [hz, mul_zero]⟩
    · exact Or.inr ⟨hz, _, mul_ne_zero (pow_ne_zero _ hl) (pow_ne_zero _ hu), rfl⟩

theorem Scaled.addMixed {u : F} (hu : u ≠ 0) {k k' : JacRep F} (h : Scaled u k k') (x y : F) :
    Scaled u (arkAddMixed k (.finite x y)) (arkAddMixed k' (.finite (u ^ 2 * x) (u ^ 3 * y))) := by
  rcases h with ⟨h, h'⟩ | ⟨h, l, hl, rfl⟩
  · right
    simp only [arkAddMixed, h, h', if_true]
    exact ⟨one_ne_zero, 1, one_ne_zero, by simp⟩
  · have hz' : l * k.z ≠ 0 := mul_ne_zero hl h
    have hl2 : l ^ 2 * u ^ 2 ≠ 0 := mul_ne_zero (pow_ne_zero _ hl) (pow_ne_zero _ hu)
    have hl3 : l ^ 3 * u ^ 3 ≠ 0 := mul_ne_zero (pow_ne_zero _ hl) (pow_ne_zero _ hu)
    have hc : (l ^ 2 * u ^ 2 * k.x = u ^ 2 * x * (l * k.z) ^ 2 ∧
        l ^ 3 * u ^ 3 * k.y = u ^ 3 * y * (l * k.z) * (l * k.z) ^ 2) ↔
        (k.x = x * k.z ^ 2 ∧ k.y = y * k.z * k.z ^ 2) := by
      constructor
      · rintro ⟨h1, h2⟩
        exact ⟨mul_left_cancel₀ hl2 (by linear_combination h1),
          mul_left_cancel₀ hl3 (by linear_combination h2)⟩
      · rintro ⟨h1, h2⟩
        exact ⟨by linear_combination l ^ 2 * u ^ 2 * h1, by linear_combination l ^ 3 * u ^ 3 * h2⟩
    by_cases hd : k.x = x * k.z ^ 2 ∧ k.y = y * k.z * k.z ^ 2
    · have e1 : arkAddMixed k (.finite x y) = arkDouble k := by
        simp only [arkAddMixed, h, if_false]
        rw [if_pos hd]
      have e2 : arkAddMixed ⟨l ^ 2 * u ^ 2 * k.x, l ^ 3 * u ^ 3 * k.y, l * k.z⟩
          (.finite (u ^ 2 * x) (u ^ 3 * y)) =
          arkDouble ⟨l ^ 2 * u ^ 2 * k.x, l ^ 3 * u ^ 3 * k.y, l * k.z⟩ := by
        simp only [arkAddMixed, hz', if_false]
        rw [if_pos (hc.mpr hd)]
      rw [e1, e2]
      exact Scaled.double hu (Or.inr ⟨h, l, hl, rfl⟩)
    · have e : arkAddMixed ⟨l ^ 2 * u ^ 2 * k.x, l ^ 3 * u ^ 3 * k.y, l * k.z⟩
          (.finite (u ^ 2 * x) (u ^ 3 * y)) =
          ⟨(l ^ 3 * u ^ 2) ^ 2 * u ^ 2 * (arkAddMixed k (.finite x y)).x,
            (l ^ 3 * u ^ 2) ^ 3 * u ^ 3 * (arkAddMixed k (.finite x y)).y,
            l ^ 3 * u ^ 2 * (arkAddMixed k (.finite x y)).z⟩ := by
        simp only [arkAddMixed, h, hz', if_false]
        rw [if_neg (fun hh => hd (hc.mp hh)), if_neg hd]
        congr 1 <;> ring
      rw [e]
      by_cases hz : (arkAddMixed k (.finite x y)).z = 0
      · left
        exact ⟨hz, by simp only [hz, mul_zero]⟩
      · exact Or.inr ⟨hz, _, mul_ne_zero (pow_ne_zero _ hl) (pow_ne_zero _ hu), rfl⟩

theorem Scaled.mulBits {u : F} (hu : u ≠ 0) (x y : F) (bits : List Bool) :
    Scaled u (arkMulBits (.finite x y) bits)
      (arkMulBits (.finite (u ^ 2 * x) (u ^ 3 * y)) bits) := by
  induction bits using List.reverseRecOn with
  | nil => exact Or.inl ⟨rfl, rfl⟩
  | append_singleton bits c ih =>
    unfold arkMulBits at ih ⊢
    rw [List.foldl_append, List.foldl_append]
    simp only [List.foldl_cons, List.foldl_nil]
    cases c with
    | false => exact ih.double hu
    | true => exact (ih.double hu).addMixed hu x y

/-- The check does not see the map `(x, y) ↦ (u² x, u³ y)`. -/
theorem arkInSubgroup_scale {u : F} (hu : u ≠ 0) (x y : F) :
    arkInSubgroup (.finite (u ^ 2 * x) (u ^ 3 * y)) = arkInSubgroup (.finite x y) := by
  unfold arkInSubgroup
  rcases Scaled.mulBits hu x y ((List.range 256).reverse.map FR_MODULUS.testBit) with
    ⟨h, h'⟩ | ⟨h, l, hl, e⟩
  · rw [h, h']
  · rw [e]
    simp only [mul_eq_zero, hl, false_or]

theorem arkAddMixed_zero {k : JacRep F} (hz : k.z = 0) (x y : F) :
    arkAddMixed k (.finite x y) = ⟨x, y, 1⟩ := by
  simp only [arkAddMixed, hz, if_true]

/-- The singular point is refused, as the order is odd. -/
theorem arkInSubgroup_origin : arkInSubgroup (.finite (0 : F) 0) = false := by
  have h : ∀ bits : List Bool, arkMulBits (.finite (0 : F) 0) bits = ⟨0, 0, 1⟩ ∨
      (arkMulBits (.finite (0 : F) 0) bits).z = 0 := by
    intro bits
    induction bits using List.reverseRecOn with
    | nil => exact Or.inr rfl
    | append_singleton bits c ih =>
      unfold arkMulBits at ih ⊢
      rw [List.foldl_append]
      simp only [List.foldl_cons, List.foldl_nil]
      have hd : ∀ k : JacRep F, k = ⟨0, 0, 1⟩ ∨ k.z = 0 → (arkDouble k).z = 0 := by
        rintro k (rfl | hk)
        · simp [arkDouble]
        · simp [arkDouble, hk]
      cases c with
      | false => exact Or.inr (hd _ ih)
      | true =>
        left
        rw [if_pos rfl, arkAddMixed_zero (hd _ ih)]
  have e : (List.range 256).reverse.map FR_MODULUS.testBit =
      ((List.range 255).reverse.map fun i => FR_MODULUS.testBit (i + 1)) ++ [true] := by
    decide +kernel
  unfold arkInSubgroup
  rw [e]
  have h' := h ((List.range 255).reverse.map fun i => FR_MODULUS.testBit (i + 1))
  unfold arkMulBits at h' ⊢
  rw [List.foldl_append]
  simp only [List.foldl_cons, List.foldl_nil, if_true]
  have hd : ∀ k : JacRep F, k = ⟨0, 0, 1⟩ ∨ k.z = 0 → (arkDouble k).z = 0 := by
    rintro k (rfl | hk)
    · simp [arkDouble]
    · simp [arkDouble, hk]
  rw [arkAddMixed_zero (hd _ h')]
  simp

/-- The cusp: all its points are multiples of `(1, 1)` by the map above. -/
theorem arkInSubgroup_cusp (h1 : arkInSubgroup (.finite (1 : F) 1) = false) {x y : F}
    (h : y ^ 2 = x ^ 3) : arkInSubgroup (.finite x y) = false := by
  by_cases hx : x = 0
  · subst hx
    have hy : y = 0 := by
      apply pow_eq_zero_iff (two_ne_zero) |>.mp
      rw [h]; ring
    subst hy
    exact arkInSubgroup_origin
  · have hy : y ≠ 0 := by
      rintro rfl
      apply hx
      apply pow_eq_zero_iff (three_ne_zero) |>.mp
      rw [← h]; ring
    have ht : y / x ≠ 0 := div_ne_zero hy hx
    have e1 : (y / x) ^ 2 * 1 = x := by
      rw [mul_one, div_pow, h, pow_succ, mul_div_assoc, mul_comm, div_mul_cancel₀ _ (pow_ne_zero _ hx)]
    have e2 : (y / x) ^ 3 * 1 = y := by
      rw [mul_one, div_pow, ← h, pow_succ, mul_comm, mul_div_assoc, div_self (pow_ne_zero _ hy), mul_one]
    rw [← h1, ← arkInSubgroup_scale ht 1 1, e1, e2]

variable {C : CoordCodec F} (hC : CodecLaws C)
include hC

theorem deserializeCoord_iff (stream : Bytes) (x : F) (rest : Bytes) :
    deserializeCoord C stream = .ok (x, rest) ↔ stream = C.write x ++ rest := by
  constructor
  · intro h
    unfold deserializeCoord at h
    split at h
    · cases h
    · rename_i hlen
      split at h
      · cases h
      · rename_i x' hx
        simp only [Outcome.ok.injEq, Prod.mk.injEq] at h
        obtain ⟨rfl, rfl⟩ := h
        rw [hC.write_read _ _ (by rw [List.length_take]; omega) hx, List.take_append_drop]
  · rintro rfl
    have hl := hC.write_length x
    unfold deserializeCoord
    rw [if_neg (by rw [List.length_append, hl]; omega), List.take_left' hl, List.drop_left' hl,
      hC.read_write]

theorem deserializeUncompressed_iff (stream rest : Bytes) (p : AffinePoint F) :
    deserializeAffineUncompressed C stream = .ok (p, rest) ↔
      ∃ x y f, stream = C.write x ++ (serializeWithFlags C y f ++ rest) ∧
        p = (if f = .infinity then .infinity else .finite x y) ∧ arkInSubgroup p = true := by
  unfold deserializeAffineUncompressed
  constructor
  · intro h
    cases hx : deserializeCoord C stream with
    | err e => rw [hx] at h; cases h
    | panic => rw [hx] at h; cases h
    | ok rx =>
      obtain ⟨x, r1⟩ := rx
      rw [hx] at h
      simp only [Outcome.bind] at h
      cases hy : deserializeWithFlags C r1 with
      | err e => rw [hy] at h; cases h
      | panic => rw [hy] at h; cases h
      | ok ry =>
        obtain ⟨⟨y, f⟩, r2⟩ := ry
        rw [hy] at h
        simp only [] at h
        by_cases hs : arkInSubgroup (if f = .infinity then .infinity else .finite x y :
            AffinePoint F) = true
        · rw [if_pos hs] at h
          simp only [Outcome.ok.injEq, Prod.mk.injEq] at h
          obtain ⟨rfl, rfl⟩ := h
          refine ⟨x, y, f, ?_, rfl, hs⟩
          rw [(deserializeCoord_iff hC _ _ _).mp hx, (deserializeWithFlags_iff hC _ _ _ _).mp hy]
        · rw [if_neg hs] at h
          cases h
  · rintro ⟨x, y, f, rfl, rfl, hs⟩
    rw [(deserializeCoord_iff hC _ x _).mpr rfl]
    simp only [Outcome.bind]
    rw [(deserializeWithFlags_iff hC _ y f rest).mpr rfl]
    simp only []
    rw [if_pos hs]

end

end Verif
