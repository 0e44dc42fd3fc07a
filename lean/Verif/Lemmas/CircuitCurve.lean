import Verif.Model.CircuitCurve
import Verif.Lemmas.G1Order
import Verif.Lemmas.G2Order
import Mathlib.Tactic.FieldSimp
import Mathlib.Tactic.LinearCombination
import Mathlib.Tactic.Ring

/-! The addition formulas of the circuit: where they are the group law, and where they are not. -/

set_option linter.unusedSectionVars false

namespace Verif

open WeierstrassCurve

variable {F : Type*} [Field F] [DecidableEq F] {W : WeierstrassCurve.Affine F} {b : F}

/-- All coordinates multiplied by a number. -/
def ProjVar.scale (c : F) (p : ProjVar F) : ProjVar F := ⟨c * p.x, c * p.y, c * p.z⟩

/-- Coordinates of a point. -/
def stdCoords : W.Point → ProjVar F
  | .zero => ProjVar.zero
  | .some x y _ => ⟨x, y, 1⟩

/-- The coordinates denote the point. -/
def Denotes (p : ProjVar F) (P : W.Point) : Prop := ∃ c : F, c ≠ 0 ∧ p = (stdCoords P).scale c

/-- Element of order exactly two. -/
def OrderTwo {G : Type*} [AddGroup G] (T : G) : Prop := T ≠ 0 ∧ T + T = 0

theorem circuitAdd_scale (c d : F) (p q : ProjVar F) :
    circuitAdd b (p.scale c) (q.scale d) = (circuitAdd b p q).scale ((c * d) ^ 2) := by
  ext <;> simp only [circuitAdd, ProjVar.scale] <;> ring

theorem circuitDouble_scale (c : F) (p : ProjVar F) :
    circuitDouble b (p.scale c) = (circuitDouble b p).scale (c ^ 4) := by
  ext <;> simp only [circuitDouble, ProjVar.scale] <;> ring

theorem scale_scale (c d : F) (p : ProjVar F) : (p.scale d).scale c = p.scale (c * d) := by
  ext <;> simp only [ProjVar.scale] <;> ring

theorem scale_null (c : F) : (ProjVar.null : ProjVar F).scale c = ProjVar.null := by
  simp [ProjVar.scale, ProjVar.null]

theorem stdCoords_ne_null (P : W.Point) : stdCoords P ≠ ProjVar.null := by
  intro h
  cases P with
  | zero => exact one_ne_zero (congrArg ProjVar.y h)
  | some x y _ => exact one_ne_zero (congrArg ProjVar.z h)

theorem Denotes.ne_null {p : ProjVar F} {P : W.Point} (h : Denotes p P) : p ≠ ProjVar.null := by
  obtain ⟨c, hc, rfl⟩ := h
  intro h
  apply stdCoords_ne_null P
  have h' := congrArg (ProjVar.scale c⁻¹) h
  rw [scale_scale, inv_mul_cancel₀ hc, scale_null] at h'
  rw [← h']
  ext <;> simp [ProjVar.scale]

theorem Denotes.unique {p : ProjVar F} {P Q : W.Point} (h : Denotes p P) (h' : Denotes p Q) :
    P = Q := by
  obtain ⟨c, hc, rfl⟩ := h
  obtain ⟨d, hd, h'⟩ := h'
  have hx := congrArg ProjVar.x h'
  have hy := congrArg ProjVar.y h'
  have hz := congrArg ProjVar.z h'
  cases P with
  | zero =>
    cases Q with
    | zero => rfl
    | some x y _ =>
      simp only [ProjVar.scale, stdCoords, ProjVar.zero, mul_zero, mul_one] at hz
      exact absurd hz.symm hd
  | some x y _ =>
    cases Q with
    | zero =>
      simp only [ProjVar.scale, stdCoords, ProjVar.zero, mul_zero, mul_one] at hz
      exact absurd hz hc
    | some x' y' _ =>
      simp only [ProjVar.scale, stdCoords, mul_one] at hx hy hz
      subst hz
      have e1 := mul_left_cancel₀ hc hx
      have e2 := mul_left_cancel₀ hc hy
      subst e1 e2
      rfl

theorem denotes_zero : Denotes (ProjVar.zero : ProjVar F) (0 : W.Point) :=
  ⟨1, one_ne_zero, by ext <;> simp [ProjVar.scale, stdCoords, ProjVar.zero]⟩

variable (hS : Short W) (hW : ∀ x y, W.Nonsingular x y ↔ y ^ 2 = x ^ 3 + b)
  (h2 : (2 : F) ≠ 0) (h3 : (3 : F) ≠ 0) (hb : b ≠ 0)

include hS h2 in
theorem orderTwo_some {x y : F} {h : W.Nonsingular x y} :
    OrderTwo (Affine.Point.some x y h) ↔ y = 0 := by
  obtain ⟨a1, a2, a3, a4⟩ := hS
  constructor
  · rintro ⟨_, e⟩
    by_contra hy
    rw [Affine.Point.add_self_of_Y_ne] at e
    · exact Affine.Point.some_ne_zero _ e
    · simp only [Affine.negY, a1, a3]
      intro e
      apply hy
      have : (2 : F) * y = 0 := by linear_combination e
      exact (mul_eq_zero.mp this).resolve_left h2
  · rintro rfl
    refine ⟨Affine.Point.some_ne_zero _, ?_⟩
    apply Affine.Point.add_of_Y_eq rfl
    simp [Affine.negY, a1, a3]

include hS in
theorem neg_some' {x y : F} {h : W.Nonsingular x y} {h' : W.Nonsingular x (-y)} :
    -(Affine.Point.some x y h) = Affine.Point.some x (-y) h' := by
  obtain ⟨a1, a2, a3, a4⟩ := hS
  rw [Affine.Point.neg_some]
  congr 1
  simp [Affine.negY, a1, a3]

/-- The identities for two points with different abscissae. -/
theorem circuitAdd_generic {x₁ y₁ x₂ y₂ : F} (e1 : y₁ ^ 2 = x₁ ^ 3 + b) (e2 : y₂ ^ 2 = x₂ ^ 3 + b)
    {l x₃ y₃ l' x' y' : F} (hl : l * (x₁ - x₂) = y₁ - y₂) (hx : x₃ = l ^ 2 - x₁ - x₂)
    (hy : y₃ = l * (x₁ - x₃) - y₁) (hd : x₁ ≠ x₂)
    (hl' : l' * (x₁ - x₂) = y₁ - -y₂) (hx' : x' = l' ^ 2 - x₁ - x₂)
    (hy' : y' = l' * (x₁ - x') - y₁) :
    circuitAdd b ⟨x₁, y₁, 1⟩ ⟨x₂, y₂, 1⟩ =
      (⟨x₃, y₃, 1⟩ : ProjVar F).scale (-y' * (x₁ - x₂) ^ 3) := by
  have hd' : x₁ - x₂ ≠ 0 := sub_ne_zero.mpr hd
  have l_eq : l = (y₁ - y₂) / (x₁ - x₂) := by rw [eq_div_iff hd', hl]
  have l'_eq : l' = (y₁ + y₂) / (x₁ - x₂) := by rw [eq_div_iff hd', hl']; ring
  have hZ : (circuitAdd b ⟨x₁, y₁, 1⟩ ⟨x₂, y₂, 1⟩).z = -y' * (x₁ - x₂) ^ 3 := by
    have : y' * (x₁ - x₂) ^ 3 = (y₁ + y₂) * (x₁ * (x₁ - x₂) ^ 2 - ((y₁ + y₂) ^ 2 -
        (x₁ + x₂) * (x₁ - x₂) ^ 2)) - y₁ * (x₁ - x₂) ^ 3 := by
      rw [hy', hx', l'_eq]
      field_simp
      ring
    rw [neg_mul, this]
    simp only [circuitAdd]
    linear_combination ((-2) * y₂ + (-1) * y₁ ) * e1 + ( (-1) * y₂ + (-2) * y₁ ) * e2
  have hX : (circuitAdd b ⟨x₁, y₁, 1⟩ ⟨x₂, y₂, 1⟩).x =
      (circuitAdd b ⟨x₁, y₁, 1⟩ ⟨x₂, y₂, 1⟩).z * x₃ := by
    have : x₃ * (x₁ - x₂) ^ 2 = (y₁ - y₂) ^ 2 - (x₁ + x₂) * (x₁ - x₂) ^ 2 := by
      rw [hx, l_eq]
      field_simp
      ring
    apply mul_right_cancel₀ (pow_ne_zero 2 hd')
    rw [mul_assoc, this]
    simp only [circuitAdd]
    linear_combination ( 1 * y₂ ^ 3 + 2 * x₂ ^ 3 * y₂ + 1 * y₁ * y₂ ^ 2 + (-1) * y₁ ^ 2 * y₂ +
      3 * x₁ * x₂ ^ 2 * y₂ + (-3) * x₁ * y₁ * x₂ ^ 2 + (-3) * x₁ ^ 2 * x₂ * y₂ + 2 * b * y₂ +
      (-3) * b * y₁ ) * e1 + ( (-1) * y₁ * y₂ ^ 2 + (-3) * x₁ * y₁ * x₂ ^ 2 +
      (-3) * x₁ ^ 2 * x₂ * y₂ + 3 * x₁ ^ 2 * y₁ * x₂ + 1 * x₁ ^ 3 * y₂ + 3 * x₁ ^ 3 * y₁ +
      (-2) * b * y₂ + 3 * b * y₁ ) * e2
  have hY : (circuitAdd b ⟨x₁, y₁, 1⟩ ⟨x₂, y₂, 1⟩).y =
      (circuitAdd b ⟨x₁, y₁, 1⟩ ⟨x₂, y₂, 1⟩).z * y₃ := by
    have : y₃ * (x₁ - x₂) ^ 3 = (y₁ - y₂) * (x₁ * (x₁ - x₂) ^ 2 - ((y₁ - y₂) ^ 2 -
        (x₁ + x₂) * (x₁ - x₂) ^ 2)) - y₁ * (x₁ - x₂) ^ 3 := by
      rw [hy, hx, l_eq]
      field_simp
      ring
    apply mul_right_cancel₀ (pow_ne_zero 3 hd')
    rw [mul_assoc, this]
    simp only [circuitAdd]
    linear_combination ( 2 * y₂ ^ 4 + (-2) * x₂ ^ 3 * y₂ ^ 2 + (-2) * y₁ * x₂ ^ 3 * y₂ +
      (-2) * y₁ ^ 2 * y₂ ^ 2 + 1 * y₁ ^ 3 * y₂ + 15 * x₁ * x₂ ^ 2 * y₂ ^ 2 + (-6) * x₁ * x₂ ^ 5 +
      (-6) * x₁ * y₁ * x₂ ^ 2 * y₂ + 3 * x₁ * y₁ ^ 2 * x₂ ^ 2 + (-15) * x₁ ^ 2 * x₂ * y₂ ^ 2 +
      9 * x₁ ^ 2 * x₂ ^ 4 + 3 * x₁ ^ 2 * y₁ * x₂ * y₂ + (-2) * b * y₂ ^ 2 + (-6) * b * x₂ ^ 3 +
      (-5) * b * y₁ * y₂ + 3 * b * y₁ ^ 2 + 12 * b * x₁ * x₂ ^ 2 + 3 * b ^ 2 ) * e1 +
      ( (-1) * y₁ * y₂ ^ 3 + (-3) * x₁ * y₁ * x₂ ^ 2 * y₂ + (-3) * x₁ ^ 2 * x₂ * y₂ ^ 2 +
      6 * x₁ ^ 2 * y₁ * x₂ * y₂ + 2 * x₁ ^ 3 * y₂ ^ 2 + 2 * x₁ ^ 3 * y₁ * y₂ +
      6 * x₁ ^ 4 * x₂ ^ 2 + (-9) * x₁ ^ 5 * x₂ + (-1) * b * y₂ ^ 2 + 5 * b * y₁ * y₂ +
      15 * b * x₁ * x₂ ^ 2 + (-27) * b * x₁ ^ 2 * x₂ + 6 * b * x₁ ^ 3 + (-3) * b ^ 2 ) * e2
  ext
  · rw [hX, hZ]; simp only [ProjVar.scale]
  · rw [hY, hZ]; simp only [ProjVar.scale]
  · rw [hZ]; simp only [ProjVar.scale, mul_one]

include hS hW h2 in
/-- Doubling a finite point that is not of order two. -/
theorem double_coords {x y : F} {h : W.Nonsingular x y} (hy : y ≠ 0) :
    ∃ x' y' h', Affine.Point.some x y h + Affine.Point.some x y h = .some x' y' h' ∧
      8 * y ^ 3 * x' = 2 * x * y * (y ^ 2 - 9 * b) ∧
      8 * y ^ 3 * y' = y ^ 4 + 18 * b * y ^ 2 - 27 * b ^ 2 := by
  have e := (hW x y).mp h
  have hp : IsPoint (x, y) (Affine.Point.some x y h) := ⟨h, rfl⟩
  obtain ⟨h', hs⟩ := dblStep_spec hS (l := 3 * x ^ 2 / (2 * y)) hp (q := ((3 * x ^ 2 / (2 * y)) ^ 2 - 2 * x,
    3 * x ^ 2 / (2 * y) * (x - ((3 * x ^ 2 / (2 * y)) ^ 2 - 2 * x)) - y)) (by
      unfold dblStep
      rw [if_pos]
      constructor
      · field_simp
      · exact mul_ne_zero h2 hy)
  refine ⟨_, _, h', hs, ?_, ?_⟩
  · simp only []
    field_simp
    linear_combination (-72 * x) * e
  · simp only []
    field_simp
    linear_combination (-72 * (y ^ 2 - 3 * x ^ 3 + 3 * b)) * e

include hS hW h2 h3 hb in
/-- The formulas on standard coordinates. -/
theorem circuitAdd_std (P Q : W.Point) :
    (OrderTwo (P - Q) ∧ circuitAdd b (stdCoords P) (stdCoords Q) = ProjVar.null) ∨
    (¬ OrderTwo (P - Q) ∧ Denotes (circuitAdd b (stdCoords P) (stdCoords Q)) (P + Q)) := by
  have hneg : ∀ x y, W.Nonsingular x y → W.Nonsingular x (-y) := fun x y h => by
    rw [hW] at h ⊢; rw [neg_sq]; exact h
  have c27 : (-27 : F) * b ^ 2 ≠ 0 := by
    apply mul_ne_zero _ (pow_ne_zero _ hb)
    intro h
    apply pow_ne_zero 3 h3
    linear_combination -h
  cases P with
  | zero =>
    rw [← Affine.Point.zero_def, zero_sub, zero_add]
    cases Q with
    | zero =>
      right
      rw [← Affine.Point.zero_def, neg_zero]
      refine ⟨fun h => h.1 rfl, 1, one_ne_zero, ?_⟩
      ext <;> simp [circuitAdd, stdCoords, ProjVar.zero, ProjVar.scale]
    | some x y h =>
      have e : circuitAdd b (stdCoords (0 : W.Point)) (stdCoords (Affine.Point.some x y h)) =
          (stdCoords (Affine.Point.some x y h)).scale y := by
        ext <;> simp only [circuitAdd, stdCoords, ProjVar.zero, ProjVar.scale] <;> ring
      rw [neg_some' hS (h' := hneg _ _ h), orderTwo_some hS h2, e]
      by_cases hy : y = 0
      · left
        refine ⟨by rw [hy, neg_zero], ?_⟩
        simp [ProjVar.scale, hy, ProjVar.null]
      · right
        exact ⟨fun e => hy (neg_eq_zero.mp e), y, hy, rfl⟩
  | some x₁ y₁ h₁ =>
    have e1 := (hW _ _).mp h₁
    cases Q with
    | zero =>
      have e : circuitAdd b (stdCoords (Affine.Point.some x₁ y₁ h₁)) (stdCoords (0 : W.Point)) =
          (stdCoords (Affine.Point.some x₁ y₁ h₁)).scale y₁ := by
        ext <;> simp only [circuitAdd, stdCoords, ProjVar.zero, ProjVar.scale] <;> ring
      rw [← Affine.Point.zero_def, sub_zero, add_zero, orderTwo_some hS h2, e]
      by_cases hy : y₁ = 0
      · left
        refine ⟨hy, ?_⟩
        simp [ProjVar.scale, hy, ProjVar.null]
      · right
        exact ⟨hy, y₁, hy, rfl⟩
    | some x₂ y₂ h₂ =>
      have e2 := (hW _ _).mp h₂
      by_cases hx : x₁ = x₂
      · subst hx
        have hyy : y₁ = y₂ ∨ y₁ = -y₂ := sq_eq_sq_iff_eq_or_eq_neg.mp (e1.trans e2.symm)
        by_cases hy : y₁ = y₂
        · subst hy
          right
          rw [sub_self]
          refine ⟨fun h => h.1 rfl, ?_⟩
          by_cases h0 : y₁ = 0
          · have ht : OrderTwo (Affine.Point.some x₁ y₁ h₁) := (orderTwo_some hS h2).mpr h0
            rw [ht.2]
            refine ⟨-27 * b ^ 2, c27, ?_⟩
            subst h0
            ext <;> simp only [circuitAdd, stdCoords, ProjVar.zero, ProjVar.scale]
            · ring
            · linear_combination (-18 * b) * e1
            · ring
          · obtain ⟨x', y', h', he, hx', hy'⟩ := double_coords hS hW h2 (h := h₁) h0
            rw [he]
            have h8 : (8 : F) * y₁ ^ 3 ≠ 0 := by
              refine mul_ne_zero ?_ (pow_ne_zero 3 h0)
              rw [show (8 : F) = 2 ^ 3 by norm_num]
              exact pow_ne_zero 3 h2
            refine ⟨8 * y₁ ^ 3, h8, ?_⟩
            ext <;> simp only [circuitAdd, stdCoords, ProjVar.scale]
            · rw [hx']; ring
            · rw [hy']; linear_combination (-18 * b) * e1
            · linear_combination (-6 * y₁) * e1
        · have hyn : y₂ = -y₁ := by rw [hyy.resolve_left hy, neg_neg]
          subst hyn
          have h0 : y₁ ≠ 0 := fun h => hy (by rw [h, neg_zero])
          have hQ : Affine.Point.some x₁ (-y₁) h₂ = -Affine.Point.some x₁ y₁ h₁ :=
            (neg_some' hS).symm
          obtain ⟨x', y', h', he, hx', hy'⟩ := double_coords hS hW h2 (h := h₁) h0
          have e : circuitAdd b (stdCoords (Affine.Point.some x₁ y₁ h₁))
              (stdCoords (Affine.Point.some x₁ (-y₁) h₂)) =
              (ProjVar.zero : ProjVar F).scale (8 * y₁ ^ 3 * y') := by
            rw [hy']
            ext <;> simp only [circuitAdd, stdCoords, ProjVar.scale, ProjVar.zero]
            · ring
            · linear_combination (-18 * b) * e1
            · ring
          rw [e, hQ, sub_neg_eq_add, add_neg_cancel, he, orderTwo_some hS h2]
          have h8 : (8 : F) * y₁ ^ 3 ≠ 0 := by
            refine mul_ne_zero ?_ (pow_ne_zero 3 h0)
            rw [show (8 : F) = 2 ^ 3 by norm_num]
            exact pow_ne_zero 3 h2
          by_cases hc : y' = 0
          · left
            refine ⟨hc, ?_⟩
            simp [ProjVar.scale, hc, ProjVar.null]
          · right
            exact ⟨hc, _, mul_ne_zero h8 hc, rfl⟩
      · have hd : x₁ - x₂ ≠ 0 := sub_ne_zero.mpr hx
        have hp : IsPoint (x₁, y₁) (Affine.Point.some x₁ y₁ h₁) := ⟨h₁, rfl⟩
        have hq : IsPoint (x₂, y₂) (Affine.Point.some x₂ y₂ h₂) := ⟨h₂, rfl⟩
        have hq' : IsPoint (x₂, -y₂) (Affine.Point.some x₂ (-y₂) (hneg _ _ h₂)) := ⟨_, rfl⟩
        obtain ⟨h₃, hs⟩ := addStep_spec hS (l := (y₁ - y₂) / (x₁ - x₂)) hp hq
          (r := (((y₁ - y₂) / (x₁ - x₂)) ^ 2 - x₁ - x₂, (y₁ - y₂) / (x₁ - x₂) *
            (x₁ - (((y₁ - y₂) / (x₁ - x₂)) ^ 2 - x₁ - x₂)) - y₁)) (by
            unfold addStep
            rw [if_pos ⟨div_mul_cancel₀ _ hd, hx⟩])
        obtain ⟨h₄, hs'⟩ := addStep_spec hS (l := (y₁ - -y₂) / (x₁ - x₂)) hp hq'
          (r := (((y₁ - -y₂) / (x₁ - x₂)) ^ 2 - x₁ - x₂, (y₁ - -y₂) / (x₁ - x₂) *
            (x₁ - (((y₁ - -y₂) / (x₁ - x₂)) ^ 2 - x₁ - x₂)) - y₁)) (by
            unfold addStep
            rw [if_pos ⟨div_mul_cancel₀ _ hd, hx⟩])
        rw [sub_eq_add_neg, neg_some' hS (h' := hneg _ _ h₂), hs, hs', orderTwo_some hS h2]
        have key := circuitAdd_generic (b := b) e1 e2 (l := (y₁ - y₂) / (x₁ - x₂)) (div_mul_cancel₀ _ hd)
          rfl rfl hx (l' := (y₁ - -y₂) / (x₁ - x₂)) (div_mul_cancel₀ _ hd) rfl rfl
        simp only [stdCoords]
        rw [key]
        by_cases hc : (y₁ - -y₂) / (x₁ - x₂) *
            (x₁ - (((y₁ - -y₂) / (x₁ - x₂)) ^ 2 - x₁ - x₂)) - y₁ = 0
        · left
          refine ⟨hc, ?_⟩
          rw [hc]
          simp [ProjVar.scale, ProjVar.null]
        · right
          exact ⟨hc, _, mul_ne_zero (neg_ne_zero.mpr hc) (pow_ne_zero 3 hd), rfl⟩

include hS hW h2 h3 hb in
theorem circuitAdd_denotes {p q : ProjVar F} {P Q : W.Point} (hp : Denotes p P) (hq : Denotes q Q) :
    (OrderTwo (P - Q) ∧ circuitAdd b p q = ProjVar.null) ∨
    (¬ OrderTwo (P - Q) ∧ Denotes (circuitAdd b p q) (P + Q)) := by
  obtain ⟨c, hc, rfl⟩ := hp
  obtain ⟨d, hd, rfl⟩ := hq
  rw [circuitAdd_scale]
  rcases circuitAdd_std hS hW h2 h3 hb P Q with ⟨h, e⟩ | ⟨h, k, hk, e⟩
  · left
    exact ⟨h, by rw [e, scale_null]⟩
  · right
    refine ⟨h, (c * d) ^ 2 * k, mul_ne_zero (pow_ne_zero _ (mul_ne_zero hc hd)) hk, ?_⟩
    rw [e, scale_scale]

include hS hW h2 h3 hb in
/-- Doubling has no exceptions. -/
theorem circuitDouble_denotes {p : ProjVar F} {P : W.Point} (hp : Denotes p P) :
    Denotes (circuitDouble b p) (P + P) := by
  have hstd : circuitDouble b (stdCoords P) = circuitAdd b (stdCoords P) (stdCoords P) := by
    cases P with
    | zero => ext <;> simp only [circuitDouble, circuitAdd, stdCoords, ProjVar.zero] <;> ring
    | some x y h =>
      have e := (hW _ _).mp h
      ext <;> simp only [circuitDouble, circuitAdd, stdCoords]
      · ring
      · ring
      · linear_combination (6 * y) * e
  obtain ⟨c, hc, rfl⟩ := hp
  rw [circuitDouble_scale, hstd]
  rcases circuitAdd_std hS hW h2 h3 hb P P with ⟨h, _⟩ | ⟨_, k, hk, e⟩
  · rw [sub_self] at h
    exact absurd rfl h.1
  · exact ⟨c ^ 4 * k, mul_ne_zero (pow_ne_zero _ hc) hk, by rw [e, scale_scale]⟩

include hS hW h2 h3 hb in
theorem circuitSum_denotes {p q r : ProjVar F} {P Q : W.Point} (hp : Denotes p P)
    (hq : Denotes q Q) (hn : ¬ OrderTwo (P - Q)) (h : CircuitSum b p q r) : Denotes r (P + Q) := by
  rcases h with rfl | ⟨rfl, rfl⟩ | ⟨rfl, rfl⟩
  · rcases circuitAdd_denotes hS hW h2 h3 hb hp hq with ⟨h, _⟩ | ⟨_, h⟩
    · exact absurd h hn
    · exact h
  · rw [hp.unique denotes_zero, zero_add]
    exact hq
  · rw [hq.unique denotes_zero, add_zero]
    exact hp

include hS in
theorem circuitNeg_denotes {p : ProjVar F} {P : W.Point} (hp : Denotes p P) :
    Denotes (circuitNeg p) (-P) := by
  obtain ⟨c, hc, rfl⟩ := hp
  cases P with
  | zero =>
    rw [← Affine.Point.zero_def, neg_zero]
    exact ⟨-c, neg_ne_zero.mpr hc, by
      ext <;> simp [circuitNeg, ProjVar.scale, stdCoords, ProjVar.zero]⟩
  | some x y h =>
    obtain ⟨a1, a2, a3, a4⟩ := hS
    rw [Affine.Point.neg_some]
    refine ⟨c, hc, ?_⟩
    ext <;> simp [circuitNeg, ProjVar.scale, stdCoords, Affine.negY, a1, a3]

theorem circuitEq_denotes {p q : ProjVar F} {P Q : W.Point} (hp : Denotes p P) (hq : Denotes q Q) :
    circuitEq p q ↔ P = Q := by
  obtain ⟨c, hc, rfl⟩ := hp
  obtain ⟨d, hd, rfl⟩ := hq
  cases P with
  | zero =>
    cases Q with
    | zero => simp [circuitEq, ProjVar.scale, stdCoords, ProjVar.zero]
    | some x y h =>
      simp only [circuitEq, ProjVar.scale, stdCoords, ProjVar.zero]
      constructor
      · rintro (⟨_, h'⟩ | ⟨_, h'⟩)
        · exact absurd h' (by simpa using hd)
        · exact absurd h' (by simpa using ⟨hc, hd⟩)
      · intro h'
        cases h'
  | some x y h =>
    cases Q with
    | zero =>
      simp only [circuitEq, ProjVar.scale, stdCoords, ProjVar.zero]
      constructor
      · rintro (⟨h', _⟩ | ⟨_, h'⟩)
        · exact absurd h' (by simpa using hc)
        · exact absurd h'.symm (by simpa using ⟨hd, hc⟩)
      · intro h'
        cases h'
    | some x' y' h' =>
      simp only [circuitEq, ProjVar.scale, stdCoords, mul_one]
      constructor
      · rintro (⟨h', _⟩ | ⟨hx, hy⟩)
        · exact absurd h' hc
        · have ex : x = x' := by
            apply mul_left_cancel₀ (mul_ne_zero hc hd)
            linear_combination hx
          have ey : y = y' := by
            apply mul_left_cancel₀ (mul_ne_zero hc hd)
            linear_combination hy
          subst ex ey
          rfl
      · intro e
        cases e
        right
        constructor <;> ring

include hW in
/-- What allocation checks, up to the null triple. -/
theorem denotes_iff (p : ProjVar F) : (∃ P : W.Point, Denotes p P) ↔ p.OnCurve b ∧ p ≠ ProjVar.null := by
  constructor
  · rintro ⟨P, h⟩
    refine ⟨?_, h.ne_null⟩
    obtain ⟨c, hc, rfl⟩ := h
    cases P with
    | zero => simp [ProjVar.OnCurve, ProjVar.scale, stdCoords, ProjVar.zero]
    | some x y h =>
      have e := (hW _ _).mp h
      simp only [ProjVar.OnCurve, ProjVar.scale, stdCoords]
      linear_combination (c ^ 3) * e
  · rintro ⟨h, h0⟩
    unfold ProjVar.OnCurve at h
    by_cases hz : p.z = 0
    · have hx : p.x = 0 := by
        rw [hz, zero_mul] at h
        have : p.x ^ 3 = 0 := by linear_combination -h
        exact pow_eq_zero_iff (by norm_num) |>.mp this
      have hy : p.y ≠ 0 := fun hy => h0 (by ext <;> simp [ProjVar.null, hx, hy, hz])
      exact ⟨0, p.y, hy, by
        ext <;> simp [ProjVar.scale, stdCoords, ProjVar.zero, hx, hz]⟩
    · refine ⟨.some (p.x / p.z) (p.y / p.z) ((hW _ _).mpr ?_), p.z, hz, ?_⟩
      · field_simp
        linear_combination h
      · ext <;> simp only [ProjVar.scale, stdCoords, mul_one] <;> field_simp

/-- The null triple absorbs. -/
theorem circuitAdd_null (p : ProjVar F) :
    circuitAdd b ProjVar.null p = ProjVar.null ∧ circuitAdd b p ProjVar.null = ProjVar.null := by
  constructor <;> ext <;> simp [circuitAdd, ProjVar.null]

/-- Affine coordinates as `to_affine` of the circuit gives them. -/
def affineOf : W.Point → F × F
  | .zero => (0, 1)
  | .some x y _ => (x, y)

theorem Denotes.point {p : ProjVar F} {P : W.Point} (h : Denotes p P)
    (_ : Decidable (p.z ≠ 0 ∧ W.Nonsingular (p.x / p.z) (p.y / p.z))) :
    (if h : p.z ≠ 0 ∧ W.Nonsingular (p.x / p.z) (p.y / p.z) then
      Affine.Point.some (p.x / p.z) (p.y / p.z) h.2 else 0) = P := by
  obtain ⟨c, hc, rfl⟩ := h
  cases P with
  | zero =>
    rw [dif_neg]
    · rfl
    · rintro ⟨h, _⟩
      exact h (by simp [ProjVar.scale, stdCoords, ProjVar.zero])
  | some x y h =>
    have ex : (ProjVar.scale c (stdCoords (Affine.Point.some x y h))).x /
        (ProjVar.scale c (stdCoords (Affine.Point.some x y h))).z = x := by
      simp only [ProjVar.scale, stdCoords, mul_one]
      field_simp
    have ey : (ProjVar.scale c (stdCoords (Affine.Point.some x y h))).y /
        (ProjVar.scale c (stdCoords (Affine.Point.some x y h))).z = y := by
      simp only [ProjVar.scale, stdCoords, mul_one]
      field_simp
    rw [dif_pos]
    · congr 1
    · refine ⟨by simpa [ProjVar.scale, stdCoords] using hc, ?_⟩
      rw [ex, ey]
      exact h

theorem Denotes.z_iff {p : ProjVar F} {P : W.Point} (h : Denotes p P) : p.z ≠ 0 ↔ P ≠ 0 := by
  obtain ⟨c, hc, rfl⟩ := h
  cases P with
  | zero => simp [ProjVar.scale, stdCoords, ProjVar.zero, Affine.Point.zero_def]
  | some x y h => simpa [ProjVar.scale, stdCoords, Affine.Point.zero_def] using hc

theorem Denotes.toAffine {p : ProjVar F} {P : W.Point} (h : Denotes p P) (xy : F × F) :
    (∃ infinity zInv, ToAffineC p infinity zInv xy) ↔ xy = affineOf P := by
  obtain ⟨c, hc, rfl⟩ := h
  cases P with
  | zero =>
    simp only [ToAffineC, ProjVar.scale, stdCoords, ProjVar.zero, mul_zero, affineOf]
    constructor
    · rintro ⟨i, z, h1, _, rfl⟩
      rw [h1.mpr trivial]
      rfl
    · rintro rfl
      exact ⟨true, 0, by simp⟩
  | some x y h =>
    simp only [ToAffineC, ProjVar.scale, stdCoords, mul_one, affineOf]
    constructor
    · rintro ⟨i, z, h1, h2, rfl⟩
      cases i with
      | true => exact absurd (h1.mp rfl) hc
      | false =>
        have := h2 rfl
        simp only [Bool.false_eq_true, if_false, Prod.mk.injEq]
        constructor
        · linear_combination x * this
        · linear_combination y * this
    · rintro rfl
      refine ⟨false, c⁻¹, ?_⟩
      simp only [Bool.false_eq_true, false_iff, if_false, Prod.mk.injEq]
      exact ⟨hc, fun _ => mul_inv_cancel₀ hc, by field_simp, by field_simp⟩

theorem null_toAffine (xy : F × F) :
    (∃ infinity zInv, ToAffineC ProjVar.null infinity zInv xy) ↔ xy = (0, 1) := by
  simp only [ToAffineC, ProjVar.null]
  constructor
  · rintro ⟨i, z, h1, _, rfl⟩
    rw [h1.mpr trivial]
    rfl
  · rintro rfl
    exact ⟨true, 0, by simp⟩

/-- The number written by bits, least significant first. -/
def natOfBitsLe : List Bool → ℕ
  | [] => 0
  | bit :: bits => bit.toNat + 2 * natOfBitsLe bits

theorem scalarMulLe_exists (bits : List Bool) :
    ∀ res multiple : ProjVar F, ∃ out, ScalarMulLe b bits res multiple out := by
  induction bits with
  | nil => intro res _; exact ⟨res, rfl⟩
  | cons bit bits ih =>
    intro res multiple
    obtain ⟨out, h⟩ := ih (if bit then circuitAdd b res multiple else res) (circuitDouble b multiple)
    exact ⟨out, _, Or.inl rfl, h⟩

include hS hW h2 h3 hb in
/-- Leading zeros only double. -/
theorem scalarMulLe_skip (k : ℕ) (bits : List Bool) :
    ∀ (res multiple out : ProjVar F) (M : W.Point), Denotes multiple M →
    ScalarMulLe b (List.replicate k false ++ bits) res multiple out →
    ∃ multiple', Denotes multiple' (2 ^ k • M) ∧ ScalarMulLe b bits res multiple' out := by
  induction k with
  | zero =>
    intro res multiple out M hM h
    exact ⟨multiple, by simpa using hM, h⟩
  | succ k ih =>
    intro res multiple out M hM h
    rw [List.replicate_succ, List.cons_append] at h
    obtain ⟨_, _, h⟩ := h
    obtain ⟨m', hm, h'⟩ := ih res _ out _ (circuitDouble_denotes hS hW h2 h3 hb hM) h
    refine ⟨m', ?_, h'⟩
    rw [pow_succ, mul_nsmul', two_nsmul]
    exact hm

theorem not_orderTwo_of_odd {G : Type*} [AddGroup G] {T : G} {n : ℕ} (hn : Odd n) (h : n • T = 0) :
    ¬ OrderTwo T := by
  rintro ⟨h0, h2⟩
  obtain ⟨k, rfl⟩ := hn
  rw [add_nsmul, one_nsmul, mul_nsmul, two_nsmul, h2, nsmul_zero, zero_add] at h
  exact h0 h

include hS hW h2 h3 hb in
/-- Among elements of odd order the loop is exact. -/
theorem scalarMulLe_odd {n : ℕ} (hn : Odd n) (bits : List Bool) :
    ∀ (res multiple out : ProjVar F) (R M : W.Point), Denotes res R → Denotes multiple M →
    n • R = 0 → n • M = 0 → ScalarMulLe b bits res multiple out →
    Denotes out (R + natOfBitsLe bits • M) := by
  induction bits with
  | nil =>
    rintro res multiple out R M hR _ _ _ rfl
    simpa [natOfBitsLe] using hR
  | cons bit bits ih =>
    rintro res multiple out R M hR hM nR nM ⟨tmp, hs, h⟩
    have hd := circuitDouble_denotes hS hW h2 h3 hb hM
    have nd : n • (M + M) = 0 := by rw [nsmul_add, nM, add_zero]
    have e : natOfBitsLe bits • (M + M) = (2 * natOfBitsLe bits) • M := by
      rw [← two_nsmul, ← mul_nsmul]
    cases bit with
    | false =>
      have := ih _ _ out R (M + M) hR hd nR nd h
      rw [e] at this
      simpa [natOfBitsLe] using this
    | true =>
      have ht := circuitSum_denotes hS hW h2 h3 hb hR hM
        (not_orderTwo_of_odd hn (by rw [nsmul_sub, nR, nM, sub_zero])) hs
      have := ih _ _ out (R + M) (M + M) ht hd (by rw [nsmul_add, nR, nM, add_zero]) nd h
      rw [e, add_assoc] at this
      simpa [natOfBitsLe, add_nsmul] using this

end Verif
