import Verif.Model.Sqrt2
import Verif.Props.Sqrt
import Verif.Props.Serialize

/-!
# C126: the square root of the quadratic extension

The complex method never panics and is exact, except that older versions of the library miss the roots of those
elements of the base field that are no squares there.  Every nonzero multiple of `u` squares to such an element: a
public key with such a second coordinate could be written but not read.
-/

namespace Verif

theorem fq_half : (FQ_MODULUS - 1) / 2 + (FQ_MODULUS - 1) / 2 = FQ_MODULUS - 1 := by decide +kernel

theorem fq_half_eq : FQ_MODULUS / 2 = (FQ_MODULUS - 1) / 2 := by decide +kernel

theorem fq_pow_half {a : Fq} (ha : a ≠ 0) : a ^ ((FQ_MODULUS - 1) / 2) * a ^ ((FQ_MODULUS - 1) / 2) = 1 := by
  rw [← pow_add, fq_half]
  exact ZMod.pow_card_sub_one_eq_one ha

theorem fq_five_ne : (-5 : Fq) ≠ 0 := by decide +kernel

theorem legendre_zero_iff (a : Fq) : legendreSymbol a = .zero ↔ a = 0 := by
  unfold legendreSymbol
  dsimp only
  constructor
  · intro h
    by_contra ha
    rw [if_neg (pow_ne_zero _ ha)] at h
    split at h <;> cases h
  · rintro rfl
    rw [if_pos (zero_pow (by decide +kernel))]

theorem legendre_residue_iff (a : Fq) : legendreSymbol a = .quadraticResidue ↔ a ≠ 0 ∧ IsSquare a := by
  by_cases ha : a = 0
  · rw [(legendre_zero_iff a).2 ha]
    exact ⟨fun h => (by cases h), fun h => absurd ha h.1⟩
  · rw [ZMod.euler_criterion _ ha, fq_half_eq]
    unfold legendreSymbol
    dsimp only
    rw [if_neg (pow_ne_zero _ ha)]
    split
    · rename_i h; exact ⟨fun _ => ⟨ha, h⟩, fun _ => rfl⟩
    · rename_i h; exact ⟨fun e => (by cases e), fun e => absurd e.2 h⟩

theorem legendre_nonresidue_iff (a : Fq) : legendreSymbol a = .quadraticNonResidue ↔ ¬IsSquare a := by
  by_cases ha : a = 0
  · rw [(legendre_zero_iff a).2 ha]
    exact ⟨fun h => (by cases h), fun h => absurd ⟨0, by rw [ha, mul_zero]⟩ h⟩
  · have h1 := legendre_residue_iff a
    have h0 := legendre_zero_iff a
    cases h : legendreSymbol a with
    | zero => exact absurd (h0.1 h) ha
    | quadraticResidue => exact ⟨fun e => (by cases e), fun e => absurd (h1.1 h).2 e⟩
    | quadraticNonResidue =>
      refine ⟨fun _ e => ?_, fun _ => rfl⟩
      rw [h1.2 ⟨ha, e⟩] at h
      cases h

/-- If a product is `-5` times a nonzero square, exactly one factor is a square. -/
theorem square_of_product {d e c : Fq} (hc : c ≠ 0) (h : d * e = -5 * (c * c)) (hd : ¬IsSquare d) : IsSquare e := by
  have hne : d * e ≠ 0 := by rw [h]; exact mul_ne_zero fq_five_ne (mul_ne_zero hc hc)
  have hd0 := left_ne_zero_of_mul hne
  have he0 := right_ne_zero_of_mul hne
  have h5 : (-5 : Fq) ^ ((FQ_MODULUS - 1) / 2) = -1 := by
    refine eq_neg_one_of_sq (fq_pow_half fq_five_ne) fun e5 => ?_
    obtain ⟨r, hr⟩ := (ZMod.euler_criterion _ fq_five_ne).2 (fq_half_eq ▸ e5)
    exact neg_five_nonresidue r hr.symm
  have hdn : d ^ ((FQ_MODULUS - 1) / 2) = -1 :=
    eq_neg_one_of_sq (fq_pow_half hd0) fun e1 => hd ((ZMod.euler_criterion _ hd0).2 (fq_half_eq ▸ e1))
  have hp : (d * e) ^ ((FQ_MODULUS - 1) / 2) = (-5 * (c * c)) ^ ((FQ_MODULUS - 1) / 2) := by rw [h]
  rw [mul_pow, mul_pow, mul_pow, fq_pow_half hc, h5, hdn, mul_one, neg_one_mul, neg_inj] at hp
  exact (ZMod.euler_criterion _ he0).2 (fq_half_eq ▸ hp)

theorem fqSqrt_of_square {a : Fq} (h : IsSquare a) : ∃ y, fqSqrt a = some y ∧ y * y = a := by
  cases e : fqSqrt a with
  | none =>
    obtain ⟨r, hr⟩ := h
    exact absurd hr.symm (C125_fq.complete _ e r)
  | some y => exact ⟨y, rfl, C125_fq.sound _ _ e⟩

theorem fqSqrt_of_not_square {a : Fq} (h : ¬IsSquare a) : fqSqrt a = none := by
  cases e : fqSqrt a with
  | none => rfl
  | some y => exact absurd ⟨y, (C125_fq.sound _ _ e).symm⟩ h

theorem fq2_sq_re (y : Fq2) : (y * y).re = y.re * y.re + -5 * (y.im * y.im) := by
  rw [QuadraticAlgebra.re_mul]; ring

theorem fq2_sq_im (y : Fq2) : (y * y).im = 2 * (y.re * y.im) := by
  rw [QuadraticAlgebra.im_mul]; ring

/-- The last steps, for a root of a factor of `-5 (im / 2) ^ 2`. -/
theorem fq2SqrtLast_ok {a : Fq2} {d d' c0 : Fq} (hc : a.im * 2⁻¹ ≠ 0)
    (hp : d * d' = -5 * (a.im * 2⁻¹ * (a.im * 2⁻¹))) (hs : d + d' = a.re) (h0 : c0 * c0 = d) :
    ∃ y, fq2SqrtLast a (some c0) = .ok (some y) ∧ y * y = a := by
  have h2 := fq_two_ne
  have hd0 : d ≠ 0 := left_ne_zero_of_mul (b := d') (by rw [hp]; exact mul_ne_zero fq_five_ne (mul_ne_zero hc hc))
  have hc0 : c0 ≠ 0 := by rintro rfl; exact hd0 (by rw [← h0, mul_zero])
  refine ⟨_, if_neg hc0, ?_⟩
  ext
  · rw [fq2_sq_re]
    dsimp only
    rw [← hs]
    have : d' = -5 * (a.im * 2⁻¹ * (a.im * 2⁻¹)) * (c0 * c0)⁻¹ := by
      rw [← hp, h0]; field_simp
    rw [this, mul_inv, h0]
    ring
  · rw [fq2_sq_im]
    dsimp only
    field_simp

/-- `delta` is a square whatever root of the norm was found. -/
theorem fq2SqrtDelta_spec {a : Fq2} {alpha : Fq} (hc : a.im * 2⁻¹ ≠ 0) (ha : alpha * alpha = fq2Norm a) :
    ∃ d', fq2SqrtDelta a alpha * d' = -5 * (a.im * 2⁻¹ * (a.im * 2⁻¹)) ∧ fq2SqrtDelta a alpha + d' = a.re ∧
      IsSquare (fq2SqrtDelta a alpha) := by
  have h2 := fq_two_ne
  unfold fq2Norm at ha
  have hprod : (alpha + a.re) * 2⁻¹ * ((alpha + a.re) * 2⁻¹ - alpha) = -5 * (a.im * 2⁻¹ * (a.im * 2⁻¹)) := by
    field_simp
    linear_combination -ha
  have hsum : (alpha + a.re) * 2⁻¹ + ((alpha + a.re) * 2⁻¹ - alpha) = a.re := by
    field_simp
    ring
  unfold fq2SqrtDelta
  dsimp only
  by_cases hq : legendreSymbol ((alpha + a.re) * 2⁻¹) = .quadraticNonResidue
  · rw [if_pos hq]
    exact ⟨(alpha + a.re) * 2⁻¹, by rw [mul_comm]; exact hprod, by rw [add_comm]; exact hsum,
      square_of_product hc hprod ((legendre_nonresidue_iff _).1 hq)⟩
  · rw [if_neg hq]
    exact ⟨_, hprod, hsum, not_not.1 fun h => hq ((legendre_nonresidue_iff _).2 h)⟩

/-- The method where the element is not in the base field. -/
theorem fq2SqrtRun_complex (later : Bool) {a : Fq2} (him : a.im ≠ 0) :
    (∃ y, fq2SqrtRun later a = .ok (some y) ∧ y * y = a) ∨
      fq2SqrtRun later a = .ok none ∧ ∀ y, y * y ≠ a := by
  have hn0 : fq2Norm a ≠ 0 := by
    intro h
    refine neg_five_nonresidue (a.re * a.im⁻¹) ?_
    unfold fq2Norm at h
    field_simp
    linear_combination h
  unfold fq2SqrtRun
  rw [if_neg him]
  cases hl : legendreSymbol (fq2Norm a) with
  | zero => exact absurd ((legendre_zero_iff _).1 hl) hn0
  | quadraticNonResidue =>
    refine Or.inr ⟨rfl, ?_⟩
    rintro y rfl
    refine (legendre_nonresidue_iff _).1 hl ⟨y.re * y.re + 5 * (y.im * y.im), ?_⟩
    unfold fq2Norm
    rw [fq2_sq_re, fq2_sq_im]
    ring
  | quadraticResidue =>
    have hc : a.im * 2⁻¹ ≠ 0 := mul_ne_zero him (inv_ne_zero fq_two_ne)
    obtain ⟨alpha, e, ha⟩ := fqSqrt_of_square ((legendre_residue_iff _).1 hl).2
    obtain ⟨d', hp, hs, hd⟩ := fq2SqrtDelta_spec hc ha
    obtain ⟨c0, e0, h0⟩ := fqSqrt_of_square hd
    obtain ⟨y, ey, hy⟩ := fq2SqrtLast_ok hc hp hs h0
    exact Or.inl ⟨y, (congrArg (fq2SqrtComplex a) e).trans ((congrArg (fq2SqrtLast a) e0).trans ey), hy⟩

/-- **C126.** The later version: never panics, a root of every square, nothing otherwise. -/
theorem C126_later (a : Fq2) :
    (∃ y, fq2SqrtRun true a = .ok (some y) ∧ y * y = a) ∨
      fq2SqrtRun true a = .ok none ∧ ∀ y, y * y ≠ a := by
  by_cases him : a.im = 0
  · left
    unfold fq2SqrtRun
    rw [if_pos him]
    by_cases hl : legendreSymbol a.re = .quadraticResidue
    · rw [if_neg (fun h => h.2 hl)]
      obtain ⟨r, e, hr⟩ := fqSqrt_of_square ((legendre_residue_iff _).1 hl).2
      refine ⟨⟨r, 0⟩, by rw [e]; rfl, ?_⟩
      ext
      · rw [fq2_sq_re]; dsimp only; rw [← hr]; ring
      · rw [fq2_sq_im, him]; dsimp only; ring
    · rw [if_pos ⟨rfl, hl⟩]
      have hsq : IsSquare (a.re * (-5)⁻¹) := by
        by_cases h0 : a.re = 0
        · exact ⟨0, by rw [h0]; ring⟩
        · refine square_of_product (d := a.re) (c := a.re * (-5)⁻¹) (mul_ne_zero h0 (inv_ne_zero fq_five_ne)) ?_
            fun h => hl ((legendre_residue_iff _).2 ⟨h0, h⟩)
          have := fq_five_ne
          field_simp
      obtain ⟨r, e, hr⟩ := fqSqrt_of_square hsq
      refine ⟨⟨0, r⟩, by rw [e]; rfl, ?_⟩
      ext
      · rw [fq2_sq_re]; dsimp only; rw [hr]
        linear_combination a.re * mul_inv_cancel₀ fq_five_ne
      · rw [fq2_sq_im, him]; dsimp only; ring
  · exact fq2SqrtRun_complex true him

/-- **C126.** The earlier version never panics either; it is exact but for the elements of the base field that are no
squares there: for them it returns nothing, although they all have a root. -/
theorem C126_earlier (a : Fq2) :
    (¬(a.im = 0 ∧ ¬IsSquare a.re) →
      (∃ y, fq2SqrtRun false a = .ok (some y) ∧ y * y = a) ∨
        fq2SqrtRun false a = .ok none ∧ ∀ y, y * y ≠ a) ∧
    (a.im = 0 ∧ ¬IsSquare a.re → fq2SqrtRun false a = .ok none ∧ ∃ y, y * y = a) := by
  constructor
  · intro h
    by_cases him : a.im = 0
    · left
      obtain ⟨r, e, hr⟩ := fqSqrt_of_square (not_not.1 fun hs => h ⟨him, hs⟩)
      unfold fq2SqrtRun
      rw [if_pos him, if_neg (fun h => by cases h.1), e]
      refine ⟨⟨r, 0⟩, rfl, ?_⟩
      ext
      · rw [fq2_sq_re]; dsimp only; rw [← hr]; ring
      · rw [fq2_sq_im, him]; dsimp only; ring
    · exact fq2SqrtRun_complex false him
  · rintro ⟨him, hs⟩
    constructor
    · unfold fq2SqrtRun
      rw [if_pos him, if_neg (fun h => by cases h.1), fqSqrt_of_not_square hs]
      rfl
    · rcases C126_later a with ⟨y, _, hy⟩ | ⟨e, _⟩
      · exact ⟨y, hy⟩
      · unfold fq2SqrtRun at e
        rw [if_pos him, if_pos ⟨rfl, fun hl => hs ((legendre_residue_iff _).1 hl).2⟩] at e
        exfalso
        cases hr : fqSqrt (a.re * (-5)⁻¹) with
        | some r => rw [hr] at e; cases e
        | none =>
          refine absurd (square_of_product (d := a.re) (e := a.re * (-5)⁻¹) (c := a.re * (-5)⁻¹) ?_ ?_ hs) ?_
          · exact mul_ne_zero (fun h0 => hs ⟨0, by rw [h0, mul_zero]⟩) (inv_ne_zero fq_five_ne)
          · have := fq_five_ne
            field_simp
          · rintro ⟨r, h⟩; exact C125_fq.complete _ hr r h.symm

/-- **C126.** The later version is as the decompression of public keys assumes. -/
theorem C126_root : RootSpec (fq2Sqrt true) := by
  refine ⟨fun v y e => ?_, fun v e => ?_⟩
  · rcases C126_later v with ⟨y', e', hy⟩ | ⟨e', _⟩
    · have := congrArg Outcome.ended e'
      rw [show (fq2SqrtRun true v).ended = fq2Sqrt true v from rfl, e] at this
      cases this; exact hy
    · have := congrArg Outcome.ended e'
      rw [show (fq2SqrtRun true v).ended = fq2Sqrt true v from rfl, e] at this
      cases this
  · rcases C126_later v with ⟨y', e', _⟩ | ⟨_, hy⟩
    · have := congrArg Outcome.ended e'
      rw [show (fq2SqrtRun true v).ended = fq2Sqrt true v from rfl, e] at this
      cases this
    · exact hy

/-- **C126.** In terms of the root: the earlier version finds one of `y * y` exactly if `y` is no nonzero multiple
of `u`. -/
theorem C126_earlier_iff (y : Fq2) :
    (∃ y', fq2Sqrt false (y * y) = some y' ∧ y' * y' = y * y) ↔ ¬(y.re = 0 ∧ y.im ≠ 0) := by
  have hiff : ((y * y).im = 0 ∧ ¬IsSquare (y * y).re) ↔ y.re = 0 ∧ y.im ≠ 0 := by
    rw [fq2_sq_re, fq2_sq_im]
    constructor
    · rintro ⟨h, hs⟩
      rcases mul_eq_zero.1 ((mul_eq_zero.1 h).resolve_left fq_two_ne) with h0 | h0
      · refine ⟨h0, fun hi => hs ⟨0, by rw [h0, hi]; ring⟩⟩
      · exact absurd ⟨y.re, by rw [h0]; ring⟩ hs
    · rintro ⟨h, hi⟩
      refine ⟨by rw [h]; ring, ?_⟩
      rw [h]
      rintro ⟨r, hr⟩
      refine neg_five_nonresidue (r * y.im⁻¹) ?_
      field_simp
      linear_combination -hr
  rw [← hiff]
  constructor
  · rintro ⟨y', e, _⟩ h
    have := congrArg Outcome.ended ((C126_earlier (y * y)).2 h).1
    rw [show (fq2SqrtRun false (y * y)).ended = fq2Sqrt false (y * y) from rfl, e] at this
    cases this
  · intro h
    rcases (C126_earlier (y * y)).1 h with ⟨y', e, hy⟩ | ⟨_, hn⟩
    · exact ⟨y', congrArg Outcome.ended e, hy⟩
    · exact absurd rfl (hn y)

theorem fq2Sqrt_earlier_sound (v y : Fq2) (h : fq2Sqrt false v = some y) : y * y = v := by
  by_cases hv : v.im = 0 ∧ ¬IsSquare v.re
  · have := congrArg Outcome.ended ((C126_earlier v).2 hv).1
    rw [show (fq2SqrtRun false v).ended = fq2Sqrt false v from rfl, h] at this
    cases this
  · rcases (C126_earlier v).1 hv with ⟨y', e, hy⟩ | ⟨e, _⟩ <;>
    · have := congrArg Outcome.ended e
      rw [show (fq2SqrtRun false v).ended = fq2Sqrt false v from rfl, h] at this
      cases this
      try exact hy

/-- What reading a finite point does with the root that is found (`crates/bls-crypto/src/bls/public.rs:138-142`). -/
noncomputable def readRoot (x : Fq2) (rest : Bytes) (g : Bool) (o : Option Fq2) : Outcome SerError (G2Point × Bytes) :=
  Outcome.map (fun r => (affinePoint (b := g2CoeffB) r.1, r.2))
    (match o.map fun y => AffinePoint.finite x (if xor (fq2Codec.gt (-y) y) g then y else -y) with
    | none => .err .invalidData
    | some p => if inOrderR (b := g2CoeffB) p then .ok (p, rest) else .err .invalidData)

/-- Reading what was written for a finite point looks up one root only. -/
theorem deserialize_written {x y : Fq2} (h : g2Curve.Nonsingular x y) (rest : Bytes) :
    ∃ g : Bool, ∀ sqrt : Fq2 → Option Fq2,
      deserializePublicKey sqrt (serializePublicKey (.some x y h) ++ rest) = readRoot x rest g (sqrt (y * y)) := by
  have he : y * y = x * x * x + g2CoeffB := (shortCurve_equation_iff x y).1 h.1
  have hser : ∃ f : SWFlags, f ≠ .infinity ∧
      serializePublicKey (.some x y h) = serializeWithFlags fq2Codec x f := by
    by_cases hg : fq2Codec.gt y (-y) = true
    · exact ⟨.positiveY, by decide, congrArg (serializeWithFlags fq2Codec x) (if_pos hg)⟩
    · exact ⟨.negativeY, by decide, congrArg (serializeWithFlags fq2Codec x) (if_neg hg)⟩
  obtain ⟨f, hf, e⟩ := hser
  refine ⟨f == .positiveY, fun sqrt => ?_⟩
  rw [e, he]
  unfold deserializePublicKey deserializeAffine
  rw [deserializeWithFlags_serialize fq2Codec_laws]
  simp only [Outcome.bind]
  rw [if_neg hf]
  unfold curvePointFromX readRoot
  cases sqrt (x * x * x + g2CoeffB) <;> rfl

/-- **C126.** What the earlier version means for public keys: one whose second coordinate is a multiple of `u` is
written but refused when read; every other key of the subgroup is read back. -/
theorem C126_public_key {x y : Fq2} (h : g2Curve.Nonsingular x y)
    (hr : FR_MODULUS • (WeierstrassCurve.Affine.Point.some x y h : G2Point) = 0) (rest : Bytes) :
    deserializePublicKey (fq2Sqrt false) (serializePublicKey (.some x y h) ++ rest) =
      if y.re = 0 then .err .invalidData else .ok (.some x y h, rest) := by
  obtain ⟨g, hg⟩ := deserialize_written h rest
  have hy0 : y ≠ 0 := order_y_ne_zero (b := g2CoeffB) h hr
  rw [hg]
  by_cases hre : y.re = 0
  · rw [if_pos hre]
    have him : y.im ≠ 0 := fun hi => hy0 (by ext; exacts [hre, hi])
    have hn : fq2Sqrt false (y * y) = none := by
      cases e : fq2Sqrt false (y * y) with
      | none => rfl
      | some y' =>
        exact absurd ⟨hre, him⟩ ((C126_earlier_iff y).1 ⟨y', e, fq2Sqrt_earlier_sound _ _ e⟩)
    exact congrArg (readRoot x rest g) hn
  · rw [if_neg hre]
    obtain ⟨y', e, hy'⟩ := (C126_earlier_iff y).2 fun hh => hre hh.1
    have hspec : RootSpec fun v => if v = y * y then some y' else fq2Sqrt true v := by
      refine ⟨fun v z hz => ?_, fun v hz => ?_⟩
      · by_cases hv : v = y * y
        · rw [if_pos hv] at hz
          cases hz
          rw [hy', hv]
        · rw [if_neg hv] at hz
          exact C126_root.sound _ _ hz
      · by_cases hv : v = y * y
        · rw [if_pos hv] at hz
          cases hz
        · rw [if_neg hv] at hz
          exact C126_root.complete _ hz
    have hrt := C66_public_key_roundtrip hspec (.some x y h) hr rest
    rw [hg, if_pos rfl] at hrt
    exact (congrArg (readRoot x rest g) e).trans hrt

/-! ## Examples -/

/-- The square of `u` is `-5`, which the earlier version does not find. -/
example : fq2Sqrt false (⟨0, 1⟩ * ⟨0, 1⟩) = none ∧ ∃ y, fq2Sqrt true (⟨0, 1⟩ * ⟨0, 1⟩) = some y ∧ y * y = ⟨0, 1⟩ * ⟨0, 1⟩ := by
  constructor
  · cases e : fq2Sqrt false (⟨0, 1⟩ * ⟨0, 1⟩) with
    | none => rfl
    | some y =>
      exact absurd ⟨rfl, one_ne_zero⟩ ((C126_earlier_iff ⟨0, 1⟩).1 ⟨y, e, fq2Sqrt_earlier_sound _ _ e⟩)
  · cases e : fq2Sqrt true (⟨0, 1⟩ * ⟨0, 1⟩) with
    | none => exact absurd rfl (C126_root.complete _ e ⟨0, 1⟩)
    | some y => exact ⟨y, rfl, C126_root.sound _ _ e⟩

/-- A square outside the base field: a root is found by both versions. -/
example (later : Bool) : ∃ y, fq2SqrtRun later (⟨3, 4⟩ * ⟨3, 4⟩) = .ok (some y) ∧ y * y = ⟨3, 4⟩ * ⟨3, 4⟩ := by
  rcases fq2SqrtRun_complex later (a := ⟨3, 4⟩ * ⟨3, 4⟩) (by rw [fq2_sq_im]; decide +kernel) with h | h
  · exact h
  · exact absurd rfl (h.2 _)

/-- The generator of G2 is written and read back by both versions. -/
example : deserializePublicKey (fq2Sqrt true) (serializePublicKey g2Generator ++ [1, 2]) = .ok (g2Generator, [1, 2]) :=
  C66_public_key_roundtrip C126_root g2Generator g2Generator_order [1, 2]

example : deserializePublicKey (fq2Sqrt false) (serializePublicKey g2Generator ++ [1, 2]) = .ok (g2Generator, [1, 2]) :=
  (C126_public_key (g2_nonsingular g2Gen_equation g2GenY_ne_zero) g2Generator_order [1, 2]).trans
    (if_neg (by decide +kernel))

end Verif
