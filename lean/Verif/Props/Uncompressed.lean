import Verif.Lemmas.Uncompressed
import Verif.Props.Serialize
import Verif.Props.Jacobian

/-!
# Uncompressed keys and signatures: C97

The format is restated with numbers: a coordinate is its 48 little-endian bytes, bits 383 and 382 of
the last coordinate are the flags.
-/

set_option exponentiation.threshold 800
set_option linter.unusedSectionVars false

namespace Verif

open WeierstrassCurve

/-- The 96 bytes of two numbers. -/
def bytes1 (x y : ℕ) : Bytes := leBytes 48 x ++ leBytes 48 y

/-- The 192 bytes of four numbers. -/
def bytes2 (a b c d : ℕ) : Bytes := bytes1 a b ++ bytes1 c d

theorem cusp_fq : arkInSubgroup (.finite (1 : Fq) 1) = false := by decide +kernel

theorem cusp_fq2 : arkInSubgroup (.finite (1 : Fq2) 1) = false := by decide +kernel

theorem fqUncompressed_eq (x y : Fq) (f : SWFlags) (rest : Bytes) :
    fqCodec.write x ++ (serializeWithFlags fqCodec y f ++ rest) =
      bytes1 x.val (y.val + 2 ^ 376 * f.mask.toNat) ++ rest := by
  rw [serializeWithFlags_fq, ← List.append_assoc]
  rfl

theorem fq2Uncompressed_eq (x y : Fq2) (f : SWFlags) (rest : Bytes) :
    fq2Codec.write x ++ (serializeWithFlags fq2Codec y f ++ rest) =
      bytes2 x.re.val x.im.val y.re.val (y.im.val + 2 ^ 376 * f.mask.toNat) ++ rest := by
  rw [serializeWithFlags_fq2, ← List.append_assoc]
  rfl

theorem mask_values : 2 ^ 376 * SWFlags.infinity.mask.toNat = 2 ^ 382 ∧
    2 ^ 376 * SWFlags.positiveY.mask.toNat = 2 ^ 383 ∧
    2 ^ 376 * SWFlags.negativeY.mask.toNat = 0 := by decide +kernel

/-- The curve `y² = x³ + b'` through a point, if it is no cusp. -/
theorem good_through {F : Type*} [Field F] [DecidableEq F] {b : F} (hb : GoodCurve b) {x y : F}
    (h : y ^ 2 ≠ x ^ 3) : GoodCurve (y ^ 2 - x ^ 3) ∧ (shortCurve (y ^ 2 - x ^ 3)).Nonsingular x y := by
  have hg : GoodCurve (y ^ 2 - x ^ 3) := ⟨hb.two, hb.three, sub_ne_zero.mpr h⟩
  exact ⟨hg, (shortCurve_nonsingular' hg x y).mpr (by ring)⟩

/-- What the check tests of coordinates which need not be on the curve: they are of the order `r` on
the curve `y² = x³ + b'` through them. -/
def OrderOnOwnCurve {F : Type*} [Field F] [DecidableEq F] (x y : F) : Prop :=
  y ^ 2 ≠ x ^ 3 ∧ ∃ h : (shortCurve (y ^ 2 - x ^ 3)).Nonsingular x y,
    FR_MODULUS • (.some x y h : (shortCurve (y ^ 2 - x ^ 3)).Point) = 0

theorem arkInSubgroup_own {F : Type*} [Field F] [DecidableEq F] {b : F} (hb : GoodCurve b)
    (hc : arkInSubgroup (.finite (1 : F) 1) = false) (x y : F) :
    arkInSubgroup (.finite x y) = true ↔ OrderOnOwnCurve x y := by
  unfold OrderOnOwnCurve
  by_cases h : y ^ 2 = x ^ 3
  · rw [arkInSubgroup_cusp hc h]
    simp [h]
  · obtain ⟨hg, hn⟩ := good_through hb h
    rw [arkInSubgroup_iff hg hn]
    exact ⟨fun h0 => ⟨h, hn, h0⟩, fun ⟨_, _, h0⟩ => h0⟩

/-- **C97.** Exactly which byte streams `Signature::deserialize_uncompressed` accepts, and what it
returns: nothing is said of the curve. -/
theorem C97_signature_iff (stream rest : Bytes) (k : JacRep Fq) :
    deserializeSignatureUncompressed stream = .ok (k, rest) ↔
      ∃ x y : Fq,
        (k = ⟨1, 1, 0⟩ ∧ stream = bytes1 x.val (y.val + 2 ^ 382) ++ rest) ∨
        (k = ⟨x, y, 1⟩ ∧ OrderOnOwnCurve x y ∧
          (stream = bytes1 x.val y.val ++ rest ∨ stream = bytes1 x.val (y.val + 2 ^ 383) ++ rest)) := by
  unfold deserializeSignatureUncompressed
  rw [Outcome.map_eq_ok_iff]
  obtain ⟨m1, m2, m3⟩ := mask_values
  constructor
  · rintro ⟨⟨p, r⟩, h, e⟩
    simp only [Prod.mk.injEq] at e
    obtain ⟨rfl, rfl⟩ := e
    obtain ⟨x, y, f, hs, rfl, hc⟩ := (deserializeUncompressed_iff fqCodec_laws _ _ _).mp h
    rw [fqUncompressed_eq] at hs
    refine ⟨x, y, ?_⟩
    cases f with
    | infinity => exact Or.inl ⟨rfl, by rw [hs, m1]⟩
    | positiveY =>
      exact Or.inr ⟨rfl, (arkInSubgroup_own g1_good cusp_fq _ _).mp hc, Or.inr (by rw [hs, m2])⟩
    | negativeY =>
      exact Or.inr ⟨rfl, (arkInSubgroup_own g1_good cusp_fq _ _).mp hc,
        Or.inl (by rw [hs, m3, add_zero])⟩
  · rintro ⟨x, y, ⟨rfl, rfl⟩ | ⟨rfl, ho, rfl | rfl⟩⟩
    · refine ⟨(.infinity, rest), (deserializeUncompressed_iff fqCodec_laws _ _ _).mpr
        ⟨x, y, .infinity, ?_, rfl, arkInSubgroup_infinity⟩, rfl⟩
      rw [fqUncompressed_eq, m1]
    · refine ⟨(.finite x y, rest), (deserializeUncompressed_iff fqCodec_laws _ _ _).mpr
        ⟨x, y, .negativeY, ?_, rfl, (arkInSubgroup_own g1_good cusp_fq _ _).mpr ho⟩, rfl⟩
      rw [fqUncompressed_eq, m3, add_zero]
    · refine ⟨(.finite x y, rest), (deserializeUncompressed_iff fqCodec_laws _ _ _).mpr
        ⟨x, y, .positiveY, ?_, rfl, (arkInSubgroup_own g1_good cusp_fq _ _).mpr ho⟩, rfl⟩
      rw [fqUncompressed_eq, m2]

/-- **C97.** The same for `PublicKey::deserialize_uncompressed`. -/
theorem C97_public_key_iff (stream rest : Bytes) (k : JacRep Fq2) :
    deserializePublicKeyUncompressed stream = .ok (k, rest) ↔
      ∃ x y : Fq2,
        (k = ⟨1, 1, 0⟩ ∧
          stream = bytes2 x.re.val x.im.val y.re.val (y.im.val + 2 ^ 382) ++ rest) ∨
        (k = ⟨x, y, 1⟩ ∧ OrderOnOwnCurve x y ∧
          (stream = bytes2 x.re.val x.im.val y.re.val y.im.val ++ rest ∨
           stream = bytes2 x.re.val x.im.val y.re.val (y.im.val + 2 ^ 383) ++ rest)) := by
  unfold deserializePublicKeyUncompressed
  rw [Outcome.map_eq_ok_iff]
  obtain ⟨m1, m2, m3⟩ := mask_values
  constructor
  · rintro ⟨⟨p, r⟩, h, e⟩
    simp only [Prod.mk.injEq] at e
    obtain ⟨rfl, rfl⟩ := e
    obtain ⟨x, y, f, hs, rfl, hc⟩ := (deserializeUncompressed_iff fq2Codec_laws _ _ _).mp h
    rw [fq2Uncompressed_eq] at hs
    refine ⟨x, y, ?_⟩
    cases f with
    | infinity => exact Or.inl ⟨rfl, by rw [hs, m1]⟩
    | positiveY =>
      exact Or.inr ⟨rfl, (arkInSubgroup_own g2_good cusp_fq2 _ _).mp hc, Or.inr (by rw [hs, m2])⟩
    | negativeY =>
      exact Or.inr ⟨rfl, (arkInSubgroup_own g2_good cusp_fq2 _ _).mp hc,
        Or.inl (by rw [hs, m3, add_zero])⟩
  · rintro ⟨x, y, ⟨rfl, rfl⟩ | ⟨rfl, ho, rfl | rfl⟩⟩
    · refine ⟨(.infinity, rest), (deserializeUncompressed_iff fq2Codec_laws _ _ _).mpr
        ⟨x, y, .infinity, ?_, rfl, arkInSubgroup_infinity⟩, rfl⟩
      rw [fq2Uncompressed_eq, m1]
    · refine ⟨(.finite x y, rest), (deserializeUncompressed_iff fq2Codec_laws _ _ _).mpr
        ⟨x, y, .negativeY, ?_, rfl, (arkInSubgroup_own g2_good cusp_fq2 _ _).mpr ho⟩, rfl⟩
      rw [fq2Uncompressed_eq, m3, add_zero]
    · refine ⟨(.finite x y, rest), (deserializeUncompressed_iff fq2Codec_laws _ _ _).mpr
        ⟨x, y, .positiveY, ?_, rfl, (arkInSubgroup_own g2_good cusp_fq2 _ _).mpr ho⟩, rfl⟩
      rw [fq2Uncompressed_eq, m2]

/-- On the curve, the check is membership in the subgroup. -/
theorem orderOnOwnCurve_on {F : Type*} [Field F] [DecidableEq F] {b : F} (hb : GoodCurve b)
    (hc : arkInSubgroup (.finite (1 : F) 1) = false) {x y : F}
    (h : (shortCurve b).Nonsingular x y) :
    OrderOnOwnCurve x y ↔ FR_MODULUS • (.some x y h : (shortCurve b).Point) = 0 := by
  rw [← arkInSubgroup_own hb hc, arkInSubgroup_iff hb h]

/-- **C97.** Keys and signatures of the subgroup round-trip, whatever follows them; what is read
denotes the element written. -/
theorem C97_roundtrip (pk : G2Point) (s : G1Point) (hpk : FR_MODULUS • pk = 0)
    (hs : FR_MODULUS • s = 0) (rest : Bytes) :
    (∃ k, deserializePublicKeyUncompressed (serializePublicKeyUncompressed pk ++ rest) =
      .ok (k, rest) ∧ g2Ops.pt k = pk ∧ k.Canonical) ∧
    ∃ k, deserializeSignatureUncompressed (serializeSignatureUncompressed s ++ rest) =
      .ok (k, rest) ∧ jacPoint (b := 1) (shortCurve_nonsingular' g1_good) k = s := by
  obtain ⟨m1, m2, m3⟩ := mask_values
  constructor
  · obtain ⟨hp, hcan, _⟩ := C81_into_projective pk
    refine ⟨intoProjective pk, (C97_public_key_iff _ _ _).mpr ?_, hp, hcan⟩
    cases pk with
    | zero =>
      refine ⟨0, 1, Or.inl ⟨rfl, ?_⟩⟩
      have e := fq2Uncompressed_eq 0 1 .infinity rest
      rw [m1] at e
      rw [← e, ← List.append_assoc]
      rfl
    | some x y h =>
      refine ⟨x, y, Or.inr ⟨rfl, (orderOnOwnCurve_on g2_good cusp_fq2 h).mpr hpk, Or.inl ?_⟩⟩
      have e := fq2Uncompressed_eq x y .negativeY rest
      rw [m3, add_zero] at e
      rw [← e, ← List.append_assoc]
      rfl
  · cases s with
    | zero =>
      refine ⟨⟨1, 1, 0⟩, (C97_signature_iff _ _ _).mpr ⟨0, 1, Or.inl ⟨rfl, ?_⟩⟩,
        jacPoint_zero _ rfl⟩
      have e := fqUncompressed_eq 0 1 .infinity rest
      rw [m1] at e
      rw [← e, ← List.append_assoc]
      rfl
    | some x y h =>
      have hk := isPoint_jacPoint (shortCurve_nonsingular' g1_good) (k := ⟨x, y, 1⟩) one_ne_zero
        (P := .some x y h) (by simp only [one_pow, div_one]; exact ⟨h, rfl⟩)
      refine ⟨⟨x, y, 1⟩, (C97_signature_iff _ _ _).mpr ⟨x, y, Or.inr ⟨rfl,
        (orderOnOwnCurve_on g1_good cusp_fq h).mpr hs, Or.inl ?_⟩⟩, hk.1⟩
      have e := fqUncompressed_eq x y .negativeY rest
      rw [m3, add_zero] at e
      rw [← e, ← List.append_assoc]
      rfl

/-- **C97.** On the curve, points outside the subgroup are refused. -/
theorem C97_outside (pk : G2Point) (s : G1Point) (rest : Bytes) :
    (FR_MODULUS • pk ≠ 0 →
      deserializePublicKeyUncompressed (serializePublicKeyUncompressed pk ++ rest) =
        .err .invalidData) ∧
    (FR_MODULUS • s ≠ 0 →
      deserializeSignatureUncompressed (serializeSignatureUncompressed s ++ rest) =
        .err .invalidData) := by
  constructor
  · intro h
    cases pk with
    | zero => exact absurd (nsmul_zero _) h
    | some x y hn =>
      have hc : ¬ arkInSubgroup (.finite x y) = true := fun hc =>
        h ((arkInSubgroup_iff g2_good hn).mp hc)
      have e : serializePublicKeyUncompressed (.some x y hn) ++ rest =
          fq2Codec.write x ++ (serializeWithFlags fq2Codec y .negativeY ++ rest) := by
        rw [← List.append_assoc]; rfl
      unfold deserializePublicKeyUncompressed deserializeAffineUncompressed
      rw [e, (deserializeCoord_iff fq2Codec_laws _ x _).mpr rfl]
      simp only [Outcome.bind]
      rw [deserializeWithFlags_serialize fq2Codec_laws]
      simp only [reduceCtorEq, if_false, hc]
      rfl
  · intro h
    cases s with
    | zero => exact absurd (nsmul_zero _) h
    | some x y hn =>
      have hc : ¬ arkInSubgroup (.finite x y) = true := fun hc =>
        h ((arkInSubgroup_iff g1_good hn).mp hc)
      have e : serializeSignatureUncompressed (.some x y hn) ++ rest =
          fqCodec.write x ++ (serializeWithFlags fqCodec y .negativeY ++ rest) := by
        rw [← List.append_assoc]; rfl
      unfold deserializeSignatureUncompressed deserializeAffineUncompressed
      rw [e, (deserializeCoord_iff fqCodec_laws _ x _).mpr rfl]
      simp only [Outcome.bind]
      rw [deserializeWithFlags_serialize fqCodec_laws]
      simp only [reduceCtorEq, if_false, hc]
      rfl

/-- The image of a point of the subgroup under `(x, y) ↦ (u² x, u³ y)` passes the check. -/
theorem orderOnOwnCurve_scale {F : Type*} [Field F] [DecidableEq F] {b : F} (hb : GoodCurve b)
    (hc : arkInSubgroup (.finite (1 : F) 1) = false) {x y u : F} (hu : u ≠ 0)
    (h : (shortCurve b).Nonsingular x y)
    (hr : FR_MODULUS • (.some x y h : (shortCurve b).Point) = 0) :
    OrderOnOwnCurve (u ^ 2 * x) (u ^ 3 * y) := by
  rw [← arkInSubgroup_own hb hc, arkInSubgroup_scale hu, arkInSubgroup_iff hb h]
  exact hr

/-- **C97**, violation: coordinates which are not on the curve are accepted as a signature.  From
every finite signature `(x, y)` of the subgroup and every `u` with `u ^ 6 ≠ 1` one gets such
coordinates, and each is accepted with two flag bytes. -/
theorem C97_violation_signature (x y : Fq) (h : g1Curve.Nonsingular x y)
    (hr : FR_MODULUS • (.some x y h : G1Point) = 0) (u : Fq) (h0 : u ≠ 0) (hu : u ^ 6 ≠ 1)
    (rest : Bytes) :
    ¬ g1Curve.Equation (u ^ 2 * x) (u ^ 3 * y) ∧
    ∀ s ∈ [0, 2 ^ 383], deserializeSignatureUncompressed
      (bytes1 (u ^ 2 * x).val ((u ^ 3 * y).val + s) ++ rest) =
        .ok (⟨u ^ 2 * x, u ^ 3 * y, 1⟩, rest) := by
  refine ⟨?_, ?_⟩
  · intro he
    have he' := (shortCurve_equation_iff (b := (1 : Fq)) _ _).mp he
    have hx := (shortCurve_nonsingular g1_good x y).mp h
    apply hu
    linear_combination he' - u ^ 6 * hx
  · intro s hs
    have ho := orderOnOwnCurve_scale g1_good cusp_fq h0 h hr
    rw [C97_signature_iff]
    refine ⟨_, _, Or.inr ⟨rfl, ho, ?_⟩⟩
    simp only [List.mem_cons, List.not_mem_nil, or_false] at hs
    rcases hs with rfl | rfl
    · exact Or.inl rfl
    · exact Or.inr rfl

/-- **C97**, violation: the same for public keys. -/
theorem C97_violation_public_key (x y : Fq2) (h : g2Curve.Nonsingular x y)
    (hr : FR_MODULUS • (.some x y h : G2Point) = 0) (u : Fq2) (h0 : u ≠ 0) (hu : u ^ 6 ≠ 1)
    (rest : Bytes) :
    ¬ g2Curve.Equation (u ^ 2 * x) (u ^ 3 * y) ∧
    ∀ s ∈ [0, 2 ^ 383], deserializePublicKeyUncompressed
      (bytes2 (u ^ 2 * x).re.val (u ^ 2 * x).im.val (u ^ 3 * y).re.val ((u ^ 3 * y).im.val + s) ++
        rest) = .ok (⟨u ^ 2 * x, u ^ 3 * y, 1⟩, rest) := by
  refine ⟨?_, ?_⟩
  · intro he
    have he' := (shortCurve_equation_iff (b := g2CoeffB) _ _).mp he
    have hx := (shortCurve_nonsingular g2_good x y).mp h
    apply hu
    have hb : g2CoeffB * (u ^ 6 - 1) = 0 := by linear_combination he' - u ^ 6 * hx
    exact sub_eq_zero.mp ((mul_eq_zero.mp hb).resolve_left g2_good.b)
  · intro s hs
    have ho := orderOnOwnCurve_scale g2_good cusp_fq2 h0 h hr
    rw [C97_public_key_iff]
    refine ⟨_, _, Or.inr ⟨rfl, ho, ?_⟩⟩
    simp only [List.mem_cons, List.not_mem_nil, or_false] at hs
    rcases hs with rfl | rfl
    · exact Or.inl rfl
    · exact Or.inr rfl

/-- **C97.** Short streams are refused, and no stream makes the functions panic. -/
theorem C97_malformed (stream : Bytes) :
    (stream.length < 192 → ∃ e, deserializePublicKeyUncompressed stream = .err e) ∧
    (stream.length < 96 → ∃ e, deserializeSignatureUncompressed stream = .err e) ∧
    deserializePublicKeyUncompressed stream ≠ .panic ∧
    deserializeSignatureUncompressed stream ≠ .panic := by
  have coord : ∀ {F : Type} [Field F] [DecidableEq F] (C : CoordCodec F) (s : Bytes),
      deserializeCoord C s ≠ .panic := by
    intro F _ _ C s
    unfold deserializeCoord
    split
    · simp
    · split <;> simp
  have np2 : deserializePublicKeyUncompressed stream ≠ .panic := by
    unfold deserializePublicKeyUncompressed deserializeAffineUncompressed
    cases hx : deserializeCoord fq2Codec stream with
    | err e => simp [Outcome.bind, Outcome.map]
    | panic => exact absurd hx (coord _ _)
    | ok rx =>
      cases hy : deserializeWithFlags fq2Codec rx.2 with
      | err e => simp [Outcome.bind, Outcome.map, hy]
      | panic => exact absurd hy (deserializeWithFlags_no_panic fq2Codec_laws _)
      | ok ry =>
        simp only [Outcome.bind, hy]
        generalize (if ry.1.2 = SWFlags.infinity then AffinePoint.infinity
          else AffinePoint.finite rx.1 ry.1.1) = p
        by_cases hs : arkInSubgroup p = true
        · rw [if_pos hs]; simp [Outcome.map]
        · rw [if_neg hs]; simp [Outcome.map]
  have np1 : deserializeSignatureUncompressed stream ≠ .panic := by
    unfold deserializeSignatureUncompressed deserializeAffineUncompressed
    cases hx : deserializeCoord fqCodec stream with
    | err e => simp [Outcome.bind, Outcome.map]
    | panic => exact absurd hx (coord _ _)
    | ok rx =>
      cases hy : deserializeWithFlags fqCodec rx.2 with
      | err e => simp [Outcome.bind, Outcome.map, hy]
      | panic => exact absurd hy (deserializeWithFlags_no_panic fqCodec_laws _)
      | ok ry =>
        simp only [Outcome.bind, hy]
        generalize (if ry.1.2 = SWFlags.infinity then AffinePoint.infinity
          else AffinePoint.finite rx.1 ry.1.1) = p
        by_cases hs : arkInSubgroup p = true
        · rw [if_pos hs]; simp [Outcome.map]
        · rw [if_neg hs]; simp [Outcome.map]
  refine ⟨fun hl => ?_, fun hl => ?_, np2, np1⟩
  · cases hd : deserializePublicKeyUncompressed stream with
    | err e => exact ⟨e, rfl⟩
    | panic => exact absurd hd np2
    | ok r =>
      exfalso
      obtain ⟨x, y, ⟨_, e⟩ | ⟨_, _, e | e⟩⟩ := (C97_public_key_iff stream r.2 r.1).mp hd <;>
        · rw [e] at hl
          simp only [bytes2, bytes1, List.length_append, leBytes_length] at hl
          omega
  · cases hd : deserializeSignatureUncompressed stream with
    | err e => exact ⟨e, rfl⟩
    | panic => exact absurd hd np1
    | ok r =>
      exfalso
      obtain ⟨x, y, ⟨_, e⟩ | ⟨_, _, e | e⟩⟩ := (C97_signature_iff stream r.2 r.1).mp hd <;>
        · rw [e] at hl
          simp only [bytes1, List.length_append, leBytes_length] at hl
          omega

/-! ## Cases -/

/-- The generator of G2 and a signature round-trip. -/
example : ∃ k, deserializePublicKeyUncompressed (serializePublicKeyUncompressed g2Generator ++ [7]) =
    .ok (k, [7]) ∧ g2Ops.pt k = g2Generator ∧ k.Canonical :=
  (C97_roundtrip g2Generator (G1_COFACTOR • onePoint) g2Generator_order g1Sub_order [7]).1

/-- `(1, √2)` is on the curve and refused. -/
example : deserializeSignatureUncompressed (serializeSignatureUncompressed onePoint ++ []) =
    .err .invalidData :=
  (C97_outside 0 onePoint []).2 onePoint_outside

theorem two_pow_six : (2 : Fq) ≠ 0 ∧ (2 : Fq) ^ 6 ≠ 1 ∧ (2 : Fq2) ≠ 0 ∧ (2 : Fq2) ^ 6 ≠ 1 := by
  decide +kernel

/-- Four times and eight times the coordinates of a signature: not on the curve, and accepted. -/
example : ∃ x y : Fq, ¬ g1Curve.Equation x y ∧
    deserializeSignatureUncompressed (bytes1 x.val y.val) = .ok (⟨x, y, 1⟩, []) := by
  have h0 : G1_COFACTOR • onePoint ≠ 0 := cofactor_onePoint_ne.1
  have hr := g1Sub_order
  generalize G1_COFACTOR • onePoint = s at h0 hr
  cases s with
  | zero => exact absurd rfl h0
  | some x y h =>
    have hv := C97_violation_signature x y h hr 2 two_pow_six.1 two_pow_six.2.1 []
    have ha := hv.2 0 (by simp)
    rw [List.append_nil, add_zero] at ha
    exact ⟨_, _, hv.1, ha⟩

/-- The same with the generator of G2. -/
example : ∃ x y : Fq2, ¬ g2Curve.Equation x y ∧
    deserializePublicKeyUncompressed (bytes2 x.re.val x.im.val y.re.val y.im.val) =
      .ok (⟨x, y, 1⟩, []) := by
  have hv := C97_violation_public_key g2GenX g2GenY (g2_nonsingular g2Gen_equation g2GenY_ne_zero) g2Generator_order 2
    two_pow_six.2.2.1 two_pow_six.2.2.2 []
  have ha := hv.2 0 (by simp)
  rw [List.append_nil, add_zero] at ha
  exact ⟨_, _, hv.1, ha⟩

end Verif
