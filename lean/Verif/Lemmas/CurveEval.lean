import Verif.Lemmas.Ecpp
import Verif.Lemmas.Fq2
import Verif.Lemmas.G1Order
import Verif.Model.Serialize

/-!
# Evaluating hash-to-curve

Checks, on numbers, of what one iteration of try-and-increment does with a digest, with certificates for
the square roots; used to run the model on test vectors.
-/

set_option exponentiation.threshold 1000
set_option maxRecDepth 100000

namespace Verif

open WeierstrassCurve

/-- A digest without a point: too large, or `r` is a root of five times `x ^ 3 + 1`. -/
def rejectCheck (D r : ℕ) : Bool :=
  let x := D % 2 ^ 377
  bif Nat.blt x FQ_MODULUS then
    Nat.beq (r * r % FQ_MODULUS) (5 * (x * x * x + 1) % FQ_MODULUS) &&
      !Nat.beq ((x * x * x + 1) % FQ_MODULUS) 0
  else true

/-- A digest with a point of ordinate `y`. -/
def acceptCheck (s D y : ℕ) : Bool :=
  let x := D % 2 ^ 377
  Nat.blt x FQ_MODULUS && Nat.blt 0 x && Nat.blt y FQ_MODULUS && Nat.blt 0 y &&
    Nat.beq (y * y % FQ_MODULUS) ((x * x * x + 1) % FQ_MODULUS) &&
    (bif D.testBit s then Nat.ble (FQ_MODULUS - y) y else Nat.ble y (FQ_MODULUS - y))

/-- `(X, Y)` are the affine coordinates of a triple. -/
def affineCheck (X Y : ℕ) (p : ℕ × ℕ × ℕ) : Bool :=
  Nat.blt X FQ_MODULUS && Nat.blt Y FQ_MODULUS && Nat.blt 0 Y && !Nat.beq (p.2.2 % FQ_MODULUS) 0 &&
    Nat.beq (X * (p.2.2 * p.2.2) % FQ_MODULUS) (p.1 % FQ_MODULUS) &&
    Nat.beq (Y * (p.2.2 * p.2.2 * p.2.2) % FQ_MODULUS) (p.2.1 % FQ_MODULUS)

/-- The bits of the cofactor below the top one, most significant first. -/
def g1CofactorBits : List Bool := ((List.range 124).map fun i => G1_COFACTOR.testBit (123 - i))

theorem g1CofactorBits_scalar : bitsScalar 1 g1CofactorBits = G1_COFACTOR := by decide +kernel

theorem fq_cast_mod {a b : ℕ} (h : a % FQ_MODULUS = b % FQ_MODULUS) : (a : Fq) = b :=
  (ZMod.natCast_eq_natCast_iff' _ _ _).mpr h

theorem fq_cast_mod_ne {a : ℕ} (h : a % FQ_MODULUS ≠ 0) : (a : Fq) ≠ 0 := by
  rw [Ne, ZMod.natCast_eq_zero_iff]
  exact fun hd => h (Nat.mod_eq_zero_of_dvd hd)

theorem fq_neg_cast_val {y : ℕ} (h0 : 0 < y) (hy : y < FQ_MODULUS) : (-(y : Fq)).val = FQ_MODULUS - y := by
  have hv : (y : Fq).val = y := ZMod.val_cast_of_lt hy
  have hne : (y : Fq) ≠ 0 := fun e => by rw [e, ZMod.val_zero] at hv; omega
  have : NeZero (y : Fq) := ⟨hne⟩
  rw [ZMod.val_neg_of_ne_zero, hv]

theorem rejectCheck_spec {s D r : ℕ} (h : rejectCheck D r = true) (P : AffinePoint Fq) :
    ¬ Decodes s D P := by
  unfold rejectCheck at h
  simp only [] at h
  generalize hx : D % 2 ^ 377 = x at h
  by_cases hlt : x < FQ_MODULUS
  · have hb : Nat.blt x FQ_MODULUS = true := Nat.blt_eq.mpr hlt
    rw [hb, cond_true, Bool.and_eq_true, Nat.beq_eq, Bool.not_eq_true'] at h
    have h1 : (r : Fq) * r = 5 * ((x : Fq) * x * x + 1) := by
      have := fq_cast_mod h.1
      push_cast at this
      exact this
    have h2 : (x : Fq) * x * x + 1 ≠ 0 := by
      have : (x * x * x + 1) % FQ_MODULUS ≠ 0 := fun e => by rw [e] at h; simp at h
      have := fq_cast_mod_ne this
      push_cast at this
      exact this
    have key : ∀ y : Fq, y * y ≠ (x : Fq) * x * x + 1 := by
      intro y hy
      have hy0 : y ≠ 0 := fun e => by rw [e, mul_zero] at hy; exact h2 hy.symm
      apply five_nonresidue ((r : Fq) * y⁻¹)
      rw [mul_mul_mul_comm, h1, ← hy, mul_assoc, mul_mul_mul_comm, mul_inv_cancel₀ hy0]
      ring
    cases P with
    | infinity =>
      rintro ⟨h0, -⟩
      rw [hx] at h0
      subst h0
      exact key 1 (by simp)
    | finite a b =>
      rintro ⟨-, -, ha, hb, -⟩
      rw [hx] at ha
      exact key b (by rw [hb, ha]; ring)
  · cases P with
    | infinity =>
      rintro ⟨h0, -⟩
      rw [hx] at h0
      exact hlt (by rw [h0]; decide +kernel)
    | finite a b =>
      rintro ⟨h0, -⟩
      rw [hx] at h0
      exact hlt h0

theorem acceptCheck_spec {s D y : ℕ} (h : acceptCheck s D y = true) :
    Decodes s D (.finite ((D % 2 ^ 377 : ℕ) : Fq) (y : Fq)) := by
  unfold acceptCheck at h
  simp only [] at h
  generalize hx : D % 2 ^ 377 = x at h
  simp only [Bool.and_eq_true, Nat.blt_eq, Nat.beq_eq] at h
  obtain ⟨⟨⟨⟨⟨h1, h2⟩, h3⟩, h4⟩, h5⟩, h6⟩ := h
  refine ⟨by rw [hx]; exact h1, fun h0 => by rw [hx] at h0; omega, by rw [hx], ?_, ?_⟩
  · have := fq_cast_mod h5
    push_cast at this
    rw [this]; ring
  · rw [fq_neg_cast_val h4 h3, ZMod.val_cast_of_lt h3]
    cases hb : D.testBit s with
    | true => rw [hb, cond_true, Nat.ble_eq] at h6; rw [if_pos rfl]; exact h6
    | false => rw [hb, cond_false, Nat.ble_eq] at h6; rw [if_neg (by simp)]; exact h6

theorem ecppCurve_g1 : ecppCurve ((0 : ℕ) : Fq) (1 : Fq) = g1Curve := by
  unfold ecppCurve g1Curve
  rw [Nat.cast_zero]

theorem jacMulN_on {W : WeierstrassCurve.Affine Fq} (hW : ecppCurve ((0 : ℕ) : Fq) (1 : Fq) = W)
    {x y X Y : ℕ} {Q : W.Point} (hq : IsPoint ((x : Fq), (y : Fq)) Q) (bits : List Bool)
    (hc : affineCheck X Y (jacMulN FQ_MODULUS 0 (x, y) bits (x, y, 1)) = true) :
    IsPoint ((X : Fq), (Y : Fq)) (bitsScalar 1 bits • Q) := by
  subst hW
  have hN : (FQ_MODULUS : Fq) = 0 := ZMod.natCast_self _
  unfold affineCheck at hc
  simp only [Bool.and_eq_true, Nat.blt_eq, Nat.beq_eq, Bool.not_eq_true'] at hc
  obtain ⟨⟨⟨⟨⟨h1, h2⟩, h3⟩, h4⟩, h5⟩, h6⟩ := hc
  have hz : (castTriple Fq (jacMulN FQ_MODULUS 0 (x, y) bits (x, y, 1))).2.2 ≠ 0 := by
    apply fq_cast_mod_ne
    intro e
    rw [e] at h4
    simp at h4
  have hspec := jacMulN_spec hN (by decide +kernel) (q := (x, y)) hq bits (x, y, 1) 1
    (by
      intro _
      rw [one_nsmul]
      simpa [jacAffine, castTriple] using hq) hz
  generalize jacMulN FQ_MODULUS 0 (x, y) bits (x, y, 1) = t at *
  obtain ⟨a, b, c⟩ := t
  simp only [castTriple] at hz hspec
  have e5 := fq_cast_mod h5
  have e6 := fq_cast_mod h6
  push_cast at e5 e6
  have : jacAffine ((a : Fq), (b : Fq), (c : Fq)) = ((X : Fq), (Y : Fq)) := by
    unfold jacAffine
    refine Prod.ext ?_ ?_
    · simp only
      rw [div_eq_iff (pow_ne_zero _ hz), ← e5]; ring
    · simp only
      rw [div_eq_iff (pow_ne_zero _ hz), ← e6]; ring
  rwa [this] at hspec

/-- What a compressed signature with these coordinates looks like. -/
def encodeXY (X Y : ℕ) : Bytes :=
  (leBytes 48 X).dropLast ++
    [(leBytes 48 X).getLastD 0 ||| (bif Nat.blt (FQ_MODULUS - Y) Y then 0x80 else 0)]

theorem serializeSignature_isPoint {X Y : ℕ} {P : G1Point} (hX : X < FQ_MODULUS) (hY : Y < FQ_MODULUS)
    (h0 : 0 < Y) (hP : IsPoint ((X : Fq), (Y : Fq)) P) : serializeSignature P = encodeXY X Y := by
  obtain ⟨h, rfl⟩ := hP
  change serializeWithFlags fqCodec (X : Fq) (if decide ((-(Y : Fq)).val < (Y : Fq).val) = true then .positiveY else .negativeY) = _
  rw [fq_neg_cast_val h0 hY, ZMod.val_cast_of_lt hY]
  unfold serializeWithFlags encodeXY fqCodec fqWrite
  simp only []
  rw [ZMod.val_cast_of_lt hX]
  by_cases hc : FQ_MODULUS - Y < Y
  · rw [if_pos (decide_eq_true hc), Nat.blt_eq.mpr hc]; rfl
  · have hb : Nat.blt (FQ_MODULUS - Y) Y = false := by
      rw [← Bool.not_eq_true, Nat.blt_eq]; exact hc
    rw [if_neg (by simpa using hc), hb]; rfl

section
variable [DecidableEq G1Point] {compat : Bool} {sqrt : Fq → Option Fq}

theorem processCandidate_reject (hs : SqrtSpec sqrt) {cand : Bytes} {r : ℕ} (hl : 48 ≤ cand.length)
    (h : rejectCheck (leValue (cand.take 48)) r = true) :
    processCandidate compat sqrt g1Scale cand = .ok none :=
  (processCandidate_none_iff hs cand).mpr ⟨hl, fun P hP => absurd hP (rejectCheck_spec h P)⟩

theorem processCandidate_accept (hs : SqrtSpec sqrt) {cand : Bytes} {y X Y : ℕ} (hl : 48 ≤ cand.length)
    (h : acceptCheck (signBit compat) (leValue (cand.take 48)) y = true)
    (hm : affineCheck X Y (jacMulN FQ_MODULUS 0 (leValue (cand.take 48) % 2 ^ 377, y) g1CofactorBits
      (leValue (cand.take 48) % 2 ^ 377, y, 1)) = true) :
    ∃ P, processCandidate compat sqrt g1Scale cand = .ok (some P) ∧
      serializeSignature P = encodeXY X Y := by
  have hd := acceptCheck_spec h
  generalize leValue (cand.take 48) % 2 ^ 377 = x at *
  have hns : g1Curve.Nonsingular (x : Fq) (y : Fq) := by
    rw [g1_nonsingular_iff, pow_two]
    exact hd.2.2.2.1
  have hp := jacMulN_on ecppCurve_g1 (Q := .some (x : Fq) (y : Fq) hns) ⟨hns, rfl⟩ g1CofactorBits hm
  rw [g1CofactorBits_scalar] at hp
  have hg : g1Scale (.finite (x : Fq) (y : Fq)) = G1_COFACTOR • Affine.Point.some (x : Fq) (y : Fq) hns := by
    simp only [g1Scale, dif_pos hns]
  rw [← hg] at hp
  refine ⟨_, (processCandidate_some_iff hs cand _).mpr ⟨hl, ?_, _, hd, rfl⟩, ?_⟩
  · obtain ⟨h', e⟩ := hp
    rw [e]
    exact Affine.Point.some_ne_zero _
  · unfold affineCheck at hm
    simp only [Bool.and_eq_true, Nat.blt_eq] at hm
    exact serializeSignature_isPoint hm.1.1.1.1.1 hm.1.1.1.1.2 hm.1.1.1.2 hp

end

end Verif
