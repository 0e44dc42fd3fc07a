import Verif.Lemmas.EdPrime
import Verif.Lemmas.EdwardsOrder
import Verif.Lemmas.PointCount
import Verif.Lemmas.G1Order

/-! The Edwards curve of the CRH has exactly `8 * ED_ORDER` points (helper; models nothing in /repo). -/

set_option exponentiation.threshold 1000
set_option maxRecDepth 20000

namespace Verif

open WeierstrassCurve Finset

section
variable {F : Type*} [Field F] [Fintype F] [DecidableEq F]

/-- The number of points of `y ^ 2 = f x` without singular points, by its character sum. -/
theorem card_points_char (hF : ringChar F ≠ 2) {W : WeierstrassCurve.Affine F} {f : F → F}
    (hW : ∀ x y, W.Nonsingular x y ↔ y ^ 2 = f x) :
    Finite W.Point ∧ (Nat.card W.Point : ℤ) = Fintype.card F + 1 + ∑ x : F, quadraticChar F (f x) := by
  classical
  let S := univ.filter fun p : F × F => p.2 ^ 2 = f p.1
  let e : W.Point ≃ Option S :=
    { toFun := fun P => match P with
        | .zero => none
        | .some x y h => some ⟨(x, y), mem_filter.mpr ⟨mem_univ _, (hW x y).mp h⟩⟩
      invFun := fun o => match o with
        | none => .zero
        | some p => .some p.1.1 p.1.2 ((hW _ _).mpr (mem_filter.mp p.2).2)
      left_inv := fun P => by cases P <;> rfl
      right_inv := fun o => by rcases o with _ | ⟨⟨x, y⟩, h⟩ <;> rfl }
  refine ⟨Finite.of_equiv _ e.symm, ?_⟩
  rw [Nat.card_congr e, Nat.card_eq_fintype_card, Fintype.card_option, Fintype.card_coe]
  have h1 : S.card = ∑ x : F, (univ.filter fun y : F => y ^ 2 = f x).card := by
    rw [card_filter, Fintype.sum_prod_type]
    exact sum_congr rfl fun x _ => (card_filter _ _).symm
  have h2 : ∀ x : F, ((univ.filter fun y : F => y ^ 2 = f x).card : ℤ) = quadraticChar F (f x) + 1 := by
    intro x
    rw [← quadraticChar_card_sqrts hF]
    congr 2
    ext y
    simp
  rw [h1]
  push_cast
  rw [sum_congr rfl fun x _ => h2 x, sum_add_distrib, sum_const, card_univ, nsmul_eq_mul, mul_one]
  ring

/-- A curve and its quadratic twist have `2 q + 2` points together. -/
theorem card_twist (hF : ringChar F ≠ 2) {W V : WeierstrassCurve.Affine F} {f g : F → F} {c e : F}
    (hW : ∀ x y, W.Nonsingular x y ↔ y ^ 2 = f x) (hV : ∀ x y, V.Nonsingular x y ↔ y ^ 2 = g x)
    (hc : ∀ r : F, r * r ≠ c) (hg : ∀ x, g (c * x + e) = c ^ 3 * f x) {q : ℕ}
    (hq : Fintype.card F = q) : Nat.card W.Point + Nat.card V.Point = 2 * q + 2 := by
  subst hq
  have h1 := (card_points_char hF hW).2
  have h2 := (card_points_char hF hV).2
  have hc0 : c ≠ 0 := fun h => hc 0 (by rw [h, mul_zero])
  have hchi : quadraticChar F c = -1 := by
    rw [quadraticChar_neg_one_iff_not_isSquare]
    rintro ⟨r, hr⟩
    exact hc r hr.symm
  have h3 : ∑ x : F, quadraticChar F (g x) = -∑ x : F, quadraticChar F (f x) := by
    rw [← sum_neg_distrib]
    refine (Fintype.sum_equiv ((Equiv.mulLeft₀ c hc0).trans (Equiv.addRight e)) _ _ fun x => ?_).symm
    simp only [Equiv.trans_apply, Equiv.mulLeft₀_apply, Equiv.coe_addRight]
    rw [hg, map_mul, map_pow, hchi]
    ring
  have h4 : ((Nat.card W.Point + Nat.card V.Point : ℕ) : ℤ) = ((2 * Fintype.card F + 2 : ℕ) : ℤ) := by
    push_cast
    rw [h1, h2, h3]
    ring
  exact_mod_cast h4

end

theorem ed_nonsingular_iff (u v : Fq) :
    edCurve.Nonsingular u v ↔ v ^ 2 = u ^ 3 + 2 * (ED_D - 1) * u ^ 2 + (ED_D + 1) ^ 2 * u := by
  have hd : edCurve.Δ ≠ 0 := by
    simp only [WeierstrassCurve.Δ, WeierstrassCurve.b₂, WeierstrassCurve.b₄, WeierstrassCurve.b₆,
      WeierstrassCurve.b₈, edCurve]
    decide +kernel
  rw [← Affine.equation_iff_nonsingular_of_Δ_ne_zero hd, Affine.equation_iff]
  simp only [edCurve]
  constructor <;> intro h <;> linear_combination h

/-- The coefficients of the twist of the Edwards curve by 5, in short form. -/
def edTwistA : ℕ := 86221475337656364670217577898297844512131170918304886846628087555573489449446940924989629379857786708093791905659

/-- See `edTwistA`. -/
def edTwistB : ℕ := 249084262086562831269517447261749328590601160430658562001370030716101191742846718227747818208478045793060333871726

/-- See `edTwistA`. -/
def edTwistShift : Fq := 86221475337656364670217577898297844512131170918304886846628087555573489449446940924989629379857786708146774085199

theorem edTwist_nonsingular_iff (x y : Fq) : (ecppCurve (edTwistA : Fq) (edTwistB : Fq)).Nonsingular x y ↔
    y ^ 2 = x ^ 3 + edTwistA * x + edTwistB := by
  have hd : (ecppCurve (edTwistA : Fq) (edTwistB : Fq)).Δ ≠ 0 := by
    simp only [WeierstrassCurve.Δ, WeierstrassCurve.b₂, WeierstrassCurve.b₄, WeierstrassCurve.b₆,
      WeierstrassCurve.b₈, ecppCurve]
    decide +kernel
  rw [← Affine.equation_iff_nonsingular_of_Δ_ne_zero hd, Affine.equation_iff]
  simp only [ecppCurve]
  constructor <;> intro h <;> linear_combination h

theorem edTwist_poly (x : Fq) :
    (5 * x + edTwistShift) ^ 3 + edTwistA * (5 * x + edTwistShift) + edTwistB =
      5 ^ 3 * (x ^ 3 + 2 * (ED_D - 1) * x ^ 2 + (ED_D + 1) ^ 2 * x) := by
  have h2 : 3 * 5 ^ 2 * edTwistShift = 5 ^ 3 * (2 * (ED_D - 1)) := by decide +kernel
  have h1 : 3 * 5 * edTwistShift ^ 2 + edTwistA * 5 = 5 ^ 3 * (ED_D + 1) ^ 2 := by decide +kernel
  have h0 : edTwistShift ^ 3 + edTwistA * edTwistShift + edTwistB = 0 := by decide +kernel
  linear_combination x ^ 2 * h2 + x * h1 + h0

instance : Finite EdPoint := (card_points_char fq_ringChar ed_nonsingular_iff).1

theorem ed_card_twist : Nat.card EdPoint +
    Nat.card (ecppCurve (edTwistA : Fq) (edTwistB : Fq)).Point = 2 * FQ_MODULUS + 2 := by
  exact card_twist fq_ringChar ed_nonsingular_iff edTwist_nonsingular_iff five_nonresidue edTwist_poly
    (ZMod.card FQ_MODULUS)

/-- A point of order 8. -/
def edT8XY : Fq × Fq :=
  (100991588393718939149904315173603819933223076299279208566257657256707000613160401181369366653313070293126416608323,
   236312439099835862157160115768345320665375269643774937108849777754330688829182875965614048839985124848253336127497)

theorem edT8_nonsingular : edCurve.Nonsingular edT8XY.1 edT8XY.2 :=
  (ed_nonsingular_iff _ _).mpr (by decide +kernel)

theorem ed_eight_dvd : 8 ∣ Nat.card EdPoint := by
  let T : EdPoint := .some edT8XY.1 edT8XY.2 edT8_nonsingular
  have hT : IsPoint edT8XY T := ⟨edT8_nonsingular, rfl⟩
  have hc : edMulCert edT8XY [(112446811821625289654405800953242398174276849452898489538391177033939755174120589829102739950361839969185799651271, none),
      (174267096667480144768090277910316961723909626339656905173723231651479977762430340396435915493187998209469202970821, none)] edT8XY 1 = some ((0, 0), 4) := by decide +kernel
  obtain ⟨h1, e1⟩ := edMulCert_spec hT _ edT8XY _ 1 4 (by rw [one_nsmul]; exact hT) hc
  have h4 : 4 • T ≠ 0 := by rw [e1]; exact Affine.Point.some_ne_zero _
  have h8 : 8 • T = 0 := by
    rw [show (8 : ℕ) = 4 + 4 from rfl, add_nsmul, e1]
    apply Affine.Point.add_of_Y_eq rfl
    simp [Affine.negY, edCurve]
  have ho : addOrderOf T = 2 ^ (2 + 1) := by
    have := Fact.mk Nat.prime_two
    exact addOrderOf_eq_prime_pow h4 h8
  have : addOrderOf T ∣ Nat.card EdPoint := addOrderOf_dvd_natCard T
  rw [ho] at this
  exact this

theorem edBase_addOrderOf : addOrderOf edBase = ED_ORDER := by
  have := Fact.mk ed_order_prime
  exact addOrderOf_eq_prime edBase_order (Affine.Point.some_ne_zero _)

theorem card_nsmul_ne {G : Type*} [AddGroup G] {n : ℕ} (h : Nat.card G = n) (P : G)
    (hP : n • P ≠ 0) : False := by
  subst h
  exact hP card_nsmul_eq_zero'

/-- A point of the twist which `2 q + 2 - 16 s` does not annihilate. -/
theorem edTwist_point (h : Nat.card (ecppCurve (edTwistA : Fq) (edTwistB : Fq)).Point =
    2 * FQ_MODULUS + 2 - 16 * ED_ORDER) : False := by
  have hns : (ecppCurve (edTwistA : Fq) (edTwistB : Fq)).Nonsingular (((2 : ℕ) : Fq))
      ((21278474962731798686593923916202081168561813535829544742388125027398205401105355491725648748159376121392400081309 : ℕ) : Fq) :=
    (edTwist_nonsingular_iff _ _).mpr (by decide +kernel)
  have hQ : IsPoint ((((2, 21278474962731798686593923916202081168561813535829544742388125027398205401105355491725648748159376121392400081309) : ℕ × ℕ).1 : Fq), (((2, 21278474962731798686593923916202081168561813535829544742388125027398205401105355491725648748159376121392400081309) : ℕ × ℕ).2 : Fq))
      (Affine.Point.some _ _ hns : (ecppCurve (edTwistA : Fq) (edTwistB : Fq)).Point) := ⟨hns, rfl⟩
  have hN : ((FQ_MODULUS : ℕ) : Fq) = 0 := ZMod.natCast_self _
  have hcert : (jacMulN FQ_MODULUS edTwistA (2, 21278474962731798686593923916202081168561813535829544742388125027398205401105355491725648748159376121392400081309)
      (scalarBits (2 * FQ_MODULUS + 2 - 16 * ED_ORDER)) (2, 21278474962731798686593923916202081168561813535829544742388125027398205401105355491725648748159376121392400081309, 1)).2.2 % FQ_MODULUS ≠ 0 := by
    decide +kernel
  have hs : bitsScalar 1 (scalarBits (2 * FQ_MODULUS + 2 - 16 * ED_ORDER)) =
      2 * FQ_MODULUS + 2 - 16 * ED_ORDER := by decide +kernel
  obtain ⟨hns', e⟩ := jacMulN_spec hN (by decide +kernel) hQ
    (scalarBits (2 * FQ_MODULUS + 2 - 16 * ED_ORDER)) (2, 21278474962731798686593923916202081168561813535829544742388125027398205401105355491725648748159376121392400081309, 1) 1 (by
      intro _
      rw [one_nsmul]
      simpa [castTriple, jacAffine] using hQ) (by
      intro hz
      exact hcert (Nat.mod_eq_zero_of_dvd ((ZMod.natCast_eq_zero_iff _ _).mp hz)))
  rw [hs] at e
  refine card_nsmul_ne h (Affine.Point.some _ _ hns) ?_
  rw [e]
  exact Affine.Point.some_ne_zero _

/-- The number of points of the Edwards curve. -/
theorem ed_card : Nat.card EdPoint = 8 * ED_ORDER := by
  have h1 : ED_ORDER ∣ Nat.card EdPoint := by
    rw [← edBase_addOrderOf]; exact addOrderOf_dvd_natCard _
  have hco : Nat.Coprime 8 ED_ORDER := by decide +kernel
  obtain ⟨k, hk⟩ := hco.mul_dvd_of_dvd_of_dvd ed_eight_dvd h1
  have h2 := ed_card_twist
  have h3 : 0 < Nat.card (ecppCurve (edTwistA : Fq) (edTwistB : Fq)).Point := by
    have := (card_points_char fq_ringChar edTwist_nonsingular_iff).1
    exact Nat.card_pos
  have h4 : 0 < Nat.card EdPoint := Nat.card_pos
  have h5 : 2 * FQ_MODULUS + 2 < 3 * (8 * ED_ORDER) := by decide +kernel
  have hk3 : k < 3 := by
    by_contra hc
    have : 3 * (8 * ED_ORDER) ≤ 8 * ED_ORDER * k := by
      rw [mul_comm (8 * ED_ORDER)]
      exact Nat.mul_le_mul_right _ (by omega)
    omega
  have hk0 : k ≠ 0 := by
    rintro rfl
    rw [mul_zero] at hk
    omega
  have : k ≠ 2 := by
    rintro rfl
    refine edTwist_point ?_
    omega
  have : k = 1 := by omega
  rw [hk, this, mul_one]

end Verif
