import Verif.Model.ScalarLoop
import Verif.Props.Montgomery
import Verif.Props.Jacobian
import Verif.Lemmas.G1Order

/-!
# C131: scalar multiplication

Double and add over the bits of the limbs computes the multiple, for all points, in any representation, and all limbs.
-/

namespace Verif

open WeierstrassCurve

/-- Value of bits, most significant first. -/
def bitsValueFrom (v : ℕ) (bs : List Bool) : ℕ := bs.foldl (fun v b => 2 * v + b.toNat) v

theorem bitsValueFrom_dropWhile (bs : List Bool) :
    bitsValueFrom 0 (bs.dropWhile fun b => !b) = bitsValueFrom 0 bs := by
  induction bs with
  | nil => rfl
  | cons b bs ih =>
    cases b
    · exact ih
    · rfl

theorem limb_foldr (w l v : ℕ) :
    ((List.range w).map l.testBit).foldr (fun b v => 2 * v + b.toNat) v = l % 2 ^ w + 2 ^ w * v := by
  induction w generalizing l with
  | zero => simp [Nat.mod_one]
  | succ w ih =>
    have h : (List.range (w + 1)).map l.testBit = l.testBit 0 :: (List.range w).map (l / 2).testBit := by
      rw [List.range_succ_eq_map, List.map_cons, List.map_map]
      refine congrArg _ (List.map_congr_left fun i _ => ?_)
      exact Nat.testBit_succ l i
    rw [h, List.foldr_cons, ih, pow_succ', Nat.mod_mul, Nat.testBit_zero]
    have hb : (decide (l % 2 = 1)).toNat = l % 2 := by
      rcases Nat.mod_two_eq_zero_or_one l with h | h <;> simp [h]
    rw [hb]
    ring

theorem limbBits_value (w : ℕ) (limbs : List ℕ) (hl : ∀ l ∈ limbs, l < 2 ^ w) :
    (limbBits w limbs).foldr (fun b v => 2 * v + b.toNat) 0 = Nat.ofDigits (2 ^ w) limbs := by
  induction limbs with
  | nil => rfl
  | cons l ls ih =>
    have h := ih fun x hx => hl x (List.mem_cons_of_mem _ hx)
    unfold limbBits at h ⊢
    rw [List.flatMap_cons, List.foldr_append, h, limb_foldr, Nat.ofDigits_cons,
      Nat.mod_eq_of_lt (hl l List.mem_cons_self)]

theorem bitsWithoutLeadingZeros_value (w : ℕ) (limbs : List ℕ) (hl : ∀ l ∈ limbs, l < 2 ^ w) :
    bitsValueFrom 0 (bitsWithoutLeadingZeros w limbs) = Nat.ofDigits (2 ^ w) limbs := by
  unfold bitsWithoutLeadingZeros
  rw [bitsValueFrom_dropWhile, bitsValueFrom, List.foldl_reverse]
  exact limbBits_value w limbs hl

section
variable {F : Type*} [Field F] [DecidableEq F] {W : WeierstrassCurve.Affine F} {b : F}
  (hW : ∀ x y, W.Nonsingular x y ↔ y ^ 2 = x ^ 3 + b)

theorem arkMulLoop_spec (hS : Short W) (h2 : (2 : F) ≠ 0) {base : JacRep F} (hb : base.On b) (bs : List Bool)
    (r : JacRep F) (hr : r.On b) (v : ℕ) (hv : jacPoint hW r = v • jacPoint hW base) :
    jacPoint hW (arkMulLoop base bs r) = bitsValueFrom v bs • jacPoint hW base ∧ (arkMulLoop base bs r).On b := by
  induction bs generalizing r v with
  | nil => exact ⟨hv, hr⟩
  | cons c bs ih =>
    obtain ⟨d1, d2⟩ := jacPoint_double hW hS h2 hr
    rw [hv, ← two_nsmul, smul_smul] at d1
    cases c
    · exact ih _ d2 (2 * v) d1
    · obtain ⟨a1, a2⟩ := jacPoint_add hW hS h2 d2 hb
      refine ih _ a2 (2 * v + 1) ?_
      rw [add_smul, one_smul, ← d1]
      exact a1

/-- **C131.** On a curve `y² = x³ + b` in odd characteristic, for every representation of a point and all limbs, the
result of `mul` denotes the multiple by the number that the limbs stand for, and is on the curve. -/
theorem C131_mul (hS : Short W) (h2 : (2 : F) ≠ 0) {base : JacRep F} (hb : base.On b) (w : ℕ) (limbs : List ℕ)
    (hl : ∀ l ∈ limbs, l < 2 ^ w) :
    jacPoint hW (arkMul w base limbs) = Nat.ofDigits (2 ^ w) limbs • jacPoint hW base ∧
      (arkMul w base limbs).On b := by
  have h := arkMulLoop_spec hW hS h2 hb (bitsWithoutLeadingZeros w limbs) arkZero (Or.inl rfl) 0
    (by rw [zero_smul]; exact jacPoint_zero hW rfl)
  rwa [bitsWithoutLeadingZeros_value w limbs hl] at h

/-- **C131.** `base.mul(k.into_repr())` from the Montgomery form of the exponent is the multiple by its canonical
representative. -/
theorem C131_mul_form (hS : Short W) (h2 : (2 : F) ≠ 0) {base : JacRep F} (hb : base.On b) (k : ZMod FR_MODULUS) :
    jacPoint hW (arkMulForm base (k * ((2 ^ 64 : ℕ) : ZMod FR_MODULUS) ^ 4).val) = k.val • jacPoint hW base ∧
      (arkMulForm base (k * ((2 ^ 64 : ℕ) : ZMod FR_MODULUS) ^ 4).val).On b := by
  unfold arkMulForm
  rw [C130_into_repr (by norm_num) fr_mont_inv 4 k]
  have h := C131_mul hW hS h2 hb 64 (limbsOf (2 ^ 64) 4 k.val) (limbsOf_lt (by norm_num) 4 _)
  rwa [limbsOf_value 4 k.val] at h
  have h1 := ZMod.val_lt k
  have h3 := fr_spare_bit
  omega

end

/-- **C131.** The public key of a secret key, computed from the generator of G2 with the formulas of ark_ec, denotes the
multiple of the generator by the secret key. -/
theorem C131_public_key (k : ZMod FR_MODULUS) :
    g2Ops.pt (arkMulForm keyG (k * ((2 ^ 64 : ℕ) : ZMod FR_MODULUS) ^ 4).val) = k.val • g2Ops.pt keyG ∧
      (arkMulForm keyG (k * ((2 ^ 64 : ℕ) : ZMod FR_MODULUS) ^ 4).val).On g2CoeffB :=
  C131_mul_form g2_nonsingular_iff g2_short g2_good.two keyG_canonical.1 k

theorem g1Curve_short : Short g1Curve := ⟨rfl, rfl, rfl, rfl⟩

/-- The point of G1 that a representation denotes. -/
noncomputable def g1Denoted : JacRep Fq → G1Point := jacPoint (b := (1 : Fq)) g1_nonsingular_iff

/-- **C131.** The raw signature of a message hashed to a point of G1, in any representation, denotes the multiple of
that point by the secret key. -/
theorem C131_signature {h : JacRep Fq} (hh : h.On 1) (k : ZMod FR_MODULUS) :
    g1Denoted (arkMulForm h (k * ((2 ^ 64 : ℕ) : ZMod FR_MODULUS) ^ 4).val) = k.val • g1Denoted h ∧
      (arkMulForm h (k * ((2 ^ 64 : ℕ) : ZMod FR_MODULUS) ^ 4).val).On 1 :=
  C131_mul_form (b := (1 : Fq)) g1_nonsingular_iff g1Curve_short g1_good.two hh k

/-! ## Examples -/

/-- The point (0, 1) of the curve of G1, with z = 2, meets the hypothesis of `C131_signature`. -/
example : (⟨0, 8, 2⟩ : JacRep Fq).On 1 ∧ (⟨0, 8, 2⟩ : JacRep Fq).z ≠ 0 := by decide +kernel


/-- The bits of two limbs of three bits, leading zeros dropped: 5 + 8 * 2 = 21. -/
example : bitsWithoutLeadingZeros 3 [5, 2] = [true, false, true, false, true] ∧ bitsWithoutLeadingZeros 3 [0, 0] = [] := by
  decide +kernel

/-- The generator meets the hypotheses, and twice it is not the generator. -/
example : keyG.On g2CoeffB ∧ (arkMul 64 keyG [2, 0, 0, 0]).On g2CoeffB ∧ (arkMul 64 keyG [2, 0, 0, 0]).z ≠ 0 ∧
    (arkMul 64 keyG [0, 0]).z = 0 := by
  decide +kernel

end Verif
