import Verif.Model.Encoding
import Verif.Props.Utils
import Mathlib.Tactic.LinearCombination

/-! Helper lemmas about the encodings. -/

namespace Verif

open WeierstrassCurve

theorem leBytes_length (k n : ℕ) : (leBytes k n).length = k := by
  induction k generalizing n with
  | zero => rfl
  | succ k ih => simp [leBytes, ih]

theorem leBytes_value (k n : ℕ) : leValue (leBytes k n) = n % 256 ^ k := by
  induction k generalizing n with
  | zero => simp [leBytes, leValue, Nat.mod_one]
  | succ k ih =>
    simp only [leBytes, leValue, ih, UInt8.toNat_ofNat']
    rw [show (256 : ℕ) ^ (k + 1) = 256 * 256 ^ k by rw [pow_succ, Nat.mul_comm], Nat.mod_mul]

theorem maskBits_eq : ∀ x : UInt8, maskBits x = unpackByte 8 x := by decide +kernel

theorem flatMap_maskBits (bytes : Bytes) :
    bytes.flatMap maskBits = bytes.flatMap (unpackByte 8) := by
  congr 1
  funext x
  exact maskBits_eq x

theorem flatMap_maskBits_length (bytes : Bytes) :
    (bytes.flatMap maskBits).length = 8 * bytes.length := by
  rw [flatMap_maskBits, flatMap_unpack_length]

theorem flatMap_maskBits_value (bytes : Bytes) :
    ofBitsLE (bytes.flatMap maskBits) = leValue bytes := by
  rw [flatMap_maskBits, flatMap_unpack_value]

/-- A bit list is determined by its length and the number it denotes. -/
theorem eq_range_map_testBit (l : List Bool) :
    l = (List.range l.length).map (ofBitsLE l).testBit := by
  apply List.ext_getElem
  · simp
  · intro i h1 h2
    simp only [List.getElem_map, List.getElem_range, ofBitsLE_testBit]
    simp [List.getD, h1]

theorem encodeU8_length (n : UInt8) : (encodeU8 n).length = 8 := by
  unfold encodeU8; rw [flatMap_maskBits_length]; rfl

theorem encodeU16_length (n : UInt16) : (encodeU16 n).length = 16 := by
  unfold encodeU16; rw [flatMap_maskBits_length, leBytes_length]

theorem encodeU32_length (n : UInt32) : (encodeU32 n).length = 32 := by
  unfold encodeU32; rw [flatMap_maskBits_length, leBytes_length]

theorem encodeU8_value (n : UInt8) : ofBitsLE (encodeU8 n) = n.toNat := by
  unfold encodeU8; rw [flatMap_maskBits_value]; simp [leValue]

theorem encodeU16_value (n : UInt16) : ofBitsLE (encodeU16 n) = n.toNat := by
  unfold encodeU16
  rw [flatMap_maskBits_value, leBytes_value]
  exact Nat.mod_eq_of_lt n.toNat_lt

theorem encodeU32_value (n : UInt32) : ofBitsLE (encodeU32 n) = n.toNat := by
  unfold encodeU32
  rw [flatMap_maskBits_value, leBytes_value]
  exact Nat.mod_eq_of_lt n.toNat_lt

theorem encodeU8_inj {a b : UInt8} (h : encodeU8 a = encodeU8 b) : a = b := by
  have := congrArg ofBitsLE h
  rw [encodeU8_value, encodeU8_value] at this
  exact UInt8.toNat_inj.mp this

theorem encodeU16_inj {a b : UInt16} (h : encodeU16 a = encodeU16 b) : a = b := by
  have := congrArg ofBitsLE h
  rw [encodeU16_value, encodeU16_value] at this
  exact UInt16.toNat_inj.mp this

theorem encodeU32_inj {a b : UInt32} (h : encodeU32 a = encodeU32 b) : a = b := by
  have := congrArg ofBitsLE h
  rw [encodeU32_value, encodeU32_value] at this
  exact UInt32.toNat_inj.mp this

theorem encodeFq_length (x : Fq) : (encodeFq x).length = 377 := by
  unfold encodeFq
  rw [C26_bits_length, leBytes_length]
  rfl

theorem encodeFq_value (x : Fq) : ofBitsLE (encodeFq x).reverse = x.val := by
  unfold encodeFq
  rw [C26_bits_value, leBytes_value]
  have h1 : x.val < FQ_MODULUS := ZMod.val_lt x
  have h2 := FQ_bounds.2
  have h3 : (2 : ℕ) ^ 377 ≤ 256 ^ 48 := by decide +kernel
  rw [Nat.mod_eq_of_lt (a := x.val) (lt_of_lt_of_le (lt_trans h1 h2) h3),
    Nat.mod_eq_of_lt (lt_trans h1 h2)]

theorem encodeFq_inj {a b : Fq} (h : encodeFq a = encodeFq b) : a = b := by
  have := congrArg (fun l => ofBitsLE l.reverse) h
  simp only [encodeFq_value] at this
  exact ZMod.val_injective _ this

theorem encodePublicKey_length (pk : G2Point) : (encodePublicKey pk).length = 755 := by
  unfold encodePublicKey
  simp [encodeFq_length]

theorem two_ne_zero_fq : (2 : Fq) ≠ 0 := by decide +kernel

theorem over_half_val (c : Fq) (hc : c ≠ 0) : (FQ_HALF < (-c).val) ↔ ¬ (FQ_HALF < c.val) := by
  have : NeZero c := ⟨hc⟩
  rw [ZMod.val_neg_of_ne_zero]
  have h1 : c.val < FQ_MODULUS := ZMod.val_lt c
  have h2 : c.val ≠ 0 := fun e => hc ((ZMod.val_eq_zero c).mp e)
  have h3 : FQ_MODULUS = 2 * FQ_HALF + 1 := by decide +kernel
  omega

theorem isOverHalf_neg (y : Fq2) (hy : y ≠ 0) : isOverHalf (-y) = !isOverHalf y := by
  unfold isOverHalf
  simp only [QuadraticAlgebra.re_neg, QuadraticAlgebra.im_neg, gt_iff_lt]
  by_cases h1 : y.im = 0
  · have h0 : y.re ≠ 0 := by
      intro h0
      exact hy (QuadraticAlgebra.ext h0 h1)
    have := over_half_val y.re h0
    have hz : FQ_HALF < (0 : Fq).val ↔ False := by simp
    simp only [h1, neg_zero, ZMod.val_zero, Nat.not_lt_zero, decide_false, Bool.false_or,
      beq_self_eq_true, Bool.true_and]
    by_cases h : FQ_HALF < y.re.val
    · simp [h, this]
    · simp [h, this]
  · have := over_half_val y.im h1
    have hv : y.im.val ≠ 0 := fun e => h1 ((ZMod.val_eq_zero _).mp e)
    have hv' : (-y.im).val ≠ 0 := fun e => h1 (neg_eq_zero.mp ((ZMod.val_eq_zero _).mp e))
    have e1 : (y.im.val == 0) = false := by simpa using hv
    have e2 : ((-y.im).val == 0) = false := by simpa using hv'
    rw [e1, e2]
    by_cases h : FQ_HALF < y.im.val
    · simp [h, this]
    · simp [h, this]

theorem g2_equation {x y : Fq2} (h : g2Curve.Nonsingular x y) : y * y = x ^ 3 + g2CoeffB := by
  have := (Affine.equation_iff _ _).mp h.1
  simp only [g2Curve] at this
  linear_combination this

/-- The twist has no point with `x = 0`: its constant is not a square in the extension. -/
theorem g2_x_ne_zero {x y : Fq2} (h : g2Curve.Nonsingular x y) : x ≠ 0 := by
  rintro rfl
  have e := g2_equation h
  have e0 : (0 : Fq2) ^ 3 + g2CoeffB = g2CoeffB := by ring
  rw [e0] at e
  have h1 := congrArg QuadraticAlgebra.re e
  have h2 := congrArg QuadraticAlgebra.im e
  simp only [QuadraticAlgebra.re_mul, QuadraticAlgebra.im_mul, g2CoeffB] at h1 h2
  set a := y.re
  set b := y.im
  -- `a² = 5 b²`
  have h3 : a * a = 5 * (b * b) := by linear_combination h1
  have hb : b ≠ 0 := by
    intro hb
    rw [hb] at h2
    revert h2
    ring_nf
    decide +kernel
  apply five_nonresidue (a / b)
  field_simp
  linear_combination h3

/-! ### keys -/

theorem encodePublicKey_some_inj {x y x' y' : Fq2} (h : g2Curve.Nonsingular x y)
    (h' : g2Curve.Nonsingular x' y')
    (e : encodePublicKey (.some x y h) = encodePublicKey (.some x' y' h')) : x = x' ∧ y = y' := by
  unfold encodePublicKey at e
  simp only [intoAffine] at e
  obtain ⟨e1, e2⟩ := List.append_inj e (by simp [encodeFq_length])
  obtain ⟨e3, e4⟩ := List.append_inj e1 (by simp [encodeFq_length])
  have hx : x = x' := QuadraticAlgebra.ext (encodeFq_inj e3) (encodeFq_inj e4)
  refine ⟨hx, ?_⟩
  subst hx
  have q1 := g2_equation h
  have q2 := g2_equation h'
  have hh : (y - y') * (y + y') = 0 := by linear_combination q1 - q2
  rcases mul_eq_zero.mp hh with e5 | e5
  · exact sub_eq_zero.mp e5
  · have e6 : y' = -y := by linear_combination e5
    by_cases hy : y = 0
    · rw [e6, hy, neg_zero]
    · rw [e6, isOverHalf_neg y hy] at e2
      simp at e2

theorem encodePublicKey_zero_ne {x y : Fq2} (h : g2Curve.Nonsingular x y) :
    encodePublicKey (.some x y h) ≠ encodePublicKey .zero := by
  intro e
  unfold encodePublicKey at e
  simp only [intoAffine] at e
  obtain ⟨e1, e2⟩ := List.append_inj e (by simp [encodeFq_length])
  obtain ⟨e3, e4⟩ := List.append_inj e1 (by simp [encodeFq_length])
  exact g2_x_ne_zero h (QuadraticAlgebra.ext (encodeFq_inj e3) (encodeFq_inj e4))

theorem encodePublicKey_inj {a b : G2Point} (e : encodePublicKey a = encodePublicKey b) :
    a = b := by
  cases a with
  | zero =>
    cases b with
    | zero => rfl
    | some x y h => exact absurd e.symm (encodePublicKey_zero_ne h)
  | some x y h =>
    cases b with
    | zero => exact absurd e (encodePublicKey_zero_ne h)
    | some x' y' h' =>
      obtain ⟨h1, h2⟩ := encodePublicKey_some_inj h h' e
      subst h1
      subst h2
      rfl

/-- Concatenations of blocks of one length determine the list. -/
theorem flatMap_fixed_inj {α β : Type*} {f : α → List β} {k : ℕ} (hk : 0 < k)
    (hf : ∀ a, (f a).length = k) (hinj : ∀ a b, f a = f b → a = b) (l l' : List α)
    (h : l.flatMap f = l'.flatMap f) : l = l' := by
  induction l generalizing l' with
  | nil =>
    cases l' with
    | nil => rfl
    | cons b bs =>
      have := congrArg List.length h
      simp only [List.flatMap_nil, List.length_nil, List.flatMap_cons, List.length_append, hf] at this
      omega
  | cons a as ih =>
    cases l' with
    | nil =>
      have := congrArg List.length h
      simp only [List.flatMap_nil, List.length_nil, List.flatMap_cons, List.length_append, hf] at this
      omega
    | cons b bs =>
      simp only [List.flatMap_cons] at h
      obtain ⟨h1, h2⟩ := List.append_inj h (by rw [hf, hf])
      rw [hinj _ _ h1, ih bs h2]

theorem flatMap_key_length (l : List G2Point) :
    (l.flatMap encodePublicKey).length = 755 * l.length := by
  induction l with
  | nil => rfl
  | cons a as ih =>
    simp only [List.flatMap_cons, List.length_append, ih, encodePublicKey_length, List.length_cons]
    ring

theorem flatMap_key_inj {l l' : List G2Point}
    (h : l.flatMap encodePublicKey = l'.flatMap encodePublicKey) : l = l' :=
  flatMap_fixed_inj (by norm_num) encodePublicKey_length (fun _ _ => encodePublicKey_inj) l l' h

/-! ### epochs -/

/-- The list of keys an encoding commits to: the real keys followed by generator keys up to the
maximum number of validators. -/
noncomputable def EpochBlock.paddedKeys (gen : G2Point) (b : EpochBlock) : List G2Point :=
  b.newPublicKeys ++ List.replicate (b.maximumValidators - b.newPublicKeys.length) gen

theorem keyBits_eq (gen : G2Point) (b : EpochBlock) :
    b.keyBits gen = (b.paddedKeys gen).flatMap encodePublicKey := by
  unfold EpochBlock.keyBits EpochBlock.paddedKeys
  rw [List.flatMap_append]
  congr 1
  split
  · rfl
  · rename_i h
    have : b.maximumValidators - b.newPublicKeys.length = 0 := by omega
    rw [this]
    rfl

theorem encodeEntropy_length_some (e : Bytes) :
    (encodeEntropy (some e)).length = min 128 (8 * e.length) := by
  unfold encodeEntropy bytesLeToBitsLe ENTROPY_BYTES
  rw [List.length_reverse, C26_bits_length]

theorem encodeEntropy_value_some (e : Bytes) :
    ofBitsLE (encodeEntropy (some e)) = leValue e % 2 ^ 128 := by
  unfold encodeEntropy bytesLeToBitsLe ENTROPY_BYTES
  simp only []
  rw [C26_bits_value]

theorem encodeEntropy_none : encodeEntropy none = List.replicate 128 false := by
  unfold encodeEntropy
  decide +kernel

theorem encodeEntropy_inj {e e' : Bytes} (h1 : e.length = 16) (h2 : e'.length = 16)
    (h : encodeEntropy (some e) = encodeEntropy (some e')) : e = e' := by
  have := congrArg ofBitsLE h
  rw [encodeEntropy_value_some, encodeEntropy_value_some] at this
  have b1 := leValue_lt e
  have b2 := leValue_lt e'
  rw [h1] at b1
  rw [h2] at b2
  have e3 : (256 : ℕ) ^ 16 = 2 ^ 128 := by norm_num
  rw [Nat.mod_eq_of_lt (by omega), Nat.mod_eq_of_lt (by omega)] at this
  exact leValue_inj (by rw [h1, h2]) this

theorem fromBitsBe_eq (bits : List Bool) : fromBitsBe bits = ofBitsLE bits.reverse := by
  induction bits using List.reverseRecOn with
  | nil => rfl
  | append_singleton bs b ih =>
    unfold fromBitsBe at *
    rw [List.foldl_append, ih, List.reverse_append]
    simp only [List.foldl_cons, List.foldl_nil, List.reverse_cons, List.reverse_nil,
      List.nil_append, List.cons_append, ofBitsLE]
    ring

theorem outHashParams_ok : outHashParams = .ok
    { hashLength := 32, fanout := 1, maxDepth := 1, maxLeafLength := 0, nodeOffset := 0,
      innerHashLength := 0, personal := OUT_DOMAIN } := by
  decide +kernel

theorem hashToBits_eq (B : Blake2s) (bytes : Bytes) :
    hashToBits B bytes = bytesLeToBitsLe (B.run
    { hashLength := 32, fanout := 1, maxDepth := 1, maxLeafLength := 0, nodeOffset := 0,
      innerHashLength := 0, personal := OUT_DOMAIN } bytes) 256 := by
  unfold hashToBits
  rw [outHashParams_ok]

theorem hashToBits_length (B : Blake2s) (bytes : Bytes) : (hashToBits B bytes).length = 256 := by
  rw [hashToBits_eq]
  unfold bytesLeToBitsLe
  rw [List.length_reverse, C26_bits_length, B.length_run]
  rfl

end Verif
