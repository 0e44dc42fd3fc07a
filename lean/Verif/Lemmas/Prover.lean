import Verif.Model.Prover
import Verif.Lemmas.EpochCircuit

/-! Helper lemmas about the values assigned by the prover. -/

set_option linter.unusedSectionVars false

namespace Verif

/-- Missing entropy, or sixteen bytes of it. -/
def EntropyOk (e : Option Bytes) : Prop := ∀ b, e = some b → b.length = 16

/-- The sixteen bytes of entropy, zeros if missing. -/
def entropyBytes (e : Option Bytes) : Bytes := e.getD (List.replicate 16 0)

theorem entropyBytes_length {e : Option Bytes} (h : EntropyOk e) : (entropyBytes e).length = 16 := by
  cases e with
  | none => rfl
  | some b => exact h b rfl

theorem leValue_16_lt {b : Bytes} (h : b.length = 16) : leValue b < 2 ^ 128 := by
  have := leValue_lt b
  rw [h] at this
  have e3 : (256 : ℕ) ^ 16 = 2 ^ 128 := by norm_num
  omega

set_option exponentiation.threshold 400 in
theorem bytesToFr_eq {b : Bytes} (h : b.length = 16) : bytesToFr b = ((leValue b : ℕ) : Fq) := by
  unfold bytesToFr
  rw [fromBitsBe_eq, C26_bits_value, Nat.mod_eq_of_lt]
  have := leValue_16_lt h
  have h2 : 2 ^ 128 < 2 ^ 384 := Nat.pow_lt_pow_right (by norm_num) (by norm_num)
  omega

theorem entropyToFr_eq {e : Option Bytes} (h : EntropyOk e) :
    entropyToFr e = ((leValue (entropyBytes e) : ℕ) : Fq) := by
  cases e with
  | none => exact bytesToFr_eq (by rfl)
  | some b => exact bytesToFr_eq (h b rfl)

theorem entropyToFr_val {e : Option Bytes} (h : EntropyOk e) :
    (entropyToFr e).val = leValue (entropyBytes e) := by
  rw [entropyToFr_eq h]
  exact fq_natCast_val ((leValue_16_lt (entropyBytes_length h)).trans fq_gt_pow)

theorem entropyToFr_inj {e e' : Option Bytes} (h : EntropyOk e) (h' : EntropyOk e') :
    entropyToFr e = entropyToFr e' ↔ entropyBytes e = entropyBytes e' := by
  constructor
  · intro heq
    have := congrArg ZMod.val heq
    rw [entropyToFr_val h, entropyToFr_val h'] at this
    exact leValue_inj (by rw [entropyBytes_length h, entropyBytes_length h']) this
  · intro heq
    rw [entropyToFr_eq h, entropyToFr_eq h', heq]

theorem entropyToFr_none : entropyToFr none = 0 := by
  rw [entropyToFr_eq (by intro b hb; simp at hb)]
  rfl

theorem entropyToFr_ne_zero {e : Option Bytes} (h : EntropyOk e) :
    entropyToFr e ≠ 0 ↔ entropyBytes e ≠ List.replicate 16 0 := by
  rw [← entropyToFr_none, ne_eq, entropyToFr_inj h (by intro b hb; simp at hb)]
  rfl

theorem encodeEntropy_entropyBytes {e : Option Bytes} (h : EntropyOk e) :
    (encodeEntropy e).length = 128 ∧ ofBitsLE (encodeEntropy e) = leValue (entropyBytes e) := by
  cases e with
  | none => rw [encodeEntropy_none]; decide +kernel
  | some b =>
    have hb := h b rfl
    refine ⟨?_, ?_⟩
    · rw [encodeEntropy_length_some, hb]; rfl
    · rw [encodeEntropy_value_some, Nat.mod_eq_of_lt (leValue_16_lt hb)]
      rfl

theorem frToBits_entropy {e : Option Bytes} (h : EntropyOk e) :
    frToBits (entropyToFr e) 128 = encodeEntropy e := by
  obtain ⟨h1, h2⟩ := encodeEntropy_entropyBytes h
  apply ofBitsLE_inj
  · rw [frToBits_length _ (by norm_num), h1]
  · rw [frToBits_value, h2, entropyToFr_val h,
      Nat.mod_eq_of_lt (leValue_16_lt (entropyBytes_length h))]

theorem u16_lt_fq (n : UInt16) : n.toNat < FQ_MODULUS := by
  have := n.toNat_lt
  have := fq_gt_pow
  omega

theorem u8_lt_fq (n : UInt8) : n.toNat < FQ_MODULUS := by
  have := n.toNat_lt
  have := fq_gt_pow
  omega

theorem u32_lt_fq (n : UInt32) : n.toNat < FQ_MODULUS := by
  have := n.toNat_lt
  have := fq_gt_pow
  omega

/-- Low bits equal the native encoding exactly when the value agrees modulo the width. -/
theorem frToBits_u16_iff (x : Fq) (n : UInt16) :
    frToBits x 16 = encodeU16 n ↔ x.val % 2 ^ 16 = n.toNat := by
  constructor
  · intro h
    have := congrArg ofBitsLE h
    rwa [frToBits_value, encodeU16_value] at this
  · intro h
    apply ofBitsLE_inj
    · rw [frToBits_length _ (by norm_num), encodeU16_length]
    · rw [frToBits_value, encodeU16_value, h]

theorem frToBits_u8_iff (x : Fq) (n : UInt8) :
    frToBits x 8 = encodeU8 n ↔ x.val % 2 ^ 8 = n.toNat := by
  constructor
  · intro h
    have := congrArg ofBitsLE h
    rwa [frToBits_value, encodeU8_value] at this
  · intro h
    apply ofBitsLE_inj
    · rw [frToBits_length _ (by norm_num), encodeU8_length]
    · rw [frToBits_value, encodeU8_value, h]

theorem frToBits_u32_iff (x : Fq) (n : UInt32) :
    frToBits x 32 = encodeU32 n ↔ x.val % 2 ^ 32 = n.toNat := by
  constructor
  · intro h
    have := congrArg ofBitsLE h
    rwa [frToBits_value, encodeU32_value] at this
  · intro h
    apply ofBitsLE_inj
    · rw [frToBits_length _ (by norm_num), encodeU32_length]
    · rw [frToBits_value, encodeU32_value, h]

theorem frToBits_u16 (n : UInt16) : frToBits ((n.toNat : ℕ) : Fq) 16 = encodeU16 n := by
  rw [frToBits_u16_iff, fq_natCast_val (u16_lt_fq n)]
  exact Nat.mod_eq_of_lt n.toNat_lt

theorem frToBits_u8 (n : UInt8) : frToBits ((n.toNat : ℕ) : Fq) 8 = encodeU8 n := by
  rw [frToBits_u8_iff, fq_natCast_val (u8_lt_fq n)]
  exact Nat.mod_eq_of_lt n.toNat_lt

theorem frToBits_u32 (n : UInt32) : frToBits ((n.toNat : ℕ) : Fq) 32 = encodeU32 n := by
  rw [frToBits_u32_iff, fq_natCast_val (u32_lt_fq n)]
  exact Nat.mod_eq_of_lt n.toNat_lt

/-! ### keys -/

theorem fq_ne_two : FQ_MODULUS ≠ 2 := by decide +kernel

theorem isOverHalf_eq_nativeFlag (y : Fq2) : isOverHalf y = nativeFlag y.re y.im := by
  unfold nativeFlag isOverHalf
  have e : decide (y.im = 0) = (y.im.val == 0) := by
    by_cases h : y.im = 0
    · rw [h]; decide +kernel
    · have : y.im.val ≠ 0 := fun e => h ((ZMod.val_eq_zero _).mp e)
      simp [h]
  rw [e]
  rfl

theorem keyWitness_bit (v : G2Var) : (keyWitness v).yBit = isOverHalf v.y := by
  have := (C37_complete (p := FQ_MODULUS) fq_ne_two (.var v.y.re) (.var v.y.im)).2
  simp only [FpVar.value_var] at this
  rw [isOverHalf_eq_nativeFlag]
  exact this

theorem keyWitness_c (v : G2Var) : g2ToBitsC v (keyWitness v) :=
  (C37_complete (p := FQ_MODULUS) fq_ne_two (.var v.y.re) (.var v.y.im)).1

theorem g2ToBits_assign (pk : G2Point) :
    g2ToBits (G2Var.ofPoint pk) (keyWitness (G2Var.ofPoint pk)) = encodePublicKey pk := by
  unfold g2ToBits encodePublicKey
  rw [keyWitness_bit, fieldBitsBe_eq_encodeFq, fieldBitsBe_eq_encodeFq]
  cases pk <;> rfl

theorem G2Var.point_eq {v : G2Var} (hz : v.z ≠ 0)
    (h : g2Curve.Nonsingular (v.x / v.z) (v.y / v.z)) : v.point = .some _ _ h := dif_pos ⟨hz, h⟩

theorem point_affine {x y : Fq2} (h : g2Curve.Nonsingular x y) :
    (⟨x, y, 1⟩ : G2Var).point = .some x y h := by
  have h' : g2Curve.Nonsingular (x / 1) (y / 1) := by simpa using h
  have := G2Var.point_eq (v := ⟨x, y, 1⟩) one_ne_zero h'
  rw [this]
  simp

theorem point_ofPoint (pk : G2Point) : (G2Var.ofPoint pk).point = pk := by
  cases pk with
  | zero => exact dif_neg (by simp [G2Var.ofPoint])
  | some x y h => exact point_affine h

theorem assign_keys_length (d : EpochData) :
    (EpochVars.assign d).keys.length = d.publicKeys.length := by simp [EpochVars.assign]

theorem assign_points (d : EpochData) :
    (EpochVars.assign d).pubkeys.map G2Var.point = d.publicKeys := by
  simp [EpochVars.assign, EpochVars.pubkeys, Function.comp_def, point_ofPoint]

theorem assign_keyBits (d : EpochData) :
    (EpochVars.assign d).keyBits = d.publicKeys.flatMap encodePublicKey := by
  simp only [EpochVars.assign, EpochVars.keyBits, List.flatMap_map, g2ToBits_assign]

/-- An allocator that accepts affine coordinates of points (and nothing is said about others). -/
def AllocComplete (alloc : G2Var → Prop) : Prop := ∀ x y, g2Curve.Nonsingular x y → alloc ⟨x, y, 1⟩

theorem alloc_ofPoint {alloc : G2Var → Prop} (h : AllocComplete alloc) {pk : G2Point}
    (hpk : pk ≠ 0) : alloc (G2Var.ofPoint pk) := by
  cases pk with
  | zero => exact absurd rfl hpk
  | some x y hns => exact h x y hns

theorem assign_toBitsC {alloc : G2Var → Prop} (h : AllocComplete alloc) {d : EpochData}
    (hk : ∀ pk ∈ d.publicKeys, pk ≠ 0) : (EpochVars.assign d).toBitsC alloc := by
  intro k hkm
  simp only [EpochVars.assign, List.mem_map] at hkm
  obtain ⟨pk, hpk, rfl⟩ := hkm
  exact ⟨alloc_ofPoint h (hk pk hpk), keyWitness_c _⟩

/-- Keys of the block fill the circuit, so that the native encoding adds no padding. -/
theorem keyBits_full (gen : G2Point) {b : EpochBlock}
    (h : b.maximumValidators ≤ b.newPublicKeys.length) :
    b.keyBits gen = b.newPublicKeys.flatMap encodePublicKey := by
  rw [keyBits_eq]
  unfold EpochBlock.paddedKeys
  rw [Nat.sub_eq_zero_of_le h]
  simp

theorem assign_firstBits (gen : G2Point) {b : EpochBlock} (hp : EntropyOk b.parentEntropy)
    (h : b.maximumValidators ≤ b.newPublicKeys.length) :
    (EpochVars.assign (toEpochData b)).firstEpochBits = b.encodeToBitsCip22 gen .first := by
  unfold EpochVars.firstEpochBits EpochBlock.encodeToBitsCip22
  rw [assign_keyBits, keyBits_full gen h]
  simp only [EpochVars.assign, toEpochData, frToBits_u16, frToBits_u32, frToBits_entropy hp]

theorem assign_lastBits (gen : G2Point) {b : EpochBlock} (hp : EntropyOk b.epochEntropy)
    (h : b.maximumValidators ≤ b.newPublicKeys.length) :
    (EpochVars.assign (toEpochData b)).lastEpochBits = b.encodeToBitsCip22 gen .last := by
  unfold EpochVars.lastEpochBits EpochBlock.encodeToBitsCip22
  rw [assign_keyBits, keyBits_full gen h]
  simp only [EpochVars.assign, toEpochData, frToBits_u16, frToBits_u32, frToBits_entropy hp]

theorem assign_innerBits (gen : G2Point) {b : EpochBlock} (he : EntropyOk b.epochEntropy)
    (hp : EntropyOk b.parentEntropy) (h : b.maximumValidators ≤ b.newPublicKeys.length) :
    ((EpochVars.assign (toEpochData b)).epochBits,
      (EpochVars.assign (toEpochData b)).extraDataBits) = b.encodeInnerToBitsCip22 gen := by
  unfold EpochVars.epochBits EpochVars.extraDataBits EpochBlock.encodeInnerToBitsCip22
  rw [assign_keyBits, keyBits_full gen h]
  simp only [EpochVars.assign, toEpochData, frToBits_u16, frToBits_u32, frToBits_u8,
    frToBits_entropy hp, frToBits_entropy he]

end Verif
