import Verif.Lemmas.Serialize
import Verif.Lemmas.OrderExample

/-!
# Serialisation of keys and signatures: C66

The format is restated with numbers: a coordinate is its 48 little-endian bytes, bit 383 of the last
coordinate is the sign of `y`, bit 382 marks infinity.
-/

set_option exponentiation.threshold 800
set_option linter.unusedSectionVars false

namespace Verif

open WeierstrassCurve

theorem flags_add : ∀ n < 64, ∀ f : SWFlags,
    (UInt8.ofNat n ||| f.mask).toNat = n + f.mask.toNat := by
  intro n hn f
  cases f <;> revert n <;> decide +kernel

/-- Adding the flags to the number. -/
theorem serializeWithFlags_fq (x : Fq) (f : SWFlags) :
    serializeWithFlags fqCodec x f = leBytes 48 (x.val + 2 ^ 376 * f.mask.toNat) := by
  have hne : NeZero FQ_MODULUS := ⟨FQ_prime.ne_zero⟩
  have hl := fqWrite_length x
  have hnil : fqWrite x ≠ [] := by intro e; rw [e] at hl; simp at hl
  have e := list_eq_dropLast_getLastD (fqWrite x) 0 hnil
  have hv : leValue (fqWrite x) = x.val := leBytes48_value x
  have hd : (fqWrite x).dropLast.length = 47 := by rw [List.length_dropLast, hl]
  rw [e, leValue_snoc _ _ hd] at hv
  have htop := fqWrite_top x
  have hadd := flags_add ((fqWrite x).getLastD 0).toNat (by omega) f
  rw [UInt8.ofNat_toNat] at hadd
  apply leValue_inj
  · rw [serializeWithFlags_length fqCodec_laws, leBytes_length]; rfl
  · rw [leBytes_value]
    have e1 : serializeWithFlags fqCodec x f =
        (fqWrite x).dropLast ++ [(fqWrite x).getLastD 0 ||| f.mask] := by
      simp only [serializeWithFlags, fqCodec]
    rw [e1, leValue_snoc _ _ hd, hadd, Nat.mul_add]
    have h1 : x.val < FQ_MODULUS := ZMod.val_lt x
    have h2 := FQ_bounds.2
    have h3 : f.mask.toNat ≤ 128 := by cases f <;> decide
    have h4 : 2 ^ 376 * f.mask.toNat ≤ 2 ^ 376 * 128 := Nat.mul_le_mul_left _ h3
    have h5 : (2 : ℕ) ^ 377 + 2 ^ 376 * 128 < 256 ^ 48 := by decide +kernel
    rw [Nat.mod_eq_of_lt (by omega)]
    omega

theorem serializeWithFlags_fq2 (x : Fq2) (f : SWFlags) :
    serializeWithFlags fq2Codec x f =
      leBytes 48 x.re.val ++ leBytes 48 (x.im.val + 2 ^ 376 * f.mask.toNat) := by
  rw [← serializeWithFlags_fq]
  have hl := fqWrite_length x.im
  have hnil : fqWrite x.im ≠ [] := by intro e; rw [e] at hl; simp at hl
  simp only [serializeWithFlags, fq2Codec, fqCodec]
  rw [List.dropLast_append_of_ne_nil hnil]
  have e : (fqWrite x.re ++ fqWrite x.im).getLastD 0 = (fqWrite x.im).getLastD 0 := by
    simp only [List.getLastD_eq_getLast?, List.getLast?_append_of_ne_nil _ hnil]
  rw [e, List.append_assoc]
  rfl

theorem fq_gt_neg (y : Fq) : y.val > (-y).val ↔ FQ_MODULUS < 2 * y.val := by
  have hne : NeZero FQ_MODULUS := ⟨FQ_prime.ne_zero⟩
  by_cases hy : y = 0
  · subst hy
    simp
  · rw [fq_neg_val hy]
    have := ZMod.val_lt y
    omega

/-- The larger of `y` and `-y` in the base field. -/
def Larger1 (y : Fq) : Prop := FQ_MODULUS < 2 * y.val

/-- The larger of `y` and `-y` in the quadratic extension, compared by `im` first. -/
def Larger2 (y : Fq2) : Prop :=
  FQ_MODULUS < 2 * y.im.val ∨ y.im = 0 ∧ FQ_MODULUS < 2 * y.re.val

theorem fqCodec_gt_neg (y : Fq) : fqCodec.gt y (-y) = true ↔ Larger1 y := by
  simp only [fqCodec, decide_eq_true_eq]
  exact fq_gt_neg y

theorem fq2Codec_gt_neg (y : Fq2) : fq2Codec.gt y (-y) = true ↔ Larger2 y := by
  have h2 : (2 : Fq) ≠ 0 := by decide +kernel
  simp only [fq2Codec, QuadraticAlgebra.im_neg, QuadraticAlgebra.re_neg, Larger2]
  by_cases hi : y.im = -y.im
  · have hi0 : y.im = 0 := by
      have : (2 : Fq) * y.im = 0 := by linear_combination hi
      rcases mul_eq_zero.mp this with h | h
      · exact absurd h h2
      · exact h
    rw [if_pos hi, decide_eq_true_eq, hi0]
    simp only [ZMod.val_zero, mul_zero, true_and]
    rw [show ((-y.re).val < y.re.val) ↔ FQ_MODULUS < 2 * y.re.val from fq_gt_neg y.re]
    simp
  · have hi0 : y.im ≠ 0 := by
      intro e; rw [e, neg_zero] at hi; exact hi rfl
    rw [if_neg hi, decide_eq_true_eq]
    rw [show ((-y.im).val < y.im.val) ↔ FQ_MODULUS < 2 * y.im.val from fq_gt_neg y.im]
    simp [hi0]

open Classical in
/-- C66: the 96 bytes of a finite public key. -/
theorem C66_public_key_format (x y : Fq2) (h : g2Curve.Nonsingular x y) :
    serializePublicKey (.some x y h) =
      leBytes 48 x.re.val ++ leBytes 48 (x.im.val + if Larger2 y then 2 ^ 383 else 0) := by
  have e : serializePublicKey (.some x y h) =
      serializeWithFlags fq2Codec x (if fq2Codec.gt y (-y) then .positiveY else .negativeY) := rfl
  rw [e, serializeWithFlags_fq2]
  by_cases hg : Larger2 y
  · rw [if_pos hg, if_pos ((fq2Codec_gt_neg y).mpr hg)]
    rfl
  · rw [if_neg hg, if_neg (fun h => hg ((fq2Codec_gt_neg y).mp h))]
    rfl

open Classical in
/-- C66: the 48 bytes of a finite signature. -/
theorem C66_signature_format (x y : Fq) (h : g1Curve.Nonsingular x y) :
    serializeSignature (.some x y h) = leBytes 48 (x.val + if Larger1 y then 2 ^ 383 else 0) := by
  have e : serializeSignature (.some x y h) =
      serializeWithFlags fqCodec x (if fqCodec.gt y (-y) then .positiveY else .negativeY) := rfl
  rw [e, serializeWithFlags_fq]
  by_cases hg : Larger1 y
  · rw [if_pos hg, if_pos ((fqCodec_gt_neg y).mpr hg)]
    rfl
  · rw [if_neg hg, if_neg (fun h => hg ((fqCodec_gt_neg y).mp h))]
    rfl

/-- C66: infinity is the number `2 ^ 382`. -/
theorem C66_infinity_format :
    serializePublicKey 0 = leBytes 48 0 ++ leBytes 48 (2 ^ 382) ∧
    serializeSignature 0 = leBytes 48 (2 ^ 382) := by
  have e2 : serializePublicKey 0 = serializeWithFlags fq2Codec 0 .infinity := rfl
  have e1 : serializeSignature 0 = serializeWithFlags fqCodec 0 .infinity := rfl
  rw [e1, e2, serializeWithFlags_fq, serializeWithFlags_fq2]
  have h0 : (0 : Fq).val = 0 := ZMod.val_zero
  have hm : 2 ^ 376 * SWFlags.infinity.mask.toNat = 2 ^ 382 := by decide +kernel
  rw [hm, QuadraticAlgebra.re_zero, QuadraticAlgebra.im_zero, h0, zero_add]
  exact ⟨rfl, rfl⟩

/-- C66: public keys take 96 bytes, signatures 48, private keys 32. -/
theorem C66_sizes (pk : G2Point) (s : G1Point) (sk : ZMod FR_MODULUS) :
    (serializePublicKey pk).length = 96 ∧ (serializeSignature s).length = 48 ∧
    (serializePrivateKey sk).length = 32 :=
  ⟨serializeAffine_length fq2Codec_laws _, serializeAffine_length fqCodec_laws _,
    leBytes_length _ _⟩

section
variable {sqrt2 : Fq2 → Option Fq2} (hs2 : RootSpec sqrt2)
  {sqrt1 : Fq → Option Fq} (hs1 : RootSpec sqrt1)

include hs2 in
/-- C66: exactly which byte streams decode to which public key.  All are in the subgroup of order
`r`; a finite key has one encoding, infinity has one per field element (violation of canonicity). -/
theorem C66_public_key_iff (stream rest : Bytes) (pk : G2Point) :
    deserializePublicKey sqrt2 stream = .ok (pk, rest) ↔
      FR_MODULUS • pk = 0 ∧
        (pk ≠ 0 ∧ stream = serializePublicKey pk ++ rest ∨
         pk = 0 ∧ ∃ x : Fq2, stream =
          leBytes 48 x.re.val ++ leBytes 48 (x.im.val + 2 ^ 382) ++ rest) := by
  have h := deserialize_point_iff fq2Codec_laws hs2 g2_good stream rest pk
  have hm : 2 ^ 376 * SWFlags.infinity.mask.toNat = 2 ^ 382 := by decide +kernel
  simp only [serializeWithFlags_fq2, hm] at h
  exact h

include hs1 in
/-- C66: the same for signatures. -/
theorem C66_signature_iff (stream rest : Bytes) (s : G1Point) :
    deserializeSignature sqrt1 stream = .ok (s, rest) ↔
      FR_MODULUS • s = 0 ∧
        (s ≠ 0 ∧ stream = serializeSignature s ++ rest ∨
         s = 0 ∧ ∃ x : Fq, stream = leBytes 48 (x.val + 2 ^ 382) ++ rest) := by
  have h := deserialize_point_iff fqCodec_laws hs1 g1_good stream rest s
  have hm : 2 ^ 376 * SWFlags.infinity.mask.toNat = 2 ^ 382 := by decide +kernel
  simp only [serializeWithFlags_fq, hm] at h
  exact h

include hs2 in
/-- C66: a public key of the subgroup round-trips, whatever follows it. -/
theorem C66_public_key_roundtrip (pk : G2Point) (h : FR_MODULUS • pk = 0) (rest : Bytes) :
    deserializePublicKey sqrt2 (serializePublicKey pk ++ rest) = .ok (pk, rest) := by
  rw [C66_public_key_iff hs2]
  refine ⟨h, ?_⟩
  by_cases h0 : pk = 0
  · right
    refine ⟨h0, 0, ?_⟩
    rw [h0, C66_infinity_format.1, QuadraticAlgebra.re_zero, QuadraticAlgebra.im_zero,
      show (0 : Fq).val = 0 from ZMod.val_zero, zero_add]
  · exact Or.inl ⟨h0, rfl⟩

include hs1 in
/-- C66: a signature of the subgroup round-trips, whatever follows it. -/
theorem C66_signature_roundtrip (s : G1Point) (h : FR_MODULUS • s = 0) (rest : Bytes) :
    deserializeSignature sqrt1 (serializeSignature s ++ rest) = .ok (s, rest) := by
  rw [C66_signature_iff hs1]
  refine ⟨h, ?_⟩
  by_cases h0 : s = 0
  · right
    refine ⟨h0, 0, ?_⟩
    rw [h0, C66_infinity_format.2, show (0 : Fq).val = 0 from ZMod.val_zero, zero_add]
  · exact Or.inl ⟨h0, rfl⟩

include hs2 in
/-- C66: points of the curve outside the subgroup are refused as public keys. -/
theorem C66_public_key_outside (pk : G2Point) (h : FR_MODULUS • pk ≠ 0) (rest : Bytes) :
    ∃ e, deserializePublicKey sqrt2 (serializePublicKey pk ++ rest) = .err e := by
  have h0 : pk ≠ 0 := by rintro rfl; exact h (nsmul_zero _)
  cases hd : deserializePublicKey sqrt2 (serializePublicKey pk ++ rest) with
  | err e => exact ⟨e, rfl⟩
  | panic => exact absurd hd (deserialize_point_no_panic fq2Codec_laws sqrt2 _)
  | ok r =>
    exfalso
    obtain ⟨pk', rest'⟩ := r
    have h' := (C66_public_key_iff hs2 _ _ _).mp hd
    obtain ⟨hr, ⟨hne, he⟩ | ⟨rfl, x, he⟩⟩ := h'
    · cases pk with
      | zero => exact h0 rfl
      | some x y hns =>
        cases pk' with
        | zero => exact hne rfl
        | some x' y' hns' =>
          have e1 : ∀ (x y : Fq2) (h : g2Curve.Nonsingular x y), serializePublicKey (.some x y h) =
            serializeWithFlags fq2Codec x (if fq2Codec.gt y (-y) then .positiveY else .negativeY) :=
              fun _ _ _ => rfl
          rw [e1, e1] at he
          obtain ⟨hx, _, _⟩ := serializeWithFlags_inj fq2Codec_laws he
          subst hx
          have hy := (shortCurve_nonsingular g2_good x y).mp hns
          have hy' := (shortCurve_nonsingular g2_good x y').mp hns'
          have hyy : y = y' ∨ y = -y' := by
            rw [← sq_eq_sq_iff_eq_or_eq_neg, pow_two, pow_two, hy, hy']
          rcases hyy with e | e
          · subst e; exact h hr
          · apply h
            have : (Affine.Point.some x y hns : G2Point) = -Affine.Point.some x y' hns' := by
              rw [Affine.Point.neg_some]
              exact point_some_congr _ _ (by rw [e]; simp [Affine.negY, g2Curve])
            rw [this, neg_nsmul, hr, neg_zero]
    · have hm : 2 ^ 376 * SWFlags.infinity.mask.toNat = 2 ^ 382 := by decide +kernel
      rw [← hm, ← serializeWithFlags_fq2] at he
      cases pk with
      | zero => exact h0 rfl
      | some x' y hns =>
        have e1 : ∀ (x y : Fq2) (h : g2Curve.Nonsingular x y), serializePublicKey (.some x y h) =
          serializeWithFlags fq2Codec x (if fq2Codec.gt y (-y) then .positiveY else .negativeY) :=
            fun _ _ _ => rfl
        rw [e1] at he
        obtain ⟨_, hf, _⟩ := serializeWithFlags_inj fq2Codec_laws he
        split at hf <;> cases hf

include hs1 in
/-- C66: points of the curve outside the subgroup are refused as signatures. -/
theorem C66_signature_outside (s : G1Point) (h : FR_MODULUS • s ≠ 0) (rest : Bytes) :
    ∃ e, deserializeSignature sqrt1 (serializeSignature s ++ rest) = .err e := by
  have h0 : s ≠ 0 := by rintro rfl; exact h (nsmul_zero _)
  cases hd : deserializeSignature sqrt1 (serializeSignature s ++ rest) with
  | err e => exact ⟨e, rfl⟩
  | panic => exact absurd hd (deserialize_point_no_panic fqCodec_laws sqrt1 _)
  | ok r =>
    exfalso
    obtain ⟨s', rest'⟩ := r
    have h' := (C66_signature_iff hs1 _ _ _).mp hd
    have e1 : ∀ (x y : Fq) (h : g1Curve.Nonsingular x y), serializeSignature (.some x y h) =
      serializeWithFlags fqCodec x (if fqCodec.gt y (-y) then .positiveY else .negativeY) :=
        fun _ _ _ => rfl
    obtain ⟨hr, ⟨hne, he⟩ | ⟨rfl, x, he⟩⟩ := h'
    · cases s with
      | zero => exact h0 rfl
      | some x y hns =>
        cases s' with
        | zero => exact hne rfl
        | some x' y' hns' =>
          rw [e1, e1] at he
          obtain ⟨hx, _, _⟩ := serializeWithFlags_inj fqCodec_laws he
          subst hx
          have hy := (shortCurve_nonsingular g1_good x y).mp hns
          have hy' := (shortCurve_nonsingular g1_good x y').mp hns'
          have hyy : y = y' ∨ y = -y' := by
            rw [← sq_eq_sq_iff_eq_or_eq_neg, pow_two, pow_two, hy, hy']
          rcases hyy with e | e
          · subst e; exact h hr
          · apply h
            have : (Affine.Point.some x y hns : G1Point) = -Affine.Point.some x y' hns' := by
              rw [Affine.Point.neg_some]
              exact point_some_congr _ _ (by rw [e]; simp [Affine.negY, g1Curve])
            rw [this, neg_nsmul, hr, neg_zero]
    · have hm : 2 ^ 376 * SWFlags.infinity.mask.toNat = 2 ^ 382 := by decide +kernel
      rw [← hm, ← serializeWithFlags_fq] at he
      cases s with
      | zero => exact h0 rfl
      | some x' y hns =>
        rw [e1] at he
        obtain ⟨_, hf, _⟩ := serializeWithFlags_inj fqCodec_laws he
        split at hf <;> cases hf

include hs2 in
/-- C66, violation: infinity has as many accepted encodings as there are field elements; all of
them decode to the same (useless) public key. -/
theorem C66_violation_infinity (x : Fq2) (rest : Bytes) :
    deserializePublicKey sqrt2
      (leBytes 48 x.re.val ++ leBytes 48 (x.im.val + 2 ^ 382) ++ rest) = .ok (0, rest) := by
  rw [C66_public_key_iff hs2]
  exact ⟨nsmul_zero _, Or.inr ⟨rfl, x, rfl⟩⟩

end

/-- C66: private keys: exactly the canonical 32 bytes are accepted. -/
theorem C66_private_key_iff (stream rest : Bytes) (sk : ZMod FR_MODULUS) :
    deserializePrivateKey stream = .ok (sk, rest) ↔ stream = serializePrivateKey sk ++ rest := by
  have hne : NeZero FR_MODULUS := ⟨FR_prime.ne_zero⟩
  have hlt : ∀ s : ZMod FR_MODULUS, s.val < 256 ^ 32 := by
    intro s
    have h1 := ZMod.val_lt s
    have h2 : FR_MODULUS < 256 ^ 32 := by decide +kernel
    omega
  constructor
  · intro h
    unfold deserializePrivateKey at h
    split at h
    · cases h
    · rename_i hlen
      split at h
      · rename_i hv
        simp only [Outcome.ok.injEq, Prod.mk.injEq] at h
        obtain ⟨rfl, rfl⟩ := h
        have : serializePrivateKey ((leValue (stream.take 32) : ℕ) : ZMod FR_MODULUS) =
            stream.take 32 := by
          apply leValue_inj
          · rw [serializePrivateKey, leBytes_length, List.length_take]; omega
          · rw [serializePrivateKey, leBytes_value, Nat.mod_eq_of_lt (hlt _), ZMod.val_natCast,
              Nat.mod_eq_of_lt hv]
        rw [this, List.take_append_drop]
      · cases h
  · rintro rfl
    have hl : (serializePrivateKey sk).length = 32 := leBytes_length _ _
    unfold deserializePrivateKey
    rw [if_neg (by rw [List.length_append, hl]; omega), List.take_left' hl, List.drop_left' hl]
    have hv : leValue (serializePrivateKey sk) = sk.val := by
      rw [serializePrivateKey, leBytes_value, Nat.mod_eq_of_lt (hlt _)]
    rw [hv, if_pos (ZMod.val_lt sk), ZMod.natCast_zmod_val]

theorem isOverHalf_iff (y : Fq2) : isOverHalf y = true ↔ Larger2 y := by
  have hne : NeZero FQ_MODULUS := ⟨FQ_prime.ne_zero⟩
  have hodd : FQ_MODULUS = 2 * FQ_HALF + 1 := by decide +kernel
  have hz : y.im.val = 0 ↔ y.im = 0 := ZMod.val_eq_zero _
  simp only [isOverHalf, Larger2, Bool.or_eq_true, Bool.and_eq_true, decide_eq_true_eq, beq_iff_eq,
    hz]
  have e1 : y.im.val > FQ_HALF ↔ FQ_MODULUS < 2 * y.im.val := by omega
  have e2 : y.re.val > FQ_HALF ↔ FQ_MODULUS < 2 * y.re.val := by omega
  rw [e1, e2]

/-- C66: the sign flag of a serialised key is the sign bit of the key in the epoch encoding. -/
theorem C66_sign_bit (x y : Fq2) (h : g2Curve.Nonsingular x y) :
    ((serializePublicKey (.some x y h)).getLastD 0).toNat.testBit 7 =
      (encodePublicKey (.some x y h)).getLastD false := by
  have e : serializePublicKey (.some x y h) =
      serializeWithFlags fq2Codec x (if fq2Codec.gt y (-y) then .positiveY else .negativeY) := rfl
  have e2 : (encodePublicKey (.some x y h)).getLastD false = isOverHalf y := by
    simp [encodePublicKey, intoAffine]
  have ht := fq2Codec_laws.top_bits x
  have key : ∀ n < 64, (UInt8.ofNat n ||| 128).toNat.testBit 7 = true ∧
      (UInt8.ofNat n ||| 0).toNat.testBit 7 = false := by decide +kernel
  have := key _ ht
  rw [UInt8.ofNat_toNat] at this
  rw [e, e2]
  simp only [serializeWithFlags, List.getLastD_concat]
  by_cases hg : Larger2 y
  · rw [(isOverHalf_iff y).mpr hg, if_pos ((fq2Codec_gt_neg y).mpr hg)]
    exact this.1
  · rw [if_neg (fun h => hg ((fq2Codec_gt_neg y).mp h))]
    have : isOverHalf y = false := by
      cases hh : isOverHalf y
      · rfl
      · exact absurd ((isOverHalf_iff y).mp hh) hg
    rw [this]
    exact key _ ht |>.2 |> fun h => by rwa [UInt8.ofNat_toNat] at h

theorem fromU8_both (b : UInt8) (h : 192 ≤ b.toNat) : SWFlags.fromU8 b = none := by
  have h2 : ∀ b : UInt8, 192 ≤ b.toNat → SWFlags.fromU8 b = none := by decide +kernel
  exact h2 b h

theorem getLastD_take (stream : Bytes) (k : ℕ) (h : k < stream.length) :
    (stream.take (k + 1)).getLastD 0 = stream.getD k 0 := by
  rw [List.getLastD_eq_getLast?, List.getLast?_eq_getElem?, List.length_take,
    min_eq_left (by omega), List.getElem?_take, if_pos (by omega), List.getD_eq_getElem?_getD]
  rfl

/-- C66: a stream that is too short, or whose last byte has both flags set, is refused with the error for
that, before anything is decoded. -/
theorem C66_malformed (sqrt2 : Fq2 → Option Fq2) (sqrt1 : Fq → Option Fq) (stream : Bytes) :
    (stream.length < 96 → deserializePublicKey sqrt2 stream = .err .endOfInput) ∧
    (stream.length < 48 → deserializeSignature sqrt1 stream = .err .endOfInput) ∧
    (96 ≤ stream.length → 192 ≤ (stream.getD 95 0).toNat →
      deserializePublicKey sqrt2 stream = .err .unexpectedFlags) ∧
    (48 ≤ stream.length → 192 ≤ (stream.getD 47 0).toNat →
      deserializeSignature sqrt1 stream = .err .unexpectedFlags) := by
  have s2 : fq2Codec.size = 96 := rfl
  have s1 : fqCodec.size = 48 := rfl
  unfold deserializePublicKey deserializeSignature deserializeAffine deserializeWithFlags
  rw [s1, s2]
  refine ⟨fun h => ?_, fun h => ?_, fun h hb => ?_, fun h hb => ?_⟩
  · rw [if_pos h]; rfl
  · rw [if_pos h]; rfl
  · rw [if_neg (by omega)]
    simp only []
    rw [getLastD_take stream 95 (by omega), fromU8_both _ hb]
    rfl
  · rw [if_neg (by omega)]
    simp only []
    rw [getLastD_take stream 47 (by omega), fromU8_both _ hb]
    rfl

/-! ## Concrete cases -/

open Classical in
/-- A square root in the quadratic extension, by choice. -/
noncomputable def someSqrt2 (v : Fq2) : Option Fq2 :=
  if h : ∃ y, y * y = v then some h.choose else none

theorem someSqrt2_spec : RootSpec someSqrt2 where
  sound v y h := by
    unfold someSqrt2 at h
    split at h
    · rename_i hv
      cases h
      exact hv.choose_spec
    · cases h
  complete v h y hy := by
    unfold someSqrt2 at h
    rw [dif_pos ⟨y, hy⟩] at h
    cases h

theorem someSqrt_root : RootSpec someSqrt := ⟨someSqrt_spec.sound, someSqrt_spec.complete⟩

/-- The generator of G2 round-trips, followed by two bytes. -/
example : deserializePublicKey someSqrt2 (serializePublicKey g2Generator ++ [1, 2]) =
    .ok (g2Generator, [1, 2]) :=
  C66_public_key_roundtrip someSqrt2_spec g2Generator g2Generator_order [1, 2]

/-- A signature round-trips: the cofactor multiple of `(1, √2)`. -/
example : deserializeSignature someSqrt (serializeSignature (G1_COFACTOR • onePoint) ++ []) =
    .ok (G1_COFACTOR • onePoint, []) :=
  C66_signature_roundtrip someSqrt_root _ g1Sub_order []

/-- The point `(1, √2)` itself is on the curve and refused. -/
example : ∃ e, deserializeSignature someSqrt (serializeSignature onePoint ++ []) = .err e :=
  C66_signature_outside someSqrt_root onePoint onePoint_outside []

/-- Two different byte strings, both the infinite public key. -/
example : deserializePublicKey someSqrt2 (leBytes 48 5 ++ leBytes 48 (7 + 2 ^ 382)) = .ok (0, []) ∧
    deserializePublicKey someSqrt2 (leBytes 48 0 ++ leBytes 48 (0 + 2 ^ 382)) = .ok (0, []) := by
  have h1 := C66_violation_infinity someSqrt2_spec ⟨5, 7⟩ []
  have h2 := C66_violation_infinity someSqrt2_spec ⟨0, 0⟩ []
  rw [List.append_nil] at h1 h2
  exact ⟨h1, h2⟩

/-- Both flags set, on 96 bytes. -/
example : deserializePublicKey someSqrt2 (List.replicate 95 0 ++ [192]) = .err .unexpectedFlags :=
  (C66_malformed someSqrt2 someSqrt _).2.2.1 (by decide) (by decide)

/-- The private key 5. -/
example : deserializePrivateKey (serializePrivateKey 5 ++ [9]) = .ok (5, [9]) :=
  (C66_private_key_iff _ _ _).mpr rfl

end Verif
