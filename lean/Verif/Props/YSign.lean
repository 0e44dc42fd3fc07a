import Verif.Props.HashToCurve

/-!
# C24: the flag made from a sign

`YSignFlags::from_y_sign` (`crates/bls-crypto/src/hash_to_curve/mod.rs:85-91`) is exported but not
called inside the workspace.  Its meaning is fixed here: it is what a caller has to put in front of
an x coordinate for `from_random_bytes` to find the point again.
-/

set_option exponentiation.threshold 800

namespace Verif

/-- C24: the flag made from a sign carries this sign, never means infinity, and is encoded by
bit 7 alone. -/
theorem C24_from_sign (s : Bool) :
    (YSignFlags.fromYSign s).isPositive = some s ∧
      (YSignFlags.fromYSign s).isInfinity = false ∧
      (YSignFlags.fromYSign s).u8Bitmask.toNat = if s then 128 else 0 := by
  cases s <;> decide

theorem sign_byte : ∀ b : UInt8, b.toNat < 2 → ∀ s : Bool,
    (b ||| (YSignFlags.fromYSign s).u8Bitmask).toNat % 2 = b.toNat ∧
    (b ||| (YSignFlags.fromYSign s).u8Bitmask).toNat.testBit 6 = false ∧
    (b ||| (YSignFlags.fromYSign s).u8Bitmask).toNat.testBit 7 = s := by
  decide +kernel

/-- C24: take any point of the curve, write its x coordinate as 48 little-endian bytes, and put the
flag made from the sign of its y coordinate into the last byte: decoding gives the point back. -/
theorem C24_point_encoding {sqrt : Fq → Option Fq} (hs : SqrtSpec sqrt) (x y : Fq)
    (hxy : y * y = x ^ 3 + 1) (init : Bytes) (b : UInt8) (hi : init.length = 47)
    (hx : leValue (init ++ [b]) = x.val) :
    fromRandomBytes sqrt
        (init ++ [b ||| (YSignFlags.fromYSign (decide ((-y).val < y.val))).u8Bitmask]) =
      some (.finite x y) := by
  have : NeZero FQ_MODULUS := ⟨by decide +kernel⟩
  have hlt : x.val < FQ_MODULUS := ZMod.val_lt x
  have hb : b.toNat < 2 := by
    have h1 := leValue_snoc init b hi
    have h2 : FQ_MODULUS < 2 ^ 377 := by decide +kernel
    rw [hx] at h1
    by_contra hc
    have h3 : 2 ^ 376 * 2 ≤ 2 ^ 376 * b.toNat := Nat.mul_le_mul_left _ (by omega)
    have h4 : (2 : ℕ) ^ 376 * 2 = 2 ^ 377 := by norm_num
    omega
  set s := decide ((-y).val < y.val) with hsd
  obtain ⟨b1, b2, b3⟩ := sign_byte b hb s
  set c := b ||| (YSignFlags.fromYSign s).u8Bitmask with hc
  rw [fromRandomBytes_iff hs _ (by simp [hi])]
  have hmod : leValue (init ++ [c]) % 2 ^ 377 = x.val := by
    rw [← hx, mod_snoc init c hi, leValue_snoc init _ hi, leValue_snoc init _ hi, byte_and_one, b1]
  have t7 : (leValue (init ++ [c])).testBit 383 = s := (testBit_snoc init c hi 7).trans b3
  have t6 : (leValue (init ++ [c])).testBit 382 = false := (testBit_snoc init c hi 6).trans b2
  simp only [Decodes]
  rw [hmod, t7, t6]
  refine ⟨hlt, by simp, (ZMod.natCast_zmod_val x).symm, hxy, ?_⟩
  by_cases h : (-y).val < y.val
  · rw [if_pos (by simp [hsd, h])]; exact le_of_lt h
  · rw [if_neg (by simp [hsd, h])]; exact not_lt.mp h

/-- The two points with `x = 1`: the same 47 bytes, and last byte `0x80` or `0`. -/
example : fromRandomBytes someSqrt ((1 :: List.replicate 46 0) ++ [0x00]) =
      some (.finite 1 sqrtTwo) ∧
    fromRandomBytes someSqrt ((1 :: List.replicate 46 0) ++ [0x80]) =
      some (.finite 1 (-sqrtTwo)) := by
  have h1 := C24_point_encoding someSqrt_spec 1 sqrtTwo (by rw [sqrtTwo_sq]; norm_num)
    (1 :: List.replicate 46 0) 0 (by decide) (by decide +kernel)
  have h2 := C24_point_encoding someSqrt_spec 1 (-sqrtTwo)
    (by rw [neg_mul_neg, sqrtTwo_sq]; norm_num)
    (1 :: List.replicate 46 0) 0 (by decide) (by decide +kernel)
  rw [neg_neg] at h2
  rw [decide_eq_false (not_lt_of_gt sqrtTwo_small)] at h1
  rw [decide_eq_true sqrtTwo_small] at h2
  exact ⟨h1, h2⟩

end Verif
