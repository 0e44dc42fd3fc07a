import Verif.Lemmas.Encoding

/-!
# Properties of the epoch encodings and of the verifier: C27 to C34
-/

set_option exponentiation.threshold 800

namespace Verif

open WeierstrassCurve

/-! ## C27: integers -/

/-- C27: bit `i` of the encoding is bit `i` of the number; exactly 8, 16, 32 bits. -/
theorem C27_bits (a : UInt8) (b : UInt16) (c : UInt32) :
    encodeU8 a = (List.range 8).map a.toNat.testBit ∧
      encodeU16 b = (List.range 16).map b.toNat.testBit ∧
      encodeU32 c = (List.range 32).map c.toNat.testBit := by
  refine ⟨?_, ?_, ?_⟩
  · have := eq_range_map_testBit (encodeU8 a)
    rwa [encodeU8_length, encodeU8_value] at this
  · have := eq_range_map_testBit (encodeU16 b)
    rwa [encodeU16_length, encodeU16_value] at this
  · have := eq_range_map_testBit (encodeU32 c)
    rwa [encodeU32_length, encodeU32_value] at this

/-- C27: distinct numbers have distinct encodings. -/
theorem C27_injective : Function.Injective encodeU8 ∧ Function.Injective encodeU16 ∧
    Function.Injective encodeU32 :=
  ⟨fun _ _ => encodeU8_inj, fun _ _ => encodeU16_inj, fun _ _ => encodeU32_inj⟩

/-- Concrete case. -/
example : encodeU16 0x0102 = [false, true, false, false, false, false, false, false,
    true, false, false, false, false, false, false, false] := by decide

/-! ## C28: public keys -/

/-- C28: 755 bits. -/
theorem C28_length (pk : G2Point) : (encodePublicKey pk).length = 755 := encodePublicKey_length pk

/-- C28: the encoding determines the key, over all points of the curve including infinity. -/
theorem C28_injective : Function.Injective encodePublicKey := fun _ _ => encodePublicKey_inj

/-- C28: the layout: 377 bits of `x.c0`, 377 bits of `x.c1`, most significant first, and a sign. -/
theorem C28_layout {x y : Fq2} (h : g2Curve.Nonsingular x y) :
    ∃ b0 b1 : List Bool, b0.length = 377 ∧ b1.length = 377 ∧
      ofBitsLE b0.reverse = x.re.val ∧ ofBitsLE b1.reverse = x.im.val ∧
      encodePublicKey (.some x y h) = b0 ++ b1 ++ [isOverHalf y] :=
  ⟨_, _, encodeFq_length _, encodeFq_length _, encodeFq_value _, encodeFq_value _, rfl⟩

/-- C28: the sign bit distinguishes `y` from `-y`: of two opposite non-zero `y` exactly one is
flagged. -/
theorem C28_sign (y : Fq2) (hy : y ≠ 0) : isOverHalf (-y) = !isOverHalf y := isOverHalf_neg y hy

/-- C28: the sign bit is the lexicographic comparison (`c1` first) of `y` with `-y`. -/
theorem C28_sign_lex (y : Fq2) :
    isOverHalf y = true ↔ (-y).im.val < y.im.val ∨
      ((-y).im.val = y.im.val ∧ (-y).re.val < y.re.val) := by
  have h3 : FQ_MODULUS = 2 * FQ_HALF + 1 := by decide +kernel
  have key : ∀ c : Fq, (FQ_HALF < c.val ↔ (-c).val < c.val) ∧ ((-c).val = c.val ↔ c.val = 0) := by
    intro c
    by_cases hc : c = 0
    · subst hc; simp
    · have : NeZero c := ⟨hc⟩
      have h1 : c.val < FQ_MODULUS := ZMod.val_lt c
      have h2 : c.val ≠ 0 := fun e => hc ((ZMod.val_eq_zero c).mp e)
      rw [ZMod.val_neg_of_ne_zero]
      omega
  unfold isOverHalf
  simp only [QuadraticAlgebra.re_neg, QuadraticAlgebra.im_neg, gt_iff_lt, Bool.or_eq_true,
    decide_eq_true_eq, Bool.and_eq_true, beq_iff_eq]
  rw [(key y.im).1, (key y.re).1, (key y.im).2]

/-- C28: infinity is encoded as 755 zero bits, and no finite key is. -/
theorem C28_infinity (pk : G2Point) :
    encodePublicKey pk = List.replicate 755 false ↔ pk = 0 := by
  have h0 : encodePublicKey .zero = List.replicate 755 false := by
    unfold encodePublicKey
    simp only [intoAffine, QuadraticAlgebra.re_zero, QuadraticAlgebra.im_zero]
    have e1 : encodeFq 0 = List.replicate 377 false := by decide +kernel
    have e2 : isOverHalf 1 = false := by decide +kernel
    rw [e1, e2]
    decide +kernel
  rw [← h0]
  constructor
  · intro h; exact encodePublicKey_inj h
  · rintro rfl; rfl

/-- Concrete case: the generator of G2 and its negation are distinct keys, so the theorem separates
them although they share their `x` coordinate. -/
example : encodePublicKey g2Generator ≠ encodePublicKey (-g2Generator) := by
  intro h
  have := C28_injective h
  rw [Affine.Point.neg_def] at this
  simp only [g2Generator, Affine.Point.neg, Affine.Point.some.injEq, true_and] at this
  have h2 : g2GenY = -g2GenY := by
    calc g2GenY = g2Curve.negY g2GenX g2GenY := this
      _ = -g2GenY := by simp [Affine.negY, g2Curve]
  have h3 := C28_sign g2GenY g2GenY_ne_zero
  rw [← h2] at h3
  cases h4 : isOverHalf g2GenY <;> simp [h4] at h3

/-! ## C29: what signers commit to -/

/-- The sixteen bytes of entropy an encoding can carry: sixteen zeros if missing, the first sixteen
otherwise. -/
def canonicalEntropy (e : Option Bytes) : Bytes := (e.getD (List.replicate 16 0)).take 16

theorem leValue_take (k : ℕ) (e : Bytes) : leValue (e.take k) = leValue e % 256 ^ k := by
  induction k generalizing e with
  | zero => simp [leValue, Nat.mod_one]
  | succ k ih =>
    cases e with
    | nil => simp [leValue]
    | cons a as =>
      simp only [List.take_succ_cons, leValue, ih]
      rw [show (256 : ℕ) ^ (k + 1) = 256 * 256 ^ k by rw [pow_succ, Nat.mul_comm], Nat.mod_mul]
      have := a.toNat_lt
      have e1 : (a.toNat + 256 * leValue as) % 256 = a.toNat := by omega
      have e2 : (a.toNat + 256 * leValue as) / 256 = leValue as := by omega
      rw [e1, e2]

theorem encodeEntropy_eq (e : Option Bytes) :
    encodeEntropy e = (canonicalEntropy e).flatMap maskBits := by
  cases e with
  | none => rw [encodeEntropy_none]; decide +kernel
  | some e =>
    apply ofBitsLE_inj
    · rw [encodeEntropy_length_some, flatMap_maskBits_length]
      simp only [canonicalEntropy, Option.getD_some, List.length_take]
      omega
    · rw [encodeEntropy_value_some, flatMap_maskBits_value]
      simp only [canonicalEntropy, Option.getD_some]
      rw [leValue_take, show (256 : ℕ) ^ 16 = 2 ^ 128 by norm_num]

theorem flatMap_maskBits_inj {a b : Bytes} (h : a.flatMap maskBits = b.flatMap maskBits) :
    a = b := by
  have hl := congrArg List.length h
  have hv := congrArg ofBitsLE h
  rw [flatMap_maskBits_length, flatMap_maskBits_length] at hl
  rw [flatMap_maskBits_value, flatMap_maskBits_value] at hv
  exact leValue_inj (by omega) hv

theorem append_split {α : Type*} {a b c d : List α} (hl : a.length = c.length)
    (h : a ++ b = c ++ d) : a = c ∧ b = d := List.append_inj h hl

section

variable (gen : G2Point) (b b' : EpochBlock)

/-- C29: the signed message and extra data of two epochs are equal exactly when index, round,
threshold, both entropies (as sixteen bytes) and the padded key lists are equal.  Needs only that
entropies, when present, have at least sixteen bytes. -/
theorem C29_inner_iff
    (h1 : (canonicalEntropy b.epochEntropy).length = 16)
    (h2 : (canonicalEntropy b'.epochEntropy).length = 16)
    (h3 : (canonicalEntropy b.parentEntropy).length = 16)
    (h4 : (canonicalEntropy b'.parentEntropy).length = 16) :
    b.encodeInnerToBytes gen = b'.encodeInnerToBytes gen ↔
      b.index = b'.index ∧ b.round = b'.round ∧
        b.maximumNonSigners = b'.maximumNonSigners ∧
        canonicalEntropy b.epochEntropy = canonicalEntropy b'.epochEntropy ∧
        canonicalEntropy b.parentEntropy = canonicalEntropy b'.parentEntropy ∧
        b.paddedKeys gen = b'.paddedKeys gen := by
  unfold EpochBlock.encodeInnerToBytes EpochBlock.encodeInnerToBitsCip22
  simp only [encodeEntropy_eq, keyBits_eq, Prod.mk.injEq]
  constructor
  · rintro ⟨hi, he⟩
    have hil := congrArg List.length hi
    rw [C26_bytes_length, C26_bytes_length] at hil
    simp only [List.length_append, flatMap_maskBits_length, flatMap_key_length, h1, h2, h3, h4]
      at hil
    have hn : (b.paddedKeys gen).length = (b'.paddedKeys gen).length := by omega
    have hi := C26_injective (by
      simp only [List.length_append, flatMap_maskBits_length, flatMap_key_length, h1, h2, h3, h4,
        hn]) hi
    have he := C26_injective (by
      simp only [List.length_append, encodeU16_length, encodeU32_length, encodeU8_length]) he
    obtain ⟨hi, hk⟩ := append_split (by
      simp only [List.length_append, flatMap_maskBits_length, h1, h2, h3, h4]) hi
    obtain ⟨hi1, hi2⟩ := append_split (by
      simp only [flatMap_maskBits_length, h1, h2]) hi
    obtain ⟨he, he3⟩ := append_split (by
      simp only [List.length_append, encodeU16_length, encodeU8_length]) he
    obtain ⟨he1, he2⟩ := append_split (by simp only [encodeU16_length]) he
    exact ⟨encodeU16_inj he1, encodeU8_inj he2, encodeU32_inj he3, flatMap_maskBits_inj hi1,
      flatMap_maskBits_inj hi2, flatMap_key_inj hk⟩
  · rintro ⟨e1, e2, e3, e4, e5, e6⟩
    rw [e1, e2, e3, e4, e5, e6]
    exact ⟨rfl, rfl⟩

/-- C29 for epochs carrying two sixteen-byte entropies: everything but the split between keys and
padding is determined. -/
theorem C29_inner_determines {e e' p p' : Bytes}
    (h1 : b.epochEntropy = some e) (h2 : b'.epochEntropy = some e')
    (h3 : b.parentEntropy = some p) (h4 : b'.parentEntropy = some p')
    (l1 : e.length = 16) (l2 : e'.length = 16) (l3 : p.length = 16) (l4 : p'.length = 16)
    (h : b.encodeInnerToBytes gen = b'.encodeInnerToBytes gen) :
    b.index = b'.index ∧ b.round = b'.round ∧ b.maximumNonSigners = b'.maximumNonSigners ∧
      b.epochEntropy = b'.epochEntropy ∧ b.parentEntropy = b'.parentEntropy ∧
      b.paddedKeys gen = b'.paddedKeys gen := by
  have c : ∀ e : Bytes, e.length = 16 → canonicalEntropy (some e) = e := fun e he => by
    simp [canonicalEntropy, ← he]
  have := (C29_inner_iff gen b b' (by rw [h1, c e l1, l1]) (by rw [h2, c e' l2, l2])
    (by rw [h3, c p l3, l3]) (by rw [h4, c p' l4, l4])).mp h
  rw [h1, h2, h3, h4, c e l1, c e' l2, c p l3, c p' l4] at this
  rw [h1, h2, h3, h4]
  obtain ⟨a1, a2, a3, a4, a5, a6⟩ := this
  exact ⟨a1, a2, a3, by rw [a4], by rw [a5], a6⟩

/-- C29: epochs of different padded sizes have messages of different lengths. -/
theorem C29_lengths
    (h1 : (canonicalEntropy b.epochEntropy).length = 16)
    (h3 : (canonicalEntropy b.parentEntropy).length = 16) :
    (b.encodeInnerToBytes gen).1.length =
        (256 + 755 * max b.maximumValidators b.newPublicKeys.length + 7) / 8 ∧
      (b.encodeInnerToBytes gen).2.length = 7 := by
  unfold EpochBlock.encodeInnerToBytes EpochBlock.encodeInnerToBitsCip22
  simp only [encodeEntropy_eq, keyBits_eq]
  rw [C26_bytes_length, C26_bytes_length]
  simp only [List.length_append, flatMap_maskBits_length, flatMap_key_length, h1, h3,
    encodeU16_length, encodeU32_length, encodeU8_length]
  refine ⟨?_, trivial⟩
  have : (b.paddedKeys gen).length = max b.maximumValidators b.newPublicKeys.length := by
    unfold EpochBlock.paddedKeys
    rw [List.length_append, List.length_replicate]
    omega
  rw [this]

/-- C29: if neither epoch has a key equal to the padding key and the keys fit, the keys themselves
are determined. -/
theorem C29_keys_determined (hg : gen ∉ b.newPublicKeys) (hg' : gen ∉ b'.newPublicKeys)
    (h : b.paddedKeys gen = b'.paddedKeys gen) : b.newPublicKeys = b'.newPublicKeys := by
  unfold EpochBlock.paddedKeys at h
  have key : ∀ (l : List G2Point) (n : ℕ), gen ∉ l →
      (l ++ List.replicate n gen).takeWhile (fun x => @decide (x ≠ gen) (Classical.propDecidable _))
        = l := by
    intro l n hl
    rw [List.takeWhile_append_of_pos]
    · cases n with
      | zero => simp
      | succ n => simp [List.replicate_succ]
    · intro a ha
      simp only [decide_eq_true_eq]
      rintro rfl
      exact hl ha
  have := congrArg
    (List.takeWhile (fun x => @decide (x ≠ gen) (Classical.propDecidable _))) h
  rwa [key _ _ hg, key _ _ hg'] at this

end

/-- An epoch of two validators, with the generator's negation and infinity as keys, room for three. -/
noncomputable def sampleEpoch : EpochBlock where
  index := 7
  round := 3
  epochEntropy := some (List.replicate 16 0xAA)
  parentEntropy := some (List.replicate 16 0x55)
  maximumNonSigners := 1
  maximumValidators := 3
  newPublicKeys := [g2Generator, 0]

/-- Concrete case of C29: two epochs that differ in their round meet the hypotheses and have
different encodings. -/
example : sampleEpoch.encodeInnerToBytes g2Generator ≠
    { sampleEpoch with round := 4 }.encodeInnerToBytes g2Generator := by
  intro h
  have := C29_inner_determines g2Generator sampleEpoch { sampleEpoch with round := 4 }
    rfl rfl rfl rfl rfl rfl rfl rfl h
  exact absurd this.2.1 (by decide)

/-! ## C30: what the verifier commits to -/

section

variable (gen : G2Point) (b b' : EpochBlock)

/-- C30: the first epoch's encoding is determined by and determines index, parent entropy,
threshold and padded keys. -/
theorem C30_first_iff
    (h1 : (canonicalEntropy b.parentEntropy).length = 16)
    (h2 : (canonicalEntropy b'.parentEntropy).length = 16) :
    b.encodeFirstToBytes gen = b'.encodeFirstToBytes gen ↔
      b.index = b'.index ∧
        canonicalEntropy b.parentEntropy = canonicalEntropy b'.parentEntropy ∧
        b.maximumNonSigners = b'.maximumNonSigners ∧
        b.paddedKeys gen = b'.paddedKeys gen := by
  unfold EpochBlock.encodeFirstToBytes EpochBlock.encodeToBitsCip22
  simp only [encodeEntropy_eq, keyBits_eq]
  constructor
  · intro hi
    have hil := congrArg List.length hi
    rw [C26_bytes_length, C26_bytes_length] at hil
    simp only [List.length_append, flatMap_maskBits_length, flatMap_key_length, h1, h2,
      encodeU16_length, encodeU32_length] at hil
    have hn : (b.paddedKeys gen).length = (b'.paddedKeys gen).length := by omega
    have hi := C26_injective (by
      simp only [List.length_append, flatMap_maskBits_length, flatMap_key_length, h1, h2,
        encodeU16_length, encodeU32_length, hn]) hi
    obtain ⟨hi, hk⟩ := append_split (by
      simp only [List.length_append, flatMap_maskBits_length, h1, h2, encodeU16_length,
        encodeU32_length]) hi
    obtain ⟨hi, h3⟩ := append_split (by
      simp only [List.length_append, flatMap_maskBits_length, h1, h2, encodeU16_length]) hi
    obtain ⟨hi1, hi2⟩ := append_split (by simp only [encodeU16_length]) hi
    exact ⟨encodeU16_inj hi1, flatMap_maskBits_inj hi2, encodeU32_inj h3, flatMap_key_inj hk⟩
  · rintro ⟨e1, e2, e3, e4⟩
    rw [e1, e2, e3, e4]

/-- C30: the last epoch's encoding is determined by and determines index, epoch entropy, threshold,
padded keys and aggregate key. -/
theorem C30_last_iff
    (h1 : (canonicalEntropy b.epochEntropy).length = 16)
    (h2 : (canonicalEntropy b'.epochEntropy).length = 16) :
    b.encodeLastToBytes gen = b'.encodeLastToBytes gen ↔
      b.index = b'.index ∧
        canonicalEntropy b.epochEntropy = canonicalEntropy b'.epochEntropy ∧
        b.maximumNonSigners = b'.maximumNonSigners ∧
        b.paddedKeys gen = b'.paddedKeys gen ∧
        b.newPublicKeys.sum = b'.newPublicKeys.sum := by
  unfold EpochBlock.encodeLastToBytes EpochBlock.encodeLastToBits EpochBlock.encodeToBitsCip22
  simp only [encodeEntropy_eq, keyBits_eq]
  constructor
  · intro hi
    have hil := congrArg List.length hi
    rw [C26_bytes_length, C26_bytes_length] at hil
    simp only [List.length_append, flatMap_maskBits_length, flatMap_key_length, h1, h2,
      encodeU16_length, encodeU32_length, encodePublicKey_length] at hil
    have hn : (b.paddedKeys gen).length = (b'.paddedKeys gen).length := by omega
    have hi := C26_injective (by
      simp only [List.length_append, flatMap_maskBits_length, flatMap_key_length, h1, h2,
        encodeU16_length, encodeU32_length, encodePublicKey_length, hn]) hi
    obtain ⟨hi, ha⟩ := append_split (by
      simp only [List.length_append, flatMap_maskBits_length, flatMap_key_length, h1, h2,
        encodeU16_length, encodeU32_length, hn]) hi
    obtain ⟨hi, hk⟩ := append_split (by
      simp only [List.length_append, flatMap_maskBits_length, h1, h2, encodeU16_length,
        encodeU32_length]) hi
    obtain ⟨hi, h3⟩ := append_split (by
      simp only [List.length_append, flatMap_maskBits_length, h1, h2, encodeU16_length]) hi
    obtain ⟨hi1, hi2⟩ := append_split (by simp only [encodeU16_length]) hi
    exact ⟨encodeU16_inj hi1, flatMap_maskBits_inj hi2, encodeU32_inj h3, flatMap_key_inj hk,
      encodePublicKey_inj ha⟩
  · rintro ⟨e1, e2, e3, e4, e5⟩
    rw [e1, e2, e3, e4, e5]

end

/-- Concrete case of C30: changing the threshold changes both encodings. -/
example : sampleEpoch.encodeFirstToBytes g2Generator ≠
      { sampleEpoch with maximumNonSigners := 2 }.encodeFirstToBytes g2Generator ∧
    sampleEpoch.encodeLastToBytes g2Generator ≠
      { sampleEpoch with maximumNonSigners := 2 }.encodeLastToBytes g2Generator := by
  constructor
  · intro h
    exact absurd ((C30_first_iff _ _ _ (by decide) (by decide)).mp h).2.2.1 (by decide)
  · intro h
    exact absurd ((C30_last_iff _ _ _ (by decide) (by decide)).mp h).2.2.1 (by decide)

/-! ## C31: what the encodings do not distinguish -/

/-- All three CIP22 encodings of two epochs coincide. -/
def SameEncodings (gen : G2Point) (b b' : EpochBlock) : Prop :=
  b.encodeInnerToBytes gen = b'.encodeInnerToBytes gen ∧
    b.encodeFirstToBytes gen = b'.encodeFirstToBytes gen ∧
    b.encodeLastToBytes gen = b'.encodeLastToBytes gen

theorem sameEncodings_of {gen : G2Point} {b b' : EpochBlock}
    (e1 : b.index = b'.index) (e2 : b.round = b'.round)
    (e3 : b.maximumNonSigners = b'.maximumNonSigners)
    (e4 : canonicalEntropy b.epochEntropy = canonicalEntropy b'.epochEntropy)
    (e5 : canonicalEntropy b.parentEntropy = canonicalEntropy b'.parentEntropy)
    (e6 : b.paddedKeys gen = b'.paddedKeys gen)
    (e7 : b.newPublicKeys.sum = b'.newPublicKeys.sum) : SameEncodings gen b b' := by
  refine ⟨?_, ?_, ?_⟩
  · unfold EpochBlock.encodeInnerToBytes EpochBlock.encodeInnerToBitsCip22
    simp only [encodeEntropy_eq, keyBits_eq]
    rw [e1, e2, e3, e4, e5, e6]
  · unfold EpochBlock.encodeFirstToBytes EpochBlock.encodeToBitsCip22
    simp only [encodeEntropy_eq, keyBits_eq]
    rw [e1, e3, e5, e6]
  · unfold EpochBlock.encodeLastToBytes EpochBlock.encodeLastToBits EpochBlock.encodeToBitsCip22
    simp only [encodeEntropy_eq, keyBits_eq]
    rw [e1, e3, e4, e6, e7]

/-- C31, violated: an epoch without parent entropy and the same epoch with sixteen zero bytes are
different but have the same encodings. -/
theorem C31_violation_missing_entropy (gen : G2Point) (b : EpochBlock) :
    { b with parentEntropy := none } ≠ { b with parentEntropy := some (List.replicate 16 0) } ∧
    SameEncodings gen { b with parentEntropy := none }
      { b with parentEntropy := some (List.replicate 16 0) } := by
  constructor
  · intro h
    have := congrArg EpochBlock.parentEntropy h
    simp at this
  · exact sameEncodings_of rfl rfl rfl rfl (by simp [canonicalEntropy]) rfl rfl

/-- C31, violated: bytes of an entropy past the sixteenth are ignored. -/
theorem C31_violation_long_entropy (gen : G2Point) (b : EpochBlock) (e t t' : Bytes)
    (he : e.length = 16) :
    SameEncodings gen { b with epochEntropy := some (e ++ t) }
      { b with epochEntropy := some (e ++ t') } := by
  apply sameEncodings_of <;> try rfl
  simp [canonicalEntropy, he]

/-- C31, violated: padding is indistinguishable from validators registered with the padding key.
The signed message and the first-epoch encoding of an epoch with one more validator, holding the
generator key, are those of the epoch without it. -/
theorem C31_violation_padding (gen : G2Point) (b : EpochBlock)
    (h : b.newPublicKeys.length < b.maximumValidators) :
    { b with newPublicKeys := b.newPublicKeys ++ [gen] } ≠ b ∧
    { b with newPublicKeys := b.newPublicKeys ++ [gen] }.encodeInnerToBytes gen =
      b.encodeInnerToBytes gen ∧
    { b with newPublicKeys := b.newPublicKeys ++ [gen] }.encodeFirstToBytes gen =
      b.encodeFirstToBytes gen := by
  have hk : { b with newPublicKeys := b.newPublicKeys ++ [gen] }.paddedKeys gen =
      b.paddedKeys gen := by
    unfold EpochBlock.paddedKeys
    simp only [List.length_append, List.length_singleton, List.append_assoc]
    have : b.maximumValidators - b.newPublicKeys.length =
      (b.maximumValidators - (b.newPublicKeys.length + 1)) + 1 := by omega
    rw [this, List.replicate_succ]
    rfl
  refine ⟨?_, ?_, ?_⟩
  · intro e
    have := congrArg (fun x => x.newPublicKeys.length) e
    simp at this
  · unfold EpochBlock.encodeInnerToBytes EpochBlock.encodeInnerToBitsCip22
    simp only [keyBits_eq, hk]
  · unfold EpochBlock.encodeFirstToBytes EpochBlock.encodeToBitsCip22
    simp only [keyBits_eq, hk]

/-- C31, violated: entropies shorter than sixteen bytes are not padded, so bytes can move between
the epoch's entropy and its parent's without changing the signed message. -/
theorem C31_violation_short_entropy (gen : G2Point) (b : EpochBlock) (x y z : Bytes)
    (hx : x.length + y.length ≤ 16) (hz : y.length + z.length ≤ 16) :
    { b with epochEntropy := some (x ++ y), parentEntropy := some z }.encodeInnerToBytes gen =
    { b with epochEntropy := some x, parentEntropy := some (y ++ z) }.encodeInnerToBytes gen := by
  unfold EpochBlock.encodeInnerToBytes EpochBlock.encodeInnerToBitsCip22
  simp only [encodeEntropy_eq]
  have c : ∀ e : Bytes, e.length ≤ 16 → canonicalEntropy (some e) = e := fun e he => by
    simp only [canonicalEntropy, Option.getD_some]
    exact List.take_of_length_le he
  rw [c (x ++ y) (by simpa using hx), c z (by omega), c x (by omega),
    c (y ++ z) (by simpa using hz)]
  simp only [List.flatMap_append, List.append_assoc]
  rfl

/-- Concrete case of the last violation: entropies `[1, 2]`, `[3]` and `[1]`, `[2, 3]`. -/
example (gen : G2Point) :
    { sampleEpoch with epochEntropy := some [1, 2], parentEntropy := some [3] }.encodeInnerToBytes
      gen =
    { sampleEpoch with epochEntropy := some [1], parentEntropy := some [2, 3] }.encodeInnerToBytes
      gen :=
  C31_violation_short_entropy gen sampleEpoch [1] [2] [3] (by decide) (by decide)

example : sampleEpoch.newPublicKeys.length < sampleEpoch.maximumValidators := by
  simp [sampleEpoch]

/-! ## C32: the legacy encoding -/

/-- C32: two epochs have the same legacy encoding exactly when index, threshold and keys agree. -/
theorem C32_legacy_iff (b b' : EpochBlock) :
    b.encodeToBytes = b'.encodeToBytes ↔
      b.index = b'.index ∧ b.maximumNonSigners = b'.maximumNonSigners ∧
        b.newPublicKeys = b'.newPublicKeys := by
  unfold EpochBlock.encodeToBytes EpochBlock.encodeToBits
  constructor
  · intro hi
    have hil := congrArg List.length hi
    rw [C26_bytes_length, C26_bytes_length] at hil
    simp only [List.length_append, flatMap_key_length, encodeU16_length, encodeU32_length] at hil
    have hn : b.newPublicKeys.length = b'.newPublicKeys.length := by omega
    have hi := C26_injective (by
      simp only [List.length_append, flatMap_key_length, encodeU16_length, encodeU32_length,
        hn]) hi
    obtain ⟨hi, hk⟩ := append_split (by
      simp only [List.length_append, encodeU16_length, encodeU32_length]) hi
    obtain ⟨hi1, hi2⟩ := append_split (by simp only [encodeU16_length]) hi
    exact ⟨encodeU16_inj hi1, encodeU32_inj hi2, flatMap_key_inj hk⟩
  · rintro ⟨e1, e2, e3⟩
    rw [e1, e2, e3]

/-- C32: the legacy encoding ignores round, entropies and the maximum number of validators, while
the CIP22 message of epochs with different rounds differs whatever the rest. -/
theorem C32_ignores (gen : G2Point) (b : EpochBlock) (r : UInt8) (e p : Option Bytes) (m : ℕ) :
    { b with round := r, epochEntropy := e, parentEntropy := p,
             maximumValidators := m }.encodeToBytes = b.encodeToBytes ∧
    (r ≠ b.round → { b with round := r }.encodeInnerToBytes gen ≠ b.encodeInnerToBytes gen) := by
  refine ⟨rfl, ?_⟩
  intro hr h
  have := congrArg Prod.snd h
  simp only [EpochBlock.encodeInnerToBytes, EpochBlock.encodeInnerToBitsCip22] at this
  have he := C26_injective (by
    simp only [List.length_append, encodeU16_length, encodeU32_length, encodeU8_length]) this
  obtain ⟨he, he3⟩ := append_split (by
    simp only [List.length_append, encodeU16_length, encodeU8_length]) he
  obtain ⟨he1, he2⟩ := append_split (by simp only [encodeU16_length]) he
  exact hr (encodeU8_inj he2)

/-- Concrete case. -/
example : sampleEpoch.encodeToBytes ≠ { sampleEpoch with newPublicKeys := [0] }.encodeToBytes := by
  intro h
  have := ((C32_legacy_iff _ _).mp h).2.2
  simp [sampleEpoch] at this

/-! ## C33: packing -/

theorem chunk_value_lt {bits c : List Bool} (hc : c ∈ chunks 376 bits) :
    fromBitsBe c < 2 ^ 376 := by
  rw [fromBitsBe_eq]
  have h1 := ofBitsLE_lt c.reverse
  rw [List.length_reverse] at h1
  have h2 := (chunks_mem_length (by norm_num) bits c hc).1
  exact lt_of_lt_of_le h1 (Nat.pow_le_pow_right (by norm_num) h2)

/-- C33: packing never fails; each element is the big-endian value of a chunk of 376 bits. -/
theorem C33_pack_ok (bits : List Bool) :
    pack bits = .ok ((chunks 376 bits).map fun c => ((ofBitsLE c.reverse : ℕ) : Fq)) := by
  unfold pack
  rw [Outcome.mapM_eq_ok_iff, List.forall₂_map_right_iff, List.forall₂_same]
  intro c hc
  have h1 := chunk_value_lt hc
  have h2 := FQ_bounds.1
  simp only []
  rw [if_pos (by omega), fromBitsBe_eq]

/-- C33: the number of elements. -/
theorem C33_pack_length {bits : List Bool} {l : List Fq} (h : pack bits = .ok l) :
    l.length = (bits.length + 375) / 376 := by
  rw [C33_pack_ok] at h
  cases h
  rw [List.length_map, chunks_length (by norm_num)]
  rfl

/-- C33: for bit strings of equal length the packed elements determine the bits. -/
theorem C33_pack_injective {a b : List Bool} (hl : a.length = b.length)
    (h : pack a = pack b) : a = b := by
  rw [C33_pack_ok, C33_pack_ok] at h
  simp only [Outcome.ok.injEq] at h
  rw [← chunks_flatten (n := 376) (by norm_num) a, ← chunks_flatten (n := 376) (by norm_num) b]
  congr 1
  have hlen : (chunks 376 a).map List.length = (chunks 376 b).map List.length :=
    chunks_map_length (by norm_num) _ _ hl
  have hsmall : ∀ l : List Bool, ∀ c ∈ chunks 376 l, ofBitsLE c.reverse < FQ_MODULUS := by
    intro l c hc
    have h1 := chunk_value_lt hc
    rw [fromBitsBe_eq] at h1
    have h2 := FQ_bounds.1
    omega
  apply List.ext_getElem
  · have := congrArg List.length h
    simpa using this
  · intro i h1 h2
    have e1 : ((ofBitsLE (chunks 376 a)[i].reverse : ℕ) : Fq) =
        ((ofBitsLE (chunks 376 b)[i].reverse : ℕ) : Fq) := by
      have := congrArg (fun l => l[i]?) h
      simpa [h1, h2] using this
    have e2 : (chunks 376 a)[i].length = (chunks 376 b)[i].length := by
      have := congrArg (fun l => l[i]?) hlen
      simpa [h1, h2] using this
    have e3 := congrArg ZMod.val e1
    rw [ZMod.val_natCast_of_lt (hsmall _ _ (List.getElem_mem _)),
      ZMod.val_natCast_of_lt (hsmall _ _ (List.getElem_mem _))] at e3
    apply List.reverse_injective
    exact ofBitsLE_inj (by rw [List.length_reverse, List.length_reverse, e2]) e3

/-- C33: without equal lengths the packing is not injective. -/
theorem C33_not_injective : pack [true] = pack [false, true] := by
  rw [C33_pack_ok, C33_pack_ok]
  rw [chunks_cons (by norm_num) (l := [true]) (by simp),
    chunks_cons (by norm_num) (l := [false, true]) (by simp)]
  simp [chunks_nil, ofBitsLE]

/-! ## C34: the verifier -/

section

variable {VK Proof : Type*} (groth16 : VK → Proof → List Fq → Outcome Unit Bool)
  (gen : G2Point) (B : Blake2s) (vk : VK) (first last : EpochBlock) (proof : Proof)

/-- The parameters of the digests handed to the proof system: 32 bytes, sequential mode, output
domain as personalization. -/
def outParams : Blake2sParams :=
  { hashLength := 32, fanout := 1, maxDepth := 1, maxLeafLength := 0, nodeOffset := 0,
    innerHashLength := 0, personal := OUT_DOMAIN }

/-- The two public inputs: the 512 bits of two digests, each digest least significant bit first,
cut after 376 bits, read most significant bit first. -/
noncomputable def publicInputs : List Fq :=
  let bits := (B.run outParams (first.encodeFirstToBytes gen) ++
    B.run outParams (last.encodeLastToBytes gen)).flatMap maskBits
  [((ofBitsLE (bits.take 376).reverse : ℕ) : Fq), ((ofBitsLE (bits.drop 376).reverse : ℕ) : Fq)]

theorem hashFirstLast_eq : hashFirstLast gen B first last =
    (B.run outParams (first.encodeFirstToBytes gen) ++
      B.run outParams (last.encodeLastToBytes gen)).flatMap maskBits := by
  have key : ∀ x : Bytes, hashToBits B x = (B.run outParams x).flatMap maskBits := by
    intro x
    rw [hashToBits_eq]
    have hl : (B.run outParams x).length = 32 := B.length_run _ _
    apply ofBitsLE_inj
    · unfold bytesLeToBitsLe
      rw [List.length_reverse, C26_bits_length, flatMap_maskBits_length]
      rw [hl]
      change min 256 (8 * (B.run outParams x).length) = _
      rw [hl]
      rfl
    · unfold bytesLeToBitsLe
      rw [C26_bits_value, flatMap_maskBits_value]
      apply Nat.mod_eq_of_lt
      have := leValue_lt (B.run outParams x)
      rw [hl] at this
      calc _ < 256 ^ 32 := this
        _ = 2 ^ 256 := by norm_num
  unfold hashFirstLast
  rw [key, key, List.flatMap_append]

theorem pack_hashFirstLast : pack (hashFirstLast gen B first last) =
    .ok (publicInputs gen B first last) := by
  rw [C33_pack_ok, hashFirstLast_eq]
  have hl : ((B.run outParams (first.encodeFirstToBytes gen) ++
      B.run outParams (last.encodeLastToBytes gen)).flatMap maskBits).length = 512 := by
    rw [flatMap_maskBits_length, List.length_append, B.length_run, B.length_run]
    rfl
  unfold publicInputs
  simp only []
  generalize ((B.run outParams (first.encodeFirstToBytes gen) ++
      B.run outParams (last.encodeLastToBytes gen)).flatMap maskBits) = bits at hl
  have hne : bits ≠ [] := by rintro rfl; simp at hl
  have hne2 : bits.drop 376 ≠ [] := by
    intro h
    have := congrArg List.length h
    rw [List.length_drop, hl] at this
    simp at this
  rw [chunks_cons (by norm_num) hne]
  obtain ⟨c, cs, hc⟩ := List.exists_cons_of_ne_nil hne2
  have hlc : (c :: cs).length ≤ 376 := by
    rw [← hc, List.length_drop, hl]
    norm_num
  rw [hc, chunks_cons (by norm_num) (by simp), List.drop_eq_nil_of_le hlc, List.take_of_length_le hlc,
    chunks_nil]
  rfl

/-- C34: the verifier accepts exactly when the proof system accepts the proof for the two public
inputs computed from the digests of the encodings of the first and the last epoch. -/
theorem C34_accepts_iff :
    verifyEpochs groth16 gen B vk first last proof = .ok () ↔
      groth16 vk proof (publicInputs gen B first last) = .ok true := by
  unfold verifyEpochs
  simp only [pack_hashFirstLast]
  cases groth16 vk proof (publicInputs gen B first last) with
  | ok a => cases a <;> simp
  | err e => simp
  | panic => simp

/-- C34: how it fails. -/
theorem C34_rejects :
    (verifyEpochs groth16 gen B vk first last proof = .err .verificationFailed ↔
      groth16 vk proof (publicInputs gen B first last) = .ok false) ∧
    (verifyEpochs groth16 gen B vk first last proof = .panic ↔
      groth16 vk proof (publicInputs gen B first last) = .panic) := by
  unfold verifyEpochs
  simp only [pack_hashFirstLast]
  cases groth16 vk proof (publicInputs gen B first last) with
  | ok a => cases a <;> simp
  | err e => simp
  | panic => simp

/-- C34: equal public inputs mean equal pairs of digests. -/
theorem C34_public_inputs_injective (first' last' : EpochBlock)
    (h : publicInputs gen B first last = publicInputs gen B first' last') :
    B.run outParams (first.encodeFirstToBytes gen) =
        B.run outParams (first'.encodeFirstToBytes gen) ∧
      B.run outParams (last.encodeLastToBytes gen) =
        B.run outParams (last'.encodeLastToBytes gen) := by
  have hp : pack (hashFirstLast gen B first last) = pack (hashFirstLast gen B first' last') := by
    rw [pack_hashFirstLast, pack_hashFirstLast, h]
  have hb := C33_pack_injective (by
    unfold hashFirstLast
    simp only [List.length_append, hashToBits_length]) hp
  rw [hashFirstLast_eq, hashFirstLast_eq] at hb
  exact append_split (by rw [B.length_run, B.length_run]) (flatMap_maskBits_inj hb)

/-- C34 with C30: if the digest does not collide on the encodings in question (it cannot be injective on all inputs), a proof accepted for
one statement is the acceptance of another statement only if both agree on everything the
verifier is told. -/
theorem C34_binds (first' last' : EpochBlock)
    (hcr : B.run outParams (first.encodeFirstToBytes gen) =
        B.run outParams (first'.encodeFirstToBytes gen) →
      first.encodeFirstToBytes gen = first'.encodeFirstToBytes gen)
    (hcr' : B.run outParams (last.encodeLastToBytes gen) =
        B.run outParams (last'.encodeLastToBytes gen) →
      last.encodeLastToBytes gen = last'.encodeLastToBytes gen)
    (h1 : (canonicalEntropy first.parentEntropy).length = 16)
    (h2 : (canonicalEntropy first'.parentEntropy).length = 16)
    (h3 : (canonicalEntropy last.epochEntropy).length = 16)
    (h4 : (canonicalEntropy last'.epochEntropy).length = 16)
    (h : publicInputs gen B first last = publicInputs gen B first' last') :
    (first.index = first'.index ∧
      canonicalEntropy first.parentEntropy = canonicalEntropy first'.parentEntropy ∧
      first.maximumNonSigners = first'.maximumNonSigners ∧
      first.paddedKeys gen = first'.paddedKeys gen) ∧
    (last.index = last'.index ∧
      canonicalEntropy last.epochEntropy = canonicalEntropy last'.epochEntropy ∧
      last.maximumNonSigners = last'.maximumNonSigners ∧
      last.paddedKeys gen = last'.paddedKeys gen ∧
      last.newPublicKeys.sum = last'.newPublicKeys.sum) := by
  obtain ⟨e1, e2⟩ := C34_public_inputs_injective gen B first last first' last' h
  exact ⟨(C30_first_iff gen _ _ h1 h2).mp (hcr e1),
    (C30_last_iff gen _ _ h3 h4).mp (hcr' e2)⟩

end

/-- Concrete case: a proof system that accepts any proof for two inputs, and one that accepts for
three; the verifier accepts with the first and rejects with the second. -/
example (gen : G2Point) (B : Blake2s) :
    verifyEpochs (fun (_ _ : Unit) l => .ok (l.length == 2)) gen B () sampleEpoch sampleEpoch () =
        .ok () ∧
      verifyEpochs (fun (_ _ : Unit) l => .ok (l.length == 3)) gen B () sampleEpoch sampleEpoch () =
        .err .verificationFailed :=
  ⟨(C34_accepts_iff _ _ _ _ _ _ _).mpr rfl, (C34_rejects _ _ _ _ _ _ _).1.mpr rfl⟩

/-- Two numbers with different encodings, and the 755 bits of the generator. -/
example : encodeU16 258 ≠ encodeU16 513 ∧ (encodePublicKey g2Generator).length = 755 :=
  ⟨fun h => absurd (C27_injective.2.1 h) (by decide), C28_length g2Generator⟩

/-- The generator is not encoded as zeros. -/
example : encodePublicKey g2Generator ≠ List.replicate 755 false := fun h => by
  cases (C28_infinity g2Generator).mp h

/-- The signed message of `sampleEpoch`, padded to three keys: 316 bytes and 7 bytes of extra data. -/
example : (sampleEpoch.encodeInnerToBytes g2Generator).1.length = 316 ∧
    (sampleEpoch.encodeInnerToBytes g2Generator).2.length = 7 :=
  C29_lengths g2Generator sampleEpoch rfl rfl

/-- One and two keys at infinity, both padded with the generator, stay different. -/
example : { sampleEpoch with newPublicKeys := [0] }.paddedKeys g2Generator ≠
    { sampleEpoch with newPublicKeys := [0, 0] }.paddedKeys g2Generator := fun h => by
  have h0 : g2Generator ≠ 0 := by intro h; cases h
  have := C29_keys_determined g2Generator { sampleEpoch with newPublicKeys := [0] }
    { sampleEpoch with newPublicKeys := [0, 0] } (by simpa using h0) (by simpa using h0) h
  simp at this

/-- A seventeenth byte of entropy is ignored; a third key that is the padding key is not seen. -/
example : SameEncodings g2Generator
      { sampleEpoch with epochEntropy := some (List.replicate 16 1 ++ [2]) }
      { sampleEpoch with epochEntropy := some (List.replicate 16 1 ++ [3]) } ∧
    { sampleEpoch with newPublicKeys := sampleEpoch.newPublicKeys ++ [g2Generator] }.encodeInnerToBytes
      g2Generator = sampleEpoch.encodeInnerToBytes g2Generator :=
  ⟨C31_violation_long_entropy g2Generator sampleEpoch (List.replicate 16 1) [2] [3] rfl,
    (C31_violation_padding g2Generator sampleEpoch (by simp [sampleEpoch])).2.1⟩

/-- Two different lists of two bits give different packed elements. -/
example : pack [true, false] ≠ pack [false, true] := fun h => by
  simpa using C33_pack_injective (by rfl) h

open Classical in
/-- A hash that tells the encodings of two first blocks apart. -/
noncomputable def tellApart (x : Bytes) : Blake2s where
  run p m := List.replicate p.hashLength (if m = x then 0 else 1)
  length_run _ _ := List.length_replicate

/-- With such a hash, the public inputs of first blocks with different thresholds differ. -/
example : publicInputs g2Generator (tellApart (sampleEpoch.encodeFirstToBytes g2Generator))
      sampleEpoch sampleEpoch ≠
    publicInputs g2Generator (tellApart (sampleEpoch.encodeFirstToBytes g2Generator))
      { sampleEpoch with maximumNonSigners := 2 } sampleEpoch := fun h => by
  have := C34_binds g2Generator (tellApart (sampleEpoch.encodeFirstToBytes g2Generator))
    sampleEpoch sampleEpoch { sampleEpoch with maximumNonSigners := 2 } sampleEpoch
    (fun he => by
      by_contra hne
      simp only [tellApart, if_pos, if_neg (Ne.symm hne)] at he
      exact absurd (congrArg (fun l : Bytes => l.getD 0 7) he) (by decide))
    (fun _ => rfl) rfl rfl rfl rfl h
  exact absurd this.1.2.2.1 (by decide)

end Verif
