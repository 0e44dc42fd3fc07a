import Verif.Lemmas.Pedersen
import Verif.Lemmas.Edwards
import Verif.Lemmas.EdwardsOrder
import Verif.Lemmas.EdwardsAdd
import Verif.Props.EndToEnd
import Verif.Props.FfiSpec

/-!
# C85: the Pedersen hash of the composite hasher

Its parameters, its value, when it panics, and what a collision would mean.
-/

set_option exponentiation.threshold 800

namespace Verif

open Finset

/-- Specification: bit `t` of the message, as a number. -/
def crhBit (message : Bytes) (t : ℕ) : ℤ := if (leValue message).testBit t then 1 else 0

/-- Specification: what the message puts in front of the base of window `i`.  Bits are taken three at
a time, 93 triples to a window; triple `j` of a window stands for a digit from `±1, …, ±4` at `16^j`. -/
def crhCoefficient (message : Bytes) (i : ℕ) : ℤ :=
  ∑ j ∈ range 93, (if 3 * (93 * i + j) < 8 * message.length then
    (1 - 2 * crhBit message (3 * (93 * i + j) + 2)) *
      (1 + crhBit message (3 * (93 * i + j)) + 2 * crhBit message (3 * (93 * i + j) + 1))
    else 0) * 16 ^ j

theorem crhCoefficient_eq (m : Bytes) (i : ℕ) :
    crhCoefficient m i = ∑ j ∈ range 93, messageDigit m (93 * i + j) * 16 ^ j := by
  have hb : ∀ t, crhBit m t = (((leValue m).testBit t).toNat : ℤ) := by
    intro t; unfold crhBit; cases (leValue m).testBit t <;> rfl
  unfold crhCoefficient messageDigit digit
  simp only [hb]

/-- Specification: the generators that belong to bases of the windows. -/
def crhGenerators {M : Type*} [AddCommGroup M] (base : ℕ → M) : List (List M) :=
  (List.range 560).map fun i => (List.range 93).map fun j => (16 : ℤ) ^ j • base i

theorem crhGenerators_eq {M : Type*} [AddCommGroup M] (base : ℕ → M) :
    (List.range CRH_NUM_WINDOWS).map (fun i => windowGenerators CRH_WINDOW_SIZE (base i)) =
      crhGenerators base := by
  have h1 : CRH_NUM_WINDOWS = 560 := rfl
  have h2 : CRH_WINDOW_SIZE = 93 := rfl
  rw [h1, h2]
  simp only [windowGenerators_eq]
  rfl

theorem crhMaxChunks_fuel (upper k : ℕ) : ∀ (f range : ℕ), upper ≤ range * 16 ^ f →
    crhMaxChunks upper (f + k) range = crhMaxChunks upper f range
  | 0, range, h => by
    cases k with
    | zero => rfl
    | succ k =>
      have h' : ¬ range < upper := by simpa using h
      rw [Nat.zero_add]
      simp only [crhMaxChunks, h', if_false]
  | f + 1, range, h => by
    rw [Nat.add_right_comm, crhMaxChunks, crhMaxChunks, crhMaxChunks_fuel upper k f (range * 16)
      (by rw [pow_succ] at h; linarith)]

/-- **C85.** The check of `H::setup` allows exactly 93 chunks in a window of this curve (however long its
loop may run), and 93 is right: with 93 the difference of two windows cannot reach the order of the
group, with 94 it could. -/
theorem C85_window (k : ℕ) :
    crhMaxChunks ((ED_ORDER - 1) / 2) (400 + k) 2 = 93 ∧
    2 * (4 * (16 ^ 93 - 1) / 15) < ED_ORDER ∧ ED_ORDER ≤ 2 * (4 * (16 ^ 94 - 1) / 15) := by
  refine ⟨?_, by decide +kernel, by decide +kernel⟩
  rw [crhMaxChunks_fuel _ _ _ _ (by decide +kernel)]
  decide +kernel

/-- **C85.** `CompositeHasher::new` does not fail or panic: the parameters are those of bases drawn with a
32-byte seed that depends on nothing but BLAKE2s. -/
theorem C85_setup (B : Blake2s) : ∃ seed : Bytes, seed.length = 32 ∧
    ∀ {M : Type} [AddCommGroup M] (draw : Bytes → ℕ → M),
      setupCrh B draw = .ok (crhGenerators (draw seed)) := by
  have h : ∃ seed, crhSeed B = .ok seed ∧ seed.length = 32 := by
    unfold crhSeed
    refine ⟨_, rfl, ?_⟩
    rw [List.length_take, B.length_run]
    rfl
  obtain ⟨seed, h1, h2⟩ := h
  refine ⟨seed, h2, fun draw => ?_⟩
  unfold setupCrh
  have hc := (C85_window 0).1
  rw [Nat.add_zero] at hc
  rw [h1, Outcome.bind_ok, hc, if_neg (by decide), crhGenerators_eq]

/-- **C85.** The hash is the sum of the coefficients times the bases. -/
theorem C85_value {M : Type*} [AddCommGroup M] (base : ℕ → M) (m : Bytes) (h : m.length ≤ 19530) :
    evaluateCrh (crhGenerators base) m = .ok (∑ i ∈ range 560, crhCoefficient m i • base i) := by
  rw [← crhGenerators_eq, evaluateCrh_eq base m h]
  simp only [crhCoefficient_eq]

/-- **C85.** It panics on messages of more than 19530 bytes, and on no others; it never returns an
error. -/
theorem C85_panic {M : Type*} [AddCommGroup M] (x : M → Fq) (base : ℕ → M) (m : Bytes) :
    (pedersenCrh x (crhGenerators base) m = .panic ↔ 19530 < m.length) ∧
    (∀ e, pedersenCrh x (crhGenerators base) m ≠ .err e) := by
  unfold pedersenCrh
  by_cases h : m.length ≤ 19530
  · rw [C85_value base m h, Outcome.map_ok]
    refine ⟨⟨fun e => ?_, fun e => ?_⟩, fun e he => ?_⟩
    · cases e
    · omega
    · cases he
  · rw [evaluateCrh_panic _ m (by omega)]
    refine ⟨⟨fun _ => by omega, fun _ => rfl⟩, fun e he => ?_⟩
    cases he

/-- **C85.** The output is 48 bytes: the `x` coordinate, below the modulus. -/
theorem C85_output {M : Type*} [AddCommGroup M] (x : M → Fq) (base : ℕ → M) (m : Bytes)
    (h : m.length ≤ 19530) : ∃ out, pedersenCrh x (crhGenerators base) m = .ok out ∧
      out.length = 48 ∧ leValue out < FQ_MODULUS ∧
      (leValue out : Fq) = x (∑ i ∈ range 560, crhCoefficient m i • base i) := by
  refine ⟨_, by unfold pedersenCrh; rw [C85_value base m h, Outcome.map_ok], leBytes_length _ _, ?_, ?_⟩
  · rw [leBytes48_value]; exact ZMod.val_lt _
  · rw [leBytes48_value, ZMod.natCast_val, ZMod.cast_id]

/-- **C85.** Different messages, of whatever lengths, differ in a coefficient, and the differences stay
below the order: nothing wraps around. -/
theorem C85_coefficients (a b : Bytes) (ha : a.length ≤ 19530) (hb : b.length ≤ 19530) :
    (∀ i, |crhCoefficient a i - crhCoefficient b i| < ED_ORDER) ∧
    (a ≠ b → ∃ i < 560, crhCoefficient a i ≠ crhCoefficient b i) := by
  constructor
  · intro i
    rw [crhCoefficient_eq, crhCoefficient_eq]
    have h1 := digits_bound 93 (fun j => messageDigit a (93 * i + j)) fun j => messageDigit_bound a _
    have h2 := digits_bound 93 (fun j => messageDigit b (93 * i + j)) fun j => messageDigit_bound b _
    have h3 := abs_sub (∑ j ∈ range 93, messageDigit a (93 * i + j) * 16 ^ j)
      (∑ j ∈ range 93, messageDigit b (93 * i + j) * 16 ^ j)
    have h4 : (8 * (16 ^ 93 - 1) : ℤ) < 15 * ED_ORDER := by decide +kernel
    linarith
  · intro hne
    by_contra hc
    push Not at hc
    apply hne
    apply messageDigit_inj ha hb
    intro k hk
    have h1 := hc (k / 93) (by omega)
    rw [crhCoefficient_eq, crhCoefficient_eq] at h1
    have h2 := digits_unique 93 (fun j => messageDigit a (93 * (k / 93) + j))
      (fun j => messageDigit b (93 * (k / 93) + j)) (fun j => messageDigit_bound a _)
      (fun j => messageDigit_bound b _) h1 (k % 93) (Nat.mod_lt _ (by norm_num))
    simpa only [Nat.div_add_mod] using h2

theorem ed_order_odd : Odd ED_ORDER := by
  rw [Nat.odd_iff]; decide +kernel

theorem sum_order (base : ℕ → EdPoint) (hbase : ∀ i < 560, ED_ORDER • base i = 0) (c : ℕ → ℤ) :
    ED_ORDER • (∑ i ∈ range 560, c i • base i) = 0 := by
  rw [smul_sum]
  apply sum_eq_zero
  intro i hi
  rw [smul_comm, hbase i (mem_range.mp hi), zsmul_zero]

/-- **C85.** Two messages have the same hash exactly if the bases satisfy the relation given by the
differences of the coefficients: cutting the hash to its `x` coordinate adds no collisions. -/
theorem C85_collision_iff (base : ℕ → EdPoint) (hbase : ∀ i < 560, ED_ORDER • base i = 0)
    (a b : Bytes) (ha : a.length ≤ 19530) (hb : b.length ≤ 19530) :
    pedersenCrh edX (crhGenerators base) a = pedersenCrh edX (crhGenerators base) b ↔
      ∑ i ∈ range 560, (crhCoefficient a i - crhCoefficient b i) • base i = 0 := by
  unfold pedersenCrh
  rw [C85_value base a ha, C85_value base b hb, Outcome.map_ok, Outcome.map_ok]
  simp only [sub_smul, sum_sub_distrib, sub_eq_zero]
  have oa := sum_order base hbase (crhCoefficient a)
  have ob := sum_order base hbase (crhCoefficient b)
  generalize ∑ i ∈ range 560, crhCoefficient a i • base i = P at oa ⊢
  generalize ∑ i ∈ range 560, crhCoefficient b i • base i = Q at ob ⊢
  constructor
  · intro h
    apply edX_inj ed_order_odd oa ob
    have h' : leBytes 48 (edX P).val = leBytes 48 (edX Q).val := Outcome.ok.inj h
    have := congrArg leValue h'
    rw [leBytes48_value, leBytes48_value] at this
    exact ZMod.val_injective _ this
  · rintro rfl; rfl

/-- **C85.** A collision gives a non-trivial relation between the bases, with the differences of the
coefficients as factors: some factor is not a multiple of the order. -/
theorem C85_collision (base : ℕ → EdPoint) (hbase : ∀ i < 560, ED_ORDER • base i = 0)
    (a b out : Bytes) (hne : a ≠ b) (ha : pedersenCrh edX (crhGenerators base) a = .ok out)
    (hb : pedersenCrh edX (crhGenerators base) b = .ok out) :
    (∃ i < 560, ¬ (ED_ORDER : ℤ) ∣ crhCoefficient a i - crhCoefficient b i) ∧
      ∑ i ∈ range 560, (crhCoefficient a i - crhCoefficient b i) • base i = 0 := by
  have la : a.length ≤ 19530 := by
    by_contra h
    rw [(C85_panic edX base a).1.mpr (by omega)] at ha; cases ha
  have lb : b.length ≤ 19530 := by
    by_contra h
    rw [(C85_panic edX base b).1.mpr (by omega)] at hb; cases hb
  obtain ⟨hs, hd⟩ := C85_coefficients a b la lb
  obtain ⟨i, hi, h⟩ := hd hne
  refine ⟨⟨i, hi, fun hdvd => ?_⟩,
    (C85_collision_iff base hbase a b la lb).mp (by rw [ha, hb])⟩
  exact h (sub_eq_zero.mp (Int.eq_zero_of_abs_lt_dvd hdvd (hs i)))

/-- **C85.** The points of the model are exactly the solutions of `-x² + y² = 1 + d x² y²`, the curve of the
CRH. -/
theorem C85_points (x y : Fq) :
    (∃! P : EdPoint, edX P = x ∧ edY P = y) ↔ -x ^ 2 + y ^ 2 = 1 + ED_D * x ^ 2 * y ^ 2 := by
  constructor
  · rintro ⟨P, ⟨rfl, rfl⟩, _⟩
    exact ed_on_curve P
  · intro h
    obtain ⟨P, hx, hy⟩ := ed_surjective h
    exact ⟨P, ⟨hx, hy⟩, fun Q hQ => edXY_inj (hQ.1.trans hx.symm) (hQ.2.trans hy.symm)⟩

/-- **C85.** Their addition is the addition of the Edwards curve, whose formulas never divide by zero. -/
theorem C85_addition (P Q : EdPoint) :
    edX (P + Q) = (edX P * edY Q + edY P * edX Q) / (1 + ED_D * edX P * edX Q * edY P * edY Q) ∧
    edY (P + Q) = (edY P * edY Q + edX P * edX Q) / (1 - ED_D * edX P * edX Q * edY P * edY Q) ∧
    1 + ED_D * edX P * edX Q * edY P * edY Q ≠ 0 ∧ 1 - ED_D * edX P * edX Q * edY P * edY Q ≠ 0 := by
  obtain ⟨h1, h2⟩ := ed_complete P Q
  obtain ⟨h3, h4⟩ := ed_add P Q
  exact ⟨(eq_div_iff h1).mpr h3, (eq_div_iff h2).mpr h4, h1, h2⟩

/-- **C85.** Through the C interface: `hash_crh` panics (it does not return `false`) on messages of more
than 19530 bytes. -/
theorem C85_ffi {M : Type*} [AddCommGroup M] (B : Blake2s) (x : M → Fq) (base : ℕ → M) (m : Bytes)
    (n : ℕ) (out : BytesOut) :
    (ffiHashCrh (compositeHasher B (pedersenCrh x (crhGenerators base))) m n out).1 = .panic ↔
      19530 < m.length := by
  rw [← (C85_panic x base m).1]
  simp only [ffiHashCrh, lift_write_eq, compositeHasher]
  cases h : pedersenCrh x (crhGenerators base) m <;> simp

/-- **C85.** Hashing an epoch block to the curve panics as soon as it stands for 207 keys (its own and
those it is padded with), whatever the keys. -/
theorem C85_epoch {M G : Type*} [AddCommGroup M] [Zero G] [DecidableEq G] (B : Blake2s) (x : M → Fq)
    (base : ℕ → M) (compat : Bool) (sqrt : Fq → Option Fq) (scale : AffinePoint Fq → G) (gen : G2Point)
    (b : EpochBlock) (he : EntropyOk b.epochEntropy) (hp : EntropyOk b.parentEntropy)
    (hk : 207 ≤ max b.newPublicKeys.length b.maximumValidators) :
    b.hashToG1 gen (tryAndIncrementCip22 compat
      (compositeHasher B (pedersenCrh x (crhGenerators base))) sqrt scale) = .panic := by
  have hlen : 19530 < (b.encodeInnerToBytes gen).1.length := by
    simp only [EpochBlock.encodeInnerToBytes, EpochBlock.encodeInnerToBitsCip22]
    rw [C26_bytes_length, List.length_append, List.length_append, encodeEntropy_length he,
      encodeEntropy_length hp, keyBits_eq, flatMap_encode_length]
    simp only [EpochBlock.paddedKeys, List.length_append, List.length_replicate]
    omega
  unfold EpochBlock.hashToG1
  simp only [tryAndIncrementCip22, hashWithAttemptCip22, compositeHasher]
  rw [(C85_panic x base _).1.mpr hlen]
  rfl

/-! ### Examples -/

/-- The hypotheses are met by a real point: 560 bases in the subgroup, not zero. -/
example : (∀ i < 560, ED_ORDER • (fun _ : ℕ => edBase) i = 0) ∧ edBase ≠ 0 ∧ edX edBase = 12 :=
  ⟨fun _ _ => edBase_order, WeierstrassCurve.Affine.Point.some_ne_zero _, edX_edBase⟩

theorem crhCoefficient_beyond (m : Bytes) (i : ℕ) (h : 8 * m.length ≤ 279 * i) :
    crhCoefficient m i = 0 := by
  unfold crhCoefficient
  apply sum_eq_zero
  intro j _
  rw [if_neg (by omega), zero_mul]

/-- Bases that are all equal do have collisions, so `C85_collision` speaks about something: a bit of
the first window is moved to the second. -/
example : (1 :: List.replicate 69 0 : Bytes) ≠ List.replicate 34 0 ++ 128 :: List.replicate 35 0 ∧
    pedersenCrh edX (crhGenerators fun _ => edBase) (1 :: List.replicate 69 0) =
      pedersenCrh edX (crhGenerators fun _ => edBase)
        (List.replicate 34 0 ++ 128 :: List.replicate 35 0) := by
  refine ⟨by decide +kernel, ?_⟩
  rw [C85_collision_iff _ (fun _ _ => edBase_order) _ _ (by decide +kernel) (by decide +kernel),
    ← sum_smul]
  have : ∑ i ∈ range 560, (crhCoefficient (1 :: List.replicate 69 0) i -
      crhCoefficient (List.replicate 34 0 ++ 128 :: List.replicate 35 0) i) = 0 := by
    rw [← sum_subset (s₁ := range 3) (by intro i; simp only [mem_range]; omega)]
    · decide +kernel
    · intro i _ hi
      have h3 : 3 ≤ i := by simpa using hi
      rw [crhCoefficient_beyond _ i (by simp; omega), crhCoefficient_beyond _ i (by simp; omega), sub_zero]
  rw [this, zero_smul]

/-- A block of one key that allows 207 validators meets the hypotheses of `C85_epoch`. -/
example : ∃ b : EpochBlock, EntropyOk b.epochEntropy ∧ EntropyOk b.parentEntropy ∧
    b.newPublicKeys.length = 1 ∧ 207 ≤ max b.newPublicKeys.length b.maximumValidators :=
  ⟨{ index := 1, round := 0, epochEntropy := some (List.replicate 16 7), parentEntropy := none,
     maximumNonSigners := 0, maximumValidators := 207, newPublicKeys := [g2Generator] },
   fun b h => (by cases h; rfl), fun b h => (by cases h), rfl, by decide⟩

/-- Doubling a point of the curve by the formulas: the denominators are there. -/
example : edX (edBase + edBase) =
    (edX edBase * edY edBase + edY edBase * edX edBase) /
      (1 + ED_D * 12 * 12 * edY edBase * edY edBase) := by
  have h := (C85_addition edBase edBase).1
  rw [edX_edBase] at h ⊢
  exact h

/-- The coefficient of a one-byte message: bits 1,0,1 / 1,0,0 / 0,1 of `0x8d`. -/
example : crhCoefficient [0x8d] 0 = -2 + 2 * 16 + 3 * 256 := by decide +kernel

end Verif
