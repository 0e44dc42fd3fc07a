import Verif.Model.Pedersen
import Verif.Lemmas.Utils
import Verif.Lemmas.HashGadget
import Mathlib.Algebra.BigOperators.Group.Finset.Basic
import Mathlib.Algebra.BigOperators.Ring.Finset
import Mathlib.Algebra.Order.BigOperators.Group.Finset
import Mathlib.Tactic.Ring
import Mathlib.Tactic.Linarith

/-! Helper lemmas about the Bowe-Hopwood-Pedersen CRH. -/

namespace Verif

open Finset

variable {M : Type*} [AddCommGroup M]

theorem windowGenerators_eq (k : ℕ) (base : M) :
    windowGenerators k base = (List.range k).map fun j => (16 : ℤ) ^ j • base := by
  induction k generalizing base with
  | zero => rfl
  | succ k ih =>
    simp only [windowGenerators, ih, List.range_succ_eq_map, List.map_cons, pow_zero, one_smul,
      List.map_map]
    congr 1
    apply List.map_congr_left
    intro j _
    have : base + base + (base + base) + (base + base + (base + base)) +
        (base + base + (base + base) + (base + base + (base + base))) = (16 : ℤ) • base := by
      have e : (16 : ℤ) = 1+1+1+1+1+1+1+1+1+1+1+1+1+1+1+1 := by norm_num
      rw [e]; simp only [add_smul, one_smul]; abel
    simp only [Function.comp, this, ← mul_smul, Nat.succ_eq_add_one, pow_succ]

/-- Zipping the pieces of a list with generators and adding up. -/
theorem zip_chunks_sum {n : ℕ} (hn : n ≠ 0) {G : Type*} (f : List Bool → G → M) (K : ℕ)
    (gen : ℕ → G) (l : List Bool) :
    (List.zipWith f (chunks n l) ((List.range K).map gen)).foldl (· + ·) 0 =
      ∑ i ∈ range K, if n * i < l.length then f ((l.drop (n * i)).take n) (gen i) else 0 := by
  rw [← List.sum_eq_foldl]
  induction K generalizing l gen with
  | zero => simp
  | succ K ih =>
    by_cases hl : l = []
    · subst hl; simp [chunks_nil]
    · have h0 : 0 < l.length := List.length_pos_iff.mpr hl
      rw [chunks_cons hn hl, List.range_succ_eq_map, List.map_cons, List.zipWith_cons_cons,
        List.sum_cons, List.map_map, sum_range_succ', ih]
      simp only [Nat.mul_zero, h0, if_true, List.drop_zero, List.length_drop, List.drop_drop,
        Function.comp, Nat.succ_eq_add_one]
      rw [add_comm]
      congr 1
      apply sum_congr rfl
      intro i _
      have e : n + n * i = n * (i + 1) := by ring
      have c : n * i < l.length - n ↔ n * (i + 1) < l.length := by
        rw [← e]; omega
      rw [e]
      by_cases h : n * (i + 1) < l.length
      · rw [if_pos h, if_pos (c.mpr h)]
      · rw [if_neg h, if_neg (fun x => h (c.mp x))]

/-- The digit of three bits. -/
def digit (b0 b1 b2 : Bool) : ℤ :=
  (1 - 2 * (b2.toNat : ℤ)) * (1 + (b0.toNat : ℤ) + 2 * (b1.toNat : ℤ))

theorem digit_bound (a b c : Bool) : |digit a b c| ≤ 4 := by revert a b c; decide
theorem digit_ne (a b c : Bool) : digit a b c ≠ 0 := by revert a b c; decide
theorem digit_inj : ∀ a b c a' b' c', digit a b c = digit a' b' c' → a = a' ∧ b = b' ∧ c = c' := by
  decide

theorem encodeChunk_eq (chunk : List Bool) (g : M) :
    encodeChunk chunk g =
      digit (chunk.getD 0 false) (chunk.getD 1 false) (chunk.getD 2 false) • g := by
  unfold encodeChunk digit
  have h2 : (2 : ℤ) • g = g + g := two_zsmul g
  have h3 : (3 : ℤ) • g = g + (g + g) := by
    rw [show (3 : ℤ) = 1 + 2 by norm_num, add_smul, h2, one_smul]
  have h4 : (4 : ℤ) • g = g + g + (g + g) := by
    rw [show (4 : ℤ) = 2 + 2 by norm_num, add_smul, h2]
  cases chunk.getD 0 false <;> cases chunk.getD 1 false <;> cases chunk.getD 2 false <;>
    simp <;> norm_num [h2, h3, h4]

/-- Sums of signed base-16 digits determine the digits. -/
theorem digits_unique (n : ℕ) (D E : ℕ → ℤ) (hD : ∀ j, |D j| ≤ 4) (hE : ∀ j, |E j| ≤ 4)
    (h : ∑ j ∈ range n, D j * 16 ^ j = ∑ j ∈ range n, E j * 16 ^ j) : ∀ j < n, D j = E j := by
  induction n generalizing D E with
  | zero => intro j hj; omega
  | succ n ih =>
    have s : ∀ F : ℕ → ℤ, ∑ j ∈ range (n + 1), F j * 16 ^ j =
        16 * (∑ j ∈ range n, F (j + 1) * 16 ^ j) + F 0 := by
      intro F
      rw [sum_range_succ', mul_sum]
      simp only [pow_zero, mul_one]
      congr 1
      exact sum_congr rfl fun j _ => by ring
    rw [s, s] at h
    have d0 := abs_le.mp (hD 0)
    have e0 := abs_le.mp (hE 0)
    have h0 : D 0 = E 0 := by omega
    have h1 := ih (fun j => D (j + 1)) (fun j => E (j + 1)) (fun j => hD _) (fun j => hE _) (by omega)
    intro j hj
    cases j with
    | zero => exact h0
    | succ j => exact h1 j (by omega)

theorem digits_bound (n : ℕ) (D : ℕ → ℤ) (hD : ∀ j, |D j| ≤ 4) :
    15 * |∑ j ∈ range n, D j * 16 ^ j| ≤ 4 * (16 ^ n - 1) := by
  induction n with
  | zero => simp
  | succ n ih =>
    rw [sum_range_succ]
    have h1 := abs_add_le (∑ j ∈ range n, D j * 16 ^ j) (D n * 16 ^ n)
    have h2 : |D n * 16 ^ n| ≤ 4 * 16 ^ n := by
      rw [abs_mul, abs_of_pos (by positivity : (0 : ℤ) < 16 ^ n)]
      exact mul_le_mul_of_nonneg_right (hD n) (by positivity)
    rw [pow_succ]
    linarith

theorem padChunks_length (l : List Bool) : (padChunks l).length = 3 * ((l.length + 2) / 3) := by
  unfold padChunks CRH_CHUNK_SIZE
  split
  · simp only [List.length_append, List.length_replicate]; omega
  · omega

theorem padChunks_getD (l : List Bool) (i : ℕ) : (padChunks l).getD i false = l.getD i false := by
  unfold padChunks
  split
  · simp only [List.getD_eq_getElem?_getD, List.getElem?_append, List.getElem?_replicate]
    split
    · rfl
    · rename_i h
      rw [List.getElem?_eq_none (by omega)]
      split <;> rfl
  · rfl

theorem getD_take_drop (l : List Bool) (n m i : ℕ) (h : i < n) :
    ((l.drop m).take n).getD i false = l.getD (m + i) false := by
  simp only [List.getD_eq_getElem?_getD, List.getElem?_take, h, if_true, List.getElem?_drop]

/-- The digit of the message at position `k`: bits `3k`, `3k+1`, `3k+2` of its little-endian value. -/
def messageDigit (message : Bytes) (k : ℕ) : ℤ :=
  if 3 * k < 8 * message.length then
    digit ((leValue message).testBit (3 * k)) ((leValue message).testBit (3 * k + 1))
      ((leValue message).testBit (3 * k + 2))
  else 0

theorem messageDigit_bound (m : Bytes) (k : ℕ) : |messageDigit m k| ≤ 4 := by
  unfold messageDigit
  split
  · exact digit_bound _ _ _
  · norm_num

theorem evaluateSegment_eq (segment : List Bool) (K : ℕ) (base : M) :
    evaluateSegment segment (windowGenerators K base) =
      (∑ j ∈ range K, (if 3 * j < segment.length then
        digit (segment.getD (3 * j) false) (segment.getD (3 * j + 1) false)
          (segment.getD (3 * j + 2) false) else 0) * 16 ^ j) • base := by
  unfold evaluateSegment
  have h3 : CRH_CHUNK_SIZE = 3 := rfl
  rw [h3, windowGenerators_eq, zip_chunks_sum (by decide), sum_smul]
  apply sum_congr rfl
  intro j _
  by_cases hj : 3 * j < segment.length
  · rw [if_pos hj, if_pos hj, encodeChunk_eq, getD_take_drop _ _ _ _ (by decide),
      getD_take_drop _ _ _ _ (by decide), getD_take_drop _ _ _ _ (by decide), mul_smul, Nat.add_zero]
  · rw [if_neg hj, if_neg hj, zero_mul, zero_smul]

/-- The value of the CRH on generators of the expected shape. -/
theorem evaluateCrh_eq (base : ℕ → M) (message : Bytes) (h : message.length ≤ 19530) :
    evaluateCrh ((List.range CRH_NUM_WINDOWS).map fun i => windowGenerators CRH_WINDOW_SIZE (base i))
      message = .ok (∑ i ∈ range 560,
        (∑ j ∈ range 93, messageDigit message (93 * i + j) * 16 ^ j) • base i) := by
  unfold evaluateCrh
  have h1 : ¬ message.length * 8 > CRH_WINDOW_SIZE * CRH_NUM_WINDOWS * CRH_CHUNK_SIZE := by
    simp only [CRH_WINDOW_SIZE, CRH_NUM_WINDOWS, CRH_CHUNK_SIZE]; omega
  have h2 : ¬ (((List.range CRH_NUM_WINDOWS).map fun i =>
      windowGenerators CRH_WINDOW_SIZE (base i)).length ≠ CRH_NUM_WINDOWS ∨
      ((List.range CRH_NUM_WINDOWS).map fun i => windowGenerators CRH_WINDOW_SIZE (base i)).any
        (fun g => g.length ≠ CRH_WINDOW_SIZE)) := by
    simp [windowGenerators_eq]
  rw [if_neg h1, if_neg h2]
  have hN : CRH_NUM_WINDOWS = 560 := rfl
  have e279 : CRH_WINDOW_SIZE * CRH_CHUNK_SIZE = 279 := rfl
  rw [hN, e279]
  generalize 560 = N
  simp only []
  rw [zip_chunks_sum (by decide)]
  refine congrArg Outcome.ok (sum_congr rfl ?_)
  intro i _
  set l := message.flatMap (unpackByte 8) with hl
  have hlen : l.length = 8 * message.length := flatMap_unpack_length message
  have hbit : ∀ t, (padChunks l).getD t false = (leValue message).testBit t := by
    intro t
    rw [padChunks_getD, ← ofBitsLE_testBit, hl, flatMap_unpack_value]
  have hp := padChunks_length l
  rw [hlen] at hp
  have hw : CRH_WINDOW_SIZE = 93 := rfl
  rw [hw]
  split
  · rename_i hi
    rw [evaluateSegment_eq]
    congr 1
    apply sum_congr rfl
    intro j hj
    have hj' : j < 93 := mem_range.mp hj
    congr 1
    rw [getD_take_drop _ _ _ _ (by omega), getD_take_drop _ _ _ _ (by omega),
      getD_take_drop _ _ _ _ (by omega), hbit, hbit, hbit]
    unfold messageDigit
    have e : 279 * i + 3 * j = 3 * (93 * i + j) := by ring
    have c : 3 * j < (((padChunks l).drop (279 * i)).take 279).length ↔
        3 * (93 * i + j) < 8 * message.length := by
      simp only [List.length_take, List.length_drop, hp]; omega
    simp only [c, ← e, Nat.add_assoc]
  · rename_i hi
    have : ∀ j, messageDigit message (93 * i + j) = 0 := by
      intro j
      unfold messageDigit
      rw [if_neg (by rw [hp] at hi; omega)]
    simp [this]

theorem evaluateCrh_panic (generators : List (List M)) (message : Bytes) (h : 19530 < message.length) :
    evaluateCrh generators message = .panic := by
  unfold evaluateCrh
  rw [if_pos (by simp only [CRH_WINDOW_SIZE, CRH_NUM_WINDOWS, CRH_CHUNK_SIZE]; omega)]

/-- Equal digits at all positions that fit the windows: equal messages. -/
theorem messageDigit_inj {a b : Bytes} (ha : a.length ≤ 19530) (hb : b.length ≤ 19530)
    (h : ∀ k < 52080, messageDigit a k = messageDigit b k) : a = b := by
  have key : ∀ {a b : Bytes}, b.length ≤ 19530 →
      (∀ k < 52080, messageDigit a k = messageDigit b k) → b.length ≤ a.length := by
    intro a b hb h
    by_contra hc
    have hk := h ((8 * a.length + 2) / 3) (by omega)
    unfold messageDigit at hk
    rw [if_neg (by omega), if_pos (by omega)] at hk
    exact digit_ne _ _ _ hk.symm
  have hlen : a.length = b.length := le_antisymm (key ha fun k hk => (h k hk).symm) (key hb h)
  apply leValue_inj hlen
  apply Nat.eq_of_testBit_eq
  intro t
  by_cases ht : t < 8 * a.length
  · have hk := h (t / 3) (by omega)
    unfold messageDigit at hk
    rw [if_pos (by omega), if_pos (by omega)] at hk
    obtain ⟨h0, h1, h2⟩ := digit_inj _ _ _ _ _ _ hk
    have : t = 3 * (t / 3) ∨ t = 3 * (t / 3) + 1 ∨ t = 3 * (t / 3) + 2 := by omega
    rcases this with e | e | e <;> rw [e] <;> assumption
  · have e : ∀ m : Bytes, 8 * m.length ≤ t → (leValue m).testBit t = false := by
      intro m hm
      apply Nat.testBit_lt_two_pow
      calc leValue m < 256 ^ m.length := leValue_lt m
        _ = 2 ^ (8 * m.length) := by rw [pow_mul]; norm_num
        _ ≤ 2 ^ t := Nat.pow_le_pow_right (by norm_num) hm
    rw [e a (by omega), e b (by omega)]

end Verif
