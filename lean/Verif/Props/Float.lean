import Verif.Model.Float
import Verif.Lemmas.Hashers
import Mathlib.Tactic.FieldSimp
import Mathlib.Tactic.NormNum
import Mathlib.Tactic.Positivity
import Mathlib.Algebra.Order.Field.Power

/-!
# Property C23 with the floating point arithmetic of the code
-/

set_option exponentiation.threshold 800

namespace Verif

theorem roundHalfEven_int (k : ℤ) : roundHalfEven (k : ℚ) = k := by
  simp [roundHalfEven]

/-- Numbers with at most 53 significant bits are floats. -/
theorem f64Round_exact' (m : ℕ) (k : ℤ) (hm' : m < 2 ^ 53) :
    f64Round ((m : ℚ) * 2 ^ k) = (m : ℚ) * 2 ^ k := by
  by_cases h0 : m = 0
  · simp [h0, f64Round]
  have hm0 : 0 < m := Nat.pos_of_ne_zero h0
  have hpos : (0 : ℚ) < (m : ℚ) * 2 ^ k := by positivity
  unfold f64Round
  rw [if_neg hpos.ne']
  set x : ℚ := (m : ℚ) * 2 ^ k with hx
  have h1 : (2 : ℚ) ^ Int.log 2 x ≤ x := Int.zpow_log_le_self (by norm_num) hpos
  have h2 : x < (2 : ℚ) ^ (53 + k) := by
    rw [zpow_add₀ (by norm_num), hx]
    apply mul_lt_mul_of_pos_right _ (by positivity)
    exact_mod_cast hm'
  have h3 : Int.log 2 x < 53 + k := (zpow_lt_zpow_iff_right₀ (by norm_num)).mp (lt_of_le_of_lt h1 h2)
  obtain ⟨j, hj⟩ : ∃ j : ℕ, (j : ℤ) = k - (Int.log 2 x - 52) :=
    ⟨(k - (Int.log 2 x - 52)).toNat, Int.toNat_of_nonneg (by omega)⟩
  have e : x / (2 : ℚ) ^ (Int.log 2 x - 52) = ((m * 2 ^ j : ℕ) : ℤ) := by
    rw [hx, mul_div_assoc, ← zpow_sub₀ (by norm_num), ← hx, ← hj]
    push_cast
    rfl
  simp only []
  rw [e, roundHalfEven_int, ← e]
  field_simp

/-- Numbers with at most 53 significant bits are floats. -/
theorem f64Round_exact (m : ℕ) (k : ℤ) (hm : m ≤ 2 ^ 53) :
    f64Round ((m : ℚ) * 2 ^ k) = (m : ℚ) * 2 ^ k := by
  rcases Nat.lt_or_eq_of_le hm with h | rfl
  · exact f64Round_exact' m k h
  · have e : (((2 ^ 53 : ℕ) : ℚ)) * 2 ^ k = ((1 : ℕ) : ℚ) * 2 ^ (53 + k) := by
      rw [zpow_add₀ (by norm_num)]
      push_cast
      rw [one_mul]
    rw [e]
    exact f64Round_exact' 1 _ (by norm_num)

/-- C23: with the floating point arithmetic of the code, `hash_length n` is the least multiple of 32
that is at least `n`, for every `n` up to `2 ^ 53`, with and without overflow checks. -/
theorem C23_float (overflowChecks : Bool) (n : ℕ) (hn : n ≤ 2 ^ 53) :
    ∃ l, hashLengthF64 overflowChecks n = .ok l ∧ IsLeast {m : ℕ | 32 ∣ m ∧ n ≤ m} l := by
  refine ⟨32 * ((n + 31) / 32), ?_, ?_⟩
  · have h8 : n * 8 < 2 ^ 64 := by omega
    unfold hashLengthF64
    rw [if_neg (fun h => absurd h.2 (not_le.mpr h8)), Nat.mod_eq_of_lt h8]
    have e1 : natToF64 (n * 8) = (n : ℚ) * 2 ^ (3 : ℤ) := by
      have := f64Round_exact n 3 hn
      rw [← this, natToF64]
      congr 1
      push_cast
      norm_num
    have e2 : f64Div ((n : ℚ) * 2 ^ (3 : ℤ)) 256 = (n : ℚ) * 2 ^ (-5 : ℤ) := by
      have := f64Round_exact n (-5) hn
      rw [← this, f64Div]
      congr 1
      norm_num
      ring
    have e3 : f64Ceil ((n : ℚ) * 2 ^ (-5 : ℤ)) = (((n + 31) / 32 : ℕ) : ℚ) := by
      unfold f64Ceil
      have : ⌈(n : ℚ) * 2 ^ (-5 : ℤ)⌉ = (((n + 31) / 32 : ℕ) : ℤ) := by
        rw [Int.ceil_eq_iff]
        have hlo : 32 * ((n + 31) / 32) < n + 32 := by omega
        have hhi : n ≤ 32 * ((n + 31) / 32) := by omega
        have hlo' : (32 : ℚ) * (((n + 31) / 32 : ℕ) : ℚ) < n + 32 := by exact_mod_cast hlo
        have hhi' : (n : ℚ) ≤ 32 * (((n + 31) / 32 : ℕ) : ℚ) := by exact_mod_cast hhi
        have h5 : (2 : ℚ) ^ (-5 : ℤ) = 1 / 32 := by norm_num
        rw [h5]
        constructor
        · rw [Int.cast_natCast]; linarith
        · rw [Int.cast_natCast]; linarith
      rw [this, Int.cast_natCast]
    have hc : (n + 31) / 32 ≤ 2 ^ 53 := by omega
    have e4 : f64Mul (((n + 31) / 32 : ℕ) : ℚ) 256 = (((n + 31) / 32 * 256 : ℕ) : ℚ) := by
      have := f64Round_exact ((n + 31) / 32) 8 hc
      have h8 : (2 : ℚ) ^ (8 : ℤ) = 256 := by norm_num
      rw [h8] at this
      unfold f64Mul
      rw [this]
      push_cast
      rfl
    simp only []
    rw [e1, e2, e3, e4, f64ToUsize, Nat.floor_natCast, Nat.min_eq_left (by omega)]
    congr 1
    omega
  · constructor
    · exact ⟨⟨_, rfl⟩, by omega⟩
    · rintro m ⟨⟨k, rfl⟩, hk⟩
      omega

/-- C23: so the exact arithmetic of `hashLength`, which the models use, is the code's on that range. -/
theorem C23_float_model (overflowChecks : Bool) (n : ℕ) (hn : n ≤ 2 ^ 53) :
    hashLengthF64 overflowChecks n = .ok (hashLength n) := by
  obtain ⟨l, h, hl⟩ := C23_float overflowChecks n hn
  rw [h, hashLength_eq]
  congr 1
  apply hl.unique
  constructor
  · exact ⟨⟨_, rfl⟩, by omega⟩
  · rintro m ⟨⟨k, rfl⟩, hk⟩
    omega

theorem f64Round_nat_53 : f64Round ((8 * (2 ^ 53 + 1) : ℕ) : ℚ) = (2 : ℚ) ^ 56 := by
  unfold f64Round
  rw [if_neg (by norm_num), Int.log_natCast, show Nat.log 2 (8 * (2 ^ 53 + 1)) = 56 by
    rw [Nat.log_eq_iff] <;> norm_num]
  have : roundHalfEven (((8 * (2 ^ 53 + 1) : ℕ) : ℚ) / (2 : ℚ) ^ ((56 : ℕ) - 52 : ℤ)) = 2 ^ 52 := by
    unfold roundHalfEven
    have hf : ⌊((8 * (2 ^ 53 + 1) : ℕ) : ℚ) / (2 : ℚ) ^ ((56 : ℕ) - 52 : ℤ)⌋ = 2 ^ 52 := by
      rw [Int.floor_eq_iff]
      norm_num
    simp only [hf]
    norm_num
  simp only [this]
  norm_num

/-- C23, limit: at `2 ^ 53 + 1` rounding loses the last bit and the result is too small; at `2 ^ 61`
the multiplication overflows: it panics, or wraps and gives zero. -/
theorem C23_float_limit (overflowChecks : Bool) :
    hashLengthF64 overflowChecks (2 ^ 53 + 1) = .ok (2 ^ 53) ∧
    hashLengthF64 true (2 ^ 61) = .panic ∧ hashLengthF64 false (2 ^ 61) = .ok 0 := by
  refine ⟨?_, ?_, ?_⟩
  · unfold hashLengthF64
    rw [if_neg (by norm_num), Nat.mod_eq_of_lt (by norm_num), mul_comm]
    have e2 : f64Div ((2 : ℚ) ^ 56) 256 = (2 : ℚ) ^ 48 := by
      have := f64Round_exact 1 48 (by norm_num)
      unfold f64Div
      rw [show (2 : ℚ) ^ 56 / 256 = ((1 : ℕ) : ℚ) * 2 ^ (48 : ℤ) by norm_num, this]
      norm_num
    have e3 : f64Ceil ((2 : ℚ) ^ 48) = (2 : ℚ) ^ 48 := by
      unfold f64Ceil
      rw [show (2 : ℚ) ^ 48 = ((2 ^ 48 : ℤ) : ℚ) by norm_num, Int.ceil_intCast]
    have e4 : f64Mul ((2 : ℚ) ^ 48) 256 = (2 : ℚ) ^ 56 := by
      have := f64Round_exact 1 56 (by norm_num)
      unfold f64Mul
      rw [show (2 : ℚ) ^ 48 * 256 = ((1 : ℕ) : ℚ) * 2 ^ (56 : ℤ) by norm_num, this]
      norm_num
    simp only []
    rw [natToF64, f64Round_nat_53, e2, e3, e4, f64ToUsize,
      show (2 : ℚ) ^ 56 = ((2 ^ 56 : ℕ) : ℚ) by norm_num, Nat.floor_natCast]
    norm_num
  · unfold hashLengthF64
    rw [if_pos (by norm_num)]
  · unfold hashLengthF64
    rw [if_neg (by norm_num)]
    norm_num [natToF64, f64Round, f64Div, f64Ceil, f64Mul, f64ToUsize]

theorem roundHalfEven_near (y : ℚ) : |(roundHalfEven y : ℚ) - y| ≤ 1 / 2 := by
  have h1 := Int.floor_le y
  have h2 := Int.lt_floor_add_one y
  unfold roundHalfEven
  simp only []
  rw [abs_le]
  split_ifs <;> push_cast <;> constructor <;> linarith

theorem roundHalfEven_nearest (y : ℚ) (j : ℤ) : |(roundHalfEven y : ℚ) - y| ≤ |(j : ℚ) - y| := by
  have h := roundHalfEven_near y
  by_cases hj : j = roundHalfEven y
  · rw [hj]
  have h1 : (1 : ℚ) ≤ |(j : ℚ) - roundHalfEven y| := by
    have : 1 ≤ |j - roundHalfEven y| := Int.one_le_abs (sub_ne_zero.mpr hj)
    exact_mod_cast this
  have h2 := abs_sub_le (j : ℚ) y (roundHalfEven y)
  rw [abs_sub_comm y] at h2
  linarith

/-- C23: the rounding of the model is that of IEEE 754.  The result has at most 53 significant bits, no
number with at most 53 significant bits is nearer, and of two that are equally near it is the one with
the even significand. -/
theorem C23_float_nearest (x : ℚ) (hx : 0 < x) :
    (∃ (m : ℕ) (k : ℤ), m ≤ 2 ^ 53 ∧ f64Round x = (m : ℚ) * 2 ^ k) ∧
    (∀ (m : ℕ) (k : ℤ), m ≤ 2 ^ 53 → |f64Round x - x| ≤ |(m : ℚ) * 2 ^ k - x|) ∧
    (∀ (m : ℕ) (k : ℤ), 2 ^ 52 ≤ m → m < 2 ^ 53 → x = (2 * (m : ℚ) + 1) * 2 ^ k →
      f64Round x = ((if m % 2 = 0 then m else m + 1 : ℕ) : ℚ) * 2 ^ (k + 1)) := by
  have hr : f64Round x = roundHalfEven (x / (2 : ℚ) ^ (Int.log 2 x - 52)) * (2 : ℚ) ^ (Int.log 2 x - 52) := by
    unfold f64Round; rw [if_neg hx.ne']
  have l1 : (2 : ℚ) ^ Int.log 2 x ≤ x := Int.zpow_log_le_self (by norm_num) hx
  have l2 : x < (2 : ℚ) ^ (Int.log 2 x + 1) := Int.lt_zpow_succ_log_self (by norm_num) x
  generalize hL : Int.log 2 x = L at hr l1 l2
  have hu : (0 : ℚ) < (2 : ℚ) ^ (L - 52) := by positivity
  have e1 : (2 : ℚ) ^ L = 2 ^ 52 * 2 ^ (L - 52) := by
    rw [← zpow_natCast, ← zpow_add₀ (by norm_num)]; congr 1; push_cast; ring
  have e2 : (2 : ℚ) ^ (L + 1) = 2 ^ 53 * 2 ^ (L - 52) := by
    rw [← zpow_natCast, ← zpow_add₀ (by norm_num)]; congr 1; push_cast; ring
  have hy1 : (2 : ℚ) ^ 52 ≤ x / 2 ^ (L - 52) := by rw [le_div_iff₀ hu, ← e1]; exact l1
  have hy2 : x / 2 ^ (L - 52) < (2 : ℚ) ^ 53 := by rw [div_lt_iff₀ hu, ← e2]; exact l2
  have hxy : x = x / 2 ^ (L - 52) * 2 ^ (L - 52) := by field_simp
  have hmult : ∀ j : ℤ, |f64Round x - x| ≤ |(j : ℚ) * 2 ^ (L - 52) - x| := by
    intro j
    have h := roundHalfEven_nearest (x / 2 ^ (L - 52)) j
    have g : ∀ a : ℚ, |a * 2 ^ (L - 52) - x| = |a - x / 2 ^ (L - 52)| * 2 ^ (L - 52) := by
      intro a
      conv_lhs => rw [hxy, ← sub_mul, abs_mul, abs_of_pos hu]
    rw [hr, g, g]
    exact mul_le_mul_of_nonneg_right h hu.le
  refine ⟨?_, ?_, ?_⟩
  · have h := roundHalfEven_nearest (x / 2 ^ (L - 52)) (2 ^ 53)
    have h' := roundHalfEven_near (x / 2 ^ (L - 52))
    have h0 : (0 : ℤ) ≤ roundHalfEven (x / 2 ^ (L - 52)) := by
      have : (0 : ℚ) ≤ roundHalfEven (x / 2 ^ (L - 52)) := by
        have := (abs_le.mp h').1
        linarith
      exact_mod_cast this
    have h1 : roundHalfEven (x / 2 ^ (L - 52)) ≤ 2 ^ 53 := by
      rw [Int.cast_pow, Int.cast_ofNat] at h
      rw [abs_of_pos (by linarith : (0 : ℚ) < 2 ^ 53 - x / 2 ^ (L - 52))] at h
      have := (abs_le.mp h).2
      have : (roundHalfEven (x / 2 ^ (L - 52)) : ℚ) ≤ 2 ^ 53 := by linarith
      exact_mod_cast this
    refine ⟨(roundHalfEven (x / 2 ^ (L - 52))).toNat, L - 52, by omega, ?_⟩
    rw [hr, ← Int.cast_natCast, Int.toNat_of_nonneg h0]
  · intro m k hm
    by_cases hk : L - 52 ≤ k
    · obtain ⟨j, hj⟩ := Int.eq_ofNat_of_zero_le (sub_nonneg.mpr hk)
      have e : (m : ℚ) * 2 ^ k = ((m * 2 ^ j : ℤ) : ℚ) * 2 ^ (L - 52) := by
        rw [show k = (j : ℤ) + (L - 52) by omega, zpow_add₀ (by norm_num), zpow_natCast]
        push_cast
        ring
      rw [e]
      exact hmult _
    · have h := hmult (2 ^ 52)
      rw [Int.cast_pow, Int.cast_ofNat, ← e1] at h
      have hle : (m : ℚ) * 2 ^ k ≤ 2 ^ L := by
        have h1 : (m : ℚ) ≤ 2 ^ 53 := by exact_mod_cast hm
        have h2 : (2 : ℚ) ^ k ≤ 2 ^ (L - 53) := zpow_le_zpow_right₀ (by norm_num) (by omega)
        calc (m : ℚ) * 2 ^ k ≤ 2 ^ 53 * 2 ^ (L - 53) := by
              apply mul_le_mul h1 h2 (by positivity) (by positivity)
          _ = 2 ^ L := by
              rw [← zpow_natCast, ← zpow_add₀ (by norm_num)]; congr 1; push_cast; ring
      refine h.trans ?_
      rw [abs_sub_comm, abs_sub_comm _ x, abs_of_nonneg (by linarith), abs_of_nonneg (by linarith)]
      linarith
  · intro m k h1 h2 he
    have hLk : L = k + 53 := by
      have hk : (0 : ℚ) < 2 ^ k := by positivity
      have a1 : (2 : ℚ) ^ 52 ≤ m := by exact_mod_cast h1
      have a2 : (m : ℚ) + 1 ≤ 2 ^ 53 := by exact_mod_cast h2
      have b1 : (2 : ℚ) ^ (k + 53) ≤ x := by
        rw [he, add_comm, zpow_add₀ (by norm_num)]
        apply mul_le_mul_of_nonneg_right _ hk.le
        rw [show (2 : ℚ) ^ (53 : ℤ) = 2 * 2 ^ 52 by norm_num]
        linarith
      have b2 : x < (2 : ℚ) ^ (k + 54) := by
        rw [he, add_comm k, zpow_add₀ (by norm_num)]
        apply mul_lt_mul_of_pos_right _ hk
        rw [show (2 : ℚ) ^ (54 : ℤ) = 2 * 2 ^ 53 by norm_num]
        linarith
      have c1 : L < k + 54 := (zpow_lt_zpow_iff_right₀ (by norm_num : (1 : ℚ) < 2)).mp (l1.trans_lt b2)
      have c2 : k + 53 < L + 1 := (zpow_lt_zpow_iff_right₀ (by norm_num : (1 : ℚ) < 2)).mp (b1.trans_lt l2)
      omega
    have e3 : x / 2 ^ (L - 52) = (m : ℚ) + 1 / 2 := by
      rw [he, hLk, show k + 53 - 52 = k + 1 by ring, zpow_add₀ (by norm_num), zpow_one]
      field_simp
    have hf : ⌊(m : ℚ) + 1 / 2⌋ = (m : ℤ) := by
      rw [Int.floor_eq_iff]
      constructor <;> push_cast <;> linarith
    rw [hr, e3, hLk, show k + 53 - 52 = k + 1 by ring]
    congr 1
    unfold roundHalfEven
    simp only [hf]
    rw [if_neg (by push_cast; linarith), if_neg (by push_cast; linarith)]
    by_cases hm : m % 2 = 0
    · rw [if_pos (by omega), if_pos hm]; push_cast; rfl
    · rw [if_neg (by omega), if_neg hm]; push_cast; rfl

/-- A tie that goes up: between `2 ^ 53 + 2` and `2 ^ 53 + 4`. -/
example : f64Round (2 ^ 53 + 3) = 2 ^ 53 + 4 := by
  have h := (C23_float_nearest (2 ^ 53 + 3) (by norm_num)).2.2 (2 ^ 52 + 1) 0 (by norm_num) (by norm_num)
    (by norm_num)
  rw [h]
  norm_num

/-- C23: the two lengths of the old hash-to-curve, for every field of at most `2 ^ 53` bits: the bits
rounded up to bytes and to blocks of 256. -/
theorem C23_float_compat (m : ℕ) (hm : m ≤ 2 ^ 53) :
    compatBits m = (8 * ((m + 7) / 8), 256 * ((m + 255) / 256)) := by
  have e0 : natToF64 m = (m : ℚ) := by
    have := f64Round_exact m 0 hm
    simpa [natToF64] using this
  have e1 : f64Div (m : ℚ) 8 = (m : ℚ) * 2 ^ (-3 : ℤ) := by
    have := f64Round_exact m (-3) hm
    rw [← this, f64Div]
    congr 1
  have e2 : f64Div (m : ℚ) 256 = (m : ℚ) * 2 ^ (-8 : ℤ) := by
    have := f64Round_exact m (-8) hm
    rw [← this, f64Div]
    congr 1
  have c1 : ⌈(m : ℚ) * 2 ^ (-3 : ℤ)⌉ = (((m + 7) / 8 : ℕ) : ℤ) := by
    rw [Int.ceil_eq_iff]
    have hlo : 8 * ((m + 7) / 8) < m + 8 := by omega
    have hhi : m ≤ 8 * ((m + 7) / 8) := by omega
    have hlo' : (8 : ℚ) * (((m + 7) / 8 : ℕ) : ℚ) < m + 8 := by exact_mod_cast hlo
    have hhi' : (m : ℚ) ≤ 8 * (((m + 7) / 8 : ℕ) : ℚ) := by exact_mod_cast hhi
    rw [show (2 : ℚ) ^ (-3 : ℤ) = 1 / 8 by norm_num]
    constructor
    · rw [Int.cast_natCast]; linarith
    · rw [Int.cast_natCast]; linarith
  have c2 : ⌈(m : ℚ) * 2 ^ (-8 : ℤ)⌉ = (((m + 255) / 256 : ℕ) : ℤ) := by
    rw [Int.ceil_eq_iff]
    have hlo : 256 * ((m + 255) / 256) < m + 256 := by omega
    have hhi : m ≤ 256 * ((m + 255) / 256) := by omega
    have hlo' : (256 : ℚ) * (((m + 255) / 256 : ℕ) : ℚ) < m + 256 := by exact_mod_cast hlo
    have hhi' : (m : ℚ) ≤ 256 * (((m + 255) / 256 : ℕ) : ℚ) := by exact_mod_cast hhi
    rw [show (2 : ℚ) ^ (-8 : ℤ) = 1 / 256 by norm_num]
    constructor
    · rw [Int.cast_natCast]; linarith
    · rw [Int.cast_natCast]; linarith
  unfold compatBits
  rw [e0, e1, e2, f64Ceil, f64Ceil, c1, c2, f64ToUsize, f64ToUsize, Int.cast_natCast,
    Int.cast_natCast, Nat.floor_natCast, Nat.floor_natCast, Nat.min_eq_left (by omega),
    Nat.min_eq_left (by omega), mul_comm, mul_comm (_ / 256)]

/-- Concrete cases: the length used by the hashes to G1, a length that is not a multiple of 32 near
the limit, and the 377-bit field. -/
example : hashLengthF64 true 48 = .ok 64 ∧ hashLengthF64 false (2 ^ 53 - 1) = .ok (2 ^ 53) ∧
    compatBits 377 = (384, 512) := by
  refine ⟨?_, ?_, ?_⟩
  · rw [C23_float_model _ _ (by norm_num), hashLength_eq]
  · rw [C23_float_model _ _ (by norm_num), hashLength_eq]
    norm_num
  · rw [C23_float_compat _ (by norm_num)]

end Verif
