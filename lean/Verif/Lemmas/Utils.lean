import Verif.Model.Utils
import Verif.Lemmas.Batch

/-! Helper lemmas about bit and byte conversions. -/

namespace Verif

/-- The number denoted by bits, least significant first. -/
def ofBitsLE : List Bool → ℕ
  | [] => 0
  | b :: bs => b.toNat + 2 * ofBitsLE bs

theorem ofBitsLE_lt (l : List Bool) : ofBitsLE l < 2 ^ l.length := by
  induction l with
  | nil => simp [ofBitsLE]
  | cons b bs ih =>
    simp only [ofBitsLE, List.length_cons, pow_succ]
    have : b.toNat ≤ 1 := Bool.toNat_le b
    omega

theorem ofBitsLE_append (a b : List Bool) :
    ofBitsLE (a ++ b) = ofBitsLE a + 2 ^ a.length * ofBitsLE b := by
  induction a with
  | nil => simp [ofBitsLE]
  | cons x xs ih => simp only [List.cons_append, ofBitsLE, ih, List.length_cons, pow_succ]; ring

theorem ofBitsLE_inj {a b : List Bool} (hl : a.length = b.length) (h : ofBitsLE a = ofBitsLE b) :
    a = b := by
  induction a generalizing b with
  | nil => cases b <;> simp_all
  | cons x xs ih =>
    cases b with
    | nil => simp at hl
    | cons y ys =>
      simp only [ofBitsLE] at h
      have h1 : x.toNat = y.toNat := by
        have := Bool.toNat_le x
        have := Bool.toNat_le y
        omega
      have h2 : ofBitsLE xs = ofBitsLE ys := by omega
      have h3 : x = y := by cases x <;> cases y <;> simp_all
      rw [h3, ih (by simpa using hl) h2]

theorem ofBitsLE_take (l : List Bool) (n : ℕ) : ofBitsLE (l.take n) = ofBitsLE l % 2 ^ n := by
  induction l generalizing n with
  | nil => simp [ofBitsLE]
  | cons b bs ih =>
    cases n with
    | zero => simp [ofBitsLE, Nat.mod_one]
    | succ n =>
      simp only [List.take_succ_cons, ofBitsLE, ih, pow_succ]
      have : b.toNat ≤ 1 := Bool.toNat_le b
      rw [Nat.mul_comm (2 ^ n) 2, Nat.mod_mul]
      have h1 : (b.toNat + 2 * ofBitsLE bs) % 2 = b.toNat := by omega
      have h2 : (b.toNat + 2 * ofBitsLE bs) / 2 = ofBitsLE bs := by omega
      rw [h1, h2]

theorem ofBitsLE_testBit (l : List Bool) (i : ℕ) :
    (ofBitsLE l).testBit i = l.getD i false := by
  induction l generalizing i with
  | nil => simp [ofBitsLE]
  | cons b bs ih =>
    cases i with
    | zero =>
      simp only [ofBitsLE, Nat.testBit_zero, List.getD_cons_zero]
      cases b <;> simp
    | succ i =>
      simp only [ofBitsLE, List.getD_cons_succ, ← ih]
      rw [Nat.testBit_succ]
      congr 1
      have : b.toNat ≤ 1 := Bool.toNat_le b
      omega

/-! ### chunks -/

theorem chunks_nil {α : Type*} (n : ℕ) : chunks n ([] : List α) = [] := by
  rw [chunks, dif_pos (Or.inr rfl)]

theorem chunks_cons {α : Type*} {n : ℕ} (hn : n ≠ 0) {l : List α} (hl : l ≠ []) :
    chunks n l = l.take n :: chunks n (l.drop n) := by
  rw [chunks, dif_neg (by simp [hn, hl])]

theorem chunks_flatten {α : Type*} {n : ℕ} (hn : n ≠ 0) (l : List α) :
    (chunks n l).flatten = l := by
  induction hk : l.length using Nat.strong_induction_on generalizing l with
  | _ k ih =>
    by_cases hl : l = []
    · subst hl; rw [chunks_nil]; rfl
    · rw [chunks_cons hn hl, List.flatten_cons]
      have : 0 < l.length := List.length_pos_iff.mpr hl
      rw [ih (l.drop n).length (by simp; omega) _ rfl, List.take_append_drop]

theorem chunks_length {α : Type*} {n : ℕ} (hn : n ≠ 0) (l : List α) :
    (chunks n l).length = (l.length + n - 1) / n := by
  induction hk : l.length using Nat.strong_induction_on generalizing l with
  | _ k ih =>
    by_cases hl : l = []
    · subst hl
      rw [chunks_nil]
      simp at hk
      subst hk
      simp only [List.length_nil, Nat.zero_add]
      exact (Nat.div_eq_of_lt (by omega)).symm
    · have hpos : 0 < l.length := List.length_pos_iff.mpr hl
      rw [chunks_cons hn hl, List.length_cons, ih (l.drop n).length (by simp; omega) _ rfl,
        List.length_drop, hk]
      by_cases hlt : k ≤ n
      · have e1 : k - n + n - 1 = n - 1 := by omega
        have e2 : (n - 1) / n = 0 := Nat.div_eq_of_lt (by omega)
        have e3 : k + n - 1 = (k - 1) + n := by omega
        rw [e1, e2, e3, Nat.add_div_right _ (by omega), Nat.div_eq_of_lt (by omega : k - 1 < n)]
      · have e1 : k + n - 1 = (k - n + n - 1) + n := by omega
        rw [e1, Nat.add_div_right _ (by omega)]

theorem chunks_mem_length {α : Type*} {n : ℕ} (hn : n ≠ 0) (l : List α) :
    ∀ c ∈ chunks n l, c.length ≤ n ∧ c ≠ [] := by
  induction hk : l.length using Nat.strong_induction_on generalizing l with
  | _ k ih =>
    by_cases hl : l = []
    · subst hl; rw [chunks_nil]; simp
    · have hpos : 0 < l.length := List.length_pos_iff.mpr hl
      rw [chunks_cons hn hl]
      intro c hc
      rcases List.mem_cons.mp hc with rfl | hc
      · refine ⟨by simp, ?_⟩
        rw [← List.length_pos_iff]
        simp
        omega
      · exact ih (l.drop n).length (by simp; omega) _ rfl c hc

theorem chunks_map_length {α : Type*} {n : ℕ} (hn : n ≠ 0) (l l' : List α)
    (h : l.length = l'.length) : (chunks n l).map List.length = (chunks n l').map List.length := by
  induction hk : l.length using Nat.strong_induction_on generalizing l l' with
  | _ k ih =>
    by_cases hl : l = []
    · subst hl
      have : l' = [] := List.length_eq_zero_iff.mp (by simpa using h.symm)
      rw [this]
    · have hpos : 0 < l.length := List.length_pos_iff.mpr hl
      have hl' : l' ≠ [] := List.length_pos_iff.mp (by omega)
      rw [chunks_cons hn hl, chunks_cons hn hl', List.map_cons, List.map_cons,
        ih (l.drop n).length (by simp; omega) _ (l'.drop n) (by simp [h]) rfl]
      simp [h]

/-! ### bytes -/

theorem packByte_aux (chunk : List Bool) (acc : UInt8) (k : ℕ)
    (hacc : acc.toNat < 2 ^ k) (hk : k + chunk.length ≤ 8) :
    ((chunk.foldl (fun (s : UInt8 × ℕ) c => (s.1 + UInt8.ofNat (s.2 * c.toNat), s.2 * 2))
      (acc, 2 ^ k)).1).toNat = acc.toNat + 2 ^ k * ofBitsLE chunk := by
  induction chunk generalizing acc k with
  | nil => simp [ofBitsLE]
  | cons c cs ih =>
    simp only [List.length_cons] at hk
    simp only [List.foldl_cons, ofBitsLE]
    have hc : c.toNat ≤ 1 := Bool.toNat_le c
    have hp : 2 ^ (k + 1) ≤ 2 ^ 8 := Nat.pow_le_pow_right (by norm_num) (by omega)
    have hp' : 2 ^ (k + 1) = 2 * 2 ^ k := by rw [pow_succ]; ring
    have hmul : 2 ^ k * c.toNat ≤ 2 ^ k := by
      calc 2 ^ k * c.toNat ≤ 2 ^ k * 1 := Nat.mul_le_mul_left _ hc
        _ = 2 ^ k := by ring
    have e : (acc + UInt8.ofNat (2 ^ k * c.toNat)).toNat = acc.toNat + 2 ^ k * c.toNat := by
      rw [UInt8.toNat_add, UInt8.toNat_ofNat']
      rw [Nat.mod_eq_of_lt (a := 2 ^ k * c.toNat) (by omega), Nat.mod_eq_of_lt (by omega)]
    rw [← pow_succ, ih _ (k + 1) (by rw [e]; omega) (by omega), e, pow_succ]
    ring

/-- The byte assembled from at most eight bits denotes the number of those bits; in particular the
`u8` additions never overflow. -/
theorem packByte_toNat (chunk : List Bool) (h : chunk.length ≤ 8) :
    (packByte chunk).toNat = ofBitsLE chunk := by
  have := packByte_aux chunk 0 0 (by simp) (by omega)
  simpa [packByte] using this

theorem leValue_map_packByte (cs : List Bool) :
    leValue ((chunks 8 cs).map packByte) = ofBitsLE cs := by
  induction hk : cs.length using Nat.strong_induction_on generalizing cs with
  | _ k ih =>
    by_cases hl : cs = []
    · subst hl; rw [chunks_nil]; rfl
    · have hpos : 0 < cs.length := List.length_pos_iff.mpr hl
      rw [chunks_cons (by norm_num) hl, List.map_cons, leValue,
        ih (cs.drop 8).length (by simp; omega) _ rfl, packByte_toNat _ (by simp)]
      conv_rhs => rw [← List.take_append_drop 8 cs, ofBitsLE_append]
      by_cases h8 : 8 ≤ cs.length
      · rw [List.length_take_of_le h8]
        norm_num
      · have : cs.drop 8 = [] := List.drop_eq_nil_of_le (by omega)
        rw [this]
        simp [ofBitsLE]

theorem unpackByte_length (k : ℕ) (b : UInt8) : (unpackByte k b).length = k := by
  induction k generalizing b with
  | zero => rfl
  | succ k ih => simp [unpackByte, ih]

theorem unpackByte_value (k : ℕ) (b : UInt8) :
    ofBitsLE (unpackByte k b) = b.toNat % 2 ^ k := by
  induction k generalizing b with
  | zero => simp [unpackByte, ofBitsLE, Nat.mod_one]
  | succ k ih =>
    have h1 : (b &&& 1 == 1 : Bool).toNat = b.toNat % 2 := by
      have : ∀ b : UInt8, (b &&& 1 == 1 : Bool).toNat = b.toNat % 2 := by decide +kernel
      exact this b
    have h2 : (b >>> 1).toNat = b.toNat / 2 := by
      have : ∀ b : UInt8, (b >>> 1).toNat = b.toNat / 2 := by decide +kernel
      exact this b
    simp only [unpackByte, ofBitsLE, ih, h1, h2]
    rw [pow_succ, Nat.mul_comm (2 ^ k) 2, Nat.mod_mul]

theorem flatMap_unpack_length (bytes : Bytes) :
    (bytes.flatMap (unpackByte 8)).length = 8 * bytes.length := by
  induction bytes with
  | nil => rfl
  | cons b bs ih => simp only [List.flatMap_cons, List.length_append, ih, unpackByte_length,
      List.length_cons]; ring

theorem flatMap_unpack_value (bytes : Bytes) :
    ofBitsLE (bytes.flatMap (unpackByte 8)) = leValue bytes := by
  induction bytes with
  | nil => rfl
  | cons b bs ih =>
    simp only [List.flatMap_cons, ofBitsLE_append, ih, unpackByte_length, leValue, unpackByte_value]
    have : b.toNat < 256 := b.toNat_lt
    rw [Nat.mod_eq_of_lt (by simpa using this)]
    norm_num

end Verif
