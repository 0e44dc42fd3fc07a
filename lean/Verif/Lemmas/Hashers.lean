import Verif.Model.Hashers
import Mathlib.Algebra.Order.Floor.Ring
import Mathlib.Tactic.Linarith
import Mathlib.Tactic.NormNum.Pow

/-! Helper lemmas about the hashers. -/

namespace Verif

/-- For block numbers below `2 ^ 32` the node offset is the block number plus the (16-bit) length
shifted by 32. -/
theorem nodeOffset_eq (i len : ℕ) (hi : i < 2 ^ 32) :
    xofDigestLengthToNodeOffset i len = i + (len % 2 ^ 16) * 2 ^ 32 := by
  unfold xofDigestLengthToNodeOffset
  simp only []
  set l := len % 2 ^ 16 with hl
  have h16 : l < 65536 := by omega
  have e1 : i ||| ((l % 256) <<< 32) = (l % 256) <<< 32 + i := by
    rw [Nat.or_comm, Nat.shiftLeft_add_eq_or_of_lt hi]
  have hlt : (l % 256) <<< 32 + i < 2 ^ 40 := by
    rw [Nat.shiftLeft_eq]
    have : l % 256 < 256 := Nat.mod_lt _ (by norm_num)
    omega
  rw [e1, Nat.or_comm, ← Nat.shiftLeft_add_eq_or_of_lt hlt]
  simp only [Nat.shiftLeft_eq]
  omega

theorem nodeOffset_lt (i len : ℕ) (hi : i < 2 ^ 32) :
    xofDigestLengthToNodeOffset i len < 2 ^ 48 := by
  rw [nodeOffset_eq i len hi]
  have : len % 2 ^ 16 < 2 ^ 16 := Nat.mod_lt _ (by norm_num)
  omega

/-- Length of block `i` of an XOF of length `len`. -/
theorem blockLen_bounds (len i : ℕ) :
    1 ≤ (if i = xofNumHashes len - 1 ∧ len % 32 ≠ 0 then len % 32 else 32) ∧
      (if i = xofNumHashes len - 1 ∧ len % 32 ≠ 0 then len % 32 else 32) ≤ 32 := by
  split
  · have := Nat.mod_lt len (show 32 > 0 by norm_num)
    omega
  · omega

/-- The explicit parameters of an XOF block. -/
theorem directXofParams_ok (domain : Bytes) (hd : domain.length ≤ 8) (len i : ℕ)
    (h32 : i < 2 ^ 32) :
    directXofParams domain len i = .ok
      { hashLength := if i = xofNumHashes len - 1 ∧ len % 32 ≠ 0 then len % 32 else 32
        fanout := 0, maxDepth := 0, maxLeafLength := 32
        nodeOffset := xofDigestLengthToNodeOffset i len
        innerHashLength := 32
        personal := domain ++ List.replicate (8 - domain.length) 0 } := by
  unfold directXofParams
  simp only [Blake2sParams.setHashLength, if_pos (blockLen_bounds len i), Outcome.bind_ok,
    Blake2sParams.setPersonal, if_pos hd, Blake2sParams.setNodeOffset,
    if_pos (nodeOffset_lt i len h32)]

theorem directCrhParams_ok (domain : Bytes) (hd : domain.length ≤ 8) (len : ℕ) :
    directCrhParams domain len = .ok
      { hashLength := 32, fanout := 1, maxDepth := 1, maxLeafLength := 0
        nodeOffset := xofDigestLengthToNodeOffset 0 len
        innerHashLength := 0
        personal := domain ++ List.replicate (8 - domain.length) 0 } := by
  unfold directCrhParams
  have h0 : 1 ≤ 32 ∧ 32 ≤ 32 := by omega
  simp only [Blake2sParams.setHashLength, if_pos h0, Outcome.bind_ok, Blake2sParams.setNodeOffset,
    if_pos (nodeOffset_lt 0 len (by norm_num)),
    Blake2sParams.setPersonal, if_pos hd, Blake2sParams.new]

theorem mapM_map_ok {ε α β : Type*} (f : α → Outcome ε β) (g : α → β) (l : List α)
    (h : ∀ a ∈ l, f a = .ok (g a)) : Outcome.mapM f l = .ok (l.map g) := by
  rw [Outcome.mapM_eq_ok_iff, List.forall₂_map_right_iff, List.forall₂_same]
  exact h

theorem ceil_bits (n : ℕ) : ⌈((n * 8 : ℕ) : ℚ) / 256⌉₊ = (n + 31) / 32 := by
  rcases Nat.eq_zero_or_pos n with rfl | hn
  · simp
  rw [Nat.ceil_eq_iff (by omega)]
  obtain ⟨k, hk⟩ : ∃ k, (n + 31) / 32 = k := ⟨_, rfl⟩
  have h1 : 32 * (k - 1) < n := by omega
  have h2 : n ≤ 32 * k := by omega
  rw [hk]
  have h1' : (32 : ℚ) * ((k - 1 : ℕ) : ℚ) < n := by exact_mod_cast h1
  have h2' : (n : ℚ) ≤ 32 * k := by exact_mod_cast h2
  push_cast
  constructor
  · rw [lt_div_iff₀ (by norm_num)]; linarith
  · rw [div_le_iff₀ (by norm_num)]; linarith

theorem hashLength_eq (n : ℕ) : hashLength n = 32 * ((n + 31) / 32) := by
  unfold hashLength
  simp only [ceil_bits]
  omega

/-- The XOF as a concatenation of blocks. -/
theorem directXof_ok (B : Blake2s) (domain m : Bytes) (hd : domain.length ≤ 8) (len : ℕ)
    (hlen : len < 2 ^ 37) :
    directXof B domain m len = .ok ((List.range (xofNumHashes len)).map (fun i => B.run
      { hashLength := if i = xofNumHashes len - 1 ∧ len % 32 ≠ 0 then len % 32 else 32
        fanout := 0, maxDepth := 0, maxLeafLength := 32
        nodeOffset := xofDigestLengthToNodeOffset i len
        innerHashLength := 32
        personal := domain ++ List.replicate (8 - domain.length) 0 } m)).flatten := by
  unfold directXof
  rw [if_neg (by omega)]
  rw [mapM_map_ok _ (fun i => B.run
      { hashLength := if i = xofNumHashes len - 1 ∧ len % 32 ≠ 0 then len % 32 else 32
        fanout := 0, maxDepth := 0, maxLeafLength := 32
        nodeOffset := xofDigestLengthToNodeOffset i len
        innerHashLength := 32
        personal := domain ++ List.replicate (8 - domain.length) 0 } m)]
  · rfl
  · intro i hi
    rw [List.mem_range] at hi
    have : xofNumHashes len ≤ 2 ^ 32 := by unfold xofNumHashes; omega
    rw [directXofParams_ok domain hd len i (by omega)]
    rfl

theorem blockLen_sum (len : ℕ) :
    ((List.range (xofNumHashes len)).map
      (fun i => if i = xofNumHashes len - 1 ∧ len % 32 ≠ 0 then len % 32 else 32)).sum = len := by
  rcases Nat.eq_zero_or_pos len with rfl | hpos
  · rfl
  obtain ⟨k, hk⟩ : ∃ k, xofNumHashes len = k + 1 :=
    ⟨xofNumHashes len - 1, by unfold xofNumHashes; omega⟩
  rw [hk, List.range_succ, List.map_append, List.sum_append]
  have h1 : ((List.range k).map
      (fun i => if i = k + 1 - 1 ∧ len % 32 ≠ 0 then len % 32 else 32)).sum = 32 * k := by
    rw [List.map_congr_left (g := fun _ => 32)]
    · simp [mul_comm]
    · intro i hi
      rw [List.mem_range] at hi
      rw [if_neg (by omega)]
  rw [h1]
  unfold xofNumHashes at hk
  simp only [List.map_cons, List.map_nil, List.sum_cons, List.sum_nil, Nat.add_sub_cancel,
    true_and]
  split <;> omega

end Verif
