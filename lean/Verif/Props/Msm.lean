import Verif.Model.Msm
import Verif.Model.Bls
import Verif.Lemmas.Hashers
import Mathlib.Algebra.BigOperators.Group.List.Basic
import Mathlib.Algebra.Module.Basic
import Mathlib.Tactic.Abel
import Mathlib.Tactic.Ring

/-!
# C127: the bucket method computes the sum of products

`VariableBaseMSM::multi_scalar_mul` never panics and returns the sum of all products, for any number of bases.
-/

namespace Verif

section
variable {G : Type*} [AddCommGroup G]

/-- The first bucket counts `k + 1` times, the next once more, and so on. -/
def bucketVal : List G → ℕ → G
  | [], _ => 0
  | b :: bs, k => (k + 1) • b + bucketVal bs (k + 1)

theorem bucketVal_succ (bs : List G) (k : ℕ) : bucketVal bs (k + 1) = bucketVal bs k + bs.sum := by
  induction bs generalizing k with
  | nil => simp [bucketVal]
  | cons b bs ih =>
    simp only [bucketVal, List.sum_cons]
    rw [ih (k + 1), succ_nsmul b (k + 1)]
    abel

theorem bucketVal_replicate (n k : ℕ) : bucketVal (List.replicate n (0 : G)) k = 0 := by
  induction n generalizing k with
  | zero => rfl
  | succ n ih => rw [List.replicate_succ, bucketVal, ih, smul_zero, add_zero]

theorem addToBucket_ok (bs : List G) (i : ℕ) (hi : i < bs.length) (base : G) (k : ℕ) :
    ∃ bs', addToBucket bs i base = .ok bs' ∧ bs'.length = bs.length ∧
      bucketVal bs' k = bucketVal bs k + (k + i + 1) • base := by
  refine ⟨bs.set i (bs[i] + base), ?_, List.length_set, ?_⟩
  · unfold addToBucket
    rw [List.getElem?_eq_getElem hi]
  · induction bs generalizing i k with
    | nil => cases hi
    | cons b bs ih =>
      cases i with
      | zero =>
        simp only [List.set_cons_zero, List.getElem_cons_zero, bucketVal, smul_add, add_zero]
        abel
      | succ i =>
        simp only [List.set_cons_succ, List.getElem_cons_succ, bucketVal]
        rw [ih i (by simpa using hi) (k + 1), show k + 1 + i + 1 = k + (i + 1) + 1 by ring]
        abel

theorem msmSumBuckets_eq (res : G) (bs : List G) : msmSumBuckets res bs = res + bucketVal bs 0 := by
  unfold msmSumBuckets
  rw [List.foldl_reverse]
  have : bs.foldr (fun b (st : G × G) => (st.1 + b, st.2 + (st.1 + b))) (0, res) = (bs.sum, res + bucketVal bs 0) := by
    induction bs with
    | nil => simp [bucketVal]
    | cons b bs ih =>
      rw [List.foldr_cons, ih]
      simp only [bucketVal, List.sum_cons, Prod.mk.injEq]
      rw [bucketVal_succ]
      constructor
      · abel
      · simp only [zero_add, one_smul]; abel
  rw [this]

/-- The digits of all scalars times their bases. -/
def digitSum (f : ℕ → ℕ) (pairs : List (ℕ × G)) : G := (pairs.map fun p => f p.1 • p.2).sum

theorem msmScatter_ok {c : ℕ} (hc : c ≠ 0) (hc' : c ≤ 64) (w : ℕ) (pairs : List (ℕ × G)) (res : G) (bs : List G)
    (hl : bs.length = 2 ^ c - 1) :
    ∃ res' bs', msmScatter c w res bs pairs = .ok (res', bs') ∧
      res' + bucketVal bs' 0 = res + bucketVal bs 0 + digitSum (fun s => s / 2 ^ w % 2 ^ c) pairs := by
  induction pairs generalizing res bs with
  | nil => exact ⟨res, bs, rfl, by simp [digitSum]⟩
  | cons p rest ih =>
    obtain ⟨s, base⟩ := p
    have hds : digitSum (fun s => s / 2 ^ w % 2 ^ c) ((s, base) :: rest) =
        (s / 2 ^ w % 2 ^ c) • base + digitSum (fun s => s / 2 ^ w % 2 ^ c) rest := by
      simp [digitSum]
    rw [hds]
    have h2c : 2 ≤ 2 ^ c := by
      calc 2 = 2 ^ 1 := rfl
        _ ≤ 2 ^ c := Nat.pow_le_pow_right (by norm_num) (Nat.one_le_iff_ne_zero.2 hc)
    unfold msmScatter
    by_cases hs : s = 1
    · rw [if_pos hs]
      obtain ⟨res', bs', e, h⟩ := ih (if w = 0 then res + base else res) bs hl
      refine ⟨res', bs', e, ?_⟩
      rw [h, hs]
      by_cases hw : w = 0
      · rw [if_pos hw, hw, pow_zero, Nat.div_one, Nat.mod_eq_of_lt (by omega), one_smul]
        abel
      · rw [if_neg hw, Nat.div_eq_of_lt (Nat.one_lt_two_pow hw), Nat.zero_mod, zero_smul, zero_add]
    · rw [if_neg hs]
      have hd : s / 2 ^ w % 2 ^ 64 % 2 ^ c = s / 2 ^ w % 2 ^ c :=
        Nat.mod_mod_of_dvd _ (pow_dvd_pow 2 hc')
      dsimp only
      rw [hd]
      by_cases h0 : s / 2 ^ w % 2 ^ c = 0
      · rw [if_neg (not_not.2 h0), h0, zero_smul, zero_add]
        exact ih res bs hl
      · rw [if_pos h0]
        have hlt : s / 2 ^ w % 2 ^ c < 2 ^ c := Nat.mod_lt _ (by omega)
        obtain ⟨bs1, e1, hl1, h1⟩ := addToBucket_ok bs (s / 2 ^ w % 2 ^ c - 1) (by omega) base 0
        obtain ⟨res', bs', e, h⟩ := ih res bs1 (hl1.trans hl)
        refine ⟨res', bs', by rw [e1]; exact e, ?_⟩
        rw [h, h1, show 0 + (s / 2 ^ w % 2 ^ c - 1) + 1 = s / 2 ^ w % 2 ^ c by omega]
        abel

theorem msmWindowSum_ok {c : ℕ} (hc : c ≠ 0) (hc' : c ≤ 64) (w : ℕ) (pairs : List (ℕ × G)) :
    msmWindowSum c pairs w = .ok (digitSum (fun s => s / 2 ^ w % 2 ^ c) pairs) := by
  obtain ⟨res', bs', e, h⟩ := msmScatter_ok hc hc' w pairs 0 (List.replicate (2 ^ c - 1) 0) List.length_replicate
  unfold msmWindowSum
  rw [e]
  simp only [Outcome.map, Outcome.bind]
  rw [msmSumBuckets_eq, h, bucketVal_replicate, zero_add, zero_add]

theorem double_iterate (c : ℕ) (t : G) : (fun t : G => t + t)^[c] t = 2 ^ c • t := by
  induction c generalizing t with
  | zero => simp
  | succ c ih => rw [Function.iterate_succ_apply, ih, ← two_nsmul, smul_smul, pow_succ]

/-- The polynomial with the windows as coefficients, at `2 ^ c`. -/
def horner (c : ℕ) (l : List G) : G := l.foldr (fun s t => s + 2 ^ c • t) 0

theorem msmCombine_cons (c : ℕ) (s : G) (l : List G) : msmCombine c (s :: l) = .ok (horner c (s :: l)) := by
  have : l.foldr (fun s total => (fun t : G => t + t)^[c] (total + s)) 0 = 2 ^ c • horner c l := by
    induction l with
    | nil => simp [horner]
    | cons a l ih =>
      rw [List.foldr_cons, ih, double_iterate, add_comm]
      rfl
  unfold msmCombine
  dsimp only
  rw [List.foldl_reverse, this]
  rfl

theorem msmCombine_range (c : ℕ) (f : ℕ → G) (m : ℕ) :
    msmCombine c ((List.range' 0 (m + 1)).map f) = .ok (horner c ((List.range' 0 (m + 1)).map f)) := by
  rw [List.range'_succ, List.map_cons, msmCombine_cons]

theorem digitSum_add (f g : ℕ → ℕ) (m : ℕ) (pairs : List (ℕ × G)) :
    digitSum f pairs + m • digitSum g pairs = digitSum (fun s => f s + m * g s) pairs := by
  induction pairs with
  | nil => simp [digitSum]
  | cons p l ih =>
    simp only [digitSum, List.map_cons, List.sum_cons] at ih ⊢
    rw [← ih, smul_add, add_smul, mul_smul]
    abel

theorem horner_windows (c : ℕ) (pairs : List (ℕ × G)) (n j : ℕ) :
    horner c ((List.range' j n).map fun i => digitSum (fun s => s / 2 ^ (i * c) % 2 ^ c) pairs) =
      digitSum (fun s => s / 2 ^ (j * c) % 2 ^ (n * c)) pairs := by
  induction n generalizing j with
  | zero => simp [horner, digitSum, Nat.mod_one]
  | succ n ih =>
    have hstep : ∀ s, s / 2 ^ (j * c) % 2 ^ ((n + 1) * c) =
        s / 2 ^ (j * c) % 2 ^ c + 2 ^ c * (s / 2 ^ ((j + 1) * c) % 2 ^ (n * c)) := fun s => by
      rw [show (n + 1) * c = c + n * c by ring, pow_add, Nat.mod_mul, Nat.div_div_eq_div_mul, ← pow_add,
        show j * c + c = (j + 1) * c by ring]
    rw [List.range'_succ, List.map_cons, funext hstep, ← digitSum_add, ← ih (j + 1)]
    rfl

theorem digitSum_filter (pairs : List (ℕ × G)) :
    digitSum id (pairs.filter fun p => p.1 ≠ 0) = digitSum id pairs := by
  induction pairs with
  | nil => rfl
  | cons p l ih =>
    by_cases h : p.1 = 0
    · rw [List.filter_cons_of_neg (by simpa using h), ih]
      simp [digitSum, h]
    · rw [List.filter_cons_of_pos (by simpa using h)]
      simp only [digitSum, List.map_cons, List.sum_cons] at ih ⊢
      rw [ih]

theorem msmWindow_bounds {size : ℕ} (h : size < 2 ^ 64) : msmWindow size ≠ 0 ∧ msmWindow size ≤ 64 := by
  unfold msmWindow lnWithoutFloats
  have : Nat.clog 2 size ≤ 64 := Nat.clog_le_of_le_pow h.le
  split <;> omega

/-- **C127.** The bucket method never panics and returns the sum of the products of scalars and bases, up to the length
of the shorter list, for scalars of the given number of bits. -/
theorem C127_msm {numBits : ℕ} (hn : numBits ≠ 0) (bases : List G) (scalars : List ℕ)
    (hs : ∀ s ∈ scalars, s < 2 ^ numBits) (hl : min bases.length scalars.length < 2 ^ 64) :
    pippenger numBits bases scalars = .ok (List.zipWith (fun s b => s • b) scalars bases).sum := by
  obtain ⟨hc, hc'⟩ := msmWindow_bounds hl
  unfold pippenger
  dsimp only
  generalize hsize : min bases.length scalars.length = size at *
  generalize msmWindow size = c at *
  set pairs := (scalars.take size).zip (bases.take size) with hp
  have hcpos : 0 < c := Nat.pos_of_ne_zero hc
  have hm : (numBits + c - 1) / c ≠ 0 := by
    rw [Ne, Nat.div_eq_zero_iff]
    omega
  obtain ⟨m, hm⟩ := Nat.exists_eq_succ_of_ne_zero hm
  have hcov : numBits ≤ (m + 1) * c := by
    have := Nat.lt_mul_div_succ (numBits + c - 1) hcpos
    have e : c * ((numBits + c - 1) / c + 1) = (m + 1) * c + c := by rw [hm, Nat.succ_eq_add_one]; ring
    rw [e] at this
    omega
  have hmap : Outcome.mapM (msmWindowSum c (pairs.filter fun p => p.1 ≠ 0)) (msmStarts numBits c) =
      .ok ((List.range' 0 (m + 1)).map fun i => digitSum (fun s => s / 2 ^ (i * c) % 2 ^ c)
        (pairs.filter fun p => p.1 ≠ 0)) := by
    unfold msmStarts
    rw [hm, mapM_map_ok _ (fun w => digitSum (fun s => s / 2 ^ w % 2 ^ c) (pairs.filter fun p => p.1 ≠ 0)) _
      (fun w _ => msmWindowSum_ok hc hc' w _), List.map_map]
    rfl
  rw [hmap]
  simp only [Outcome.bind]
  rw [msmCombine_range, horner_windows]
  congr 1
  have hdig : digitSum (fun s => s / 2 ^ (0 * c) % 2 ^ ((m + 1) * c)) (pairs.filter fun p => p.1 ≠ 0) =
      digitSum id (pairs.filter fun p => p.1 ≠ 0) := by
    unfold digitSum
    congr 1
    refine List.map_congr_left fun p hpm => ?_
    have hmem : p.1 ∈ scalars :=
      List.mem_of_mem_take (List.of_mem_zip (a := p.1) (b := p.2) (List.mem_of_mem_filter hpm)).1
    show (p.1 / 2 ^ (0 * c) % 2 ^ ((m + 1) * c)) • p.2 = p.1 • p.2
    rw [zero_mul, pow_zero, Nat.div_one,
      Nat.mod_eq_of_lt ((hs _ hmem).trans_le (Nat.pow_le_pow_right (by norm_num) hcov))]
  rw [hdig, digitSum_filter]
  have hz : ∀ (ss : List ℕ) (bs : List G) (k : ℕ), min bs.length ss.length ≤ k →
      digitSum id ((ss.take k).zip (bs.take k)) = (List.zipWith (fun s b => s • b) ss bs).sum := by
    intro ss
    induction ss with
    | nil => intro bs k _; simp [digitSum]
    | cons s ss ih =>
      intro bs k hk
      cases bs with
      | nil => simp [digitSum]
      | cons b bs =>
        cases k with
        | zero => simp at hk
        | succ k =>
          have := ih bs k (by simp only [List.length_cons] at hk; omega)
          simp only [List.take_succ_cons, List.zip_cons_cons, List.zipWith_cons_cons, List.sum_cons, digitSum,
            List.map_cons] at this ⊢
          rw [this]
          rfl
  exact hz scalars bases size hsize.le

end

/-- **C127.** So the exponents and points of a batch give what the model of the batch takes for it. -/
theorem C127_batch {r numBits : ℕ} [NeZero r] (hr : r ≤ 2 ^ numBits) (hn : numBits ≠ 0) {G : Type*} [AddCommGroup G]
    [Module (ZMod r) G] (bases : List G) (exponents : List (ZMod r))
    (hl : min bases.length exponents.length < 2 ^ 64) :
    pippenger numBits bases (exponents.map ZMod.val) = .ok (multiScalarMul bases exponents) := by
  rw [C127_msm hn bases _ (fun s h => ?_) (by rwa [List.length_map])]
  · congr 1
    clear hl
    induction exponents generalizing bases with
    | nil => cases bases <;> simp [multiScalarMul]
    | cons x xs ih =>
      cases bases with
      | nil => simp [multiScalarMul]
      | cons b bs =>
        rw [List.map_cons, List.zipWith_cons_cons, List.sum_cons, ih, multiScalarMul, ← Nat.cast_smul_eq_nsmul (ZMod r),
          ZMod.natCast_zmod_val]
  · obtain ⟨x, _, rfl⟩ := List.mem_map.1 h
    exact (ZMod.val_lt x).trans_le hr

/-! ## Examples -/

/-- Five products with scalars zero, one, two small ones and a large one; a sixth base is ignored. -/
example : pippenger 10 [3, 5, 7, 11, 13, 17] [0, 1, 6, 64, 1000] = Outcome.ok (0 * 3 + 1 * 5 + 6 * 7 + 64 * 11 + 1000 * 13 : ℤ) := by
  decide +kernel

/-- Forty products, for which the windows have six bits. -/
example : msmWindow 40 = 6 ∧ pippenger 12 (List.replicate 40 (2 : ℤ)) (List.range' 100 40) =
    .ok (2 * (40 * 100 + 40 * 39 / 2)) := by
  decide +kernel

/-- Bits above the given number may be lost: the bound on the scalars is needed. -/
example : pippenger 2 [1] [9] = Outcome.ok (1 : ℤ) := by decide +kernel

/-- Without any bits there is no window and the code panics. -/
example : pippenger 0 [1] [0] = (Outcome.panic : Outcome Unit ℤ) := by decide +kernel

/-- The exponents of BLS12-377 have 253 bits: two exponents and two elements of the field of scalars. -/
example : pippenger 253 ([5, 7] : List (ZMod FR_MODULUS)) (([-1, 2 ^ 200] : List (ZMod FR_MODULUS)).map ZMod.val) =
    .ok (multiScalarMul [5, 7] ([-1, 2 ^ 200] : List (ZMod FR_MODULUS))) :=
  haveI : NeZero FR_MODULUS := ⟨by decide +kernel⟩
  C127_batch (by decide +kernel) (by norm_num) _ _ (by norm_num)

end Verif
