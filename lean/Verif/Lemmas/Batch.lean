import Verif.Lemmas.Bls
import Mathlib.Data.Fintype.Card
import Mathlib.Data.Fintype.Pi
import Mathlib.Data.Fintype.BigOperators
import Mathlib.Algebra.Module.Torsion.Field
import Mathlib.Data.List.OfFn
import Mathlib.Algebra.BigOperators.Fin

/-! Helper lemmas for random-exponent batch verification. -/

set_option linter.unusedSectionVars false

namespace Verif

theorem leValue_lt (bs : Bytes) : leValue bs < 256 ^ bs.length := by
  induction bs with
  | nil => simp [leValue]
  | cons b bs ih =>
    have hb : b.toNat < 256 := b.toNat_lt
    simp only [leValue, List.length_cons, pow_succ]
    omega

theorem leValue_inj {a b : Bytes} (hl : a.length = b.length) (h : leValue a = leValue b) :
    a = b := by
  induction a generalizing b with
  | nil => cases b <;> simp_all
  | cons x xs ih =>
    cases b with
    | nil => simp at hl
    | cons y ys =>
      have hx : x.toNat < 256 := x.toNat_lt
      have hy : y.toNat < 256 := y.toNat_lt
      simp only [leValue] at h
      have h1 : x.toNat = y.toNat := by omega
      have h2 : leValue xs = leValue ys := by omega
      rw [UInt8.toNat_inj.1 h1, ih (by simpa using hl) h2]

/-- A string of at most 31 bytes always decodes to the scalar it denotes. -/
theorem frFromRandomBytes_short {r : ℕ} (hr : 2 ^ 248 < r) (bs : Bytes) (hb : bs.length ≤ 31) :
    frFromRandomBytes r bs = some (leValue bs : ZMod r) := by
  have h1 := leValue_lt bs
  have h2 : (256 : ℕ) ^ bs.length ≤ 256 ^ 31 := Nat.pow_le_pow_right (by norm_num) hb
  have h3 : (256 : ℕ) ^ 31 = 2 ^ 248 := by norm_num
  have h4 : (2 : ℕ) ^ 248 < 2 ^ 253 := by norm_num
  have ht : bs.take 32 = bs := List.take_of_length_le (by omega)
  unfold frFromRandomBytes
  simp only [ht]
  rw [Nat.mod_eq_of_lt (by omega), if_pos (by omega)]

theorem byteCount_le (n : ℕ) : byteCountFromTargetBatchSize n SECURITY_BOUND ≤ 31 := by
  unfold byteCountFromTargetBatchSize; omega

theorem byteCount_ge (n : ℕ) : 16 ≤ byteCountFromTargetBatchSize n SECURITY_BOUND := by
  unfold byteCountFromTargetBatchSize SECURITY_BOUND
  omega

/-- The exponents drawn by `Batch::verify`. -/
theorem exponents_eq {r : ℕ} (hr : 2 ^ 248 < r) (rng : ℕ → ℕ → UInt8) (n k : ℕ) (hk : k ≤ 31) :
    Outcome.mapM (ε := BLSError) (fun bs => Outcome.unwrap (frFromRandomBytes r bs))
      (randomDraws rng n k) =
      .ok ((randomDraws rng n k).map fun bs => (leValue bs : ZMod r)) := by
  rw [Outcome.mapM_eq_ok_iff]
  rw [List.forall₂_map_right_iff]
  rw [List.forall₂_same]
  intro bs hbs
  have hlen : bs.length = k := by
    unfold randomDraws at hbs
    rw [List.mem_ofFn] at hbs
    obtain ⟨i, rfl⟩ := hbs
    simp
  rw [frFromRandomBytes_short hr bs (by omega)]
  rfl

section
variable {r : ℕ} [NeZero r] {G1 G2 GT : Type*} [AddCommGroup G1] [Module (ZMod r) G1]
  [AddCommGroup G2] [Module (ZMod r) G2] [CommGroup GT] [DecidableEq GT]
  (P : Pairing r G1 G2 GT)

/-- `Batch::verify` unfolded: it checks the pair of linear combinations. -/
theorem Batch.verify_eq (hr : 2 ^ 248 < r) (b : Batch G1 G2) (H : HashToG1 G1)
    (rng : ℕ → ℕ → UInt8) :
    b.verify P H rng =
      let k := byteCountFromTargetBatchSize b.entries.length SECURITY_BOUND
      let xs := (randomDraws rng b.entries.length k).map fun bs => (leValue bs : ZMod r)
      Verif.verify P (List.zipWith (fun x b => x • b) xs (b.entries.map Prod.fst)).sum
        b.message b.extraData
        (List.zipWith (fun x b => x • b) xs (b.entries.map Prod.snd)).sum H := by
  unfold Batch.verify
  simp only []
  rw [exponents_eq hr _ _ _ (byteCount_le _)]
  have hl : (randomDraws rng b.entries.length
    (byteCountFromTargetBatchSize b.entries.length SECURITY_BOUND)).length = b.entries.length := by
    simp [randomDraws]
  simp [batchPublicKeys, batchSignatures, hl, multiScalarMul_eq_sum]

/-- The batch equation for keys with discrete logs: a linear relation between the defects
`sig - sk • h`. -/
theorem zipWith_defect (xs : List (ZMod r)) (es : List (G2 × G1)) (h : G1) (sks : List (ZMod r))
    (hs : es.map Prod.fst = sks.map (· • P.g2)) (hl : xs.length = es.length) :
    ∃ s : ZMod r, (List.zipWith (fun x b => x • b) xs (es.map Prod.fst)).sum = s • P.g2 ∧
      (List.zipWith (fun x b => x • b) xs (es.map Prod.snd)).sum - s • h =
        (List.zipWith (fun x d => x • d) xs
          (List.zipWith (fun (e : G2 × G1) s => e.2 - s • h) es sks)).sum := by
  induction es generalizing xs sks with
  | nil => exact ⟨0, by simp, by simp⟩
  | cons e es ih =>
    cases sks with
    | nil => simp at hs
    | cons s ss =>
      cases xs with
      | nil => simp at hl
      | cons x xs =>
        simp only [List.map_cons, List.cons.injEq] at hs
        obtain ⟨t, h1, h2⟩ := ih xs ss hs.2 (by simpa using hl)
        refine ⟨x * s + t, ?_, ?_⟩
        · simp only [List.map_cons, List.zipWith_cons_cons, List.sum_cons, h1, hs.1, add_smul,
            mul_smul]
        · simp only [List.map_cons, List.zipWith_cons_cons, List.sum_cons, ← h2, add_smul,
            mul_smul, smul_sub]
          abel

end

/-- `UInt8` is finite (helper instance). -/
instance : Fintype UInt8 :=
  Fintype.ofEquiv (Fin 256) ⟨UInt8.ofFin, UInt8.toFin, fun _ => rfl, fun _ => rfl⟩

theorem card_uint8 : Fintype.card UInt8 = 256 := by
  rw [Fintype.ofEquiv_card, Fintype.card_fin]

/-- Extend a finite table of random bytes to a random source. -/
def tableRng {n k : ℕ} (t : Fin n → Fin k → UInt8) : ℕ → ℕ → UInt8 := fun i j =>
  if h : i < n ∧ j < k then t ⟨i, h.1⟩ ⟨j, h.2⟩ else 0

theorem randomDraws_tableRng {n k : ℕ} (t : Fin n → Fin k → UInt8) :
    randomDraws (tableRng t) n k = List.ofFn fun i => List.ofFn (t i) := by
  unfold randomDraws tableRng
  simp

/-- Counting: a non-trivial linear relation with small coefficients determines one coefficient. -/
theorem count_relation {r : ℕ} [Fact r.Prime] {G : Type*} [AddCommGroup G] [Module (ZMod r) G]
    {n k : ℕ} (hr : 256 ^ k ≤ r) (δ : Fin n → G) (j : Fin n) (hj : δ j ≠ 0)
    (S : Finset (Fin n → Fin k → UInt8))
    (hS : ∀ t ∈ S, ∑ i, (leValue (List.ofFn (t i)) : ZMod r) • δ i = 0) :
    S.card * 256 ^ k ≤ (256 ^ k) ^ n := by
  classical
  have hinj : Set.InjOn (fun (t : Fin n → Fin k → UInt8) (i : {i // i ≠ j}) => t i.1) S := by
    intro t ht t' ht' heq
    have hoff : ∀ i, i ≠ j → t i = t' i := fun i hi => congrFun heq ⟨i, hi⟩
    have h1 := hS t ht
    have h2 := hS t' ht'
    rw [← Finset.add_sum_erase _ _ (Finset.mem_univ j)] at h1 h2
    have h3 : ∑ i ∈ Finset.univ.erase j, (leValue (List.ofFn (t i)) : ZMod r) • δ i =
        ∑ i ∈ Finset.univ.erase j, (leValue (List.ofFn (t' i)) : ZMod r) • δ i := by
      apply Finset.sum_congr rfl
      intro i hi
      rw [hoff i (Finset.ne_of_mem_erase hi)]
    rw [h3] at h1
    have h4 : (leValue (List.ofFn (t j)) : ZMod r) • δ j = (leValue (List.ofFn (t' j)) : ZMod r) • δ j :=
      add_right_cancel (h1.trans h2.symm)
    have h5 : (leValue (List.ofFn (t j)) : ZMod r) = (leValue (List.ofFn (t' j)) : ZMod r) :=
      smul_left_injective (ZMod r) hj h4
    have b1 := leValue_lt (List.ofFn (t j))
    have b2 := leValue_lt (List.ofFn (t' j))
    rw [List.length_ofFn] at b1 b2
    have h6 : leValue (List.ofFn (t j)) = leValue (List.ofFn (t' j)) := by
      have := congrArg ZMod.val h5
      rwa [ZMod.val_cast_of_lt (by omega), ZMod.val_cast_of_lt (by omega)] at this
    have h7 : t j = t' j := List.ofFn_injective (leValue_inj (by simp) h6)
    funext i
    by_cases hi : i = j
    · rw [hi, h7]
    · exact hoff i hi
  have hcard := Finset.card_le_card_of_injOn (t := Finset.univ) _ (fun _ _ => Finset.mem_univ _) hinj
  have hu : (Finset.univ : Finset ({i // i ≠ j} → Fin k → UInt8)).card = (256 ^ k) ^ (n - 1) := by
    rw [Finset.card_univ]
    simp only [Fintype.card_fun, Fintype.card_fin, Fintype.card_subtype_compl,
      Fintype.card_unique]
    rw [card_uint8]
  rw [hu] at hcard
  have hn : 0 < n := j.pos
  calc S.card * 256 ^ k ≤ (256 ^ k) ^ (n - 1) * 256 ^ k := Nat.mul_le_mul_right _ hcard
    _ = (256 ^ k) ^ n := by rw [← pow_succ]; congr 1; omega

end Verif
