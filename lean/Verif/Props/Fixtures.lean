import Verif.Model.Fixtures
import Verif.Props.EndToEnd
import Verif.Props.Setup
import Verif.Props.Pedersen
import Verif.Props.Scheme

/-!
# Property C99: the fixture, the end-to-end program and the examples
-/

set_option linter.unusedSectionVars false
set_option exponentiation.threshold 800

namespace Verif

open Finset (range)

/-! ## Keys -/

section
variable {r : ℕ} {G2 : Type*} [AddCommGroup G2] (gen : G2) (rng : ℕ → ZMod r)

theorem keygenMulLoop_eq (k : ℕ) (sks : List (ZMod r)) (pks : List G2) (s : ℕ) :
    keygenMulLoop gen rng k sks pks s =
      ((sks ++ (List.range' s k).map rng, pks ++ (List.range' s k).map fun i => (rng i).val • gen),
        s + k) := by
  induction k generalizing sks pks s with
  | zero => simp [keygenMulLoop]
  | succ k ih =>
    simp only [keygenMulLoop, keygen, ih, List.range'_succ, List.map_cons, List.append_assoc,
      List.cons_append, List.nil_append]
    congr 1
    omega

/-- The secrets of set `k` of `n` validators drawn from `rng`. -/
def drawnSecrets (n k : ℕ) : List (ZMod r) := (List.range n).map fun j => rng (n * k + j)

/-- Their public keys. -/
def drawnKeys (n k : ℕ) : List G2 := (drawnSecrets rng n k).map fun sk => sk.val • gen

theorem range'_map {α : Type*} (f : ℕ → α) (s k : ℕ) :
    (List.range' s k).map f = (List.range k).map fun j => f (s + j) := by
  rw [List.range'_eq_map_range, List.map_map]
  rfl

theorem keygenMul_eq (n k : ℕ) :
    keygenMul gen rng n (n * k) = ((drawnSecrets rng n k, drawnKeys gen rng n k), n * (k + 1)) := by
  unfold keygenMul drawnKeys drawnSecrets
  rw [keygenMulLoop_eq, range'_map, range'_map, List.map_map, Nat.mul_succ]
  rfl

theorem keygenBatchLoop_eq (n b k : ℕ) (sks : List (List (ZMod r))) (pks : List (List G2)) :
    keygenBatchLoop gen rng n b sks pks (n * k) =
      ((sks ++ (List.range' k b).map (drawnSecrets rng n),
        pks ++ (List.range' k b).map (drawnKeys gen rng n)), n * (k + b)) := by
  induction b generalizing sks pks k with
  | zero => simp [keygenBatchLoop]
  | succ b ih =>
    simp only [keygenBatchLoop, keygenMul_eq, ih, List.range'_succ, List.map_cons, List.append_assoc,
      List.cons_append, List.nil_append]
    congr 2
    omega

theorem drawnSecrets_length (n k : ℕ) : (drawnSecrets rng n k).length = n := by
  simp [drawnSecrets]

theorem drawnKeys_length (n k : ℕ) : (drawnKeys gen rng n k).length = n := by
  simp [drawnKeys, drawnSecrets]

end

/-! ## The blocks and transitions of the fixture -/

section
variable (gen2 : G2Point) (rng : ℕ → ZMod FR_MODULUS) (n f : ℕ)

/-- Block `i` of the fixture, written out. -/
noncomputable def fixtureBlock : ℕ → EpochBlock
  | 0 =>
    { index := 0, round := 0, epochEntropy := some (List.replicate 16 1)
      parentEntropy := some (List.replicate 16 2), maximumNonSigners := UInt32.ofNat f
      maximumValidators := n, newPublicKeys := drawnKeys gen2 rng n 0 }
  | i + 1 =>
    { index := UInt16.ofNat (i + 1), round := UInt8.ofNat (i + 10)
      epochEntropy := some (List.replicate 16 (UInt8.ofNat (i + 2)))
      parentEntropy := some (List.replicate 16 (UInt8.ofNat (i + 1)))
      maximumNonSigners := UInt32.ofNat f, maximumValidators := n
      newPublicKeys := drawnKeys gen2 rng n (i + 1) }

/-- The bitmap of every epoch: the first `f` validators do not sign. -/
def fixtureBitmap : List Bool := (List.range n).map fun j => decide (f ≤ j)

variable {G1 : Type*} [AddCommGroup G1]

/-- The secrets of the signers of epoch `i`, as numbers, added up. -/
def fixtureExponent (i : ℕ) : ℕ :=
  ((((drawnSecrets rng n i).zip (fixtureBitmap n f)).filter (·.2)).map (·.1.val)).sum

/-- Transition `i` of the fixture, to block `i + 1`, where the block has hash `g`. -/
noncomputable def fixtureTransition (i : ℕ) (g : G1) : EpochTransition G1 :=
  ⟨fixtureBlock gen2 rng n f (i + 1), fixtureExponent rng n f i • g, fixtureBitmap n f⟩

theorem fixtureSignLoop_eq (hash : G1) (bitmap : List Bool) (sks : List (ZMod FR_MODULUS)) (j : ℕ)
    (asig : G1) (h : j + sks.length ≤ bitmap.length) :
    fixtureSignLoop hash bitmap sks j asig =
      .ok (asig + ((((sks.zip (bitmap.drop j)).filter (·.2)).map (·.1.val)).sum) • hash) := by
  induction sks generalizing j asig with
  | nil => simp [fixtureSignLoop]
  | cons sk sks ih =>
    rw [List.length_cons] at h
    have hj : j < bitmap.length := by omega
    rw [fixtureSignLoop, List.getElem?_eq_getElem hj]
    simp only
    rw [ih _ _ (by omega), List.drop_eq_getElem_cons hj, List.zip_cons_cons, List.filter_cons]
    cases bitmap[j]
    · simp
    · simp [add_smul, add_assoc]

theorem generateBitmaps_eq (m : ℕ) :
    generateBitmaps m n f = List.replicate m (fixtureBitmap n f) := by
  unfold generateBitmaps fixtureBitmap
  rw [List.map_const']
  congr 1
  · simp
  · apply List.map_congr_left
    intro j _
    by_cases h : j < f
    · rw [if_pos h, decide_eq_false (by omega)]
    · rw [if_neg h, decide_eq_true (by omega)]

theorem fixtureBitmap_length : (fixtureBitmap n f).length = n := by simp [fixtureBitmap]

theorem fixtureLoop_ok (H : EpochBlock → Outcome BLSError G1) (m : ℕ) (h : ℕ → G1) (k i : ℕ)
    (him : i + k ≤ m) (hok : ∀ j, i ≤ j → j < i + k → H (fixtureBlock gen2 rng n f (j + 1)) = .ok (h j))
    (acc : List (EpochTransition G1)) :
    fixtureLoop H f n ((List.range' 1 m).map (drawnKeys gen2 rng n)) (generateBitmaps m n f)
        ((List.range' i k).map (drawnSecrets rng n)) i acc =
      .ok (acc ++ (List.range' i k).map fun j => fixtureTransition gen2 rng n f j (h j)) := by
  induction k generalizing i acc with
  | zero => simp [fixtureLoop]
  | succ k ih =>
    have h1 : ((List.range' 1 m).map (drawnKeys gen2 rng n))[i]? = some (drawnKeys gen2 rng n (i + 1)) := by
      rw [List.getElem?_map, List.getElem?_range' (by omega)]
      simp [Nat.add_comm]
    have h2 : (generateBitmaps m n f)[i]? = some (fixtureBitmap n f) := by
      rw [generateBitmaps_eq, List.getElem?_replicate_of_lt (by omega)]
    have h3 := hok i le_rfl (by omega)
    rw [List.range'_succ, List.map_cons, fixtureLoop, h1]
    simp only [h2]
    change (H (fixtureBlock gen2 rng n f (i + 1))).unwrapResult.bind _ = _
    rw [h3]
    simp only [Outcome.unwrapResult, Outcome.bind_ok]
    rw [fixtureSignLoop_eq _ _ _ _ _ (by rw [drawnSecrets_length, fixtureBitmap_length]; omega)]
    simp only [Outcome.bind_ok, List.drop_zero, zero_add]
    rw [ih (i + 1) (by omega) (fun j h1 h2 => hok j (by omega) (by omega)), List.map_cons,
      List.append_assoc]
    rfl

theorem fixtureLoop_panic (H : EpochBlock → Outcome BLSError G1) (m k i : ℕ) (him : i + k ≤ m)
    (hbad : ∃ j, i ≤ j ∧ j < i + k ∧ ∀ g, H (fixtureBlock gen2 rng n f (j + 1)) ≠ .ok g)
    (acc : List (EpochTransition G1)) :
    fixtureLoop H f n ((List.range' 1 m).map (drawnKeys gen2 rng n)) (generateBitmaps m n f)
        ((List.range' i k).map (drawnSecrets rng n)) i acc = .panic := by
  induction k generalizing i acc with
  | zero => obtain ⟨j, h1, h2, _⟩ := hbad; omega
  | succ k ih =>
    have h1 : ((List.range' 1 m).map (drawnKeys gen2 rng n))[i]? = some (drawnKeys gen2 rng n (i + 1)) := by
      rw [List.getElem?_map, List.getElem?_range' (by omega)]
      simp [Nat.add_comm]
    have h2 : (generateBitmaps m n f)[i]? = some (fixtureBitmap n f) := by
      rw [generateBitmaps_eq, List.getElem?_replicate_of_lt (by omega)]
    rw [List.range'_succ, List.map_cons, fixtureLoop, h1]
    simp only [h2]
    change (H (fixtureBlock gen2 rng n f (i + 1))).unwrapResult.bind _ = _
    obtain ⟨j, j1, j2, j3⟩ := hbad
    cases hH : H (fixtureBlock gen2 rng n f (i + 1)) with
    | err e => rfl
    | panic => rfl
    | ok g =>
      simp only [Outcome.unwrapResult, Outcome.bind_ok]
      rw [fixtureSignLoop_eq _ _ _ _ _ (by rw [drawnSecrets_length, fixtureBitmap_length]; omega)]
      simp only [Outcome.bind_ok]
      apply ih (i + 1) (by omega)
      refine ⟨j, ?_, by omega, j3⟩
      rcases Nat.lt_or_ge i j with h | h
      · exact h
      · have : j = i := by omega
        rw [this, hH] at j3
        exact absurd rfl (j3 g)

end


/-! ## C99: the test data -/

section
variable (gen2 : G2Point) (rng : ℕ → ZMod FR_MODULUS) (n f m : ℕ) {G1 : Type*} [AddCommGroup G1]
  (H : EpochBlock → Outcome BLSError G1)

theorem generateTestData_loop : generateTestData gen2 H rng n f m =
    if m = 0 then .panic
    else (fixtureLoop H f n ((List.range' 1 m).map (drawnKeys gen2 rng n)) (generateBitmaps m n f)
      ((List.range' 0 m).map (drawnSecrets rng n)) 0 []).bind fun transitions =>
        match transitions.getLast? with
        | none => .panic
        | some t => .ok (fixtureBlock gen2 rng n f 0, transitions, t.block) := by
  have h0 := keygenMul_eq gen2 rng n 0
  have h1 := keygenBatchLoop_eq gen2 rng n m 1 [] []
  rw [Nat.mul_zero] at h0
  unfold generateTestData
  simp only [h0, keygenBatch, zero_add, h1, List.nil_append, List.length_map, List.length_range']
  by_cases hm : m = 0
  · rw [if_pos hm, if_pos hm]
  · rw [if_neg hm, if_neg hm]
    obtain ⟨k, rfl⟩ := Nat.exists_eq_succ_of_ne_zero hm
    have h2 : drawnSecrets rng n 0 :: ((List.range' 1 (k + 1)).map (drawnSecrets rng n)).take (k + 1 - 1) =
        (List.range' 0 (k + 1)).map (drawnSecrets rng n) := by
      rw [List.range'_succ (s := 0), List.map_cons, ← List.map_take, List.range'_concat (n := k),
        Nat.add_sub_cancel, List.take_left' (by rw [List.length_range'])]
    rw [Nat.succ_eq_add_one, h2]
    rfl

/-- **C99.** If all blocks hash, the test data is exactly this: block 0, a transition to each block from
1 to `m`, signed with the secrets of the previous block's keys by all but the first `f` validators,
and block `m`. -/
theorem C99_fixture (hm : m ≠ 0) (h : ℕ → G1)
    (hok : ∀ i < m, H (fixtureBlock gen2 rng n f (i + 1)) = .ok (h i)) :
    generateTestData gen2 H rng n f m =
      .ok (fixtureBlock gen2 rng n f 0,
        (List.range m).map (fun i => fixtureTransition gen2 rng n f i (h i)),
        fixtureBlock gen2 rng n f m) := by
  rw [generateTestData_loop, if_neg hm,
    fixtureLoop_ok gen2 rng n f H m h m 0 (by omega) (fun j _ hj => hok j (by omega))]
  obtain ⟨k, rfl⟩ := Nat.exists_eq_succ_of_ne_zero hm
  rw [← List.range_eq_range']
  simp only [Outcome.bind_ok, List.nil_append, Nat.succ_eq_add_one, List.range_succ, List.map_append,
    List.map_cons, List.map_nil, List.getLast?_concat]
  rfl

/-- **C99.** It panics exactly for no epochs, or if a block does not hash. -/
theorem C99_fixture_panic : generateTestData gen2 H rng n f m = .panic ↔
    m = 0 ∨ ∃ i < m, ∀ g, H (fixtureBlock gen2 rng n f (i + 1)) ≠ .ok g := by
  constructor
  · intro h
    by_contra hc
    push Not at hc
    obtain ⟨hm, hc⟩ := hc
    choose! g hg using hc
    rw [C99_fixture gen2 rng n f m H hm g hg] at h
    cases h
  · rintro (h | ⟨i, hi, h⟩)
    · rw [generateTestData_loop, if_pos h]
    · rw [generateTestData_loop]
      split
      · rfl
      · rw [fixtureLoop_panic gen2 rng n f H m m 0 (by omega) ⟨i, by omega, by omega, h⟩]
        rfl

theorem fixture_ok {d : EpochBlock × List (EpochTransition G1) × EpochBlock}
    (hd : generateTestData gen2 H rng n f m = .ok d) :
    ∃ (k : ℕ) (h : ℕ → G1), m = k + 1 ∧
      (∀ i < m, H (fixtureBlock gen2 rng n f (i + 1)) = .ok (h i)) ∧
      d = (fixtureBlock gen2 rng n f 0,
        (List.range k).map (fun i => fixtureTransition gen2 rng n f i (h i)) ++
          [fixtureTransition gen2 rng n f k (h k)],
        fixtureBlock gen2 rng n f (k + 1)) := by
  have hp : ¬ (m = 0 ∨ ∃ i < m, ∀ g, H (fixtureBlock gen2 rng n f (i + 1)) ≠ .ok g) := by
    rw [← C99_fixture_panic, hd]
    intro h
    cases h
  push Not at hp
  obtain ⟨hm, hc⟩ := hp
  choose! g hg using hc
  obtain ⟨k, rfl⟩ := Nat.exists_eq_succ_of_ne_zero hm
  refine ⟨k, g, rfl, hg, ?_⟩
  rw [C99_fixture gen2 rng n f _ H hm g hg] at hd
  rw [← Outcome.ok.inj hd, Nat.succ_eq_add_one, List.range_succ, List.map_append, List.map_cons,
    List.map_nil]

end

/-! ## C99: the test data is a natively valid chain -/

section
variable {GT : Type*} [CommGroup GT] [DecidableEq G1Point]

theorem fixture_predecessors (gen2 : G2Point) (rng : ℕ → ZMod FR_MODULUS) (n f m : ℕ)
    (h : ℕ → G1Point) (p : EpochBlock × EpochTransition G1Point)
    (hp : p ∈ predecessors (fixtureBlock gen2 rng n f 0)
      ((List.range m).map fun i => fixtureTransition gen2 rng n f i (h i))) :
    ∃ i < m, p = (fixtureBlock gen2 rng n f i, fixtureTransition gen2 rng n f i (h i)) := by
  unfold predecessors at hp
  rw [List.mem_iff_getElem] at hp
  obtain ⟨i, hi, rfl⟩ := hp
  simp only [List.length_zip, List.length_cons, List.length_map, List.length_range] at hi
  refine ⟨i, by omega, ?_⟩
  rw [List.getElem_zip]
  congr 1
  · cases i with
    | zero => rfl
    | succ i => simp [fixtureTransition]
  · simp

theorem signers_sum (gen2 : G2Point) (l : List (ZMod FR_MODULUS × Bool)) :
    (((l.map fun x => (x.1.val • gen2, x.2)).filter (·.2)).map (·.1)).sum =
      (((l.filter (·.2)).map (·.1.val)).sum) • gen2 := by
  induction l with
  | nil => simp
  | cons x l ih =>
    obtain ⟨sk, b⟩ := x
    cases b
    · simpa using ih
    · simp only [List.map_cons, List.filter_cons, if_true, List.sum_cons, add_smul]
      rw [ih]

theorem fixture_keys_sum (gen2 : G2Point) (rng : ℕ → ZMod FR_MODULUS) (n f i : ℕ) :
    ((((drawnKeys gen2 rng n i).zip (fixtureBitmap n f)).filter (·.2)).map (·.1)).sum =
      fixtureExponent rng n f i • gen2 := by
  rw [fixtureExponent, ← signers_sum]
  congr 3
  unfold drawnKeys
  rw [List.zip_map_left]
  apply List.map_congr_left
  rintro ⟨a, b⟩ _
  rfl

theorem fixtureBlock_keys (gen2 : G2Point) (rng : ℕ → ZMod FR_MODULUS) (n f i : ℕ) :
    (fixtureBlock gen2 rng n f i).newPublicKeys = drawnKeys gen2 rng n i := by
  cases i <;> rfl

theorem fixtureBlock_const (gen2 : G2Point) (rng : ℕ → ZMod FR_MODULUS) (n f i : ℕ) :
    (fixtureBlock gen2 rng n f i).maximumValidators = n ∧
    (fixtureBlock gen2 rng n f i).maximumNonSigners = UInt32.ofNat f ∧
    EntropyOk (fixtureBlock gen2 rng n f i).epochEntropy ∧
    EntropyOk (fixtureBlock gen2 rng n f i).parentEntropy := by
  have hE : ∀ c : UInt8, EntropyOk (some (List.replicate 16 c)) := by
    intro c b hb
    rw [← Option.some.inj hb, List.length_replicate]
  cases i <;> exact ⟨rfl, rfl, hE _, hE _⟩

theorem bitmap_count (n f : ℕ) : (fixtureBitmap n f).count false ≤ min f n := by
  induction n with
  | zero => simp [fixtureBitmap]
  | succ n ih =>
    unfold fixtureBitmap at ih ⊢
    rw [List.range_succ, List.map_append, List.count_append]
    by_cases h : f ≤ n
    · simp only [List.map_cons, List.map_nil, h, decide_true]
      simp
      omega
    · simp only [List.map_cons, List.map_nil, h, decide_false]
      simp
      omega

theorem pairing_cancels {e : G1Point → G2Point → GT} (hl : ∀ P P' Q, e (P + P') Q = e P Q * e P' Q)
    (hr : ∀ P Q Q', e P (Q + Q') = e P Q * e P Q') (N : ℕ) (g : G1Point) (gen2 : G2Point) :
    e (N • g) (-gen2) * e g (N • gen2) = 1 := by
  have h0 : ∀ P, e P 0 = 1 := by
    intro P
    have := hr P 0 0
    rw [add_zero] at this
    exact mul_eq_left.mp this.symm
  have h1 : ∀ Q, e 0 Q = 1 := by
    intro Q
    have := hl 0 0 Q
    rw [add_zero] at this
    exact mul_eq_left.mp this.symm
  have hneg : e g (-gen2) * e g gen2 = 1 := by rw [← hr, neg_add_cancel, h0]
  induction N with
  | zero => rw [zero_nsmul, zero_nsmul, h0, h1, one_mul]
  | succ N ih =>
    rw [succ_nsmul, succ_nsmul, hl, hr]
    calc e (N • g) (-gen2) * e g (-gen2) * (e g (N • gen2) * e g gen2)
        = (e (N • g) (-gen2) * e g (N • gen2)) * (e g (-gen2) * e g gen2) := by
          rw [mul_mul_mul_comm]
      _ = 1 := by rw [ih, hneg, one_mul]

/-- A multiple of the generator by a scalar is zero only for the scalar zero, and the generator only for
the scalar one. -/
theorem val_smul_gen (sk : ZMod FR_MODULUS) :
    (sk.val • g2Generator = 0 → sk = 0) ∧ (sk.val • g2Generator = g2Generator → sk = 1) := by
  have ho := g2Generator_addOrderOf
  have hlt : sk.val < FR_MODULUS := by
    have : NeZero FR_MODULUS := ⟨FR_prime.ne_zero⟩
    exact ZMod.val_lt sk
  have : NeZero FR_MODULUS := ⟨FR_prime.ne_zero⟩
  have h1 : (1 : ℕ) < FR_MODULUS := FR_prime.one_lt
  constructor
  · intro h
    have hd := addOrderOf_dvd_of_nsmul_eq_zero h
    rw [ho] at hd
    exact (ZMod.val_eq_zero sk).mp (Nat.eq_zero_of_dvd_of_lt hd hlt)
  · intro h
    have hv : sk.val = 1 := by
      exact nsmul_injOn_Iio_addOrderOf (lt_of_lt_of_eq hlt ho.symm) (lt_of_lt_of_eq h1 ho.symm)
        (by simpa using h)
    have := ZMod.natCast_zmod_val sk
    rw [hv, Nat.cast_one] at this
    exact this.symm

/-- The hash of an epoch block with the composite hasher of the library. -/
noncomputable def blockHash (compat : Bool) (B : Blake2s) (pedersen : Bytes → Outcome BLSError Bytes)
    (sqrt : Fq → Option Fq) (b : EpochBlock) : Outcome BLSError G1Point :=
  b.hashToG1 g2Generator (tryAndIncrementCip22 compat (compositeHasher B pedersen) sqrt g1Scale)

/-- **C99.** Up to 65535 epochs and 255 faults the test data is a natively valid chain, for every bilinear
pairing, if no drawn secret is zero and no signer's secret is one (whose key is the padding key). -/
theorem C99_chain (compat : Bool) (B : Blake2s) (pedersen : Bytes → Outcome BLSError Bytes)
    (sqrt : Fq → Option Fq) {e : G1Point → G2Point → GT}
    (hl : ∀ P P' Q, e (P + P') Q = e P Q * e P' Q) (hr : ∀ P Q Q', e P (Q + Q') = e P Q * e P Q')
    (rng : ℕ → ZMod FR_MODULUS) (n f m : ℕ) (hm : m < 2 ^ 16) (hf : min f n < 256) (hf' : f < 2 ^ 32)
    (h0 : ∀ i < n * (m + 1), rng i ≠ 0) (h1 : ∀ i < n * m, rng i ≠ 1)
    {b0 last : EpochBlock} {ts : List (EpochTransition G1Point)}
    (hd : generateTestData g2Generator (blockHash compat B pedersen sqrt) rng n f m =
      .ok (b0, ts, last)) :
    NativeChain compat B pedersen sqrt e g2Generator n b0 ts := by
  obtain ⟨k, h, rfl, hok, heq⟩ := fixture_ok _ _ _ _ _ _ hd
  simp only [Prod.mk.injEq] at heq
  obtain ⟨rfl, rfl, rfl⟩ := heq
  have hts : (List.range k).map (fun i => fixtureTransition g2Generator rng n f i (h i)) ++
      [fixtureTransition g2Generator rng n f k (h k)] =
      (List.range (k + 1)).map fun i => fixtureTransition g2Generator rng n f i (h i) := by
    rw [List.range_succ, List.map_append, List.map_cons, List.map_nil]
  rw [hts]
  have hp := fixture_predecessors g2Generator rng n f (k + 1) h
  have hkey : ∀ i ≤ k + 1, ∀ pk ∈ drawnKeys g2Generator rng n i, ∃ j < n * (i + 1),
      pk = (rng j).val • g2Generator := by
    intro i _ pk hpk
    simp only [drawnKeys, drawnSecrets, List.map_map, List.mem_map, List.mem_range,
      Function.comp_apply] at hpk
    obtain ⟨j, hj, rfl⟩ := hpk
    exact ⟨n * i + j, by rw [Nat.mul_succ]; omega, rfl⟩
  refine ⟨?_, ?_, ?_, ?_, ?_, ?_⟩
  · intro b hb
    have : ∃ i ≤ k + 1, b = fixtureBlock g2Generator rng n f i := by
      rw [List.mem_cons] at hb
      rcases hb with rfl | hb
      · exact ⟨0, by omega, rfl⟩
      · simp only [List.map_map, List.mem_map, List.mem_range, Function.comp_apply] at hb
        obtain ⟨i, hi, rfl⟩ := hb
        exact ⟨i + 1, by omega, rfl⟩
    obtain ⟨i, hi, rfl⟩ := this
    obtain ⟨c1, _, c3, c4⟩ := fixtureBlock_const g2Generator rng n f i
    rw [fixtureBlock_keys, c1]
    refine ⟨drawnKeys_length _ _ _ _, ?_, le_rfl, c3, c4⟩
    intro pk hpk
    obtain ⟨j, hj, rfl⟩ := hkey i hi pk hpk
    intro hz
    refine h0 j (lt_of_lt_of_le hj (Nat.mul_le_mul_left _ (by omega))) ((val_smul_gen _).1 hz)
  · intro p hpm
    obtain ⟨i, hi, rfl⟩ := hp p hpm
    have hidx : ∀ j ≤ k + 1, (fixtureBlock g2Generator rng n f j).index.toNat = j := by
      intro j hj
      cases j with
      | zero => rfl
      | succ j =>
        change (UInt16.ofNat (j + 1)).toNat = _
        rw [UInt16.toNat_ofNat']
        exact Nat.mod_eq_of_lt (by omega)
    change (fixtureBlock g2Generator rng n f (i + 1)).index.toNat = _
    rw [hidx _ (by omega), hidx _ (by omega)]
  · intro _ p hpm
    obtain ⟨i, hi, rfl⟩ := hp p hpm
    cases i <;> rfl
  · intro p hpm
    obtain ⟨i, hi, rfl⟩ := hp p hpm
    have hc := bitmap_count n f
    refine ⟨fixtureBitmap_length n f, ?_, lt_of_le_of_lt hc hf⟩
    rw [(fixtureBlock_const g2Generator rng n f i).2.1, UInt32.toNat_ofNat', Nat.mod_eq_of_lt hf']
    exact le_trans hc (min_le_left _ _)
  · intro p hpm
    obtain ⟨i, hi, rfl⟩ := hp p hpm
    rintro ⟨pk, b⟩ hx _ rfl
    obtain ⟨j, hj, he⟩ := hkey i (by omega) _ (by
      rw [← fixtureBlock_keys (f := f)]
      exact (List.of_mem_zip hx).1)
    exact h1 j (lt_of_lt_of_le hj (Nat.mul_le_mul_left _ (by omega))) ((val_smul_gen _).2 he.symm)
  · intro p hpm
    obtain ⟨i, hi, rfl⟩ := hp p hpm
    have hh := hok i hi
    unfold blockHash EpochBlock.hashToG1 tryAndIncrementCip22 at hh
    simp only [Outcome.map_eq_ok_iff] at hh
    obtain ⟨⟨g, attempt⟩, hg, hgi⟩ := hh
    refine ⟨g, attempt, hg, ?_⟩
    rw [fixtureBlock_keys]
    change e (fixtureExponent rng n f i • h i) _ * e g (((((drawnKeys g2Generator rng n i).zip
      (fixtureBitmap n f)).filter (·.2)).map (·.1)).sum) = 1
    rw [fixture_keys_sum]
    simp only at hgi
    rw [← hgi]
    exact pairing_cancels hl hr _ _ _

/-- Blocks of at most 206 keys fit the composite hasher. -/
theorem inner_fits {b : EpochBlock} (he : EntropyOk b.epochEntropy) (hp : EntropyOk b.parentEntropy)
    (hk : max b.newPublicKeys.length b.maximumValidators ≤ 206) :
    (b.encodeInnerToBytes g2Generator).1.length ≤ 19530 := by
  simp only [EpochBlock.encodeInnerToBytes, EpochBlock.encodeInnerToBitsCip22]
  rw [C26_bytes_length, List.length_append, List.length_append, encodeEntropy_length he,
    encodeEntropy_length hp, keyBits_eq, flatMap_encode_length]
  simp only [EpochBlock.paddedKeys, List.length_append, List.length_replicate]
  omega

/-- The field element of the Pedersen hash, by the sum of C85. -/
noncomputable def pedersenX {M : Type*} [AddCommGroup M] (x : M → Fq) (base : ℕ → M) (msg : Bytes) : Fq :=
  x (∑ i ∈ range 560, crhCoefficient msg i • base i)

theorem pedersenCrh_fits {M : Type*} [AddCommGroup M] (x : M → Fq) (base : ℕ → M) {msg : Bytes}
    (h : msg.length ≤ 19530) :
    pedersenCrh x (crhGenerators base) msg = .ok (leBytes 48 (pedersenX x base msg).val) := by
  unfold pedersenCrh
  rw [C85_value base msg h]
  rfl

/-- Where all hashes are made, `prove` is the proof of its circuit with a helper if there are parameters for
one, whose verifying key is that of the parameters. -/
theorem prove_eq {HP VK PC PB Proof : Type*} (gen1 : G1Point) (gen2 : G2Point)
    (pedersen : Bytes → Outcome BLSError Bytes) (createProofB : HashToBits → PB → Outcome Unit HP)
    (createProofC : ValidatorSetUpdateOpt G1Point HP VK → PC → Outcome Unit Proof) (vkOf : PB → VK)
    (params : SetupParameters PC PB) (n : ℕ) (b0 : EpochBlock) (ts : List (EpochTransition G1Point))
    (max : ℕ) (hped : ∀ t ∈ ts, ∃ d, pedersen (t.block.encodeInnerToBytes gen2).1 = .ok d ∧ d.length = 48)
    (hcreate : ∀ pb, params.hashToBits = some pb → ∀ ms : List (List Bool), ms.length = ts.length →
      (∀ m ∈ ms, m.length = 384) → ∃ p, createProofB ⟨ms.map (·.map some)⟩ pb = .ok p) :
    ∃ helper : Option (HashToBitsHelper HP VK),
      helper.map (·.verifyingKey) = params.hashToBits.map vkOf ∧
      prove gen1 gen2 pedersen createProofB createProofC vkOf params n b0 ts max =
        (proverCircuit gen1 gen2 n b0 ts max).bind fun s =>
          createProofC (s.toOpt helper) params.epochs := by
  obtain ⟨pc, h⟩ := params
  cases h with
  | none =>
    refine ⟨none, rfl, ?_⟩
    unfold prove proverCircuit
    cases proverEpochs gen2 n ts max with
    | err e => rfl
    | panic => rfl
    | ok epochs =>
      simp only [Outcome.bind_ok]
      cases proverSignature gen1 ts max <;> rfl
  | some pb =>
    have hm : ∃ ms, helperMessages gen2 pedersen ts = .ok ms ∧ ms.length = ts.length ∧
        ∀ m ∈ ms, m.length = 384 := by
      unfold helperMessages
      choose! d hd using hped
      refine ⟨ts.map fun t => bytesLeToBitsBe (d t) 384, mapM_map_ok _ _ _ ?_, by simp, ?_⟩
      · intro t ht
        rw [(hd t ht).1]
      · simp only [List.mem_map]
        rintro _ ⟨t, ht, rfl⟩
        have := (hd t ht).2
        unfold bytesLeToBitsBe
        rw [List.length_reverse, List.length_take, flatMap_unpack_length]
        omega
    obtain ⟨ms, hms, hml, hm384⟩ := hm
    obtain ⟨p, hp⟩ := hcreate pb rfl ms hml hm384
    refine ⟨some ⟨p, vkOf pb⟩, rfl, ?_⟩
    unfold prove proverCircuit generateHashHelper proverHelperCircuit
    rw [hms]
    cases proverEpochs gen2 n ts max with
    | err e => rfl
    | panic => rfl
    | ok epochs =>
      simp only [Outcome.bind_ok, Outcome.map, hp]
      cases proverSignature gen1 ts max <;> rfl

/-- **C99.** The end-to-end program succeeds, with and without helper: for every number of validators up to 206,
of faults, of epochs up to 65535 and of dummies, and whatever is drawn, provided that the setup and
the hashes succeed, no secret drawn is zero or one and those of the last block do not sum to zero.
Groth16 is assumed complete: for circuits of the shape it was set up for, satisfied by the values and the
public inputs the prover assigns, it returns a proof which is accepted for these inputs.  Nothing is assumed about
the proof of the helper, but that there is one and that it meets the constraints of the verifier
gadget, whose result is discarded (C53): by C83 it is not a proof of what the epoch circuit states. -/
theorem C99_end_to_end {M HP VK PC PB R ε VKC Proof : Type*} [AddCommGroup M] {alloc1 : G1Var → Prop}
    {alloc2 : G2Var → Prop} (ha1 : AllocCompleteG1 alloc1) (ha2 : AllocComplete alloc2)
    (compat checks : Bool) {K : Blake2sCore} {B : Blake2s} (hB : Blake2sAgree K B)
    {sqrt : Fq → Option Fq} (hs : SqrtSpec sqrt) (x : M → Fq) (base : ℕ → M)
    (groth : Option VK → List (List Bool) → HP → Outcome Unit (Prop × Bool))
    {e : G1Point → G2Point → GT} (hl : ∀ P P' Q, e (P + P') Q = e P Q * e P' Q)
    (hr : ∀ P Q Q', e P (Q + Q') = e P Q * e P Q') (gen1 : G1Point)
    (defaultProof : HP) (vkOf : PB → VK) (vkOfC : PC → VKC)
    (generateB : HashToBits → R → Outcome ε PB × R)
    (generateC : ValidatorSetUpdateOpt G1Point HP VK → R → Outcome ε PC × R)
    (createProofB : HashToBits → PB → Outcome Unit HP)
    (createProofC : ValidatorSetUpdateOpt G1Point HP VK → PC → Outcome Unit Proof)
    (groth16 : VKC → Proof → List Fq → Outcome Unit Bool)
    (rng : ℕ → ZMod FR_MODULUS) (setupRng : R) (n f m max : ℕ) (hn : n ≤ 206) (hf : f < 2 ^ 32)
    (hm0 : m ≠ 0) (hm : m < 2 ^ 16) (hmax : m ≤ max)
    (hgroth : ∀ vk r pc, (generateC (ValidatorSetUpdateOpt.empty defaultProof n max f vk) r).1 = .ok pc →
      ∀ (s : ValidatorSetUpdate G1Point) (helper : Option (HashToBitsHelper HP VK)) c inputs sat,
        (s.toOpt helper).shape = (ValidatorSetUpdateOpt.empty (G1 := G1Point) defaultProof n max f vk).shape →
        circuitInputs alloc2 (hashBitsToG1C alloc1 compat K (pedersenX x base)) K e gen1 g2Generator
          s.numValidators (helper.map (·.proof)) c = .ok inputs →
        CircuitVars.assign checks (hashBitsToG1Out compat K B (pedersenCrh x (crhGenerators base))
          (pedersenX x base) sqrt helper.isNone) s = .ok c →
        epochCircuit alloc2 (hashBitsToG1C alloc1 compat K (pedersenX x base)) K
          (groth (helper.map (·.verifyingKey))) e gen1 g2Generator s.numValidators
          (helper.map (·.proof)) c inputs = .ok sat → sat →
        ∃ proof, createProofC (s.toOpt helper) pc = .ok proof ∧
          groth16 (vkOfC pc) proof inputs = .ok true)
    (helper : Bool) (params : SetupParameters PC PB)
    (hsetup : (trustedSetup defaultProof vkOf generateB generateC n max f setupRng helper).1 = .ok params)
    (hcreate : ∀ pb, params.hashToBits = some pb → ∀ ms : List (List Bool), ms.length = m →
      (∀ b ∈ ms, b.length = 384) → ∃ p, createProofB ⟨ms.map (·.map some)⟩ pb = .ok p)
    (hgadget : ∀ pb, params.hashToBits = some pb → ∀ p i, i.length = helperInputs max →
      ∃ r, groth (some (vkOf pb)) i p = .ok r ∧ r.1)
    (hhash : ∀ i < m, ∃ g, blockHash compat B (pedersenCrh x (crhGenerators base)) sqrt
      (fixtureBlock g2Generator rng n f (i + 1)) = .ok g)
    (hdummy : m < max → ∃ g, blockHash compat B (pedersenCrh x (crhGenerators base)) sqrt
      (dummyBlock g2Generator n) = .ok g)
    (h0 : ∀ i < n * (m + 1), rng i ≠ 0) (h1 : ∀ i < n * m, rng i ≠ 1)
    (hsum : (drawnSecrets rng n m).sum ≠ 0) :
    endToEnd gen1 g2Generator B (pedersenCrh x (crhGenerators base))
      (blockHash compat B (pedersenCrh x (crhGenerators base)) sqrt) defaultProof vkOf vkOfC generateB
      generateC createProofB createProofC groth16 rng setupRng n f m max helper = .ok () := by
  obtain ⟨r, hpc⟩ : ∃ r, (generateC (ValidatorSetUpdateOpt.empty defaultProof n max f
      (params.hashToBits.map vkOf)) r).1 = .ok params.epochs := by
    cases helper
    · simp only [trustedSetup, setup, Bool.false_eq_true, if_false, Outcome.map_eq_ok_iff] at hsetup
      obtain ⟨pc, h, rfl⟩ := hsetup
      exact ⟨_, h⟩
    · simp only [trustedSetup, setup, if_true] at hsetup
      cases hg : (generateB (HashToBits.empty 377 max) setupRng).1 with
      | err e => rw [hg] at hsetup; cases hsetup
      | panic => rw [hg] at hsetup; cases hsetup
      | ok pb =>
        rw [hg] at hsetup
        change Outcome.map _ _ = _ at hsetup
        rw [Outcome.map_eq_ok_iff] at hsetup
        obtain ⟨pc, h, rfl⟩ := hsetup
        exact ⟨_, h⟩
  choose! h hok using hhash
  have hd := C99_fixture g2Generator rng n f m
    (blockHash compat B (pedersenCrh x (crhGenerators base)) sqrt) hm0 h hok
  obtain ⟨k, rfl⟩ := Nat.exists_eq_succ_of_ne_zero hm0
  rw [Nat.succ_eq_add_one] at *
  have chain := C99_chain compat B (pedersenCrh x (crhGenerators base)) sqrt hl hr rng n f (k + 1) hm
    (by omega) hf h0 h1 hd
  have hu : (UInt32.ofNat n).toNat = n := by
    rw [UInt32.toNat_ofNat']
    exact Nat.mod_eq_of_lt (by omega)
  have hq : n < FQ_MODULUS := lt_of_le_of_lt hn (by decide +kernel)
  have hped : ∀ b ∈ dummyBlock g2Generator n :: (((List.range k).map fun i =>
      fixtureTransition g2Generator rng n f i (h i)) ++
        [fixtureTransition g2Generator rng n f k (h k)]).map (·.block),
      pedersenCrh x (crhGenerators base) (b.encodeInnerToBytes g2Generator).1 =
        .ok (leBytes 48 (pedersenX x base (b.encodeInnerToBytes g2Generator).1).val) := by
    intro b hb
    apply pedersenCrh_fits
    rw [List.mem_cons] at hb
    rcases hb with rfl | hb
    · have hE : EntropyOk (some (List.replicate ENTROPY_BYTES 0)) := by
        intro b hb
        rw [← Option.some.inj hb, List.length_replicate]
        rfl
      exact inner_fits hE hE (by simp [dummyBlock, hn])
    · have : ∃ i, b = fixtureBlock g2Generator rng n f i := by
        simp only [List.map_append, List.map_map, List.map_cons, List.map_nil, List.mem_append,
          List.mem_map, List.mem_range, List.mem_singleton, Function.comp_apply] at hb
        rcases hb with ⟨i, _, rfl⟩ | rfl
        · exact ⟨i + 1, rfl⟩
        · exact ⟨k + 1, rfl⟩
      obtain ⟨i, rfl⟩ := this
      obtain ⟨c1, _, c3, c4⟩ := fixtureBlock_const g2Generator rng n f i
      refine inner_fits c3 c4 ?_
      rw [c1, fixtureBlock_keys, drawnKeys_length, max_self]
      exact hn
  have hts : (List.range (k + 1)).map (fun i => fixtureTransition g2Generator rng n f i (h i)) =
      (List.range k).map (fun i => fixtureTransition g2Generator rng n f i (h i)) ++
      [fixtureTransition g2Generator rng n f k (h k)] := by
    rw [List.range_succ, List.map_append, List.map_cons, List.map_nil]
  rw [hts] at chain hd
  have hlen : ((List.range k).map
      fun i => fixtureTransition g2Generator rng n f i (h i)).length = k := by simp
  obtain ⟨hh, hvk, hprove⟩ := prove_eq gen1 g2Generator (pedersenCrh x (crhGenerators base)) createProofB
    createProofC vkOf params n (fixtureBlock g2Generator rng n f 0)
    ((List.range k).map (fun i => fixtureTransition g2Generator rng n f i (h i)) ++
      [fixtureTransition g2Generator rng n f k (h k)]) max
    (fun t ht => ⟨_, hped _ (List.mem_cons_of_mem _ (List.mem_map_of_mem ht)), leBytes_length _ _⟩)
    (fun pb hpb ms hms => hcreate pb hpb ms (by rw [hms, List.length_append, hlen]; rfl))
  obtain ⟨s, c, sat, r1, r2, r3, r4, _, _, r5, _⟩ := C68_complete_helper ha1 ha2 compat checks hB hs
    (groth (hh.map (·.verifyingKey))) (hh.map (·.proof)) (max := max)
    (by
      intro p hp
      cases hh with
      | none => cases hp
      | some w =>
        cases hpb : params.hashToBits with
        | none => rw [hpb] at hvk; cases hvk
        | some pb =>
          rw [hpb] at hvk
          rw [hvk]
          exact hgadget pb hpb _) hl hr (gen1 := gen1) hq hped chain (by rw [hlen]; exact hmax)
    (by
      intro hlt
      rw [hlen] at hlt
      refine ⟨(fun hg => by cases hg), ?_, ?_⟩
      · have hlast : ((((List.range k).map fun i => fixtureTransition g2Generator rng n f i (h i)).map
            (·.block)).getLast?.getD (fixtureBlock g2Generator rng n f 0)).newPublicKeys =
            drawnKeys g2Generator rng n k := by
          rw [← fixtureBlock_keys (f := f)]
          congr 1
          cases k with
          | zero => rfl
          | succ k =>
            rw [List.range_succ]
            simp [fixtureTransition]
        rw [hlast]
        intro hmem
        simp only [drawnKeys, drawnSecrets, List.map_map, List.mem_map, List.mem_range,
          Function.comp_apply] at hmem
        obtain ⟨j, hj, hje⟩ := hmem
        exact h1 _ (by rw [Nat.mul_succ]; omega) ((val_smul_gen _).2 hje)
      · obtain ⟨g, hg⟩ := hdummy hlt
        unfold blockHash EpochBlock.hashToG1 tryAndIncrementCip22 at hg
        simp only [Outcome.map_eq_ok_iff] at hg
        obtain ⟨⟨g', a⟩, hg', _⟩ := hg
        exact ⟨g', a, hg'⟩)
    (by
      change (drawnKeys g2Generator rng n (k + 1)).sum ≠ 0
      intro hz
      apply hsum
      have hv : (drawnKeys g2Generator rng n (k + 1)).sum =
          ((drawnSecrets rng n (k + 1)).map ZMod.val).sum • g2Generator := by
        unfold drawnKeys
        generalize drawnSecrets rng n (k + 1) = l
        induction l with
        | nil => simp
        | cons a l ih => simp only [List.map_cons, List.sum_cons, ih, add_smul]
      rw [hv] at hz
      have hdvd := addOrderOf_dvd_of_nsmul_eq_zero hz
      rw [g2Generator_addOrderOf] at hdvd
      have : NeZero FR_MODULUS := ⟨FR_prime.ne_zero⟩
      have hc := (ZMod.natCast_eq_zero_iff _ FR_MODULUS).mpr hdvd
      rw [← hc]
      generalize drawnSecrets rng n (k + 1) = l
      induction l with
      | nil => simp
      | cons a l ih =>
        simp only [List.map_cons, List.sum_cons, Nat.cast_add, ZMod.natCast_zmod_val]
        rw [ih])
  have hnum : s.numValidators = n := by
    obtain ⟨s', hs', _, _, e3, _⟩ := C48_shape gen1 g2Generator n (fixtureBlock g2Generator rng n f 0)
      ((List.range k).map (fun i => fixtureTransition g2Generator rng n f i (h i)) ++
        [fixtureTransition g2Generator rng n f k (h k)]) max (List.append_ne_nil_of_right_ne_nil _ (List.cons_ne_nil _ _))
      (by rw [List.length_append, hlen, List.length_singleton]; exact hmax)
    rw [r1] at hs'
    cases hs'
    assumption
  have hshape := (C75_shape_iff (HP := HP) (VK := VK) gen1 g2Generator defaultProof n max f
    (params.hashToBits.map vkOf) (by omega)
    _ _ max (List.append_ne_nil_of_right_ne_nil _ (List.cons_ne_nil _ _)) hh r1).mpr
    ⟨rfl, by rw [fixtureBlock_keys, drawnKeys_length], by
      intro t ht
      rw [← hts, List.mem_map] at ht
      obtain ⟨i, _, rfl⟩ := ht
      exact ⟨drawnKeys_length _ _ _ _, fixtureBitmap_length _ _⟩, hvk⟩
  have hnone : (hh.map (·.proof)).isNone = hh.isNone := by cases hh <;> rfl
  rw [hnone] at r2
  obtain ⟨proof, p1, p2⟩ := hgroth _ _ _ hpc s hh c _ sat hshape (by rw [hnum]; exact r5) r2 (by rw [hnum]; exact r3) r4
  unfold endToEnd
  rw [hsetup, hd, hu]
  simp only [Outcome.unwrapResult, Outcome.bind_ok]
  rw [hprove, r1]
  simp only [Outcome.bind_ok, p1]
  have hv := (C34_accepts_iff ..).mpr p2
  change verifyEpochs groth16 g2Generator B (vkOfC params.epochs) (fixtureBlock g2Generator rng n f 0)
    (fixtureBlock g2Generator rng n f (k + 1)) proof = .ok () at hv
  rw [hv]

/-- **C99.** From 207 validators on, and for no epochs, the program panics, with or without helper. -/
theorem C99_too_large {M HP VK PC PB R ε VKC Proof : Type*} [AddCommGroup M] (compat : Bool)
    (B : Blake2s) (sqrt : Fq → Option Fq) (x : M → Fq) (base : ℕ → M) (gen1 : G1Point)
    (defaultProof : HP) (vkOf : PB → VK) (vkOfC : PC → VKC)
    (generateB : HashToBits → R → Outcome ε PB × R)
    (generateC : ValidatorSetUpdateOpt G1Point HP VK → R → Outcome ε PC × R)
    (createProofB : HashToBits → PB → Outcome Unit HP)
    (createProofC : ValidatorSetUpdateOpt G1Point HP VK → PC → Outcome Unit Proof)
    (groth16 : VKC → Proof → List Fq → Outcome Unit Bool)
    (rng : ℕ → ZMod FR_MODULUS) (setupRng : R) (n f m max : ℕ) (helper : Bool)
    (h : 207 ≤ n ∨ m = 0) :
    endToEnd gen1 g2Generator B (pedersenCrh x (crhGenerators base))
      (blockHash compat B (pedersenCrh x (crhGenerators base)) sqrt) defaultProof vkOf vkOfC generateB
      generateC createProofB createProofC groth16 rng setupRng n f m max helper = .panic := by
  have hp : generateTestData g2Generator (blockHash compat B (pedersenCrh x (crhGenerators base)) sqrt)
      rng n f m = .panic := by
    rw [C99_fixture_panic]
    by_cases hm : m = 0
    · exact Or.inl hm
    · refine Or.inr ⟨0, by omega, fun g => ?_⟩
      obtain ⟨c1, _, c3, c4⟩ := fixtureBlock_const g2Generator rng n f 1
      unfold blockHash
      rw [C85_epoch B x base compat sqrt g1Scale g2Generator _ c3 c4 (by rw [c1]; omega)]
      intro h
      cases h
  unfold endToEnd
  rw [hp]
  cases (trustedSetup defaultProof vkOf generateB generateC n max f setupRng helper).1 <;> rfl

end

/-- **C99.** The example program tolerates the largest number of faults below a third of the validators: the
signers of its fixture are more than two thirds, and with one fault more they would not be. It panics
without validators with overflow checks; without them it goes on with a bound that no epoch fits in 32
bits. -/
theorem C99_faults (checks : Bool) (n f : ℕ) (h : proofFaults checks n = .ok f) :
    (n ≠ 0 ∧ 2 * n < 3 * (n - f) ∧ 3 * (n - (f + 1)) ≤ 2 * n) ∨
      (n = 0 ∧ checks = false ∧ 2 ^ 32 ≤ f) := by
  unfold proofFaults at h
  split at h
  · rename_i hn
    cases checks
    · have := Outcome.ok.inj h
      exact Or.inr ⟨hn, rfl, by omega⟩
    · cases h
  · have := Outcome.ok.inj h
    exact Or.inl ⟨by assumption, by omega, by omega⟩

example : proofFaults true 100 = .ok 33 ∧ proofFaults true 0 = .panic := ⟨rfl, rfl⟩

/-! ## C99: the helpers and examples of bls-crypto -/

section
variable {G1 G2 GT : Type*} [AddCommGroup G1] [Module (ZMod FR_MODULUS) G1] [AddCommGroup G2]
  [Module (ZMod FR_MODULUS) G2] [CommGroup GT] [DecidableEq GT] (P : Pairing FR_MODULUS G1 G2 GT)

theorem foldl_add_sum {A : Type*} [AddCommGroup A] (l : List A) : l.foldl (fun acc x => acc + x) 0 = l.sum :=
  List.sum_eq_foldl.symm

theorem helperSign_eq (h : G1) (sks : List (ZMod FR_MODULUS)) :
    helperSign h sks = (sks.map (fun sk => sk • h), sks.sum • h) := by
  unfold helperSign
  simp only [foldl_add_sum, ← zmod_smul_eq]
  rw [List.sum_smul]

/-- **C99.** The signatures of `sign_batch`, added up, verify as a batch for the sums of the keys: each
message for the committee with its secrets. -/
theorem C99_helpers (sks : List (List (ZMod FR_MODULUS))) (hashes : List G1)
    (hlen : sks.length = hashes.length) :
    batchVerifyHashes P (helperSum (helperSignBatch sks hashes))
      (sks.map fun l => helperSum (l.map fun sk => sk.val • P.g2)) hashes = .ok () := by
  have : NeZero FR_MODULUS := ⟨FR_prime.ne_zero⟩
  have hk : (sks.map fun l => helperSum (l.map fun sk => sk.val • P.g2)) =
      (sks.map List.sum).map (· • P.g2) := by
    rw [List.map_map]
    apply List.map_congr_left
    intro l _
    unfold helperSum
    simp only [foldl_add_sum, ← zmod_smul_eq, Function.comp_apply, List.sum_smul]
  have hs : helperSum (helperSignBatch sks hashes) =
      (List.zipWith (fun s h => s • h) (sks.map List.sum) hashes).sum := by
    unfold helperSum helperSignBatch
    rw [foldl_add_sum, List.zipWith_map_left, List.zip_eq_zipWith, List.map_zipWith]
    simp only [helperSign_eq]
  unfold batchVerifyHashes
  rw [hk, if_neg (by simp [hlen]), productOfPairings_cons, productOfPairings_eq_e, P.neg_right, hs,
    inv_mul_cancel, if_pos rfl]

/-- **C99.** `simple_signature` succeeds for all keys (zero included) and messages unless hashing fails, and
then prints the key and the signature of the secret `sk1 + sk2 + 2 sk3`. -/
theorem C99_simple_signature (H : HashToG1 G1) (sk1 sk2 sk3 : ZMod FR_MODULUS) (message : Bytes) :
    (∀ h, H SIG_DOMAIN message [] = .ok h → simpleSignature P H sk1 sk2 sk3 message =
      .ok ((sk1 + sk2 + 2 * sk3) • P.g2, (sk1 + sk2 + 2 * sk3) • h)) ∧
    ((∀ h, H SIG_DOMAIN message [] ≠ .ok h) → simpleSignature P H sk1 sk2 sk3 message = .panic) := by
  have : NeZero FR_MODULUS := ⟨FR_prime.ne_zero⟩
  have hsign : ∀ sk : ZMod FR_MODULUS, sign sk message [] H =
      (H SIG_DOMAIN message []).bind fun h => .ok (sk • h) := fun _ => rfl
  constructor
  · intro h hh
    have hk : aggregatePublicKeys [toPublic P sk1, toPublic P sk2, toPublic P sk3, toPublic P sk3] =
        (sk1 + sk2 + 2 * sk3) • P.g2 := by
      simp only [aggregatePublicKeys, List.foldl_cons, List.foldl_nil, toPublic]
      module
    have hsig : aggregateSignatures [aggregateSignatures [sk1 • h, sk3 • h],
        aggregateSignatures [sk2 • h, sk3 • h]] = (sk1 + sk2 + 2 * sk3) • h := by
      simp only [aggregateSignatures, List.foldl_cons, List.foldl_nil]
      module
    unfold simpleSignature
    simp only [hsign, hh, Outcome.bind_ok, Outcome.unwrapResult, hk, hsig]
    rw [(C02_verify_dlog P _ _ _ _ H).mpr ⟨h, hh, rfl⟩]
    rfl
  · intro hh
    unfold simpleSignature
    rw [hsign]
    cases hH : H SIG_DOMAIN message [] with
    | ok h => exact absurd hH (hh h)
    | err e => rfl
    | panic => rfl

end

section
variable {GT : Type*} [CommGroup GT] [DecidableEq GT] (C : CurvePairing GT)
  {sqrt1 : Fq → Option Fq} (hs1 : RootSpec sqrt1) {sqrt2 : Fq2 → Option Fq2} (hs2 : RootSpec sqrt2)

/-- What a reader of printed bytes checks: key and proof decode with nothing left over, and the proof
verifies for the message. -/
def PopAccepted (sqrt1 : Fq → Option Fq) (sqrt2 : Fq2 → Option Fq2) (H : HashToG1 G1r)
    (pk pop msg : Bytes) : Prop :=
  ∃ (k : G2r) (s : G1r), deserializePublicKey sqrt2 pk = .ok ((k : G2Point), []) ∧
    deserializeSignature sqrt1 pop = .ok ((s : G1Point), []) ∧
    verifyPop C.toPairing k msg s H = .ok ()

include hs1 hs2

theorem pop_accepted (H : HashToG1 G1r) (sk : ZMod FR_MODULUS) (msg : Bytes) (pop : G1r)
    (h : signPop sk msg H = .ok pop) :
    PopAccepted C sqrt1 sqrt2 H (serializePublicKey (toPublic C.toPairing sk : G2r))
      (serializeSignature pop) msg := by
  have : NeZero FR_MODULUS := ⟨FR_prime.ne_zero⟩
  refine ⟨toPublic C.toPairing sk, pop, ?_, ?_, (C03_pop_verify C.toPairing sk msg H pop h pop).mpr rfl⟩
  · have := C66_public_key_roundtrip hs2 (toPublic C.toPairing sk : G2r) ((mem_G2r _).mp
      (toPublic C.toPairing sk : G2r).2) []
    rwa [List.append_nil] at this
  · have := C66_signature_roundtrip hs1 pop ((mem_G1r _).mp pop.2) []
    rwa [List.append_nil] at this

/-- **C99.** `pop`: for the bytes of a secret, and whatever follows them, it prints bytes that are accepted
as the proof of possession of the encoded public key, for the encoded public key as the message, unless
hashing fails; in all other cases, in particular on fewer than 32 bytes and on numbers from the group
order on, it panics. -/
theorem C99_pop (H : HashToG1 G1r) :
    (∀ sk rest h, H POP_DOMAIN (serializePublicKey (toPublic C.toPairing sk : G2r)) [] = .ok h →
      popMain C H (serializePrivateKey sk ++ rest) = .ok (serializeSignature (sk • h : G1r)) ∧
      PopAccepted C sqrt1 sqrt2 H (serializePublicKey (toPublic C.toPairing sk : G2r))
        (serializeSignature (sk • h : G1r)) (serializePublicKey (toPublic C.toPairing sk : G2r))) ∧
    ∀ bytes, popMain C H bytes ≠ .panic → ∃ sk rest h, bytes = serializePrivateKey sk ++ rest ∧
      H POP_DOMAIN (serializePublicKey (toPublic C.toPairing sk : G2r)) [] = .ok h := by
  have : NeZero FR_MODULUS := ⟨FR_prime.ne_zero⟩
  have hsign : ∀ (sk : ZMod FR_MODULUS) msg, signPop sk msg H =
      (H POP_DOMAIN msg []).bind fun h => .ok (sk • h) := fun _ _ => rfl
  constructor
  · intro sk rest h hh
    have hpop : signPop sk (serializePublicKey (toPublic C.toPairing sk : G2r)) H = .ok (sk • h) := by
      rw [hsign, hh]
      rfl
    refine ⟨?_, pop_accepted C hs1 hs2 H sk _ _ hpop⟩
    unfold popMain
    rw [(C66_private_key_iff _ _ _).mpr rfl]
    simp only [Outcome.unwrapResult, Outcome.bind_ok, hpop]
    rw [(C03_pop_verify C.toPairing sk _ H _ hpop _).mpr rfl]
    rfl
  · intro bytes hout
    unfold popMain at hout
    cases hd : deserializePrivateKey bytes with
    | err e => rw [hd] at hout; exact absurd rfl hout
    | panic => rw [hd] at hout; exact absurd rfl hout
    | ok r =>
      obtain ⟨sk, rest⟩ := r
      rw [hd] at hout
      simp only [Outcome.unwrapResult, Outcome.bind_ok, hsign] at hout
      refine ⟨sk, rest, ?_⟩
      cases hH : H POP_DOMAIN (serializePublicKey (toPublic C.toPairing sk : G2r)) [] with
      | err e => rw [hH] at hout; exact absurd rfl hout
      | panic => rw [hH] at hout; exact absurd rfl hout
      | ok h => exact ⟨h, (C66_private_key_iff _ _ _).mp hd, rfl⟩

/-- **C99.** `pop_csv`: for all generated keys, one line per key, with the encodings of the secret and the
public key and a proof accepted under that key for the address; or a panic if the address does not
hash. -/
theorem C99_pop_csv (H : HashToG1 G1r) (sks : List (ZMod FR_MODULUS)) :
    (∀ h, H POP_DOMAIN popCsvAddress [] = .ok h → ∃ lines, popCsvMain C H sks = .ok lines ∧
      List.Forall₂ (fun sk line => line.1 = serializePrivateKey sk ∧
        line.2.1 = serializePublicKey (toPublic C.toPairing sk : G2r) ∧
        line.2.2 = serializeSignature (sk • h : G1r) ∧
        PopAccepted C sqrt1 sqrt2 H line.2.1 line.2.2 popCsvAddress) sks lines) ∧
    ((∀ h, H POP_DOMAIN popCsvAddress [] ≠ .ok h) → sks ≠ [] → popCsvMain C H sks = .panic) := by
  have : NeZero FR_MODULUS := ⟨FR_prime.ne_zero⟩
  have hsign : ∀ (sk : ZMod FR_MODULUS), signPop sk popCsvAddress H =
      (H POP_DOMAIN popCsvAddress []).bind fun h => .ok (sk • h) := fun _ => rfl
  constructor
  · intro h hh
    induction sks with
    | nil => exact ⟨[], rfl, .nil⟩
    | cons sk sks ih =>
      obtain ⟨lines, h1, h2⟩ := ih
      have hpop : signPop sk popCsvAddress H = .ok (sk • h) := by rw [hsign, hh]; rfl
      refine ⟨(serializePrivateKey sk, serializePublicKey (toPublic C.toPairing sk : G2r),
        serializeSignature (sk • h : G1r)) :: lines, ?_, .cons ⟨rfl, rfl, rfl, pop_accepted C hs1 hs2 H sk _ _ hpop⟩ h2⟩
      unfold popCsvMain
      simp only [hpop, Outcome.unwrapResult, Outcome.bind_ok]
      rw [(C03_pop_verify C.toPairing sk _ H _ hpop _).mpr rfl, h1]
      rfl
  · intro hh hne
    cases sks with
    | nil => exact absurd rfl hne
    | cons sk sks =>
      unfold popCsvMain
      simp only [hsign]
      cases hH : H POP_DOMAIN popCsvAddress [] with
      | ok h => exact absurd hH (hh h)
      | err e => rfl
      | panic => rfl

end

/-! ## Concrete cases -/

/-- The tests of `crates/epoch-snark/tests/e2e.rs` run, with two transitions, four validators, one fault and
ten dummies, for **every** bilinear pairing, for a BLAKE2s whose expansions are constant, the Edwards
curve of the library and a proof system that accepts everything; all secrets drawn are 5. -/
example [DecidableEq G1Point] {GT : Type*} [CommGroup GT] (compat : Bool)
    (e : G1Point → G2Point → GT) (hl : ∀ P P' Q, e (P + P') Q = e P Q * e P' Q)
    (hr : ∀ P Q Q', e P (Q + Q') = e P Q * e P Q') (gen1 : G1Point) (helper : Bool) :
    ∃ B : Blake2s, endToEnd (ε := Unit) gen1 g2Generator B (pedersenCrh edX (crhGenerators fun _ => edBase))
      (blockHash compat B (pedersenCrh edX (crhGenerators fun _ => edBase)) someSqrt) () (fun () => ())
      (fun () => ()) (fun _ r => (.ok (), r)) (fun _ r => (.ok (), r)) (fun _ _ => .ok ())
      (fun _ _ => .ok ()) (fun _ () _ => .ok true) (fun _ => 5) () 4 1 2 12 helper = .ok () := by
  obtain ⟨K, hconst, hK⟩ := exists_core' (fun _ => tinyDigest compat 1 false)
    fun m => tinyDigest_length _ _ _
  have hB := Blake2s.ofCore_agree K
  have hx := hK _ hB
  have hg0 : g1Scale (.finite 1 sqrtTwo) ≠ 0 := by
    rw [g1Scale_one]; exact cofactor_onePoint_ne.1
  have hhash : ∀ b : EpochBlock, EntropyOk b.epochEntropy → EntropyOk b.parentEntropy →
      max b.newPublicKeys.length b.maximumValidators ≤ 206 →
      ∃ g, blockHash compat (Blake2s.ofCore K) (pedersenCrh edX (crhGenerators fun _ => edBase)) someSqrt b =
        .ok g := by
    intro b h1 h2 h3
    refine ⟨G1_COFACTOR • onePoint, ?_⟩
    unfold blockHash EpochBlock.hashToG1 tryAndIncrementCip22
    simp only [Outcome.map_eq_ok_iff]
    refine ⟨(_, 0), (C19_ok_iff compat _ someSqrt_spec _ _ _ _ _ _).mpr ⟨_,
      pedersenCrh_fits edX (fun _ => edBase) (inner_fits h1 h2 h3), by norm_num,
      ⟨tinyDigest compat 1 false, hx _, ?_⟩, fun c' hc' => absurd hc' (by omega)⟩, rfl⟩
    rw [← g1Scale_one]
    exact ⟨by rw [tinyDigest_length]; omega, hg0, _, (decodes_one compat).1, rfl⟩
  have h5 : (5 : ZMod FR_MODULUS) ≠ 0 ∧ (5 : ZMod FR_MODULUS) ≠ 1 ∧ (20 : ZMod FR_MODULUS) ≠ 0 :=
    ⟨by decide +kernel, by decide +kernel, by decide +kernel⟩
  refine ⟨Blake2s.ofCore K, C99_end_to_end (alloc1 := affineOnly) (alloc2 := affineOnlyG2)
    affineOnly_complete (fun _ _ h => ⟨rfl, h⟩) compat true hB someSqrt_spec edX (fun _ => edBase)
    (fun _ _ (_ : Unit) => .ok (True, false)) hl hr gen1 () _ _ _ _ _ _ _
    _ () 4 1 2 12 (by norm_num) (by norm_num) (by norm_num) (by norm_num) (by norm_num)
    (fun _ _ _ _ _ _ _ _ _ _ _ _ _ _ => ⟨(), rfl, rfl⟩) helper ⟨(), if helper then some () else none⟩
    (by cases helper <;> rfl) (fun _ _ _ _ _ => ⟨(), rfl⟩) (fun _ _ _ _ _ => ⟨_, rfl, trivial⟩) (fun i _ => ?_) (fun _ => ?_) (fun _ _ => h5.1)
    (fun _ _ => h5.2.1) ?_⟩
  · obtain ⟨c1, _, c3, c4⟩ := fixtureBlock_const g2Generator (fun _ => 5) 4 1 (i + 1)
    exact hhash _ c3 c4 (by rw [c1, fixtureBlock_keys, drawnKeys_length, max_self]; norm_num)
  · have hE : EntropyOk (some (List.replicate ENTROPY_BYTES 0)) := by
      intro b hb
      rw [← Option.some.inj hb, List.length_replicate]
      rfl
    exact hhash _ hE hE (by simp [dummyBlock])
  · have : (drawnSecrets (fun _ => (5 : ZMod FR_MODULUS)) 4 2).sum = 20 := by
      simp only [drawnSecrets]
      decide +kernel
    rw [this]
    exact h5.2.2

/-- The committees of the batch tests: two messages, two and one signers. -/
example : batchVerifyHashes (toyPairing FR_MODULUS) (helperSum (helperSignBatch
      [[(3 : ZMod FR_MODULUS), 5], [7]] [2, 9]))
    ([[3, 5], [7]].map fun l => helperSum (l.map fun sk : ZMod FR_MODULUS =>
      sk.val • (toyPairing FR_MODULUS).g2)) [2, 9] = .ok () :=
  C99_helpers (toyPairing FR_MODULUS) [[3, 5], [7]] [2, 9] rfl

/-- A run of `simple_signature` with the secrets 2, 3 and 4: the key and signature of 13. -/
example : simpleSignature (toyPairing FR_MODULUS) (fun _ _ _ => .ok 7) 2 3 4 [1] =
    .ok ((2 + 3 + 2 * 4 : ZMod FR_MODULUS) • (toyPairing FR_MODULUS).g2,
      (2 + 3 + 2 * 4 : ZMod FR_MODULUS) • 7) :=
  (C99_simple_signature (toyPairing FR_MODULUS) (fun _ _ _ => .ok 7) 2 3 4 [1]).1 7 rfl

/-- A run of `pop` with the secret 5, in the concrete groups. -/
example [DecidableEq G1r] : ∃ out,
    popMain logPairing (fun _ _ _ => .ok g1GenR) (serializePrivateKey 5 ++ [7]) = .ok out ∧
    out.length = 48 :=
  ⟨_, ((C99_pop logPairing someSqrt_root someSqrt2_spec _).1 5 [7] g1GenR rfl).1, (C66_sizes 0 _ 0).2.1⟩

end Verif
