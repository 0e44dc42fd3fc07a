import Verif.Lemmas.Batch
import Verif.Lemmas.Primes
import Verif.Props.Bls

/-! # Properties C08 - C11: random-exponent batch verification

The scalar-field modulus is any `r` above `2 ^ 248`; `FR_MODULUS` (BLS12-377) is an instance. -/

set_option linter.unusedSectionVars false

namespace Verif

section
variable {r : ℕ} [NeZero r] {G1 G2 GT : Type*} [AddCommGroup G1] [Module (ZMod r) G1]
  [AddCommGroup G2] [Module (ZMod r) G2] [CommGroup GT] [DecidableEq GT]
  (P : Pairing r G1 G2 GT)

/-! ## C08 -/

/-- C08: if every pair of the batch verifies individually, `Batch::verify` accepts, for every
outcome of the random generator. -/
theorem C08_batch_complete (hr : 2 ^ 248 < r) (b : Batch G1 G2) (H : HashToG1 G1)
    (hne : ∃ h, H SIG_DOMAIN b.message b.extraData = .ok h)
    (hv : ∀ e ∈ b.entries, verify P e.1 b.message b.extraData e.2 H = .ok ())
    (rng : ℕ → ℕ → UInt8) : b.verify P H rng = .ok () := by
  obtain ⟨h, hh⟩ := hne
  rw [Batch.verify_eq P hr]
  obtain ⟨sks, hsks⟩ := P.exists_dlogs (b.entries.map Prod.fst)
  have hl : ((randomDraws rng b.entries.length
      (byteCountFromTargetBatchSize b.entries.length SECURITY_BOUND)).map
      fun bs => (leValue bs : ZMod r)).length = b.entries.length := by simp [randomDraws]
  obtain ⟨s, h1, h2⟩ := zipWith_defect P _ b.entries h sks hsks hl
  simp only []
  rw [h1, C02_verify_dlog]
  refine ⟨h, hh, ?_⟩
  rw [← sub_eq_zero, h2]
  apply List.sum_eq_zero
  intro d hd
  have hz : ∀ x ∈ List.zipWith (fun (e : G2 × G1) s => e.2 - s • h) b.entries sks, x = 0 := by
    clear hd h1 h2 hl
    revert hsks hv
    generalize b.entries = es
    intro hv hsks
    induction es generalizing sks with
    | nil => simp
    | cons e es ih =>
      cases sks with
      | nil => simp at hsks
      | cons t ts =>
        simp only [List.map_cons, List.cons.injEq] at hsks
        intro x hx
        simp only [List.zipWith_cons_cons, List.mem_cons] at hx
        rcases hx with rfl | hx
        · have := hv e (by simp)
          rw [hsks.1, C02_verify_dlog] at this
          obtain ⟨h', hh', he⟩ := this
          rw [hh] at hh'; cases hh'
          rw [he, sub_self]
        · exact ih ts (fun e he => hv e (List.mem_cons_of_mem _ he)) hsks.2 x hx
  rw [List.mem_iff_getElem] at hd
  obtain ⟨i, hi, rfl⟩ := hd
  rw [List.getElem_zipWith, hz _ (List.getElem_mem _), smul_zero]

/-- C08: `Batch::verify` never panics by itself, for any batch and any random draws. -/
theorem C08_no_panic (hr : 2 ^ 248 < r) (b : Batch G1 G2) (H : HashToG1 G1)
    (hH : H SIG_DOMAIN b.message b.extraData ≠ .panic) (rng : ℕ → ℕ → UInt8) :
    b.verify P H rng ≠ .panic := by
  rw [Batch.verify_eq P hr]
  simp only [verify, verifySig]
  cases h : H SIG_DOMAIN b.message b.extraData with
  | ok a => simp only [Outcome.bind_ok]; split <;> simp
  | err e => simp
  | panic => exact absurd h hH

/-- C08: a hashing error is returned unchanged. -/
theorem C08_hash_error (hr : 2 ^ 248 < r) (b : Batch G1 G2) (H : HashToG1 G1) (e : BLSError)
    (hH : H SIG_DOMAIN b.message b.extraData = .err e) (rng : ℕ → ℕ → UInt8) :
    b.verify P H rng = .err e := by
  rw [Batch.verify_eq P hr]; simp [verify, verifySig, hH]

/-- C08: batches are built by successive `add` calls, in insertion order. -/
theorem C08_add_order (msg extra : Bytes) (es : List (G2 × G1)) :
    (es.foldl (fun b e => Batch.add b e.1 e.2) (Batch.new msg extra)).entries = es ∧
    (es.foldl (fun b e => Batch.add b e.1 e.2) (Batch.new msg extra)).message = msg ∧
    (es.foldl (fun b e => Batch.add b e.1 e.2) (Batch.new msg extra)).extraData = extra := by
  have : ∀ (b : Batch G1 G2), (es.foldl (fun b e => Batch.add b e.1 e.2) b).entries
      = b.entries ++ es ∧ (es.foldl (fun b e => Batch.add b e.1 e.2) b).message = b.message ∧
      (es.foldl (fun b e => Batch.add b e.1 e.2) b).extraData = b.extraData := by
    induction es with
    | nil => simp
    | cons e es ih =>
      intro b
      obtain ⟨h1, h2, h3⟩ := ih (b.add e.1 e.2)
      simp only [List.foldl_cons]
      exact ⟨by rw [h1]; simp [Batch.add], by rw [h2]; rfl, by rw [h3]; rfl⟩
  simpa [Batch.new] using this (Batch.new msg extra)

/-! ## C11 -/

/-- C11: `verify_each` succeeds iff each pair verifies individually. -/
theorem C11_verify_each_iff (b : Batch G1 G2) (H : HashToG1 G1) :
    b.verifyEach P H = .ok () ↔
      ∀ e ∈ b.entries, verify P e.1 b.message b.extraData e.2 H = .ok () := by
  unfold Batch.verifyEach
  induction b.entries with
  | nil => simp [verifyEachLoop]
  | cons e es ih =>
    obtain ⟨pk, sig⟩ := e
    simp only [verifyEachLoop, Outcome.bind_eq_ok_iff, ih, List.forall_mem_cons]
    constructor
    · rintro ⟨⟨⟩, h1, h2⟩; exact ⟨h1, h2⟩
    · rintro ⟨h1, h2⟩; exact ⟨(), h1, h2⟩

/-- C11: otherwise it returns the error of the first failing pair in insertion order. -/
theorem C11_first_error (b : Batch G1 G2) (H : HashToG1 G1) (pre post : List (G2 × G1))
    (x : G2 × G1) (e : BLSError) (hb : b.entries = pre ++ x :: post)
    (hpre : ∀ y ∈ pre, verify P y.1 b.message b.extraData y.2 H = .ok ())
    (hx : verify P x.1 b.message b.extraData x.2 H = .err e) :
    b.verifyEach P H = .err e := by
  unfold Batch.verifyEach
  rw [hb]
  clear hb
  induction pre with
  | nil => obtain ⟨pk, sig⟩ := x; simp only [List.nil_append, verifyEachLoop]; rw [hx]; rfl
  | cons y ys ih =>
    obtain ⟨pk, sig⟩ := y
    simp only [List.cons_append, verifyEachLoop]
    rw [hpre (pk, sig) (by simp)]
    exact ih (fun z hz => hpre z (List.mem_cons_of_mem _ hz))

/-- C11: success of `verify_each` on a non-empty batch implies success of `verify`, whatever the
randomness. -/
theorem C11_each_implies_batch (hr : 2 ^ 248 < r) (b : Batch G1 G2) (H : HashToG1 G1)
    (hb : b.entries ≠ []) (h : b.verifyEach P H = .ok ()) (rng : ℕ → ℕ → UInt8) :
    b.verify P H rng = .ok () := by
  rw [C11_verify_each_iff] at h
  refine C08_batch_complete P hr b H ?_ h rng
  obtain ⟨e, es, he⟩ := List.exists_cons_of_ne_nil hb
  have := h e (by simp [he])
  obtain ⟨s, hs⟩ := P.span2 e.1
  rw [hs, C02_verify_dlog] at this
  obtain ⟨h, hh, _⟩ := this
  exact ⟨h, hh⟩

end

section
variable {r : ℕ} [Fact r.Prime] {G1 G2 GT : Type*} [AddCommGroup G1] [Module (ZMod r) G1]
  [AddCommGroup G2] [Module (ZMod r) G2] [CommGroup GT] [DecidableEq GT]
  (P : Pairing r G1 G2 GT)

/-! ## C09 -/

open Classical in
/-- C09: if some pair in the batch is invalid, then among all tables of random bytes the accepting
ones are at most a fraction `256 ^ -k`, `k` being the number of random bytes per entry. -/
theorem C09_batch_sound (hr : 2 ^ 248 < r) (b : Batch G1 G2) (H : HashToG1 G1)
    (hbad : ∃ e ∈ b.entries, verify P e.1 b.message b.extraData e.2 H ≠ .ok ()) (k : ℕ)
    (hk : k = byteCountFromTargetBatchSize b.entries.length SECURITY_BOUND) :
    (Finset.univ.filter fun t : Fin b.entries.length → Fin k → UInt8 =>
      b.verify P H (tableRng t) = .ok ()).card * 256 ^ k ≤
    Fintype.card (Fin b.entries.length → Fin k → UInt8) := by
  have hne : NeZero r := ⟨(Fact.out : r.Prime).ne_zero⟩
  have hcard : Fintype.card (Fin b.entries.length → Fin k → UInt8) =
      (256 ^ k) ^ b.entries.length := by
    simp [card_uint8]
  rw [hcard]
  by_cases hH : ∃ h, H SIG_DOMAIN b.message b.extraData = .ok h
  swap
  · have : ∀ t : Fin b.entries.length → Fin k → UInt8,
        b.verify P H (tableRng t) ≠ .ok () := by
      intro t hc
      rw [Batch.verify_eq P hr] at hc
      simp only [verify, verifySig, Outcome.bind_eq_ok_iff] at hc
      obtain ⟨h, hh, _⟩ := hc
      exact hH ⟨h, hh⟩
    simp [this]
  obtain ⟨h, hh⟩ := hH
  obtain ⟨sks, hsks⟩ := P.exists_dlogs (b.entries.map Prod.fst)
  have hlen : b.entries.length = sks.length := by simpa using congrArg List.length hsks
  -- the defects
  let δ : Fin b.entries.length → G1 := fun i =>
    (b.entries[i]).2 - (sks[i.1]'(by omega)) • h
  obtain ⟨e, he, hbad⟩ := hbad
  obtain ⟨j, hj, rfl⟩ := List.mem_iff_getElem.1 he
  have hfst : ∀ i (hi : i < b.entries.length), (b.entries[i]).1 = (sks[i]'(by omega)) • P.g2 := by
    intro i hi
    have h1 : (b.entries.map Prod.fst)[i]'(by simpa using hi) =
      (sks.map (· • P.g2))[i]'(by simp; omega) := by
      simp only [hsks]
    simpa using h1
  have hδ : δ ⟨j, hj⟩ ≠ 0 := by
    intro hc
    apply hbad
    rw [hfst j hj, C02_verify_dlog]
    exact ⟨h, hh, sub_eq_zero.1 hc⟩
  refine count_relation (r := r) ?_ δ ⟨j, hj⟩ hδ _ ?_
  · have h1 := byteCount_le b.entries.length
    have h2 : (256 : ℕ) ^ k ≤ 256 ^ 31 := Nat.pow_le_pow_right (by norm_num) (by omega)
    have h3 : (256 : ℕ) ^ 31 = 2 ^ 248 := by norm_num
    omega
  · intro t ht
    simp only [Finset.mem_filter, Finset.mem_univ, true_and] at ht
    rw [Batch.verify_eq P hr] at ht
    simp only [] at ht
    rw [← hk, randomDraws_tableRng] at ht
    obtain ⟨s, h1, h2⟩ := zipWith_defect P
      ((List.ofFn fun i => List.ofFn (t i)).map fun bs => (leValue bs : ZMod r))
      b.entries h sks hsks (by simp)
    rw [h1, C02_verify_dlog] at ht
    obtain ⟨h', hh', h3⟩ := ht
    rw [hh] at hh'; cases hh'
    rw [h3, sub_self] at h2
    have hlist : List.ofFn (fun i => (leValue (List.ofFn (t i)) : ZMod r) • δ i) =
        List.zipWith (fun x d => x • d)
          ((List.ofFn fun i => List.ofFn (t i)).map fun bs => (leValue bs : ZMod r))
          (List.zipWith (fun (e : G2 × G1) s => e.2 - s • h) b.entries sks) := by
      apply List.ext_getElem
      · simp [hlen]
      · intro i h1 h2
        simp [δ]
    rw [← List.sum_ofFn, hlist, ← h2]

open Classical in
/-- C09: in particular at most a fraction `2 ^ -128` of the draws accepts, for any batch size. -/
theorem C09_security_bound (hr : 2 ^ 248 < r) (b : Batch G1 G2) (H : HashToG1 G1)
    (hbad : ∃ e ∈ b.entries, verify P e.1 b.message b.extraData e.2 H ≠ .ok ()) (k : ℕ)
    (hk : k = byteCountFromTargetBatchSize b.entries.length SECURITY_BOUND) :
    (Finset.univ.filter fun t : Fin b.entries.length → Fin k → UInt8 =>
      b.verify P H (tableRng t) = .ok ()).card * 2 ^ 128 ≤
    Fintype.card (Fin b.entries.length → Fin k → UInt8) := by
  refine le_trans (Nat.mul_le_mul_left _ ?_) (C09_batch_sound P hr b H hbad k hk)
  have h1 := byteCount_ge b.entries.length
  have h2 : (256 : ℕ) ^ 16 ≤ 256 ^ k := Nat.pow_le_pow_right (by norm_num) (by omega)
  have h3 : (256 : ℕ) ^ 16 = 2 ^ 128 := by norm_num
  omega

/-- C09: the decision depends only on the bytes counted in `C09_batch_sound`: any random source
behaves like the table of its first `n × k` bytes. -/
theorem C09_table_complete (hr : 2 ^ 248 < r) (b : Batch G1 G2) (H : HashToG1 G1)
    (rng : ℕ → ℕ → UInt8) (k : ℕ)
    (hk : k = byteCountFromTargetBatchSize b.entries.length SECURITY_BOUND) :
    b.verify P H rng = b.verify P H
      (tableRng fun (i : Fin b.entries.length) (j : Fin k) => rng i j) := by
  have hne : NeZero r := ⟨(Fact.out : r.Prime).ne_zero⟩
  rw [Batch.verify_eq P hr, Batch.verify_eq P hr]
  simp only []
  rw [← hk, randomDraws_tableRng]
  rfl

end

/-! Non-vacuity for C08, C09, C11: with the real scalar field of BLS12-377, a valid batch of two
signatures, and a batch whose second signature is wrong (rejected by `verify_each`, and rejected by
`verify` for some draw). -/

/-- Example batch of two valid signatures over `ZMod FR_MODULUS`. -/
def exampleBatch : Batch (ZMod FR_MODULUS) (ZMod FR_MODULUS) :=
  ((Batch.new [1] [2]).add 3 (3 * 1073741829)).add 5 (5 * 1073741829)

/-- Example hasher returning a fixed point. -/
def exampleHash : HashToG1 (ZMod FR_MODULUS) := fun _ _ _ => .ok 1073741829

example : 2 ^ 248 < FR_MODULUS := by decide +kernel

theorem exampleBatch_valid : ∀ e ∈ exampleBatch.entries,
    verify (toyPairing FR_MODULUS) e.1 exampleBatch.message exampleBatch.extraData e.2 exampleHash
      = .ok () := by
  intro e he
  have hne : NeZero FR_MODULUS := ⟨FR_prime.ne_zero⟩
  have hg : ∀ s : ZMod FR_MODULUS, s = s • (toyPairing FR_MODULUS).g2 := by
    intro s; simp [toyPairing]
  simp only [exampleBatch, Batch.add, Batch.new, List.nil_append, List.cons_append,
    List.mem_cons, List.not_mem_nil, or_false] at he
  rcases he with rfl | rfl
  · simp only []; rw [hg 3, C02_verify_dlog]; exact ⟨_, rfl, rfl⟩
  · simp only []; rw [hg 5, C02_verify_dlog]; exact ⟨_, rfl, rfl⟩

example (rng : ℕ → ℕ → UInt8) :
    exampleBatch.verify (toyPairing FR_MODULUS) exampleHash rng = .ok () :=
  haveI : NeZero FR_MODULUS := ⟨FR_prime.ne_zero⟩
  C08_batch_complete _ (by decide +kernel) _ _ ⟨_, rfl⟩ exampleBatch_valid rng

/-- An invalid pair exists in this batch, so C09 applies to it. -/
theorem exampleBatch_invalid : ∃ e ∈ (exampleBatch.add 7 1).entries,
    verify (toyPairing FR_MODULUS) e.1 (exampleBatch.add 7 1).message
      (exampleBatch.add 7 1).extraData e.2 exampleHash ≠ .ok () := by
  have hne : NeZero FR_MODULUS := ⟨FR_prime.ne_zero⟩
  refine ⟨(7, 1), by simp [Batch.add], ?_⟩
  have hg : ∀ s : ZMod FR_MODULUS, s = s • (toyPairing FR_MODULUS).g2 := by
    intro s; simp [toyPairing]
  simp only []
  rw [hg 7, Ne, C02_verify_dlog]
  rintro ⟨h, hh, h2⟩
  simp only [exampleHash, Outcome.ok.injEq] at hh
  subst hh
  revert h2
  decide +kernel

/-- C11 instance: the first invalid pair decides `verify_each`. -/
example : (exampleBatch.add 7 1).verifyEach (toyPairing FR_MODULUS) exampleHash =
      .err .verificationFailed ∧
    exampleBatch.verifyEach (toyPairing FR_MODULUS) exampleHash = .ok () := by
  have hne : NeZero FR_MODULUS := ⟨FR_prime.ne_zero⟩
  refine ⟨C11_first_error _ _ _ exampleBatch.entries [] (7, 1) _ rfl exampleBatch_valid ?_,
    (C11_verify_each_iff _ _ _).2 exampleBatch_valid⟩
  obtain ⟨e, he, hb⟩ := exampleBatch_invalid
  refine verifySig_failed _ _ _ _ _ _ _ _ rfl ?_
  simp only [Batch.add, List.mem_append, List.mem_singleton] at he
  rcases he with he | rfl
  · exact absurd (exampleBatch_valid e he) hb
  · exact hb

/-- C11 (boundary): the converse of `C11_each_implies_batch` side condition: on the empty batch
`verify_each` succeeds without hashing, `verify` still reports the hashing error. -/
theorem C11_empty {r : ℕ} [NeZero r] {G1 G2 GT : Type*} [AddCommGroup G1] [Module (ZMod r) G1]
    [AddCommGroup G2] [Module (ZMod r) G2] [CommGroup GT] [DecidableEq GT]
    (P : Pairing r G1 G2 GT) (hr : 2 ^ 248 < r) (msg extra : Bytes) (H : HashToG1 G1)
    (e : BLSError) (hH : H SIG_DOMAIN msg extra = .err e) (rng : ℕ → ℕ → UInt8) :
    (Batch.new msg extra : Batch G1 G2).verifyEach P H = .ok () ∧
    (Batch.new msg extra : Batch G1 G2).verify P H rng = .err e :=
  ⟨rfl, C08_hash_error P hr _ H e hH rng⟩

/-! ## C10 -/

/-- C10: the exponent length is between 16 and 31 bytes. -/
theorem C10_bounds (n : ℕ) :
    16 ≤ byteCountFromTargetBatchSize n SECURITY_BOUND ∧
    byteCountFromTargetBatchSize n SECURITY_BOUND ≤ 31 := ⟨byteCount_ge n, byteCount_le n⟩

/-- C10: larger batches never get shorter exponents. -/
theorem C10_mono {m n : ℕ} (h : m ≤ n) :
    byteCountFromTargetBatchSize m SECURITY_BOUND ≤
      byteCountFromTargetBatchSize n SECURITY_BOUND := by
  unfold byteCountFromTargetBatchSize
  have := Nat.clog_mono_right 2 h
  omega

/-- C10: unless the cap of 31 bytes applies, the exponents of a batch of `n` entries have enough
bits: `n * 2 ^ 128 ≤ 256 ^ k`; and no more than 7 bits are wasted. -/
theorem C10_security (n : ℕ) (k : ℕ) (hk : k = byteCountFromTargetBatchSize n SECURITY_BOUND)
    (hcap : k < 31) : n * 2 ^ 128 ≤ 256 ^ k ∧ 8 * k < 128 + Nat.clog 2 n + 8 := by
  subst hk
  unfold byteCountFromTargetBatchSize SECURITY_BOUND at *
  constructor
  · have h1 : n ≤ 2 ^ Nat.clog 2 n := Nat.le_pow_clog (by norm_num) n
    have h2 : min ((128 + Nat.clog 2 n + 7) / 8) (253 / 8) = (128 + Nat.clog 2 n + 7) / 8 := by omega
    rw [h2]
    calc n * 2 ^ 128 ≤ 2 ^ Nat.clog 2 n * 2 ^ 128 := Nat.mul_le_mul_right _ h1
      _ = 2 ^ (Nat.clog 2 n + 128) := by rw [pow_add]
      _ ≤ 2 ^ (8 * ((128 + Nat.clog 2 n + 7) / 8)) := Nat.pow_le_pow_right (by norm_num) (by omega)
      _ = 256 ^ ((128 + Nat.clog 2 n + 7) / 8) := by rw [pow_mul]; norm_num
  · omega

/-- C10: the cap is not reached by any batch of at most `2 ^ 112` entries (in particular by no
batch that fits in memory). -/
theorem C10_cap_unreached (n : ℕ) (hn : n ≤ 2 ^ 112) :
    byteCountFromTargetBatchSize n SECURITY_BOUND < 31 := by
  unfold byteCountFromTargetBatchSize SECURITY_BOUND
  have h1 := Nat.clog_mono_right 2 hn
  have h2 : Nat.clog 2 (2 ^ 112) = 112 := Nat.clog_pow 2 112 (by norm_num)
  omega

/-- C10: every byte string of the computed length decodes (the `unwrap` cannot panic), and
different strings give different exponents. -/
theorem C10_decode {r : ℕ} (hr : 2 ^ 248 < r) (n : ℕ) (a b : Bytes)
    (ha : a.length = byteCountFromTargetBatchSize n SECURITY_BOUND)
    (hb : b.length = byteCountFromTargetBatchSize n SECURITY_BOUND) :
    (∃ x, frFromRandomBytes r a = some x) ∧
    (frFromRandomBytes r a = frFromRandomBytes r b → a = b) := by
  have hle := byteCount_le n
  rw [frFromRandomBytes_short hr a (by omega), frFromRandomBytes_short hr b (by omega)]
  refine ⟨⟨_, rfl⟩, fun h => ?_⟩
  have h := Option.some.inj h
  have h1 := leValue_lt a
  have h2 := leValue_lt b
  have h3 : (256 : ℕ) ^ a.length ≤ 256 ^ 31 := Nat.pow_le_pow_right (by norm_num) (by omega)
  have h4 : (256 : ℕ) ^ b.length ≤ 256 ^ 31 := Nat.pow_le_pow_right (by norm_num) (by omega)
  have h5 : (256 : ℕ) ^ 31 = 2 ^ 248 := by norm_num
  have h6 := congrArg ZMod.val h
  rw [ZMod.val_cast_of_lt (by omega), ZMod.val_cast_of_lt (by omega)] at h6
  exact leValue_inj (by omega) h6

/-- C10 (why the cap matters): a 32-byte draw could fail to decode for the BLS12-377 scalar
field. -/
theorem C10_cap_needed : frFromRandomBytes FR_MODULUS (List.replicate 32 255) = none := by
  decide +kernel

/-- Non-vacuity for C10. -/
example : byteCountFromTargetBatchSize 1 SECURITY_BOUND = 16 ∧
    byteCountFromTargetBatchSize 2 SECURITY_BOUND = 17 ∧
    byteCountFromTargetBatchSize 256 SECURITY_BOUND = 17 ∧
    byteCountFromTargetBatchSize 257 SECURITY_BOUND = 18 := by decide +kernel

/-! ## The theorems applied to concrete data -/

section
local instance factPrimeFr : Fact FR_MODULUS.Prime := ⟨FR_prime⟩
local instance : NeZero FR_MODULUS := ⟨FR_prime.ne_zero⟩

/-- `C08_hash_error` and `C11_empty`: a hasher that fails. -/
example (rng : ℕ → ℕ → UInt8) :
    exampleBatch.verify (toyPairing FR_MODULUS) (fun _ _ _ => .err .hashToCurveError) rng =
      .err .hashToCurveError ∧
    (Batch.new [1] [2] : Batch (ZMod FR_MODULUS) (ZMod FR_MODULUS)).verifyEach (toyPairing FR_MODULUS)
      (fun _ _ _ => .err .hashToCurveError) = .ok () :=
  ⟨C08_hash_error _ (by decide +kernel) _ _ _ rfl rng,
    (C11_empty _ (by decide +kernel) _ _ _ .hashToCurveError rfl rng).1⟩

/-- `C08_no_panic`. -/
example (rng : ℕ → ℕ → UInt8) : exampleBatch.verify (toyPairing FR_MODULUS) exampleHash rng ≠ .panic :=
  C08_no_panic _ (by decide +kernel) _ _ (by intro h; cases h) rng

open Classical in
/-- `C09_batch_sound`, `C09_security_bound`: the batch of three with a wrong signature, 17 bytes per entry: of the
`256 ^ 51` tables at most `256 ^ 34` are accepting. -/
example (k : ℕ) (hk : k = 17) :
    (Finset.univ.filter fun t : Fin (exampleBatch.add 7 1).entries.length → Fin k → UInt8 =>
      (exampleBatch.add 7 1).verify (toyPairing FR_MODULUS) exampleHash (tableRng t) = .ok ()).card * 256 ^ k ≤
      Fintype.card (Fin (exampleBatch.add 7 1).entries.length → Fin k → UInt8) ∧
    (Finset.univ.filter fun t : Fin (exampleBatch.add 7 1).entries.length → Fin k → UInt8 =>
      (exampleBatch.add 7 1).verify (toyPairing FR_MODULUS) exampleHash (tableRng t) = .ok ()).card * 2 ^ 128 ≤
      Fintype.card (Fin (exampleBatch.add 7 1).entries.length → Fin k → UInt8) := by
  have hk' : k = byteCountFromTargetBatchSize (exampleBatch.add 7 1).entries.length SECURITY_BOUND := by
    rw [hk]; decide +kernel
  exact ⟨C09_batch_sound _ (by decide +kernel) _ _ exampleBatch_invalid k hk',
    C09_security_bound _ (by decide +kernel) _ _ exampleBatch_invalid k hk'⟩

/-- `C09_table_complete`: any generator acts on the batch of two as a table of 2 × 17 bytes. -/
example (rng : ℕ → ℕ → UInt8) : exampleBatch.verify (toyPairing FR_MODULUS) exampleHash rng =
    exampleBatch.verify (toyPairing FR_MODULUS) exampleHash
      (tableRng fun (i : Fin exampleBatch.entries.length) (j : Fin 17) => rng i j) :=
  C09_table_complete _ (by decide +kernel) _ _ rng 17 (by decide +kernel)

/-- `C11_each_implies_batch`. -/
example (rng : ℕ → ℕ → UInt8) : exampleBatch.verify (toyPairing FR_MODULUS) exampleHash rng = .ok () :=
  C11_each_implies_batch _ (by decide +kernel) _ _ (by simp [exampleBatch, Batch.add])
    ((C11_verify_each_iff _ _ _).2 exampleBatch_valid) rng

/-- `C10_mono`, `C10_security`, `C10_cap_unreached`, `C10_decode`. -/
example : byteCountFromTargetBatchSize 100 SECURITY_BOUND ≤ byteCountFromTargetBatchSize 1000 SECURITY_BOUND ∧
    (1000 * 2 ^ 128 ≤ 256 ^ 18 ∧ 8 * 18 < 128 + Nat.clog 2 1000 + 8) ∧
    byteCountFromTargetBatchSize (10 ^ 30) SECURITY_BOUND < 31 ∧
    frFromRandomBytes FR_MODULUS (List.replicate 18 255) ≠
      frFromRandomBytes FR_MODULUS (List.replicate 17 255 ++ [254]) := by
  refine ⟨C10_mono (by norm_num), C10_security 1000 18 (by decide +kernel) (by norm_num),
    C10_cap_unreached _ (by norm_num), fun h => ?_⟩
  have := (C10_decode (r := FR_MODULUS) (by decide +kernel) 1000 _ _ (by decide +kernel) (by decide +kernel)).2 h
  revert this
  decide

end

end Verif
