import Verif.Lemmas.Hashers

/-!
# Properties of the byte-string hashers: C21, C22, C23, C61
-/

namespace Verif

/-! ## Example hash function used for the concrete cases -/

/-- A stand-in for BLAKE2s whose output shows the parameters and input it was given: a digest of
the requested length cut from the (repeated) parameter block followed by the message. -/
def showBlake2s : Blake2s where
  run p m := ((p.block ++ m) ++ List.replicate p.hashLength 0).take p.hashLength
  length_run p m := by simp; omega

/-! ## C21 -/

/-- C21: the XOF returns exactly the requested number of bytes (any length below `2 ^ 37` bytes,
the point at which the block number no longer fits beside the length). -/
theorem C21_xof_length (B : Blake2s) (domain m : Bytes) (hd : domain.length ≤ 8) (len : ℕ)
    (hlen : len < 2 ^ 37) :
    ∃ out, directXof B domain m len = .ok out ∧ out.length = len := by
  refine ⟨_, directXof_ok B domain m hd len hlen, ?_⟩
  rw [List.length_flatten, List.map_map]
  conv_rhs => rw [← blockLen_sum len]
  congr 1
  apply List.map_congr_left
  intro i _
  exact B.length_run _ _

/-- C21: an over-long domain is rejected, and the error carries its length. -/
theorem C21_domain_too_large (B : Blake2s) (domain m : Bytes) (len : ℕ) :
    directXof B domain m len = .err (.domainTooLarge domain.length) ↔ 8 < domain.length := by
  constructor
  · intro h
    by_contra hd
    unfold directXof at h
    rw [if_neg hd] at h
    cases h' : Outcome.mapM (fun i => (directXofParams domain len i).map fun p => B.run p m)
        (List.range (xofNumHashes len)) with
    | ok v => rw [h'] at h; cases h
    | panic => rw [h'] at h; cases h
    | err e =>
      rw [Outcome.mapM_eq_err_iff] at h'
      obtain ⟨pre, a, post, _, ha, _⟩ := h'
      unfold directXofParams at ha
      simp only [Blake2sParams.setHashLength, if_pos (blockLen_bounds len a), Outcome.bind_ok,
        Blake2sParams.setPersonal, if_pos (not_lt.mp hd), Blake2sParams.setNodeOffset] at ha
      split at ha <;> cases ha
  · intro h
    unfold directXof
    rw [if_pos h]

/-- C21: a shorter request is not a prefix of a longer one: the requested length enters every
block's parameters.  Witness: the first bytes of a 32-byte and of a 64-byte request differ for a
hash function that reveals its parameters. -/
theorem C21_not_prefix : ∃ (B : Blake2s) (domain m short long : Bytes),
    directXof B domain m 32 = .ok short ∧ directXof B domain m 64 = .ok long ∧
      ¬ short <+: long := by
  refine ⟨showBlake2s, [], [], _, _, directXof_ok _ _ _ (by decide) _ (by norm_num),
    directXof_ok _ _ _ (by decide) _ (by norm_num), ?_⟩
  decide +kernel

/-- Concrete case: 48 bytes (not a multiple of 32) under the signing domain. -/
example : ∃ out, directXof showBlake2s SIG_DOMAIN [1, 2, 3] 48 = .ok out ∧ out.length = 48 :=
  C21_xof_length _ _ _ (by decide) _ (by norm_num)

example : directXof showBlake2s [1, 2, 3, 4, 5, 6, 7, 8, 9] [] 64 = .err (.domainTooLarge 9) :=
  (C21_domain_too_large _ _ _ _).mpr (by decide)

/-! ## C22 -/

/-- C22: below 65536 bytes, equal parameters mean the same domain (up to zero padding), the same
total length and the same block. -/
theorem C22_xof_params_injective (d d' : Bytes) (len len' i i' : ℕ) (p : Blake2sParams)
    (hlen : len < 65536) (hlen' : len' < 65536)
    (hi : i < xofNumHashes len) (hi' : i' < xofNumHashes len')
    (h : directXofParams d len i = .ok p) (h' : directXofParams d' len' i' = .ok p) :
    len = len' ∧ i = i' ∧
      d ++ List.replicate (8 - d.length) 0 = d' ++ List.replicate (8 - d'.length) 0 := by
  have dom : ∀ (d : Bytes) (l j : ℕ), directXofParams d l j = .ok p → d.length ≤ 8 := by
    intro d l j h
    by_contra hd
    unfold directXofParams at h
    simp only [Blake2sParams.setHashLength, if_pos (blockLen_bounds l j), Outcome.bind_ok,
      Blake2sParams.setPersonal, if_neg hd] at h
    cases h
  have b : i < 2 ^ 32 := by unfold xofNumHashes at hi; omega
  have b' : i' < 2 ^ 32 := by unfold xofNumHashes at hi'; omega
  rw [directXofParams_ok d (dom _ _ _ h) len i b] at h
  rw [directXofParams_ok d' (dom _ _ _ h') len' i' b'] at h'
  have e := h.trans h'.symm
  injection e with e
  injection e with _ _ _ _ e1 _ e2
  rw [nodeOffset_eq i len b, nodeOffset_eq i' len' b'] at e1
  refine ⟨by omega, by omega, e2⟩

/-- C22: the CRH never uses the parameters of an XOF block, whatever domains and lengths. -/
theorem C22_crh_separate (d d' : Bytes) (len len' i : ℕ) (p p' : Blake2sParams)
    (h : directCrhParams d len = .ok p) (h' : directXofParams d' len' i = .ok p') :
    p ≠ p' ∧ p.block ≠ p'.block := by
  have f : p.fanout = 1 := by
    unfold directCrhParams at h
    simp only [Outcome.bind_eq_ok_iff, Blake2sParams.setHashLength, Blake2sParams.setNodeOffset,
      Blake2sParams.setPersonal] at h
    obtain ⟨a, ha, b, hb, hc⟩ := h
    split at ha <;> split at hb <;> split at hc <;> simp_all [Blake2sParams.new]
    subst_vars
    rfl
  have f' : p'.fanout = 0 := by
    unfold directXofParams at h'
    simp only [Outcome.bind_eq_ok_iff, Blake2sParams.setHashLength, Blake2sParams.setNodeOffset,
      Blake2sParams.setPersonal, if_pos (blockLen_bounds len' i)] at h'
    obtain ⟨a, ha, b, hb, hc⟩ := h'
    split at hb <;> split at hc <;> simp_all
    subst_vars
    rfl
  constructor
  · intro e
    rw [e, f'] at f
    cases f
  · intro e
    have : p.block[2]? = p'.block[2]? := by rw [e]
    unfold Blake2sParams.block at this
    rw [f, f'] at this
    simp at this

/-- C22 (violated beyond 65535 bytes): the length is truncated to 16 bits, so two different
requests share the parameters of their first block. -/
theorem C22_violation_alias : ∃ (len len' : ℕ) (p : Blake2sParams), len ≠ len' ∧
    0 < xofNumHashes len ∧ 0 < xofNumHashes len' ∧
    directXofParams SIG_DOMAIN len 0 = .ok p ∧ directXofParams SIG_DOMAIN len' 0 = .ok p := by
  refine ⟨64, 65600, _, by norm_num, by decide, by decide,
    directXofParams_ok _ (by decide) _ _ (by norm_num), ?_⟩
  rw [directXofParams_ok _ (by decide) _ _ (by norm_num)]
  decide +kernel

/-- C22: with different parameters and a different 32-byte parameter block: the block determines
domain padding, length and number (bytes level), for lengths below 65536. -/
theorem C22_block_injective (d d' : Bytes) (hd : d.length ≤ 8) (hd' : d'.length ≤ 8)
    (len len' i i' : ℕ) (p p' : Blake2sParams)
    (hlen : len < 65536) (hlen' : len' < 65536)
    (hi : i < xofNumHashes len) (hi' : i' < xofNumHashes len')
    (h : directXofParams d len i = .ok p) (h' : directXofParams d' len' i' = .ok p')
    (hb : p.block = p'.block) : len = len' ∧ i = i' := by
  have b : i < 2 ^ 32 := by unfold xofNumHashes at hi; omega
  have b' : i' < 2 ^ 32 := by unfold xofNumHashes at hi'; omega
  rw [directXofParams_ok d hd len i b] at h
  rw [directXofParams_ok d' hd' len' i' b'] at h'
  cases h
  cases h'
  have key : ∀ j < 6, (UInt8.ofNat (xofDigestLengthToNodeOffset i len / 256 ^ j)) =
      (UInt8.ofNat (xofDigestLengthToNodeOffset i' len' / 256 ^ j)) := by
    intro j hj
    have e := congrArg (fun l => l[8 + j]?) hb
    unfold Blake2sParams.block at e
    interval_cases j <;> simpa [List.range_succ] using e
  rw [nodeOffset_eq i len b, nodeOffset_eq i' len' b'] at key
  have key' : ∀ j < 6, ((i + len % 2 ^ 16 * 2 ^ 32) / 256 ^ j) % 256 =
      ((i' + len' % 2 ^ 16 * 2 ^ 32) / 256 ^ j) % 256 := by
    intro j hj
    have := congrArg UInt8.toNat (key j hj)
    simpa using this
  have k0 := key' 0 (by norm_num)
  have k1 := key' 1 (by norm_num)
  have k2 := key' 2 (by norm_num)
  have k3 := key' 3 (by norm_num)
  have k4 := key' 4 (by norm_num)
  have k5 := key' 5 (by norm_num)
  norm_num at k0 k1 k2 k3 k4 k5
  omega

/-- Concrete case: the two blocks of a 64-byte request under the signing domain. -/
example : ∃ p p', directXofParams SIG_DOMAIN 64 0 = .ok p ∧ directXofParams SIG_DOMAIN 64 1 = .ok p' ∧
    p ≠ p' :=
  ⟨_, _, directXofParams_ok _ (by decide) _ _ (by norm_num),
    directXofParams_ok _ (by decide) _ _ (by norm_num), by decide +kernel⟩

/-! ## C23 -/

/-- C23: `hash_length n` is the least multiple of 32 that is at least `n`. -/
theorem C23_hash_length (n : ℕ) :
    IsLeast {m : ℕ | 32 ∣ m ∧ n ≤ m} (hashLength n) := by
  rw [hashLength_eq]
  constructor
  · exact ⟨⟨_, rfl⟩, by omega⟩
  · rintro m ⟨⟨k, rfl⟩, hk⟩
    omega

/-- Concrete cases: the 48-byte field element of the curve, and a value already aligned. -/
example : hashLength 48 = 64 ∧ hashLength 96 = 96 := by
  simp [hashLength_eq]

/-! ## C61 -/

/-- C61: the composite hasher reports an over-long domain as an error whenever its own
(domain-independent) CRH succeeds. -/
theorem C61_composite (B : Blake2s) (pedersen : Bytes → Outcome BLSError Bytes)
    (domain m prepared : Bytes) (len : ℕ) (hd : 8 < domain.length)
    (hp : pedersen m = .ok prepared) :
    (compositeHasher B pedersen).hash domain m len = .err (.domainTooLarge domain.length) := by
  unfold Hasher.hash compositeHasher
  simp only [hp, Outcome.bind_ok]
  exact (C21_domain_too_large B domain prepared len).mpr hd

/-- C61 (violated): the direct hasher panics on every over-long domain instead of returning the
error; both its CRH and `hash`. -/
theorem C61_violation_direct_panics (B : Blake2s) (domain m : Bytes) (len : ℕ) :
    (directHasher B).crh domain m len = .panic ↔ 8 < domain.length := by
  constructor
  · intro h
    by_contra hd
    simp only [directHasher, directCrh, directCrhParams_ok domain (not_lt.mp hd),
      Outcome.bind_ok] at h
    cases h
  · intro h
    have h0 : 1 ≤ 32 ∧ 32 ≤ 32 := by omega
    simp only [directHasher, directCrh, directCrhParams, Blake2sParams.setHashLength, if_pos h0,
      Outcome.bind_ok, Blake2sParams.setNodeOffset, if_pos (nodeOffset_lt 0 len (by norm_num)),
      Blake2sParams.setPersonal, if_neg (not_le.mpr h)]
    rfl

theorem C61_violation_hash_panics (B : Blake2s) (domain m : Bytes) (len : ℕ)
    (hd : 8 < domain.length) : (directHasher B).hash domain m len = .panic := by
  unfold Hasher.hash
  rw [(C61_violation_direct_panics B domain m len).mpr hd]
  rfl

/-- C61: inside the limit the direct hasher never fails. -/
theorem C61_direct_ok (B : Blake2s) (domain m : Bytes) (len : ℕ) (hd : domain.length ≤ 8)
    (hlen : len < 2 ^ 37) :
    ∃ out, (directHasher B).hash domain m len = .ok out ∧ out.length = len := by
  unfold Hasher.hash directHasher
  simp only [directCrh, directCrhParams_ok domain hd, Outcome.bind_ok]
  exact C21_xof_length B domain _ hd len hlen

/-- C61: domains that differ only by trailing zeros are indistinguishable to the direct hasher. -/
theorem C61_domain_padding (B : Blake2s) (domain m : Bytes) (k len : ℕ)
    (hd : domain.length + k ≤ 8) (hlen : len < 2 ^ 37) :
    (directHasher B).hash (domain ++ List.replicate k 0) m len =
      (directHasher B).hash domain m len := by
  have pad : (domain ++ List.replicate k (0 : UInt8)) ++
      List.replicate (8 - (domain ++ List.replicate k (0 : UInt8)).length) 0 =
      domain ++ List.replicate (8 - domain.length) 0 := by
    rw [List.append_assoc, List.replicate_append_replicate]
    congr 2
    simp
    omega
  have h1 : (domain ++ List.replicate k (0 : UInt8)).length ≤ 8 := by simpa using hd
  have h2 : domain.length ≤ 8 := by omega
  unfold Hasher.hash directHasher
  simp only [directCrh, directCrhParams_ok _ h1, directCrhParams_ok _ h2, Outcome.bind_ok,
    directXof_ok B _ _ h1 len hlen, directXof_ok B _ _ h2 len hlen, pad]

/-- Conversely, distinct padded domains always give distinct parameters (CRH). -/
theorem C61_domain_separation (d d' : Bytes) (hd : d.length ≤ 8) (hd' : d'.length ≤ 8)
    (len len' : ℕ) (p p' : Blake2sParams)
    (h : directCrhParams d len = .ok p) (h' : directCrhParams d' len' = .ok p')
    (hne : d ++ List.replicate (8 - d.length) 0 ≠ d' ++ List.replicate (8 - d'.length) 0) :
    p.block ≠ p'.block := by
  rw [directCrhParams_ok d hd] at h
  rw [directCrhParams_ok d' hd'] at h'
  cases h
  cases h'
  intro e
  apply hne
  unfold Blake2sParams.block at e
  exact (List.append_inj' e (by simp; omega)).2

/-- Concrete cases: a nine-byte domain panics, the signing domain does not. -/
example : (directHasher showBlake2s).hash [1, 2, 3, 4, 5, 6, 7, 8, 9] [1] 64 = .panic :=
  C61_violation_hash_panics _ _ _ _ (by decide)

example : (directHasher showBlake2s).hash [1, 2, 0] [7] 64 =
    (directHasher showBlake2s).hash [1, 2] [7] 64 :=
  C61_domain_padding showBlake2s [1, 2] [7] 1 64 (by decide) (by norm_num)

/-! ## The theorems applied to concrete data -/

/-- `C22_xof_params_injective`: no other length (below 65536) and node than 64 and 1 have the parameters of the second
node of a 64-byte output. -/
example (d : Bytes) (len i : ℕ) (hlen : len < 65536) (hi : i < xofNumHashes len)
    (h : directXofParams d len i = directXofParams SIG_DOMAIN 64 1) : len = 64 ∧ i = 1 := by
  obtain ⟨p, hp⟩ : ∃ p, directXofParams SIG_DOMAIN 64 1 = .ok p := ⟨_, rfl⟩
  obtain ⟨h1, h2, -⟩ := C22_xof_params_injective d SIG_DOMAIN len 64 i 1 p hlen (by norm_num) hi (by decide)
    (h.trans hp) hp
  exact ⟨h1, h2⟩

/-- `C22_crh_separate`: the parameters of the inner hash of 32 bytes and of the first node of 64 bytes. -/
example : ∃ p p', directCrhParams SIG_DOMAIN 32 = .ok p ∧ directXofParams SIG_DOMAIN 64 0 = .ok p' ∧
    p ≠ p' ∧ p.block ≠ p'.block :=
  ⟨_, _, rfl, rfl, C22_crh_separate SIG_DOMAIN SIG_DOMAIN 32 64 0 _ _ rfl rfl⟩

/-- `C22_block_injective`: the blocks of the two nodes of 64 bytes differ. -/
example : ∃ p p', directXofParams SIG_DOMAIN 64 0 = .ok p ∧ directXofParams SIG_DOMAIN 64 1 = .ok p' ∧
    p.block ≠ p'.block :=
  ⟨_, _, rfl, rfl, fun h => absurd (C22_block_injective SIG_DOMAIN SIG_DOMAIN (by decide) (by decide) 64 64 0 1 _ _
    (by norm_num) (by norm_num) (by decide) (by decide) rfl rfl h).2 (by norm_num)⟩

/-- `C61_composite` and `C61_direct_ok`: domains of 9 and of 8 bytes. -/
example (B : Blake2s) : (compositeHasher B fun _ => .ok [5]).hash (List.replicate 9 1) [2] 64 =
      .err (.domainTooLarge 9) ∧
    ∃ out, (directHasher B).hash SIG_DOMAIN [2] 96 = .ok out ∧ out.length = 96 :=
  ⟨C61_composite B (fun _ => .ok [5]) (List.replicate 9 1) [2] [5] 64 (by decide) rfl,
    C61_direct_ok B SIG_DOMAIN [2] 96 (by decide) (by norm_num)⟩

/-- `C61_domain_separation`: the inner hashes of the two domains of the scheme. -/
example : ∃ p p', directCrhParams SIG_DOMAIN 32 = .ok p ∧ directCrhParams POP_DOMAIN 32 = .ok p' ∧
    p.block ≠ p'.block :=
  ⟨_, _, rfl, rfl, C61_domain_separation SIG_DOMAIN POP_DOMAIN (by decide) (by decide) 32 32 _ _ rfl rfl
    (by decide)⟩

end Verif
