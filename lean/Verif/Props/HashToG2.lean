import Verif.Lemmas.HashToG2

/-!
# Property C94: hashing to G2
-/

set_option exponentiation.threshold 800
set_option linter.unusedSectionVars false

namespace Verif

/-! ## Specification

`DecodesG2 s A D P` (in `Verif/Lemmas/HashToG2.lean`) says which point of G2 two numbers denote, in terms of
their bits; `lowHalf d` and `highHalf d` are the two halves of the first 96 bytes of a digest. -/

/-- A digest yields the non-zero group element `g`. -/
def YieldsG2 {G : Type*} [Zero G] (compat : Bool) (scale : AffinePoint Fq2 → G) (d : Bytes) (g : G) : Prop :=
  96 ≤ d.length ∧ g ≠ 0 ∧ ∃ P, DecodesG2 (signBit compat) (lowHalf d) (highHalf d) P ∧ scale P = g

/-- A digest yields no group element: it denotes no point, or one killed by the cofactor. -/
def UselessG2 {G : Type*} [Zero G] (compat : Bool) (scale : AffinePoint Fq2 → G) (d : Bytes) : Prop :=
  96 ≤ d.length ∧ ∀ P, DecodesG2 (signBit compat) (lowHalf d) (highHalf d) P → scale P = 0

/-! ## The generic code at G1 -/

theorem fromRandomBytesAt_g1 (sqrt : Fq → Option Fq) (bytes : Bytes) :
    fromRandomBytesAt g1HashCurve sqrt bytes = fromRandomBytes sqrt bytes := by
  unfold fromRandomBytesAt fromRandomBytes
  simp only [g1HashCurve]
  congr 1
  funext v
  obtain ⟨x, f⟩ := v
  simp only []
  have e : ∀ g, curvePointFromX fqCodec sqrt 1 x g = getPointFromX sqrt x g := by
    intro g
    unfold curvePointFromX getPointFromX
    have : x * x * x + 1 = x * x * x + 0 * x + 1 := by ring
    rw [this]
    rfl
  simp only [e]
  rfl

section
variable {G : Type*} [Zero G] [DecidableEq G]

/-- C94: at the parameters of G1 the generic code is the code of C18 and C19. -/
theorem C94_generic_g1 (compat : Bool) (h : Hasher) (sqrt : Fq → Option Fq) (scale : AffinePoint Fq → G)
    (domain message extra : Bytes) :
    hashWithAttemptAt g1HashCurve compat h sqrt scale domain message extra =
      hashWithAttempt compat h sqrt scale domain message extra ∧
    hashWithAttemptCip22At g1HashCurve compat h sqrt scale domain message extra =
      hashWithAttemptCip22 compat h sqrt scale domain message extra := by
  have e : processCandidateAt g1HashCurve compat sqrt scale = processCandidate compat sqrt scale := by
    funext d
    unfold processCandidateAt processCandidate
    have hc : compatMoveAt g1HashCurve.numBytes d = compatMove d := rfl
    have hn : g1HashCurve.numBytes = NUM_BYTES := rfl
    rw [hc, hn]
    simp only [fromRandomBytesAt_g1]
    congr 1
    funext v
    split
    · rfl
    · cases fromRandomBytes sqrt (List.take NUM_BYTES v) <;> rfl
  unfold hashWithAttemptAt hashWithAttemptCip22At hashWithAttempt hashWithAttemptCip22
  rw [e]
  exact ⟨rfl, rfl⟩

/-! ## Results -/

theorem hashLength_g2 : hashLength g2HashCurve.numBytes = 96 := by
  rw [hashLength_eq]; rfl

/-- C94: success at G2.  The result is what the first usable counter below 255 yields. -/
theorem C94_ok_iff (compat : Bool) (h : Hasher) {sqrt : Fq2 → Option Fq2} (hs : RootSpec sqrt)
    (scale : AffinePoint Fq2 → G) (domain message extra : Bytes) (g : G) (c : ℕ) :
    hashWithAttemptAt g2HashCurve compat h sqrt scale domain message extra = .ok (g, c) ↔
      c < 255 ∧
      (∃ d, h.hash domain (UInt8.ofNat c :: (extra ++ message)) 96 = .ok d ∧ YieldsG2 compat scale d g) ∧
      ∀ c' < c, ∃ d, h.hash domain (UInt8.ofNat c' :: (extra ++ message)) 96 = .ok d ∧
        UselessG2 compat scale d := by
  unfold hashWithAttemptAt
  rw [hashLength_g2]
  simp only []
  rw [tryLoop_ok_iff]
  simp only [Outcome.bind_eq_ok_iff, processG2_some_iff hs, processG2_none_iff hs]
  rfl

theorem bind_processG2_err (compat : Bool) {sqrt : Fq2 → Option Fq2} (hs : RootSpec sqrt)
    (scale : AffinePoint Fq2 → G) (e : BLSError) (o : Outcome BLSError Bytes) :
    o.bind (processCandidateAt g2HashCurve compat sqrt scale) = .err e ↔ o = .err e := by
  cases o with
  | ok d => simp [processG2_err hs]
  | err e' => simp
  | panic => simp

theorem bind_processG2_panic (compat : Bool) {sqrt : Fq2 → Option Fq2} (hs : RootSpec sqrt)
    (scale : AffinePoint Fq2 → G) (o : Outcome BLSError Bytes) :
    o.bind (processCandidateAt g2HashCurve compat sqrt scale) = .panic ↔
      o = .panic ∨ ∃ d, o = .ok d ∧ d.length < 96 := by
  cases o with
  | ok d => simp [processG2_panic_iff hs]
  | err e' => simp
  | panic => simp

/-- C94: failure at G2. -/
theorem C94_err_iff (compat : Bool) (h : Hasher) {sqrt : Fq2 → Option Fq2} (hs : RootSpec sqrt)
    (scale : AffinePoint Fq2 → G) (domain message extra : Bytes) (e : BLSError) :
    hashWithAttemptAt g2HashCurve compat h sqrt scale domain message extra = .err e ↔
      (∃ c < 255, h.hash domain (UInt8.ofNat c :: (extra ++ message)) 96 = .err e ∧
        ∀ c' < c, ∃ d, h.hash domain (UInt8.ofNat c' :: (extra ++ message)) 96 = .ok d ∧
          UselessG2 compat scale d) ∨
      (e = .hashToCurveError ∧
        ∀ c < 255, ∃ d, h.hash domain (UInt8.ofNat c :: (extra ++ message)) 96 = .ok d ∧
          UselessG2 compat scale d) := by
  unfold hashWithAttemptAt
  rw [hashLength_g2]
  simp only []
  rw [tryLoop_err_iff]
  simp only [bind_processG2_err compat hs, Outcome.bind_eq_ok_iff, processG2_none_iff hs]
  rfl

/-- C94: when hashing to G2 panics. -/
theorem C94_panic_iff (compat : Bool) (h : Hasher) {sqrt : Fq2 → Option Fq2} (hs : RootSpec sqrt)
    (scale : AffinePoint Fq2 → G) (domain message extra : Bytes) :
    hashWithAttemptAt g2HashCurve compat h sqrt scale domain message extra = .panic ↔
      ∃ c < 255, (h.hash domain (UInt8.ofNat c :: (extra ++ message)) 96 = .panic ∨
        ∃ d, h.hash domain (UInt8.ofNat c :: (extra ++ message)) 96 = .ok d ∧ d.length < 96) ∧
        ∀ c' < c, ∃ d, h.hash domain (UInt8.ofNat c' :: (extra ++ message)) 96 = .ok d ∧
          UselessG2 compat scale d := by
  unfold hashWithAttemptAt
  rw [hashLength_g2]
  simp only []
  rw [tryLoop_panic_iff]
  simp only [bind_processG2_panic compat hs, Outcome.bind_eq_ok_iff, processG2_none_iff hs]
  rfl

/-- C94: success of the CIP22 variant at G2. -/
theorem C94_cip22_ok_iff (compat : Bool) (h : Hasher) {sqrt : Fq2 → Option Fq2} (hs : RootSpec sqrt)
    (scale : AffinePoint Fq2 → G) (domain message extra : Bytes) (g : G) (c : ℕ) :
    hashWithAttemptCip22At g2HashCurve compat h sqrt scale domain message extra = .ok (g, c) ↔
      ∃ inner, h.crh domain message 96 = .ok inner ∧ c < 255 ∧
      (∃ d, h.xof domain (UInt8.ofNat c :: (extra ++ inner)) 96 = .ok d ∧ YieldsG2 compat scale d g) ∧
      ∀ c' < c, ∃ d, h.xof domain (UInt8.ofNat c' :: (extra ++ inner)) 96 = .ok d ∧
        UselessG2 compat scale d := by
  unfold hashWithAttemptCip22At
  rw [hashLength_g2]
  simp only []
  rw [Outcome.bind_eq_ok_iff]
  simp only [tryLoop_ok_iff, Outcome.bind_eq_ok_iff, processG2_some_iff hs, processG2_none_iff hs]
  rfl

/-- C94: failure of the CIP22 variant at G2. -/
theorem C94_cip22_err_iff (compat : Bool) (h : Hasher) {sqrt : Fq2 → Option Fq2} (hs : RootSpec sqrt)
    (scale : AffinePoint Fq2 → G) (domain message extra : Bytes) (e : BLSError) :
    hashWithAttemptCip22At g2HashCurve compat h sqrt scale domain message extra = .err e ↔
      h.crh domain message 96 = .err e ∨
      ∃ inner, h.crh domain message 96 = .ok inner ∧
      ((∃ c < 255, h.xof domain (UInt8.ofNat c :: (extra ++ inner)) 96 = .err e ∧
        ∀ c' < c, ∃ d, h.xof domain (UInt8.ofNat c' :: (extra ++ inner)) 96 = .ok d ∧
          UselessG2 compat scale d) ∨
      (e = .hashToCurveError ∧
        ∀ c < 255, ∃ d, h.xof domain (UInt8.ofNat c :: (extra ++ inner)) 96 = .ok d ∧
          UselessG2 compat scale d)) := by
  unfold hashWithAttemptCip22At
  rw [hashLength_g2]
  simp only []
  cases hc : h.crh domain message 96 with
  | ok inner =>
    simp only [Outcome.bind_ok, tryLoop_err_iff, bind_processG2_err compat hs, Outcome.bind_eq_ok_iff,
      processG2_none_iff hs, Outcome.ok.injEq, exists_eq_left', reduceCtorEq, false_or]
    rfl
  | err e' => simp
  | panic => simp

/-- C94: when the CIP22 variant panics at G2. -/
theorem C94_cip22_panic_iff (compat : Bool) (h : Hasher) {sqrt : Fq2 → Option Fq2} (hs : RootSpec sqrt)
    (scale : AffinePoint Fq2 → G) (domain message extra : Bytes) :
    hashWithAttemptCip22At g2HashCurve compat h sqrt scale domain message extra = .panic ↔
      h.crh domain message 96 = .panic ∨
      ∃ inner, h.crh domain message 96 = .ok inner ∧
      ∃ c < 255, (h.xof domain (UInt8.ofNat c :: (extra ++ inner)) 96 = .panic ∨
        ∃ d, h.xof domain (UInt8.ofNat c :: (extra ++ inner)) 96 = .ok d ∧ d.length < 96) ∧
        ∀ c' < c, ∃ d, h.xof domain (UInt8.ofNat c' :: (extra ++ inner)) 96 = .ok d ∧
          UselessG2 compat scale d := by
  unfold hashWithAttemptCip22At
  rw [hashLength_g2]
  simp only []
  cases hc : h.crh domain message 96 with
  | ok inner =>
    simp only [Outcome.bind_ok, tryLoop_panic_iff, bind_processG2_panic compat hs, Outcome.bind_eq_ok_iff,
      processG2_none_iff hs, Outcome.ok.injEq, exists_eq_left', reduceCtorEq, false_or]
    rfl
  | err e' => simp
  | panic => simp

/-- C94: with the direct hasher and a domain of at most 8 bytes hashing to G2 never panics, and the only
error is `HashToCurveError`. -/
theorem C94_direct_total (compat : Bool) (B : Blake2s) {sqrt : Fq2 → Option Fq2} (hs : RootSpec sqrt)
    (scale : AffinePoint Fq2 → G) (domain message extra : Bytes) (hd : domain.length ≤ 8) :
    (∃ g c, hashWithAttemptAt g2HashCurve compat (directHasher B) sqrt scale domain message extra =
        .ok (g, c) ∧ g ≠ 0 ∧ c < 255) ∨
      hashWithAttemptAt g2HashCurve compat (directHasher B) sqrt scale domain message extra =
        .err .hashToCurveError := by
  have hok : ∀ m, ∃ out, (directHasher B).hash domain m 96 = .ok out ∧ out.length = 96 := by
    intro m
    simp only [Hasher.hash, directHasher, directCrh, directCrhParams_ok domain hd, Outcome.bind_ok]
    refine ⟨_, directXof_ok B domain _ hd 96 (by norm_num), ?_⟩
    rw [List.length_flatten, List.map_map]
    conv_rhs => rw [← blockLen_sum 96]
    congr 1
    exact List.map_congr_left fun i _ => B.length_run _ _
  cases hr : hashWithAttemptAt g2HashCurve compat (directHasher B) sqrt scale domain message extra with
  | ok v =>
    obtain ⟨g, c⟩ := v
    obtain ⟨h1, ⟨d, _, h2⟩, _⟩ := (C94_ok_iff compat _ hs scale _ _ _ g c).mp hr
    exact Or.inl ⟨g, c, rfl, h2.2.1, h1⟩
  | err e =>
    rcases (C94_err_iff compat _ hs scale _ _ _ e).mp hr with ⟨c, _, h1, _⟩ | ⟨rfl, _⟩
    · obtain ⟨out, ho, _⟩ := hok (UInt8.ofNat c :: (extra ++ message))
      rw [ho] at h1
      cases h1
    · exact Or.inr rfl
  | panic =>
    obtain ⟨c, _, h1, _⟩ := (C94_panic_iff compat _ hs scale _ _ _).mp hr
    obtain ⟨out, ho, hl⟩ := hok (UInt8.ofNat c :: (extra ++ message))
    rcases h1 with h1 | ⟨d, h1, h2⟩
    · rw [ho] at h1; cases h1
    · rw [ho] at h1; cases h1; omega

end

/-! ## Order and distribution -/

theorem g2Scale_killed (Q : AffinePoint Fq2) : FR_MODULUS • g2Scale Q = 0 := by
  cases Q with
  | infinity => exact nsmul_zero _
  | finite x y =>
    by_cases h : g2Curve.Nonsingular x y
    · simp only [g2Scale, dif_pos h]
      exact nsmul_nsmul_card g2_card _
    · simp only [g2Scale, dif_neg h]
      exact nsmul_zero _

theorem order_of_yieldsG2 {compat : Bool} {d : Bytes} {g : G2Point} (h : YieldsG2 compat g2Scale d g) :
    addOrderOf g = FR_MODULUS := by
  obtain ⟨_, h0, P, _, rfl⟩ := h
  have := Fact.mk FR_prime
  exact addOrderOf_eq_prime (g2Scale_killed P) h0

/-- C94: whatever either variant returns at G2 has order exactly `r`, for every hasher. -/
theorem C94_order [DecidableEq G2Point] (compat : Bool) (h : Hasher) {sqrt : Fq2 → Option Fq2}
    (hs : RootSpec sqrt) (domain message extra : Bytes) (g : G2Point) (c : ℕ)
    (hh : hashWithAttemptAt g2HashCurve compat h sqrt g2Scale domain message extra = .ok (g, c) ∨
      hashWithAttemptCip22At g2HashCurve compat h sqrt g2Scale domain message extra = .ok (g, c)) :
    addOrderOf g = FR_MODULUS := by
  rcases hh with hh | hh
  · obtain ⟨_, ⟨d, _, hy⟩, _⟩ := (C94_ok_iff compat h hs g2Scale _ _ _ g c).mp hh
    exact order_of_yieldsG2 hy
  · obtain ⟨_, _, _, ⟨d, _, hy⟩, _⟩ := (C94_cip22_ok_iff compat h hs g2Scale _ _ _ g c).mp hh
    exact order_of_yieldsG2 hy

theorem yieldsG2_iff_key (compat : Bool) {g : G2Point} (h0 : g ≠ 0) (d : Bytes) (hd : d.length = 96) :
    YieldsG2 compat g2Scale d g ↔ g2Key (signBit compat) d ∈ g2KeysOf g := by
  unfold YieldsG2
  constructor
  · rintro ⟨_, _, P, hP, e⟩
    cases P with
    | infinity => exact absurd e.symm h0
    | finite x y =>
      obtain ⟨h1, h2, _, rfl, h4, h5⟩ := hP
      exact ⟨h1, h2, y, h4, h5, e⟩
  · rintro ⟨h1, h2, y, h3, h4, h5⟩
    simp only [g2Key] at h1 h2 h3 h4 h5
    refine ⟨by omega, h0, .finite _ y, ⟨h1, h2, ?_, rfl, h3, h4⟩, h5⟩
    rintro ⟨z0, z1, _⟩
    rw [z0, z1] at h3
    refine g2_x_ne_zero ((g2_nonsingular_iff _ y).mpr ?_) ((fq2_cast_zero FQ_prime.pos FQ_prime.pos).mpr ⟨rfl, rfl⟩)
    rw [← h3]; ring

/-- C94: every element of order `r` is yielded by the same number of 96-byte digests. -/
theorem C94_uniform (compat : Bool) {g : G2Point} (hg : FR_MODULUS • g = 0) (h0 : g ≠ 0) :
    {d : Bytes | d.length = 96 ∧ YieldsG2 compat g2Scale d g}.ncard = G2_COFACTOR * 2 ^ 13 := by
  obtain ⟨hs1, hs2⟩ := signBit_range compat
  have e : {d : Bytes | d.length = 96 ∧ YieldsG2 compat g2Scale d g} =
      {d : Bytes | d.length = 96 ∧ g2Key (signBit compat) d ∈ g2KeysOf g} := by
    ext d
    simp only [Set.mem_ofPred_eq]
    exact and_congr_right fun hd => yieldsG2_iff_key compat h0 d hd
  rw [e, ncard_g2_key _ hs1 hs2 (g2KeysOf g), ncard_g2KeysOf h0,
    ncard_fibre g2_card g2_cofactor_coprime FR_prime hg]
  rintro ⟨u, v, b⟩ ⟨h1, h2, _⟩
  exact ⟨h1.trans FQ_bounds.2, h2.trans FQ_bounds.2⟩

theorem yieldsG2_unique {compat : Bool} {d : Bytes} {g g' : G2Point} (h : YieldsG2 compat g2Scale d g)
    (h' : YieldsG2 compat g2Scale d g') : g = g' := by
  obtain ⟨_, _, P, hP, rfl⟩ := h
  obtain ⟨_, _, P', hP', rfl⟩ := h'
  rw [decodesG2_unique hP hP']

theorem ncard_nonzero_g2 : {g : G2Point | FR_MODULUS • g = 0 ∧ g ≠ 0}.ncard = FR_MODULUS - 1 := by
  have e : {g : G2Point | FR_MODULUS • g = 0 ∧ g ≠ 0} = {g : G2Point | FR_MODULUS • g = 0} \ {0} := by
    ext g
    rfl
  have hz : (0 : G2Point) ∈ {g : G2Point | FR_MODULUS • g = 0} := nsmul_zero _
  rw [e, Set.ncard_sdiff_singleton_of_mem hz, ncard_killed g2_card g2_cofactor_coprime FR_prime]

theorem ncard_usefulG2 (compat : Bool) :
    {d : Bytes | d.length = 96 ∧ ∃ g, YieldsG2 compat g2Scale d g}.ncard =
      (FR_MODULUS - 1) * (G2_COFACTOR * 2 ^ 13) := by
  classical
  have hT : {g : G2Point | FR_MODULUS • g = 0 ∧ g ≠ 0}.Finite := Set.toFinite _
  have hU := finite_g2_digests fun d => ∃ g, YieldsG2 compat g2Scale d g
  let f : Bytes → G2Point := fun d =>
    if h : ∃ g, YieldsG2 compat g2Scale d g then h.choose else 0
  have hf : ∀ d g, YieldsG2 compat g2Scale d g → f d = g := by
    intro d g h
    have hex : ∃ g, YieldsG2 compat g2Scale d g := ⟨g, h⟩
    simp only [f, dif_pos hex]
    exact yieldsG2_unique hex.choose_spec h
  rw [← ncard_nonzero_g2, Set.ncard_eq_toFinset_card _ hU, Set.ncard_eq_toFinset_card _ hT,
    Finset.card_eq_sum_card_fiberwise (f := f) (t := hT.toFinset) ?_,
    Finset.sum_const_nat (m := G2_COFACTOR * 2 ^ 13)]
  · intro g hg
    obtain ⟨hg1, hg2⟩ := hT.mem_toFinset.mp hg
    rw [← Set.ncard_coe_finset]
    refine Eq.trans (congrArg Set.ncard (Set.ext fun d => ?_)) (C94_uniform compat hg1 hg2)
    simp only [Finset.coe_filter, Set.Finite.mem_toFinset, Set.mem_ofPred_eq]
    constructor
    · rintro ⟨⟨h1, g', h2⟩, h3⟩
      rw [hf d g' h2] at h3
      exact ⟨h1, h3 ▸ h2⟩
    · rintro ⟨h1, h2⟩
      exact ⟨⟨h1, g, h2⟩, hf d g h2⟩
  · intro d hd
    simp only [Set.Finite.coe_toFinset] at hd ⊢
    obtain ⟨_, g, h⟩ := hd
    rw [hf d g h]
    obtain ⟨_, h0, P, _, rfl⟩ := h
    exact ⟨g2Scale_killed P, h0⟩

/-- C94: the exact number of digests on which an attempt is wasted at G2. -/
theorem C94_useless_count (compat : Bool) :
    {d : Bytes | d.length = 96 ∧ UselessG2 compat g2Scale d}.ncard =
      2 ^ 768 - (FR_MODULUS - 1) * (G2_COFACTOR * 2 ^ 13) := by
  have hsub : {d : Bytes | d.length = 96 ∧ ∃ g, YieldsG2 compat g2Scale d g} ⊆
      {d : Bytes | d.length = 96} := fun _ h => h.1
  have e : {d : Bytes | d.length = 96 ∧ UselessG2 compat g2Scale d} =
      {d : Bytes | d.length = 96} \ {d : Bytes | d.length = 96 ∧ ∃ g, YieldsG2 compat g2Scale d g} := by
    ext d
    simp only [Set.mem_sdiff, Set.mem_ofPred_eq]
    constructor
    · rintro ⟨h1, _, h2⟩
      refine ⟨h1, ?_⟩
      rintro ⟨_, g, _, h0, P, hP, rfl⟩
      exact h0 (h2 P hP)
    · rintro ⟨h1, h2⟩
      refine ⟨h1, by omega, fun P hP => ?_⟩
      by_contra h0
      exact h2 ⟨h1, _, by omega, h0, P, hP, rfl⟩
  rw [e, Set.ncard_sdiff hsub (finite_g2_digests _), ncard_g2_digests, ncard_usefulG2]

/-- C94: fewer than 65 in a hundred digests are wasted at G2, so all 255 attempts fail on less than a
`2 ^ -150` part of the tables of digests. -/
theorem C94_useless_fraction :
    100 * (2 ^ 768 - (FR_MODULUS - 1) * (G2_COFACTOR * 2 ^ 13)) < 65 * 2 ^ 768 ∧
    2 ^ 150 * (2 ^ 768 - (FR_MODULUS - 1) * (G2_COFACTOR * 2 ^ 13)) ^ 255 < (2 ^ 768) ^ 255 := by
  decide +kernel

/-! ## A concrete case -/

/-- The digest whose halves are the coordinates of the abscissa of the generator. -/
def g2Digest : Bytes := leBytes 48 g2GenX.re.val ++ leBytes 48 g2GenX.im.val

/-- A hasher whose XOF always answers that digest. -/
def g2DigestHasher : Hasher where
  crh _ m _ := .ok m
  xof _ _ _ := .ok g2Digest

theorem g2Digest_yields : ∃ g, YieldsG2 false g2Scale g2Digest g := by
  have hlo : lowHalf g2Digest = g2GenX.re.val := by decide +kernel
  have hhi : highHalf g2Digest = g2GenX.im.val := by decide +kernel
  have hm0 : g2GenX.re.val % 2 ^ 377 = g2GenX.re.val := by decide +kernel
  have hm1 : g2GenX.im.val % 2 ^ 377 = g2GenX.im.val := by decide +kernel
  have key : ∀ y : Fq2, y = g2GenY ∨ y = -g2GenY → ∃ h : g2Curve.Nonsingular g2GenX y,
      g2Scale (.finite g2GenX y) ≠ 0 := by
    intro y hy
    have he : y ^ 2 = g2GenX ^ 3 + g2CoeffB := by
      have := g2Gen_equation
      rcases hy with rfl | rfl <;> linear_combination this
    have hns := (g2_nonsingular_iff _ y).mpr he
    refine ⟨hns, ?_⟩
    simp only [g2Scale, dif_pos hns]
    intro h0
    have hor : (WeierstrassCurve.Affine.Point.some g2GenX y hns : G2Point) = g2Generator ∨
        (WeierstrassCurve.Affine.Point.some g2GenX y hns : G2Point) = -g2Generator := by
      rcases hy with rfl | rfl
      · exact Or.inl rfl
      · refine Or.inr ?_
        rw [g2Generator, WeierstrassCurve.Affine.Point.neg_some]
        simp [WeierstrassCurve.Affine.negY, g2Curve]
    have hz : G2_COFACTOR • g2Generator = 0 := by
      rcases hor with e | e
      · rw [← e]; exact h0
      · rw [e, neg_nsmul, neg_eq_zero] at h0; exact h0
    have hd := addOrderOf_dvd_of_nsmul_eq_zero hz
    rw [g2Generator_addOrderOf] at hd
    have := Nat.eq_one_of_dvd_coprimes g2_cofactor_coprime hd (dvd_refl _)
    exact FR_prime.one_lt.ne' this
  obtain ⟨y, hy, hl⟩ : ∃ y : Fq2, (y = g2GenY ∨ y = -g2GenY) ∧ Fq2Less y (-y) := by
    by_cases h : Fq2Less g2GenY (-g2GenY)
    · exact ⟨_, Or.inl rfl, h⟩
    · refine ⟨_, Or.inr rfl, ?_⟩
      rw [neg_neg]
      refine fq2Less_total (fun e => ?_) h
      exact fq2_ne_neg (g2_y_ne_zero (x := g2GenX) (by rw [g2Gen_equation]; ring)) e
  obtain ⟨hns, h0⟩ := key y hy
  refine ⟨_, by decide +kernel, h0, .finite g2GenX y, ⟨?_, ?_, ?_, ?_, g2_equation hns, ?_⟩, rfl⟩
  · rw [hlo, hm0]; exact ZMod.val_lt _
  · rw [hhi, hm1]; exact ZMod.val_lt _
  · rw [hhi]
    rintro ⟨_, _, h⟩
    revert h
    decide +kernel
  · rw [hlo, hhi, hm0, hm1, fq2_vals]
  · rw [hhi, if_neg (by decide +kernel)]
    exact hl

/-- Concrete case: hashing to G2 succeeds at the first attempt, with a result of order `r`. -/
example [DecidableEq G2Point] (domain message extra : Bytes) {sqrt : Fq2 → Option Fq2} (hs : RootSpec sqrt) :
    ∃ g, hashWithAttemptAt g2HashCurve false g2DigestHasher sqrt g2Scale domain message extra = .ok (g, 0) ∧
      addOrderOf g = FR_MODULUS := by
  obtain ⟨g, hg⟩ := g2Digest_yields
  exact ⟨g, (C94_ok_iff false g2DigestHasher hs g2Scale domain message extra g 0).mpr
    ⟨by norm_num, ⟨g2Digest, rfl, hg⟩, by omega⟩, order_of_yieldsG2 hg⟩

/-- The hypotheses of `C94_uniform` are met by the generator. -/
example : FR_MODULUS • g2Generator = 0 ∧ g2Generator ≠ 0 :=
  ⟨by rw [← g2Generator_addOrderOf]; exact addOrderOf_nsmul_eq_zero _, g2Generator_ne_zero⟩

/-- The same for the CIP22 variant, and for the generic order statement. -/
example [DecidableEq G2Point] (domain message extra : Bytes) {sqrt : Fq2 → Option Fq2} (hs : RootSpec sqrt) :
    ∃ g, hashWithAttemptCip22At g2HashCurve false g2DigestHasher sqrt g2Scale domain message extra =
      .ok (g, 0) ∧ addOrderOf g = FR_MODULUS := by
  obtain ⟨g, hg⟩ := g2Digest_yields
  have h := (C94_cip22_ok_iff false g2DigestHasher hs g2Scale domain message extra g 0).mpr
    ⟨message, rfl, by norm_num, ⟨g2Digest, rfl, hg⟩, by omega⟩
  exact ⟨g, h, C94_order false g2DigestHasher hs domain message extra g 0 (.inr h)⟩

end Verif
