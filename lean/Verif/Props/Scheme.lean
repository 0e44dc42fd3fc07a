import Verif.Model.Scheme
import Verif.Props.Bls
import Verif.Props.Serialize
import Verif.Props.GroupOrder

/-!
# Properties C78 and C79: the order of G2 and the scheme on the wire

Keys and signatures as byte strings: decode, then verify.  Of the pairing only bilinearity and
non-triviality are assumed.
-/

set_option linter.unusedSectionVars false
set_option exponentiation.threshold 800

namespace Verif

open WeierstrassCurve

/-! ## C79: the group of public keys -/

/-- C79: the curve group of G2 has cofactor times `r` elements. -/
theorem C79_order : Nat.card G2Point = G2_COFACTOR * FR_MODULUS := g2_card

/-- C79: the elements killed by `r` are exactly the cofactor multiples, there are `r` of them, and
each is a multiple of the generator for exactly one number below `r`. -/
theorem C79_subgroup :
    (∀ P : G2Point, FR_MODULUS • P = 0 ↔ ∃ Q, G2_COFACTOR • Q = P) ∧
    {P : G2Point | FR_MODULUS • P = 0}.ncard = FR_MODULUS ∧
    ∀ P : G2Point, FR_MODULUS • P = 0 → ∃! k, k < FR_MODULUS ∧ P = k • g2Generator := by
  refine ⟨killed_iff_scaled g2_card g2_cofactor_coprime FR_prime.one_lt,
    ncard_killed g2_card g2_cofactor_coprime FR_prime, fun P hP => ?_⟩
  obtain ⟨k, hk, rfl⟩ := g2_generated P hP
  refine ⟨k, ⟨hk, rfl⟩, ?_⟩
  rintro k' ⟨hk', e⟩
  rw [← g2Generator_addOrderOf] at hk hk'
  exact (nsmul_injOn_Iio_addOrderOf hk hk' e).symm

/-- C79: the generator itself, which is the padding key of short epochs, has order exactly `r`. -/
theorem C79_generator : addOrderOf g2Generator = FR_MODULUS := g2Generator_addOrderOf

theorem leBytes_inj {k a b : ℕ} (ha : a < 256 ^ k) (hb : b < 256 ^ k) (h : leBytes k a = leBytes k b) :
    a = b := by
  have := congrArg leValue h
  rwa [leBytes_value, leBytes_value, Nat.mod_eq_of_lt ha, Nat.mod_eq_of_lt hb] at this

theorem fq_flag_lt (x : Fq) : x.val < 256 ^ 48 ∧ x.val + 2 ^ 382 < 256 ^ 48 := by
  have h : x.val < FQ_MODULUS := ZMod.val_lt x
  have h2 : FQ_MODULUS + 2 ^ 382 < 256 ^ 48 := by decide +kernel
  omega

section
variable {sqrt1 : Fq → Option Fq} (hs1 : RootSpec sqrt1) {sqrt2 : Fq2 → Option Fq2}
  (hs2 : RootSpec sqrt2)
include hs2

/-- C79: every byte string accepted as a public key is the key of exactly one secret. -/
theorem C79_keys {GT : Type*} [CommGroup GT] (C : CurvePairing GT) (stream rest : Bytes) (k : G2Point)
    (h : deserializePublicKey sqrt2 stream = .ok (k, rest)) :
    ∃! sk : ZMod FR_MODULUS, ((toPublic C.toPairing sk : G2r) : G2Point) = k := by
  have hk : k ∈ G2r := ((C66_public_key_iff hs2 _ _ _).mp h).1
  obtain ⟨s, hs⟩ := g2r_span ⟨k, hk⟩
  refine ⟨s, (congrArg Subtype.val hs).symm, fun s' e => ?_⟩
  have e' : s' • g2GenR = s • g2GenR := by
    rw [← hs]
    exact Subtype.ext e
  exact smul_left_injective _ g2GenR_ne_zero e'

/-- C79: the number of byte strings accepted as public keys (nothing left over): one for each of the
`r - 1` keys other than the identity, and `q ^ 2` for the identity. -/
theorem C79_key_count :
    {b : Bytes | ∃ k, deserializePublicKey sqrt2 b = .ok (k, [])}.ncard =
      (FR_MODULUS - 1) + FQ_MODULUS ^ 2 := by
  let enc : Fq2 → Bytes := fun x => leBytes 48 x.re.val ++ leBytes 48 (x.im.val + 2 ^ 382)
  have e : {b : Bytes | ∃ k, deserializePublicKey sqrt2 b = .ok (k, [])} =
      serializePublicKey '' ({P : G2Point | FR_MODULUS • P = 0} \ {0}) ∪ enc '' Set.univ := by
    ext b
    simp only [Set.mem_ofPred_eq, C66_public_key_iff hs2, List.append_nil, Set.mem_union, Set.mem_image,
      Set.mem_sdiff, Set.mem_singleton_iff, Set.mem_univ, true_and]
    constructor
    · rintro ⟨k, hk, ⟨h0, rfl⟩ | ⟨_, x, rfl⟩⟩
      · exact Or.inl ⟨k, ⟨hk, h0⟩, rfl⟩
      · exact Or.inr ⟨x, rfl⟩
    · rintro (⟨k, ⟨hk, h0⟩, rfl⟩ | ⟨x, rfl⟩)
      · exact ⟨k, hk, Or.inl ⟨h0, rfl⟩⟩
      · exact ⟨0, nsmul_zero _, Or.inr ⟨rfl, x, rfl⟩⟩
  have hrt : ∀ P : G2Point, FR_MODULUS • P = 0 →
      deserializePublicKey sqrt2 (serializePublicKey P) = .ok (P, []) := by
    intro P hP
    have := C66_public_key_roundtrip hs2 P hP []
    rwa [List.append_nil] at this
  have hinf : ∀ x, deserializePublicKey sqrt2 (enc x) = .ok (0, []) := by
    intro x
    have := C66_violation_infinity hs2 x []
    rwa [List.append_nil] at this
  have hinj : Set.InjOn serializePublicKey ({P : G2Point | FR_MODULUS • P = 0} \ {0}) := by
    intro P hP P' hP' h
    have h1 := hrt P hP.1
    rw [h, hrt P' hP'.1] at h1
    simp only [Outcome.ok.injEq, Prod.mk.injEq, and_true] at h1
    exact h1.symm
  have hinj2 : Function.Injective enc := by
    intro x y h
    obtain ⟨h1, h2⟩ := List.append_inj h (by rw [leBytes_length, leBytes_length])
    have h1 := leBytes_inj (fq_flag_lt _).1 (fq_flag_lt _).1 h1
    have h2 := leBytes_inj (fq_flag_lt _).2 (fq_flag_lt _).2 h2
    refine QuadraticAlgebra.ext (ZMod.val_injective _ h1) (ZMod.val_injective _ ?_)
    omega
  have hdisj : Disjoint (serializePublicKey '' ({P : G2Point | FR_MODULUS • P = 0} \ {0}))
      (enc '' Set.univ) := by
    rw [Set.disjoint_left]
    rintro _ ⟨P, ⟨hP, h0⟩, rfl⟩ ⟨x, _, hx⟩
    have h1 := hrt P hP
    rw [← hx, hinf] at h1
    simp only [Outcome.ok.injEq, Prod.mk.injEq, and_true] at h1
    exact h0 h1.symm
  rw [e, Set.ncard_union_eq hdisj (Set.toFinite _) (Set.toFinite _), Set.InjOn.ncard_image hinj,
    Set.ncard_image_of_injective _ hinj2, Set.ncard_univ, Nat.card_eq_fintype_card, fq2_card,
    Set.ncard_sdiff_singleton_of_mem
      (show (0 : G2Point) ∈ {P : G2Point | FR_MODULUS • P = 0} from nsmul_zero _), C79_subgroup.2.1]

omit hs2
include hs1

/-- C79: the number of byte strings accepted as signatures. -/
theorem C79_signature_count :
    {b : Bytes | ∃ s, deserializeSignature sqrt1 b = .ok (s, [])}.ncard =
      (FR_MODULUS - 1) + FQ_MODULUS := by
  let enc : Fq → Bytes := fun x => leBytes 48 (x.val + 2 ^ 382)
  have hinf : ∀ x, deserializeSignature sqrt1 (enc x) = .ok (0, []) := by
    intro x
    rw [C66_signature_iff hs1]
    exact ⟨nsmul_zero _, Or.inr ⟨rfl, x, (List.append_nil _).symm⟩⟩
  have e : {b : Bytes | ∃ k, deserializeSignature sqrt1 b = .ok (k, [])} =
      serializeSignature '' ({P : G1Point | FR_MODULUS • P = 0} \ {0}) ∪ enc '' Set.univ := by
    ext b
    simp only [Set.mem_ofPred_eq, C66_signature_iff hs1, List.append_nil, Set.mem_union, Set.mem_image,
      Set.mem_sdiff, Set.mem_singleton_iff, Set.mem_univ, true_and]
    constructor
    · rintro ⟨k, hk, ⟨h0, rfl⟩ | ⟨_, x, rfl⟩⟩
      · exact Or.inl ⟨k, ⟨hk, h0⟩, rfl⟩
      · exact Or.inr ⟨x, rfl⟩
    · rintro (⟨k, ⟨hk, h0⟩, rfl⟩ | ⟨x, rfl⟩)
      · exact ⟨k, hk, Or.inl ⟨h0, rfl⟩⟩
      · exact ⟨0, nsmul_zero _, Or.inr ⟨rfl, x, rfl⟩⟩
  have hrt : ∀ P : G1Point, FR_MODULUS • P = 0 →
      deserializeSignature sqrt1 (serializeSignature P) = .ok (P, []) := by
    intro P hP
    have := C66_signature_roundtrip hs1 P hP []
    rwa [List.append_nil] at this
  have hinj : Set.InjOn serializeSignature ({P : G1Point | FR_MODULUS • P = 0} \ {0}) := by
    intro P hP P' hP' h
    have h1 := hrt P hP.1
    rw [h, hrt P' hP'.1] at h1
    simp only [Outcome.ok.injEq, Prod.mk.injEq, and_true] at h1
    exact h1.symm
  have hinj2 : Function.Injective enc := by
    intro x y h
    have h2 := leBytes_inj (fq_flag_lt _).2 (fq_flag_lt _).2 h
    refine ZMod.val_injective _ ?_
    omega
  have hdisj : Disjoint (serializeSignature '' ({P : G1Point | FR_MODULUS • P = 0} \ {0}))
      (enc '' Set.univ) := by
    rw [Set.disjoint_left]
    rintro _ ⟨P, ⟨hP, h0⟩, rfl⟩ ⟨x, _, hx⟩
    have h1 := hrt P hP
    rw [← hx, hinf] at h1
    simp only [Outcome.ok.injEq, Prod.mk.injEq, and_true] at h1
    exact h0 h1.symm
  rw [e, Set.ncard_union_eq hdisj (Set.toFinite _) (Set.toFinite _), Set.InjOn.ncard_image hinj,
    Set.ncard_image_of_injective _ hinj2, Set.ncard_univ, Nat.card_eq_fintype_card, ZMod.card,
    Set.ncard_sdiff_singleton_of_mem
      (show (0 : G1Point) ∈ {P : G1Point | FR_MODULUS • P = 0} from nsmul_zero _), C76_subgroup.2.1]

end

/-! ## C78: the scheme on the wire -/

variable {GT : Type*} [CommGroup GT] [DecidableEq GT] (C : CurvePairing GT)
  {sqrt1 : Fq → Option Fq} (hs1 : RootSpec sqrt1) {sqrt2 : Fq2 → Option Fq2} (hs2 : RootSpec sqrt2)

/-- Specification: the signature bytes `sig` are accepted for the key bytes `pk`: both decode
without anything left over, and the decoded signature verifies under the decoded key. -/
def WireAccepts (sqrt1 : Fq → Option Fq) (sqrt2 : Fq2 → Option Fq2) (H : HashToG1 G1r)
    (pk sig msg extra : Bytes) : Prop :=
  ∃ (k : G2r) (s : G1r), deserializePublicKey sqrt2 pk = .ok ((k : G2Point), []) ∧
    deserializeSignature sqrt1 sig = .ok ((s : G1Point), []) ∧ verify C.toPairing k msg extra s H = .ok ()

include hs1 hs2

/-- C78: what decodes is in the subgroups, so nothing is lost by looking at subgroup values. -/
theorem C78_decoded :
    (∀ stream rest s, deserializeSignature sqrt1 stream = .ok (s, rest) → s ∈ G1r) ∧
    ∀ stream rest k, deserializePublicKey sqrt2 stream = .ok (k, rest) → k ∈ G2r :=
  ⟨fun _ _ _ h => ((C66_signature_iff hs1 _ _ _).mp h).1,
    fun _ _ _ h => ((C66_public_key_iff hs2 _ _ _).mp h).1⟩

/-- The bytes accepted under a key with discrete logarithm `s`, for a message with hash `h`. -/
theorem wire_dlog (H : HashToG1 G1r) (s : ZMod FR_MODULUS) (msg extra : Bytes) (h : G1r)
    (hH : H SIG_DOMAIN msg extra = .ok h) (sig : Bytes) :
    WireAccepts C sqrt1 sqrt2 H (serializePublicKey (s • C.toPairing.g2 : G2r)) sig msg extra ↔
      deserializeSignature sqrt1 sig = .ok (((s • h : G1r) : G1Point), []) := by
  have hrt : ∀ k : G2r, deserializePublicKey sqrt2 (serializePublicKey k) = .ok ((k : G2Point), []) := by
    intro k
    have := C66_public_key_roundtrip hs2 (k : G2Point) k.2 []
    rwa [List.append_nil] at this
  constructor
  · rintro ⟨k, s', h1, h2, h3⟩
    rw [hrt] at h1
    simp only [Outcome.ok.injEq, Prod.mk.injEq, and_true] at h1
    have hk := Subtype.ext h1
    subst hk
    obtain ⟨h', hh', rfl⟩ := (C02_verify_dlog C.toPairing s msg extra s' H).mp h3
    rw [hH] at hh'
    cases hh'
    exact h2
  · intro h2
    exact ⟨_, _, hrt _, h2, (C02_verify_dlog C.toPairing s msg extra _ H).mpr ⟨h, hH, rfl⟩⟩

omit hs2 in
theorem decode_nonzero_iff {s : G1r} (h0 : s ≠ 0) (sig : Bytes) :
    deserializeSignature sqrt1 sig = .ok ((s : G1Point), []) ↔ sig = serializeSignature s := by
  rw [C66_signature_iff hs1]
  have h0' : (s : G1Point) ≠ 0 := fun e => h0 (Subtype.ext e)
  simp only [List.append_nil]
  constructor
  · rintro ⟨_, ⟨_, h⟩ | ⟨h, _⟩⟩
    · exact h
    · exact absurd h h0'
  · intro h
    exact ⟨s.2, Or.inl ⟨h0', h⟩⟩

/-- C78: under the key of a non-zero secret, for a message whose hash is not the identity, exactly
one byte string is accepted: the encoding of what `sign` returns. -/
theorem C78_exact (H : HashToG1 G1r) (sk : ZMod FR_MODULUS) (hsk : sk ≠ 0) (msg extra : Bytes)
    (sigv : G1r) (hsig : sign sk msg extra H = .ok sigv)
    (hH0 : H SIG_DOMAIN msg extra ≠ .ok 0) (sig : Bytes) :
    WireAccepts C sqrt1 sqrt2 H (serializePublicKey (toPublic C.toPairing sk : G2r)) sig msg extra ↔
      sig = serializeSignature sigv := by
  unfold sign signMessage at hsig
  rw [Outcome.bind_eq_ok_iff] at hsig
  obtain ⟨h, hH, hs⟩ := hsig
  simp only [Outcome.ok.injEq, signRaw] at hs
  subst hs
  have h0 : h ≠ 0 := by rintro rfl; exact hH0 hH
  rw [toPublic, wire_dlog C hs1 hs2 H sk msg extra h hH, decode_nonzero_iff hs1]
  exact smul_ne_zero hsk h0

/-- C78: for every decodable key that is not the identity, two accepted byte strings for the same
message are the same string. -/
theorem C78_no_malleability (H : HashToG1 G1r) (msg extra pk : Bytes)
    (hpk : ∀ rest, deserializePublicKey sqrt2 pk ≠ .ok (0, rest))
    (hH0 : H SIG_DOMAIN msg extra ≠ .ok 0) (sig sig' : Bytes)
    (ha : WireAccepts C sqrt1 sqrt2 H pk sig msg extra)
    (ha' : WireAccepts C sqrt1 sqrt2 H pk sig' msg extra) : sig = sig' := by
  obtain ⟨k, s, h1, h2, h3⟩ := ha
  obtain ⟨k', s', h1', h2', h3'⟩ := ha'
  have hk : k' = k := by
    rw [h1] at h1'
    simp only [Outcome.ok.injEq, Prod.mk.injEq, and_true] at h1'
    exact (Subtype.ext h1').symm
  subst hk
  obtain ⟨t, rfl⟩ := g2r_span k'
  obtain ⟨h, hH, rfl⟩ := (C02_verify_dlog C.toPairing t msg extra s H).mp h3
  obtain ⟨h', hH', rfl⟩ := (C02_verify_dlog C.toPairing t msg extra s' H).mp h3'
  rw [hH] at hH'
  cases hH'
  have h0 : h ≠ 0 := by rintro rfl; exact hH0 hH
  have ht : t ≠ 0 := by
    rintro rfl
    rw [zero_smul] at h1
    exact hpk _ h1
  rw [decode_nonzero_iff hs1 (smul_ne_zero ht h0)] at h2 h2'
  rw [h2, h2']

/-- C78 (violation for the identity key): under every encoding of the identity key exactly the `q`
encodings of the identity signature are accepted, whatever the message. -/
theorem C78_identity_key (H : HashToG1 G1r) (msg extra pk : Bytes) (h : G1r)
    (hpk : deserializePublicKey sqrt2 pk = .ok (0, []))
    (hH : H SIG_DOMAIN msg extra = .ok h) (sig : Bytes) :
    WireAccepts C sqrt1 sqrt2 H pk sig msg extra ↔
      ∃ x : Fq, sig = leBytes 48 (x.val + 2 ^ 382) := by
  have key : deserializeSignature sqrt1 sig = .ok (0, []) ↔
      ∃ x : Fq, sig = leBytes 48 (x.val + 2 ^ 382) := by
    rw [C66_signature_iff hs1]
    simp only [List.append_nil]
    constructor
    · rintro ⟨_, ⟨h, _⟩ | ⟨_, h⟩⟩
      · exact absurd rfl h
      · exact h
    · intro hx
      exact ⟨nsmul_zero _, Or.inr ⟨trivial, hx⟩⟩
  rw [← key]
  constructor
  · rintro ⟨k, s, h1, h2, h3⟩
    rw [hpk] at h1
    simp only [Outcome.ok.injEq, Prod.mk.injEq, and_true] at h1
    have hk : k = 0 := Subtype.ext h1.symm
    subst hk
    rw [C02_identity_key C.toPairing msg extra s H h hH] at h3
    subst h3
    exact h2
  · intro h2
    exact ⟨0, 0, hpk, h2, (C02_identity_key C.toPairing msg extra 0 H h hH).mpr rfl⟩

/-- C78: an aggregate on the wire.  For signers of one message whose secrets do not sum to zero,
the sum of their signatures, encoded, is the one byte string accepted under the encoded sum of their
keys. -/
theorem C78_aggregate (H : HashToG1 G1r) (sks : List (ZMod FR_MODULUS)) (hsum : sks.sum ≠ 0)
    (msg extra : Bytes) (sigs : List G1r)
    (hs : List.Forall₂ (fun sk sig => sign sk msg extra H = .ok sig) sks sigs)
    (hH0 : H SIG_DOMAIN msg extra ≠ .ok 0) (sig : Bytes) :
    WireAccepts C sqrt1 sqrt2 H
        (serializePublicKey (aggregatePublicKeys (sks.map (toPublic C.toPairing)) : G2r)) sig msg extra ↔
      sig = serializeSignature (aggregateSignatures sigs : G1r) := by
  have hne : sks ≠ [] := by rintro rfl; exact hsum rfl
  have hh : ∃ h, H SIG_DOMAIN msg extra = .ok h := by
    cases hs with
    | nil => exact absurd rfl hne
    | cons h _ =>
      unfold sign signMessage at h
      rw [Outcome.bind_eq_ok_iff] at h
      obtain ⟨h, hH, _⟩ := h
      exact ⟨h, hH⟩
  have hv := (C04_aggregate_verify C.toPairing sks msg extra H sigs hs hh (aggregateSignatures sigs)).mpr rfl
  rw [aggregatePublicKeys_eq_sum, toPublic_sum] at hv ⊢
  obtain ⟨h, hH⟩ := hh
  obtain ⟨h', hH', e⟩ := (C02_verify_dlog C.toPairing sks.sum msg extra _ H).mp hv
  rw [hH] at hH'
  cases hH'
  have h0 : h ≠ 0 := by rintro rfl; exact hH0 hH
  rw [wire_dlog C hs1 hs2 H sks.sum msg extra h hH, e, decode_nonzero_iff hs1]
  exact smul_ne_zero hsum h0

omit hs1 hs2 in
/-- C78: the two hashes of the library never return the identity, for any byte hasher, so the
hypothesis on the hash above holds for both. -/
theorem C78_hashes (compat : Bool) (h : Hasher) {sqrt : Fq → Option Fq} (hs : SqrtSpec sqrt)
    [DecidableEq G1r] (domain msg extra : Bytes) :
    tryAndIncrement compat h sqrt g1ScaleR domain msg extra ≠ .ok 0 ∧
    tryAndIncrementCip22 compat h sqrt g1ScaleR domain msg extra ≠ .ok 0 :=
  ⟨C18_never_identity compat h hs g1ScaleR domain msg extra,
    C19_never_identity compat h hs g1ScaleR domain msg extra⟩

/-- C78, all together, for the direct hash: sign, encode, decode, verify; and nothing else. -/
theorem C78_direct [DecidableEq G1r] (compat : Bool) (B : Blake2s) (sk : ZMod FR_MODULUS)
    (hsk : sk ≠ 0) (msg extra : Bytes) :
    (∃ sigv : G1r, sign sk msg extra (tryAndIncrement compat (directHasher B) sqrt1 g1ScaleR) =
        .ok sigv ∧ ∀ sig, WireAccepts C sqrt1 sqrt2
          (tryAndIncrement compat (directHasher B) sqrt1 g1ScaleR)
          (serializePublicKey (toPublic C.toPairing sk : G2r)) sig msg extra ↔
            sig = serializeSignature sigv) ∨
    (sign sk msg extra (tryAndIncrement compat (directHasher B) sqrt1 g1ScaleR) =
        .err .hashToCurveError ∧ ∀ pk sig, ¬ WireAccepts C sqrt1 sqrt2
          (tryAndIncrement compat (directHasher B) sqrt1 g1ScaleR) pk sig msg extra) := by
  have hsq : SqrtSpec sqrt1 := ⟨hs1.sound, hs1.complete⟩
  rcases C18_direct_total compat B hsq g1ScaleR SIG_DOMAIN msg extra (by decide) with
    ⟨g, c, hg, _⟩ | he
  · left
    have hH : tryAndIncrement compat (directHasher B) sqrt1 g1ScaleR SIG_DOMAIN msg extra = .ok g := by
      unfold tryAndIncrement
      rw [hg]
      rfl
    have hsig : sign sk msg extra (tryAndIncrement compat (directHasher B) sqrt1 g1ScaleR) =
        .ok (sk • g) := by
      unfold sign signMessage
      rw [hH]
      rfl
    exact ⟨_, hsig, C78_exact C hs1 hs2 _ sk hsk msg extra _ hsig
      (C78_hashes compat _ hsq _ _ _).1⟩
  · right
    have hH : tryAndIncrement compat (directHasher B) sqrt1 g1ScaleR SIG_DOMAIN msg extra =
        .err .hashToCurveError := by
      unfold tryAndIncrement
      rw [he]
      rfl
    obtain ⟨h1, h2⟩ := C01_hash_error C.toPairing sk msg extra _ _ hH
    refine ⟨h1, fun pk sig => ?_⟩
    rintro ⟨k, s, _, _, h3⟩
    rw [h2] at h3
    cases h3

/-- Non-vacuity for C78 and C79: a pairing of these groups exists (here by discrete logarithms), square
roots meeting the specification exist, and with a hash returning the generator of G1 the key 5 signs
and exactly the encoding of its signature is accepted. -/
theorem wire_example (sig : Bytes) :
    WireAccepts logPairing someSqrt someSqrt2 (fun _ _ _ => .ok g1GenR)
        (serializePublicKey (toPublic logPairing.toPairing 5 : G2r)) sig [1] [2] ↔
      sig = serializeSignature ((5 : ZMod FR_MODULUS) • g1GenR : G1r) :=
  C78_exact logPairing someSqrt_root someSqrt2_spec (fun _ _ _ => .ok g1GenR) 5
    (by decide +kernel) [1] [2] _ rfl (fun h => g1GenR_ne_zero (Outcome.ok.inj h)) sig

/-- Under the identity key the 48-byte encodings of infinity are accepted for every message. -/
example (x : Fq) (msg extra : Bytes) :
    WireAccepts logPairing someSqrt someSqrt2 (fun _ _ _ => .ok g1GenR)
      (serializePublicKey 0) (leBytes 48 (x.val + 2 ^ 382)) msg extra := by
  have h := C66_public_key_roundtrip someSqrt2_spec 0 (nsmul_zero _) []
  rw [List.append_nil] at h
  exact (C78_identity_key logPairing someSqrt_root someSqrt2_spec _ msg extra _ g1GenR h rfl _).mpr
    ⟨x, rfl⟩

/-- Three signers, one of them twice, on the wire. -/
example (sig : Bytes) :
    WireAccepts logPairing someSqrt someSqrt2 (fun _ _ _ => .ok g1GenR)
        (serializePublicKey (aggregatePublicKeys ([3, 5, 5].map (toPublic logPairing.toPairing)) : G2r))
        sig [1] [2] ↔
      sig = serializeSignature (aggregateSignatures
        ([3, 5, 5].map fun s : ZMod FR_MODULUS => s • g1GenR) : G1r) :=
  C78_aggregate logPairing someSqrt_root someSqrt2_spec (fun _ _ _ => .ok g1GenR) [3, 5, 5]
    (by decide +kernel) [1] [2] _
    (.cons rfl (.cons rfl (.cons rfl .nil))) (fun h => g1GenR_ne_zero (Outcome.ok.inj h)) sig

/-- The encoding of the generator is accepted, and it is the key of the secret 1. -/
example : ∃! sk : ZMod FR_MODULUS, ((toPublic logPairing.toPairing sk : G2r) : G2Point) = g2Generator :=
  C79_keys someSqrt2_spec logPairing _ [] g2Generator
    (C66_public_key_roundtrip someSqrt2_spec g2Generator g2Generator_order [])

/-- `C78_no_malleability`: under the key 5, every accepted string is the encoded signature. -/
example (sig : Bytes) (ha : WireAccepts logPairing someSqrt someSqrt2 (fun _ _ _ => .ok g1GenR)
    (serializePublicKey (toPublic logPairing.toPairing 5 : G2r)) sig [1] [2]) :
    sig = serializeSignature ((5 : ZMod FR_MODULUS) • g1GenR : G1r) := by
  refine C78_no_malleability logPairing someSqrt_root someSqrt2_spec (fun _ _ _ => .ok g1GenR) [1] [2] _ ?_
    (fun h => g1GenR_ne_zero (Outcome.ok.inj h)) _ _ ha ((wire_example someSqrt_root someSqrt2_spec _).mpr rfl)
  intro rest h
  have h2 := C66_public_key_roundtrip someSqrt2_spec (toPublic logPairing.toPairing 5 : G2r).1
    (toPublic logPairing.toPairing 5 : G2r).2 []
  rw [List.append_nil, h] at h2
  have h3 := (Prod.mk.inj (Outcome.ok.inj h2)).1
  have h4 : (5 : ZMod FR_MODULUS) • g2GenR = 0 := Subtype.ext h3.symm
  have hne : (5 : ZMod FR_MODULUS) ≠ 0 := by decide +kernel
  have : Fact FR_MODULUS.Prime := ⟨FR_prime⟩
  rcases smul_eq_zero.mp h4 with h5 | h5
  · exact hne h5
  · exact g2GenR_ne_zero h5

end Verif
