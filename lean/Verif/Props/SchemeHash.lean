import Verif.Props.Scheme
import Verif.Props.HashGadget

/-!
# The hash of the wire theorems is the hash of the library

C78 states the scheme in the subgroups of prime order; its hash is the one of C18 and C19.
-/

namespace Verif

variable [DecidableEq G1Point] [DecidableEq G1r]

omit [DecidableEq G1Point] [DecidableEq G1r] in
theorem tryLoop_map {G H : Type*} (f : G → H) (a : ℕ → Outcome BLSError (Option G)) (l : List ℕ) :
    (tryLoop a l).map (fun r => (f r.1, r.2)) = tryLoop (fun c => (a c).map (Option.map f)) l := by
  induction l with
  | nil => rfl
  | cons c cs ih =>
    unfold tryLoop
    cases h : a c with
    | err e => rfl
    | panic => rfl
    | ok o =>
      cases o with
      | some g => rfl
      | none => exact ih

theorem processCandidate_val (compat : Bool) (sqrt : Fq → Option Fq) (d : Bytes) :
    (processCandidate compat sqrt g1ScaleR d).map (Option.map Subtype.val) =
      processCandidate compat sqrt g1Scale d := by
  unfold processCandidate
  generalize (if compat = true then compatMove d else Outcome.ok d) = o
  cases o with
  | err e => rfl
  | panic => rfl
  | ok d =>
    rw [Outcome.bind_ok, Outcome.bind_ok]
    split
    · rfl
    · cases fromRandomBytes sqrt (d.take NUM_BYTES) with
      | none => rfl
      | some p =>
        have h : g1ScaleR p = 0 ↔ g1Scale p = 0 := by
          rw [← Subtype.coe_inj]
          rfl
        by_cases hz : g1Scale p = 0
        · simp only [if_pos hz, if_pos (h.2 hz)]
          rfl
        · simp only [if_neg hz, if_neg (fun h' => hz (h.1 h'))]
          rfl

theorem attempt_val (compat : Bool) (sqrt : Fq → Option Fq) (o : Outcome BLSError Bytes) :
    (o.bind (processCandidate compat sqrt g1ScaleR)).map (Option.map Subtype.val) =
      o.bind (processCandidate compat sqrt g1Scale) := by
  cases o with
  | err e => rfl
  | panic => rfl
  | ok d => exact processCandidate_val compat sqrt d

/-- C78: both hashes of the wire theorems are those of the library on the curve, with the same counter, errors and
panics; being in the subgroup adds nothing. -/
theorem C78_hash_value (compat : Bool) (h : Hasher) (sqrt : Fq → Option Fq) (domain msg extra : Bytes) :
    (tryAndIncrement compat h sqrt g1ScaleR domain msg extra).map (fun g : G1r => (g : G1Point)) =
      tryAndIncrement compat h sqrt g1Scale domain msg extra ∧
    (tryAndIncrementCip22 compat h sqrt g1ScaleR domain msg extra).map (fun g : G1r => (g : G1Point)) =
      tryAndIncrementCip22 compat h sqrt g1Scale domain msg extra := by
  have hmap : ∀ o : Outcome BLSError (G1r × ℕ), (o.map Prod.fst).map (fun g : G1r => (g : G1Point)) =
      (o.map fun r => ((r.1 : G1Point), r.2)).map Prod.fst := by
    intro o
    cases o <;> rfl
  constructor
  · unfold tryAndIncrement hashWithAttempt
    rw [hmap]
    dsimp only
    rw [tryLoop_map (Subtype.val : G1r → G1Point)]
    simp only [attempt_val]
  · unfold tryAndIncrementCip22 hashWithAttemptCip22
    rw [hmap]
    dsimp only
    cases h.crh domain msg (hashLength NUM_BYTES) with
    | err e => rfl
    | panic => rfl
    | ok inner =>
      rw [Outcome.bind_ok, Outcome.bind_ok, tryLoop_map (Subtype.val : G1r → G1Point)]
      simp only [attempt_val]

/-- A hash that succeeds: with some BLAKE2s the direct hash of every message is the non-zero element obtained from
the point with `x = 1`, on the curve and in the subgroup. -/
theorem direct_value_example (compat : Bool) : ∃ K : Blake2sCore, ∀ B, Blake2sAgree K B → ∀ msg extra,
    ∃ g : G1r, tryAndIncrement compat (directHasher B) someSqrt g1ScaleR SIG_DOMAIN msg extra = .ok g ∧
      (g : G1Point) = G1_COFACTOR • onePoint ∧ g ≠ 0 := by
  obtain ⟨K, hK⟩ := exists_core (fun _ => tinyDigest compat 1 false) fun _ => tinyDigest_length _ _ _
  refine ⟨K, fun B hB msg extra => ?_⟩
  have hv := (C78_hash_value compat (directHasher B) someSqrt SIG_DOMAIN msg extra).1
  have hn : tryAndIncrement compat (directHasher B) someSqrt g1Scale SIG_DOMAIN msg extra =
      .ok (G1_COFACTOR • onePoint) := by
    unfold tryAndIncrement
    rw [(C18_ok_iff compat _ someSqrt_spec g1Scale _ _ _ (g1Scale (.finite 1 sqrtTwo)) 0).mpr, Outcome.map_ok,
      g1Scale_one]
    refine ⟨by norm_num, ⟨tinyDigest compat 1 false, ?_, ?_⟩, fun c' hc' => absurd hc' (by omega)⟩
    · simp only [Hasher.hash, directHasher, directCrh, directCrhParams_ok SIG_DOMAIN (by decide), Outcome.bind_ok]
      exact hK B hB _
    · exact ⟨by rw [tinyDigest_length]; omega, by rw [g1Scale_one]; exact cofactor_onePoint_ne.1, _,
        (decodes_one compat).1, rfl⟩
  rw [hn, Outcome.map_eq_ok_iff] at hv
  obtain ⟨g, hg, hgv⟩ := hv
  refine ⟨g, hg, hgv, fun h0 => cofactor_onePoint_ne.1 ?_⟩
  rw [← hgv, h0]
  rfl

/-- C78 with the hash of the library, where it succeeds: the encoded signature of the key 5, and nothing else. -/
example (compat : Bool) (msg extra : Bytes) : ∃ (B : Blake2s) (g : G1r), (g : G1Point) = G1_COFACTOR • onePoint ∧
    ∀ sig, WireAccepts logPairing someSqrt someSqrt2 (tryAndIncrement compat (directHasher B) someSqrt g1ScaleR)
      (serializePublicKey (toPublic logPairing.toPairing 5 : G2r)) sig msg extra ↔
        sig = serializeSignature ((5 : ZMod FR_MODULUS) • g : G1r) := by
  obtain ⟨K, hK⟩ := direct_value_example compat
  obtain ⟨g, hg, hv, _⟩ := hK _ (Blake2s.ofCore_agree K) msg extra
  refine ⟨Blake2s.ofCore K, g, hv, C78_exact logPairing someSqrt_root someSqrt2_spec _ 5 (by decide +kernel) msg extra _ ?_
    (C78_hashes compat _ someSqrt_spec _ _ _).1⟩
  unfold sign signMessage
  rw [hg]
  rfl

end Verif
