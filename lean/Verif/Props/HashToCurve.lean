import Verif.Lemmas.Toy
import Verif.Lemmas.HashToCurve
import Verif.Lemmas.G1
import Verif.Lemmas.Bls

/-!
# Properties of hashing to the curve: C18, C19, C20, C24, C25
-/

set_option exponentiation.threshold 800
set_option linter.unusedSectionVars false

namespace Verif

variable {G : Type*} [Zero G] [DecidableEq G]

/-! ## Specification

`Decodes s D P` (in `Verif/Lemmas/HashToCurve.lean`) says which point a digest denotes, in terms of
the bits of the digest read as a number.  `first48` is that number. -/

/-- The first 48 bytes of a digest as a number. -/
def first48 (d : Bytes) : ℕ := leValue (d.take 48)

/-- A digest yields the non-zero group element `g`. -/
def Yields (compat : Bool) (scale : AffinePoint Fq → G) (d : Bytes) (g : G) : Prop :=
  48 ≤ d.length ∧ g ≠ 0 ∧ ∃ P, Decodes (signBit compat) (first48 d) P ∧ scale P = g

/-- A digest yields no group element: it denotes no point, or one killed by the cofactor. -/
def Useless (compat : Bool) (scale : AffinePoint Fq → G) (d : Bytes) : Prop :=
  48 ≤ d.length ∧ ∀ P, Decodes (signBit compat) (first48 d) P → scale P = 0

/-! ## Example data -/

open Classical in
/-- A square root function, by choice. -/
noncomputable def someSqrt (v : Fq) : Option Fq :=
  if h : ∃ y, y * y = v then some h.choose else none

theorem someSqrt_spec : SqrtSpec someSqrt where
  sound v y h := by
    unfold someSqrt at h
    split at h
    · rename_i hv
      cases h
      exact hv.choose_spec
    · cases h
  complete v h y hy := by
    unfold someSqrt at h
    rw [dif_pos ⟨y, hy⟩] at h
    cases h

/-- A hasher that shows its input: no compression, the XOF pads with zeros. -/
def showHasher : Hasher where
  crh _ m _ := .ok m
  xof _ m n := .ok ((m ++ List.replicate n 0).take n)

/-- A toy cofactor map: kills infinity and the points with `x = 0`. -/
def toyScale : AffinePoint Fq → ZMod 7
  | .infinity => 0
  | .finite x y => if x = 0 then 0 else if y.val < (-y).val then 1 else 2

/-- A square root of 2 in the base field. -/
def sqrtTwo : Fq := 88653000164681740073546836871438314489180762670361266692153654882182957239525540243207191883973185748678390187211

theorem sqrtTwo_sq : sqrtTwo * sqrtTwo = 2 := by decide +kernel

theorem sqrtTwo_small : sqrtTwo.val < (-sqrtTwo).val := by decide +kernel

/-! ## C18 -/

/-- C18: success.  `hash_with_attempt` returns `(g, c)` exactly when `c` is the first counter below
255 whose digest yields something, and `g` is what it yields. -/
theorem C18_ok_iff (compat : Bool) (h : Hasher) {sqrt : Fq → Option Fq} (hs : SqrtSpec sqrt)
    (scale : AffinePoint Fq → G) (domain message extra : Bytes) (g : G) (c : ℕ) :
    hashWithAttempt compat h sqrt scale domain message extra = .ok (g, c) ↔
      c < 255 ∧
      (∃ d, h.hash domain (UInt8.ofNat c :: (extra ++ message)) 64 = .ok d ∧
        Yields compat scale d g) ∧
      ∀ c' < c, ∃ d, h.hash domain (UInt8.ofNat c' :: (extra ++ message)) 64 = .ok d ∧
        Useless compat scale d := by
  unfold hashWithAttempt
  rw [show hashLength NUM_BYTES = 64 by rw [hashLength_eq]; rfl]
  simp only []
  rw [tryLoop_ok_iff]
  simp only [Outcome.bind_eq_ok_iff, processCandidate_some_iff hs, processCandidate_none_iff hs]
  rfl

/-- C18: failure.  The error is a hasher error met before any usable counter, or
`HashToCurveError` when none of the 255 counters is usable. -/
theorem C18_err_iff (compat : Bool) (h : Hasher) {sqrt : Fq → Option Fq} (hs : SqrtSpec sqrt)
    (scale : AffinePoint Fq → G) (domain message extra : Bytes) (e : BLSError) :
    hashWithAttempt compat h sqrt scale domain message extra = .err e ↔
      (∃ c < 255, h.hash domain (UInt8.ofNat c :: (extra ++ message)) 64 = .err e ∧
        ∀ c' < c, ∃ d, h.hash domain (UInt8.ofNat c' :: (extra ++ message)) 64 = .ok d ∧
          Useless compat scale d) ∨
      (e = .hashToCurveError ∧
        ∀ c < 255, ∃ d, h.hash domain (UInt8.ofNat c :: (extra ++ message)) 64 = .ok d ∧
          Useless compat scale d) := by
  unfold hashWithAttempt
  rw [show hashLength NUM_BYTES = 64 by rw [hashLength_eq]; rfl]
  simp only []
  rw [tryLoop_err_iff]
  have herr : ∀ o : Outcome BLSError Bytes,
      o.bind (processCandidate compat sqrt scale) = .err e ↔ o = .err e := by
    intro o
    cases o with
    | ok d => simp [processCandidate_err hs]
    | err e' => simp
    | panic => simp
  simp only [herr, Outcome.bind_eq_ok_iff, processCandidate_none_iff hs]
  rfl

/-- C18: the function panics only if the byte hasher panics or returns fewer than 48 bytes, at a
counter that is reached. -/
theorem C18_panic_iff (compat : Bool) (h : Hasher) {sqrt : Fq → Option Fq} (hs : SqrtSpec sqrt)
    (scale : AffinePoint Fq → G) (domain message extra : Bytes) :
    hashWithAttempt compat h sqrt scale domain message extra = .panic ↔
      ∃ c < 255, (h.hash domain (UInt8.ofNat c :: (extra ++ message)) 64 = .panic ∨
        ∃ d, h.hash domain (UInt8.ofNat c :: (extra ++ message)) 64 = .ok d ∧ d.length < 48) ∧
        ∀ c' < c, ∃ d, h.hash domain (UInt8.ofNat c' :: (extra ++ message)) 64 = .ok d ∧
          Useless compat scale d := by
  unfold hashWithAttempt
  rw [show hashLength NUM_BYTES = 64 by rw [hashLength_eq]; rfl]
  simp only []
  rw [tryLoop_panic_iff]
  have hp : ∀ o : Outcome BLSError Bytes,
      o.bind (processCandidate compat sqrt scale) = .panic ↔
        o = .panic ∨ ∃ d, o = .ok d ∧ d.length < 48 := by
    intro o
    cases o with
    | ok d => simp [processCandidate_panic_iff hs]
    | err e' => simp
    | panic => simp
  simp only [hp, Outcome.bind_eq_ok_iff, processCandidate_none_iff hs]
  rfl

/-- C18: with the direct hasher (and any domain of at most 8 bytes) hashing never panics, and the
only error is `HashToCurveError`. -/
theorem C18_direct_total (compat : Bool) (B : Blake2s) {sqrt : Fq → Option Fq}
    (hs : SqrtSpec sqrt) (scale : AffinePoint Fq → G) (domain message extra : Bytes)
    (hd : domain.length ≤ 8) :
    (∃ g c, hashWithAttempt compat (directHasher B) sqrt scale domain message extra =
        .ok (g, c) ∧ g ≠ 0 ∧ c < 255) ∨
      hashWithAttempt compat (directHasher B) sqrt scale domain message extra =
        .err .hashToCurveError := by
  have hok : ∀ m, ∃ out, (directHasher B).hash domain m 64 = .ok out ∧ out.length = 64 := by
    intro m
    simp only [Hasher.hash, directHasher, directCrh, directCrhParams_ok domain hd, Outcome.bind_ok]
    refine ⟨_, directXof_ok B domain _ hd 64 (by norm_num), ?_⟩
    rw [List.length_flatten, List.map_map]
    conv_rhs => rw [← blockLen_sum 64]
    congr 1
    exact List.map_congr_left fun i _ => B.length_run _ _
  cases hr : hashWithAttempt compat (directHasher B) sqrt scale domain message extra with
  | ok v =>
    obtain ⟨g, c⟩ := v
    obtain ⟨h1, ⟨d, _, h2⟩, _⟩ := (C18_ok_iff compat _ hs scale _ _ _ g c).mp hr
    exact Or.inl ⟨g, c, rfl, h2.2.1, h1⟩
  | err e =>
    rcases (C18_err_iff compat _ hs scale _ _ _ e).mp hr with ⟨c, _, h1, _⟩ | ⟨rfl, _⟩
    · obtain ⟨out, ho, _⟩ := hok (UInt8.ofNat c :: (extra ++ message))
      rw [ho] at h1
      cases h1
    · exact Or.inr rfl
  | panic =>
    obtain ⟨c, _, h1, _⟩ := (C18_panic_iff compat _ hs scale _ _ _).mp hr
    obtain ⟨out, ho, hl⟩ := hok (UInt8.ofNat c :: (extra ++ message))
    rcases h1 with h1 | ⟨d, h1, h2⟩
    · rw [ho] at h1; cases h1
    · rw [ho] at h1; cases h1; omega

/-- C18: the hash is never the identity. -/
theorem C18_never_identity (compat : Bool) (h : Hasher) {sqrt : Fq → Option Fq}
    (hs : SqrtSpec sqrt) (scale : AffinePoint Fq → G) (domain message extra : Bytes) :
    tryAndIncrement compat h sqrt scale domain message extra ≠ .ok 0 := by
  intro h0
  obtain ⟨⟨g, c⟩, h1, h2⟩ := (Outcome.map_eq_ok_iff _ _ _).mp h0
  obtain ⟨_, ⟨d, _, h3⟩, _⟩ := (C18_ok_iff compat h hs scale _ _ _ g c).mp h1
  exact h3.2.1 h2

/-- C18: the result does not depend on which of the two square roots the field library returns. -/
theorem C18_sqrt_irrelevant (compat : Bool) (h : Hasher) {sqrt sqrt' : Fq → Option Fq}
    (hs : SqrtSpec sqrt) (hs' : SqrtSpec sqrt') (scale : AffinePoint Fq → G)
    (domain message extra : Bytes) :
    hashWithAttempt compat h sqrt scale domain message extra =
      hashWithAttempt compat h sqrt' scale domain message extra := by
  cases hr : hashWithAttempt compat h sqrt scale domain message extra with
  | ok v =>
    obtain ⟨g, c⟩ := v
    exact ((C18_ok_iff compat h hs' scale _ _ _ g c).mpr
      ((C18_ok_iff compat h hs scale _ _ _ g c).mp hr)).symm
  | err e =>
    exact ((C18_err_iff compat h hs' scale _ _ _ e).mpr
      ((C18_err_iff compat h hs scale _ _ _ e).mp hr)).symm
  | panic =>
    exact ((C18_panic_iff compat h hs' scale _ _ _).mpr
      ((C18_panic_iff compat h hs scale _ _ _).mp hr)).symm

/-- Concrete case: counter 0 gives `x = 0`, which the cofactor kills; counter 1 gives the point
`(1, sqrt 2)`. -/
theorem showHasher_counter_one :
    hashWithAttempt true showHasher someSqrt toyScale SIG_DOMAIN [] [] = .ok (1, 1) := by
  rw [C18_ok_iff true showHasher someSqrt_spec]
  refine ⟨by norm_num, ⟨_, rfl, by decide, by decide, .finite 1 sqrtTwo, ?_, ?_⟩, ?_⟩
  · simp only [Decodes]
    refine ⟨by decide +kernel, by decide +kernel, by decide +kernel, ?_, ?_⟩
    · rw [sqrtTwo_sq]; norm_num
    · rw [if_neg (by decide +kernel)]
      exact le_of_lt sqrtTwo_small
  · simp [toyScale, sqrtTwo_small]
  · intro c' hc'
    obtain rfl : c' = 0 := by omega
    refine ⟨_, rfl, by decide, ?_⟩
    rintro (_ | ⟨x, y⟩) hP
    · rfl
    · simp only [Decodes] at hP
      have : x = 0 := by rw [hP.2.2.1]; decide +kernel
      simp [toyScale, this]

/-! ## C19 -/

/-- C19: success of the CIP22 variant. -/
theorem C19_ok_iff (compat : Bool) (h : Hasher) {sqrt : Fq → Option Fq} (hs : SqrtSpec sqrt)
    (scale : AffinePoint Fq → G) (domain message extra : Bytes) (g : G) (c : ℕ) :
    hashWithAttemptCip22 compat h sqrt scale domain message extra = .ok (g, c) ↔
      ∃ inner, h.crh domain message 64 = .ok inner ∧ c < 255 ∧
      (∃ d, h.xof domain (UInt8.ofNat c :: (extra ++ inner)) 64 = .ok d ∧
        Yields compat scale d g) ∧
      ∀ c' < c, ∃ d, h.xof domain (UInt8.ofNat c' :: (extra ++ inner)) 64 = .ok d ∧
        Useless compat scale d := by
  unfold hashWithAttemptCip22
  rw [show hashLength NUM_BYTES = 64 by rw [hashLength_eq]; rfl]
  simp only []
  rw [Outcome.bind_eq_ok_iff]
  simp only [tryLoop_ok_iff, Outcome.bind_eq_ok_iff, processCandidate_some_iff hs,
    processCandidate_none_iff hs]
  rfl

/-- C19: failure of the CIP22 variant; a CRH failure comes before any attempt. -/
theorem C19_err_iff (compat : Bool) (h : Hasher) {sqrt : Fq → Option Fq} (hs : SqrtSpec sqrt)
    (scale : AffinePoint Fq → G) (domain message extra : Bytes) (e : BLSError) :
    hashWithAttemptCip22 compat h sqrt scale domain message extra = .err e ↔
      h.crh domain message 64 = .err e ∨
      ∃ inner, h.crh domain message 64 = .ok inner ∧
      ((∃ c < 255, h.xof domain (UInt8.ofNat c :: (extra ++ inner)) 64 = .err e ∧
        ∀ c' < c, ∃ d, h.xof domain (UInt8.ofNat c' :: (extra ++ inner)) 64 = .ok d ∧
          Useless compat scale d) ∨
      (e = .hashToCurveError ∧
        ∀ c < 255, ∃ d, h.xof domain (UInt8.ofNat c :: (extra ++ inner)) 64 = .ok d ∧
          Useless compat scale d)) := by
  unfold hashWithAttemptCip22
  rw [show hashLength NUM_BYTES = 64 by rw [hashLength_eq]; rfl]
  have herr : ∀ o : Outcome BLSError Bytes,
      o.bind (processCandidate compat sqrt scale) = .err e ↔ o = .err e := by
    intro o
    cases o with
    | ok d => simp [processCandidate_err hs]
    | err e' => simp
    | panic => simp
  simp only []
  cases hc : h.crh domain message 64 with
  | ok inner =>
    simp only [Outcome.bind_ok, tryLoop_err_iff, herr, Outcome.bind_eq_ok_iff,
      processCandidate_none_iff hs, Outcome.ok.injEq, exists_eq_left', reduceCtorEq, false_or]
    rfl
  | err e' => simp
  | panic => simp

/-- C19: when the CIP22 variant panics. -/
theorem C19_panic_iff (compat : Bool) (h : Hasher) {sqrt : Fq → Option Fq} (hs : SqrtSpec sqrt)
    (scale : AffinePoint Fq → G) (domain message extra : Bytes) :
    hashWithAttemptCip22 compat h sqrt scale domain message extra = .panic ↔
      h.crh domain message 64 = .panic ∨
      ∃ inner, h.crh domain message 64 = .ok inner ∧
      ∃ c < 255, (h.xof domain (UInt8.ofNat c :: (extra ++ inner)) 64 = .panic ∨
        ∃ d, h.xof domain (UInt8.ofNat c :: (extra ++ inner)) 64 = .ok d ∧ d.length < 48) ∧
        ∀ c' < c, ∃ d, h.xof domain (UInt8.ofNat c' :: (extra ++ inner)) 64 = .ok d ∧
          Useless compat scale d := by
  unfold hashWithAttemptCip22
  rw [show hashLength NUM_BYTES = 64 by rw [hashLength_eq]; rfl]
  have hp : ∀ o : Outcome BLSError Bytes,
      o.bind (processCandidate compat sqrt scale) = .panic ↔
        o = .panic ∨ ∃ d, o = .ok d ∧ d.length < 48 := by
    intro o
    cases o with
    | ok d => simp [processCandidate_panic_iff hs]
    | err e' => simp
    | panic => simp
  simp only []
  cases hc : h.crh domain message 64 with
  | ok inner =>
    simp only [Outcome.bind_ok, tryLoop_panic_iff, hp, Outcome.bind_eq_ok_iff,
      processCandidate_none_iff hs, Outcome.ok.injEq, exists_eq_left', reduceCtorEq, false_or]
    rfl
  | err e' => simp
  | panic => simp

/-- C19: the hash is never the identity. -/
theorem C19_never_identity (compat : Bool) (h : Hasher) {sqrt : Fq → Option Fq}
    (hs : SqrtSpec sqrt) (scale : AffinePoint Fq → G) (domain message extra : Bytes) :
    tryAndIncrementCip22 compat h sqrt scale domain message extra ≠ .ok 0 := by
  intro h0
  obtain ⟨⟨g, c⟩, h1, h2⟩ := (Outcome.map_eq_ok_iff _ _ _).mp h0
  obtain ⟨_, _, _, ⟨d, _, h3⟩, _⟩ := (C19_ok_iff compat h hs scale _ _ _ g c).mp h1
  exact h3.2.1 h2

/-- Concrete case: message `[]` with the inner hash `[]`; as for C18. -/
example : hashWithAttemptCip22 true showHasher someSqrt toyScale SIG_DOMAIN [] [] = .ok (1, 1) := by
  rw [C19_ok_iff true showHasher someSqrt_spec]
  refine ⟨_, rfl, by norm_num, ⟨_, rfl, by decide, by decide, .finite 1 sqrtTwo, ?_, ?_⟩, ?_⟩
  · simp only [Decodes]
    refine ⟨by decide +kernel, by decide +kernel, by decide +kernel, ?_, ?_⟩
    · rw [sqrtTwo_sq]; norm_num
    · rw [if_neg (by decide +kernel)]
      exact le_of_lt sqrtTwo_small
  · simp [toyScale, sqrtTwo_small]
  · intro c' hc'
    obtain rfl : c' = 0 := by omega
    refine ⟨_, rfl, by decide, ?_⟩
    rintro (_ | ⟨x, y⟩) hP
    · rfl
    · simp only [Decodes] at hP
      have : x = 0 := by rw [hP.2.2.1]; decide +kernel
      simp [toyScale, this]

/-! ## C20 -/

/-- C20 (violated for the plain variant): the hash depends only on the concatenation of extra data
and message, for every hasher, so moving bytes across the boundary changes nothing. -/
theorem C20_violation_boundary (compat : Bool) (h : Hasher) (sqrt : Fq → Option Fq)
    (scale : AffinePoint Fq → G) (domain m e m' e' : Bytes) (hc : e ++ m = e' ++ m') :
    hashWithAttempt compat h sqrt scale domain m e =
      hashWithAttempt compat h sqrt scale domain m' e' := by
  unfold hashWithAttempt
  simp only [List.append_assoc, hc]

/-- C20 (violated): hence every signature on one split verifies for every other split. -/
theorem C20_violation_signature_transfer {r : ℕ} {G1 G2 GT : Type*} [AddCommGroup G1]
    [AddCommGroup G2] [CommGroup GT] [Module (ZMod r) G1] [Module (ZMod r) G2] [DecidableEq G1]
    [DecidableEq GT] (P : Pairing r G1 G2 GT) (compat : Bool) (h : Hasher) (sqrt : Fq → Option Fq)
    (scale : AffinePoint Fq → G1) (pk : G2) (sig : G1) (m e m' e' : Bytes)
    (hc : e ++ m = e' ++ m') :
    verify P pk m e sig (tryAndIncrement compat h sqrt scale) =
      verify P pk m' e' sig (tryAndIncrement compat h sqrt scale) := by
  have : tryAndIncrement compat h sqrt scale SIG_DOMAIN m e =
      tryAndIncrement compat h sqrt scale SIG_DOMAIN m' e' := by
    unfold tryAndIncrement
    rw [C20_violation_boundary compat h sqrt scale SIG_DOMAIN m e m' e' hc]
  unfold verify verifySig
  rw [this]

/-- C20: in the CIP22 variant the XOF inputs of different (inner hash, extra data, counter) never
coincide as long as inner hashes have one fixed length. -/
theorem C20_cip22_inputs_disjoint (i i' e e' : Bytes) (c c' : ℕ) (hc : c < 255) (hc' : c' < 255)
    (hl : i.length = i'.length)
    (h : UInt8.ofNat c :: (e ++ i) = UInt8.ofNat c' :: (e' ++ i')) : c = c' ∧ e = e' ∧ i = i' := by
  rw [List.cons.injEq] at h
  obtain ⟨h1, h2⟩ := h
  have h3 := List.append_inj' h2 hl
  have h4 := congrArg UInt8.toNat h1
  simp only [UInt8.toNat_ofNat'] at h4
  exact ⟨by omega, h3.1, h3.2⟩

/-- C20: CIP22 keeps all pairs apart: if the CRH is injective on messages with outputs of one
length, then for any two different pairs there is an XOF for which their hashes are different (any
two prescribed results can be realised), i.e. nothing in the construction forces a collision. -/
theorem C20_cip22_separates (compat : Bool) (crh : Bytes → Bytes) (n : ℕ)
    (hlen : ∀ m, (crh m).length = n) (hinj : Function.Injective crh)
    {sqrt : Fq → Option Fq} (hs : SqrtSpec sqrt) (scale : AffinePoint Fq → G)
    (domain m e m' e' : Bytes) (hne : (m, e) ≠ (m', e'))
    (d d' : Bytes) (g g' : G) (hd : Yields compat scale d g) (hd' : Yields compat scale d' g') :
    ∃ xof : Bytes → Bytes → ℕ → Outcome BLSError Bytes,
      tryAndIncrementCip22 compat ⟨fun _ m _ => .ok (crh m), xof⟩ sqrt scale domain m e = .ok g ∧
      tryAndIncrementCip22 compat ⟨fun _ m _ => .ok (crh m), xof⟩ sqrt scale domain m' e' =
        .ok g' := by
  refine ⟨fun _ inp _ => if inp = UInt8.ofNat 0 :: (e ++ crh m) then .ok d else .ok d', ?_, ?_⟩
  · unfold tryAndIncrementCip22
    rw [(C19_ok_iff compat _ hs scale domain m e g 0).mpr
      ⟨crh m, rfl, by norm_num, ⟨d, by simp, hd⟩, fun c' hc' => absurd hc' (by omega)⟩]
    rfl
  · unfold tryAndIncrementCip22
    rw [(C19_ok_iff compat _ hs scale domain m' e' g' 0).mpr
      ⟨crh m', rfl, by norm_num, ⟨d', ?_, hd'⟩, fun c' hc' => absurd hc' (by omega)⟩]
    · rfl
    · simp only []
      rw [if_neg]
      intro heq
      obtain ⟨_, h1, h2⟩ := C20_cip22_inputs_disjoint (crh m') (crh m) e' e 0 0 (by norm_num)
        (by norm_num) (by rw [hlen, hlen]) heq
      exact hne (by rw [h1, hinj h2])

/-- Concrete case of the violation: message `[1, 2]` without extra data against message `[2]` with
extra data `[1]`. -/
example : hashWithAttempt true showHasher someSqrt toyScale SIG_DOMAIN [1, 2] [] =
    hashWithAttempt true showHasher someSqrt toyScale SIG_DOMAIN [2] [1] :=
  C20_violation_boundary _ _ _ _ _ _ _ _ _ rfl

/-- Concrete digests yielding two different group elements, as the hypotheses of
`C20_cip22_separates` require: `x = 1` with the two signs. -/
theorem yields_one : Yields true toyScale (1 :: List.replicate 47 0) 1 := by
  refine ⟨by decide, by decide, .finite 1 sqrtTwo, ?_, by simp [toyScale, sqrtTwo_small]⟩
  simp only [Decodes]
  refine ⟨by decide +kernel, by decide +kernel, by decide +kernel, ?_, ?_⟩
  · rw [sqrtTwo_sq]; norm_num
  · rw [if_neg (by decide +kernel)]
    exact le_of_lt sqrtTwo_small

theorem yields_two : Yields true toyScale (1 :: (List.replicate 46 0 ++ [2])) 2 := by
  refine ⟨by decide, by decide, .finite 1 (-sqrtTwo), ?_, ?_⟩
  · simp only [Decodes]
    refine ⟨by decide +kernel, by decide +kernel, by decide +kernel, ?_, ?_⟩
    · rw [neg_mul_neg, sqrtTwo_sq]; norm_num
    · rw [if_pos (by decide +kernel), neg_neg]
      exact le_of_lt sqrtTwo_small
  · simp [toyScale, not_lt_of_gt sqrtTwo_small]

/-! ## C24 -/

/-- C24: a flag survives encoding and decoding. -/
theorem C24_flag_roundtrip (f : YSignFlags) : YSignFlags.fromU8 f.u8Bitmask = some f := by
  rcases f with (_ | _) | (_ | _) <;> decide

/-- C24: a byte with clear low six bits is the encoding of its decoding. -/
theorem C24_byte_roundtrip (b : UInt8) (hb : b.toNat % 64 = 0) :
    ∃ f, YSignFlags.fromU8 b = some f ∧ f.u8Bitmask = b := by
  have : ∀ b : UInt8, b.toNat % 64 = 0 →
      ∃ f ∈ [YSignFlags.positiveY true, .positiveY false, .negativeY true, .negativeY false],
        YSignFlags.fromU8 b = some f ∧ f.u8Bitmask = b := by decide +kernel
  obtain ⟨f, _, h⟩ := this b hb
  exact ⟨f, h⟩

/-- C24: decoding is total, ignores the low six bits, reads the sign from bit 7 and infinity from
bit 6. -/
theorem C24_decode (b : UInt8) :
    ∃ f, YSignFlags.fromU8 b = some f ∧ YSignFlags.fromU8 (b &&& 0xC0) = some f ∧
      f.isPositive = some (b.toNat.testBit 7) ∧ f.isInfinity = b.toNat.testBit 6 := by
  have : ∀ b : UInt8,
      ∃ f ∈ [YSignFlags.positiveY true, .positiveY false, .negativeY true, .negativeY false],
        YSignFlags.fromU8 b = some f ∧ YSignFlags.fromU8 (b &&& 0xC0) = some f ∧
      f.isPositive = some (b.toNat.testBit 7) ∧ f.isInfinity = b.toNat.testBit 6 := by
    decide +kernel
  obtain ⟨f, _, h⟩ := this b
  exact ⟨f, h⟩

/-- C24: the four flags have four different encodings, and the default flag encodes as zero. -/
theorem C24_injective : Function.Injective YSignFlags.u8Bitmask ∧
    YSignFlags.default.u8Bitmask = 0 := by
  refine ⟨fun f g h => ?_, rfl⟩
  have := congrArg YSignFlags.fromU8 h
  rw [C24_flag_roundtrip, C24_flag_roundtrip] at this
  exact Option.some.inj this

example : YSignFlags.fromU8 0xFF = some (.positiveY true) := by decide

/-! ## C25 -/

/-- C25: the decoding of the current code, after the compat bit move, gives the legacy result, for
every digest except those with `x = 0` and bit 382 set; on those the current code gives infinity. -/
theorem C25_decode_agrees {sqrt : Fq → Option Fq} (hs : SqrtSpec sqrt) (d : Bytes)
    (hd : 48 ≤ d.length) :
    ∃ moved, compatMove d = .ok moved ∧ moved.length = 48 ∧
      fromRandomBytes sqrt moved =
        if first48 d % 2 ^ 377 = 0 ∧ (first48 d).testBit 382 = true then some .infinity
        else legacyDecode sqrt d := by
  obtain ⟨moved, h0, hl, h1, h2, h3⟩ := compatMove_spec d hd
  refine ⟨moved, h0, hl, ?_⟩
  obtain ⟨init, b, hb, hi⟩ := exists_last (d.take 48) (by simp [hd])
  have e2 : (init ++ [b]).getD 47 0 = b := by simp [List.getD, hi]
  have e3 : ∀ v : UInt8, (init ++ [b]).set 47 v = init ++ [v] := by
    intro v
    rw [List.set_append_right _ _ (by omega)]
    simp [hi]
  have eg : ∀ b : UInt8, (b &&& 2 == 2) = b.toNat.testBit 1 := by decide +kernel
  have t1 : (leValue (init ++ [b])).testBit 377 = b.toNat.testBit 1 := testBit_snoc init b hi 1
  have leg : legacyDecode sqrt d =
      if first48 d % 2 ^ 377 < FQ_MODULUS then
        getPointFromX sqrt ((first48 d % 2 ^ 377 : ℕ) : Fq) ((first48 d).testBit 377) else none := by
    unfold legacyDecode first48 NUM_BYTES
    simp only [hb, e2, e3, show 48 - 1 = 47 from rfl, eg, ← mod_snoc init b hi, t1]
  rw [leg]
  apply Option.ext
  intro P
  rw [fromRandomBytes_iff hs _ hl,
    Decodes_congr (D' := first48 d) (s' := 377) h1 h2 h3 P]
  by_cases hz : first48 d % 2 ^ 377 = 0 ∧ (first48 d).testBit 382 = true
  · rw [if_pos hz]
    cases P with
    | infinity => simpa [Decodes] using hz
    | finite x y =>
      simp only [Decodes, Option.some.injEq, reduceCtorEq, iff_false]
      exact fun h => h.2.1 hz
  · rw [if_neg hz]
    by_cases hlt : first48 d % 2 ^ 377 < FQ_MODULUS
    · rw [if_pos hlt, getPointFromX_iff hs]
      cases P with
      | infinity => simpa [Decodes] using hz
      | finite x y =>
        simp only [Decodes, AffinePoint.finite.injEq]
        constructor
        · rintro ⟨_, _, rfl, h1, h2⟩
          exact ⟨y, ⟨rfl, rfl⟩, h1, h2⟩
        · rintro ⟨y', ⟨rfl, rfl⟩, h1, h2⟩
          exact ⟨hlt, hz, rfl, h1, h2⟩
    · rw [if_neg hlt]
      cases P with
      | infinity => simpa [Decodes] using hz
      | finite x y =>
        simp only [Decodes, reduceCtorEq, iff_false]
        exact fun h => hlt h.1

/-- The exceptional digests decode to `(0, ±1)` in the legacy logic. -/
theorem legacy_exceptional {sqrt : Fq → Option Fq} (hs : SqrtSpec sqrt) (d : Bytes)
    (hd : 48 ≤ d.length) (h0 : first48 d % 2 ^ 377 = 0) (P : AffinePoint Fq)
    (hP : legacyDecode sqrt d = some P) : ∃ y, P = .finite 0 y ∧ y * y = 1 := by
  obtain ⟨init, b, hb, hi⟩ := exists_last (d.take 48) (by simp [hd])
  have e2 : (init ++ [b]).getD 47 0 = b := by simp [List.getD, hi]
  have e3 : ∀ v : UInt8, (init ++ [b]).set 47 v = init ++ [v] := by
    intro v
    rw [List.set_append_right _ _ (by omega)]
    simp [hi]
  unfold legacyDecode NUM_BYTES at hP
  unfold first48 at h0
  rw [hb] at h0
  simp only [hb, e2, e3, show 48 - 1 = 47 from rfl, ← mod_snoc init b hi, h0] at hP
  split at hP
  · rw [getPointFromX_iff hs] at hP
    obtain ⟨y, rfl, h, _⟩ := hP
    exact ⟨y, by simp, by simpa using h⟩
  · cases hP

/-- C25: the current compat hasher and the legacy hasher agree on every input whose result comes
from a counter below 255, provided the cofactor map kills infinity and the points `(0, ±1)`. -/
theorem C25_hashers_agree (h : Hasher) {sqrt : Fq → Option Fq} (hs : SqrtSpec sqrt)
    (scale : AffinePoint Fq → G) (hinf : scale .infinity = 0)
    (hzero : ∀ y : Fq, y * y = 1 → scale (.finite 0 y) = 0)
    (domain message extra : Bytes) (g : G) (c : ℕ) :
    hashWithAttempt true h sqrt scale domain message extra = .ok (g, c) ↔
      c < 255 ∧ legacyHashWithAttempt h sqrt scale domain message extra = .ok (g, c) := by
  have step : ∀ d : Bytes, processCandidate true sqrt scale d = legacyProcess sqrt scale d := by
    intro d
    unfold legacyProcess
    by_cases hd : d.length < NUM_BYTES
    · rw [if_pos hd, processCandidate_short d hd]
    · rw [if_neg hd]
      have hd' : 48 ≤ d.length := not_lt.mp hd
      obtain ⟨moved, h1, h2, h3⟩ := C25_decode_agrees hs d hd'
      have ht : moved.take 48 = moved := List.take_of_length_le (by omega)
      unfold processCandidate
      simp only [if_true, h1, Outcome.bind_ok]
      rw [if_neg (by unfold NUM_BYTES; omega)]
      simp only [NUM_BYTES, ht, h3]
      by_cases hz : first48 d % 2 ^ 377 = 0 ∧ (first48 d).testBit 382 = true
      · rw [if_pos hz]
        simp only [hinf, if_true]
        cases hl : legacyDecode sqrt d with
        | none => rfl
        | some p =>
          obtain ⟨y, rfl, hy⟩ := legacy_exceptional hs d hd' hz.1 p hl
          simp [hzero y hy]
      · rw [if_neg hz]
        cases legacyDecode sqrt d <;> rfl
  unfold hashWithAttempt legacyHashWithAttempt
  rw [show hashLength NUM_BYTES = 64 by rw [hashLength_eq]; rfl]
  simp only []
  rw [tryLoop_ok_iff, tryLoop_ok_iff]
  rw [funext step]
  constructor
  · rintro ⟨h1, h2, h3⟩
    exact ⟨h1, by have : c < 255 := h1; omega, h2, h3⟩
  · rintro ⟨h1, _, h2, h3⟩
    exact ⟨h1, h2, h3⟩

open Classical in
/-- C25 for the actual group: on BLS12-377 G1 the proviso of `C25_hashers_agree` holds, because
`(0, ±1)` have order 3 and 3 divides the cofactor; so agreement is unconditional. -/
theorem C25_hashers_agree_g1 (h : Hasher) {sqrt : Fq → Option Fq} (hs : SqrtSpec sqrt)
    (domain message extra : Bytes) (g : G1Point) (c : ℕ) :
    hashWithAttempt true h sqrt g1Scale domain message extra = .ok (g, c) ↔
      c < 255 ∧ legacyHashWithAttempt h sqrt g1Scale domain message extra = .ok (g, c) :=
  C25_hashers_agree h hs g1Scale rfl g1Scale_zero_x domain message extra g c

/-- A hasher all of whose digests are zero, except for the input `[255]`. -/
def lateHasher : Hasher where
  crh _ m _ := .ok m
  xof _ m _ := .ok (if m = [255] then 1 :: List.replicate 47 0 else List.replicate 48 0)

theorem lateHasher_early (c : ℕ) (hc : c < 255) (m : Bytes) (hm : m = [UInt8.ofNat c]) :
    lateHasher.hash SIG_DOMAIN m 64 = .ok (List.replicate 48 0) := by
  have hne : ¬ m = [255] := by
    intro e
    rw [hm, List.cons.injEq] at e
    have h1 := congrArg UInt8.toNat e.1
    rw [UInt8.toNat_ofNat', show (255 : UInt8).toNat = 255 from rfl] at h1
    omega
  unfold Hasher.hash lateHasher
  simp only [Outcome.bind_ok, if_neg hne]

theorem lateHasher_late : lateHasher.hash SIG_DOMAIN [255] 64 = .ok (1 :: List.replicate 47 0) := by
  unfold Hasher.hash lateHasher
  simp only [Outcome.bind_ok, if_true]

theorem zeros_useless : Useless true toyScale (List.replicate 48 0) := by
  refine ⟨by decide, ?_⟩
  rintro (_ | ⟨x, y⟩) hP
  · rfl
  · simp only [Decodes] at hP
    have : x = 0 := by rw [hP.2.2.1]; decide +kernel
    simp [toyScale, this]

/-- What yields a group element now did so in the legacy logic. -/
theorem legacy_of_yields {sqrt : Fq → Option Fq} (hs : SqrtSpec sqrt)
    (scale : AffinePoint Fq → G) (hinf : scale .infinity = 0) (d : Bytes) (g : G)
    (hy : Yields true scale d g) :
    ∃ p, legacyDecode sqrt d = some p ∧ scale p = g := by
  obtain ⟨h1, h2, P, h3, h4⟩ := hy
  obtain ⟨moved, m1, m2, m3⟩ := C25_decode_agrees hs d h1
  cases P with
  | infinity => exact absurd (h4.symm.trans hinf) h2
  | finite x y =>
    rw [if_neg h3.2.1] at m3
    refine ⟨.finite x y, ?_, h4⟩
    rw [← m3]
    obtain ⟨moved', n0, nl, n1, n2, n3⟩ := compatMove_spec d h1
    have hm : moved = moved' := by
      rw [m1] at n0
      exact Outcome.ok.inj n0
    subst hm
    rw [fromRandomBytes_iff hs _ m2, Decodes_congr (D' := first48 d) (s' := 377) n1 n2 n3]
    exact h3

/-- What is useless now was useless in the legacy logic. -/
theorem legacy_zeros {sqrt : Fq → Option Fq} (hs : SqrtSpec sqrt) (p : AffinePoint Fq)
    (hl : legacyDecode sqrt (List.replicate 48 0) = some p) : toyScale p = 0 := by
  obtain ⟨y, rfl, hy⟩ := legacy_exceptional hs (List.replicate 48 0) (by decide)
    (by decide +kernel) p hl
  simp [toyScale]

theorem late_current :
    hashWithAttempt true lateHasher someSqrt toyScale SIG_DOMAIN [] [] =
      .err .hashToCurveError := by
  rw [C18_err_iff true lateHasher someSqrt_spec]
  exact Or.inr ⟨rfl, fun c hc => ⟨_, lateHasher_early c hc _ (by simp), zeros_useless⟩⟩

/-- C25: characterisation of the legacy hasher, with its 256 counters. -/
theorem C25_legacy_ok_iff (h : Hasher) (sqrt : Fq → Option Fq)
    (scale : AffinePoint Fq → G) (domain message extra : Bytes) (g : G) (c : ℕ) :
    legacyHashWithAttempt h sqrt scale domain message extra = .ok (g, c) ↔
      c < 256 ∧
      (∃ d, h.hash domain (UInt8.ofNat c :: (extra ++ message)) 64 = .ok d ∧ 48 ≤ d.length ∧
        g ≠ 0 ∧ ∃ p, legacyDecode sqrt d = some p ∧ scale p = g) ∧
      ∀ c' < c, ∃ d, h.hash domain (UInt8.ofNat c' :: (extra ++ message)) 64 = .ok d ∧
        48 ≤ d.length ∧ ∀ p, legacyDecode sqrt d = some p → scale p = 0 := by
  unfold legacyHashWithAttempt
  rw [tryLoop_ok_iff]
  simp only [Outcome.bind_eq_ok_iff]
  have hsome : ∀ d : Bytes, legacyProcess sqrt scale d = .ok (some g) ↔
      (48 ≤ d.length ∧ g ≠ 0 ∧ ∃ p, legacyDecode sqrt d = some p ∧ scale p = g) := by
    intro d
    unfold legacyProcess
    by_cases hl : d.length < NUM_BYTES
    · rw [if_pos hl]
      have : ¬ 48 ≤ d.length := by unfold NUM_BYTES at hl; omega
      simp [this]
    · rw [if_neg hl]
      have : 48 ≤ d.length := by unfold NUM_BYTES at hl; omega
      cases legacyDecode sqrt d with
      | none => simp
      | some p =>
        by_cases hz : scale p = 0
        · simp only [hz, if_true, Outcome.ok.injEq, reduceCtorEq, Option.some.injEq,
            exists_eq_left', false_iff]
          rintro ⟨_, h1, h2⟩
          exact h1 h2.symm
        · simp only [if_neg hz, Outcome.ok.injEq, Option.some.injEq, exists_eq_left', this,
            true_and]
          constructor
          · rintro rfl; exact ⟨hz, rfl⟩
          · exact fun h => h.2
  have hnone : ∀ d : Bytes, legacyProcess sqrt scale d = .ok none ↔
      (48 ≤ d.length ∧ ∀ p, legacyDecode sqrt d = some p → scale p = 0) := by
    intro d
    unfold legacyProcess
    by_cases hl : d.length < NUM_BYTES
    · rw [if_pos hl]
      have : ¬ 48 ≤ d.length := by unfold NUM_BYTES at hl; omega
      simp [this]
    · rw [if_neg hl]
      have : 48 ≤ d.length := by unfold NUM_BYTES at hl; omega
      cases legacyDecode sqrt d with
      | none => simp [this]
      | some p => by_cases hz : scale p = 0 <;> simp [hz, this]
  simp only [hsome, hnone]
  rfl

theorem late_legacy :
    legacyHashWithAttempt lateHasher someSqrt toyScale SIG_DOMAIN [] [] = .ok (1, 255) :=
  (C25_legacy_ok_iff lateHasher someSqrt toyScale SIG_DOMAIN [] [] 1 255).mpr
    ⟨by norm_num,
      ⟨_, lateHasher_late, by decide, by decide,
        legacy_of_yields someSqrt_spec toyScale rfl _ _ yields_one⟩,
      fun c hc => ⟨_, lateHasher_early c hc _ (by simp), by decide,
        fun p hp => legacy_zeros someSqrt_spec p hp⟩⟩

/-- C25: the agreement stops at counter 255, which only the legacy loop tries. -/
theorem C25_last_counter_differs : ∃ h : Hasher,
    hashWithAttempt true h someSqrt toyScale SIG_DOMAIN [] [] = .err .hashToCurveError ∧
      legacyHashWithAttempt h someSqrt toyScale SIG_DOMAIN [] [] = .ok (1, 255) :=
  ⟨lateHasher, late_current, late_legacy⟩

/-- Concrete case of `C25_decode_agrees`: an ordinary digest (`x = 1`, sign bit set). -/
example : ∃ moved, compatMove (1 :: (List.replicate 46 0 ++ [2])) = .ok moved ∧
    fromRandomBytes someSqrt moved = legacyDecode someSqrt (1 :: (List.replicate 46 0 ++ [2])) := by
  obtain ⟨m, h1, _, h2⟩ := C25_decode_agrees someSqrt_spec (1 :: (List.replicate 46 0 ++ [2]))
    (by decide)
  exact ⟨m, h1, by rw [h2, if_neg (by decide +kernel)]⟩

/-! ## The theorems applied to concrete data -/

/-- A hasher whose inner hash fails on the empty message (not code from /repo). -/
def failingHasher : Hasher where
  crh _ m _ := if m = [] then .err .hashToCurveError else .ok m
  xof := showHasher.xof

/-- `C18_direct_total`, `C18_never_identity`, `C19_never_identity`, `C19_err_iff`: the message `[1]` under the signing
domain, and the empty message with the failing hasher. -/
example (B : Blake2s) :
    ((∃ g c, hashWithAttempt true (directHasher B) someSqrt toyScale SIG_DOMAIN [1] [] = .ok (g, c) ∧ g ≠ 0 ∧
        c < 255) ∨
      hashWithAttempt true (directHasher B) someSqrt toyScale SIG_DOMAIN [1] [] = .err .hashToCurveError) ∧
    tryAndIncrement true showHasher someSqrt toyScale SIG_DOMAIN [] [] ≠ .ok 0 ∧
    tryAndIncrementCip22 true showHasher someSqrt toyScale SIG_DOMAIN [] [] ≠ .ok 0 ∧
    hashWithAttemptCip22 true failingHasher someSqrt toyScale SIG_DOMAIN [] [4] = .err .hashToCurveError :=
  ⟨C18_direct_total true B someSqrt_spec toyScale SIG_DOMAIN [1] [] (by decide),
    C18_never_identity true _ someSqrt_spec _ _ _ _, C19_never_identity true _ someSqrt_spec _ _ _ _,
    (C19_err_iff true failingHasher someSqrt_spec toyScale SIG_DOMAIN [] [4] _).mpr (Or.inl rfl)⟩

/-- `C20_violation_signature_transfer`: a signature on message `[1, 2]` is one on message `[2]` with extra data `[1]`. -/
example (sig pk : ZMod 7) : verify (toyPairing 7) pk [1, 2] [] sig
      (tryAndIncrement true showHasher someSqrt toyScale) =
    verify (toyPairing 7) pk [2] [1] sig (tryAndIncrement true showHasher someSqrt toyScale) :=
  C20_violation_signature_transfer (toyPairing 7) true showHasher someSqrt toyScale pk sig _ _ _ _ rfl

/-- `C25_hashers_agree`: the toy cofactor map meets the two conditions; the result of counter 1 is also the legacy one. -/
example : legacyHashWithAttempt showHasher someSqrt toyScale SIG_DOMAIN [] [] = .ok (1, 1) := by
  exact ((C25_hashers_agree showHasher someSqrt_spec toyScale rfl (fun y _ => rfl) SIG_DOMAIN [] [] 1 1).mp
    showHasher_counter_one).2

end Verif
