import Verif.Lemmas.G1Example
import Verif.Props.Utils
import Verif.Props.PublicInputs
import Verif.Props.EpochCircuit

/-!
# Properties C51, C52, C53 and C62 (G1): hashing to the curve in the circuit
-/

set_option exponentiation.threshold 800
set_option linter.unusedSectionVars false

namespace Verif

/-- The allocation of G1 witnesses only admits affine points of the curve. -/
def AffineAlloc (alloc : G1Var → Prop) : Prop := ∀ v, alloc v → v.z = 1 ∧ v.y * v.y = v.x ^ 3 + 1

/-- The allocation admits all affine points of the curve. -/
def AllocCompleteG1 (alloc : G1Var → Prop) : Prop := ∀ x y, y * y = x ^ 3 + 1 → alloc ⟨x, y, 1⟩

/-- The allocation which admits exactly the affine points. -/
def affineOnly (v : G1Var) : Prop := v.z = 1 ∧ v.y * v.y = v.x ^ 3 + 1

theorem affineOnly_affine : AffineAlloc affineOnly := fun _ h => h

theorem affineOnly_complete : AllocCompleteG1 affineOnly := fun _ _ h => ⟨rfl, h⟩

/-! ## C51 -/

theorem groupAccepts_decodes {alloc : G1Var → Prop} (ha : AffineAlloc alloc) {compat : Bool} {D : ℕ}
    {g : G1Point} (h : GroupAccepts alloc compat D g) :
    ∃ Q, Decodes (signBit compat) D Q ∧ g = g1Scale Q := by
  obtain ⟨⟨x, y, z⟩, h1, h2, h3, h4⟩ := h
  obtain ⟨h5, h6⟩ := ha _ h1
  simp only at h2 h3 h5 h6
  subst h5
  rw [← g1Scale_some h6] at h4
  have hlt : D % 2 ^ 377 < FQ_MODULUS := by rw [← h2]; exact ZMod.val_lt x
  by_cases hinf : D % 2 ^ 377 = 0 ∧ D.testBit 382 = true
  · refine ⟨.infinity, hinf, ?_⟩
    have hx : x = 0 := by
      rw [hinf.1] at h2
      exact (ZMod.val_eq_zero x).mp h2
    subst hx
    rw [h4, g1Scale_zero_x y (by rw [h6]; ring)]
    rfl
  · refine ⟨.finite x y, ⟨hlt, hinf, ?_, h6, sign_decodes h6 h3⟩, h4⟩
    rw [← h2, ZMod.natCast_zmod_val]

theorem decodes_groupAccepts {alloc : G1Var → Prop} (ha : AllocCompleteG1 alloc) {compat : Bool}
    {D : ℕ} {Q : AffinePoint Fq} (h : Decodes (signBit compat) D Q) (hne : g1Scale Q ≠ 0) :
    GroupAccepts alloc compat D (g1Scale Q) := by
  cases Q with
  | infinity => exact absurd rfl hne
  | finite x y =>
    obtain ⟨h1, _, h3, h4, h5⟩ := h
    have hy : y ≠ 0 := by
      rintro rfl
      exact hne (g1Scale_zero_y x)
    refine ⟨⟨x, y, 1⟩, ha x y h4, ?_, (sign_iff h4 hy _).mpr h5, g1Scale_some h4⟩
    rw [h3]
    exact ZMod.val_cast_of_lt h1

/-- C51, soundness: if allocated points are affine points of the curve, every satisfying assignment
of `hash_to_group` gives the cofactor multiple of the point which native decoding reads from the
same digest (`D` is the digest as a number). -/
theorem C51_sound {alloc : G1Var → Prop} (ha : AffineAlloc alloc) (compat : Bool) (xof : List Bool)
    (hl : 384 ≤ xof.length) (w : GroupVars) (sat : Prop) (g : G1Point)
    (h : hashToGroup alloc compat xof w = .ok (sat, g)) (hs : sat) :
    ∃ Q, Decodes (signBit compat) (ofBitsLE xof) Q ∧ g = g1Scale Q :=
  groupAccepts_decodes ha ((hashToGroup_iff alloc compat xof hl g).mp ⟨w, sat, h, hs⟩)

/-- C51, completeness: if native decoding gives a point not killed by the cofactor, the values the
code assigns exist and satisfy the constraints, with the native result. -/
theorem C51_complete {alloc : G1Var → Prop} (ha : AllocCompleteG1 alloc) {sqrt : Fq → Option Fq}
    (hs : SqrtSpec sqrt) (compat : Bool) (xof : List Bool) (hl : 384 ≤ xof.length)
    {Q : AffinePoint Fq} (hQ : Decodes (signBit compat) (ofBitsLE xof) Q) (hne : g1Scale Q ≠ 0) :
    ∃ w sat, hashToGroupWitness sqrt compat xof = .ok w ∧
      hashToGroup alloc compat xof w = .ok (sat, g1Scale Q) ∧ sat := by
  cases Q with
  | infinity => exact absurd rfl hne
  | finite x y =>
    obtain ⟨h1, _, h3, h4, h5⟩ := hQ
    have hy : y ≠ 0 := by
      rintro rfl
      exact hne (g1Scale_zero_y x)
    have hsb : SIGN_BIT_POSITION compat < xof.length := by
      unfold SIGN_BIT_POSITION; split <;> omega
    have e2 : xof[SIGN_BIT_POSITION compat] = (ofBitsLE xof).testBit (signBit compat) := by
      rw [ofBitsLE_testBit]
      have : signBit compat = SIGN_BIT_POSITION compat := rfl
      rw [this, List.getD, List.getElem?_eq_getElem hsb]; rfl
    have e1 : fromBitsBe (xof.take X_BITS).reverse = ofBitsLE xof % 2 ^ 377 := by
      rw [fromBitsBe_eq, List.reverse_reverse, ofBitsLE_take]; rfl
    have e3 : getPointFromX sqrt ((ofBitsLE xof % 2 ^ 377 : ℕ) : Fq)
        ((ofBitsLE xof).testBit (signBit compat)) = some (.finite x y) := by
      rw [getPointFromX_iff hs]
      exact ⟨y, by rw [h3], by rw [← h3]; exact h4, h5⟩
    let w : GroupVars := ⟨⟨x, y, 1⟩, (normalizeWitness (.var y)).2, (normalizeWitness (.var y)).1⟩
    obtain ⟨sat, h6, h7⟩ := hashToGroup_ok alloc compat xof hl w
    refine ⟨w, sat, ?_, ?_, ?_⟩
    · unfold hashToGroupWitness
      rw [if_neg (by unfold X_BITS; omega), List.getElem?_eq_getElem hsb]
      simp only [e1, e2, e3, if_pos h1]
      rfl
    · rw [h6, g1Scale_some h4]
    · refine h7.mpr ⟨ha x y h4, ?_, ?_, ?_⟩
      · exact C36_complete (p := FQ_MODULUS) (by decide +kernel) (.var y)
      · change x.val = _
        rw [h3]
        exact ZMod.val_cast_of_lt h1
      · change (normalizeWitness (.var y)).2 = _
        have h8 := (sign_iff h4 hy _).mpr h5
        rcases h8 with h8 | h8
        · exact h8.symm
        · exact absurd h8 (g1_y_ne_half h4)

/-! ## C52 -/

theorem sigDomain_length : SIG_DOMAIN.length = 8 := by decide

theorem ofBitsLE_bytes (d : Bytes) (n : ℕ) (h : 8 * d.length ≤ n) :
    ofBitsLE (bytesLeToBitsLe d n) = leValue d := by
  rw [bytesLeToBitsLe_all d n h, flatMap_unpack_value]

theorem xof_bits {K : Blake2sCore} {B : Blake2s} (hB : Blake2sAgree K B) (input : List Bool) :
    ∃ d, directXof B SIG_DOMAIN (bitsLeToBytesLe input) 64 = .ok d ∧ d.length = 64 ∧
      hashToBitsBlake K input 512 SIG_DOMAIN = .ok (bytesLeToBitsLe d 512) :=
  C50_xof hB input 512 (by decide) SIG_DOMAIN sigDomain_length

/-- C52: the hashes the circuit accepts for an epoch, exactly (XOF computed in the circuit): the
counter is **any** byte, the digest is the native XOF of counter, extra data and CRH, and the group
element is one accepted for that digest. -/
theorem C52_exact (alloc : G1Var → Prop) (compat : Bool) {K : Blake2sCore} {B : Blake2s}
    (hB : Blake2sAgree K B) (pedX : Bytes → Fq) (epochBits extraBits : List Bool)
    (out : HashOut G1Point) :
    hashBitsToG1C alloc compat K pedX true epochBits extraBits out ↔
      ∃ (counter : UInt8) (d : Bytes),
        directXof B SIG_DOMAIN (counter :: (bitsBeToBytesLe extraBits ++
          leBytes 48 (pedX (bitsBeToBytesLe epochBits)).val)) 64 = .ok d ∧
        GroupAccepts alloc compat (leValue d) out.messageHash ∧
        out.xofBits = bytesLeToBitsLe d 512 ∧
        out.crhBits = bytesLeToBitsLe (leBytes 48 (pedX (bitsBeToBytesLe epochBits)).val) 384 := by
  have hcrh : pedersenBits pedX (bitsBeToBytesLe epochBits) =
      bytesLeToBitsLe (leBytes 48 (pedX (bitsBeToBytesLe epochBits)).val) 384 := by
    rw [pedersenBits_eq, bytesLeToBitsLe_all _ _ (by rw [leBytes_length])]
  unfold hashBitsToG1C hashBitsToG1 enforceHashToGroup
  simp only [packBytes_eq, hashToBitsC, if_true]
  constructor
  · rintro ⟨w, sat, h1, h2⟩
    obtain ⟨d, hd, hdl, hK⟩ := xof_bits hB
      (xofInput w.counter (bitsBeToBytesLe extraBits) (pedersenBits pedX (bitsBeToBytesLe epochBits)))
    rw [xofInput_bytes] at hd
    rw [hK, Outcome.map_ok, Outcome.bind_ok, Outcome.map_eq_ok_iff] at h1
    obtain ⟨⟨s, g⟩, h3, h4⟩ := h1
    simp only [Prod.mk.injEq] at h4
    obtain ⟨h4, rfl⟩ := h4
    rw [← h4] at h2
    refine ⟨w.counter, d, hd, ?_, h2.1, hcrh⟩
    have hl : 384 ≤ w.xofBits.length := by
      rw [h2.1, bytesLeToBitsLe_all d 512 (by omega), flatMap_unpack_length]; omega
    have := (hashToGroup_iff alloc compat w.xofBits hl g).mp ⟨w.group, s, h3, h2.2⟩
    rwa [h2.1, ofBitsLE_bytes d 512 (by omega)] at this
  · rintro ⟨counter, d, hd, hg, hx, hc⟩
    obtain ⟨d', hd', hdl, hK⟩ := xof_bits hB
      (xofInput counter (bitsBeToBytesLe extraBits) (pedersenBits pedX (bitsBeToBytesLe epochBits)))
    rw [xofInput_bytes, hd] at hd'
    simp only [Outcome.ok.injEq] at hd'
    subst hd'
    have hl : 384 ≤ (bytesLeToBitsLe d 512).length := by
      rw [bytesLeToBitsLe_all d 512 (by omega), flatMap_unpack_length]; omega
    rw [← ofBitsLE_bytes d 512 (by omega)] at hg
    obtain ⟨gw, s, h3, h4⟩ := (hashToGroup_iff alloc compat _ hl _).mpr hg
    refine ⟨⟨counter, bytesLeToBitsLe d 512, gw⟩, bytesLeToBitsLe d 512 = bytesLeToBitsLe d 512 ∧ s,
      ?_, rfl, h4⟩
    simp only [hK, Outcome.map_ok, Outcome.bind_ok, h3, Outcome.ok.injEq, Prod.mk.injEq]
    refine ⟨trivial, ?_⟩
    cases out
    simp only at hx hc
    rw [hx, hc, hcrh]

theorem decodes_first48 {compat : Bool} {d : Bytes} (_ : d.length = 64) (Q : AffinePoint Fq) :
    Decodes (signBit compat) (leValue d) Q ↔ Decodes (signBit compat) (first48 d) Q := by
  have h1 : first48 d = leValue d % 2 ^ 384 := by
    unfold first48
    rw [leValue_take]
    congr 1
  have hs : signBit compat < 384 := by unfold signBit; split <;> omega
  refine Decodes_congr ?_ ?_ ?_ Q
  · rw [h1, Nat.mod_mod_of_dvd]
    exact pow_dvd_pow 2 (by norm_num)
  · rw [h1, Nat.testBit_mod_two_pow]; simp
  · rw [h1, Nat.testBit_mod_two_pow]; simp [hs]

/-- C51, agreement with the native hash: if `hash_with_attempt_cip22` succeeds natively, the
values assigned in the circuit exist, give the native hash, and satisfy the constraints, with the
XOF in the circuit or not. -/
theorem C51_native [DecidableEq G1Point] {alloc : G1Var → Prop} (ha : AllocCompleteG1 alloc)
    (compat : Bool) {K : Blake2sCore} {B : Blake2s} (hB : Blake2sAgree K B)
    {sqrt : Fq → Option Fq} (hs : SqrtSpec sqrt) (pedX : Bytes → Fq)
    (pedersen : Bytes → Outcome BLSError Bytes) (generate : Bool) (epochBits extraBits : List Bool)
    (hped : pedersen (bitsBeToBytesLe epochBits) =
      .ok (leBytes 48 (pedX (bitsBeToBytesLe epochBits)).val)) (g : G1Point) (c : ℕ)
    (h : hashWithAttemptCip22 compat (compositeHasher B pedersen) sqrt g1Scale SIG_DOMAIN
      (bitsBeToBytesLe epochBits) (bitsBeToBytesLe extraBits) = .ok (g, c)) :
    ∃ out w sat, hashBitsToG1Out compat K B pedersen pedX sqrt generate epochBits extraBits = .ok out ∧
      out.messageHash = g ∧
      hashBitsToG1Witness compat K B pedersen pedX sqrt generate epochBits extraBits = .ok w ∧
      w.counter = UInt8.ofNat c ∧
      hashBitsToG1 alloc compat K pedX generate epochBits extraBits w = .ok (sat, out) ∧ sat := by
  -- the native computation does not depend on how equality of points is decided
  have h' : @hashWithAttemptCip22 G1Point _ (Classical.decEq _) compat (compositeHasher B pedersen)
      sqrt g1Scale SIG_DOMAIN (bitsBeToBytesLe epochBits) (bitsBeToBytesLe extraBits) =
        .ok (g, c) := by
    have e : ‹DecidableEq G1Point› = Classical.decEq _ := Subsingleton.elim _ _
    rw [← e]
    exact h
  obtain ⟨inner, hi, hc, ⟨d, hd, hy⟩, _⟩ := (C19_ok_iff compat _ hs g1Scale _ _ _ g c).mp h
  simp only [compositeHasher, hped, Outcome.ok.injEq] at hi
  subst hi
  obtain ⟨_, hg0, Q, hQ, hQg⟩ := hy
  set input := xofInput (UInt8.ofNat c) (bitsBeToBytesLe extraBits)
    (pedersenBits pedX (bitsBeToBytesLe epochBits)) with hinput
  obtain ⟨d', hd', hdl, hK⟩ := xof_bits hB input
  have hbytes := xofInput_bytes (UInt8.ofNat c) (bitsBeToBytesLe extraBits)
    (bitsBeToBytesLe epochBits) pedX
  rw [← hinput] at hbytes
  have hdd : d' = d := by
    rw [hbytes] at hd'
    have : (compositeHasher B pedersen).xof = directXof B := rfl
    rw [this, hd'] at hd
    simpa using hd
  subst hdd
  have hl : 384 ≤ (bytesLeToBitsLe d' 512).length := by
    rw [bytesLeToBitsLe_all d' 512 (by omega), flatMap_unpack_length]; omega
  have hQ' : Decodes (signBit compat) (ofBitsLE (bytesLeToBitsLe d' 512)) Q := by
    rw [ofBitsLE_bytes d' 512 (by omega), decodes_first48 hdl]
    exact hQ
  obtain ⟨gw, s, h1, h2, h3⟩ := C51_complete ha hs compat _ hl hQ' (by rw [hQg]; exact hg0)
  have hpoint : G1_COFACTOR • gw.point.point = g := by
    obtain ⟨s', e1, _⟩ := hashToGroup_ok alloc compat _ hl gw
    rw [h2] at e1
    simp only [Outcome.ok.injEq, Prod.mk.injEq] at e1
    rw [← e1.2, hQg]
  have hw : hashToBitsWitness K B input 512 SIG_DOMAIN generate =
      .ok (bytesLeToBitsLe d' 512) := by
    unfold hashToBitsWitness
    cases generate
    · rw [if_neg (by simp)]
      simp only [hd']
    · rw [if_pos rfl, hK]
  have hwit : hashBitsToG1Witness compat K B pedersen pedX sqrt generate epochBits extraBits =
      .ok ⟨UInt8.ofNat c, bytesLeToBitsLe d' 512, gw⟩ := by
    unfold hashBitsToG1Witness
    simp only [packBytes_eq, h']
    rw [← hinput, hw, Outcome.bind_ok, h1, Outcome.map_ok]
  refine ⟨⟨G1_COFACTOR • gw.point.point, pedersenBits pedX (bitsBeToBytesLe epochBits),
    bytesLeToBitsLe d' 512⟩, ⟨UInt8.ofNat c, bytesLeToBitsLe d' 512, gw⟩,
    (if generate then bytesLeToBitsLe d' 512 = bytesLeToBitsLe d' 512
      else (bytesLeToBitsLe d' 512).length = 512) ∧ s, ?_, hpoint, hwit, rfl, ?_, ?_, h3⟩
  · unfold hashBitsToG1Out
    rw [hwit, Outcome.map_ok, packBytes_eq]
  · unfold hashBitsToG1 enforceHashToGroup
    simp only [packBytes_eq, ← hinput]
    rw [hpoint, ← hQg]
    unfold hashToBitsC
    cases generate
    · simp only [Bool.false_eq_true, if_false, Outcome.bind_ok, h2, Outcome.map_ok]
    · simp only [if_true, hK, Outcome.map_ok, Outcome.bind_ok, h2]
  · cases generate
    · simp only [Bool.false_eq_true, if_false]
      rw [bytesLeToBitsLe_all d' 512 (by omega), flatMap_unpack_length, hdl]
    · simp only [if_true]

/-- C51, uniqueness for the native counter: with affine allocation and the XOF in the circuit, every
satisfying assignment that uses the native counter gives the native hash. -/
theorem C51_native_unique [DecidableEq G1Point] {alloc : G1Var → Prop} (ha : AffineAlloc alloc)
    (compat : Bool) {K : Blake2sCore} {B : Blake2s} (hB : Blake2sAgree K B)
    {sqrt : Fq → Option Fq} (hs : SqrtSpec sqrt) (pedX : Bytes → Fq)
    (pedersen : Bytes → Outcome BLSError Bytes) (epochBits extraBits : List Bool)
    (hped : pedersen (bitsBeToBytesLe epochBits) =
      .ok (leBytes 48 (pedX (bitsBeToBytesLe epochBits)).val)) (g : G1Point) (c : ℕ)
    (h : hashWithAttemptCip22 compat (compositeHasher B pedersen) sqrt g1Scale SIG_DOMAIN
      (bitsBeToBytesLe epochBits) (bitsBeToBytesLe extraBits) = .ok (g, c))
    (w : HashVars) (sat : Prop) (out : HashOut G1Point) (hc : w.counter = UInt8.ofNat c)
    (hw : hashBitsToG1 alloc compat K pedX true epochBits extraBits w = .ok (sat, out)) (hsat : sat) :
    out.messageHash = g := by
  obtain ⟨inner, hi, _, ⟨d, hd, hy⟩, _⟩ := (C19_ok_iff compat _ hs g1Scale _ _ _ g c).mp h
  simp only [compositeHasher, hped, Outcome.ok.injEq] at hi
  subst hi
  obtain ⟨_, hg0, Q, hQ, hQg⟩ := hy
  unfold hashBitsToG1 enforceHashToGroup at hw
  simp only [packBytes_eq, hashToBitsC, if_true] at hw
  obtain ⟨d', hd', hdl, hK⟩ := xof_bits hB
    (xofInput w.counter (bitsBeToBytesLe extraBits) (pedersenBits pedX (bitsBeToBytesLe epochBits)))
  rw [xofInput_bytes, hc] at hd'
  have : (compositeHasher B pedersen).xof = directXof B := rfl
  rw [this, hd'] at hd
  simp only [Outcome.ok.injEq] at hd
  subst hd
  rw [hK, Outcome.map_ok, Outcome.bind_ok, Outcome.map_eq_ok_iff] at hw
  obtain ⟨⟨s, g'⟩, h3, h4⟩ := hw
  simp only [Prod.mk.injEq] at h4
  obtain ⟨h4, rfl⟩ := h4
  rw [← h4] at hsat
  have hl : 384 ≤ w.xofBits.length := by
    rw [hsat.1, bytesLeToBitsLe_all d' 512 (by omega), flatMap_unpack_length]; omega
  obtain ⟨Q', hQ', hg'⟩ := C51_sound ha compat w.xofBits hl w.group s g' h3 hsat.2
  rw [hsat.1, ofBitsLE_bytes d' 512 (by omega), decodes_first48 hdl] at hQ'
  have := decodes_unique hQ hQ'
  subst this
  change g' = g
  rw [hg', hQg]

/-! ### C52: violations

The XOF is a parameter of the model, so a violation needs one with suitable digests; for a random
function such digests occur. -/

/-- Any function to 64 bytes is the XOF of some BLAKE2s, which depends on the message through the
function only. -/
theorem exists_core' (f : Bytes → Bytes) (hf : ∀ m, (f m).length = 64) :
    ∃ K : Blake2sCore, (∀ b m m', f m = f m' → K.digest b m = K.digest b m') ∧
      ∀ B, Blake2sAgree K B → ∀ m, directXof B SIG_DOMAIN m 64 = .ok (f m) := by
  let b0 := (blake2xsParams 512 (UInt32.ofNat 0) SIG_DOMAIN).parameters
  refine ⟨⟨fun b m => if b = b0 then (f m).take 32 else (f m).drop 32, ?_⟩, ?_, ?_⟩
  · intro b m
    split <;> simp [hf m]
  · intro b m m' h
    simp only [h]
  · intro B hB m
    have hok := directXof_ok B SIG_DOMAIN m (by decide) 64 (by norm_num)
    rw [hok]
    have hnum : xofNumHashes 64 = 2 := by decide
    have hne : ∀ i, ¬ (i = xofNumHashes 64 - 1 ∧ 64 % 32 ≠ 0) := by intro i; omega
    simp only [if_neg (hne _)]
    rw [hnum]
    obtain ⟨p0, e0, l0, q0⟩ := C50_xof_params 512 (by decide) SIG_DOMAIN sigDomain_length 0 (by norm_num)
    obtain ⟨p1, e1, l1, q1⟩ := C50_xof_params 512 (by decide) SIG_DOMAIN sigDomain_length 1 (by norm_num)
    have h64 : (512 : UInt16).toNat / 8 = 64 := by decide
    rw [h64, directXofParams_ok SIG_DOMAIN (by decide) _ _ (by norm_num)] at e0 e1
    simp only [if_neg (hne _), Outcome.ok.injEq] at e0 e1
    have hb1 : (blake2xsParams 512 (UInt32.ofNat 1) SIG_DOMAIN).parameters ≠ b0 := by decide +kernel
    simp only [List.range_succ, List.range_zero, List.nil_append, List.map_append, List.map_cons,
      List.map_nil, List.flatten_append, List.flatten_cons, List.flatten_nil, List.append_nil]
    rw [e0, e1, hB p0 m l0, hB p1 m l1, ← q0, ← q1]
    simp only []
    rw [if_pos rfl, if_neg hb1, List.take_append_drop]

theorem exists_core (f : Bytes → Bytes) (hf : ∀ m, (f m).length = 64) :
    ∃ K : Blake2sCore, ∀ B, Blake2sAgree K B → ∀ m, directXof B SIG_DOMAIN m 64 = .ok (f m) := by
  obtain ⟨K, _, h⟩ := exists_core' f hf
  exact ⟨K, h⟩

/-- The 64-byte digest with `x = n` (below 256) and the sign bit set or not. -/
def tinyDigest (compat : Bool) (n : UInt8) (sign : Bool) : Bytes :=
  [n] ++ List.replicate 46 0 ++ [if sign then (if compat then 2 else 0x80) else 0] ++
    List.replicate 16 0

theorem tinyDigest_length (compat : Bool) (n : UInt8) (sign : Bool) :
    (tinyDigest compat n sign).length = 64 := by simp [tinyDigest]

theorem decodes_one (compat : Bool) :
    Decodes (signBit compat) (first48 (tinyDigest compat 1 false)) (.finite 1 sqrtTwo) ∧
    Decodes (signBit compat) (first48 (tinyDigest compat 1 true)) (.finite 1 (-sqrtTwo)) := by
  have hneg : (-sqrtTwo) * (-sqrtTwo) = (1 : Fq) ^ 3 + 1 := by
    rw [neg_mul_neg]; exact one_sqrtTwo_on
  cases compat
  · refine ⟨⟨by decide +kernel, by decide +kernel, by decide +kernel, one_sqrtTwo_on, ?_⟩,
      ⟨by decide +kernel, by decide +kernel, by decide +kernel, hneg, ?_⟩⟩
    · rw [if_neg (by decide +kernel)]; exact le_of_lt sqrtTwo_small
    · rw [if_pos (by decide +kernel), neg_neg]; exact le_of_lt sqrtTwo_small
  · refine ⟨⟨by decide +kernel, by decide +kernel, by decide +kernel, one_sqrtTwo_on, ?_⟩,
      ⟨by decide +kernel, by decide +kernel, by decide +kernel, hneg, ?_⟩⟩
    · rw [if_neg (by decide +kernel)]; exact le_of_lt sqrtTwo_small
    · rw [if_pos (by decide +kernel), neg_neg]; exact le_of_lt sqrtTwo_small

theorem decodes_zero (compat : Bool) :
    Decodes (signBit compat) (first48 (tinyDigest compat 0 false)) (.finite 0 1) := by
  have h1 : (1 : Fq) * 1 = 0 ^ 3 + 1 := by norm_num
  have h2 : (1 : Fq).val ≤ (-1 : Fq).val := by decide +kernel
  cases compat
  · refine ⟨by decide +kernel, by decide +kernel, by decide +kernel, h1, ?_⟩
    rw [if_neg (by decide +kernel)]; exact h2
  · refine ⟨by decide +kernel, by decide +kernel, by decide +kernel, h1, ?_⟩
    rw [if_neg (by decide +kernel)]; exact h2

theorem g1Scale_one : g1Scale (.finite 1 sqrtTwo) = G1_COFACTOR • onePoint := by
  unfold g1Scale
  exact dif_pos (g1_nonsingular 1 sqrtTwo one_sqrtTwo_on)

theorem g1Scale_infinity : g1Scale .infinity = 0 := rfl

theorem g1Scale_neg {a b : Fq} (h : b * b = a ^ 3 + 1) :
    g1Scale (.finite a (-b)) = -g1Scale (.finite a b) := by
  have hneg : (-b) * (-b) = a ^ 3 + 1 := by rw [neg_mul_neg]; exact h
  have hn := g1_nonsingular a b h
  have hn' := g1_nonsingular a (-b) hneg
  have e : (WeierstrassCurve.Affine.Point.some a (-b) hn' : G1Point) =
      -(WeierstrassCurve.Affine.Point.some a b hn) := by
    rw [WeierstrassCurve.Affine.Point.neg_some]
    have hy : g1Curve.negY a b = -b := by
      simp [WeierstrassCurve.Affine.negY, g1Curve]
    simp only [hy]
  have e1 : g1Scale (.finite a b) = G1_COFACTOR • (WeierstrassCurve.Affine.Point.some a b hn) := by
    unfold g1Scale
    exact dif_pos hn
  have e2 : g1Scale (.finite a (-b)) =
      G1_COFACTOR • (WeierstrassCurve.Affine.Point.some a (-b) hn') := by
    unfold g1Scale
    exact dif_pos hn'
  rw [e1, e2, e, neg_nsmul]

theorem g1Scale_neg_one : g1Scale (.finite 1 (-sqrtTwo)) = -(G1_COFACTOR • onePoint) := by
  rw [g1Scale_neg one_sqrtTwo_on, g1Scale_one]

attribute [local irreducible] G1_COFACTOR g1Scale

/-- A usable digest for some counter makes the circuit accept the corresponding element. -/
theorem accepted_of_digest {alloc : G1Var → Prop} {compat : Bool} {K : Blake2sCore} {B : Blake2s}
    (hB : Blake2sAgree K B) (pedX : Bytes → Fq) (epochBits extraBits : List Bool) (c : UInt8)
    (d : Bytes) (hd : ∀ m, directXof B SIG_DOMAIN (c :: m) 64 = .ok d) (g : G1Point)
    (hg : GroupAccepts alloc compat (leValue d) g) :
    ∃ out, hashBitsToG1C alloc compat K pedX true epochBits extraBits out ∧ out.messageHash = g := by
  refine ⟨⟨g, bytesLeToBitsLe (leBytes 48 (pedX (bitsBeToBytesLe epochBits)).val) 384,
    bytesLeToBitsLe d 512⟩, ?_, rfl⟩
  rw [C52_exact alloc compat hB]
  refine ⟨c, d, hd _, ?_, ?_, ?_⟩
  · exact hg
  · simp only []
  · simp only []

/-- C52 (violated), two hashes: for every epoch there is a BLAKE2s for which the circuit accepts both
the native hash and another non-zero hash, obtained with another counter. -/
theorem C52_violation_two [DecidableEq G1Point] {alloc : G1Var → Prop} (ha : AllocCompleteG1 alloc)
    (compat : Bool) {sqrt : Fq → Option Fq} (hs : SqrtSpec sqrt) (pedX : Bytes → Fq)
    (epochBits extraBits : List Bool) :
    ∃ K : Blake2sCore, ∀ B, Blake2sAgree K B → ∃ out out',
      hashBitsToG1C alloc compat K pedX true epochBits extraBits out ∧
      hashBitsToG1C alloc compat K pedX true epochBits extraBits out' ∧
      out.messageHash ≠ 0 ∧ out'.messageHash ≠ 0 ∧ out.messageHash ≠ out'.messageHash ∧
      tryAndIncrementCip22 compat
        (compositeHasher B fun m => .ok (leBytes 48 (pedX m).val)) sqrt g1Scale SIG_DOMAIN
        (bitsBeToBytesLe epochBits) (bitsBeToBytesLe extraBits) = .ok out.messageHash := by
  let f : Bytes → Bytes := fun m => tinyDigest compat 1 (decide (m.head? = some 1))
  obtain ⟨K, hK⟩ := exists_core f fun m => tinyDigest_length _ _ _
  refine ⟨K, fun B hB => ?_⟩
  obtain ⟨hne, hne2⟩ := cofactor_onePoint_ne
  have h0 := (decodes_one compat).1
  have h1 := (decodes_one compat).2
  have hg0 : g1Scale (.finite 1 sqrtTwo) ≠ 0 := by rw [g1Scale_one]; exact hne
  have hg1 : g1Scale (.finite 1 (-sqrtTwo)) ≠ 0 := by
    rw [g1Scale_neg_one]
    exact fun h => hne (neg_eq_zero.mp h)
  have hd0 : ∀ m, directXof B SIG_DOMAIN (0 :: m) 64 = .ok (tinyDigest compat 1 false) := by
    intro m
    rw [hK B hB]
    simp only [f, List.head?_cons, Option.some.injEq, show ¬ ((0 : UInt8) = 1) by decide, decide_false]
  have hd1 : ∀ m, directXof B SIG_DOMAIN (1 :: m) 64 = .ok (tinyDigest compat 1 true) := by
    intro m
    rw [hK B hB]
    simp only [f, List.head?_cons, decide_true]
  obtain ⟨out, ho, hog⟩ := accepted_of_digest hB pedX epochBits extraBits 0 _ hd0 _
    (decodes_groupAccepts ha ((decodes_first48 (tinyDigest_length _ _ _) _).mpr h0) hg0)
  obtain ⟨out', ho', hog'⟩ := accepted_of_digest hB pedX epochBits extraBits 1 _ hd1 _
    (decodes_groupAccepts ha ((decodes_first48 (tinyDigest_length _ _ _) _).mpr h1) hg1)
  refine ⟨out, out', ho, ho', by rw [hog]; exact hg0, by rw [hog']; exact hg1, ?_, ?_⟩
  · rw [hog, hog', g1Scale_one, g1Scale_neg_one]
    exact hne2
  · rw [hog]
    unfold tryAndIncrementCip22
    rw [(C19_ok_iff compat _ hs g1Scale _ _ _ (g1Scale (.finite 1 sqrtTwo)) 0).mpr, Outcome.map_ok]
    refine ⟨_, rfl, by norm_num, ⟨tinyDigest compat 1 false, hd0 _, ?_⟩,
      fun c' hc' => absurd hc' (by omega)⟩
    exact ⟨by rw [tinyDigest_length]; omega, hg0, _, h0, rfl⟩

/-- C52 (violated), identity: for every epoch there is a BLAKE2s for which the circuit accepts the
identity as the hash (a digest whose point is killed by the cofactor), which the native hash never
returns; the native hash succeeds with another value. -/
theorem C52_violation_identity [DecidableEq G1Point] {alloc : G1Var → Prop}
    (ha : AllocCompleteG1 alloc) (compat : Bool) {sqrt : Fq → Option Fq} (hs : SqrtSpec sqrt)
    (pedX : Bytes → Fq) (epochBits extraBits : List Bool) :
    ∃ K : Blake2sCore, ∀ B, Blake2sAgree K B →
      (∃ out, hashBitsToG1C alloc compat K pedX true epochBits extraBits out ∧
        out.messageHash = 0) ∧
      ∃ g, g ≠ 0 ∧ tryAndIncrementCip22 compat
        (compositeHasher B fun m => .ok (leBytes 48 (pedX m).val)) sqrt g1Scale SIG_DOMAIN
        (bitsBeToBytesLe epochBits) (bitsBeToBytesLe extraBits) = .ok g := by
  let f : Bytes → Bytes := fun m => tinyDigest compat (if m.head? = some 0 then 1 else 0) false
  obtain ⟨K, hK⟩ := exists_core f fun m => tinyDigest_length _ _ _
  refine ⟨K, fun B hB => ?_⟩
  have h0 := (decodes_one compat).1
  have hg0 : g1Scale (.finite 1 sqrtTwo) ≠ 0 := by
    rw [g1Scale_one]; exact cofactor_onePoint_ne.1
  have hd0 : ∀ m, directXof B SIG_DOMAIN (0 :: m) 64 = .ok (tinyDigest compat 1 false) := by
    intro m
    rw [hK B hB]
    simp only [f, List.head?_cons, if_true]
  have hd1 : ∀ m, directXof B SIG_DOMAIN (1 :: m) 64 = .ok (tinyDigest compat 0 false) := by
    intro m
    rw [hK B hB]
    simp only [f, List.head?_cons, Option.some.injEq, show ¬ ((1 : UInt8) = 0) by decide, if_false]
  refine ⟨accepted_of_digest hB pedX epochBits extraBits 1 _ hd1 0 ?_, g1Scale (.finite 1 sqrtTwo), hg0, ?_⟩
  · have hz : (1 : Fq) * 1 = 0 ^ 3 + 1 := by norm_num
    obtain ⟨hlt, _, hx, _, hsgn⟩ := (decodes_first48 (tinyDigest_length compat 0 false) _).mpr
      (decodes_zero compat)
    refine ⟨⟨0, 1, 1⟩, ha 0 1 hz, ?_, (sign_iff hz one_ne_zero _).mpr hsgn, ?_⟩
    · change (0 : Fq).val = _
      rw [hx]
      exact ZMod.val_cast_of_lt hlt
    · rw [← g1Scale_some hz, g1Scale_zero_x 1 (by norm_num)]
  · unfold tryAndIncrementCip22
    rw [(C19_ok_iff compat _ hs g1Scale _ _ _ (g1Scale (.finite 1 sqrtTwo)) 0).mpr, Outcome.map_ok]
    refine ⟨_, rfl, by norm_num, ⟨tinyDigest compat 1 false, hd0 _, ?_⟩,
      fun c' hc' => absurd hc' (by omega)⟩
    exact ⟨by rw [tinyDigest_length]; omega, hg0, _, h0, rfl⟩

/-- C52 (violated), counter 255: for every epoch there is a BLAKE2s for which the native hash fails
(no counter below 255 is usable) while the circuit accepts a non-zero hash. -/
theorem C52_violation_255 [DecidableEq G1Point] {alloc : G1Var → Prop}
    (ha : AllocCompleteG1 alloc) (compat : Bool) {sqrt : Fq → Option Fq} (hs : SqrtSpec sqrt)
    (pedX : Bytes → Fq) (epochBits extraBits : List Bool) :
    ∃ K : Blake2sCore, ∀ B, Blake2sAgree K B →
      (∃ out, hashBitsToG1C alloc compat K pedX true epochBits extraBits out ∧
        out.messageHash ≠ 0) ∧
      tryAndIncrementCip22 compat
        (compositeHasher B fun m => .ok (leBytes 48 (pedX m).val)) sqrt g1Scale SIG_DOMAIN
        (bitsBeToBytesLe epochBits) (bitsBeToBytesLe extraBits) = .err .hashToCurveError := by
  let f : Bytes → Bytes := fun m => tinyDigest compat (if m.head? = some 255 then 1 else 0) false
  obtain ⟨K, hK⟩ := exists_core f fun m => tinyDigest_length _ _ _
  refine ⟨K, fun B hB => ?_⟩
  have h0 := (decodes_one compat).1
  have hg0 : g1Scale (.finite 1 sqrtTwo) ≠ 0 := by
    rw [g1Scale_one]; exact cofactor_onePoint_ne.1
  have hd255 : ∀ m, directXof B SIG_DOMAIN (255 :: m) 64 = .ok (tinyDigest compat 1 false) := by
    intro m
    rw [hK B hB]
    simp only [f, List.head?_cons, if_true]
  refine ⟨?_, ?_⟩
  · obtain ⟨out, ho, hog⟩ := accepted_of_digest hB pedX epochBits extraBits 255 _ hd255 _
      (decodes_groupAccepts ha ((decodes_first48 (tinyDigest_length _ _ _) _).mpr h0) hg0)
    exact ⟨out, ho, by rw [hog]; exact hg0⟩
  · unfold tryAndIncrementCip22
    rw [(C19_err_iff compat _ hs g1Scale _ _ _ .hashToCurveError).mpr, Outcome.map_err]
    refine Or.inr ⟨_, rfl, Or.inr ⟨rfl, fun c hc => ⟨f (UInt8.ofNat c :: _), hK B hB _, ?_⟩⟩⟩
    have hhead : ¬ (UInt8.ofNat c = 255) := by
      intro h
      have := congrArg UInt8.toNat h
      simp only [UInt8.toNat_ofNat'] at this
      have h255 : (255 : UInt8).toNat = 255 := rfl
      omega
    have hf : ∀ m, f (UInt8.ofNat c :: m) = tinyDigest compat 0 false := by
      intro m
      simp only [f, List.head?_cons, Option.some.injEq, if_neg hhead]
    rw [hf]
    refine ⟨by rw [tinyDigest_length]; omega, fun P hP => ?_⟩
    have := decodes_unique hP (decodes_zero compat)
    rw [this, g1Scale_zero_x 1 (by norm_num)]

/-! ## C53 -/

/-- C53 (violated): when the XOF is left to the helper, exactly this is enforced on the outputs of
the hash: the CRH bits are right, there are 512 XOF bits, and the group element is accepted for
them.  The XOF bits are not related to the message or the extra data at all. -/
theorem C53_free (alloc : G1Var → Prop) (compat : Bool) (K : Blake2sCore) (pedX : Bytes → Fq)
    (epochBits extraBits : List Bool) (out : HashOut G1Point) :
    hashBitsToG1C alloc compat K pedX false epochBits extraBits out ↔
      out.crhBits = bytesLeToBitsLe (leBytes 48 (pedX (bitsBeToBytesLe epochBits)).val) 384 ∧
      out.xofBits.length = 512 ∧
      GroupAccepts alloc compat (ofBitsLE out.xofBits) out.messageHash := by
  have hcrh : pedersenBits pedX (bitsBeToBytesLe epochBits) =
      bytesLeToBitsLe (leBytes 48 (pedX (bitsBeToBytesLe epochBits)).val) 384 := by
    rw [pedersenBits_eq, bytesLeToBitsLe_all _ _ (by rw [leBytes_length])]
  unfold hashBitsToG1C hashBitsToG1 enforceHashToGroup
  simp only [packBytes_eq, hashToBitsC, Bool.false_eq_true, if_false, Outcome.bind_ok]
  constructor
  · rintro ⟨w, sat, h1, h2⟩
    rw [Outcome.map_eq_ok_iff] at h1
    obtain ⟨⟨s, g⟩, h3, h4⟩ := h1
    simp only [Prod.mk.injEq] at h4
    obtain ⟨h4, h5⟩ := h4
    rw [← h4] at h2
    rw [← h5]
    have hl : w.xofBits.length = 512 := h2.1
    exact ⟨hcrh, hl, (hashToGroup_iff alloc compat w.xofBits (by omega) g).mp ⟨w.group, s, h3, h2.2⟩⟩
  · rintro ⟨h1, h2, h3⟩
    obtain ⟨gw, s, h4, h5⟩ := (hashToGroup_iff alloc compat _ (by omega) _).mpr h3
    refine ⟨⟨0, out.xofBits, gw⟩, out.xofBits.length = 512 ∧ s, ?_, h2, h5⟩
    rw [h4, Outcome.map_ok, hcrh, ← h1]

/-- C53 (violated), replay: a hash accepted for one message, with the XOF in the circuit or not, is
accepted for every other message when the XOF is left to the helper. -/
theorem C53_replay {alloc : G1Var → Prop} {compat : Bool} {K : Blake2sCore} {B : Blake2s}
    (hB : Blake2sAgree K B) {pedX : Bytes → Fq} {generate : Bool} {epochBits extraBits : List Bool}
    {out : HashOut G1Point} (h : hashBitsToG1C alloc compat K pedX generate epochBits extraBits out)
    (epochBits' extraBits' : List Bool) :
    ∃ out', hashBitsToG1C alloc compat K pedX false epochBits' extraBits' out' ∧
      out'.messageHash = out.messageHash ∧ out'.xofBits = out.xofBits := by
  refine ⟨⟨out.messageHash, bytesLeToBitsLe (leBytes 48 (pedX (bitsBeToBytesLe epochBits')).val) 384,
    out.xofBits⟩, ?_, rfl, rfl⟩
  rw [C53_free]
  simp only [true_and]
  cases generate
  · rw [C53_free] at h
    exact h.2
  · rw [C52_exact alloc compat hB] at h
    obtain ⟨c, d, hd, hg, hx, _⟩ := h
    obtain ⟨d', hd', hdl, _⟩ := xof_bits hB
      (xofInput c (bitsBeToBytesLe extraBits) (pedersenBits pedX (bitsBeToBytesLe epochBits)))
    rw [xofInput_bytes, hd] at hd'
    simp only [Outcome.ok.injEq] at hd'
    subst hd'
    rw [hx, ofBitsLE_bytes d 512 (by omega)]
    refine ⟨?_, hg⟩
    rw [bytesLeToBitsLe_all d 512 (by omega), flatMap_unpack_length]; omega

/-- C53 (violated), the result of the helper verification is discarded: two verifier gadgets which
emit the same constraints give the same circuit, whatever Booleans they return; in particular one
which returns false for every proof. -/
theorem C53_result_discarded {G1 GT HP : Type*} [AddCommGroup G1] [CommGroup GT]
    (alloc : G2Var → Prop) (hashC : Bool → List Bool → List Bool → HashOut G1 → Prop)
    (K : Blake2sCore) (groth groth' : List (List Bool) → HP → Outcome Unit (Prop × Bool))
    (hg : ∀ i p, (groth i p).map Prod.fst = (groth' i p).map Prod.fst)
    (e : G1 → G2Point → GT) (gen1 : G1) (gen2 : G2Point) (n : ℕ) (helper : Option HP)
    (c : CircuitVars G1) (inputs : List Fq) :
    epochCircuit alloc hashC K groth e gen1 gen2 n helper c inputs =
      epochCircuit alloc hashC K groth' e gen1 gen2 n helper c inputs := by
  unfold epochCircuit EpochBits.verify
  cases helper with
  | none => rfl
  | some p =>
    simp only []
    congr 1
    funext b
    have : verifyHelperProof groth b p = verifyHelperProof groth' b p := hg _ _
    rw [this]

theorem edges_complete {K : Blake2sCore} {B : Blake2s} (hB : Blake2sAgree K B) {gen2 : G2Point}
    {b0 b1 : EpochBlock} {b : EpochBits}
    (h0 : b.firstEpochBits = b0.encodeToBitsCip22 gen2 .first)
    (h1 : b.lastEpochBits = b1.encodeLastToBits gen2) :
    verifyEdgesC K b (publicInputs gen2 B b0 b1) := by
  unfold verifyEdgesC
  rw [C50_edge_hash hB, C50_edge_hash hB, h0, h1]
  obtain ⟨packed, h2, h3⟩ := C54_complete (p := FQ_MODULUS) (n := 377) (size := 376) (by norm_num)
    (by norm_num) FQ_bounds.1.le (hashFirstLast gen2 B b0 b1)
  have h4 : pack (hashFirstLast gen2 B b0 b1) = .ok packed := h2
  rw [pack_hashFirstLast] at h4
  rw [Outcome.ok.injEq] at h4
  rw [h4]
  exact h3

/-- C53 (violated), forgery: suppose a quorum of the validators of `b0` signed **any** message at
all, whose hash the gadget accepts (for instance the honest encoding of some other block).  With a
helper, that signature is accepted as a signature of the next block `b1`, with the verifier's public
inputs for `b0` and `b1`, whatever the helper proof is, as long as its constraints can be
satisfied; the Boolean it returns plays no role. -/
theorem C53_forgery {GT HP : Type*} [CommGroup GT] {alloc2 : G2Var → Prop}
    (halloc : AllocComplete alloc2) {alloc : G1Var → Prop} {compat : Bool} {K : Blake2sCore}
    {B : Blake2s} (hB : Blake2sAgree K B) {pedX : Bytes → Fq}
    {groth : List (List Bool) → HP → Outcome Unit (Prop × Bool)} {proof : HP}
    (hgroth : ∀ i, ∃ r, groth i proof = .ok r ∧ r.1)
    {e : G1Point → G2Point → GT} (hl : ∀ P P' Q, e (P + P') Q = e P Q * e P' Q)
    (hr : ∀ P Q Q', e P (Q + Q') = e P Q * e P Q') (gen1 : G1Point) {gen2 : G2Point} {n : ℕ} (k : ℕ)
    {b0 b1 dummy : EpochBlock} {h0 hd : HashOut G1Point} {bitmap : List Bool} {sig : G1Point}
    (hyp : Provable (fun _ _ _ => True) gen2 n b0 b1 dummy h0 hd)
    {generate : Bool} {signedBits signedExtra : List Bool} {out : HashOut G1Point}
    (hsigned : hashBitsToG1C alloc compat K pedX generate signedBits signedExtra out)
    (hbits : bitmap.length = n) (hcount : bitmap.count false ≤ b0.maximumNonSigners.toNat)
    (hpad : ∀ x ∈ b0.newPublicKeys.zip bitmap, x.2 = true → x.1 ≠ gen2)
    (hsig : e sig (-gen2) * e out.messageHash
      ((((b0.newPublicKeys.zip bitmap).filter (·.2)).map (·.1)).sum) = 1) :
    ∃ (c : CircuitVars G1Point) (sat : Prop),
      epochCircuit alloc2 (hashBitsToG1C alloc compat K pedX) K groth e gen1 gen2 n (some proof) c
        (publicInputs gen2 B b0 b1) = .ok sat ∧ sat ∧
      c.updates.length = k + 1 ∧ c.real.map (·.bitmap) = [bitmap] := by
  obtain ⟨h1, a1, a2, _⟩ := C53_replay hB hsigned (b1.encodeInnerToBitsCip22 gen2).1
    (b1.encodeInnerToBitsCip22 gen2).2
  obtain ⟨h2, a3, _⟩ := C53_replay hB hsigned (dummy.encodeInnerToBitsCip22 gen2).1
    (dummy.encodeInnerToBitsCip22 gen2).2
  have hyp' : Provable (hashBitsToG1C alloc compat K pedX false) gen2 n b0 b1 dummy h1 h2 :=
    { hyp with hash := a1, dummyHash := a3 }
  obtain ⟨c, b, c1, c2, c3, c4, c5, _, c7, _⟩ := C44_violation alloc2
    (hashBitsToG1C alloc compat K pedX false) (gen1 := gen1) hl hr halloc k hyp' hbits hcount hpad
    (by rw [a2]; exact hsig)
  obtain ⟨r, r1, r2⟩ := hgroth (leChunks b.crhBits 252 ++ leChunks b.xofBits 252)
  refine ⟨c, b.sat ∧ r.1 ∧ verifyEdgesC K b (publicInputs gen2 B b0 b1), ?_,
    ⟨c2, r2, edges_complete hB c3 c4⟩, c5, c7⟩
  have c1' : enforceEpochs alloc2 (hashBitsToG1C alloc compat K pedX (some proof).isNone) e gen1 gen2
      n c = .ok b := c1
  unfold epochCircuit
  rw [c1', Outcome.bind_ok]
  unfold EpochBits.verify verifyHelperProof
  simp only [r1, Outcome.map_ok]

/-- C53 (violated), what the honest helper hashes: the messages given to the helper circuit have 384
bits, the CRH alone and in reverse order, while the message hashed in the circuit also has the
counter and the seven bytes of extra data; the bytes hashed never agree. -/
theorem C53_helper_input {gen2 : G2Point} {pedX : Bytes → Fq} {G1 : Type*}
    {pedersen : Bytes → Outcome BLSError Bytes}
    (hped : ∀ m, pedersen m = .ok (leBytes 48 (pedX m).val)) (transitions : List (EpochTransition G1)) :
    ∃ ms, helperMessages gen2 pedersen transitions = .ok ms ∧
      ms = transitions.map (fun t =>
        (pedersenBits pedX (packBytes (t.block.encodeInnerToBitsCip22 gen2).1)).reverse) ∧
      (∀ m ∈ ms, m.length = 384 ∧ (bitsLeToBytesLe m).length = 48) ∧
      ∀ (b : EpochBlock) (counter : UInt8),
        let input := xofInput counter (packBytes (b.encodeInnerToBitsCip22 gen2).2)
          (pedersenBits pedX (packBytes (b.encodeInnerToBitsCip22 gen2).1))
        input.length = 448 ∧ (bitsLeToBytesLe input).length = 56 ∧
        ∀ m ∈ ms, bitsLeToBytesLe m ≠ bitsLeToBytesLe input := by
  have hlen : ∀ m, (pedersenBits pedX m).length = 384 := by
    intro m
    rw [pedersenBits_eq, flatMap_unpack_length, leBytes_length]
  have hms : helperMessages gen2 pedersen transitions = .ok (transitions.map fun t =>
      (pedersenBits pedX (packBytes (t.block.encodeInnerToBitsCip22 gen2).1)).reverse) := by
    unfold helperMessages
    apply mapM_map_ok
    intro t _
    rw [hped]
    simp only [EpochBlock.encodeInnerToBytes, packBytes_eq]
    rw [pedersenBits_eq]
    unfold bytesLeToBitsBe
    rw [List.take_of_length_le (by rw [flatMap_unpack_length, leBytes_length])]
  have h48 : ∀ m ∈ transitions.map (fun t =>
      (pedersenBits pedX (packBytes (t.block.encodeInnerToBitsCip22 gen2).1)).reverse),
      m.length = 384 ∧ (bitsLeToBytesLe m).length = 48 := by
    intro m hm
    obtain ⟨t, _, rfl⟩ := List.mem_map.mp hm
    have : (pedersenBits pedX (packBytes (t.block.encodeInnerToBitsCip22 gen2).1)).reverse.length =
        384 := by rw [List.length_reverse, hlen]
    refine ⟨this, ?_⟩
    unfold bitsLeToBytesLe
    rw [C26_bytes_length, List.length_reverse, this]
  refine ⟨_, hms, rfl, h48, fun b counter => ?_⟩
  have hx : (b.encodeInnerToBitsCip22 gen2).2.length = 56 := by
    simp [EpochBlock.encodeInnerToBitsCip22, encodeU8_length, encodeU16_length, encodeU32_length]
  have h56 : (bitsLeToBytesLe (xofInput counter (packBytes (b.encodeInnerToBitsCip22 gen2).2)
      (pedersenBits pedX (packBytes (b.encodeInnerToBitsCip22 gen2).1)))).length = 56 := by
    rw [packBytes_eq, packBytes_eq, xofInput_bytes]
    simp only [List.length_cons, List.length_append, leBytes_length, C26_bytes_length, hx]
  refine ⟨?_, h56, fun m hm h => ?_⟩
  · unfold xofInput
    rw [List.length_append, List.length_append, hlen, packBytes_eq,
      show byteBits = unpackByte 8 from funext byteBits_eq, flatMap_unpack_length, C26_bytes_length, hx]
    simp [unpackByte]
  · have := congrArg List.length h
    rw [(h48 m hm).2, h56] at this
    omega

/-! ## C62 (G1) -/

/-- The projective curve equation, all that is checked for the coordinates of the witness of the
hash if `z` is left free. -/
def OnCurveG1 (v : G1Var) : Prop := v.z ≠ 0 ∧ v.y ^ 2 * v.z = v.x ^ 3 + v.z ^ 3

/-- C62 (G1, violated): if `z` is free, the bits of `x` and the sign, taken from the digest, do not
determine the point: for every digest with `0 < x < q` (whether or not `x` is on the curve) the
circuit accepts the cofactor multiple of **every** point of the curve with non-zero coordinates, up
to sign. -/
theorem C62_hash_violation (compat : Bool) (D : ℕ) (h0 : 0 < D % 2 ^ 377)
    (hq : D % 2 ^ 377 < FQ_MODULUS) (a b : Fq) (hab : b * b = a ^ 3 + 1) (ha : a ≠ 0) (hb : b ≠ 0) :
    GroupAccepts OnCurveG1 compat D (g1Scale (.finite a b)) ∨
    GroupAccepts OnCurveG1 compat D (g1Scale (.finite a (-b))) := by
  set X : Fq := ((D % 2 ^ 377 : ℕ) : Fq) with hX
  have hXv : X.val = D % 2 ^ 377 := ZMod.val_cast_of_lt hq
  have hX0 : X ≠ 0 := by
    intro h
    rw [h, ZMod.val_zero] at hXv
    omega
  have hz : X / a ≠ 0 := div_ne_zero hX0 ha
  have key : ∀ b' : Fq, b' * b' = a ^ 3 + 1 →
      SignOk (X / a * b') (D.testBit (signBit compat)) →
      GroupAccepts OnCurveG1 compat D (g1Scale (.finite a b')) := by
    intro b' hb' hs
    refine ⟨⟨X, X / a * b', X / a⟩, ⟨hz, ?_⟩, hXv, hs, ?_⟩
    · simp only []
      have : (X / a * b') ^ 2 * (X / a) = (X / a) ^ 3 * (b' * b') := by ring
      rw [this, hb']
      field_simp
    · have e1 : X / (X / a) = a := by field_simp
      have e2 : X / a * b' / (X / a) = b' := by field_simp
      have hn := g1_nonsingular a b' hb'
      have hn1 : g1Curve.Nonsingular (a / 1) (b' / 1) := by rw [div_one, div_one]; exact hn
      have hn2 : g1Curve.Nonsingular (X / (X / a)) (X / a * b' / (X / a)) := by
        rw [e1, e2]; exact hn
      have p1 : (⟨a, b', 1⟩ : G1Var).point = .some _ _ hn1 := by
        unfold G1Var.point
        exact dif_pos ⟨one_ne_zero, hn1⟩
      have p2 : (⟨X, X / a * b', X / a⟩ : G1Var).point = .some _ _ hn2 := by
        unfold G1Var.point
        exact dif_pos ⟨hz, hn2⟩
      rw [g1Scale_some hb', p1, p2]
      congr 2
      · rw [div_one, e1]
      · rw [div_one, e2]
  have hy : X / a * b ≠ 0 := mul_ne_zero hz hb
  have hneg := fq_neg_val hy
  have h4 : FQ_MODULUS = 2 * halfOf FQ_MODULUS + 1 := by decide +kernel
  have hlt : (X / a * b).val < FQ_MODULUS := ZMod.val_lt _
  by_cases hs : D.testBit (signBit compat) = decide ((X / a * b).val > halfOf FQ_MODULUS)
  · exact Or.inl (key b hab (Or.inl hs))
  · refine Or.inr (key (-b) (by rw [neg_mul_neg]; exact hab) (Or.inl ?_))
    rw [mul_neg, hneg]
    have e3 : (FQ_MODULUS - (X / a * b).val > halfOf FQ_MODULUS) ↔
        ¬ ((X / a * b).val > halfOf FQ_MODULUS) := by omega
    rw [decide_eq_decide.mpr e3, decide_not]
    generalize decide ((X / a * b).val > halfOf FQ_MODULUS) = u at hs
    generalize D.testBit (signBit compat) = v at hs
    revert hs
    cases u <;> cases v <;> decide

/-- C62 (G1, violated), replay: hence, with the XOF computed in the circuit, for every epoch some
counter of which gives a digest with `0 < x < q`, the circuit accepts as its hash the native hash of
any other message, up to sign; so signatures of other messages (negated if need be) are accepted. -/
theorem C62_hash_replay (compat : Bool) {K : Blake2sCore} {B : Blake2s} (hB : Blake2sAgree K B)
    (pedX : Bytes → Fq) (epochBits extraBits : List Bool) (c : UInt8) (d : Bytes)
    (hd : directXof B SIG_DOMAIN (c :: (bitsBeToBytesLe extraBits ++
      leBytes 48 (pedX (bitsBeToBytesLe epochBits)).val)) 64 = .ok d)
    (h0 : 0 < leValue d % 2 ^ 377) (hq : leValue d % 2 ^ 377 < FQ_MODULUS)
    [DecidableEq G1Point] (hasher : Hasher) {sqrt : Fq → Option Fq} (hs : SqrtSpec sqrt)
    (domain message extra : Bytes) (g : G1Point)
    (hg : tryAndIncrementCip22 compat hasher sqrt g1Scale domain message extra = .ok g) :
    ∃ out, hashBitsToG1C OnCurveG1 compat K pedX true epochBits extraBits out ∧
      (out.messageHash = g ∨ out.messageHash = -g) := by
  have hg' : ∃ n, hashWithAttemptCip22 compat hasher sqrt g1Scale domain message extra =
      .ok (g, n) := by
    unfold tryAndIncrementCip22 at hg
    rw [Outcome.map_eq_ok_iff] at hg
    obtain ⟨⟨g', n⟩, h1, h2⟩ := hg
    exact ⟨n, by rw [h1, ← h2]⟩
  obtain ⟨n, hn⟩ := hg'
  obtain ⟨_, _, _, ⟨d', _, _, hne, Q, hQ, hQg⟩, _⟩ := (C19_ok_iff compat _ hs g1Scale _ _ _ g n).mp hn
  have finish : ∀ g', GroupAccepts OnCurveG1 compat (leValue d) g' →
      ∃ out, hashBitsToG1C OnCurveG1 compat K pedX true epochBits extraBits out ∧
        out.messageHash = g' := by
    intro g' h
    refine ⟨⟨g', bytesLeToBitsLe (leBytes 48 (pedX (bitsBeToBytesLe epochBits)).val) 384,
      bytesLeToBitsLe d 512⟩, ?_, rfl⟩
    rw [C52_exact OnCurveG1 compat hB]
    refine ⟨c, d, hd, h, ?_, ?_⟩
    · simp only []
    · simp only []
  cases Q with
  | infinity => exact absurd (hQg.symm.trans g1Scale_infinity) hne
  | finite a b =>
    obtain ⟨_, _, _, hab, _⟩ := hQ
    have ha : a ≠ 0 := by
      intro h
      rw [h] at hQg hab
      exact hne (hQg.symm.trans (g1Scale_zero_x b (by rw [hab]; ring)))
    have hb : b ≠ 0 := by
      intro h
      rw [h] at hQg
      exact hne (hQg.symm.trans (g1Scale_zero_y a))
    rcases C62_hash_violation compat (leValue d) h0 hq a b hab ha hb with h | h
    · obtain ⟨out, h1, h2⟩ := finish _ h
      exact ⟨out, h1, Or.inl (h2.trans hQg)⟩
    · obtain ⟨out, h1, h2⟩ := finish _ h
      refine ⟨out, h1, Or.inr ?_⟩
      rw [h2, g1Scale_neg hab, hQg]

/-! ## Concrete cases -/

/-- A BLAKE2s with the given XOF, on both sides. -/
theorem exists_blake (f : Bytes → Bytes) (hf : ∀ m, (f m).length = 64) :
    ∃ (K : Blake2sCore) (B : Blake2s), Blake2sAgree K B ∧
      ∀ m, directXof B SIG_DOMAIN m 64 = .ok (f m) := by
  obtain ⟨K, hK⟩ := exists_core f hf
  exact ⟨K, Blake2s.ofCore K, Blake2s.ofCore_agree K, hK _ (Blake2s.ofCore_agree K)⟩

/-- Concrete case for C51: a digest for which native hashing succeeds with a non-zero element and the
first counter; the circuit accepts it with that element, with the XOF in the circuit or not. -/
example [DecidableEq G1Point] (compat generate : Bool) (epochBits extraBits : List Bool) :
    ∃ (K : Blake2sCore) (out : HashOut G1Point), out.messageHash = G1_COFACTOR • onePoint ∧
      out.messageHash ≠ 0 ∧
      hashBitsToG1C affineOnly compat K (fun _ => 5) generate epochBits extraBits out := by
  obtain ⟨K, B, hB, hx⟩ := exists_blake (fun _ => tinyDigest compat 1 false)
    fun m => tinyDigest_length _ _ _
  have hg0 : g1Scale (.finite 1 sqrtTwo) ≠ 0 := by
    rw [g1Scale_one]; exact cofactor_onePoint_ne.1
  have hnat : hashWithAttemptCip22 compat
      (compositeHasher B fun _ => .ok (leBytes 48 (5 : Fq).val)) someSqrt g1Scale SIG_DOMAIN
      (bitsBeToBytesLe epochBits) (bitsBeToBytesLe extraBits) =
        .ok (g1Scale (.finite 1 sqrtTwo), 0) := by
    rw [C19_ok_iff compat _ someSqrt_spec]
    refine ⟨_, rfl, by norm_num, ⟨tinyDigest compat 1 false, hx _, ?_⟩,
      fun c' hc' => absurd hc' (by omega)⟩
    exact ⟨by rw [tinyDigest_length]; omega, hg0, _, (decodes_one compat).1, rfl⟩
  obtain ⟨out, w, sat, _, h2, _, _, h5, h6⟩ := C51_native affineOnly_complete compat hB someSqrt_spec
    (fun _ => 5) (fun _ => .ok (leBytes 48 (5 : Fq).val)) generate epochBits extraBits rfl _ _ hnat
  rw [g1Scale_one] at h2
  refine ⟨K, out, h2, ?_, w, sat, h5, h6⟩
  rw [h2]
  exact cofactor_onePoint_ne.1

/-- Concrete case for C53: for **every** bilinear pairing, a signature on an unrelated message (no
bits at all) by the only validator of block 4 is accepted for block 5, although the helper's verifier
gadget returns false. -/
example {GT : Type*} [CommGroup GT] (compat : Bool) (e : G1Point → G2Point → GT)
    (hl : ∀ P P' Q, e (P + P') Q = e P Q * e P' Q) (hr : ∀ P Q Q', e P (Q + Q') = e P Q * e P Q')
    (gen1 : G1Point) :
    ∃ (K : Blake2sCore) (B : Blake2s) (out : HashOut G1Point) (c : CircuitVars G1Point) (sat : Prop),
      Blake2sAgree K B ∧ out.messageHash ≠ 0 ∧
      hashBitsToG1C affineOnly compat K (fun _ => 5) true [] [] out ∧
      epochCircuit (fun v => v.z = 1) (hashBitsToG1C affineOnly compat K fun _ => 5) K
        (fun _ (_ : Unit) => .ok (True, false)) e gen1 g2Generator 1 (some ()) c
        (publicInputs g2Generator B (toyBlock 4) (toyBlock 5)) = .ok sat ∧ sat ∧
      c.updates.length = 3 ∧ c.real.map (·.bitmap) = [[true]] := by
  obtain ⟨K, B, hB, hx⟩ := exists_blake (fun _ => tinyDigest compat 1 false)
    fun m => tinyDigest_length _ _ _
  have hg0 : g1Scale (.finite 1 sqrtTwo) ≠ 0 := by
    rw [g1Scale_one]; exact cofactor_onePoint_ne.1
  obtain ⟨out, ho, hog⟩ := accepted_of_digest hB (fun _ => 5) [] [] 0 _ (fun m => hx _) _
    (decodes_groupAccepts affineOnly_complete
      ((decodes_first48 (tinyDigest_length compat 1 false) _).mpr (decodes_one compat).1) hg0)
  have tp := toy_provable 4
  have hyp : Provable (fun _ _ _ => True) g2Generator 1 (toyBlock 4) (toyBlock (4 + 1)) (toyBlock 0)
      out out := ⟨tp.size, tp.keys, tp.finite, tp.validators, tp.entropies, tp.index, tp.dummyIndex,
        trivial, trivial, tp.last⟩
  have hzero : ∀ Q, e 0 Q = 1 := by
    intro Q
    have := hl 0 0 Q
    rw [add_zero] at this
    exact (mul_eq_left.mp this.symm)
  obtain ⟨c, sat, h1, h2, h3, h4⟩ := C53_forgery (alloc2 := fun v => v.z = 1) (fun _ _ _ => rfl) hB
    (groth := fun _ (_ : Unit) => .ok (True, false)) (proof := ())
    (fun i => ⟨_, rfl, trivial⟩) hl hr gen1 2 hyp ho (bitmap := [true]) (sig := -out.messageHash)
    rfl (by decide)
    (by
      intro x hx _
      change x ∈ [(toyKey, true)] at hx
      rw [List.mem_singleton.mp hx]
      exact toyKey_ne_gen)
    (by
      change e (-out.messageHash) (-g2Generator) * e out.messageHash [toyKey].sum = 1
      have hk : toyKey = -g2Generator := rfl
      rw [List.sum_singleton, hk, ← hl, neg_add_cancel, hzero])
  exact ⟨K, B, out, c, sat, hB, by rw [hog]; exact hg0, ho, h1, h2, h3, h4⟩

/-- Concrete case for C62 (G1): with `z` free, the digest with `x = 1` is also accepted with a point
with another `x`, here `x = 2`, `y = 3`. -/
example : GroupAccepts OnCurveG1 false 1 (g1Scale (.finite 2 3)) ∨
    GroupAccepts OnCurveG1 false 1 (g1Scale (.finite 2 (-3))) :=
  C62_hash_violation false 1 (by decide +kernel) (by decide +kernel) 2 3 (by norm_num)
    (by decide +kernel) (by decide +kernel)

/-- Concrete case for `C62_hash_replay`: with `z` free, a circuit whose digest has `x = 1` is satisfied
with the hash of any other message, or its negative. -/
example [DecidableEq G1Point] (hasher : Hasher) (domain message extra : Bytes)
    (g : G1Point)
    (hg : tryAndIncrementCip22 false hasher someSqrt g1Scale domain message extra = .ok g) :
    ∃ (K : Blake2sCore) (out : HashOut G1Point),
      hashBitsToG1C OnCurveG1 false K (fun _ => 5) true [true] [] out ∧
      (out.messageHash = g ∨ out.messageHash = -g) := by
  obtain ⟨K, B, hB, hx⟩ := exists_blake (fun _ => tinyDigest false 1 false)
    fun m => tinyDigest_length _ _ _
  exact ⟨K, C62_hash_replay false hB (fun _ => 5) [true] [] 0 _ (hx _) (by decide +kernel)
    (by decide +kernel) hasher someSqrt_spec domain message extra g hg⟩

/-- Concrete case for `C53_replay`: bits that hash to a non-zero element, and other bits for which the
circuit without the XOF accepts the same element. -/
example [DecidableEq G1Point] (compat : Bool) :
    ∃ (K : Blake2sCore) (out out' : HashOut G1Point), out.messageHash ≠ 0 ∧
      hashBitsToG1C affineOnly compat K (fun _ => 5) true [] [] out ∧
      hashBitsToG1C affineOnly compat K (fun _ => 5) false [true, true] [false] out' ∧
      out'.messageHash = out.messageHash := by
  obtain ⟨K, B, hB, hx⟩ := exists_blake (fun _ => tinyDigest compat 1 false)
    fun m => tinyDigest_length _ _ _
  have hg0 : g1Scale (.finite 1 sqrtTwo) ≠ 0 := by
    rw [g1Scale_one]; exact cofactor_onePoint_ne.1
  obtain ⟨out, ho, hog⟩ := accepted_of_digest hB (fun _ => 5) [] [] 0 _ (fun m => hx _) _
    (decodes_groupAccepts affineOnly_complete
      ((decodes_first48 (tinyDigest_length compat 1 false) _).mpr (decodes_one compat).1) hg0)
  obtain ⟨out', h1, h2, -⟩ := C53_replay hB ho [true, true] [false]
  exact ⟨K, out, out', by rw [hog]; exact hg0, ho, h1, h2⟩

end Verif
