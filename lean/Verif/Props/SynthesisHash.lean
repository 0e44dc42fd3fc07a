import Verif.Lemmas.SynthesisHash
import Verif.Props.SynthesisProver
import Verif.Props.HashGadget

/-!
# Hashing to G1 as rank-1 constraints

C119: the constraints that `hash_bits_to_g1` emits (counter, Pedersen bits, XOF bits, decoding to a point, clearing
of the cofactor) are sound for the relation of C52 and C53; the prover's run of them succeeds whenever the native
hash does, with the native point; and the whole circuit of C116-C118 may contain them instead of an assumed hash.
-/

set_option linter.unusedSectionVars false
set_option exponentiation.threshold 800

namespace Verif

section

variable {G : HashGadgets} {K : Blake2sCore} {pedX : Bytes → Fq} {N : HashNative} {compat drop : Bool}

/-- C119, soundness with the XOF in the circuit: whatever native functions suggested the values, in every
satisfying assignment the message hash is the cofactor times a point whose `x` and sign are those of the XOF of
some counter, the extra data and the Pedersen hash of the epoch; and the bits passed on are those of the digests. -/
theorem C119_sound {ρ : R1Var → Fq} (h1 : ρ .one = 1) (hG : G.SoundAt ρ K pedX) (hS : G.Shaped) {B : Blake2s}
    (hB : Blake2sAgree K B) {xs ys : List BoolV} {ts us : List Bool} (hx : List.Forall₂ (BitIs ρ) xs ts)
    (hy : List.Forall₂ (BitIs ρ) ys us) {cs : ConstraintSystem FQ_MODULUS}
    {r : HashV FQ_MODULUS × ConstraintSystem FQ_MODULUS}
    (hr : hashBitsToG1V G N compat drop true xs ys cs = .ok r) (hs : r.2.Sat ρ) :
    ∃ (counter : UInt8) (digest : Bytes) (v : G1Var),
      directXof B SIG_DOMAIN (counter :: (bitsBeToBytesLe us ++
        leBytes 48 (pedX (bitsBeToBytesLe ts)).val)) 64 = .ok digest ∧
      v.coords.OnCurve 1 ∧ v.x.val = leValue digest % 2 ^ 377 ∧
      SignOk v.y ((leValue digest).testBit (signBit compat)) ∧
      (g1At ρ r.1.messageHash).coords.OnCurve 1 ∧
      (g1At ρ r.1.messageHash).point = G1_COFACTOR • v.point ∧
      List.Forall₂ (BitIs ρ) r.1.xofBits (bytesLeToBitsLe digest 512) ∧
      List.Forall₂ (BitIs ρ) r.1.crhBits (bytesLeToBitsLe (leBytes 48 (pedX (bitsBeToBytesLe ts)).val) 384) := by
  obtain ⟨out, ho, k1, k2, k3, k4⟩ := sound_hashBitsToG1V h1 hG hS true hx hy cs r hr hs
  obtain ⟨c, d, hd, ⟨v, v1, v2, v3, v4⟩, e1, e2⟩ := (C52_exact OnG1 compat hB pedX ts us out).1 ho
  exact ⟨c, d, v, hd, v1, v2, v3, k1, k2.trans v4, e1 ▸ k4, e2 ▸ k3⟩

/-- C119, soundness with the XOF left to the helper: 512 bits, tied to the point but not to the message. -/
theorem C119_sound_helper {ρ : R1Var → Fq} (h1 : ρ .one = 1) (hG : G.SoundAt ρ K pedX) (hS : G.Shaped)
    {xs ys : List BoolV} {ts us : List Bool} (hx : List.Forall₂ (BitIs ρ) xs ts)
    (hy : List.Forall₂ (BitIs ρ) ys us) {cs : ConstraintSystem FQ_MODULUS}
    {r : HashV FQ_MODULUS × ConstraintSystem FQ_MODULUS}
    (hr : hashBitsToG1V G N compat drop false xs ys cs = .ok r) (hs : r.2.Sat ρ) :
    ∃ (xof : List Bool) (v : G1Var), xof.length = 512 ∧
      v.coords.OnCurve 1 ∧ v.x.val = ofBitsLE xof % 2 ^ 377 ∧
      SignOk v.y ((ofBitsLE xof).testBit (signBit compat)) ∧
      (g1At ρ r.1.messageHash).coords.OnCurve 1 ∧
      (g1At ρ r.1.messageHash).point = G1_COFACTOR • v.point ∧
      List.Forall₂ (BitIs ρ) r.1.xofBits xof ∧
      List.Forall₂ (BitIs ρ) r.1.crhBits (bytesLeToBitsLe (leBytes 48 (pedX (bitsBeToBytesLe ts)).val) 384) := by
  obtain ⟨out, ho, k1, k2, k3, k4⟩ := sound_hashBitsToG1V h1 hG hS false hx hy cs r hr hs
  obtain ⟨e2, e1, v, v1, v2, v3, v4⟩ := (C53_free OnG1 compat K pedX ts us out).1 ho
  exact ⟨out.xofBits, v, e1, v1, v2, v3, k1, k2.trans v4, k4, e2 ▸ k3⟩

/-- C119, the prover's run: from every system whose constraints its values satisfy, if the native hash of the
message succeeds, then the run that emits the hash constraints succeeds, its values satisfy them too, and the
message hash has the value of the native hash. -/
theorem C119_run (hG : G.RunsAt K pedX) {B : Blake2s} (hB : Blake2sAgree K B) {sqrt : Fq → Option Fq}
    (hsq : SqrtSpec sqrt) {pedersen : Bytes → Outcome BLSError Bytes}
    (hped : ∀ m d, pedersen m = .ok d → d = leBytes 48 (pedX m).val) {cs : ConstraintSystem FQ_MODULUS} (hg : cs.Good)
    (hs : cs.setup = false) (generate : Bool) {xs ys : List BoolV} {ts us : List Bool}
    (hx : List.Forall₂ (BitAt cs) xs ts) (hy : List.Forall₂ (BitAt cs) ys us) [DecidableEq G1Point] {g : G1Point}
    (hn : tryAndIncrementCip22 compat (compositeHasher B pedersen) sqrt g1Scale SIG_DOMAIN (bitsBeToBytesLe ts)
      (bitsBeToBytesLe us) = .ok g) :
    ∃ r, hashBitsToG1V G (hashNative compat B pedersen sqrt) compat drop generate xs ys cs = .ok r ∧
      r.2.Sat r.2.rho ∧ r.2.Closed ∧ (g1At r.2.rho r.1.messageHash).coords.OnCurve 1 ∧
      (g1At r.2.rho r.1.messageHash).point = g ∧ r.1.xofBits.length = 512 := by
  obtain ⟨⟨g', n⟩, hn', rfl⟩ := (Outcome.map_eq_ok_iff _ _ _).1 hn
  have hcrh : pedersen (bitsBeToBytesLe ts) = .ok (leBytes 48 (pedX (bitsBeToBytesLe ts)).val) := by
    obtain ⟨d, hd, _⟩ := (C19_ok_iff compat _ hsq _ _ _ _ _ _).1 hn'
    rw [← hped _ _ hd]
    exact hd
  obtain ⟨out, w, sat, h1, h2, _, _, h5, h6⟩ := C51_native onG1_complete compat hB hsq pedX pedersen generate ts us
    hcrh g' n hn'
  obtain ⟨r, hr, gr, er, ⟨k, k1, k2, k3⟩, _, kx⟩ := step_hashBitsToG1V (drop := drop) hG hB hsq hped hg hs hx hy h1
  have hs' : r.2.setup = false := er.setup.trans hs
  have hk : g1At r.2.rho r.1.messageHash = k := by
    unfold g1At
    rw [k1.1.rho hs', k1.2.1.rho hs', k1.2.2.rho hs']
  refine ⟨r, hr, gr.sat hs', gr.closed, by rw [hk]; exact k2, by rw [hk]; exact k3.trans h2, ?_⟩
  have hl : out.xofBits.length = 512 := by
    have ho : hashBitsToG1C OnG1 compat K pedX generate ts us out := ⟨w, sat, h5, h6⟩
    cases generate
    · exact ((C53_free OnG1 compat K pedX ts us out).1 ho).2.1
    · obtain ⟨c, d, hd, _, e, _⟩ := (C52_exact OnG1 compat hB pedX ts us out).1 ho
      obtain ⟨d', hd', hdl, _⟩ := xof_bits hB
        (xofInput c (bitsBeToBytesLe us) (pedersenBits pedX (bitsBeToBytesLe ts)))
      rw [xofInput_bytes, hd] at hd'
      rw [← Outcome.ok.inj hd'] at hdl
      rw [e, bytesLeToBitsLe_all d 512 (by omega), flatMap_unpack_length]; omega
  rw [kx.length_eq, hl]

end

section

variable {HP VK GT : Type} [CommGroup GT] {O : OuterGadgets (HashToBitsHelper HP VK)}
  {hashC : Bool → List Bool → List Bool → HashOut G1Point → Prop}
  {hashW : Bool → List Bool → List Bool → Outcome Unit (HashOut G1Point)}
  {e : G1Point → G2Point → GT} {gen2 : G2Point} {K : Blake2sCore} {pedX : Bytes → Fq}
  {groth : VK → List (List Bool) → HP → Outcome Unit (Prop × Bool)} {N : HashNative} {compat drop : Bool}
  {ped : List (List BoolV) → Synth FQ_MODULUS (LinComb FQ_MODULUS)}

/-- C119: what is emitted for the hash depends on the lengths of its inputs only, exposes nothing, and is emitted
by the setup whenever it is by a prover; so with these constraints in place of the hash gadget the conditions of
C116-C118 hold if they do for the other gadgets. -/
theorem C119_shaped (hO : O.Shaped) (hp : ∀ m, Alike (ped m) (ped m)) : (O.withHash ped N compat drop).Shaped :=
  ⟨fun _ _ _ => alike_hashBitsToG1V (G := ⟨ped, O.blake⟩) hp hO.blake _ _ _ _ _ _, hO.prepareG1, hO.prepareG2,
    hO.verify, hO.blake, hO.groth⟩

theorem C119_keeps (hO : O.Keeps) (hp : ∀ m, KeepsInputs (ped m)) : (O.withHash ped N compat drop).Keeps :=
  ⟨fun _ _ _ => keeps_hashBitsToG1V (G := ⟨ped, O.blake⟩) hp hO.blake _ _ _ _ _ _, hO.prepareG1, hO.prepareG2,
    hO.verify, hO.blake, hO.groth⟩

theorem C119_setsUp (hO : O.SetsUp) (hp : ∀ m, SetupFollows (ped m) (ped m)) :
    (O.withHash ped N compat drop).SetsUp :=
  ⟨fun _ _ _ => follows_hashBitsToG1V (G := ⟨ped, O.blake⟩) hp hO.blake _ _ _ _ _ _, hO.prepareG1, hO.prepareG2,
    hO.verify, hO.blake, hO.groth⟩

/-- C119, for the whole circuit: soundness (C116, C118) with the relation of C52 and C53. -/
theorem C119_circuit_sound {ρ : R1Var → Fq} (h1 : ρ .one = 1) {isG1 : O.PG1 → G1Point → Prop}
    {isG2 : O.PG2 → G2Point → Prop} (hO : O.SoundAt ρ hashC e gen2 K groth isG1 isG2) (hS : O.Shaped)
    (hp : ∀ m bytes, BytesIs ρ m bytes → Sound ρ (ped m) fun x => evalLc ρ x = pedX bytes)
    (hpS : ∀ m, Alike (ped m) (ped m)) :
    (O.withHash ped N compat drop).SoundAt ρ (fun g ts us out => hashBitsToG1C OnG1 compat K pedX g ts us out) e
      gen2 K groth isG1 isG2 := by
  refine ⟨fun b xs ys ts us hx hy cs r hr hs => ?_, hO.prepareG1, hO.prepareG2, hO.verify, hO.blake, hO.groth⟩
  obtain ⟨out, ho, k1, k2, k3, k4⟩ := sound_hashBitsToG1V (G := ⟨ped, O.blake⟩) h1 ⟨hp, hO.blake⟩ ⟨hpS, hS.blake⟩
    b hx hy cs r hr hs
  exact ⟨out, ho, k1, k2, k3, k4⟩

/-- C119, for the whole circuit: the prover's run (C117, C118) with the values that the native hash suggests. -/
theorem C119_circuit_runs {isG1 : ConstraintSystem FQ_MODULUS → O.PG1 → G1Point → Prop}
    {isG2 : ConstraintSystem FQ_MODULUS → O.PG2 → G2Point → Prop}
    (hO : O.RunsAt hashC hashW e gen2 K groth isG1 isG2)
    (hp : ∀ {cs m bytes}, cs.Good → cs.setup = false → BytesAt cs m bytes →
      Step cs (ped m) fun c x => LcAt c x (pedX bytes))
    {B : Blake2s} (hB : Blake2sAgree K B) {sqrt : Fq → Option Fq} (hsq : SqrtSpec sqrt)
    {pedersen : Bytes → Outcome BLSError Bytes} (hped : ∀ m d, pedersen m = .ok d → d = leBytes 48 (pedX m).val) :
    (O.withHash ped (hashNative compat B pedersen sqrt) compat drop).RunsAt
      (fun g ts us out => hashBitsToG1C OnG1 compat K pedX g ts us out)
      (fun g ts us => hashBitsToG1Out compat K B pedersen pedX sqrt g ts us) e gen2 K groth isG1 isG2 := by
  refine ⟨hO.extG1, hO.extG2, fun hg hs hx hy hw _ => ?_, hO.prepareG1, hO.prepareG2, hO.verify, hO.blake,
    hO.groth⟩
  refine (step_hashBitsToG1V (G := ⟨ped, O.blake⟩) (drop := drop) ⟨hp, hO.blake⟩ hB hsq hped hg hs hx hy hw).mono
    fun c h _ k => ⟨k.point, k.crhBits, k.xofBits⟩

end

/-! ## Examples -/

/-- A BLAKE2s with constant digests whose XOF decodes to the point with `x = 1`. -/
theorem oneCore (compat : Bool) : ∃ K : Blake2sCore, (∀ b m m', K.digest b m = K.digest b m') ∧
    ∀ B, Blake2sAgree K B → ∀ m, directXof B SIG_DOMAIN m 64 = .ok (tinyDigest compat 1 false) := by
  obtain ⟨K, h1, h2⟩ := exists_core' (fun _ => tinyDigest compat 1 false) fun _ => tinyDigest_length _ _ _
  exact ⟨K, fun b m m' => h1 b m m' rfl, h2⟩

/-- Gadgets for it, with a constant Pedersen hash. -/
def oneGadgets (K : Blake2sCore) : HashGadgets :=
  ⟨fun _ => Synth.pure (lcConst 5), fun _ b => Synth.pure ((K.evaluate [] b).map BoolV.constant)⟩

theorem oneGadgets_evaluate {K : Blake2sCore} (hK : ∀ b m m', K.digest b m = K.digest b m') (ts : List Bool)
    (b : Bytes) : K.evaluate ts b = K.evaluate [] b := by
  unfold Blake2sCore.evaluate
  rw [hK b _ (bitsLeToBytesLe [])]

theorem forall₂_map_constant {R : BoolV → Bool → Prop} (h : ∀ t, R (.constant t) t) (l : List Bool) :
    List.Forall₂ R (l.map BoolV.constant) l := by
  rw [List.forall₂_map_left_iff]
  exact forall₂_same' h l

theorem oneGadgets_runs {K : Blake2sCore} (hK : ∀ b m m', K.digest b m = K.digest b m') :
    (oneGadgets K).RunsAt K fun _ => 5 :=
  ⟨fun hg _ _ => step_pure hg (lcAt_const _ _), @fun _ _ ts b hg _ _ _ => step_pure hg (by
    rw [oneGadgets_evaluate hK ts]
    exact forall₂_map_constant (fun t => bitAt_constant _ t) _)⟩

theorem oneGadgets_sound {K : Blake2sCore} (hK : ∀ b m m', K.digest b m = K.digest b m') {ρ : R1Var → Fq}
    (h1 : ρ .one = 1) : (oneGadgets K).SoundAt ρ K fun _ => 5 :=
  ⟨fun _ _ _ => sound_pure (by simp [lcConst, evalLc, h1]), fun _ ts b _ _ => sound_pure (by
    rw [oneGadgets_evaluate hK ts]
    exact forall₂_map_constant (fun t => (bitIs_constant h1).2 rfl) _)⟩

theorem oneGadgets_shaped (K : Blake2sCore) : (oneGadgets K).Shaped :=
  ⟨fun _ => alike_pure _, fun _ _ => alike_pure _⟩

/-- The native hash with it. -/
theorem oneCore_native [DecidableEq G1Point] {compat : Bool} {B : Blake2s}
    (hX : ∀ m, directXof B SIG_DOMAIN m 64 = .ok (tinyDigest compat 1 false)) (m x : Bytes) :
    hashWithAttemptCip22 compat (compositeHasher B fun _ => .ok (leBytes 48 (5 : Fq).val)) someSqrt
      g1Scale SIG_DOMAIN m x = .ok (G1_COFACTOR • onePoint, 0) := by
  rw [← g1Scale_one, C19_ok_iff compat _ someSqrt_spec]
  refine ⟨_, rfl, by norm_num, ⟨tinyDigest compat 1 false, hX _, ?_⟩, fun c' hc' => absurd hc' (by omega)⟩
  exact ⟨by rw [tinyDigest_length]; omega, by rw [g1Scale_one]; exact cofactor_onePoint_ne.1, _,
    (decodes_one compat).1, rfl⟩

/-- C119 for constant bits from an empty system, with and without the helper: the run exists, its values satisfy
its constraints, and the message hash is the native, non-zero one. -/
example (compat drop generate : Bool) : ∃ (K : Blake2sCore) (r : HashV FQ_MODULUS × ConstraintSystem FQ_MODULUS),
    hashBitsToG1V (oneGadgets K) (hashNative compat (Blake2s.ofCore K) (fun _ => .ok (leBytes 48 (5 : Fq).val))
      someSqrt) compat drop generate [.constant true, .constant false] [.constant true] (.new FQ_MODULUS false) =
        .ok r ∧
    r.2.Sat r.2.rho ∧ (g1At r.2.rho r.1.messageHash).point = G1_COFACTOR • onePoint ∧
    G1_COFACTOR • onePoint ≠ 0 ∧ r.1.xofBits.length = 512 := by
  classical
  obtain ⟨K, hK, hX⟩ := oneCore compat
  obtain ⟨r, h1, h2, _, _, h5, h6⟩ := C119_run (drop := drop) (oneGadgets_runs hK) (Blake2s.ofCore_agree K)
    someSqrt_spec (pedersen := fun _ => .ok (leBytes 48 (5 : Fq).val)) (fun _ _ h => (Outcome.ok.inj h).symm)
    (new_good FQ_MODULUS false) rfl generate
    (xs := [.constant true, .constant false]) (ys := [.constant true]) (ts := [true, false]) (us := [true])
    (.cons (bitAt_constant _ _) (.cons (bitAt_constant _ _) .nil)) (.cons (bitAt_constant _ _) .nil)
    (by
      unfold tryAndIncrementCip22
      rw [oneCore_native (hX _ (Blake2s.ofCore_agree K)), Outcome.map_ok])
  exact ⟨K, r, h1, h2, h5, cofactor_onePoint_ne.1, h6⟩

/-- C119, soundness for that run: the hypotheses are met by its own assignment. -/
example (compat drop : Bool) : ∃ (K : Blake2sCore) (r : HashV FQ_MODULUS × ConstraintSystem FQ_MODULUS),
    hashBitsToG1V (oneGadgets K) (hashNative compat (Blake2s.ofCore K) (fun _ => .ok (leBytes 48 (5 : Fq).val))
      someSqrt) compat drop true [.constant true] [] (.new FQ_MODULUS false) = .ok r ∧ r.2.Sat r.2.rho ∧
    ∃ v : G1Var, v.x = 1 ∧ (g1At r.2.rho r.1.messageHash).point = G1_COFACTOR • v.point := by
  classical
  obtain ⟨K, hK, hX⟩ := oneCore compat
  obtain ⟨r, h1, h2, _⟩ := C119_run (drop := drop) (oneGadgets_runs hK) (Blake2s.ofCore_agree K)
    someSqrt_spec (pedersen := fun _ => .ok (leBytes 48 (5 : Fq).val)) (fun _ _ h => (Outcome.ok.inj h).symm)
    (new_good FQ_MODULUS false) rfl true
    (xs := [.constant true]) (ys := []) (ts := [true]) (us := []) (.cons (bitAt_constant _ _) .nil) .nil
    (by
      unfold tryAndIncrementCip22
      rw [oneCore_native (hX _ (Blake2s.ofCore_agree K)), Outcome.map_ok])
  obtain ⟨c, d, v, k1, _, k3, _, _, k6, _⟩ := C119_sound (ρ := r.2.rho) rfl (oneGadgets_sound hK rfl)
    (oneGadgets_shaped K) (Blake2s.ofCore_agree K) (ts := [true]) (us := [])
    (.cons ((bitIs_constant rfl).2 rfl) .nil) .nil h1 h2
  rw [hX _ (Blake2s.ofCore_agree K)] at k1
  rw [← Outcome.ok.inj k1] at k3
  refine ⟨K, r, h1, h2, v, ?_, k6⟩
  have hx := ((decodes_first48 (tinyDigest_length compat 1 false) _).mpr (decodes_one compat).1)
  obtain ⟨hlt, _, hx, _⟩ := hx
  have : v.x = ((leValue (tinyDigest compat 1 false) % 2 ^ 377 : ℕ) : Fq) := by
    rw [← k3, ZMod.natCast_zmod_val]
  rw [this, hx]

/-- The gadgets of the example of C117, with these for the hash. -/
noncomputable def hashOuter (compat drop : Bool) (K : Blake2sCore) : OuterGadgets (HashToBitsHelper Unit Unit) :=
  OuterGadgets.withHash { toyOuter with blake := (oneGadgets K).blake } (oneGadgets K).pedersen
    (hashNative compat (Blake2s.ofCore K) (fun _ => .ok (leBytes 48 (5 : Fq).val)) someSqrt) compat drop

theorem hashOuter_runs (compat drop : Bool) {K : Blake2sCore} (hK : ∀ b m m', K.digest b m = K.digest b m') :
    (hashOuter compat drop K).RunsAt (fun g ts us out => hashBitsToG1C OnG1 compat K (fun _ => 5) g ts us out)
      (fun g ts us => hashBitsToG1Out compat K (Blake2s.ofCore K) (fun _ => .ok (leBytes 48 (5 : Fq).val))
        (fun _ => 5) someSqrt g ts us)
      (fun _ _ => (1 : Multiplicative ℤ)) genVar.point K (fun _ _ _ => .ok (True, true))
      (fun c w P => ∃ k, G1At c w k ∧ k.point = P) (fun c w P => ∃ k, G2At c w k ∧ k.point = P) := by
  refine C119_circuit_runs (O := { toyOuter with blake := (oneGadgets K).blake })
    (hashC := fun _ _ _ out => out = outerHash) (hashW := fun _ _ _ => .ok outerHash)
    (groth := fun _ _ _ => .ok (True, true)) (e := fun _ _ => (1 : Multiplicative ℤ)) (gen2 := genVar.point)
    (isG1 := fun c w P => ∃ k, G1At c w k ∧ k.point = P) (isG2 := fun c w P => ∃ k, G2At c w k ∧ k.point = P)
    ⟨toyOuter_runs.extG1, toyOuter_runs.extG2, @fun _ b _ _ _ _ _ => toyOuter_runs.hash (b := b),
      toyOuter_runs.prepareG1, toyOuter_runs.prepareG2, toyOuter_runs.verify, (oneGadgets_runs hK).blake,
      @fun _ _ _ h _ => toyOuter_runs.groth (h := h)⟩
    (oneGadgets_runs hK).pedersen (Blake2s.ofCore_agree K) someSqrt_spec fun _ _ h => (Outcome.ok.inj h).symm

theorem hashOuter_keeps (compat drop : Bool) (K : Blake2sCore) : (hashOuter compat drop K).Keeps :=
  C119_keeps (O := { toyOuter with blake := (oneGadgets K).blake })
    ⟨toyOuter_keeps.hash, toyOuter_keeps.prepareG1, toyOuter_keeps.prepareG2, toyOuter_keeps.verify,
      fun _ _ => keeps_pure _, toyOuter_keeps.groth⟩ fun _ => keeps_pure _

theorem hashOuter_shaped (compat drop : Bool) (K : Blake2sCore) : (hashOuter compat drop K).Shaped :=
  C119_shaped (O := { toyOuter with blake := (oneGadgets K).blake })
    ⟨toyOuter_shaped.hash, toyOuter_shaped.prepareG1, toyOuter_shaped.prepareG2, toyOuter_shaped.verify,
      fun _ _ => alike_pure _, toyOuter_shaped.groth⟩ fun _ => alike_pure _

theorem hashOuter_setsUp (compat drop : Bool) (K : Blake2sCore) : (hashOuter compat drop K).SetsUp :=
  C119_setsUp (O := { toyOuter with blake := (oneGadgets K).blake })
    ⟨toyOuter_setsUp.hash, toyOuter_setsUp.prepareG1, toyOuter_setsUp.prepareG2, toyOuter_setsUp.verify,
      fun _ _ => follows_pure _, toyOuter_setsUp.groth⟩ fun _ => follows_pure _

/-- C119, soundness of the whole circuit, for these gadgets. -/
example (compat drop : Bool) {ρ : R1Var → Fq} (h1 : ρ .one = 1) : ∃ K : Blake2sCore,
    (hashOuter compat drop K).SoundAt ρ (fun g ts us out => hashBitsToG1C OnG1 compat K (fun _ => 5) g ts us out)
      (fun _ _ => (1 : Multiplicative ℤ)) genVar.point K (fun _ _ _ => .ok (True, true))
      (fun w P => (g1At ρ w).point = P) (fun w P => (keyAt ρ w).point = P) := by
  obtain ⟨K, hK, _⟩ := oneCore compat
  have h := toyOuter_sound h1
  refine ⟨K, C119_circuit_sound (O := { toyOuter with blake := (oneGadgets K).blake }) h1
    (hashC := fun _ _ _ out => out = ⟨(⟨1, sqrtTwo, 1⟩ : G1Var).point, [], []⟩)
    ⟨h.hash, h.prepareG1, h.prepareG2, h.verify, (oneGadgets_sound hK h1).blake, h.groth⟩
    ⟨toyOuter_shaped.hash, toyOuter_shaped.prepareG1, toyOuter_shaped.prepareG2, toyOuter_shaped.verify,
      fun _ _ => alike_pure _, toyOuter_shaped.groth⟩ (oneGadgets_sound hK h1).pedersen fun _ => alike_pure _⟩

/-- C119 in the whole circuit: the run for the blocks 4, 5 and 6, in a circuit of five updates, with the hash as
constraints; and the setup's run. -/
example (compat oc oc' drop drop' : Bool) : ∃ (K : Blake2sCore) (s : ValidatorSetUpdate G1Point)
    (r u : List (LinComb FQ_MODULUS) × ConstraintSystem FQ_MODULUS),
    proverCircuit (⟨1, sqrtTwo, 1⟩ : G1Var).point g2Generator 1 (chainBlock [toyKey] 0 4)
        ([nativeStep 5] ++ [nativeStep 6]) 5 = .ok s ∧
    generateConstraints (hashOuter compat drop' K) oc drop (1, sqrtTwo)
        ((g2GenX.re, g2GenX.im), (g2GenY.re, g2GenY.im)) (s.toOpt none) (.new FQ_MODULUS false) = .ok r ∧
    r.2.numInst = 2 ∧ r.2.Sat r.2.rho ∧
    generateConstraints (hashOuter compat drop' K) oc' drop (1, sqrtTwo)
      ((g2GenX.re, g2GenX.im), (g2GenY.re, g2GenY.im)) (ValidatorSetUpdateOpt.empty () 1 5 0 none)
      (.new FQ_MODULUS true) = .ok u ∧ SameShape u.2 r.2 := by
  classical
  obtain ⟨K, hK, hX⟩ := oneCore compat
  have hX := hX _ (Blake2s.ofCore_agree K)
  have hh : ∀ ts us, ∃ out, hashBitsToG1Out compat K (Blake2s.ofCore K)
      (fun _ => .ok (leBytes 48 (5 : Fq).val)) (fun _ => 5) someSqrt true ts us = .ok out ∧
      hashBitsToG1C OnG1 compat K (fun _ => 5) true ts us out := by
    intro ts us
    obtain ⟨out, w, sat, h1, _, _, _, h5, h6⟩ := C51_native onG1_complete compat (Blake2s.ofCore_agree K)
      someSqrt_spec (fun _ => (5 : Fq)) (fun _ => .ok (leBytes 48 (5 : Fq).val)) true ts us rfl _ _
      (oneCore_native hX _ _)
    exact ⟨out, h1, w, sat, h5, h6⟩
  choose out ho1 ho2 using hh
  have hchain : HonestChain (G1 := G1Point) (hashBitsToG1C OnG1 compat K (fun _ => 5) true)
      (hashBitsToG1Out compat K (Blake2s.ofCore K) (fun _ => .ok (leBytes 48 (5 : Fq).val)) (fun _ => 5)
        someSqrt true) (fun _ _ => (1 : Multiplicative ℤ)) g2Generator 1
      (fun b => out (b.encodeInnerToBitsCip22 g2Generator).1 (b.encodeInnerToBitsCip22 g2Generator).2)
      (chainBlock [toyKey] 0 4) ([nativeStep 5] ++ [nativeStep 6]) :=
    ⟨log_chain.blocks, log_chain.index, log_chain.entropy, log_chain.bitmap, log_chain.padding,
      fun _ _ => ⟨ho1 _ _, ho2 _ _⟩, fun _ _ => one_mul _⟩
  have h := C117_honest (O := hashOuter compat drop' K) (a := (1, sqrtTwo))
    (d := ((g2GenX.re, g2GenX.im), (g2GenY.re, g2GenY.im))) onePoint_on genVar_denotes
    (hashOuter_runs compat drop' hK) (hashOuter_keeps compat drop' K)
    oc drop (Blake2s.ofCore_agree K) (fun _ _ _ => (one_mul _).symm) (fun _ _ _ => (one_mul _).symm)
    none (n := 1) (by norm_num) (by decide +kernel) (max := 5)
    (toyOuter_gen.symm ▸ hchain) (by decide)
    (fun _ => ⟨genVar_point_ne, by
      rw [toyOuter_gen]
      change g2Generator ∉ [toyKey]
      rw [List.mem_singleton]
      exact fun h => toyKey_ne_gen h.symm, _, ho1 _ _, ho2 _ _⟩)
    (by
      change [toyKey].sum ≠ 0
      rw [List.sum_singleton]
      exact toyKey_ne) (fun _ h => nomatch h)
  rw [toyOuter_gen] at h
  obtain ⟨s, r, h1, h2, _, h4, _, h6⟩ := h
  have hshape := (C75_shape_iff (HP := Unit) (VK := Unit) _ _ () 1 5 0 none (by norm_num) _ _ 5 (by simp) none h1).2
    ⟨rfl, rfl, by
      intro t ht
      simp only [List.cons_append, List.nil_append, List.mem_cons, List.not_mem_nil, or_false] at ht
      rcases ht with rfl | rfl <;> exact ⟨rfl, rfl⟩, rfl⟩
  obtain ⟨u, hu, _, hu2⟩ := C117_setup (hashOuter_shaped compat drop' K) (hashOuter_setsUp compat drop' K)
    (oc' := oc') hshape.symm h2
  exact ⟨K, s, r, u, h1, h2, h4, h6, hu, hu2⟩

end Verif
