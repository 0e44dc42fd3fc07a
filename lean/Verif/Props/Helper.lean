import Verif.Props.Setup

/-!
# The statement of the helper proof: C83

The epoch circuit hands the bits of its CRHs and XOFs to the verifier of the helper proof
(`crates/epoch-snark/src/gadgets/epoch_bits.rs:104-146`), as little-endian pieces; the helper circuit
(`crates/epoch-snark/src/gadgets/hash_to_bits.rs:35-69`) exposes its bits packed into field elements
big-endian (`crates/epoch-snark/src/gadgets/pack.rs:14-51`).  C83: both denote the same field elements,
and these determine the bits; so what the helper proves is about the CRHs and XOFs of the circuit.
The helper of the prover nevertheless proves another statement.
-/

namespace Verif

set_option linter.unusedSectionVars false
set_option exponentiation.threshold 800

/-- The field element denoted by a little-endian list of bits: `Σ 2^i` over the positions `i` of the
bits set.  This is how the verifier of the helper reads its inputs (`BooleanInputVar`,
ark_crypto_primitives, external, used at
`crates/epoch-snark/src/gadgets/epoch_bits.rs:125-129`). -/
def inputValue (p : ℕ) (bits : List Bool) : ZMod p :=
  ∑ i ∈ Finset.range bits.length, if bits[i]? = some true then 2 ^ i else 0

theorem inputValue_eq (p : ℕ) (bits : List Bool) : inputValue p bits = (ofBitsLE bits : ZMod p) := by
  unfold inputValue
  induction bits with
  | nil => simp [ofBitsLE]
  | cons b bs ih =>
    rw [List.length_cons, Finset.sum_range_succ']
    simp only [List.getElem?_cons_succ, List.getElem?_cons_zero, pow_zero]
    have : (∑ i ∈ Finset.range bs.length, if bs[i]? = some true then (2 : ZMod p) ^ (i + 1) else 0) =
        2 * ∑ i ∈ Finset.range bs.length, if bs[i]? = some true then (2 : ZMod p) ^ i else 0 := by
      rw [Finset.mul_sum]
      refine Finset.sum_congr rfl fun i _ => ?_
      split
      · ring
      · simp
    rw [this, ih]
    cases b
    · simp [ofBitsLE]
    · simp [ofBitsLE]; ring

theorem chunk252_value_lt {c : List Bool} (hc : c.length ≤ 252) :
    ofBitsLE c.reverse < FR_MODULUS := by
  have h1 := ofBitsLE_lt c.reverse
  rw [List.length_reverse] at h1
  have h2 : (2 : ℕ) ^ c.length ≤ 2 ^ 252 := Nat.pow_le_pow_right (by norm_num) hc
  have h3 : (2 : ℕ) ^ 252 < FR_MODULUS := by decide
  omega

/-- C83: the field elements the helper circuit assigns to its packed public inputs are the values of
the little-endian pieces the epoch circuit hands to the verifier, for all bits. -/
theorem C83_values (bits : List Bool) :
    multipackWitness 252 bits = .ok ((leChunks bits 252).map (inputValue FR_MODULUS)) := by
  unfold multipackWitness leChunks
  rw [List.map_map]
  apply mapM_map_ok
  intro c hc
  have := (chunks_mem_length (by norm_num) bits c hc).1
  simp only [Function.comp_apply, inputValue_eq, fromBitsBe_eq]
  rw [if_pos (chunk252_value_lt this)]

/-- C83: those values satisfy the packing constraints of the helper circuit on the same bits, and on
no other bits of that length. -/
theorem C83_unique {bits bits' : List Bool} (hl : bits.length = bits'.length) :
    multipackC 253 252 bits ((leChunks bits' 252).map (inputValue FR_MODULUS)) ↔ bits = bits' := by
  rw [multipackC_iff (by norm_num) (by norm_num)]
  unfold leChunks
  rw [List.map_map, List.forall₂_map_right_iff]
  have hcl := chunks_map_length (n := 252) (by norm_num) bits bits' hl
  have hlt : ∀ c ∈ chunks 252 bits', c.length ≤ 252 := fun c hc =>
    (chunks_mem_length (by norm_num) bits' c hc).1
  have key : List.Forall₂ (fun a c => ZMod.val ((inputValue FR_MODULUS ∘ List.reverse) c) %
      2 ^ a.length = ofBitsLE a.reverse) (chunks 252 bits) (chunks 252 bits') ↔
      chunks 252 bits = chunks 252 bits' := by
    generalize chunks 252 bits = cs at hcl
    generalize chunks 252 bits' = ds at hcl hlt
    induction cs generalizing ds with
    | nil =>
      cases ds with
      | nil => simp
      | cons d ds => simp at hcl
    | cons c cs ih =>
      cases ds with
      | nil => simp at hcl
      | cons d ds =>
        simp only [List.map_cons, List.cons.injEq] at hcl
        have hd := hlt d List.mem_cons_self
        rw [List.forall₂_cons, List.cons.injEq,
          ih ds hcl.2 fun c hc => hlt c (List.mem_cons_of_mem _ hc)]
        refine and_congr_left fun _ => ?_
        simp only [Function.comp_apply, inputValue_eq]
        rw [ZMod.val_natCast, Nat.mod_eq_of_lt (chunk252_value_lt hd),
          Nat.mod_eq_of_lt (by
            have := ofBitsLE_lt d.reverse
            rwa [List.length_reverse, ← hcl.1] at this)]
        constructor
        · intro h
          exact List.reverse_injective (ofBitsLE_inj (by simp [hcl.1]) h.symm)
        · rintro rfl; rfl
  rw [key]
  constructor
  · intro h
    rw [← chunks_flatten (n := 252) (by norm_num) bits, h, chunks_flatten (by norm_num)]
  · rintro rfl; rfl

/-- What a sound verifier of the helper proof guarantees of its inputs, the little-endian pieces `i`:
the helper circuit, for messages of 384 bits (those of its setup,
`crates/epoch-snark/src/api/setup.rs:87-91` and
`crates/epoch-snark/src/gadgets/hash_to_bits.rs:26-31`), is
satisfied with their values as public inputs. -/
def HelperStatement (K : Blake2sCore) (i : List (List Bool)) : Prop :=
  ∃ (messages : List (List Bool)) (mi xi : List (ZMod FR_MODULUS)) (sat : Prop),
    (∀ m ∈ messages, m.length = 384) ∧ helperCircuit K messages mi xi = .ok sat ∧ sat ∧
    mi ++ xi = i.map (inputValue FR_MODULUS)

theorem hashToBitsBlake_length (K : Blake2sCore) (m : List Bool) :
    ∃ o, hashToBitsBlake K m 512 SIG_DOMAIN = .ok o ∧ o.length = 512 := by
  refine ⟨_, if_neg (by decide), ?_⟩
  rw [List.length_flatMap]
  have : ((512 : UInt16) / 256).toNat = 2 := by decide
  rw [this]
  have hl : ∀ a b, (K.evaluate a b).length = 256 := by
    intro a b
    unfold Blake2sCore.evaluate
    rw [bytesLeToBitsLe_all _ 256 (by rw [K.length_digest]), flatMap_unpack_length,
      K.length_digest]
  simp only [hl]
  rfl

/-- Pieces of equal length are determined by their concatenation. -/
theorem flatten_inj_of_length {α : Type*} {n : ℕ} {l l' : List (List α)}
    (h : ∀ x ∈ l, x.length = n) (h' : ∀ x ∈ l', x.length = n) (hl : l.length = l'.length)
    (e : l.flatten = l'.flatten) : l = l' := by
  induction l generalizing l' with
  | nil => cases l' with
    | nil => rfl
    | cons => simp at hl
  | cons x l ih =>
    cases l' with
    | nil => simp at hl
    | cons y l' =>
      rw [List.flatten_cons, List.flatten_cons] at e
      obtain ⟨e1, e2⟩ := List.append_inj e
        (by rw [h x List.mem_cons_self, h' y List.mem_cons_self])
      rw [e1, ih (fun z hz => h z (List.mem_cons_of_mem _ hz))
        (fun z hz => h' z (List.mem_cons_of_mem _ hz)) (by simpa using hl) e2]

section

variable {G1 GT : Type*} [AddCommGroup G1] [CommGroup GT]

theorem enforce_crh_xof {alloc : G2Var → Prop}
    {hashC : List Bool → List Bool → HashOut G1 → Prop} {e : G1 → G2Point → GT} {gen1 : G1}
    {gen2 : G2Point} {n : ℕ} {c : CircuitVars G1} {b : EpochBits}
    (hb : enforceEpochs alloc hashC e gen1 gen2 n c = .ok b) :
    b.crhBits = (c.updates.map (·.hash.crhBits)).flatten ∧
      b.xofBits = (c.updates.map (·.hash.xofBits)).flatten := by
  obtain ⟨i1, i2⟩ := intermediateLoop_shape alloc hashC gen1 gen2 n (!c.entropyZero.2) c.last
    c.updates ⟨c.initial.pubkeys, c.initial.index, c.initial.epochEntropy,
      c.initial.maximumNonSigners⟩
  unfold enforceEpochs at hb
  by_cases h : (∀ u ∈ c.updates, u.epoch.keys.length = n) ∧
    (∀ u ∈ c.updates.head?, u.bitmap.length = c.initial.pubkeys.length) ∧
    (∀ u ∈ c.updates.tail, u.bitmap.length = min n c.initial.pubkeys.length)
  · obtain ⟨r, hr, _, _, l3, l4⟩ := i1 h
    rw [hr, Outcome.bind_ok, Outcome.map_eq_ok_iff] at hb
    obtain ⟨_, _, rfl⟩ := hb
    exact ⟨by rw [l3, List.flatMap_def], by rw [l4, List.flatMap_def]⟩
  · rw [i2 h] at hb; cases hb

/-- Exactly what a satisfied helper circuit says when its public inputs are those of the epoch
circuit. -/
theorem helper_inputs_iff (K : Blake2sCore) {messages crhs xofs : List (List Bool)}
    (hm : ∀ m ∈ messages, m.length = 384) (hc : ∀ m ∈ crhs, m.length = 384)
    (hx : ∀ m ∈ xofs, m.length = 512) (hcx : crhs.length = xofs.length) :
    (∃ (mi xi : List (ZMod FR_MODULUS)) (sat : Prop), helperCircuit K messages mi xi = .ok sat ∧
      sat ∧ mi ++ xi = (leChunks crhs.flatten 252 ++ leChunks xofs.flatten 252).map
        (inputValue FR_MODULUS)) ↔
      messages = crhs ∧
        List.Forall₂ (fun m x => hashToBitsBlake K m 512 SIG_DOMAIN = .ok x) crhs xofs := by
  have flen : ∀ {n : ℕ} {l : List (List Bool)}, (∀ m ∈ l, m.length = n) →
      l.flatten.length = n * l.length := by
    intro n l h
    rw [List.length_flatten, List.map_congr_left (g := fun _ => n) h]
    simp [mul_comm]
  have hos : ∃ os, Outcome.mapM (fun m => hashToBitsBlake K m 512 SIG_DOMAIN) messages = .ok os ∧
      (∀ o ∈ os, o.length = 512) ∧ os.length = messages.length := by
    clear hm
    induction messages with
    | nil => exact ⟨[], rfl, by simp, rfl⟩
    | cons m ms ih =>
      obtain ⟨o, ho, hol⟩ := hashToBitsBlake_length K m
      obtain ⟨os, h1, h2, h3⟩ := ih
      refine ⟨o :: os, ?_, ?_, by simp [h3]⟩
      · rw [Outcome.mapM_eq_ok_iff] at h1 ⊢
        exact .cons ho h1
      · intro x hx'
        rcases List.mem_cons.mp hx' with rfl | h
        · exact hol
        · exact h2 x h
  obtain ⟨os, h1, h2, h3⟩ := hos
  have hcirc : ∀ mi xi, helperCircuit K messages mi xi =
      .ok (multipackC 253 252 messages.flatten mi ∧ multipackC 253 252 os.flatten xi) := by
    intro mi xi
    unfold helperCircuit helperBits
    rw [h1]
    rfl
  constructor
  · rintro ⟨mi, xi, sat, a1, a2, a3⟩
    rw [hcirc] at a1
    cases a1
    obtain ⟨b1, b2⟩ := a2
    have l1 := b1.length_eq
    have l2 := b2.length_eq
    rw [chunks_length (by norm_num), flen hm] at l1
    rw [chunks_length (by norm_num), flen h2] at l2
    have l3 := congrArg List.length a3
    simp only [leChunks, List.length_append, List.length_map] at l3
    rw [chunks_length (by norm_num), chunks_length (by norm_num), flen hc, flen hx] at l3
    have hk : messages.length = crhs.length := by omega
    rw [List.map_append] at a3
    obtain ⟨rfl, rfl⟩ := List.append_inj a3 (by
      rw [List.length_map, leChunks, List.length_map, chunks_length (by norm_num), flen hc]
      omega)
    rw [C83_unique (by rw [flen hm, flen hc, hk])] at b1
    rw [C83_unique (by rw [flen h2, flen hx, h3, hk, hcx])] at b2
    have e1 := flatten_inj_of_length hm hc hk b1
    have e2 := flatten_inj_of_length h2 hx (by rw [h3, hk, hcx]) b2
    refine ⟨e1, ?_⟩
    rw [Outcome.mapM_eq_ok_iff, e1, e2] at h1
    exact h1
  · rintro ⟨rfl, hf⟩
    have : os = xofs := by
      rw [← Outcome.mapM_eq_ok_iff, h1] at hf
      cases hf; rfl
    subst this
    exact ⟨_, _, _, hcirc _ _, ⟨(C83_unique rfl).mpr rfl, (C83_unique rfl).mpr rfl⟩,
      (List.map_append).symm⟩

/-- C83: what the helper binds.  With a sound verifier whose result **is enforced** (in the code its
Boolean is discarded, C53), the XOF bits of every update, dummies included, are the BLAKE2Xs expansion
of the CRH bits of that update. -/
theorem C83_binding {HP : Type*} {alloc : G2Var → Prop}
    {hashC : List Bool → List Bool → HashOut G1 → Prop} {e : G1 → G2Point → GT} {gen1 : G1}
    {gen2 : G2Point} {n : ℕ} {c : CircuitVars G1} {b : EpochBits} (K : Blake2sCore)
    {groth : List (List Bool) → HP → Outcome Unit (Prop × Bool)} {proof : HP}
    (hgroth : ∀ i r, groth i proof = .ok r → r.1 → HelperStatement K i)
    (hb : enforceEpochs alloc hashC e gen1 gen2 n c = .ok b)
    (hl : ∀ u ∈ c.updates, u.hash.crhBits.length = 384 ∧ u.hash.xofBits.length = 512)
    {sat : Prop} (hv : verifyHelperProof groth b proof = .ok sat) (hs : sat) :
    ∀ u ∈ c.updates, hashToBitsBlake K u.hash.crhBits 512 SIG_DOMAIN = .ok u.hash.xofBits := by
  unfold verifyHelperProof at hv
  rw [Outcome.map_eq_ok_iff] at hv
  obtain ⟨r, hr, rfl⟩ := hv
  obtain ⟨messages, mi, xi, sat, h1, h2, h3, h4⟩ := hgroth _ r hr hs
  obtain ⟨e1, e2⟩ := enforce_crh_xof hb
  rw [e1, e2] at h4
  have := ((helper_inputs_iff K h1 (by simpa using fun u hu => (hl u hu).1)
    (by simpa using fun u hu => (hl u hu).2) (by simp)).mp ⟨mi, xi, sat, h2, h3, h4⟩).2
  rw [List.forall₂_map_left_iff, List.forall₂_map_right_iff, List.forall₂_same] at this
  exact this

/-- C83: and conversely the statement is true whenever the XOFs are the expansions of the CRHs: a
helper for the messages of the circuit has the public inputs the epoch circuit expects. -/
theorem C83_complete {alloc : G2Var → Prop}
    {hashC : List Bool → List Bool → HashOut G1 → Prop} {e : G1 → G2Point → GT} {gen1 : G1}
    {gen2 : G2Point} {n : ℕ} {c : CircuitVars G1} {b : EpochBits} (K : Blake2sCore)
    (hb : enforceEpochs alloc hashC e gen1 gen2 n c = .ok b)
    (hl : ∀ u ∈ c.updates, u.hash.crhBits.length = 384)
    (hx : ∀ u ∈ c.updates, hashToBitsBlake K u.hash.crhBits 512 SIG_DOMAIN = .ok u.hash.xofBits) :
    ∃ (mi xi : List (ZMod FR_MODULUS)) (sat : Prop),
      helperCircuit K (c.updates.map (·.hash.crhBits)) mi xi = .ok sat ∧ sat ∧
      mi ++ xi = (leChunks b.crhBits 252 ++ leChunks b.xofBits 252).map (inputValue FR_MODULUS) := by
  obtain ⟨e1, e2⟩ := enforce_crh_xof hb
  rw [e1, e2]
  have hx' : ∀ u ∈ c.updates, u.hash.xofBits.length = 512 := by
    intro u hu
    obtain ⟨o, h1, h2⟩ := hashToBitsBlake_length K u.hash.crhBits
    rw [hx u hu] at h1
    cases h1; exact h2
  refine (helper_inputs_iff K (by simpa using hl) (by simpa using hl)
    (by simpa using hx') (by simp)).mpr ⟨rfl, ?_⟩
  rw [List.forall₂_map_left_iff, List.forall₂_map_right_iff, List.forall₂_same]
  exact hx

/-- C83 (violated), the helper of the prover: its messages are the CRHs in **reverse**
(`crates/epoch-snark/src/api/prover.rs:85-109`).  Its public inputs are those the epoch circuit
expects for the same transitions only if, for each transition, the lowest seven bits of the CRH are
zero and the bits of the CRH are a palindrome. -/
theorem C83_prover_helper {alloc : G2Var → Prop}
    {hashC : List Bool → List Bool → HashOut G1 → Prop} {e : G1 → G2Point → GT} {gen1 : G1}
    {gen2 : G2Point} {n : ℕ} {c : CircuitVars G1} {b : EpochBits} (K : Blake2sCore)
    {pedX : Bytes → Fq} {pedersen : Bytes → Outcome BLSError Bytes}
    (hped : ∀ m, pedersen m = .ok (leBytes 48 (pedX m).val))
    (hb : enforceEpochs alloc hashC e gen1 gen2 n c = .ok b) {ts : List (EpochTransition G1)}
    (hc : c.updates.map (·.hash.crhBits) = ts.map fun t =>
      pedersenBits pedX (packBytes (t.block.encodeInnerToBitsCip22 gen2).1))
    (hl : ∀ u ∈ c.updates, u.hash.xofBits.length = 512) {ms : List (List Bool)}
    (hms : helperMessages gen2 pedersen ts = .ok ms) {mi xi : List (ZMod FR_MODULUS)} {sat : Prop}
    (h : helperCircuit K ms mi xi = .ok sat) (hs : sat)
    (hin : mi ++ xi = (leChunks b.crhBits 252 ++ leChunks b.xofBits 252).map
      (inputValue FR_MODULUS)) :
    ∀ t ∈ ts,
      let crh := pedX (packBytes (t.block.encodeInnerToBitsCip22 gen2).1)
      crh.val % 128 = 0 ∧ ∀ i < 384, crh.val.testBit i = crh.val.testBit (383 - i) := by
  obtain ⟨ms', h1, h2, h3, _⟩ := C53_helper_input (gen2 := gen2) hped ts
  rw [hms] at h1
  cases h1
  obtain ⟨e1, e2⟩ := enforce_crh_xof hb
  rw [e1, e2] at hin
  have hplen : ∀ m, (pedersenBits pedX m).length = 384 := by
    intro m
    rw [pedersenBits_eq, flatMap_unpack_length, leBytes_length]
  have hcl : ∀ m ∈ c.updates.map (·.hash.crhBits), m.length = 384 := by
    rw [hc]
    intro m hm
    obtain ⟨t, _, rfl⟩ := List.mem_map.mp hm
    exact hplen _
  have key := ((helper_inputs_iff K (fun m hm => (h3 m hm).1) hcl
    (by simpa using hl) (by simp)).mp ⟨mi, xi, sat, h, hs, hin⟩).1
  rw [h2, hc, List.map_inj_left] at key
  intro t ht
  have hp := key t ht
  generalize packBytes (t.block.encodeInnerToBitsCip22 gen2).1 = m at hp
  have hval : ofBitsLE (pedersenBits pedX m) = (pedX m).val := by
    rw [pedersenBits_eq, flatMap_unpack_value, leBytes48_value]
  have hbit : ∀ i < 384, (pedersenBits pedX m)[i]? = some ((pedX m).val.testBit i) := by
    intro i hi
    rw [← hval, ofBitsLE_testBit, List.getD_eq_getElem?_getD,
      List.getElem?_eq_getElem (by rw [hplen]; exact hi)]
    rfl
  have hpal : ∀ i < 384, (pedX m).val.testBit i = (pedX m).val.testBit (383 - i) := by
    intro i hi
    have := congrArg (·[i]?) hp
    rw [List.getElem?_reverse (by rw [hplen]; exact hi), hplen, hbit i hi,
      show 384 - 1 - i = 383 - i from by omega, hbit _ (by omega)] at this
    exact (Option.some.inj this).symm
  refine ⟨?_, hpal⟩
  have hlt : (pedX m).val < 2 ^ 377 := lt_trans (ZMod.val_lt _) (by decide)
  apply Nat.eq_of_testBit_eq
  intro i
  rw [show 128 = 2 ^ 7 from rfl, Nat.testBit_mod_two_pow, Nat.zero_testBit]
  by_cases hi : i < 7
  · rw [hpal i (by omega), Nat.testBit_lt_two_pow (lt_of_lt_of_le hlt
      (Nat.pow_le_pow_right (by norm_num) (by omega)))]
    simp
  · simp [hi]

end

/-! ### concrete cases -/

/-- Concrete case for `C83_values` and `C83_unique`: 253 bits, the first and the last set, make two
public inputs, `2^251` and `1`. -/
example : (leChunks (true :: List.replicate 251 false ++ [true]) 252).map
    (inputValue FR_MODULUS) = [2 ^ 251, 1] := by
  have h : leChunks (true :: List.replicate 251 false ++ [true]) 252 =
      [List.replicate 251 false ++ [true], [true]] := by
    unfold leChunks
    rw [chunks_cons (n := 252) (by norm_num) (l := true :: List.replicate 251 false ++ [true])
      (List.cons_ne_nil _ _), show (true :: List.replicate 251 false ++
      [true]).drop 252 = [true] from by decide +kernel, chunks_cons (by norm_num) (by decide),
      show [true].drop 252 = [] from by decide, chunks_nil]
    decide +kernel
  rw [h]
  simp only [List.map_cons, List.map_nil, inputValue_eq, ofBitsLE_append, ofBitsLE_replicate_false,
    List.length_replicate]
  norm_num [ofBitsLE]

/-- BLAKE2s replaced by a constant (for the concrete cases). -/
def zeroCore : Blake2sCore := ⟨fun _ _ => List.replicate 32 0, fun _ _ => List.length_replicate⟩

/-- An update without validators, with the CRH `v` (for the concrete cases). -/
def bareUpdate (v : Fq) (xof : List Bool) : UpdateVars ℤ where
  epoch := ⟨0, 0, 0, 0, 0, []⟩
  bitmap := []
  hash := ⟨1, pedersenBits (fun _ => v) [], xof⟩
  occurrences := 0
  nextZero := (0, true)
  updateZero := (0, true)
  loopZero := (0, true)

theorem bareUpdate_crh_length (v : Fq) (xof : List Bool) :
    (bareUpdate v xof).hash.crhBits.length = 384 := by
  simp only [bareUpdate]
  rw [pedersenBits_eq, flatMap_unpack_length, leBytes_length]

theorem bare_enforce (last : LastVars) (us : List (UpdateVars ℤ))
    (h : ∀ u ∈ us, ∃ v x, u = bareUpdate v x) :
    ∃ b, enforceEpochs (G1 := ℤ) (GT := Multiplicative ℤ) (fun _ => True) (fun _ _ _ => True)
      (fun _ _ => 1) 1 g2Generator 0 ⟨⟨0, 0, 0, 0, 0, []⟩, (0, true), us, last, 1⟩ = .ok b := by
  obtain ⟨h1, h2⟩ := C75_panic_iff (G1 := ℤ) (GT := Multiplicative ℤ) (fun _ => True)
    (fun _ _ _ => True) (fun _ _ => 1) 1 g2Generator 0
    ⟨⟨0, 0, 0, 0, 0, []⟩, (0, true), us, last, 1⟩
  generalize enforceEpochs (G1 := ℤ) (GT := Multiplicative ℤ) (fun _ => True) (fun _ _ _ => True)
    (fun _ _ => 1) 1 g2Generator 0 ⟨⟨0, 0, 0, 0, 0, []⟩, (0, true), us, last, 1⟩ = r at h1 h2
  have hb : ∀ u ∈ us, u.bitmap.length = 0 ∧ u.epoch.keys.length = 0 := by
    intro u hu
    obtain ⟨v, x, rfl⟩ := h u hu
    exact ⟨rfl, rfl⟩
  cases r with
  | ok b => exact ⟨b, rfl⟩
  | err => exact absurd rfl h2
  | panic =>
    rcases h1.mp rfl with ⟨u, hu, h⟩ | ⟨u, hu, h⟩ | ⟨u, hu, h⟩
    · exact absurd (hb u hu).2 h
    · exact absurd (hb u (List.mem_of_mem_head? hu)).1 h
    · exact absurd (hb u (List.mem_of_mem_tail hu)).1 (by simpa using h)

/-- Concrete case for `C83_complete` and `C83_binding`: two updates with the CRHs 5 and 6 and the
expansions of these CRHs; the statement holds, so a verifier which enforces it is satisfied, and its
acceptance implies that the XOFs are the expansions. -/
example (last : LastVars) : ∃ (x y : List Bool) (b : EpochBits),
    enforceEpochs (G1 := ℤ) (GT := Multiplicative ℤ) (fun _ => True) (fun _ _ _ => True)
      (fun _ _ => 1) 1 g2Generator 0
      ⟨⟨0, 0, 0, 0, 0, []⟩, (0, true), [bareUpdate 5 x, bareUpdate 6 y], last, 1⟩ = .ok b ∧
    HelperStatement zeroCore (leChunks b.crhBits 252 ++ leChunks b.xofBits 252) ∧
    (∀ u ∈ [bareUpdate 5 x, bareUpdate 6 y],
      hashToBitsBlake zeroCore u.hash.crhBits 512 SIG_DOMAIN = .ok u.hash.xofBits) := by
  obtain ⟨x, hx, hxl⟩ := hashToBitsBlake_length zeroCore (bareUpdate 5 []).hash.crhBits
  obtain ⟨y, hy, hyl⟩ := hashToBitsBlake_length zeroCore (bareUpdate 6 []).hash.crhBits
  obtain ⟨b, hb⟩ := bare_enforce last [bareUpdate 5 x, bareUpdate 6 y] (by
    intro u hu
    rcases List.mem_pair.mp hu with rfl | rfl
    exacts [⟨_, _, rfl⟩, ⟨_, _, rfl⟩])
  have hc : ∀ u ∈ [bareUpdate 5 x, bareUpdate 6 y], u.hash.crhBits.length = 384 := by
    intro u hu
    rcases List.mem_pair.mp hu with rfl | rfl
    exacts [bareUpdate_crh_length _ _, bareUpdate_crh_length _ _]
  have hst : HelperStatement zeroCore (leChunks b.crhBits 252 ++ leChunks b.xofBits 252) := by
    obtain ⟨mi, xi, sat, h1, h2, h3⟩ := C83_complete zeroCore hb hc (by
      intro u hu
      rcases List.mem_pair.mp hu with rfl | rfl
      exacts [hx, hy])
    exact ⟨_, mi, xi, sat, by simpa using hc, h1, h2, h3⟩
  refine ⟨x, y, b, hb, hst, ?_⟩
  exact C83_binding zeroCore (groth := fun i (_ : Unit) => .ok (HelperStatement zeroCore i, true))
    (proof := ()) (by rintro i r h; cases h; exact id) hb (fun u hu => ⟨hc u hu, by
      rcases List.mem_pair.mp hu with rfl | rfl
      exacts [hxl, hyl]⟩) rfl hst

/-- Concrete case for `C83_prover_helper`: if the CRH of the only transition is 5, no proof by the
prover's helper has the public inputs the epoch circuit expects, whatever the hash and the XOF are. -/
example (K : Blake2sCore) (last : LastVars) (xof : List Bool) (hxof : xof.length = 512) :
    ∃ (b : EpochBits) (ms : List (List Bool)),
      enforceEpochs (G1 := ℤ) (GT := Multiplicative ℤ) (fun _ => True) (fun _ _ _ => True)
        (fun _ _ => 1) 1 g2Generator 0
        ⟨⟨0, 0, 0, 0, 0, []⟩, (0, true), [bareUpdate 5 xof], last, 1⟩ = .ok b ∧
      helperMessages g2Generator (fun _ => .ok (leBytes 48 (5 : Fq).val))
        [chainStep [toyKey] 0 [true] 5] = .ok ms ∧
      ∀ mi xi sat, helperCircuit K ms mi xi = .ok sat → sat →
        mi ++ xi ≠ (leChunks b.crhBits 252 ++ leChunks b.xofBits 252).map
          (inputValue FR_MODULUS) := by
  obtain ⟨b, hb⟩ := bare_enforce last [bareUpdate 5 xof] (by
    intro u hu
    cases List.mem_singleton.mp hu
    exact ⟨_, _, rfl⟩)
  obtain ⟨ms, hms, _⟩ := C53_helper_input (gen2 := g2Generator) (pedX := fun _ => 5)
    (fun _ => rfl) [chainStep [toyKey] 0 [true] 5]
  refine ⟨b, ms, hb, hms, fun mi xi sat h hs hin => ?_⟩
  have := (C83_prover_helper K (pedX := fun _ => 5) (fun _ => rfl) hb
    (ts := [chainStep [toyKey] 0 [true] 5]) (by simp [bareUpdate, pedersenBits]) (by
      intro u hu
      cases List.mem_singleton.mp hu
      exact hxof) hms h hs hin _ (List.mem_singleton.mpr rfl)).1
  exact absurd this (by decide +kernel)

end Verif
