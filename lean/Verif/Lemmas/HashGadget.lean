import Verif.Model.HashGadget
import Verif.Lemmas.EpochCircuit
import Verif.Lemmas.G1
import Verif.Lemmas.HashToCurve
import Verif.Props.Gadgets
import Verif.Props.Encoding

/-! Helper lemmas on public inputs and on hashing in the circuit. -/

set_option exponentiation.threshold 800
set_option linter.unusedSectionVars false

namespace Verif

/-! ### bits of field elements -/

theorem ofBitsLE_range_testBit (v n : ℕ) :
    ofBitsLE ((List.range n).map v.testBit) = v % 2 ^ n := by
  apply Nat.eq_of_testBit_eq
  intro i
  rw [ofBitsLE_testBit, Nat.testBit_mod_two_pow]
  by_cases h : i < n
  · simp [List.getD, h]
  · simp [List.getD, h]

theorem ofBitsLE_replicate_false (k : ℕ) : ofBitsLE (List.replicate k false) = 0 := by
  induction k with
  | zero => rfl
  | succ k ih => simp [List.replicate_succ, ofBitsLE, ih]

theorem fieldBitsBe_length {p : ℕ} (n : ℕ) (x : ZMod p) : (fieldBitsBe n x).length = n := by
  simp [fieldBitsBe]

theorem fieldBitsBe_drop {p : ℕ} (n k : ℕ) (hk : k ≤ n) (x : ZMod p) :
    ((fieldBitsBe n x).drop (n - k)).reverse = (List.range k).map x.val.testBit := by
  unfold fieldBitsBe
  rw [List.drop_reverse, List.reverse_reverse, ← List.map_take]
  congr 1
  rw [List.length_map, List.length_range, List.take_range]
  congr 1
  omega

/-- The comparison of one chunk in the multipack gadget. -/
theorem chunk_low_bits_iff {p : ℕ} (n : ℕ) (x : ZMod p) (c : List Bool) (hc : c.length ≤ n) :
    (∀ j < c.length, (fieldBitsBe n x)[n - c.length + j]? = c[j]?) ↔
      x.val % 2 ^ c.length = ofBitsLE c.reverse := by
  have h1 : (∀ j < c.length, (fieldBitsBe n x)[n - c.length + j]? = c[j]?) ↔
      (fieldBitsBe n x).drop (n - c.length) = c := by
    constructor
    · intro h
      apply List.ext_getElem?
      intro j
      by_cases hj : j < c.length
      · rw [List.getElem?_drop, h j hj]
      · rw [List.getElem?_eq_none (by simp [fieldBitsBe_length]; omega),
          List.getElem?_eq_none (by omega)]
    · intro h j _
      conv_rhs => rw [← h]
      rw [List.getElem?_drop]
  rw [h1]
  constructor
  · intro h
    rw [← ofBitsLE_range_testBit, ← fieldBitsBe_drop n _ hc, h]
  · intro h
    apply List.reverse_injective
    apply ofBitsLE_inj
    · simp [fieldBitsBe_length]; omega
    · rw [fieldBitsBe_drop n _ hc, ofBitsLE_range_testBit, h]

/-- What the multipack gadget enforces, as numbers. -/
theorem multipackC_iff {p : ℕ} {n size : ℕ} (hs : size ≠ 0) (hn : size ≤ n) (bits : List Bool)
    (packed : List (ZMod p)) :
    multipackC n size bits packed ↔
      List.Forall₂ (fun c x => x.val % 2 ^ c.length = ofBitsLE c.reverse) (chunks size bits)
        packed := by
  unfold multipackC
  have hl := chunks_mem_length hs bits
  generalize chunks size bits = cs at hl
  constructor
  · intro h
    induction h with
    | nil => exact .nil
    | cons h1 _ ih =>
      have := (hl _ (List.mem_cons_self)).1
      exact .cons ((chunk_low_bits_iff n _ _ (by omega)).mp h1)
        (ih fun c hc => hl c (List.mem_cons_of_mem _ hc))
  · intro h
    induction h with
    | nil => exact .nil
    | cons h1 _ ih =>
      have := (hl _ (List.mem_cons_self)).1
      exact .cons ((chunk_low_bits_iff n _ _ (by omega)).mpr h1)
        (ih fun c hc => hl c (List.mem_cons_of_mem _ hc))

/-! ### the two BLAKE2s interfaces -/

/-- The BLAKE2s used natively and the one used in the circuit are the same function of parameter
block and message (for full-length digests). -/
def Blake2sAgree (K : Blake2sCore) (B : Blake2s) : Prop :=
  ∀ p m, p.hashLength = 32 → B.run p m = K.digest p.block m

/-- A native BLAKE2s with the digests of the circuit's. -/
def Blake2s.ofCore (K : Blake2sCore) : Blake2s where
  run p m := (K.digest p.block m ++ List.replicate p.hashLength 0).take p.hashLength
  length_run p m := by simp

theorem Blake2s.ofCore_agree (K : Blake2sCore) : Blake2sAgree K (Blake2s.ofCore K) := by
  intro p m h
  simp only [Blake2s.ofCore, h]
  rw [List.take_append_of_le_length (by rw [K.length_digest]),
    List.take_of_length_le (by rw [K.length_digest])]

theorem bitsLeToBytesLe_pad (bits : List Bool) :
    bitsLeToBytesLe (bits ++ List.replicate (8 * ((bits.length + 7) / 8) - bits.length) false) =
      bitsLeToBytesLe bits := by
  apply leValue_inj
  · simp only [bitsLeToBytesLe, C26_bytes_length, List.length_reverse, List.length_append,
      List.length_replicate]
    omega
  · simp only [bitsLeToBytesLe, C26_bytes_value, List.reverse_reverse, ofBitsLE_append]
    rw [ofBitsLE_replicate_false]; simp

/-! ### bytes -/

theorem byteBits_eq : ∀ b : UInt8, byteBits b = unpackByte 8 b := by decide +kernel

theorem packBytes_eq (bits : List Bool) : packBytes bits = bitsBeToBytesLe bits := by
  unfold packBytes bitsBeToBytesLe
  apply List.map_congr_left
  intro c hc
  have h8 := (chunks_mem_length (by norm_num) _ c hc).1
  apply UInt8.toNat_inj.mp
  rw [packByte_toNat c h8, uint8FromBitsLe, fromBitsBe_eq, List.reverse_reverse, ofBitsLE_append,
    ofBitsLE_replicate_false, Nat.mul_zero, Nat.add_zero, UInt8.toNat_ofNat']
  apply Nat.mod_eq_of_lt
  calc ofBitsLE c < 2 ^ c.length := ofBitsLE_lt c
    _ ≤ 2 ^ 8 := Nat.pow_le_pow_right (by norm_num) h8

theorem bitsLeToBytesLe_flatMap (bytes : Bytes) :
    bitsLeToBytesLe (bytes.flatMap (unpackByte 8)) = bytes := by
  apply leValue_inj
  · simp only [bitsLeToBytesLe, C26_bytes_length, List.length_reverse, flatMap_unpack_length]
    omega
  · simp only [bitsLeToBytesLe, C26_bytes_value, List.reverse_reverse, flatMap_unpack_value]

theorem bytesLeToBitsLe_all (bytes : Bytes) (n : ℕ) (h : 8 * bytes.length ≤ n) :
    bytesLeToBitsLe bytes n = bytes.flatMap (unpackByte 8) := by
  unfold bytesLeToBitsLe bytesLeToBitsBe
  rw [List.reverse_reverse, List.take_of_length_le (by rw [flatMap_unpack_length]; exact h)]

theorem leBytes48_value (x : Fq) : leValue (leBytes 48 x.val) = x.val := by
  rw [leBytes_value]
  apply Nat.mod_eq_of_lt
  have h1 : x.val < FQ_MODULUS := ZMod.val_lt x
  have h2 := FQ_bounds.2
  have h3 : (2 : ℕ) ^ 377 ≤ 256 ^ 48 := by decide +kernel
  omega

/-- The CRH bits are those of the 48 little-endian bytes of the coordinate. -/
theorem pedersenBits_eq (pedX : Bytes → Fq) (m : Bytes) :
    pedersenBits pedX m = (leBytes 48 (pedX m).val).flatMap (unpackByte 8) := by
  unfold pedersenBits padToBytes
  apply ofBitsLE_inj
  · rw [flatMap_unpack_length, leBytes_length]
    simp [fieldBitsBe_length]
  · rw [flatMap_unpack_value, leBytes48_value, ofBitsLE_append, ofBitsLE_replicate_false,
      Nat.mul_zero, Nat.add_zero]
    unfold fieldBitsBe
    rw [List.reverse_reverse, ofBitsLE_range_testBit]
    apply Nat.mod_eq_of_lt
    have h1 : (pedX m).val < FQ_MODULUS := ZMod.val_lt _
    have h2 := FQ_bounds.2
    omega

/-- The XOF message, as bytes: counter, extra data, CRH. -/
theorem xofInput_bytes (counter : UInt8) (extra m : Bytes) (pedX : Bytes → Fq) :
    bitsLeToBytesLe (xofInput counter extra (pedersenBits pedX m)) =
      counter :: (extra ++ leBytes 48 (pedX m).val) := by
  rw [← bitsLeToBytesLe_flatMap (counter :: (extra ++ leBytes 48 (pedX m).val))]
  congr 1
  unfold xofInput
  rw [pedersenBits_eq, byteBits_eq, List.flatMap_cons, List.flatMap_append, List.append_assoc]
  congr 2
  apply List.flatMap_congr
  intro b _
  exact byteBits_eq b

/-! ### decoding in the circuit -/

/-- The sign bit the gadget of C36 accepts for `y`: whether `y` exceeds half of the modulus, and
anything for the one value in the middle. -/
def SignOk (y : Fq) (b : Bool) : Prop := b = decide (y.val > halfOf FQ_MODULUS) ∨
  y.val = halfOf FQ_MODULUS

/-- The group elements the circuit accepts for a digest, read as a number. -/
def GroupAccepts (alloc : G1Var → Prop) (compat : Bool) (D : ℕ) (g : G1Point) : Prop :=
  ∃ v : G1Var, alloc v ∧ v.x.val = D % 2 ^ 377 ∧ SignOk v.y (D.testBit (signBit compat)) ∧
    g = G1_COFACTOR • v.point

theorem zip_all_eq {a b : List Bool} (h : a.length = b.length) :
    (∀ ab ∈ a.zip b, ab.1 = ab.2) ↔ a = b := by
  induction a generalizing b with
  | nil => cases b <;> simp_all
  | cons x xs ih =>
    cases b with
    | nil => simp at h
    | cons y ys =>
      simp only [List.length_cons, Nat.add_right_cancel_iff] at h
      rw [List.zip_cons_cons, List.forall_mem_cons, ih h, List.cons.injEq]

theorem hashToGroup_ok (alloc : G1Var → Prop) (compat : Bool) (xof : List Bool)
    (h : 384 ≤ xof.length) (w : GroupVars) :
    ∃ sat, hashToGroup alloc compat xof w = .ok (sat, G1_COFACTOR • w.point.point) ∧
      (sat ↔ alloc w.point ∧ yToBitG1C (.var w.point.y) w.adjusted w.yBit ∧
        w.point.x.val = ofBitsLE xof % 2 ^ 377 ∧
        w.yBit = (ofBitsLE xof).testBit (signBit compat)) := by
  have hs : SIGN_BIT_POSITION compat < xof.length := by
    unfold SIGN_BIT_POSITION; split <;> omega
  unfold hashToGroup
  rw [if_neg (by unfold X_BITS; omega), List.getElem?_eq_getElem hs]
  refine ⟨_, rfl, ?_⟩
  rw [zip_all_eq (by simp [fieldBitsBe_length, X_BITS]; omega)]
  have e1 : (fieldBitsBe 377 w.point.x).reverse = xof.take X_BITS ↔
      w.point.x.val = ofBitsLE xof % 2 ^ 377 := by
    have hx : w.point.x.val < 2 ^ 377 := lt_trans (ZMod.val_lt _) FQ_bounds.2
    have hv : ofBitsLE (fieldBitsBe 377 w.point.x).reverse = w.point.x.val := by
      unfold fieldBitsBe
      rw [List.reverse_reverse, ofBitsLE_range_testBit, Nat.mod_eq_of_lt hx]
    rw [← ofBitsLE_take, ← hv]
    constructor
    · intro h; rw [h]; rfl
    · intro h'
      exact ofBitsLE_inj (by simp [fieldBitsBe_length, X_BITS]; omega) h'
  have e2 : xof[SIGN_BIT_POSITION compat] = (ofBitsLE xof).testBit (signBit compat) := by
    rw [ofBitsLE_testBit]
    have : signBit compat = SIGN_BIT_POSITION compat := rfl
    rw [this, List.getD, List.getElem?_eq_getElem hs]; rfl
  rw [e1, e2]

theorem hashToGroup_iff (alloc : G1Var → Prop) (compat : Bool) (xof : List Bool)
    (h : 384 ≤ xof.length) (g : G1Point) :
    (∃ w sat, hashToGroup alloc compat xof w = .ok (sat, g) ∧ sat) ↔
      GroupAccepts alloc compat (ofBitsLE xof) g := by
  have hp : FQ_MODULUS ≠ 2 := by decide +kernel
  constructor
  · rintro ⟨w, sat, h1, h2⟩
    obtain ⟨sat', h3, h4⟩ := hashToGroup_ok alloc compat xof h w
    rw [h1] at h3
    simp only [Outcome.ok.injEq, Prod.mk.injEq] at h3
    rw [h3.1] at h2
    obtain ⟨a, b, c, d⟩ := h4.mp h2
    refine ⟨w.point, a, c, ?_, h3.2⟩
    rw [← d]
    unfold yToBitG1C at b
    have := (C36_exact (p := FQ_MODULUS) hp w.point.y w.yBit).mp ⟨_, b⟩
    unfold SignOk
    exact this
  · rintro ⟨v, a, c, d, hg⟩
    rw [hg]
    unfold SignOk at d
    obtain ⟨adj, b⟩ := (C36_exact (p := FQ_MODULUS) hp v.y _).mpr d
    obtain ⟨sat', h3, h4⟩ := hashToGroup_ok alloc compat xof h ⟨v, _, adj⟩
    exact ⟨_, sat', h3, h4.mpr ⟨a, b, c, rfl⟩⟩

/-! ### the curve -/

theorem noncube_of_pow (a f : ℕ) (hf : (FQ_MODULUS - 1) / 3 < 2 ^ f)
    (h : powModAux f a ((FQ_MODULUS - 1) / 3) FQ_MODULUS 1 % FQ_MODULUS ≠ 1)
    (h0 : (a : Fq) ≠ 0) (r : Fq) : r ^ 3 ≠ (a : Fq) := by
  intro e
  have h1 := powModAux_cast (m := FQ_MODULUS) (a := a) hf
  rw [← e, ← pow_mul] at h1
  have h3 : 3 * ((FQ_MODULUS - 1) / 3) = FQ_MODULUS - 1 := by decide +kernel
  have hr : r ≠ 0 := by
    rintro rfl
    apply h0
    rw [← e]; ring
  rw [h3, ZMod.pow_card_sub_one_eq_one hr] at h1
  apply h
  have := congrArg ZMod.val h1
  rw [ZMod.val_natCast, ZMod.val_one] at this
  exact this

/-- No point of G1's curve has the middle value as its `y`. -/
theorem g1_y_ne_half {x y : Fq} (h : y * y = x ^ 3 + 1) : y.val ≠ halfOf FQ_MODULUS := by
  intro e
  have hy : y = ((halfOf FQ_MODULUS : ℕ) : Fq) := by rw [← e, ZMod.natCast_zmod_val]
  have h2 : 2 * y = -1 := by rw [hy]; decide +kernel
  have h6 : (2 * x) ^ 3 = ((FQ_MODULUS - 6 : ℕ) : Fq) := by
    have e6 : ((FQ_MODULUS - 6 : ℕ) : Fq) = -6 := by decide +kernel
    rw [e6]
    have h4 : 4 * (y * y) = 1 := by linear_combination (2 * y - 1) * h2
    linear_combination 2 * h4 - 8 * h
  exact noncube_of_pow (FQ_MODULUS - 6) 377 (by decide +kernel) (by decide +kernel)
    (by decide +kernel) _ h6

theorem fq_neg_val {y : Fq} (hy : y ≠ 0) : (-y).val = FQ_MODULUS - y.val := by
  have : NeZero y := ⟨hy⟩
  exact ZMod.val_neg_of_ne_zero y

/-- On the curve the gadget's sign and the native one coincide, up to points with `y = 0`. -/
theorem sign_iff {x y : Fq} (h : y * y = x ^ 3 + 1) (hy : y ≠ 0) (b : Bool) :
    SignOk y b ↔ if b then (-y).val ≤ y.val else y.val ≤ (-y).val := by
  have h1 := g1_y_ne_half h
  have h2 := fq_neg_val hy
  have h3 : y.val < FQ_MODULUS := ZMod.val_lt y
  have h4 : FQ_MODULUS = 2 * halfOf FQ_MODULUS + 1 := by decide +kernel
  unfold SignOk
  cases b
  · simp only [Bool.false_eq_true, if_false]
    rw [eq_comm, decide_eq_false_iff_not]
    omega
  · simp only [if_true]
    rw [eq_comm, decide_eq_true_iff]
    omega

theorem sign_zero (b : Bool) : SignOk 0 b → b = false := by
  have h0 : (0 : Fq).val = 0 := ZMod.val_zero
  have h1 : halfOf FQ_MODULUS ≠ 0 := by decide +kernel
  intro h
  rcases h with h | h
  · rw [h0] at h; simpa using h
  · rw [h0] at h; exact absurd h.symm h1

theorem sign_decodes {x y : Fq} (h : y * y = x ^ 3 + 1) {b : Bool} (hs : SignOk y b) :
    if b then (-y).val ≤ y.val else y.val ≤ (-y).val := by
  by_cases hy : y = 0
  · subst hy; cases b <;> simp
  · exact (sign_iff h hy b).mp hs

theorem two_torsion (x : Fq) (h : g1Curve.Nonsingular x 0) :
    2 • (WeierstrassCurve.Affine.Point.some x 0 h) = 0 := by
  rw [two_smul]
  exact WeierstrassCurve.Affine.Point.add_self_of_Y_eq (by simp [WeierstrassCurve.Affine.negY, g1Curve])

theorem g1Scale_zero_y (x : Fq) : g1Scale (.finite x 0) = 0 := by
  by_cases h : g1Curve.Nonsingular x 0
  · have : G1_COFACTOR = (G1_COFACTOR / 2) * 2 := by decide +kernel
    simp only [g1Scale, dif_pos h]
    rw [this, mul_smul, two_torsion x h]
    exact nsmul_zero _
  · simp only [g1Scale, dif_neg h]

theorem g1Scale_some {x y : Fq} (h : y * y = x ^ 3 + 1) :
    g1Scale (.finite x y) = G1_COFACTOR • (⟨x, y, 1⟩ : G1Var).point := by
  have hn := g1_nonsingular x y h
  have e1 : g1Scale (.finite x y) = G1_COFACTOR • (WeierstrassCurve.Affine.Point.some x y hn) := by
    unfold g1Scale
    exact dif_pos hn
  rw [e1]
  congr 1
  have hx : x / (1 : Fq) = x := div_one x
  have hy : y / (1 : Fq) = y := div_one y
  have hn' : g1Curve.Nonsingular (x / 1) (y / 1) := by rw [hx, hy]; exact hn
  have e2 : (⟨x, y, 1⟩ : G1Var).point =
      WeierstrassCurve.Affine.Point.some (x / 1) (y / 1) hn' := by
    unfold G1Var.point
    exact dif_pos ⟨one_ne_zero, hn'⟩
  rw [e2]
  congr 1
  · exact hx.symm
  · exact hy.symm

end Verif
