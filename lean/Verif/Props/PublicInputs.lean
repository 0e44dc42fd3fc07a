import Verif.Lemmas.HashGadget
import Verif.Lemmas.Hashers

/-!
# Properties C50 and C54: hash parameters and public inputs of the circuit
-/

set_option exponentiation.threshold 800
set_option linter.unusedSectionVars false

namespace Verif

/-! ## C54 -/

/-- C54: what the gadget enforces, exactly: one field element per chunk, whose low bits (as many as
the chunk has) are the chunk, most significant first. -/
theorem C54_exact {p : ℕ} {n size : ℕ} (hs : size ≠ 0) (hn : size ≤ n) (bits : List Bool)
    (packed : List (ZMod p)) :
    multipackC n size bits packed ↔
      List.Forall₂ (fun c x => x.val % 2 ^ c.length = ofBitsLE c.reverse) (chunks size bits)
        packed :=
  multipackC_iff hs hn bits packed

theorem pack_map {p size : ℕ} (hs : size ≠ 0) (hp : 2 ^ size ≤ p) (bits : List Bool) :
    multipackWitness (p := p) size bits =
      .ok ((chunks size bits).map fun c => ((ofBitsLE c.reverse : ℕ) : ZMod p)) := by
  unfold multipackWitness
  apply mapM_map_ok
  intro c hc
  have h1 := ofBitsLE_lt c.reverse
  have h2 := (chunks_mem_length hs bits c hc).1
  rw [List.length_reverse] at h1
  have h3 : 2 ^ c.length ≤ 2 ^ size := Nat.pow_le_pow_right (by norm_num) h2
  simp only [fromBitsBe_eq]
  rw [if_pos (by omega)]

theorem chunk_val {p size : ℕ} (hs : size ≠ 0) (hp : 2 ^ size ≤ p) {bits c : List Bool}
    (hc : c ∈ chunks size bits) :
    ((ofBitsLE c.reverse : ℕ) : ZMod p).val = ofBitsLE c.reverse := by
  have h1 := ofBitsLE_lt c.reverse
  have h2 := (chunks_mem_length hs bits c hc).1
  rw [List.length_reverse] at h1
  have h3 : 2 ^ c.length ≤ 2 ^ size := Nat.pow_le_pow_right (by norm_num) h2
  exact ZMod.val_cast_of_lt (by omega)

/-- C54: the values the prover assigns exist and satisfy the constraints, in every field with room
for an element (`2 ^ size ≤ p`). -/
theorem C54_complete {p n size : ℕ} (hs : size ≠ 0) (hn : size ≤ n) (hp : 2 ^ size ≤ p)
    (bits : List Bool) :
    ∃ packed : List (ZMod p), multipackWitness size bits = .ok packed ∧
      multipackC n size bits packed := by
  refine ⟨_, pack_map hs hp bits, ?_⟩
  rw [C54_exact hs hn, List.forall₂_map_right_iff, List.forall₂_same]
  intro c hc
  rw [chunk_val hs hp hc]
  apply Nat.mod_eq_of_lt
  simpa using ofBitsLE_lt c.reverse

/-- C54: if the public inputs are the packing of some bits of the right number, the bits in the
circuit are those bits. -/
theorem C54_binds {p n size : ℕ} (hs : size ≠ 0) (hn : size ≤ n) (hp : 2 ^ size ≤ p)
    {bits bits' : List Bool} {packed : List (ZMod p)} (hl : bits.length = bits'.length)
    (hc : multipackC n size bits packed) (hw : multipackWitness size bits' = .ok packed) :
    bits = bits' := by
  rw [C54_exact hs hn] at hc
  rw [pack_map hs hp] at hw
  simp only [Outcome.ok.injEq] at hw
  rw [← hw, List.forall₂_map_right_iff] at hc
  have hlen := chunks_map_length hs bits bits' hl
  have hv : ∀ c ∈ chunks size bits', ((ofBitsLE c.reverse : ℕ) : ZMod p).val = ofBitsLE c.reverse :=
    fun c hc => chunk_val hs hp hc
  have : chunks size bits = chunks size bits' := by
    generalize chunks size bits = cs at hc hlen
    generalize chunks size bits' = cs' at hc hlen hv
    induction hc with
    | nil => rfl
    | cons h1 _ ih =>
      simp only [List.map_cons, List.cons.injEq] at hlen
      rw [ih hlen.2 fun c hc => hv c (List.mem_cons_of_mem _ hc)]
      congr 1
      rw [hv _ List.mem_cons_self] at h1
      apply List.reverse_injective
      apply ofBitsLE_inj (by simpa using hlen.1)
      rw [← h1, hlen.1]
      apply Nat.mod_eq_of_lt
      simpa using ofBitsLE_lt (List.reverse _)
  rw [← chunks_flatten hs bits, this, chunks_flatten hs bits']

/-- `pack` (native) is the assignment of the gadget. -/
theorem pack_eq_witness (bits : List Bool) : pack bits = multipackWitness 376 bits := rfl

/-- C54: a verifier who supplies `pack(bits)` is convinced that the circuit's bits are `bits`. -/
theorem C54_verifier {bits bits' : List Bool} {inputs : List Fq} (hl : bits.length = bits'.length)
    (hc : multipackC 377 376 bits inputs) (hw : pack bits' = .ok inputs) : bits = bits' :=
  C54_binds (by norm_num) (by norm_num) FQ_bounds.1.le hl hc hw

/-- C54, slack: the high bits of an element are free.  If the last chunk is not full, the public
inputs are not determined by the bits: adding a multiple of `2 ^ k` to the last element, where `k`
is the size of the last chunk, is accepted too. -/
theorem C54_slack {bits c : List Bool} {pre : List (List Bool)}
    (hchunks : chunks 376 bits = pre ++ [c]) (hc : c.length < 376) :
    ∃ inputs inputs' : List Fq, inputs ≠ inputs' ∧ pack bits = .ok inputs ∧
      multipackC 377 376 bits inputs ∧ multipackC 377 376 bits inputs' := by
  obtain ⟨inputs, h1, h2⟩ := C54_complete (p := FQ_MODULUS) (n := 377) (size := 376) (by norm_num)
    (by norm_num) FQ_bounds.1.le bits
  have h1' := h1
  rw [pack_map (by norm_num) FQ_bounds.1.le, hchunks, List.map_append] at h1'
  simp only [List.map_cons, List.map_nil, Outcome.ok.injEq] at h1'
  have hb := ofBitsLE_lt c.reverse
  rw [List.length_reverse] at hb
  have hpow : 2 ^ c.length * 2 ≤ 2 ^ 376 := by
    rw [← pow_succ]
    exact Nat.pow_le_pow_right (by norm_num) (by omega)
  have hq := FQ_bounds.1
  have hval : (((ofBitsLE c.reverse + 2 ^ c.length : ℕ) : Fq)).val =
      ofBitsLE c.reverse + 2 ^ c.length := ZMod.val_cast_of_lt (by omega)
  have hval' : (((ofBitsLE c.reverse : ℕ) : Fq)).val = ofBitsLE c.reverse :=
    ZMod.val_cast_of_lt (by omega)
  refine ⟨inputs, pre.map (fun c => ((ofBitsLE c.reverse : ℕ) : Fq)) ++
    [((ofBitsLE c.reverse + 2 ^ c.length : ℕ) : Fq)], ?_, h1, h2, ?_⟩
  · rw [← h1']
    intro h
    have h := (List.append_inj' h rfl).2
    simp only [List.cons.injEq, and_true] at h
    have h := congrArg ZMod.val h
    rw [hval, hval'] at h
    have : 0 < 2 ^ c.length := by positivity
    omega
  · rw [C54_exact (by norm_num) (by norm_num)] at h2 ⊢
    rw [hchunks, ← h1'] at h2
    rw [hchunks]
    have hlen : pre.length = (pre.map (fun c => ((ofBitsLE c.reverse : ℕ) : Fq))).length := by simp
    have e1 := List.forall₂_take pre.length h2
    rw [List.take_left' rfl, hlen, List.take_left' rfl] at e1
    refine List.rel_append e1 (.cons ?_ .nil)
    rw [hval, Nat.add_mod_right]
    exact Nat.mod_eq_of_lt hb

/-- Concrete case: for the 512 bits of the two edge hashes the second element has a chunk of 136
bits, so that the hypotheses of `C54_slack` hold. -/
example (bits : List Bool) (h : bits.length = 512) :
    ∃ pre c, chunks 376 bits = pre ++ [c] ∧ c.length = 136 := by
  refine ⟨[bits.take 376], bits.drop 376, ?_, by simp [h]⟩
  have h1 : bits ≠ [] := by rintro rfl; simp at h
  have h2 : bits.drop 376 ≠ [] := by
    intro e
    have := congrArg List.length e
    simp [h] at this
  have h3 : (bits.drop 376).drop 376 = [] := List.drop_eq_nil_of_le (by simp [h])
  have h4 : (bits.drop 376).take 376 = bits.drop 376 := List.take_of_length_le (by simp [h])
  rw [chunks_cons (by norm_num) h1, chunks_cons (by norm_num) h2, h3, h4, chunks_nil]
  rfl

/-- Concrete case: five bits packed by twos in a field of seven elements of three bits. -/
example : multipackC (p := 7) 3 2 [true, false, false, true, true] [2, 5, 3] ∧
    multipackC (p := 7) 3 2 [true, false, false, true, true] [6, 1, 5] ∧
    ¬ multipackC (p := 7) 3 2 [true, false, false, true, true] [2, 1, 2] := by
  rw [C54_exact (by norm_num) (by norm_num), C54_exact (by norm_num) (by norm_num),
    C54_exact (by norm_num) (by norm_num)]
  have : chunks 2 [true, false, false, true, true] = [[true, false], [false, true], [true]] := by
    rw [chunks_cons (by norm_num) (by simp), List.take, List.drop]
    simp [chunks_cons, chunks_nil]
  rw [this]
  simp only [List.forall₂_cons, List.Forall₂.nil, and_true]
  decide +kernel

/-! ## C50 -/

theorem leBytes_four (n : ℕ) : leBytes 4 n = (List.range 4).map fun i => UInt8.ofNat (n / 256 ^ i) := by
  simp [leBytes, List.range_succ, Nat.div_div_eq_div_mul]

/-- C50: the parameter block of block `i` of the XOF in the circuit is the one of the native XOF,
for every output length that the gadget accepts (a multiple of 256 bits), every 8-byte domain and
every block number. -/
theorem C50_xof_params (len : UInt16) (hlen : len.toNat % 256 = 0) (domain : Bytes)
    (hd : domain.length = 8) (i : ℕ) (hi : i < 2 ^ 32) :
    ∃ p, directXofParams domain (len.toNat / 8) i = .ok p ∧ p.hashLength = 32 ∧
      (blake2xsParams len (UInt32.ofNat i) domain).parameters = p.block := by
  refine ⟨_, directXofParams_ok domain (by omega) _ i hi, ?_, ?_⟩
  · simp only []
    rw [if_neg (by omega)]
  · have h16 := len.toNat_lt
    have hne : ¬ (i = xofNumHashes (len.toNat / 8) - 1 ∧ len.toNat / 8 % 32 ≠ 0) := by omega
    simp only [Blake2sBlock.parameters, blake2xsParams, Blake2sParams.block, if_neg hne, hd,
      nodeOffset_eq i _ hi, leBytes_four, UInt32.toNat_ofNat', Nat.mod_eq_of_lt hi,
      UInt16.toNat_div]
    simp only [leBytes, List.range_succ, List.range_zero, List.map_cons,
      List.map_nil, List.nil_append, List.cons_append, Nat.sub_self, List.replicate_zero,
      List.append_nil]
    have b0 : UInt8.ofNat ((i + len.toNat / 8 % 2 ^ 16 * 2 ^ 32) / 256 ^ 0) =
        UInt8.ofNat (i / 256 ^ 0) := by
      apply UInt8.toNat_inj.mp
      simp only [UInt8.toNat_ofNat']
      omega
    have b1 : UInt8.ofNat ((i + len.toNat / 8 % 2 ^ 16 * 2 ^ 32) / 256 ^ 1) =
        UInt8.ofNat (i / 256 ^ 1) := by
      apply UInt8.toNat_inj.mp
      simp only [UInt8.toNat_ofNat']
      omega
    have b2 : UInt8.ofNat ((i + len.toNat / 8 % 2 ^ 16 * 2 ^ 32) / 256 ^ 2) =
        UInt8.ofNat (i / 256 ^ 2) := by
      apply UInt8.toNat_inj.mp
      simp only [UInt8.toNat_ofNat']
      omega
    have b3 : UInt8.ofNat ((i + len.toNat / 8 % 2 ^ 16 * 2 ^ 32) / 256 ^ 3) =
        UInt8.ofNat (i / 256 ^ 3) := by
      apply UInt8.toNat_inj.mp
      simp only [UInt8.toNat_ofNat']
      omega
    have b4 : UInt8.ofNat ((i + len.toNat / 8 % 2 ^ 16 * 2 ^ 32) / 256 ^ 4) =
        UInt8.ofNat (len.toNat / 8) := by
      apply UInt8.toNat_inj.mp
      simp only [UInt8.toNat_ofNat']
      omega
    have b5 : UInt8.ofNat ((i + len.toNat / 8 % 2 ^ 16 * 2 ^ 32) / 256 ^ 5) =
        UInt8.ofNat (len.toNat / 8 / 256) := by
      apply UInt8.toNat_inj.mp
      simp only [UInt8.toNat_ofNat']
      omega
    rw [b0, b1, b2, b3, b4, b5]
    rfl

theorem flatten_length_32 {bs : List Bytes} (h : ∀ b ∈ bs, b.length = 32) :
    bs.flatten.length = 32 * bs.length := by
  induction bs with
  | nil => rfl
  | cons b bs ih =>
    rw [List.flatten_cons, List.length_append, h b List.mem_cons_self,
      ih fun b hb => h b (List.mem_cons_of_mem _ hb), List.length_cons]
    ring

theorem flatMap_bits_eq (bs : List Bytes) (h : ∀ b ∈ bs, b.length = 32) :
    bs.flatMap (fun b => bytesLeToBitsLe b 256) =
      bytesLeToBitsLe bs.flatten (256 * bs.length) := by
  have hb : ∀ b : Bytes, ∀ n, 8 * b.length ≤ n →
      bytesLeToBitsLe b n = b.flatMap (unpackByte 8) := by
    intro b n hn
    unfold bytesLeToBitsLe bytesLeToBitsBe
    rw [List.reverse_reverse, List.take_of_length_le (by rw [flatMap_unpack_length]; exact hn)]
  have hl := flatten_length_32 h
  rw [hb _ _ (by omega)]
  clear hl
  induction bs with
  | nil => rfl
  | cons b bs ih =>
    rw [List.flatMap_cons, List.flatten_cons, List.flatMap_append,
      ih fun b hb => h b (List.mem_cons_of_mem _ hb), hb _ _ (by rw [h b List.mem_cons_self])]

/-- C50: hence the XOF computed in the circuit is the native one: on the bits of a message it gives
the bits of the native XOF of the message's bytes. -/
theorem C50_xof {K : Blake2sCore} {B : Blake2s} (hB : Blake2sAgree K B) (message : List Bool)
    (len : UInt16) (hlen : len.toNat % 256 = 0) (domain : Bytes) (hd : domain.length = 8) :
    ∃ d, directXof B domain (bitsLeToBytesLe message) (len.toNat / 8) = .ok d ∧
      d.length = len.toNat / 8 ∧
      hashToBitsBlake K message len domain = .ok (bytesLeToBitsLe d len.toNat) := by
  have h16 := len.toNat_lt
  have hok := directXof_ok B domain (bitsLeToBytesLe message) (by omega) (len.toNat / 8) (by omega)
  have hnum : xofNumHashes (len.toNat / 8) = len.toNat / 256 := by
    unfold xofNumHashes; omega
  have hne : ∀ i, ¬ (i = xofNumHashes (len.toNat / 8) - 1 ∧ len.toNat / 8 % 32 ≠ 0) := by
    intro i; omega
  simp only [if_neg (hne _)] at hok
  rw [hnum] at hok
  set blocks := (List.range (len.toNat / 256)).map (fun i => B.run
      { hashLength := 32, fanout := 0, maxDepth := 0, maxLeafLength := 32
        nodeOffset := xofDigestLengthToNodeOffset i (len.toNat / 8)
        innerHashLength := 32
        personal := domain ++ List.replicate (8 - domain.length) 0 }
        (bitsLeToBytesLe message)) with hblocks
  have hbl : ∀ b ∈ blocks, b.length = 32 := by
    intro b hb
    rw [hblocks, List.mem_map] at hb
    obtain ⟨i, _, rfl⟩ := hb
    rw [B.length_run]
  have hlen2 : blocks.length = len.toNat / 256 := by simp [hblocks]
  refine ⟨blocks.flatten, hok, ?_, ?_⟩
  · rw [flatten_length_32 hbl, hlen2]
    omega
  · unfold hashToBitsBlake
    have hmod : len % 256 = 0 := by
      apply UInt16.toNat_inj.mp
      rw [UInt16.toNat_mod]
      simpa using hlen
    rw [if_neg (by simp [hmod])]
    have e1 : len.toNat = 256 * blocks.length := by rw [hlen2]; omega
    rw [e1, ← flatMap_bits_eq blocks hbl, hblocks, List.flatMap_map]
    have e2 : (len / 256).toNat = len.toNat / 256 := by
      rw [UInt16.toNat_div]; rfl
    rw [e2]
    congr 1
    apply List.flatMap_congr
    intro i hi
    rw [List.mem_range] at hi
    obtain ⟨p, hp, hp32, hblk⟩ := C50_xof_params len hlen domain hd i (by omega)
    rw [directXofParams_ok domain (by omega) _ i (by omega)] at hp
    simp only [if_neg (hne _), Outcome.ok.injEq] at hp
    unfold Blake2sCore.evaluate
    rw [hblk, ← hB p _ hp32, hp]

/-- C50: the parameter block of the edge hash in the circuit is the one of the native hash of the
public inputs. -/
theorem C50_edge_params :
    ∃ p, outHashParams = .ok p ∧ p.hashLength = 32 ∧ edgeParams.parameters = p.block :=
  ⟨_, outHashParams_ok, rfl, by decide +kernel⟩

/-- C50: hence the edge hash in the circuit is the native hash of the packed bytes. -/
theorem C50_edge_hash {K : Blake2sCore} {B : Blake2s} (hB : Blake2sAgree K B) (bits : List Bool) :
    edgeHash K bits = hashToBits B (bitsBeToBytesLe bits) := by
  obtain ⟨p, h1, h2, h3⟩ := C50_edge_params
  unfold edgeHash hashToBits Blake2sCore.evaluate
  simp only [h1]
  rw [hB p _ h2, h3, bitsLeToBytesLe_pad]
  unfold bitsLeToBytesLe
  rw [List.reverse_reverse]

/-- Concrete case: the two blocks of the 512-bit XOF, and a pair of agreeing functions exists for
every gadget. -/
example (K : Blake2sCore) : Blake2sAgree K (Blake2s.ofCore K) := Blake2s.ofCore_agree K

example : (blake2xsParams 512 1 SIG_DOMAIN).parameters =
    [32, 0, 0, 0, 32, 0, 0, 0, 1, 0, 0, 0, 64, 0, 0, 32, 0, 0, 0, 0, 0, 0, 0, 0] ++ SIG_DOMAIN := by
  decide +kernel

/-! ### The theorems applied to concrete data -/

/-- `C54_verifier`, `C54_binds`: the packing of 512 given bits, as of the two hashes, admits no other bits. -/
example (f : ℕ → Bool) (bits : List Bool) (inputs : List Fq) (hl : bits.length = 512)
    (hw : pack ((List.range 512).map f) = .ok inputs) (hc : multipackC 377 376 bits inputs) :
    bits = (List.range 512).map f :=
  C54_verifier (by simpa using hl) hc hw

/-- The hypotheses of the case above are met. -/
example (f : ℕ → Bool) : ∃ inputs : List Fq, pack ((List.range 512).map f) = .ok inputs ∧
    multipackC 377 376 ((List.range 512).map f) inputs :=
  C54_complete (by norm_num) (by norm_num) (by decide +kernel) _

/-- `C54_slack`: 512 bits are a full chunk and one of 136 bits, so the second input is not determined by its bits. -/
example (f : ℕ → Bool) : ∃ inputs inputs' : List Fq, inputs ≠ inputs' ∧ pack ((List.range 512).map f) = .ok inputs ∧
    multipackC 377 376 ((List.range 512).map f) inputs ∧ multipackC 377 376 ((List.range 512).map f) inputs' :=
  C54_slack (c := ((List.range 512).map f).drop 376) (pre := [((List.range 512).map f).take 376])
    (by
      have h1 : ((List.range 512).map f).length = 512 := by simp
      have h2 : (((List.range 512).map f).drop 376).length = 136 := by simp
      generalize (List.range 512).map f = l at *
      rw [chunks_cons (by norm_num) (by rintro rfl; simp at h1),
        chunks_cons (by norm_num) (by intro h; rw [h] at h2; simp at h2),
        List.take_of_length_le (l := l.drop 376) (by omega), List.drop_eq_nil_of_le (as := l.drop 376) (by omega),
        chunks_nil]
      rfl) (by simp)

end Verif
