import Verif.Model.Ffi
import Verif.Props.Serialize

/-!
# Properties of the data crossing the C interface: C58, C60, C63, and the rest of C67
-/

set_option linter.unusedSectionVars false
set_option exponentiation.threshold 800

namespace Verif

theorem Outcome.mapM_map {ε α β γ : Type*} (g : α → β) (f : β → Outcome ε γ) (l : List α) :
    Outcome.mapM f (l.map g) = Outcome.mapM (fun a => f (g a)) l := by
  induction l with
  | nil => rfl
  | cons a as ih => rw [List.map_cons, Outcome.mapM_cons, Outcome.mapM_cons, ih]

theorem Outcome.mapM_snoc {ε α β : Type*} (f : α → Outcome ε β) (l : List α) (a : α) :
    Outcome.mapM f (l ++ [a]) =
      (Outcome.mapM f l).bind fun bs => (f a).map fun b => bs ++ [b] := by
  induction l with
  | nil =>
    rw [List.nil_append, Outcome.mapM_cons]
    cases f a <;> rfl
  | cons x xs ih =>
    rw [List.cons_append, Outcome.mapM_cons, Outcome.mapM_cons, ih]
    cases f x with
    | err e => rfl
    | panic => rfl
    | ok b =>
      cases Outcome.mapM f xs with
      | err e => rfl
      | panic => rfl
      | ok bs => cases f a <;> rfl

theorem Outcome.bind_eq_err_iff {ε α β : Type*} (x : Outcome ε α) (f : α → Outcome ε β) (e : ε) :
    x.bind f = .err e ↔ x = .err e ∨ ∃ a, x = .ok a ∧ f a = .err e := by
  cases x <;> simp

/-! ## C58 -/

theorem deserializeWithFlags_append {F : Type*} [Field F] (C : CoordCodec F) (chunk rest : Bytes)
    (hl : chunk.length = C.size) :
    deserializeWithFlags C (chunk ++ rest) =
      (deserializeWithFlags C chunk).map fun r => (r.1, rest) := by
  unfold deserializeWithFlags
  rw [if_neg (by rw [List.length_append]; omega), if_neg (by omega)]
  simp only []
  rw [List.take_left' hl, List.drop_left' hl, List.take_of_length_le (by omega)]
  split
  · rfl
  · split <;> rfl

theorem deserializePublicKey_append (sqrt : Fq2 → Option Fq2) (chunk rest : Bytes)
    (hl : chunk.length = 96) :
    deserializePublicKey sqrt (chunk ++ rest) =
      (deserializePublicKey sqrt chunk).map fun r => (r.1, rest) := by
  unfold deserializePublicKey deserializeAffine
  rw [deserializeWithFlags_append fq2Codec chunk rest hl]
  cases deserializeWithFlags fq2Codec chunk with
  | err e => rfl
  | panic => rfl
  | ok r =>
    simp only [Outcome.map_ok, Outcome.bind_ok]
    split
    · rfl
    · split
      · rfl
      · split <;> rfl

theorem slice_length (mem : Memory) (p n : ℕ) : (mem.slice p n).length = n := by
  simp [Memory.slice]

theorem slice_add (mem : Memory) (p m n : ℕ) :
    mem.slice p (m + n) = mem.slice p m ++ mem.slice (p + m) n := by
  simp only [Memory.slice, List.range_add, List.map_append, List.map_map]
  congr 1
  apply List.map_congr_left
  intro i _
  simp [Nat.add_assoc]

theorem readPubkeysLoop_eq (sqrt : Fq2 → Option Fq2) (mem : Memory) (n p : ℕ) (acc : List G2Point) :
    readPubkeysLoop sqrt n (mem.slice p (n * PUBKEY_BYTES)) acc =
      (Outcome.mapM (fun i => (deserializePublicKey sqrt (mem.slice (p + 96 * i) 96)).map Prod.fst)
        (List.range n)).map (acc ++ ·) := by
  induction n generalizing p acc with
  | zero => simp [readPubkeysLoop]
  | succ n ih =>
    have e : (n + 1) * PUBKEY_BYTES = 96 + n * PUBKEY_BYTES := by unfold PUBKEY_BYTES; ring
    rw [e, slice_add, readPubkeysLoop, deserializePublicKey_append _ _ _ (slice_length _ _ _),
      List.range_succ_eq_map, Outcome.mapM_cons]
    have e2 : Outcome.mapM (fun i => (deserializePublicKey sqrt (mem.slice (p + 96 * i) 96)).map
        Prod.fst) (List.map Nat.succ (List.range n)) =
        Outcome.mapM (fun i => (deserializePublicKey sqrt (mem.slice (p + 96 + 96 * i) 96)).map
        Prod.fst) (List.range n) := by
      rw [Outcome.mapM_map]
      congr 1
      funext i
      rw [show p + 96 * i.succ = p + 96 + 96 * i by rw [Nat.succ_eq_add_one]; ring]
    rw [e2, Nat.mul_zero, Nat.add_zero]
    cases hd : deserializePublicKey sqrt (mem.slice p 96) with
    | err e => simp
    | panic => simp
    | ok r =>
      simp only [Outcome.map_ok, Outcome.bind_ok]
      rw [ih]
      cases Outcome.mapM (fun i => (deserializePublicKey sqrt
        (mem.slice (p + 96 + 96 * i) 96)).map Prod.fst) (List.range n) <;> simp

/-- C58: reading `n` keys is decoding the `n` chunks of 96 bytes in order, stopping at the first
that fails. -/
theorem C58_read (sqrt : Fq2 → Option Fq2) (mem : Memory) (ptr n : ℕ) :
    readPubkeys sqrt mem ptr n =
      Outcome.mapM (fun i => (deserializePublicKey sqrt (mem.slice (ptr + 96 * i) 96)).map Prod.fst)
        (List.range n) := by
  unfold readPubkeys
  rw [readPubkeysLoop_eq]
  cases Outcome.mapM (fun i => (deserializePublicKey sqrt
    (mem.slice (ptr + 96 * i) 96)).map Prod.fst) (List.range n) <;> simp

/-- C58: it succeeds exactly when every chunk decodes, with the keys in order. -/
theorem C58_ok_iff (sqrt : Fq2 → Option Fq2) (mem : Memory) (ptr n : ℕ) (keys : List G2Point) :
    readPubkeys sqrt mem ptr n = .ok keys ↔
      keys.length = n ∧ ∀ (i : ℕ) (hi : i < keys.length), ∃ rest,
        deserializePublicKey sqrt (mem.slice (ptr + 96 * i) 96) = .ok (keys[i], rest) := by
  rw [C58_read, Outcome.mapM_eq_ok_iff, List.forall₂_iff_get]
  simp only [List.length_range, List.get_eq_getElem, List.getElem_range, Outcome.map_eq_ok_iff]
  constructor
  · rintro ⟨h1, h2⟩
    refine ⟨h1.symm, fun i hi => ?_⟩
    obtain ⟨⟨k, rest⟩, ha, hb⟩ := h2 i (by omega) hi
    exact ⟨rest, by rw [ha, ← hb]⟩
  · rintro ⟨h1, h2⟩
    refine ⟨h1.symm, fun i hi hi' => ?_⟩
    obtain ⟨rest, h⟩ := h2 i hi'
    exact ⟨_, h, rfl⟩

/-- C58: otherwise the error is the one of the first chunk that does not decode. -/
theorem C58_err_iff (sqrt : Fq2 → Option Fq2) (mem : Memory) (ptr n : ℕ) (e : SerError) :
    readPubkeys sqrt mem ptr n = .err e ↔
      ∃ j < n, deserializePublicKey sqrt (mem.slice (ptr + 96 * j) 96) = .err e ∧
        ∀ i < j, ∃ r, deserializePublicKey sqrt (mem.slice (ptr + 96 * i) 96) = .ok r := by
  rw [C58_read]
  induction n with
  | zero => simp
  | succ n ih =>
    rw [List.range_succ, Outcome.mapM_snoc, Outcome.bind_eq_err_iff]
    constructor
    · rintro (h | ⟨ks, h1, h2⟩)
      · obtain ⟨j, hj, h⟩ := ih.mp h
        exact ⟨j, by omega, h⟩
      · refine ⟨n, by omega, ?_, ?_⟩
        · cases hd : deserializePublicKey sqrt (mem.slice (ptr + 96 * n) 96) <;> simp [hd] at h2 ⊢
          exact h2
        · intro i hi
          rw [Outcome.mapM_eq_ok_iff, List.forall₂_iff_get] at h1
          have := h1.2 i (by simpa using hi) (by have := h1.1; simp at this; omega)
          simp only [List.get_eq_getElem, List.getElem_range, Outcome.map_eq_ok_iff] at this
          obtain ⟨r, hr, _⟩ := this
          exact ⟨r, hr⟩
    · rintro ⟨j, hj, h1, h2⟩
      by_cases hjn : j = n
      · subst hjn
        right
        choose! f hf using h2
        refine ⟨(List.range j).map fun i => (f i).1, ?_, by simp [h1]⟩
        rw [Outcome.mapM_eq_ok_iff, List.forall₂_map_right_iff, List.forall₂_same]
        intro i hi
        rw [hf i (by simpa using hi)]
        rfl
      · left
        exact ih.mpr ⟨j, by omega, h1, h2⟩

/-- C58: only the `96 n` bytes at `ptr` matter. -/
theorem C58_local (sqrt : Fq2 → Option Fq2) (mem mem' : Memory) (ptr n : ℕ)
    (h : ∀ a, ptr ≤ a → a < ptr + 96 * n → mem a = mem' a) :
    readPubkeys sqrt mem ptr n = readPubkeys sqrt mem' ptr n := by
  have : mem.slice ptr (n * PUBKEY_BYTES) = mem'.slice ptr (n * PUBKEY_BYTES) := by
    apply List.map_congr_left
    intro i hi
    rw [List.mem_range] at hi
    unfold PUBKEY_BYTES at hi
    exact h _ (by omega) (by omega)
  unfold readPubkeys
  rw [this]

theorem serializePubkeys_cons (k : G2Point) (ks : List G2Point) :
    serializePubkeys (k :: ks) = serializePublicKey k ++ serializePubkeys ks := by
  have : ∀ (l : List G2Point) (acc : Bytes), l.foldl (fun v p => v ++ serializePublicKey p) acc =
      acc ++ l.foldl (fun v p => v ++ serializePublicKey p) [] := by
    intro l
    induction l with
    | nil => simp
    | cons a as ih =>
      intro acc
      simp only [List.foldl_cons]
      rw [ih, ih ([] ++ serializePublicKey a)]
      simp
  unfold serializePubkeys
  rw [List.foldl_cons, this]
  simp

theorem C58_serialize_length (keys : List G2Point) :
    (serializePubkeys keys).length = 96 * keys.length := by
  induction keys with
  | nil => rfl
  | cons k ks ih =>
    rw [serializePubkeys_cons, List.length_append, ih, (C66_sizes k 0 0).1, List.length_cons]
    ring

/-- C58: keys serialised into memory at `ptr` (whatever lies around them) are read back, in
order. -/
theorem C58_roundtrip {sqrt : Fq2 → Option Fq2} (hs : RootSpec sqrt) (keys : List G2Point)
    (hk : ∀ k ∈ keys, FR_MODULUS • k = 0) (mem : Memory) (ptr : ℕ)
    (hm : mem.slice ptr (serializePubkeys keys).length = serializePubkeys keys) :
    readPubkeys sqrt mem ptr keys.length = .ok keys := by
  rw [C58_serialize_length] at hm
  rw [C58_read]
  induction keys generalizing ptr with
  | nil => rfl
  | cons k ks ih =>
    rw [serializePubkeys_cons, List.length_cons, Nat.mul_succ, Nat.add_comm, slice_add] at hm
    have hl : (mem.slice ptr 96).length = (serializePublicKey k).length := by
      rw [slice_length, (C66_sizes k 0 0).1]
    obtain ⟨h1, h2⟩ := List.append_inj hm hl
    have hk1 := C66_public_key_roundtrip hs k (hk k (by simp)) []
    rw [List.append_nil] at hk1
    rw [List.length_cons, List.range_succ_eq_map, Outcome.mapM_cons, Nat.mul_zero, Nat.add_zero, h1,
      hk1, Outcome.mapM_map]
    have h3 := ih (fun k' hk' => hk k' (by simp [hk'])) (ptr + 96) h2
    have e : (fun i : ℕ => (deserializePublicKey sqrt (mem.slice (ptr + 96 * i.succ) 96)).map
        Prod.fst) = fun i => (deserializePublicKey sqrt (mem.slice (ptr + 96 + 96 * i) 96)).map
        Prod.fst := by
      funext i
      rw [show ptr + 96 * i.succ = ptr + 96 + 96 * i by rw [Nat.succ_eq_add_one]; ring]
    rw [e, h3]
    rfl

/-- C58: what a block received through the interface becomes; it is refused exactly when its keys
are, with the same error. -/
theorem C58_block (sqrt : Fq2 → Option Fq2) (mem : Memory) (src : EpochBlockFFI) :
    (∀ b, epochBlockFromFfi sqrt mem src = .ok b ↔
      readPubkeys sqrt mem src.pubkeys src.pubkeysNum = .ok b.newPublicKeys ∧
      b.index = src.index ∧ b.round = src.round ∧
      b.maximumNonSigners = src.maximumNonSigners ∧ b.maximumValidators = src.maximumValidators ∧
      (b.epochEntropy = if src.epochEntropy = 0 then none
        else some ((List.range 16).map fun i => mem (src.epochEntropy + i))) ∧
      (b.parentEntropy = if src.parentEntropy = 0 then none
        else some ((List.range 16).map fun i => mem (src.parentEntropy + i)))) ∧
    (∀ e, epochBlockFromFfi sqrt mem src = .err e ↔
      readPubkeys sqrt mem src.pubkeys src.pubkeysNum = .err e) := by
  unfold epochBlockFromFfi
  cases readPubkeys sqrt mem src.pubkeys src.pubkeysNum with
  | err e => simp
  | panic => simp
  | ok ks =>
    refine ⟨fun b => ?_, fun e => by simp⟩
    simp only [Outcome.bind_ok, Outcome.ok.injEq]
    constructor
    · rintro rfl
      exact ⟨rfl, rfl, rfl, rfl, rfl, rfl, rfl⟩
    · rintro ⟨h1, h2, h3, h4, h5, h6, h7⟩
      cases b
      simp only at h1 h2 h3 h4 h5 h6 h7
      subst h1 h2 h3 h4 h5 h6 h7
      rfl

/-! ## C60 -/

/-- C60: a non-empty slice becomes a buffer denoting the same bytes, and back. -/
theorem C60_roundtrip (s : SliceRef) (h : 0 < s.len) :
    ∃ b, bufferFrom s = .ok b ∧ b.ptr = s.addr ∧ b.len = s.len ∧ sliceFrom b = s ∧
      ∀ mem, (sliceFrom b).bytes mem = s.bytes mem := by
  refine ⟨⟨s.addr, s.len⟩, ?_, rfl, rfl, rfl, fun _ => rfl⟩
  unfold bufferFrom
  rw [if_pos h]

/-- C60, violation: an empty slice panics, wherever it is. -/
theorem C60_violation_empty (addr : ℕ) : bufferFrom ⟨addr, 0⟩ = .panic := rfl

/-- C60: messages convert back and forth exactly when neither part is empty; with an empty
extra-data slice (the usual case) the conversion panics. -/
theorem C60_message {PK Sig : Type*} (m : MessageRef PK Sig) :
    (0 < m.data.len ∧ 0 < m.extra.len →
      ∃ f, messageToFfi m = .ok f ∧ messageFromFfi f = m) ∧
    (m.data.len = 0 ∨ m.extra.len = 0 → messageToFfi m = .panic) := by
  constructor
  · rintro ⟨h1, h2⟩
    refine ⟨⟨⟨m.data.addr, m.data.len⟩, ⟨m.extra.addr, m.extra.len⟩, m.publicKey, m.sig⟩, ?_, rfl⟩
    unfold messageToFfi bufferFrom
    rw [if_pos h1, if_pos h2]
    rfl
  · intro h
    unfold messageToFfi bufferFrom
    by_cases h1 : 0 < m.data.len
    · rw [if_pos h1, if_neg (by omega)]
      rfl
    · rw [if_neg h1]
      rfl

/-! ## C63 -/

/-- C63: `compress_signature` on all byte strings.  `X`, `Y` are the little-endian values of the
first two groups of 48 bytes. -/
theorem C63_signature (bs : Bytes) (out : BytesOut) :
    (96 ≤ bs.length ∧ leValue (bs.take 48) < FQ_MODULUS ∧
        leValue ((bs.drop 48).take 48) < FQ_MODULUS →
      ffiCompressSignature bs out = (.ok true, BytesOut.of (leBytes 48 (leValue (bs.take 48) +
        if FQ_MODULUS < 2 * leValue ((bs.drop 48).take 48) then 2 ^ 383 else 0)))) ∧
    (¬ (96 ≤ bs.length ∧ leValue (bs.take 48) < FQ_MODULUS ∧
        leValue ((bs.drop 48).take 48) < FQ_MODULUS) →
      ffiCompressSignature bs out = (.panic, out)) := by
  have hd : (bs.take 96).drop 48 = (bs.drop 48).take 48 := by
    rw [List.drop_take]
  constructor
  · rintro ⟨h1, h2, h3⟩
    unfold ffiCompressSignature sliceRange
    rw [if_pos (by omega), if_pos h1, hd]
    have e1 : fqRead (bs.take 48) = some ((leValue (bs.take 48) : ℕ) : Fq) := by
      unfold fqRead; rw [if_pos h2]
    have e2 : fqRead ((bs.drop 48).take 48) = some ((leValue ((bs.drop 48).take 48) : ℕ) : Fq) := by
      unfold fqRead; rw [if_pos h3]
    simp only [List.drop_zero, Outcome.bind_ok, e1, e2, Outcome.unwrap, convertResultToBool,
      FfiM.bind, FfiM.lift, FfiM.write]
    congr 2
    simp only [serializeAffine]
    rw [serializeWithFlags_fq]
    have v1 : ((leValue (bs.take 48) : ℕ) : Fq).val = leValue (bs.take 48) := by
      rw [ZMod.val_natCast, Nat.mod_eq_of_lt h2]
    have v2 : ((leValue ((bs.drop 48).take 48) : ℕ) : Fq).val = leValue ((bs.drop 48).take 48) := by
      rw [ZMod.val_natCast, Nat.mod_eq_of_lt h3]
    have hg := fqCodec_gt_neg ((leValue ((bs.drop 48).take 48) : ℕ) : Fq)
    unfold Larger1 at hg
    rw [v2] at hg
    rw [v1]
    by_cases hL : FQ_MODULUS < 2 * leValue ((bs.drop 48).take 48)
    · rw [if_pos hL, if_pos (hg.mpr hL)]
      rfl
    · rw [if_neg hL, if_neg (fun h => hL (hg.mp h))]
      rfl
  · intro h
    unfold ffiCompressSignature sliceRange
    rw [hd]
    by_cases h0 : 48 ≤ bs.length
    · rw [if_pos h0]
      by_cases h2 : leValue (bs.take 48) < FQ_MODULUS
      · have e1 : fqRead (bs.take 48) = some ((leValue (bs.take 48) : ℕ) : Fq) := by
          unfold fqRead; rw [if_pos h2]
        simp only [List.drop_zero, Outcome.bind_ok, e1, Outcome.unwrap, convertResultToBool,
          FfiM.bind, FfiM.lift]
        by_cases h1 : 96 ≤ bs.length
        · rw [if_pos h1]
          have e2 : fqRead ((bs.drop 48).take 48) = none := by
            rw [fqRead_eq_none_iff]
            by_contra hc
            exact h ⟨h1, h2, by omega⟩
          simp only [Outcome.bind_ok, e2]
        · rw [if_neg h1]
          rfl
      · have e1 : fqRead (bs.take 48) = none := by
          rw [fqRead_eq_none_iff]; omega
        simp only [List.drop_zero, Outcome.bind_ok, e1, Outcome.unwrap, convertResultToBool,
          FfiM.bind, FfiM.lift]
    · rw [if_neg h0]
      rfl

/-- C63: `compress_pubkey` on all byte strings. -/
theorem C63_pubkey (bs : Bytes) (out : BytesOut) (x0 x1 y0 y1 : ℕ)
    (hx0 : x0 = leValue (bs.take 48)) (hx1 : x1 = leValue ((bs.drop 48).take 48))
    (hy0 : y0 = leValue ((bs.drop 96).take 48)) (hy1 : y1 = leValue ((bs.drop 144).take 48)) :
    (192 ≤ bs.length ∧ x0 < FQ_MODULUS ∧ x1 < FQ_MODULUS ∧ y0 < FQ_MODULUS ∧ y1 < FQ_MODULUS →
      ffiCompressPubkey bs out = (.ok true, BytesOut.of (leBytes 48 x0 ++ leBytes 48 (x1 +
        if FQ_MODULUS < 2 * y1 ∨ y1 = 0 ∧ FQ_MODULUS < 2 * y0 then 2 ^ 383 else 0)))) ∧
    (¬ (192 ≤ bs.length ∧ x0 < FQ_MODULUS ∧ x1 < FQ_MODULUS ∧ y0 < FQ_MODULUS ∧ y1 < FQ_MODULUS) →
      ffiCompressPubkey bs out = (.panic, out)) := by
  have hne : NeZero FQ_MODULUS := ⟨FQ_prime.ne_zero⟩
  have hd1 : (bs.take 96).take 48 = bs.take 48 := by rw [List.take_take]; rfl
  have hd2 : (bs.take 96).drop 48 = (bs.drop 48).take 48 := by rw [List.drop_take]
  have hd3 : ((bs.take 192).drop 96).take 48 = (bs.drop 96).take 48 := by
    rw [List.drop_take, List.take_take]; rfl
  have hd4 : ((bs.take 192).drop 96).drop 48 = (bs.drop 144).take 48 := by
    rw [List.drop_drop, List.drop_take]
  have hr : ∀ (c : Bytes) (n : ℕ), n = leValue c →
      (n < FQ_MODULUS → fqRead c = some ((n : ℕ) : Fq)) ∧ (¬ n < FQ_MODULUS → fqRead c = none) := by
    rintro c n rfl
    unfold fqRead
    exact ⟨fun h => by rw [if_pos h], fun h => by rw [if_neg h]⟩
  obtain ⟨a0, b0⟩ := hr _ _ hx0
  obtain ⟨a1, b1⟩ := hr _ _ hx1
  obtain ⟨a2, b2⟩ := hr _ _ hy0
  obtain ⟨a3, b3⟩ := hr _ _ hy1
  constructor
  · rintro ⟨h, h0, h1, h2, h3⟩
    unfold ffiCompressPubkey sliceRange
    rw [if_pos (by omega), if_pos h]
    have e1 : fq2Codec.read (bs.take 96) = some ⟨(x0 : Fq), (x1 : Fq)⟩ := by
      simp only [fq2Codec]; rw [hd1, hd2, a0 h0, a1 h1]; rfl
    have e2 : fq2Codec.read ((bs.take 192).drop 96) = some ⟨(y0 : Fq), (y1 : Fq)⟩ := by
      simp only [fq2Codec]; rw [hd3, hd4, a2 h2, a3 h3]; rfl
    simp only [List.drop_zero, Outcome.bind_ok, e1, e2, Outcome.unwrap, convertResultToBool,
      FfiM.bind, FfiM.lift, FfiM.write]
    congr 2
    simp only [serializeAffine]
    rw [serializeWithFlags_fq2]
    have v : ∀ n : ℕ, n < FQ_MODULUS → ((n : ℕ) : Fq).val = n := by
      intro n hn; rw [ZMod.val_natCast, Nat.mod_eq_of_lt hn]
    have hg := fq2Codec_gt_neg ⟨(y0 : Fq), (y1 : Fq)⟩
    have hz : ((y1 : Fq) = 0) ↔ y1 = 0 := by rw [← ZMod.val_eq_zero, v y1 h3]
    unfold Larger2 at hg
    simp only [v y0 h2, v y1 h3, hz] at hg
    simp only [v x0 h0, v x1 h1]
    by_cases hL : FQ_MODULUS < 2 * y1 ∨ y1 = 0 ∧ FQ_MODULUS < 2 * y0
    · rw [if_pos hL, if_pos (hg.mpr hL)]
      rfl
    · rw [if_neg hL, if_neg (fun h => hL (hg.mp h))]
      rfl
  · intro h
    unfold ffiCompressPubkey sliceRange
    by_cases hl : 96 ≤ bs.length
    · rw [if_pos hl]
      cases e1 : fq2Codec.read (bs.take 96) with
      | none =>
        simp only [List.drop_zero, Outcome.bind_ok, e1, Outcome.unwrap, convertResultToBool,
          FfiM.bind, FfiM.lift]
      | some x =>
        simp only [List.drop_zero, Outcome.bind_ok, e1, Outcome.unwrap, convertResultToBool,
          FfiM.bind, FfiM.lift]
        by_cases hl2 : 192 ≤ bs.length
        · rw [if_pos hl2]
          have e2 : fq2Codec.read ((bs.take 192).drop 96) = none := by
            by_contra hc
            have hc' : ∃ y, fq2Codec.read ((bs.take 192).drop 96) = some y :=
              Option.ne_none_iff_exists'.mp hc
            obtain ⟨y, hy⟩ := hc'
            apply h
            refine ⟨hl2, ?_, ?_, ?_, ?_⟩
            · by_contra hn
              simp only [fq2Codec] at e1
              rw [hd1, b0 hn] at e1
              cases e1
            · by_contra hn
              simp only [fq2Codec] at e1
              rw [hd2, b1 hn] at e1
              simp at e1
            · by_contra hn
              simp only [fq2Codec] at hy
              rw [hd3, b2 hn] at hy
              cases hy
            · by_contra hn
              simp only [fq2Codec] at hy
              rw [hd4, b3 hn] at hy
              simp at hy
          simp only [Outcome.bind_ok, e2]
        · rw [if_neg hl2]
          rfl
    · rw [if_neg hl]
      rfl

/-- The uncompressed format of a finite signature: two numbers of 48 bytes. -/
theorem uncompressed_signature (x y : Fq) (h : g1Curve.Nonsingular x y) :
    serializeSignatureUncompressed (.some x y h) = leBytes 48 x.val ++ leBytes 48 y.val := by
  have e : serializeSignatureUncompressed (.some x y h) =
      fqCodec.write x ++ serializeWithFlags fqCodec y .negativeY := rfl
  rw [e, serializeWithFlags_fq]
  have hm : 2 ^ 376 * SWFlags.negativeY.mask.toNat = 0 := by decide +kernel
  rw [hm]
  rfl

/-- The uncompressed format of a finite public key: four numbers of 48 bytes. -/
theorem uncompressed_public_key (x y : Fq2) (h : g2Curve.Nonsingular x y) :
    serializePublicKeyUncompressed (.some x y h) =
      leBytes 48 x.re.val ++ leBytes 48 x.im.val ++ (leBytes 48 y.re.val ++ leBytes 48 y.im.val) := by
  have e : serializePublicKeyUncompressed (.some x y h) =
      fq2Codec.write x ++ serializeWithFlags fq2Codec y .negativeY := rfl
  rw [e, serializeWithFlags_fq2]
  have hm : 2 ^ 376 * SWFlags.negativeY.mask.toNat = 0 := by decide +kernel
  rw [hm]
  rfl

theorem take_drop_four (a b c d rest : Bytes) (ha : a.length = 48) (hb : b.length = 48)
    (hc : c.length = 48) (hd : d.length = 48) :
    (a ++ b ++ (c ++ d) ++ rest).take 48 = a ∧
    ((a ++ b ++ (c ++ d) ++ rest).drop 48).take 48 = b ∧
    ((a ++ b ++ (c ++ d) ++ rest).drop 96).take 48 = c ∧
    ((a ++ b ++ (c ++ d) ++ rest).drop 144).take 48 = d := by
  have e : a ++ b ++ (c ++ d) ++ rest = a ++ (b ++ (c ++ (d ++ rest))) := by simp
  rw [e]
  refine ⟨List.take_left' ha, ?_, ?_, ?_⟩
  · rw [List.drop_left' ha, List.take_left' hb]
  · rw [show (96 : ℕ) = 48 + 48 from rfl, ← List.drop_drop, List.drop_left' ha, List.drop_left' hb,
      List.take_left' hc]
  · rw [show (144 : ℕ) = 48 + 48 + 48 from rfl, ← List.drop_drop, ← List.drop_drop,
      List.drop_left' ha, List.drop_left' hb, List.drop_left' hc, List.take_left' hd]

/-- C63: compressing the uncompressed form of a finite signature (followed by anything) gives its
compressed form. -/
theorem C63_signature_roundtrip (s : G1Point) (h0 : s ≠ 0) (rest : Bytes) (out : BytesOut) :
    ffiCompressSignature (serializeSignatureUncompressed s ++ rest) out =
      (.ok true, BytesOut.of (serializeSignature s)) := by
  have hne : NeZero FQ_MODULUS := ⟨FQ_prime.ne_zero⟩
  cases s with
  | zero => exact absurd rfl h0
  | some x y h =>
    rw [uncompressed_signature, C66_signature_format]
    have l : ∀ n, (leBytes 48 n).length = 48 := fun n => leBytes_length _ _
    have v : ∀ z : Fq, leValue (leBytes 48 z.val) = z.val := leBytes48_value
    have ht : (leBytes 48 x.val ++ leBytes 48 y.val ++ rest).take 48 = leBytes 48 x.val := by
      rw [List.append_assoc, List.take_left' (l _)]
    have hd : ((leBytes 48 x.val ++ leBytes 48 y.val ++ rest).drop 48).take 48 =
        leBytes 48 y.val := by
      rw [List.append_assoc, List.drop_left' (l _), List.take_left' (l _)]
    have := (C63_signature (leBytes 48 x.val ++ leBytes 48 y.val ++ rest) out).1
    rw [ht, hd, v, v] at this
    rw [this ⟨by simp only [List.length_append, l]; omega, ZMod.val_lt x, ZMod.val_lt y⟩]
    congr 4
    unfold Larger1
    congr 1

/-- C63: compressing the uncompressed form of a finite public key gives its compressed form. -/
theorem C63_pubkey_roundtrip (pk : G2Point) (h0 : pk ≠ 0) (rest : Bytes) (out : BytesOut) :
    ffiCompressPubkey (serializePublicKeyUncompressed pk ++ rest) out =
      (.ok true, BytesOut.of (serializePublicKey pk)) := by
  have hne : NeZero FQ_MODULUS := ⟨FQ_prime.ne_zero⟩
  cases pk with
  | zero => exact absurd rfl h0
  | some x y h =>
    rw [uncompressed_public_key, C66_public_key_format]
    have l : ∀ n, (leBytes 48 n).length = 48 := fun n => leBytes_length _ _
    have v : ∀ z : Fq, leValue (leBytes 48 z.val) = z.val := leBytes48_value
    obtain ⟨t1, t2, t3, t4⟩ := take_drop_four (leBytes 48 x.re.val) (leBytes 48 x.im.val)
      (leBytes 48 y.re.val) (leBytes 48 y.im.val) rest (l _) (l _) (l _) (l _)
    have := (C63_pubkey _ out x.re.val x.im.val y.re.val y.im.val
      (by rw [t1, v]) (by rw [t2, v]) (by rw [t3, v]) (by rw [t4, v])).1
    rw [this ⟨by simp only [List.length_append, l]; omega, ZMod.val_lt _, ZMod.val_lt _,
      ZMod.val_lt _, ZMod.val_lt _⟩]
    have hL : (FQ_MODULUS < 2 * y.im.val ∨ y.im.val = 0 ∧ FQ_MODULUS < 2 * y.re.val) ↔ Larger2 y := by
      unfold Larger2
      rw [ZMod.val_eq_zero]
    classical
    congr 5
    exact if_congr hL rfl rfl

/-- C63: the uncompressed forms of the point at infinity make both functions panic. -/
theorem C63_infinity_panics (rest : Bytes) (out : BytesOut) :
    ffiCompressSignature (serializeSignatureUncompressed 0 ++ rest) out = (.panic, out) ∧
    ffiCompressPubkey (serializePublicKeyUncompressed 0 ++ rest) out = (.panic, out) := by
  have l : ∀ n, (leBytes 48 n).length = 48 := fun n => leBytes_length _ _
  have hm : 2 ^ 376 * SWFlags.infinity.mask.toNat = 2 ^ 382 := by decide +kernel
  have hv : ¬ leValue (leBytes 48 (1 + 2 ^ 382)) < FQ_MODULUS := by decide +kernel
  have hv0 : ¬ leValue (leBytes 48 (0 + 2 ^ 382)) < FQ_MODULUS := by decide +kernel
  constructor
  · have e : serializeSignatureUncompressed 0 = leBytes 48 0 ++ leBytes 48 (1 + 2 ^ 382) := by
      have e : serializeSignatureUncompressed 0 =
        fqCodec.write 0 ++ serializeWithFlags fqCodec 1 .infinity := rfl
      rw [e, serializeWithFlags_fq, hm]
      rfl
    apply (C63_signature _ out).2
    rintro ⟨_, _, h⟩
    rw [e, List.append_assoc, List.drop_left' (l _), List.take_left' (l _)] at h
    exact hv h
  · have e : serializePublicKeyUncompressed 0 =
        leBytes 48 0 ++ leBytes 48 0 ++ (leBytes 48 1 ++ leBytes 48 (0 + 2 ^ 382)) := by
      have e : serializePublicKeyUncompressed 0 =
        fq2Codec.write 0 ++ serializeWithFlags fq2Codec 1 .infinity := rfl
      rw [e, serializeWithFlags_fq2, hm]
      rfl
    apply (C63_pubkey _ out _ _ _ _ rfl rfl rfl rfl).2
    rintro ⟨_, _, _, _, h⟩
    rw [e, (take_drop_four _ _ _ _ rest (l _) (l _) (l _) (l _)).2.2.2] at h
    exact hv0 h

/-- C63: no curve check: `(1, 1)` is compressed although no point of the curve has these
coordinates. -/
theorem C63_no_curve_check (out : BytesOut) :
    ffiCompressSignature (leBytes 48 1 ++ leBytes 48 1) out =
      (.ok true, BytesOut.of (leBytes 48 1)) ∧
    ¬ ∃ s : G1Point, ∃ x y h, s = .some x y h ∧ x = 1 ∧ y = 1 := by
  constructor
  · have := (C63_signature (leBytes 48 1 ++ leBytes 48 1) out).1 (by decide +kernel)
    rw [this]
    congr 2
  · rintro ⟨s, x, y, h, _, rfl, rfl⟩
    have h' := (shortCurve_nonsingular g1_good 1 1).mp h
    revert h'
    decide +kernel

/-! ## C67, data functions -/

/-- C67: the deserialisers never panic, on any bytes; nor does the conversion of blocks. -/
theorem C67_deserialize (sqrt1 : Fq → Option Fq) (sqrt2 : Fq2 → Option Fq2) (bs : Bytes)
    (mem : Memory) (src : EpochBlockFFI) :
    (∀ out, (ffiDeserialize deserializePrivateKey bs out).1 ≠ .panic) ∧
    (∀ out, (ffiDeserialize (deserializePublicKey sqrt2) bs out).1 ≠ .panic) ∧
    (∀ out, (ffiDeserialize (deserializeSignature sqrt1) bs out).1 ≠ .panic) ∧
    epochBlockFromFfi sqrt2 mem src ≠ .panic := by
  have gen : ∀ {T : Type} (d : Bytes → Outcome SerError (T × Bytes)), d bs ≠ .panic →
      ∀ out, (ffiDeserialize d bs out).1 ≠ .panic := by
    intro T d hd out
    unfold ffiDeserialize
    cases h : d bs <;> simp [convertResultToBool, FfiM.bind, FfiM.lift, FfiM.write, liftSer, h] at hd ⊢
  have hpk : ∀ bs, deserializePublicKey sqrt2 bs ≠ .panic :=
    fun bs => deserialize_point_no_panic fq2Codec_laws sqrt2 bs
  refine ⟨gen _ ?_, gen _ (hpk bs), gen _ (deserialize_point_no_panic fqCodec_laws sqrt1 bs), ?_⟩
  · unfold deserializePrivateKey
    split
    · simp
    · split <;> simp
  · unfold epochBlockFromFfi
    have : readPubkeys sqrt2 mem src.pubkeys src.pubkeysNum ≠ .panic := by
      rw [C58_read]
      generalize List.range src.pubkeysNum = l
      induction l with
      | nil => simp
      | cons a as ih =>
        rw [Outcome.mapM_cons]
        have h1 := hpk (mem.slice (src.pubkeys + 96 * a) 96)
        cases h : deserializePublicKey sqrt2 (mem.slice (src.pubkeys + 96 * a) 96) with
        | panic => exact absurd h h1
        | err e => simp
        | ok v =>
          cases h2 : Outcome.mapM (fun i => (deserializePublicKey sqrt2
            (mem.slice (src.pubkeys + 96 * i) 96)).map Prod.fst) as <;> simp [h2] at ih ⊢
    cases h : readPubkeys sqrt2 mem src.pubkeys src.pubkeysNum with
    | panic => exact absurd h this
    | err e => simp
    | ok v => simp

/-- C67: bytes are accepted by the C deserialisers exactly as by the Rust ones; bytes after the
object are ignored. -/
theorem C67_deserialize_ignores_rest {sqrt : Fq2 → Option Fq2} (hs : RootSpec sqrt) (pk : G2Point)
    (h : FR_MODULUS • pk = 0) (rest : Bytes) (out : Option G2Point) :
    ffiDeserialize (deserializePublicKey sqrt) (serializePublicKey pk ++ rest) out =
      (.ok true, some pk) := by
  unfold ffiDeserialize
  rw [C66_public_key_roundtrip hs pk h rest]
  rfl

/-! ## Concrete cases -/

/-- Memory holding the generator twice at address 1000, and 7 elsewhere. -/
noncomputable def exampleMemory : Memory := fun a =>
  if 1000 ≤ a ∧ a < 1192 then (serializePubkeys [g2Generator, g2Generator]).getD (a - 1000) 0 else 7

/-- The memory hypothesis of C58_roundtrip. -/
theorem exampleMemory_spec :
    exampleMemory.slice 1000 (serializePubkeys [g2Generator, g2Generator]).length =
      serializePubkeys [g2Generator, g2Generator] := by
  have hl : (serializePubkeys [g2Generator, g2Generator]).length = 192 :=
    C58_serialize_length _
  rw [hl]
  apply List.ext_getElem
  · rw [slice_length, hl]
  · intro i h1 h2
    rw [slice_length] at h1
    simp only [Memory.slice, List.getElem_map, List.getElem_range, exampleMemory]
    rw [if_pos (by omega), show 1000 + i - 1000 = i by omega,
      List.getD_eq_getElem _ _ h2]

/-- Two keys are read back from that memory. -/
example : readPubkeys someSqrt2 exampleMemory 1000 2 = .ok [g2Generator, g2Generator] :=
  C58_roundtrip someSqrt2_spec [g2Generator, g2Generator] (by simp [g2Generator_order])
    exampleMemory 1000 exampleMemory_spec

/-- A non-empty slice (C60). -/
example : (0 : ℕ) < (SliceRef.mk 1000 3).len := by decide

/-- A finite signature and a finite key (C63). -/
example : onePoint ≠ 0 ∧ g2Generator ≠ 0 := by
  constructor
  · intro h
    apply onePoint_outside
    rw [h, nsmul_zero]
  · exact WeierstrassCurve.Affine.Point.some_ne_zero _

end Verif
