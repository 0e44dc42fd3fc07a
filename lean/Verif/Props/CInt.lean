import Verif.Model.CInt
import Verif.Lemmas.Hashers
import Verif.Props.Hashers
import Verif.Props.FfiData
import Verif.Props.Encoding
import Verif.Props.Serialize

/-!
# Machine integers at the C interface: C87
-/

namespace Verif

/-! ## Lengths coming in -/

/-- **C87.** A `c_int` length converts to the same `usize` if and only if it is not negative; a
negative one becomes a length above `isize::MAX`, which `slice::from_raw_parts` never allows, so
there is no way to pass a negative length without undefined behaviour. -/
theorem C87_length_in (n : Int32) :
    ((usizeOfInt32 n : ℤ) = n.toInt ↔ 0 ≤ n.toInt) ∧
    (n.toInt < 0 ↔ 2 ^ 63 ≤ usizeOfInt32 n) ∧ usizeOfInt32 n < 2 ^ 64 := by
  have h1 := Int32.le_toInt n
  have h2 := Int32.toInt_lt n
  unfold usizeOfInt32
  omega

/-- **C87.** A vector's length survives the conversion to `c_int` if and only if it is below `2^31`;
exactly then `free_vec` called with the pair handed out releases the vector with its length. -/
theorem C87_length_out (v : Bytes) (hv : v.length < 2 ^ 63) :
    ((Int32.ofNat v.length).toInt = v.length ↔ v.length < 2 ^ 31) ∧
    (v.length = usizeOfInt32 (Int32.ofNat v.length) ↔ v.length < 2 ^ 31) := by
  have h : (Int32.ofNat v.length).toInt = ((v.length : ℤ) + 2 ^ 31) % 2 ^ 32 - 2 ^ 31 := by
    rw [Int32.toInt_ofNat', Int.bmod_def, show Int32.size = 2 ^ 32 from rfl]
    split <;> push_cast at * <;> omega
  unfold usizeOfInt32
  rw [h]
  omega

/-! ## `hash_bytes` -/

theorem directXofUsize_eq (checks : Bool) (B : Blake2s) (domain m : Bytes) (len : ℕ)
    (h : len + 32 < 2 ^ 64) :
    directXofUsize checks B domain m len = directXof B domain m len := by
  unfold directXofUsize directXof usizeAdd usizeSub
  rw [if_pos h]
  split
  · rfl
  · rw [Outcome.bind_ok, if_pos (by omega), Outcome.bind_ok]
    rfl

/-- A block whose number needs more than 48 bits panics. -/
theorem xofBlockParams_panic (domain : Bytes) (hd : domain.length ≤ 8) (len n : ℕ) :
    xofBlockParams domain len n (2 ^ 48) = .panic := by
  unfold xofBlockParams
  have h32 : len % 32 < 32 := Nat.mod_lt _ (by norm_num)
  have hb : ∀ k : ℕ, 1 ≤ k ∧ k ≤ 32 → Blake2sParams.new.setHashLength k =
      .ok { Blake2sParams.new with hashLength := k } := fun k hk => by
    unfold Blake2sParams.setHashLength; rw [if_pos hk]
  have hsel : 1 ≤ (if 2 ^ 48 = n - 1 ∧ len % 32 ≠ 0 then len % 32 else 32) ∧
      (if 2 ^ 48 = n - 1 ∧ len % 32 ≠ 0 then len % 32 else 32) ≤ 32 := by
    split <;> omega
  simp only []
  rw [hb _ hsel, Outcome.bind_ok]
  unfold Blake2sParams.setPersonal
  rw [if_pos hd, Outcome.bind_ok]
  unfold Blake2sParams.setNodeOffset
  rw [if_neg]
  unfold xofDigestLengthToNodeOffset
  simp only []
  have h1 : 2 ^ 48 ≤ 2 ^ 48 ||| ((len % 2 ^ 16 % 256) <<< 32) := Nat.left_le_or
  have h2 := Nat.left_le_or (n := 2 ^ 48 ||| ((len % 2 ^ 16 % 256) <<< 32))
    (m := (len % 2 ^ 16 / 256) <<< 40)
  omega

theorem mapM_panic {ε α β : Type*} (f : α → Outcome ε β) (a : α) (ha : f a = .panic) :
    ∀ l : List α, (∀ x ∈ l, ∀ e, f x ≠ .err e) → a ∈ l → Outcome.mapM f l = .panic
  | x :: xs, hx, hm => by
    rw [Outcome.mapM_cons]
    cases hfx : f x with
    | panic => rfl
    | err e => exact absurd hfx (hx x (by simp) e)
    | ok b =>
      have : a ∈ xs := by
        rcases List.mem_cons.mp hm with rfl | h
        · rw [ha] at hfx; cases hfx
        · exact h
      rw [Outcome.bind_ok, mapM_panic f a ha xs (fun y hy => hx y (by simp [hy])) this]
      rfl

theorem xofBlockParams_ne_err (domain : Bytes) (len n i : ℕ) (e : BLSError) :
    xofBlockParams domain len n i ≠ .err e := by
  unfold xofBlockParams Blake2sParams.setHashLength Blake2sParams.setPersonal
    Blake2sParams.setNodeOffset
  simp only []
  generalize (if i = n - 1 ∧ len % 32 ≠ 0 then len % 32 else 32) = k
  by_cases h1 : 1 ≤ k ∧ k ≤ 32
  · rw [if_pos h1, Outcome.bind_ok]
    by_cases h2 : domain.length ≤ 8
    · rw [if_pos h2, Outcome.bind_ok]
      split <;> simp
    · rw [if_neg h2]; simp [Outcome.bind]
  · rw [if_neg h1]; simp [Outcome.bind]

theorem directXofUsize_panic (B : Blake2s) (domain m : Bytes) (hd : domain.length ≤ 8)
    (len n : ℕ) (hn : 2 ^ 48 < n) :
    (Outcome.mapM (fun i => (xofBlockParams domain len n i).map fun p => B.run p m)
      (List.range n)) = (.panic : Outcome BLSError (List Bytes)) := by
  apply mapM_panic _ (2 ^ 48)
  · rw [xofBlockParams_panic domain hd]; rfl
  · intro x _ e h
    cases hx : xofBlockParams domain len n x with
    | ok p => rw [hx] at h; cases h
    | err e' => exact xofBlockParams_ne_err _ _ _ _ _ hx
    | panic => rw [hx] at h; cases h
  · exact List.mem_range.mpr hn

theorem sig_domain_length : SIG_DOMAIN.length = 8 := rfl

/-- **C87.** `hash_direct_first_step` with a length that is not negative: it returns true, hands out
exactly that many bytes, the ones of the hasher, and reports exactly that length; the profile does
not matter. -/
theorem C87_hash_bytes (checks : Bool) (B : Blake2s) (m : Bytes) (n : Int32) (hn : 0 ≤ n.toInt)
    (out : BytesOut) :
    ∃ v, (directHasher B).hash SIG_DOMAIN m n.toInt.toNat = .ok v ∧
      (v.length : ℤ) = n.toInt ∧
      ffiHashDirectFirstStepInt checks B m n out = (.ok true, ⟨some v, some n⟩) := by
  have h2 := Int32.toInt_lt n
  have hu : usizeOfInt32 n = n.toInt.toNat := by
    unfold usizeOfInt32; omega
  obtain ⟨v, hv, hlen⟩ := C61_direct_ok B SIG_DOMAIN m n.toInt.toNat (by simp [sig_domain_length])
    (by omega)
  have hl : (v.length : ℤ) = n.toInt := by omega
  refine ⟨v, hv, hl, ?_⟩
  have hh : (directHasherUsize checks B).hash SIG_DOMAIN m n.toInt.toNat = .ok v := by
    rw [← hv]
    unfold Hasher.hash directHasherUsize directHasher
    simp only []
    congr 1
    funext p
    exact directXofUsize_eq checks B SIG_DOMAIN p _ (by omega)
  unfold ffiHashDirectFirstStepInt ffiHashDirectFirstStep
  rw [hu, hh]
  have hn' : Int32.ofNat v.length = n := by
    rw [← Int32.toInt_inj, Int32.toInt_ofNat', Int.bmod_def, show Int32.size = 2 ^ 32 from rfl]
    split <;> push_cast at * <;> omega
  simp [convertResultToBool, FfiM.bind, FfiM.lift, FfiM.write, BytesOut.of, hn']

/-- **C87.** With overflow checks every negative `hash_bytes` panics instead of being refused.
Without them -31 to -1 wrap around: the call returns true and hands out an empty vector; lower
values panic (or exhaust the memory first). -/
theorem C87_hash_bytes_negative (checks : Bool) (B : Blake2s) (m : Bytes) (n : Int32)
    (hn : n.toInt < 0) (out : BytesOut) :
    ffiHashDirectFirstStepInt checks B m n out =
      if checks = false ∧ -31 ≤ n.toInt then (.ok true, ⟨some [], some 0⟩) else (.panic, out) := by
  have h1 := Int32.le_toInt n
  obtain ⟨p, hp⟩ : ∃ p, (directHasherUsize checks B).crh SIG_DOMAIN m (usizeOfInt32 n) = .ok p := by
    show ∃ p, directCrh B SIG_DOMAIN m (usizeOfInt32 n) = .ok p
    unfold directCrh
    rw [directCrhParams_ok SIG_DOMAIN (by simp [sig_domain_length])]
    exact ⟨_, rfl⟩
  have hx : (directHasherUsize checks B).xof SIG_DOMAIN p (usizeOfInt32 n) =
      if checks = false ∧ -31 ≤ n.toInt then .ok [] else .panic := by
    show directXofUsize checks B SIG_DOMAIN p (usizeOfInt32 n) = _
    have hd : ¬ SIG_DOMAIN.length > 8 := by simp [sig_domain_length]
    have hu : (usizeOfInt32 n : ℤ) = 2 ^ 64 + n.toInt := by unfold usizeOfInt32; omega
    have big : ∀ s : ℕ, 2 ^ 54 ≤ s → (Outcome.mapM (fun i => (xofBlockParams SIG_DOMAIN
        (usizeOfInt32 n) (s / 32) i).map fun q => B.run q p) (List.range (s / 32))).map
          List.flatten = (.panic : Outcome BLSError Bytes) := fun s hs => by
      rw [directXofUsize_panic B SIG_DOMAIN p (by simp [sig_domain_length]) _ _ (by omega)]
      rfl
    unfold directXofUsize usizeAdd usizeSub
    rw [if_neg hd]
    by_cases hlo : n.toInt < -32
    · rw [if_pos (by omega), Outcome.bind_ok, if_pos (by omega), Outcome.bind_ok]
      rw [if_neg (by omega)]
      exact big _ (by omega)
    · rw [if_neg (by omega)]
      cases checks with
      | true => rw [if_pos rfl, if_neg (by simp)]; rfl
      | false =>
        rw [if_neg (by simp), Outcome.bind_ok]
        by_cases h32 : n.toInt = -32
        · rw [if_neg (by omega), if_neg (by simp), Outcome.bind_ok, if_neg (by omega)]
          exact big _ (by omega)
        · rw [if_pos (by omega), Outcome.bind_ok, if_pos ⟨rfl, by omega⟩]
          have : (usizeOfInt32 n + 32 - 2 ^ 64 - 1) / 32 = 0 := by omega
          simp only [this]
          rfl
  unfold ffiHashDirectFirstStepInt ffiHashDirectFirstStep Hasher.hash
  rw [hp, Outcome.bind_ok, hx]
  split <;> rfl

/-- **C87.** `hash_crh` ignores the length, so any value of `hash_bytes` is harmless: the result is
the Pedersen hash, whatever its length. -/
theorem C87_hash_crh (B : Blake2s) (pedersen : Bytes → Outcome BLSError Bytes) (m : Bytes)
    (n : Int32) (out : BytesOut) :
    ffiHashCrhInt B pedersen m n out = match pedersen m with
      | .ok v => (.ok true, ⟨some v, some (Int32.ofNat v.length)⟩)
      | .err _ => (.ok false, out)
      | .panic => (.panic, out) := by
  unfold ffiHashCrhInt ffiHashCrh
  rw [show ∀ k, (compositeHasher B pedersen).crh SIG_DOMAIN m k = pedersen m from fun _ => rfl]
  cases pedersen m <;> rfl

/-- The hypotheses of `C87_hash_bytes_negative`: -1 is accepted by a release build. -/
example : ffiHashDirectFirstStepInt false showBlake2s [1, 2, 3] (-1) ⟨none, none⟩ =
      (.ok true, ⟨some [], some 0⟩) ∧
    ffiHashDirectFirstStepInt true showBlake2s [1, 2, 3] (-1) ⟨none, none⟩ =
      (.panic, ⟨none, none⟩) ∧
    ffiHashDirectFirstStepInt false showBlake2s [1, 2, 3] (-32) ⟨none, none⟩ =
      (.panic, ⟨none, none⟩) :=
  ⟨(C87_hash_bytes_negative false _ _ (-1) (by decide) _).trans (if_pos (by decide)),
   (C87_hash_bytes_negative true _ _ (-1) (by decide) _).trans (if_neg (by decide)),
   (C87_hash_bytes_negative false _ _ (-32) (by decide) _).trans (if_neg (by decide))⟩

/-- The hypotheses of `C87_hash_bytes`. -/
example : ∃ v : Bytes, (v.length : ℤ) = 100 ∧
    ffiHashDirectFirstStepInt true showBlake2s [1, 2, 3] 100 ⟨none, none⟩ =
      (.ok true, ⟨some v, some 100⟩) :=
  let ⟨v, _, h, h'⟩ := C87_hash_bytes true showBlake2s [1, 2, 3] 100 (by decide) ⟨none, none⟩
  ⟨v, h, h'⟩

/-! ## Encoded epochs -/

theorem readEpochEntropy_canonical (mem : Memory) (ptr : ℕ) :
    (canonicalEntropy (readEpochEntropy mem ptr)).length = 16 := by
  unfold readEpochEntropy canonicalEntropy
  split
  · simp
  · simp [slice_length, ENTROPY_BYTES]

/-- **C87.** `encode_epoch_block_to_bytes_cip22` reports the length of the encoding it hands out if
and only if there are at most 22754793 validators; the length of the extra data is always right.
The bound on validators is a caller's 32-bit number, and padding up to it is done before any check,
so a greater one is accepted and the length reported is wrong (negative, up to twice as many). -/
theorem C87_encode_cip22 (gen : G2Point) (mem : Memory) (index : UInt16) (round : UInt8)
    (ee pe : ℕ) (ns mv : UInt32) (keys : List G2Point) (hk : keys.length < 2 ^ 32)
    (out : BytesOut × BytesOut) :
    ∃ (v x : Bytes) (lv lx : Int32),
      ffiEncodeEpochBlockCip22 gen mem index round ee pe ns mv keys out =
        (.ok true, ⟨some v, some lv⟩, ⟨some x, some lx⟩) ∧
      v.length = (263 + 755 * max mv.toNat keys.length) / 8 ∧ lx.toInt = x.length ∧
      (lv.toInt = v.length ↔ max mv.toNat keys.length ≤ 22754793) := by
  have hl := C29_lengths gen
    { index := index, round := round, epochEntropy := readEpochEntropy mem ee,
      parentEntropy := readEpochEntropy mem pe, maximumNonSigners := ns,
      maximumValidators := mv.toNat, newPublicKeys := keys }
    (readEpochEntropy_canonical mem ee) (readEpochEntropy_canonical mem pe)
  refine ⟨_, _, _, _, rfl, ?_, ?_, ?_⟩
  · rw [hl.1]; simp only []; congr 1; omega
  · rw [(C87_length_out _ (by rw [hl.2]; norm_num)).1, hl.2]; norm_num
  · have hmv := mv.toNat_lt
    rw [(C87_length_out _ (by rw [hl.1]; simp only []; omega)).1, hl.1]
    simp only []
    omega

/-- **C87.** The witness: room for 22754794 validators, no keys.  The call succeeds, the vector has
2147483716 bytes, the length reported is -2147483580, and releasing the pair with `free_vec` would
release it with a length that is not its own. -/
theorem C87_encode_truncates (gen : G2Point) (mem : Memory) (out : BytesOut × BytesOut) :
    ∃ (v x : Bytes) (lx : Int32),
      ffiEncodeEpochBlockCip22 gen mem 0 0 0 0 0 22754794 [] out =
        (.ok true, ⟨some v, some (-2147483580)⟩, ⟨some x, some lx⟩) ∧
      v.length = 2147483716 ∧ v.length ≠ usizeOfInt32 (-2147483580) := by
  obtain ⟨v, x, lv, lx, h, hv, -, -⟩ :=
    C87_encode_cip22 gen mem 0 0 0 0 0 22754794 [] (by simp) out
  have hv' : v.length = 2147483716 := by
    rw [hv]; decide
  have e : lv = Int32.ofNat v.length := by
    have h' := congrArg (fun r => r.2.1.len) h
    have h'' := congrArg (fun r => r.2.1.bytes) h
    simp [ffiEncodeEpochBlockCip22, convertResultToBool, FfiM.write, BytesOut.of] at h' h''
    rw [← h', ← h'']
  rw [e, hv'] at h
  exact ⟨v, x, lx, h, hv', by rw [hv']; decide⟩

/-- **C87.** `encode_epoch_block_to_bytes` (before CIP22) reports the right length if and only if
there are at most 22754793 keys. -/
theorem C87_encode (index : UInt16) (ns : UInt32) (keys : List G2Point)
    (hk : keys.length < 2 ^ 32) (out : BytesOut) :
    ∃ (v : Bytes) (lv : Int32),
      ffiEncodeEpochBlock index ns keys out = (.ok true, ⟨some v, some lv⟩) ∧
      v.length = (55 + 755 * keys.length) / 8 ∧
      (lv.toInt = v.length ↔ keys.length ≤ 22754793) := by
  have hl : ∀ b : EpochBlock, b.encodeToBytes.length = (55 + 755 * b.newPublicKeys.length) / 8 := by
    intro b
    unfold EpochBlock.encodeToBytes EpochBlock.encodeToBits
    rw [C26_bytes_length]
    simp only [List.length_append, flatMap_key_length, encodeU16_length, encodeU32_length]
    congr 1
    omega
  refine ⟨_, _, rfl, hl _, ?_⟩
  rw [(C87_length_out _ (by rw [hl]; simp only []; omega)).1, hl]
  simp only []
  omega

/-- The hypotheses of `C87_encode` and `C87_encode_cip22`: a hundred keys, lengths exact. -/
example (mem : Memory) : ∃ (v x : Bytes) (lv lx : Int32),
    ffiEncodeEpochBlockCip22 g2Generator mem 3 1 0 0 33 120 (List.replicate 100 g2Generator)
      (⟨none, none⟩, ⟨none, none⟩) = (.ok true, ⟨some v, some lv⟩, ⟨some x, some lx⟩) ∧
    v.length = 11357 ∧ lv.toInt = v.length := by
  obtain ⟨v, x, lv, lx, h, hv, -, hlv⟩ := C87_encode_cip22 g2Generator mem 3 1 0 0 33 120
    (List.replicate 100 g2Generator) (by simp) (⟨none, none⟩, ⟨none, none⟩)
  have hm : max (120 : UInt32).toNat (List.replicate 100 g2Generator).length = 120 := by simp
  rw [hm] at hv hlv
  exact ⟨v, x, lv, lx, h, hv, hlv.mpr (by norm_num)⟩

/-! ## `pubkeys_num` -/

theorem readPubkeysLoop_short (sqrt : Fq2 → Option Fq2) (n : ℕ) :
    ∀ (data : Bytes) (acc : List G2Point), data.length < n * 96 →
      ∃ e, readPubkeysLoop sqrt n data acc = .err e := by
  induction n with
  | zero => intro data acc h; omega
  | succ n ih =>
    intro data acc h
    rw [readPubkeysLoop]
    by_cases hd : data.length < 96
    · exact ⟨_, by rw [(C66_malformed sqrt (fun _ => none) data).1 hd]; rfl⟩
    · have e := deserializePublicKey_append sqrt (data.take 96) (data.drop 96) (by simp; omega)
      rw [List.take_append_drop] at e
      rw [e]
      cases h' : deserializePublicKey sqrt (data.take 96) with
      | panic => exact absurd h' (deserialize_point_no_panic fq2Codec_laws sqrt _)
      | err e => exact ⟨e, rfl⟩
      | ok r =>
        rw [Outcome.map_ok, Outcome.bind_ok]
        exact ih _ _ (by rw [List.length_drop]; omega)

/-- **C87.** `read_pubkeys` on machine integers.  While `num * 96` fits 64 bits it is the function
modelled for C68.  Otherwise a build with overflow checks panics; one without reads a wrapped,
shorter slice, whose end the loop always meets: the call fails, it never returns keys. -/
theorem C87_read_pubkeys (sqrt : Fq2 → Option Fq2) (checks : Bool) (mem : Memory)
    (ptr num : ℕ) :
    (num * 96 < 2 ^ 64 →
      readPubkeysUsize checks sqrt mem ptr num = readPubkeys sqrt mem ptr num) ∧
    (2 ^ 64 ≤ num * 96 → readPubkeysUsize true sqrt mem ptr num = .panic ∧
      ∃ e, readPubkeysUsize false sqrt mem ptr num = .err e) := by
  unfold readPubkeysUsize usizeMul PUBKEY_BYTES
  constructor
  · intro h
    rw [if_pos h]
    rfl
  · intro h
    rw [if_neg (not_lt.mpr h), if_pos rfl, if_neg (not_lt.mpr h), if_neg (by simp),
      Outcome.bind_ok]
    refine ⟨rfl, readPubkeysLoop_short _ _ _ _ ?_⟩
    rw [slice_length]
    exact lt_of_lt_of_le (Nat.mod_lt _ (by norm_num)) h

/-- The hypotheses of `C87_read_pubkeys`: two keys are read; `2^59` keys, for which the product wraps
to zero, are refused. -/
example : readPubkeysUsize false someSqrt2 exampleMemory 1000 2 = .ok [g2Generator, g2Generator] ∧
    ∃ e, readPubkeysUsize false someSqrt2 exampleMemory 1000 (2 ^ 59) = .err e :=
  ⟨((C87_read_pubkeys someSqrt2 false exampleMemory 1000 2).1 (by norm_num)).trans
      (C58_roundtrip someSqrt2_spec [g2Generator, g2Generator] (by simp [g2Generator_order])
        exampleMemory 1000 exampleMemory_spec),
   (C87_read_pubkeys someSqrt2 false exampleMemory 1000 (2 ^ 59)).2 (by norm_num) |>.2⟩

end Verif
