import Verif.Props.Blake2s
import Mathlib.Data.Nat.Bitwise
import Mathlib.Data.Nat.Sqrt

/-!
# C80: BLAKE2s after RFC 7693

An independent rendering of the RFC's pseudocode, with words as numbers below 2^32, vectors as
functions and one assignment per line, and the proof that the model computes it on all inputs.
-/

set_option maxRecDepth 100000
set_option exponentiation.threshold 100000

namespace Verif

/-! ## The specification -/

/-- RFC 7693 section 2.6: the fractional parts of the square roots of the first eight primes. -/
def rfcIV (i : ℕ) : ℕ := Nat.sqrt ([2, 3, 5, 7, 11, 13, 17, 19].getD i 0 * 2 ^ 64) % 2 ^ 32

/-- RFC 7693 section 2.7. -/
def rfcSigma : ℕ → ℕ → ℕ
  | 0, j => j
  | 1, j => [14, 10, 4, 8, 9, 15, 13, 6, 1, 12, 0, 2, 11, 7, 5, 3].getD j 0
  | 2, j => [11, 8, 12, 0, 5, 2, 15, 13, 10, 14, 3, 6, 7, 1, 9, 4].getD j 0
  | 3, j => [7, 9, 3, 1, 13, 12, 11, 14, 2, 6, 5, 10, 4, 0, 15, 8].getD j 0
  | 4, j => [9, 0, 5, 7, 2, 4, 10, 15, 14, 1, 11, 12, 6, 8, 3, 13].getD j 0
  | 5, j => [2, 12, 6, 10, 0, 11, 8, 3, 4, 13, 7, 5, 15, 14, 1, 9].getD j 0
  | 6, j => [12, 5, 1, 15, 14, 13, 4, 10, 0, 7, 6, 3, 9, 2, 8, 11].getD j 0
  | 7, j => [13, 11, 7, 14, 12, 1, 3, 9, 5, 0, 15, 4, 8, 6, 2, 10].getD j 0
  | 8, j => [6, 15, 14, 9, 11, 3, 0, 8, 12, 2, 13, 7, 1, 4, 10, 5].getD j 0
  | _, j => [10, 2, 8, 4, 7, 6, 1, 5, 15, 11, 9, 14, 3, 12, 13, 0].getD j 0

/-- Rotation by `n` to the right: the low `n` bits move to the top. -/
def rfcRot (n x : ℕ) : ℕ := x / 2 ^ n + x % 2 ^ n * 2 ^ (32 - n)

/-- RFC 7693 section 3.1. -/
def rfcG (v : ℕ → ℕ) (a b c d x y : ℕ) : ℕ → ℕ :=
  let v := Function.update v a ((v a + v b + x) % 2 ^ 32)
  let v := Function.update v d (rfcRot 16 (v d ^^^ v a))
  let v := Function.update v c ((v c + v d) % 2 ^ 32)
  let v := Function.update v b (rfcRot 12 (v b ^^^ v c))
  let v := Function.update v a ((v a + v b + y) % 2 ^ 32)
  let v := Function.update v d (rfcRot 8 (v d ^^^ v a))
  let v := Function.update v c ((v c + v d) % 2 ^ 32)
  Function.update v b (rfcRot 7 (v b ^^^ v c))

/-- RFC 7693 section 3.2, the body of the loop: columns, then diagonals. -/
def rfcRound (m : ℕ → ℕ) (v : ℕ → ℕ) (i : ℕ) : ℕ → ℕ :=
  let s := rfcSigma i
  let v := (List.range 4).foldl
    (fun v j => rfcG v j (4 + j) (8 + j) (12 + j) (m (s (2 * j))) (m (s (2 * j + 1)))) v
  (List.range 4).foldl (fun v j => rfcG v j (4 + (j + 1) % 4) (8 + (j + 2) % 4) (12 + (j + 3) % 4)
    (m (s (8 + 2 * j))) (m (s (8 + 2 * j + 1)))) v

/-- RFC 7693 section 3.2. -/
def rfcF (h m : ℕ → ℕ) (t : ℕ) (f : Bool) : ℕ → ℕ :=
  let v := fun i => if i < 8 then h i else rfcIV (i - 8)
  let v := Function.update v 12 (v 12 ^^^ t % 2 ^ 32)
  let v := Function.update v 13 (v 13 ^^^ t / 2 ^ 32 % 2 ^ 32)
  let v := if f then Function.update v 14 (v 14 ^^^ (2 ^ 32 - 1)) else v
  let v := (List.range 10).foldl (rfcRound m) v
  fun i => h i ^^^ v i ^^^ v (i + 8)

/-- Byte `i` of a string followed by zeros. -/
def rfcByte (b : Bytes) (i : ℕ) : ℕ := (b.getD i 0).toNat

/-- Little-endian word `i` of a string followed by zeros, RFC 7693 section 2.4. -/
def rfcWord (b : Bytes) (i : ℕ) : ℕ :=
  rfcByte b (4 * i) + 2 ^ 8 * rfcByte b (4 * i + 1) + 2 ^ 16 * rfcByte b (4 * i + 2) +
    2 ^ 24 * rfcByte b (4 * i + 3)

/-- RFC 7693 section 3.3, with the parameter block of the BLAKE2 specification in place of
`0x01010000 ^ (kk << 8) ^ nn`: the number of blocks is at least one, all but the last are compressed
with the number of bytes so far, the last with the number of all bytes and the flag. -/
def rfcBlake2s (block m : Bytes) : List ℕ :=
  let dd := max 1 ((m.length + 63) / 64)
  let d := fun k i => rfcWord m (16 * k + i)
  let h := fun i => rfcIV i ^^^ rfcWord block i
  let h := (List.range (dd - 1)).foldl (fun h k => rfcF h (d k) (64 * (k + 1)) false) h
  let h := rfcF h (d (dd - 1)) m.length true
  (List.range 32).map fun j => h (j / 4) / 2 ^ (8 * (j % 4)) % 2 ^ 8

/-! ## The model computes it -/

/-- The words of the list are the values of the function. -/
def Words (n : ℕ) (v : List UInt32) (u : ℕ → ℕ) : Prop :=
  v.length = n ∧ ∀ i, i < n → (v.getD i 0).toNat = u i

theorem rot_toNat (x : UInt32) (n : ℕ) (hn : 0 < n) (h : n < 32) :
    (rotr32 x (UInt32.ofNat n)).toNat = rfcRot n x.toNat := by
  have hx : x.toNat < 2 ^ 32 := x.toNat_lt
  have h1 : (UInt32.ofNat n).toNat = n := by
    rw [UInt32.toNat_ofNat']; exact Nat.mod_eq_of_lt (by omega)
  have h2 : (32 - UInt32.ofNat n).toNat = 32 - n := by
    rw [UInt32.toNat_sub_of_le]
    · rw [h1]; rfl
    · rw [UInt32.le_iff_toNat_le, h1]; show n ≤ 32; omega
  unfold rotr32 rfcRot
  rw [UInt32.toNat_or, UInt32.toNat_shiftRight, UInt32.toNat_shiftLeft, h1, h2,
    Nat.mod_eq_of_lt h, Nat.mod_eq_of_lt (by omega : 32 - n < 32), Nat.shiftRight_eq_div_pow,
    Nat.shiftLeft_eq]
  have h3 : x.toNat * 2 ^ (32 - n) % 2 ^ 32 = 2 ^ (32 - n) * (x.toNat % 2 ^ n) := by
    have : (2:ℕ) ^ 32 = 2 ^ (32 - n) * 2 ^ n := by rw [← pow_add]; congr 1; omega
    rw [this, mul_comm, Nat.mul_mod_mul_left]
  rw [h3, Nat.or_comm, ← Nat.two_pow_add_eq_or_of_lt]
  · ring
  · rw [Nat.div_lt_iff_lt_mul (by positivity), ← pow_add]
    convert hx using 2
    omega

theorem getD_set {v : List UInt32} {i j : ℕ} {x : UInt32} (hi : i < v.length) :
    (v.set i x).getD j 0 = if j = i then x else v.getD j 0 := by
  rw [List.getD_eq_getElem?_getD, List.getD_eq_getElem?_getD]
  by_cases h : j = i
  · subst h; simp [hi]
  · rw [List.getElem?_set_ne (Ne.symm h), if_neg h]

theorem blakeG_words {v : List UInt32} {u : ℕ → ℕ} (h : Words 16 v u) {a b c d : ℕ} (ha : a < 16)
    (hb : b < 16) (hc : c < 16) (hd : d < 16) (hab : a ≠ b) (hac : a ≠ c) (had : a ≠ d)
    (hbc : b ≠ c) (hbd : b ≠ d) (hcd : c ≠ d) (x y : UInt32) :
    Words 16 (blakeG v a b c d x y) (rfcG u a b c d x.toNat y.toNat) := by
  obtain ⟨hl, hv⟩ := h
  refine ⟨by rw [blakeG_length, hl], fun i hi => ?_⟩
  have e16 : ∀ z, (rotr32 z 16).toNat = rfcRot 16 z.toNat := fun z => rot_toNat z 16 (by omega) (by omega)
  have e12 : ∀ z, (rotr32 z 12).toNat = rfcRot 12 z.toNat := fun z => rot_toNat z 12 (by omega) (by omega)
  have e8 : ∀ z, (rotr32 z 8).toNat = rfcRot 8 z.toNat := fun z => rot_toNat z 8 (by omega) (by omega)
  have e7 : ∀ z, (rotr32 z 7).toNat = rfcRot 7 z.toNat := fun z => rot_toNat z 7 (by omega) (by omega)
  have hadd : ∀ p q : ℕ, (p % 2 ^ 32 + q) % 2 ^ 32 = (p + q) % 2 ^ 32 := by
    intro p q; omega
  have hadd' : ∀ p q r : ℕ, (p % 2 ^ 32 + q + r) % 2 ^ 32 = (p + q + r) % 2 ^ 32 := by
    intro p q r; omega
  simp only [blakeG, rfcG, Function.update_apply]
  rw [getD_set (by simp [hl, hd]), getD_set (by simp [hl, hc]), getD_set (by simp [hl, hb]),
    getD_set (by simp [hl, ha])]
  simp only [hab, hac, had, hbc, hbd, hcd, hab.symm, hac.symm, had.symm, hbc.symm, hbd.symm,
    hcd.symm, if_false, if_true]
  have va := hv a ha
  have vb := hv b hb
  have vc := hv c hc
  have vd := hv d hd
  by_cases h1 : i = d
  · subst h1
    simp only [if_true, had.symm, hbd.symm, hcd.symm, if_false, e16, e12, e8, UInt32.toNat_add,
      UInt32.toNat_xor, va, vb, vc, vd, hadd, hadd']
  by_cases h2 : i = c
  · subst h2
    simp only [if_true, hac.symm, hbc.symm, hcd, if_false, e16, e12, e8, UInt32.toNat_add,
      UInt32.toNat_xor, va, vb, vc, vd, hadd, hadd']
  by_cases h3 : i = b
  · subst h3
    simp only [if_true, hab.symm, hbc, hbd, if_false, e16, e12, e8, e7, UInt32.toNat_add,
      UInt32.toNat_xor, va, vb, vc, vd, hadd, hadd']
  by_cases h4 : i = a
  · subst h4
    simp only [if_true, hab, hac, had, if_false, e16, e12, UInt32.toNat_add,
      UInt32.toNat_xor, va, vb, vc, vd, hadd, hadd']
  · simp only [h1, h2, h3, h4, if_false]
    exact hv i hi

theorem iv_toNat : ∀ i < 8, (blakeIV.getD i 0).toNat = rfcIV i := by decide +kernel

theorem sigma_eq : ∀ i < 10, ∀ j < 16, (blakeSigma.getD i []).getD j 0 = rfcSigma i j ∧
    rfcSigma i j < 16 := by decide +kernel

theorem blakeRound_words {m v : List UInt32} {n u : ℕ → ℕ} (hm : Words 16 m n) (h : Words 16 v u)
    {i : ℕ} (hi : i < 10) :
    Words 16 (blakeRound m v (blakeSigma.getD i [])) (rfcRound n u i) := by
  have hw : ∀ j < 16, (m.getD ((blakeSigma.getD i []).getD j 0) 0).toNat = n (rfcSigma i j) := by
    intro j hj
    obtain ⟨h1, h2⟩ := sigma_eq i hi j hj
    rw [h1]
    exact hm.2 _ h2
  have r4 : List.range 4 = [0, 1, 2, 3] := rfl
  simp only [blakeRound, rfcRound, r4, List.foldl_cons, List.foldl_nil]
  norm_num only
  rw [← hw 0 (by omega), ← hw 1 (by omega), ← hw 2 (by omega), ← hw 3 (by omega),
    ← hw 4 (by omega), ← hw 5 (by omega), ← hw 6 (by omega), ← hw 7 (by omega),
    ← hw 8 (by omega), ← hw 9 (by omega), ← hw 10 (by omega), ← hw 11 (by omega),
    ← hw 12 (by omega), ← hw 13 (by omega), ← hw 14 (by omega), ← hw 15 (by omega)]
  have step : ∀ {v : List UInt32} {u : ℕ → ℕ}, Words 16 v u → ∀ {a b c d : ℕ},
      (a < b ∧ b < c ∧ c < d ∧ d < 16) → ∀ (x y : UInt32),
      Words 16 (blakeG v a b c d x y) (rfcG u a b c d x.toNat y.toNat) := by
    intro v u h a b c d ho x y
    exact blakeG_words h (by omega) (by omega) (by omega) (by omega) (by omega) (by omega)
      (by omega) (by omega) (by omega) (by omega) x y
  exact step (step (step (step (step (step (step (step h (by decide) _ _) (by decide) _ _)
    (by decide) _ _) (by decide) _ _) (by decide) _ _) (by decide) _ _) (by decide) _ _)
    (by decide) _ _

theorem rounds_words {m v : List UInt32} {n u : ℕ → ℕ} (hm : Words 16 m n) (h : Words 16 v u) :
    Words 16 (blakeSigma.foldl (blakeRound m) v) ((List.range 10).foldl (rfcRound n) u) := by
  have hs : blakeSigma = (List.range 10).map fun i => blakeSigma.getD i [] := by decide +kernel
  have key : ∀ l : List ℕ, (∀ i ∈ l, i < 10) → ∀ (v : List UInt32) (u : ℕ → ℕ), Words 16 v u →
      Words 16 ((l.map fun i => blakeSigma.getD i []).foldl (blakeRound m) v)
        (l.foldl (rfcRound n) u) := by
    intro l
    induction l with
    | nil => intro _ v u h; exact h
    | cons i l ih =>
      intro hl v u h
      rw [List.map_cons, List.foldl_cons, List.foldl_cons]
      exact ih (fun j hj => hl j (List.mem_cons_of_mem _ hj)) _ _
        (blakeRound_words hm h (hl i List.mem_cons_self))
  have := key (List.range 10) (by simp) v u h
  rwa [← hs] at this

theorem byte_drop (b : Bytes) (k i : ℕ) : rfcByte (b.drop k) i = rfcByte b (k + i) := by
  simp [rfcByte, List.getD_eq_getElem?_getD]

theorem word_drop (b : Bytes) (k i : ℕ) : rfcWord (b.drop (4 * k)) i = rfcWord b (k + i) := by
  simp only [rfcWord, byte_drop]
  ring_nf

theorem byte_nil (i : ℕ) : rfcByte [] i = 0 := by simp [rfcByte]

theorem leValue_take4 (b : Bytes) : leValue (b.take 4) = rfcWord b 0 := by
  rcases b with _ | ⟨b0, _ | ⟨b1, _ | ⟨b2, _ | ⟨b3, b⟩⟩⟩⟩ <;>
    simp [leValue, rfcWord, rfcByte] <;> ring

theorem rfcWord_lt (b : Bytes) (i : ℕ) : rfcWord b i < 2 ^ 32 := by
  have h : ∀ j, rfcByte b j < 256 := fun j => (b.getD j 0).toNat_lt
  have h0 := h (4 * i)
  have h1 := h (4 * i + 1)
  have h2 := h (4 * i + 2)
  have h3 := h (4 * i + 3)
  unfold rfcWord
  omega

theorem blakeWords_getD (b : Bytes) (i : ℕ) : ((blakeWords b).getD i 0).toNat = rfcWord b i := by
  induction i generalizing b with
  | zero =>
    by_cases hb : b = []
    · subst hb; simp [blakeWords, chunks_nil, rfcWord, byte_nil]
    · rw [blakeWords, chunks_cons (by decide) hb, List.map_cons, List.getD_cons_zero,
        UInt32.toNat_ofNat', leValue_take4]
      exact Nat.mod_eq_of_lt (rfcWord_lt b 0)
  | succ i ih =>
    by_cases hb : b = []
    · subst hb; simp [blakeWords, chunks_nil, rfcWord, byte_nil]
    · rw [blakeWords, chunks_cons (by decide) hb, List.map_cons, List.getD_cons_succ]
      have := ih (b.drop 4)
      rw [blakeWords] at this
      rw [this, word_drop b 1 i, add_comm]

theorem blakeWords_words (b : Bytes) (hb : b.length = 64) : Words 16 (blakeWords b) (rfcWord b) := by
  refine ⟨?_, fun i _ => blakeWords_getD b i⟩
  rw [blakeWords, List.length_map, chunks_length (by decide), hb]

theorem blakeF_words {h : List UInt32} {u n : ℕ → ℕ} (hh : Words 8 h u) {block : Bytes}
    (hb : block.length = 64) (hn : ∀ i < 16, rfcWord block i = n i) (t : ℕ) (f : Bool) :
    Words 8 (blakeF h block t f) (rfcF u n t f) := by
  obtain ⟨hl, hv⟩ := hh
  have hm : Words 16 (blakeWords block) n :=
    ⟨(blakeWords_words block hb).1, fun i hi => by rw [blakeWords_getD, hn i hi]⟩
  unfold blakeF rfcF
  simp only []
  have iv := iv_toNat
  have hinit : Words 16 (h ++ [blakeIV.getD 0 0, blakeIV.getD 1 0, blakeIV.getD 2 0,
      blakeIV.getD 3 0, blakeIV.getD 4 0 ^^^ UInt32.ofNat t,
      blakeIV.getD 5 0 ^^^ UInt32.ofNat (t / 2 ^ 32),
      if f then blakeIV.getD 6 0 ^^^ 0xFFFFFFFF else blakeIV.getD 6 0, blakeIV.getD 7 0])
      (if f then Function.update (Function.update (Function.update
          (fun i => if i < 8 then u i else rfcIV (i - 8)) 12 (rfcIV 4 ^^^ t % 2 ^ 32)) 13
          (rfcIV 5 ^^^ t / 2 ^ 32 % 2 ^ 32)) 14 (rfcIV 6 ^^^ (2 ^ 32 - 1))
        else Function.update (Function.update
          (fun i => if i < 8 then u i else rfcIV (i - 8)) 12 (rfcIV 4 ^^^ t % 2 ^ 32)) 13
          (rfcIV 5 ^^^ t / 2 ^ 32 % 2 ^ 32)) := by
    refine ⟨by simp [hl], fun i hi => ?_⟩
    by_cases h8 : i < 8
    · rw [List.getD_append _ _ _ _ (by omega), hv i h8]
      cases f <;> simp [show i ≠ 12 by omega, show i ≠ 13 by omega,
        show i ≠ 14 by omega, h8]
    · rw [List.getD_append_right _ _ _ _ (by omega), hl]
      obtain ⟨j, rfl⟩ : ∃ j, i = j + 8 := ⟨i - 8, by omega⟩
      have hj : j < 8 := by omega
      rw [Nat.add_sub_cancel]
      clear hi h8
      have i0 := iv 0 (by omega)
      have i1 := iv 1 (by omega)
      have i2 := iv 2 (by omega)
      have i3 := iv 3 (by omega)
      have i4 := iv 4 (by omega)
      have i5 := iv 5 (by omega)
      have i6 := iv 6 (by omega)
      have i7 := iv 7 (by omega)
      clear iv
      revert i0 i1 i2 i3 i4 i5 i6 i7
      generalize blakeIV.getD 0 0 = w0
      generalize blakeIV.getD 1 0 = w1
      generalize blakeIV.getD 2 0 = w2
      generalize blakeIV.getD 3 0 = w3
      generalize blakeIV.getD 4 0 = w4
      generalize blakeIV.getD 5 0 = w5
      generalize blakeIV.getD 6 0 = w6
      generalize blakeIV.getD 7 0 = w7
      intro i0 i1 i2 i3 i4 i5 i6 i7
      interval_cases j <;> cases f <;>
        simp [UInt32.toNat_xor, i0, i1, i2, i3, i4, i5, i6, i7]
  obtain ⟨hfl, hfv⟩ := rounds_words hm hinit
  refine ⟨by simp [hl], fun i hi => ?_⟩
  have h1 := hfv i (by omega)
  have h2 := hfv (i + 8) (by omega)
  have hz : ∀ (g : UInt32 → ℕ → UInt32), (List.zipWith g h (List.range 8)).getD i 0 =
      g (h.getD i 0) i := by
    intro g
    rw [List.getD_eq_getElem?_getD, List.getElem?_zipWith, List.getElem?_range hi,
      List.getElem?_eq_getElem (by omega), List.getD_eq_getElem _ _ (by omega)]
    rfl
  rw [hz, UInt32.toNat_xor, UInt32.toNat_xor, hv i hi, h1, h2]
  rfl

theorem byte_pad (b : Bytes) (k i : ℕ) :
    rfcByte (b ++ List.replicate k 0) i = rfcByte b i := by
  unfold rfcByte
  by_cases h : i < b.length
  · rw [List.getD_append _ _ _ _ h]
  · rw [List.getD_append_right _ _ _ _ (by omega), List.getD_eq_default b 0 (by omega)]
    by_cases h2 : i - b.length < k
    · rw [List.getD_replicate _ h2]
    · rw [List.getD_eq_default _ _ (by simpa using h2)]

theorem byte_take (b : Bytes) (k i : ℕ) (h : i < k) : rfcByte (b.take k) i = rfcByte b i := by
  simp [rfcByte, List.getD_eq_getElem?_getD, h]

theorem word_pad (b : Bytes) (k i : ℕ) : rfcWord (b ++ List.replicate k 0) i = rfcWord b i := by
  simp only [rfcWord, byte_pad]

theorem word_take64 (b : Bytes) (i : ℕ) (h : i < 16) : rfcWord (b.take 64) i = rfcWord b i := by
  simp only [rfcWord]
  rw [byte_take _ _ _ (by omega), byte_take _ _ _ (by omega), byte_take _ _ _ (by omega),
    byte_take _ _ _ (by omega)]

theorem word_block (m : Bytes) (k i : ℕ) : rfcWord (m.drop (64 * k)) i = rfcWord m (16 * k + i) := by
  rw [← word_drop]
  congr 2
  ring

theorem blakeLoop_words (m : Bytes) (dd : ℕ) (hdd : dd = max 1 ((m.length + 63) / 64)) :
    ∀ (fuel k : ℕ) (h : List UInt32) (u : ℕ → ℕ), Words 8 h u → k + 1 ≤ dd →
      m.length - 64 * k < fuel →
      Words 8 (blakeLoop h m.length fuel (64 * k) (m.drop (64 * k)))
        (rfcF ((List.range' k (dd - 1 - k)).foldl
          (fun h k => rfcF h (fun i => rfcWord m (16 * k + i)) (64 * (k + 1)) false) u)
          (fun i => rfcWord m (16 * (dd - 1) + i)) m.length true)
  | 0, _, _, _, _, _, hf => absurd hf (by omega)
  | fuel + 1, k, h, u, hh, hk, hf => by
    rw [blakeLoop]
    have hlen : (m.drop (64 * k)).length = m.length - 64 * k := List.length_drop
    by_cases hle : (m.drop (64 * k)).length ≤ 64
    · rw [if_pos hle]
      obtain rfl : k = dd - 1 := by omega
      rw [Nat.sub_self]
      refine blakeF_words hh (by simp; omega) (fun i _ => ?_) _ _
      rw [word_pad, word_block]
    · rw [if_neg hle]
      obtain ⟨j, hj⟩ : ∃ j, dd - 1 - k = j + 1 := ⟨dd - 1 - k - 1, by omega⟩
      rw [hj, List.range'_succ, List.foldl_cons]
      have hstep : Words 8 (blakeF h ((m.drop (64 * k)).take 64) (64 * k + 64) false)
          (rfcF u (fun i => rfcWord m (16 * k + i)) (64 * (k + 1)) false) := by
        have := blakeF_words hh (block := (m.drop (64 * k)).take 64)
          (n := fun i => rfcWord m (16 * k + i)) (by rw [List.length_take]; omega)
          (fun i hi => by rw [word_take64 _ _ hi, word_block]) (64 * k + 64) false
        rwa [show 64 * (k + 1) = 64 * k + 64 by ring]
      have ih := blakeLoop_words m dd hdd fuel (k + 1) _ _ hstep (by omega) (by omega)
      rw [show dd - 1 - (k + 1) = j by omega] at ih
      rw [List.drop_drop, show 64 * k + 64 = 64 * (k + 1) by ring]
      rwa [show 64 * k + 64 = 64 * (k + 1) by ring] at ih

theorem leBytes_map (k n : ℕ) : leBytes k n =
    (List.range k).map fun j => UInt8.ofNat (n / 2 ^ (8 * j) % 2 ^ 8) := by
  induction k generalizing n with
  | zero => rfl
  | succ k ih =>
    rw [leBytes, ih, List.range_succ_eq_map, List.map_cons, List.map_map]
    congr 1
    · apply UInt8.toNat_inj.1
      simp
    · refine List.map_congr_left fun j _ => ?_
      simp only [Function.comp]
      rw [Nat.div_div_eq_div_mul, Nat.succ_eq_add_one, mul_add, pow_add, mul_comm]
      norm_num

/-- **C80.** The model computes BLAKE2s as RFC 7693 describes it, for every parameter block and every
message. -/
theorem C80_rfc (block m : Bytes) :
    (blakeDigest block m).map UInt8.toNat = rfcBlake2s block m := by
  have h0 : Words 8 (List.zipWith (· ^^^ ·) blakeIV (blakeWords block ++ List.replicate 8 0))
      (fun i => rfcIV i ^^^ rfcWord block i) := by
    refine ⟨by simp [blakeIV], fun i hi => ?_⟩
    show _ = rfcIV i ^^^ rfcWord block i
    rw [← iv_toNat i hi, ← blakeWords_getD, ← UInt32.toNat_xor]
    congr 1
    have h1 : i < blakeIV.length := hi
    have h2 : i < (blakeWords block ++ List.replicate 8 0).length := by simp; omega
    rw [List.getD_eq_getElem?_getD, List.getElem?_zipWith, List.getElem?_eq_getElem h1,
      List.getElem?_eq_getElem h2, List.getD_eq_getElem _ _ h1]
    show blakeIV[i] ^^^ _ = _
    congr 1
    rw [← List.getD_eq_getElem _ 0 h2]
    by_cases h3 : i < (blakeWords block).length
    · rw [List.getD_append _ _ _ _ h3]
    · rw [List.getD_append_right _ _ _ _ (by omega), List.getD_eq_default (blakeWords block) _ (by omega),
        List.getD_replicate _ (by omega)]
  obtain ⟨hl, hv⟩ := blakeLoop_words m _ rfl (m.length + 1) 0 _ _ h0 (by omega) (by omega)
  unfold blakeDigest rfcBlake2s
  simp only []
  rw [Nat.sub_zero, ← List.range_eq_range'] at hv
  rw [mul_zero, List.drop_zero] at hl hv
  generalize blakeLoop _ m.length (m.length + 1) 0 m = L at *
  generalize rfcF _ _ _ _ = u at *
  obtain ⟨w0, w1, w2, w3, w4, w5, w6, w7, rfl⟩ : ∃ w0 w1 w2 w3 w4 w5 w6 w7,
      L = [w0, w1, w2, w3, w4, w5, w6, w7] := by
    rcases L with _ | ⟨w0, _ | ⟨w1, _ | ⟨w2, _ | ⟨w3, _ | ⟨w4, _ | ⟨w5, _ | ⟨w6, _ | ⟨w7, L⟩⟩⟩⟩⟩⟩⟩⟩ <;>
      simp at hl
    subst hl
    exact ⟨_, _, _, _, _, _, _, _, rfl⟩
  have e : ∀ j, j < 8 → ([w0, w1, w2, w3, w4, w5, w6, w7].getD j 0).toNat = u j := hv
  have e0 : w0.toNat = u 0 := e 0 (by omega)
  have e1 : w1.toNat = u 1 := e 1 (by omega)
  have e2 : w2.toNat = u 2 := e 2 (by omega)
  have e3 : w3.toNat = u 3 := e 3 (by omega)
  have e4 : w4.toNat = u 4 := e 4 (by omega)
  have e5 : w5.toNat = u 5 := e 5 (by omega)
  have e6 : w6.toNat = u 6 := e 6 (by omega)
  have e7 : w7.toNat = u 7 := e 7 (by omega)
  have r32 : List.range 32 = [0, 1, 2, 3, 4, 5, 6, 7, 8, 9, 10, 11, 12, 13, 14, 15, 16, 17, 18, 19, 20,
    21, 22, 23, 24, 25, 26, 27, 28, 29, 30, 31] := rfl
  have r4 : List.range 4 = [0, 1, 2, 3] := rfl
  have hm : ∀ x : ℕ, (UInt8.ofNat (x % 2 ^ 8)).toNat = x % 2 ^ 8 := by
    intro x
    rw [UInt8.toNat_ofNat', Nat.mod_mod]
  simp only [List.flatMap_cons, List.flatMap_nil, leBytes_map, r32, r4, List.map_cons,
    List.map_nil, hm, e0, e1, e2, e3, e4, e5, e6, e7, List.cons_append, List.nil_append,
    List.append_nil]

/-- RFC 7693 appendix B: BLAKE2s-256 of "abc". -/
example : rfcBlake2s (leBytes 32 0x01010020) [0x61, 0x62, 0x63] =
    [0x50, 0x8C, 0x5E, 0x8C, 0x32, 0x7C, 0x14, 0xE2, 0xE1, 0xA7, 0x2B, 0xA3, 0x4E, 0xEB, 0x45, 0x2F,
      0x37, 0x45, 0x8B, 0x20, 0x9E, 0xD6, 0x3A, 0x29, 0x4D, 0x99, 0x9B, 0x4C, 0x86, 0x67, 0x59, 0x82] := by
  rw [← C80_rfc]
  decide +kernel

end Verif
