import Verif.Model.Serialize
import Verif.Lemmas.Encoding
import Verif.Lemmas.HashToCurve
import Verif.Lemmas.HashGadget

/-! Facts about the serialisation format. -/

set_option exponentiation.threshold 800
set_option linter.unusedSectionVars false

namespace Verif

open WeierstrassCurve

/-- What the byte format of a coordinate field satisfies. -/
structure CodecLaws {F : Type*} (C : CoordCodec F) : Prop where
  size_pos : 0 < C.size
  write_length : ∀ x, (C.write x).length = C.size
  read_write : ∀ x, C.read (C.write x) = some x
  write_read : ∀ bs x, bs.length = C.size → C.read bs = some x → C.write x = bs
  top_bits : ∀ x, ((C.write x).getLastD 0).toNat < 64
  gt_asymm : ∀ a b, C.gt a b = true → C.gt b a = false
  gt_total : ∀ a b, a ≠ b → C.gt a b = true ∨ C.gt b a = true

theorem fqWrite_length (x : Fq) : (fqWrite x).length = 48 := leBytes_length _ _

theorem fqRead_fqWrite (x : Fq) : fqRead (fqWrite x) = some x := by
  have hne : NeZero FQ_MODULUS := ⟨FQ_prime.ne_zero⟩
  unfold fqRead fqWrite
  rw [leBytes48_value, if_pos (ZMod.val_lt x), ZMod.natCast_zmod_val]

theorem fqWrite_fqRead (bs : Bytes) (x : Fq) (hl : bs.length = 48) (h : fqRead bs = some x) :
    fqWrite x = bs := by
  unfold fqRead at h
  split at h
  · rename_i hlt
    simp only [Option.some.injEq] at h
    apply leValue_inj
    · rw [fqWrite_length, hl]
    · unfold fqWrite
      rw [leBytes48_value, ← h, ZMod.val_natCast, Nat.mod_eq_of_lt hlt]
  · cases h

theorem fqRead_eq_none_iff (bs : Bytes) : fqRead bs = none ↔ FQ_MODULUS ≤ leValue bs := by
  unfold fqRead
  split <;> simp <;> omega

theorem list_eq_dropLast_getLastD {α : Type*} (l : List α) (d : α) (h : l ≠ []) :
    l = l.dropLast ++ [l.getLastD d] := by
  rw [List.getLastD_eq_getLast?, List.getLast?_eq_some_getLast h, Option.getD_some]
  exact (List.dropLast_append_getLast h).symm

theorem fqWrite_top (x : Fq) : ((fqWrite x).getLastD 0).toNat < 2 := by
  have hne : NeZero FQ_MODULUS := ⟨FQ_prime.ne_zero⟩
  have hl := fqWrite_length x
  have hnil : fqWrite x ≠ [] := by intro e; rw [e] at hl; simp at hl
  have e := list_eq_dropLast_getLastD (fqWrite x) 0 hnil
  have hv : leValue (fqWrite x) = x.val := leBytes48_value x
  rw [e, leValue_snoc _ _ (by rw [List.length_dropLast, hl])] at hv
  have h1 : x.val < FQ_MODULUS := ZMod.val_lt x
  have h2 := FQ_bounds.2
  by_contra hc
  have : 2 ^ 376 * 2 ≤ 2 ^ 376 * ((fqWrite x).getLastD 0).toNat := Nat.mul_le_mul_left _ (by omega)
  have e3 : (2 : ℕ) ^ 377 = 2 ^ 376 * 2 := by rw [← pow_succ]
  omega

theorem fqCodec_laws : CodecLaws fqCodec where
  size_pos := by decide
  write_length x := by simp only [fqCodec, fqWrite_length]
  read_write x := by simp only [fqCodec, fqRead_fqWrite]
  write_read bs x hl h := by
    simp only [fqCodec] at hl h ⊢
    exact fqWrite_fqRead bs x hl h
  top_bits x := by
    have := fqWrite_top x
    simp only [fqCodec]
    omega
  gt_asymm a b h := by
    simp only [fqCodec, decide_eq_true_eq, decide_eq_false_iff_not] at h ⊢
    omega
  gt_total a b h := by
    have hne : NeZero FQ_MODULUS := ⟨FQ_prime.ne_zero⟩
    simp only [fqCodec, decide_eq_true_eq]
    have : a.val ≠ b.val := fun e => h (ZMod.val_injective _ e)
    omega

theorem fq2Codec_laws : CodecLaws fq2Codec where
  size_pos := by decide
  write_length x := by simp only [fq2Codec, List.length_append, fqWrite_length]
  read_write x := by
    simp only [fq2Codec]
    rw [List.take_left' (fqWrite_length _), List.drop_left' (fqWrite_length _), fqRead_fqWrite,
      fqRead_fqWrite]
    rfl
  write_read bs x hl h := by
    simp only [fq2Codec] at hl h ⊢
    obtain ⟨c0, h0, h1⟩ := Option.bind_eq_some_iff.mp h
    obtain ⟨c1, h2, h3⟩ := Option.map_eq_some_iff.mp h1
    subst h3
    rw [fqWrite_fqRead _ _ (by rw [List.length_take]; omega) h0,
      fqWrite_fqRead _ _ (by rw [List.length_drop]; omega) h2, List.take_append_drop]
  top_bits x := by
    have := fqWrite_top x.im
    have hl := fqWrite_length x.im
    simp only [fq2Codec]
    have hnil : fqWrite x.im ≠ [] := by intro e; rw [e] at hl; simp at hl
    have e : (fqWrite x.re ++ fqWrite x.im).getLastD 0 = (fqWrite x.im).getLastD 0 := by
      simp only [List.getLastD_eq_getLast?, List.getLast?_append_of_ne_nil _ hnil]
    rw [e]; omega
  gt_asymm a b h := by
    simp only [fq2Codec] at h ⊢
    by_cases he : a.im = b.im
    · rw [if_pos he] at h
      rw [if_pos he.symm]
      simp only [decide_eq_true_eq, decide_eq_false_iff_not] at h ⊢
      omega
    · rw [if_neg he] at h
      rw [if_neg (Ne.symm he)]
      simp only [decide_eq_true_eq, decide_eq_false_iff_not] at h ⊢
      omega
  gt_total a b h := by
    have hne : NeZero FQ_MODULUS := ⟨FQ_prime.ne_zero⟩
    simp only [fq2Codec]
    by_cases he : a.im = b.im
    · rw [if_pos he, if_pos he.symm]
      simp only [decide_eq_true_eq]
      have : a.re.val ≠ b.re.val :=
        fun e => h (QuadraticAlgebra.ext (ZMod.val_injective _ e) he)
      omega
    · rw [if_neg he, if_neg (Ne.symm he)]
      simp only [decide_eq_true_eq]
      have : a.im.val ≠ b.im.val := fun e => he (ZMod.val_injective _ e)
      omega

theorem flags_or : ∀ n < 64, ∀ f : SWFlags,
    SWFlags.fromU8 (UInt8.ofNat n ||| f.mask) = some f ∧
    (UInt8.ofNat n ||| f.mask) &&& ~~~ f.mask = UInt8.ofNat n := by
  intro n hn f
  cases f <;> revert n <;> decide +kernel

theorem flags_strip : ∀ n < 256, ∀ f : SWFlags, SWFlags.fromU8 (UInt8.ofNat n) = some f →
    (UInt8.ofNat n &&& ~~~ f.mask) ||| f.mask = UInt8.ofNat n := by
  intro n hn f
  cases f <;> revert n <;> decide +kernel

theorem uint8_or (b : UInt8) (h : b.toNat < 64) (f : SWFlags) :
    SWFlags.fromU8 (b ||| f.mask) = some f ∧ (b ||| f.mask) &&& ~~~ f.mask = b := by
  have := flags_or b.toNat h f
  rwa [UInt8.ofNat_toNat] at this

theorem uint8_strip (b : UInt8) (f : SWFlags) (h : SWFlags.fromU8 b = some f) :
    (b &&& ~~~ f.mask) ||| f.mask = b := by
  have := flags_strip b.toNat b.toNat_lt f
  rw [UInt8.ofNat_toNat] at this
  exact this h

section
variable {F : Type*} [Field F] {C : CoordCodec F} (hC : CodecLaws C)
include hC

theorem write_ne_nil (x : F) : C.write x ≠ [] := by
  intro e
  have := hC.write_length x
  rw [e] at this
  have := hC.size_pos
  simp at *
  omega

theorem serializeWithFlags_length (x : F) (f : SWFlags) :
    (serializeWithFlags C x f).length = C.size := by
  simp only [serializeWithFlags, List.length_append, List.length_dropLast, hC.write_length,
    List.length_singleton]
  have := hC.size_pos
  omega

theorem deserializeWithFlags_serialize (x : F) (f : SWFlags) (rest : Bytes) :
    deserializeWithFlags C (serializeWithFlags C x f ++ rest) = .ok ((x, f), rest) := by
  have hl := serializeWithFlags_length hC x f
  unfold deserializeWithFlags
  rw [if_neg (by rw [List.length_append, hl]; omega)]
  simp only []
  rw [List.take_left' hl, List.drop_left' hl]
  have hb := uint8_or ((C.write x).getLastD 0) (hC.top_bits x) f
  have e1 : (serializeWithFlags C x f).getLastD 0 = (C.write x).getLastD 0 ||| f.mask := by
    simp [serializeWithFlags]
  have e2 : (serializeWithFlags C x f).dropLast = (C.write x).dropLast := by
    simp [serializeWithFlags]
  rw [e1, e2, hb.1]
  simp only []
  rw [hb.2, ← list_eq_dropLast_getLastD _ _ (write_ne_nil hC x), hC.read_write]

theorem deserializeWithFlags_iff (stream : Bytes) (x : F) (f : SWFlags) (rest : Bytes) :
    deserializeWithFlags C stream = .ok ((x, f), rest) ↔
      stream = serializeWithFlags C x f ++ rest := by
  constructor
  · intro h
    unfold deserializeWithFlags at h
    split at h
    · cases h
    · rename_i hlen
      simp only [] at h
      split at h
      · cases h
      · rename_i f' hf
        split at h
        · cases h
        · rename_i x' hx
          simp only [Outcome.ok.injEq, Prod.mk.injEq] at h
          obtain ⟨⟨rfl, rfl⟩, rfl⟩ := h
          have htl : (stream.take C.size).length = C.size := by rw [List.length_take]; omega
          have hnil : stream.take C.size ≠ [] := by
            intro e
            rw [e] at htl
            have := hC.size_pos
            simp at htl
            omega
          have hw := hC.write_read _ _ (by
            rw [List.length_append, List.length_dropLast, htl, List.length_singleton]
            have := hC.size_pos
            omega) hx
          have e : serializeWithFlags C x' f' = stream.take C.size := by
            unfold serializeWithFlags
            rw [hw]
            simp only []
            rw [List.dropLast_concat, List.getLastD_concat, uint8_strip _ _ hf]
            exact (list_eq_dropLast_getLastD _ _ hnil).symm
          rw [e, List.take_append_drop]
  · rintro rfl
    exact deserializeWithFlags_serialize hC x f rest

/-- `deserialize_with_flags` never panics. -/
theorem deserializeWithFlags_no_panic (stream : Bytes) :
    deserializeWithFlags C stream ≠ .panic := by
  unfold deserializeWithFlags
  split
  · simp
  · simp only []
    split
    · simp
    · split <;> simp

theorem serializeWithFlags_inj {x x' : F} {f f' : SWFlags} {rest rest' : Bytes}
    (h : serializeWithFlags C x f ++ rest = serializeWithFlags C x' f' ++ rest') :
    x = x' ∧ f = f' ∧ rest = rest' := by
  have h1 := deserializeWithFlags_serialize hC x f rest
  rw [h, deserializeWithFlags_serialize hC] at h1
  simp only [Outcome.ok.injEq, Prod.mk.injEq] at h1
  exact ⟨h1.1.1.symm, h1.1.2.symm, h1.2.symm⟩

/-- `sqrt` finds a root exactly when there is one. -/
structure RootSpec (sqrt : F → Option F) : Prop where
  sound : ∀ v y, sqrt v = some y → y * y = v
  complete : ∀ v, sqrt v = none → ∀ y, y * y ≠ v

theorem curvePointFromX_iff {sqrt : F → Option F} (hs : RootSpec sqrt) (b x : F) (g : Bool)
    (p : AffinePoint F) :
    curvePointFromX C sqrt b x g = some p ↔
      ∃ y, p = .finite x y ∧ y * y = x * x * x + b ∧ (y = -y ∨ C.gt y (-y) = g) := by
  have key : ∀ y : F, y ≠ -y → C.gt (-y) y = !C.gt y (-y) := by
    intro y hy
    rcases hC.gt_total y (-y) hy with h | h
    · rw [h, hC.gt_asymm _ _ h]; rfl
    · rw [h, hC.gt_asymm _ _ h]; rfl
  unfold curvePointFromX
  cases hq : sqrt (x * x * x + b) with
  | none =>
    simp only [Option.map_none, reduceCtorEq, false_iff]
    rintro ⟨y, _, h, _⟩
    exact hs.complete _ hq y h
  | some y =>
    have hy := hs.sound _ _ hq
    simp only [Option.map_some, Option.some.injEq]
    constructor
    · rintro rfl
      by_cases hyy : y = -y
      · refine ⟨y, ?_, hy, Or.inl hyy⟩
        split
        · rfl
        · rw [← hyy]
      · split
        · rename_i hx
          refine ⟨y, rfl, hy, Or.inr ?_⟩
          rw [key y hyy] at hx
          revert hx
          cases C.gt y (-y) <;> cases g <;> simp
        · rename_i hx
          refine ⟨-y, rfl, by rw [neg_mul_neg, hy], Or.inr ?_⟩
          rw [neg_neg]
          rw [key y hyy] at hx ⊢
          revert hx
          cases C.gt y (-y) <;> cases g <;> simp
    · rintro ⟨y', rfl, hy', hg⟩
      have hcase : y' = y ∨ y' = -y := by
        rw [← sq_eq_sq_iff_eq_or_eq_neg, pow_two, pow_two, hy, hy']
      by_cases hyy : y = -y
      · have : y' = y := by
          rcases hcase with h | h
          · exact h
          · rw [h, ← hyy]
        rw [this]
        split
        · rfl
        · rw [← hyy]
      · have hg' : C.gt y' (-y') = g := by
          rcases hg with h | h
          · exfalso
            rcases hcase with h2 | h2
            · rw [h2] at h; exact hyy h
            · rw [h2, neg_neg] at h; exact hyy h.symm
          · exact h
        rcases hcase with h2 | h2
        · rw [h2] at hg' ⊢
          rw [key y hyy, hg']
          cases g <;> simp
        · rw [h2, neg_neg] at hg'
          rw [hg', h2]
          cases g <;> simp

variable [DecidableEq F] {b : F}

theorem serializeAffine_length (p : AffinePoint F) : (serializeAffine C p).length = C.size := by
  cases p <;> simp only [serializeAffine, serializeWithFlags_length hC]

end

section
variable {F : Type*} [Field F] [DecidableEq F] {b : F}

/-- Side conditions on the curve: characteristic neither 2 nor 3, and `b ≠ 0`. -/
structure GoodCurve (b : F) : Prop where
  two : (2 : F) ≠ 0
  three : (3 : F) ≠ 0
  b : b ≠ 0

theorem shortCurve_equation_iff (x y : F) :
    (shortCurve b).Equation x y ↔ y * y = x * x * x + b := by
  rw [Affine.equation_iff]
  simp only [shortCurve]
  constructor <;> intro h <;> linear_combination h

theorem shortCurve_nonsingular (hb : GoodCurve b) (x y : F) :
    (shortCurve b).Nonsingular x y ↔ y * y = x * x * x + b := by
  rw [Affine.nonsingular_iff, shortCurve_equation_iff]
  constructor
  · exact fun h => h.1
  · intro h
    refine ⟨h, ?_⟩
    simp only [shortCurve]
    by_cases hy : y = 0
    · left
      have hx : x ≠ 0 := by
        rintro rfl
        apply hb.b
        rw [hy] at h
        linear_combination -h
      intro e
      have : (3 : F) * (x * x) = 0 := by linear_combination -e
      rcases mul_eq_zero.mp this with h3 | h3
      · exact hb.three h3
      · exact hx (mul_self_eq_zero.mp h3)
    · right
      intro e
      have : (2 : F) * y = 0 := by linear_combination e
      rcases mul_eq_zero.mp this with h3 | h3
      · exact hb.two h3
      · exact hy h3

theorem affinePoint_pointAffine (P : (shortCurve b).Point) : affinePoint (pointAffine P) = P := by
  cases P with
  | zero => rfl
  | some x y h => simp only [pointAffine, affinePoint]; rw [dif_pos h]

theorem pointAffine_affinePoint_finite {x y : F} (h : (shortCurve b).Nonsingular x y) :
    pointAffine (affinePoint (.finite x y) : (shortCurve b).Point) = .finite x y := by
  simp only [affinePoint]
  rw [dif_pos h]
  rfl

theorem point_some_congr {W : WeierstrassCurve.Affine F} {x y y' : F} (h : W.Nonsingular x y)
    (h' : W.Nonsingular x y') (e : y = y') :
    (Affine.Point.some x y h : W.Point) = .some x y' h' := by
  subst e; rfl

theorem shortCurve_two_torsion {x : F} (h : (shortCurve b).Nonsingular x 0) :
    (Affine.Point.some x 0 h : (shortCurve b).Point) + Affine.Point.some x 0 h = 0 := by
  apply Affine.Point.add_self_of_Y_eq
  simp [Affine.negY, shortCurve]

theorem FR_odd : FR_MODULUS = 2 * (FR_MODULUS / 2) + 1 := by decide +kernel

/-- Points with `y = 0` have order two and are not in the subgroup of odd order. -/
theorem order_y_ne_zero {x y : F} (h : (shortCurve b).Nonsingular x y)
    (hr : FR_MODULUS • (Affine.Point.some x y h : (shortCurve b).Point) = 0) : y ≠ 0 := by
  rintro rfl
  rw [FR_odd, add_nsmul, mul_nsmul, two_nsmul, shortCurve_two_torsion, nsmul_zero, zero_add, one_nsmul] at hr
  exact Affine.Point.some_ne_zero h hr

variable {C : CoordCodec F} (hC : CodecLaws C)
include hC

/-- Exactly which byte streams decode to which group element. -/
theorem deserialize_point_iff {sqrt : F → Option F} (hs : RootSpec sqrt) (hb : GoodCurve b)
    (stream rest : Bytes) (P : (shortCurve b).Point) :
    ((deserializeAffine C sqrt b (inOrderR (b := b)) stream).map fun r =>
      ((affinePoint r.1 : (shortCurve b).Point), r.2)) = .ok (P, rest) ↔
    FR_MODULUS • P = 0 ∧
      (P ≠ 0 ∧ stream = serializeAffine C (pointAffine P) ++ rest ∨
       P = 0 ∧ ∃ x, stream = serializeWithFlags C x .infinity ++ rest) := by
  have hneg : ∀ y : F, y = -y → y = 0 := by
    intro y hy
    have : (2 : F) * y = 0 := by linear_combination hy
    rcases mul_eq_zero.mp this with h3 | h3
    · exact absurd h3 hb.two
    · exact h3
  have hng : ∀ f : SWFlags, f ≠ .infinity → ∀ (x : F) (rest' : Bytes) ,
      stream = serializeWithFlags C x f ++ rest' →
      (((deserializeAffine C sqrt b (inOrderR (b := b)) stream).map fun r =>
        ((affinePoint r.1 : (shortCurve b).Point), r.2)) = .ok (P, rest) ↔
      rest' = rest ∧ ∃ y h, P = Affine.Point.some x y h ∧ FR_MODULUS • P = 0 ∧
        C.gt y (-y) = (f == .positiveY)) := by
    intro f hf x rest' hst
    unfold deserializeAffine
    rw [(deserializeWithFlags_iff hC stream x f rest').mpr hst, Outcome.bind_ok]
    simp only []
    rw [if_neg hf]
    cases hq : curvePointFromX C sqrt b x (f == .positiveY) with
    | none =>
      simp only [Outcome.map_err, reduceCtorEq, false_iff]
      rintro ⟨_, y, h, _, _, hg⟩
      have := (curvePointFromX_iff hC hs b x (f == .positiveY) (.finite x y)).mpr
        ⟨y, rfl, (shortCurve_nonsingular hb x y).mp h, Or.inr hg⟩
      rw [hq] at this
      cases this
    | some p =>
      obtain ⟨y, rfl, hy, hg⟩ := (curvePointFromX_iff hC hs b x _ p).mp hq
      have hns := (shortCurve_nonsingular hb x y).mpr hy
      have hap : (affinePoint (.finite x y) : (shortCurve b).Point) = .some x y hns := by
        simp only [affinePoint]; rw [dif_pos hns]
      simp only []
      by_cases hin : FR_MODULUS • (Affine.Point.some x y hns : (shortCurve b).Point) = 0
      · rw [if_pos (by unfold inOrderR; rw [hap]; exact decide_eq_true hin)]
        simp only [Outcome.map_ok, Outcome.ok.injEq, Prod.mk.injEq, hap]
        have hy0 := order_y_ne_zero hns hin
        have hg' : C.gt y (-y) = (f == .positiveY) := by
          rcases hg with h | h
          · exact absurd (hneg y h) hy0
          · exact h
        constructor
        · rintro ⟨rfl, rfl⟩
          exact ⟨rfl, y, hns, rfl, hin, hg'⟩
        · rintro ⟨rfl, y', h', rfl, hr', hg''⟩
          refine ⟨?_, rfl⟩
          have hyy : y' = y ∨ y' = -y := by
            rw [← sq_eq_sq_iff_eq_or_eq_neg, pow_two, pow_two, hy,
              (shortCurve_nonsingular hb x y').mp h']
          rcases hyy with e | e
          · subst e; rfl
          · exfalso
            subst e
            rw [neg_neg] at hg''
            have hne : y ≠ -y := fun e => hy0 (hneg y e)
            rcases hC.gt_total y (-y) hne with h | h
            · have := hC.gt_asymm _ _ h
              rw [hg'', ← hg', h] at this
              cases this
            · have := hC.gt_asymm _ _ h
              rw [hg', ← hg'', h] at this
              cases this
      · rw [if_neg (by unfold inOrderR; rw [hap]; simpa using hin)]
        simp only [Outcome.map_err, reduceCtorEq, false_iff]
        rintro ⟨_, y', h', rfl, hr', hg''⟩
        have hy' := (shortCurve_nonsingular hb x y').mp h'
        have hyy : y' = y ∨ y' = -y := by
          rw [← sq_eq_sq_iff_eq_or_eq_neg, pow_two, pow_two, hy, hy']
        rcases hyy with e | e
        · subst e; exact hin hr'
        · subst e
          apply hin
          have : (Affine.Point.some x y hns : (shortCurve b).Point) =
              -Affine.Point.some x (-y) h' := by
            rw [Affine.Point.neg_some]
            exact point_some_congr _ _ (by simp [Affine.negY, shortCurve])
          rw [this, neg_nsmul, hr', neg_zero]
  have hinf : ∀ (x : F) (rest' : Bytes), stream = serializeWithFlags C x .infinity ++ rest' →
      (((deserializeAffine C sqrt b (inOrderR (b := b)) stream).map fun r =>
        ((affinePoint r.1 : (shortCurve b).Point), r.2)) = .ok (P, rest) ↔
      rest' = rest ∧ P = 0) := by
    intro x rest' hst
    unfold deserializeAffine
    rw [(deserializeWithFlags_iff hC stream x .infinity rest').mpr hst, Outcome.bind_ok]
    simp only [if_true, Outcome.map_ok, Outcome.ok.injEq, Prod.mk.injEq, affinePoint]
    constructor
    · rintro ⟨rfl, rfl⟩; exact ⟨rfl, rfl⟩
    · rintro ⟨rfl, rfl⟩; exact ⟨rfl, rfl⟩
  constructor
  · intro h
    cases hd : deserializeWithFlags C stream with
    | ok r =>
      obtain ⟨⟨x, f⟩, rest'⟩ := r
      have hst := (deserializeWithFlags_iff hC stream x f rest').mp hd
      by_cases hf : f = .infinity
      · subst hf
        obtain ⟨rfl, rfl⟩ := (hinf x rest' hst).mp h
        exact ⟨nsmul_zero _, Or.inr ⟨rfl, x, hst⟩⟩
      · obtain ⟨rfl, y, hns, rfl, hr, hg⟩ := (hng f hf x rest' hst).mp h
        refine ⟨hr, Or.inl ⟨Affine.Point.some_ne_zero _, ?_⟩⟩
        rw [hst]
        simp only [pointAffine, serializeAffine, hg]
        cases f
        · exact absurd rfl hf
        · rfl
        · rfl
    | err e => simp [deserializeAffine, hd] at h
    | panic => simp [deserializeAffine, hd] at h
  · rintro ⟨hr, ⟨hP, hst⟩ | ⟨rfl, x, hst⟩⟩
    · cases P with
      | zero => exact absurd rfl hP
      | some x y hns =>
        simp only [pointAffine, serializeAffine] at hst
        refine (hng _ ?_ x rest hst).mpr ⟨rfl, y, hns, rfl, hr, ?_⟩
        · split <;> simp
        · cases C.gt y (-y) <;> rfl
    · exact (hinf x rest hst).mpr ⟨rfl, rfl⟩

theorem deserialize_point_no_panic (sqrt : F → Option F) (stream : Bytes) :
    ((deserializeAffine C sqrt b (inOrderR (b := b)) stream).map fun r =>
      ((affinePoint r.1 : (shortCurve b).Point), r.2)) ≠ .panic := by
  unfold deserializeAffine
  cases hd : deserializeWithFlags C stream with
  | panic => exact absurd hd (deserializeWithFlags_no_panic hC stream)
  | err e => simp
  | ok r =>
    simp only [Outcome.bind_ok]
    split
    · simp
    · split
      · simp
      · split <;> simp

end

theorem g1_good : GoodCurve (1 : Fq) := ⟨by decide +kernel, by decide +kernel, by decide +kernel⟩

theorem g2_good : GoodCurve g2CoeffB := by
  refine ⟨?_, ?_, ?_⟩
  · intro h
    have := congrArg QuadraticAlgebra.re h
    have e2 : (2 : Fq2) = 1 + 1 := by norm_num
    rw [e2, QuadraticAlgebra.re_add, QuadraticAlgebra.re_one] at this
    revert this
    simp only [QuadraticAlgebra.re_zero]
    decide +kernel
  · intro h
    have := congrArg QuadraticAlgebra.re h
    have e2 : (3 : Fq2) = 1 + 1 + 1 := by norm_num
    rw [e2, QuadraticAlgebra.re_add, QuadraticAlgebra.re_add, QuadraticAlgebra.re_one] at this
    revert this
    simp only [QuadraticAlgebra.re_zero]
    decide +kernel
  · intro h
    have := congrArg QuadraticAlgebra.im h
    revert this
    decide +kernel

end Verif
