import Verif.Model.MsmRep
import Verif.Props.Normalize
import Verif.Props.ScalarLoop
import Verif.Lemmas.Uncompressed

/-!
# C133: batches on representations

The bucket method with the Jacobian formulas simulates the bucket method in the group.
-/

namespace Verif

open WeierstrassCurve

/-- Two outcomes of the same kind, with related values. -/
def OutRel {α β : Type*} (P : α → β → Prop) : Outcome Unit α → Outcome Unit β → Prop
  | .ok a, .ok b => P a b
  | .err _, .err _ => True
  | .panic, .panic => True
  | _, _ => False

theorem OutRel.bind {α β γ δ : Type*} {P : α → β → Prop} {Q : γ → δ → Prop} {x : Outcome Unit α} {y : Outcome Unit β}
    {f : α → Outcome Unit γ} {g : β → Outcome Unit δ} (h : OutRel P x y) (hf : ∀ a b, P a b → OutRel Q (f a) (g b)) :
    OutRel Q (x.bind f) (y.bind g) := by
  cases x <;> cases y <;> first | exact hf _ _ h | exact h.elim | exact h

theorem OutRel.map {α β γ δ : Type*} {P : α → β → Prop} {Q : γ → δ → Prop} {x : Outcome Unit α} {y : Outcome Unit β}
    {f : α → γ} {g : β → δ} (h : OutRel P x y) (hf : ∀ a b, P a b → Q (f a) (g b)) :
    OutRel Q (x.map f) (y.map g) := h.bind fun a b hab => hf a b hab

theorem OutRel.mapM {ι α β : Type*} {P : α → β → Prop} {f : ι → Outcome Unit α} {g : ι → Outcome Unit β}
    (h : ∀ i, OutRel P (f i) (g i)) (l : List ι) : OutRel (List.Forall₂ P) (Outcome.mapM f l) (Outcome.mapM g l) := by
  induction l with
  | nil => exact List.Forall₂.nil
  | cons i l ih => exact (h i).bind fun a b hab => ih.map fun as bs has => List.Forall₂.cons hab has

section
variable {F : Type*} [Field F] [DecidableEq F] {W : WeierstrassCurve.Affine F} {b : F}
  (hW : ∀ x y, W.Nonsingular x y ↔ y ^ 2 = x ^ 3 + b)

/-- The representation is on the curve and denotes the point. -/
def JacDenotes (r : JacRep F) (g : W.Point) : Prop := r.On b ∧ jacPoint hW r = g

/-- The affine point is on the curve and is the point of the group. -/
def JacDenotesAffine (a : AffinePoint F) (g : W.Point) : Prop := JacDenotes hW (affineProjective a) g

variable {hW}

theorem JacDenotes.zero : JacDenotes hW arkZero 0 := ⟨Or.inl rfl, jacPoint_zero hW rfl⟩

theorem JacDenotes.add (hS : Short W) (h2 : (2 : F) ≠ 0) {r s : JacRep F} {g h : W.Point} (hr : JacDenotes hW r g)
    (hs : JacDenotes hW s h) : JacDenotes hW (arkAdd r s) (g + h) := by
  obtain ⟨h1, h3⟩ := jacPoint_add hW hS h2 hr.1 hs.1
  exact ⟨h3, by rw [h1, hr.2, hs.2]⟩

theorem JacDenotes.mixed (hS : Short W) (h2 : (2 : F) ≠ 0) {r : JacRep F} {a : AffinePoint F} {g h : W.Point}
    (hr : JacDenotes hW r g) (ha : JacDenotesAffine hW a h) : JacDenotes hW (arkAddMixed r a) (g + h) := by
  cases a with
  | infinity =>
    have : h = 0 := ha.2.symm.trans (jacPoint_zero hW rfl)
    rw [this, add_zero]
    exact hr
  | finite x y =>
    rw [arkAddMixed_eq]
    exact hr.add hS h2 ha

theorem JacDenotes.doubles (hS : Short W) (h2 : (2 : F) ≠ 0) (c : ℕ) {r : JacRep F} {g : W.Point} (hr : JacDenotes hW r g) :
    JacDenotes hW (arkDouble^[c] r) ((fun t => t + t)^[c] g) := by
  induction c generalizing r g with
  | zero => exact hr
  | succ c ih =>
    obtain ⟨h1, h3⟩ := jacPoint_double hW hS h2 hr.1
    exact ih ⟨h3, by rw [h1, hr.2]⟩

theorem addToBucketRep_rel (hS : Short W) (h2 : (2 : F) ≠ 0) {bs : List (JacRep F)} {gs : List W.Point}
    (h : List.Forall₂ (JacDenotes hW) bs gs) (i : ℕ) {a : AffinePoint F} {g : W.Point} (ha : JacDenotesAffine hW a g) :
    OutRel (List.Forall₂ (JacDenotes hW)) (addToBucketRep bs i a) (addToBucket gs i g) := by
  induction h generalizing i with
  | nil => exact trivial
  | cons hab hrest ih =>
    cases i with
    | zero => exact List.Forall₂.cons (hab.mixed hS h2 ha) hrest
    | succ i =>
      have := ih i
      unfold addToBucketRep addToBucket at this ⊢
      simp only [List.getElem?_cons_succ, List.set_cons_succ]
      revert this
      split <;> split <;> intro this
      · exact trivial
      · exact this
      · exact this
      · exact List.Forall₂.cons hab this

theorem msmScatterRep_rel (hS : Short W) (h2 : (2 : F) ≠ 0) (c w : ℕ) {ps : List (ℕ × AffinePoint F)}
    {qs : List (ℕ × W.Point)} (hp : List.Forall₂ (fun p q => p.1 = q.1 ∧ JacDenotesAffine hW p.2 q.2) ps qs)
    {r : JacRep F} {g : W.Point} (hr : JacDenotes hW r g) {bs : List (JacRep F)} {gs : List W.Point}
    (h : List.Forall₂ (JacDenotes hW) bs gs) :
    OutRel (fun x y => JacDenotes hW x.1 y.1 ∧ List.Forall₂ (JacDenotes hW) x.2 y.2) (msmScatterRep c w r bs ps)
      (msmScatter c w g gs qs) := by
  induction hp generalizing r g bs gs with
  | nil => exact ⟨hr, h⟩
  | @cons p q _ _ hpq hrest ih =>
    obtain ⟨s, a⟩ := p
    obtain ⟨s', a'⟩ := q
    obtain ⟨rfl, ha⟩ := hpq
    unfold msmScatterRep msmScatter
    dsimp only
    by_cases hs : s = 1
    · rw [if_pos hs, if_pos hs]
      refine ih ?_ h
      split
      · exact hr.mixed hS h2 ha
      · exact hr
    · rw [if_neg hs, if_neg hs]
      split
      · exact (addToBucketRep_rel hS h2 h _ ha).bind fun bs' gs' h' => ih hr h'
      · exact ih hr h

theorem msmSumBucketsRep_rel (hS : Short W) (h2 : (2 : F) ≠ 0) {r : JacRep F} {g : W.Point} (hr : JacDenotes hW r g)
    {bs : List (JacRep F)} {gs : List W.Point} (h : List.Forall₂ (JacDenotes hW) bs gs) :
    JacDenotes hW (msmSumBucketsRep r bs) (msmSumBuckets g gs) := by
  have key : ∀ (bs : List (JacRep F)) (gs : List W.Point), List.Forall₂ (JacDenotes hW) bs gs →
      ∀ (x : JacRep F × JacRep F) (y : W.Point × W.Point), JacDenotes hW x.1 y.1 → JacDenotes hW x.2 y.2 →
      JacDenotes hW (bs.foldl (fun (st : JacRep F × JacRep F) b => (arkAdd st.1 b, arkAdd st.2 (arkAdd st.1 b))) x).2
        (gs.foldl (fun (st : W.Point × W.Point) b => (st.1 + b, st.2 + (st.1 + b))) y).2 := by
    intro bs gs h
    induction h with
    | nil => exact fun x y _ h => h
    | cons hab _ ih => exact fun x y h1 h3 => ih _ _ (h1.add hS h2 hab) (h3.add hS h2 (h1.add hS h2 hab))
  exact key _ _ (List.rel_reverse h) _ _ JacDenotes.zero hr

theorem msmCombineRep_rel (hS : Short W) (h2 : (2 : F) ≠ 0) (c : ℕ) {bs : List (JacRep F)} {gs : List W.Point}
    (h : List.Forall₂ (JacDenotes hW) bs gs) : OutRel (JacDenotes hW) (msmCombineRep c bs) (msmCombine c gs) := by
  have key : ∀ (bs : List (JacRep F)) (gs : List W.Point), List.Forall₂ (JacDenotes hW) bs gs →
      ∀ (x : JacRep F) (y : W.Point), JacDenotes hW x y →
      JacDenotes hW (bs.foldl (fun total s => arkDouble^[c] (arkAdd total s)) x)
        (gs.foldl (fun total s => (fun t => t + t)^[c] (total + s)) y) := by
    intro bs gs h
    induction h with
    | nil => exact fun x y h => h
    | cons hab _ ih => exact fun x y h1 => ih _ _ ((h1.add hS h2 hab).doubles hS h2 c)
  cases h with
  | nil => exact trivial
  | cons hab hrest => exact hab.add hS h2 (key _ _ (List.rel_reverse hrest) _ _ JacDenotes.zero)

theorem pairs_rel {ss : List ℕ} {as : List (AffinePoint F)} {gs : List W.Point}
    (h : List.Forall₂ (JacDenotesAffine hW) as gs) (n : ℕ) :
    List.Forall₂ (fun p q => p.1 = q.1 ∧ JacDenotesAffine hW p.2 q.2)
      (((ss.take n).zip (as.take n)).filter fun p => p.1 ≠ 0) (((ss.take n).zip (gs.take n)).filter fun p => p.1 ≠ 0) := by
  induction h generalizing ss n with
  | nil => simp
  | cons hab _ ih =>
    cases ss with
    | nil => simp
    | cons s ss =>
      cases n with
      | zero => simp
      | succ n =>
        simp only [List.take_succ_cons, List.zip_cons_cons]
        by_cases hs : s = 0
        · rw [List.filter_cons_of_neg (by simp [hs]), List.filter_cons_of_neg (by simp [hs])]
          exact ih n
        · rw [List.filter_cons_of_pos (by simp [hs]), List.filter_cons_of_pos (by simp [hs])]
          exact List.Forall₂.cons ⟨rfl, hab⟩ (ih n)

/-- **C133.** On representations the bucket method returns a representation of what it returns in the group. -/
theorem C133_simulation (hS : Short W) (h2 : (2 : F) ≠ 0) (numBits : ℕ) {as : List (AffinePoint F)}
    {gs : List W.Point} (h : List.Forall₂ (JacDenotesAffine hW) as gs) (scalars : List ℕ) :
    OutRel (JacDenotes hW) (pippengerRep numBits as scalars) (pippenger numBits gs scalars) := by
  unfold pippengerRep pippenger
  dsimp only
  rw [← h.length_eq]
  refine (OutRel.mapM (fun w => ?_) _).bind fun bs gs' h' => msmCombineRep_rel hS h2 _ h'
  refine (msmScatterRep_rel hS h2 _ w (pairs_rel h _) JacDenotes.zero ?_).map fun x y hxy =>
    msmSumBucketsRep_rel hS h2 hxy.1 hxy.2
  generalize 2 ^ msmWindow _ - 1 = n
  induction n with
  | zero => exact List.Forall₂.nil
  | succ n ih => exact List.Forall₂.cons JacDenotes.zero ih

theorem fr_lt_bits : FR_MODULUS ≤ 2 ^ 253 := by decide +kernel

theorem batch_core (hW : ∀ x y, W.Nonsingular x y ↔ y ^ 2 = x ^ 3 + b) (hS : Short W) (h2 : (2 : F) ≠ 0)
    (points : List (JacRep F)) (hp : ∀ g ∈ points, g.On b) (hl : points.length < 2 ^ 64) {numBits : ℕ}
    (hn : numBits ≠ 0) (scalars : List ℕ) (hs : ∀ s ∈ scalars, s < 2 ^ numBits) :
    ∃ r, ((batchNormalization points).bind fun bases => (pippengerRep numBits bases scalars).map some) = .ok (some r) ∧
      r.On b ∧ jacPoint hW r = (List.zipWith (fun s g => s • jacPoint hW g) scalars points).sum := by
  rw [C128_normalization]
  have hrel : List.Forall₂ (JacDenotesAffine hW) (points.map fun g =>
      if g.z = 0 then AffinePoint.infinity else .finite (g.x / g.z ^ 2) (g.y / g.z ^ 3)) (points.map (jacPoint hW)) := by
    rw [List.forall₂_map_left_iff, List.forall₂_map_right_iff, List.forall₂_same]
    intro g hg
    by_cases h0 : g.z = 0
    · rw [if_pos h0]
      exact ⟨Or.inl rfl, (jacPoint_zero hW rfl).trans (jacPoint_zero hW h0).symm⟩
    · rw [if_neg h0]
      have hon := (hp g hg).resolve_left h0
      refine (isPoint_jacPoint hW (k := ⟨g.x / g.z ^ 2, g.y / g.z ^ 3, 1⟩) one_ne_zero (P := jacPoint hW g) ?_).symm
      simpa using jacPoint_isPoint hW h0 hon
  have hsim := C133_simulation hS h2 numBits hrel scalars
  rw [C127_msm hn _ _ hs (by rw [List.length_map]; exact (min_le_left _ _).trans_lt hl),
    List.zipWith_map_right] at hsim
  simp only [Outcome.bind]
  revert hsim
  generalize pippengerRep (F := F) numBits (List.map _ points) scalars = o
  cases o with
  | ok r => exact fun h => ⟨r, rfl, h.1, h.2⟩
  | err e => exact fun h => h.elim
  | panic => exact fun h => h.elim

theorem forms_into_repr (exponents : List (ZMod FR_MODULUS)) :
    (exponents.map fun x => (x * ((2 ^ 64 : ℕ) : ZMod FR_MODULUS) ^ 4).val).map
      (montIntoRepr (2 ^ 64) FR_MODULUS 725501752471715839 4) = exponents.map fun x => x.val := by
  induction exponents with
  | nil => rfl
  | cons x l ih =>
    rw [List.map_cons, List.map_cons, List.map_cons, ih, C130_into_repr (by norm_num) fr_mont_inv 4 x]

theorem exponents_lt (exponents : List (ZMod FR_MODULUS)) : ∀ s ∈ exponents.map fun x => x.val, s < 2 ^ 253 := by
  intro s hs
  obtain ⟨x, _, rfl⟩ := List.mem_map.1 hs
  exact (ZMod.val_lt x).trans_le fr_lt_bits

/-- **C133.** `batch` on keys or signatures in any representation, with exponents in Montgomery form: nothing exactly if
the numbers of points and exponents differ; otherwise never a panic, and a representation, on the curve, of the sum of
exponent times point. -/
theorem C133_batch (hW : ∀ x y, W.Nonsingular x y ↔ y ^ 2 = x ^ 3 + b) (hS : Short W) (h2 : (2 : F) ≠ 0)
    (points : List (JacRep F)) (hp : ∀ g ∈ points, g.On b) (hl : points.length < 2 ^ 64)
    (exponents : List (ZMod FR_MODULUS)) :
    (points.length ≠ exponents.length →
      batchRep points (exponents.map fun x => (x * ((2 ^ 64 : ℕ) : ZMod FR_MODULUS) ^ 4).val) = .ok none) ∧
    (points.length = exponents.length →
      ∃ r, batchRep points (exponents.map fun x => (x * ((2 ^ 64 : ℕ) : ZMod FR_MODULUS) ^ 4).val) = .ok (some r) ∧
        r.On b ∧
        jacPoint hW r = (List.zipWith (fun (x : ZMod FR_MODULUS) g => x.val • jacPoint hW g) exponents points).sum) := by
  unfold batchRep
  rw [List.length_map, forms_into_repr]
  refine ⟨fun h => if_pos h, fun h => ?_⟩
  rw [if_neg (not_not.2 h)]
  have := batch_core hW hS h2 points hp hl (numBits := 253) (by norm_num) _ (exponents_lt exponents)
  rwa [List.zipWith_map_left] at this

end

/-- **C133.** For public keys. -/
theorem C133_public_keys (keys : List (JacRep Fq2)) (hk : ∀ g ∈ keys, g.On g2CoeffB) (hl : keys.length < 2 ^ 64)
    (exponents : List (ZMod FR_MODULUS)) (h : keys.length = exponents.length) :
    ∃ r, batchRep keys (exponents.map fun x => (x * ((2 ^ 64 : ℕ) : ZMod FR_MODULUS) ^ 4).val) = .ok (some r) ∧
      r.On g2CoeffB ∧
      g2Ops.pt r = (List.zipWith (fun (x : ZMod FR_MODULUS) g => x.val • g2Ops.pt g) exponents keys).sum :=
  (C133_batch g2_nonsingular_iff g2_short g2_good.two keys hk hl exponents).2 h

/-- **C133.** For signatures. -/
theorem C133_signatures (sigs : List (JacRep Fq)) (hk : ∀ g ∈ sigs, g.On 1) (hl : sigs.length < 2 ^ 64)
    (exponents : List (ZMod FR_MODULUS)) (h : sigs.length = exponents.length) :
    ∃ r, batchRep sigs (exponents.map fun x => (x * ((2 ^ 64 : ℕ) : ZMod FR_MODULUS) ^ 4).val) = .ok (some r) ∧
      r.On 1 ∧ g1Denoted r = (List.zipWith (fun (x : ZMod FR_MODULUS) g => x.val • g1Denoted g) exponents sigs).sum :=
  (C133_batch (b := (1 : Fq)) g1_nonsingular_iff g1Curve_short g1_good.two sigs hk hl exponents).2 h

/-! ## Examples -/

/-- The point (0, 1) with z = 2, twice, and a point at infinity meet the hypotheses of `C133_signatures`. -/
example : ∀ g ∈ [(⟨0, 8, 2⟩ : JacRep Fq), arkZero, ⟨0, 8, 2⟩], g.On 1 := by decide +kernel

/-- The generator and its double meet the hypotheses. -/
example (x y : ZMod FR_MODULUS) :
    ∃ r, batchRep [keyG, key2G] ([x, y].map fun x => (x * ((2 ^ 64 : ℕ) : ZMod FR_MODULUS) ^ 4).val) = .ok (some r) ∧
      r.On g2CoeffB ∧ g2Ops.pt r = x.val • g2Ops.pt keyG + (y.val • g2Ops.pt key2G + 0) :=
  C133_public_keys [keyG, key2G] (by
    intro g hg
    rcases List.mem_cons.1 hg with rfl | hg
    · exact keyG_canonical.1
    · rw [List.mem_singleton.1 hg]; exact key2G_canonical.1) (by norm_num) [x, y] rfl

/-- With one exponent too few there is no result. -/
example : batchRep [keyG, key2G] [1] = .ok none := by decide +kernel

end Verif
