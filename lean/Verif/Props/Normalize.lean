import Verif.Model.Normalize
import Verif.Props.Msm
import Verif.Lemmas.G2Order
import Verif.Lemmas.Jacobian
import Mathlib.Tactic.FieldSimp
import Mathlib.Tactic.Ring

/-!
# C128: batch normalization

One inversion for all points gives the affine form of each, points at infinity among them included.
-/

namespace Verif

section
variable {F : Type*} [Field F] [DecidableEq F]

omit [DecidableEq F] in
theorem batchProducts_snd (t : F) (l : List F) : (batchProducts t l).2 = t * l.prod := by
  induction l generalizing t with
  | nil => simp [batchProducts]
  | cons f l ih => rw [batchProducts, ih, List.prod_cons, mul_assoc]

omit [DecidableEq F] in
theorem batchProducts_append (t : F) (l : List F) (f : F) :
    (batchProducts t (l ++ [f])).1 = (batchProducts t l).1 ++ [t * l.prod * f] := by
  induction l generalizing t with
  | nil => simp [batchProducts]
  | cons a l ih =>
    rw [List.cons_append, batchProducts, ih, batchProducts, List.prod_cons, ← mul_assoc t]
    rfl

theorem batchBack_zero (tmp : F) (fs ss : List F) : batchBack tmp (0 :: fs) ss = 0 :: batchBack tmp fs ss := by
  rw [batchBack.eq_def]
  exact if_pos rfl

theorem batchBack_cons (tmp s : F) {f : F} (hf : f ≠ 0) (fs ss : List F) :
    batchBack tmp (f :: fs) (s :: ss) = (tmp * s) :: batchBack (tmp * f) fs ss := by
  rw [batchBack.eq_def]
  exact if_neg hf

theorem batchBack_eq (w : List F) (ss : List F)
    (hss : (w.filter fun f => f ≠ 0) ≠ [] →
      ss = (batchProducts 1 (w.filter fun f => f ≠ 0)).1.reverse.tail ++ [1]) :
    batchBack (w.filter fun f => f ≠ 0).prod⁻¹ w.reverse ss = w.reverse.map fun f => f⁻¹ := by
  induction w using List.reverseRecOn generalizing ss with
  | nil => rfl
  | append_singleton w f ih =>
    rw [List.reverse_append, List.reverse_singleton, List.singleton_append, List.map_cons]
    by_cases hf : f = 0
    · have hn : (w ++ [f]).filter (fun f => f ≠ 0) = w.filter fun f => f ≠ 0 := by
        rw [List.filter_append]; simp [hf]
      rw [hn] at hss ⊢
      rw [hf, batchBack_zero, ih ss hss, inv_zero]
    · have hn : (w ++ [f]).filter (fun f => f ≠ 0) = (w.filter fun f => f ≠ 0) ++ [f] := by
        rw [List.filter_append]; simp [hf]
      rw [hn] at hss ⊢
      have hss := hss (by simp)
      rw [batchProducts_append, List.reverse_append, List.reverse_singleton, List.singleton_append, List.tail_cons] at hss
      have hp : (w.filter fun f => f ≠ 0).prod ≠ 0 := by
        rw [Ne, List.prod_eq_zero_iff]
        intro h
        have := List.of_mem_filter h
        simp at this
      have hlast : ∃ ss', ss = (w.filter fun f => f ≠ 0).prod :: ss' ∧ ((w.filter fun f => f ≠ 0) ≠ [] →
          ss' = (batchProducts 1 (w.filter fun f => f ≠ 0)).1.reverse.tail ++ [1]) := by
        rw [hss]
        generalize (w.filter fun f => f ≠ 0) = l
        induction l using List.reverseRecOn with
        | nil => exact ⟨[], by simp [batchProducts], fun h => absurd rfl h⟩
        | append_singleton l g _ =>
          rw [batchProducts_append, List.reverse_append, List.reverse_singleton, List.singleton_append, List.tail_cons,
            List.prod_append, List.prod_singleton, one_mul]
          exact ⟨_, rfl, fun _ => rfl⟩
      obtain ⟨ss', rfl, hss'⟩ := hlast
      rw [batchBack_cons _ _ hf]
      have e1 : ((w.filter fun f => f ≠ 0) ++ [f]).prod⁻¹ * (w.filter fun f => f ≠ 0).prod = f⁻¹ := by
        rw [List.prod_append, List.prod_singleton]; field_simp
      have e2 : ((w.filter fun f => f ≠ 0) ++ [f]).prod⁻¹ * f = (w.filter fun f => f ≠ 0).prod⁻¹ := by
        rw [List.prod_append, List.prod_singleton]; field_simp
      rw [e1, e2, ih ss' hss']

/-- **C128.** The inversion of many elements never panics and inverts each of them, zeros staying zero. -/
theorem C128_inversion (v : List F) : batchInversion v = .ok (v.map fun f => f⁻¹) := by
  unfold batchInversion
  dsimp only
  rw [batchProducts_snd, one_mul, if_neg ?_, batchBack_eq v _ fun _ => rfl, ← List.map_reverse, List.reverse_reverse]
  rw [List.prod_eq_zero_iff]
  intro h
  have := List.of_mem_filter h
  simp at this

/-- **C128.** Normalizing many points at once never panics and gives for each what normalizing it alone gives: infinity
exactly if `z` is zero, and `(x / z ^ 2, y / z ^ 3)` otherwise. -/
theorem C128_normalization (v : List (JacRep F)) :
    batchNormalization v = .ok (v.map fun g =>
      if g.z = 0 then .infinity else .finite (g.x / g.z ^ 2) (g.y / g.z ^ 3)) := by
  unfold batchNormalization
  rw [C128_inversion]
  simp only [Outcome.map, Outcome.bind]
  congr 1
  induction v with
  | nil => rfl
  | cons g v ih =>
    simp only [List.map_cons, List.zipWith_cons_cons] at ih ⊢
    rw [ih]
    congr 1
    unfold normalizeWith
    by_cases h0 : g.z = 0
    · rw [if_pos (Or.inl h0), if_pos h0, jacIntoAffine, if_pos h0]
    · by_cases h1 : g.z = 1
      · rw [if_pos (Or.inr h1), if_neg h0, jacIntoAffine, if_neg h0, if_pos h1, h1]
        simp
      · rw [if_neg (by tauto), if_neg h0, jacIntoAffine, if_neg one_ne_zero, if_pos rfl]
        congr 1 <;> field_simp

/-- **C128.** So the affine points denote the same elements of the group as the projective ones, whatever their
representation. -/
theorem C128_same_points {W : WeierstrassCurve.Affine F} {b : F}
    (hW : ∀ x y, W.Nonsingular x y ↔ y ^ 2 = x ^ 3 + b) (v : List (JacRep F)) :
    (batchNormalization v).map (fun l => l.map fun a => jacPoint hW (affineProjective a)) =
      .ok (v.map (jacPoint hW)) := by
  rw [C128_normalization]
  simp only [Outcome.map, Outcome.bind, List.map_map]
  congr 1
  refine List.map_congr_left fun g _ => ?_
  simp only [Function.comp]
  by_cases h0 : g.z = 0
  · rw [if_pos h0]
    simp [affineProjective, jacPoint, h0, arkZero]
  · rw [if_neg h0]
    simp [affineProjective, jacPoint, h0]

/-- **C128.** All of `batch` on projective keys or signatures as they come, of any representation: they are normalized,
the exponents are given to the bucket method, and the result is the sum of all products in the group of the curve. -/
theorem C128_batch {W : WeierstrassCurve.Affine F} {b : F} (hW : ∀ x y, W.Nonsingular x y ↔ y ^ 2 = x ^ 3 + b)
    (v : List (JacRep F)) (exponents : List (ZMod FR_MODULUS)) (hl : v.length < 2 ^ 64) :
    ((batchNormalization v).bind fun l =>
      pippenger 253 (l.map fun a => jacPoint hW (affineProjective a)) (exponents.map ZMod.val)) =
      .ok (List.zipWith (fun (x : ZMod FR_MODULUS) g => x.val • jacPoint hW g) exponents v).sum := by
  have h := C128_same_points hW v
  rw [C128_normalization] at h ⊢
  simp only [Outcome.map, Outcome.bind, Outcome.ok.injEq] at h ⊢
  rw [h, C127_msm (by norm_num) _ _ (fun s hs => ?_) (by rw [List.length_map]; exact (min_le_left _ _).trans_lt hl),
    List.zipWith_map_left, List.zipWith_map_right]
  obtain ⟨x, _, rfl⟩ := List.mem_map.1 hs
  have : NeZero FR_MODULUS := ⟨by decide +kernel⟩
  exact (ZMod.val_lt x).trans (by decide +kernel)

end

/-! ## Examples -/

/-- Zeros among the elements. -/
example : batchInversion [2, 0, 5, 0, 7] = .ok ([1 / 2, 0, 1 / 5, 0, 1 / 7] : List ℚ) := by
  rw [C128_inversion]; norm_num

/-- No elements at all, or zeros only. -/
example : batchInversion ([] : List ℚ) = .ok [] ∧ batchInversion [0, 0] = .ok ([0, 0] : List ℚ) := by
  constructor <;> rw [C128_inversion] <;> norm_num

/-- A point with `z = 2`, one at infinity and one that is normalized. -/
example : batchNormalization [⟨4, 24, 2⟩, ⟨1, 1, 0⟩, ⟨5, 6, 1⟩] =
    .ok ([.finite 1 3, .infinity, .finite 5 6] : List (AffinePoint ℚ)) := by
  rw [C128_normalization]; norm_num

/-- Two keys: the generator of G2 with exponents 3 and the point at infinity with exponent 4. -/
example : ((batchNormalization [⟨g2GenX, g2GenY, 1⟩, arkZero]).bind fun l =>
    pippenger 253 (l.map fun a => jacPoint g2_nonsingular_iff (affineProjective a))
      (([3, 4] : List (ZMod FR_MODULUS)).map ZMod.val)) = .ok (3 • g2Generator) := by
  rw [C128_batch g2_nonsingular_iff _ _ (by norm_num)]
  have h3 : (3 : ZMod FR_MODULUS).val = 3 := by decide +kernel
  have h0 : jacPoint g2_nonsingular_iff (arkZero : JacRep Fq2) = 0 := jacPoint_zero _ rfl
  have hg : jacPoint g2_nonsingular_iff ⟨g2GenX, g2GenY, 1⟩ = g2Generator :=
    (isPoint_jacPoint g2_nonsingular_iff (k := ⟨g2GenX, g2GenY, 1⟩) one_ne_zero (P := g2Generator)
      (by simp only [one_pow, div_one]; exact ⟨_, rfl⟩)).1
  simp only [List.zipWith_cons_cons, List.zipWith_nil_right, List.sum_cons, List.sum_nil, h0, hg, h3, smul_zero, add_zero]

end Verif
