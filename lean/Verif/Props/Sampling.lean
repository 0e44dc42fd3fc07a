import Verif.Lemmas.SamplingData
import Verif.Props.Pedersen
import Verif.Props.Blake2s
import Verif.Lemmas.EdProj

/-!
# C89: the bases of the composite hasher

They are drawn from ChaCha20 with a fixed seed.  What the drawing gives for any generator of words, and
what it gives for the real one.
-/

set_option exponentiation.threshold 1000
set_option maxRecDepth 100000

namespace Verif

open Finset

/-- **C89.** Whatever the words drawn: if the drawing ends, it gives the number of points asked for, each on
the curve, and after the multiplication by the cofactor each in the subgroup. -/
theorem C89_bases {sqrt : Fq → Option Fq} (hs : SqrtSpec sqrt) (w : ℕ → ℕ) (fuel n pos pos' : ℕ)
    (ps : List (Fq × Fq)) (h : sampleBases sqrt w fuel n pos = some (ps, pos')) :
    ps.length = n ∧ ∀ p ∈ ps, -p.1 ^ 2 + p.2 ^ 2 = 1 + ED_D * p.1 ^ 2 * p.2 ^ 2 ∧
      edX (edOfXY p) = p.1 ∧ edY (edOfXY p) = p.2 ∧ ED_ORDER • (8 • edOfXY p) = 0 := by
  obtain ⟨h1, h2⟩ := sampleBases_curve hs w fuel n pos h
  refine ⟨h1, fun p hp => ⟨h2 p hp, ?_⟩⟩
  obtain ⟨h3, h4⟩ := edOfXY_spec (h2 p hp)
  exact ⟨h3, h4, ed_cofactor_order _⟩

/-- **C89.** Whichever of the two square roots the field code returns, the same bases are drawn: `greatest`
decides between the two points. -/
theorem C89_root {sqrt sqrt' : Fq → Option Fq} (hs : SqrtSpec sqrt) (hs' : SqrtSpec sqrt') (w : ℕ → ℕ)
    (fuel n pos : ℕ) : sampleBases sqrt w fuel n pos = sampleBases sqrt' w fuel n pos := by
  have hp : ∀ fuel pos, samplePoint sqrt w fuel pos = samplePoint sqrt' w fuel pos := by
    intro fuel
    induction fuel with
    | zero => intro pos; rfl
    | succ fuel ih =>
      intro pos
      rw [samplePoint, samplePoint]
      simp only [edPointFromX_congr hs hs', ih]
  induction n generalizing pos with
  | zero => rfl
  | succ n ih => simp only [sampleBases, hp, ih]

/-- **C89.** The result does not depend on how long the loops are followed. -/
theorem C89_fuel (sqrt : Fq → Option Fq) (w : ℕ → ℕ) (fuel fuel' n pos : ℕ)
    (r r' : List (Fq × Fq) × ℕ) (h : sampleBases sqrt w fuel n pos = some r)
    (h' : sampleBases sqrt w fuel' n pos = some r') : r = r' := by
  rcases Nat.le_total fuel fuel' with hl | hl <;> obtain ⟨k, rfl⟩ := Nat.exists_eq_add_of_le hl
  · rw [sampleBases_mono sqrt w fuel k n pos h] at h'
    exact Option.some.inj h'
  · rw [sampleBases_mono sqrt w fuel' k n pos h'] at h
    exact (Option.some.inj h).symm

/-- **C89.** The number of draws is not bounded: with a generator that only returns `u32::MAX` the loops
never end. -/
theorem C89_diverges (sqrt : Fq → Option Fq) (fuel n pos : ℕ) :
    sampleBases sqrt (fun _ => 2 ^ 32 - 1) fuel (n + 1) pos = none := by
  have hc : ∀ pos, fqCandidate (fun _ => 2 ^ 32 - 1) pos = 2 ^ 377 - 1 := by
    intro pos
    simp only [fqCandidate, nextU64]
    norm_num
  have hf : ∀ fuel pos, sampleFq (fun _ => 2 ^ 32 - 1) fuel pos = none := by
    intro fuel
    induction fuel with
    | zero => intro pos; rfl
    | succ fuel ih =>
      intro pos
      rw [sampleFq, hc, if_neg (by decide +kernel), ih]
  have hp : samplePoint sqrt (fun _ => 2 ^ 32 - 1) fuel pos = none := by
    cases fuel with
    | zero => rfl
    | succ fuel => rw [samplePoint, hf, Option.bind_none]
  rw [sampleBases, hp, Option.bind_none]

theorem crhSeed_blake2s : ∃ seed, crhSeed blake2s = .ok seed ∧ seed.length = 32 ∧
    (chunks 4 seed).map leValue = crhKey :=
  ⟨leBytes 32 (crhKey.zipIdx.map fun p => p.1 * 2 ^ (32 * p.2)).sum, by decide +kernel,
    by decide +kernel, by decide +kernel⟩

/-- Draw `i` with the real generator. -/
noncomputable def realBase (i : ℕ) : EdPoint :=
  ED_COFACTOR • edOfXY ((crhPoints.map castPair).getD i (0, 1))

theorem crhPoints_length : crhPoints.length = 560 := by decide +kernel

theorem realBase_order (i : ℕ) (hi : i < 560) : addOrderOf (realBase i) = ED_ORDER := by
  obtain ⟨seed, h1, h2, h3⟩ := crhSeed_blake2s
  have hprime := Fact.mk ed_order_prime
  refine addOrderOf_eq_prime (ed_cofactor_order _) ?_
  have hl := crhPoints_length
  unfold realBase
  rw [List.getD_eq_getElem _ _ (by rw [List.length_map]; omega), List.getElem_map]
  exact (crhBases h2 h3 someSqrt_spec).2 _ (List.getElem_mem _)

theorem realBase_setup {sqrt : Fq → Option Fq} (hs : SqrtSpec sqrt) (fuel : ℕ) (hf : 11 ≤ fuel) :
    setupCrhSampled blake2s sqrt fuel = some (.ok (crhGenerators realBase)) := by
  obtain ⟨seed, h1, h2, h3⟩ := crhSeed_blake2s
  obtain ⟨k, rfl⟩ := Nat.exists_eq_add_of_le hf
  have h6 := sampleBases_mono sqrt _ 11 k 560 0 (crhBases h2 h3 hs).1
  obtain ⟨seed', -, h7⟩ := C85_setup blake2s
  rw [setupCrhSampled, h1]
  simp only
  rw [show CRH_NUM_WINDOWS = 560 from rfl, h6, Option.map_some, h7]
  rfl

/-- **C89.** With the real generator the drawing does end, without an error or a panic, and each of the 560
bases generates the whole subgroup: none is zero. -/
theorem C89_setup : ∃ base : ℕ → EdPoint, (∀ i < 560, addOrderOf (base i) = ED_ORDER) ∧
    ∀ sqrt : Fq → Option Fq, SqrtSpec sqrt → ∀ fuel ≥ 11,
      setupCrhSampled blake2s sqrt fuel = some (.ok (crhGenerators base)) :=
  ⟨realBase, realBase_order, fun _ hs fuel hf => realBase_setup hs fuel hf⟩

theorem setupCrhSampled_mono (B : Blake2s) (sqrt : Fq → Option Fq) (fuel k : ℕ)
    {r : Outcome BLSError (List (List EdPoint))} (h : setupCrhSampled B sqrt fuel = some r) :
    setupCrhSampled B sqrt (fuel + k) = some r := by
  unfold setupCrhSampled at h ⊢
  split at h
  · obtain ⟨s, h1, h2⟩ := Option.map_eq_some_iff.mp h
    rw [sampleBases_mono sqrt _ fuel k _ _ h1, Option.map_some, h2]
  · exact h
  · exact h

/-- **C89.** A collision of the real hash gives one of the bases as a combination of the others, with factors
computed from the two messages (by the extended Euclidean algorithm): whoever can find collisions can compute such
relations between the bases. -/
theorem C89_collision {sqrt : Fq → Option Fq} (hs : SqrtSpec sqrt) (fuel : ℕ)
    (gens : List (List EdPoint)) (h : setupCrhSampled blake2s sqrt fuel = some (.ok gens))
    (a b out : Bytes) (hne : a ≠ b) (ha : pedersenCrh edX gens a = .ok out)
    (hb : pedersenCrh edX gens b = .ok out) :
    ∃ i < 560, (gens.getD i []).getD 0 0 = ∑ j ∈ (range 560).erase i,
      (-(Int.gcdA (crhCoefficient a i - crhCoefficient b i) ED_ORDER *
        (crhCoefficient a j - crhCoefficient b j))) • (gens.getD j []).getD 0 0 := by
  have hg : gens = crhGenerators realBase := by
    have h1 := setupCrhSampled_mono blake2s sqrt fuel 11 h
    rw [realBase_setup hs _ (by omega)] at h1
    exact (Outcome.ok.inj (Option.some.inj h1)).symm
  subst hg
  have hbase : ∀ i < 560, ED_ORDER • realBase i = 0 := fun i _ => ed_cofactor_order _
  have hget : ∀ i < 560, ((crhGenerators realBase).getD i []).getD 0 0 = realBase i := by
    intro i hi
    have hl : i < (crhGenerators realBase).length := by
      rw [crhGenerators, List.length_map, List.length_range]; exact hi
    rw [List.getD_eq_getElem _ [] hl]
    simp only [crhGenerators, List.getElem_map, List.getElem_range]
    rw [List.getD_eq_getElem _ _ (by simp), List.getElem_map, List.getElem_range, pow_zero, one_zsmul]
  obtain ⟨⟨i, hi, hc⟩, hsum⟩ := C85_collision realBase hbase a b out hne ha hb
  refine ⟨i, hi, ?_⟩
  generalize hcdef : (fun j => crhCoefficient a j - crhCoefficient b j) = c at *
  have hcj : ∀ j, crhCoefficient a j - crhCoefficient b j = c j := fun j => congrFun hcdef j
  simp only [hcj] at hc hsum ⊢
  have hcop : IsCoprime (c i) (ED_ORDER : ℤ) :=
    ((Nat.prime_iff_prime_int.mp ed_order_prime).coprime_iff_not_dvd.mpr hc).symm
  have huv := Int.gcd_eq_gcd_ab (c i) ED_ORDER
  rw [Int.isCoprime_iff_gcd_eq_one.mp hcop, Nat.cast_one, mul_comm, mul_comm _ (Int.gcdB _ _)] at huv
  generalize Int.gcdA (c i) ED_ORDER = u at *
  generalize Int.gcdB (c i) ED_ORDER = v at *
  replace huv := huv.symm
  rw [hget i hi, sum_congr rfl (fun j hj => by
    rw [hget j (mem_range.mp (mem_of_mem_erase hj))])]
  rw [← add_sum_erase _ _ (mem_range.mpr hi)] at hsum
  have h1 : realBase i = (u * c i) • realBase i := by
    conv_lhs => rw [← one_zsmul (realBase i), ← huv, add_zsmul, mul_zsmul _ v, natCast_zsmul, hbase i hi,
      zsmul_zero, add_zero]
  have h2 : ∑ j ∈ (range 560).erase i, (-(u * c j)) • realBase j =
      -(u • ∑ j ∈ (range 560).erase i, c j • realBase j) := by
    rw [smul_sum, ← sum_neg_distrib]
    exact sum_congr rfl fun j _ => by rw [neg_zsmul, mul_zsmul]
  rw [h2, h1, mul_zsmul, eq_neg_iff_add_eq_zero, ← zsmul_add, hsum, zsmul_zero]

/-! ### Evaluation -/

/-- The hash in projective coordinates, from the points of the first `n` windows. -/
def crhEval (m : Bytes) (n : ℕ) : ℕ × ℕ × ℕ :=
  edMulti ((List.range n).map fun i => (8 * (crhCoefficient m i % ED_ORDER).toNat,
    ((crhPoints.getD i (0, 1)).1, (crhPoints.getD i (0, 1)).2, 1))) 377 (0, 1, 1)

theorem crhPoint_rep (i : ℕ) (hi : i < 560) :
    EdRep ((crhPoints.getD i (0, 1)).1, (crhPoints.getD i (0, 1)).2, 1)
      (edOfXY ((crhPoints.map castPair).getD i (0, 1))) := by
  obtain ⟨seed, h1, h2, h3⟩ := crhSeed_blake2s
  have hl := crhPoints_length
  have hb := (C89_bases someSqrt_spec _ _ _ _ _ _ (crhBases h2 h3 someSqrt_spec).1).2
  have hi' : i < (crhPoints.map castPair).length := by rw [List.length_map]; omega
  have hc := hb _ (List.getElem_mem hi')
  rw [List.getD_eq_getElem _ _ hi', List.getD_eq_getElem _ _ (by omega)]
  rw [List.getElem_map] at hc ⊢
  refine ⟨?_, ?_, ?_⟩
  · simp only [Nat.cast_one]; exact one_ne_zero
  · simp only [Nat.cast_one, mul_one]; exact hc.2.1.symm
  · simp only [Nat.cast_one, mul_one]; exact hc.2.2.1.symm

theorem crhEval_spec (m out : Bytes) (n : ℕ) (hn : n ≤ 560) (hm : 8 * m.length ≤ 279 * n)
    (hl : out.length = 48) (hlt : leValue out < FQ_MODULUS)
    (hx : leValue out * (crhEval m n).2.2 % FQ_MODULUS = (crhEval m n).1 % FQ_MODULUS) :
    pedersenCrh edX (crhGenerators realBase) m = .ok out := by
  have hzero : EdRep (0, 1, 1) 0 := by
    refine ⟨?_, ?_, ?_⟩ <;> simp [edX, edY]
  have hrep := edMulti_spec 377 ((List.range n).map fun i =>
      ((8 * (crhCoefficient m i % ED_ORDER).toNat,
        ((crhPoints.getD i (0, 1)).1, (crhPoints.getD i (0, 1)).2, 1)),
       edOfXY ((crhPoints.map castPair).getD i (0, 1))))
    (by
      intro t ht
      obtain ⟨i, hi, rfl⟩ := List.mem_map.mp ht
      exact crhPoint_rep i (by have := List.mem_range.mp hi; omega)) _ _ hzero
  rw [List.map_map, List.map_map] at hrep
  change EdRep (crhEval m n) _ at hrep
  have hsum : 2 ^ 377 • (0 : EdPoint) + ((List.range n).map ((fun t : (ℕ × (ℕ × ℕ × ℕ)) × EdPoint =>
      (t.1.1 % 2 ^ 377) • t.2) ∘ fun i => ((8 * (crhCoefficient m i % ED_ORDER).toNat,
        ((crhPoints.getD i (0, 1)).1, (crhPoints.getD i (0, 1)).2, 1)),
       edOfXY ((crhPoints.map castPair).getD i (0, 1))))).sum =
      ∑ i ∈ range 560, crhCoefficient m i • realBase i := by
    rw [nsmul_zero, zero_add, ← sum_subset (range_subset_range.mpr hn)]
    · rw [← List.sum_toFinset _ List.nodup_range, List.toFinset_range]
      refine sum_congr rfl fun i _ => ?_
      simp only [Function.comp]
      have hpos : (0 : ℤ) < ED_ORDER := by decide +kernel
      have h0 := Int.emod_nonneg (crhCoefficient m i) hpos.ne'
      have h1 := Int.emod_lt_of_pos (crhCoefficient m i) hpos
      have h2 : 8 * ED_ORDER < 2 ^ 377 := by decide +kernel
      rw [Nat.mod_eq_of_lt (by omega), realBase, mul_comm, mul_nsmul', ← natCast_zsmul _ (Int.toNat _),
        Int.toNat_of_nonneg h0, show ED_COFACTOR = 8 from rfl]
      have h3 := ed_cofactor_order (edOfXY ((crhPoints.map castPair).getD i (0, 1)))
      rw [show ED_COFACTOR = 8 from rfl] at h3
      conv_rhs => rw [← Int.mul_ediv_add_emod (crhCoefficient m i) ED_ORDER, add_zsmul, mul_comm,
        mul_zsmul, natCast_zsmul, h3, zsmul_zero, zero_add]
    · intro i _ hi
      have : n ≤ i := by simpa using hi
      rw [crhCoefficient_beyond m i (by omega), zero_zsmul]
  rw [hsum] at hrep
  obtain ⟨out', h2, h3, h4, h5⟩ := C85_output edX realBase m (by omega)
  rw [h2]
  obtain ⟨z, hX, -⟩ := hrep
  congr 1
  apply leValue_inj (h3.trans hl.symm)
  have h6 : (leValue out : Fq) = (leValue out' : Fq) := by
    apply mul_right_cancel₀ z
    rw [h5, ← hX, ← Nat.cast_mul, ← cast_mod fq_cast_self, hx, cast_mod fq_cast_self]
  have h7 := congrArg ZMod.val h6
  rw [ZMod.val_cast_of_lt hlt, ZMod.val_cast_of_lt h4] at h7
  exact h7.symm

/-! ### Concrete cases -/

/-- `C89_root`: `someSqrt` and the function returning the other root both satisfy the specification. -/
theorem negSqrt_spec : SqrtSpec fun a => (someSqrt a).map Neg.neg where
  sound v y h := by
    obtain ⟨z, hz, rfl⟩ := Option.map_eq_some_iff.mp h
    rw [neg_mul_neg]
    exact someSqrt_spec.sound v z hz
  complete v h := someSqrt_spec.complete v (Option.map_eq_none_iff.mp h)

/-- `C89_root` with two functions that return opposite roots, on the words of the real generator. -/
example (w : ℕ → ℕ) : sampleBases someSqrt w 11 560 0 =
    sampleBases (fun a => (someSqrt a).map Neg.neg) w 11 560 0 :=
  C89_root someSqrt_spec negSqrt_spec w 11 560 0

/-- `C89_fuel` and `C89_setup`: the real drawing, followed for 11 and for 1000 steps. -/
example : setupCrhSampled blake2s someSqrt 11 = setupCrhSampled blake2s someSqrt 1000 := by
  obtain ⟨base, -, h⟩ := C89_setup
  rw [h _ someSqrt_spec 11 (by omega), h _ someSqrt_spec 1000 (by omega)]

/-- `C89_collision`: collisions exist, already among the messages of 49 bytes, so its hypotheses are met. -/
example : ∃ gens a b out, setupCrhSampled blake2s someSqrt 11 = some (.ok gens) ∧ a.length = 49 ∧
    b.length = 49 ∧ a ≠ b ∧ pedersenCrh edX gens a = .ok out ∧ pedersenCrh edX gens b = .ok out := by
  have hm : ∀ i : Fin (2 ^ 392), ∃ out, pedersenCrh edX (crhGenerators realBase) (leBytes 49 i.val) =
      .ok out ∧ out.length = 48 ∧ leValue out < FQ_MODULUS := by
    intro i
    obtain ⟨out, h1, h2, h3, -⟩ := C85_output edX realBase (leBytes 49 i.val) (by rw [leBytes_length]; omega)
    exact ⟨out, h1, h2, h3⟩
  choose out h1 h2 h3 using hm
  obtain ⟨i, j, hij, he⟩ := Fintype.exists_ne_map_eq_of_card_lt
    (fun i => (⟨leValue (out i), h3 i⟩ : Fin FQ_MODULUS))
    (by rw [Fintype.card_fin, Fintype.card_fin]; decide +kernel)
  have ho : out i = out j := leValue_inj ((h2 i).trans (h2 j).symm) (Fin.mk.inj he)
  refine ⟨_, leBytes 49 i.val, leBytes 49 j.val, out i, realBase_setup someSqrt_spec 11 (by omega),
    leBytes_length _ _, leBytes_length _ _, fun h => hij (Fin.ext ?_), h1 i, ho ▸ h1 j⟩
  have hv := congrArg leValue h
  rwa [leBytes_value, leBytes_value, Nat.mod_eq_of_lt (lt_of_lt_of_eq i.isLt (by norm_num)),
    Nat.mod_eq_of_lt (lt_of_lt_of_eq j.isLt (by norm_num))] at hv

end Verif
