import Verif.Lemmas.DrawCount
import Verif.Props.Pedersen
import Verif.Props.Sampling

/-!
# C90: the Pedersen hash over all choices of its bases

How many choices of the bases make two messages collide, how the hash of a message is distributed, and
how the bases themselves are distributed if the words they are drawn from are.
-/

set_option exponentiation.threshold 1000

namespace Verif

open Finset

/-- Specification: a choice of the bases of the windows, as a sequence. -/
def chosenBases (b : Fin 560 → edSubgroup) (i : ℕ) : EdPoint := if h : i < 560 then b ⟨i, h⟩ else 0

theorem chosenBases_order (b : Fin 560 → edSubgroup) : ∀ i < 560, ED_ORDER • chosenBases b i = 0 := by
  intro i hi
  unfold chosenBases
  rw [dif_pos hi]
  exact mem_edSubgroup.mp (b ⟨i, hi⟩).2

theorem chosenBases_sum (n : ℕ) (c : ℕ → ℤ) (b : ℕ → edSubgroup) :
    ∑ i ∈ range n, c i • (b i : EdPoint) = (edCombination n c (fun i => b i) : EdPoint) := by
  change _ = ((∑ i : Fin n, c i • b i : edSubgroup) : EdPoint)
  rw [Fin.sum_univ_eq_sum_range (fun i => c i • b i) n, AddSubgroup.val_finsetSum]
  rfl

theorem chosenBases_combination (c : ℕ → ℤ) (b : Fin 560 → edSubgroup) :
    ∑ i ∈ range 560, c i • chosenBases b i = (edCombination 560 c b : EdPoint) := by
  have h := chosenBases_sum 560 c fun i => if h : i < 560 then b ⟨i, h⟩ else 0
  have e : (fun i : Fin 560 => if h : (i : ℕ) < 560 then b ⟨i, h⟩ else 0) = b := by
    funext i
    rw [dif_pos i.2]
  rw [e] at h
  rw [← h]
  refine sum_congr rfl fun i hi => ?_
  unfold chosenBases
  rw [dif_pos (mem_range.mp hi), dif_pos (mem_range.mp hi)]

/-- **C90.** Two different messages collide for exactly one in `ED_ORDER` of the choices of the bases: the
hash is a universal family, with the best possible constant. -/
theorem C90_universal (a b : Bytes) (ha : a.length ≤ 19530) (hb : b.length ≤ 19530) (hne : a ≠ b) :
    Nat.card {B : Fin 560 → edSubgroup // pedersenCrh edX (crhGenerators (chosenBases B)) a =
      pedersenCrh edX (crhGenerators (chosenBases B)) b} = ED_ORDER ^ 559 ∧
    Nat.card (Fin 560 → edSubgroup) = ED_ORDER ^ 560 := by
  obtain ⟨hs, hd⟩ := C85_coefficients a b ha hb
  obtain ⟨i, hi, h⟩ := hd hne
  have hndvd : ¬ (ED_ORDER : ℤ) ∣ crhCoefficient a i - crhCoefficient b i := fun hdvd =>
    h (sub_eq_zero.mp (Int.eq_zero_of_abs_lt_dvd hdvd (hs i)))
  constructor
  · rw [← card_combination (c := fun i => crhCoefficient a i - crhCoefficient b i) hi hndvd 0]
    refine Nat.card_congr (Equiv.subtypeEquivRight fun B => ?_)
    rw [C85_collision_iff _ (chosenBases_order B) a b ha hb,
      chosenBases_combination (fun i => crhCoefficient a i - crhCoefficient b i), ZeroMemClass.coe_eq_zero]
  · rw [Nat.card_fun, card_edSubgroup, Nat.card_eq_fintype_card, Fintype.card_fin]

/-- **C90.** The hash of a message that is not empty takes every value, that is the `x` of every point of
the subgroup, for the same number of choices of the bases. -/
theorem C90_uniform (a : Bytes) (ha : a.length ≤ 19530) (hne : a ≠ []) (Q : EdPoint)
    (hQ : ED_ORDER • Q = 0) :
    Nat.card {B : Fin 560 → edSubgroup //
      pedersenCrh edX (crhGenerators (chosenBases B)) a = .ok (leBytes 48 (edX Q).val)} = ED_ORDER ^ 559 := by
  obtain ⟨hs, hd⟩ := C85_coefficients a [] ha (by decide)
  obtain ⟨i, hi, h⟩ := hd hne
  have h0 : crhCoefficient [] i = 0 := crhCoefficient_beyond [] i (by simp)
  have hsi := hs i
  rw [h0, sub_zero] at hsi
  rw [h0] at h
  have hndvd : ¬ (ED_ORDER : ℤ) ∣ crhCoefficient a i := fun hdvd => h (Int.eq_zero_of_abs_lt_dvd hdvd hsi)
  rw [← card_combination (c := crhCoefficient a) hi hndvd ⟨Q, mem_edSubgroup.mpr hQ⟩]
  refine Nat.card_congr (Equiv.subtypeEquivRight fun B => ?_)
  unfold pedersenCrh
  rw [C85_value _ a ha, Outcome.map_ok, chosenBases_combination]
  have ho := mem_edSubgroup.mp (edCombination 560 (crhCoefficient a) B).2
  generalize edCombination 560 (crhCoefficient a) B = P at ho ⊢
  constructor
  · intro h
    have h1 := congrArg leValue (Outcome.ok.inj h)
    rw [leBytes48_value, leBytes48_value] at h1
    exact Subtype.ext (edX_inj ed_order_odd ho hQ (ZMod.val_injective _ h1))
  · rintro rfl; rfl

/-- **C90.** The empty message does not depend on the bases at all: its hash is 48 zero bytes. -/
theorem C90_empty {M : Type*} [AddCommGroup M] (x : M → Fq) (hx : x 0 = 0) (base : ℕ → M) :
    pedersenCrh x (crhGenerators base) [] = .ok (List.replicate 48 0) := by
  unfold pedersenCrh
  rw [C85_value base [] (by decide), sum_eq_zero fun i _ => by
    rw [crhCoefficient_beyond [] i (by simp), zero_smul], Outcome.map_ok, hx]
  rfl

open Classical in
/-- **C90.** Of the `2 ^ 416` values of the 13 words of one round, the same number gives each base other
than zero, and a quarter more than that gives zero (points with `y = 0` have one root, not two, so both
values of the flag give them). -/
theorem C90_draw {sqrt : Fq → Option Fq} (hs : SqrtSpec sqrt) (B : EdPoint) (hB : ED_ORDER • B = 0) :
    Nat.card {d : (Fin 12 → Fin (2 ^ 32)) × Fin (2 ^ 32) // ∃ p pos,
      samplePoint sqrt (drawWords d.1 d.2) 1 0 = some (p, pos) ∧ ED_COFACTOR • edOfXY p = B} =
      2 ^ 38 * if B = 0 then 10 else 8 := by
  have h := card_draws hs ⟨B, mem_edSubgroup.mpr hB⟩
  have e : ((⟨B, mem_edSubgroup.mpr hB⟩ : edSubgroup) = 0) ↔ B = 0 :=
    ⟨fun h => congrArg Subtype.val h, fun h => Subtype.ext h⟩
  rw [if_congr e rfl rfl] at h
  rw [← h]
  refine Nat.card_congr (Equiv.subtypeEquivRight fun d => ?_)
  constructor
  · rintro ⟨p, pos, h1, h2⟩
    exact ⟨p, pos, h1, Subtype.ext h2⟩
  · rintro ⟨p, pos, h1, h2⟩
    exact ⟨p, pos, h1, congrArg Subtype.val h2⟩

/-- **C90.** More than two fifths of the values of the 13 words of a round give a base. -/
theorem C90_accept {sqrt : Fq → Option Fq} (hs : SqrtSpec sqrt) :
    Nat.card {d : (Fin 12 → Fin (2 ^ 32)) × Fin (2 ^ 32) //
      (samplePoint sqrt (drawWords d.1 d.2) 1 0).isSome} = 2 ^ 38 * (8 * ED_ORDER + 2) ∧
    Nat.card ((Fin 12 → Fin (2 ^ 32)) × Fin (2 ^ 32)) = 2 ^ 416 ∧
    2 * 2 ^ 416 < 5 * (2 ^ 38 * (8 * ED_ORDER + 2)) := by
  classical
  refine ⟨?_, ?_, by decide +kernel⟩
  · have hfin := Fintype.ofFinite edSubgroup
    let f : {d : (Fin 12 → Fin (2 ^ 32)) × Fin (2 ^ 32) //
        (samplePoint sqrt (drawWords d.1 d.2) 1 0).isSome} → edSubgroup :=
      fun d => edClear (edOfXY ((samplePoint sqrt (drawWords d.1.1 d.1.2) 1 0).get d.2).1)
    have hf : ∀ B, Nat.card {d // f d = B} = 2 ^ 38 * if B = 0 then 10 else 8 := by
      intro B
      rw [← card_draws hs B]
      refine Nat.card_congr ((Equiv.subtypeSubtypeEquivSubtypeExists _ _).trans
        (Equiv.subtypeEquivRight fun d => ?_))
      constructor
      · rintro ⟨h, hd⟩
        exact ⟨_, _, (Option.some_get h).symm, hd⟩
      · rintro ⟨p, pos, h1, h2⟩
        have hi : (samplePoint sqrt (drawWords d.1 d.2) 1 0).isSome := by rw [h1]; rfl
        refine ⟨hi, ?_⟩
        have : (samplePoint sqrt (drawWords d.1 d.2) 1 0).get hi = (p, pos) := Option.get_of_eq_some hi h1
        change edClear (edOfXY ((samplePoint sqrt (drawWords d.1 d.2) 1 0).get hi).1) = B
        rw [this]
        exact h2
    have hsplit : ∀ B : edSubgroup, (if B = 0 then 10 else 8) = 8 + if B = 0 then 2 else 0 := by
      intro B; split <;> rfl
    rw [← Nat.card_congr (Equiv.sigmaFiberEquiv f), Nat.card_sigma, sum_congr rfl fun B _ => hf B,
      ← mul_sum, sum_congr rfl fun B _ => hsplit B, sum_add_distrib, sum_const, card_univ,
      ← Nat.card_eq_fintype_card, card_edSubgroup, sum_ite_eq' univ (0 : edSubgroup) fun _ => 2,
      if_pos (mem_univ _), smul_eq_mul, mul_comm ED_ORDER]
  · rw [Nat.card_prod, Nat.card_fun, Nat.card_eq_fintype_card, Nat.card_eq_fintype_card, Fintype.card_fin,
      Fintype.card_fin, ← pow_mul, ← pow_add]

/-! ### Examples -/

/-- The choice of bases the code makes is one of those counted: all its 560 bases are in the subgroup. -/
example : ∃ B : Fin 560 → edSubgroup, ∀ i < 560, chosenBases B i = realBase i :=
  ⟨fun i => ⟨realBase i, mem_edSubgroup.mpr (ed_cofactor_order _)⟩, fun i hi => by
    unfold chosenBases; rw [dif_pos hi]⟩

/-- Two messages and a point as in the hypotheses. -/
example : ([1] : Bytes).length ≤ 19530 ∧ ([1, 0] : Bytes).length ≤ 19530 ∧ ([1] : Bytes) ≠ [1, 0] ∧
    ([1] : Bytes) ≠ [] ∧ ED_ORDER • edBase = 0 ∧ edBase ≠ 0 :=
  ⟨by decide, by decide, by decide, by decide, edBase_order, WeierstrassCurve.Affine.Point.some_ne_zero _⟩

end Verif
