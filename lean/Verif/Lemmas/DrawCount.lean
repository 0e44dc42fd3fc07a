import Verif.Lemmas.EdCount
import Mathlib.Algebra.BigOperators.Fin

/-! How many draws give a base (helper; models nothing in /repo). -/

set_option exponentiation.threshold 1000

namespace Verif

open Finset

theorem card_residue (a b v : ℕ) (hv : v < a) : Nat.card {k : Fin (a * b) // k.val % a = v} = b := by
  have hlt : ∀ j : Fin b, v + a * j.val < a * b := by
    intro j
    have h1 : a * j.val + a ≤ a * b := by
      have := Nat.mul_le_mul_left a j.2
      rwa [Nat.mul_succ] at this
    omega
  have hpos : 0 < a := by omega
  have hb : Function.Bijective (fun j : Fin b => (⟨⟨v + a * j.val, hlt j⟩, by
      simp only [Nat.add_mul_mod_self_left]; exact Nat.mod_eq_of_lt hv⟩ :
      {k : Fin (a * b) // k.val % a = v})) := by
    constructor
    · intro j j' h
      have h : v + a * j.val = v + a * j'.val := congrArg (fun k => k.1.val) h
      exact Fin.ext (Nat.eq_of_mul_eq_mul_left hpos (Nat.add_left_cancel h))
    · rintro ⟨⟨k, hk⟩, h⟩
      simp only at h
      refine ⟨⟨k / a, Nat.div_lt_of_lt_mul hk⟩, ?_⟩
      apply Subtype.ext
      apply Fin.ext
      simp only
      rw [← h, Nat.mod_add_div]
  rw [← Nat.card_congr (Equiv.ofBijective _ hb), Nat.card_eq_fintype_card, Fintype.card_fin]

theorem card_half (a : ℕ) (b : Bool) : Nat.card {k : Fin (2 * a) // decide (a ≤ k.val) = b} = a := by
  cases b with
  | false =>
    have hb : Function.Bijective (fun j : Fin a => (⟨⟨j.val, by omega⟩, by
        simp only [decide_eq_false_iff_not]; omega⟩ : {k : Fin (2 * a) // decide (a ≤ k.val) = false})) := by
      constructor
      · intro j j' h
        exact Fin.ext (congrArg (fun k => k.1.val) h)
      · rintro ⟨⟨k, hk⟩, h⟩
        simp only [decide_eq_false_iff_not] at h
        exact ⟨⟨k, by omega⟩, rfl⟩
    rw [← Nat.card_congr (Equiv.ofBijective _ hb), Nat.card_eq_fintype_card, Fintype.card_fin]
  | true =>
    have hb : Function.Bijective (fun j : Fin a => (⟨⟨a + j.val, by omega⟩, by
        simp only [decide_eq_true_eq]; omega⟩ : {k : Fin (2 * a) // decide (a ≤ k.val) = true})) := by
      constructor
      · intro j j' h
        have h : a + j.val = a + j'.val := congrArg (fun k => k.1.val) h
        exact Fin.ext (by omega)
      · rintro ⟨⟨k, hk⟩, h⟩
        simp only [decide_eq_true_eq] at h
        refine ⟨⟨k - a, by omega⟩, Subtype.ext (Fin.ext ?_)⟩
        simp only
        omega
    rw [← Nat.card_congr (Equiv.ofBijective _ hb), Nat.card_eq_fintype_card, Fintype.card_fin]

/-- Specification: a stream that begins with twelve given words, and then repeats another one. -/
def drawWords (f : Fin 12 → Fin (2 ^ 32)) (g : Fin (2 ^ 32)) : ℕ → ℕ := fun i =>
  if h : i < 12 then (f ⟨i, h⟩).val else g.val

theorem nextU64_lt {w : ℕ → ℕ} (hw : ∀ i, w i < 2 ^ 32) (pos : ℕ) : nextU64 w pos < 2 ^ 64 := by
  have h1 := hw pos
  have h2 := hw (pos + 1)
  unfold nextU64
  omega

theorem candidate_mod {u0 u1 u2 u3 u4 u5 : ℕ} (h0 : u0 < 2 ^ 64) (h1 : u1 < 2 ^ 64) (h2 : u2 < 2 ^ 64)
    (h3 : u3 < 2 ^ 64) (h4 : u4 < 2 ^ 64) :
    u0 + 2 ^ 64 * u1 + 2 ^ 128 * u2 + 2 ^ 192 * u3 + 2 ^ 256 * u4 + 2 ^ 320 * (u5 % 2 ^ 57) =
      (u0 + 2 ^ 64 * u1 + 2 ^ 128 * u2 + 2 ^ 192 * u3 + 2 ^ 256 * u4 + 2 ^ 320 * u5) % 2 ^ 377 := by
  have hl : u0 + 2 ^ 64 * u1 + 2 ^ 128 * u2 + 2 ^ 192 * u3 + 2 ^ 256 * u4 < 2 ^ 320 := by
    norm_num at *
    omega
  generalize u0 + 2 ^ 64 * u1 + 2 ^ 128 * u2 + 2 ^ 192 * u3 + 2 ^ 256 * u4 = l at hl ⊢
  rw [show (2 : ℕ) ^ 377 = 2 ^ 320 * 2 ^ 57 by rw [← pow_add], Nat.mod_mul, Nat.add_mul_mod_self_left,
    Nat.mod_eq_of_lt hl, Nat.add_mul_div_left _ _ (by positivity), Nat.div_eq_of_lt hl, zero_add]

theorem candidate_eq (f : Fin 12 → Fin (2 ^ 32)) (g : Fin (2 ^ 32)) :
    fqCandidate (drawWords f g) 0 = (finFunctionFinEquiv f).val % 2 ^ 377 := by
  have hw : ∀ i, drawWords f g i < 2 ^ 32 := by
    intro i
    unfold drawWords
    split
    · exact Fin.isLt _
    · exact g.isLt
  unfold fqCandidate
  rw [candidate_mod (nextU64_lt hw _) (nextU64_lt hw _) (nextU64_lt hw _) (nextU64_lt hw _) (nextU64_lt hw _)]
  congr 1
  rw [finFunctionFinEquiv_apply]
  have hs : ∀ i : Fin 12, (f i).val = drawWords f g i := by
    intro i
    unfold drawWords
    rw [dif_pos i.2]
  simp only [hs, nextU64]
  generalize drawWords f g = w
  rw [Fin.sum_univ_eq_sum_range (fun i => w i * (2 ^ 32) ^ i) 12]
  simp only [sum_range_succ, sum_range_zero]
  ring

theorem card_candidate (g : Fin (2 ^ 32)) (v : ℕ) (hv : v < 2 ^ 377) :
    Nat.card {f : Fin 12 → Fin (2 ^ 32) // fqCandidate (drawWords f g) 0 = v} = 2 ^ 7 := by
  have hc : (2 ^ 32) ^ 12 = 2 ^ 377 * 2 ^ 7 := by rw [← pow_mul, ← pow_add]
  rw [← card_residue (2 ^ 377) (2 ^ 7) v hv]
  refine Nat.card_congr ((finFunctionFinEquiv.trans (finCongr hc)).subtypeEquiv fun f => ?_)
  rw [candidate_eq]
  rfl

/-! ## The pairs of `x` and a flag -/

/-- The choice of the root. -/
def FlagOf (g : Bool) (y : Fq) : Prop := if g then (-y).val ≤ y.val else y.val ≤ (-y).val

theorem card_flag (y : Fq) : Nat.card {g : Bool // FlagOf g y} = if y = 0 then 2 else 1 := by
  classical
  by_cases hy : y = 0
  · rw [if_pos hy, hy]
    have h : ∀ g, FlagOf g 0 := by
      intro g
      unfold FlagOf
      rw [neg_zero, ite_self]
    rw [Nat.card_congr (Equiv.subtypeUnivEquiv h), Nat.card_eq_fintype_card, Fintype.card_bool]
  · rw [if_neg hy]
    have hne : (-y).val ≠ y.val := by
      intro h
      have h1 := ZMod.val_injective _ h
      have h2 : 2 * y = 0 := by linear_combination -h1
      rcases mul_eq_zero.mp h2 with h3 | h3
      · exact ed_two_ne_zero h3
      · exact hy h3
    rw [Nat.card_eq_one_iff_exists]
    by_cases hl : y.val < (-y).val
    · refine ⟨⟨false, by unfold FlagOf; simpa using hl.le⟩, ?_⟩
      rintro ⟨g, hg⟩
      cases g
      · rfl
      · unfold FlagOf at hg
        simp only [if_true] at hg
        omega
    · refine ⟨⟨true, by unfold FlagOf; simpa using hl⟩, ?_⟩
      rintro ⟨g, hg⟩
      cases g
      · unfold FlagOf at hg
        simp only [Bool.false_eq_true, if_false] at hg
        omega
      · rfl

/-- A point with `y = 0` is annihilated by 4. -/
theorem ed_clear_y_zero {P : EdPoint} (hy : edY P = 0) : edClear P = 0 := by
  have hc := ed_on_curve P
  obtain ⟨a1, a2, -, -⟩ := ed_double P
  rw [hy] at hc a1 a2
  have hx2 : edX (P + P) = 0 := by simpa using a1
  have hy2 : edY (P + P) = -1 := by
    have : edY (P + P) = edX P ^ 2 := by simpa using a2
    rw [this]
    linear_combination -hc
  obtain ⟨c1, c2, -, -⟩ := ed_double (P + P)
  rw [hx2, hy2] at c1 c2
  have h4 : P + P + (P + P) = 0 := by
    apply edXY_inj
    · rw [show edX 0 = 0 from rfl]; simpa using c1
    · rw [show edY 0 = 1 from rfl]; simpa using c2
  apply Subtype.ext
  change 8 • P = 0
  rw [show 8 • P = 2 • (P + P + (P + P)) by abel, h4, nsmul_zero]

theorem card_y_zero : Nat.card {P : EdPoint // edY P = 0} = 2 := by
  have hI := fqI_sq
  have hcurve : ∀ s : Fq, s * s = -1 → ∃ P : EdPoint, edX P = s ∧ edY P = 0 := by
    intro s hs
    apply ed_surjective
    linear_combination -hs
  obtain ⟨P1, hx1, hy1⟩ := hcurve fqI hI
  obtain ⟨P2, hx2, hy2⟩ := hcurve (-fqI) (by rw [neg_mul_neg]; exact hI)
  have hI0 : fqI ≠ 0 := by
    intro h
    rw [h, mul_zero] at hI
    exact one_ne_zero (neg_eq_zero.mp hI.symm)
  have hne : P1 ≠ P2 := by
    intro h
    have h1 : fqI = -fqI := hx1.symm.trans ((congrArg edX h).trans hx2)
    have h2 : 2 * fqI = 0 := by linear_combination h1
    rcases mul_eq_zero.mp h2 with h3 | h3
    · exact ed_two_ne_zero h3
    · exact hI0 h3
  rw [Nat.card_eq_two_iff]
  refine ⟨⟨P1, hy1⟩, ⟨P2, hy2⟩, fun h => hne (congrArg Subtype.val h), Set.eq_univ_of_forall ?_⟩
  rintro ⟨P, hP⟩
  have hc := ed_on_curve P
  rw [hP] at hc
  have : (edX P - fqI) * (edX P + fqI) = 0 := by linear_combination -hc - hI
  rcases mul_eq_zero.mp this with h | h
  · refine Or.inl (Subtype.ext (edXY_inj ?_ ?_))
    · rw [hx1]; linear_combination h
    · rw [hy1, hP]
  · refine Or.inr (Subtype.ext (edXY_inj ?_ ?_))
    · rw [hx2]; linear_combination h
    · rw [hy2, hP]

/-- The pairs of `x` and a flag that give a base. -/
def PairGives (sqrt : Fq → Option Fq) (B : edSubgroup) (t : Fq × Bool) : Prop :=
  ∃ p, edPointFromX sqrt t.1 t.2 = some p ∧ edClear (edOfXY p) = B

open Classical in
theorem card_pairs {sqrt : Fq → Option Fq} (hsq : SqrtSpec sqrt) (B : edSubgroup) :
    Nat.card {t // PairGives sqrt B t} = if B = 0 then 10 else 8 := by
  have hfrom : ∀ (Q : EdPoint) (g : Bool), FlagOf g (edY Q) →
      edPointFromX sqrt (edX Q) g = some (edX Q, edY Q) := by
    intro Q g hg
    exact (edPointFromX_iff hsq _ _ _).mpr ⟨rfl, ed_on_curve Q, hg⟩
  let f : (Σ Q : {Q : EdPoint // edClear Q = B}, {g : Bool // FlagOf g (edY Q.1)}) →
      {t // PairGives sqrt B t} := fun s => ⟨(edX s.1.1, s.2.1), (edX s.1.1, edY s.1.1),
        hfrom _ _ s.2.2, by rw [edOfXY_eq]; exact s.1.2⟩
  have hb : Function.Bijective f := by
    constructor
    · rintro ⟨⟨Q, hQ⟩, ⟨g, hg⟩⟩ ⟨⟨Q', hQ'⟩, ⟨g', hg'⟩⟩ h
      have h1 : (edX Q, g) = (edX Q', g') := congrArg Subtype.val h
      obtain ⟨hx, rfl⟩ := Prod.mk.inj h1
      have h2 := hfrom Q g hg
      rw [hx, hfrom Q' g hg'] at h2
      have hy := (Prod.mk.inj (Option.some.inj h2)).2
      obtain rfl := edXY_inj hx hy.symm
      rfl
    · rintro ⟨⟨x, g⟩, p, hp, hB⟩
      obtain ⟨h1, h2, h3⟩ := (edPointFromX_iff hsq _ _ _).mp hp
      obtain ⟨ex, ey⟩ := edOfXY_spec h2
      refine ⟨⟨⟨edOfXY p, hB⟩, ⟨g, ?_⟩⟩, ?_⟩
      · simp only
        rw [ey]
        exact h3
      · apply Subtype.ext
        change (edX (edOfXY p), g) = (x, g)
        rw [ex, h1]
  have hfin := Fintype.ofFinite {Q : EdPoint // edClear Q = B}
  rw [← Nat.card_congr (Equiv.ofBijective f hb), Nat.card_sigma,
    sum_congr rfl fun Q _ => card_flag (edY Q.1)]
  have hsplit : ∀ Q : {Q : EdPoint // edClear Q = B},
      (if edY Q.1 = 0 then 2 else 1) = 1 + if edY Q.1 = 0 then 1 else 0 := by
    intro Q; split <;> rfl
  rw [sum_congr rfl fun Q _ => hsplit Q, sum_add_distrib, sum_const, smul_eq_mul, mul_one, card_univ,
    ← Nat.card_eq_fintype_card, card_clear, sum_boole, Nat.cast_id]
  by_cases hB : B = 0
  · rw [if_pos hB]
    have e : Nat.card {Q : {Q : EdPoint // edClear Q = B} // edY Q.1 = 0} = 2 := by
      rw [← card_y_zero]
      refine Nat.card_congr ⟨fun Q => ⟨Q.1.1, Q.2⟩, fun Q => ⟨⟨Q.1, by rw [hB]; exact ed_clear_y_zero Q.2⟩, Q.2⟩,
        fun _ => rfl, fun _ => rfl⟩
    rw [Nat.card_eq_fintype_card, Fintype.card_subtype] at e
    rw [e]
  · rw [if_neg hB, filter_false_of_mem, card_empty]
    intro Q _ hy
    exact hB (Q.2.symm.trans (ed_clear_y_zero hy))

/-! ## The draws -/

theorem samplePoint_last {sqrt : Fq → Option Fq} {w : ℕ → ℕ} {pos p : ℕ} {x : Fq}
    (h : sampleFq w 1 pos = some (x, p)) :
    samplePoint sqrt w 1 pos = (edPointFromX sqrt x (decide (2 ^ 31 ≤ w p))).map fun r => (r, p + 1) := by
  rw [samplePoint, h, Option.bind_some]
  cases edPointFromX sqrt x (decide (2 ^ 31 ≤ w p)) with
  | none => rfl
  | some r => rfl

theorem sampleFq_one (w : ℕ → ℕ) (pos : ℕ) : sampleFq w 1 pos =
    if fqCandidate w pos < FQ_MODULUS then some ((fqCandidate w pos : Fq) / 2 ^ 384, pos + 12) else none := by
  rw [sampleFq]
  rfl

theorem samplePoint_one (sqrt : Fq → Option Fq) (w : ℕ → ℕ) (r : (Fq × Fq) × ℕ) :
    samplePoint sqrt w 1 0 = some r ↔ fqCandidate w 0 < FQ_MODULUS ∧
      edPointFromX sqrt ((fqCandidate w 0 : Fq) / 2 ^ 384) (decide (2 ^ 31 ≤ w 12)) = some r.1 ∧ r.2 = 13 := by
  have h1 := sampleFq_one w 0
  by_cases h : fqCandidate w 0 < FQ_MODULUS
  · rw [if_pos h] at h1
    rw [samplePoint_last h1, Nat.zero_add, Option.map_eq_some_iff]
    generalize edPointFromX sqrt ((fqCandidate w 0 : Fq) / 2 ^ 384) (decide (2 ^ 31 ≤ w 12)) = o
    constructor
    · rintro ⟨a, ha, rfl⟩
      exact ⟨h, ha, rfl⟩
    · rintro ⟨-, ha, hr⟩
      exact ⟨_, ha, Prod.ext rfl hr.symm⟩
  · rw [if_neg h] at h1
    rw [samplePoint, h1, Option.bind_none]
    constructor
    · intro h'; cases h'
    · exact fun h' => absurd h'.1 h

/-- The value whose quotient by the Montgomery factor is given. -/
theorem montgomery_unique (x : Fq) : ∃ v < FQ_MODULUS, ∀ c < FQ_MODULUS, ((c : Fq) / 2 ^ 384 = x ↔ c = v) := by
  have h2 : (2 : Fq) ^ 384 ≠ 0 := pow_ne_zero _ ed_two_ne_zero
  refine ⟨(x * 2 ^ 384).val, ZMod.val_lt _, fun c hc => ?_⟩
  rw [div_eq_iff h2]
  constructor
  · intro h
    rw [← h, ZMod.val_cast_of_lt hc]
  · intro h
    rw [h, ZMod.natCast_val, ZMod.cast_id]

theorem card_draw (t : Fq × Bool) :
    Nat.card {d : (Fin 12 → Fin (2 ^ 32)) × Fin (2 ^ 32) // fqCandidate (drawWords d.1 d.2) 0 < FQ_MODULUS ∧
      ((fqCandidate (drawWords d.1 d.2) 0 : Fq) / 2 ^ 384, decide (2 ^ 31 ≤ d.2.val)) = t} = 2 ^ 38 := by
  obtain ⟨x, b⟩ := t
  obtain ⟨v, hv, hu⟩ := montgomery_unique x
  have hcand : ∀ f g, fqCandidate (drawWords f g) 0 = fqCandidate (drawWords f 0) 0 := by
    intro f g
    rw [candidate_eq, candidate_eq]
  have e : Nat.card ({f : Fin 12 → Fin (2 ^ 32) // fqCandidate (drawWords f 0) 0 = v} ×
      {g : Fin (2 * 2 ^ 31) // decide (2 ^ 31 ≤ g.val) = b}) = 2 ^ 38 := by
    rw [Nat.card_prod, card_candidate 0 v (hv.trans (by decide +kernel)), card_half, ← pow_add]
  rw [← e]
  have h32 : 2 * 2 ^ 31 = 2 ^ 32 := rfl
  refine Nat.card_congr ⟨fun d => (⟨d.1.1, ?_⟩, ⟨d.1.2, ?_⟩), fun d => ⟨(d.1.1, d.2.1), ?_, ?_⟩, fun _ => rfl, fun _ => rfl⟩
  · rw [← hcand d.1.1 d.1.2]
    exact (hu _ d.2.1).mp (Prod.mk.inj d.2.2).1
  · exact (Prod.mk.inj d.2.2).2
  · simp only
    rw [hcand, d.1.2]; exact hv
  · simp only
    rw [hcand, d.1.2]
    exact Prod.ext ((hu v hv).mpr rfl) d.2.2

theorem card_over {D T : Type*} [Finite D] [Finite T] (P : T → Prop) (Q : D → Prop) (φ : D → T) (n : ℕ)
    (h : ∀ t, Nat.card {d // Q d ∧ φ d = t} = n) :
    Nat.card {d // Q d ∧ P (φ d)} = Nat.card {t // P t} * n := by
  have hfin := Fintype.ofFinite {t // P t}
  let f : {d // Q d ∧ P (φ d)} → {t // P t} := fun d => ⟨φ d.1, d.2.2⟩
  rw [← Nat.card_congr (Equiv.sigmaFiberEquiv f), Nat.card_sigma, sum_congr rfl (g := fun _ => n),
    sum_const, smul_eq_mul, card_univ, ← Nat.card_eq_fintype_card]
  intro t _
  rw [← h t.1]
  refine Nat.card_congr ⟨fun d => ⟨d.1.1, d.1.2.1, congrArg Subtype.val d.2⟩,
    fun d => ⟨⟨d.1, d.2.1, by rw [d.2.2]; exact t.2⟩, Subtype.ext d.2.2⟩, fun _ => rfl, fun _ => rfl⟩

open Classical in
theorem card_draws {sqrt : Fq → Option Fq} (hsq : SqrtSpec sqrt) (B : edSubgroup) :
    Nat.card {d : (Fin 12 → Fin (2 ^ 32)) × Fin (2 ^ 32) // ∃ p pos,
      samplePoint sqrt (drawWords d.1 d.2) 1 0 = some (p, pos) ∧ edClear (edOfXY p) = B} =
      2 ^ 38 * if B = 0 then 10 else 8 := by
  have h12 : ∀ (f : Fin 12 → Fin (2 ^ 32)) (g : Fin (2 ^ 32)), drawWords f g 12 = g.val := by
    intro f g
    unfold drawWords
    rw [dif_neg (by decide)]
  rw [mul_comm, ← card_pairs hsq, ← card_over (PairGives sqrt B)
    (fun d : (Fin 12 → Fin (2 ^ 32)) × Fin (2 ^ 32) => fqCandidate (drawWords d.1 d.2) 0 < FQ_MODULUS)
    (fun d => ((fqCandidate (drawWords d.1 d.2) 0 : Fq) / 2 ^ 384, decide (2 ^ 31 ≤ d.2.val))) (2 ^ 38) card_draw]
  refine Nat.card_congr (Equiv.subtypeEquivRight fun d => ?_)
  constructor
  · rintro ⟨p, pos, h, hB⟩
    obtain ⟨h1, h2, -⟩ := (samplePoint_one _ _ _).mp h
    rw [h12] at h2
    exact ⟨h1, p, h2, hB⟩
  · rintro ⟨h1, p, h2, hB⟩
    refine ⟨p, 13, (samplePoint_one _ _ _).mpr ⟨h1, ?_, rfl⟩, hB⟩
    rw [h12]
    exact h2

end Verif
