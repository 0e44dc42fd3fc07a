import Verif.Lemmas.Sampling
import Verif.Lemmas.Ecpp

/-! Sums of multiples of points of the Edwards curve, in projective coordinates on natural numbers, for
evaluation (helper; models nothing in /repo). -/

set_option exponentiation.threshold 1000

namespace Verif

/-- Addition on the Edwards curve in projective coordinates. -/
def edProjAdd (p q : ℕ × ℕ × ℕ) : ℕ × ℕ × ℕ :=
  let a := p.2.2 * q.2.2 % FQ_MODULUS
  let b := a * a % FQ_MODULUS
  let c := p.1 * q.1 % FQ_MODULUS
  let d := p.2.1 * q.2.1 % FQ_MODULUS
  let e := 79743 * (c * d) % FQ_MODULUS
  let f := b + FQ_MODULUS - e
  let g := b + e
  let h := (p.1 * q.2.1 + p.2.1 * q.1) % FQ_MODULUS
  (a * f * h % FQ_MODULUS, a * g * (c + d) % FQ_MODULUS, f * g % FQ_MODULUS)

/-- Projective coordinates of a point. -/
def EdRep (p : ℕ × ℕ × ℕ) (P : EdPoint) : Prop :=
  (p.2.2 : Fq) ≠ 0 ∧ (p.1 : Fq) = edX P * p.2.2 ∧ (p.2.1 : Fq) = edY P * p.2.2

theorem edProjAdd_spec {p q : ℕ × ℕ × ℕ} {P Q : EdPoint} (hp : EdRep p P) (hq : EdRep q Q) :
    EdRep (edProjAdd p q) (P + Q) := by
  obtain ⟨X, Y, Z⟩ := p
  obtain ⟨X', Y', Z'⟩ := q
  obtain ⟨hz, hx, hy⟩ := hp
  obtain ⟨hz', hx', hy'⟩ := hq
  have hM : ((FQ_MODULUS : ℕ) : Fq) = 0 := ZMod.natCast_self _
  obtain ⟨n1, n2⟩ := ed_complete P Q
  obtain ⟨a1, a2⟩ := ed_add P Q
  simp only at hz hx hy hz' hx' hy'
  have hle : 79743 * (X * X' % FQ_MODULUS * (Y * Y' % FQ_MODULUS)) % FQ_MODULUS ≤
      Z * Z' % FQ_MODULUS * (Z * Z' % FQ_MODULUS) % FQ_MODULUS + FQ_MODULUS :=
    (Nat.mod_lt _ (by decide +kernel)).le.trans (Nat.le_add_left _ _)
  have hd : (79743 : Fq) = ED_D := rfl
  unfold EdRep edProjAdd
  simp only [Nat.cast_add, Nat.cast_mul, cast_mod hM, Nat.cast_sub hle, hM, Nat.cast_ofNat, add_zero,
    hx, hy, hx', hy', hd]
  refine ⟨?_, ?_, ?_⟩
  · intro e
    have : ((Z : Fq) * Z') ^ 4 * ((1 - ED_D * edX P * edX Q * edY P * edY Q) *
        (1 + ED_D * edX P * edX Q * edY P * edY Q)) = 0 := by linear_combination e
    exact mul_ne_zero (pow_ne_zero 4 (mul_ne_zero hz hz')) (mul_ne_zero n2 n1) this
  · linear_combination -((Z : Fq) * Z') ^ 4 * (1 - ED_D * edX P * edX Q * edY P * edY Q) * a1
  · linear_combination -((Z : Fq) * Z') ^ 4 * (1 + ED_D * edX P * edX Q * edY P * edY Q) * a2

/-- Add the points whose scalar has bit `j`.  (The test makes the kernel evaluate every step.) -/
def edMultiAdd (j : ℕ) : List (ℕ × (ℕ × ℕ × ℕ)) → ℕ × ℕ × ℕ → ℕ × ℕ × ℕ
  | [], acc => acc
  | t :: ts, acc =>
    bif Nat.testBit t.1 j then
      let e := edProjAdd acc t.2
      bif Nat.beq e.2.2 0 then (0, 0, 0) else edMultiAdd j ts e
    else edMultiAdd j ts acc

/-- The sum of the multiples by the lower `n` bits of the scalars. -/
def edMulti (ts : List (ℕ × (ℕ × ℕ × ℕ))) : ℕ → ℕ × ℕ × ℕ → ℕ × ℕ × ℕ
  | 0, acc => acc
  | j + 1, acc => edMulti ts j (edMultiAdd j ts (edProjAdd acc acc))

theorem edRep_z {p : ℕ × ℕ × ℕ} {P : EdPoint} (h : EdRep p P) : Nat.beq p.2.2 0 = false := by
  rw [Bool.eq_false_iff]
  intro e
  have e := Nat.eq_of_beq_eq_true e
  have := h.1
  rw [e] at this
  exact this Nat.cast_zero

theorem edMultiAdd_spec (j : ℕ) (l : List ((ℕ × (ℕ × ℕ × ℕ)) × EdPoint))
    (hl : ∀ t ∈ l, EdRep t.1.2 t.2) (acc : ℕ × ℕ × ℕ) (A : EdPoint) (ha : EdRep acc A) :
    EdRep (edMultiAdd j (l.map Prod.fst) acc)
      (A + (l.map fun t => (t.1.1.testBit j).toNat • t.2).sum) := by
  induction l generalizing acc A with
  | nil => simpa [edMultiAdd] using ha
  | cons t l ih =>
    have hl' := fun t ht => hl t (List.mem_cons_of_mem _ ht)
    rw [List.map_cons, edMultiAdd, List.map_cons, List.sum_cons, ← add_assoc]
    cases hb : t.1.1.testBit j
    · rw [cond_false, Bool.toNat_false, zero_nsmul, add_zero]
      exact ih hl' acc A ha
    · rw [cond_true, Bool.toNat_true, one_nsmul]
      have hs := edProjAdd_spec ha (hl t List.mem_cons_self)
      simp only []
      rw [edRep_z hs, cond_false]
      exact ih hl' _ _ hs

theorem multi_step {M α : Type*} [AddCommMonoid M] (n : ℕ) (c : α → ℕ) (p : α → M) (A : M) (l : List α) :
    2 ^ (n + 1) • A + (l.map fun t => (c t % 2 ^ (n + 1)) • p t).sum =
      2 ^ n • (A + A + (l.map fun t => ((c t).testBit n).toNat • p t).sum) +
        (l.map fun t => (c t % 2 ^ n) • p t).sum := by
  induction l with
  | nil =>
    simp only [List.map_nil, List.sum_nil, add_zero]
    rw [pow_succ, mul_nsmul', two_nsmul]
  | cons t l ih =>
    simp only [List.map_cons, List.sum_cons]
    rw [add_left_comm, ih, Nat.mod_pow_succ, ← Nat.toNat_testBit, add_nsmul, mul_nsmul', nsmul_add,
      nsmul_add (A + A)]
    simp only [nsmul_add]
    abel

theorem edMulti_spec (n : ℕ) (l : List ((ℕ × (ℕ × ℕ × ℕ)) × EdPoint))
    (hl : ∀ t ∈ l, EdRep t.1.2 t.2) (acc : ℕ × ℕ × ℕ) (A : EdPoint) (ha : EdRep acc A) :
    EdRep (edMulti (l.map Prod.fst) n acc)
      (2 ^ n • A + (l.map fun t => (t.1.1 % 2 ^ n) • t.2).sum) := by
  induction n generalizing acc A with
  | zero => simpa [edMulti, Nat.mod_one] using ha
  | succ n ih =>
    rw [edMulti]
    have := ih _ _ (edMultiAdd_spec n l hl _ _ (edProjAdd_spec ha ha))
    rw [multi_step]
    exact this

end Verif
