import Verif.Lemmas.DigestCount
import Verif.Props.HashGadget
import Mathlib.Data.Set.Finite.List

/-!
# Properties C76 and C77: the order of G1 and the distribution of hashing to it
-/

set_option exponentiation.threshold 100000
set_option linter.unusedSectionVars false

namespace Verif

open WeierstrassCurve

/-! ## C76 -/

/-- C76: the curve group of G1 has cofactor times `r` elements. -/
theorem C76_order : Nat.card G1Point = G1_COFACTOR * FR_MODULUS := g1_card

/-- C76: clearing the cofactor of any point, on the curve or not, gives an element killed by `r`. -/
theorem C76_scaled (Q : AffinePoint Fq) : FR_MODULUS • g1Scale Q = 0 := by
  cases Q with
  | infinity => exact nsmul_zero _
  | finite x y =>
    by_cases h : g1Curve.Nonsingular x y
    · simp only [g1Scale, dif_pos h]
      exact nsmul_nsmul_card g1_card _
    · simp only [g1Scale, dif_neg h]
      exact nsmul_zero _

/-- C76: the elements killed by `r` are exactly the cofactor multiples, there are `r` of them, and
every one except zero generates them all. -/
theorem C76_subgroup :
    (∀ P : G1Point, FR_MODULUS • P = 0 ↔ ∃ Q, G1_COFACTOR • Q = P) ∧
    {P : G1Point | FR_MODULUS • P = 0}.ncard = FR_MODULUS ∧
    ∀ g P : G1Point, FR_MODULUS • g = 0 → g ≠ 0 → FR_MODULUS • P = 0 → ∃ k < FR_MODULUS, P = k • g :=
  ⟨killed_iff_scaled g1_card cofactor_coprime FR_prime.one_lt,
    ncard_killed g1_card cofactor_coprime FR_prime,
    fun _ _ hg h0 hP => killed_generated g1_card cofactor_coprime FR_prime hg h0 hP⟩

/-- C76: `h` points are mapped to every element of the subgroup by clearing the cofactor. -/
theorem C76_fibre {g : G1Point} (hg : FR_MODULUS • g = 0) :
    {P : G1Point | G1_COFACTOR • P = g}.ncard = G1_COFACTOR :=
  ncard_fibre g1_card cofactor_coprime FR_prime hg

theorem order_of_yields {compat : Bool} {d : Bytes} {g : G1Point} (h : Yields compat g1Scale d g) :
    addOrderOf g = FR_MODULUS := by
  obtain ⟨_, h0, P, _, rfl⟩ := h
  have := Fact.mk FR_prime
  exact addOrderOf_eq_prime (C76_scaled P) h0

/-- C76: whatever `hash_with_attempt` returns has order exactly `r`, for every hasher. -/
theorem C76_hash [DecidableEq G1Point] (compat : Bool) (h : Hasher) {sqrt : Fq → Option Fq}
    (hs : SqrtSpec sqrt) (domain message extra : Bytes) (g : G1Point) (c : ℕ)
    (hh : hashWithAttempt compat h sqrt g1Scale domain message extra = .ok (g, c)) :
    addOrderOf g = FR_MODULUS := by
  obtain ⟨_, ⟨d, _, hy⟩, _⟩ := (C18_ok_iff compat h hs g1Scale _ _ _ g c).mp hh
  exact order_of_yields hy

/-- C76: the same for `hash_with_attempt_cip22`. -/
theorem C76_hash_cip22 [DecidableEq G1Point] (compat : Bool) (h : Hasher) {sqrt : Fq → Option Fq}
    (hs : SqrtSpec sqrt) (domain message extra : Bytes) (g : G1Point) (c : ℕ)
    (hh : hashWithAttemptCip22 compat h sqrt g1Scale domain message extra = .ok (g, c)) :
    addOrderOf g = FR_MODULUS := by
  obtain ⟨_, _, _, ⟨d, _, hy⟩, _⟩ := (C19_ok_iff compat h hs g1Scale _ _ _ g c).mp hh
  exact order_of_yields hy

/-- C76: in the circuit, whatever the allocated point is, the returned hash is killed by `r`; so
every assignment of `hash_to_group`, satisfying or not, hashes into the subgroup. -/
theorem C76_circuit (alloc : G1Var → Prop) (compat : Bool) (xof : List Bool) (hl : 384 ≤ xof.length)
    (w : GroupVars) (sat : Prop) (g : G1Point) (h : hashToGroup alloc compat xof w = .ok (sat, g)) :
    FR_MODULUS • g = 0 := by
  obtain ⟨sat', h', _⟩ := hashToGroup_ok alloc compat xof hl w
  rw [h'] at h
  simp only [Outcome.ok.injEq, Prod.mk.injEq] at h
  rw [← h.2]
  exact nsmul_nsmul_card g1_card _

/-- Without clearing the cofactor the claim would be false: a point of the curve outside. -/
example : ∃ P : G1Point, FR_MODULUS • P ≠ 0 := ⟨onePoint, onePoint_outside⟩

/-- The subgroup is not trivial. -/
example : ∃ g : G1Point, FR_MODULUS • g = 0 ∧ g ≠ 0 :=
  ⟨G1_COFACTOR • onePoint, g1Sub_order, cofactor_onePoint_ne.1⟩

/-! ## C77 -/

/-- C77: every non-zero element of the subgroup is yielded by the same number of 64-byte digests. -/
theorem C77_attempt_uniform (compat : Bool) {g : G1Point} (hg : FR_MODULUS • g = 0) (h0 : g ≠ 0) :
    {d : Bytes | d.length = 64 ∧ Yields compat g1Scale d g}.ncard = G1_COFACTOR * 2 ^ 134 :=
  ncard_yields compat hg h0

/-- The number of useless digests. -/
def uselessCount : ℕ := 2 ^ 512 - G1_COFACTOR * (FR_MODULUS - 1) * 2 ^ 134

theorem finite_digests (p : Bytes → Prop) : {d : Bytes | d.length = 64 ∧ p d}.Finite :=
  (List.finite_length_eq UInt8 64).subset fun _ h => h.1

theorem ncard_digests : {d : Bytes | d.length = 64}.ncard = 2 ^ 512 := by
  have h := ncard_bytes 64 fun _ => True
  simp only [and_true] at h
  rw [h, show (256 : ℕ) ^ 64 = 2 ^ 512 by norm_num]
  have e : {N : ℕ | N < 2 ^ 512} = (Finset.range (2 ^ 512) : Set ℕ) := by
    rw [Finset.coe_range]; rfl
  rw [e, Set.ncard_coe_finset, Finset.card_range]

theorem yields_unique {compat : Bool} {d : Bytes} {g g' : G1Point} (h : Yields compat g1Scale d g)
    (h' : Yields compat g1Scale d g') : g = g' := by
  obtain ⟨_, _, P, hP, rfl⟩ := h
  obtain ⟨_, _, P', hP', rfl⟩ := h'
  rw [decodes_unique hP hP']

theorem useless_or_yields (compat : Bool) {d : Bytes} (hd : d.length = 64) :
    Useless compat g1Scale d ↔ ¬ ∃ g, Yields compat g1Scale d g := by
  constructor
  · rintro ⟨_, h⟩ ⟨g, _, h0, P, hP, rfl⟩
    exact h0 (h P hP)
  · intro h
    refine ⟨by omega, fun P hP => ?_⟩
    by_contra h0
    exact h ⟨_, by omega, h0, P, hP, rfl⟩

theorem ncard_nonzero : {g : G1Point | FR_MODULUS • g = 0 ∧ g ≠ 0}.ncard = FR_MODULUS - 1 := by
  have e : {g : G1Point | FR_MODULUS • g = 0 ∧ g ≠ 0} = {g : G1Point | FR_MODULUS • g = 0} \ {0} := by
    ext g
    rfl
  have hz : (0 : G1Point) ∈ {g : G1Point | FR_MODULUS • g = 0} := nsmul_zero _
  rw [e, Set.ncard_sdiff_singleton_of_mem hz, ncard_killed g1_card cofactor_coprime FR_prime]

theorem ncard_useful (compat : Bool) :
    {d : Bytes | d.length = 64 ∧ ∃ g, Yields compat g1Scale d g}.ncard =
      (FR_MODULUS - 1) * (G1_COFACTOR * 2 ^ 134) := by
  classical
  have hT : {g : G1Point | FR_MODULUS • g = 0 ∧ g ≠ 0}.Finite := Set.toFinite _
  have hU := finite_digests fun d => ∃ g, Yields compat g1Scale d g
  let f : Bytes → G1Point := fun d =>
    if h : ∃ g, Yields compat g1Scale d g then h.choose else 0
  have hf : ∀ d g, Yields compat g1Scale d g → f d = g := by
    intro d g h
    have hex : ∃ g, Yields compat g1Scale d g := ⟨g, h⟩
    simp only [f, dif_pos hex]
    exact yields_unique hex.choose_spec h
  rw [← ncard_nonzero, Set.ncard_eq_toFinset_card _ hU, Set.ncard_eq_toFinset_card _ hT,
    Finset.card_eq_sum_card_fiberwise (f := f) (t := hT.toFinset) ?_,
    Finset.sum_const_nat (m := G1_COFACTOR * 2 ^ 134)]
  · intro g hg
    obtain ⟨hg1, hg2⟩ := hT.mem_toFinset.mp hg
    rw [← Set.ncard_coe_finset]
    refine Eq.trans (congrArg Set.ncard (Set.ext fun d => ?_)) (ncard_yields compat hg1 hg2)
    simp only [Finset.coe_filter, Set.Finite.mem_toFinset, Set.mem_ofPred_eq]
    constructor
    · rintro ⟨⟨h1, g', h2⟩, h3⟩
      rw [hf d g' h2] at h3
      exact ⟨h1, h3 ▸ h2⟩
    · rintro ⟨h1, h2⟩
      exact ⟨⟨h1, g, h2⟩, hf d g h2⟩
  · intro d hd
    simp only [Set.Finite.coe_toFinset] at hd ⊢
    obtain ⟨_, g, h⟩ := hd
    rw [hf d g h]
    obtain ⟨_, h0, P, _, rfl⟩ := h
    exact ⟨C76_scaled P, h0⟩

/-- C77: the exact number of digests on which an attempt is wasted. -/
theorem C77_useless_count (compat : Bool) :
    {d : Bytes | d.length = 64 ∧ Useless compat g1Scale d}.ncard =
      2 ^ 512 - G1_COFACTOR * (FR_MODULUS - 1) * 2 ^ 134 := by
  have hsub : {d : Bytes | d.length = 64 ∧ ∃ g, Yields compat g1Scale d g} ⊆
      {d : Bytes | d.length = 64} := fun _ h => h.1
  have e : {d : Bytes | d.length = 64 ∧ Useless compat g1Scale d} =
      {d : Bytes | d.length = 64} \
        {d : Bytes | d.length = 64 ∧ ∃ g, Yields compat g1Scale d g} := by
    ext d
    simp only [Set.mem_sdiff, Set.mem_ofPred_eq]
    constructor
    · rintro ⟨h1, h2⟩
      exact ⟨h1, fun h => (useless_or_yields compat h1).mp h2 h.2⟩
    · rintro ⟨h1, h2⟩
      exact ⟨h1, (useless_or_yields compat h1).mpr fun h => h2 ⟨h1, h⟩⟩
  rw [e, Set.ncard_sdiff hsub (finite_digests _), ncard_digests, ncard_useful]
  generalize 2 ^ 134 = a
  generalize 2 ^ 512 = b
  rw [mul_comm (FR_MODULUS - 1), mul_right_comm]

/-- C77: fewer than 58 in a hundred digests are wasted. -/
theorem C77_useless_fraction :
    100 * (2 ^ 512 - G1_COFACTOR * (FR_MODULUS - 1) * 2 ^ 134) < 58 * 2 ^ 512 := by
  decide +kernel

theorem ncard_tables (t : Fin 255 → Bytes → Prop) :
    {f : Fin 255 → Bytes | ∀ i, (f i).length = 64 ∧ t i (f i)}.ncard =
      ∏ i, {d : Bytes | d.length = 64 ∧ t i d}.ncard := by
  classical
  have e : {f : Fin 255 → Bytes | ∀ i, (f i).length = 64 ∧ t i (f i)} =
      (Fintype.piFinset fun i => (finite_digests (t i)).toFinset : Set (Fin 255 → Bytes)) := by
    ext f
    simp only [Set.mem_ofPred_eq, Finset.mem_coe, Fintype.mem_piFinset, Set.Finite.mem_toFinset]
  rw [e, Set.ncard_coe_finset, Fintype.card_piFinset]
  exact Finset.prod_congr rfl fun i _ => (Set.ncard_eq_toFinset_card _ _).symm

/-- Counting: failures below `c`, success at `c`, anything after. -/
theorem ncard_first (compat : Bool) {g : G1Point} (hg : FR_MODULUS • g = 0) (h0 : g ≠ 0)
    (c : Fin 255) :
    {f : Fin 255 → Bytes | (∀ i, (f i).length = 64) ∧ Yields compat g1Scale (f c) g ∧
      ∀ i < c, Useless compat g1Scale (f i)}.ncard =
      uselessCount ^ (c : ℕ) * (G1_COFACTOR * 2 ^ 134) * (2 ^ 512) ^ (254 - (c : ℕ)) := by
  classical
  have e : {f : Fin 255 → Bytes | (∀ i, (f i).length = 64) ∧ Yields compat g1Scale (f c) g ∧
      ∀ i < c, Useless compat g1Scale (f i)} =
      {f : Fin 255 → Bytes | ∀ i, (f i).length = 64 ∧
        (i < c → Useless compat g1Scale (f i)) ∧ (i = c → Yields compat g1Scale (f i) g)} := by
    ext f
    simp only [Set.mem_ofPred_eq]
    constructor
    · rintro ⟨h1, h2, h3⟩ i
      exact ⟨h1 i, h3 i, fun hi => hi ▸ h2⟩
    · intro h
      exact ⟨fun i => (h i).1, (h c).2.2 rfl, fun i hi => (h i).2.1 hi⟩
  rw [e, ncard_tables fun i d => (i < c → Useless compat g1Scale d) ∧
    (i = c → Yields compat g1Scale d g)]
  have hcard : ∀ i : Fin 255, {d : Bytes | d.length = 64 ∧ (i < c → Useless compat g1Scale d) ∧
      (i = c → Yields compat g1Scale d g)}.ncard =
      if i < c then uselessCount else if i = c then G1_COFACTOR * 2 ^ 134 else 2 ^ 512 := by
    intro i
    split
    · rename_i hi
      have hne : i ≠ c := ne_of_lt hi
      refine Eq.trans (congrArg Set.ncard (Set.ext fun d => ?_)) (C77_useless_count compat)
      simp only [Set.mem_ofPred_eq, hi, hne, forall_const, IsEmpty.forall_iff, and_true]
    · rename_i hi
      split
      · rename_i hic
        refine Eq.trans (congrArg Set.ncard (Set.ext fun d => ?_)) (ncard_yields compat hg h0)
        simp [hic]
      · rename_i hic
        refine Eq.trans (congrArg Set.ncard (Set.ext fun d => ?_)) ncard_digests
        simp only [Set.mem_ofPred_eq, hi, hic, IsEmpty.forall_iff, and_true]
  simp only [hcard]
  have hprod : ∀ (U Y N : ℕ) (n : ℕ) (c : Fin n),
      (∏ i : Fin n, if i < c then U else if i = c then Y else N) =
        U ^ (c : ℕ) * Y * N ^ (n - 1 - (c : ℕ)) := by
    intro U Y N n
    induction n with
    | zero => exact fun c => c.elim0
    | succ n ih =>
      intro c
      rw [Fin.prod_univ_succ]
      rcases Fin.eq_zero_or_eq_succ c with rfl | ⟨c, rfl⟩
      · have : ∀ i : Fin n, (if i.succ < (0 : Fin (n + 1)) then U
            else if i.succ = (0 : Fin (n + 1)) then Y else N) = N := by
          intro i
          rw [if_neg (by simp), if_neg (Fin.succ_ne_zero i)]
        simp only [this, Finset.prod_const, Finset.card_univ, Fintype.card_fin]
        simp
      · have : ∀ i : Fin n, (if i.succ < c.succ then U else if i.succ = c.succ then Y else N) =
            if i < c then U else if i = c then Y else N := by
          intro i
          simp only [Fin.succ_lt_succ_iff, Fin.succ_inj]
        simp only [this, ih c]
        rw [if_pos (Fin.succ_pos c)]
        have hlt := c.isLt
        have hsub : n + 1 - 1 - (c.succ : ℕ) = n - 1 - (c : ℕ) := by
          rw [Fin.val_succ]; omega
        rw [hsub, Fin.val_succ, pow_succ]
        ring
  exact hprod _ _ _ 255 c

section
variable [DecidableEq G1Point] {sqrt : Fq → Option Fq}

/-- A family of hashers answering the 255 attempts from a table of digests: the first-generation
hash asks for `CRH` and `XOF` of counter, extra data and message. -/
def AnswersDirect (H : (Fin 255 → Bytes) → Hasher) (domain message extra : Bytes) : Prop :=
  ∀ f, ∀ c : Fin 255, (H f).hash domain (UInt8.ofNat c :: (extra ++ message)) 64 = .ok (f c)

/-- The same for the CIP22 hash, which compresses the message first. -/
def AnswersCip22 (H : (Fin 255 → Bytes) → Hasher) (domain message extra : Bytes) : Prop :=
  ∀ f, ∃ inner, (H f).crh domain message 64 = .ok inner ∧
    ∀ c : Fin 255, (H f).xof domain (UInt8.ofNat c :: (extra ++ inner)) 64 = .ok (f c)

/-- C77: over all tables of digests, `hash_with_attempt` returns every non-zero element of the
subgroup at attempt `c` equally often, and how often. -/
theorem C77_result_count (compat : Bool) (hs : SqrtSpec sqrt) (H : (Fin 255 → Bytes) → Hasher)
    (domain message extra : Bytes) (hH : AnswersDirect H domain message extra) {g : G1Point}
    (hg : FR_MODULUS • g = 0) (h0 : g ≠ 0) (c : Fin 255) :
    {f : Fin 255 → Bytes | (∀ i, (f i).length = 64) ∧
      hashWithAttempt compat (H f) sqrt g1Scale domain message extra = .ok (g, (c : ℕ))}.ncard =
      (2 ^ 512 - G1_COFACTOR * (FR_MODULUS - 1) * 2 ^ 134) ^ (c : ℕ) * (G1_COFACTOR * 2 ^ 134) *
        (2 ^ 512) ^ (254 - (c : ℕ)) := by
  refine Eq.trans (congrArg Set.ncard (Set.ext fun f => ?_)) (ncard_first compat hg h0 c)
  simp only [Set.mem_ofPred_eq]
  refine and_congr_right fun hl => ?_
  rw [C18_ok_iff compat (H f) hs g1Scale domain message extra g c]
  constructor
  · rintro ⟨_, ⟨d, hd, hy⟩, h3⟩
    rw [hH f c, Outcome.ok.injEq] at hd
    refine ⟨hd ▸ hy, fun i hi => ?_⟩
    obtain ⟨d', hd', hu⟩ := h3 i hi
    rw [hH f i, Outcome.ok.injEq] at hd'
    exact hd' ▸ hu
  · rintro ⟨h1, h2⟩
    exact ⟨c.isLt, ⟨_, hH f c, h1⟩, fun c' hc' =>
      ⟨_, hH f ⟨c', hc'.trans c.isLt⟩, h2 ⟨c', hc'.trans c.isLt⟩ hc'⟩⟩

/-- C77: the same for `hash_with_attempt_cip22`. -/
theorem C77_result_count_cip22 (compat : Bool) (hs : SqrtSpec sqrt)
    (H : (Fin 255 → Bytes) → Hasher) (domain message extra : Bytes)
    (hH : AnswersCip22 H domain message extra) {g : G1Point}
    (hg : FR_MODULUS • g = 0) (h0 : g ≠ 0) (c : Fin 255) :
    {f : Fin 255 → Bytes | (∀ i, (f i).length = 64) ∧
      hashWithAttemptCip22 compat (H f) sqrt g1Scale domain message extra =
        .ok (g, (c : ℕ))}.ncard =
      (2 ^ 512 - G1_COFACTOR * (FR_MODULUS - 1) * 2 ^ 134) ^ (c : ℕ) * (G1_COFACTOR * 2 ^ 134) *
        (2 ^ 512) ^ (254 - (c : ℕ)) := by
  refine Eq.trans (congrArg Set.ncard (Set.ext fun f => ?_)) (ncard_first compat hg h0 c)
  simp only [Set.mem_ofPred_eq]
  refine and_congr_right fun hl => ?_
  rw [C19_ok_iff compat (H f) hs g1Scale domain message extra g c]
  obtain ⟨inner, hi, hx⟩ := hH f
  constructor
  · rintro ⟨inner', hi', _, ⟨d, hd, hy⟩, h3⟩
    rw [hi, Outcome.ok.injEq] at hi'
    subst hi'
    rw [hx c, Outcome.ok.injEq] at hd
    refine ⟨hd ▸ hy, fun i hi => ?_⟩
    obtain ⟨d', hd', hu⟩ := h3 i hi
    rw [hx i, Outcome.ok.injEq] at hd'
    exact hd' ▸ hu
  · rintro ⟨h1, h2⟩
    exact ⟨inner, hi, c.isLt, ⟨_, hx c, h1⟩, fun c' hc' =>
      ⟨_, hx ⟨c', hc'.trans c.isLt⟩, h2 ⟨c', hc'.trans c.isLt⟩ hc'⟩⟩

theorem ncard_all_useless (compat : Bool) :
    {f : Fin 255 → Bytes | (∀ i, (f i).length = 64) ∧
      ∀ i, Useless compat g1Scale (f i)}.ncard = uselessCount ^ 255 := by
  have e : {f : Fin 255 → Bytes | (∀ i, (f i).length = 64) ∧
      ∀ i, Useless compat g1Scale (f i)} =
      {f : Fin 255 → Bytes | ∀ i, (f i).length = 64 ∧ Useless compat g1Scale (f i)} := by
    ext f
    exact forall_and.symm
  rw [e, ncard_tables fun _ d => Useless compat g1Scale d]
  simp only [C77_useless_count, Finset.prod_const, Finset.card_univ, Fintype.card_fin]
  rfl

/-- C77: the number of tables on which `hash_with_attempt` fails. -/
theorem C77_failure_count (compat : Bool) (hs : SqrtSpec sqrt) (H : (Fin 255 → Bytes) → Hasher)
    (domain message extra : Bytes) (hH : AnswersDirect H domain message extra) :
    {f : Fin 255 → Bytes | (∀ i, (f i).length = 64) ∧
      ¬ (hashWithAttempt compat (H f) sqrt g1Scale domain message extra).isOk}.ncard =
      (2 ^ 512 - G1_COFACTOR * (FR_MODULUS - 1) * 2 ^ 134) ^ 255 := by
  refine Eq.trans (congrArg Set.ncard (Set.ext fun f => ?_)) (ncard_all_useless compat)
  simp only [Set.mem_ofPred_eq]
  refine and_congr_right fun hl => ?_
  cases hr : hashWithAttempt compat (H f) sqrt g1Scale domain message extra with
  | ok v =>
    obtain ⟨g, c⟩ := v
    obtain ⟨hc, ⟨d, hd, hy⟩, _⟩ := (C18_ok_iff compat (H f) hs g1Scale _ _ _ g c).mp hr
    have hd' := hH f ⟨c, hc⟩
    simp only at hd'
    rw [hd', Outcome.ok.injEq] at hd
    simp only [Outcome.isOk, not_true_eq_false, false_iff]
    intro h
    exact (useless_or_yields compat (hl _)).mp (h ⟨c, hc⟩) ⟨g, hd ▸ hy⟩
  | err e =>
    simp only [Outcome.isOk, Bool.false_eq_true, not_false_eq_true, true_iff]
    rcases (C18_err_iff compat (H f) hs g1Scale _ _ _ e).mp hr with ⟨c, hc, h, _⟩ | ⟨_, h⟩
    · have hd' := hH f ⟨c, hc⟩
      simp only at hd'
      rw [hd'] at h
      cases h
    · intro i
      obtain ⟨d, hd, hu⟩ := h i i.isLt
      rw [hH f i, Outcome.ok.injEq] at hd
      exact hd ▸ hu
  | panic =>
    exfalso
    obtain ⟨c, hc, h, _⟩ := (C18_panic_iff compat (H f) hs g1Scale _ _ _).mp hr
    have hd' := hH f ⟨c, hc⟩
    simp only at hd'
    rw [hd'] at h
    rcases h with h | ⟨d, h, hlt⟩
    · cases h
    · rw [Outcome.ok.injEq] at h
      have := hl ⟨c, hc⟩
      rw [h] at this
      omega

/-- C77: the same for `hash_with_attempt_cip22`. -/
theorem C77_failure_count_cip22 (compat : Bool) (hs : SqrtSpec sqrt)
    (H : (Fin 255 → Bytes) → Hasher) (domain message extra : Bytes)
    (hH : AnswersCip22 H domain message extra) :
    {f : Fin 255 → Bytes | (∀ i, (f i).length = 64) ∧
      ¬ (hashWithAttemptCip22 compat (H f) sqrt g1Scale domain message extra).isOk}.ncard =
      (2 ^ 512 - G1_COFACTOR * (FR_MODULUS - 1) * 2 ^ 134) ^ 255 := by
  refine Eq.trans (congrArg Set.ncard (Set.ext fun f => ?_)) (ncard_all_useless compat)
  simp only [Set.mem_ofPred_eq]
  refine and_congr_right fun hl => ?_
  obtain ⟨inner, hi, hx⟩ := hH f
  have hx' : ∀ c (hc : c < 255), (H f).xof domain (UInt8.ofNat c :: (extra ++ inner)) 64 =
      .ok (f ⟨c, hc⟩) := fun c hc => hx ⟨c, hc⟩
  cases hr : hashWithAttemptCip22 compat (H f) sqrt g1Scale domain message extra with
  | ok v =>
    obtain ⟨g, c⟩ := v
    obtain ⟨inner', hi', hc, ⟨d, hd, hy⟩, _⟩ :=
      (C19_ok_iff compat (H f) hs g1Scale _ _ _ g c).mp hr
    rw [hi, Outcome.ok.injEq] at hi'
    subst hi'
    rw [hx' c hc, Outcome.ok.injEq] at hd
    simp only [Outcome.isOk, not_true_eq_false, false_iff]
    intro h
    exact (useless_or_yields compat (hl _)).mp (h ⟨c, hc⟩) ⟨g, hd ▸ hy⟩
  | err e =>
    simp only [Outcome.isOk, Bool.false_eq_true, not_false_eq_true, true_iff]
    rcases (C19_err_iff compat (H f) hs g1Scale _ _ _ e).mp hr with h | ⟨inner', hi', h⟩
    · rw [hi] at h
      cases h
    · rw [hi, Outcome.ok.injEq] at hi'
      subst hi'
      rcases h with ⟨c, hc, h, _⟩ | ⟨_, h⟩
      · rw [hx' c hc] at h
        cases h
      · intro i
        obtain ⟨d, hd, hu⟩ := h i i.isLt
        rw [hx i, Outcome.ok.injEq] at hd
        exact hd ▸ hu
  | panic =>
    exfalso
    rcases (C19_panic_iff compat (H f) hs g1Scale _ _ _).mp hr with h | ⟨inner', hi', c, hc, h, _⟩
    · rw [hi] at h
      cases h
    · rw [hi, Outcome.ok.injEq] at hi'
      subst hi'
      rw [hx' c hc] at h
      rcases h with h | ⟨d, h, hlt⟩
      · cases h
      · rw [Outcome.ok.injEq] at h
        have := hl ⟨c, hc⟩
        rw [h] at this
        omega

/-- C77: that is less than a `2 ^ -200` part of all tables. -/
theorem C77_failure_fraction :
    2 ^ 200 * (2 ^ 512 - G1_COFACTOR * (FR_MODULUS - 1) * 2 ^ 134) ^ 255 < (2 ^ 512) ^ 255 := by
  decide +kernel

end

/-- A hasher answering from a table. -/
def tableHasher (f : Fin 255 → Bytes) : Hasher where
  crh _ m _ := .ok m
  xof _ m _ := match m with
    | c :: _ => .ok (if h : c.toNat < 255 then f ⟨c.toNat, h⟩ else [])
    | [] => .ok []

/-- The hypotheses of the counting theorems are met by the hashers answering from a table. -/
theorem tableHasher_answers (domain message extra : Bytes) : AnswersDirect tableHasher domain message extra ∧
    AnswersCip22 tableHasher domain message extra := by
  have key : ∀ (f : Fin 255 → Bytes) (c : Fin 255) (rest : Bytes),
      (tableHasher f).xof domain (UInt8.ofNat c :: rest) 64 = .ok (f c) := by
    intro f c rest
    have hc : (UInt8.ofNat (c : ℕ)).toNat = c := by
      rw [UInt8.toNat_ofNat']
      exact Nat.mod_eq_of_lt (c.isLt.trans (by norm_num))
    simp only [tableHasher, hc, c.isLt, dite_true]
  exact ⟨fun f c => key f c _, fun f => ⟨message, rfl, fun c => key f c _⟩⟩

/-- C77 on concrete data: the element of the subgroup found from the abscissa 1. -/
example (compat : Bool) : {d : Bytes | d.length = 64 ∧
    Yields compat g1Scale d (G1_COFACTOR • onePoint)}.ncard = G1_COFACTOR * 2 ^ 134 :=
  C77_attempt_uniform compat g1Sub_order cofactor_onePoint_ne.1

/-- `C76_fibre`, on the element found from the abscissa 1. -/
example : {P : G1Point | G1_COFACTOR • P = G1_COFACTOR • onePoint}.ncard = G1_COFACTOR :=
  C76_fibre g1Sub_order

/-- `C77_result_count` and `C77_failure_count`, both for the counter 3 and on the table hashers. -/
example [DecidableEq G1Point] : {f : Fin 255 → Bytes | (∀ i, (f i).length = 64) ∧
      hashWithAttempt true (tableHasher f) someSqrt g1Scale SIG_DOMAIN [1] [2] =
        .ok (G1_COFACTOR • onePoint, ((3 : Fin 255) : ℕ))}.ncard =
      (2 ^ 512 - G1_COFACTOR * (FR_MODULUS - 1) * 2 ^ 134) ^ ((3 : Fin 255) : ℕ) * (G1_COFACTOR * 2 ^ 134) *
        (2 ^ 512) ^ (254 - ((3 : Fin 255) : ℕ)) ∧
    {f : Fin 255 → Bytes | (∀ i, (f i).length = 64) ∧
      ¬ (hashWithAttemptCip22 true (tableHasher f) someSqrt g1Scale SIG_DOMAIN [1] [2]).isOk}.ncard =
      (2 ^ 512 - G1_COFACTOR * (FR_MODULUS - 1) * 2 ^ 134) ^ 255 :=
  ⟨C77_result_count true someSqrt_spec tableHasher SIG_DOMAIN [1] [2] (tableHasher_answers _ _ _).1 g1Sub_order
      cofactor_onePoint_ne.1 3,
    C77_failure_count_cip22 true someSqrt_spec tableHasher SIG_DOMAIN [1] [2] (tableHasher_answers _ _ _).2⟩

end Verif
