import Verif.Lemmas.Fq2
import Mathlib.AlgebraicGeometry.EllipticCurve.Affine.Point
import Mathlib.Tactic.LinearCombination

/-!
# The group G2 concretely

Public keys are points of the sextic twist `y ^ 2 = x ^ 3 + 1 / u` over the quadratic extension
`Fq2 = Fq[u] / (u ^ 2 + 5)`.
-/

namespace Verif

open WeierstrassCurve

/-- The quadratic extension (`ark_bls12_377::Fq2`, external, `NONRESIDUE = -5`), whose coordinates
`c0`, `c1` are read at `crates/epoch-snark/src/encoding.rs:28-44`; here they are `re` and `im`. -/
abbrev Fq2 := QuadraticAlgebra Fq (-5) 0

instance : Fact (∀ r : Fq, r ^ 2 ≠ -5 + 0 * r) :=
  ⟨fun r => by rw [zero_mul, add_zero, pow_two]; exact neg_five_nonresidue r⟩

/-- `COEFF_B` of G2 (`ark_bls12_377::g2::Parameters`, external; the curve of the public keys,
`crates/bls-crypto/src/bls/public.rs:26`): `1 / u = (-1 / 5) u`. -/
def g2CoeffB : Fq2 :=
  ⟨0, 155198655607781456406391640216936120121836107652948796323930557600032281009004493664981332883744016074664192874906⟩

/-- The twist (`ark_bls12_377::G2Projective`, external), the group of public keys,
`crates/bls-crypto/src/bls/public.rs:15-16`. -/
noncomputable def g2Curve : WeierstrassCurve.Affine Fq2 :=
  { a₁ := 0, a₂ := 0, a₃ := 0, a₄ := 0, a₆ := g2CoeffB }

/-- `PublicKey`, `crates/bls-crypto/src/bls/public.rs:15-16`: a G2 element, up to projective
equivalence. -/
abbrev G2Point := g2Curve.Point

/-- `into_affine` (ark_ec, external), used at `crates/epoch-snark/src/encoding.rs:24`: infinity has
coordinates `(0, 1)`. -/
noncomputable def intoAffine : G2Point → Fq2 × Fq2
  | .zero => (0, 1)
  | .some x y _ => (x, y)

theorem g2_nonsingular {x y : Fq2} (h : y * y = x * x * x + g2CoeffB) (hy : y ≠ 0) :
    g2Curve.Nonsingular x y := by
  rw [Affine.nonsingular_iff]
  refine ⟨?_, Or.inr ?_⟩
  · rw [Affine.equation_iff]
    simp only [g2Curve]
    linear_combination h
  · simp only [g2Curve]
    intro e
    have h2 : (2 : Fq2) * y = 0 := by linear_combination e
    rcases mul_eq_zero.mp h2 with h3 | h3
    · have := congrArg QuadraticAlgebra.re h3
      revert this
      have : ((2 : Fq2)).re = (2 : Fq) := by
        have e2 : (2 : Fq2) = 1 + 1 := by norm_num
        rw [e2, QuadraticAlgebra.re_add, QuadraticAlgebra.re_one]
        norm_num
      rw [this]
      simp only [QuadraticAlgebra.re_zero]
      decide +kernel
    · exact hy h3

/-- Coordinates of the generator of G2 (`ark_bls12_377::g2`, external constant), which is
`padding_pk()`, `crates/epoch-snark/src/epoch_block.rs:94-96`. -/
def g2GenX : Fq2 :=
  ⟨233578398248691099356572568220835526895379068987715365179118596935057653620464273615301663571204657964920925606294,
   140913150380207355837477652521042157274541796891053068589147167627541651775299824604154852141315666357241556069118⟩

/-- See `g2GenX`; `crates/epoch-snark/src/epoch_block.rs:94-96`. -/
def g2GenY : Fq2 :=
  ⟨63160294768292073209381361943935198908131692476676907196754037919244929611450776219210369229519898517858833747423,
   149157405641012693445398062341192467754805999074082136895788947234480009303640899064710353187729182149407503257491⟩

theorem g2Gen_equation : g2GenY * g2GenY = g2GenX * g2GenX * g2GenX + g2CoeffB := by
  apply QuadraticAlgebra.ext
  · decide +kernel
  · decide +kernel

theorem g2GenY_ne_zero : g2GenY ≠ 0 := by
  intro h
  have := congrArg QuadraticAlgebra.re h
  revert this
  decide +kernel

/-- `padding_pk`, `crates/epoch-snark/src/epoch_block.rs:94-96`: the generator of G2. -/
noncomputable def g2Generator : G2Point :=
  .some g2GenX g2GenY (g2_nonsingular g2Gen_equation g2GenY_ne_zero)

end Verif
