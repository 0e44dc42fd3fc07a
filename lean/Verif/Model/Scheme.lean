import Verif.Model.Bls
import Verif.Model.HashToCurve
import Verif.Model.Serialize
import Verif.Lemmas.Torsion
import Verif.Lemmas.G1Order
import Verif.Lemmas.G2Order
import Mathlib.Algebra.Module.ZMod
import Mathlib.Algebra.Group.TypeTags.Basic

/-!
# The signature scheme over the concrete groups

Keys and signatures are values of the subgroups of order `r` of the two curves: that is what the
decoders let through (C66) and what hashing and key generation produce (C76).
-/

namespace Verif

/-- The values of `Signature`, `crates/bls-crypto/src/bls/signature.rs:19-20`: points of the curve
killed by `r` (the type also holds other points, which neither decoding nor signing produces). -/
noncomputable def G1r : AddSubgroup G1Point := (mulHom G1Point FR_MODULUS).ker

/-- The values of `PublicKey`, `crates/bls-crypto/src/bls/public.rs:15-16`. -/
noncomputable def G2r : AddSubgroup G2Point := (mulHom G2Point FR_MODULUS).ker

theorem mem_G1r (P : G1Point) : P ∈ G1r ↔ FR_MODULUS • P = 0 := Iff.rfl

theorem mem_G2r (P : G2Point) : P ∈ G2r ↔ FR_MODULUS • P = 0 := Iff.rfl

/-- Multiplication by scalars (`ark_ec` `mul`, external), as at
`crates/bls-crypto/src/bls/secret.rs:66`. -/
noncomputable instance : Module (ZMod FR_MODULUS) G1r :=
  AddCommGroup.zmodModule fun x => Subtype.ext x.2

/-- Multiplication by scalars (`ark_ec` `mul`, external), as at
`crates/bls-crypto/src/bls/public.rs:26`. -/
noncomputable instance : Module (ZMod FR_MODULUS) G2r :=
  AddCommGroup.zmodModule fun x => Subtype.ext x.2

theorem g1Scale_mem (Q : AffinePoint Fq) : g1Scale Q ∈ G1r := by
  rw [mem_G1r]
  cases Q with
  | infinity => exact nsmul_zero _
  | finite x y =>
    by_cases h : g1Curve.Nonsingular x y
    · simp only [g1Scale, dif_pos h]
      exact nsmul_nsmul_card g1_card _
    · simp only [g1Scale, dif_neg h]
      exact nsmul_zero _

/-- `scale_by_cofactor` (ark_ec, external), called at
`crates/bls-crypto/src/hash_to_curve/try_and_increment.rs:129`, with its value in the subgroup. -/
noncomputable def g1ScaleR (Q : AffinePoint Fq) : G1r := ⟨g1Scale Q, g1Scale_mem Q⟩

/-- `G2Projective::prime_subgroup_generator()` (ark_bls12_377, external), used at
`crates/bls-crypto/src/bls/public.rs:26`. -/
noncomputable def g2GenR : G2r := ⟨g2Generator, (mem_G2r _).mpr g2Generator_order⟩

theorem zmod_smul_eq {A : Type*} [AddCommGroup A] [Module (ZMod FR_MODULUS) A] (s : ZMod FR_MODULUS)
    (x : A) : s • x = s.val • x := by
  have : NeZero FR_MODULUS := ⟨FR_prime.ne_zero⟩
  conv_lhs => rw [← ZMod.natCast_zmod_val s]
  exact Nat.cast_smul_eq_nsmul _ _ _

theorem g2r_span (Q : G2r) : ∃ s : ZMod FR_MODULUS, Q = s • g2GenR := by
  obtain ⟨k, _, h⟩ := g2_generated Q.1 Q.2
  refine ⟨(k : ZMod FR_MODULUS), Subtype.ext ?_⟩
  rw [Nat.cast_smul_eq_nsmul, AddSubgroup.coe_nsmul]
  exact h

/-- A generator of the subgroup of G1 (example value: the image of the point with `x = 1`), standing for
`prime_subgroup_generator` as at `crates/bls-crypto/src/bls/public.rs:26`. -/
noncomputable def g1GenR : G1r :=
  ⟨G1_COFACTOR • onePoint, (mem_G1r _).mpr g1Sub_order⟩

theorem mk_subgroup_ne_zero {A : Type*} [AddCommGroup A] {S : AddSubgroup A} {x : A} (hx : x ∈ S)
    (h0 : x ≠ 0) : (⟨x, hx⟩ : S) ≠ 0 := fun h => h0 (congrArg Subtype.val h)

theorem g1GenR_ne_zero : g1GenR ≠ 0 := by
  unfold g1GenR
  exact mk_subgroup_ne_zero (S := G1r) ((mem_G1r _).mpr g1Sub_order) cofactor_onePoint_ne.1

theorem g2GenR_ne_zero : g2GenR ≠ 0 := by
  unfold g2GenR
  exact mk_subgroup_ne_zero (S := G2r) ((mem_G2r _).mpr g2Generator_order) g2Generator_ne_zero

theorem g1r_span {g : G1r} (hg : g ≠ 0) (P : G1r) : ∃ s : ZMod FR_MODULUS, P = s • g := by
  obtain ⟨k, _, h⟩ := killed_generated g1_card cofactor_coprime FR_prime (g := g.1) g.2
    (fun e => hg (Subtype.ext e)) P.2
  refine ⟨(k : ZMod FR_MODULUS), Subtype.ext ?_⟩
  rw [Nat.cast_smul_eq_nsmul, AddSubgroup.coe_nsmul]
  exact h

/-- `Bls12_377::pairing` / `product_of_pairings` (ark_ec, external), called at
`crates/bls-crypto/src/bls/public.rs:103-110` and `signature.rs:133-150`: all that is assumed of it
is that it is bilinear and not constant. -/
structure CurvePairing (GT : Type*) [CommGroup GT] where
  /-- the pairing -/
  e : G1r → G2r → GT
  add_left : ∀ P P' Q, e (P + P') Q = e P Q * e P' Q
  add_right : ∀ P Q Q', e P (Q + Q') = e P Q * e P Q'
  nontrivial : ∃ P Q, e P Q ≠ 1

section
variable {GT : Type*} [CommGroup GT] (C : CurvePairing GT)

theorem CurvePairing.zero_left (Q : G2r) : C.e 0 Q = 1 := by
  have := C.add_left 0 0 Q
  rw [add_zero] at this
  exact left_eq_mul.mp this

theorem CurvePairing.zero_right (P : G1r) : C.e P 0 = 1 := by
  have := C.add_right P 0 0
  rw [add_zero] at this
  exact left_eq_mul.mp this

theorem CurvePairing.nsmul_left (n : ℕ) (P : G1r) (Q : G2r) : C.e (n • P) Q = C.e P Q ^ n := by
  induction n with
  | zero => rw [zero_nsmul, C.zero_left, pow_zero]
  | succ n ih => rw [succ_nsmul, C.add_left, ih, pow_succ]

theorem CurvePairing.nsmul_right (n : ℕ) (P : G1r) (Q : G2r) : C.e P (n • Q) = C.e P Q ^ n := by
  induction n with
  | zero => rw [zero_nsmul, C.zero_right, pow_zero]
  | succ n ih => rw [succ_nsmul, C.add_right, ih, pow_succ]

theorem CurvePairing.nondeg (P : G1r) (h : C.e P g2GenR = 1) : P = 0 := by
  by_contra h0
  obtain ⟨P', Q, hne⟩ := C.nontrivial
  obtain ⟨s, rfl⟩ := g1r_span h0 P'
  obtain ⟨t, rfl⟩ := g2r_span Q
  rw [zmod_smul_eq, zmod_smul_eq, C.nsmul_left, C.nsmul_right, h, one_pow, one_pow] at hne
  exact hne rfl

/-- The pairing with the generator of public keys, `crates/bls-crypto/src/bls/public.rs:103-110`. -/
noncomputable def CurvePairing.toPairing : Pairing FR_MODULUS G1r G2r GT where
  e := C.e
  g2 := g2GenR
  add_left := C.add_left
  add_right := C.add_right
  nondeg := C.nondeg
  span2 := g2r_span

end

/-- Example pairing (not code from /repo): by the discrete logarithms, in place of the external pairing of
`crates/bls-crypto/src/bls/public.rs:102`. -/
noncomputable def logPairing : CurvePairing (Multiplicative (ZMod FR_MODULUS)) :=
  let l1 : G1r ≃ₗ[ZMod FR_MODULUS] ZMod FR_MODULUS := (LinearEquiv.ofBijective
    (LinearMap.toSpanSingleton (ZMod FR_MODULUS) G1r g1GenR)
    ⟨fun a b h => smul_left_injective _ g1GenR_ne_zero h,
      fun P => (g1r_span g1GenR_ne_zero P).imp fun _ h => h.symm⟩).symm
  let l2 : G2r ≃ₗ[ZMod FR_MODULUS] ZMod FR_MODULUS := (LinearEquiv.ofBijective
    (LinearMap.toSpanSingleton (ZMod FR_MODULUS) G2r g2GenR)
    ⟨fun a b h => smul_left_injective _ g2GenR_ne_zero h,
      fun P => (g2r_span P).imp fun _ h => h.symm⟩).symm
  { e := fun P Q => Multiplicative.ofAdd (l1 P * l2 Q)
    add_left := fun P P' Q => by rw [map_add, add_mul, ofAdd_add]
    add_right := fun P Q Q' => by rw [map_add, mul_add, ofAdd_add]
    nontrivial := ⟨l1.symm 1, l2.symm 1, fun h => by
      have h : l1 (l1.symm 1) * l2 (l2.symm 1) = 0 := Multiplicative.ofAdd.injective h
      rw [LinearEquiv.apply_symm_apply, LinearEquiv.apply_symm_apply, one_mul] at h
      exact one_ne_zero h⟩ }

end Verif
