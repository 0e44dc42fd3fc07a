import Verif.Lemmas.ScalarMul
import Mathlib.Data.ZMod.Basic
import Mathlib.GroupTheory.OrderOfElement
import Mathlib.Algebra.Polynomial.Roots
import Mathlib.Data.Nat.Prime.Basic
import Mathlib.FieldTheory.Finite.Basic

/-!
# Scalar multiples by Jacobian coordinates, and elliptic curve primality certificates

A double-and-add chain on natural numbers modulo `N` whose last `Z` coordinate is a unit is correct over
every prime field of a divisor of `N`, since the `Z` coordinates divide each other.  With the trivial
bound on the number of points this proves primes (helper; models nothing in /repo).
-/

namespace Verif

open WeierstrassCurve

/-- The curve `y ^ 2 = x ^ 3 + a x + b`. -/
def ecppCurve {F : Type*} [Field F] (a b : F) : Affine F :=
  { a₁ := 0, a₂ := 0, a₃ := 0, a₄ := a, a₆ := b }

section
variable {R : Type*} [CommRing R]

/-- Doubling in Jacobian coordinates. -/
def jacDbl (a : R) (p : R × R × R) : R × R × R :=
  let m := 3 * p.1 ^ 2 + a * p.2.2 ^ 4
  let s := 4 * p.1 * p.2.1 ^ 2
  let x := m ^ 2 - 2 * s
  (x, m * (s - x) - 8 * p.2.1 ^ 4, 2 * p.2.1 * p.2.2)

/-- Addition of an affine point in Jacobian coordinates. -/
def jacAdd (q : R × R) (p : R × R × R) : R × R × R :=
  let h := q.1 * p.2.2 ^ 2 - p.1
  let r := q.2 * p.2.2 ^ 3 - p.2.1
  let v := p.1 * h ^ 2
  let x := r ^ 2 - h ^ 3 - 2 * v
  (x, r * (v - x) - p.2.1 * h ^ 3, p.2.2 * h)

end

section
variable {F : Type*} [Field F] [DecidableEq F] {a b : F}

/-- The affine point of Jacobian coordinates. -/
def jacAffine (p : F × F × F) : F × F := (p.1 / p.2.2 ^ 2, p.2.1 / p.2.2 ^ 3)

theorem jacDbl_spec {p : F × F × F} {P : (ecppCurve a b).Point} (hz : (jacDbl a p).2.2 ≠ 0)
    (hp : p.2.2 ≠ 0 → IsPoint (jacAffine p) P) : IsPoint (jacAffine (jacDbl a p)) (P + P) := by
  obtain ⟨X, Y, Z⟩ := p
  simp only [jacDbl, jacAffine] at hz hp ⊢
  have hZ : Z ≠ 0 := right_ne_zero_of_mul hz
  have h2Y : 2 * Y ≠ 0 := left_ne_zero_of_mul hz
  have hY : Y ≠ 0 := right_ne_zero_of_mul h2Y
  have h2 : (2 : F) ≠ 0 := left_ne_zero_of_mul h2Y
  obtain ⟨h1, rfl⟩ := hp hZ
  simp only at h1 ⊢
  have hne : Y / Z ^ 3 ≠ (ecppCurve a b).negY (X / Z ^ 2) (Y / Z ^ 3) := by
    simp only [Affine.negY, ecppCurve]
    intro e
    have : 2 * (Y / Z ^ 3) = 0 := by linear_combination e
    rw [mul_div_assoc', div_eq_zero_iff] at this
    rcases this with h | h
    · exact h2Y h
    · exact hZ (pow_eq_zero_iff (by norm_num) |>.mp h)
  have hl : (ecppCurve a b).slope (X / Z ^ 2) (X / Z ^ 2) (Y / Z ^ 3) (Y / Z ^ 3) =
      (3 * X ^ 2 + a * Z ^ 4) / (2 * Y * Z) := by
    rw [Affine.slope_of_Y_ne rfl hne]
    simp only [Affine.negY, ecppCurve]
    rw [show Y / Z ^ 3 - (-(Y / Z ^ 3) - 0 * (X / Z ^ 2) - 0) = 2 * Y / Z ^ 3 by ring]
    field_simp
    ring
  have e := Affine.Point.add_self_of_Y_ne (h₁ := h1) hne
  have ex : (ecppCurve a b).addX (X / Z ^ 2) (X / Z ^ 2)
      ((ecppCurve a b).slope (X / Z ^ 2) (X / Z ^ 2) (Y / Z ^ 3) (Y / Z ^ 3)) =
      ((3 * X ^ 2 + a * Z ^ 4) ^ 2 - 2 * (4 * X * Y ^ 2)) / (2 * Y * Z) ^ 2 := by
    rw [hl]
    simp only [Affine.addX, ecppCurve]
    field_simp
    ring
  have ey : (ecppCurve a b).addY (X / Z ^ 2) (X / Z ^ 2) (Y / Z ^ 3)
      ((ecppCurve a b).slope (X / Z ^ 2) (X / Z ^ 2) (Y / Z ^ 3) (Y / Z ^ 3)) =
      ((3 * X ^ 2 + a * Z ^ 4) * (4 * X * Y ^ 2 - ((3 * X ^ 2 + a * Z ^ 4) ^ 2 - 2 * (4 * X * Y ^ 2))) -
        8 * Y ^ 4) / (2 * Y * Z) ^ 3 := by
    rw [Affine.addY, Affine.negAddY, ex, hl]
    simp only [Affine.negY, ecppCurve]
    field_simp
    ring
  have hns := Affine.nonsingular_add h1 h1 (fun hxy => hne hxy.2)
  rw [ex, ey] at hns
  refine ⟨hns, ?_⟩
  rw [e]
  simp only [ex, ey]

theorem jacAdd_spec {p : F × F × F} {q : F × F} {P Q : (ecppCurve a b).Point}
    (hz : (jacAdd q p).2.2 ≠ 0) (hp : p.2.2 ≠ 0 → IsPoint (jacAffine p) P) (hq : IsPoint q Q) :
    IsPoint (jacAffine (jacAdd q p)) (P + Q) := by
  obtain ⟨X, Y, Z⟩ := p
  obtain ⟨x, y⟩ := q
  obtain ⟨H, rfl⟩ : ∃ H, X = x * Z ^ 2 - H := ⟨x * Z ^ 2 - X, by ring⟩
  simp only [jacAdd, jacAffine, sub_sub_cancel] at hz hp ⊢
  have hZ : Z ≠ 0 := left_ne_zero_of_mul hz
  have hH : H ≠ 0 := right_ne_zero_of_mul hz
  obtain ⟨h1, rfl⟩ := hp hZ
  obtain ⟨h2, rfl⟩ := hq
  simp only at h1 h2 ⊢
  have hne : (x * Z ^ 2 - H) / Z ^ 2 ≠ x := by
    rw [Ne, div_eq_iff (pow_ne_zero 2 hZ)]
    intro e
    exact hH (by linear_combination -e)
  have hd : (x * Z ^ 2 - H) / Z ^ 2 - x ≠ 0 := sub_ne_zero.mpr hne
  have hl : (ecppCurve a b).slope ((x * Z ^ 2 - H) / Z ^ 2) x (Y / Z ^ 3) y =
      (y * Z ^ 3 - Y) / (Z * H) := by
    rw [Affine.slope_of_X_ne hne, div_eq_div_iff hd hz]
    field_simp
    ring
  have e := Affine.Point.add_of_X_ne (h₁ := h1) (h₂ := h2) hne
  have ex : (ecppCurve a b).addX ((x * Z ^ 2 - H) / Z ^ 2) x
      ((ecppCurve a b).slope ((x * Z ^ 2 - H) / Z ^ 2) x (Y / Z ^ 3) y) =
      ((y * Z ^ 3 - Y) ^ 2 - H ^ 3 - 2 * ((x * Z ^ 2 - H) * H ^ 2)) /
        (Z * H) ^ 2 := by
    rw [hl]
    simp only [Affine.addX, ecppCurve]
    field_simp
    ring
  have ey : (ecppCurve a b).addY ((x * Z ^ 2 - H) / Z ^ 2) x (Y / Z ^ 3)
      ((ecppCurve a b).slope ((x * Z ^ 2 - H) / Z ^ 2) x (Y / Z ^ 3) y) =
      ((y * Z ^ 3 - Y) * ((x * Z ^ 2 - H) * H ^ 2 -
        ((y * Z ^ 3 - Y) ^ 2 - H ^ 3 - 2 * ((x * Z ^ 2 - H) * H ^ 2))) -
        Y * H ^ 3) / (Z * H) ^ 3 := by
    rw [Affine.addY, Affine.negAddY, ex, hl]
    simp only [Affine.negY, ecppCurve]
    field_simp
    ring
  have hns := Affine.nonsingular_add h1 h2 (fun hxy => hne hxy.1)
  rw [ex, ey] at hns
  refine ⟨hns, ?_⟩
  rw [e]
  simp only [ex, ey]

end

/-- Subtraction modulo `N`. -/
def subMod (N x y : ℕ) : ℕ := (x + (N - y % N)) % N

/-- `jacDbl` on natural numbers modulo `N`. -/
def jacDblN (N a : ℕ) (p : ℕ × ℕ × ℕ) : ℕ × ℕ × ℕ :=
  let zz := p.2.2 * p.2.2 % N
  let m := (3 * (p.1 * p.1) + a * (zz * zz % N)) % N
  let yy := p.2.1 * p.2.1 % N
  let s := 4 * p.1 * yy % N
  let x := subMod N (m * m) (2 * s)
  (x, subMod N (m * subMod N s x) (8 * (yy * yy)), 2 * p.2.1 * p.2.2 % N)

/-- `jacAdd` on natural numbers modulo `N`. -/
def jacAddN (N : ℕ) (q : ℕ × ℕ) (p : ℕ × ℕ × ℕ) : ℕ × ℕ × ℕ :=
  let zz := p.2.2 * p.2.2 % N
  let h := subMod N (q.1 * zz) p.1
  let r := subMod N (q.2 * (p.2.2 * zz % N)) p.2.1
  let hh := h * h % N
  let hhh := h * hh % N
  let v := p.1 * hh % N
  let x := subMod N (subMod N (r * r) hhh) (2 * v)
  (x, subMod N (r * subMod N v x) (p.2.1 * hhh), p.2.2 * h % N)

/-- Double-and-add, most significant bit first.  (The test makes the kernel evaluate every step.) -/
def jacMulN (N a : ℕ) (q : ℕ × ℕ) : List Bool → ℕ × ℕ × ℕ → ℕ × ℕ × ℕ
  | [], p => p
  | bit :: rest, p =>
    let d := jacDblN N a p
    let e := bif bit then jacAddN N q d else d
    if e.2.2 = 0 then (0, 0, 0) else jacMulN N a q rest e

/-- The scalar of a double-and-add chain. -/
def bitsScalar (n : ℕ) : List Bool → ℕ
  | [] => n
  | bit :: rest => bitsScalar (2 * n + bit.toNat) rest

section
variable {F : Type*} [Field F] {N : ℕ} (hN : (N : F) = 0)
include hN

theorem cast_mod (x : ℕ) : ((x % N : ℕ) : F) = x := by
  conv_rhs => rw [← Nat.div_add_mod x N]
  push_cast
  rw [hN, zero_mul, zero_add]

theorem cast_subMod (hpos : 0 < N) (x y : ℕ) : ((subMod N x y : ℕ) : F) = x - y := by
  unfold subMod
  rw [cast_mod hN, Nat.cast_add, Nat.cast_sub (Nat.mod_lt _ hpos).le, cast_mod hN, hN]
  ring

/-- The images of the coordinates. -/
def castTriple (F : Type*) [Field F] (p : ℕ × ℕ × ℕ) : F × F × F := (p.1, p.2.1, p.2.2)

theorem cast_jacDblN (hpos : 0 < N) (a : ℕ) (p : ℕ × ℕ × ℕ) :
    castTriple F (jacDblN N a p) = jacDbl (a : F) (castTriple F p) := by
  obtain ⟨X, Y, Z⟩ := p
  simp only [castTriple, jacDblN, jacDbl]
  refine Prod.ext ?_ (Prod.ext ?_ ?_) <;>
    simp only [cast_subMod hN hpos, Nat.cast_mul, Nat.cast_add, cast_mod hN, Nat.cast_ofNat] <;> ring

theorem cast_jacAddN (hpos : 0 < N) (q : ℕ × ℕ) (p : ℕ × ℕ × ℕ) :
    castTriple F (jacAddN N q p) = jacAdd ((q.1 : F), (q.2 : F)) (castTriple F p) := by
  obtain ⟨X, Y, Z⟩ := p
  simp only [castTriple, jacAddN, jacAdd]
  refine Prod.ext ?_ (Prod.ext ?_ ?_) <;>
    simp only [cast_subMod hN hpos, Nat.cast_mul, cast_mod hN, Nat.cast_ofNat] <;> ring

theorem jacMulN_spec [DecidableEq F] (hpos : 0 < N) {a : ℕ} {b : F} {q : ℕ × ℕ} {Q : (ecppCurve (a : F) b).Point}
    (hq : IsPoint ((q.1 : F), (q.2 : F)) Q) (bits : List Bool) (p : ℕ × ℕ × ℕ) (n : ℕ)
    (hp : (castTriple F p).2.2 ≠ 0 → IsPoint (jacAffine (castTriple F p)) (n • Q))
    (hz : (castTriple F (jacMulN N a q bits p)).2.2 ≠ 0) :
    IsPoint (jacAffine (castTriple F (jacMulN N a q bits p))) (bitsScalar n bits • Q) := by
  induction bits generalizing p n with
  | nil => exact hp hz
  | cons bit rest ih =>
    simp only [jacMulN, bitsScalar] at hz ⊢
    split at hz
    · simp [castTriple] at hz
    · rename_i hne
      rw [if_neg hne]
      refine ih _ _ ?_ hz
      have hd : (castTriple F (jacDblN N a p)).2.2 ≠ 0 →
          IsPoint (jacAffine (castTriple F (jacDblN N a p))) ((2 * n) • Q) := by
        intro h
        rw [cast_jacDblN hN hpos] at h ⊢
        have := jacDbl_spec h hp
        rwa [← two_nsmul, ← mul_nsmul'] at this
      cases bit with
      | false =>
        simp only [cond_false, Bool.toNat_false, add_zero]
        exact hd
      | true =>
        simp only [cond_true, Bool.toNat_true]
        intro h
        rw [cast_jacAddN hN hpos] at h ⊢
        have := jacAdd_spec h hd hq
        rwa [← succ_nsmul] at this

end

/-- A curve over a finite field has at most `2 p + 1` points. -/
theorem card_short_le {F : Type*} [Field F] [Fintype F] [DecidableEq F] (a b : F) :
    Finite (ecppCurve a b).Point ∧ Nat.card (ecppCurve a b).Point ≤ 2 * Fintype.card F + 1 := by
  classical
  let S : Finset (F × F) := Finset.univ.filter fun p : F × F => p.2 ^ 2 = p.1 ^ 3 + a * p.1 + b
  let f : (ecppCurve a b).Point → Option S := fun P => match P with
    | .zero => none
    | .some x y h => some ⟨(x, y), by
        have h1 := (Affine.equation_iff ..).mp h.1
        simp only [ecppCurve] at h1
        refine Finset.mem_filter.mpr ⟨Finset.mem_univ _, ?_⟩
        linear_combination h1⟩
  have hf : Function.Injective f := by
    intro P Q h
    match P, Q with
    | .zero, .zero => rfl
    | .zero, .some _ _ _ => simp [f] at h
    | .some _ _ _, .zero => simp [f] at h
    | .some x y _, .some x' y' _ =>
      simp only [f, Option.some.injEq, Subtype.mk.injEq, Prod.mk.injEq] at h
      obtain ⟨rfl, rfl⟩ := h
      rfl
  refine ⟨Finite.of_injective f hf, ?_⟩
  have h1 := Nat.card_le_card_of_injective f hf
  rw [Nat.card_eq_fintype_card (α := Option S), Fintype.card_option, Fintype.card_coe] at h1
  have h2 : S.card ≤ ∑ _x : F, 2 := by
    have : S.card = ∑ x : F, (Finset.univ.filter fun y : F => y ^ 2 = x ^ 3 + a * x + b).card := by
      rw [Finset.card_filter, Fintype.sum_prod_type]
      exact Finset.sum_congr rfl fun x _ => (Finset.card_filter _ _).symm
    rw [this]
    refine Finset.sum_le_sum fun x _ => ?_
    have hs : (Finset.univ.filter fun y : F => y ^ 2 = x ^ 3 + a * x + b) ⊆
        (Polynomial.nthRoots 2 (x ^ 3 + a * x + b)).toFinset := by
      intro y hy
      rw [Multiset.mem_toFinset, Polynomial.mem_nthRoots (by norm_num)]
      exact (Finset.mem_filter.mp hy).2
    exact (Finset.card_le_card hs).trans ((Multiset.toFinset_card_le _).trans
      (Polynomial.card_nthRoots 2 _))
  rw [Finset.sum_const, Finset.card_univ, smul_eq_mul] at h2
  omega

theorem coprime_cast_ne {p N m : ℕ} [Fact p.Prime] (hpN : p ∣ N) (h : Nat.gcd m N = 1) :
    (m : ZMod p) ≠ 0 := by
  intro e
  have h1 : p ∣ m := (ZMod.natCast_eq_zero_iff _ _).mp e
  have h2 := Nat.dvd_gcd h1 hpN
  rw [h] at h2
  exact (Fact.out : p.Prime).one_lt.ne' (Nat.dvd_one.mp h2)

/-- Elliptic curve primality certificate: a point of the curve modulo `N` whose multiple by the prime
`q` vanishes modulo every prime factor. -/
theorem ecpp (N q a b x y : ℕ) (bits : List Bool) (hN : 1 < N) (hq : q.Prime)
    (hbound : 4 * N < (q - 1) ^ 2) (hb : bitsScalar 1 bits + 1 = q)
    (hcurve : y ^ 2 % N = (x ^ 3 + a * x + b) % N) (hy : Nat.gcd (2 * y) N = 1)
    (hcert : (let e := jacMulN N a (x, y) bits (x, y, 1)
      decide (Nat.gcd e.2.2 N = 1) && decide (x * (e.2.2 ^ 2) % N = e.1 % N) &&
        decide ((y * e.2.2 ^ 3 + e.2.1) % N = 0)) = true) : N.Prime := by
  by_contra hnp
  have hp : (Nat.minFac N).Prime := Nat.minFac_prime hN.ne'
  have hpN : Nat.minFac N ∣ N := Nat.minFac_dvd N
  have hle : (Nat.minFac N) ^ 2 ≤ N := Nat.minFac_sq_le_self (by omega) hnp
  generalize Nat.minFac N = p at hp hpN hle
  have := Fact.mk hp
  have hN0 : (N : ZMod p) = 0 := (ZMod.natCast_eq_zero_iff _ _).mpr hpN
  simp only [Bool.and_eq_true, decide_eq_true_eq] at hcert
  generalize he : jacMulN N a (x, y) bits (x, y, 1) = e at hcert
  obtain ⟨⟨h1, h2⟩, h3⟩ := hcert
  have c1 : (y : ZMod p) ^ 2 = x ^ 3 + a * x + b := by
    have := congrArg (Nat.cast (R := ZMod p)) hcurve
    rw [cast_mod hN0, cast_mod hN0] at this
    exact_mod_cast this
  have c2 : (2 * y : ZMod p) ≠ 0 := by exact_mod_cast coprime_cast_ne hpN hy
  have c3 : (e.2.2 : ZMod p) ≠ 0 := coprime_cast_ne hpN h1
  have c4 : (x : ZMod p) * e.2.2 ^ 2 = e.1 := by
    have := congrArg (Nat.cast (R := ZMod p)) h2
    rw [cast_mod hN0, cast_mod hN0] at this
    exact_mod_cast this
  have c5 : (y : ZMod p) * e.2.2 ^ 3 + e.2.1 = 0 := by
    have := congrArg (Nat.cast (R := ZMod p)) h3
    rw [cast_mod hN0] at this
    exact_mod_cast this
  have hns : (ecppCurve (a : ZMod p) b).Nonsingular x y := by
    rw [Affine.nonsingular_iff]
    refine ⟨(Affine.equation_iff ..).mpr ?_, Or.inr ?_⟩
    · simp only [ecppCurve]; linear_combination c1
    · simp only [ecppCurve]
      intro h
      exact c2 (by linear_combination h)
  have hQ : IsPoint ((((x, y) : ℕ × ℕ).1 : ZMod p), (((x, y) : ℕ × ℕ).2 : ZMod p))
      (Affine.Point.some _ _ hns : (ecppCurve (a : ZMod p) b).Point) := ⟨hns, rfl⟩
  have key := jacMulN_spec hN0 (by omega) hQ bits (x, y, 1) 1 (by
    intro _
    rw [one_nsmul]
    simpa [castTriple, jacAffine] using hQ) (by rw [he]; exact c3)
  rw [he] at key
  generalize hR : (Affine.Point.some _ _ hns : (ecppCurve (a : ZMod p) b).Point) = R at key
  obtain ⟨hns', key⟩ := key
  have hzero : q • R = 0 := by
    rw [← hb, succ_nsmul, key, ← hR]
    apply Affine.Point.add_of_Y_eq
    · simp only [jacAffine, castTriple]
      rw [← c4]
      field_simp
    · simp only [jacAffine, castTriple, Affine.negY, ecppCurve]
      field_simp
      linear_combination c5
  have hne : R ≠ 0 := by
    rw [← hR]; exact Affine.Point.some_ne_zero _
  have := Fact.mk hq
  have ho := addOrderOf_eq_prime hzero hne
  obtain ⟨hfin, hcard⟩ := card_short_le (a : ZMod p) b
  have hdvd : q ∣ Nat.card (ecppCurve (a : ZMod p) b).Point := ho ▸ addOrderOf_dvd_natCard R
  have hpos : 0 < Nat.card (ecppCurve (a : ZMod p) b).Point := Nat.card_pos
  have hql := Nat.le_of_dvd hpos hdvd
  rw [ZMod.card] at hcard
  have h6 : q - 1 ≤ 2 * p := by omega
  have h7 : (q - 1) ^ 2 ≤ (2 * p) ^ 2 := Nat.pow_le_pow_left h6 2
  nlinarith

end Verif
