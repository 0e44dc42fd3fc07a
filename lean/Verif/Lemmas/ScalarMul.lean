import Mathlib.AlgebraicGeometry.EllipticCurve.Affine.Point
import Mathlib.Tactic.FieldSimp
import Mathlib.Tactic.LinearCombination

/-! Certificates for scalar multiples on a short Weierstrass curve: a list of slopes checked by
field arithmetic (helper for examples; models nothing in /repo). -/

namespace Verif

open WeierstrassCurve

variable {F : Type*} [Field F] [DecidableEq F] {W : WeierstrassCurve.Affine F}

/-- A curve `y² = x³ + b`. -/
def Short (W : WeierstrassCurve.Affine F) : Prop := W.a₁ = 0 ∧ W.a₂ = 0 ∧ W.a₃ = 0 ∧ W.a₄ = 0

/-- One doubling with the given slope, if it is the slope. -/
def dblStep (l : F) (p : F × F) : Option (F × F) :=
  if 2 * p.2 * l = 3 * p.1 ^ 2 ∧ 2 * p.2 ≠ 0 then
    let x := l ^ 2 - 2 * p.1
    some (x, l * (p.1 - x) - p.2)
  else none

/-- One addition with the given slope, if it is the slope. -/
def addStep (l : F) (p q : F × F) : Option (F × F) :=
  if l * (p.1 - q.1) = p.2 - q.2 ∧ p.1 ≠ q.1 then
    let x := l ^ 2 - p.1 - q.1
    some (x, l * (p.1 - x) - p.2)
  else none

/-- Double-and-add from the most significant bit. -/
def mulCert (base : F × F) : List (F × Option F) → F × F → ℕ → Option ((F × F) × ℕ)
  | [], p, n => some (p, n)
  | (l, a) :: rest, p, n =>
    (dblStep l p).bind fun p2 =>
      match a with
      | none => mulCert base rest p2 (2 * n)
      | some m => (addStep m p2 base).bind fun p3 => mulCert base rest p3 (2 * n + 1)

/-- The pair is the point. -/
def IsPoint (p : F × F) (P : W.Point) : Prop := ∃ h, P = .some p.1 p.2 h

theorem dblStep_spec (hW : Short W) {l : F} {p q : F × F} {P : W.Point} (hp : IsPoint p P)
    (h : dblStep l p = some q) : IsPoint q (P + P) := by
  obtain ⟨h1, rfl⟩ := hp
  obtain ⟨a1, a2, a3, a4⟩ := hW
  unfold dblStep at h
  split at h
  · rename_i hc
    simp only [Option.some.injEq] at h
    have hne : p.2 ≠ W.negY p.1 p.2 := by
      simp only [Affine.negY, a1, a3]
      intro e
      exact hc.2 (by linear_combination e)
    have hl : W.slope p.1 p.1 p.2 p.2 = l := by
      rw [Affine.slope_of_Y_ne rfl hne]
      simp only [Affine.negY, a1, a2, a3, a4]
      have h2 : p.2 - (-p.2 - 0 * p.1 - 0) ≠ 0 := by
        intro e; exact hc.2 (by linear_combination e)
      rw [div_eq_iff h2]
      linear_combination -hc.1
    have e := Affine.Point.add_self_of_Y_ne (h₁ := h1) hne
    have ex : W.addX p.1 p.1 (W.slope p.1 p.1 p.2 p.2) = q.1 := by
      rw [hl, ← h]; simp only [Affine.addX, a1, a2]; ring
    have ey : W.addY p.1 p.1 p.2 (W.slope p.1 p.1 p.2 p.2) = q.2 := by
      rw [hl, ← h]; simp only [Affine.addY, Affine.negAddY, Affine.negY, Affine.addX, a1, a2, a3]
      ring
    have hns := Affine.nonsingular_add h1 h1 (fun hxy => hne hxy.2)
    rw [ex, ey] at hns
    refine ⟨hns, ?_⟩
    rw [e]
    simp only [ex, ey]
  · cases h

theorem addStep_spec (hW : Short W) {l : F} {p q r : F × F} {P Q : W.Point} (hp : IsPoint p P)
    (hq : IsPoint q Q) (h : addStep l p q = some r) : IsPoint r (P + Q) := by
  obtain ⟨h1, rfl⟩ := hp
  obtain ⟨h2, rfl⟩ := hq
  obtain ⟨a1, a2, a3, a4⟩ := hW
  unfold addStep at h
  split at h
  · rename_i hc
    simp only [Option.some.injEq] at h
    have hl : W.slope p.1 q.1 p.2 q.2 = l := by
      rw [Affine.slope_of_X_ne hc.2, div_eq_iff (sub_ne_zero.mpr hc.2)]
      exact hc.1.symm
    have e := Affine.Point.add_of_X_ne (h₁ := h1) (h₂ := h2) hc.2
    have ex : W.addX p.1 q.1 (W.slope p.1 q.1 p.2 q.2) = r.1 := by
      rw [hl, ← h]; simp only [Affine.addX, a1, a2]; ring
    have ey : W.addY p.1 q.1 p.2 (W.slope p.1 q.1 p.2 q.2) = r.2 := by
      rw [hl, ← h]; simp only [Affine.addY, Affine.negAddY, Affine.negY, Affine.addX, a1, a2, a3]
      ring
    have hns := Affine.nonsingular_add h1 h2 (fun hxy => hc.2 hxy.1)
    rw [ex, ey] at hns
    refine ⟨hns, ?_⟩
    rw [e]
    simp only [ex, ey]
  · cases h

theorem mulCert_spec (hW : Short W) {base : F × F} {B : W.Point} (hb : IsPoint base B)
    (cert : List (F × Option F)) (p q : F × F) (n m : ℕ) (hp : IsPoint p (n • B))
    (h : mulCert base cert p n = some (q, m)) : IsPoint q (m • B) := by
  induction cert generalizing p n with
  | nil =>
    simp only [mulCert, Option.some.injEq, Prod.mk.injEq] at h
    obtain ⟨rfl, rfl⟩ := h
    exact hp
  | cons c rest ih =>
    obtain ⟨l, a⟩ := c
    simp only [mulCert] at h
    obtain ⟨p2, h1, h2⟩ := Option.bind_eq_some_iff.mp h
    have hd := dblStep_spec hW hp h1
    rw [← two_nsmul, ← mul_nsmul'] at hd
    cases a with
    | none => exact ih p2 (2 * n) hd h2
    | some m' =>
      obtain ⟨p3, h3, h4⟩ := Option.bind_eq_some_iff.mp h2
      have ha := addStep_spec hW hd hb h3
      rw [← succ_nsmul] at ha
      exact ih p3 (2 * n + 1) ha h4

end Verif
