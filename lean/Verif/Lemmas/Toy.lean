import Verif.Model.Bls
import Mathlib.Algebra.Group.TypeTags.Basic
import Mathlib.Tactic.Ring

/-! A small concrete pairing, used to show that hypotheses of the theorems are satisfiable. -/

namespace Verif

/-- Example instance (not code from /repo): `G1 = G2 = ZMod p` and `e a b = a * b` written
multiplicatively. -/
def toyPairing (p : ℕ) : Pairing p (ZMod p) (ZMod p) (Multiplicative (ZMod p)) where
  e a b := Multiplicative.ofAdd (a * b)
  g2 := 1
  add_left a b q := by rw [← ofAdd_add]; congr 1; ring
  add_right a q q' := by rw [← ofAdd_add]; congr 1; ring
  nondeg a h := by
    have : a * 1 = 0 := Multiplicative.ofAdd.injective h
    simpa using this
  span2 q := ⟨q, by simp⟩

/-- Example hasher (not code from /repo): sums all input bytes. -/
def toyHash (p : ℕ) : HashToG1 (ZMod p) := fun d m e =>
  .ok ((leValue d + leValue m + leValue e : ℕ) : ZMod p)

/-- Example hasher (not code from /repo) that fails on the empty message. -/
def toyFailingHash (p : ℕ) : HashToG1 (ZMod p) := fun d m e =>
  if m = [] then .err .hashToCurveError else toyHash p d m e

end Verif
