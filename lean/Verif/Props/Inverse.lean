import Verif.Model.Inverse
import Mathlib.Algebra.Field.ZMod
import Mathlib.Tactic.LinearCombination
import Mathlib.Tactic.FieldSimp
import Mathlib.Tactic.Ring
import Mathlib.Tactic.NormNum.Prime

/-!
# C129: the inverse of the field library

The binary Euclidean algorithm ends, and returns the inverse; for a modulus that is not prime it need not end.
-/

namespace Verif

section
variable {p : ℕ}

theorem halveMod_spec (hp : p % 2 = 1) {b : ℕ} (hb : b < p) :
    halveMod p b < p ∧ (2 : ZMod p) * (halveMod p b : ℕ) = b := by
  unfold halveMod
  split
  · rename_i h
    refine ⟨by omega, ?_⟩
    have : 2 * (b / 2) = b := by omega
    exact_mod_cast congrArg (Nat.cast : ℕ → ZMod p) this
  · refine ⟨by omega, ?_⟩
    have : 2 * ((b + p) / 2) = b + p := by omega
    have := congrArg (Nat.cast : ℕ → ZMod p) this
    push_cast at this
    rw [ZMod.natCast_self, add_zero] at this
    exact this

theorem subResidue_spec {b c : ℕ} (hb : b < p) (hc : c < p) :
    subResidue p b c < p ∧ ((subResidue p b c : ℕ) : ZMod p) = b - c := by
  unfold subResidue
  split
  · refine ⟨by omega, ?_⟩
    rw [Nat.cast_sub (by omega), Nat.cast_add, ZMod.natCast_self, add_zero]
  · refine ⟨by omega, ?_⟩
    rw [Nat.cast_sub (by omega)]

/-- Removing the factors two of `u` keeps `a b = u k`. -/
theorem stripEven_ok [Fact p.Prime] (hp : p % 2 = 1) {a k : ZMod p} (n u b : ℕ) (hu : u ≠ 0) (hn : u < 2 ^ n) (hb : b < p)
    (h : a * b = u * k) :
    ∃ u' b', stripEven p n u b = .ok (u', b') ∧ u' % 2 = 1 ∧ u' ∣ u ∧ b' < p ∧ a * (b' : ℕ) = (u' : ℕ) * k ∧
      (u % 2 = 1 → u' = u) ∧ (u % 2 = 0 → 2 * u' ≤ u) := by
  induction n generalizing u b with
  | zero => simp at hn; omega
  | succ n ih =>
    unfold stripEven
    by_cases hu2 : u % 2 = 0
    · rw [if_pos hu2]
      obtain ⟨hb', h2⟩ := halveMod_spec hp hb
      have huu : 2 * (u / 2) = u := by omega
      have huz : (2 : ZMod p) * (u / 2 : ℕ) = u := by exact_mod_cast congrArg (Nat.cast : ℕ → ZMod p) huu
      have h20 : (2 : ZMod p) ≠ 0 := by
        intro e
        have e' : ((2 : ℕ) : ZMod p) = 0 := by exact_mod_cast e
        rw [ZMod.natCast_eq_zero_iff] at e'
        have := Nat.le_of_dvd (by norm_num) e'
        have := (Fact.out : p.Prime).two_le
        omega
      rw [pow_succ] at hn
      obtain ⟨u', b', e, ho, hd, hb'', hab, _⟩ := ih (u / 2) (halveMod p b) (by omega) (by omega) hb'
        (mul_left_cancel₀ h20 (by linear_combination a * h2 + h - k * huz))
      exact ⟨u', b', e, ho, hd.trans ⟨2, by omega⟩, hb'', hab, fun h => by omega, fun _ => by
        have := Nat.le_of_dvd (by omega) hd
        omega⟩
    · rw [if_neg hu2]
      exact ⟨u, b, rfl, by omega, dvd_rfl, hb, h, fun _ => rfl, fun h => absurd h hu2⟩

theorem inverseLoop_ok [Fact p.Prime] (hp : p % 2 = 1) {a k : ZMod p} (inner n u v b c : ℕ) (hu : u ≠ 0) (hv : v ≠ 0)
    (huv : Nat.Coprime u v)
    (hn : u * v < 2 ^ n) (hn' : u % 2 = 1 → v % 2 = 1 → 2 * (u * v) < 2 ^ n) (hi : u < 2 ^ inner) (hi' : v < 2 ^ inner) (hb : b < p) (hc : c < p)
    (h1 : a * b = u * k) (h2 : a * c = v * k) :
    ∃ y, inverseLoop p inner n u v b c = .ok y ∧ y < p ∧ a * (y : ℕ) = k := by
  induction n generalizing u v b c with
  | zero =>
    have := Nat.mul_pos (Nat.pos_of_ne_zero hu) (Nat.pos_of_ne_zero hv)
    rw [pow_zero] at hn
    omega
  | succ n ih =>
    unfold inverseLoop
    by_cases hu1 : u = 1
    · rw [if_pos hu1]
      exact ⟨b, rfl, hb, by rw [h1, hu1, Nat.cast_one, one_mul]⟩
    by_cases hv1 : v = 1
    · rw [if_neg hu1, if_pos hv1]
      exact ⟨c, rfl, hc, by rw [h2, hv1, Nat.cast_one, one_mul]⟩
    rw [if_neg hu1, if_neg hv1]
    obtain ⟨u', b', e1, ho1, hd1, hb', hab1, hk1, hh1⟩ := stripEven_ok hp inner u b hu hi hb h1
    obtain ⟨v', c', e2, ho2, hd2, hc', hab2, hk2, hh2⟩ := stripEven_ok hp inner v c hv hi' hc h2
    have hcop : Nat.Coprime u' v' := (huv.coprime_dvd_left hd1).coprime_dvd_right hd2
    have hle1 := Nat.le_of_dvd (Nat.pos_of_ne_zero hu) hd1
    have hle2 := Nat.le_of_dvd (Nat.pos_of_ne_zero hv) hd2
    have hprod : u' * v' < 2 ^ n := by
      rw [pow_succ] at hn hn'
      have hmul := Nat.mul_le_mul hle1 hle2
      rcases Nat.mod_two_eq_zero_or_one u with h | h
      · have := Nat.mul_le_mul (hh1 h) hle2
        rw [mul_assoc] at this
        omega
      · rcases Nat.mod_two_eq_zero_or_one v with h' | h'
        · have := Nat.mul_le_mul hle1 (hh2 h')
          rw [mul_left_comm] at this
          omega
        · have := hn' h h'
          omega
    have hne : u' ≠ v' := by
      rintro rfl
      have h1 : u' = 1 := (Nat.coprime_self u').1 hcop
      rcases Nat.mod_two_eq_zero_or_one u with h | h
      · rcases Nat.mod_two_eq_zero_or_one v with h' | h'
        · have := Nat.dvd_gcd (Nat.dvd_of_mod_eq_zero h) (Nat.dvd_of_mod_eq_zero h')
          rw [huv] at this
          omega
        · exact hv1 ((hk2 h').symm.trans h1)
      · exact hu1 ((hk1 h).symm.trans h1)
    rw [e1]
    simp only [Outcome.bind]
    rw [e2]
    simp only
    by_cases hlt : v' < u'
    · rw [if_pos hlt]
      obtain ⟨hs, hs'⟩ := subResidue_spec hb' hc'
      refine ih (u' - v') v' _ c' (by omega) (by omega) ?_
        ((Nat.mul_le_mul_right v' (Nat.sub_le u' v')).trans_lt hprod) (by omega) (by omega) (by omega) hs hc' ?_ hab2
      · exact (Nat.coprime_sub_self_left hlt.le).2 hcop
      · rw [hs', Nat.cast_sub hlt.le]
        linear_combination hab1 - hab2
    · rw [if_neg hlt]
      obtain ⟨hs, hs'⟩ := subResidue_spec hc' hb'
      refine ih u' (v' - u') b' _ (by omega) (by omega) ?_
        ((Nat.mul_le_mul_left u' (Nat.sub_le v' u')).trans_lt hprod) (by omega) (by omega) (by omega) hb' hs hab1 ?_
      · exact (Nat.coprime_sub_self_right (by omega)).2 hcop
      · rw [hs', Nat.cast_sub (by omega)]
        linear_combination hab2 - hab1

/-- **C129.** For an odd prime modulus of `bits` bits and a nonzero element, the inverse ends after at most `2 bits + 1`
rounds and returns the quotient of the constant by the argument, fully reduced. -/
theorem C129_quotient [Fact p.Prime] (hp : p ≠ 2) {k a bits rounds : ℕ} (hk : k < p) (ha0 : a ≠ 0) (ha : a < p)
    (hbits : p < 2 ^ bits) (hr : 2 * bits + 1 ≤ rounds) :
    ∃ y, arkInverse p k rounds a = .ok (some y) ∧ y < p ∧ (a : ZMod p) * (y : ℕ) = k := by
  have hpr : p.Prime := Fact.out
  have hodd : p % 2 = 1 := (hpr.eq_two_or_odd).resolve_left hp
  have hcop : Nat.Coprime a p := ((Nat.Prime.coprime_iff_not_dvd hpr).2 fun h =>
    absurd (Nat.le_of_dvd (Nat.pos_of_ne_zero ha0) h) (by omega)).symm
  have hpow : 2 ^ bits ≤ 2 ^ rounds := Nat.pow_le_pow_right (by norm_num) (by omega)
  have hprod : 2 * (a * p) < 2 ^ rounds :=
    calc 2 * (a * p) < 2 * (2 ^ bits * 2 ^ bits) :=
          Nat.mul_lt_mul_of_pos_left (Nat.mul_lt_mul'' (ha.trans hbits) hbits) (by norm_num)
      _ = 2 ^ (2 * bits + 1) := by ring
      _ ≤ 2 ^ rounds := Nat.pow_le_pow_right (by norm_num) hr
  obtain ⟨y, e, hy, h⟩ := inverseLoop_ok (a := (a : ZMod p)) (k := (k : ZMod p)) hodd rounds rounds a p k 0 ha0
    hpr.ne_zero hcop (by omega) (fun _ _ => hprod) (by omega) (by omega) hk hpr.pos rfl (by rw [ZMod.natCast_self, Nat.cast_zero, mul_zero, zero_mul])
  refine ⟨y, ?_, hy, h⟩
  unfold arkInverse
  rw [if_neg ha0, e]
  rfl

/-- **C129.** In Montgomery form with any constant `R` prime to the modulus: the inverse of zero is nothing, and that of
any other element is the Montgomery form of its inverse, found after at most `2 bits + 1` rounds. -/
theorem C129_inverse [Fact p.Prime] (hp : p ≠ 2) {R : ZMod p} (hR : R ≠ 0) (x : ZMod p) {bits rounds : ℕ}
    (hbits : p < 2 ^ bits) (hr : 2 * bits + 1 ≤ rounds) :
    arkInverse p (R * R).val rounds (x * R).val = .ok (if x = 0 then none else some (x⁻¹ * R).val) := by
  have hpr : p.Prime := Fact.out
  by_cases hx : x = 0
  · rw [if_pos hx, hx, zero_mul, ZMod.val_zero]
    rfl
  · rw [if_neg hx]
    have hlt := ZMod.val_lt (x * R)
    obtain ⟨y, e, hy, h⟩ := C129_quotient hp (ZMod.val_lt (R * R))
      (fun h => mul_ne_zero hx hR ((ZMod.val_eq_zero _).1 h)) hlt hbits hr
    rw [e]
    congr 2
    rw [ZMod.natCast_zmod_val, ZMod.natCast_zmod_val] at h
    have : (y : ZMod p) = x⁻¹ * R := by
      refine mul_left_cancel₀ (mul_ne_zero hx hR) ?_
      rw [h]
      field_simp
    rw [← this, ZMod.val_natCast, Nat.mod_eq_of_lt hy]

end

/-! ## Examples -/

/-- All inverses modulo 13, with the Montgomery constant 16 = 3. -/
example : (List.range 13).map (fun x => arkInverse 13 (3 * 3) 9 (x * 3 % 13)) =
    [none, some 1, some 7, some 9, some 10, some 8, some 11, some 2, some 5, some 3, some 4, some 6, some 12].map
      fun o => Outcome.ok (o.map fun y => y * 3 % 13) := by
  decide +kernel

theorem three_ne_zero_thirteen : (3 : ZMod 13) ≠ 0 := by decide

/-- That field meets the hypotheses of `C129_inverse`. -/
example (x : ZMod 13) :
    have : Fact (Nat.Prime 13) := ⟨by norm_num⟩
    arkInverse 13 ((3 : ZMod 13) * 3).val 9 (x * 3).val = .ok (if x = 0 then none else some (x⁻¹ * 3).val) :=
  have : Fact (Nat.Prime 13) := ⟨by norm_num⟩
  C129_inverse (by norm_num) three_ne_zero_thirteen x (bits := 4) (by norm_num) le_rfl

/-- With a modulus that is not prime, the loop has not ended after 100 rounds. -/
example : arkInverse 15 1 100 5 = .err () := by decide +kernel

end Verif
