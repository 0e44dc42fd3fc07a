import Verif.Lemmas.SynthesisEnd
import Verif.Props.Synthesis

/-! C112, continued: the prover's own assignment, for right and for wrong witnesses.  The tests
of `bitmap.rs` and `y_to_bit.rs` assert `is_satisfied` on a few of them. -/

set_option linter.unusedSectionVars false

namespace Verif

section

variable {p : ℕ} [Fact p.Prime]

/-- C112: the prover's run on any triple for a point of G1 ends, and its assignment satisfies the
constraints exactly if the triple is on the curve. -/
theorem C112_sign_g1_decides (hp : p ≠ 2) (b : ZMod p) (P : ProjVar (ZMod p)) :
    ∃ r, yToBitG1Circuit b (P.x, P.y, P.z) (.new p false) = .ok r ∧
      (r.2.Sat r.2.rho ↔ P.OnCurve b) := by
  obtain ⟨r0, hr0⟩ := (C112_setup hp).2.2.1 b (P.x, P.y, P.z)
  let s : ConstraintSystem p := .mk true 0 3 [] [] []
  let s' : ConstraintSystem p := .mk false 0 3 [] [P.x, P.y, P.z] []
  obtain ⟨r, hr, hg⟩ := Ends.bind
    (ends_allocPointG1Rest b (lcVar (.wit 0)) (lcVar (.wit 1)) (lcVar (.wit 2)))
    (alike_allocPointG1Rest _ _ _ _) (fun v => ends_normalize (.var v.2.1)) s s' r0 rfl rfl rfl rfl hr0
  have hr : yToBitG1Circuit b (P.x, P.y, P.z) (.new p false) = .ok r := hr
  refine ⟨r, hr, fun hsat => ?_, fun hP => ?_⟩
  · obtain ⟨u, _, hr'⟩ := synth_bind_ok.1 hr
    obtain ⟨t, _, h2, _⟩ := sound_normalize (ρ := r.2.rho) rfl _ _ r hr' hsat
    exact ((C112_sign_g1 hp hr P t).1 ⟨r.2.rho, rfl, hsat, hg.rho_wit (i := 0) (by decide : 0 < 3),
      hg.rho_wit (i := 1) (by decide : 1 < 3), hg.rho_wit (i := 2) (by decide : 2 < 3), h2⟩).1
  · obtain ⟨r', hr', hsat, _⟩ := C112_sign_g1_run hp hP
    rw [hr] at hr'
    cases hr'
    exact hsat

theorem fp2Witness_prover (v : ZMod p × ZMod p) (i : ℕ) (x y : List (ZMod p)) (k : List (R1Constraint p)) (n : ℕ) :
    fp2Witness (fun _ => .ok v) (.mk false i n x y k) = .ok (⟨lcVar (.wit n), lcVar (.wit (n + 1))⟩,
      .mk false i (n + 2) x ((y ++ [v.1]) ++ [v.2]) k) := rfl

theorem fp2Witness_setup (f : ConstraintSystem p → Outcome SynthErr (ZMod p × ZMod p)) (i : ℕ)
    (x y : List (ZMod p)) (k : List (R1Constraint p)) (n : ℕ) :
    fp2Witness f (.mk true i n x y k) = .ok (⟨lcVar (.wit n), lcVar (.wit (n + 1))⟩,
      .mk true i (n + 2) x y k) := rfl

theorem signG2_grows (hp : p ≠ 2) (nr b0 b1 : ZMod p)
    (P : (ZMod p × ZMod p) × (ZMod p × ZMod p) × (ZMod p × ZMod p)) :
    ∃ r, yToBitG2Circuit nr b0 b1 P (.new p false) = .ok r ∧
      (ConstraintSystem.mk false 0 6 [] [P.1.1, P.1.2, P.2.1.1, P.2.1.2, P.2.2.1, P.2.2.2] []).Grows r.2 := by
  have h : ∀ s, yToBitG2Circuit nr b0 b1 P (.new p s) =
      ((allocPointG2Rest nr b0 b1 ⟨lcVar (.wit 0), lcVar (.wit 1)⟩
        ⟨lcVar (.wit 2), lcVar (.wit 3)⟩ ⟨lcVar (.wit 4), lcVar (.wit 5)⟩) >>= fun v =>
          yToBitG2 (.var v.2.1.c0) (.var v.2.1.c1))
        (.mk s 0 6 [] (if s then [] else [P.1.1, P.1.2, P.2.1.1, P.2.1.2, P.2.2.1, P.2.2.2]) []) := by
    intro s
    unfold yToBitG2Circuit
    rw [synth_bind_def, synth_bind_def]
    refine congrArg (fun o => Outcome.bind o _) ?_
    unfold allocPointG2
    cases s with
    | true =>
      rw [synth_bind_def, ConstraintSystem.new, fp2Witness_setup, Outcome.bind_ok, synth_bind_def,
        fp2Witness_setup, Outcome.bind_ok, synth_bind_def, fp2Witness_setup, Outcome.bind_ok]
      rfl
    | false =>
      rw [synth_bind_def, ConstraintSystem.new, fp2Witness_prover, Outcome.bind_ok, synth_bind_def,
        fp2Witness_prover, Outcome.bind_ok, synth_bind_def, fp2Witness_prover, Outcome.bind_ok]
      rfl
  obtain ⟨r0, hr0⟩ := (C112_setup hp).2.2.2 nr b0 b1 P
  rw [h] at hr0
  rw [h]
  have hf := Ends.bind (ends_allocPointG2Rest nr b0 b1 ⟨lcVar (.wit 0), lcVar (.wit 1)⟩
        ⟨lcVar (.wit 2), lcVar (.wit 3)⟩ ⟨lcVar (.wit 4), lcVar (.wit 5)⟩) (alike_allocPointG2Rest _ _ _ _ _ _)
    (fun v => ends_yToBitG2 (.var v.2.1.c0) (.var v.2.1.c1))
  exact hf (.mk true 0 6 [] [] []) _ r0 rfl rfl rfl rfl hr0

/-- C112: likewise for a triple over the quadratic extension and the curve of the public keys. -/
theorem C112_sign_g2_decides (P : ProjVar Fq2) :
    ∃ r, yToBitG2Circuit (-5) g2CoeffB.re g2CoeffB.im
        ((P.x.re, P.x.im), (P.y.re, P.y.im), (P.z.re, P.z.im)) (.new FQ_MODULUS false) = .ok r ∧
      (r.2.Sat r.2.rho ↔ P.OnCurve g2CoeffB) := by
  have hp : FQ_MODULUS ≠ 2 := by decide +kernel
  obtain ⟨r, hr, hg⟩ := signG2_grows hp (-5) g2CoeffB.re g2CoeffB.im
    ((P.x.re, P.x.im), (P.y.re, P.y.im), (P.z.re, P.z.im))
  refine ⟨r, hr, fun hsat => ?_, fun hP => ?_⟩
  · obtain ⟨u, _, hr'⟩ := synth_bind_ok.1 hr
    obtain ⟨w, h2, _⟩ := sound_yToBitG2 (ρ := r.2.rho) rfl _ _ _ r hr' hsat
    refine ((C112_sign_g2 hr P w.yBit).1 ⟨r.2.rho, rfl, hsat, ?_, h2⟩).1
    rw [hg.rho_wit (i := 0) (by decide : 0 < 6), hg.rho_wit (i := 1) (by decide : 1 < 6),
      hg.rho_wit (i := 2) (by decide : 2 < 6), hg.rho_wit (i := 3) (by decide : 3 < 6),
      hg.rho_wit (i := 4) (by decide : 4 < 6), hg.rho_wit (i := 5) (by decide : 5 < 6)]
    rfl
  · obtain ⟨r', hr', hsat, _⟩ := C112_sign_g2_run hP
    rw [hr] at hr'
    cases hr'
    exact hsat

/-- C112: the prover's run on any bitmap.  It ends unless overflow is checked and there are 256
occurrences, and its assignment satisfies the constraints exactly if the occurrences are fewer than 256
and at most the maximum, and that is below half the modulus. -/
theorem C112_bitmap_decides (hp : p ≠ 2) (o : Bool) {bits : List Bool} (hne : bits ≠ []) {m : ℕ}
    (hm : m < p) {value : Bool} (hlen : bits.length < p) :
    (o = true → 256 ≤ bits.count value →
      bitmapCircuit (p := p) o (bits.map some) m value (.new p false) = .panic) ∧
    ((o = false ∨ bits.count value < 256) →
      ∃ r, bitmapCircuit o (bits.map some) m value (.new p false) = .ok r ∧
        (r.2.Sat r.2.rho ↔ bits.count value < 256 ∧ bits.count value ≤ m ∧ m < halfOf p)) := by
  refine ⟨fun ho h => by rw [ho]; exact C112_bitmap_panics h, fun ho => ?_⟩
  obtain ⟨r0, hr0⟩ := ((C112_setup (p := p) hp).2.1 o (bits.map some) m value).2 (by simpa using hne)
  have hc : countWitness o value bits 0 = .ok (UInt8.ofNat (bits.count value)) := by
    cases o with
    | false => rw [countWitness_wrap]; simp
    | true => rw [countWitness_checked, if_pos (by simpa using ho)]; simp
  have hb := (step_boolWitnesses (f := fun b (_ : ConstraintSystem p) => Outcome.unwrap b)
      (l := bits.map some) (ts := bits) (new_good p false) (fun _ => by
        rw [List.forall₂_map_left_iff]
        exact forall₂_same' (fun _ _ => rfl) bits) (by simp)).andRun
          (R := fun bs => bs = (List.range (bits.map some).length).map fun i =>
            .is (.wit ((ConstraintSystem.new p false).numWit + i))) fun r h =>
          (bits_vars (fun b _ => Outcome.unwrap b) _ _ r h).1
  obtain ⟨u, hu, gu, eu, hbs, hvar⟩ := hb
  obtain ⟨w, hw, gw, ew, hv⟩ := step_newWitness (f := fun _ => .ok (m : ZMod p)) (x := (m : ZMod p)) gu
    fun _ => rfl
  have hcount : countBits o value u.1 w.2 = .ok (UInt8.ofNat (bits.count value)) := by
    have hset : w.2.setup = false := ew.setup.trans eu.setup
    unfold countBits
    rw [hset, if_neg (by simp), bitAts_value (bitAts_ext hbs gu ew) hset, Outcome.bind_ok, hc]
  obtain ⟨u0, hu0, hr0⟩ := synth_bind_ok.1 hr0
  obtain ⟨w0, hw0, hr0⟩ := synth_bind_ok.1 hr0
  obtain ⟨a1, a2, a3, a4, a5, _⟩ := alike_bits (fun b _ => Outcome.unwrap b)
    (fun b _ => Outcome.unwrap b) (l := bits.map some) (l' := bits.map some) rfl
    (.new p true) (.new p false) u0 u rfl rfl hu0 hu
  obtain ⟨b1, b2, b3, b4, b5, _⟩ := alike_newWitness _ _ u0.2 u.2 w0 w a2 a3 hw0 hw
  rw [a1, b1] at hr0
  obtain ⟨r, hr, hg, ⟨a, ha⟩, hmem⟩ := maxOccurrences_ends (b4.trans a4) (b5.trans a5) b2 b3 hr0 hcount
  have hrun : bitmapCircuit o (bits.map some) m value (.new p false) = .ok r :=
    synth_bind_ok.2 ⟨u, hu, synth_bind_ok.2 ⟨w, hw, hr⟩⟩
  refine ⟨r, hrun, fun hsat => ?_, fun h => ?_⟩
  · have hset : w.2.setup = false := b5.trans a5
    obtain ⟨_, _, _, k4, _⟩ := alike_maxOccurrences o o _ _ _ w.2 w.2 r r rfl rfl hr hr
    have he : w.2.Ext r.2 := hg.ext k4 (gw.inst hset) (gw.wit hset)
    have hset' : r.2.setup = false := k4.trans hset
    have hbits : List.Forall₂ (BitIs r.2.rho) u.1 bits :=
      (bitAts_ext (bitAts_ext hbs gu ew) gw he).imp fun _ _ h => h.bitIs hset'
    obtain ⟨occ, ho⟩ := sound_maxOccurrences (ρ := r.2.rho) rfl o hbits _ value _ r hr hsat
    have hexact := (C38_exact hp bits _ value hlen).1 ⟨occ, ho⟩
    rw [(hv.ext gw he).rho hset', ZMod.val_natCast_of_lt hm] at hexact
    refine ⟨?_, hexact⟩
    have hlast := hsat _ hmem
    unfold R1Constraint.Holds at hlast
    rw [evalLc_occurrences rfl value hbits, occurrencesLc_eq, evalLc_lcVar, evalLc_lcVar] at hlast
    have hval : r.2.rho (.wit w.2.numWit) = (((UInt8.ofNat (bits.count value)).toNat : ℕ) : ZMod p) := by
      simp only [ConstraintSystem.rho, ha, List.getD_eq_getElem?_getD]
      rw [List.getElem?_append_right (by rw [gw.wit hset]), gw.wit hset, Nat.sub_self]
      rfl
    rw [hval, show r.2.rho .one = 1 from rfl, mul_one] at hlast
    have hcl : bits.count value < p := lt_of_le_of_lt List.count_le_length hlen
    have hmod : (UInt8.ofNat (bits.count value)).toNat = bits.count value % 256 := UInt8.toNat_ofNat'
    rw [hmod] at hlast
    have := congrArg ZMod.val hlast
    rw [ZMod.val_natCast_of_lt hcl, ZMod.val_natCast_of_lt (lt_of_le_of_lt (Nat.mod_le _ _) hcl)] at this
    omega
  · obtain ⟨r', hr', hsat⟩ := C112_bitmap_run hp o hne hlen h.1 h.2.1 h.2.2
    rw [hrun] at hr'
    cases hr'
    exact hsat

end

/-! ### concrete cases -/

/-- The tests `four_zeros_not_allowed` and `three_zeros_allowed`, `crates/bls-gadgets/src/bitmap.rs:182-199`,
modulo 31 (half of it is 15). -/
instance fact_prime_31 : Fact (Nat.Prime 31) := ⟨by decide⟩

example : ∃ r, bitmapCircuit (p := 31) true ([false, false, true, false, false].map some) 3 false
    (.new 31 false) = .ok r ∧ ¬ r.2.Sat r.2.rho := by
  obtain ⟨r, h, hs⟩ := (C112_bitmap_decides (p := 31) (m := 3) (value := false)
    (bits := [false, false, true, false, false]) (by decide) true (by decide) (by decide)
    (by decide)).2 (.inr (by decide))
  exact ⟨r, h, fun hsat => absurd (hs.1 hsat) (by decide)⟩

example : ∃ r, bitmapCircuit (p := 31) true ([false, true, true, false, false].map some) 3 false
    (.new 31 false) = .ok r ∧ r.2.Sat r.2.rho := by
  obtain ⟨r, h, hs⟩ := (C112_bitmap_decides (p := 31) (m := 3) (value := false)
    (bits := [false, true, true, false, false]) (by decide) true (by decide) (by decide)
    (by decide)).2 (.inr (by decide))
  exact ⟨r, h, hs.2 (by decide)⟩

/-- A triple off the curve `y ^ 2 = x ^ 3 + 1` modulo 7, and one on it. -/
example : (∃ r, yToBitG1Circuit (p := 7) 1 (1, 1, 1) (.new 7 false) = .ok r ∧ ¬ r.2.Sat r.2.rho) ∧
    ∃ r, yToBitG1Circuit (p := 7) 1 (2, 3, 1) (.new 7 false) = .ok r ∧ r.2.Sat r.2.rho := by
  constructor
  · obtain ⟨r, h, hs⟩ := C112_sign_g1_decides (p := 7) (by decide) 1 ⟨1, 1, 1⟩
    exact ⟨r, h, fun hsat => absurd (hs.1 hsat) (by unfold ProjVar.OnCurve; decide)⟩
  · obtain ⟨r, h, hs⟩ := C112_sign_g1_decides (p := 7) (by decide) 1 ⟨2, 3, 1⟩
    exact ⟨r, h, hs.2 (by unfold ProjVar.OnCurve; decide)⟩

/-- The triple of zeros is on the curve, `(0, 0, 1)` is not. -/
example : (∃ r, yToBitG2Circuit (-5) g2CoeffB.re g2CoeffB.im ((0, 0), (0, 0), (0, 0))
      (.new FQ_MODULUS false) = .ok r ∧ r.2.Sat r.2.rho) ∧
    ∃ r, yToBitG2Circuit (-5) g2CoeffB.re g2CoeffB.im ((0, 0), (0, 0), (1, 0))
      (.new FQ_MODULUS false) = .ok r ∧ ¬ r.2.Sat r.2.rho := by
  constructor
  · obtain ⟨r, h, hs⟩ := C112_sign_g2_decides ⟨⟨0, 0⟩, ⟨0, 0⟩, ⟨0, 0⟩⟩
    exact ⟨r, h, hs.2 (by unfold ProjVar.OnCurve; decide +kernel)⟩
  · obtain ⟨r, h, hs⟩ := C112_sign_g2_decides ⟨⟨0, 0⟩, ⟨0, 0⟩, ⟨1, 0⟩⟩
    exact ⟨r, h, fun hsat => absurd (hs.1 hsat) (by unfold ProjVar.OnCurve; decide +kernel)⟩

end Verif
