import Verif.Model.SynthesisHelper
import Verif.Lemmas.SynthesisHash

/-! Helper lemmas for the helper circuit as rank-1 constraints. -/

set_option linter.unusedSectionVars false
set_option linter.unusedVariables false

namespace Verif

section

variable {p : ℕ} [Fact p.Prime] {blake : List BoolV → Bytes → Synth p (List BoolV)}

/-! ### shape -/

theorem alike_blakeBitsV (hb : ∀ m b, Alike (blake m b) (blake m b)) (m : List BoolV) (l : UInt16)
    (q : Bytes) : Alike (blakeBitsV blake m l q) (blakeBitsV blake m l q) := by
  unfold blakeBitsV
  split
  · exact alike_panic _
  · exact (alike_mapM (forall₂_same' (fun _ => hb _ _) _)).bind fun _ => alike_pure _

theorem keeps_blakeBitsV (hb : ∀ m b, KeepsInputs (blake m b)) (m : List BoolV) (l : UInt16)
    (q : Bytes) : KeepsInputs (blakeBitsV blake m l q) := by
  unfold blakeBitsV
  split
  · exact keeps_panic
  · exact (keeps_mapM (fun _ => hb _ _) _).bind fun _ => keeps_pure _

theorem follows_blakeBitsV (hb : ∀ m b, SetupFollows (blake m b) (blake m b)) (m : List BoolV) (l : UInt16)
    (q : Bytes) : SetupFollows (blakeBitsV blake m l q) (blakeBitsV blake m l q) := by
  unfold blakeBitsV
  split
  · exact follows_panic _
  · exact (follows_mapM (forall₂_same' (fun _ => hb _ _) _)).bind fun _ => follows_pure _

theorem alike_helperRound (hb : ∀ m b, Alike (blake m b) (blake m b)) {m m' : List (Option Bool)}
    (h : m.length = m'.length) : Alike (helperRound blake m) (helperRound blake m') :=
  (alike_constrainBool h).bind fun _ => (alike_blakeBitsV hb _ _ _).bind fun _ => alike_pure _

theorem keeps_helperRound (hb : ∀ m b, KeepsInputs (blake m b)) (m : List (Option Bool)) :
    KeepsInputs (helperRound blake m) :=
  (keeps_mapM (fun _ => keeps_boolWitness _) _).bind fun _ => (keeps_blakeBitsV hb _ _ _).bind fun _ =>
    keeps_pure _

theorem follows_helperRound (hb : ∀ m b, SetupFollows (blake m b) (blake m b)) {m m' : List (Option Bool)}
    (h : m.length = m'.length) : SetupFollows (helperRound blake m) (helperRound blake m') :=
  (follows_constrainBool h).bind fun _ => (follows_blakeBitsV hb _ _ _).bind fun _ => follows_pure _

/-! ### what the constraints imply -/

theorem sound_blakeBitsV {ρ : R1Var → ZMod p} {K : Blake2sCore} {m : List BoolV} {ts : List Bool}
    (hb : ∀ b, Sound ρ (blake m b) fun r => List.Forall₂ (BitIs ρ) r (K.evaluate ts b))
    (hS : ∀ b, Alike (blake m b) (blake m b)) (l : UInt16) (q : Bytes) :
    Sound ρ (blakeBitsV blake m l q) fun r => ∃ xs, hashToBitsBlake K ts l q = .ok xs ∧
      List.Forall₂ (BitIs ρ) r xs := by
  unfold blakeBitsV hashToBitsBlake
  split
  · exact sound_panic
  · refine (sound_mapM (fun i => hb _) (fun _ => hS _) _).bind
      (fun _ => alike_pure _) fun bs hbs => sound_pure ⟨_, rfl, ?_⟩
    generalize List.range (l / 256).toNat = is at hbs
    induction hbs with
    | nil => exact .nil
    | cons h2 _ ih =>
      rw [List.flatten_cons, List.flatMap_cons]
      exact forall₂_append' h2 ih

theorem sound_helperRound {ρ : R1Var → ZMod p} (h1 : ρ .one = 1) {K : Blake2sCore}
    (hb : ∀ m ts b, 8 ∣ m.length → List.Forall₂ (BitIs ρ) m ts →
      Sound ρ (blake m b) fun r => List.Forall₂ (BitIs ρ) r (K.evaluate ts b))
    (hS : ∀ m b, Alike (blake m b) (blake m b)) (m : List (Option Bool)) :
    Sound ρ (helperRound blake m) fun r => 8 ∣ m.length → ∃ ts xs, ts.length = m.length ∧
      hashToBitsBlake K ts 512 SIG_DOMAIN = .ok xs ∧ List.Forall₂ (BitIs ρ) r.1 ts ∧
      List.Forall₂ (BitIs ρ) r.2 xs := by
  by_cases hd : 8 ∣ m.length
  · refine (sound_constrainBool h1 m).bind (fun _ => (alike_blakeBitsV hS _ _ _).bind fun _ => alike_pure _)
      fun bits hbits => ?_
    obtain ⟨ts, hts, hl⟩ := hbits
    refine (sound_blakeBitsV (fun b => hb bits ts b (by rw [hts.length_eq, hl]; exact hd) hts) (hS _) _ _).bind
      (fun _ => alike_pure _) fun r hr => sound_pure fun _ => ?_
    obtain ⟨xs, hx, hr⟩ := hr
    exact ⟨ts, xs, hl, hx, hts, hr⟩
  · exact fun _ _ _ _ h => absurd h hd

/-! ### running them -/

theorem step_witnessBits {cs : ConstraintSystem p} (hg : cs.Good) (ts : List Bool) :
    Step cs (constrainBool (ts.map some)) fun c bs => List.Forall₂ (BitAt c) bs ts := by
  refine step_mapM (At := BitAt) (vs := ts) (fun _ _ _ _ ga ea ha => ha.ext ga ea) hg ?_
  rw [List.forall₂_map_left_iff]
  exact forall₂_same' (fun t c hc _ => (step_boolWitness hc fun _ => rfl).mono fun _ _ _ h => h.1) ts

theorem step_blakeBitsV {K : Blake2sCore} {cs : ConstraintSystem p} (hg : cs.Good) (hs : cs.setup = false)
    {m : List BoolV} {ts : List Bool} (hm : List.Forall₂ (BitAt cs) m ts)
    (hb : ∀ b {c : ConstraintSystem p}, c.Good → c.setup = false → List.Forall₂ (BitAt c) m ts →
      Step c (blake m b) fun c' r => List.Forall₂ (BitAt c') r (K.evaluate ts b))
    {l : UInt16} {q : Bytes} {xs : List Bool} (hx : hashToBitsBlake K ts l q = .ok xs) :
    Step cs (blakeBitsV blake m l q) fun c r => List.Forall₂ (BitAt c) r xs := by
  unfold hashToBitsBlake at hx
  unfold blakeBitsV
  by_cases h0 : l % 256 ≠ 0
  · rw [if_pos h0] at hx; cases hx
  · rw [if_neg h0] at hx ⊢
    have hxs := (Outcome.ok.inj hx).symm
    refine (step_mapM (At := fun c b v => List.Forall₂ (BitAt c) b v)
      (vs := (List.range (l / 256).toNat).map fun i =>
        K.evaluate ts (blake2xsParams l (UInt32.ofNat i) q).parameters)
      (fun a c b v hg he h => bitAts_ext h hg he) hg ?_).bind fun c bs g e hb => step_pure g ?_
    · rw [List.forall₂_map_right_iff]
      refine forall₂_same' (fun i c gc ec => ?_) _
      exact hb _ gc (ec.setup.trans hs) (bitAts_ext hm hg ec)
    · rw [hxs, List.flatMap_def]
      generalize (List.range (l / 256).toNat).map _ = vs at hb
      induction hb with
      | nil => exact .nil
      | cons h1 _ ih =>
        rw [List.flatten_cons, List.flatten_cons]
        exact forall₂_append' h1 ih

theorem step_helperRound {K : Blake2sCore}
    (hb : ∀ {c : ConstraintSystem p} {m : List BoolV} {ts : List Bool} {b : Bytes}, c.Good →
      c.setup = false → 8 ∣ m.length → List.Forall₂ (BitAt c) m ts →
      Step c (blake m b) fun c' r => List.Forall₂ (BitAt c') r (K.evaluate ts b))
    {cs : ConstraintSystem p} (hg : cs.Good) (hs : cs.setup = false) {ts xs : List Bool}
    (hd : 8 ∣ ts.length) (hx : hashToBitsBlake K ts 512 SIG_DOMAIN = .ok xs) :
    Step cs (helperRound blake (ts.map some)) fun c r => List.Forall₂ (BitAt c) r.1 ts ∧
      List.Forall₂ (BitAt c) r.2 xs := by
  refine (step_witnessBits hg ts).bind fun c1 bits g1 e1 hbits => ?_
  refine (step_blakeBitsV g1 (e1.setup.trans hs) hbits (fun b c gc sc hm =>
    hb gc sc (by rw [hbits.length_eq]; exact hd) hm) hx).bind fun c2 r g2 e2 hr => step_pure g2 ?_
  exact ⟨bitAts_ext hbits g1 e2, hr⟩

end

end Verif
