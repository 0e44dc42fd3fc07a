import Verif.Lemmas.SynthesisHelper
import Verif.Props.SynthesisProver
import Verif.Props.Helper

/-!
# The helper circuit as rank-1 constraints

C120: the constraints that `HashToBits::generate_constraints` emits are sound for the relation of C83; the run of
the prover succeeds for all messages, and its public inputs are those the epoch circuit computes; the setup with
`HashToBits::empty` has the same constraints; hence proofs for messages and their hashes are accepted, and provers
who combine the published elements cannot use anything but the hash as the XOF.
-/

set_option linter.unusedSectionVars false
set_option exponentiation.threshold 800

namespace Verif

/-- What the BLAKE2s gadget has to imply. -/
def BlakeSoundAt (blake : List BoolV → Bytes → Synth FR_MODULUS (List BoolV)) (ρ : R1Var → ZMod FR_MODULUS)
    (K : Blake2sCore) : Prop :=
  ∀ m ts b, 8 ∣ m.length → List.Forall₂ (BitIs ρ) m ts →
    Sound ρ (blake m b) fun r => List.Forall₂ (BitIs ρ) r (K.evaluate ts b)

/-- What runs of the BLAKE2s gadget have to do. -/
def BlakeRunsAt (blake : List BoolV → Bytes → Synth FR_MODULUS (List BoolV)) (K : Blake2sCore) : Prop :=
  ∀ (c : ConstraintSystem FR_MODULUS) (m : List BoolV) (ts : List Bool) (b : Bytes), c.Good →
    c.setup = false → 8 ∣ m.length → List.Forall₂ (BitAt c) m ts →
    Step c (blake m b) fun c' r => List.Forall₂ (BitAt c') r (K.evaluate ts b)

theorem bitLength_fr : bitLength FR_MODULUS = 253 := by decide +kernel

theorem fr_modulus_ne_two : FR_MODULUS ≠ 2 := by decide +kernel

/-- The public inputs of the verifier of the helper: what the epoch circuit computes from its CRH and XOF bits. -/
noncomputable def crhXofInputs (crhs xofs : List (List Bool)) : List (ZMod FR_MODULUS) :=
  (leChunks crhs.flatten 252 ++ leChunks xofs.flatten 252).map (inputValue FR_MODULUS)

section

variable {blake : List BoolV → Bytes → Synth FR_MODULUS (List BoolV)} {K : Blake2sCore}

theorem alike_helper (hS : ∀ m b, Alike (blake m b) (blake m b)) {h h' : HashToBits} (hs : h.shape = h'.shape) :
    Alike (h.generateConstraints blake) (h'.generateConstraints blake) := by
  refine (alike_mapM ?_).bind fun _ => (alike_multipack _ _ _).bind fun _ => (alike_multipack _ _ _).bind
    fun _ => alike_pure _
  have : List.Forall₂ (fun a b => a = b) (h.messageBits.map List.length) (h'.messageBits.map List.length) := by
    rw [List.forall₂_eq_eq_eq]; exact hs
  rw [List.forall₂_map_left_iff, List.forall₂_map_right_iff] at this
  exact this.imp fun _ _ e => alike_helperRound hS e

theorem follows_helper (hU : ∀ m b, SetupFollows (blake m b) (blake m b)) {h h' : HashToBits}
    (hs : h.shape = h'.shape) :
    SetupFollows (h.generateConstraints blake) (h'.generateConstraints blake) := by
  refine (follows_mapM ?_).bind fun _ => (follows_multipack _ _ _).bind fun _ => (follows_multipack _ _ _).bind
    fun _ => follows_pure _
  have : List.Forall₂ (fun a b => a = b) (h.messageBits.map List.length) (h'.messageBits.map List.length) := by
    rw [List.forall₂_eq_eq_eq]; exact hs
  rw [List.forall₂_map_left_iff, List.forall₂_map_right_iff] at this
  exact this.imp fun _ _ e => follows_helperRound hU e

/-- C120: the public inputs are the packed elements, first those of the messages, and nothing else. -/
theorem C120_inputs (hk : ∀ m b, KeepsInputs (blake m b)) {h : HashToBits} {cs : ConstraintSystem FR_MODULUS}
    {r : (List (LinComb FR_MODULUS) × List (LinComb FR_MODULUS)) × ConstraintSystem FR_MODULUS}
    (hr : h.generateConstraints blake cs = .ok r) :
    r.1.1 ++ r.1.2 = (List.range (r.1.1 ++ r.1.2).length).map (fun i => lcVar (.inst (cs.numInst + i))) ∧
      r.2.numInst = cs.numInst + (r.1.1 ++ r.1.2).length := by
  obtain ⟨x, hx, hr⟩ := synth_bind_ok.1 hr
  obtain ⟨y, hy, hr⟩ := synth_bind_ok.1 hr
  obtain ⟨z, hz, hr⟩ := synth_bind_ok.1 hr
  cases hr
  have e1 := (keeps_mapM (fun m => keeps_helperRound hk m) _ _ _ hx).1
  obtain ⟨y1, y2⟩ := inputs_multipack hy
  obtain ⟨z1, z2⟩ := inputs_multipack hz
  rw [e1] at y1 y2
  rw [y2] at z1 z2
  dsimp only
  refine ⟨?_, by rw [z2, List.length_append]; omega⟩
  rw [List.length_append, List.range_add, List.map_append, ← y1, List.map_map]
  congr 1
  rw [z1]
  simp only [List.length_map, List.length_range, Function.comp_def, Nat.add_assoc]

/-- C120, soundness: in every satisfying assignment, whatever the mode and the values suggested, the public inputs
pack messages of the lengths of the circuit, followed by their hashes. -/
theorem C120_sound {ρ : R1Var → ZMod FR_MODULUS} (h1 : ρ .one = 1) (hb : BlakeSoundAt blake ρ K)
    (hS : ∀ m b, Alike (blake m b) (blake m b)) {h : HashToBits} (hd : ∀ m ∈ h.messageBits, 8 ∣ m.length)
    {cs : ConstraintSystem FR_MODULUS}
    {r : (List (LinComb FR_MODULUS) × List (LinComb FR_MODULUS)) × ConstraintSystem FR_MODULUS}
    (hr : h.generateConstraints blake cs = .ok r) (hs : r.2.Sat ρ) :
    ∃ messages sat, messages.map List.length = h.messageBits.map List.length ∧
      helperCircuit K messages (r.1.1.map (evalLc ρ)) (r.1.2.map (evalLc ρ)) = .ok sat ∧ sat := by
  refine Sound.bind (R := fun q : List (LinComb FR_MODULUS) × List (LinComb FR_MODULUS) => ∃ messages sat,
      messages.map List.length = h.messageBits.map List.length ∧
      helperCircuit K messages (q.1.map (evalLc ρ)) (q.2.map (evalLc ρ)) = .ok sat ∧ sat)
    (sound_mapM (fun m => sound_helperRound h1 hb hS m) (fun m => alike_helperRound hS rfl) h.messageBits)
    (fun _ => (alike_multipack _ _ _).bind fun _ => (alike_multipack _ _ _).bind fun _ => alike_pure _)
    (fun rounds hrounds => ?_) cs r hr hs
  have key : ∃ ms xs : List (List Bool), ms.map List.length = h.messageBits.map List.length ∧
      Outcome.mapM (fun m => hashToBitsBlake K m 512 SIG_DOMAIN) ms = .ok xs ∧
      List.Forall₂ (BitIs ρ) (rounds.map (·.1)).flatten ms.flatten ∧
      List.Forall₂ (BitIs ρ) (rounds.map (·.2)).flatten xs.flatten := by
    clear hr hs
    generalize h.messageBits = l at hd hrounds
    induction hrounds with
    | nil => exact ⟨[], [], rfl, rfl, .nil, .nil⟩
    | cons h2 _ ih =>
      obtain ⟨ts, x, t1, t2, t3, t4⟩ := h2 (hd _ List.mem_cons_self)
      obtain ⟨ms, xs, i1, i2, i3, i4⟩ := ih fun m hm => hd m (List.mem_cons_of_mem _ hm)
      refine ⟨ts :: ms, x :: xs, by simp [t1, i1], ?_, ?_, ?_⟩
      · rw [Outcome.mapM_eq_ok_iff] at i2 ⊢
        exact .cons t2 i2
      · exact forall₂_append' t3 i3
      · exact forall₂_append' t4 i4
  obtain ⟨ms, xs, k1, k2, k3, k4⟩ := key
  refine (sound_multipack h1 true FR_CAPACITY k3).bind (fun _ => (alike_multipack _ _ _).bind fun _ => alike_pure _)
    fun crh hcrh => ?_
  refine (sound_multipack h1 true FR_CAPACITY k4).bind (fun _ => alike_pure _) fun xof hxof => sound_pure ?_
  rw [bitLength_fr] at hcrh hxof
  refine ⟨ms, multipackC 253 252 ms.flatten (crh.map (evalLc ρ)) ∧ multipackC 253 252 xs.flatten (xof.map (evalLc ρ)),
    k1, ?_, hcrh, hxof⟩
  unfold helperCircuit helperBits
  rw [k2]
  rfl

theorem helper_hashes (K : Blake2sCore) (messages : List (List Bool)) :
    ∃ xofs, List.Forall₂ (fun m x => hashToBitsBlake K m 512 SIG_DOMAIN = .ok x) messages xofs := by
  induction messages with
  | nil => exact ⟨[], .nil⟩
  | cons m ms ih =>
    obtain ⟨x, hx, _⟩ := hashToBitsBlake_length K m
    obtain ⟨xs, hxs⟩ := ih
    exact ⟨x :: xs, .cons hx hxs⟩

theorem instVals_eq {c : ConstraintSystem FR_MODULUS} (hg : c.Good) (hs : c.setup = false)
    {ls : List (LinComb FR_MODULUS)} (h1 : ls = (List.range ls.length).map fun i => lcVar (.inst (0 + i)))
    (h2 : c.numInst = 0 + ls.length) {vs : List (ZMod FR_MODULUS)} (h : List.Forall₂ (LcAt c) ls vs) :
    c.instVals = vs := by
  have hl := hg.inst hs
  rw [h2, Nat.zero_add] at hl
  have hv := h.length_eq
  have hm : vs = ls.map (evalLc c.rho) := by
    clear h1 h2 hl hv
    induction h with
    | nil => rfl
    | cons h _ ih => rw [List.map_cons, ← ih, h.2 hs]
  rw [hm, h1, List.map_map]
  apply List.ext_getElem
  · simp [hl]
  · intro i h3 h4
    simp [ConstraintSystem.rho, List.getD_eq_getElem?_getD, List.getElem?_eq_getElem h3]

/-- C120: the run of the prover of the helper.  For all messages of whole bytes it succeeds, the values it assigns
satisfy all its constraints, and its public inputs are those the epoch circuit computes for these messages as
CRHs and their hashes as XOFs. -/
theorem C120_run (hb : BlakeRunsAt blake K) (hk : ∀ m b, KeepsInputs (blake m b)) {messages : List (List Bool)}
    (hd : ∀ m ∈ messages, 8 ∣ m.length) :
    ∃ r xofs, HashToBits.generateConstraints blake ⟨messages.map (·.map some)⟩ (.new FR_MODULUS false) = .ok r ∧
      List.Forall₂ (fun m x => hashToBitsBlake K m 512 SIG_DOMAIN = .ok x) messages xofs ∧
      r.2.instVals = crhXofInputs messages xofs ∧ r.2.numInst = (crhXofInputs messages xofs).length ∧
      r.2.Closed ∧ r.2.Sat r.2.rho := by
  obtain ⟨xofs, hx⟩ := helper_hashes K messages
  have hstep : Step (.new FR_MODULUS false)
      (HashToBits.generateConstraints blake ⟨messages.map (·.map some)⟩)
      fun c q => List.Forall₂ (LcAt c) (q.1 ++ q.2) (crhXofInputs messages xofs) := by
    refine (step_mapM (At := fun c r v => List.Forall₂ (BitAt c) r.1 v.1 ∧ List.Forall₂ (BitAt c) r.2 v.2)
      (vs := messages.zip xofs) (fun a c b v ga ea hh => ⟨bitAts_ext hh.1 ga ea, bitAts_ext hh.2 ga ea⟩)
      (new_good FR_MODULUS false) ?_).bind fun c1 rounds g1 e1 hrounds => ?_
    · rw [List.forall₂_map_left_iff]
      clear * - hx hd hb
      have hrun : ∀ t x, 8 ∣ t.length → hashToBitsBlake K t 512 SIG_DOMAIN = .ok x →
          ∀ c : ConstraintSystem FR_MODULUS, c.Good → (ConstraintSystem.new FR_MODULUS false).Ext c →
          Step c (helperRound blake (t.map some)) fun c' b => List.Forall₂ (BitAt c') b.1 t ∧
            List.Forall₂ (BitAt c') b.2 x :=
        fun t x ht hx c gc ec => step_helperRound (hb _ _ _ _) gc ec.setup ht hx
      induction hx with
      | nil => exact .nil
      | cons h1 _ ih =>
        exact .cons (hrun _ _ (hd _ List.mem_cons_self) h1)
          (ih fun m hm => hd m (List.mem_cons_of_mem _ hm))
    have hbits : List.Forall₂ (BitAt c1) (rounds.map (·.1)).flatten messages.flatten ∧
        List.Forall₂ (BitAt c1) (rounds.map (·.2)).flatten xofs.flatten := by
      clear * - hrounds hx
      induction hx generalizing rounds with
      | nil => cases hrounds; exact ⟨.nil, .nil⟩
      | cons h1 _ ih =>
        cases hrounds with
        | cons a b => exact ⟨forall₂_append' a.1 (ih _ b).1, forall₂_append' a.2 (ih _ b).2⟩
    refine (step_multipack fr_modulus_ne_two g1 true (by rw [bitLength_fr]; decide) hbits.1
      (C83_values _)).bind fun c2 crh g2 e2 hcrh => ?_
    refine (step_multipack fr_modulus_ne_two g2 true (by rw [bitLength_fr]; decide)
      (bitAts_ext hbits.2 g1 e2) (C83_values _)).bind fun c3 xof g3 e3 hxof => step_pure g3 ?_
    unfold crhXofInputs
    rw [List.map_append]
    exact forall₂_append' (hcrh.imp fun _ _ hl => hl.ext g2 e3) hxof
  obtain ⟨r, hr, hg, he, hls⟩ := hstep
  have hset : r.2.setup = false := he.setup
  obtain ⟨i1, i2⟩ := C120_inputs hk hr
  have hvals := instVals_eq hg hset i1 i2 hls
  exact ⟨r, xofs, hr, hx, hvals, by rw [← hg.inst hset, hvals], hg.closed, hg.sat hset⟩

/-- C120: the setup.  With any circuit of the same lengths, in particular `HashToBits::empty`, setup mode succeeds
with the same public inputs, variables and constraints. -/
theorem C120_setup (hb : BlakeRunsAt blake K) (hk : ∀ m b, KeepsInputs (blake m b))
    (hS : ∀ m b, Alike (blake m b) (blake m b)) (hU : ∀ m b, SetupFollows (blake m b) (blake m b))
    {h0 : HashToBits} {messages : List (List Bool)}
    (hd : ∀ m ∈ messages, 8 ∣ m.length) (hl : h0.messageBits.map List.length = messages.map List.length) :
    ∃ u r, h0.generateConstraints blake (.new FR_MODULUS true) = .ok u ∧
      HashToBits.generateConstraints blake ⟨messages.map (·.map some)⟩ (.new FR_MODULUS false) = .ok r ∧
      u.1 = r.1 ∧ SameShape u.2 r.2 ∧ u.2.Closed := by
  obtain ⟨r, _, hr, _, _, _, hc, _⟩ := C120_run hb hk hd
  have hsh : h0.shape = HashToBits.shape ⟨messages.map (·.map some)⟩ := by
    unfold HashToBits.shape
    rw [hl, List.map_map]
    exact List.map_congr_left fun m _ => by simp
  obtain ⟨u, hu, _⟩ := follows_helper hU hsh.symm (.new FR_MODULUS false) (.new FR_MODULUS true) r rfl rfl rfl hr
  obtain ⟨e1, e2⟩ := (alike_helper hS hsh).sameShape hu hr
  exact ⟨u, r, hu, hr, e1, e2, SameShape.closed ⟨e2.1.symm, e2.2.1.symm, e2.2.2.symm⟩ hc⟩

theorem empty_lengths {n : ℕ} {messages : List (List Bool)} (hn : messages.length = n)
    (hl : ∀ m ∈ messages, m.length = 384) :
    (HashToBits.empty 377 n).messageBits.map List.length = messages.map List.length := by
  subst hn
  rw [List.map_congr_left (g := fun _ => 384) (l := messages) hl, List.map_const']
  unfold HashToBits.empty
  rw [List.map_replicate, List.length_replicate]

variable {A1 A2 AT : Type} [AddCommGroup A1] [Module (ZMod FR_MODULUS) A1] [AddCommGroup A2]
  [Module (ZMod FR_MODULUS) A2] [CommGroup AT] [DecidableEq AT]

/-- C120: with the parameters of `trusted_setup` for `n` epochs, the proof of the helper for any `n` messages of
384 bits is accepted with the public inputs that the epoch circuit computes for these CRHs and the hashes. -/
theorem C120_complete (P : Pairing FR_MODULUS A1 A2 AT) (hb : BlakeRunsAt blake K)
    (hk : ∀ m b, KeepsInputs (blake m b)) (hS : ∀ m b, Alike (blake m b) (blake m b)) {n : ℕ}
    {messages xofs : List (List Bool)} (hn : messages.length = n) (hl : ∀ m ∈ messages, m.length = 384)
    (hx : List.Forall₂ (fun m x => hashToBitsBlake K m 512 SIG_DOMAIN = .ok x) messages xofs)
    {domain : ℕ → EvalDomain (ZMod FR_MODULUS)}
    (hD : ∀ u, (HashToBits.empty 377 n).generateConstraints blake (.new FR_MODULUS true) = .ok u →
      (domain u.2.domainSize).Valid)
    {td : Trapdoor (ZMod FR_MODULUS) A1 A2} {pk : GrothPk A1 A2}
    (hset : circuitSetup ((HashToBits.empty 377 n).generateConstraints blake) domain td = .ok pk)
    (rr z : ZMod FR_MODULUS) :
    ∃ proof, circuitProve (HashToBits.generateConstraints blake ⟨messages.map (·.map some)⟩) domain pk rr z =
        .ok proof ∧
      verifyProof P pk.vk proof (crhXofInputs messages xofs) = .ok true := by
  obtain ⟨r, xofs', hr, hx', hv, hi, hc, hsat⟩ := C120_run (messages := messages) hb hk
    (fun m hm => by rw [hl m hm]; decide)
  have hxx : xofs' = xofs := by
    clear * - hx hx'
    induction hx generalizing xofs' with
    | nil => cases hx'; rfl
    | cons h1 _ ih =>
      cases hx' with
      | cons a b =>
        rw [h1] at a
        cases a
        rw [ih _ b]
  subst hxx
  have hsh : (HashToBits.empty 377 n).shape = HashToBits.shape ⟨messages.map (·.map some)⟩ := by
    unfold HashToBits.shape
    rw [empty_lengths hn hl, List.map_map]
    exact List.map_congr_left fun m _ => by simp
  have hal := alike_helper hS hsh
  obtain ⟨u, hu, _⟩ := circuitSetup_ok hset
  have hdom := hD u hu
  rw [sameShape_domainSize (hal.sameShape hu hr).2] at hdom
  have := circuit_complete P hal hset hr hc (by rw [hv, hi]) hsat hdom rr z
  rwa [hv] at this

/-- C120: provers of the helper who combine the published elements linearly.  If the XOF bits in the epoch circuit
are not the hashes of its CRH bits, then the verifier rejects any such proof for these public inputs, for all but
`(3 N + 1) q ^ 4` of the `q ^ 5` choices of the setup. -/
theorem C120_knowledge (P : Pairing FR_MODULUS A1 A2 AT) (hb : BlakeRunsAt blake K)
    (hbs : ∀ ρ : R1Var → ZMod FR_MODULUS, ρ .one = 1 → BlakeSoundAt blake ρ K)
    (hk : ∀ m b, KeepsInputs (blake m b)) (hS : ∀ m b, Alike (blake m b) (blake m b))
    {n : ℕ} {u : (List (LinComb FR_MODULUS) × List (LinComb FR_MODULUS)) × ConstraintSystem FR_MODULUS}
    (hu : (HashToBits.empty 377 n).generateConstraints blake (.new FR_MODULUS true) = .ok u)
    {domain : ℕ → EvalDomain (ZMod FR_MODULUS)} (hD : (domain u.2.domainSize).Valid)
    (hN : u.2.domainSize ≤ (domain u.2.domainSize).size) {g1 : A1} {g2 : A2} (h1 : g1 ≠ 0) (h2 : g2 ≠ 0)
    {crhs xofs : List (List Bool)} (hn : crhs.length = n) (hn' : xofs.length = n)
    (hl : ∀ m ∈ crhs, m.length = 384) (hl' : ∀ m ∈ xofs, m.length = 512)
    (hne : ¬ List.Forall₂ (fun m x => hashToBitsBlake K m 512 SIG_DOMAIN = .ok x) crhs xofs)
    (sa sc : G1Strategy (ZMod FR_MODULUS) u.2.numInst u.2.numWit (domain u.2.domainSize).size)
    (sb : G2Strategy (ZMod FR_MODULUS) u.2.numInst u.2.numWit) :
    ∃ lucky : Finset (Fin 5 → ZMod FR_MODULUS),
      lucky.card ≤ (3 * (domain u.2.domainSize).size + 1) * FR_MODULUS ^ 4 ∧
      ∀ v ∉ lucky, ∀ pk, circuitSetup ((HashToBits.empty 377 n).generateConstraints blake) domain
          (Trapdoor.ofScalars v g1 g2) = .ok pk →
        verifyProof P pk.vk ⟨sa.combine pk, sb.combine pk, sc.combine pk⟩ (crhXofInputs crhs xofs) =
          .ok false := by
  obtain ⟨r, xs, hr, hx, _, hi, hc, _⟩ := C120_run (messages := crhs) hb hk
    (fun m hm => by rw [hl m hm]; decide)
  have hsh : (HashToBits.empty 377 n).shape = HashToBits.shape ⟨crhs.map (·.map some)⟩ := by
    unfold HashToBits.shape
    rw [empty_lengths hn hl, List.map_map]
    exact List.map_congr_left fun m _ => by simp
  obtain ⟨_, hss⟩ := (alike_helper hS hsh).sameShape hu hr
  have hcu : u.2.Closed := SameShape.closed ⟨hss.1.symm, hss.2.1.symm, hss.2.2.symm⟩ hc
  have hflat : xofs.flatten.length = xs.flatten.length := by
    have hxl : ∀ m ∈ xs, m.length = 512 := by
      clear * - hx
      induction hx with
      | nil => simp
      | @cons m _ _ _ h1 _ ih =>
        obtain ⟨o, h2, h3⟩ := hashToBitsBlake_length K m
        rw [h1] at h2
        cases h2
        exact List.forall_mem_cons.2 ⟨h3, ih⟩
    rw [List.length_flatten, List.length_flatten, List.map_congr_left (g := fun _ => 512) hl',
      List.map_congr_left (g := fun _ => 512) hxl]
    simp [hn', ← hx.length_eq, hn]
  have hnum : u.2.numInst = (crhXofInputs crhs xofs).length := by
    rw [hss.1, hi]
    unfold crhXofInputs leChunks
    simp only [List.length_map, List.length_append]
    rw [chunks_length (by norm_num), chunks_length (by norm_num), chunks_length (by norm_num), hflat]
  obtain ⟨x, hxe⟩ : ∃ x : Fin u.2.numInst → ZMod FR_MODULUS, List.ofFn x = crhXofInputs crhs xofs := by
    rw [hnum]
    exact ⟨fun i => (crhXofInputs crhs xofs).get i, List.ofFn_get _⟩
  rw [← hxe]
  refine circuit_sound P hu hcu hD hN h1 h2 sa sc sb x fun hsat => hne ?_
  obtain ⟨ms, sat, m1, m2, m3⟩ := C120_sound (ρ := rhoOf x sc.l) rfl (hbs _ rfl) hS
    (h := HashToBits.empty 377 n) (by
      intro m hm
      have := List.eq_of_mem_replicate hm
      rw [this, List.length_replicate]
      decide) hu hsat
  obtain ⟨i1, i2⟩ := C120_inputs hk hu
  refine ((helper_inputs_iff K (messages := ms) ?_ hl hl' (hn.trans hn'.symm)).1
    ⟨_, _, sat, m2, m3, ?_⟩).2
  · intro m hm
    have : m.length ∈ ms.map List.length := List.mem_map_of_mem hm
    rw [m1, empty_lengths hn hl] at this
    obtain ⟨q, hq, e⟩ := List.mem_map.1 this
    rw [← e, hl q hq]
  · rw [← List.map_append]
    change _ = crhXofInputs crhs xofs
    rw [← hxe, i1, List.map_map]
    apply List.ext_getElem
    · simp only [List.length_map, List.length_range, List.length_ofFn]
      rw [i2, ConstraintSystem.new, Nat.zero_add]
    · intro i h3 h4
      simp only [List.length_ofFn] at h4
      simp [ConstraintSystem.new, rhoOf, h4]

end

section

variable {blake : List BoolV → Bytes → Synth FR_MODULUS (List BoolV)}

theorem mapM_ok_mem {p : ℕ} {α β : Type} {f : α → Synth p β} (hf : ∀ a, Alike (f a) (f a)) {l : List α}
    {cs : ConstraintSystem p} {r : List β × ConstraintSystem p} (hr : Synth.mapM f l cs = .ok r) {a : α}
    (ha : a ∈ l) : ∃ c t, c.setup = cs.setup ∧ f a c = .ok t := by
  induction l generalizing cs r with
  | nil => cases ha
  | cons b l ih =>
    obtain ⟨x, hx, hr⟩ := synth_bind_ok.1 hr
    obtain ⟨y, hy, _⟩ := synth_bind_ok.1 hr
    rcases List.mem_cons.1 ha with rfl | ha
    · exact ⟨cs, x, rfl, hx⟩
    · obtain ⟨c, t, h1, h2⟩ := ih hy ha
      obtain ⟨_, _, _, e, _⟩ := hf b cs cs x x rfl rfl hx hx
      exact ⟨c, t, h1.trans e, h2⟩

/-- C120: a prover without a value for every bit makes no proof: generating constraints fails, whereas the setup
needs no values. -/
theorem C120_missing (hS : ∀ m b, Alike (blake m b) (blake m b)) {h : HashToBits} {m : List (Option Bool)}
    (hm : m ∈ h.messageBits) (hn : none ∈ m) {cs : ConstraintSystem FR_MODULUS} (hs : cs.setup = false) :
    ∀ r, h.generateConstraints blake cs ≠ .ok r := by
  intro r hr
  obtain ⟨x, hx, _⟩ := synth_bind_ok.1 hr
  obtain ⟨c, t, h1, h2⟩ := mapM_ok_mem (fun _ => alike_helperRound hS rfl) hx hm
  obtain ⟨y, hy, _⟩ := synth_bind_ok.1 h2
  obtain ⟨c', t', h3, h4⟩ := mapM_ok_mem (fun _ => alike_boolWitness _ _) hy hn
  obtain ⟨v, hv, _⟩ := synth_bind_ok.1 h4
  have hset : c'.setup = false := h3.trans (h1.trans hs)
  unfold newWitness at hv
  rw [hset] at hv
  cases hv

end

/-! ## Examples

The digest that copies the first 256 bits of its message, and its gadget. -/

/-- The core that copies the beginning of the message. -/
def copyCore : Blake2sCore where
  digest _ m := (m ++ List.replicate 32 0).take 32
  length_digest _ m := by simp

/-- Its gadget. -/
def copyBlake (m : List BoolV) (_ : Bytes) : Synth FR_MODULUS (List BoolV) :=
  Synth.pure ((m ++ List.replicate 256 (BoolV.constant false)).take 256)

theorem unpack_take (l : Bytes) (n : ℕ) :
    (l.take n).flatMap (unpackByte 8) = (l.flatMap (unpackByte 8)).take (8 * n) := by
  induction l generalizing n with
  | nil => simp
  | cons a l ih =>
    cases n with
    | zero => simp
    | succ n =>
      have h8 : (unpackByte 8 a).length = 8 := rfl
      rw [List.take_succ_cons, List.flatMap_cons, List.flatMap_cons, List.take_append, ih, h8]
      congr 1
      · rw [List.take_of_length_le (by rw [h8]; omega)]

theorem unpack_pack {ts : List Bool} (hd : 8 ∣ ts.length) :
    (bitsLeToBytesLe ts).flatMap (unpackByte 8) = ts := by
  apply ofBitsLE_inj
  · rw [flatMap_unpack_length]
    simp only [bitsLeToBytesLe, C26_bytes_length, List.length_reverse]
    omega
  · rw [flatMap_unpack_value]
    simp only [bitsLeToBytesLe, C26_bytes_value, List.reverse_reverse]

theorem copyCore_evaluate {ts : List Bool} (hd : 8 ∣ ts.length) (b : Bytes) :
    copyCore.evaluate ts b = (ts ++ List.replicate 256 false).take 256 := by
  unfold Blake2sCore.evaluate
  rw [bytesLeToBitsLe_all _ 256 (by rw [copyCore.length_digest])]
  unfold copyCore
  dsimp only
  have hz : (List.replicate 32 (0 : UInt8)).flatMap (unpackByte 8) = List.replicate 256 false := by decide +kernel
  rw [unpack_take, List.flatMap_append, unpack_pack hd, hz]

theorem copyBlake_rel {R : BoolV → Bool → Prop} (h0 : R (.constant false) false) {m : List BoolV}
    {ts : List Bool} (h : List.Forall₂ R m ts) :
    List.Forall₂ R ((m ++ List.replicate 256 (BoolV.constant false)).take 256)
      ((ts ++ List.replicate 256 false).take 256) := by
  refine forall₂_take' (forall₂_append' h ?_) 256
  generalize 256 = n
  induction n with
  | zero => exact .nil
  | succ n ih => exact .cons h0 ih

theorem copyBlake_sound {ρ : R1Var → ZMod FR_MODULUS} (h1 : ρ .one = 1) : BlakeSoundAt copyBlake ρ copyCore := by
  intro m ts b hd hm
  rw [copyCore_evaluate (by rw [← hm.length_eq]; exact hd)]
  exact sound_pure (copyBlake_rel ((bitIs_constant h1).2 rfl) hm)

theorem copyBlake_runs : BlakeRunsAt copyBlake copyCore := by
  intro c m ts b hg _ hd hm
  rw [copyCore_evaluate (by rw [← hm.length_eq]; exact hd)]
  exact step_pure hg (copyBlake_rel (bitAt_constant c false) hm)

theorem copyCore_hash {m : List Bool} (hm : m.length = 384) :
    hashToBitsBlake copyCore m 512 SIG_DOMAIN = .ok (m.take 256 ++ m.take 256) := by
  have h : ∀ b, copyCore.evaluate m b = m.take 256 := fun b => by
    rw [copyCore_evaluate (by rw [hm]; decide), List.take_append_of_le_length (by omega)]
  unfold hashToBitsBlake
  rw [if_neg (by decide)]
  simp only [h]
  congr 1
  have : List.range ((512 : UInt16) / 256).toNat = [0, 1] := by decide
  rw [this]
  simp

/-- C120: the run for two messages, and the setup for two epochs. -/
example : ∃ u r, (HashToBits.empty 377 2).generateConstraints copyBlake (.new FR_MODULUS true) = .ok u ∧
    HashToBits.generateConstraints copyBlake
      ⟨[List.replicate 384 (some true), List.replicate 384 (some false)]⟩ (.new FR_MODULUS false) = .ok r ∧
    SameShape u.2 r.2 ∧ r.2.Sat r.2.rho ∧ r.2.instVals = crhXofInputs
      [List.replicate 384 true, List.replicate 384 false] [List.replicate 512 true, List.replicate 512 false] := by
  have hl : ∀ m ∈ [List.replicate 384 true, List.replicate 384 false], m.length = 384 := by
    simp only [List.mem_cons, List.not_mem_nil, or_false, forall_eq_or_imp, forall_eq, List.length_replicate,
      and_self]
  have hd : ∀ m ∈ [List.replicate 384 true, List.replicate 384 false], 8 ∣ m.length :=
    fun m hm => by rw [hl m hm]; decide
  obtain ⟨u, r, hu, hr, _, hs, _⟩ := C120_setup (h0 := HashToBits.empty 377 2) copyBlake_runs
    (fun _ _ => keeps_pure _) (fun _ _ => alike_pure _) (fun _ _ => follows_pure _) hd (empty_lengths rfl hl)
  obtain ⟨r', xofs, hr', hx, hv, _, _, hsat⟩ := C120_run copyBlake_runs (fun _ _ => keeps_pure _) hd
  rw [hr] at hr'
  cases hr'
  refine ⟨u, r, hu, ?_, hs, hsat, ?_⟩
  · rw [← hr, List.map_cons, List.map_cons, List.map_nil, List.map_replicate, List.map_replicate]
  · rw [hv]
    cases hx with
    | cons h1 h2 =>
    cases h2 with
    | cons h2 h3 =>
    cases h3
    rw [copyCore_hash List.length_replicate] at h1 h2
    cases h1; cases h2
    rw [List.take_replicate, List.take_replicate, List.replicate_append_replicate,
      List.replicate_append_replicate, show min 256 384 + min 256 384 = 512 by decide]

/-- C120, soundness: the hypotheses hold for these gadgets, any number of epochs and any assignment. -/
example (n : ℕ) {ρ : R1Var → ZMod FR_MODULUS} (h1 : ρ .one = 1)
    {r : (List (LinComb FR_MODULUS) × List (LinComb FR_MODULUS)) × ConstraintSystem FR_MODULUS}
    (hr : (HashToBits.empty 377 n).generateConstraints copyBlake (.new FR_MODULUS true) = .ok r)
    (hs : r.2.Sat ρ) : ∃ messages sat, messages.map List.length = List.replicate n 384 ∧
      helperCircuit copyCore messages (r.1.1.map (evalLc ρ)) (r.1.2.map (evalLc ρ)) = .ok sat ∧ sat := by
  obtain ⟨ms, sat, k1, k2, k3⟩ := C120_sound h1 (copyBlake_sound h1) (fun _ _ => alike_pure _)
    (h := HashToBits.empty 377 n) (fun m hm => by
      rw [List.eq_of_mem_replicate hm, List.length_replicate]; decide) hr hs
  refine ⟨ms, sat, k1.trans ?_, k2, k3⟩
  unfold HashToBits.empty
  rw [List.map_replicate, List.length_replicate]

/-- C120, proofs: accepted for a message of ones with its hash, rejected (but for few setups) for the same message
with an XOF of zeros. -/
example (domain : ℕ → EvalDomain (ZMod FR_MODULUS)) (hD : ∀ k, (domain k).Valid) :
    (∀ (td : Trapdoor (ZMod FR_MODULUS) (ZMod FR_MODULUS) (ZMod FR_MODULUS)) pk rr z,
      circuitSetup ((HashToBits.empty 377 1).generateConstraints copyBlake) domain td = .ok pk →
      ∃ proof, circuitProve (HashToBits.generateConstraints copyBlake
          ⟨[List.replicate 384 true].map (·.map some)⟩) domain pk rr z = .ok proof ∧
        verifyProof (toyPairing FR_MODULUS) pk.vk proof
          (crhXofInputs [List.replicate 384 true] [List.replicate 512 true]) = .ok true) ∧
    ∃ u, (HashToBits.empty 377 1).generateConstraints copyBlake (.new FR_MODULUS true) = .ok u ∧
    ∀ (sa sc : G1Strategy (ZMod FR_MODULUS) u.2.numInst u.2.numWit (domain u.2.domainSize).size)
      (sb : G2Strategy (ZMod FR_MODULUS) u.2.numInst u.2.numWit),
    u.2.domainSize ≤ (domain u.2.domainSize).size → ∃ lucky : Finset (Fin 5 → ZMod FR_MODULUS),
      lucky.card ≤ (3 * (domain u.2.domainSize).size + 1) * FR_MODULUS ^ 4 ∧
      ∀ v ∉ lucky, ∀ pk, circuitSetup ((HashToBits.empty 377 1).generateConstraints copyBlake) domain
          (Trapdoor.ofScalars v (7 : ZMod FR_MODULUS) (8 : ZMod FR_MODULUS)) = .ok pk →
        verifyProof (toyPairing FR_MODULUS) pk.vk ⟨sa.combine pk, sb.combine pk, sc.combine pk⟩
          (crhXofInputs [List.replicate 384 true] [List.replicate 512 false]) = .ok false := by
  have hl : ∀ m ∈ [List.replicate 384 true], m.length = 384 := fun m hm => by
    rw [List.mem_singleton.1 hm, List.length_replicate]
  have hh : hashToBitsBlake copyCore (List.replicate 384 true) 512 SIG_DOMAIN =
      .ok (List.replicate 512 true) := by
    rw [copyCore_hash List.length_replicate, List.take_replicate, List.replicate_append_replicate,
      show min 256 384 + min 256 384 = 512 by decide]
  constructor
  · intro td pk rr z hset
    exact C120_complete (n := 1) (toyPairing FR_MODULUS) copyBlake_runs (fun _ _ => keeps_pure _)
      (fun _ _ => alike_pure _) rfl hl (.cons hh .nil) (fun _ _ => hD _) hset rr z
  · obtain ⟨u, r, hu, _⟩ := C120_setup (h0 := HashToBits.empty 377 1) copyBlake_runs
      (fun _ _ => keeps_pure _) (fun _ _ => alike_pure _) (fun _ _ => follows_pure _)
      (fun m hm => by rw [hl m hm]; decide) (empty_lengths rfl hl)
    refine ⟨u, hu, fun sa sc sb hN => ?_⟩
    refine C120_knowledge (toyPairing FR_MODULUS) copyBlake_runs (fun ρ h1 => copyBlake_sound h1)
      (fun _ _ => keeps_pure _) (fun _ _ => alike_pure _) hu (hD _) hN (by decide +kernel) (by decide +kernel)
      rfl rfl hl (fun m hm => by rw [List.mem_singleton.1 hm, List.length_replicate]) ?_ sa sc sb
    intro h
    cases h with
    | cons h _ =>
      rw [hh] at h
      have h := congrArg List.head? (Outcome.ok.inj h)
      revert h
      decide +kernel

/-- C120: with a bit missing there is no run of the prover. -/
example : ∀ r, HashToBits.generateConstraints copyBlake ⟨[[some true], [none, some false]]⟩
    (.new FR_MODULUS false) ≠ .ok r :=
  C120_missing (fun _ _ => alike_pure _) (List.mem_cons_of_mem _ List.mem_cons_self) List.mem_cons_self rfl

end Verif
