import Verif.Lemmas.Forge

/-! Chains of honest transitions: shape of the prover's circuit and of its assignment. -/

set_option linter.unusedSectionVars false

namespace Verif

section

variable {G1 GT : Type*} [AddCommGroup G1] [CommGroup GT]
variable {alloc : G2Var → Prop} {hashC : List Bool → List Bool → HashOut G1 → Prop}

/-! ### panics of the circuit -/

theorem constrainUpdate_ok {gen2 : G2Point} {n : ℕ} {prev : Previous} {eb : Bool}
    {u : UpdateVars G1} (hp : prev.pubkeys.length = n) (hk : u.epoch.keys.length = n)
    (hb : u.bitmap.length = n) :
    ∃ r, constrainUpdate alloc hashC gen2 n prev eb u = .ok r := by
  unfold constrainUpdate
  rw [if_neg (by simp [EpochVars.pubkeys, hk])]
  unfold enforceBitmap enforceAggregatedPubkeys
  rw [if_pos (by simp [hp, hb])]
  exact ⟨_, rfl⟩

theorem intermediateLoop_ok {gen1 : G1} {gen2 : G2Point} {n : ℕ} {eb : Bool} {last : LastVars}
    (us : List (UpdateVars G1)) {prev : Previous} (hp : prev.pubkeys.length = n)
    (h : ∀ u ∈ us, u.epoch.keys.length = n ∧ u.bitmap.length = n) :
    ∃ r, intermediateLoop alloc hashC gen1 gen2 n eb last us prev = .ok r ∧
      r.aggregatedPublicKeys.length = us.length ∧ r.messageHashes.length = us.length := by
  induction us generalizing prev with
  | nil => exact ⟨_, rfl, rfl, rfl⟩
  | cons u us ih =>
    obtain ⟨hk, hb⟩ := h u (by simp)
    obtain ⟨c, hc⟩ := constrainUpdate_ok (alloc := alloc) (hashC := hashC) (gen2 := gen2)
      (eb := eb) hp hk hb
    obtain ⟨r, hr, h1, h2⟩ := ih (prev := prev.next (!u.loopZero.2) u.epoch)
      (by simp [Previous.next, EpochVars.pubkeys, hp, hk]) (fun v hv => h v (by simp [hv]))
    simp only [intermediateLoop, hc, Outcome.bind_ok, hr]
    refine ⟨_, rfl, ?_, ?_⟩ <;> simp [h1, h2]

theorem enforce_ok {e : G1 → G2Point → GT} {gen1 : G1} {gen2 : G2Point} {n : ℕ}
    {c : CircuitVars G1} (hn : c.initial.keys.length = n)
    (h : ∀ u ∈ c.updates, u.epoch.keys.length = n ∧ u.bitmap.length = n) :
    ∃ b, enforceEpochs alloc hashC e gen1 gen2 n c = .ok b := by
  obtain ⟨r, hr, h1, h2⟩ := intermediateLoop_ok (alloc := alloc) (hashC := hashC) (gen1 := gen1)
    (gen2 := gen2) (n := n) (eb := !c.entropyZero.2) (last := c.last) c.updates
    (prev := Previous.ofEpoch c.initial) (by simp [Previous.ofEpoch, EpochVars.pubkeys, hn]) h
  unfold enforceEpochs
  unfold Previous.ofEpoch at hr
  rw [hr, Outcome.bind_ok]
  unfold batchVerifyPrepared enforceBlsEquation
  rw [if_pos (by simp [h1, h2])]
  exact ⟨_, rfl⟩

/-! ### the prover's updates -/

theorem proverEpochs_eq (gen2 : G2Point) (n : ℕ) (pre : List (EpochTransition G1))
    (last : EpochTransition G1) (max : ℕ) :
    proverEpochs gen2 n (pre ++ [last]) max =
      .ok (pre.map toUpdate ++
        List.replicate (max - (pre.length + 1)) (toDummyUpdate gen2 n) ++ [toUpdate last]) := by
  unfold proverEpochs
  simp only [List.length_map, List.length_append, List.length_singleton, List.map_append,
    List.map_cons, List.map_nil]
  split
  · rw [List.getLast?_concat]
    simp only [Nat.add_sub_cancel]
    congr 3
    rw [List.take_append_of_le_length (by simp)]
    exact List.take_of_length_le (by simp)
  · rw [Nat.sub_eq_zero_of_le (by omega)]
    simp

/-! ### steps of the assignment -/

theorem steps_append (a : EpochVars) (us vs : List (UpdateVars G1)) :
    steps a (us ++ vs) = steps a us ++ steps (((reals us).map (·.epoch)).getLast?.getD a) vs := by
  induction us generalizing a with
  | nil => simp [steps, reals]
  | cons u us ih =>
    simp only [List.cons_append, steps, ih]
    by_cases hz : u.epoch.index = 0
    · simp [reals, hz]
    · simp only [hz, if_false, reals, List.filter_cons, ne_eq, not_false_eq_true, decide_true,
        if_true, List.map_cons, List.getLast?_cons]
      simp

theorem steps_real (a : EpochVars) (us : List (UpdateVars G1))
    (h : ∀ u ∈ us, u.epoch.index ≠ 0) : steps a us = (a :: us.map (·.epoch)).zip us := by
  induction us generalizing a with
  | nil => rfl
  | cons u us ih =>
    have hu := h u (by simp)
    simp only [steps, hu, if_false, List.map_cons, List.zip_cons_cons]
    rw [ih _ (fun v hv => h v (by simp [hv]))]

theorem reals_real {us : List (UpdateVars G1)} (h : ∀ u ∈ us, u.epoch.index ≠ 0) :
    reals us = us := by
  unfold reals
  rw [List.filter_eq_self]
  intro u hu
  simpa using h u hu

/-- Each transition with the block before it. -/
def predecessors (b0 : EpochBlock) (ts : List (EpochTransition G1)) :
    List (EpochBlock × EpochTransition G1) := (b0 :: ts.map (·.block)).zip ts

theorem predecessors_concat (b0 : EpochBlock) (ts : List (EpochTransition G1))
    (t : EpochTransition G1) : predecessors b0 (ts ++ [t]) =
      predecessors b0 ts ++ [((ts.map (·.block)).getLast?.getD b0, t)] := by
  induction ts generalizing b0 with
  | nil => rfl
  | cons u us ih =>
    have := ih u.block
    unfold predecessors at this ⊢
    simp only [List.cons_append, List.map_cons, List.zip_cons_cons, this, List.getLast?_cons]
    simp

theorem predecessors_snd (b0 : EpochBlock) (ts : List (EpochTransition G1)) :
    (predecessors b0 ts).map (·.2) = ts := by
  unfold predecessors
  rw [List.map_snd_zip]
  simp

theorem mem_predecessors_fst {b0 : EpochBlock} {ts : List (EpochTransition G1)}
    {p : EpochBlock × EpochTransition G1} (h : p ∈ predecessors b0 ts) :
    p.1 ∈ b0 :: ts.map (·.block) := (List.of_mem_zip h).1

theorem mem_predecessors_snd {b0 : EpochBlock} {ts : List (EpochTransition G1)}
    {p : EpochBlock × EpochTransition G1} (h : p ∈ predecessors b0 ts) : p.2 ∈ ts :=
  (List.of_mem_zip h).2

theorem exists_predecessor {b0 : EpochBlock} {ts : List (EpochTransition G1)}
    {t : EpochTransition G1} (h : t ∈ ts) : ∃ a, (a, t) ∈ predecessors b0 ts := by
  rw [← predecessors_snd b0 ts, List.mem_map] at h
  obtain ⟨p, hp, rfl⟩ := h
  exact ⟨p.1, hp⟩

end

end Verif
