import Verif.Lemmas.SynthesisBls
import Verif.Props.SynthesisEpoch

/-!
# C115: the aggregation gadgets as rank-1 constraints

What the constraints emitted by `enforce_aggregated_pubkeys`, `enforce_aggregated_all_pubkeys` and
`enforce_bitmap` allow, for every assignment; what the prover's run assigns; that the setup sees the same
constraints; how many there are.
-/

set_option linter.unusedSectionVars false

namespace Verif

/-- The padding key `(x : y : 1)` as coordinates. -/
def padVar (x y : Fq × Fq) : G2Var := ⟨⟨x.1, x.2⟩, ⟨y.1, y.2⟩, 1⟩

/-- The sum of the coordinates by the formulas of the circuit, from the left; `none` if there is nothing
to add.  The constant zero that the loop starts with is dropped or added. -/
def circuitTotal (drop : Bool) : List (ProjVar Fq2) → Option (ProjVar Fq2)
  | [] => none
  | P :: Ps => some (Ps.foldl (circuitAdd g2CoeffB)
      (if drop then P else circuitAdd g2CoeffB ProjVar.zero P))

/-- What the loop adds for a key and its bit. -/
def addend (k : ProjVar Fq2 × Bool) : ProjVar Fq2 := if k.2 then k.1 else ProjVar.zero

theorem eqConst_iff (x y : Fq × Fq) (P : ProjVar Fq2) :
    EqConst x y P ↔ circuitEq P (padVar x y).coords := by
  unfold EqConst circuitEq padVar G2Var.coords
  simp [mul_comm P.z]

theorem allSpec_some {F : Type*} [Field F] (drop : Bool) (b : F) (l : List (ProjVar F)) (Q : ProjVar F) :
    allSpec drop b l (some Q) = some (l.foldl (circuitAdd b) Q) := by
  induction l generalizing Q with
  | nil => rfl
  | cons P Ps ih =>
    rw [List.foldl_cons, ← ih (circuitAdd b Q P), ← ringAdd_eq]
    rfl

theorem allSpec_none {F : Type*} [Field F] (drop : Bool) (b : F) (P : ProjVar F) (Ps : List (ProjVar F)) :
    allSpec drop b (P :: Ps) none =
      some (Ps.foldl (circuitAdd b) (if drop then P else circuitAdd b ProjVar.zero P)) := by
  rw [← allSpec_some drop, ← ringAdd_eq]
  rfl

theorem allSpec_eq (drop : Bool) (l : List (ProjVar Fq2)) :
    allSpec drop g2CoeffB l none = circuitTotal drop l := by
  cases l with
  | nil => rfl
  | cons P Ps => exact allSpec_none drop g2CoeffB P Ps

theorem loopSpec_iff (drop : Bool) (x y : Fq × Fq) (ks : List (ProjVar Fq2 × Bool))
    (acc out : Option (ProjVar Fq2)) :
    LoopSpec drop g2CoeffB x y ks acc out ↔
      (∀ k ∈ ks, k.2 = true → ¬ circuitEq k.1 (padVar x y).coords) ∧
        out = allSpec drop g2CoeffB (ks.map addend) acc := by
  induction ks generalizing acc with
  | nil => simp [LoopSpec, allSpec]
  | cons k ks ih =>
    obtain ⟨P, t⟩ := k
    have e : (if t = true then P else (⟨0, 1, 0⟩ : ProjVar Fq2)) = addend (P, t) := rfl
    simp only [LoopSpec, ih, eqConst_iff, e, List.mem_cons, forall_eq_or_imp, List.map_cons, allSpec]
    tauto

theorem forall₂_zip_keys {ρ : R1Var → Fq} {keys : List (G2V FQ_MODULUS)} {bits : List BoolV}
    {ts : List Bool} (ht : List.Forall₂ (BitIs ρ) bits ts) :
    List.Forall₂ (fun k P => projAt (-5) ρ k.1 = P.1 ∧ BitIs ρ k.2 P.2) (keys.zip bits)
      ((keys.map (projAt (-5) ρ)).zip ts) := by
  induction ht generalizing keys with
  | nil => simp
  | cons h _ ih =>
    cases keys with
    | nil => exact .nil
    | cons k ks => exact .cons ⟨rfl, h⟩ ih

theorem forall₂_zip_at {c : ConstraintSystem FQ_MODULUS} {keys : List (G2V FQ_MODULUS)}
    {Ps : List (ProjVar Fq2)} (hk : List.Forall₂ (ProjAt (-5) c) keys Ps) {bits : List BoolV}
    {ts : List Bool} (ht : List.Forall₂ (BitAt c) bits ts) :
    List.Forall₂ (KeyBitAt (-5) c) (keys.zip bits) (Ps.zip ts) := by
  induction ht generalizing keys Ps with
  | nil => simp
  | cons h _ ih =>
    cases hk with
    | nil => exact .nil
    | cons hk hks => exact .cons ⟨hk, h⟩ (ih hks)

theorem projAts_withVals {cs : ConstraintSystem FQ_MODULUS} {σ : R1Var → Fq} (h1 : σ .one = 1)
    {keys : List (G2V FQ_MODULUS)} (hk : ∀ v ∈ keys, G2V.ScopedIn cs v) :
    List.Forall₂ (ProjAt (-5) (cs.withVals σ)) keys (keys.map (projAt (-5) σ)) := by
  induction keys with
  | nil => exact .nil
  | cons k ks ih =>
    exact .cons (projAt_withVals h1 (hk k List.mem_cons_self))
      (ih fun v hv => hk v (List.mem_cons_of_mem _ hv))

theorem projAts_agree {cs : ConstraintSystem FQ_MODULUS} {σ ρ : R1Var → Fq} (ha : cs.Agree σ ρ)
    {keys : List (G2V FQ_MODULUS)} (hk : ∀ v ∈ keys, G2V.ScopedIn cs v) :
    keys.map (projAt (-5) ρ) = keys.map (projAt (-5) σ) :=
  List.map_congr_left fun v hv => projAt_agree ha (hk v hv)

/-- C115: `enforce_aggregated_pubkeys` as constraints, for keys and bits with any values: they can be
satisfied exactly if no signer's key equals the padding key, and the result can then only be the sum of
the signers' coordinates by the formulas of the circuit. -/
theorem C115_aggregate {cs : ConstraintSystem FQ_MODULUS} (hc : cs.Closed) {drop : Bool} {x y : Fq × Fq}
    {keys : List (G2V FQ_MODULUS)} (hk : ∀ v ∈ keys, G2V.ScopedIn cs v) {bits : List BoolV}
    (hb : ∀ b ∈ bits, cs.Scoped (b.lc (p := FQ_MODULUS)))
    {r : Option (G2V FQ_MODULUS) × ConstraintSystem FQ_MODULUS}
    (hr : enforceAggregatedPubkeysV drop (-5) g2CoeffB.re g2CoeffB.im x y keys bits cs = .ok r)
    {σ : R1Var → Fq} (h1 : σ .one = 1) (hs : cs.Sat σ) {ts : List Bool}
    (ht : List.Forall₂ (fun b t => evalLc σ b.lc = bit t) bits ts) (o : Option (ProjVar Fq2)) :
    (∃ ρ, cs.Agree σ ρ ∧ r.2.Sat ρ ∧ r.1.map (projAt (-5) ρ) = o) ↔
      (∀ k ∈ (keys.map (projAt (-5) σ)).zip ts, k.2 = true → ¬ circuitEq k.1 (padVar x y).coords) ∧
        o = circuitTotal drop (((keys.map (projAt (-5) σ)).zip ts).map addend) := by
  rw [← allSpec_eq, ← loopSpec_iff]
  unfold enforceAggregatedPubkeysV at hr
  split at hr
  · cases hr
  constructor
  · rintro ⟨ρ, ha, hsat, rfl⟩
    have := sound_aggregateLoop (agree_one h1 ha) drop (-5) g2CoeffB.re g2CoeffB.im x y
      (forall₂_zip_keys (keys := keys) (bitIs_agree ha hb ht)) none cs r hr hsat
    rw [projAts_agree ha hk] at this
    exact this
  · intro h
    have hg := withVals_good h1 hc hs
    obtain ⟨c, h4, h5, h6, h7⟩ := exists_extension (alike_aggregateLoop _ _ _ _ _ _ _ _) hr h1
      (step_aggregateLoop (b0 := g2CoeffB.re) (b1 := g2CoeffB.im) drop hg
        (forall₂_zip_at (projAts_withVals h1 hk) (bitAts_withVals h1 hb ht)) .none h) hg
    exact ⟨c.rho, h5, h6, h7.value h4⟩

theorem aggregatedAllVar_foldl (l : List (ProjVar Fq2)) (Q : ProjVar Fq2) :
    AggregatedAllVar g2CoeffB l Q (l.foldl (circuitAdd g2CoeffB) Q) := by
  induction l generalizing Q with
  | nil => rfl
  | cons P Ps ih => exact ⟨_, .inl rfl, ih _⟩

theorem aggregatedAllVar_total (drop : Bool) (l : List (ProjVar Fq2)) :
    AggregatedAllVar g2CoeffB l ProjVar.zero ((circuitTotal drop l).getD ProjVar.zero) := by
  cases l with
  | nil => rfl
  | cons P Ps =>
    refine ⟨if drop then P else circuitAdd g2CoeffB ProjVar.zero P, ?_, aggregatedAllVar_foldl Ps _⟩
    cases drop
    · exact .inl rfl
    · exact .inr (.inl ⟨rfl, rfl⟩)

theorem aggregatedLoopVar_of_all {pad : ProjVar Fq2} {ks : List (ProjVar Fq2 × Bool)}
    (h : ∀ k ∈ ks, k.2 = true → ¬ circuitEq k.1 pad) {Q out : ProjVar Fq2}
    (ha : AggregatedAllVar g2CoeffB (ks.map addend) Q out) :
    AggregatedLoopVar g2CoeffB pad ks Q out := by
  induction ks generalizing Q with
  | nil => exact ha
  | cons k ks ih =>
    obtain ⟨a, ha1, ha2⟩ := ha
    refine ⟨fun hk => h k List.mem_cons_self hk.2 hk.1, a, ha1, ih (fun k hk => h k
      (List.mem_cons_of_mem _ hk)) ha2⟩

theorem all_of_aggregatedLoopVar {pad : ProjVar Fq2} {ks : List (ProjVar Fq2 × Bool)}
    {Q out : ProjVar Fq2} (h : AggregatedLoopVar g2CoeffB pad ks Q out) :
    ∀ k ∈ ks, k.2 = true → ¬ circuitEq k.1 pad := by
  induction ks generalizing Q with
  | nil => simp
  | cons k ks ih =>
    obtain ⟨h1, a, _, h2⟩ := h
    intro k' hk' hb
    rcases List.mem_cons.1 hk' with rfl | hk'
    · exact fun he => h1 ⟨he, hb⟩
    · exact ih h2 k' hk' hb

theorem zip_coords (σ : R1Var → Fq) (keys : List (G2V FQ_MODULUS)) (ts : List Bool) :
    (keys.map (projAt (-5) σ)).zip ts =
      ((keys.map (keyAt σ)).zip ts).map fun k => (k.1.coords, k.2) := by
  induction keys generalizing ts with
  | nil => rfl
  | cons k ks ih =>
    cases ts with
    | nil => rfl
    | cons t ts => simp only [List.map_cons, List.zip_cons_cons, ih]; rfl

/-- No signer's key equals the padding key, in terms of points. -/
theorem signers_iff {x y : Fq × Fq} (hpad : Denotes (padVar x y).coords (padVar x y).point)
    {ks : List (G2Var × Bool)} (hk : ∀ k ∈ ks, k.1.coords.OnCurve g2CoeffB) :
    (∀ k ∈ ks.map fun k => (k.1.coords, k.2), k.2 = true → ¬ circuitEq k.1 (padVar x y).coords) ↔
      ∀ k ∈ ks, k.2 = true → k.1.coords ≠ ⟨0, 0, 0⟩ ∧ k.1.point ≠ (padVar x y).point := by
  rw [← (C86_aggregate ks (padVar x y) hk hpad).1]
  constructor
  · intro h
    exact ⟨_, aggregatedLoopVar_of_all h (aggregatedAllVar_total true _)⟩
  · rintro ⟨out, h⟩
    exact all_of_aggregatedLoopVar h

/-- C115: hence for keys on the curve: the constraints can be satisfied exactly if every signer's
coordinates denote a point other than the padding key, and whatever satisfies them, the result denotes
the sum of the signers' points. -/
theorem C115_aggregate_sum {cs : ConstraintSystem FQ_MODULUS} (hc : cs.Closed) {drop : Bool}
    {x y : Fq × Fq} (hpad : Denotes (padVar x y).coords (padVar x y).point)
    {keys : List (G2V FQ_MODULUS)} (hk : ∀ v ∈ keys, G2V.ScopedIn cs v) {bits : List BoolV}
    (hb : ∀ b ∈ bits, cs.Scoped (b.lc (p := FQ_MODULUS)))
    {r : Option (G2V FQ_MODULUS) × ConstraintSystem FQ_MODULUS}
    (hr : enforceAggregatedPubkeysV drop (-5) g2CoeffB.re g2CoeffB.im x y keys bits cs = .ok r)
    {σ : R1Var → Fq} (h1 : σ .one = 1) (hs : cs.Sat σ)
    (hcurve : ∀ v ∈ keys, (keyAt σ v).coords.OnCurve g2CoeffB) {ts : List Bool}
    (ht : List.Forall₂ (fun b t => evalLc σ b.lc = bit t) bits ts) :
    ((∃ ρ, cs.Agree σ ρ ∧ r.2.Sat ρ) ↔ ∀ k ∈ (keys.map (keyAt σ)).zip ts, k.2 = true →
      k.1.coords ≠ ⟨0, 0, 0⟩ ∧ k.1.point ≠ (padVar x y).point) ∧
    ∀ ρ, cs.Agree σ ρ → r.2.Sat ρ → Denotes ((r.1.map (projAt (-5) ρ)).getD ProjVar.zero)
      ((((keys.map (keyAt σ)).zip ts).filter (·.2)).map (·.1.point)).sum := by
  have hex := C115_aggregate hc hk hb hr h1 hs ht
  have hk' : ∀ k ∈ (keys.map (keyAt σ)).zip ts, k.1.coords.OnCurve g2CoeffB := by
    rintro ⟨k, t⟩ hkt
    obtain ⟨v, hv, rfl⟩ := List.mem_map.1 (List.of_mem_zip hkt).1
    exact hcurve v hv
  constructor
  · rw [← signers_iff hpad hk', ← zip_coords]
    constructor
    · rintro ⟨ρ, ha, hsat⟩
      exact ((hex _).1 ⟨ρ, ha, hsat, rfl⟩).1
    · intro h
      obtain ⟨ρ, ha, hsat, _⟩ := (hex _).2 ⟨h, rfl⟩
      exact ⟨ρ, ha, hsat⟩
  · intro ρ ha hsat
    obtain ⟨h2, h3⟩ := (hex _).1 ⟨ρ, ha, hsat, rfl⟩
    rw [h3]
    refine (C86_aggregate _ (padVar x y) hk' hpad).2 _ ?_
    rw [← zip_coords]
    exact aggregatedLoopVar_of_all h2 (aggregatedAllVar_total drop _)

/-- C115: `enforce_aggregated_all_pubkeys` as constraints: they can always be satisfied, and the result can
only be the sum of all coordinates by the formulas of the circuit. -/
theorem C115_all {cs : ConstraintSystem FQ_MODULUS} (hc : cs.Closed) {drop : Bool}
    {keys : List (G2V FQ_MODULUS)} (hk : ∀ v ∈ keys, G2V.ScopedIn cs v)
    {r : Option (G2V FQ_MODULUS) × ConstraintSystem FQ_MODULUS}
    (hr : enforceAggregatedAllPubkeysV drop (-5) g2CoeffB.re g2CoeffB.im keys cs = .ok r)
    {σ : R1Var → Fq} (h1 : σ .one = 1) (hs : cs.Sat σ) (o : Option (ProjVar Fq2)) :
    (∃ ρ, cs.Agree σ ρ ∧ r.2.Sat ρ ∧ r.1.map (projAt (-5) ρ) = o) ↔
      o = circuitTotal drop (keys.map (projAt (-5) σ)) := by
  rw [← allSpec_eq]
  constructor
  · rintro ⟨ρ, ha, hsat, rfl⟩
    have := sound_aggregateAllLoop drop (-5) g2CoeffB.re g2CoeffB.im keys none cs r hr hsat
    rw [projAts_agree ha hk] at this
    exact this
  · rintro rfl
    have hg := withVals_good h1 hc hs
    obtain ⟨c, h4, h5, h6, h7⟩ := exists_extension (alike_aggregateAllLoop _ _ _ _ _ _) hr h1
      (step_aggregateAllLoop (b0 := g2CoeffB.re) (b1 := g2CoeffB.im) drop hg
        (projAts_withVals h1 hk) .none) hg
    exact ⟨c.rho, h5, h6, h7.value h4⟩

/-- C115: hence for keys on the curve: if all coordinates denote points, the result denotes their sum; and
it has an affine form exactly if they do and the sum is not zero. -/
theorem C115_all_sum {cs : ConstraintSystem FQ_MODULUS} (hc : cs.Closed) {drop : Bool}
    {keys : List (G2V FQ_MODULUS)} (hk : ∀ v ∈ keys, G2V.ScopedIn cs v)
    {r : Option (G2V FQ_MODULUS) × ConstraintSystem FQ_MODULUS}
    (hr : enforceAggregatedAllPubkeysV drop (-5) g2CoeffB.re g2CoeffB.im keys cs = .ok r)
    {σ : R1Var → Fq} (h1 : σ .one = 1) (hs : cs.Sat σ)
    (hcurve : ∀ v ∈ keys, (keyAt σ v).coords.OnCurve g2CoeffB) :
    (∃ ρ, cs.Agree σ ρ ∧ r.2.Sat ρ) ∧
    ∀ ρ, cs.Agree σ ρ → r.2.Sat ρ →
      ((∀ v ∈ keys, (keyAt σ v).coords ≠ ⟨0, 0, 0⟩) →
        Denotes ((r.1.map (projAt (-5) ρ)).getD ProjVar.zero) (keys.map fun v => (keyAt σ v).point).sum) ∧
      (((r.1.map (projAt (-5) ρ)).getD ProjVar.zero).z ≠ 0 ↔
        (∀ v ∈ keys, (keyAt σ v).coords ≠ ⟨0, 0, 0⟩) ∧
          (keys.map fun v => (keyAt σ v).point).sum ≠ 0) := by
  have hex := C115_all hc hk hr h1 hs
  constructor
  · obtain ⟨ρ, ha, hsat, _⟩ := (hex _).2 rfl
    exact ⟨ρ, ha, hsat⟩
  · intro ρ ha hsat
    rw [(hex _).1 ⟨ρ, ha, hsat, rfl⟩]
    have hk' : ∀ k ∈ keys.map (keyAt σ), k.coords.OnCurve g2CoeffB := by
      intro k hk
      obtain ⟨v, hv, rfl⟩ := List.mem_map.1 hk
      exact hcurve v hv
    have e : keys.map (projAt (-5) σ) = (keys.map (keyAt σ)).map (·.coords) := by
      rw [List.map_map]; rfl
    have := C86_aggregate_all (keys.map (keyAt σ)) hk' _
      (e ▸ aggregatedAllVar_total drop (keys.map (projAt (-5) σ)))
    rw [← e, List.forall_mem_map, List.map_map] at this
    exact this

/-- C115: `enforce_bitmap` as constraints: they can be satisfied exactly if no more bits are false than the
maximum, the maximum is below half the modulus, and no signer's key equals the padding key; the result can
then only be the sum of the signers' coordinates. -/
theorem C115_bitmap {cs : ConstraintSystem FQ_MODULUS} (hc : cs.Closed) {oc drop : Bool} {x y : Fq × Fq}
    {keys : List (G2V FQ_MODULUS)} (hk : ∀ v ∈ keys, G2V.ScopedIn cs v) {bits : List BoolV}
    (hb : ∀ b ∈ bits, cs.Scoped (b.lc (p := FQ_MODULUS))) {m : LinComb FQ_MODULUS} (hm : cs.Scoped m)
    {r : Option (G2V FQ_MODULUS) × ConstraintSystem FQ_MODULUS}
    (hr : enforceBitmapV oc drop (-5) g2CoeffB.re g2CoeffB.im x y keys bits m cs = .ok r)
    {σ : R1Var → Fq} (h1 : σ .one = 1) (hs : cs.Sat σ) {ts : List Bool}
    (ht : List.Forall₂ (fun b t => evalLc σ b.lc = bit t) bits ts) (hlen : bits.length < FQ_MODULUS)
    (o : Option (ProjVar Fq2)) :
    (∃ ρ, cs.Agree σ ρ ∧ r.2.Sat ρ ∧ r.1.map (projAt (-5) ρ) = o) ↔
      (ts.count false ≤ (evalLc σ m).val ∧ (evalLc σ m).val < halfOf FQ_MODULUS) ∧
      (∀ k ∈ (keys.map (projAt (-5) σ)).zip ts, k.2 = true → ¬ circuitEq k.1 (padVar x y).coords) ∧
        o = circuitTotal drop (((keys.map (projAt (-5) σ)).zip ts).map addend) := by
  rw [← allSpec_eq, ← loopSpec_iff,
    ← C38_exact fq_modulus_ne_two ts _ false (by rw [← ht.length_eq]; exact hlen)]
  have hlen' : bits.length = keys.length := by
    obtain ⟨w, _, hw⟩ := synth_bind_ok.1 hr
    unfold enforceAggregatedPubkeysV at hw
    split at hw
    · cases hw
    · omega
  have hprog : enforceAggregatedPubkeysV drop (-5) g2CoeffB.re g2CoeffB.im x y keys bits =
      aggregateLoop drop (-5) g2CoeffB.re g2CoeffB.im x y (keys.zip bits) none := by
    unfold enforceAggregatedPubkeysV
    rw [if_neg (by omega)]
  constructor
  · rintro ⟨ρ, ha, hsat, rfl⟩
    have h1' := agree_one h1 ha
    have hb' := bitIs_agree ha hb ht
    have hsound : Sound ρ (enforceBitmapV oc drop (-5) g2CoeffB.re g2CoeffB.im x y keys bits m) fun o =>
        (∃ occ, maxOccurrencesC ts (evalLc ρ m) false occ) ∧
          LoopSpec drop g2CoeffB x y ((keys.map (projAt (-5) ρ)).zip ts) none (o.map (projAt (-5) ρ)) := by
      refine (sound_maxOccurrences h1' oc hb' m false).bind
        (fun _ => alike_enforceAggregatedPubkeysV _ _ _ _ _ _ _ _) fun _ h => ?_
      rw [hprog]
      exact (sound_aggregateLoop h1' drop (-5) g2CoeffB.re g2CoeffB.im x y
        (forall₂_zip_keys (keys := keys) hb') none).mono fun o ho => ⟨h, ho⟩
    have := hsound cs r hr hsat
    rw [projAts_agree ha hk, ha.evalLc hm] at this
    exact this
  · rintro ⟨⟨occ, hocc⟩, h⟩
    have hg := withVals_good h1 hc hs
    have hal : Alike (enforceBitmapV oc drop (-5) g2CoeffB.re g2CoeffB.im x y keys bits m)
        (do maxOccurrencesAs occ bits m false
            enforceAggregatedPubkeysV drop (-5) g2CoeffB.re g2CoeffB.im x y keys bits) :=
      (alike_maxOccurrencesAs occ oc bits m false).bind
        fun _ => alike_enforceAggregatedPubkeysV _ _ _ _ _ _ _ _
    have hbw := bitAts_withVals h1 hb ht
    obtain ⟨c, h4, h5, h6, h7⟩ := exists_extension hal hr h1
      ((step_maxOccurrencesAs fq_modulus_ne_two hg hbw (lcAt_withVals h1 hm) hocc).bind
        fun c1 _ g1 e1 _ => by
          rw [hprog]
          exact step_aggregateLoop (b0 := g2CoeffB.re) (b1 := g2CoeffB.im) drop g1
            (forall₂_zip_at ((projAts_withVals h1 hk).imp fun _ _ h => h.ext hg e1)
              (bitAts_ext hbw hg e1)) .none h) hg
    exact ⟨c.rho, h5, h6, h7.value h4⟩

/-- C115: hence for keys on the curve: the constraints of `enforce_bitmap` can be satisfied exactly if at
most the maximum of keys did not sign and every signer's coordinates denote a point other than the padding
key; and the result then denotes the sum of the signers' points. -/
theorem C115_bitmap_sum {cs : ConstraintSystem FQ_MODULUS} (hc : cs.Closed) {oc drop : Bool}
    {x y : Fq × Fq} (hpad : Denotes (padVar x y).coords (padVar x y).point)
    {keys : List (G2V FQ_MODULUS)} (hk : ∀ v ∈ keys, G2V.ScopedIn cs v) {bits : List BoolV}
    (hb : ∀ b ∈ bits, cs.Scoped (b.lc (p := FQ_MODULUS))) {m : LinComb FQ_MODULUS} (hm : cs.Scoped m)
    {r : Option (G2V FQ_MODULUS) × ConstraintSystem FQ_MODULUS}
    (hr : enforceBitmapV oc drop (-5) g2CoeffB.re g2CoeffB.im x y keys bits m cs = .ok r)
    {σ : R1Var → Fq} (h1 : σ .one = 1) (hs : cs.Sat σ)
    (hcurve : ∀ v ∈ keys, (keyAt σ v).coords.OnCurve g2CoeffB) {ts : List Bool}
    (ht : List.Forall₂ (fun b t => evalLc σ b.lc = bit t) bits ts) (hlen : bits.length < FQ_MODULUS) :
    ((∃ ρ, cs.Agree σ ρ ∧ r.2.Sat ρ) ↔
      (ts.count false ≤ (evalLc σ m).val ∧ (evalLc σ m).val < halfOf FQ_MODULUS) ∧
      ∀ k ∈ (keys.map (keyAt σ)).zip ts, k.2 = true →
        k.1.coords ≠ ⟨0, 0, 0⟩ ∧ k.1.point ≠ (padVar x y).point) ∧
    ∀ ρ, cs.Agree σ ρ → r.2.Sat ρ → Denotes ((r.1.map (projAt (-5) ρ)).getD ProjVar.zero)
      ((((keys.map (keyAt σ)).zip ts).filter (·.2)).map (·.1.point)).sum := by
  have hex := C115_bitmap hc hk hb hm hr h1 hs ht hlen
  have hk' : ∀ k ∈ (keys.map (keyAt σ)).zip ts, k.1.coords.OnCurve g2CoeffB := by
    rintro ⟨k, t⟩ hkt
    obtain ⟨v, hv, rfl⟩ := List.mem_map.1 (List.of_mem_zip hkt).1
    exact hcurve v hv
  constructor
  · rw [← signers_iff hpad hk', ← zip_coords]
    constructor
    · rintro ⟨ρ, ha, hsat⟩
      have := (hex _).1 ⟨ρ, ha, hsat, rfl⟩
      exact ⟨this.1, this.2.1⟩
    · intro h
      obtain ⟨ρ, ha, hsat, _⟩ := (hex _).2 ⟨h.1, h.2, rfl⟩
      exact ⟨ρ, ha, hsat⟩
  · intro ρ ha hsat
    obtain ⟨_, h2, h3⟩ := (hex _).1 ⟨ρ, ha, hsat, rfl⟩
    rw [h3]
    refine (C86_aggregate _ (padVar x y) hk' hpad).2 _ ?_
    rw [← zip_coords]
    exact aggregatedLoopVar_of_all h2 (aggregatedAllVar_total drop _)

/-- C115: the prover's run of `enforce_bitmap`: if fewer than 256 keys did not sign, no more than the
maximum, and no signer's key equals the padding key, it ends, its own assignment satisfies the
constraints, and the result is the sum of the signers' coordinates. -/
theorem C115_run {cs : ConstraintSystem FQ_MODULUS} (hg : cs.Good) (hset : cs.setup = false)
    (oc drop : Bool) {x y : Fq × Fq} {keys : List (G2V FQ_MODULUS)} {Ps : List (ProjVar Fq2)}
    (hk : List.Forall₂ (ProjAt (-5) cs) keys Ps) {bits : List BoolV} {ts : List Bool}
    (hb : List.Forall₂ (BitAt cs) bits ts) (hvar : ∃ b ∈ bits, b.isVar = true)
    (hlen : bits.length = keys.length) (hlt : bits.length < FQ_MODULUS) {m : LinComb FQ_MODULUS} {M : Fq}
    (hm : LcAt cs m M) (h256 : ts.count false < 256) (hM : ts.count false ≤ M.val)
    (hhalf : M.val < halfOf FQ_MODULUS)
    (hpad : ∀ k ∈ Ps.zip ts, k.2 = true → ¬ circuitEq k.1 (padVar x y).coords) :
    ∃ r, enforceBitmapV oc drop (-5) g2CoeffB.re g2CoeffB.im x y keys bits m cs = .ok r ∧
      r.2.Sat r.2.rho ∧
      r.1.map (projAt (-5) r.2.rho) = circuitTotal drop ((Ps.zip ts).map addend) := by
  have hcw : countWitness oc false ts 0 = .ok (UInt8.ofNat (ts.count false)) := by
    cases oc with
    | false => rw [countWitness_wrap]; simp
    | true => rw [countWitness_checked, if_pos (by simpa using h256)]; simp
  have hstep : Step cs (enforceBitmapV oc drop (-5) g2CoeffB.re g2CoeffB.im x y keys bits m)
      fun c o => AccAt (-5) c o (circuitTotal drop ((Ps.zip ts).map addend)) := by
    refine (step_maxOccurrences fq_modulus_ne_two hg hb (by simpa using hvar) hm (fun _ => hcw)
      (occ := ((ts.count false : ℕ) : Fq)) (fun _ => ?_) ?_).bind fun c1 _ g1 e1 _ => ?_
    · rw [UInt8.toNat_ofNat', Nat.mod_eq_of_lt (by simpa using h256)]
    · exact C38_complete fq_modulus_ne_two ts M false (by rw [← hb.length_eq]; exact hlt) hM hhalf
    · unfold enforceAggregatedPubkeysV
      rw [if_neg (by omega)]
      refine step_aggregateLoop (b0 := g2CoeffB.re) (b1 := g2CoeffB.im) drop g1
        (forall₂_zip_at (hk.imp fun _ _ h => h.ext hg e1) (bitAts_ext hb hg e1)) .none
        ((loopSpec_iff drop x y _ _ _).2 ⟨hpad, (allSpec_eq _ _).symm⟩)
  obtain ⟨r, h2, h3, h4, h5⟩ := hstep
  have hset' := h4.setup.trans hset
  exact ⟨r, h2, h3.sat hset', h5.value hset'⟩

/-- C115: the sums themselves run to the end in either mode, and the prover's own assignment satisfies the
constraints: of the signers if no signer's key equals the padding key, of all keys whatever they are. -/
theorem C115_sums_run {cs : ConstraintSystem FQ_MODULUS} (hg : cs.Good) (drop : Bool) {x y : Fq × Fq}
    {keys : List (G2V FQ_MODULUS)} {Ps : List (ProjVar Fq2)}
    (hk : List.Forall₂ (ProjAt (-5) cs) keys Ps) :
    (∀ (bits : List BoolV) (ts : List Bool), List.Forall₂ (BitAt cs) bits ts →
      bits.length = keys.length →
      (∀ k ∈ Ps.zip ts, k.2 = true → ¬ circuitEq k.1 (padVar x y).coords) →
      ∃ r, enforceAggregatedPubkeysV drop (-5) g2CoeffB.re g2CoeffB.im x y keys bits cs = .ok r ∧
        (cs.setup = false → r.2.Sat r.2.rho ∧
          r.1.map (projAt (-5) r.2.rho) = circuitTotal drop ((Ps.zip ts).map addend))) ∧
    ∃ r, enforceAggregatedAllPubkeysV drop (-5) g2CoeffB.re g2CoeffB.im keys cs = .ok r ∧
      (cs.setup = false → r.2.Sat r.2.rho ∧
        r.1.map (projAt (-5) r.2.rho) = circuitTotal drop Ps) := by
  constructor
  · intro bits ts hb hlen hpad
    obtain ⟨r, h2, h3, h4, h5⟩ := step_aggregateLoop (b0 := g2CoeffB.re) (b1 := g2CoeffB.im) drop hg
      (forall₂_zip_at hk hb) .none ((loopSpec_iff drop x y _ _ _).2 ⟨hpad, (allSpec_eq _ _).symm⟩)
    refine ⟨r, ?_, fun hset => ⟨h3.sat (h4.setup.trans hset), h5.value (h4.setup.trans hset)⟩⟩
    unfold enforceAggregatedPubkeysV
    rw [if_neg (by omega)]
    exact h2
  · obtain ⟨r, h2, h3, h4, h5⟩ := step_aggregateAllLoop (b0 := g2CoeffB.re) (b1 := g2CoeffB.im) drop hg
      hk .none
    rw [allSpec_eq] at h5
    exact ⟨r, h2, fun hset => ⟨h3.sat (h4.setup.trans hset), h5.value (h4.setup.trans hset)⟩⟩

/-- C115, violated: if 256 keys or more did not sign, the prover's run panics if arithmetic is checked,
although the constraints can be satisfied (`C115_bitmap`). -/
theorem C115_run_panics {cs : ConstraintSystem FQ_MODULUS} (hset : cs.setup = false)
    (drop : Bool) {x y : Fq × Fq} {keys : List (G2V FQ_MODULUS)} {bits : List BoolV} {ts : List Bool}
    (hb : List.Forall₂ (BitAt cs) bits ts) {m : LinComb FQ_MODULUS} (h256 : 256 ≤ ts.count false) :
    enforceBitmapV true drop (-5) g2CoeffB.re g2CoeffB.im x y keys bits m cs = .panic := by
  have hcount : countBits true false bits cs = .panic := by
    unfold countBits
    rw [hset, if_neg (by simp), bitAts_value hb hset, Outcome.bind_ok, countWitness_checked,
      if_neg (by simpa using h256)]
  unfold enforceBitmapV
  rw [synth_bind_def]
  unfold maxOccurrences
  rw [hcount]
  rfl

/-- C115: a bitmap of another length than the keys makes `enforce_aggregated_pubkeys` panic. -/
theorem C115_length (drop : Bool) {nr b0 b1 : Fq} {x y : Fq × Fq} {keys : List (G2V FQ_MODULUS)}
    {bits : List BoolV} (h : bits.length ≠ keys.length) (cs : ConstraintSystem FQ_MODULUS) :
    enforceAggregatedPubkeysV drop nr b0 b1 x y keys bits cs = .panic := by
  unfold enforceAggregatedPubkeysV
  rw [if_pos h]
  rfl

theorem projAts_setup {cs : ConstraintSystem FQ_MODULUS} (hset : cs.setup = true)
    {keys : List (G2V FQ_MODULUS)} (hk : ∀ v ∈ keys, G2V.ScopedIn cs v) :
    List.Forall₂ (ProjAt (-5) cs) keys (keys.map fun _ => ProjVar.zero) := by
  induction keys with
  | nil => exact .nil
  | cons k ks ih =>
    have h := hk k List.mem_cons_self
    exact .cons ⟨⟨lcAt_setup hset h.1.1 _, lcAt_setup hset h.1.2 _⟩,
      ⟨lcAt_setup hset h.2.1.1 _, lcAt_setup hset h.2.1.2 _⟩,
      ⟨lcAt_setup hset h.2.2.1 _, lcAt_setup hset h.2.2.2 _⟩⟩
        (ih fun v hv => hk v (List.mem_cons_of_mem _ hv))

/-- C115: in setup mode, where nothing has a value, `enforce_bitmap` runs to the end if keys and bits are as
many and a bit is allocated. -/
theorem C115_setup {cs : ConstraintSystem FQ_MODULUS} (hc : cs.Closed) (hset : cs.setup = true)
    (oc drop : Bool) {x y : Fq × Fq} {keys : List (G2V FQ_MODULUS)} (hk : ∀ v ∈ keys, G2V.ScopedIn cs v)
    {bits : List BoolV} (hb : ∀ b ∈ bits, cs.Scoped (b.lc (p := FQ_MODULUS)))
    (hlen : bits.length = keys.length) (hlt : bits.length < halfOf FQ_MODULUS) {m : LinComb FQ_MODULUS}
    (hm : cs.Scoped m) :
    (∃ r, enforceBitmapV oc drop (-5) g2CoeffB.re g2CoeffB.im x y keys bits m cs = .ok r) ↔
      ∃ b ∈ bits, b.isVar = true := by
  constructor
  · rintro ⟨r, hr⟩
    obtain ⟨w, hw, _⟩ := synth_bind_ok.1 hr
    exact ((C110_setup_runs fq_modulus_ne_two hc hset).2.2.2.1 oc bits m false hb hm hlt).1 ⟨w, hw⟩
  · intro hv
    have hg := setup_good hc hset
    have hhalf : halfOf FQ_MODULUS ≤ FQ_MODULUS := by unfold halfOf; omega
    have hbits := bitAts_setup hset hb true
    have hcount := List.count_le_length (a := false) (l := bits.map (BoolV.phantom true))
    rw [List.length_map] at hcount
    have hC := C38_complete fq_modulus_ne_two (bits.map (BoolV.phantom true))
      (((bits.map (BoolV.phantom true)).count false : ℕ) : Fq) false (by rw [List.length_map]; omega)
      (by rw [ZMod.val_natCast_of_lt (by omega)])
      (by rw [ZMod.val_natCast_of_lt (by omega)]; omega)
    have hkeys := projAts_setup hset hk
    have hstep : Step cs (enforceBitmapV oc drop (-5) g2CoeffB.re g2CoeffB.im x y keys bits m)
        fun _ _ => True := by
      refine (step_maxOccurrences fq_modulus_ne_two hg (o := oc) hbits (by simpa using hv)
        (lcAt_setup hset hm _) (k := 0) (fun h => by rw [hset] at h; cases h)
        (fun h => by rw [hset] at h; cases h) hC).bind fun c1 _ g1 e1 _ => ?_
      unfold enforceAggregatedPubkeysV
      rw [if_neg (by omega)]
      refine (step_aggregateLoop (b0 := g2CoeffB.re) (b1 := g2CoeffB.im) drop g1
        (forall₂_zip_at (hkeys.imp fun _ _ h => h.ext hg e1) (bitAts_ext hbits hg e1)) .none
        ((loopSpec_iff drop x y _ _ _).2 ⟨?_, rfl⟩)).mono fun _ _ _ _ => trivial
      rintro ⟨P, t⟩ hP _
      obtain ⟨v, _, rfl⟩ := List.mem_map.1 (List.of_mem_zip hP).1
      simp [circuitEq, ProjVar.zero, padVar, G2Var.coords]
    obtain ⟨r, hr, _⟩ := hstep
    exact ⟨r, hr⟩

/-- C115: setup and prover see the same constraints and get the same variables. -/
theorem C115_shape {oc oc' drop : Bool} {x y : Fq × Fq} {keys : List (G2V FQ_MODULUS)}
    {bits : List BoolV} {m : LinComb FQ_MODULUS} {cs cs' : ConstraintSystem FQ_MODULUS}
    (hi : cs.numInst = cs'.numInst) (hw : cs.numWit = cs'.numWit)
    (hcs : cs.constraints = cs'.constraints)
    {r r' : Option (G2V FQ_MODULUS) × ConstraintSystem FQ_MODULUS}
    (hr : enforceBitmapV oc drop (-5) g2CoeffB.re g2CoeffB.im x y keys bits m cs = .ok r)
    (hr' : enforceBitmapV oc' drop (-5) g2CoeffB.re g2CoeffB.im x y keys bits m cs' = .ok r') :
    r.1 = r'.1 ∧ r.2.constraints = r'.2.constraints ∧ r.2.numInst = r'.2.numInst ∧
      r.2.numWit = r'.2.numWit := by
  obtain ⟨h1, h2, h3, _, _, ext, e1, e2⟩ := alike_enforceBitmapV oc oc' drop _ _ _ x y keys bits m cs
    cs' r r' hi hw hr hr'
  exact ⟨h1, by rw [e1, e2, hcs], h2, h3⟩

/-- C115: the numbers of constraints and witnesses for `n + 1` allocated keys and bits: 30 and 23 per key,
36 per addition, 18 for adding to the constant zero unless it is dropped, and 2991 and 2258 for the bound
on the non-signers. -/
theorem C115_constraints {oc drop : Bool} {x y : Fq × Fq} {keys : List (G2V FQ_MODULUS)}
    {bits : List BoolV} (hb : ∀ b ∈ bits, b.isVar = true) {n : ℕ} (hn : keys.length = n + 1)
    {m : LinComb FQ_MODULUS} {cs : ConstraintSystem FQ_MODULUS}
    {r : Option (G2V FQ_MODULUS) × ConstraintSystem FQ_MODULUS}
    (hr : enforceBitmapV oc drop (-5) g2CoeffB.re g2CoeffB.im x y keys bits m cs = .ok r) :
    r.2.constraints.length = cs.constraints.length + 2991 + 30 * (n + 1) + 36 * n +
      (if drop then 0 else 18) ∧
    r.2.numWit = cs.numWit + 2258 + 23 * (n + 1) + 36 * n + (if drop then 0 else 18) := by
  have hlen' : bits.length = keys.length := by
    obtain ⟨w, _, hw⟩ := synth_bind_ok.1 hr
    unfold enforceAggregatedPubkeysV at hw
    split at hw
    · cases hw
    · omega
  have hz : (keys.zip bits).length = n + 1 := by rw [List.length_zip]; omega
  have hc : Cost (enforceBitmapV oc drop (-5) g2CoeffB.re g2CoeffB.im x y keys bits m)
      (2991 + (30 * (n + 1) + addsCost drop false (n + 1)))
      (2258 + (23 * (n + 1) + addsCost drop false (n + 1))) fun _ => True := by
    refine (cost_maxOccurrences oc bits m false).bind (m := 30 * (n + 1) + addsCost drop false (n + 1))
      (v := 23 * (n + 1) + addsCost drop false (n + 1)) (fun _ _ => ?_)
      (by rw [leHalfCost_fq, toBitsCost_fq]; omega) (by rw [leHalfCost_fq, toBitsCost_fq]; omega)
    unfold enforceAggregatedPubkeysV
    rw [if_neg (by omega)]
    have := cost_aggregateLoop drop (-5) g2CoeffB.re g2CoeffB.im x y (l := keys.zip bits)
      (fun k hk => hb _ (List.of_mem_zip (a := k.1) (b := k.2) hk).2) none
    rw [hz] at this
    exact this
  have h := hc cs r hr
  rw [addsCost_succ] at h
  have e : addsCost drop true n = 36 * n := by
    cases n with
    | zero => rfl
    | succ k => simp [addsCost, addCost]; omega
  rw [e] at h
  have ea : addCost drop false = if drop then 0 else 18 := rfl
  rw [ea] at h
  exact ⟨by rw [h.1]; omega, by rw [h.2.1]; omega⟩

/-- A system in setup mode with witnesses for two keys and two bits, and no constraint. -/
def twoKeys : ConstraintSystem FQ_MODULUS :=
  { setup := true, numInst := 0, numWit := 14, instVals := [], witVals := [], constraints := [] }

/-- The variables of the first and the second key. -/
def keyVars (i : ℕ) : G2V FQ_MODULUS :=
  (.mk (lcVar (.wit i)) (lcVar (.wit (i + 1))), .mk (lcVar (.wit (i + 2))) (lcVar (.wit (i + 3))),
    .mk (lcVar (.wit (i + 4))) (lcVar (.wit (i + 5))))

/-- Values for two keys and two bits. -/
def twoKeyValues (K L : G2Var) (s t : Bool) : R1Var → Fq
  | .one => 1
  | .inst _ => 0
  | .wit i => ([K.x.re, K.x.im, K.y.re, K.y.im, K.z.re, K.z.im, L.x.re, L.x.im, L.y.re, L.y.im, L.z.re,
      L.z.im, bit s, bit t] : List Fq).getD i 0

theorem twoKeys_closed : twoKeys.Closed := fun _ hk => absurd hk List.not_mem_nil

theorem twoKeys_sat (σ : R1Var → Fq) : twoKeys.Sat σ := fun _ hk => absurd hk List.not_mem_nil

theorem twoKeys_scoped (i : ℕ) (h : i < 14) : twoKeys.Scoped (lcVar (.wit i)) := by
  intro t ht
  simp only [lcVar, List.mem_singleton] at ht
  rw [ht]
  exact h

theorem twoKeys_keys : ∀ v ∈ [keyVars 0, keyVars 6], G2V.ScopedIn twoKeys v := by
  intro v hv
  simp only [List.mem_cons, List.not_mem_nil, or_false] at hv
  rcases hv with rfl | rfl <;>
    exact ⟨⟨twoKeys_scoped _ (by decide), twoKeys_scoped _ (by decide)⟩,
      ⟨twoKeys_scoped _ (by decide), twoKeys_scoped _ (by decide)⟩,
      ⟨twoKeys_scoped _ (by decide), twoKeys_scoped _ (by decide)⟩⟩

theorem twoKeys_bits : ∀ b ∈ [BoolV.is (.wit 12), .is (.wit 13)],
    twoKeys.Scoped (b.lc (p := FQ_MODULUS)) := by
  intro v hv
  simp only [List.mem_cons, List.not_mem_nil, or_false] at hv
  rcases hv with rfl | rfl <;> exact twoKeys_scoped _ (by decide)

theorem twoKeys_bit_values (K L : G2Var) (s t : Bool) :
    List.Forall₂ (fun b u => evalLc (twoKeyValues K L s t) b.lc = bit u)
      [BoolV.is (.wit 12), .is (.wit 13)] [s, t] :=
  .cons (evalLc_lcVar _ _) (.cons (evalLc_lcVar _ _) .nil)

theorem twoKeys_at (K L : G2Var) (s t : Bool) :
    [keyVars 0, keyVars 6].map (keyAt (twoKeyValues K L s t)) = [K, L] := by
  simp only [List.map_cons, List.map_nil, keyAt, keyVars, Fp2V.at, evalLc_lcVar]
  rfl

/-- The constant one as the maximum. -/
theorem twoKeys_max : twoKeys.Scoped (lcVar .one) := by
  intro t ht
  rw [List.mem_singleton.1 ht]
  trivial

/-- The generator as the padding key, as `epoch_block.rs:94-96` has it. -/
theorem padVar_gen : padVar (g2GenX.re, g2GenX.im) (g2GenY.re, g2GenY.im) = genVar := rfl

theorem negGen_point_ne : negGenVar.point ≠ genVar.point := by
  rw [negGenVar_point]
  intro h
  exact g2_no_orderTwo genVar.point ⟨genVar_point_ne, by rw [← neg_eq_iff_add_eq_zero]; exact h⟩

theorem half_fq_gt : 2 < halfOf FQ_MODULUS := by decide +kernel

/-- C115: two keys, at most one of which need not sign: with both minus the generator and the first bit set
the constraints can be satisfied, and the result denotes minus the generator; not if no bit is set, nor if
the second key is the padding key and signs. -/
example : ∃ r, enforceBitmapV true true (-5) g2CoeffB.re g2CoeffB.im (g2GenX.re, g2GenX.im)
      (g2GenY.re, g2GenY.im) [keyVars 0, keyVars 6] [.is (.wit 12), .is (.wit 13)] (lcVar .one) twoKeys
        = .ok r ∧
    (∃ ρ, twoKeys.Agree (twoKeyValues negGenVar negGenVar true false) ρ ∧ r.2.Sat ρ ∧
      Denotes ((r.1.map (projAt (-5) ρ)).getD ProjVar.zero) (-genVar.point)) ∧
    (¬ ∃ ρ, twoKeys.Agree (twoKeyValues negGenVar negGenVar false false) ρ ∧ r.2.Sat ρ) ∧
    ¬ ∃ ρ, twoKeys.Agree (twoKeyValues negGenVar genVar true true) ρ ∧ r.2.Sat ρ := by
  obtain ⟨r, hr⟩ := (C115_setup twoKeys_closed rfl true true (x := (g2GenX.re, g2GenX.im))
    (y := (g2GenY.re, g2GenY.im)) twoKeys_keys twoKeys_bits rfl half_fq_gt twoKeys_max).2
      ⟨_, List.mem_cons_self, rfl⟩
  have hh := half_fq_gt
  have hp : (2 : ℕ) < FQ_MODULUS := by decide +kernel
  have hmax : ∀ K L s t, (evalLc (twoKeyValues K L s t) (lcVar .one)).val = 1 := fun K L s t => by
    rw [evalLc_lcVar]
    exact ZMod.val_one'' (by omega)
  have e := fun (L : G2Var) (hL : L.coords.OnCurve g2CoeffB) (s t : Bool) =>
    C115_bitmap_sum twoKeys_closed (padVar_gen ▸ genVar_denotes) twoKeys_keys twoKeys_bits twoKeys_max hr
      (σ := twoKeyValues negGenVar L s t) rfl (twoKeys_sat _) (by
        have h := twoKeys_at negGenVar L s t
        intro v hv
        have := List.mem_map_of_mem (f := keyAt (twoKeyValues negGenVar L s t)) hv
        rw [h] at this
        simp only [List.mem_cons, List.not_mem_nil, or_false] at this
        rcases this with h | h <;> rw [h]
        · exact negGenVar_on
        · exact hL) (twoKeys_bit_values negGenVar L s t) (by simpa using hp)
  simp only [twoKeys_at, padVar_gen, hmax] at e
  refine ⟨r, hr, ?_, ?_, ?_⟩
  · obtain ⟨ρ, ha, hsat⟩ := (e negGenVar negGenVar_on true false).1.2 ⟨⟨by decide, by omega⟩, by
      intro k hk hb
      simp only [List.zip_cons_cons, List.zip_nil_right, List.mem_cons, List.not_mem_nil, or_false] at hk
      rcases hk with rfl | rfl
      · exact ⟨negGenVar_denotes.ne_null, negGen_point_ne⟩
      · cases hb⟩
    refine ⟨ρ, ha, hsat, ?_⟩
    have := (e negGenVar negGenVar_on true false).2 ρ ha hsat
    simpa [negGenVar_point] using this
  · intro h
    have := ((e negGenVar negGenVar_on false false).1.1 h).1.1
    revert this; decide
  · intro h
    have := ((e genVar genVar_on true true).1.1 h).2 (genVar, true) (by simp) rfl
    exact this.2 rfl

/-- C115: of two keys of which one has the coordinates `(0 : 0 : 0)` the sum of all has no affine form, of
the generator twice it has. -/
example : ∃ r, enforceAggregatedAllPubkeysV true (-5) g2CoeffB.re g2CoeffB.im [keyVars 0, keyVars 6] twoKeys
        = .ok r ∧
    (∀ ρ, twoKeys.Agree (twoKeyValues genVar ⟨0, 0, 0⟩ true true) ρ → r.2.Sat ρ →
      ((r.1.map (projAt (-5) ρ)).getD ProjVar.zero).z = 0) ∧
    ∃ ρ, twoKeys.Agree (twoKeyValues genVar genVar true true) ρ ∧ r.2.Sat ρ ∧
      ((r.1.map (projAt (-5) ρ)).getD ProjVar.zero).z ≠ 0 := by
  obtain ⟨r, hr, _⟩ := (C115_sums_run (setup_good twoKeys_closed rfl) true (x := (0, 0)) (y := (0, 0))
    (projAts_setup rfl twoKeys_keys)).2
  have e := fun (L : G2Var) (hL : L.coords.OnCurve g2CoeffB) =>
    C115_all_sum twoKeys_closed twoKeys_keys hr
      (σ := twoKeyValues genVar L true true) rfl (twoKeys_sat _) (by
        have h := twoKeys_at genVar L true true
        intro v hv
        have := List.mem_map_of_mem (f := keyAt (twoKeyValues genVar L true true)) hv
        rw [h] at this
        simp only [List.mem_cons, List.not_mem_nil, or_false] at this
        rcases this with h | h <;> rw [h]
        · exact genVar_on
        · exact hL)
  have hk : ∀ L, keyAt (twoKeyValues genVar L true true) (keyVars 0) = genVar ∧
      keyAt (twoKeyValues genVar L true true) (keyVars 6) = L := fun L => by
    have := twoKeys_at genVar L true true
    simp only [List.map_cons, List.map_nil, List.cons.injEq, and_true] at this
    exact this
  refine ⟨r, hr, fun ρ ha hsat => ?_, ?_⟩
  · by_contra hz
    have := ((e ⟨0, 0, 0⟩ (by simp [ProjVar.OnCurve, G2Var.coords])).2 ρ ha hsat).2.1 hz
    exact this.1 (keyVars 6) (by simp) (by rw [(hk _).2]; rfl)
  · obtain ⟨ρ, ha, hsat⟩ := (e genVar genVar_on).1
    refine ⟨ρ, ha, hsat, ((e genVar genVar_on).2 ρ ha hsat).2.2 ⟨?_, ?_⟩⟩
    · intro v hv
      simp only [List.mem_cons, List.not_mem_nil, or_false] at hv
      rcases hv with rfl | rfl
      · rw [(hk _).1]; exact genVar_denotes.ne_null
      · rw [(hk _).2]; exact genVar_denotes.ne_null
    · simp only [List.map_cons, List.map_nil, (hk _).1, (hk _).2, List.sum_cons, List.sum_nil, add_zero]
      exact fun h => g2_no_orderTwo genVar.point ⟨genVar_point_ne, h⟩

theorem twoKeys_proj (K L : G2Var) (s t : Bool) :
    [keyVars 0, keyVars 6].map (projAt (-5) (twoKeyValues K L s t)) = [K.coords, L.coords] := by
  have e : [keyVars 0, keyVars 6].map (projAt (-5) (twoKeyValues K L s t)) =
      ([keyVars 0, keyVars 6].map (keyAt (twoKeyValues K L s t))).map (·.coords) := by
    rw [List.map_map]; rfl
  rw [e, twoKeys_at]
  rfl

/-- C115: the prover's run for minus the generator twice, the first signing: it ends, satisfied, with the sum
by the formulas of the circuit. -/
example : ∃ r, enforceBitmapV true true (-5) g2CoeffB.re g2CoeffB.im (g2GenX.re, g2GenX.im)
      (g2GenY.re, g2GenY.im) [keyVars 0, keyVars 6] [.is (.wit 12), .is (.wit 13)] (lcVar .one)
        (twoKeys.withVals (twoKeyValues negGenVar negGenVar true false)) = .ok r ∧
    r.2.Sat r.2.rho ∧
    r.1.map (projAt (-5) r.2.rho) = some (circuitAdd g2CoeffB negGenVar.coords ProjVar.zero) := by
  have hh := half_fq_gt
  have hp : (2 : ℕ) < FQ_MODULUS := by decide +kernel
  have hone : (1 : Fq).val = 1 := ZMod.val_one'' (by omega)
  have hk := projAts_withVals (cs := twoKeys) (σ := twoKeyValues negGenVar negGenVar true false) rfl
    twoKeys_keys
  rw [twoKeys_proj] at hk
  have hm := lcAt_withVals (σ := twoKeyValues negGenVar negGenVar true false) rfl twoKeys_max
  rw [evalLc_lcVar] at hm
  refine C115_run (withVals_good rfl twoKeys_closed (twoKeys_sat _)) rfl true true hk
    (bitAts_withVals rfl twoKeys_bits (twoKeys_bit_values negGenVar negGenVar true false))
    ⟨_, List.mem_cons_self, rfl⟩ rfl (by simpa using hp) hm (by decide) (by
      show _ ≤ (1 : Fq).val
      rw [hone]; decide) (by
      show (1 : Fq).val < _
      rw [hone]; omega) ?_
  intro k hk' hb
  simp only [List.zip_cons_cons, List.zip_nil_right, List.mem_cons, List.not_mem_nil, or_false] at hk'
  rcases hk' with rfl | rfl
  · have := (signers_iff (x := (g2GenX.re, g2GenX.im)) (y := (g2GenY.re, g2GenY.im))
      (padVar_gen ▸ genVar_denotes) (ks := [(negGenVar, true)]) (by simpa using negGenVar_on)).2 (by
        simpa using ⟨negGenVar_denotes.ne_null, padVar_gen ▸ negGen_point_ne⟩)
    exact this _ List.mem_cons_self rfl
  · cases hb

/-- C115: three bits for two keys. -/
example : enforceAggregatedPubkeysV true (-5) g2CoeffB.re g2CoeffB.im (0, 0) (0, 0) [keyVars 0, keyVars 6]
    [.is (.wit 12), .is (.wit 13), .constant true] twoKeys = .panic :=
  C115_length true (by decide) twoKeys

/-- C115: 256 bits or more that are false. -/
example (n : ℕ) (h : 256 ≤ n) : enforceBitmapV true true (-5) g2CoeffB.re g2CoeffB.im (0, 0) (0, 0)
    (List.replicate n (keyVars 0)) (List.replicate n (.is (.wit 13))) (lcVar .one)
    (twoKeys.withVals (twoKeyValues negGenVar negGenVar true false)) = .panic := by
  refine C115_run_panics rfl true (ts := List.replicate n false) ?_
    (by rw [List.count_replicate_self]; exact h)
  clear h
  induction n with
  | zero => exact .nil
  | succ n ih =>
    cases bitAts_withVals (cs := twoKeys) (σ := twoKeyValues negGenVar negGenVar true false) rfl
      twoKeys_bits (twoKeys_bit_values negGenVar negGenVar true false) with
    | cons _ h => cases h with
      | cons h _ => exact .cons h ih

/-- C115: the constraints for two keys: 2991 for the bound, 60 for the keys and 36 for the addition. -/
example : ∃ r, enforceBitmapV false true (-5) g2CoeffB.re g2CoeffB.im (0, 0) (0, 0)
      [keyVars 0, keyVars 6] [.is (.wit 12), .is (.wit 13)] (lcVar .one) twoKeys = .ok r ∧
    r.2.constraints.length = 3087 ∧ r.2.numWit = 2354 := by
  obtain ⟨r, hr⟩ := (C115_setup twoKeys_closed rfl false true (x := (0, 0)) (y := (0, 0)) twoKeys_keys
    twoKeys_bits rfl half_fq_gt twoKeys_max).2 ⟨_, List.mem_cons_self, rfl⟩
  exact ⟨r, hr, C115_constraints (n := 1) (by simp [BoolV.isVar]) rfl hr⟩

end Verif
