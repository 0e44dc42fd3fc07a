import Verif.Model.Bench
import Verif.Props.Batch
import Verif.Props.SynthesisSize

/-!
# C124: the benchmark and the program that counts constraints
-/

set_option linter.unusedSectionVars false

namespace Verif

theorem Outcome.unwrapResult_ok_iff {ε ε' α : Type*} (x : Outcome ε α) (a : α) :
    (x.unwrapResult : Outcome ε' α) = .ok a ↔ x = .ok a := by
  cases x <;> simp [Outcome.unwrapResult]

theorem Outcome.unwrapResult_ne_err {ε ε' α : Type*} (x : Outcome ε α) (e : ε') :
    (x.unwrapResult : Outcome ε' α) ≠ .err e := by
  cases x <;> simp [Outcome.unwrapResult]

section
variable {r : ℕ} [NeZero r] {G1 G2 GT : Type*} [AddCommGroup G1] [Module (ZMod r) G1] [AddCommGroup G2]
  [Module (ZMod r) G2] [CommGroup GT] [DecidableEq GT] (P : Pairing r G1 G2 GT)

/-- What the loop over a committee computes. -/
theorem benchSign_eq {H : HashToG1 G1} {msg : Bytes × Bytes} {h : G1} (hh : H SIG_DOMAIN msg.1 msg.2 = .ok h)
    (sks : List (ZMod r)) (b : BenchBlock G1 G2) :
    benchSign P H msg sks b = .ok ⟨b.epochPubkey + sks.sum • P.g2, b.epochSig + sks.sum • h,
      { b.epochBatch with entries := b.epochBatch.entries ++ sks.map fun s => (s • P.g2, s • h) }⟩ := by
  induction sks generalizing b with
  | nil => simp [benchSign]
  | cons s ss ih =>
    have hs : sign s msg.1 msg.2 H = .ok (s • h) := by simp [sign, signMessage, signRaw, hh]
    simp only [benchSign, hs, Outcome.unwrapResult, Outcome.bind_ok, ih, Batch.add, toPublic, List.sum_cons, add_smul,
      add_assoc, List.map_cons, List.append_assoc, List.singleton_append]

/-- The block of a committee with keys `sks` for a message with hash `h`. -/
def committeeBlock (h : G1) (x : (Bytes × Bytes) × List (ZMod r)) : BenchBlock G1 G2 :=
  ⟨x.2.sum • P.g2, x.2.sum • h, ⟨x.2.map fun s => (s • P.g2, s • h), x.1.1, x.1.2⟩⟩

theorem benchBlocks_eq {H : HashToG1 G1} {input : List ((Bytes × Bytes) × List (ZMod r))} {hs : List G1}
    (hh : List.Forall₂ (fun x h => H SIG_DOMAIN x.1.1 x.1.2 = .ok h) input hs) :
    benchBlocks P H input = .ok (List.zipWith (committeeBlock P) hs input) := by
  unfold benchBlocks
  rw [Outcome.mapM_eq_ok_iff]
  induction hh with
  | nil => exact .nil
  | @cons x h _ _ h1 _ ih =>
    refine .cons ?_ ih
    rw [benchSign_eq P h1]
    simp [committeeBlock, Batch.new]

theorem hashes_exist {H : HashToG1 G1} {input : List ((Bytes × Bytes) × List (ZMod r))}
    (hH : ∀ x ∈ input, ∃ h, H SIG_DOMAIN x.1.1 x.1.2 = .ok h) :
    ∃ hs, List.Forall₂ (fun x h => H SIG_DOMAIN x.1.1 x.1.2 = .ok h) input hs := by
  induction input with
  | nil => exact ⟨[], .nil⟩
  | cons x xs ih =>
    obtain ⟨hs, h1⟩ := ih fun y hy => hH y (List.mem_cons_of_mem _ hy)
    obtain ⟨h, h2⟩ := hH x List.mem_cons_self
    exact ⟨h :: hs, .cons h2 h1⟩

theorem Outcome.mapM_unit {α ε : Type*} (f : α → Outcome ε Unit) (l : List α) (h : ∀ x ∈ l, f x = .ok ()) :
    ∃ out, Outcome.mapM f l = .ok out := by
  refine ⟨l.map fun _ => (), (Outcome.mapM_eq_ok_iff _ _ _).2 ?_⟩
  induction l with
  | nil => exact .nil
  | cons x xs ih => exact .cons (h x List.mem_cons_self) (ih fun y hy => h y (List.mem_cons_of_mem _ hy))

theorem forall₂_left {α β : Type*} {R : α → β → Prop} {l : List α} {m : List β} (h : List.Forall₂ R l m) {x : α}
    (hx : x ∈ l) : ∃ y, R x y := by
  induction h with
  | nil => cases hx
  | cons h1 _ ih =>
    rcases List.mem_cons.1 hx with rfl | hx
    · exact ⟨_, h1⟩
    · exact ih hx

theorem committeeBlock_mem {H : HashToG1 G1} {input : List ((Bytes × Bytes) × List (ZMod r))} {hs : List G1}
    (hh : List.Forall₂ (fun x h => H SIG_DOMAIN x.1.1 x.1.2 = .ok h) input hs) {b : BenchBlock G1 G2}
    (hb : b ∈ List.zipWith (committeeBlock P) hs input) :
    ∃ h x, H SIG_DOMAIN x.1.1 x.1.2 = .ok h ∧ b = committeeBlock P h x := by
  induction hh with
  | nil => cases hb
  | cons h1 _ ih =>
    rw [List.zipWith_cons_cons] at hb
    rcases List.mem_cons.1 hb with rfl | hb
    · exact ⟨_, _, h1, rfl⟩
    · exact ih hb

theorem committeeBlock_zip_mem {H : HashToG1 G1} {input : List ((Bytes × Bytes) × List (ZMod r))} {hs : List G1}
    (hh : List.Forall₂ (fun x h => H SIG_DOMAIN x.1.1 x.1.2 = .ok h) input hs) {y : (G2 × G1) × Bytes × Bytes}
    (hy : y ∈ (((List.zipWith (committeeBlock P) hs input).map (·.epochPubkey)).zip
      ((List.zipWith (committeeBlock P) hs input).map (·.epochSig))).zip (input.map Prod.fst)) :
    ∃ (h : G1) (s : ZMod r), H SIG_DOMAIN y.2.1 y.2.2 = .ok h ∧ y.1 = (s • P.g2, s • h) := by
  induction hh with
  | nil => cases hy
  | cons h1 _ ih =>
    simp only [List.zipWith_cons_cons, List.map_cons, List.zip_cons_cons] at hy
    rcases List.mem_cons.1 hy with rfl | hy
    · exact ⟨_, _, h1, rfl⟩
    · exact ih hy

theorem committeeBlock_sums {H : HashToG1 G1} {input : List ((Bytes × Bytes) × List (ZMod r))} {hs : List G1}
    (hh : List.Forall₂ (fun x h => H SIG_DOMAIN x.1.1 x.1.2 = .ok h) input hs) :
    (List.zipWith (committeeBlock P) hs input).map (·.epochPubkey) =
      (input.map fun x => x.2.sum).map (toPublic P) ∧
    ((List.zipWith (committeeBlock P) hs input).map (·.epochSig)).sum =
      (List.zipWith (fun s h => s • h) (input.map fun x => x.2.sum) hs).sum ∧
    List.Forall₂ (fun m h => H SIG_DOMAIN m.1 m.2 = .ok h) (input.map Prod.fst) hs := by
  induction hh with
  | nil => exact ⟨rfl, rfl, .nil⟩
  | cons h1 _ ih =>
    obtain ⟨i1, i2, i3⟩ := ih
    refine ⟨?_, ?_, .cons h1 i3⟩
    · simp only [List.zipWith_cons_cons, List.map_cons, i1]
      rfl
    · simp only [List.zipWith_cons_cons, List.map_cons, List.sum_cons, i2]
      rfl

theorem benchSign_inv {H : HashToG1 G1} {msg : Bytes × Bytes} {sks : List (ZMod r)} {b c : BenchBlock G1 G2}
    (h : benchSign P H msg sks b = .ok c) : ∃ es : List (G2 × G1),
      List.Forall₂ (fun sk e => e.1 = toPublic P sk ∧ sign sk msg.1 msg.2 H = .ok e.2) sks es ∧
      c.epochBatch = { b.epochBatch with entries := b.epochBatch.entries ++ es } ∧
      c.epochPubkey = b.epochPubkey + (es.map Prod.fst).sum ∧ c.epochSig = b.epochSig + (es.map Prod.snd).sum := by
  induction sks generalizing b with
  | nil =>
    simp only [benchSign, Outcome.ok.injEq] at h
    subst h
    exact ⟨[], .nil, by simp, by simp, by simp⟩
  | cons sk sks ih =>
    obtain ⟨s, hs, h⟩ := (Outcome.bind_eq_ok_iff _ _ _).1 h
    rw [Outcome.unwrapResult_ok_iff] at hs
    obtain ⟨es, h1, h2, h3, h4⟩ := ih h
    refine ⟨(toPublic P sk, s) :: es, .cons ⟨rfl, hs⟩ h1, ?_, ?_, ?_⟩
    · rw [h2]; simp [Batch.add]
    · rw [h3]; simp [add_assoc]
    · rw [h4]; simp [add_assoc]

/-- **C124.** The batches that the benchmark verifies: one for each message, with exactly the public keys of its
committee and their signatures of this message, in order; and the aggregates are those of the batch. -/
theorem C124_blocks (H : HashToG1 G1) (input : List ((Bytes × Bytes) × List (ZMod r)))
    (blocks : List (BenchBlock G1 G2)) (h : benchBlocks P H input = .ok blocks) :
    List.Forall₂ (fun x b => b.epochBatch.message = x.1.1 ∧ b.epochBatch.extraData = x.1.2 ∧
      List.Forall₂ (fun sk e => e.1 = toPublic P sk ∧ sign sk x.1.1 x.1.2 H = .ok e.2) x.2 b.epochBatch.entries ∧
      b.epochPubkey = aggregatePublicKeys (b.epochBatch.entries.map Prod.fst) ∧
      b.epochSig = aggregateSignatures (b.epochBatch.entries.map Prod.snd)) input blocks := by
  refine ((Outcome.mapM_eq_ok_iff _ _ _).1 h).imp fun x b hb => ?_
  obtain ⟨es, h1, h2, h3, h4⟩ := benchSign_inv P hb
  simp only [Batch.new, List.nil_append] at h2
  rw [h2, (C05_aggregate_is_sum (es.map Prod.fst) (es.map Prod.snd)).1,
    (C05_aggregate_is_sum (es.map Prod.fst) (es.map Prod.snd)).2, h3, h4, zero_add, zero_add]
  exact ⟨rfl, rfl, h1, rfl, rfl⟩

/-- **C124.** For any number of blocks and committees of any sizes, whatever the keys, the messages and the random
numbers, the benchmark runs to its end exactly if every message can be hashed. -/
theorem C124_bench (hr : 2 ^ 248 < r) (H : HashToG1 G1) (rng : ℕ → ℕ → ℕ → UInt8)
    (input : List ((Bytes × Bytes) × List (ZMod r))) :
    benchMain P H rng input = .ok () ↔ ∀ x ∈ input, ∃ h, H SIG_DOMAIN x.1.1 x.1.2 = .ok h := by
  constructor
  · intro hb x hx
    unfold benchMain at hb
    obtain ⟨blocks, hbl, hb⟩ := (Outcome.bind_eq_ok_iff _ _ _).1 hb
    obtain ⟨o1, h1, hb⟩ := (Outcome.bind_eq_ok_iff _ _ _).1 hb
    obtain ⟨o2, h2, hb⟩ := (Outcome.bind_eq_ok_iff _ _ _).1 hb
    rw [Outcome.unwrapResult_ok_iff] at h2
    have hlen : blocks.length = input.length :=
      ((Outcome.mapM_eq_ok_iff _ _ _).1 hbl).length_eq.symm
    unfold batchVerify at h2
    rw [if_neg (by simp [hlen])] at h2
    obtain ⟨hs, h3, _⟩ := (Outcome.bind_eq_ok_iff _ _ _).1 h2
    exact forall₂_left ((Outcome.mapM_eq_ok_iff _ _ _).1 h3) (List.mem_map_of_mem hx)
  · intro hH
    obtain ⟨hs, hh⟩ := hashes_exist hH
    obtain ⟨s1, s2, s3⟩ := committeeBlock_sums P hh
    unfold benchMain
    rw [benchBlocks_eq P hh, Outcome.bind_ok]
    dsimp only
    obtain ⟨o1, h1⟩ := Outcome.mapM_unit (ε := Unit)
      (fun x : (G2 × G1) × Bytes × Bytes => (verify P x.1.1 x.2.1 x.2.2 x.1.2 H).unwrapResult)
      ((((List.zipWith (committeeBlock P) hs input).map (·.epochPubkey)).zip
        ((List.zipWith (committeeBlock P) hs input).map (·.epochSig))).zip (input.map Prod.fst)) (by
      rintro ⟨⟨pk, sig⟩, m⟩ hy
      obtain ⟨h, s, e1, e2⟩ := committeeBlock_zip_mem P hh hy
      cases e2
      exact (Outcome.unwrapResult_ok_iff _ _).2 ((C02_verify_dlog P s _ _ _ H).2 ⟨h, e1, rfl⟩))
    rw [h1, Outcome.bind_ok]
    have hfold : (List.zipWith (committeeBlock P) hs input).foldl (fun a b => a + b.epochSig) 0 =
        (List.zipWith (fun s h => s • h) (input.map fun x => x.2.sum) hs).sum := by
      rw [← s2, List.sum_eq_foldl, List.foldl_map]
    have h2 := (C06_exact P _ (input.map fun x => x.2.sum) SIG_DOMAIN (input.map Prod.fst) H hs (by simp) s3).1 hfold
    rw [← s1] at h2
    rw [h2, Outcome.unwrapResult, Outcome.bind_ok]
    have hv : ∀ b ∈ List.zipWith (committeeBlock P) hs input,
        (∃ h, H SIG_DOMAIN b.epochBatch.message b.epochBatch.extraData = .ok h) ∧
        ∀ e ∈ b.epochBatch.entries, verify P e.1 b.epochBatch.message b.epochBatch.extraData e.2 H = .ok () := by
      intro b hb
      obtain ⟨h, x, e1, rfl⟩ := committeeBlock_mem P hh hb
      refine ⟨⟨h, e1⟩, ?_⟩
      intro e he
      obtain ⟨s, _, rfl⟩ := List.mem_map.1 he
      exact (C02_verify_dlog P s _ _ _ H).2 ⟨h, e1, rfl⟩
    obtain ⟨o3, h3⟩ := Outcome.mapM_unit (ε := Unit)
      (fun x : BenchBlock G1 G2 × ℕ => (x.1.epochBatch.verify P H (rng x.2)).unwrapResult)
      (List.zipWith (committeeBlock P) hs input).zipIdx (by
      rintro ⟨b, i⟩ hb
      obtain ⟨e1, e2⟩ := hv b (List.fst_mem_of_mem_zipIdx hb)
      exact (Outcome.unwrapResult_ok_iff _ _).2 (C08_batch_complete P hr _ H e1 e2 _))
    rw [h3, Outcome.bind_ok]
    obtain ⟨o4, h4⟩ := Outcome.mapM_unit (ε := Unit)
      (fun b : BenchBlock G1 G2 => (b.epochBatch.verifyEach P H).unwrapResult)
      (List.zipWith (committeeBlock P) hs input) (fun b hb =>
        (Outcome.unwrapResult_ok_iff _ _).2 ((C11_verify_each_iff P _ H).2 (hv b hb).2))
    rw [h4, Outcome.bind_ok]

end

/-! ## The program that counts constraints -/

section
variable {HP VK : Type} {O : OuterGadgets (HashToBitsHelper HP VK)} {hash p1 p2 verify first last groth : ℕ × ℕ}

/-- **C124.** Without validators the program panics, if overflows are checked; for one validator or more (below
`2 ^ 32`) and one epoch or more, whatever it prints is the number of constraints of the circuit: linear in the
validators for each epoch. -/
theorem C124_constraints {oc drop : Bool} {a : Fq × Fq} {d : (Fq × Fq) × (Fq × Fq)} (proof : HP) :
    (∀ k, constraintsMain O true drop a d proof 0 k = .panic) ∧
    ∀ n k c, n + 1 < 2 ^ 32 → k ≠ 0 → O.CostsAt true (n + 1) k hash p1 p2 verify first last groth →
      constraintsMain O oc drop a d proof (n + 1) k = .ok c →
      c = 15516 + 4044 * n + k * (12045 + 4081 * n + (if drop then 0 else 18) + hash.1 + p1.1 + p2.1) +
        (if drop then 0 else 18) + verify.1 + first.1 + last.1 := by
  refine ⟨fun k => by simp [constraintsMain, proofFaults, Outcome.bind], ?_⟩
  intro n k c hn hk hO hc
  unfold constraintsMain at hc
  obtain ⟨f, _, hc⟩ := (Outcome.bind_eq_ok_iff _ _ _).1 hc
  obtain ⟨u, hu, rfl⟩ := (Outcome.map_eq_ok_iff _ _ _).1 hc
  rw [Outcome.unwrapResult_ok_iff] at hu
  have h := (C123_constraints (s := ValidatorSetUpdateOpt.empty proof (n + 1) k f none) (n := n) (k := k) hO
    (by simpa [ValidatorSetUpdateOpt.empty] using Nat.mod_eq_of_lt hn)
    (by simp [ValidatorSetUpdateOpt.empty, EpochDataOpt.empty]) (by simp [ValidatorSetUpdateOpt.empty]) hk hu).1
  rw [h]
  simp [ValidatorSetUpdateOpt.empty, ConstraintSystem.new]

/-- **C124.** If a prover's run of a circuit of this shape ends, the program prints the number of its constraints. -/
theorem C124_prints (hS : O.Shaped) (hU : O.SetsUp) {oc oc' drop : Bool} {a : Fq × Fq} {d : (Fq × Fq) × (Fq × Fq)}
    (proof : HP) {n k : ℕ} (hn : n ≠ 0) {s : ValidatorSetUpdateOpt G1Point HP VK}
    (hshape : s.shape = (ValidatorSetUpdateOpt.empty (G1 := G1Point) (VK := VK) proof n k ((n - 1) / 3) none).shape)
    {r : List (LinComb FQ_MODULUS) × ConstraintSystem FQ_MODULUS}
    (hr : generateConstraints O oc' drop a d s (.new FQ_MODULUS false) = .ok r) :
    constraintsMain O oc drop a d proof n k = .ok r.2.constraints.length := by
  obtain ⟨u, hu, _, hs⟩ := C117_setup (oc' := oc) hS hU hshape.symm hr
  unfold constraintsMain proofFaults
  rw [if_neg hn, Outcome.bind_ok, hu]
  have : u.2.constraints = r.2.constraints := hs.2.2
  simp [Outcome.unwrapResult, Outcome.map, this]

end

/-! ## Examples -/

/-- Two blocks with committees of three and of two, on the scalar field of BLS12-377: the benchmark ends if both
messages can be hashed, and does not if one is empty and the hasher refuses empty messages. -/
example (rng : ℕ → ℕ → ℕ → UInt8) :
    benchMain (toyPairing FR_MODULUS) (toyFailingHash FR_MODULUS) rng
      [(([1], [2]), [5, 6, 7]), (([3], []), [8, 9])] = .ok () ∧
    benchMain (toyPairing FR_MODULUS) (toyFailingHash FR_MODULUS) rng
      [(([1], [2]), [5, 6, 7]), (([], []), [8, 9])] ≠ .ok () := by
  have hr : 2 ^ 248 < FR_MODULUS := by decide +kernel
  have : NeZero FR_MODULUS := ⟨by decide +kernel⟩
  refine ⟨(C124_bench _ hr _ rng _).2 ?_, fun h => ?_⟩
  · intro x hx
    rcases List.mem_cons.1 hx with rfl | hx
    · exact ⟨_, rfl⟩
    · rcases List.mem_cons.1 hx with rfl | hx
      · exact ⟨_, rfl⟩
      · cases hx
  · obtain ⟨y, hy⟩ := (C124_bench _ hr _ rng _).1 h (([], []), [8, 9]) (by simp)
    simp [toyFailingHash] at hy

/-- One validator and five epochs, with the toy gadgets. -/
example (oc drop : Bool) : constraintsMain toyOuter oc drop (1, sqrtTwo) ((g2GenX.re, g2GenX.im), (g2GenY.re, g2GenY.im))
    () 1 5 = .ok (if drop then 75741 else 75849) := by
  obtain ⟨s, r, u, _, hs, hr, _⟩ := toyOuter_setup oc oc drop
  have h := C124_prints (oc := oc) toyOuter_shaped toyOuter_setsUp () (n := 1) (k := 5) (by norm_num) hs.symm hr
  have hc := (C124_constraints (O := toyOuter) (oc := oc) (drop := drop) ()).2 0 5 _ (by norm_num) (by norm_num)
    (toyOuter_costs 1 5) h
  rw [h, hc]
  cases drop <;> rfl

end Verif
