import Verif.Props.Hashers
import Verif.Props.LightClient
import Verif.Props.BatchForge

/-!
# C96: deceiving a light client means forging a batch

The circuit works with points of the whole curves; what it accepts is translated to the subgroups of order
`r`, where the native verification and the reductions of C92 and C95 are.
-/

set_option exponentiation.threshold 800
set_option linter.unusedSectionVars false

namespace Verif

/-! ## From the curves to the subgroups -/

/-- A number that is `1` modulo `r` and `0` modulo the cofactor `h`. -/
def torsionIndex {h : ℕ} (hc : Nat.Coprime h FR_MODULUS) : ℕ := (Nat.chineseRemainder hc 0 1 : ℕ)

theorem torsionIndex_dvd {h : ℕ} (hc : Nat.Coprime h FR_MODULUS) : h ∣ torsionIndex hc :=
  (Nat.modEq_zero_iff_dvd).mp (Nat.chineseRemainder hc 0 1).2.1

theorem torsionIndex_mod {h : ℕ} (hc : Nat.Coprime h FR_MODULUS) : torsionIndex hc ≡ 1 [MOD FR_MODULUS] :=
  (Nat.chineseRemainder hc 0 1).2.2

theorem torsion_killed {A : Type*} [AddCommGroup A] [Finite A] {h : ℕ} (hA : Nat.card A = h * FR_MODULUS)
    (hc : Nat.Coprime h FR_MODULUS) (x : A) : FR_MODULUS • (torsionIndex hc • x) = 0 := by
  obtain ⟨k, hk⟩ := torsionIndex_dvd hc
  rw [hk, mul_comm, mul_nsmul', smul_comm, nsmul_nsmul_card hA, nsmul_zero]

theorem torsion_fixed {A : Type*} [AddCommGroup A] {h : ℕ} (hc : Nat.Coprime h FR_MODULUS) {x : A}
    (hx : FR_MODULUS • x = 0) : torsionIndex hc • x = x := by
  have := torsionIndex_mod hc
  have hd : addOrderOf x ∣ FR_MODULUS := addOrderOf_dvd_of_nsmul_eq_zero hx
  have h1 := (nsmul_eq_nsmul_iff_modEq (x := x)).mpr (this.of_dvd hd)
  rwa [one_nsmul] at h1

/-- The part of a point of order dividing `r`. -/
noncomputable def toG1r (P : G1Point) : G1r :=
  ⟨torsionIndex cofactor_coprime • P, (mem_G1r _).mpr (torsion_killed g1_card cofactor_coprime P)⟩

/-- The part of a point of order dividing `r`. -/
noncomputable def toG2r (Q : G2Point) : G2r :=
  ⟨torsionIndex g2_cofactor_coprime • Q, (mem_G2r _).mpr (torsion_killed g2_card g2_cofactor_coprime Q)⟩

theorem toG1r_coe (P : G1r) : toG1r P.1 = P := Subtype.ext (torsion_fixed cofactor_coprime P.2)

theorem toG2r_coe (Q : G2r) : toG2r Q.1 = Q := Subtype.ext (torsion_fixed g2_cofactor_coprime Q.2)

theorem toG2r_add (Q Q' : G2Point) : toG2r (Q + Q') = toG2r Q + toG2r Q' := Subtype.ext (nsmul_add _ _ _)

theorem toG2r_zero : toG2r 0 = 0 := Subtype.ext (nsmul_zero _)

theorem toG2r_sum (l : List G2Point) : toG2r l.sum = (l.map toG2r).sum := by
  induction l with
  | nil => exact toG2r_zero
  | cons a l ih => rw [List.sum_cons, toG2r_add, ih, List.map_cons, List.sum_cons]

/-- The pairing of the circuit (`PairingVar::product_of_pairings`, ark_r1cs_std, external), called at
`crates/bls-gadgets/src/bls.rs:227`, which is given points of the whole curves: it is bilinear, its values
have order dividing `r` (the final exponentiation), and it is not constant on the subgroups. -/
structure FullPairing (GT : Type*) [CommGroup GT] where
  /-- the pairing -/
  e : G1Point → G2Point → GT
  add_left : ∀ P P' Q, e (P + P') Q = e P Q * e P' Q
  add_right : ∀ P Q Q', e P (Q + Q') = e P Q * e P Q'
  exponent : ∀ z : GT, z ^ FR_MODULUS = 1
  nontrivial : ∃ (P : G1r) (Q : G2r), e P.1 Q.1 ≠ 1

section
variable {GT : Type*} [CommGroup GT] (F : FullPairing GT)

/-- The pairing on the subgroups, which the native code uses. -/
noncomputable def FullPairing.toCurve : CurvePairing GT where
  e := fun P Q => F.e P.1 Q.1
  add_left := fun P P' Q => F.add_left P.1 P'.1 Q.1
  add_right := fun P Q Q' => F.add_right P.1 Q.1 Q'.1
  nontrivial := F.nontrivial

theorem FullPairing.zero_right (P : G1Point) : F.e P 0 = 1 := by
  have := F.add_right P 0 0
  rw [add_zero] at this
  exact left_eq_mul.mp this

theorem FullPairing.nsmul_left (k : ℕ) (P : G1Point) (Q : G2Point) : F.e (k • P) Q = F.e P Q ^ k :=
  pairing_nsmul_left F.add_left k P Q

theorem FullPairing.nsmul_right (k : ℕ) (P : G1Point) (Q : G2Point) : F.e P (k • Q) = F.e P Q ^ k := by
  induction k with
  | zero => rw [zero_nsmul, F.zero_right, pow_zero]
  | succ k ih => rw [succ_nsmul, F.add_right, ih, pow_succ]

include F in
theorem FullPairing.pow_index (z : GT) {k : ℕ} (hk : k ≡ 1 [MOD FR_MODULUS]) : z ^ k = z := by
  have hd : orderOf z ∣ FR_MODULUS := orderOf_dvd_of_pow_eq_one (F.exponent z)
  have h1 := (pow_eq_pow_iff_modEq (x := z)).mpr (hk.of_dvd hd)
  rwa [pow_one] at h1

/-- The pairing only sees the parts in the subgroups. -/
theorem FullPairing.e_eq (P : G1Point) (Q : G2Point) : F.e P Q = F.toCurve.e (toG1r P) (toG2r Q) := by
  change _ = F.e (torsionIndex _ • P) (torsionIndex _ • Q)
  rw [F.nsmul_left, F.nsmul_right, F.pow_index _ (torsionIndex_mod _), F.pow_index _ (torsionIndex_mod _)]

end

/-! ## The batch of an assignment -/

/-- The keys that sign a transition. -/
noncomputable def signersOf (t : EpochVars × UpdateVars G1Point) : List G2Point :=
  ((t.1.pubkeys.zip t.2.bitmap).filter (·.2)).map (·.1.point)

/-- The two messages that are signed in a transition. -/
def messageOf (t : EpochVars × UpdateVars G1Point) : Bytes × Bytes :=
  (bitsBeToBytesLe t.2.epoch.epochBits, bitsBeToBytesLe t.2.epoch.extraDataBits)

/-- What is hashed in each transition: the two messages, or these with a counter (`attemptHash`). -/
abbrev Label := EpochVars × UpdateVars G1Point → Bytes × Bytes

/-- The entry of the batch for a transition. -/
noncomputable def batchEntry (label : Label) (t : EpochVars × UpdateVars G1Point) : G2r × Bytes × Bytes :=
  (toG2r (signersOf t).sum, label t)

/-- The signature of the batch: without the generators that stand for dummy epochs. -/
noncomputable def batchSignature (gen1 : G1Point) (c : CircuitVars G1Point) : G1r :=
  toG1r c.signature - (c.updates.length - c.real.length) • toG1r gen1

/-- The hash has the values that the assignment uses. -/
def WitnessedHash (label : Label) (H : HashToG1 G1r) (c : CircuitVars G1Point) : Prop :=
  ∀ t ∈ c.transitions, H SIG_DOMAIN (label t).1 (label t).2 = .ok (toG1r t.2.hash.messageHash)

/-- Different messages are hashed under different labels. -/
def Faithful (label : Label) (c : CircuitVars G1Point) : Prop :=
  ∀ t ∈ c.transitions, ∀ t' ∈ c.transitions, label t = label t' → messageOf t = messageOf t'

section
variable {GT : Type*} [CommGroup GT] [DecidableEq GT]

/-- Converse of `batch_ok`. -/
theorem batch_accepts {r : ℕ} {G1 G2 : Type*} [AddCommGroup G1] [Module (ZMod r) G1]
    [AddCommGroup G2] [Module (ZMod r) G2] (P : Pairing r G1 G2 GT) (H : HashToG1 G1) (dom : Bytes)
    {T : Type*} (l : List T) (entry : T → G2 × Bytes × Bytes) (value : T → G1)
    (hv : ∀ t ∈ l, H dom (entry t).2.1 (entry t).2.2 = .ok (value t)) (sig : G1)
    (h : P.e sig (-P.g2) * (l.map fun t => P.e (value t) (entry t).1).prod = 1) :
    batchVerify P sig ((l.map entry).map Prod.fst) dom ((l.map entry).map Prod.snd) H = .ok () := by
  have hm : Outcome.mapM (fun m : Bytes × Bytes => H dom m.1 m.2) ((l.map entry).map Prod.snd) =
      .ok (l.map value) := by
    clear h
    induction l with
    | nil => rfl
    | cons t l ih =>
      simp only [List.map_cons, Outcome.mapM]
      rw [hv t List.mem_cons_self, Outcome.bind_ok, ih fun s hs => hv s (List.mem_cons_of_mem _ hs)]
      rfl
  have hp : productOfPairings P ((l.map value).zip ((l.map entry).map Prod.fst)) =
      (l.map fun t => P.e (value t) (entry t).1).prod := by
    unfold productOfPairings
    rw [List.map_map, List.zip_map', List.map_map]
    rfl
  unfold batchVerify
  rw [if_neg (by simp), hm, Outcome.bind_ok]
  unfold batchVerifyHashes
  rw [if_neg (by simp), productOfPairings_cons, hp, if_pos h]

variable {alloc : G2Var → Prop} {hashC : List Bool → List Bool → HashOut G1Point → Prop} {gen1 : G1Point}
  {n : ℕ} {c : CircuitVars G1Point} {b : EpochBits} (F : FullPairing GT)

/-- **C96.** A satisfying assignment is a batch that the native verification accepts: for each transition the
sum of its signers and the two messages, under the signature without the generators of the dummy epochs. -/
theorem C96_native_batch (hn : c.initial.keys.length = n) (hq : n < FQ_MODULUS)
    (h : enforceEpochs alloc hashC F.e gen1 g2Generator n c = .ok b) (hs : b.sat) (H : HashToG1 G1r)
    {label : Label} (hH : WitnessedHash label H c) :
    batchVerify F.toCurve.toPairing (batchSignature gen1 c) ((c.transitions.map (batchEntry label)).map Prod.fst)
      SIG_DOMAIN ((c.transitions.map (batchEntry label)).map Prod.snd) H = .ok () := by
  obtain ⟨-, h2⟩ := C45_transitions _ _ hn hq h hs
  refine batch_accepts F.toCurve.toPairing H SIG_DOMAIN c.transitions (batchEntry label)
    (fun t => toG1r t.2.hash.messageHash) hH _ ?_
  have hg : toG2r (-g2Generator) = -g2GenR := by
    have := toG2r_coe (-g2GenR)
    exact this
  have hg' : toG2r g2Generator = g2GenR := toG2r_coe g2GenR
  rw [F.e_eq, F.e_eq gen1, hg, hg'] at h2
  have hprod : (c.transitions.map fun t => F.e t.2.hash.messageHash
        (((t.1.pubkeys.zip t.2.bitmap).filter (·.2)).map (·.1.point)).sum).prod =
      (c.transitions.map fun t => F.toCurve.toPairing.e (toG1r t.2.hash.messageHash) (batchEntry label t).1).prod := by
    congr 1
    exact List.map_congr_left fun t _ => F.e_eq _ _
  rw [hprod] at h2
  rw [← h2]
  change F.toCurve.toPairing.e (batchSignature gen1 c) (-g2GenR) * _ =
    F.toCurve.toPairing.e (toG1r c.signature) (-g2GenR) * (_ * F.toCurve.toPairing.e (toG1r gen1) g2GenR ^ _)
  have hneg : ∀ P : G1r, F.toCurve.toPairing.e P (-g2GenR) = (F.toCurve.toPairing.e P g2GenR)⁻¹ :=
    fun P => F.toCurve.toPairing.neg_right P g2GenR
  have hsub : F.toCurve.toPairing.e (toG1r c.signature) g2GenR =
      F.toCurve.toPairing.e (batchSignature gen1 c) g2GenR *
        F.toCurve.toPairing.e (toG1r gen1) g2GenR ^ (c.updates.length - c.real.length) := by
    have hk : F.toCurve.toPairing.e (toG1r gen1) g2GenR ^ (c.updates.length - c.real.length) =
        F.toCurve.toPairing.e ((c.updates.length - c.real.length) • toG1r gen1) g2GenR :=
      (F.nsmul_left _ _ _).symm
    rw [hk, ← F.toCurve.toPairing.add_left, batchSignature, sub_add_cancel]
  rw [hneg, hneg, hsub, mul_inv]
  generalize F.toCurve.toPairing.e (toG1r gen1) g2GenR ^ (c.updates.length - c.real.length) = z
  generalize F.toCurve.toPairing.e (batchSignature gen1 c) g2GenR = y
  rw [mul_comm _ z, mul_assoc, inv_mul_cancel_left]

/-- Different transitions have different messages, if there are at most `2 ^ 16` updates. -/
theorem message_inj {e : G1Point → G2Point → GT} {gen2 : G2Point} (hn : c.initial.keys.length = n)
    (h : enforceEpochs alloc hashC e gen1 gen2 n c = .ok b) (hs : b.sat) (hlen : c.updates.length ≤ 2 ^ 16)
    {i j : ℕ} (hi : i < c.transitions.length) (hj : j < c.transitions.length)
    (hm : messageOf c.transitions[i] = messageOf c.transitions[j]) : i = j := by
  have hl : c.transitions.length = c.real.length := by
    unfold CircuitVars.transitions
    simp
  have hr : c.real.length ≤ c.updates.length := List.length_filter_le _ _
  have key : ∀ k (hk : k < c.transitions.length),
      (c.transitions[k]).2.epoch.index.val = c.initial.index.val + (k + 1) := by
    intro k hk
    have := C43_indices _ _ hn h hs k (by omega)
    have hg : (c.transitions[k]).2 = c.real[k]'(by omega) := by
      simp only [CircuitVars.transitions, List.getElem_zip]
    rw [hg]
    exact this
  have hx : bitsBeToBytesLe (c.transitions[i]).2.epoch.extraDataBits =
      bitsBeToBytesLe (c.transitions[j]).2.epoch.extraDataBits := congrArg Prod.snd hm
  have l16 : ∀ x : Fq, (frToBits x 16).length = 16 := fun x => frToBits_length x (by norm_num)
  have l8 : ∀ x : Fq, (frToBits x 8).length = 8 := fun x => frToBits_length x (by norm_num)
  have l32 : ∀ x : Fq, (frToBits x 32).length = 32 := fun x => frToBits_length x (by norm_num)
  have hy := C26_injective (by
    unfold EpochVars.extraDataBits
    simp only [List.length_append, l16, l8, l32]) hx
  unfold EpochVars.extraDataBits at hy
  obtain ⟨hy, -⟩ := List.append_inj' hy (by rw [l32, l32])
  obtain ⟨hy, -⟩ := List.append_inj' hy (by rw [l8, l8])
  rw [frToBits_eq_iff _ _ (by norm_num), key i hi, key j hj] at hy
  omega

/-! ## The forgery in an assignment -/

/-- What is known about the keys other than the attacked one: the secret, or else a proof of possession
(message and signature). -/
structure KnownKeys where
  secret : G2r → Option (ZMod FR_MODULUS)
  proof : G2r → Bytes × G1r

/-- The knowledge about a key is right: the secret belongs to it, or the code accepts the proof, which is for
a message that is not the attacked signer's. -/
def KnownKeys.Right (P : Pairing FR_MODULUS G1r G2r GT) (H : HashToG1 G1r) (own : Bytes → Bool) (K : KnownKeys)
    (k : G2r) : Prop :=
  match K.secret k with
  | some s => k = toPublic P s
  | none => own (K.proof k).1 = false ∧ verifyPop P k (K.proof k).1 (K.proof k).2 H = .ok ()

open Classical in
/-- The signers of a transition other than `pk`. -/
noncomputable def otherSigners (pk : G2r) (t : EpochVars × UpdateVars G1Point) : List G2r :=
  ((signersOf t).map toG2r).erase pk

/-- The forgery read off an assignment, for the key `pk` among the signers of `t`, the transition after those
of `before`. -/
noncomputable def forgedBatch (label : Label) (K : KnownKeys) (gen1 : G1Point) (pk : G2r) (c : CircuitVars G1Point)
    (before : List (EpochVars × UpdateVars G1Point)) (t : EpochVars × UpdateVars G1Point)
    (after : List (EpochVars × UpdateVars G1Point)) : BatchForgery FR_MODULUS G1r G2r where
  before := before.map (batchEntry label)
  sks := (otherSigners pk t).filterMap K.secret
  others := ((otherSigners pk t).filter fun k => (K.secret k).isNone).map fun k => (k, K.proof k)
  msg := (label t).1
  extra := (label t).2
  after := after.map (batchEntry label)
  sig := batchSignature gen1 c

theorem known_sum (P : Pairing FR_MODULUS G1r G2r GT) (H : HashToG1 G1r) (own : Bytes → Bool) (K : KnownKeys)
    (l : List G2r) (hl : ∀ k ∈ l, K.Right P H own k) :
    ((l.filterMap K.secret).map (toPublic P) ++
      ((l.filter fun k => (K.secret k).isNone).map fun k => (k, K.proof k)).map Prod.fst).sum = l.sum := by
  induction l with
  | nil => rfl
  | cons k l ih =>
    have ih := ih fun x hx => hl x (List.mem_cons_of_mem _ hx)
    have hk := hl k List.mem_cons_self
    unfold KnownKeys.Right at hk
    rw [List.sum_append] at ih ⊢
    rw [List.sum_cons, ← ih]
    cases hsec : K.secret k with
    | some s =>
      rw [hsec] at hk
      simp only at hk
      rw [List.filterMap_cons_some hsec, List.filter_cons_of_neg (by simp [hsec]), List.map_cons,
        List.sum_cons, ← hk, add_assoc]
    | none =>
      rw [List.filterMap_cons_none hsec, List.filter_cons_of_pos (by simp [hsec]), List.map_cons,
        List.map_cons, List.sum_cons, add_left_comm]

/-- **C96.** If a key `pk` is among the signers of a transition of a satisfying assignment, and the other
signers are known in the sense of the reduction, the batch read off the assignment counts as a forgery for
`pk` and the message of that transition. -/
theorem C96_forgery (hn : c.initial.keys.length = n) (hq : n < FQ_MODULUS)
    (h : enforceEpochs alloc hashC F.e gen1 g2Generator n c = .ok b) (hs : b.sat)
    (hlen : c.updates.length ≤ 2 ^ 16) (H : HashToG1 G1r) {label : Label} (hH : WitnessedHash label H c)
    (hf : Faithful label c) {before after : List (EpochVars × UpdateVars G1Point)} {t : EpochVars × UpdateVars G1Point}
    (ht : c.transitions = before ++ t :: after) {pk : G2r} (hpk : pk ∈ (signersOf t).map toG2r)
    (K : KnownKeys) (own : Bytes → Bool)
    (hK : ∀ k ∈ otherSigners pk t, K.Right F.toCurve.toPairing H own k) :
    AcceptedBatch F.toCurve.toPairing H own pk (forgedBatch label K gen1 pk c before t after) ∧
      (forgedBatch label K gen1 pk c before t after).query = (SIG_DOMAIN, label t) := by
  refine ⟨⟨?_, ?_, ?_⟩, rfl⟩
  · intro o ho
    obtain ⟨k, hk, rfl⟩ := List.mem_map.mp ho
    obtain ⟨hk, hnone⟩ := List.mem_filter.mp hk
    have := hK k hk
    unfold KnownKeys.Right at this
    rw [Option.isNone_iff_eq_none.mp hnone] at this
    exact this
  · intro x hx hm
    have hlt : before.length < c.transitions.length := by rw [ht]; simp
    have hti : c.transitions[before.length] = t := by
      simp only [ht, List.getElem_append_right (le_refl _), Nat.sub_self, List.getElem_cons_zero]
    change x.2 = label t at hm
    change x ∈ before.map (batchEntry label) ++ after.map (batchEntry label) at hx
    rcases List.mem_append.mp hx with hx | hx
    · obtain ⟨s, hs', rfl⟩ := List.mem_map.mp hx
      obtain ⟨k, hk, hks⟩ := List.mem_iff_getElem.mp hs'
      have hk2 : k < c.transitions.length := by omega
      have hsk : c.transitions[k] = s := by
        simp only [ht, List.getElem_append_left hk, hks]
      have := message_inj hn h hs hlen hk2 hlt (by
        rw [hsk, hti]
        exact hf _ (by rw [ht]; simp [hs']) _ (by rw [ht]; simp) hm)
      omega
    · obtain ⟨s, hs', rfl⟩ := List.mem_map.mp hx
      obtain ⟨k, hk, hks⟩ := List.mem_iff_getElem.mp hs'
      have hk2 : before.length + (k + 1) < c.transitions.length := by rw [ht]; simp; omega
      have hsk : c.transitions[before.length + (k + 1)] = s := by
        simp only [ht]
        rw [List.getElem_append_right (by omega)]
        simp only [Nat.add_sub_cancel_left, List.getElem_cons_succ, hks]
      have := message_inj hn h hs hlen hk2 hlt (by
        rw [hsk, hti]
        exact hf _ (by rw [ht]; simp [hs']) _ (by rw [ht]; simp) hm)
      omega
  · have hb := C96_native_batch F hn hq h hs H hH
    have hentries : (forgedBatch label K gen1 pk c before t after).entries F.toCurve.toPairing pk =
        c.transitions.map (batchEntry label) := by
      classical
      have hsum : aggregatePublicKeys (pk :: ((forgedBatch label K gen1 pk c before t after).sks.map
          (toPublic F.toCurve.toPairing) ++ (forgedBatch label K gen1 pk c before t after).others.map Prod.fst)) =
          toG2r (signersOf t).sum := by
        unfold aggregatePublicKeys
        rw [← List.sum_eq_foldl, List.sum_cons]
        change pk + (((otherSigners pk t).filterMap K.secret).map (toPublic F.toCurve.toPairing) ++
          (((otherSigners pk t).filter fun k => (K.secret k).isNone).map
            fun k => (k, K.proof k)).map Prod.fst).sum = _
        rw [known_sum _ H own K _ hK, toG2r_sum, ← List.sum_cons]
        unfold otherSigners
        exact (List.perm_cons_erase hpk).symm.sum_eq
      unfold BatchForgery.entries
      rw [hsum, ht, List.map_append, List.map_cons]
      rfl
    rw [hentries]
    exact hb

end

/-! ## A deceived light client -/

section
variable {GT HP : Type*} [CommGroup GT] [DecidableEq GT]

/-- A deceived light client, which holds any block that agrees with block `i` of the chain: the edges collide, or
`last` is a later block of the chain, or there is a transition from a block of the chain with an honest signer that
did not sign it. -/
theorem forged_transition_held {alloc : G2Var → Prop} (ha : AffineAllocG2 alloc)
    {hashC : Bool → List Bool → List Bool → HashOut G1Point → Prop}
    {K : Blake2sCore} {B : Blake2s} (hB : Blake2sAgree K B)
    {groth : List (List Bool) → HP → Outcome Unit (Prop × Bool)} (F : FullPairing GT) {gen1 : G1Point}
    {n : ℕ} (hq : n < FQ_MODULUS) {helper : Option HP} {c : CircuitVars G1Point}
    {first last : EpochBlock} {sat : Prop} (hn : c.initial.keys.length = n) (hne : c.updates ≠ [])
    {N : ℕ} {chain : ℕ → EpochBlock} {Honest : G2Point → Prop} {Signed : G2Point → Bytes → Bytes → Prop}
    (hc : HonestQuorums g2Generator N chain Honest Signed)
    (hkeys : ∀ j < N, (chain j).newPublicKeys.Nodup)
    {i : ℕ} (hi : i < N) (hh : Holds g2Generator chain i first) (hl : EntropyOk last.epochEntropy)
    (h : epochCircuit alloc hashC K groth F.e gen1 g2Generator n helper c
      (publicInputs g2Generator B first last) = .ok sat) (hs : sat)
    (hrange : ThresholdsInRange c) :
    (∃ b, enforceEpochs alloc (hashC helper.isNone) F.e gen1 g2Generator n c = .ok b ∧
      EdgesCollide B g2Generator b first last) ∨
    (∃ j, i < j ∧ j ≤ i + c.updates.length ∧ j < N ∧
      last.index = (chain j).index ∧
      last.maximumNonSigners = (chain j).maximumNonSigners ∧
      encodeEntropy last.epochEntropy = encodeEntropy (chain j).epochEntropy ∧
      last.paddedKeys g2Generator = (chain j).paddedKeys g2Generator ∧
      last.encodeToBitsCip22 g2Generator .last = (chain j).encodeToBitsCip22 g2Generator .last) ∨
    ∃ t ∈ c.transitions, ∃ j < N, ∃ pk ∈ signersOf t, Honest pk ∧
      ¬ Signed pk (messageOf t).1 (messageOf t).2 ∧
      (∀ p ∈ signersOf t, p ∈ (chain j).newPublicKeys) ∧ (signersOf t).Nodup := by
  classical
  by_cases hf : NotForgedOnChain g2Generator N chain Honest Signed c
  · rcases C101_step ha hB hq hn hne hc hi hh hl h hs hrange hf with h1 | h1
    · exact Or.inl h1
    · exact Or.inr (Or.inl h1)
  · right
    right
    obtain ⟨b, hb, hsat, -⟩ := C69_edges hB hn hne hh.parent hl h hs
    obtain ⟨t1, -⟩ := C45_transitions _ _ hn hq hb hsat
    unfold NotForgedOnChain at hf
    push Not at hf
    obtain ⟨t, ht, j, hj, hpts, x, hx, hbit, hho, hns⟩ := hf
    have hgen := (t1 t ht).2.2.2.1
    -- the signers are different keys of the block
    have hsub : ∀ p ∈ signersOf t, p ∈ (chain j).newPublicKeys := by
      intro p hp
      obtain ⟨y, hy, rfl⟩ := List.mem_map.mp hp
      obtain ⟨hy, hyb⟩ := List.mem_filter.mp hy
      have h1 : y.1.point ∈ (chain j).paddedKeys g2Generator := by
        rw [← hpts]
        exact List.mem_map_of_mem (List.of_mem_zip hy).1
      rcases List.mem_append.mp h1 with h1 | h1
      · exact h1
      · exact absurd (List.eq_of_mem_replicate h1) (hgen y hy hyb)
    have hnd : (signersOf t).Nodup := by
      have h1 : signersOf t = ((((chain j).paddedKeys g2Generator).zip t.2.bitmap).filter (·.2)).map (·.1) := by
        unfold signersOf
        rw [← hpts, List.zip_map_left, List.filter_map, List.map_map]
        rfl
      have h2 : ∀ p ∈ signersOf t, p ≠ g2Generator := by
        intro p hp
        obtain ⟨y, hy, rfl⟩ := List.mem_map.mp hp
        obtain ⟨hy, hyb⟩ := List.mem_filter.mp hy
        exact hgen y hy hyb
      have h3 : (signersOf t).Sublist ((chain j).paddedKeys g2Generator) := by
        rw [h1]
        refine (List.Sublist.map _ List.filter_sublist).trans ?_
        have hlen' : ((chain j).paddedKeys g2Generator).length = t.2.bitmap.length := by
          rw [← hpts, List.length_map, (t1 t ht).1]
          unfold EpochVars.pubkeys
          rw [List.length_map]
        have := List.map_fst_zip (l₁ := (chain j).paddedKeys g2Generator) (l₂ := t.2.bitmap) (by omega)
        rw [this]
      have h4 := h3.filter fun p => decide (p ≠ g2Generator)
      rw [List.filter_eq_self.mpr fun p hp => by simpa using h2 p hp] at h4
      refine h4.nodup ?_
      unfold EpochBlock.paddedKeys
      have hrep : ∀ m : ℕ, (List.replicate m g2Generator).filter (fun p => decide (p ≠ g2Generator)) = [] :=
        fun m => List.filter_eq_nil_iff.mpr fun p hp => by rw [List.eq_of_mem_replicate hp]; simp
      rw [List.filter_append, hrep, List.append_nil]
      exact (hkeys j hj).filter _
    exact ⟨t, ht, j, hj, x.1.point, List.mem_map.mpr ⟨x, List.mem_filter.mpr ⟨hx, hbit⟩, rfl⟩, hho, hns, hsub, hnd⟩

/-- The same for the block itself: the edges collide, or `last` is a later block of the chain, or there is a transition
from a block of the chain with an honest signer that did not sign it. -/
theorem forged_transition {alloc : G2Var → Prop} (ha : AffineAllocG2 alloc)
    {hashC : Bool → List Bool → List Bool → HashOut G1Point → Prop}
    {K : Blake2sCore} {B : Blake2s} (hB : Blake2sAgree K B)
    {groth : List (List Bool) → HP → Outcome Unit (Prop × Bool)} (F : FullPairing GT) {gen1 : G1Point}
    {n : ℕ} (hq : n < FQ_MODULUS) {helper : Option HP} {c : CircuitVars G1Point}
    {last : EpochBlock} {sat : Prop} (hn : c.initial.keys.length = n) (hne : c.updates ≠ [])
    {N : ℕ} {chain : ℕ → EpochBlock} {Honest : G2Point → Prop} {Signed : G2Point → Bytes → Bytes → Prop}
    (hc : HonestQuorums g2Generator N chain Honest Signed)
    (hkeys : ∀ j < N, (chain j).newPublicKeys.Nodup)
    {i : ℕ} (hi : i < N) (hl : EntropyOk last.epochEntropy)
    (h : epochCircuit alloc hashC K groth F.e gen1 g2Generator n helper c
      (publicInputs g2Generator B (chain i) last) = .ok sat) (hs : sat)
    (hrange : ThresholdsInRange c) :
    (∃ b, enforceEpochs alloc (hashC helper.isNone) F.e gen1 g2Generator n c = .ok b ∧
      EdgesCollide B g2Generator b (chain i) last) ∨
    (∃ j, i < j ∧ j ≤ i + c.updates.length ∧ j < N ∧
      last.index = (chain j).index ∧
      last.maximumNonSigners = (chain j).maximumNonSigners ∧
      encodeEntropy last.epochEntropy = encodeEntropy (chain j).epochEntropy ∧
      last.paddedKeys g2Generator = (chain j).paddedKeys g2Generator ∧
      last.encodeToBitsCip22 g2Generator .last = (chain j).encodeToBitsCip22 g2Generator .last) ∨
    ∃ t ∈ c.transitions, ∃ j < N, ∃ pk ∈ signersOf t, Honest pk ∧
      ¬ Signed pk (messageOf t).1 (messageOf t).2 ∧
      (∀ p ∈ signersOf t, p ∈ (chain j).newPublicKeys) ∧ (signersOf t).Nodup :=
  forged_transition_held ha hB F hq hn hne hc hkeys hi ⟨rfl, rfl, rfl, (hc.entropy i hi).2⟩ hl h hs hrange

/-- The batch read off an assignment, if the signers of a transition are different keys of the subgroup. -/
theorem transition_batch {alloc : G2Var → Prop} {hashC : List Bool → List Bool → HashOut G1Point → Prop}
    {gen1 : G1Point} {n : ℕ} {c : CircuitVars G1Point} {b : EpochBits} (F : FullPairing GT)
    (hn : c.initial.keys.length = n) (hq : n < FQ_MODULUS)
    (hb : enforceEpochs alloc hashC F.e gen1 g2Generator n c = .ok b) (hsat : b.sat)
    (hlen : c.updates.length ≤ 2 ^ 16) (H : HashToG1 G1r) {label : Label} (hH : WitnessedHash label H c)
    (hlab : Faithful label c) {before after : List (EpochVars × UpdateVars G1Point)}
    {t : EpochVars × UpdateVars G1Point} (hta : c.transitions = before ++ t :: after)
    (hsub : ∀ p ∈ signersOf t, p ∈ G2r) (hnd : (signersOf t).Nodup) {pk : G2r} (hpk : pk.1 ∈ signersOf t)
    (known : KnownKeys) (own : Bytes → Bool)
    (hknown : ∀ k : G2r, k.1 ∈ signersOf t → k ≠ pk → known.Right F.toCurve.toPairing H own k) :
    AcceptedBatch F.toCurve.toPairing H own pk (forgedBatch label known gen1 pk c before t after) ∧
      (forgedBatch label known gen1 pk c before t after).query = (SIG_DOMAIN, label t) := by
  classical
  have hmap : ∀ p ∈ signersOf t, (toG2r p).1 = p := fun p hp =>
    congrArg Subtype.val (toG2r_coe ⟨p, hsub p hp⟩)
  have hnd' : ((signersOf t).map toG2r).Nodup := by
    refine List.Nodup.map_on ?_ hnd
    intro p hp q hq' hpq
    rw [← hmap p hp, ← hmap q hq', hpq]
  refine C96_forgery F hn hq hb hsat hlen H hH hlab hta ?_ known own ?_
  · exact List.mem_map.mpr ⟨pk.1, hpk, toG2r_coe pk⟩
  · intro k hk
    unfold otherSigners at hk
    rw [hnd'.mem_erase_iff] at hk
    obtain ⟨p, hp, rfl⟩ := List.mem_map.mp hk.2
    exact hknown _ (by rw [hmap p hp]; exact hp) hk.1

/-- **C96.** Let `chain` have honest quorums, with keys in the subgroup and different in each block, and let
the circuit be satisfied for the inputs of block `i` of the chain and of `last`.  If `last` is not a later
block of the chain (and the edges of the assignment do not collide with the blocks), the assignment contains a
forgery: an honest key of a block of the chain, among the signers of a transition that it did not sign, such
that the batch read off the assignment is accepted for it, whatever secrets or proofs of possession are known
of the other keys of the block. -/
theorem C96_deceived {alloc : G2Var → Prop} (ha : AffineAllocG2 alloc)
    {hashC : Bool → List Bool → List Bool → HashOut G1Point → Prop}
    {K : Blake2sCore} {B : Blake2s} (hB : Blake2sAgree K B)
    {groth : List (List Bool) → HP → Outcome Unit (Prop × Bool)} (F : FullPairing GT) {gen1 : G1Point}
    {n : ℕ} (hq : n < FQ_MODULUS) {helper : Option HP} {c : CircuitVars G1Point}
    {last : EpochBlock} {sat : Prop} (hn : c.initial.keys.length = n) (hne : c.updates ≠ [])
    (hlen : c.updates.length ≤ 2 ^ 16)
    {N : ℕ} {chain : ℕ → EpochBlock} {Honest : G2Point → Prop} {Signed : G2Point → Bytes → Bytes → Prop}
    (hc : HonestQuorums g2Generator N chain Honest Signed)
    (hkeys : ∀ j < N, (chain j).newPublicKeys.Nodup ∧ ∀ k ∈ (chain j).newPublicKeys, k ∈ G2r)
    {i : ℕ} (hi : i < N) (hl : EntropyOk last.epochEntropy)
    (h : epochCircuit alloc hashC K groth F.e gen1 g2Generator n helper c
      (publicInputs g2Generator B (chain i) last) = .ok sat) (hs : sat)
    (hrange : ThresholdsInRange c) (H : HashToG1 G1r) {label : Label} (hH : WitnessedHash label H c)
    (hlab : Faithful label c) :
    (∃ b, enforceEpochs alloc (hashC helper.isNone) F.e gen1 g2Generator n c = .ok b ∧
      EdgesCollide B g2Generator b (chain i) last) ∨
    (∃ j, i < j ∧ j ≤ i + c.updates.length ∧ j < N ∧
      last.index = (chain j).index ∧
      last.maximumNonSigners = (chain j).maximumNonSigners ∧
      encodeEntropy last.epochEntropy = encodeEntropy (chain j).epochEntropy ∧
      last.paddedKeys g2Generator = (chain j).paddedKeys g2Generator ∧
      last.encodeToBitsCip22 g2Generator .last = (chain j).encodeToBitsCip22 g2Generator .last) ∨
    ∃ before t after j pk, c.transitions = before ++ t :: after ∧ j < N ∧
      (pk : G2r).1 ∈ (chain j).newPublicKeys ∧ Honest pk.1 ∧ ¬ Signed pk.1 (messageOf t).1 (messageOf t).2 ∧
      ∀ (known : KnownKeys) (own : Bytes → Bool),
        (∀ k : G2r, k.1 ∈ (chain j).newPublicKeys → k ≠ pk → known.Right F.toCurve.toPairing H own k) →
        AcceptedBatch F.toCurve.toPairing H own pk (forgedBatch label known gen1 pk c before t after) ∧
        (forgedBatch label known gen1 pk c before t after).query = (SIG_DOMAIN, label t) := by
  obtain ⟨b, hb, hsat, -⟩ := C69_edges hB hn hne (hc.entropy i hi).2 hl h hs
  rcases forged_transition ha hB F hq hn hne hc (fun j hj => (hkeys j hj).1) hi hl h hs hrange with
    h1 | h1 | ⟨t, ht, j, hj, pk, hpk, hh, hns, hsub, hnd⟩
  · exact Or.inl h1
  · exact Or.inr (Or.inl h1)
  · obtain ⟨before, after, hta⟩ := List.append_of_mem ht
    refine Or.inr (Or.inr ⟨before, t, after, j, ⟨pk, (hkeys j hj).2 _ (hsub _ hpk)⟩, hta, hj, hsub _ hpk, hh,
      hns, fun known own hknown => ?_⟩)
    exact transition_batch F hn hq hb hsat hlen H hH hlab hta (fun p hp => (hkeys j hj).2 _ (hsub p hp)) hnd hpk
      known own fun k hk => hknown k (hsub _ hk)

/-! ## The hash with any counter -/

open Classical in
/-- The group element for one value of the counter, which is the first byte of the extra data: the digest of
`crates/bls-crypto/src/hash_to_curve/try_and_increment_cip22.rs:92-130` decoded and multiplied by the
cofactor.  The native hash is its value at the first usable counter (`attempt_native`), and the circuit lets the
prover choose the counter (C52). -/
noncomputable def attemptHash (compat : Bool) (B : Blake2s) (pedX : Bytes → Fq) : HashToG1 G1r :=
  fun dom m x =>
    match x with
    | [] => .err .hashToCurveError
    | counter :: x =>
      (directXof B dom (counter :: (x ++ leBytes 48 (pedX m).val)) 64).bind fun d =>
        if h : ∃ Q, Decodes (signBit compat) (first48 d) Q then .ok (g1ScaleR h.choose)
        else .err .hashToCurveError

theorem attemptHash_eq {compat : Bool} {B : Blake2s} {pedX : Bytes → Fq} {dom m x d : Bytes} {counter : UInt8}
    (hd : directXof B dom (counter :: (x ++ leBytes 48 (pedX m).val)) 64 = .ok d) {Q : AffinePoint Fq}
    (hQ : Decodes (signBit compat) (first48 d) Q) :
    attemptHash compat B pedX dom m (counter :: x) = .ok (g1ScaleR Q) := by
  have hex : ∃ Q, Decodes (signBit compat) (first48 d) Q := ⟨Q, hQ⟩
  unfold attemptHash
  simp only [hd, Outcome.bind_ok, dif_pos hex]
  rw [decodes_unique hex.choose_spec hQ]

/-- The native hash is the value at the counter that it finds. -/
theorem attempt_native [DecidableEq G1Point] (compat : Bool) (B : Blake2s) {sqrt : Fq → Option Fq}
    (hs : SqrtSpec sqrt) (pedX : Bytes → Fq) (pedersen : Bytes → Outcome BLSError Bytes) {dom m x : Bytes}
    (hped : pedersen m = .ok (leBytes 48 (pedX m).val)) {g : G1Point} {k : ℕ}
    (h : hashWithAttemptCip22 compat (compositeHasher B pedersen) sqrt g1Scale dom m x = .ok (g, k)) :
    ∃ g' : G1r, g'.1 = g ∧ attemptHash compat B pedX dom m (UInt8.ofNat k :: x) = .ok g' := by
  obtain ⟨inner, hi, _, ⟨d, hd, _, -, Q, hQ, hQg⟩, _⟩ := (C19_ok_iff compat _ hs g1Scale _ _ _ g k).mp h
  simp only [compositeHasher, hped, Outcome.ok.injEq] at hi
  subst hi
  exact ⟨g1ScaleR Q, hQg, attemptHash_eq hd hQ⟩

/-- The circuit accepts only values of it. -/
theorem attempt_circuit {alloc1 : G1Var → Prop} (ha : AffineAlloc alloc1) (compat : Bool) {K : Blake2sCore}
    {B : Blake2s} (hB : Blake2sAgree K B) (pedX : Bytes → Fq) {epochBits extraBits : List Bool}
    {out : HashOut G1Point} (h : hashBitsToG1C alloc1 compat K pedX true epochBits extraBits out) :
    ∃ counter : UInt8, attemptHash compat B pedX SIG_DOMAIN (bitsBeToBytesLe epochBits)
      (counter :: bitsBeToBytesLe extraBits) = .ok (toG1r out.messageHash) := by
  obtain ⟨counter, d, hd, hg, -⟩ := (C52_exact alloc1 compat hB pedX epochBits extraBits out).mp h
  obtain ⟨Q, hQ, hQg⟩ := groupAccepts_decodes ha hg
  have hl : d.length = 64 := by
    obtain ⟨d', hd', hl⟩ := C21_xof_length B SIG_DOMAIN (counter ::
      (bitsBeToBytesLe extraBits ++ leBytes 48 (pedX (bitsBeToBytesLe epochBits)).val))
      (by decide +kernel) 64 (by norm_num)
    rw [hd, Outcome.ok.injEq] at hd'
    rw [hd', hl]
  refine ⟨counter, ?_⟩
  rw [attemptHash_eq hd ((decodes_first48 hl _).mp hQ), hQg]
  exact congrArg Outcome.ok (toG1r_coe (g1ScaleR Q)).symm

/-- **C96**, for the hash of the code and any choice of the counters by the prover: with the whole hash in the
circuit (no helper), whatever the prover does, a deceived light client means a collision or a forgery, where
the hash of a message is `attemptHash`, with a counter that an honest signer need not have used. -/
theorem C96_any_counter {alloc1 : G1Var → Prop} (ha1 : AffineAlloc alloc1) {alloc : G2Var → Prop}
    (ha : AffineAllocG2 alloc) (compat : Bool) {K : Blake2sCore} {B : Blake2s} (hB : Blake2sAgree K B)
    (pedX : Bytes → Fq) {groth : List (List Bool) → HP → Outcome Unit (Prop × Bool)} (F : FullPairing GT)
    {gen1 : G1Point} {n : ℕ} (hq : n < FQ_MODULUS) {c : CircuitVars G1Point}
    {last : EpochBlock} {sat : Prop} (hn : c.initial.keys.length = n) (hne : c.updates ≠ [])
    (hlen : c.updates.length ≤ 2 ^ 16)
    {N : ℕ} {chain : ℕ → EpochBlock} {Honest : G2Point → Prop} {Signed : G2Point → Bytes → Bytes → Prop}
    (hc : HonestQuorums g2Generator N chain Honest Signed)
    (hkeys : ∀ j < N, (chain j).newPublicKeys.Nodup ∧ ∀ k ∈ (chain j).newPublicKeys, k ∈ G2r)
    {i : ℕ} (hi : i < N) (hl : EntropyOk last.epochEntropy)
    (h : epochCircuit alloc (hashBitsToG1C alloc1 compat K pedX) K groth F.e gen1 g2Generator n none c
      (publicInputs g2Generator B (chain i) last) = .ok sat) (hs : sat) (hrange : ThresholdsInRange c) :
    (∃ b, enforceEpochs alloc (hashBitsToG1C alloc1 compat K pedX true) F.e gen1 g2Generator n c = .ok b ∧
      EdgesCollide B g2Generator b (chain i) last) ∨
    (∃ j, i < j ∧ j ≤ i + c.updates.length ∧ j < N ∧
      last.index = (chain j).index ∧
      last.maximumNonSigners = (chain j).maximumNonSigners ∧
      encodeEntropy last.epochEntropy = encodeEntropy (chain j).epochEntropy ∧
      last.paddedKeys g2Generator = (chain j).paddedKeys g2Generator ∧
      last.encodeToBitsCip22 g2Generator .last = (chain j).encodeToBitsCip22 g2Generator .last) ∨
    ∃ (counter : EpochVars × UpdateVars G1Point → UInt8), ∃ before t after j pk,
      c.transitions = before ++ t :: after ∧ j < N ∧
      (pk : G2r).1 ∈ (chain j).newPublicKeys ∧ Honest pk.1 ∧ ¬ Signed pk.1 (messageOf t).1 (messageOf t).2 ∧
      ∀ (known : KnownKeys) (own : Bytes → Bool),
        (∀ k : G2r, k.1 ∈ (chain j).newPublicKeys → k ≠ pk →
          known.Right F.toCurve.toPairing (attemptHash compat B pedX) own k) →
        ∃ X, AcceptedBatch F.toCurve.toPairing (attemptHash compat B pedX) own pk X ∧
          X = forgedBatch (fun t => ((messageOf t).1, counter t :: (messageOf t).2)) known gen1 pk c before t
            after ∧
          X.query = (SIG_DOMAIN, (messageOf t).1, counter t :: (messageOf t).2) := by
  classical
  obtain ⟨b, hb, hsat, -⟩ := C69_edges hB hn hne (hc.entropy i hi).2 hl h hs
  obtain ⟨t1, -⟩ := C45_transitions _ _ hn hq hb hsat
  have hex : ∀ t : EpochVars × UpdateVars G1Point, ∃ k : UInt8, t ∈ c.transitions →
      attemptHash compat B pedX SIG_DOMAIN (messageOf t).1 (k :: (messageOf t).2) =
        .ok (toG1r t.2.hash.messageHash) := by
    intro t
    by_cases ht : t ∈ c.transitions
    · obtain ⟨k, hk⟩ := attempt_circuit ha1 compat hB pedX (t1 t ht).2.2.2.2
      exact ⟨k, fun _ => hk⟩
    · exact ⟨0, fun h => absurd h ht⟩
  choose counter hcounter using hex
  rcases C96_deceived ha hB F hq hn hne hlen hc hkeys hi hl h hs hrange (attemptHash compat B pedX)
    (label := fun t => ((messageOf t).1, counter t :: (messageOf t).2)) hcounter (by
      intro t _ t' _ he
      simp only [Prod.mk.injEq, List.cons.injEq] at he
      exact Prod.ext he.1 he.2.2) with h1 | h1 | ⟨before, t, after, j, pk, m1, m2, m3, m4, m5, m6⟩
  · exact Or.inl h1
  · exact Or.inr (Or.inl h1)
  · exact Or.inr (Or.inr ⟨counter, before, t, after, j, pk, m1, m2, m3, m4, m5, fun known own hk =>
      ⟨_, (m6 known own hk).1, rfl, (m6 known own hk).2⟩⟩)

end

/-! ### A concrete case -/

/-- Example pairing (not code from /repo): the one by discrete logarithms, extended to the curves. -/
noncomputable def logFull : FullPairing (Multiplicative (ZMod FR_MODULUS)) where
  e := fun P Q => logPairing.e (toG1r P) (toG2r Q)
  add_left := fun P P' Q => by rw [← logPairing.add_left]; congr 1; exact Subtype.ext (nsmul_add _ _ _)
  add_right := fun P Q Q' => by rw [toG2r_add, logPairing.add_right]
  exponent := fun z => by
    have h : FR_MODULUS • Multiplicative.toAdd z = 0 := by
      rw [nsmul_eq_mul, ZMod.natCast_self, zero_mul]
    exact congrArg Multiplicative.ofAdd h
  nontrivial := by
    obtain ⟨P, Q, h⟩ := logPairing.nontrivial
    exact ⟨P, Q, by rw [toG1r_coe, toG2r_coe]; exact h⟩

/-- The honest validator has signed the blocks 0 to 4 only. -/
theorem short_quorums : HonestQuorums g2Generator 5 (fun j => chainBlock [toyKey] 0 (UInt16.ofNat j))
    (fun pk => pk = toyKey) (fun pk m x => pk = toyKey ∧ ∃ j < 5,
      (chainBlock [toyKey] 0 (UInt16.ofNat j)).encodeInnerToBytes g2Generator = (m, x)) where
  size := by norm_num
  index := fun j hj => toy_quorums.index j (by omega)
  entropy := fun j hj => toy_quorums.entropy j (by omega)
  clear := fun j _ => clear_gen_key
  quorum := fun j hj => toy_quorums.quorum j (by omega)
  signs := fun pk m x _ h => h.2

theorem log_chain : HonestChain (G1 := G1Point) (fun _ _ h => h.messageHash = g1GenR.1)
    (fun _ _ => .ok ⟨g1GenR.1, [], []⟩) logFull.e g2Generator 1 (fun _ => ⟨g1GenR.1, [], []⟩)
    (chainBlock [toyKey] 0 4) ([nativeStep 5] ++ [nativeStep 6]) := by
  have toy := toy_chain
  have hpred : ∀ p ∈ predecessors (chainBlock [toyKey] 0 4) ([nativeStep 5] ++ [nativeStep 6]),
      p = (chainBlock [toyKey] 0 4, nativeStep 5) ∨ p = (chainBlock [toyKey] 0 5, nativeStep 6) := by
    intro p hp
    simp only [predecessors, List.cons_append, List.nil_append, List.map_cons, List.map_nil,
      List.zip_cons_cons, List.zip_nil_right, List.mem_cons, List.not_mem_nil, or_false] at hp
    exact hp
  refine ⟨toy.blocks, fun p hp => ?_, fun _ p hp => ?_, fun p hp => ?_, fun p hp => ?_,
    fun _ _ => ⟨rfl, rfl⟩, fun p hp => ?_⟩
  · rcases hpred p hp with rfl | rfl <;> rfl
  · rcases hpred p hp with rfl | rfl <;> rfl
  · rcases hpred p hp with rfl | rfl <;> exact ⟨rfl, le_refl _, by decide⟩
  · rcases hpred p hp with rfl | rfl <;>
    · intro x hx _
      change x ∈ [(toyKey, true)] at hx
      rw [List.mem_singleton.mp hx]
      exact toyKey_ne_gen
  · rcases hpred p hp with rfl | rfl <;>
    · change logFull.e (-g1GenR.1) (-g2Generator) * logFull.e g1GenR.1 [toyKey].sum = 1
      have hk : toyKey = -g2Generator := rfl
      rw [List.sum_singleton, hk, ← logFull.add_left, neg_add_cancel, pairing_zero_left logFull.add_left]

/-- Concrete case for C96: from block 4, the last of the chain, someone with the secret of the validator goes
on to the blocks 5 and 6, in a circuit of five updates.  All hypotheses are met, and as there is no later block
of the chain, the assignment contains a collision or a forgery. -/
example (K : Blake2sCore) : ∃ (c : CircuitVars G1Point) (sat : Prop),
    epochCircuit affineOnlyG2 (fun _ _ _ h => h.messageHash = g1GenR.1) K (fun _ (_ : Unit) => .ok (True, true))
      logFull.e g1GenR.1 g2Generator 1 none c (publicInputs g2Generator (Blake2s.ofCore K)
        (chainBlock [toyKey] 0 (UInt16.ofNat 4)) (chainBlock [toyKey] 0 6)) = .ok sat ∧ sat ∧
    c.initial.keys.length = 1 ∧ c.updates.length = 5 ∧ ThresholdsInRange c ∧
    WitnessedHash messageOf (fun _ _ _ => .ok g1GenR) c ∧
    ((∃ b, enforceEpochs affineOnlyG2 (fun _ _ h => h.messageHash = g1GenR.1) logFull.e g1GenR.1 g2Generator 1 c =
        .ok b ∧ EdgesCollide (Blake2s.ofCore K) g2Generator b (chainBlock [toyKey] 0 (UInt16.ofNat 4))
          (chainBlock [toyKey] 0 6)) ∨
      ∃ before t after pk, c.transitions = before ++ t :: after ∧ (pk : G2r).1 = toyKey ∧
        ∀ known own, AcceptedBatch logFull.toCurve.toPairing (fun _ _ _ => .ok g1GenR) own pk
          (forgedBatch messageOf known g1GenR.1 pk c before t after)) := by
  have hinit := C46_complete affineOnlyG2 (fun _ _ h => h.messageHash = g1GenR.1)
    (fun _ _ => .ok ⟨g1GenR.1, [], []⟩) true (gen1 := g1GenR.1) (max := 5) logFull.add_left logFull.add_right
    (fun _ _ h => ⟨rfl, h⟩) (by decide +kernel) log_chain (by decide)
    (by
      intro _
      refine ⟨?_, ?_, ⟨g1GenR.1, [], []⟩, rfl, rfl⟩
      · intro h; cases h
      · change g2Generator ∉ [toyKey]
        rw [List.mem_singleton]
        exact fun h => toyKey_ne_gen h.symm)
    (by
      change [toyKey].sum ≠ 0
      rw [List.sum_singleton]; exact toyKey_ne)
  obtain ⟨s, c, b, h1, h2, h3, h4, h5, h6, h7, h8⟩ := hinit
  have hci : c.initial = EpochVars.assign (toEpochData (chainBlock [toyKey] 0 4)) := by
    obtain ⟨s', hs', _, e2, _⟩ := C48_shape g1GenR.1 g2Generator 1 (chainBlock [toyKey] 0 4)
      ([nativeStep 5] ++ [nativeStep 6]) 5 (by simp) (by simp)
    rw [h1] at hs'
    simp only [Outcome.ok.injEq] at hs'
    subst hs'
    unfold CircuitVars.assign at h2
    rw [Outcome.map_eq_ok_iff] at h2
    obtain ⟨_, _, rfl⟩ := h2
    simp only [e2]
  have hcirc : epochCircuit affineOnlyG2 (fun _ _ _ h => h.messageHash = g1GenR.1) K
      (fun _ (_ : Unit) => .ok (True, true)) logFull.e g1GenR.1 g2Generator 1 none c
      (publicInputs g2Generator (Blake2s.ofCore K) (chainBlock [toyKey] 0 4) (chainBlock [toyKey] 0 6)) =
      .ok (b.sat ∧ True ∧ verifyEdgesC K b (publicInputs g2Generator (Blake2s.ofCore K)
        (chainBlock [toyKey] 0 4) (chainBlock [toyKey] 0 6))) := by
    unfold epochCircuit
    rw [h3, Outcome.bind_ok]
    rfl
  have hn : c.initial.keys.length = 1 := by rw [hci]; rfl
  have hrange : ThresholdsInRange c := by
    intro w hw
    have : ∃ i : UInt16, w = EpochVars.assign (toEpochData (chainBlock [toyKey] 0 i)) := by
      rw [List.mem_cons] at hw
      rcases hw with rfl | hw
      · exact ⟨4, hci⟩
      · rw [h8] at hw
        simp only [List.cons_append, List.nil_append, List.map_cons, List.map_nil, List.mem_cons,
          List.not_mem_nil, or_false] at hw
        rcases hw with rfl | rfl
        · exact ⟨5, rfl⟩
        · exact ⟨6, rfl⟩
    obtain ⟨i, rfl⟩ := this
    change (0 : ZMod FQ_MODULUS).val < 2 ^ 32
    rw [ZMod.val_zero]
    norm_num
  have hagree : WitnessedHash messageOf (fun _ _ _ => .ok g1GenR) c := by
    intro t ht
    have := ((C45_transitions _ _ hn (by decide +kernel) h3 h4).1 t ht).2.2.2.2
    change t.2.hash.messageHash = g1GenR.1 at this
    rw [this, toG1r_coe]
  have hsat : b.sat ∧ True ∧ verifyEdgesC K b (publicInputs g2Generator (Blake2s.ofCore K)
      (chainBlock [toyKey] 0 4) (chainBlock [toyKey] 0 6)) :=
    ⟨h4, trivial, edges_complete (Blake2s.ofCore_agree K) h5 h6⟩
  refine ⟨c, _, hcirc, hsat, hn, h7, hrange, hagree, ?_⟩
  have hmem : toyKey ∈ G2r := by
    have : toyKey = -g2Generator := rfl
    rw [this]
    exact neg_mem g2GenR.2
  have main := C96_deceived (fun _ h => h) (Blake2s.ofCore_agree K) logFull (by decide +kernel) hn
    (by intro h0; rw [h0] at h7; cases h7) (by rw [h7]; norm_num) short_quorums
    (fun j _ => ⟨List.nodup_singleton _, fun k hk => by
      change k ∈ [toyKey] at hk
      rw [List.mem_singleton.mp hk]
      exact hmem⟩)
    (i := 4) (by norm_num) (chain_entropy [toyKey] 0 6).2 hcirc hsat hrange _ hagree
    (fun _ _ _ _ h => h)
  rcases main with h | ⟨j, a1, -, a3, -⟩ | ⟨before, t, after, j, pk, m1, -, m3, -, -, m6⟩
  · exact Or.inl h
  · omega
  · have hpk : pk.1 = toyKey := List.mem_singleton.mp m3
    refine Or.inr ⟨before, t, after, pk, m1, hpk, fun known own => (m6 known own ?_).1⟩
    intro k hk hne
    refine absurd (Subtype.ext ?_) hne
    rw [hpk]
    exact List.mem_singleton.mp hk

/-- Concrete case for `C96_any_counter`: the same blocks with the hash of the circuit, under a BLAKE2s all of
whose outputs are alike.  All hypotheses are met. -/
example [DecidableEq G1Point] (compat : Bool) : ∃ (K : Blake2sCore) (B : Blake2s) (c : CircuitVars G1Point)
    (sat : Prop), Blake2sAgree K B ∧
    epochCircuit affineOnlyG2 (hashBitsToG1C affineOnly compat K fun _ => 5) K
      (fun _ (_ : Unit) => .ok (True, true)) logFull.e g1GenR.1 g2Generator 1 none c
      (publicInputs g2Generator B (chainBlock [toyKey] 0 (UInt16.ofNat 4)) (chainBlock [toyKey] 0 6)) =
        .ok sat ∧ sat ∧ c.updates.length = 5 ∧ c.initial.keys.length = 1 ∧ ThresholdsInRange c ∧
    ((∃ b, enforceEpochs affineOnlyG2 (hashBitsToG1C affineOnly compat K (fun _ => 5) true) logFull.e g1GenR.1
        g2Generator 1 c = .ok b ∧ EdgesCollide B g2Generator b (chainBlock [toyKey] 0 (UInt16.ofNat 4))
          (chainBlock [toyKey] 0 6)) ∨
      ∃ (counter : EpochVars × UpdateVars G1Point → UInt8), ∃ before t after pk,
        c.transitions = before ++ t :: after ∧ (pk : G2r).1 = toyKey ∧
        ∀ known own, AcceptedBatch logFull.toCurve.toPairing (attemptHash compat B fun _ => 5) own pk
          (forgedBatch (fun t => ((messageOf t).1, counter t :: (messageOf t).2)) known g1GenR.1 pk c before t
            after)) := by
  obtain ⟨K, B, c, sat, hB, -, h1, h2, h3, h4, h5⟩ := native_chain_satisfies' compat logFull.e
    logFull.add_left logFull.add_right g1GenR.1
  have hrange : ThresholdsInRange c := by
    intro w hw
    rw [h5 w hw, ZMod.val_zero]
    norm_num
  refine ⟨K, B, c, sat, hB, h1, h2, h3, h4, hrange, ?_⟩
  have hmem : toyKey ∈ G2r := by
    have : toyKey = -g2Generator := rfl
    rw [this]
    exact neg_mem g2GenR.2
  have main := C96_any_counter (fun _ h => h) (fun _ h => h) compat hB _ logFull (by decide +kernel) h4
    (by intro h0; rw [h0] at h3; cases h3) (by rw [h3]; norm_num) short_quorums
    (fun j _ => ⟨List.nodup_singleton _, fun k hk => by
      change k ∈ [toyKey] at hk
      rw [List.mem_singleton.mp hk]
      exact hmem⟩)
    (i := 4) (by norm_num) (chain_entropy [toyKey] 0 6).2 h1 h2 hrange
  rcases main with h | ⟨j, a1, -, a3, -⟩ | ⟨counter, before, t, after, j, pk, m1, -, m3, -, -, m6⟩
  · exact Or.inl h
  · omega
  · have hpk : pk.1 = toyKey := List.mem_singleton.mp m3
    refine Or.inr ⟨counter, before, t, after, pk, m1, hpk, fun known own => ?_⟩
    obtain ⟨X, n1, rfl, -⟩ := m6 known own (by
      intro k hk hne
      refine absurd (Subtype.ext ?_) hne
      rw [hpk]
      exact List.mem_singleton.mp hk)
    exact n1

end Verif
