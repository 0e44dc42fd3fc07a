import Verif.Props.CircuitForge
import Mathlib.Logic.Function.Basic

/-!
# C98: deceiving a light client in the random-oracle model

C96 finds a forged batch in the assignment of a deceived light client, and C95 bounds how often a forger of
batches against one key wins.  Here the two are joined: an adversary against all honest validators, who asks
them for signatures as it likes, and whose aim is to deceive the light client.
-/

set_option exponentiation.threshold 800
set_option linter.unusedSectionVars false

namespace Verif

open Finset

/-! ## An adversary against several signers -/

/-- An adversary against `m` honest signers: it hashes, asks each of them for signatures and for proofs of
possession, and goes on depending on the answers; `D` is what it hands out in the end. -/
inductive Deceiver (m : ℕ) (D G1 : Type*) where
  | output (d : D)
  | hash (x : HashQuery) (k : Outcome BLSError G1 → Deceiver m D G1)
  | sign (j : Fin m) (msg extra : Bytes) (k : Outcome BLSError G1 → Deceiver m D G1)
  | signPop (j : Fin m) (msg : Bytes) (k : Outcome BLSError G1 → Deceiver m D G1)

/-- At most `n` questions are asked. -/
def Deceiver.Bounded {m : ℕ} {D G1 : Type*} : Deceiver m D G1 → ℕ → Prop
  | .output _, _ => True
  | .hash _ _, 0 => False
  | .sign _ _ _ _, 0 => False
  | .signPop _ _ _, 0 => False
  | .hash _ k, n + 1 => ∀ a, (k a).Bounded n
  | .sign _ _ _ k, n + 1 => ∀ a, (k a).Bounded n
  | .signPop _ _ k, n + 1 => ∀ a, (k a).Bounded n

/-- What was signed, and by whom. -/
abbrev Transcript (m : ℕ) := List (Fin m × HashQuery)

section
variable {F D : Type*} {m : ℕ} {r : ℕ} [Fact r.Prime] {G1 G2 GT : Type*} [AddCommGroup G1] [Module (ZMod r) G1]
  [AddCommGroup G2] [Module (ZMod r) G2] [CommGroup GT] [DecidableEq GT]
  (P : Pairing r G1 G2 GT)

/-- The attack on honest signers with the secrets `σ`: the answers are computed by the functions of the code
(`crates/bls-crypto/src/bls/secret.rs:34-63`).  Proofs of possession are made by signer `j` only for the messages (addresses) in `own j`. -/
def attackMany (H : HashToG1 G1) (own : Fin m → Bytes → Bool) (σ : Fin m → ZMod r) :
    Deceiver m D G1 → Transcript m → D × Transcript m
  | .output d, T => (d, T)
  | .hash x k, T => attackMany H own σ (k (H x.1 x.2.1 x.2.2)) T
  | .sign j msg e k, T => attackMany H own σ (k (sign (σ j) msg e H)) ((j, SIG_DOMAIN, msg, e) :: T)
  | .signPop j msg k, T =>
    if own j msg then attackMany H own σ (k (signPop (σ j) msg H)) ((j, POP_DOMAIN, msg, []) :: T)
    else attackMany H own σ (k (.err .verificationFailed)) T

/-- A forger against signer `j` alone, made from an adversary against all: the other signers are played with
the secrets `σ`, and `finish` turns the result into a forgery. -/
def translate (own : Fin m → Bytes → Bool) (j : Fin m) (σ : Fin m → ZMod r) (finish : D → Transcript m → F) :
    Deceiver m D G1 → Transcript m → OracleForger F G1
  | .output d, T => .output (finish d T)
  | .hash x k, T => .hash x fun a => translate own j σ finish (k a) T
  | .sign i msg e k, T =>
    if i = j then .sign msg e fun a => translate own j σ finish (k a) ((i, SIG_DOMAIN, msg, e) :: T)
    else .hash (SIG_DOMAIN, msg, e) fun a =>
      translate own j σ finish (k (a.bind fun h => .ok (signRaw (σ i) h))) ((i, SIG_DOMAIN, msg, e) :: T)
  | .signPop i msg k, T =>
    if own i msg then
      if i = j then .signPop msg fun a => translate own j σ finish (k a) ((i, POP_DOMAIN, msg, []) :: T)
      else .hash (POP_DOMAIN, msg, []) fun a =>
        translate own j σ finish (k (a.bind fun h => .ok (signRaw (σ i) h))) ((i, POP_DOMAIN, msg, []) :: T)
    else translate own j σ finish (k (.err .verificationFailed)) T

theorem OracleForger.Bounded.succ {A : OracleForger F G1} {n : ℕ} (h : A.Bounded n) : A.Bounded (n + 1) := by
  induction A generalizing n with
  | output => trivial
  | hash x k ih =>
    cases n with
    | zero => exact h.elim
    | succ n => exact fun a => ih a (h a)
  | sign msg e k ih =>
    cases n with
    | zero => exact h.elim
    | succ n => exact fun a => ih a (h a)
  | signPop msg k ih =>
    cases n with
    | zero => exact h.elim
    | succ n => exact fun a => ih a (h a)

theorem translate_bounded (own : Fin m → Bytes → Bool) (j : Fin m) (σ : Fin m → ZMod r)
    (finish : D → Transcript m → F) (A : Deceiver m D G1) (T : Transcript m) {n : ℕ} (h : A.Bounded n) :
    (translate own j σ finish A T).Bounded n := by
  induction A generalizing n T with
  | output => trivial
  | hash x k ih =>
    cases n with
    | zero => exact h.elim
    | succ n => exact fun a => ih a T (h a)
  | sign i msg e k ih =>
    cases n with
    | zero => exact h.elim
    | succ n =>
      rw [translate]
      split
      · exact fun a => ih a _ (h a)
      · exact fun a => ih _ _ (h _)
  | signPop i msg k ih =>
    cases n with
    | zero => exact h.elim
    | succ n =>
      rw [translate]
      split
      · split
        · exact fun a => ih a _ (h a)
        · exact fun a => ih _ _ (h _)
      · exact (ih _ _ (h _)).succ

/-- The forger against signer `j`, with secret `s`, sees what the adversary sees. -/
theorem translate_attack (Q : Finset HashQuery) (H : HashToG1 G1) (own : Fin m → Bytes → Bool) (j : Fin m)
    (σ : Fin m → ZMod r) (s : ZMod r) (finish : D → Transcript m → F) (A : Deceiver m D G1) (T : Transcript m)
    (L S : List HashQuery) (hS : ∀ x ∈ S, (j, x) ∈ T) :
    (attack Q H (own j) s (translate own j σ finish A T) L S).1 =
        finish (attackMany H own (Function.update σ j s) A T).1 (attackMany H own (Function.update σ j s) A T).2 ∧
      ∀ x ∈ (attack Q H (own j) s (translate own j σ finish A T) L S).2.2,
        (j, x) ∈ (attackMany H own (Function.update σ j s) A T).2 := by
  have hcons : ∀ {S : List HashQuery} {T : Transcript m} (y : HashQuery), (∀ x ∈ S, (j, x) ∈ T) →
      ∀ x ∈ y :: S, (j, x) ∈ (j, y) :: T := by
    intro S T y h x hx
    rcases List.mem_cons.mp hx with rfl | hx
    · exact List.mem_cons_self
    · exact List.mem_cons_of_mem _ (h x hx)
  induction A generalizing T L S with
  | output d => exact ⟨rfl, hS⟩
  | hash x k ih =>
    rw [translate, attack, attackMany]
    exact ih _ T _ S hS
  | sign i msg e k ih =>
    rw [translate, attackMany]
    by_cases hi : i = j
    · subst hi
      rw [if_pos rfl, attack, Function.update_self]
      exact ih _ _ _ _ (hcons _ hS)
    · rw [if_neg hi, attack, Function.update_of_ne hi]
      exact ih _ _ _ _ fun x hx => List.mem_cons_of_mem _ (hS x hx)
  | signPop i msg k ih =>
    rw [translate, attackMany]
    by_cases ho : own i msg = true
    · rw [if_pos ho, if_pos ho]
      by_cases hi : i = j
      · subst hi
        rw [if_pos rfl, attack, if_pos ho, Function.update_self]
        exact ih _ _ _ _ (hcons _ hS)
      · rw [if_neg hi, attack, Function.update_of_ne hi]
        exact ih _ _ _ _ fun x hx => List.mem_cons_of_mem _ (hS x hx)
    · rw [if_neg ho, if_neg ho]
      exact ih _ _ _ _ hS

/-- The forger against signer `j`: the key under attack takes the place of the key number `j`. -/
def singleForger (own : Fin m → Bytes → Bool) (finish : Fin m → (Fin m → ZMod r) → G2 → D → Transcript m → F)
    (A : (Fin m → G2) → Deceiver m D G1) (j : Fin m) (σ : Fin m → ZMod r) (pk : G2) : OracleForger F G1 :=
  translate own j σ (finish j σ pk) (A (Function.update (fun i => toPublic P (σ i)) j pk)) []

theorem update_public (σ : Fin m → ZMod r) (j : Fin m) (s : ZMod r) :
    Function.update (fun i => toPublic P (σ i)) j (toPublic P s) =
      fun i => toPublic P (Function.update σ j s i) := by
  funext i
  by_cases hi : i = j
  · subst hi; rw [Function.update_self, Function.update_self]
  · rw [Function.update_of_ne hi, Function.update_of_ne hi]

theorem card_fibres {Y X : Type*} [Fintype Y] [Finite X] (p : Y → X → Prop) :
    Nat.card {t : Y × X // p t.1 t.2} = ∑ y : Y, Nat.card {x : X // p y x} := by
  rw [← Nat.card_sigma]
  exact Nat.card_congr
    { toFun := fun t => ⟨t.1.1, t.1.2, t.2⟩
      invFun := fun t => ⟨(t.1, t.2.1), t.2.2⟩
      left_inv := fun _ => rfl
      right_inv := fun _ => rfl }

/-- One of several secrets in an extra place, and anything in its own place. -/
theorem card_moved [NeZero r] {X : Type*} [Finite X] (Win : (Fin m → ZMod r) → X → Prop)
    (V : Fin m → (Fin m → ZMod r) → ZMod r × X → Prop)
    (hwin : ∀ σ f, Win σ f → ∃ j, ∀ u, V j (Function.update σ j u) (σ j, f)) :
    r * Nat.card {t : (Fin m → ZMod r) × X // Win t.1 t.2} ≤
      ∑ j : Fin m, Nat.card {t : (Fin m → ZMod r) × ZMod r × X // V j t.1 t.2} := by
  classical
  choose jj hjj using hwin
  let φ : {t : (Fin m → ZMod r) × X // Win t.1 t.2} × ZMod r →
      Σ j, {t : (Fin m → ZMod r) × ZMod r × X // V j t.1 t.2} := fun t =>
    ⟨jj _ _ t.1.2, ⟨(Function.update t.1.1.1 (jj _ _ t.1.2) t.2, t.1.1.1 (jj _ _ t.1.2), t.1.1.2), hjj _ _ t.1.2 t.2⟩⟩
  have hφ : Function.Injective φ := by
    rintro ⟨⟨⟨σ, f⟩, hw⟩, u⟩ ⟨⟨⟨σ', f'⟩, hw'⟩, u'⟩ h
    have e1 : jj _ _ hw = jj _ _ hw' := congrArg Sigma.fst h
    have e2 : ((Function.update σ (jj _ _ hw) u, σ (jj _ _ hw), f) : (Fin m → ZMod r) × ZMod r × X) =
        (Function.update σ' (jj _ _ hw') u', σ' (jj _ _ hw'), f') :=
      congrArg (fun z : Σ j, {t : (Fin m → ZMod r) × ZMod r × X // V j t.1 t.2} => z.2.1) h
    rw [Prod.mk.injEq, Prod.mk.injEq] at e2
    obtain ⟨e2, e3, rfl⟩ := e2
    have eu : u = u' := by
      have := congrFun e2 (jj _ _ hw)
      rwa [Function.update_self, e1, Function.update_self] at this
    have es : σ = σ' := by
      funext i
      by_cases hi : i = jj _ _ hw
      · rw [hi, e3, ← e1]
      · have := congrFun e2 i
        rwa [Function.update_of_ne hi, Function.update_of_ne (by rwa [← e1])] at this
    subst eu es
    rfl
  have h1 := Nat.card_le_card_of_injective φ hφ
  rwa [Nat.card_prod, Nat.card_zmod, Nat.card_sigma, mul_comm] at h1

/-- Counting: if whenever the adversary wins, one of the forgers made from it wins whatever the secret that it
is given in the place of the attacked one, there are, weighted, at least as many solutions as wins. -/
theorem many_count (Q : Finset HashQuery) (own : Fin m → Bytes → Bool) (g1 : G1)
    (hspan : ∀ h : G1, ∃ c : ZMod r, h = c • g1) (B : Fin m → (Fin m → ZMod r) → G2 → BatchForger r G1 G2) (q : ℕ)
    (hB : ∀ j σ pk, (B j σ pk).Bounded q) (Win : (Fin m → ZMod r) → (Q → {h : G1 // h ≠ 0}) → Prop)
    (hwin : ∀ σ f, Win σ f → ∃ j, ∀ u, WinsBatch P Q (own j) (B j (Function.update σ j u)) (σ j) f) :
    (r - 1) * (r * Nat.card {t : (Fin m → ZMod r) × (Q → {h : G1 // h ≠ 0}) // Win t.1 t.2}) ≤
      ∑ j : Fin m, ∑ i ∈ range (q + 1), Nat.card {t : (Fin m → ZMod r) × ZMod r × {h : G1 // h ≠ 0} × (Q → (ZMod r)ˣ) //
        ∃ x S, batchSolver Q (own j) g1 (t.2.1 • g1) t.2.2.1.1 t.2.2.2 i (B j t.1) (t.2.1 • P.g2) = some (x, S) ∧
          Solved P g1 t.2.1 t.2.2.1.1 S} := by
  classical
  have hpos : NeZero r := ⟨(Fact.out : r.Prime).ne_zero⟩
  have hfin : Finite G1 := Finite.of_surjective (fun c : ZMod r => c • g1) fun h => by
    obtain ⟨c, hc⟩ := hspan h; exact ⟨c, hc.symm⟩
  have h1 := card_moved Win (fun j σ t => WinsBatch P Q (own j) (B j σ) t.1 t.2) hwin
  refine (Nat.mul_le_mul_left (r - 1) h1).trans ?_
  rw [Finset.mul_sum]
  refine Finset.sum_le_sum fun j _ => ?_
  have h2 := card_fibres fun (σ : Fin m → ZMod r) (t : ZMod r × (Q → {h : G1 // h ≠ 0})) =>
    WinsBatch P Q (own j) (B j σ) t.1 t.2
  have h3 : ∀ i, Nat.card {t : (Fin m → ZMod r) × ZMod r × {h : G1 // h ≠ 0} × (Q → (ZMod r)ˣ) //
        ∃ x S, batchSolver Q (own j) g1 (t.2.1 • g1) t.2.2.1.1 t.2.2.2 i (B j t.1) (t.2.1 • P.g2) = some (x, S) ∧
          Solved P g1 t.2.1 t.2.2.1.1 S} = _ :=
    fun i => card_fibres fun (σ : Fin m → ZMod r) (t : ZMod r × {h : G1 // h ≠ 0} × (Q → (ZMod r)ˣ)) =>
      ∃ x S, batchSolver Q (own j) g1 (t.1 • g1) t.2.1.1 t.2.2 i (B j σ) (t.1 • P.g2) = some (x, S) ∧
        Solved P g1 t.1 t.2.1.1 S
  rw [h2, Finset.mul_sum, Finset.sum_congr rfl fun i _ => h3 i, Finset.sum_comm]
  exact Finset.sum_le_sum fun σ _ => C95_reduction P Q (own j) g1 hspan (B j σ) q (hB j σ)

end

/-! ## The light client -/

/-- What the adversary hands out: a chain, two blocks to be shown to the light client (the first of them is
block `first` of the chain), an assignment for the circuit, the counters with which the messages were hashed in
it, and what is known about the keys that are not honest. -/
structure Deception where
  /-- number of blocks -/
  size : ℕ
  chain : ℕ → EpochBlock
  first : ℕ
  last : EpochBlock
  vars : CircuitVars G1Point
  counter : EpochVars × UpdateVars G1Point → UInt8
  known : KnownKeys

/-- What is hashed in each transition (compare `attemptHash`). -/
def Deception.label (d : Deception) : Label := fun t => ((messageOf t).1, d.counter t :: (messageOf t).2)

/-- `last` has the content of block `j` of the chain. -/
def SameBlock (last block : EpochBlock) : Prop :=
  last.index = block.index ∧ last.maximumNonSigners = block.maximumNonSigners ∧
    encodeEntropy last.epochEntropy = encodeEntropy block.epochEntropy ∧
    last.paddedKeys g2Generator = block.paddedKeys g2Generator

section
variable {GT HP : Type*} [CommGroup GT] [DecidableEq GT] {m : ℕ}

/-- The adversary deceives the light client.  The honest keys are `pks`, and `T` says what they signed. -/
structure Deceives (alloc : G2Var → Prop) (hashC : Bool → List Bool → List Bool → HashOut G1Point → Prop)
    (K : Blake2sCore) (B : Blake2s) (groth : List (List Bool) → HP → Outcome Unit (Prop × Bool))
    (F : FullPairing GT) (gen1 : G1Point) (n : ℕ) (helper : Option HP) (own : Fin m → Bytes → Bool)
    (H : HashToG1 G1r) (pks : Fin m → G2r) (d : Deception) (T : Transcript m) : Prop where
  /-- The honest keys signed only blocks of the chain, under any counter, and are a quorum in each block. -/
  quorums : HonestQuorums g2Generator d.size d.chain (fun p => ∃ j, p = (pks j).1)
    (fun p msg x => ∃ j k, p = (pks j).1 ∧ (j, SIG_DOMAIN, msg, k :: x) ∈ T)
  keys : ∀ a < d.size, (d.chain a).newPublicKeys.Nodup ∧ ∀ k ∈ (d.chain a).newPublicKeys, k ∈ G2r
  /-- The other keys have proofs of possession that the code accepts, for addresses of nobody honest, or the
  adversary knows their secrets. -/
  known : ∀ a < d.size, ∀ k : G2r, k.1 ∈ (d.chain a).newPublicKeys → (∀ j, k ≠ pks j) →
    ∀ j, d.known.Right F.toCurve.toPairing H (own j) k
  first : d.first < d.size
  entropy : EntropyOk d.last.epochEntropy
  /-- The light client accepts: the circuit is satisfied for its public inputs
  (`crates/epoch-snark/src/api/verifier.rs:23-40`, without the proof system). -/
  accepted : ∃ sat, epochCircuit alloc hashC K groth F.e gen1 g2Generator n helper d.vars
    (publicInputs g2Generator B (d.chain d.first) d.last) = .ok sat ∧ sat
  size : d.vars.initial.keys.length = n
  updates : d.vars.updates ≠ [] ∧ d.vars.updates.length ≤ 2 ^ 16
  range : ThresholdsInRange d.vars
  hashed : WitnessedHash d.label H d.vars
  /-- No collision of the hash of the edges was found. -/
  edges : ∀ b, enforceEpochs alloc (hashC helper.isNone) F.e gen1 g2Generator n d.vars = .ok b →
    ¬ EdgesCollide B g2Generator b (d.chain d.first) d.last
  /-- But the last block is no later block of the chain. -/
  deceived : ∀ a, d.first < a → a < d.size → ¬ SameBlock d.last (d.chain a)

/-- All ways to take an element out of a list. -/
def splits {α : Type*} : List α → List (List α × α × List α)
  | [] => []
  | x :: l => ([], x, l) :: (splits l).map fun s => (x :: s.1, s.2)

theorem mem_splits {α : Type*} {l a b : List α} {x : α} : (a, x, b) ∈ splits l ↔ l = a ++ x :: b := by
  induction l generalizing a with
  | nil => simp [splits]
  | cons y l ih =>
    simp only [splits, List.mem_cons, List.mem_map, Prod.mk.injEq, Prod.exists]
    constructor
    · rintro (⟨rfl, rfl, rfl⟩ | ⟨a', x', b', h, rfl, rfl, rfl⟩)
      · rfl
      · rw [ih.mp h, List.cons_append]
    · intro h
      cases a with
      | nil =>
        rw [List.nil_append, List.cons.injEq] at h
        exact Or.inl ⟨rfl, h.1.symm, h.2.symm⟩
      | cons z a =>
        rw [List.cons_append, List.cons.injEq] at h
        exact Or.inr ⟨a, x, b, ih.mpr h.2, by rw [h.1], rfl, rfl⟩

/-- A transition from a block of the chain with signer `pk`, which did not sign it. -/
def Deception.Forged (d : Deception) (T : Transcript m) (j : Fin m) (pk : G2r)
    (t : EpochVars × UpdateVars G1Point) : Prop :=
  pk.1 ∈ signersOf t ∧ (j, SIG_DOMAIN, d.label t) ∉ T ∧ (signersOf t).Nodup ∧
    ∃ a < d.size, ∀ p ∈ signersOf t, p ∈ (d.chain a).newPublicKeys

open Classical in
/-- The knowledge of the adversary, with the secrets of the honest signers other than `j`. -/
noncomputable def KnownKeys.withHonest (P : Pairing FR_MODULUS G1r G2r GT) (j : Fin m)
    (σ : Fin m → ZMod FR_MODULUS) (K : KnownKeys) : KnownKeys where
  secret := fun k =>
    match (List.finRange m).find? fun i => decide (i ≠ j ∧ k = toPublic P (σ i)) with
    | some i => some (σ i)
    | none => K.secret k
  proof := K.proof

open Classical in
/-- The forgery against signer `j` in a deception: the first forged transition is looked for. -/
noncomputable def Deception.toForgery (P : Pairing FR_MODULUS G1r G2r GT) (gen1 : G1Point) (j : Fin m)
    (σ : Fin m → ZMod FR_MODULUS) (pk : G2r) (d : Deception) (T : Transcript m) : BatchForgery FR_MODULUS G1r G2r :=
  match (splits d.vars.transitions).find? fun s => decide (d.Forged T j pk s.2.1) with
  | some s => forgedBatch d.label (d.known.withHonest P j σ) gen1 pk d.vars s.1 s.2.1 s.2.2
  | none => ⟨[], [], [], [], [], [], 0⟩

theorem withHonest_right {P : Pairing FR_MODULUS G1r G2r GT} {H : HashToG1 G1r} {own : Bytes → Bool} (j : Fin m)
    (σ : Fin m → ZMod FR_MODULUS) {K : KnownKeys} {k : G2r}
    (h : (∀ i, i ≠ j → k ≠ toPublic P (σ i)) → K.Right P H own k) : (K.withHonest P j σ).Right P H own k := by
  classical
  unfold KnownKeys.Right KnownKeys.withHonest
  simp only []
  cases hf : (List.finRange m).find? fun i => decide (i ≠ j ∧ k = toPublic P (σ i)) with
  | some i =>
    have := List.find?_some hf
    simp only [ne_eq, decide_eq_true_eq] at this
    exact this.2
  | none =>
    rw [List.find?_eq_none] at hf
    have := h fun i hi hk => by
      have := hf i (List.mem_finRange i)
      simp only [ne_eq, decide_eq_true_eq, not_and] at this
      exact this hi hk
    exact this

variable {alloc : G2Var → Prop} {hashC : Bool → List Bool → List Bool → HashOut G1Point → Prop}
  {K : Blake2sCore} {B : Blake2s} {groth : List (List Bool) → HP → Outcome Unit (Prop × Bool)}
  {F : FullPairing GT} {gen1 : G1Point} {n : ℕ} {helper : Option HP} {own : Fin m → Bytes → Bool}
  {H : HashToG1 G1r}

/-- A deception contains a forgery against one of the honest signers. -/
theorem deception_forgery (ha : AffineAllocG2 alloc) (hB : Blake2sAgree K B) (hq : n < FQ_MODULUS)
    {σ : Fin m → ZMod FR_MODULUS} {d : Deception} {T : Transcript m}
    (h : Deceives alloc hashC K B groth F gen1 n helper own H (fun j => toPublic F.toCurve.toPairing (σ j)) d T) :
    ∃ j, ∀ σ' : Fin m → ZMod FR_MODULUS, (∀ i, i ≠ j → σ' i = σ i) →
      AcceptedBatch F.toCurve.toPairing H (own j) (toPublic F.toCurve.toPairing (σ j))
        (d.toForgery F.toCurve.toPairing gen1 j σ' (toPublic F.toCurve.toPairing (σ j)) T) ∧
      (j, (d.toForgery F.toCurve.toPairing gen1 j σ' (toPublic F.toCurve.toPairing (σ j)) T).query) ∉ T := by
  classical
  obtain ⟨sat, hcirc, hs⟩ := h.accepted
  obtain ⟨b, hb, hsat, -⟩ := C69_edges hB h.size h.updates.1 (h.quorums.entropy _ h.first).2 h.entropy hcirc hs
  rcases forged_transition ha hB F hq h.size h.updates.1 h.quorums (fun a ha => (h.keys a ha).1) h.first h.entropy
    hcirc hs h.range with ⟨b', hb', he⟩ | ⟨a, a1, -, a3, a4, a5, a6, a7, -⟩ | ⟨t, ht, a, ha', pk, hpk, ⟨j, rfl⟩, hns, hsub, hnd⟩
  · exact absurd he (h.edges b' hb')
  · exact absurd ⟨a4, a5, a6, a7⟩ (h.deceived a a1 a3)
  · refine ⟨j, fun σ' hσ => ?_⟩
    have hF : d.Forged T j (toPublic F.toCurve.toPairing (σ j)) t :=
      ⟨hpk, fun hT => hns ⟨j, _, rfl, hT⟩, hnd, a, ha', hsub⟩
    obtain ⟨before, after, hta⟩ := List.append_of_mem ht
    unfold Deception.toForgery
    cases hf : (splits d.vars.transitions).find? fun s =>
        decide (d.Forged T j (toPublic F.toCurve.toPairing (σ j)) s.2.1) with
    | none =>
      rw [List.find?_eq_none] at hf
      exact absurd (decide_eq_true hF) (hf _ (mem_splits.mpr hta))
    | some s =>
      obtain ⟨before, t, after⟩ := s
      have hmem := mem_splits.mp (List.mem_of_find?_eq_some hf)
      have hfd := List.find?_some hf
      simp only [decide_eq_true_eq] at hfd
      obtain ⟨f1, f2, f3, a, ha', f4⟩ := hfd
      have main := transition_batch F h.size hq hb hsat h.updates.2 H h.hashed (fun t _ t' _ he => by
          simp only [Deception.label, Prod.mk.injEq, List.cons.injEq] at he
          exact Prod.ext he.1 he.2.2) hmem (fun p hp => (h.keys a ha').2 _ (f4 p hp)) f3 f1
        (d.known.withHonest F.toCurve.toPairing j σ') (own j) (fun k hk hne => withHonest_right j σ' fun hk' =>
          h.known a ha' k (f4 _ hk) (fun i => by
            by_cases hi : i = j
            · rw [hi]; exact hne
            · rw [← hσ i hi]; exact hk' i hi) j)
      simp only []
      exact ⟨main.1, by rw [main.2]; exact f2⟩

/-- The hash gadget as an oracle: the value of the hash at some counter, which the prover chooses (C52). -/
def oracleHashC (H : HashToG1 G1r) (epochBits extraBits : List Bool) (out : HashOut G1Point) : Prop :=
  ∃ k : UInt8, H SIG_DOMAIN (bitsBeToBytesLe epochBits) (k :: bitsBeToBytesLe extraBits) =
    .ok (toG1r out.messageHash)

/-- C98: the gadget of the circuit is such an oracle, for the hash of the code. -/
theorem C98_gadget {alloc1 : G1Var → Prop} (ha : AffineAlloc alloc1) (compat : Bool) {K : Blake2sCore}
    {B : Blake2s} (hB : Blake2sAgree K B) (pedX : Bytes → Fq) {epochBits extraBits : List Bool}
    {out : HashOut G1Point} (h : hashBitsToG1C alloc1 compat K pedX true epochBits extraBits out) :
    oracleHashC (attemptHash compat B pedX) epochBits extraBits out :=
  attempt_circuit ha compat hB pedX h

/-- C98: with such an oracle in the circuit, there are counters as a deception needs them. -/
theorem C98_counters {c : CircuitVars G1Point} (hn : c.initial.keys.length = n) (hq : n < FQ_MODULUS) {b : EpochBits}
    (hb : enforceEpochs alloc (oracleHashC H) F.e gen1 g2Generator n c = .ok b) (hs : b.sat) :
    ∃ counter : EpochVars × UpdateVars G1Point → UInt8,
      WitnessedHash (fun t => ((messageOf t).1, counter t :: (messageOf t).2)) H c := by
  classical
  obtain ⟨t1, -⟩ := C45_transitions _ _ hn hq hb hs
  refine ⟨fun t => if ht : t ∈ c.transitions then ((t1 t ht).2.2.2.2).choose else 0, fun t ht => ?_⟩
  simp only [dif_pos ht]
  exact ((t1 t ht).2.2.2.2).choose_spec

variable (alloc K B groth F gen1 n helper own) in
/-- The adversary deceives the light client when the honest signers have the secrets `σ` and the hash has the
table `f`. -/
def WinsChain (hashC : HashToG1 G1r → Bool → List Bool → List Bool → HashOut G1Point → Prop) (Q : Finset HashQuery)
    (A : (Fin m → G2r) → Deceiver m Deception G1r) (σ : Fin m → ZMod FR_MODULUS) (f : Q → {h : G1r // h ≠ 0}) : Prop :=
  let pks := fun j => toPublic F.toCurve.toPairing (σ j)
  let R := attackMany (tableHash Q f) own σ (A pks) []
  Deceives alloc (hashC (tableHash Q f)) K B groth F gen1 n helper own (tableHash Q f) pks R.1 R.2

variable (F gen1 own) in
/-- The forger of batches against the key of signer `j`, made from an adversary against the light client; it
makes up the other honest signers, with the secrets `σ`. -/
noncomputable def chainForger (A : (Fin m → G2r) → Deceiver m Deception G1r) (j : Fin m)
    (σ : Fin m → ZMod FR_MODULUS) : G2r → BatchForger FR_MODULUS G1r G2r :=
  singleForger F.toCurve.toPairing own
    (fun j σ pk d T => d.toForgery F.toCurve.toPairing gen1 j σ pk T) A j σ

/-- **C98.** Whenever an adversary deceives the light client, the forger of batches made from it wins against
one of the honest keys, whatever secret was made up in the place of the attacked one. -/
theorem C98_forger_wins (ha : AffineAllocG2 alloc) (hB : Blake2sAgree K B) (hq : n < FQ_MODULUS)
    {hashC : HashToG1 G1r → Bool → List Bool → List Bool → HashOut G1Point → Prop} {Q : Finset HashQuery}
    {A : (Fin m → G2r) → Deceiver m Deception G1r} {σ : Fin m → ZMod FR_MODULUS} {f : Q → {h : G1r // h ≠ 0}}
    (h : WinsChain alloc K B groth F gen1 n helper own hashC Q A σ f) :
    ∃ j, ∀ u, WinsBatch F.toCurve.toPairing Q (own j) (chainForger F gen1 own A j (Function.update σ j u)) (σ j) f := by
  classical
  obtain ⟨j, hj⟩ := deception_forgery ha hB hq h
  refine ⟨j, fun u => ?_⟩
  have hσ : Function.update (Function.update σ j u) j (σ j) = σ := by
    rw [Function.update_idem, Function.update_eq_self]
  obtain ⟨h1, h2⟩ := hj (Function.update σ j u) fun i hi => Function.update_of_ne hi _ _
  unfold WinsBatch chainForger singleForger
  rw [update_public, hσ]
  obtain ⟨e1, e2⟩ := translate_attack Q (tableHash Q f) own j (Function.update σ j u) (σ j)
    (fun d T => d.toForgery F.toCurve.toPairing gen1 j (Function.update σ j u) (toPublic F.toCurve.toPairing (σ j)) T)
    (A fun i => toPublic F.toCurve.toPairing (σ i)) [] [] [] (by simp)
  rw [hσ] at e1 e2
  simp only []
  rw [e1]
  exact ⟨fun hx => h2 (e2 _ hx), h1⟩

/-- **C98.** Deceiving a light client reduces to the problem `Solved` of C95.  Let an adversary against `m`
honest validators ask at most `q` questions, and count over all their secrets and all tables of the hash how
often it deceives the light client.  Then the solver, which sees `s • g1`, `s • g2` and a random `h`, makes up
secrets for the other validators, and runs the adversary once for each of `m` validators and `q + 1` guesses,
solves the problem at least that often, counted over all `s`, `h`, coins and made up secrets (there are
`(r - 1) * r` of the latter more). -/
theorem C98_reduction (ha : AffineAllocG2 alloc) (hB : Blake2sAgree K B) (hq : n < FQ_MODULUS)
    (hashC : HashToG1 G1r → Bool → List Bool → List Bool → HashOut G1Point → Prop) (Q : Finset HashQuery)
    (A : (Fin m → G2r) → Deceiver m Deception G1r) (q : ℕ) (hA : ∀ pks, (A pks).Bounded q) :
    (FR_MODULUS - 1) * (FR_MODULUS * Nat.card {t : (Fin m → ZMod FR_MODULUS) × (Q → {h : G1r // h ≠ 0}) //
        WinsChain alloc K B groth F gen1 n helper own hashC Q A t.1 t.2}) ≤
      ∑ j : Fin m, ∑ i ∈ range (q + 1), Nat.card {t : (Fin m → ZMod FR_MODULUS) × ZMod FR_MODULUS ×
          {h : G1r // h ≠ 0} × (Q → (ZMod FR_MODULUS)ˣ) //
        ∃ x S, batchSolver Q (own j) g1GenR (t.2.1 • g1GenR) t.2.2.1.1 t.2.2.2 i (chainForger F gen1 own A j t.1)
          (t.2.1 • g2GenR) = some (x, S) ∧ Solved F.toCurve.toPairing g1GenR t.2.1 t.2.2.1.1 S} :=
  many_count F.toCurve.toPairing Q own g1GenR (g1r_span g1GenR_ne_zero) (chainForger F gen1 own A) q
    (fun _ _ _ => translate_bounded _ _ _ _ _ _ (hA _)) (WinsChain alloc K B groth F gen1 n helper own hashC Q A)
    (fun _ _ h => C98_forger_wins ha hB hq h)

/-- From counting to probabilities, for any forgers made from an adversary. -/
theorem many_probability (Q : Finset HashQuery)
    (Bf : Fin m → (Fin m → ZMod FR_MODULUS) → G2r → BatchForger FR_MODULUS G1r G2r) (q : ℕ)
    (Win : (Fin m → ZMod FR_MODULUS) → (Q → {h : G1r // h ≠ 0}) → Prop)
    (h : (FR_MODULUS - 1) * (FR_MODULUS * Nat.card {t : (Fin m → ZMod FR_MODULUS) × (Q → {h : G1r // h ≠ 0}) //
        Win t.1 t.2}) ≤
      ∑ j : Fin m, ∑ i ∈ range (q + 1), Nat.card {t : (Fin m → ZMod FR_MODULUS) × ZMod FR_MODULUS ×
          {h : G1r // h ≠ 0} × (Q → (ZMod FR_MODULUS)ˣ) //
        ∃ x S, batchSolver Q (own j) g1GenR (t.2.1 • g1GenR) t.2.2.1.1 t.2.2.2 i (Bf j t.1)
          (t.2.1 • g2GenR) = some (x, S) ∧ Solved F.toCurve.toPairing g1GenR t.2.1 t.2.2.1.1 S}) (ε : ℚ)
    (hε : ∀ j : Fin m, ∀ i ≤ q, (Nat.card {t : (Fin m → ZMod FR_MODULUS) × ZMod FR_MODULUS ×
          {h : G1r // h ≠ 0} × (Q → (ZMod FR_MODULUS)ˣ) //
        ∃ x S, batchSolver Q (own j) g1GenR (t.2.1 • g1GenR) t.2.2.1.1 t.2.2.2 i (Bf j t.1)
          (t.2.1 • g2GenR) = some (x, S) ∧ Solved F.toCurve.toPairing g1GenR t.2.1 t.2.2.1.1 S} : ℚ) /
      Nat.card ((Fin m → ZMod FR_MODULUS) × ZMod FR_MODULUS × {h : G1r // h ≠ 0} × (Q → (ZMod FR_MODULUS)ˣ)) ≤ ε) :
    (Nat.card {t : (Fin m → ZMod FR_MODULUS) × (Q → {h : G1r // h ≠ 0}) // Win t.1 t.2} : ℚ) /
      Nat.card ((Fin m → ZMod FR_MODULUS) × (Q → {h : G1r // h ≠ 0})) ≤ m * (q + 1) * ε := by
  generalize Nat.card {t : (Fin m → ZMod FR_MODULUS) × (Q → {h : G1r // h ≠ 0}) // Win t.1 t.2} = W at h ⊢
  have := card_G1r.1
  have hc : Nat.card {h : G1r // h ≠ 0} = FR_MODULUS - 1 := by rw [card_nonzero, card_G1r.2]
  have hu : Nat.card (ZMod FR_MODULUS)ˣ = FR_MODULUS - 1 := by rw [Nat.card_eq_fintype_card, ZMod.card_units]
  have hr : 0 < FR_MODULUS - 1 := Nat.sub_pos_of_lt FR_prime.one_lt
  have hr' := FR_prime.pos
  have hcard : Nat.card ((Fin m → ZMod FR_MODULUS) × ZMod FR_MODULUS × {h : G1r // h ≠ 0} × (Q → (ZMod FR_MODULUS)ˣ)) =
      (FR_MODULUS - 1) * (FR_MODULUS * Nat.card ((Fin m → ZMod FR_MODULUS) × (Q → {h : G1r // h ≠ 0}))) := by
    rw [Nat.card_prod, Nat.card_prod, Nat.card_prod, Nat.card_prod, Nat.card_fun, Nat.card_fun, Nat.card_fun, hu, hc,
      Nat.card_zmod]
    ring
  have hpos : 0 < Nat.card ((Fin m → ZMod FR_MODULUS) × (Q → {h : G1r // h ≠ 0})) := by
    rw [Nat.card_prod, Nat.card_fun, Nat.card_fun, hc, Nat.card_zmod]
    positivity
  rw [hcard] at hε
  generalize Nat.card ((Fin m → ZMod FR_MODULUS) × (Q → {h : G1r // h ≠ 0})) = D at *
  generalize FR_MODULUS - 1 = l at *
  have hD : (0 : ℚ) < D := by exact_mod_cast hpos
  have hl : (0 : ℚ) < l * FR_MODULUS := by
    have h1 : (0 : ℚ) < l := by exact_mod_cast hr
    have h2 : (0 : ℚ) < FR_MODULUS := by exact_mod_cast hr'
    exact mul_pos h1 h2
  have hsum : ((l * (FR_MODULUS * W) : ℕ) : ℚ) ≤
      ∑ j : Fin m, ∑ i ∈ range (q + 1), ε * ((l * (FR_MODULUS * D) : ℕ) : ℚ) := by
    refine le_trans (Nat.cast_le.mpr h) ?_
    rw [Nat.cast_sum]
    refine Finset.sum_le_sum fun j _ => ?_
    rw [Nat.cast_sum]
    refine Finset.sum_le_sum fun i hi => ?_
    have := hε j i (by have := Finset.mem_range.mp hi; omega)
    rwa [div_le_iff₀ (by
      push_cast
      rw [← mul_assoc]
      exact mul_pos hl hD)] at this
  simp only [Finset.sum_const, card_range, Finset.card_univ, Fintype.card_fin, nsmul_eq_mul] at hsum
  push_cast at hsum
  rw [div_le_iff₀ hD]
  refine le_of_mul_le_mul_left ?_ hl
  calc (l : ℚ) * FR_MODULUS * W = l * (FR_MODULUS * W) := by ring
    _ ≤ _ := hsum
    _ = _ := by ring

/-- **C98**, as probabilities.  If for every validator and every guess the solver solves the problem of C95
with probability at most `ε`, then an adversary asking at most `q` questions deceives the light client with
probability at most `m * (q + 1) * ε`; for all adversaries, all finite sets of hash inputs, all sets of
addresses. -/
theorem C98_light_client (ha : AffineAllocG2 alloc) (hB : Blake2sAgree K B) (hq : n < FQ_MODULUS)
    (hashC : HashToG1 G1r → Bool → List Bool → List Bool → HashOut G1Point → Prop) (Q : Finset HashQuery)
    (A : (Fin m → G2r) → Deceiver m Deception G1r) (q : ℕ) (hA : ∀ pks, (A pks).Bounded q) (ε : ℚ)
    (hε : ∀ j : Fin m, ∀ i ≤ q, (Nat.card {t : (Fin m → ZMod FR_MODULUS) × ZMod FR_MODULUS ×
          {h : G1r // h ≠ 0} × (Q → (ZMod FR_MODULUS)ˣ) //
        ∃ x S, batchSolver Q (own j) g1GenR (t.2.1 • g1GenR) t.2.2.1.1 t.2.2.2 i (chainForger F gen1 own A j t.1)
          (t.2.1 • g2GenR) = some (x, S) ∧ Solved F.toCurve.toPairing g1GenR t.2.1 t.2.2.1.1 S} : ℚ) /
      Nat.card ((Fin m → ZMod FR_MODULUS) × ZMod FR_MODULUS × {h : G1r // h ≠ 0} × (Q → (ZMod FR_MODULUS)ˣ)) ≤ ε) :
    (Nat.card {t : (Fin m → ZMod FR_MODULUS) × (Q → {h : G1r // h ≠ 0}) //
        WinsChain alloc K B groth F gen1 n helper own hashC Q A t.1 t.2} : ℚ) /
      Nat.card ((Fin m → ZMod FR_MODULUS) × (Q → {h : G1r // h ≠ 0})) ≤ m * (q + 1) * ε :=
  many_probability Q (chainForger F gen1 own A) q (WinsChain alloc K B groth F gen1 n helper own hashC Q A)
    (C98_reduction ha hB hq hashC Q A q hA) ε hε

end

/-! ### A concrete case -/

/-- What is hashed for a block, with the counter `0`. -/
noncomputable def blockQuery (b : EpochBlock) : HashQuery :=
  (SIG_DOMAIN, (b.encodeInnerToBytes g2Generator).1, 0 :: (b.encodeInnerToBytes g2Generator).2)

/-- The inputs of the hash in the example. -/
noncomputable def chainQueries : Finset HashQuery :=
  {blockQuery (chainBlock [toyKey] 0 (UInt16.ofNat 4)), blockQuery (chainBlock [toyKey] 0 5), blockQuery (chainBlock [toyKey] 0 6),
    blockQuery (dummyBlock g2Generator 1)}

/-- The table of the hash in the example. -/
noncomputable def chainTable : chainQueries → {h : G1r // h ≠ 0} := fun _ => ⟨g1GenR, g1GenR_ne_zero⟩

theorem chain_oracle {b : EpochBlock} (hb : blockQuery b ∈ chainQueries) :
    oracleHashC (tableHash chainQueries chainTable) (b.encodeInnerToBitsCip22 g2Generator).1
      (b.encodeInnerToBitsCip22 g2Generator).2 ⟨g1GenR.1, [], []⟩ := by
  refine ⟨0, ?_⟩
  rw [toG1r_coe]
  exact tableHash_mem chainTable hb

theorem oracle_chain : HonestChain (G1 := G1Point) (oracleHashC (tableHash chainQueries chainTable))
    (fun _ _ => .ok ⟨g1GenR.1, [], []⟩) logFull.e g2Generator 1 (fun _ => ⟨g1GenR.1, [], []⟩)
    (chainBlock [toyKey] 0 4) ([nativeStep 5] ++ [nativeStep 6]) where
  blocks := log_chain.blocks
  index := log_chain.index
  entropy := log_chain.entropy
  bitmap := log_chain.bitmap
  padding := log_chain.padding
  hash := by
    intro t ht
    refine ⟨rfl, chain_oracle ?_⟩
    simp only [List.cons_append, List.nil_append, List.mem_cons, List.not_mem_nil, or_false] at ht
    unfold chainQueries
    rcases ht with rfl | rfl
    · simp [nativeStep]
    · simp [nativeStep]
  signature := log_chain.signature

/-- The deception: from block 4, the last of the chain, to block 6. -/
theorem chain_deceived (K : Blake2sCore) : ∃ d : Deception,
    Deceives (m := 1) affineOnlyG2 (fun _ => oracleHashC (tableHash chainQueries chainTable)) K (Blake2s.ofCore K)
      (fun _ (_ : Unit) => .ok (True, true)) logFull g1GenR.1 1 none (fun _ msg => msg == [8])
      (tableHash chainQueries chainTable) (fun _ => toPublic logFull.toCurve.toPairing (-1)) d
      [(0, blockQuery (chainBlock [toyKey] 0 (UInt16.ofNat 4)))] := by
  have hinit := C46_complete affineOnlyG2 (oracleHashC (tableHash chainQueries chainTable))
    (fun _ _ => .ok ⟨g1GenR.1, [], []⟩) true (gen1 := g1GenR.1) (max := 5) logFull.add_left logFull.add_right
    (fun _ _ h => ⟨rfl, h⟩) (by decide +kernel) oracle_chain (by decide)
    (by
      intro _
      refine ⟨?_, ?_, ⟨g1GenR.1, [], []⟩, rfl, chain_oracle (by unfold chainQueries; simp)⟩
      · intro h; cases h
      · change g2Generator ∉ [toyKey]
        rw [List.mem_singleton]
        exact fun h => toyKey_ne_gen h.symm)
    (by
      change [toyKey].sum ≠ 0
      rw [List.sum_singleton]; exact toyKey_ne)
  obtain ⟨s, c, b, h1, h2, h3, h4, h5, h6, h7, h8⟩ := hinit
  have hci : c.initial = EpochVars.assign (toEpochData (chainBlock [toyKey] 0 4)) := by
    obtain ⟨s', hs', _, e2, _⟩ := C48_shape g1GenR.1 g2Generator 1 (chainBlock [toyKey] 0 4)
      ([nativeStep 5] ++ [nativeStep 6]) 5 (by simp) (by simp)
    rw [h1] at hs'
    simp only [Outcome.ok.injEq] at hs'
    subst hs'
    unfold CircuitVars.assign at h2
    rw [Outcome.map_eq_ok_iff] at h2
    obtain ⟨_, _, rfl⟩ := h2
    simp only [e2]
  have hcirc : epochCircuit affineOnlyG2 (fun _ => oracleHashC (tableHash chainQueries chainTable)) K
      (fun _ (_ : Unit) => .ok (True, true)) logFull.e g1GenR.1 g2Generator 1 none c
      (publicInputs g2Generator (Blake2s.ofCore K) (chainBlock [toyKey] 0 4) (chainBlock [toyKey] 0 6)) =
      .ok (b.sat ∧ True ∧ verifyEdgesC K b (publicInputs g2Generator (Blake2s.ofCore K)
        (chainBlock [toyKey] 0 4) (chainBlock [toyKey] 0 6))) := by
    unfold epochCircuit
    rw [h3, Outcome.bind_ok]
    rfl
  have hn : c.initial.keys.length = 1 := by rw [hci]; rfl
  have hrange : ThresholdsInRange c := by
    intro w hw
    have : ∃ i : UInt16, w = EpochVars.assign (toEpochData (chainBlock [toyKey] 0 i)) := by
      rw [List.mem_cons] at hw
      rcases hw with rfl | hw
      · exact ⟨4, hci⟩
      · rw [h8] at hw
        simp only [List.cons_append, List.nil_append, List.map_cons, List.map_nil, List.mem_cons,
          List.not_mem_nil, or_false] at hw
        rcases hw with rfl | rfl
        · exact ⟨5, rfl⟩
        · exact ⟨6, rfl⟩
    obtain ⟨i, rfl⟩ := this
    change (0 : ZMod FQ_MODULUS).val < 2 ^ 32
    rw [ZMod.val_zero]
    norm_num
  have hsat : b.sat ∧ True ∧ verifyEdgesC K b (publicInputs g2Generator (Blake2s.ofCore K)
      (chainBlock [toyKey] 0 4) (chainBlock [toyKey] 0 6)) :=
    ⟨h4, trivial, edges_complete (Blake2s.ofCore_agree K) h5 h6⟩
  obtain ⟨counter, hcounter⟩ := C98_counters hn (by decide +kernel) h3 h4
  have hpk : (toPublic logFull.toCurve.toPairing (-1)).1 = toyKey := by
    change ((-1 : ZMod FR_MODULUS) • g2GenR).1 = -g2Generator
    rw [neg_smul, one_smul]
    rfl
  have hmem : toyKey ∈ G2r := by rw [← hpk]; exact (toPublic logFull.toCurve.toPairing (-1)).2
  refine ⟨⟨5, fun j => chainBlock [toyKey] 0 (UInt16.ofNat j), 4, chainBlock [toyKey] 0 6, c, counter,
    ⟨fun _ => none, fun _ => ([], 0)⟩⟩, ?_⟩
  constructor
  · have hH : (fun p => ∃ j : Fin 1, p = ((fun _ : Fin 1 => toPublic logFull.toCurve.toPairing (-1)) j).1) =
        fun p => p = toyKey := by
      funext p
      simp only [hpk, exists_const]
    rw [hH]
    refine ⟨short_quorums.size, short_quorums.index, short_quorums.entropy, short_quorums.clear,
      short_quorums.quorum, ?_⟩
    rintro pk msg x - ⟨j, k, -, hT⟩
    rw [List.mem_singleton] at hT
    unfold blockQuery at hT
    simp only [Prod.mk.injEq, List.cons.injEq] at hT
    exact ⟨4, by norm_num, Prod.ext hT.2.2.1.symm hT.2.2.2.2.symm⟩
  · intro a _
    refine ⟨List.nodup_singleton _, fun k hk => ?_⟩
    change k ∈ [toyKey] at hk
    rw [List.mem_singleton.mp hk]
    exact hmem
  · intro a _ k hk hne
    refine absurd (Subtype.ext ?_) (hne 0)
    change k.1 ∈ [toyKey] at hk
    rw [List.mem_singleton.mp hk, hpk]
  · norm_num
  · exact (chain_entropy [toyKey] 0 6).2
  · exact ⟨_, hcirc, hsat⟩
  · exact hn
  · refine ⟨fun h0 => ?_, ?_⟩
    · change c.updates = [] at h0
      rw [h0] at h7
      cases h7
    · change c.updates.length ≤ _
      rw [h7]
      norm_num
  · exact hrange
  · exact hcounter
  · intro b' hb'
    have : b' = b := Outcome.ok.inj (hb'.symm.trans h3)
    subst this
    rintro (⟨hne, -⟩ | ⟨hne, -⟩)
    · exact hne (by rw [h5]; rfl)
    · exact hne (by rw [h6]; rfl)
  · intro a h1 h2
    simp only [] at h1 h2
    omega

/-- Concrete case for C98: an adversary that has block 4 signed and then deceives the light client, when the
secret of the validator is `-1`.  So its wins are counted, and the solver has successes. -/
example (K : Blake2sCore) : ∃ A : (Fin 1 → G2r) → Deceiver 1 Deception G1r, (∀ pks, (A pks).Bounded 1) ∧
    WinsChain affineOnlyG2 K (Blake2s.ofCore K) (fun _ (_ : Unit) => .ok (True, true)) logFull g1GenR.1 1 none
      (fun _ msg => msg == [8]) (fun H _ => oracleHashC H) chainQueries A (fun _ => -1) chainTable ∧
    0 < ∑ j : Fin 1, ∑ i ∈ range 2, Nat.card {t : (Fin 1 → ZMod FR_MODULUS) × ZMod FR_MODULUS ×
          {h : G1r // h ≠ 0} × (chainQueries → (ZMod FR_MODULUS)ˣ) //
        ∃ x S, batchSolver chainQueries (fun msg => msg == [8]) g1GenR (t.2.1 • g1GenR) t.2.2.1.1 t.2.2.2 i
          (chainForger logFull g1GenR.1 (fun _ msg => msg == [8]) A j t.1)
          (t.2.1 • g2GenR) = some (x, S) ∧ Solved logFull.toCurve.toPairing g1GenR t.2.1 t.2.2.1.1 S} := by
  obtain ⟨d, hd⟩ := chain_deceived K
  let A : (Fin 1 → G2r) → Deceiver 1 Deception G1r := fun _ =>
    .sign 0 (blockQuery (chainBlock [toyKey] 0 (UInt16.ofNat 4))).2.1
      (blockQuery (chainBlock [toyKey] 0 (UInt16.ofNat 4))).2.2 fun _ => .output d
  have hA : ∀ pks, (A pks).Bounded 1 := fun _ _ => trivial
  have hw : WinsChain affineOnlyG2 K (Blake2s.ofCore K) (fun _ (_ : Unit) => .ok (True, true)) logFull g1GenR.1 1
      none (fun _ msg => msg == [8]) (fun H _ => oracleHashC H) chainQueries A (fun _ => -1) chainTable := hd
  refine ⟨A, hA, hw, ?_⟩
  have h := C98_reduction (groth := fun _ (_ : Unit) => .ok (True, true)) (F := logFull) (gen1 := g1GenR.1)
    (helper := none) (own := fun (_ : Fin 1) msg => msg == [8]) (alloc := affineOnlyG2) (fun _ h => h)
    (Blake2s.ofCore_agree K) (n := 1) (by decide +kernel) (fun H _ => oracleHashC H) chainQueries A 1 hA
  refine lt_of_lt_of_le ?_ h
  have hr := FR_prime.pos
  have hr' : 0 < FR_MODULUS - 1 := Nat.sub_pos_of_lt FR_prime.one_lt
  have := card_G1r.1
  have : NeZero FR_MODULUS := ⟨FR_prime.ne_zero⟩
  refine Nat.mul_pos hr' (Nat.mul_pos hr (Nat.card_pos_iff.mpr ⟨⟨⟨((fun _ => -1), chainTable), hw⟩⟩, inferInstance⟩))

end Verif
