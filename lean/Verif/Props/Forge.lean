import Verif.Props.Bls
import Verif.Model.Scheme
import Mathlib.Tactic.Module
import Mathlib.SetTheory.Cardinal.Finite
import Mathlib.Algebra.BigOperators.Ring.Finset

/-!
# Forging signatures is as hard as co-Diffie-Hellman: C92

The hash to the curve is a random oracle here: everything is counted over all functions from a finite set
of inputs to the points other than the identity (which the hash of the code never returns).  A forger is
any strategy, given as a tree of its questions; no bound on its computations is used or stated.
-/

set_option linter.unusedSectionVars false

namespace Verif

open Finset

/-- An input of the hash: domain, message, extra data (`crates/bls-crypto/src/hash_to_curve/mod.rs:52-66`). -/
abbrev HashQuery := Bytes × Bytes × Bytes

/-- What a forger hands out in the end: an aggregate for the honest key and for further keys, whose
secrets it gives (`sks`) or for which it gives proofs of possession (`others`: key, message of the proof,
proof); or a proof of possession for the honest key. -/
inductive Forgery (r : ℕ) (G1 G2 : Type*) where
  | aggregate (sks : List (ZMod r)) (others : List (G2 × Bytes × G1)) (msg extra : Bytes) (sig : G1)
  | pop (msg : Bytes) (sig : G1)

/-- The input of the hash for which a forgery contains a new signature. -/
def Forgery.query {r : ℕ} {G1 G2 : Type*} : Forgery r G1 G2 → HashQuery
  | .aggregate _ _ msg extra _ => (SIG_DOMAIN, msg, extra)
  | .pop msg _ => (POP_DOMAIN, msg, [])

/-- A forger: it hashes, asks for signatures and for proofs of possession, and goes on depending on the
answers; `F` is what it hands out in the end. -/
inductive OracleForger (F G1 : Type*) where
  | output (F : F)
  | hash (x : HashQuery) (k : Outcome BLSError G1 → OracleForger F G1)
  | sign (msg extra : Bytes) (k : Outcome BLSError G1 → OracleForger F G1)
  | signPop (msg : Bytes) (k : Outcome BLSError G1 → OracleForger F G1)

/-- A forger of signatures. -/
abbrev Forger (r : ℕ) (G1 G2 : Type*) := OracleForger (Forgery r G1 G2) G1

/-- At most `n` questions are asked. -/
def OracleForger.Bounded {F G1 : Type*} : OracleForger F G1 → ℕ → Prop
  | .output _, _ => True
  | .hash _ _, 0 => False
  | .sign _ _ _, 0 => False
  | .signPop _ _, 0 => False
  | .hash _ k, n + 1 => ∀ a, (k a).Bounded n
  | .sign _ _ k, n + 1 => ∀ a, (k a).Bounded n
  | .signPop _ k, n + 1 => ∀ a, (k a).Bounded n

section
variable {F : Type*} {r : ℕ} [Fact r.Prime] {G1 G2 GT : Type*} [AddCommGroup G1] [Module (ZMod r) G1]
  [AddCommGroup G2] [Module (ZMod r) G2] [CommGroup GT] [DecidableEq GT]
  (P : Pairing r G1 G2 GT)

/-- The hash given by a table. -/
def tableHash (Q : Finset HashQuery) (f : Q → {h : G1 // h ≠ 0}) : HashToG1 G1 := fun d m e =>
  if h : (d, m, e) ∈ Q then .ok (f ⟨(d, m, e), h⟩).1 else .err .hashToCurveError

/-- The list of the inputs hashed so far, with one more. -/
def ask (Q : Finset HashQuery) (x : HashQuery) (L : List HashQuery) : List HashQuery :=
  if x ∈ Q ∧ x ∉ L then L ++ [x] else L

/-- The attack on an honest signer with secret `s`: the answers are computed by the functions of the code.
Proofs of possession are made only for the messages (addresses) in `own`.  Results: the forgery, the
inputs hashed and the inputs signed. -/
def attack (Q : Finset HashQuery) (H : HashToG1 G1) (own : Bytes → Bool) (s : ZMod r) :
    OracleForger F G1 → List HashQuery → List HashQuery → F × List HashQuery × List HashQuery
  | .output F, L, S => (F, L, S)
  | .hash x k, L, S => attack Q H own s (k (H x.1 x.2.1 x.2.2)) (ask Q x L) S
  | .sign m e k, L, S =>
    attack Q H own s (k (sign s m e H)) (ask Q (SIG_DOMAIN, m, e) L) ((SIG_DOMAIN, m, e) :: S)
  | .signPop m k, L, S =>
    if own m then
      attack Q H own s (k (signPop s m H)) (ask Q (POP_DOMAIN, m, []) L) ((POP_DOMAIN, m, []) :: S)
    else attack Q H own s (k (.err .verificationFailed)) L S

/-- A forgery counts if the code accepts it: every proof of possession (made for a message that is not the
honest signer's), and the aggregate. -/
def Accepted (H : HashToG1 G1) (own : Bytes → Bool) (pk : G2) : Forgery r G1 G2 → Prop
  | .aggregate sks others msg extra sig =>
    (∀ o ∈ others, own o.2.1 = false ∧ verifyPop P o.1 o.2.1 o.2.2 H = .ok ()) ∧
    verify P (aggregatePublicKeys (pk :: (sks.map (toPublic P) ++ others.map Prod.fst))) msg extra sig H = .ok ()
  | .pop msg sig => verifyPop P pk msg sig H = .ok ()

/-- The forger wins against the secret `s` and the table `f`: its forgery is accepted, and the honest
signer did not sign that input. -/
def Wins (Q : Finset HashQuery) (own : Bytes → Bool) (A : G2 → Forger r G1 G2) (s : ZMod r)
    (f : Q → {h : G1 // h ≠ 0}) : Prop :=
  let R := attack Q (tableHash Q f) own s (A (toPublic P s)) [] []
  R.1.query ∉ R.2.2 ∧ Accepted P (tableHash Q f) own (toPublic P s) R.1

/-! ### The solver -/

/-- Inputs that only proofs of possession of other signers use. -/
def foreignPop (own : Bytes → Bool) (x : HashQuery) : Bool :=
  decide (x.1 = POP_DOMAIN) && decide (x.2.2 = []) && !own x.2.1

section
variable (Q : Finset HashQuery) (own : Bytes → Bool) (g1 X h : G1) (a : Q → (ZMod r)ˣ) (i : ℕ)

/-- The point of which the answer to a hash question is a known multiple. -/
def simBase (x : HashQuery) : G1 := if foreignPop own x then h else g1

/-- The answer to a hash question: the challenge if it is question number `i`. -/
def simHash (L : List HashQuery) (x : HashQuery) : Outcome BLSError G1 :=
  if hx : x ∈ Q then
    .ok (if L[i]? = some x then h else ((a ⟨x, hx⟩ : (ZMod r)ˣ) : ZMod r) • simBase own g1 h x)
  else .err .hashToCurveError

/-- The forger run without the secret: only `X`, its multiple of `g1`, is known.  `none` is giving up. -/
def simulate : OracleForger F G1 → List HashQuery → Option (F × List HashQuery)
  | .output F, L => some (F, L)
  | .hash x k, L => simulate (k (simHash Q own g1 h a i (ask Q x L) x)) (ask Q x L)
  | .sign m e k, L =>
    if hx : (SIG_DOMAIN, m, e) ∈ Q then
      if (ask Q (SIG_DOMAIN, m, e) L)[i]? = some (SIG_DOMAIN, m, e) then none
      else simulate (k (.ok (((a ⟨_, hx⟩ : (ZMod r)ˣ) : ZMod r) • X))) (ask Q (SIG_DOMAIN, m, e) L)
    else simulate (k (.err .hashToCurveError)) (ask Q (SIG_DOMAIN, m, e) L)
  | .signPop m k, L =>
    if own m then
      if hx : (POP_DOMAIN, m, []) ∈ Q then
        if (ask Q (POP_DOMAIN, m, []) L)[i]? = some (POP_DOMAIN, m, []) then none
        else simulate (k (.ok (((a ⟨_, hx⟩ : (ZMod r)ˣ) : ZMod r) • X))) (ask Q (POP_DOMAIN, m, []) L)
      else simulate (k (.err .hashToCurveError)) (ask Q (POP_DOMAIN, m, []) L)
    else simulate (k (.err .verificationFailed)) L

/-- What a proof of possession of another signer says about the challenge. -/
def popShare (o : G2 × Bytes × G1) : G1 :=
  if hx : (POP_DOMAIN, o.2.1, []) ∈ Q then (((a ⟨_, hx⟩)⁻¹ : (ZMod r)ˣ) : ZMod r) • o.2.2 else 0

/-- The solution contained in a forgery. -/
def extract : Forgery r G1 G2 → G1
  | .aggregate sks others _ _ sig => sig - sks.sum • h - (others.map (popShare Q a)).sum
  | .pop _ sig => sig

/-- The solver, for the guess `i`: from `X = s • g1`, `Y = s • g2` and a challenge `h`, with random `a`; the
answer comes with the input at which the challenge was placed. -/
def solverWith {Sol : Type*} (query : F → HashQuery) (extract : F → Sol) (A : OracleForger F G1) :
    Option (HashQuery × Sol) :=
  (simulate Q own g1 X h a i A []).bind fun R =>
    if (ask Q (query R.1) R.2)[i]? = some (query R.1) then some (query R.1, extract R.1) else none

/-- The solver against a forger of signatures. -/
def solver (A : G2 → Forger r G1 G2) (Y : G2) : Option (HashQuery × G1) :=
  solverWith Q own g1 X h a i Forgery.query (extract Q h a) (A Y)

end

/-! ### The inputs that are hashed -/

theorem ask_prefix (Q : Finset HashQuery) (x : HashQuery) (L : List HashQuery) : L <+: ask Q x L := by
  unfold ask
  split
  · exact List.prefix_append _ _
  · exact List.prefix_rfl

theorem ask_nodup {Q : Finset HashQuery} {x : HashQuery} {L : List HashQuery} (h : L.Nodup) :
    (ask Q x L).Nodup := by
  unfold ask
  split
  · rename_i hx
    exact List.nodup_append.mpr ⟨h, List.nodup_singleton _, fun a ha b hb => by
      rw [List.mem_singleton] at hb
      rintro rfl
      exact hx.2 (hb ▸ ha)⟩
  · exact h

theorem mem_ask {Q : Finset HashQuery} {x : HashQuery} {L : List HashQuery} (h : x ∈ Q) : x ∈ ask Q x L := by
  unfold ask
  split
  · simp
  · rename_i hn
    by_contra hx
    exact hn ⟨h, hx⟩

theorem ask_length (Q : Finset HashQuery) (x : HashQuery) (L : List HashQuery) :
    (ask Q x L).length ≤ L.length + 1 := by
  unfold ask
  split
  · simp
  · omega

theorem attack_facts (Q : Finset HashQuery) (H : HashToG1 G1) (own : Bytes → Bool) (s : ZMod r)
    (A : OracleForger F G1) (L S : List HashQuery) (hn : L.Nodup) :
    L <+: (attack Q H own s A L S).2.1 ∧ (attack Q H own s A L S).2.1.Nodup ∧
      S ⊆ (attack Q H own s A L S).2.2 := by
  induction A generalizing L S with
  | output F => exact ⟨List.prefix_rfl, hn, List.Subset.refl _⟩
  | hash x k ih =>
    obtain ⟨h1, h2, h3⟩ := ih _ (ask Q x L) S (ask_nodup hn)
    exact ⟨(ask_prefix Q x L).trans h1, h2, h3⟩
  | sign m e k ih =>
    obtain ⟨h1, h2, h3⟩ := ih (sign s m e H) (ask Q (SIG_DOMAIN, m, e) L) ((SIG_DOMAIN, m, e) :: S) (ask_nodup hn)
    exact ⟨(ask_prefix Q _ L).trans h1, h2, List.Subset.trans (List.subset_cons_self _ _) h3⟩
  | signPop m k ih =>
    rw [attack]
    split
    · obtain ⟨h1, h2, h3⟩ := ih (signPop s m H) (ask Q (POP_DOMAIN, m, []) L) ((POP_DOMAIN, m, []) :: S) (ask_nodup hn)
      exact ⟨(ask_prefix Q _ L).trans h1, h2, List.Subset.trans (List.subset_cons_self _ _) h3⟩
    · exact ih _ L S hn

theorem attack_length (Q : Finset HashQuery) (H : HashToG1 G1) (own : Bytes → Bool) (s : ZMod r)
    (A : OracleForger F G1) (n : ℕ) (hA : A.Bounded n) (L S : List HashQuery) :
    (attack Q H own s A L S).2.1.length ≤ L.length + n := by
  induction A generalizing L S n with
  | output F => simp [attack]
  | hash x k ih =>
    cases n with
    | zero => exact hA.elim
    | succ n =>
      have := ask_length Q x L
      rw [attack]
      exact (ih _ n (hA _) _ S).trans (by omega)
  | sign m e k ih =>
    cases n with
    | zero => exact hA.elim
    | succ n =>
      have := ask_length Q (SIG_DOMAIN, m, e) L
      rw [attack]
      exact (ih _ n (hA _) _ _).trans (by omega)
  | signPop m k ih =>
    cases n with
    | zero => exact hA.elim
    | succ n =>
      have := ask_length Q (POP_DOMAIN, m, []) L
      rw [attack]
      split
      · exact (ih _ n (hA _) _ _).trans (by omega)
      · exact (ih _ n (hA _) _ _).trans (by omega)

/-- In a list without repetitions that extends to one with `x₀` at position `i`, position `i` holds `x`
exactly if `x` is `x₀`. -/
theorem prefix_index {L L' : List HashQuery} (hp : L <+: L') (hn : L'.Nodup) {i : ℕ} {x₀ x : HashQuery}
    (hi : L'[i]? = some x₀) (hx : x ∈ L) : L[i]? = some x ↔ x = x₀ := by
  obtain ⟨t, rfl⟩ := hp
  constructor
  · intro h
    have hlt : i < L.length := (List.getElem?_eq_some_iff.mp h).1
    rw [List.getElem?_append_left hlt, h] at hi
    exact Option.some.inj hi
  · rintro rfl
    obtain ⟨j, hj, hjx⟩ := List.mem_iff_getElem.mp hx
    have h1 : (L ++ t)[j]? = some x := by
      rw [List.getElem?_append_left hj, List.getElem?_eq_getElem hj, hjx]
    have hij : i = j := by
      have hil := (List.getElem?_eq_some_iff.mp hi).1
      exact (List.getElem?_inj hil hn).mp (hi.trans h1.symm)
    rw [hij, List.getElem?_eq_getElem hj, hjx]

theorem sig_not_foreign (own : Bytes → Bool) (m e : Bytes) : foreignPop own (SIG_DOMAIN, m, e) = false := by
  have : decide (SIG_DOMAIN = POP_DOMAIN) = false := by decide +kernel
  simp [foreignPop, this]

theorem own_not_foreign {own : Bytes → Bool} {m : Bytes} (h : own m = true) :
    foreignPop own (POP_DOMAIN, m, []) = false := by
  simp [foreignPop, h]

theorem foreign_of_not_own {own : Bytes → Bool} {m : Bytes} (h : own m = false) :
    foreignPop own (POP_DOMAIN, m, []) = true := by
  simp [foreignPop, h]

theorem tableHash_mem {Q : Finset HashQuery} (f : Q → {h : G1 // h ≠ 0}) {x : HashQuery} (hx : x ∈ Q) :
    tableHash Q f x.1 x.2.1 x.2.2 = .ok (f ⟨x, hx⟩).1 := dif_pos hx

theorem tableHash_not_mem {Q : Finset HashQuery} (f : Q → {h : G1 // h ≠ 0}) {x : HashQuery} (hx : x ∉ Q) :
    tableHash Q f x.1 x.2.1 x.2.2 = .err .hashToCurveError := dif_neg hx

section
variable {Q : Finset HashQuery} {own : Bytes → Bool} {g1 : G1} {a : Q → (ZMod r)ˣ} {i : ℕ}
  {f : Q → {h : G1 // h ≠ 0}} {x₀ : Q} {s : ZMod r}

theorem ask_index (query : F → HashQuery) {H : HashToG1 G1} {x : HashQuery} {k : OracleForger F G1} {L S : List HashQuery} {y : HashQuery}
    (hn : L.Nodup) (hx : x ∈ Q)
    (hi : (ask Q (query (attack Q H own s k (ask Q x L) S).1)
      (attack Q H own s k (ask Q x L) S).2.1)[i]? = some y) :
    (ask Q x L)[i]? = some x ↔ x = y := by
  obtain ⟨h1, h2, -⟩ := attack_facts Q H own s k (ask Q x L) S (ask_nodup hn)
  exact prefix_index (h1.trans (ask_prefix Q _ _)) (ask_nodup h2) hi (mem_ask hx)

/-- The simulation is the attack, as long as the target is not signed. -/
theorem simulate_eq (query : F → HashQuery)
    (hf : ∀ x : Q, x ≠ x₀ → (f x).1 = ((a x : (ZMod r)ˣ) : ZMod r) • simBase own g1 (f x₀).1 x.1)
    (A : OracleForger F G1) (L S : List HashQuery) (hn : L.Nodup)
    (hi : (ask Q (query (attack Q (tableHash Q f) own s A L S).1)
      (attack Q (tableHash Q f) own s A L S).2.1)[i]? = some x₀.1)
    (hs : x₀.1 ∉ (attack Q (tableHash Q f) own s A L S).2.2) :
    simulate Q own g1 (s • g1) (f x₀).1 a i A L =
      some ((attack Q (tableHash Q f) own s A L S).1, (attack Q (tableHash Q f) own s A L S).2.1) := by
  induction A generalizing L S with
  | output F => rfl
  | hash x k ih =>
    rw [attack] at hi hs ⊢
    rw [simulate]
    have hans : simHash Q own g1 (f x₀).1 a i (ask Q x L) x = tableHash Q f x.1 x.2.1 x.2.2 := by
      unfold simHash
      by_cases hx : x ∈ Q
      · rw [dif_pos hx, tableHash_mem f hx]
        by_cases he : x = x₀.1
        · rw [if_pos ((ask_index query hn hx hi).mpr he)]
          have : (⟨x, hx⟩ : Q) = x₀ := Subtype.ext he
          rw [this]
        · rw [if_neg fun h => he ((ask_index query hn hx hi).mp h), hf ⟨x, hx⟩ fun h => he (congrArg Subtype.val h)]
      · rw [dif_neg hx, tableHash_not_mem f hx]
    rw [hans]
    exact ih _ _ S (ask_nodup hn) hi hs
  | sign m e k ih =>
    rw [attack] at hi hs ⊢
    rw [simulate]
    have hne : (SIG_DOMAIN, m, e) ≠ x₀.1 := fun h => hs
      ((attack_facts Q (tableHash Q f) own s (k (sign s m e (tableHash Q f))) _ _ (ask_nodup hn)).2.2
        (by rw [← h]; exact List.mem_cons_self))
    by_cases hx : (SIG_DOMAIN, m, e) ∈ Q
    · rw [dif_pos hx, if_neg fun h => hne ((ask_index query hn hx hi).mp h)]
      have hans : sign s m e (tableHash Q f) =
          .ok (((a ⟨_, hx⟩ : (ZMod r)ˣ) : ZMod r) • s • g1) := by
        have ht : tableHash Q f SIG_DOMAIN m e = .ok (f ⟨_, hx⟩).1 := dif_pos hx
        rw [sign, signMessage, ht, Outcome.bind_ok, signRaw,
          hf ⟨_, hx⟩ fun h => hne (congrArg Subtype.val h), simBase, sig_not_foreign, if_neg (by simp), smul_comm]
      rw [← hans]
      exact ih _ _ _ (ask_nodup hn) hi hs
    · rw [dif_neg hx]
      have hans : sign s m e (tableHash Q f) = .err .hashToCurveError := by
        have ht : tableHash Q f SIG_DOMAIN m e = .err .hashToCurveError := dif_neg hx
        rw [sign, signMessage, ht]; rfl
      rw [← hans]
      exact ih _ _ _ (ask_nodup hn) hi hs
  | signPop m k ih =>
    rw [attack] at hi hs ⊢
    rw [simulate]
    by_cases ho : own m = true
    · rw [if_pos ho] at hi hs ⊢
      rw [if_pos ho]
      have hne : (POP_DOMAIN, m, []) ≠ x₀.1 := fun h => hs
        ((attack_facts Q (tableHash Q f) own s (k (signPop s m (tableHash Q f))) _ _ (ask_nodup hn)).2.2
          (by rw [← h]; exact List.mem_cons_self))
      by_cases hx : (POP_DOMAIN, m, []) ∈ Q
      · rw [dif_pos hx, if_neg fun h => hne ((ask_index query hn hx hi).mp h)]
        have hans : signPop s m (tableHash Q f) =
            .ok (((a ⟨_, hx⟩ : (ZMod r)ˣ) : ZMod r) • s • g1) := by
          have ht : tableHash Q f POP_DOMAIN m [] = .ok (f ⟨_, hx⟩).1 := dif_pos hx
          rw [signPop, signMessage, ht, Outcome.bind_ok, signRaw,
            hf ⟨_, hx⟩ fun h => hne (congrArg Subtype.val h), simBase, own_not_foreign ho,
            if_neg (by simp), smul_comm]
        rw [← hans]
        exact ih _ _ _ (ask_nodup hn) hi hs
      · rw [dif_neg hx]
        have hans : signPop s m (tableHash Q f) = .err .hashToCurveError := by
          have ht : tableHash Q f POP_DOMAIN m [] = .err .hashToCurveError := dif_neg hx
          rw [signPop, signMessage, ht]; rfl
        rw [← hans]
        exact ih _ _ _ (ask_nodup hn) hi hs
    · rw [if_neg ho] at hi hs ⊢
      rw [if_neg ho]
      exact ih _ _ _ hn hi hs

theorem accepted_mem {pk : G2} {F : Forgery r G1 G2} (h : Accepted P (tableHash Q f) own pk F) : F.query ∈ Q := by
  by_contra hx
  have ht := tableHash_not_mem f hx
  cases F with
  | aggregate sks others m e sig =>
    obtain ⟨-, h⟩ := h
    simp only [Forgery.query] at ht
    rw [verify, verifySig, ht] at h
    cases h
  | pop m sig =>
    simp only [Forgery.query] at ht
    rw [Accepted, verifyPop, verifySig, ht] at h
    cases h

theorem popShares
    (hf : ∀ x : Q, x ≠ x₀ → (f x).1 = ((a x : (ZMod r)ˣ) : ZMod r) • simBase own g1 (f x₀).1 x.1)
    (hx₀ : x₀.1.1 = SIG_DOMAIN) (others : List (G2 × Bytes × G1))
    (ho : ∀ o ∈ others, own o.2.1 = false ∧ verifyPop P o.1 o.2.1 o.2.2 (tableHash Q f) = .ok ()) :
    ∃ T : ZMod r, (others.map Prod.fst).sum = T • P.g2 ∧
      (others.map (popShare Q a)).sum = T • (f x₀).1 := by
  induction others with
  | nil => exact ⟨0, by simp, by simp⟩
  | cons o l ih =>
    obtain ⟨T, h1, h2⟩ := ih fun o' ho' => ho o' (List.mem_cons_of_mem _ ho')
    obtain ⟨hown, hv⟩ := ho o List.mem_cons_self
    obtain ⟨t, ht⟩ := P.span2 o.1
    rw [verifyPop, ht, verifySig_ok_iff] at hv
    obtain ⟨hh, hh1, hh2⟩ := hv
    have hx : (POP_DOMAIN, o.2.1, []) ∈ Q := by
      by_contra hx
      rw [show tableHash Q f POP_DOMAIN o.2.1 [] = .err .hashToCurveError from dif_neg hx] at hh1
      cases hh1
    rw [show tableHash Q f POP_DOMAIN o.2.1 [] = .ok (f ⟨_, hx⟩).1 from dif_pos hx] at hh1
    have hne : (⟨(POP_DOMAIN, o.2.1, []), hx⟩ : Q) ≠ x₀ := fun h => by
      rw [← h] at hx₀
      exact absurd (show POP_DOMAIN = SIG_DOMAIN from hx₀) (by decide +kernel)
    rw [hf _ hne, simBase, foreign_of_not_own hown, if_pos rfl] at hh1
    have hshare : popShare Q a o = t • (f x₀).1 := by
      rw [popShare, dif_pos hx, hh2, ← Outcome.ok.inj hh1, smul_comm t, smul_smul, Units.inv_mul, one_smul]
    exact ⟨t + T, by rw [List.map_cons, List.sum_cons, h1, ht, add_smul],
      by rw [List.map_cons, List.sum_cons, h2, hshare, add_smul]⟩

theorem toPublic_list_sum (sks : List (ZMod r)) : (sks.map (toPublic P)).sum = sks.sum • P.g2 := by
  induction sks with
  | nil => simp
  | cons x l ih => rw [List.map_cons, List.sum_cons, List.sum_cons, ih, add_smul, toPublic]

theorem extract_eq
    (hf : ∀ x : Q, x ≠ x₀ → (f x).1 = ((a x : (ZMod r)ˣ) : ZMod r) • simBase own g1 (f x₀).1 x.1)
    (F : Forgery r G1 G2) (hF : F.query = x₀.1)
    (h : Accepted P (tableHash Q f) own (toPublic P s) F) :
    extract Q (f x₀).1 a F = s • (f x₀).1 := by
  have hq : tableHash Q f F.query.1 F.query.2.1 F.query.2.2 = .ok (f x₀).1 := by
    rw [hF]; exact tableHash_mem f x₀.2
  cases F with
  | aggregate sks others m e sig =>
    obtain ⟨ho, hv⟩ := h
    simp only [Forgery.query] at hF hq
    obtain ⟨T, h1, h2⟩ := popShares P hf (by rw [← hF]) others ho
    rw [verify, aggregatePublicKeys_eq_sum, List.sum_cons, List.sum_append, toPublic_list_sum, h1, toPublic,
      ← add_smul, ← add_smul, verifySig_ok_iff] at hv
    obtain ⟨hh, hh1, hh2⟩ := hv
    rw [hq] at hh1
    rw [extract, h2, hh2, ← Outcome.ok.inj hh1]
    module
  | pop m sig =>
    simp only [Forgery.query] at hq
    rw [Accepted, verifyPop, toPublic, verifySig_ok_iff] at h
    obtain ⟨hh, hh1, hh2⟩ := h
    rw [hq] at hh1
    rw [extract, hh2, ← Outcome.ok.inj hh1]

/-- For every unsigned forgery there is a guess and coins with which the solver gets it; the last coin is
free. -/
theorem solverWith_eq {Sol : Type*} (query : F → HashQuery) (extract : F → Sol) {A : OracleForger F G1}
    (hw : x₀.1 ∉ (attack Q (tableHash Q f) own s A [] []).2.2)
    (hx₀ : query (attack Q (tableHash Q f) own s A [] []).1 = x₀.1)
    (hf : ∀ x : Q, x ≠ x₀ → (f x).1 = ((a x : (ZMod r)ˣ) : ZMod r) • simBase own g1 (f x₀).1 x.1)
    (hi : (ask Q x₀.1 (attack Q (tableHash Q f) own s A [] []).2.1)[i]? = some x₀.1) :
    solverWith Q own g1 (s • g1) (f x₀).1 a i query extract A =
      some (x₀.1, extract (attack Q (tableHash Q f) own s A [] []).1) := by
  have hsim := simulate_eq query (i := i) (s := s) hf A [] [] List.nodup_nil (by rw [hx₀]; exact hi) hw
  rw [solverWith, hsim, Option.bind_some]
  simp only [hx₀]
  rw [if_pos hi]

end

/-- Counting: if an accepted forgery for an input that was not signed always contains a solution, then
there are, weighted, at least as many solutions as accepted forgeries. -/
theorem reduction_count {Sol : Type*} (Q : Finset HashQuery) (own : Bytes → Bool) (g1 : G1)
    (hspan : ∀ h : G1, ∃ c : ZMod r, h = c • g1) (query : F → HashQuery)
    (extract : G1 → (Q → (ZMod r)ˣ) → F → Sol) (Good : ZMod r → (Q → {h : G1 // h ≠ 0}) → F → Prop)
    (Solves : ZMod r → G1 → Sol → Prop) (A : ZMod r → OracleForger F G1) (q : ℕ)
    (hA : ∀ s, (A s).Bounded q) (hmem : ∀ s f F, Good s f F → query F ∈ Q)
    (hsol : ∀ s f (x₀ : Q) (a : Q → (ZMod r)ˣ) F,
      (∀ x : Q, x ≠ x₀ → (f x).1 = ((a x : (ZMod r)ˣ) : ZMod r) • simBase own g1 (f x₀).1 x.1) →
      query F = x₀.1 → Good s f F → Solves s (f x₀).1 (extract (f x₀).1 a F)) :
    (r - 1) * Nat.card {t : ZMod r × (Q → {h : G1 // h ≠ 0}) //
        query (attack Q (tableHash Q t.2) own t.1 (A t.1) [] []).1 ∉
          (attack Q (tableHash Q t.2) own t.1 (A t.1) [] []).2.2 ∧
        Good t.1 t.2 (attack Q (tableHash Q t.2) own t.1 (A t.1) [] []).1} ≤
      ∑ i ∈ range (q + 1), Nat.card {t : ZMod r × {h : G1 // h ≠ 0} × (Q → (ZMod r)ˣ) //
        ∃ x S, solverWith Q own g1 (t.1 • g1) t.2.1.1 t.2.2 i query (extract t.2.1.1 t.2.2) (A t.1) =
          some (x, S) ∧ Solves t.1 t.2.1.1 S} := by
  classical
  have hpos : NeZero r := ⟨(Fact.out : r.Prime).ne_zero⟩
  have hfin : Finite G1 := Finite.of_surjective (fun c : ZMod r => c • g1) fun h => by
    obtain ⟨c, hc⟩ := hspan h; exact ⟨c, hc.symm⟩
  let W := {t : ZMod r × (Q → {h : G1 // h ≠ 0}) //
    query (attack Q (tableHash Q t.2) own t.1 (A t.1) [] []).1 ∉
      (attack Q (tableHash Q t.2) own t.1 (A t.1) [] []).2.2 ∧
    Good t.1 t.2 (attack Q (tableHash Q t.2) own t.1 (A t.1) [] []).1}
  -- multiples
  have hunit : ∀ b h : G1, b ≠ 0 → h ≠ 0 → ∃ u : (ZMod r)ˣ, h = (u : ZMod r) • b := by
    intro b h hb hh
    obtain ⟨c, rfl⟩ := hspan b
    obtain ⟨d, rfl⟩ := hspan h
    have hc : c ≠ 0 := fun e => hb (by rw [e, zero_smul])
    have hd : d ≠ 0 := fun e => hh (by rw [e, zero_smul])
    refine ⟨Units.mk0 (d * c⁻¹) (mul_ne_zero hd (inv_ne_zero hc)), ?_⟩
    rw [Units.val_mk0, smul_smul, mul_assoc, inv_mul_cancel₀ hc, mul_one]
  have hg : ∀ h : G1, h ≠ 0 → g1 ≠ 0 := by
    rintro h hh rfl
    obtain ⟨c, rfl⟩ := hspan h
    exact hh (smul_zero _)
  -- the coins
  have hcoins : ∀ (f : Q → {h : G1 // h ≠ 0}) (x₀ : Q) (c : (ZMod r)ˣ), ∃ a : Q → (ZMod r)ˣ, a x₀ = c ∧
      ∀ x : Q, x ≠ x₀ → (f x).1 = ((a x : (ZMod r)ˣ) : ZMod r) • simBase own g1 (f x₀).1 x.1 := by
    intro f x₀ c
    have hb : ∀ x : Q, ∃ u : (ZMod r)ˣ, (f x).1 = (u : ZMod r) • simBase own g1 (f x₀).1 x.1 := by
      intro x
      apply hunit _ _ _ (f x).2
      unfold simBase
      split
      · exact (f x₀).2
      · exact hg _ (f x).2
    choose a ha using hb
    refine ⟨Function.update a x₀ c, Function.update_self _ _ _, fun x hx => ?_⟩
    rw [Function.update_of_ne hx]
    exact ha x
  -- the map from wins to successes
  have hmap : ∀ t : W × (ZMod r)ˣ,
      ∃ (i : Fin (q + 1)) (x₀ : Q) (a : Q → (ZMod r)ˣ), a x₀ = t.2 ∧
        (∀ x : Q, x ≠ x₀ → (t.1.1.2 x).1 =
          ((a x : (ZMod r)ˣ) : ZMod r) • simBase own g1 (t.1.1.2 x₀).1 x.1) ∧
        ∃ S, solverWith Q own g1 (t.1.1.1 • g1) (t.1.1.2 x₀).1 a i query (extract (t.1.1.2 x₀).1 a) (A t.1.1.1) =
          some (x₀.1, S) ∧ Solves t.1.1.1 (t.1.1.2 x₀).1 S := by
    rintro ⟨⟨⟨s, f⟩, hw⟩, c⟩
    simp only at hw ⊢
    set R := attack Q (tableHash Q f) own s (A s) [] [] with hR
    have hmem : query R.1 ∈ Q := hmem _ _ _ hw.2
    obtain ⟨i, hi, hix⟩ := List.mem_iff_getElem.mp (mem_ask (L := R.2.1) hmem)
    have hlen : (ask Q (query R.1) R.2.1).length ≤ q + 1 := by
      have h1 := ask_length Q (query R.1) R.2.1
      have h2 := attack_length Q (tableHash Q f) own s (A s) q (hA _) [] []
      rw [← hR] at h2
      simp only [List.length_nil, zero_add] at h2
      omega
    obtain ⟨a, ha1, ha2⟩ := hcoins f ⟨query R.1, hmem⟩ c
    refine ⟨⟨i, by omega⟩, ⟨query R.1, hmem⟩, a, ha1, ha2, ?_⟩
    exact ⟨_, solverWith_eq query _ (x₀ := ⟨query R.1, hmem⟩) hw.1 rfl ha2
      (by rw [List.getElem?_eq_getElem hi]; exact congrArg some hix),
      hsol _ _ _ _ _ ha2 rfl hw.2⟩
  choose ix x₀ a ha1 ha2 sol ha3 ha4 using hmap
  let T : ℕ → Type _ := fun i => {t : ZMod r × {h : G1 // h ≠ 0} × (Q → (ZMod r)ˣ) //
    ∃ x S, solverWith Q own g1 (t.1 • g1) t.2.1.1 t.2.2 i query (extract t.2.1.1 t.2.2) (A t.1) =
      some (x, S) ∧ Solves t.1 t.2.1.1 S}
  let φ : W × (ZMod r)ˣ →
      Σ i : Fin (q + 1), T i := fun t =>
    ⟨ix t, ⟨(t.1.1.1, t.1.1.2 (x₀ t), a t), ⟨_, _, ha3 t, ha4 t⟩⟩⟩
  have hinj : Function.Injective φ := by
    intro t t' h
    have e1 : ix t = ix t' := congrArg Sigma.fst h
    have e2 : ((t.1.1.1, t.1.1.2 (x₀ t), a t) : ZMod r × {h : G1 // h ≠ 0} × (Q → (ZMod r)ˣ)) =
        (t'.1.1.1, t'.1.1.2 (x₀ t'), a t') := congrArg (fun z : Σ i : Fin (q + 1), T i => z.2.1) h
    obtain ⟨es, eh, ea⟩ : t.1.1.1 = t'.1.1.1 ∧ t.1.1.2 (x₀ t) = t'.1.1.2 (x₀ t') ∧ a t = a t' := by
      simpa [Prod.ext_iff] using e2
    have ex : x₀ t = x₀ t' := by
      have h1 := ha3 t
      rw [e1, es, eh, ea, ha3 t'] at h1
      exact Subtype.ext (Prod.mk.inj (Option.some.inj h1)).1.symm
    have ef : t.1.1.2 = t'.1.1.2 := by
      funext x
      by_cases hx : x = x₀ t
      · rw [hx, eh, ex]
      · apply Subtype.ext
        rw [ha2 t x hx, ha2 t' x (by rwa [← ex]), ea, eh]
    have ec : t.2 = t'.2 := by rw [← ha1 t, ← ha1 t', ea, ex]
    exact Prod.ext (Subtype.ext (Prod.ext es ef)) ec
  have hcard := Nat.card_le_card_of_injective φ hinj
  rw [Nat.card_prod, Nat.card_sigma, Nat.card_eq_fintype_card (α := (ZMod r)ˣ), ZMod.card_units, mul_comm] at hcard
  rw [Finset.sum_range (fun i => Nat.card (T i))]
  exact hcard

/-- **C92.** Forging reduces to co-Diffie-Hellman.  Let a forger ask at most `q` questions, and count its
wins over all secrets `s` and all tables `f` of the hash.  Then the solver, which sees `s • g1`, `s • g2`
and a random `h`, and runs the forger once for each of `q + 1` guesses, finds `s • h` at least that often,
counted over all `s`, `h` and coins `a` (there are `r - 1` coins more). -/
theorem C92_reduction (Q : Finset HashQuery) (own : Bytes → Bool) (g1 : G1)
    (hspan : ∀ h : G1, ∃ c : ZMod r, h = c • g1) (A : G2 → Forger r G1 G2) (q : ℕ)
    (hA : ∀ pk, (A pk).Bounded q) :
    (r - 1) * Nat.card {t : ZMod r × (Q → {h : G1 // h ≠ 0}) // Wins P Q own A t.1 t.2} ≤
      ∑ i ∈ range (q + 1), Nat.card {t : ZMod r × {h : G1 // h ≠ 0} × (Q → (ZMod r)ˣ) //
        (solver Q own g1 (t.1 • g1) t.2.1.1 t.2.2 i A (t.1 • P.g2)).map Prod.snd = some (t.1 • t.2.1.1)} := by
  have h := reduction_count Q own g1 hspan Forgery.query (fun h a => extract Q h a)
    (fun s f F => Accepted P (tableHash Q f) own (toPublic P s) F) (fun s h S => S = s • h)
    (fun s => A (toPublic P s)) q (fun s => hA _) (fun s f F hF => accepted_mem P hF)
    (fun s f x₀ a F hf hx hF => extract_eq P hf F hx hF)
  refine h.trans (le_of_eq (Finset.sum_congr rfl fun i _ => Nat.card_congr (Equiv.subtypeEquivRight fun t => ?_)))
  change (∃ x S, solver Q own g1 (t.1 • g1) t.2.1.1 t.2.2 i A (t.1 • P.g2) = some (x, S) ∧ S = t.1 • t.2.1.1) ↔ _
  simp only [Option.map_eq_some_iff, Prod.exists]

end

section
variable {GT : Type*} [CommGroup GT] [DecidableEq GT] (C : CurvePairing GT)

theorem card_nonzero {A : Type*} [AddCommGroup A] [Finite A] :
    Nat.card {x : A // x ≠ 0} = Nat.card A - 1 := by
  classical
  have := Fintype.ofFinite A
  rw [Nat.card_eq_fintype_card, Nat.card_eq_fintype_card, Fintype.card_subtype_compl, Fintype.card_subtype_eq]

theorem card_G1r : Finite G1r ∧ Nat.card G1r = FR_MODULUS := by
  have hb : Function.Bijective fun s : ZMod FR_MODULUS => s • g1GenR := by
    constructor
    · intro s t h
      have : (s - t) • g1GenR = 0 := by rw [sub_smul, sub_eq_zero]; exact h
      rcases smul_eq_zero.mp this with h | h
      · exact sub_eq_zero.mp h
      · exact absurd h g1GenR_ne_zero
    · intro P
      obtain ⟨s, hs⟩ := g1r_span g1GenR_ne_zero P
      exact ⟨s, hs.symm⟩
  have : NeZero FR_MODULUS := ⟨FR_prime.ne_zero⟩
  exact ⟨Finite.of_surjective _ hb.2, by rw [← Nat.card_congr (Equiv.ofBijective _ hb), Nat.card_zmod]⟩

/-- From counting to probabilities. -/
theorem probability_of_count (Q : Finset HashQuery) (q : ℕ) (ε : ℚ) {N : ℕ → ℕ} {W : ℕ}
    (hε : ∀ i ≤ q, (N i : ℚ) /
      Nat.card (ZMod FR_MODULUS × {h : G1r // h ≠ 0} × (Q → (ZMod FR_MODULUS)ˣ)) ≤ ε)
    (h : (FR_MODULUS - 1) * W ≤ ∑ i ∈ range (q + 1), N i) :
    (W : ℚ) / Nat.card (ZMod FR_MODULUS × (Q → {h : G1r // h ≠ 0})) ≤ (q + 1) * ε := by
  have := card_G1r.1
  have hc : Nat.card {h : G1r // h ≠ 0} = FR_MODULUS - 1 := by rw [card_nonzero, card_G1r.2]
  have hu : Nat.card (ZMod FR_MODULUS)ˣ = FR_MODULUS - 1 := by rw [Nat.card_eq_fintype_card, ZMod.card_units]
  have hr : 0 < FR_MODULUS - 1 := Nat.sub_pos_of_lt FR_prime.one_lt
  have hr' := FR_prime.pos
  rw [Nat.card_prod, Nat.card_prod, Nat.card_fun, hu, hc, Nat.card_zmod] at hε
  rw [Nat.card_prod, Nat.card_fun, hc, Nat.card_zmod]
  generalize FR_MODULUS - 1 = m at *
  have hm : (0 : ℚ) < m := by exact_mod_cast hr
  have hk : (0 : ℚ) < FR_MODULUS := by exact_mod_cast hr'
  have hD : (0 : ℚ) < FR_MODULUS * (m * m ^ Nat.card Q) := by positivity
  have hD' : (0 : ℚ) < FR_MODULUS * m ^ Nat.card Q := by positivity
  have hsum : ((m * W : ℕ) : ℚ) ≤ ∑ i ∈ range (q + 1), ε * (FR_MODULUS * (m * m ^ Nat.card Q)) := by
    refine le_trans (Nat.cast_le.mpr h) ?_
    rw [Nat.cast_sum]
    refine Finset.sum_le_sum fun i hi => ?_
    have := hε i (by have := Finset.mem_range.mp hi; omega)
    push_cast at this
    rw [div_le_iff₀ hD] at this
    exact this
  rw [Finset.sum_const, card_range, nsmul_eq_mul] at hsum
  push_cast at hsum ⊢
  rw [div_le_iff₀ hD']
  have : (m : ℚ) * W ≤ m * ((q + 1) * ε * (FR_MODULUS * m ^ Nat.card Q)) := by
    refine hsum.trans (le_of_eq ?_)
    ring
  exact le_of_mul_le_mul_left this hm

/-- **C92** for the groups of the code, as probabilities.  If for every guess the solver finds `s • h` with
probability at most `ε`, then a forger asking at most `q` questions wins with probability at most
`(q + 1) * ε`; for all forgers, all finite sets of hash inputs, all sets of honest addresses. -/
theorem C92_unforgeable (Q : Finset HashQuery) (own : Bytes → Bool)
    (A : G2r → Forger FR_MODULUS G1r G2r) (q : ℕ) (hA : ∀ pk, (A pk).Bounded q) (ε : ℚ)
    (hε : ∀ i ≤ q, (Nat.card {t : ZMod FR_MODULUS × {h : G1r // h ≠ 0} × (Q → (ZMod FR_MODULUS)ˣ) //
        (solver Q own g1GenR (t.1 • g1GenR) t.2.1.1 t.2.2 i A (t.1 • g2GenR)).map Prod.snd =
          some (t.1 • t.2.1.1)} : ℚ) /
      Nat.card (ZMod FR_MODULUS × {h : G1r // h ≠ 0} × (Q → (ZMod FR_MODULUS)ˣ)) ≤ ε) :
    (Nat.card {t : ZMod FR_MODULUS × (Q → {h : G1r // h ≠ 0}) // Wins C.toPairing Q own A t.1 t.2} : ℚ) /
      Nat.card (ZMod FR_MODULUS × (Q → {h : G1r // h ≠ 0})) ≤ (q + 1) * ε :=
  probability_of_count Q q ε hε (C92_reduction C.toPairing Q own g1GenR (g1r_span g1GenR_ne_zero) A q hA)

end

/-! ### Examples -/

/-- The inputs of the example: a message, and the address of another signer. -/
def exampleQueries : Finset HashQuery := {(SIG_DOMAIN, [1], [2]), (POP_DOMAIN, [9], [])}

/-- A forger that computes the secret (possible in the toy group): it adds a key with known secret `2`, and a
key with secret `3` for which it proves possession. -/
def exampleForger (pk : ZMod 7) : Forger 7 (ZMod 7) (ZMod 7) :=
  .hash (POP_DOMAIN, [9], []) fun b => .hash (SIG_DOMAIN, [1], [2]) fun h =>
    match b, h with
    | .ok b, .ok h => .output (.aggregate [2] [(3, [9], 3 * b)] [1] [2] ((pk + 2 + 3) * h))
    | _, _ => .output (.pop [] 0)

theorem exampleForger_bounded (pk : ZMod 7) : (exampleForger pk).Bounded 2 := by
  intro b h
  cases b <;> cases h <;> trivial

instance : Fact (Nat.Prime 7) := ⟨by norm_num⟩

/-- It wins against every secret and every table. -/
theorem exampleForger_wins (s : ZMod 7) (f : exampleQueries → {h : ZMod 7 // h ≠ 0}) :
    Wins (toyPairing 7) exampleQueries (fun m => m == [8]) exampleForger s f := by
  have hq1 : (SIG_DOMAIN, [1], [2]) ∈ exampleQueries := by decide +kernel
  have hq2 : (POP_DOMAIN, [9], []) ∈ exampleQueries := by decide +kernel
  have h1 : tableHash exampleQueries f SIG_DOMAIN [1] [2] = .ok (f ⟨_, hq1⟩).1 := dif_pos hq1
  have h2 : tableHash exampleQueries f POP_DOMAIN [9] [] = .ok (f ⟨_, hq2⟩).1 := dif_pos hq2
  have hg : ∀ t : ZMod 7, t = t • (toyPairing 7).g2 := fun t => by simp [toyPairing]
  have hR : (attack exampleQueries (tableHash exampleQueries f) (fun m => m == [8]) s
      (exampleForger (toPublic (toyPairing 7) s)) [] []).1 =
        .aggregate [2] [(3, [9], 3 * (f ⟨_, hq2⟩).1)] [1] [2] ((s + 2 + 3) * (f ⟨_, hq1⟩).1) ∧
      (attack exampleQueries (tableHash exampleQueries f) (fun m => m == [8]) s
      (exampleForger (toPublic (toyPairing 7) s)) [] []).2.2 = [] := by
    rw [exampleForger, attack]
    simp only [h2]
    rw [attack]
    simp only [h1]
    simp [attack, toPublic, toyPairing]
  refine ⟨by rw [hR.2]; simp, ?_⟩
  rw [hR.1]
  refine ⟨?_, ?_⟩
  · intro o ho
    rw [List.mem_singleton] at ho
    subst ho
    refine ⟨rfl, ?_⟩
    simp only
    rw [verifyPop, hg 3, verifySig_ok_iff]
    exact ⟨_, h2, by simp [toyPairing]⟩
  · have e : aggregatePublicKeys (toPublic (toyPairing 7) s :: (([2] : List (ZMod 7)).map (toPublic (toyPairing 7)) ++
        ([(3, [9], 3 * (f ⟨_, hq2⟩).1)] : List (ZMod 7 × Bytes × ZMod 7)).map Prod.fst)) =
        (s + 2 + 3) • (toyPairing 7).g2 := by
      rw [aggregatePublicKeys_eq_sum]
      simp [toPublic, toyPairing, add_assoc]
    rw [e, verify, verifySig_ok_iff]
    exact ⟨_, h1, rfl⟩

/-- So it wins in all `7 * 6 ^ 2` cases, and the solver has at least as many successes, weighted. -/
example : (7 - 1) * (7 * 6 ^ 2) ≤
    ∑ i ∈ range 3, Nat.card {t : ZMod 7 × {h : ZMod 7 // h ≠ 0} × (exampleQueries → (ZMod 7)ˣ) //
      (solver exampleQueries (fun m => m == [8]) (1 : ZMod 7) (t.1 • 1) t.2.1.1 t.2.2 i exampleForger
        (t.1 • (toyPairing 7).g2)).map Prod.snd = some (t.1 • t.2.1.1)} := by
  have h := C92_reduction (toyPairing 7) exampleQueries (fun m => m == [8]) 1 (fun h => ⟨h, by simp⟩)
    exampleForger 2 exampleForger_bounded
  have hall : ∀ t : ZMod 7 × (exampleQueries → {h : ZMod 7 // h ≠ 0}),
      Wins (toyPairing 7) exampleQueries (fun m => m == [8]) exampleForger t.1 t.2 :=
    fun t => exampleForger_wins t.1 t.2
  have hQ : Nat.card exampleQueries = 2 := by
    rw [Nat.card_eq_fintype_card, Fintype.card_coe]
    decide +kernel
  have hn : Nat.card {h : ZMod 7 // h ≠ 0} = 6 := by rw [card_nonzero, Nat.card_zmod]
  have e : Nat.card {t : ZMod 7 × (exampleQueries → {h : ZMod 7 // h ≠ 0}) //
      Wins (toyPairing 7) exampleQueries (fun m => m == [8]) exampleForger t.1 t.2} = 7 * 6 ^ 2 := by
    rw [Nat.card_congr (Equiv.subtypeUnivEquiv hall), Nat.card_prod, Nat.card_fun, hQ, hn, Nat.card_zmod]
  rw [e] at h
  exact h

/-- The solver at work: secret `5`, challenge `4` placed at question `1`, the solution is `5 * 4 = 6`. -/
example : solver exampleQueries (fun m => m == [8]) (1 : ZMod 7) 5 4 (fun _ => Units.mkOfMulEqOne 3 5 (by decide)) 1
    exampleForger 5 = some ((SIG_DOMAIN, [1], [2]), 6) := by decide +kernel

end Verif
