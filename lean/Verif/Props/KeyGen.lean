import Verif.Model.KeyGen
import Verif.Model.Scheme
import Verif.Lemmas.DrawCount
import Verif.Props.Bls

/-!
# Generating keys: C91

What `PrivateKey::generate` returns, and how the keys are distributed when the words of the generator are.
-/

set_option exponentiation.threshold 1000

namespace Verif

open Finset

/-- Specification: the words of `n` rounds. -/
def keyWords {n : ℕ} (f : Fin n → Fin 4 → Fin (2 ^ 64)) : ℕ → ℕ := fun i =>
  if h : i / 4 < n then (f ⟨i / 4, h⟩ ⟨i % 4, Nat.mod_lt _ (by norm_num)⟩).val else 0

theorem fr_two_pow_ne : (2 : ZMod FR_MODULUS) ^ 256 ≠ 0 := by
  apply pow_ne_zero
  intro h
  have := (ZMod.natCast_eq_zero_iff 2 FR_MODULUS).mp (by exact_mod_cast h)
  exact absurd (Nat.le_of_dvd (by norm_num) this) (by decide +kernel)

/-- **C91.** The loop returns the first candidate below the order, read as a Montgomery representative,
and consumes four words for every round. -/
theorem C91_generate_iff (u : ℕ → ℕ) (fuel pos : ℕ) (sk : ZMod FR_MODULUS) (pos' : ℕ) :
    generateKey u fuel pos = some (sk, pos') ↔
      ∃ k < fuel, pos' = pos + 4 * (k + 1) ∧ (∀ j < k, FR_MODULUS ≤ frCandidate u (pos + 4 * j)) ∧
        frCandidate u (pos + 4 * k) < FR_MODULUS ∧
        sk * 2 ^ 256 = (frCandidate u (pos + 4 * k) : ZMod FR_MODULUS) := by
  have h2 := fr_two_pow_ne
  unfold generateKey
  induction fuel generalizing pos with
  | zero => simp [sampleFr]
  | succ fuel ih =>
    rw [sampleFr]
    by_cases hc : frCandidate u pos < FR_MODULUS
    · rw [if_pos hc, Option.some.injEq, Prod.mk.injEq]
      constructor
      · rintro ⟨rfl, rfl⟩
        exact ⟨0, by omega, by omega, by simp, by simpa using hc, by
          rw [div_mul_cancel₀ _ h2]; simp⟩
      · rintro ⟨k, _, rfl, h1, h3, h4⟩
        have hk : k = 0 := by
          by_contra hk
          have := h1 0 (by omega)
          simp only [mul_zero, add_zero] at this
          omega
        subst hk
        simp only [mul_zero, add_zero] at h4
        exact ⟨by rw [← h4, mul_div_cancel_right₀ _ h2], by omega⟩
    · rw [if_neg hc]
      refine (ih (pos + 4)).trans ?_
      constructor
      · rintro ⟨k, hk, rfl, h1, h3, h4⟩
        have e : pos + 4 * (k + 1) = pos + 4 + 4 * k := by omega
        refine ⟨k + 1, by omega, by omega, ?_, by rw [e]; exact h3, by rw [e]; exact h4⟩
        intro j hj
        cases j with
        | zero => simpa using hc
        | succ j =>
          have := h1 j (by omega)
          rwa [show pos + 4 * (j + 1) = pos + 4 + 4 * j by omega]
      · rintro ⟨k, hk, rfl, h1, h3, h4⟩
        cases k with
        | zero => exact absurd h3 hc
        | succ k =>
          have e : pos + 4 * (k + 1) = pos + 4 + 4 * k := by omega
          refine ⟨k, by omega, by omega, fun j hj => ?_, by rw [← e]; exact h3, by rw [← e]; exact h4⟩
          have := h1 (j + 1) (by omega)
          rwa [show pos + 4 * (j + 1) = pos + 4 + 4 * j by omega] at this

/-- A block of words as a number, without the masked bits. -/
def frBlock (b : Fin 4 → Fin (2 ^ 64)) : ℕ := (finFunctionFinEquiv b).val % 2 ^ 253

theorem frCandidate_block {n : ℕ} (f : Fin n → Fin 4 → Fin (2 ^ 64)) (k : Fin n) :
    frCandidate (keyWords f) (4 * k) = frBlock (f k) := by
  have hw : ∀ i : Fin 4, keyWords f (4 * k + i) = (f k i).val := by
    intro i
    have h1 : (4 * k.val + i.val) / 4 = k.val := by omega
    have h2 : (4 * k.val + i.val) % 4 = i.val := by omega
    unfold keyWords
    rw [dif_pos (by rw [h1]; exact k.2)]
    have e1 : (⟨(4 * k.val + i.val) / 4, by rw [h1]; exact k.2⟩ : Fin n) = k := Fin.ext h1
    have e2 : (⟨(4 * k.val + i.val) % 4, Nat.mod_lt _ (by norm_num)⟩ : Fin 4) = i := Fin.ext h2
    rw [e1, e2]
  have h0 := hw 0
  have h1 := hw 1
  have h2 := hw 2
  have h3 := hw 3
  simp only [Fin.val_zero, Fin.val_one, Fin.val_two, add_zero, show ((3 : Fin 4) : ℕ) = 3 from rfl] at h0 h1 h2 h3
  unfold frCandidate frBlock
  rw [h0, h1, h2, h3, finFunctionFinEquiv_apply, Fin.sum_univ_four]
  simp only [Fin.val_zero, Fin.val_one, Fin.val_two, show ((3 : Fin 4) : ℕ) = 3 from rfl]
  have l0 := (f k 0).2
  have l1 := (f k 1).2
  have l2 := (f k 2).2
  generalize (f k 0).val = a0 at *
  generalize (f k 1).val = a1 at *
  generalize (f k 2).val = a2 at *
  generalize (f k 3).val = a3 at *
  norm_num at l0 l1 l2 ⊢
  omega

/-- The key of a block below the order. -/
def blockKey (b : Fin 4 → Fin (2 ^ 64)) : ZMod FR_MODULUS := (frBlock b : ZMod FR_MODULUS) / 2 ^ 256

theorem card_frBlock (v : ℕ) (hv : v < 2 ^ 253) : Nat.card {b : Fin 4 → Fin (2 ^ 64) // frBlock b = v} = 8 := by
  have hc : (2 ^ 64) ^ 4 = 2 ^ 253 * 8 := by norm_num
  rw [← card_residue (2 ^ 253) 8 v hv]
  exact Nat.card_congr ((finFunctionFinEquiv.trans (finCongr hc)).subtypeEquiv fun f => Iff.rfl)

theorem card_blockKey (sk : ZMod FR_MODULUS) :
    Nat.card {b : Fin 4 → Fin (2 ^ 64) // frBlock b < FR_MODULUS ∧ blockKey b = sk} = 8 := by
  have hlt : (sk * 2 ^ 256).val < FR_MODULUS := ZMod.val_lt _
  rw [← card_frBlock (sk * 2 ^ 256).val (hlt.trans FR_bounds.2)]
  refine Nat.card_congr (Equiv.subtypeEquivRight fun b => ?_)
  unfold blockKey
  rw [div_eq_iff fr_two_pow_ne]
  constructor
  · rintro ⟨h1, h2⟩
    rw [← h2, ZMod.val_cast_of_lt h1]
  · intro h
    rw [h]
    exact ⟨hlt, by rw [ZMod.natCast_val, ZMod.cast_id]⟩

theorem card_blocks : Nat.card (Fin 4 → Fin (2 ^ 64)) = 2 ^ 256 := by
  rw [Nat.card_fun, Nat.card_eq_fintype_card, Nat.card_eq_fintype_card, Fintype.card_fin, Fintype.card_fin, ← pow_mul]

theorem card_good : Nat.card {b : Fin 4 → Fin (2 ^ 64) // frBlock b < FR_MODULUS} = FR_MODULUS * 8 := by
  have h := card_over (T := ZMod FR_MODULUS) (fun _ => True) (fun b => frBlock b < FR_MODULUS) blockKey 8 card_blockKey
  have e : Nat.card {t : ZMod FR_MODULUS // True} = FR_MODULUS := by
    rw [Nat.card_congr (Equiv.subtypeUnivEquiv fun _ => trivial), Nat.card_zmod]
  rw [e] at h
  rw [← h]
  exact Nat.card_congr (Equiv.subtypeEquivRight fun b => by simp)

theorem card_bad : Nat.card {b : Fin 4 → Fin (2 ^ 64) // FR_MODULUS ≤ frBlock b} = 8 * (2 ^ 253 - FR_MODULUS) := by
  classical
  have h := Nat.card_congr (Equiv.sumCompl fun b : Fin 4 → Fin (2 ^ 64) => frBlock b < FR_MODULUS)
  rw [Nat.card_sum, card_good, card_blocks] at h
  have e : Nat.card {b : Fin 4 → Fin (2 ^ 64) // ¬ frBlock b < FR_MODULUS} =
      Nat.card {b : Fin 4 → Fin (2 ^ 64) // FR_MODULUS ≤ frBlock b} :=
    Nat.card_congr (Equiv.subtypeEquivRight fun b => not_lt)
  rw [e] at h
  have := FR_bounds.2
  norm_num at h this ⊢
  omega

theorem card_either {A T : Type*} [Finite A] [Finite T] (hit bad : A → Prop) (Q : T → Prop)
    (hd : ∀ a, hit a → ¬ bad a) :
    Nat.card {x : A × T // hit x.1 ∨ bad x.1 ∧ Q x.2} =
      Nat.card {a // hit a} * Nat.card T + Nat.card {a // bad a} * Nat.card {t // Q t} := by
  classical
  rw [← Nat.card_prod, ← Nat.card_prod, ← Nat.card_sum]
  refine Nat.card_congr ⟨fun x => if h : hit x.1.1 then .inl (⟨x.1.1, h⟩, x.1.2)
      else .inr (⟨x.1.1, (x.2.resolve_left h).1⟩, ⟨x.1.2, (x.2.resolve_left h).2⟩),
    Sum.elim (fun y => ⟨(y.1.1, y.2), .inl y.1.2⟩) (fun y => ⟨(y.1.1, y.2.1), .inr ⟨y.1.2, y.2.2⟩⟩), ?_, ?_⟩
  · rintro ⟨⟨a, t⟩, h⟩
    by_cases ha : hit a
    · simp [ha]
    · simp [ha]
  · rintro (⟨⟨a, ha⟩, t⟩ | ⟨⟨a, ha⟩, t⟩)
    · simp [ha]
    · have : ¬ hit a := fun h => hd a h ha
      simp [this]

theorem card_first {A : Type*} [Finite A] (hit bad : A → Prop) (hd : ∀ a, hit a → ¬ bad a) (r : ℕ)
    (hc : Nat.card A = r * Nat.card {a // hit a} + Nat.card {a // bad a}) (n : ℕ) :
    r * Nat.card {f : Fin n → A // ∃ k, (∀ j < k, bad (f j)) ∧ hit (f k)} + Nat.card {a // bad a} ^ n =
      Nat.card A ^ n := by
  induction n with
  | zero =>
    have : IsEmpty {f : Fin 0 → A // ∃ k, (∀ j < k, bad (f j)) ∧ hit (f k)} :=
      ⟨fun f => f.2.choose.elim0⟩
    rw [Nat.card_of_isEmpty]
    simp
  | succ n ih =>
    have e : Nat.card {f : Fin (n + 1) → A // ∃ k, (∀ j < k, bad (f j)) ∧ hit (f k)} =
        Nat.card {x : A × (Fin n → A) // hit x.1 ∨ bad x.1 ∧
          ∃ k, (∀ j < k, bad (x.2 j)) ∧ hit (x.2 k)} := by
      refine Nat.card_congr ((Fin.consEquiv fun _ => A).symm.subtypeEquiv fun f => ?_)
      change _ ↔ hit (f 0) ∨ bad (f 0) ∧ ∃ k : Fin n, (∀ j < k, bad (f j.succ)) ∧ hit (f k.succ)
      constructor
      · rintro ⟨k, h1, h2⟩
        cases k using Fin.cases with
        | zero => exact .inl h2
        | succ k =>
          exact .inr ⟨h1 0 (Fin.succ_pos k), k, fun j hj => h1 _ (Fin.succ_lt_succ_iff.mpr hj), h2⟩
      · rintro (h | ⟨h0, k, h1, h2⟩)
        · exact ⟨0, fun j hj => absurd hj (by simp), h⟩
        · refine ⟨k.succ, fun j hj => ?_, h2⟩
          cases j using Fin.cases with
          | zero => exact h0
          | succ j => exact h1 j (Fin.succ_lt_succ_iff.mp hj)
    rw [e, card_either (T := Fin n → A) hit bad (fun f => ∃ k, (∀ j < k, bad (f j)) ∧ hit (f k)) hd, Nat.card_fun, Nat.card_eq_fintype_card (α := Fin n), Fintype.card_fin]
    set N := Nat.card {f : Fin n → A // ∃ k, (∀ j < k, bad (f j)) ∧ hit (f k)}
    set h := Nat.card {a // hit a}
    set b := Nat.card {a // bad a}
    calc r * (h * Nat.card A ^ n + b * N) + b ^ (n + 1) = r * h * Nat.card A ^ n + b * (r * N + b ^ n) := by ring
      _ = (r * h + b) * Nat.card A ^ n := by rw [ih]; ring
      _ = _ := by rw [← hc, pow_succ]; ring

theorem generate_blocks {n : ℕ} (f : Fin n → Fin 4 → Fin (2 ^ 64)) (sk : ZMod FR_MODULUS) :
    (∃ pos, generateKey (keyWords f) n 0 = some (sk, pos)) ↔
      ∃ k, (∀ j < k, FR_MODULUS ≤ frBlock (f j)) ∧ frBlock (f k) < FR_MODULUS ∧ blockKey (f k) = sk := by
  constructor
  · rintro ⟨pos, h⟩
    obtain ⟨k, hk, -, h1, h2, h3⟩ := (C91_generate_iff _ _ _ _ _).mp h
    simp only [zero_add] at h1 h2 h3
    have e := frCandidate_block f ⟨k, hk⟩
    simp only at e
    rw [e] at h2 h3
    refine ⟨⟨k, hk⟩, fun j hj => ?_, h2, ?_⟩
    · rw [← frCandidate_block]; exact h1 j hj
    · rw [blockKey, div_eq_iff fr_two_pow_ne, h3]
  · rintro ⟨k, h1, h2, h3⟩
    refine ⟨_, (C91_generate_iff _ _ _ _ _).mpr ⟨k, k.2, rfl, fun j hj => ?_, ?_, ?_⟩⟩
    · have := h1 ⟨j, hj.trans k.2⟩ hj
      rw [← frCandidate_block] at this
      simpa using this
    · rw [zero_add, frCandidate_block]; exact h2
    · rw [zero_add, frCandidate_block, ← h3, blockKey, div_mul_cancel₀ _ fr_two_pow_ne]

/-- **C91.** Keys are uniform: among the words of `n` rounds, every scalar, zero included, is generated by
the same number `N` of choices, where `r * N` plus the number of choices that need more rounds is all. -/
theorem C91_uniform (n : ℕ) (sk : ZMod FR_MODULUS) :
    FR_MODULUS * Nat.card {f : Fin n → Fin 4 → Fin (2 ^ 64) //
        ∃ pos, generateKey (keyWords f) n 0 = some (sk, pos)} + (8 * (2 ^ 253 - FR_MODULUS)) ^ n =
      (2 ^ 256) ^ n := by
  have h := card_first (fun b : Fin 4 → Fin (2 ^ 64) => frBlock b < FR_MODULUS ∧ blockKey b = sk)
    (fun b => FR_MODULUS ≤ frBlock b) (fun b h => not_le.mpr h.1) FR_MODULUS (by
      rw [card_blockKey, card_bad, card_blocks]
      have := FR_bounds.2
      norm_num at this ⊢
      omega) n
  rw [card_bad, card_blocks] at h
  rw [← h]
  congr 2
  exact Nat.card_congr (Equiv.subtypeEquivRight fun f => generate_blocks f sk)

/-- C91: the choices of words for which `n` rounds are not enough. -/
theorem C91_unfinished (n : ℕ) :
    Nat.card {f : Fin n → Fin 4 → Fin (2 ^ 64) // generateKey (keyWords f) n 0 = none} =
      (8 * (2 ^ 253 - FR_MODULUS)) ^ n := by
  have e : Nat.card (Fin n → {b : Fin 4 → Fin (2 ^ 64) // FR_MODULUS ≤ frBlock b}) =
      (8 * (2 ^ 253 - FR_MODULUS)) ^ n := by
    rw [Nat.card_fun, card_bad, Nat.card_eq_fintype_card (α := Fin n), Fintype.card_fin]
  rw [← e]
  refine Nat.card_congr (Equiv.trans (Equiv.subtypeEquivRight fun f => ?_) Equiv.subtypePiEquivPi)
  constructor
  · intro h k
    by_contra hk
    have hex : ∃ k, frBlock (f k) < FR_MODULUS := ⟨k, not_le.mp hk⟩
    classical
    have hw := wellFounded_lt.has_min {k | frBlock (f k) < FR_MODULUS} hex
    obtain ⟨m, hm, hmin⟩ := hw
    obtain ⟨pos, hp⟩ := (generate_blocks f (blockKey (f m))).mpr
      ⟨m, fun j hj => not_lt.mp fun hlt => hmin j hlt hj, hm, rfl⟩
    rw [h] at hp
    cases hp
  · intro h
    cases hg : generateKey (keyWords f) n 0 with
    | none => rfl
    | some s =>
      obtain ⟨k, -, hk, -⟩ := (generate_blocks f s.1).mp ⟨s.2, hg⟩
      exact absurd (h k) (not_le.mpr hk)

section
variable {GT : Type*} [CommGroup GT] [DecidableEq GT] (C : CurvePairing GT)

omit [DecidableEq GT] in
/-- C91: so public keys are uniform in the subgroup of order `r` of G2. -/
theorem C91_public (n : ℕ) (pk : G2r) :
    FR_MODULUS * Nat.card {f : Fin n → Fin 4 → Fin (2 ^ 64) //
        ∃ sk pos, generateKey (keyWords f) n 0 = some (sk, pos) ∧ toPublic C.toPairing sk = pk} +
      (8 * (2 ^ 253 - FR_MODULUS)) ^ n = (2 ^ 256) ^ n := by
  obtain ⟨s, hs⟩ := g2r_span pk
  rw [← C91_uniform n s]
  congr 2
  refine Nat.card_congr (Equiv.subtypeEquivRight fun f => ?_)
  constructor
  · rintro ⟨sk, pos, h1, h2⟩
    have : sk • g2GenR = s • g2GenR := by rw [← hs]; exact h2
    have : (sk - s) • g2GenR = 0 := by rw [sub_smul, this, sub_self]
    rcases smul_eq_zero.mp this with h | h
    · rw [sub_eq_zero] at h
      exact ⟨pos, by rw [h1, h]⟩
    · exact absurd h g2GenR_ne_zero
  · rintro ⟨pos, h⟩
    exact ⟨s, pos, h, hs.symm⟩

/-- C91: nothing excludes the key zero.  Its public key is the identity, and then the identity is the
one accepted signature of every message that hashes. -/
theorem C91_zero :
    (∀ pos, ∃ u : ℕ → ℕ, (∀ i, u i < 2 ^ 64) ∧ ∀ fuel, generateKey u (fuel + 1) pos = some (0, pos + 4)) ∧
    toPublic C.toPairing 0 = 0 ∧
    ∀ (msg extra : Bytes) (H : HashToG1 G1r) (h : G1r), H SIG_DOMAIN msg extra = .ok h →
      sign (0 : ZMod FR_MODULUS) msg extra H = .ok 0 ∧
      ∀ sig, verify C.toPairing 0 msg extra sig H = .ok () ↔ sig = 0 := by
  have : NeZero FR_MODULUS := ⟨FR_prime.ne_zero⟩
  refine ⟨fun pos => ⟨fun _ => 0, fun _ => by norm_num, fun fuel => ?_⟩, zero_smul _ _, ?_⟩
  · rw [C91_generate_iff]
    exact ⟨0, by omega, rfl, by simp, by simpa [frCandidate] using FR_prime.pos, by simp [frCandidate]⟩
  · intro msg extra H h hh
    refine ⟨by simp [sign, signMessage, signRaw, hh], fun sig => ?_⟩
    have := verifySig_ok_iff C.toPairing 0 SIG_DOMAIN msg extra sig H
    rw [zero_smul] at this
    unfold verify
    rw [this, hh]
    simp

end

/-- A draw with a rejected round: the first candidate is too large, the second gives the key that has
Montgomery form one. -/
example : generateKey (fun i => if i < 4 then 2 ^ 64 - 1 else if i = 4 then 1 else 0) 2 0 =
    some (1 / 2 ^ 256, 8) := by
  rw [C91_generate_iff]
  refine ⟨1, by norm_num, rfl, ?_, by decide +kernel, ?_⟩
  · intro j hj
    obtain rfl : j = 0 := by omega
    decide +kernel
  · rw [div_mul_cancel₀ _ fr_two_pow_ne]
    simp [frCandidate]

/-- One round: eight choices of words for every key. -/
example (sk : ZMod FR_MODULUS) : Nat.card {f : Fin 1 → Fin 4 → Fin (2 ^ 64) //
    ∃ pos, generateKey (keyWords f) 1 0 = some (sk, pos)} = 8 := by
  have h := C91_uniform 1 sk
  have e : (2 : ℕ) ^ 256 = FR_MODULUS * 8 + 8 * (2 ^ 253 - FR_MODULUS) := by decide +kernel
  rw [pow_one, pow_one, e] at h
  exact Nat.eq_of_mul_eq_mul_left FR_prime.pos (Nat.add_right_cancel h)

end Verif
