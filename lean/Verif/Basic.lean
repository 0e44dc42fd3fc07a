import Mathlib.Data.List.Forall2

/-!
# Basic vocabulary of the model

`Outcome` models a Rust computation returning `Result<α, ε>` that may also panic.
-/

namespace Verif

/-- Byte strings (`Vec<u8>` / `&[u8]` everywhere in /repo). -/
abbrev Bytes := List UInt8

/-- Result of a Rust call: `Ok`, `Err`, or a panic (unwinding, no value returned).
Models `Result<α, ε>` as used throughout /repo, e.g. `crates/bls-crypto/src/lib.rs:72`
(`BlsResult`), extended with an explicit panic value. -/
inductive Outcome (ε α : Type*) where
  | ok (a : α)
  | err (e : ε)
  | panic
  deriving DecidableEq, Repr

namespace Outcome

variable {ε α β γ : Type*}

/-- The `?` operator: continue on `Ok`, return early on `Err`, unwind on panic. -/
def bind (x : Outcome ε α) (f : α → Outcome ε β) : Outcome ε β :=
  match x with
  | .ok a => f a
  | .err e => .err e
  | .panic => .panic

/-- `Result::map`. -/
def map (f : α → β) (x : Outcome ε α) : Outcome ε β := x.bind fun a => .ok (f a)

instance : Monad (Outcome ε) where
  pure := .ok
  bind := bind

@[simp] theorem bind_ok (a : α) (f : α → Outcome ε β) : (Outcome.ok a).bind f = f a := rfl
@[simp] theorem bind_err (e : ε) (f : α → Outcome ε β) : (Outcome.err e).bind f = .err e := rfl
@[simp] theorem bind_panic (f : α → Outcome ε β) :
    (Outcome.panic : Outcome ε α).bind f = .panic := rfl
@[simp] theorem map_ok (f : α → β) (a : α) : (Outcome.ok a : Outcome ε α).map f = .ok (f a) := rfl
@[simp] theorem map_err (f : α → β) (e : ε) : (Outcome.err e : Outcome ε α).map f = .err e := rfl
@[simp] theorem map_panic (f : α → β) : (Outcome.panic : Outcome ε α).map f = .panic := rfl

/-- `Option::unwrap`: panic on `None`. -/
def unwrap : Option α → Outcome ε α
  | some a => .ok a
  | none => .panic

/-- `iter().map(f).collect::<Result<Vec<_>, _>>()`: stop at the first error (or panic). -/
def mapM (f : α → Outcome ε β) : List α → Outcome ε (List β)
  | [] => .ok []
  | a :: as => (f a).bind fun b => (mapM f as).map fun bs => b :: bs

@[simp] theorem mapM_nil (f : α → Outcome ε β) : mapM f [] = .ok [] := rfl
@[simp] theorem mapM_cons (f : α → Outcome ε β) (a : α) (as : List α) :
    mapM f (a :: as) = (f a).bind fun b => (mapM f as).map fun bs => b :: bs := rfl

/-- Was the call successful? -/
def isOk : Outcome ε α → Bool
  | .ok _ => true
  | _ => false

theorem map_eq_ok_iff (f : α → β) (x : Outcome ε α) (b : β) :
    x.map f = .ok b ↔ ∃ a, x = .ok a ∧ f a = b := by
  cases x <;> simp [map, bind]

theorem bind_eq_ok_iff (x : Outcome ε α) (f : α → Outcome ε β) (b : β) :
    x.bind f = .ok b ↔ ∃ a, x = .ok a ∧ f a = .ok b := by
  cases x <;> simp [bind]

theorem mapM_eq_ok_iff (f : α → Outcome ε β) (l : List α) (l' : List β) :
    mapM f l = .ok l' ↔ List.Forall₂ (fun a b => f a = .ok b) l l' := by
  induction l generalizing l' with
  | nil => cases l' <;> simp [eq_comm]
  | cons a as ih =>
    simp only [mapM_cons, bind_eq_ok_iff, map_eq_ok_iff, ih, List.forall₂_cons_left_iff]
    constructor
    · rintro ⟨b, hb, bs, hbs, rfl⟩; exact ⟨b, bs, hb, hbs, rfl⟩
    · rintro ⟨b, bs, hb, hbs, rfl⟩; exact ⟨b, hb, bs, hbs, rfl⟩

/-- The traversal fails with the error of the first failing element. -/
theorem mapM_eq_err_iff (f : α → Outcome ε β) (l : List α) (e : ε) :
    mapM f l = .err e ↔
      ∃ pre a post, l = pre ++ a :: post ∧ f a = .err e ∧ ∀ x ∈ pre, ∃ b, f x = .ok b := by
  induction l with
  | nil => simp
  | cons a as ih =>
    rw [mapM_cons]
    cases hfa : f a with
    | ok b =>
      simp only [bind_ok]
      constructor
      · intro h
        have h' : mapM f as = .err e := by
          cases hm : mapM f as <;> simp [hm] at h ⊢; exact h
        obtain ⟨pre, x, post, rfl, hx, hpre⟩ := ih.1 h'
        exact ⟨a :: pre, x, post, rfl, hx, by
          intro y hy; rcases List.mem_cons.1 hy with rfl | hy
          · exact ⟨b, hfa⟩
          · exact hpre y hy⟩
      · rintro ⟨pre, x, post, heq, hx, hpre⟩
        cases pre with
        | nil => simp at heq; obtain ⟨rfl, rfl⟩ := heq; simp [hfa] at hx
        | cons p ps =>
          simp at heq; obtain ⟨rfl, rfl⟩ := heq
          have : mapM f (ps ++ x :: post) = .err e :=
            ih.2 ⟨ps, x, post, rfl, hx, fun y hy => hpre y (List.mem_cons_of_mem _ hy)⟩
          simp [this]
    | err e' =>
      simp only [bind_err, err.injEq]
      constructor
      · rintro rfl; exact ⟨[], a, as, rfl, hfa, by simp⟩
      · rintro ⟨pre, x, post, heq, hx, hpre⟩
        cases pre with
        | nil => simp at heq; obtain ⟨rfl, rfl⟩ := heq; simpa [hfa] using hx
        | cons p ps =>
          simp at heq; obtain ⟨rfl, rfl⟩ := heq
          obtain ⟨b, hb⟩ := hpre a (by simp); simp [hfa] at hb
    | panic =>
      simp only [bind_panic, reduceCtorEq, false_iff]
      rintro ⟨pre, x, post, heq, hx, hpre⟩
      cases pre with
      | nil => simp at heq; obtain ⟨rfl, rfl⟩ := heq; simp [hfa] at hx
      | cons p ps =>
        simp at heq; obtain ⟨rfl, rfl⟩ := heq
        obtain ⟨b, hb⟩ := hpre a (by simp); simp [hfa] at hb

end Outcome

end Verif
