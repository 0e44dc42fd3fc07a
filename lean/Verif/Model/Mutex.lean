import Verif.Model.Cache

/-!
# Model: the mutex around the key cache

`crates/bls-snark-sys/src/cache.rs:5-6`: the cache is behind a `std::sync::Mutex`, locked by
`aggregate_public_keys` (`crates/bls-snark-sys/src/signatures.rs:442`),
`aggregate_public_keys_subtract` (`signatures.rs:470`) and `deserialize_public_key_cached`
(`crates/bls-snark-sys/src/serialization.rs:50`).  Threads are programs of such calls; a schedule picks
the thread that moves next, and one call takes several moves.
-/

namespace Verif

/-- Where a thread is inside a call: before the lock, or after each of the steps of the bodies of
`aggregate` (`crates/bls-crypto/src/bls/cache.rs:65-87`) and `deserialize` (`49-61`) that read or
write the shared cache. -/
inductive Pc (ε F : Type*) where
  /-- outside; the next move locks -/
  | start
  /-- the guard is held, `crates/bls-snark-sys/src/signatures.rs:442,470`,
  `crates/bls-snark-sys/src/serialization.rs:50` -/
  | entered
  /-- after both loops, `crates/bls-crypto/src/bls/cache.rs:66-81`: the new set and sum are local -/
  | summed (keys : KeySet F) (combined : JacRep F)
  /-- after `self.keys = keys`, `crates/bls-crypto/src/bls/cache.rs:83` -/
  | storedKeys (combined : JacRep F)
  /-- after a miss, `crates/bls-crypto/src/bls/cache.rs:50,55` -/
  | missed
  /-- after `PublicKey::deserialize`, `crates/bls-crypto/src/bls/cache.rs:56` -/
  | decoded (k : JacRep F)
  /-- the result is known; the next move drops the guard -/
  | finish (out : Outcome ε (Option (JacRep F)))

/-- A thread: the calls it still has to make (the first one is under way unless `pc` is `start`), and
the results it got.  The callers of `crates/bls-snark-sys/src/cache.rs:5-6`. -/
structure CacheThread (ε F : Type*) where
  todo : List (CacheCall F)
  pc : Pc ε F
  out : List (Outcome ε (Option (JacRep F)))

/-- `PUBLIC_KEY_CACHE`, `crates/bls-snark-sys/src/cache.rs:5-6`: the cache and the state of its mutex
(std, external), with the threads using it. -/
structure MutexState (ε F : Type*) where
  cache : PublicKeyCache F
  holder : Option ℕ
  poisoned : Bool
  threads : List (CacheThread ε F)

/-- All threads before their first call, on the cache of `crates/bls-snark-sys/src/cache.rs:6`. -/
def MutexState.init {ε F G : Type*} [AddCommGroup G] (ops : CurveOps F G) (hy : F → ℕ)
    (progs : List (List (CacheCall F))) : MutexState ε F where
  cache := PublicKeyCache.new ops hy
  holder := none
  poisoned := false
  threads := progs.map fun p => ⟨p, .start, []⟩

section
variable {F : Type*} [DecidableEq F] {G : Type*} [AddCommGroup G] (ops : CurveOps F G)
variable {ε : Type*} (deser : Bytes → Outcome ε (JacRep F))

/-- The local part of `aggregate`, `crates/bls-crypto/src/bls/cache.rs:66-81`. -/
def aggregateLocal (c : PublicKeyCache F) (publicKeys : List (JacRep F)) (hy : F → ℕ)
    (sh1 sh2 : List (JacRep F) → List (JacRep F)) : KeySet F × JacRep F :=
  let keys := publicKeys.foldl KeySet.insert ⟨[], hy⟩
  let combined := (c.keys.difference keys sh1).foldl ops.sub c.combined
  (keys, (keys.difference c.keys sh2).foldl ops.add combined)

/-- One move inside the critical section of a call:
`crates/bls-crypto/src/bls/cache.rs:49-87`, `crates/bls-snark-sys/src/signatures.rs:471-474`.
`clear_cache` (not reachable through the C interface) is one move. -/
def CacheCall.advance (call : CacheCall F) (pc : Pc ε F) (c : PublicKeyCache F) :
    Pc ε F × PublicKeyCache F :=
  match call, pc with
  | .aggregate keys hy sh1 sh2, .entered =>
    let r := aggregateLocal ops c keys hy sh1 sh2
    (.summed r.1 r.2, c)
  | .aggregateSubtract _ keys hy sh1 sh2, .entered =>
    let r := aggregateLocal ops c keys hy sh1 sh2
    (.summed r.1 r.2, c)
  | _, .summed keys combined => (.storedKeys combined, { c with keys := keys })
  | .aggregateSubtract agg _ _ _ _, .storedKeys combined =>
    (.finish (.ok (some (ops.sub agg combined))), { c with combined := combined })
  | _, .storedKeys combined => (.finish (.ok (some combined)), { c with combined := combined })
  | .deserialize data, .entered =>
    match lruGet c.de data with
    | (some k, de') => (.finish (.ok (some k)), { c with de := de' })
    | (none, de') => (.missed, { c with de := de' })
  | .deserialize data, .missed =>
    match deser data with
    | .ok k => (.decoded k, c)
    | .err e => (.finish (.err e), c)
    | .panic => (.finish .panic, c)
  | .deserialize data, .decoded k =>
    (.finish (.ok (some k)), { c with de := lruPut c.de data k })
  | .clear hy, .entered => (.finish (.ok none), c.clearCache ops hy)
  | _, pc => (pc, c)

/-- One move of thread `i`, or nothing if it has finished or has to wait.  `lock().expect(..)`
(`crates/bls-snark-sys/src/signatures.rs:442,470`, `crates/bls-snark-sys/src/serialization.rs:50`)
panics if the mutex is poisoned; the guard is dropped when the closure ends, and poisons the mutex if
the thread is panicking (std, external).  A thread that panics makes no further calls (in reality the
panic then reaches the `extern "C"` boundary). -/
def MutexState.move (s : MutexState ε F) (i : ℕ) : Option (MutexState ε F) :=
  match s.threads[i]? with
  | none => none
  | some t =>
    match t.todo with
    | [] => none
    | call :: rest =>
      match t.pc with
      | .start =>
        if s.holder.isSome then none
        else if s.poisoned then
          some { s with threads := s.threads.set i { t with todo := [], out := t.out ++ [.panic] } }
        else some { s with holder := some i, threads := s.threads.set i { t with pc := .entered } }
      | .finish .panic =>
        some { s with
          holder := none
          poisoned := true
          threads := s.threads.set i ⟨[], .start, t.out ++ [.panic]⟩ }
      | .finish o =>
        some { s with
          holder := none
          threads := s.threads.set i ⟨rest, .start, t.out ++ [o]⟩ }
      | pc =>
        let r := call.advance ops deser pc s.cache
        some { s with cache := r.2, threads := s.threads.set i { t with pc := r.1 } }

/-- An execution: the schedule names the thread which gets the next chance to move
(`crates/bls-snark-sys/src/cache.rs:5-6`). -/
def MutexState.exec (s : MutexState ε F) (schedule : List ℕ) : MutexState ε F :=
  schedule.foldl (fun s i => (s.move ops deser i).getD s) s

/-- The number of moves made in an execution (`crates/bls-snark-sys/src/cache.rs:5-6`). -/
def MutexState.moves (s : MutexState ε F) : List ℕ → ℕ
  | [] => 0
  | i :: schedule =>
    match s.move ops deser i with
    | none => moves s schedule
    | some s' => moves s' schedule + 1

end

end Verif
